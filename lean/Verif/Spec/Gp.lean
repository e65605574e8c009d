import Verif.Spec.X86Ops
import Verif.Mnemonic.Basic
/-!
# Integer instructions with a ModRM byte

Transcribed from the Intel SDM, volume 2 (instruction pages), and independent of the assembler: opcode, mandatory prefix, opcode map, the
extension in ModRM.reg, and the operands in assembly order with their sizes.  Sizes `v` and `y` are chosen by the prefixes.
-/
namespace Xbyak
namespace X86

/-- Operand sizes: byte, word, doubleword, quadword, 80 bits, 128 bits; `v`: 16, 32 or 64 bits by 66 and REX.W; `y`: 32 or 64 bits by REX.W;
`any`: a memory operand whose size the instruction does not mention. -/
inductive Sz | b | w | d | q | t | x | v | y | any
  deriving DecidableEq, Repr

/-- Operands: general register in ModRM.reg; general register or memory in ModRM.rm; memory; general register in ModRM.rm; bound register in
ModRM.reg; bound register or memory in ModRM.rm; the register CL. -/
inductive GOp | r (s : Sz) | rm (s : Sz) | m (s : Sz) | rr (s : Sz) | bnd | bndm | cl
  deriving DecidableEq, Repr

structure GForm where
  op : Byte
  ops : List GOp
  map : BitVec 5 := 1
  /-- mandatory prefix -/
  pp : Option Byte := none
  ext : Option (BitVec 3) := none
  /-- REX.W, if it does not choose the size of an operand -/
  w : Bool := false
  /-- an immediate byte follows -/
  ib : Bool := false
  deriving DecidableEq, Repr

/-- The number of bits, from prefix 66 and W. -/
def Sz.bits (p66 w : Bool) : Sz → Nat
  | b => 8
  | .w => 16
  | d => 32
  | q => 64
  | t => 80
  | x => 128
  | v => if w then 64 else if p66 then 16 else 32
  | y => if w then 64 else 32
  | any => 0

def GOp.size : GOp → Option Sz
  | r s | rm s | m s | rr s => some s
  | _ => none

/-- 66 chooses the size of an operand. -/
def GForm.has66 (f : GForm) : Bool := f.ops.any fun o => o.size == some .v
/-- REX.W chooses the size of an operand. -/
def GForm.hasW (f : GForm) : Bool := f.ops.any fun o => o.size == some .v || o.size == some .y

/-- Prefixes and W are those of the form. -/
def GForm.prefixes (f : GForm) (p66 pF2 pF3 w : Bool) : Bool :=
  pF2 == (f.pp == some 0xF2) && pF3 == (f.pp == some 0xF3) && (if f.pp == some 0x66 then p66 else f.has66 || !p66) && (f.hasW || w == f.w)

/-- The head and the ModRM.reg field are those of the form. -/
structure GForm.Is (f : GForm) (h : Head) (reg : BitVec 3) : Prop where
  space : h.space = .legacy ∨ h.space = .rex2
  map : h.map = f.map
  op : h.opcode = f.op
  pre : f.prefixes h.p66 h.pF2 h.pF3 h.w = true
  ext : ∀ x, f.ext = some x → reg = x

namespace Gp
open GOp Sz

/-- ADD, OR, ADC, SBB, AND, SUB, XOR, CMP -/
def alu (n : Byte) : List GForm :=
  [{ map := 0, op := 8 * n, ops := [rm b, r b] }, { map := 0, op := 8 * n + 1, ops := [rm v, r v] },
   { map := 0, op := 8 * n + 2, ops := [r b, rm b] }, { map := 0, op := 8 * n + 3, ops := [r v, rm v] }]

/-- a general register and a register or memory operand of the same size -/
def rv (op : Byte) (pp : Option Byte := none) : List GForm := [{ op, pp, ops := [r v, rm v] }]
/-- BT and the like -/
def bits (op : Byte) (ext : BitVec 3) : List GForm := [{ op, ops := [rm v, r v] }, { op := 0xBA, ext := some ext, ops := [rm v], ib := true }]
/-- memory only -/
def mem (op : Byte) (ext : BitVec 3) (s : Sz := .any) (pp : Option Byte := none) (w : Bool := false) : List GForm :=
  [{ op, ext := some ext, ops := [m s], pp, w }]
/-- AADD and the like -/
def rao (pp : Option Byte) : List GForm := [{ map := 2, op := 0xFC, pp, ops := [m y, r y] }]
/-- x87 instructions with a memory operand -/
def fmem (op : Byte) (ext : BitVec 3) (s : Sz := .any) : List GForm := [{ map := 0, op, ext := some ext, ops := [m s] }]
def segBase (ext : BitVec 3) : List GForm := [{ pp := some 0xF3, op := 0xAE, ext := some ext, ops := [rr y] }]
def rnd (ext : BitVec 3) : List GForm := [{ op := 0xC7, ext := some ext, ops := [rr v] }]

/-- SHLD, SHRD -/
def shd (op : Byte) : List GForm := [{ op, ops := [rm v, r v], ib := true }, { op := op + 1, ops := [rm v, r v, cl] }]

end Gp

open Gp GOp Sz in
/-- The forms of each mnemonic (`and_`, `or_` and `xor_` are the assembler's names for AND, OR and XOR). -/
def gforms : List (Nat × List GForm) :=
  [(n!"add", alu 0), (n!"or", alu 1), (n!"or_", alu 1), (n!"adc", alu 2), (n!"sbb", alu 3), (n!"and", alu 4), (n!"and_", alu 4), (n!"sub", alu 5),
   (n!"xor", alu 6), (n!"xor_", alu 6), (n!"cmp", alu 7),
   (n!"aadd", rao none), (n!"aand", rao (some 0x66)), (n!"aor", rao (some 0xF2)), (n!"axor", rao (some 0xF3)),
   (n!"adcx", [{ map := 2, op := 0xF6, pp := some 0x66, ops := [r y, rm y] }]), (n!"adox", [{ map := 2, op := 0xF6, pp := some 0xF3, ops := [r y, rm y] }]),
   (n!"bndcl", [{ op := 0x1A, pp := some 0xF3, ops := [bnd, rm q] }]), (n!"bndcu", [{ op := 0x1A, pp := some 0xF2, ops := [bnd, rm q] }]),
   (n!"bndcn", [{ op := 0x1B, pp := some 0xF2, ops := [bnd, rm q] }]), (n!"bndmk", [{ op := 0x1B, pp := some 0xF3, ops := [bnd, m any] }]),
   (n!"bndmov", [{ op := 0x1A, pp := some 0x66, ops := [bnd, bndm] }, { op := 0x1B, pp := some 0x66, ops := [bndm, bnd] }]),
   (n!"bsf", rv 0xBC), (n!"bsr", rv 0xBD), (n!"bt", bits 0xA3 4), (n!"bts", bits 0xAB 5), (n!"btr", bits 0xB3 6), (n!"btc", bits 0xBB 7),
   (n!"cldemote", mem 0x1C 0), (n!"clflush", mem 0xAE 7), (n!"clflushopt", mem 0xAE 7 (pp := some 0x66)), (n!"clwb", mem 0xAE 6 (pp := some 0x66)),
   (n!"cmpxchg", [{ op := 0xB0, ops := [rm b, r b] }, { op := 0xB1, ops := [rm v, r v] }]), (n!"cmpxchg8b", mem 0xC7 1 q), (n!"cmpxchg16b", mem 0xC7 1 x (w := true)),
   (n!"crc32", [{ map := 2, op := 0xF0, pp := some 0xF2, ops := [r y, rm b] }, { map := 2, op := 0xF1, pp := some 0xF2, ops := [r y, rm v] }]),
   (n!"fxrstor", mem 0xAE 1), (n!"fxrstor64", mem 0xAE 1 (w := true)), (n!"imul", rv 0xAF), (n!"ldmxcsr", mem 0xAE 2 d), (n!"stmxcsr", mem 0xAE 3 d),
   (n!"fbld", fmem 0xDF 4 t), (n!"fbstp", fmem 0xDF 6 t), (n!"fldcw", fmem 0xD9 5 w), (n!"fldenv", fmem 0xD9 4), (n!"fnsave", fmem 0xDD 6),
   (n!"fnstcw", fmem 0xD9 7 w), (n!"fnstenv", fmem 0xD9 6), (n!"fnstsw", fmem 0xDD 7 w), (n!"frstor", fmem 0xDD 4),
   (n!"lea", [{ map := 0, op := 0x8D, ops := [r v, m any] }]),
   (n!"lzcnt", rv 0xBD (some 0xF3)), (n!"tzcnt", rv 0xBC (some 0xF3)), (n!"popcnt", rv 0xB8 (some 0xF3)),
   (n!"movbe", [{ map := 2, op := 0xF0, ops := [r v, m v] }, { map := 2, op := 0xF1, ops := [m v, r v] }]),
   (n!"movdiri", [{ map := 2, op := 0xF9, ops := [m y, r y] }]), (n!"movnti", [{ op := 0xC3, ops := [m y, r y] }]),
   (n!"movsx", [{ op := 0xBE, ops := [r v, rm b] }, { op := 0xBF, ops := [r v, rm w] }]),
   (n!"movzx", [{ op := 0xB6, ops := [r v, rm b] }, { op := 0xB7, ops := [r v, rm w] }]),
   (n!"movsxd", [{ map := 0, op := 0x63, ops := [r q, rm d], w := true }]),
   (n!"prefetchnta", mem 0x18 0), (n!"prefetcht0", mem 0x18 1), (n!"prefetcht1", mem 0x18 2), (n!"prefetcht2", mem 0x18 3), (n!"prefetchit1", mem 0x18 6),
   (n!"prefetchit0", mem 0x18 7), (n!"prefetchw", mem 0x0D 1), (n!"prefetchwt1", mem 0x0D 2),
   (n!"rdfsbase", segBase 0), (n!"rdgsbase", segBase 1), (n!"wrfsbase", segBase 2), (n!"wrgsbase", segBase 3), (n!"rdrand", rnd 6), (n!"rdseed", rnd 7),
   (n!"shld", shd 0xA4), (n!"shrd", shd 0xAC), (n!"xadd", [{ op := 0xC0, ops := [rm b, r b] }, { op := 0xC1, ops := [rm v, r v] }])]

def gformsOf (name : Nat) : List GForm := (gforms.filter fun p => Nat.beq p.1 name).flatMap (·.2)

end X86
end Xbyak
