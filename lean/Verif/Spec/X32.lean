import Verif.Basic
/-!
# Reading instructions in 32-bit protected mode

Written from the opcode map of the Intel SDM (volume 2, appendix A) for CS.D = 1 without REX, VEX and EVEX, independently of the model of xbyak: the integer instructions that
`Verif/X32.lean` writes.  Only the operand size prefix 66 is read.
-/
namespace X32
open Xbyak (Byte)

/-- A memory operand; registers are eax, ecx, edx, ebx, esp, ebp, esi, edi. -/
structure Mem where
  base : Option (BitVec 3)
  index : Option (BitVec 3 × Nat)
  disp : BitVec 32
  deriving DecidableEq, Repr

/-- Its address, given the register contents. -/
def Mem.ea (m : Mem) (g : BitVec 3 → BitVec 32) : BitVec 32 :=
  (m.base.map g).getD 0 + (m.index.map fun p => g p.1 * BitVec.ofNat 32 p.2).getD 0 + m.disp

/-- With 8-bit operands registers 4 to 7 are ah, ch, dh, bh. -/
inductive Arg | reg (n : BitVec 3) | mem (m : Mem) | imm (v : BitVec 32) | cl
  deriving DecidableEq, Repr

inductive Op
  /-- add, or, adc, sbb, and, sub, xor, cmp -/
  | alu (n : BitVec 3)
  /-- rol, ror, rcl, rcr, shl, shr, (shl), sar -/
  | shift (n : BitVec 3)
  /-- test, (test), not, neg, mul, imul, div, idiv -/
  | group3 (n : BitVec 3)
  | test | mov | xchg | inc | dec | push | pop | lea | jmp | jmpFar | call | callFar | lds | les
  /-- source size -/
  | movzx (n : Nat) | movsx (n : Nat)
  | aaa | aad | aam | aas | daa | das | into | pusha | popa | pushf | popf
  deriving DecidableEq, Repr

structure Insn where
  op : Op
  /-- operand size -/
  bits : Nat
  /-- destination first -/
  args : List Arg
  deriving DecidableEq, Repr

/-- A little-endian 32-bit number. -/
def imm32 : List Byte → Option (BitVec 32 × List Byte)
  | a :: b :: c :: d :: t => some (a.setWidth 32 ||| b.setWidth 32 <<< 8 ||| c.setWidth 32 <<< 16 ||| d.setWidth 32 <<< 24, t)
  | _ => none
def imm16 : List Byte → Option (BitVec 32 × List Byte)
  | a :: b :: t => some (a.setWidth 32 ||| b.setWidth 32 <<< 8, t)
  | _ => none
/-- A sign-extended byte. -/
def imm8 : List Byte → Option (BitVec 32 × List Byte)
  | a :: t => some (a.signExtend 32, t)
  | _ => none
/-- An immediate of the operand size. -/
def immZ (bits : Nat) (l : List Byte) : Option (BitVec 32 × List Byte) :=
  if bits = 8 then imm8 l else if bits = 16 then imm16 l else imm32 l

/-- The displacement for `mod`; with `mod = 0` only the forms without a base register have one. -/
def displacement (mod : BitVec 2) (noBase : Bool) (l : List Byte) : Option (BitVec 32 × List Byte) :=
  if mod = 1 then imm8 l else if mod = 2 then imm32 l else if noBase then imm32 l else some (0, l)

/-- ModRM, SIB and displacement: the reg field and the operand. -/
def modrm : List Byte → Option (BitVec 3 × Arg × List Byte)
  | [] => none
  | b :: t =>
    let mod := b.extractLsb' 6 2
    let r := b.extractLsb' 3 3
    let rm := b.extractLsb' 0 3
    if mod = 3 then some (r, .reg rm, t)
    else if rm = 4 then
      match t with
      | [] => none
      | s :: t =>
        let noBase := mod = 0 ∧ s.extractLsb' 0 3 = 5
        let x := s.extractLsb' 3 3
        (displacement mod noBase t).map fun p =>
          (r, .mem ⟨if noBase then none else some (s.extractLsb' 0 3), if x = 4 then none else some (x, 2 ^ (s.extractLsb' 6 2).toNat), p.1⟩, p.2)
    else
      let noBase := mod = 0 ∧ rm = 5
      (displacement mod noBase t).map fun p => (r, .mem ⟨if noBase then none else some rm, none, p.1⟩, p.2)

/-- How the bytes after the opcode are read.  `w` is the lowest bit of the opcode: byte or full operands. -/
inductive Form
  | rmR (o : Op) (w : Bool) | rRm (o : Op) (w : Bool)
  | accI (o : Op) (w : Bool)
  /-- register in the opcode -/
  | plus (o : Op) (n : BitVec 3) | accPlus (n : BitVec 3) | plusI (n : BitVec 3) (w : Bool)
  /-- r/m and immediate; the reg field selects the operation -/
  | group1 (w sx : Bool) | shiftI (w : Bool) | shift1 (w : Bool) | shiftCl (w : Bool) | group3 (w : Bool) | group4 | group5 | group1A | group11 (w : Bool)
  | pushI (sx : Bool) | load (w : Bool) | store (w : Bool)
  /-- register and a memory operand -/
  | rM (o : Op)
  | bare (o : Op) | ten (o : Op) | esc
  | ext (o : Op)
  deriving DecidableEq, Repr

/-- The one-byte opcode map. -/
def form (b : Byte) : Option Form :=
  let w := b.getLsbD 0
  let lo := b.extractLsb' 0 3
  let mid := b.extractLsb' 3 3
  if b = 0x27 then some (.bare .daa) else if b = 0x2F then some (.bare .das)
  else if b = 0x37 then some (.bare .aaa) else if b = 0x3F then some (.bare .aas)
  else if b = 0x0F then some .esc
  else if b.toNat < 0x40 then
    if lo.toNat < 2 then some (.rmR (.alu mid) w) else if lo.toNat < 4 then some (.rRm (.alu mid) w)
    else if lo.toNat < 6 then some (.accI (.alu mid) w) else none
  else if b.toNat < 0x48 then some (.plus .inc lo)
  else if b.toNat < 0x50 then some (.plus .dec lo)
  else if b.toNat < 0x58 then some (.plus .push lo)
  else if b.toNat < 0x60 then some (.plus .pop lo)
  else if b = 0x60 then some (.bare .pusha) else if b = 0x61 then some (.bare .popa)
  else if b = 0x68 then some (.pushI false) else if b = 0x6A then some (.pushI true)
  else if b = 0x80 then some (.group1 false false) else if b = 0x81 then some (.group1 true false) else if b = 0x83 then some (.group1 true true)
  else if b = 0x84 ∨ b = 0x85 then some (.rmR .test w) else if b = 0x86 ∨ b = 0x87 then some (.rmR .xchg w)
  else if b = 0x88 ∨ b = 0x89 then some (.rmR .mov w) else if b = 0x8A ∨ b = 0x8B then some (.rRm .mov w)
  else if b = 0x8D then some (.rM .lea) else if b = 0x8F then some .group1A
  else if b.extractLsb' 3 5 = 0x12 then some (.accPlus lo)
  else if b = 0x9C then some (.bare .pushf) else if b = 0x9D then some (.bare .popf)
  else if b = 0xA0 ∨ b = 0xA1 then some (.load w) else if b = 0xA2 ∨ b = 0xA3 then some (.store w)
  else if b = 0xA8 ∨ b = 0xA9 then some (.accI .test w)
  else if b.extractLsb' 4 4 = 0xB then some (.plusI lo (b.getLsbD 3))
  else if b = 0xC0 ∨ b = 0xC1 then some (.shiftI w)
  else if b = 0xC4 then some (.rM .les) else if b = 0xC5 then some (.rM .lds)
  else if b = 0xC6 ∨ b = 0xC7 then some (.group11 w)
  else if b = 0xCE then some (.bare .into)
  else if b = 0xD0 ∨ b = 0xD1 then some (.shift1 w) else if b = 0xD2 ∨ b = 0xD3 then some (.shiftCl w)
  else if b = 0xD4 then some (.ten .aam) else if b = 0xD5 then some (.ten .aad)
  else if b = 0xF6 ∨ b = 0xF7 then some (.group3 w)
  else if b = 0xFE then some .group4 else if b = 0xFF then some .group5
  else none

/-- The opcodes after 0F. -/
def form2 (b : Byte) : Option Form :=
  if b = 0xB6 then some (.ext (.movzx 8)) else if b = 0xB7 then some (.ext (.movzx 16))
  else if b = 0xBE then some (.ext (.movsx 8)) else if b = 0xBF then some (.ext (.movsx 16)) else none

/-- `z` is the operand size without the choice of byte operands. -/
def size (z : Nat) (w : Bool) : Nat := if w then z else 8

def Arg.isMem : Arg → Bool
  | .mem _ => true
  | _ => false

/-- Group 5; the far forms need a memory operand. -/
def op5 (r : BitVec 3) (x : Arg) : Option Op :=
  if r = 0 then some .inc else if r = 1 then some .dec else if r = 2 then some .call else if r = 3 ∧ x.isMem = true then some .callFar
  else if r = 4 then some .jmp else if r = 5 ∧ x.isMem = true then some .jmpFar else if r = 6 then some .push else none

/-- The bytes after an opcode of a given form. -/
def operands (f : Form) (z : Nat) (l : List Byte) : Option (Insn × List Byte) :=
  match f with
  | .rmR o w => (modrm l).map fun p => (⟨o, size z w, [p.2.1, .reg p.1]⟩, p.2.2)
  | .rRm o w => (modrm l).map fun p => (⟨o, size z w, [.reg p.1, p.2.1]⟩, p.2.2)
  | .accI o w => (immZ (size z w) l).map fun p => (⟨o, size z w, [.reg 0, .imm p.1]⟩, p.2)
  | .plus o n => some (⟨o, z, [.reg n]⟩, l)
  | .accPlus n => some (⟨.xchg, z, [.reg 0, .reg n]⟩, l)
  | .plusI n w => (immZ (size z w) l).map fun p => (⟨.mov, size z w, [.reg n, .imm p.1]⟩, p.2)
  | .group1 w sx => (modrm l).bind fun p => ((if sx then imm8 else immZ (size z w)) p.2.2).map fun q => (⟨.alu p.1, size z w, [p.2.1, .imm q.1]⟩, q.2)
  | .shiftI w => (modrm l).bind fun p => (imm8 p.2.2).map fun q => (⟨.shift p.1, size z w, [p.2.1, .imm q.1]⟩, q.2)
  | .shift1 w => (modrm l).map fun p => (⟨.shift p.1, size z w, [p.2.1, .imm 1]⟩, p.2.2)
  | .shiftCl w => (modrm l).map fun p => (⟨.shift p.1, size z w, [p.2.1, .cl]⟩, p.2.2)
  | .group3 w => (modrm l).bind fun p =>
      if p.1 = 0 then (immZ (size z w) p.2.2).map fun q => (⟨.test, size z w, [p.2.1, .imm q.1]⟩, q.2)
      else if p.1 = 1 then none else some (⟨.group3 p.1, size z w, [p.2.1]⟩, p.2.2)
  | .group4 => (modrm l).bind fun p => if p.1 = 0 then some (⟨.inc, 8, [p.2.1]⟩, p.2.2) else if p.1 = 1 then some (⟨.dec, 8, [p.2.1]⟩, p.2.2) else none
  | .group5 => (modrm l).bind fun p => (op5 p.1 p.2.1).map fun o => (⟨o, z, [p.2.1]⟩, p.2.2)
  | .group1A => (modrm l).bind fun p => if p.1 = 0 then some (⟨.pop, z, [p.2.1]⟩, p.2.2) else none
  | .group11 w => (modrm l).bind fun p => if p.1 = 0 then (immZ (size z w) p.2.2).map fun q => (⟨.mov, size z w, [p.2.1, .imm q.1]⟩, q.2) else none
  | .pushI sx => ((if sx then imm8 else immZ z) l).map fun p => (⟨.push, z, [.imm p.1]⟩, p.2)
  | .load w => (imm32 l).map fun p => (⟨.mov, size z w, [.reg 0, .mem ⟨none, none, p.1⟩]⟩, p.2)
  | .store w => (imm32 l).map fun p => (⟨.mov, size z w, [.mem ⟨none, none, p.1⟩, .reg 0]⟩, p.2)
  | .rM o => (modrm l).bind fun p => match p.2.1 with | .mem m => some (⟨o, z, [.reg p.1, .mem m]⟩, p.2.2) | _ => none
  | .bare o => some (⟨o, z, []⟩, l)
  | .ten o => (imm8 l).map fun p => (⟨o, z, [.imm p.1]⟩, p.2)
  | .ext o => (modrm l).map fun p => (⟨o, z, [.reg p.1, p.2.1]⟩, p.2.2)
  | .esc => none

/-- An opcode and what follows, with operand size `z`. -/
def opcode (z : Nat) : List Byte → Option (Insn × List Byte)
  | [] => none
  | b :: t =>
    match form b with
    | some .esc => (match t with | [] => none | c :: t => (form2 c).bind fun f => operands f z t)
    | some f => operands f z t
    | none => none

/-- One instruction and the bytes after it. -/
def decode : List Byte → Option (Insn × List Byte)
  | 0x66 :: t => opcode 16 t
  | t => opcode 32 t

end X32
