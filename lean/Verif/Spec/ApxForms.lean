import Verif.Spec.Gp
/-!
# Extended EVEX forms of integer instructions

Transcribed from the Intel APX architecture specification (instruction pages), independently of the assembler: opcode map, embedded prefix,
opcode, the extension in ModRM.reg, W, ND, whether NF may be set, and the operands in assembly order with their sizes.  Conditional
instructions (SETcc, CMOVcc, CFCMOVcc, CCMPcc, CTESTcc), shifts and one-operand arithmetic are in `Spec/Cond` and `Spec/Group`.
-/
namespace Xbyak
namespace X86

/-- Operands: general register in ModRM.reg; general register or memory in ModRM.rm; memory; general register in ModRM.rm; general register in
EVEX.vvvv; vector register in ModRM.reg; vector register or memory in ModRM.rm; tile register in ModRM.reg; opmask register in ModRM.reg; opmask
register in ModRM.rm; the register CL. -/
inductive AOp | r (s : Sz) | rm (s : Sz) | m (s : Sz) | rr (s : Sz) | v (s : Sz) | x | xm | t | k | krm | cl
  deriving DecidableEq, Repr

/-- Immediates: none, a byte, a word or doubleword by operand size. -/
inductive AImm | no | ib | iz
  deriving DecidableEq, Repr

structure AForm where
  op : Byte
  ops : List AOp
  map : BitVec 5 := 4
  /-- embedded prefix; `none`: 66 for an operand size of 16 bits -/
  pp : Option (BitVec 2) := some 0
  ext : Option (BitVec 3) := none
  nd : Bool := false
  /-- NF may be set -/
  nf : Bool := false
  /-- W, if it does not choose the size of an operand -/
  w : Bool := false
  imm : AImm := .no
  deriving DecidableEq, Repr

def AOp.size : AOp → Option Sz
  | r s | rm s | m s | rr s | v s => some s
  | _ => none

/-- W chooses the size of an operand. -/
def AForm.hasW (f : AForm) : Bool := f.ops.any fun o => o.size == some .v || o.size == some .y

/-- Embedded prefix and W are those of the form. -/
def AForm.prefixes (f : AForm) (pp : BitVec 2) (w : Bool) : Bool :=
  (match f.pp with | some p => pp == p | none => pp == 0 || pp == 1) && (f.hasW || w == f.w)

/-- Number of immediate bytes, from embedded prefix and W. -/
def AImm.bytes (p66 w : Bool) : AImm → Nat
  | no => 0
  | ib => 1
  | iz => if !w && p66 then 2 else 4

/-- The head and the ModRM.reg field are those of the form. -/
structure AForm.Is (f : AForm) (h : Head) (reg : BitVec 3) : Prop where
  space : h.space = .evex
  map : h.map = f.map
  op : h.opcode = f.op
  pre : f.prefixes h.pp h.w = true
  ext : ∀ x, f.ext = some x → reg = x
  nd : h.nd = f.nd
  nf : h.nf = true → f.nf = true
  len : h.L = 0
  zero : h.z = false
  /-- no prefixes in front -/
  legacy : h.p66 = false ∧ h.pF2 = false ∧ h.pF3 = false ∧ h.seg = none
  /-- EVEX.vvvv is not used for anything else -/
  vreg : (∀ s, AOp.v s ∉ f.ops) → h.vreg = 0

/-- The operand can be given as this one, when the size `v` is `n` and the size `y` is 64 if `n` is and otherwise 32. -/
def AOp.takes (n : Nat) (o : AOp) (mem : Bool) (gpr vec tile opm : Bool) (bit : Nat) : Bool :=
  let fits := fun s : Sz => s == .any || Nat.beq bit (s.bits (Nat.beq n 16) (Nat.beq n 64))
  match o with
  | r s | rr s | v s => !mem && gpr && fits s
  | rm s => if mem then Nat.beq bit 0 || fits s else gpr && fits s
  | m s => mem && (Nat.beq bit 0 || fits s)
  | x => !mem && vec
  | xm => if mem then Nat.beq bit 0 || Nat.beq bit 128 else vec
  | t => !mem && tile
  | k | krm => !mem && opm
  | cl => !mem && gpr && Nat.beq bit 8

namespace Apx
open AOp Sz

/-- Size `v`: the prefix is chosen by the size. -/
abbrev V : Option (BitVec 2) := none

/-- ADD, OR, ADC, SBB, AND, SUB, XOR with a new data destination -/
def alu (n : Byte) (nf : Bool) : List AForm :=
  [{ op := 8 * n, nd := true, nf, ops := [v b, rm b, r b] }, { op := 8 * n + 1, pp := V, nd := true, nf, ops := [v .v, rm .v, r .v] },
   { op := 8 * n + 2, nd := true, nf, ops := [v b, r b, rm b] }, { op := 8 * n + 3, pp := V, nd := true, nf, ops := [v .v, r .v, rm .v] },
   { op := 0x80, ext := some (n.setWidth 3), nd := true, nf, ops := [v b, rm b], imm := .ib },
   { op := 0x81, pp := V, ext := some (n.setWidth 3), nd := true, nf, ops := [v .v, rm .v], imm := .iz },
   { op := 0x83, pp := V, ext := some (n.setWidth 3), nd := true, nf, ops := [v .v, rm .v], imm := .ib }]

/-- NEG, NOT with a new data destination -/
def un (ext : BitVec 3) (nf : Bool) : List AForm :=
  [{ op := 0xF6, ext := some ext, nd := true, nf, ops := [v b, rm b] }, { op := 0xF7, pp := V, ext := some ext, nd := true, nf, ops := [v .v, rm .v] }]
/-- ADCX, ADOX -/
def adx (pp : BitVec 2) : List AForm :=
  [{ op := 0x66, pp := some pp, ops := [r y, rm y] }, { op := 0x66, pp := some pp, nd := true, ops := [v y, r y, rm y] }]
/-- SHLD, SHRD: with an immediate, with CL -/
def shd (op opCL : Byte) : List AForm :=
  [{ op, pp := V, nf := true, ops := [rm .v, r .v], imm := .ib }, { op, pp := V, nd := true, nf := true, ops := [v .v, rm .v, r .v], imm := .ib },
   { op := opCL, pp := V, nf := true, ops := [rm .v, r .v, cl] }, { op := opCL, pp := V, nd := true, nf := true, ops := [v .v, rm .v, r .v, cl] }]
/-- LZCNT, TZCNT -/
def cnt (op : Byte) : List AForm := [{ op, pp := V, nf := true, ops := [r .v, rm .v] }]
/-- AADD and the like -/
def rao (pp : BitVec 2) : List AForm := [{ op := 0xFC, pp := some pp, ops := [m y, r y] }]
/-- BMI1, BMI2: destination in ModRM.reg, first source in EVEX.vvvv -/
def rvm (op : Byte) (pp : BitVec 2 := 0) (nf : Bool := false) : List AForm := [{ op, map := 2, pp := some pp, nf, ops := [r y, v y, rm y] }]
/-- BMI1, BMI2: destination in ModRM.reg, second source in EVEX.vvvv -/
def rmv (op : Byte) (pp : BitVec 2 := 0) (nf : Bool := false) : List AForm := [{ op, map := 2, pp := some pp, nf, ops := [r y, rm y, v y] }]
/-- BLSI, BLSMSK, BLSR: destination in EVEX.vvvv -/
def bls (ext : BitVec 3) : List AForm := [{ op := 0xF3, map := 2, ext := some ext, nf := true, ops := [v y, rm y] }]
/-- CMPccXADD -/
def xadd (op : Byte) : List AForm := [{ op, map := 2, pp := some 1, ops := [m y, r y, v y] }]
/-- SHA -/
def sha (op : Byte) (imm : AImm := .no) : List AForm := [{ op, ops := [x, xm], imm }]
/-- Key Locker -/
def kl (op : Byte) : List AForm := [{ op, pp := some 2, ops := [x, m any] }]
def wide (ext : BitVec 3) : List AForm := [{ op := 0xD8, pp := some 2, ext := some ext, ops := [m any] }]
/-- PUSH2, POP2 -/
def two (op : Byte) (ext : BitVec 3) (w : Bool) : List AForm := [{ op, ext := some ext, nd := true, w, ops := [v q, rr q] }]
/-- KMOV: prefix and W of the memory forms, prefix and W of the register forms, sizes -/
def kmov (ppm : BitVec 2) (wm : Bool) (ppr : BitVec 2) (wr : Bool) (sm sr : Sz) : List AForm :=
  [{ map := 1, op := 0x90, pp := some ppm, w := wm, ops := [k, m sm] }, { map := 1, op := 0x91, pp := some ppm, w := wm, ops := [m sm, k] },
   { map := 1, op := 0x92, pp := some ppr, w := wr, ops := [k, rr sr] }, { map := 1, op := 0x93, pp := some ppr, w := wr, ops := [r sr, krm] }]

end Apx

open Apx AOp Sz in
/-- The forms of each mnemonic (`and_`, `or_`, `xor_` and `not_` are the assembler's names for AND, OR, XOR and NOT). -/
def aforms : List (Nat × List AForm) :=
  [(n!"add", alu 0 true), (n!"or_", alu 1 true), (n!"adc", alu 2 false), (n!"sbb", alu 3 false), (n!"and_", alu 4 true),
   (n!"sub", alu 5 true), (n!"xor_", alu 6 true), (n!"neg", un 3 true), (n!"not_", un 2 false), (n!"adcx", adx 1), (n!"adox", adx 2),
   (n!"imul", [{ op := 0xAF, pp := V, nf := true, ops := [r .v, rm .v] }, { op := 0xAF, pp := V, nd := true, nf := true, ops := [v .v, r .v, rm .v] }]),
   (n!"shld", shd 0x24 0xA5), (n!"shrd", shd 0x2C 0xAD), (n!"lzcnt", cnt 0xF5), (n!"tzcnt", cnt 0xF4),
   (n!"crc32", [{ op := 0xF0, ops := [r y, rm b] }, { op := 0xF1, pp := V, ops := [r y, rm .v] }]),
   (n!"movbe", [{ op := 0x60, pp := V, ops := [r .v, m .v] }, { op := 0x61, pp := V, ops := [m .v, r .v] }]), (n!"movdiri", [{ op := 0xF9, ops := [m y, r y] }]),
   (n!"aadd", rao 0), (n!"aand", rao 1), (n!"aor", rao 3), (n!"axor", rao 2),
   (n!"andn", rvm 0xF2 (nf := true)), (n!"bextr", rmv 0xF7 (nf := true)), (n!"bzhi", rmv 0xF5 (nf := true)), (n!"blsr", bls 1), (n!"blsmsk", bls 2), (n!"blsi", bls 3),
   (n!"mulx", rvm 0xF6 3), (n!"pdep", rvm 0xF5 3), (n!"pext", rvm 0xF5 2), (n!"sarx", rmv 0xF7 2), (n!"shlx", rmv 0xF7 1), (n!"shrx", rmv 0xF7 3),
   (n!"rorx", [{ op := 0xF0, map := 3, pp := some 3, ops := [r y, rm y], imm := .ib }]),
   (n!"cmpoxadd", xadd 0xE0), (n!"cmpnoxadd", xadd 0xE1), (n!"cmpbxadd", xadd 0xE2), (n!"cmpnbxadd", xadd 0xE3), (n!"cmpzxadd", xadd 0xE4), (n!"cmpnzxadd", xadd 0xE5),
   (n!"cmpbexadd", xadd 0xE6), (n!"cmpnbexadd", xadd 0xE7), (n!"cmpsxadd", xadd 0xE8), (n!"cmpnsxadd", xadd 0xE9), (n!"cmppxadd", xadd 0xEA), (n!"cmpnpxadd", xadd 0xEB),
   (n!"cmplxadd", xadd 0xEC), (n!"cmpnlxadd", xadd 0xED), (n!"cmplexadd", xadd 0xEE), (n!"cmpnlexadd", xadd 0xEF),
   (n!"sha1rnds4", sha 0xD4 .ib), (n!"sha1nexte", sha 0xD8), (n!"sha1msg1", sha 0xD9), (n!"sha1msg2", sha 0xDA), (n!"sha256rnds2", sha 0xDB), (n!"sha256msg1", sha 0xDC),
   (n!"sha256msg2", sha 0xDD), (n!"aesenc128kl", kl 0xDC), (n!"aesdec128kl", kl 0xDD), (n!"aesenc256kl", kl 0xDE), (n!"aesdec256kl", kl 0xDF),
   (n!"aesencwide128kl", wide 0), (n!"aesdecwide128kl", wide 1), (n!"aesencwide256kl", wide 2), (n!"aesdecwide256kl", wide 3),
   (n!"encodekey128", [{ op := 0xDA, pp := some 2, ops := [r d, rr d] }]), (n!"encodekey256", [{ op := 0xDB, pp := some 2, ops := [r d, rr d] }]),
   (n!"push2", two 0xFF 6 false), (n!"push2p", two 0xFF 6 true), (n!"pop2", two 0x8F 0 false), (n!"pop2p", two 0x8F 0 true),
   (n!"ldtilecfg", [{ op := 0x49, map := 2, ext := some 0, ops := [m any] }]), (n!"sttilecfg", [{ op := 0x49, map := 2, pp := some 1, ext := some 0, ops := [m any] }]),
   (n!"tilestored", [{ op := 0x4B, map := 2, pp := some 2, ops := [m any, t] }]),
   (n!"kmovb", kmov 1 false 1 false b d), (n!"kmovw", kmov 0 false 0 false w d), (n!"kmovd", kmov 1 true 3 false d d), (n!"kmovq", kmov 0 true 3 true q q)]

def aformsOf (name : Nat) : List AForm := (aforms.filter fun p => Nat.beq p.1 name).flatMap (·.2)

end X86
end Xbyak
