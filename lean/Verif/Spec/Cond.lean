import Verif.Spec.Apx
import Verif.Mnemonic.Basic
/-!
# Conditions

Written from the Intel SDM (volume 1 appendix B, pages of Jcc, SETcc, CMOVcc, CMPccXADD) and the APX architecture specification (CCMPscc,
CTESTscc, CFCMOVcc), independently of the assembler: what the condition suffixes mean, what the 4-bit codes mean, and where the instructions
carry the code.
-/
namespace Xbyak
namespace X86

/-- The status flags conditions depend on. -/
structure Flags where
  cf : Bool
  zf : Bool
  sf : Bool
  of : Bool
  pf : Bool
  deriving DecidableEq, Repr

/-- The condition selected by a 4-bit code: bits 3-1 select the test, bit 0 negates it. -/
def cond (c : BitVec 4) (f : Flags) : Bool :=
  let t := match (c.extractLsb' 1 3).toNat with
    | 0 => f.of
    | 1 => f.cf
    | 2 => f.zf
    | 3 => f.cf || f.zf
    | 4 => f.sf
    | 5 => f.pf
    | 6 => f.sf != f.of
    | _ => f.zf || (f.sf != f.of)
  t != c.getLsbD 0

/-- The source condition of CCMPscc and CTESTscc: as `cond`, but the parity codes mean always and never. -/
def scond (c : BitVec 4) (f : Flags) : Bool := if c = 0xA then true else if c = 0xB then false else cond c f

/-- The 30 condition suffixes of assembly language and what they test ("jump if above (CF = 0 and ZF = 0)", …). -/
def suffixes : List (Nat × (Flags → Bool)) :=
  [(n!"a", fun f => !f.cf && !f.zf), (n!"ae", fun f => !f.cf), (n!"b", fun f => f.cf), (n!"be", fun f => f.cf || f.zf), (n!"c", fun f => f.cf),
   (n!"e", fun f => f.zf), (n!"g", fun f => !f.zf && f.sf == f.of), (n!"ge", fun f => f.sf == f.of), (n!"l", fun f => f.sf != f.of),
   (n!"le", fun f => f.zf || f.sf != f.of), (n!"na", fun f => f.cf || f.zf), (n!"nae", fun f => f.cf), (n!"nb", fun f => !f.cf),
   (n!"nbe", fun f => !f.cf && !f.zf), (n!"nc", fun f => !f.cf), (n!"ne", fun f => !f.zf), (n!"ng", fun f => f.zf || f.sf != f.of),
   (n!"nge", fun f => f.sf != f.of), (n!"nl", fun f => f.sf == f.of), (n!"nle", fun f => !f.zf && f.sf == f.of), (n!"no", fun f => !f.of),
   (n!"np", fun f => !f.pf), (n!"ns", fun f => !f.sf), (n!"nz", fun f => !f.zf), (n!"o", fun f => f.of), (n!"p", fun f => f.pf),
   (n!"pe", fun f => f.pf), (n!"po", fun f => !f.pf), (n!"s", fun f => f.sf), (n!"z", fun f => f.zf)]

/-- The suffixes of CCMPscc and CTESTscc: no parity, instead true and false. -/
def scSuffixes : List (Nat × (Flags → Bool)) :=
  suffixes.filter (fun x => x.1 ≠ n!"p" && x.1 ≠ n!"np" && x.1 ≠ n!"pe" && x.1 ≠ n!"po") ++ [(n!"t", fun _ => true), (n!"f", fun _ => false)]

/-- Concatenation of names. -/
def cat (p s : Nat) : Nat := p * (if s < 256 then 256 else if s < 65536 then 65536 else 16777216) + s

/-- The flags after comparing `a` with `b` (SDM: CMP, SUB); PF is left open. -/
def cmpFlags {w : Nat} (a b : BitVec w) (pf : Bool) : Flags :=
  { cf := a.ult b, zf := a - b == 0, sf := (a - b).msb
    of := decide (a.toInt - b.toInt < -(2 ^ (w - 1)) ∨ 2 ^ (w - 1) ≤ a.toInt - b.toInt), pf }

/-! ## Instructions with a condition -/

/-- Jcc: 70+cc cb, 0F 80+cc cd.  Result: condition, displacement. -/
def jcc (bs : List Byte) : Option (BitVec 4 × Word × List Byte) :=
  match head bs with
  | none => none
  | some (h, t) =>
    if h.space ≠ .legacy then none
    else if h.map = 0 ∧ h.opcode &&& 0xF0 = 0x70 then (imm 1 t).map fun p => (h.opcode.extractLsb' 0 4, p.1, p.2)
    else if h.map = 1 ∧ h.opcode &&& 0xF0 = 0x80 then (imm 4 t).map fun p => (h.opcode.extractLsb' 0 4, p.1, p.2)
    else none

structure Setcc where
  head : Head
  cc : BitVec 4
  /-- the upper 56 bits of the register are cleared -/
  zu : Bool
  rm : RM
  deriving DecidableEq, Repr

/-- SETcc: 0F 90+cc; APX: map 4, F2, 40+cc with ND = ZU. -/
def setcc (bs : List Byte) : Option (Setcc × List Byte) :=
  match insn false 1 bs with
  | none => none
  | some (⟨h, _, rm⟩, t) =>
    if (h.space = .legacy ∨ h.space = .rex2) ∧ h.map = 1 ∧ h.opcode &&& 0xF0 = 0x90 then some (⟨h, h.opcode.extractLsb' 0 4, false, rm⟩, t)
    else if h.space = .evex ∧ h.map = 4 ∧ h.pp = 3 ∧ h.vreg = 0 ∧ h.nf = false ∧ h.opcode &&& 0xF0 = 0x40 then
      some (⟨h, h.opcode.extractLsb' 0 4, h.nd, rm⟩, t)
    else none

/-- A conditional move. -/
structure Cmov where
  head : Head
  cc : BitVec 4
  bits : Nat
  /-- memory faults are suppressed if the condition is false -/
  cf : Bool
  dst : Src
  /-- value if the condition holds -/
  yes : Src
  /-- value if it does not; `none`: zero, or no write to memory -/
  no : Option Src
  deriving DecidableEq, Repr

/-- CMOVcc: 0F 40+cc; APX, map 4: 40+cc with (ND, NF) = (1, 0) CMOVcc ndd, (0, 0) CFCMOVcc reg, r/m, (0, 1) CFCMOVcc r/m, reg,
(1, 1) CFCMOVcc ndd. -/
def cmov (bs : List Byte) : Option (Cmov × List Byte) :=
  match insn false 1 bs with
  | none => none
  | some (⟨h, reg, rm⟩, t) =>
    let c := h.opcode.extractLsb' 0 4
    let r := Src.gpr (regNum h reg)
    let m := rmSrc h rm
    if h.opcode &&& 0xF0 ≠ 0x40 then none
    else if (h.space = .legacy ∨ h.space = .rex2) ∧ h.map = 1 then some (⟨h, c, opBits h, false, r, m, some r⟩, t)
    else if h.space = .evex ∧ h.map = 4 ∧ (h.pp = 0 ∨ h.pp = 1) then
      if h.nd then some (⟨h, c, apxBits h, h.nf, .gpr h.vreg, m, some r⟩, t)
      else if h.vreg ≠ 0 then none
      else if h.nf then some (⟨h, c, apxBits h, true, m, r, none⟩, t)
      else some (⟨h, c, apxBits h, true, r, m, none⟩, t)
    else none

/-- A conditional comparison. -/
structure Ccmp where
  head : Head
  /-- CTEST rather than CCMP -/
  test : Bool
  sc : BitVec 4
  /-- OF SF ZF CF if the source condition is false -/
  dfv : BitVec 4
  bits : Nat
  src1 : Src
  src2 : Src
  deriving DecidableEq, Repr

/-- CCMPscc: map 4, 38-3B, 80 /7 ib, 81 /7 iz, 83 /7 ib; CTESTscc: 84, 85, F6 /0 ib, F7 /0 iz.  The payload field vvvv holds the default
flags and is not complemented. -/
def ccmp (bs : List Byte) : Option (Ccmp × List Byte) :=
  match insn false 1 bs with
  | none => none
  | some (⟨h, reg, rm⟩, t) =>
    let bits := if h.opcode &&& 1 = 0 then 8 else apxBits h
    let z := if bits = 8 then 1 else if bits = 16 then 2 else 4
    let r := Src.gpr (regNum h reg)
    let m := rmSrc h rm
    let dfv := ~~~(h.vreg.setWidth 4)
    if h.space ≠ .evex ∨ h.map ≠ 4 ∨ h.nd then none
    else if h.opcode &&& 0xFC = 0x38 then
      some (⟨h, false, h.low4, dfv, bits, if h.opcode &&& 2 = 0 then m else r, if h.opcode &&& 2 = 0 then r else m⟩, t)
    else if h.opcode &&& 0xFE = 0x84 then some (⟨h, true, h.low4, dfv, bits, m, r⟩, t)
    else if h.opcode &&& 0xFE = 0x80 ∧ reg = 7 then (imm z t).map fun p => (⟨h, false, h.low4, dfv, bits, m, .imm p.1⟩, p.2)
    else if h.opcode = 0x83 ∧ reg = 7 then (imm 1 t).map fun p => (⟨h, false, h.low4, dfv, bits, m, .imm p.1⟩, p.2)
    else if h.opcode &&& 0xFE = 0xF6 ∧ reg = 0 then (imm z t).map fun p => (⟨h, true, h.low4, dfv, bits, m, .imm p.1⟩, p.2)
    else none

end X86
end Xbyak
