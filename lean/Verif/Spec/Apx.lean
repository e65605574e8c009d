import Verif.Spec.X86Ops
/-!
# Some APX instructions

Written from the Intel APX architecture specification (extended EVEX, map 4), independently of the assembler.
-/
namespace Xbyak
namespace X86

/-- Operand size of a promoted (map 4) instruction: W selects 64 bits, the embedded 66 prefix 16 bits. -/
def apxBits (h : Head) : Nat := if h.w then 64 else if h.pp = 1 then 16 else 32

/-- A source operand. -/
inductive Src
  | gpr (n : BitVec 5)
  | mem (m : Mem)
  | imm (v : Word)
  deriving DecidableEq, Repr

def rmSrc (h : Head) : RM → Src
  | .reg lo => .gpr (rmGpr h lo)
  | .mem m => .mem m

/-- An instruction with a new data destination. -/
structure Ndd where
  head : Head
  /-- operation number within the group -/
  op : BitVec 3
  bits : Nat
  nd : Bool
  nf : Bool
  dst : BitVec 5
  src1 : Src
  src2 : Src
  deriving DecidableEq, Repr

/-- ADD, OR, ADC, SBB, AND, SUB, XOR in map 4: 00+8n to 03+8n, 80 /n ib, 81 /n iz, 83 /n ib.  Bit 1 of the opcode of the first group
exchanges the sources. -/
def apxAlu (bs : List Byte) : Option (Ndd × List Byte) :=
  match insn false 1 bs with
  | none => none
  | some (⟨h, reg, rm⟩, t) =>
    if h.space ≠ .evex ∨ h.map ≠ 4 then none
    else if h.opcode &&& 0xC4 = 0 then
      let bits := if h.opcode &&& 1 = 0 then 8 else apxBits h
      let r := Src.gpr (regNum h reg)
      let m := rmSrc h rm
      some (⟨h, h.opcode.extractLsb' 3 3, bits, h.nd, h.nf, h.vreg, if h.opcode &&& 2 = 0 then m else r, if h.opcode &&& 2 = 0 then r else m⟩, t)
    else if h.opcode = 0x80 then (imm 1 t).map fun p => (⟨h, reg, 8, h.nd, h.nf, h.vreg, rmSrc h rm, .imm p.1⟩, p.2)
    else if h.opcode = 0x81 then
      (imm (if apxBits h = 16 then 2 else 4) t).map fun p => (⟨h, reg, apxBits h, h.nd, h.nf, h.vreg, rmSrc h rm, .imm p.1⟩, p.2)
    else if h.opcode = 0x83 then (imm 1 t).map fun p => (⟨h, reg, apxBits h, h.nd, h.nf, h.vreg, rmSrc h rm, .imm p.1⟩, p.2)
    else none

/-- The byte registers of extended EVEX are the low bytes of all 32 registers: ah, ch, dh, bh cannot be named. -/
theorem apx_byte (h : Head) (hs : h.space = .evex) (n : BitVec 5) : reg8 h n = .low n := by
  unfold reg8; rw [hs]; simp

end X86
end Xbyak
