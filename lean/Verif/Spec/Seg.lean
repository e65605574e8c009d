import Verif.Spec.X86Ops
/-!
# Segment registers and bswap in 64-bit mode

Written from the Intel SDM vol. 2: prefixes (2.1.1), PUSH, POP, MOV with segment registers, BSWAP, LSS/LFS/LGS.
-/
namespace Xbyak
namespace X86

/-- Segment register numbers (SDM table 3-1 / B-8): 0..5 = ES, CS, SS, DS, FS, GS. -/
def segPrefix (seg : Nat) : Option Byte := [0x26, 0x2E, 0x36, 0x3E, 0x64, 0x65][seg]?

/-- PUSH and POP of a segment register: only FS and GS exist in 64-bit mode (06, 07, 0E, 16, 17, 1E, 1F are invalid there).
The result is whether it pushes and the segment register. -/
def stackSeg (bs : List Byte) : Option (Bool × Nat × List Byte) :=
  match head bs with
  | none => none
  | some (h, t) =>
    if ¬ (h.space = .legacy ∨ h.space = .rex2) ∨ h.map ≠ 1 then none
    else if h.opcode = 0xA0 then some (true, 4, t)
    else if h.opcode = 0xA8 then some (true, 5, t)
    else if h.opcode = 0xA1 then some (false, 4, t)
    else if h.opcode = 0xA9 then some (false, 5, t)
    else none

/-- MOV to or from a segment register: 8C /r stores, 8E /r loads; ModRM.reg is the segment register (REX.R is not used), 6 and 7 are reserved and
CS cannot be loaded. -/
structure MovSeg where
  head : Head
  load : Bool
  seg : Nat
  bits : Nat
  rm : RM
  deriving DecidableEq, Repr

def movSeg (bs : List Byte) : Option (MovSeg × List Byte) :=
  match insn false 1 bs with
  | none => none
  | some (i, t) =>
    if i.head.map ≠ 0 ∨ 6 ≤ i.reg.toNat then none
    else if i.head.opcode = 0x8C then some (⟨i.head, false, i.reg.toNat, opBits i.head, i.rm⟩, t)
    else if i.head.opcode = 0x8E ∧ i.reg.toNat ≠ 1 then some (⟨i.head, true, i.reg.toNat, opBits i.head, i.rm⟩, t)
    else none

/-- BSWAP: 0F C8+r; the 16-bit form is undefined.  The result is the width and the register. -/
def bswap (bs : List Byte) : Option (Nat × BitVec 5 × List Byte) :=
  match head bs with
  | none => none
  | some (h, t) =>
    if (h.space = .legacy ∨ h.space = .rex2) ∧ h.map = 1 ∧ h.opcode.extractLsb' 3 5 = 0x19 ∧ h.p66 = false ∧ h.pF2 = false ∧ h.pF3 = false then
      some (opBits h, mk5 h.b4 h.b3 (h.opcode.extractLsb' 0 3), t)
    else none

end X86
end Xbyak
