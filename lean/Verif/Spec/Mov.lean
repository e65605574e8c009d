import Verif.Spec.X86Ops
/-!
# Specification: MOV between registers and memory

Intel SDM vol. 2, MOV: 88 /r, 89 /r, 8A /r, 8B /r with a ModRM byte; A0 and A1 (load) and A2 and A3 (store) between the accumulator and an address
that follows the opcode (moffs), 8 bytes long, or 4 with a 67 prefix.  With REX2 the opcode A1 is JMPABS, not MOV.
-/
namespace Xbyak
namespace X86

/-- The operand that is not given by a register field. -/
inductive Place
  | rm (m : RM)
  /-- at this address -/
  | at_ (a : Word)
  deriving DecidableEq, Repr

structure Mov where
  head : Head
  /-- the destination is the register, not the other operand -/
  load : Bool
  bits : Nat
  /-- ModRM.reg, or `none` for the accumulator -/
  reg : Option (BitVec 3)
  place : Place
  deriving DecidableEq, Repr

def mov (bs : List Byte) : Option (Mov × List Byte) :=
  match head bs with
  | none => none
  | some (h, t) =>
    if h.map ≠ 0 ∨ ¬ (h.space = .legacy ∨ h.space = .rex2) then none
    else if h.opcode &&& 0xFC = 0xA0 then
      let n := if h.p67 then 4 else 8
      if h.space = .rex2 ∨ t.length < n then none
      else some (⟨h, decide (h.opcode < 0xA2), if h.opcode &&& 1 = 0 then 8 else opBits h, none, .at_ (BitVec.ofNat 64 (fromLE (t.take n)))⟩, t.drop n)
    else
      match modrm h false 1 t with
      | none => none
      | some (r, m, t) =>
        if h.opcode = 0x88 then some (⟨h, false, 8, some r, .rm m⟩, t)
        else if h.opcode = 0x89 then some (⟨h, false, opBits h, some r, .rm m⟩, t)
        else if h.opcode = 0x8A then some (⟨h, true, 8, some r, .rm m⟩, t)
        else if h.opcode = 0x8B then some (⟨h, true, opBits h, some r, .rm m⟩, t)
        else none

end X86
end Xbyak
