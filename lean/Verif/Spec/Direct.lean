import Verif.Spec.X86Ops
/-!
# Direct jumps, calls and loops

SDM vol. 2, entries JMP, CALL, LOOP/LOOPcc, Jcc (JECXZ, JRCXZ), 64-bit mode.
-/
namespace Xbyak
namespace X86

inductive Direct
  | jmp | call
  /-- counts in RCX (64) or ECX (32) -/
  | loop (n : Nat) | loope (n : Nat) | loopne (n : Nat)
  /-- tests RCX (64) or ECX (32) -/
  | jcxz (n : Nat)
  deriving DecidableEq, Repr

/-- A jump relative to the next instruction: the operation, the displacement, what follows.  An operand-size prefix is not read. -/
def direct (bs : List Byte) : Option (Direct × Word × List Byte) :=
  match head bs with
  | none => none
  | some (h, t) =>
    let n := if h.p67 then 32 else 64
    if h.space ≠ .legacy ∨ h.map ≠ 0 ∨ h.p66 = true then none
    else if h.opcode = 0xEB then (imm 1 t).map fun p => (.jmp, p)
    else if h.opcode = 0xE9 then (imm 4 t).map fun p => (.jmp, p)
    else if h.opcode = 0xE8 then (imm 4 t).map fun p => (.call, p)
    else if h.opcode = 0xE0 then (imm 1 t).map fun p => (.loopne n, p)
    else if h.opcode = 0xE1 then (imm 1 t).map fun p => (.loope n, p)
    else if h.opcode = 0xE2 then (imm 1 t).map fun p => (.loop n, p)
    else if h.opcode = 0xE3 then (imm 1 t).map fun p => (.jcxz n, p)
    else none

end X86
end Xbyak
