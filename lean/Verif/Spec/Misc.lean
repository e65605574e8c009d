import Verif.Spec.X86
/-!
# Instructions of their own shape

Ports, interrupts, return, ENTER, transactions, user-level waiting, absolute jump, key locker: a decoder transcribed from the Intel SDM, volume 2 (JMPABS: the
APX specification), independently of the assembler.
-/
namespace Xbyak
namespace X86

inductive Misc
  /-- IN: width of the accumulator, port number or DX -/
  | inp (bits : Nat) (port : Option Byte)
  /-- OUT -/
  | out (bits : Nat) (port : Option Byte)
  /-- INT n -/
  | int (n : Byte)
  /-- RET, with the number of bytes released -/
  | ret (far : Bool) (pop : BitVec 16)
  /-- ENTER size, level -/
  | enter (size : BitVec 16) (level : Byte)
  | xabort (n : Byte)
  /-- XBEGIN: distance of the abort handler from the next instruction -/
  | xbegin (rel : BitVec 32)
  /-- JMPABS -/
  | jmpabs (to : Word)
  | tpause (r : BitVec 5)
  | umwait (r : BitVec 5)
  /-- UMONITOR: register with the address, its width -/
  | umonitor (r : BitVec 5) (bits : Nat)
  | senduipi (r : BitVec 5)
  /-- ENCODEKEY128, ENCODEKEY256: destination, source -/
  | encodekey (bits : Nat) (d s : BitVec 5)
  deriving DecidableEq, Repr

/-- No prefixes: F2, F3, 67, segment. -/
def Head.bare (h : Head) : Bool := !h.pF2 && !h.pF3 && !h.p67 && h.seg.isNone

/-- Width of the accumulator in IN and OUT. -/
def ioBits (h : Head) : Nat := if h.opcode &&& 1 = 1 then (if h.p66 then 16 else 32) else 8

/-- One-byte opcodes without ModRM. -/
def misc0 (h : Head) (t : List Byte) : Option (Misc × List Byte) :=
  if !h.bare then none
  else if h.opcode = 0xE4 ∨ h.opcode = 0xE5 then match t with | p :: t => some (.inp (ioBits h) (some p), t) | _ => none
  else if h.opcode = 0xE6 ∨ h.opcode = 0xE7 then match t with | p :: t => some (.out (ioBits h) (some p), t) | _ => none
  else if h.opcode = 0xEC ∨ h.opcode = 0xED then some (.inp (ioBits h) none, t)
  else if h.opcode = 0xEE ∨ h.opcode = 0xEF then some (.out (ioBits h) none, t)
  else if h.p66 then none
  else if h.opcode = 0xCD then match t with | n :: t => some (.int n, t) | _ => none
  else if h.opcode = 0xC3 then some (.ret false 0, t)
  else if h.opcode = 0xCB then some (.ret true 0, t)
  else if h.opcode = 0xC2 then match t with | a :: b :: t => some (.ret false (b ++ a), t) | _ => none
  else if h.opcode = 0xCA then match t with | a :: b :: t => some (.ret true (b ++ a), t) | _ => none
  else if h.opcode = 0xC8 then match t with | a :: b :: c :: t => some (.enter (b ++ a) c, t) | _ => none
  else if h.opcode = 0xC6 then match t with | 0xF8 :: n :: t => some (.xabort n, t) | _ => none
  else if h.opcode = 0xC7 then match t with | 0xF8 :: a :: b :: c :: d :: t => some (.xbegin (d ++ c ++ b ++ a), t) | _ => none
  else none

/-- 0F opcodes with a register in ModRM.rm. -/
def misc1 (h : Head) (t : List Byte) : Option (Misc × List Byte) :=
  match modrm h false 1 t with
  | some (6, .reg lo, t) =>
    if h.seg.isSome then none
    else if h.opcode = 0xAE ∧ h.p66 ∧ !h.pF2 ∧ !h.pF3 ∧ !h.p67 then some (.tpause (rmGpr h lo), t)
    else if h.opcode = 0xAE ∧ !h.p66 ∧ h.pF2 ∧ !h.pF3 ∧ !h.p67 then some (.umwait (rmGpr h lo), t)
    else if h.opcode = 0xAE ∧ !h.p66 ∧ !h.pF2 ∧ h.pF3 then some (.umonitor (rmGpr h lo) (if h.p67 then 32 else 64), t)
    else if h.opcode = 0xC7 ∧ !h.p66 ∧ !h.pF2 ∧ h.pF3 ∧ !h.p67 then some (.senduipi (rmGpr h lo), t)
    else none
  | _ => none

/-- 0F38 opcodes with two registers. -/
def misc2 (h : Head) (t : List Byte) : Option (Misc × List Byte) :=
  match modrm h false 1 t with
  | some (d, .reg s, t) =>
    if h.opcode = 0xFA ∧ !h.p66 ∧ !h.pF2 ∧ h.pF3 ∧ !h.p67 ∧ h.seg = none then some (.encodekey 128 (regNum h d) (rmGpr h s), t)
    else if h.opcode = 0xFB ∧ !h.p66 ∧ !h.pF2 ∧ h.pF3 ∧ !h.p67 ∧ h.seg = none then some (.encodekey 256 (regNum h d) (rmGpr h s), t)
    else none
  | _ => none

/-- The instruction at the beginning, and what follows it. -/
def misc (bs : List Byte) : Option (Misc × List Byte) :=
  match head bs with
  | none => none
  | some (h, t) =>
    if h.space = .rex2 ∧ h.map = 0 then
      if h.opcode = 0xA1 ∧ h.bare ∧ !h.p66 ∧ !h.w then
        match t with
        | a :: b :: c :: d :: e :: f :: g :: i :: t => some (.jmpabs (i ++ g ++ f ++ e ++ d ++ c ++ b ++ a), t)
        | _ => none
      else none
    else if h.space = .legacy ∨ h.space = .rex2 then
      if h.map = 0 then (if h.rex then none else misc0 h t) else if h.map = 1 then misc1 h t else if h.map = 2 then misc2 h t else none
    else none

end X86
end Xbyak
