import Verif.Spec.Machine
import Verif.Spec.X86Ops
/-!
# Specification: fetching and executing

A processor that reads its instructions from memory: it decodes the bytes at the instruction pointer (Intel SDM vol. 2: PUSH 50+r, POP 58+r,
ADD/SUB 81/83, MOV 89/8B, RET C3, all with 64-bit operands in registers), moves the instruction pointer behind the instruction and executes it.
Anything else is not decoded: the machine is stuck.  Independent of the model of the library.
-/
namespace Xbyak
namespace X86

/-- No prefix but REX. -/
def Head.onlyRex (h : Head) : Bool := !h.p66 && !h.pF2 && !h.pF3 && !h.p67 && h.seg.isNone && h.space == .legacy && h.map == 0

/-- The instruction with these prefixes and this opcode, if `t` comes behind the opcode. -/
def insOf (h : Head) (t : List Byte) : Option (Ins × List Byte) :=
  if !h.onlyRex then none
  else if h.opcode &&& 0xF8 = 0x50 then some (.push ((rmGpr h (h.opcode.extractLsb' 0 3)).setWidth 4), t)
  else if h.opcode &&& 0xF8 = 0x58 then some (.pop ((rmGpr h (h.opcode.extractLsb' 0 3)).setWidth 4), t)
  else if h.opcode = 0xC3 then some (.ret, t)
  else if !h.w then none
  else
    match modrm h false 1 t with
    | some (r, .reg m, t) =>
      if h.opcode = 0x89 then some (.mov ((rmGpr h m).setWidth 4) ((regNum h r).setWidth 4), t)
      else if h.opcode = 0x8B then some (.mov ((regNum h r).setWidth 4) ((rmGpr h m).setWidth 4), t)
      else if h.opcode = 0x81 ∨ h.opcode = 0x83 then
        match imm (if h.opcode = 0x81 then 4 else 1) t with
        | none => none
        | some (i, t) => if r = 0 then some (.add ((rmGpr h m).setWidth 4) i, t) else if r = 5 then some (.sub ((rmGpr h m).setWidth 4) i, t) else none
      else none
    | _ => none

/-- The instruction at the beginning of the bytes, and what follows. -/
def ins (bs : List Byte) : Option (Ins × List Byte) :=
  match head bs with
  | none => none
  | some (h, t) => insOf h t

/-- The fifteen bytes at the instruction pointer: no instruction is longer. -/
def Mach.fetch (s : Mach) : List Byte := (List.range 15).map fun i => s.mem (s.rip + BitVec.ofNat 64 i)

/-- One instruction. -/
def Mach.step (s : Mach) : Option Mach :=
  match ins s.fetch with
  | none => none
  | some (i, t) => some (i.exec { s with rip := s.rip + BitVec.ofNat 64 (15 - t.length) })

/-- Any number of instructions. -/
inductive Mach.Runs : Mach → Mach → Prop
  | refl (s : Mach) : Runs s s
  | step {s u v : Mach} : s.step = some u → Runs u v → Runs s v

/-- The bytes are in memory from `a` on. -/
def CodeAt (m : Word → Byte) (a : Word) (bs : List Byte) : Prop := ∀ (i : Nat) (h : i < bs.length), m (a + BitVec.ofNat 64 i) = bs[i]

end X86
end Xbyak
