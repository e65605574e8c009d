import Verif.Spec.Apx
/-!
# Instructions with an operation number in ModRM.reg

The shift and rotate groups and the unary groups, in the one-byte map (legacy, REX, REX2) and in map 4 of extended EVEX.  Written from the
SDM (vol. 2, table A-6) and the APX architecture specification, independently of the assembler.
-/
namespace Xbyak
namespace X86

/-- The one-byte map, or its promoted copy.  Without ND the destination field of the promoted form must be unused. -/
def InGroup (h : Head) : Prop :=
  (h.space = .legacy ∨ h.space = .rex2) ∧ h.map = 0 ∨ h.space = .evex ∧ h.map = 4 ∧ h.pF2 = false ∧ h.pF3 = false ∧ (h.nd = false → h.vreg = 0)
instance (h : Head) : Decidable (InGroup h) := by unfold InGroup; infer_instance

def fullBits (h : Head) : Nat := if h.space = .evex then apxBits h else opBits h
/-- Opcode bit 0 chooses between bytes and the full operand size. -/
def byteOr (h : Head) : Nat := if h.opcode &&& 1 = 0 then 8 else fullBits h
/-- The new data destination, if there is one. -/
def nddDst (h : Head) : Option (BitVec 5) := if h.space = .evex ∧ h.nd = true then some h.vreg else none
/-- Flags are left alone. -/
def noFlags (h : Head) : Bool := decide (h.space = .evex) && h.nf

/-- ROL, ROR, RCL, RCR, SHL, SHR, (SAL), SAR: C0/C1 /n ib, D0/D1 /n, D2/D3 /n. -/
structure Shift where
  head : Head
  op : BitVec 3
  bits : Nat
  /-- destination other than the operand itself -/
  dst : Option (BitVec 5)
  nf : Bool
  rm : RM
  count : Count
  deriving DecidableEq, Repr

def shift (bs : List Byte) : Option (Shift × List Byte) :=
  match insn false 1 bs with
  | none => none
  | some (⟨h, r, m⟩, t) =>
    if ¬ InGroup h then none
    else if h.opcode &&& 0xFE = 0xC0 then
      match t with
      | [] => none
      | i :: t => some (⟨h, r, byteOr h, nddDst h, noFlags h, m, .imm i⟩, t)
    else if h.opcode &&& 0xFE = 0xD0 then some (⟨h, r, byteOr h, nddDst h, noFlags h, m, .imm 1⟩, t)
    else if h.opcode &&& 0xFE = 0xD2 then some (⟨h, r, byteOr h, nddDst h, noFlags h, m, .cl⟩, t)
    else none

/-- NOT, NEG, MUL, IMUL, DIV, IDIV, INC, DEC: F6/F7 /2../7, FE/FF /0, /1. -/
inductive UnaryOp | not | neg | mul | imul | div | idiv | inc | dec
  deriving DecidableEq, Repr

def unaryOp (o : Byte) (r : BitVec 3) : Option UnaryOp :=
  if o &&& 0xFE = 0xF6 then
    if r = 2 then some .not else if r = 3 then some .neg else if r = 4 then some .mul else if r = 5 then some .imul
    else if r = 6 then some .div else if r = 7 then some .idiv else none
  else if o &&& 0xFE = 0xFE then if r = 0 then some .inc else if r = 1 then some .dec else none
  else none

structure Unary where
  head : Head
  op : UnaryOp
  bits : Nat
  dst : Option (BitVec 5)
  nf : Bool
  rm : RM
  deriving DecidableEq, Repr

def unary (bs : List Byte) : Option (Unary × List Byte) :=
  match insn false 1 bs with
  | none => none
  | some (⟨h, r, m⟩, t) =>
    if ¬ InGroup h then none
    else match unaryOp h.opcode r with
      | none => none
      | some op => some (⟨h, op, byteOr h, nddDst h, noFlags h, m⟩, t)

end X86
end Xbyak
