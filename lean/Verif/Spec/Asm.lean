import Verif.Gen
/-!
# Specification: a symbolic assembler

The reference against which the label machinery is judged (C08-C11, C13-C16, C20, C21).  A program is a list of
cells: literal bytes, and fields that refer to a label or to an address.  The specification never computes a
displacement while "assembling": it only records which definition a reference means.  Offsets of definitions
are recorded separately, and what a field must contain is said once, in `Field.Correct`.

Nothing here refers to the tables of the implementation; of the model only the type of calls (`Op`) is used.
-/
namespace Xbyak.Asm

/-- Which definition a reference means. -/
inductive Key
  /-- identity of a `Label` object (shared by its copies) -/
  | obj (n : Nat)
  /-- global string label -/
  | name (s : String)
  /-- dot label of one scope instance -/
  | loc (scope : Nat) (s : String)
  /-- the `k`-th `L("@@")`, counted from 0 -/
  | anon (k : Nat)
  deriving DecidableEq, Repr

inductive Width | w1 | w4 | w8
  deriving DecidableEq, Repr

def Width.len : Width → Nat
  | .w1 => 1
  | .w4 => 4
  | .w8 => 8

inductive Tgt
  /-- label plus constant -/
  | label (k : Key) (disp : Word)
  /-- absolute address -/
  | addr (a : Word)
  deriving DecidableEq, Repr

/-- A reference: `abs` = the address itself, otherwise relative to the end of the field. -/
structure Field where
  w : Width
  abs : Bool
  tgt : Tgt
  deriving DecidableEq, Repr

inductive Cell
  | byte (b : Byte)
  | field (f : Field)
  deriving DecidableEq, Repr

def Cell.len : Cell → Nat
  | .byte _ => 1
  | .field f => f.w.len

def len : List Cell → Nat
  | [] => 0
  | c :: t => c.len + len t

structure Spec where
  cells : List Cell
  /-- offsets of the definitions -/
  defs : Key → Option Nat
  /-- live `Label` objects and their identities, 0 = not used yet -/
  objs : Nat → Option Nat
  nextId : Nat
  /-- open scopes, innermost first -/
  scopes : List Nat
  nextScope : Nat
  /-- number of `L("@@")` so far -/
  anons : Nat
  defNear : Bool

def Spec.init : Spec := ⟨[], fun _ => none, fun _ => none, 1, [0], 1, 0, false⟩

def Spec.size (s : Spec) : Nat := len s.cells
def Spec.emit (s : Spec) (cs : List Cell) : Spec := { s with cells := s.cells ++ cs }
def Spec.define (s : Spec) (k : Key) (off : Nat) : Spec := { s with defs := upd s.defs k (some off) }

/-- A `Label` object gets its identity when it is used for the first time. -/
def Spec.touch (s : Spec) : LRef → Spec
  | .str _ => s
  | .obj h => if s.objs h = some 0 then { s with objs := upd s.objs h (some s.nextId), nextId := s.nextId + 1 } else s

/-- A dot label. -/
def isDot (s : String) : Bool := s.toList.head? == some '.'

/-- The definition meant by a reference. -/
def Spec.keyRef (s : Spec) : LRef → Option Key
  | .obj h => (s.objs h).map .obj
  | .str n =>
    if n = "@b" then if s.anons = 0 then none else some (.anon (s.anons - 1))
    else if n = "@f" then some (.anon s.anons)
    else if isDot n then s.scopes.head?.map (fun σ => .loc σ n)
    else some (.name n)

/-- The definition made by `L`. -/
def Spec.keyDef (s : Spec) : LRef → Option Key
  | .obj h => (s.objs h).map .obj
  | .str n =>
    if n = "@b" ∨ n = "@f" then none
    else if n = "@@" then some (.anon s.anons)
    else if isDot n then s.scopes.head?.map (fun σ => .loc σ n)
    else some (.name n)

/-- representable as a signed byte -/
def Fits8 (v : Word) : Prop := -128 ≤ v.toInt ∧ v.toInt ≤ 127
instance (v : Word) : Decidable (Fits8 v) := by unfold Fits8; infer_instance

/-- `AutoGrow` or a fixed buffer at `top`. -/
structure Cx where
  auto : Bool
  top : Word

/-- Two-byte or long form of a jump. -/
def jmpCells (short : Bool) (s lo p : Byte) (t : Tgt) : List Cell :=
  if short then [.byte s, .field ⟨.w1, false, t⟩]
  else (if p ≠ 0 then [.byte p] else []) ++ [.byte lo, .field ⟨.w4, false, t⟩]

/-- Form of a jump to a label: known distance → the shortest allowed; unknown → as requested. -/
def Spec.shortForm (s : Spec) (k : Key) (ty : LabelType) : Bool :=
  match s.defs k with
  | some o => ty ≠ .near && decide (Fits8 (BitVec.ofNat 64 o - BitVec.ofNat 64 (s.size + 2)))
  | none => !(ty == .near || (ty == .auto && s.defNear))

/-- Form of a jump to an address. -/
def Spec.shortAbs (s : Spec) (cx : Cx) (a : Word) (ty : LabelType) : Bool :=
  !cx.auto && ty ≠ .near && decide (Fits8 (a - (cx.top + BitVec.ofNat 64 (s.size + 2))))

/-- A dot label of scope `σ` has been used and is not defined. -/
def Spec.Dangling (s : Spec) (σ : Nat) : Prop :=
  ∃ f n d, Cell.field f ∈ s.cells ∧ f.tgt = .label (.loc σ n) d ∧ s.defs (.loc σ n) = none

/-- One successful call. -/
def Step (cx : Cx) (op : Op) (s s' : Spec) : Prop :=
  match op with
  | .db b => s' = s.emit [.byte b]
  | .defL l => ∃ k, (s.touch l).keyDef l = some k ∧ s.defs k = none ∧
      s' = { (s.touch l).define k s.size with anons := if l = .str "@@" then s.anons + 1 else s.anons }
  | .jmp l ty sh lo p => ∃ k, (s.touch l).keyRef l = some k ∧
      s' = (s.touch l).emit (jmpCells (s.shortForm k ty) sh lo p (.label k 0))
  | .jmpAbs a ty sh lo p => s' = s.emit (jmpCells (s.shortAbs cx a ty) sh lo p (.addr a))
  | .putL l => ∃ k, (s.touch l).keyRef l = some k ∧ s' = (s.touch l).emit [.field ⟨.w8, true, .label k 0⟩]
  | .ripL l d => ∃ k, (s.touch l).keyRef l = some k ∧ s' = (s.touch l).emit [.field ⟨.w4, false, .label k d⟩]
  | .assignL d r => ∃ nd nr o, (s.touch (.obj d)).objs d = some nd ∧ s.objs r = some nr ∧
      s.defs (.obj nr) = some o ∧ s.defs (.obj nd) = none ∧ s' = (s.touch (.obj d)).define (.obj nd) o
  | .inLocal => s' = { s with scopes := s.nextScope :: s.scopes, nextScope := s.nextScope + 1 }
  | .outLocal => ∃ σ σ' rest, s.scopes = σ :: σ' :: rest ∧ ¬ s.Dangling σ ∧ s' = { s with scopes := σ' :: rest }
  | .newLabel h => s' = { s with objs := upd s.objs h (some 0) }
  | .copyLabel h r => ∃ n, s.objs r = some n ∧ s' = { s with objs := upd s.objs h (some n) }
  | .assignLabel h r => s.objs h = some 0 ∧ ∃ n, s.objs r = some n ∧ s' = { s with objs := upd s.objs h (some n) }
  | .dtorLabel h => s' = { s with objs := upd s.objs h none }
  | .setDefaultJmpNEAR b => s' = { s with defNear := b }
  | .align _ _ => ∃ bs : List Byte, s' = s.emit (bs.map .byte)
  | .ready => cx.auto = false ∧ s' = s
  -- a new program; the `Label` objects of the caller survive, unused
  | .reset => s' = { Spec.init with objs := fun h => (s.objs h).map fun _ => 0, defNear := s.defNear }
  | .setSize _ | .rewrite _ _ _ => False

/-- The label a call refers to. -/
def opLabel : Op → Option LRef
  | .defL l | .jmp l _ _ _ _ | .putL l | .ripL l _ => some l
  | _ => none

/-- One failed call: some bytes of the instruction may be left behind, and the label may count as used. -/
def Fail (op : Op) (s s' : Spec) : Prop :=
  ∃ bs : List Byte, s' = s.emit (bs.map .byte) ∨ ∃ l, opLabel op = some l ∧ s' = (s.touch l).emit (bs.map .byte)

/-- A sequence of calls with their outcomes (`true` = returned normally, `false` = threw). -/
inductive Run (cx : Cx) : List (Op × Bool) → Spec → Spec → Prop
  | nil (s) : Run cx [] s s
  | ok {op t s s' s''} : Step cx op s s' → Run cx t s' s'' → Run cx ((op, true) :: t) s s''
  | fail {op t s s' s''} : Fail op s s' → Run cx t s' s'' → Run cx ((op, false) :: t) s s''

/-! ## What the finished code must look like -/

/-- `n` bytes of `code` at `p`. -/
def bytesAt (code : List Byte) (p n : Nat) : List Byte := (code.drop p).take n

/-- The field at offset `p` of code located at `top` holds what the CPU needs:
* absolute reference to a label: the run-time address of the label;
* relative reference: end of field + sign-extended field = target, where the target is label + constant (as
  offsets from the start of the code) or the requested address (as an address). -/
def Field.Correct (code : List Byte) (top : Word) (defs : Key → Option Nat) (p : Nat) (f : Field) : Prop :=
  match f.tgt with
  | .label k d => ∀ o, defs k = some o →
    if f.abs then BitVec.ofNat 64 (fromLE (bytesAt code p f.w.len)) = top + BitVec.ofNat 64 o
    else BitVec.ofNat 64 (p + f.w.len) + sextLE (bytesAt code p f.w.len) = BitVec.ofNat 64 o + d
  | .addr a => top + BitVec.ofNat 64 (p + f.w.len) + sextLE (bytesAt code p f.w.len) = a

/-- The buffer contents `code` at address `top` implement the program. -/
structure Implements (code : List Byte) (top : Word) (s : Spec) : Prop where
  length : code.length = s.size
  bytes : ∀ pre b post, s.cells = pre ++ .byte b :: post → code[len pre]? = some b
  fields : ∀ pre f post, s.cells = pre ++ .field f :: post → f.Correct code top s.defs (len pre)

/-- Some reference of the program names an undefined label. -/
def Spec.HasUndefined (s : Spec) : Prop :=
  ∃ f k d, Cell.field f ∈ s.cells ∧ f.tgt = .label k d ∧ s.defs k = none

end Xbyak.Asm
