import Verif.CodeArray
/-!
# Labels

Models `JmpLabel`, `Label`, `LabelManager` (xbyak.h 1413-1696).

Simplifications: identities (`int labelId_`) and reference counts are unbounded; `unordered_map`s are functions
to `Option`; the `undefList` multimaps are lists with an unspecified insertion position (`Env.pos`) and
`find` returning the first match; `Label` objects live at abstract addresses `Nat` of a heap.
-/
namespace Xbyak

/-- xbyak.h 1413-1422 -/
structure JmpLabel where
  endOfJmp : Nat
  jmpSize : Nat
  mode : LabelMode
  disp : Word
  deriving DecidableEq, Repr

/-- xbyak.h 1461-1464: `SlabelState`, tables of string labels of one scope. -/
structure SState where
  defs : String → Option Nat
  undef : List (String × JmpLabel)

/-- xbyak.h 1464: a fresh scope -/
def SState.empty : SState := ⟨fun _ => none, []⟩

/-- xbyak.h 1467-1471: `ClabelVal` -/
structure CVal where
  offset : Nat
  refCount : Nat
  deriving DecidableEq, Repr

/-- xbyak.h 1426-1429: a `Label` object (`mgr` is null or the single manager of the model). -/
structure LabelObj where
  mgr : Bool
  id : Nat
  deriving DecidableEq, Repr

/-- The generator: buffer, label manager and the `Label` objects of the user.
xbyak.h 1476-1482 (`stateList_.front()` is `glob`, `stateList_` without the front, last element first, is
`locals`), 2917 (`isDefaultJmpNEAR_`). -/
structure G where
  ca : CA
  glob : SState
  locals : List SState
  labelId : Nat
  cdef : Nat → Option CVal
  cundef : List (Nat × JmpLabel)
  ptrs : List Nat
  heap : Nat → Option LabelObj
  defNear : Bool

/-- Function update used for the `unordered_map`s. -/
def upd {α β : Type} [DecidableEq α] (f : α → β) (a : α) (b : β) : α → β :=
  fun x => if x = a then b else f x

@[simp] theorem upd_same {α β : Type} [DecidableEq α] (f : α → β) (a : α) (b : β) : upd f a b a = b := by
  simp [upd]
theorem upd_other {α β : Type} [DecidableEq α] (f : α → β) (a x : α) (b : β) (h : x ≠ a) :
    upd f a b x = f x := by simp [upd, h]

/-- Insertion of a pending reference at an arbitrary position. -/
def insertAt {α : Type} (n : Nat) (x : α) (l : List α) : List α := l.take n ++ x :: l.drop n

namespace G

/-- Run a buffer operation inside the generator. -/
def liftCA {α : Type} (m : M CA α) : M G α := fun g =>
  match m g.ca with
  | .ok a c => .ok a { g with ca := c }
  | .err e c => .err e { g with ca := c }
  | .ub u => .ub u

/-- xbyak.h 1501-1518: value written for one pending reference and the write itself. -/
def fixup (addrOffset : Nat) (j : JmpLabel) : M CA Unit := do
  let c ← M.get
  let offset := j.endOfJmp - j.jmpSize
  let disp ← (match j.mode with
    | .addTop => pure (BitVec.ofNat 64 addrOffset)
    | .abs => pure c.getCurr
    | .asIs => do
      let disp := BitVec.ofNat 64 addrOffset - BitVec.ofNat 64 j.endOfJmp + j.disp
      M.throwIf (decide (j.jmpSize ≤ 4) && !isInInt32 disp) .OFFSET_IS_TOO_BIG
      M.throwIf (decide (j.jmpSize = 1) && !isInDisp8 (lo32 disp)) .LABEL_IS_TOO_FAR
      pure disp : M CA Word)
  if c.isAutoGrow then CA.save offset disp j.jmpSize j.mode
  else CA.rewrite offset disp j.jmpSize

/-- xbyak.h 1497-1520: the loop "find a pending reference to `key`, fix it, erase it".  Written as one pass
over the list (the loop always takes the first match); returns the remaining list. -/
def resolve {κ : Type} [DecidableEq κ] (key : κ) (addrOffset : Nat) :
    List (κ × JmpLabel) → CA → Res (List (κ × JmpLabel) × CA) Unit
  | [], c => .ok () ([], c)
  | (k, j) :: t, c =>
    if k = key then
      match fixup addrOffset j c with
      | .ok _ c' => resolve key addrOffset t c'
      | .err e c' => .err e ((k, j) :: t, c')
      | .ub u => .ub u
    else
      match resolve key addrOffset t c with
      | .ok _ (t', c') => .ok () ((k, j) :: t', c')
      | .err e (t', c') => .err e ((k, j) :: t', c')
      | .ub u => .ub u

/-! ### string labels -/

/-- `*label.c_str() == '.'` -/
def isLocalName (s : String) : Bool := s.toList.head? == some '.'

/-- xbyak.h 1490-1521 `define_inner` on the tables of one string scope. -/
def defineInScope (key : String) (addrOffset : Nat) (st : SState) (c : CA) : Res (SState × CA) Unit :=
  match st.defs key with
  | some _ => .err .LABEL_IS_REDEFINED (st, c)
  | none =>
    let defs := upd st.defs key (some addrOffset)
    match resolve key addrOffset st.undef c with
    | .ok _ (u, c') => .ok () (⟨defs, u⟩, c')
    | .err e (u, c') => .err e (⟨defs, u⟩, c')
    | .ub u => .ub u

/-- Apply a scope operation to the scope selected by the name (xbyak.h 1613, 1644, 1653):
innermost local scope for dot names, global scope otherwise. -/
def onScope (key : String) (f : SState → CA → Res (SState × CA) Unit) : M G Unit := fun g =>
  if isLocalName key then
    match g.locals with
    | [] => .ub .bounds
    | st :: rest =>
      match f st g.ca with
      | .ok _ (st', c) => .ok () { g with locals := st' :: rest, ca := c }
      | .err e (st', c) => .err e { g with locals := st' :: rest, ca := c }
      | .ub u => .ub u
  else
    match f g.glob g.ca with
    | .ok _ (st', c) => .ok () { g with glob := st', ca := c }
    | .err e (st', c) => .err e { g with glob := st', ca := c }
    | .ub u => .ub u

/-- xbyak.h 1596-1615 `defineSlabel` -/
def defineSlabel (label : String) : M G Unit := do
  M.throwIf (label == "@b" || label == "@f") .BAD_LABEL_STR
  let g ← M.get
  if label = "@@" then
    match g.glob.defs "@f" with
    | some _ =>
      M.modify fun g => { g with glob := { g.glob with defs := upd g.glob.defs "@f" none } }
      onScope "@b" (defineInScope "@b" g.ca.size)
    | none =>
      M.modify fun g => { g with glob := { g.glob with defs := upd g.glob.defs "@b" none } }
      onScope "@f" (defineInScope "@f" g.ca.size)
  else onScope label (defineInScope label g.ca.size)

/-- xbyak.h 1630-1643: the possibly renamed label (`@b`/`@f` resolution of references). -/
def resolveName (label : String) : M G String := fun g =>
  if label = "@b" then
    match g.glob.defs "@f", g.glob.defs "@b" with
    | some _, _ => .ok "@f" g
    | none, none => .err .LABEL_IS_NOT_FOUND g
    | none, some _ => .ok "@b" g
  else if label = "@f" then
    match g.glob.defs "@f" with
    | some _ => .ok "@b" g
    | none => .ok "@f" g
  else .ok label g

/-- xbyak.h 1644-1645: look the (renamed) label up. -/
def lookupS (label : String) : M G (Option Nat) := fun g =>
  if isLocalName label then
    match g.locals with
    | [] => .ub .bounds
    | st :: _ => .ok (st.defs label) g
  else .ok (g.glob.defs label) g

/-- xbyak.h 1651-1655 `addUndefinedLabel(const std::string&, …)` -/
def addUndefS (env : Env) (label : String) (j : JmpLabel) : M G Unit :=
  onScope label fun st c => .ok () ({ st with undef := insertAt (env.pos c.size st.undef.length) (label, j) st.undef }, c)

/-- xbyak.h 1585-1588 -/
def enterLocal : M G Unit := M.modify fun g => { g with locals := SState.empty :: g.locals }

/-- xbyak.h 1589-1594 -/
def leaveLocal : M G Unit := fun g =>
  match g.locals with
  | [] => .err .UNDER_LOCAL_LABEL g
  | [_] => .err .UNDER_LOCAL_LABEL g
  | st :: rest => if !st.undef.isEmpty then .err .LABEL_IS_NOT_FOUND g else .ok () { g with locals := rest }

/-! ### `Label` objects -/

/-- Access to a live `Label` object; touching a destroyed one is undefined. -/
def deref (h : Nat) : M G LabelObj := fun g =>
  match g.heap h with
  | some o => .ok o g
  | none => .ub .lifetime

/-- xbyak.h 1484-1488 `getId` -/
def getId (h : Nat) : M G Nat := do
  let o ← deref h
  if o.id = 0 then do
    let g ← M.get
    M.set { g with labelId := g.labelId + 1, heap := upd g.heap h (some { o with id := g.labelId }) }
    pure g.labelId
  else pure o.id

/-- xbyak.h 1490-1521 `define_inner` on the tables of `Label` objects. -/
def defineId (id : Nat) (addrOffset : Nat) : M G Unit := fun g =>
  match g.cdef id with
  | some _ => .err .LABEL_IS_REDEFINED g
  | none =>
    let cdef := upd g.cdef id (some ⟨addrOffset, 1⟩)
    match resolve id addrOffset g.cundef g.ca with
    | .ok _ (u, c') => .ok () { g with cdef := cdef, cundef := u, ca := c' }
    | .err e (u, c') => .err e { g with cdef := cdef, cundef := u, ca := c' }
    | .ub u => .ub u

/-- `labelPtrList_.insert(p)` of an `unordered_set` -/
def insPtr (h : Nat) (l : List Nat) : List Nat := if h ∈ l then l else h :: l

/-- `label.mgr = this; labelPtrList_.insert(&label);` (xbyak.h 1619-1620, 1627-1628) -/
def attach (h : Nat) : M G Unit := do
  let o ← deref h
  M.modify fun g => { g with heap := upd g.heap h (some { o with mgr := true }), ptrs := insPtr h g.ptrs }

/-- xbyak.h 1616-1621 `defineClabel` -/
def defineClabel (h : Nat) : M G Unit := do
  let id ← getId h
  let g ← M.get
  defineId id g.ca.size
  attach h

/-- xbyak.h 1622-1629 `assign` -/
def assign (dst src : Nat) : M G Unit := do
  let s ← deref src
  let g ← M.get
  match g.cdef s.id with
  | none => M.throw .LABEL_ISNOT_SET_BY_L
  | some v =>
    let d ← deref dst
    defineId d.id v.offset
    attach dst

/-- xbyak.h 1647-1650 `getOffset(size_t*, const Label&)` -/
def lookupC (h : Nat) : M G (Option Nat) := do
  let id ← getId h
  let g ← M.get
  pure ((g.cdef id).map CVal.offset)

/-- xbyak.h 1656-1659 `addUndefinedLabel(const Label&, …)` -/
def addUndefC (env : Env) (h : Nat) (j : JmpLabel) : M G Unit := do
  let o ← deref h
  M.modify fun g => { g with cundef := insertAt (env.pos g.ca.size g.cundef.length) (o.id, j) g.cundef }

/-- xbyak.h 1531-1535 `incRefCount`: `clabelDefList_[id]` default-constructs `ClabelVal(0)` with count 1. -/
def incRef (id h : Nat) : M G Unit := M.modify fun g =>
  let v := (g.cdef id).getD ⟨0, 1⟩
  { g with cdef := upd g.cdef id (some { v with refCount := v.refCount + 1 }), ptrs := insPtr h g.ptrs }

/-- xbyak.h 1536-1546 `decRefCount` -/
def decRef (id h : Nat) : M G Unit := M.modify fun g =>
  let g := { g with ptrs := g.ptrs.filter (· ≠ h) }
  match g.cdef id with
  | none => g
  | some v =>
    if v.refCount = 1 then { g with cdef := upd g.cdef id none }
    else { g with cdef := upd g.cdef id (some { v with refCount := v.refCount - 1 }) }

/-- xbyak.h 1431 `Label()`; the storage must be free. -/
def newLabel (h : Nat) : M G Unit := do
  let g ← M.get
  match g.heap h with
  | some _ => M.ub .lifetime
  | none => M.set { g with heap := upd g.heap h (some ⟨false, 0⟩) }

/-- xbyak.h 1672-1677 copy constructor -/
def copyLabel (h src : Nat) : M G Unit := do
  let r ← deref src
  let g ← M.get
  match g.heap h with
  | some _ => M.ub .lifetime
  | none =>
    M.set { g with heap := upd g.heap h (some r) }
    if r.mgr then incRef r.id h else pure ()

/-- xbyak.h 1678-1685 `operator=` -/
def assignLabel (h src : Nat) : M G Unit := do
  let o ← deref h
  M.throwIf (o.id != 0) .LABEL_IS_ALREADY_SET_BY_L
  let r ← deref src
  M.modify fun g => { g with heap := upd g.heap h (some r) }
  if r.mgr then incRef r.id h else pure ()

/-- xbyak.h 1686-1689 destructor -/
def dtorLabel (h : Nat) : M G Unit := do
  let o ← deref h
  if o.id ≠ 0 ∧ o.mgr then decRef o.id h else pure ()
  M.modify fun g => { g with heap := upd g.heap h none }

/-- the loop of xbyak.h 1560-1562: `(*i)->clear()` through every registered pointer -/
def clearAll : List Nat → M G Unit
  | [] => pure ()
  | h :: t => do
    let _ ← deref h
    M.modify fun g => { g with heap := upd g.heap h (some ⟨false, 0⟩) }
    clearAll t

/-- xbyak.h 1558-1564 `resetLabelPtrList`; also the destructor of the manager (1570-1573). -/
def resetLabelPtrList : M G Unit := do
  let g ← M.get
  clearAll g.ptrs
  M.modify fun g => { g with ptrs := [] }

/-- xbyak.h 1690-1696 `Label::getAddress` (null is `none`). -/
def getAddress (h : Nat) : M G (Option Word) := do
  let o ← deref h
  let g ← M.get
  if !o.mgr || !(!g.ca.isAutoGrow || g.ca.calcDone) then pure none
  else do
    match ← lookupC h with
    | none => pure none
    | some off => pure (some (g.ca.top + BitVec.ofNat 64 off))

/-- xbyak.h 1660-1667, 3215 -/
def hasUndefinedLabel (g : G) : Bool :=
  !g.glob.undef.isEmpty || g.locals.any (fun st => !st.undef.isEmpty) || !g.cundef.isEmpty

end G
end Xbyak
