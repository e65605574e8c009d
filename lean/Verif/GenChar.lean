import Verif.GenSafe
/-! # Exact outcome of every generator call (helper lemmas) -/
namespace Xbyak
namespace G
open CA

/-- The only undefined behaviour a call can run into is the use of a dead `Label` object. -/
abbrev UL : UB → Prop := (· = UB.lifetime)

/-- The label argument is a live object (or a string). -/
def LiveRef (g : G) : LRef → Prop
  | .obj h => g.heap h ≠ none
  | .str _ => True

/-- Undefined only because the label argument of the call is dead. -/
abbrev ULr (g : G) (l : LRef) : UB → Prop := fun u => u = .lifetime ∧ ¬ LiveRef g l

theorem _root_.Xbyak.Res.Sat.weakU {σ α : Type} {r : Res σ α} {Q : α → σ → Prop} {E : Err → σ → Prop}
    {U : UB → Prop} (h : r.Sat Q E) : r.Sat Q E U :=
  h.monoU (fun _ _ h => h) (fun _ _ h => h) (fun _ h => h.elim)

/-- Effect of naming a label: an unused object gets an identity. -/
def touch : LRef → G → G
  | .str _, g => g
  | .obj h, g =>
    match g.heap h with
    | some o => if o.id = 0 then
        { g with labelId := g.labelId + 1, heap := upd g.heap h (some { o with id := g.labelId }) } else g
    | none => g

/-- The names `@b`, `@f` as the current tables understand them. -/
def rname (g : G) (s : String) : Except Err String :=
  if s = "@b" then
    match g.glob.defs "@f", g.glob.defs "@b" with
    | some _, _ => .ok "@f"
    | none, none => .error .LABEL_IS_NOT_FOUND
    | none, some _ => .ok "@b"
  else if s = "@f" then
    match g.glob.defs "@f" with
    | some _ => .ok "@b"
    | none => .ok "@f"
  else .ok s

/-- Definition of a string label in the tables. -/
def slook (g : G) (s : String) : Option Nat :=
  if isLocalName s then
    match g.locals with
    | [] => none
    | st :: _ => st.defs s
  else g.glob.defs s

/-- Outcome of a label lookup in the state after `touch`. -/
def Resolved (g : G) (l : LRef) (r : LRef × Option Nat) : Prop :=
  match l with
  | .obj h => ∃ o, g.heap h = some o ∧ r = (.obj h, (g.cdef o.id).map CVal.offset)
  | .str s => ∃ s', rname g s = .ok s' ∧ r = (.str s', slook g s')

theorem resolveName_eq (s : String) (g : G) :
    resolveName s g = match rname g s with | .ok s' => .ok s' g | .error e => .err e g := by
  unfold resolveName rname
  split
  · split <;> simp_all
  · split
    · split <;> simp_all
    · rfl

theorem lookupS_eq (s : String) (g : G) (h : g.locals ≠ []) : lookupS s g = .ok (slook g s) g := by
  unfold lookupS slook
  split
  · split
    · contradiction
    · rename_i h1; simp [h1]
  · rfl

theorem getId_sat (h : Nat) (g : G) :
    (getId h g).Sat (fun id g' => g' = touch (.obj h) g ∧ ∃ o, g'.heap h = some o ∧ o.id = id)
      (fun _ _ => False) (ULr g (.obj h)) := by
  unfold getId
  rw [M.bind_run]
  unfold deref touch
  cases hh : g.heap h with
  | none => exact ⟨rfl, fun h => h hh⟩
  | some o =>
    simp only
    by_cases h0 : o.id = 0
    · rw [if_pos h0, M.get_bind, M.set_bind]
      refine ⟨?_, _, upd_same _ _ _, rfl⟩
      simp only [hh, if_pos h0]
    · rw [if_neg h0]
      refine ⟨?_, _, hh, rfl⟩
      simp only [hh, if_neg h0]

theorem touch_ca (l : LRef) (g : G) : (touch l g).ca = g.ca := by
  unfold touch
  cases l with
  | str s => rfl
  | obj h => simp only; cases g.heap h with
    | none => rfl
    | some o => simp only; split <;> rfl
theorem touch_glob (l : LRef) (g : G) : (touch l g).glob = g.glob := by
  unfold touch
  cases l with
  | str s => rfl
  | obj h => simp only; cases g.heap h with
    | none => rfl
    | some o => simp only; split <;> rfl
theorem touch_locals (l : LRef) (g : G) : (touch l g).locals = g.locals := by
  unfold touch
  cases l with
  | str s => rfl
  | obj h => simp only; cases g.heap h with
    | none => rfl
    | some o => simp only; split <;> rfl
theorem touch_cundef (l : LRef) (g : G) : (touch l g).cundef = g.cundef := by
  unfold touch
  cases l with
  | str s => rfl
  | obj h => simp only; cases g.heap h with
    | none => rfl
    | some o => simp only; split <;> rfl
theorem touch_cdef (l : LRef) (g : G) : (touch l g).cdef = g.cdef := by
  unfold touch
  cases l with
  | str s => rfl
  | obj h => simp only; cases g.heap h with
    | none => rfl
    | some o => simp only; split <;> rfl
theorem touch_defNear (l : LRef) (g : G) : (touch l g).defNear = g.defNear := by
  unfold touch
  cases l with
  | str s => rfl
  | obj h => simp only; cases g.heap h with
    | none => rfl
    | some o => simp only; split <;> rfl
theorem touch_ptrs (l : LRef) (g : G) : (touch l g).ptrs = g.ptrs := by
  unfold touch
  cases l with
  | str s => rfl
  | obj h => simp only; cases g.heap h with
    | none => rfl
    | some o => simp only; split <;> rfl

theorem touch_setca (l : LRef) (g : G) (c : CA) : touch l { g with ca := c } = { touch l g with ca := c } := by
  unfold touch
  cases l with
  | str s => rfl
  | obj h => simp only; cases g.heap h with
    | none => rfl
    | some o => simp only; split <;> rfl

theorem touch_idem (l : LRef) (g : G) : (touch l (touch l g)) = touch l g ∨ g.labelId = 0 := by
  by_cases h0 : g.labelId = 0
  · exact .inr h0
  · left
    unfold touch
    cases l with
    | str s => rfl
    | obj h =>
      simp only
      cases hh : g.heap h with
      | none => simp [hh]
      | some o =>
        simp only
        by_cases hi : o.id = 0
        · rw [if_pos hi]
          simp [upd_same, h0]
        · rw [if_neg hi, hh]
          simp [hi]

theorem getOffset_sat (l : LRef) (g : G) (hl : g.locals ≠ []) :
    (getOffset l g).Sat (fun r g' => g' = touch l g ∧ Resolved g' l r)
      (fun e g' => g' = g ∧ e = .LABEL_IS_NOT_FOUND) (ULr g l) := by
  cases l with
  | obj h =>
    unfold getOffset lookupC
    refine M.sat_bind (Q' := fun off g' => g' = touch (.obj h) g ∧ ∃ o, g'.heap h = some o ∧ off = (g'.cdef o.id).map CVal.offset) ?_ ?_
    · refine M.sat_bind ((getId_sat h g).monoU (fun _ _ h => h) (fun _ _ h => h.elim) (fun _ h => h)) ?_
      rintro id g' ⟨h1, o, h2, rfl⟩
      rw [M.get_bind]
      exact ⟨h1, o, h2, rfl⟩
    · rintro off g' ⟨h1, o, h2, rfl⟩
      exact ⟨h1, o, h2, rfl⟩
  | str s =>
    unfold getOffset
    simp only
    rw [M.bind_run, resolveName_eq]
    cases hr : rname g s with
    | error e =>
      simp only [Res.Sat]
      refine ⟨trivial, ?_⟩
      unfold rname at hr
      split at hr
      · split at hr <;> simp_all
      · split at hr
        · split at hr <;> simp_all
        · simp_all
    | ok s' =>
      simp only
      rw [M.bind_run, lookupS_eq _ _ hl]
      exact ⟨rfl, s', hr, rfl⟩

/-- Pure form of `addUndefinedLabel`. -/
def addU (env : Env) (l : LRef) (j : JmpLabel) (g : G) : G :=
  match l with
  | .obj h => { g with cundef := insertAt (env.pos g.ca.size g.cundef.length) (((g.heap h).getD ⟨false, 0⟩).id, j) g.cundef }
  | .str s =>
    if isLocalName s then
      match g.locals with
      | [] => g
      | st :: rest => { g with locals := { st with undef := insertAt (env.pos g.ca.size st.undef.length) (s, j) st.undef } :: rest }
    else { g with glob := { g.glob with undef := insertAt (env.pos g.ca.size g.glob.undef.length) (s, j) g.glob.undef } }

theorem addUndefinedLabel_sat (env : Env) (l : LRef) (j : JmpLabel) (g : G) (hl : g.locals ≠ []) :
    (addUndefinedLabel env l j g).Sat (fun _ g' => g' = addU env l j g) (fun _ _ => False) (ULr g l) := by
  cases l with
  | obj h =>
    unfold addUndefinedLabel addUndefC addU
    simp only
    rw [M.bind_run]
    unfold deref
    cases hh : g.heap h with
    | none => exact ⟨rfl, fun h => h hh⟩
    | some o => simp only [Res.Sat, M.modify_run, Option.getD_some]
  | str s =>
    unfold addUndefinedLabel addUndefS onScope addU
    by_cases hs : isLocalName s = true
    · simp only [hs, if_true]
      cases hh : g.locals with
      | nil => exact absurd hh hl
      | cons st rest => exact rfl
    · simp only [hs]
      exact rfl

theorem verifyInInt32_bind {σ β : Type} (x : Word) (f : BitVec 32 → M σ β) (s : σ) :
    (CA.verifyInInt32 x >>= f) s = if isInInt32 x then f (lo32 x) s else .err .OFFSET_IS_TOO_BIG s := by
  unfold verifyInInt32
  split
  · rfl
  · rfl

theorem emitHdr (env : Env) (he : env.Sane) {g : G} (hw : g.ca.Wf) (pref long : Byte) (n : Nat) (v : Word) {β : Type}
    (k : M G β) {Q : β → G → Prop} {E : Err → G → Prop} {U : UB → Prop}
    (hE : ∀ e g', Appends g g' → E e g')
    (hk : ∀ g', EmitG g g' ((if pref ≠ 0 then [pref] else []) ++ [long] ++ leBytes n v) → (k g').Sat Q E U) :
    ((do if pref ≠ 0 then liftCA (CA.db env pref) else pure ()
         liftCA (CA.db env long)
         liftCA (CA.dbN env v n)
         k : M G β) g).Sat Q E U := by
  have main : ∀ g1 x, EmitG g g1 x → (∀ g', EmitG g g' (x ++ [long] ++ leBytes n v) → (k g').Sat Q E U) →
     ((do liftCA (CA.db env long)
          liftCA (CA.dbN env v n)
          k : M G β) g1).Sat Q E U := by
    intro g1 x h1 hk
    refine M.sat_bind (((db_g env he h1.emit.wf long).mono (fun _ _ h => h)
      (fun e g' h => hE e g' (Appends.trans ⟨_, h1⟩ h))).weakU) ?_
    intro _ g2 h2
    refine M.sat_bind (((dbN_g env he h2.emit.wf v n).mono (fun _ _ h => h)
      (fun e g' h => hE e g' (Appends.trans ⟨_, h1.trans h2⟩ h))).weakU) ?_
    intro _ g3 h3
    exact hk g3 ((h1.trans h2).trans h3)
  by_cases hp : pref ≠ 0
  · rw [if_pos hp] at hk ⊢
    refine M.sat_bind (((db_g env he hw pref).mono (fun _ _ h => h)
      (fun e g' h => hE e g' h)).weakU) ?_
    intro _ g1 h1
    exact main g1 [pref] h1 hk
  · rw [if_neg hp] at hk ⊢
    exact main g [] (EmitG.refl hw) hk

theorem emitShort (env : Env) (he : env.Sane) {g : G} (hw : g.ca.Wf) (short b : Byte) {β : Type}
    (k : M G β) {Q : β → G → Prop} {E : Err → G → Prop} {U : UB → Prop}
    (hE : ∀ e g', Appends g g' → E e g')
    (hk : ∀ g', EmitG g g' [short, b] → (k g').Sat Q E U) :
    ((do liftCA (CA.db env short)
         liftCA (CA.db env b)
         k : M G β) g).Sat Q E U := by
  refine M.sat_bind (((db_g env he hw short).mono (fun _ _ h => h)
      (fun e g' h => hE e g' h)).weakU) ?_
  intro _ g1 h1
  refine M.sat_bind (((db_g env he h1.emit.wf b).mono (fun _ _ h => h)
      (fun e g' h => hE e g' (Appends.trans ⟨_, h1⟩ h))).weakU) ?_
  intro _ g2 h2
  exact hk g2 (h1.trans h2)

/-- Header bytes of a forward jump and width of its displacement. -/
def fwdHdr (near : Bool) (short long pref : Byte) : List Byte :=
  if near then (if pref ≠ 0 then [pref] else []) ++ [long] else [short]
def fwdW (near : Bool) : Nat := if near then 4 else 1

/-- Normal outcome of a jump to a label. -/
def JmpOk (env : Env) (l : LRef) (ty : LabelType) (s lo p : Byte) (g g' : G) : Prop :=
  ty ≠ .far ∧ ∃ l' off, Resolved (touch l g) l (l', off) ∧
    match off with
    | some o => isInInt32 (BitVec.ofNat 64 o - BitVec.ofNat 64 g.ca.size) = true ∧
        ∃ bs, jmpBytes (lo32 (BitVec.ofNat 64 o - BitVec.ofNat 64 g.ca.size)) ty s lo p = some bs ∧
          EmitG (touch l g) g' bs
    | none => ∃ g1, EmitG (touch l g) g1 (fwdHdr (isNEAR g ty) s lo p ++ leBytes (fwdW (isNEAR g ty)) 0) ∧
        g' = addU env l' ⟨g1.ca.size, fwdW (isNEAR g ty), .asIs, 0⟩ g1

/-- Failed calls that only emit: bytes may have been appended and the label may have got an identity. -/
def RefErr (l : LRef) (g g' : G) : Prop := Appends g g' ∨ Appends (touch l g) g'

theorem EmitG.touch' {g g1 : G} (l : LRef) {bs : List Byte} (h : EmitG g g1 bs) :
    EmitG (touch l g) (touch l g1) bs := by
  refine ⟨?_, ?_⟩
  · rw [h.frame, touch_setca]
  · rw [touch_ca, touch_ca]; exact h.emit

theorem Resolved.frame {g : G} {c : CA} {l r} (h : Resolved { g with ca := c } l r) : Resolved g l r := h

theorem rename_resolved {g g1 : G} {l : LRef} {r} {bs : List Byte} (hg : EmitG g g1 bs)
    (h : Resolved (touch l g1) l r) : Resolved (touch l g) l r := by
  rw [hg.frame, touch_setca] at h
  exact h.frame

theorem Resolved.live {g : G} {l l' : LRef} {o : Option Nat} (h : Resolved g l (l', o)) : LiveRef g l' := by
  unfold Resolved at h
  cases l with
  | obj a =>
    obtain ⟨o', h1, h2⟩ := h
    cases h2
    simp only [LiveRef, h1]; simp
  | str s =>
    obtain ⟨s', h1, h2⟩ := h
    cases h2
    exact trivial

theorem LiveRef.emit {g g1 : G} {l : LRef} {bs : List Byte} (hg : EmitG g g1 bs) : LiveRef g1 l ↔ LiveRef g l := by
  rw [hg.frame]; cases l <;> rfl

theorem opJmp_sat (env : Env) (he : env.Sane) (l : LRef) (ty : LabelType) (s lo p : Byte) (g : G)
    (hw : g.ca.Wf) (hl : g.locals ≠ []) :
    (opJmp env l ty s lo p g).Sat (fun _ g' => JmpOk env l ty s lo p g g') (fun _ g' => RefErr l g g') (ULr g l) := by
  unfold opJmp
  rw [M.throwIf_bind]
  by_cases hf : ty = .far
  · subst hf
    exact .inl ⟨[], EmitG.refl hw⟩
  have : (ty == LabelType.far) = false := by simpa using hf
  rw [this]
  simp only [Bool.false_eq_true, if_false]
  refine M.sat_bind (((reserve_g env he hw).mono (fun _ _ h => h) (fun _ _ h => .inl h)).weakU) ?_
  intro _ g1 hg1
  have hl1 : g1.locals ≠ [] := by rw [hg1.frame]; exact hl
  have hw1 : (touch l g1).ca.Wf := by rw [touch_ca]; exact hg1.emit.wf
  have hs1 : (touch l g1).ca.size = g.ca.size := by rw [touch_ca]; simpa using hg1.emit.size
  have hn1 : isNEAR (touch l g1) ty = isNEAR g ty := by
    unfold isNEAR; rw [touch_defNear, hg1.frame]
  have ht := hg1.touch' l
  refine M.sat_bind ((getOffset_sat l g1 hl1).monoU (fun _ _ h => h) (fun _ _ h => .inl (h.1 ▸ ⟨_, hg1⟩))
    (fun _ h => ⟨h.1, fun hh => h.2 ((LiveRef.emit hg1).mpr hh)⟩)) ?_
  rintro ⟨l', off⟩ g2 ⟨rfl, hr⟩
  have hr' := rename_resolved hg1 hr
  have hE : ∀ e : Err, ∀ g', Appends (touch l g1) g' → RefErr l g g' :=
    fun _ g' h => .inr (Appends.trans ⟨_, ht⟩ h)
  simp only
  rw [M.get_bind]
  cases off with
  | some o =>
    simp only
    rw [verifyInInt32_bind, hs1]
    split
    · rename_i hi
      refine ((makeJmp_g env he hw1 _ ty s lo p).mono ?_ (fun e g' h => hE e g' h)).weakU
      rintro _ g' ⟨bs, hb, hem⟩
      exact ⟨hf, l', some o, hr', hi, bs, hb, by simpa using ht.trans hem⟩
    · exact .inr ⟨_, ht⟩
  | none =>
    simp only
    rw [hn1]
    have fin : ∀ g' : G, ∀ w : Nat, w = fwdW (isNEAR g ty) → EmitG (touch l g1) g' (fwdHdr (isNEAR g ty) s lo p ++ leBytes (fwdW (isNEAR g ty)) 0) →
        ((do let g ← M.get
             addUndefinedLabel env l' ⟨g.ca.size, w, .asIs, 0⟩ : M G Unit) g').Sat
          (fun _ g' => JmpOk env l ty s lo p g g') (fun _ g' => RefErr l g g') (ULr g l) := by
      intro g' w hw' hem
      rw [M.get_bind]
      have hl2 : g'.locals ≠ [] := by rw [hem.frame]; simp only; rw [touch_locals]; exact hl1
      refine ((addUndefinedLabel_sat env l' _ g' hl2).monoU ?_ (fun _ _ h => h.elim)
        (fun _ h => absurd ((LiveRef.emit hem).mpr hr.live) h.2))
      intro _ g'' hg''
      refine ⟨hf, l', none, hr', g', by simpa using ht.trans hem, ?_⟩
      rw [hg'', hw']
    by_cases hn : isNEAR g ty = true
    · rw [hn] at fin ⊢
      simp only [if_true]
      have := emitHdr env he hw1 p lo 4 0 (k := (do
        let g ← M.get
        addUndefinedLabel env l' ⟨g.ca.size, 4, .asIs, 0⟩ : M G Unit)) (Q := fun _ g' => JmpOk env l ty s lo p g g')
        (E := fun _ g' => RefErr l g g') (U := ULr g l) hE (fun g' h => fin g' 4 rfl h)
      exact this
    · have hn' : isNEAR g ty = false := by simpa using hn
      rw [hn'] at fin ⊢
      simp only [Bool.false_eq_true, if_false]
      exact emitShort env he hw1 s 0 _ hE (fun g' h => fin g' 1 rfl h)

/-- Normal outcome of `putL` / `[rip+label]`. -/
def PutOk (env : Env) (l : LRef) (rel : Bool) (disp : Word) (g g' : G) : Prop :=
  ∃ l' off, Resolved (touch l g) l (l', off) ∧
    match off with
    | some o =>
      if rel then
        isInInt32 (BitVec.ofNat 64 o + disp - BitVec.ofNat 64 g.ca.size - 4) = true ∧
          EmitG (touch l g) g' (leBytes 4 ((lo32 (BitVec.ofNat 64 o + disp - BitVec.ofNat 64 g.ca.size - 4)).setWidth 64))
      else if g.ca.isAutoGrow then
        ∃ g1, EmitG (touch l g) g1 (leBytes 8 0) ∧
          g' = { g1 with ca := { g1.ca with addrInfo := g1.ca.addrInfo ++ [⟨g1.ca.size - 8, BitVec.ofNat 64 o, 8, .addTop⟩] } }
      else EmitG (touch l g) g' (leBytes 8 (g.ca.top + BitVec.ofNat 64 o))
    | none => ∃ g1, EmitG (touch l g) g1 (leBytes (if rel then 4 else 8) 0) ∧
        g' = addU env l' ⟨g1.ca.size, if rel then 4 else 8,
          if rel then .asIs else if g.ca.isAutoGrow then .addTop else .abs, disp⟩ g1

theorem EmitG.auto {g g' : G} {bs : List Byte} (h : EmitG g g' bs) : g'.ca.isAutoGrow = g.ca.isAutoGrow := by
  unfold CA.isAutoGrow; rw [h.emit.ty]

theorem putLInner_sat (env : Env) (he : env.Sane) (l : LRef) (rel : Bool) (disp : Word) (g : G)
    (hw : g.ca.Wf) (hl : g.locals ≠ []) :
    (putLInner env l rel disp g).Sat (fun _ g' => PutOk env l rel disp g g') (fun _ g' => RefErr l g g') (ULr g l) := by
  unfold putLInner
  refine M.sat_bind (((reserve_g env he hw).mono (fun _ _ h => h) (fun _ _ h => .inl h)).weakU) ?_
  intro _ g1 hg1
  have hl1 : g1.locals ≠ [] := by rw [hg1.frame]; exact hl
  have hw1 : (touch l g1).ca.Wf := by rw [touch_ca]; exact hg1.emit.wf
  have hs1 : (touch l g1).ca.size = g.ca.size := by rw [touch_ca]; simpa using hg1.emit.size
  have ha1 : (touch l g1).ca.isAutoGrow = g.ca.isAutoGrow := by rw [touch_ca]; exact hg1.auto
  have ht := hg1.touch' l
  refine M.sat_bind ((getOffset_sat l g1 hl1).monoU (fun _ _ h => h) (fun _ _ h => .inl (h.1 ▸ ⟨_, hg1⟩))
    (fun _ h => ⟨h.1, fun hh => h.2 ((LiveRef.emit hg1).mpr hh)⟩)) ?_
  rintro ⟨l', off⟩ g2 ⟨rfl, hr⟩
  have hr' := rename_resolved hg1 hr
  have hE : ∀ e : Err, ∀ g', Appends (touch l g1) g' → RefErr l g g' :=
    fun _ g' h => .inr (Appends.trans ⟨_, ht⟩ h)
  simp only
  rw [M.get_bind]
  cases off with
  | some o =>
    simp only
    cases rel with
    | true =>
      simp only [if_true]
      rw [verifyInInt32_bind, hs1]
      split
      · rename_i hi
        refine ((dbN_g env he hw1 _ _).mono ?_ (fun e g' h => hE e g' h)).weakU
        intro _ g' hem
        refine ⟨l', some o, hr', ?_⟩
        simp only [if_true]
        exact ⟨hi, by simpa using ht.trans hem⟩
      · exact .inr ⟨_, ht⟩
    | false =>
      simp only [Bool.false_eq_true, if_false]
      rw [ha1]
      by_cases ha : g.ca.isAutoGrow = true
      · rw [if_pos ha]
        refine M.sat_bind (((dbN_g env he hw1 _ _).mono (fun _ _ h => h) (fun e g' h => hE e g' h)).weakU) ?_
        intro _ g3 hem
        rw [M.get_bind]
        refine ⟨l', some o, hr', ?_⟩
        simp only [Bool.false_eq_true, if_false, if_pos ha]
        exact ⟨g3, by simpa using ht.trans hem, rfl⟩
      · rw [if_neg ha]
        refine ((dbN_g env he hw1 _ _).mono ?_ (fun e g' h => hE e g' h)).weakU
        intro _ g' hem
        refine ⟨l', some o, hr', ?_⟩
        simp only [Bool.false_eq_true, if_false, if_neg ha]
        have htop : (touch l g1).ca.top = g.ca.top := by
          rw [touch_ca]
          exact (hg1.emit.fixedTop (by simpa [CA.isAutoGrow] using ha)).1
        rw [htop] at hem
        simpa using ht.trans hem
  | none =>
    simp only
    refine M.sat_bind (((dbN_g env he hw1 _ _).mono (fun _ _ h => h) (fun e g' h => hE e g' h)).weakU) ?_
    intro _ g3 hem
    rw [M.get_bind]
    have hl3 : g3.locals ≠ [] := by rw [hem.frame]; simp only; rw [touch_locals]; exact hl1
    refine ((addUndefinedLabel_sat env l' _ g3 hl3).monoU ?_ (fun _ _ h => h.elim)
      (fun _ h => absurd ((LiveRef.emit hem).mpr hr.live) h.2))
    intro _ g'' hg''
    refine ⟨l', none, hr', g3, by simpa using ht.trans hem, ?_⟩
    rw [hg'']
    congr 2
    rw [hem.auto, ha1]

/-- Normal outcome of a jump to an absolute address. -/
def JmpAbsOk (addr : Word) (ty : LabelType) (s lo p : Byte) (g g' : G) : Prop :=
  ty ≠ .far ∧
  if g.ca.isAutoGrow then
    isNEAR g ty = true ∧ ∃ g1, EmitG g g1 ((if p ≠ 0 then [p] else []) ++ [lo] ++ leBytes 4 0) ∧
      g' = { g1 with ca := { g1.ca with addrInfo := g1.ca.addrInfo ++ [⟨g1.ca.size - 4, addr - BitVec.ofNat 64 g1.ca.size, 4, .abs⟩] } }
  else isInInt32 (addr - g.ca.getCurr) = true ∧
    ∃ bs, jmpBytes (lo32 (addr - g.ca.getCurr)) ty s lo p = some bs ∧ EmitG g g' bs

theorem opJmpAbs_sat (env : Env) (he : env.Sane) (addr : Word) (ty : LabelType) (s lo p : Byte) (g : G)
    (hw : g.ca.Wf) :
    (opJmpAbs env addr ty s lo p g).Sat (fun _ g' => JmpAbsOk addr ty s lo p g g') (fun _ g' => Appends g g') := by
  unfold opJmpAbs
  rw [M.throwIf_bind]
  by_cases hf : ty = .far
  · subst hf
    exact ⟨[], EmitG.refl hw⟩
  have : (ty == LabelType.far) = false := by simpa using hf
  rw [this]
  simp only [Bool.false_eq_true, if_false]
  rw [M.get_bind]
  by_cases ha : g.ca.isAutoGrow = true
  · rw [if_pos ha, M.throwIf_bind]
    by_cases hn : isNEAR g ty = true
    · rw [hn]
      simp only [Bool.not_true, Bool.false_eq_true, if_false]
      refine M.sat_bind ((reserve_g env he hw).mono (fun _ _ h => h) (fun _ _ h => h)) ?_
      intro _ g1 hg1
      have hE : ∀ e : Err, ∀ g', Appends g1 g' → Appends g g' := fun _ g' h => Appends.trans ⟨_, hg1⟩ h
      refine emitHdr env he hg1.emit.wf p lo 4 0 _ hE ?_
      intro g2 hem
      rw [M.get_bind]
      refine ⟨hf, ?_⟩
      rw [if_pos ha]
      exact ⟨hn, g2, by simpa using hg1.trans hem, rfl⟩
    · have hn' : isNEAR g ty = false := by simpa using hn
      rw [hn']
      exact ⟨[], EmitG.refl hw⟩
  · rw [if_neg ha, verifyInInt32_bind]
    split
    · rename_i hi
      refine (makeJmp_g env he hw _ ty s lo p).mono ?_ (fun e g' h => h)
      rintro _ g' ⟨bs, hb, hem⟩
      refine ⟨hf, ?_⟩
      rw [if_neg ha]
      exact ⟨hi, bs, hb, hem⟩
    · exact ⟨[], EmitG.refl hw⟩

/-- Fix-ups applied when a label gets its offset. -/
structure Fixed {κ : Type} [DecidableEq κ] (key : κ) (off : Nat) (l l' : List (κ × JmpLabel)) (c c' : CA) : Prop where
  rest : l' = l.filter (fun e => e.1 ≠ key)
  fx : ∃ fx : List (JmpLabel × Word), c' = applyFixes c fx ∧
    fx.map Prod.fst = (l.filter (fun e => e.1 = key)).map Prod.snd ∧ ∀ e ∈ fx, fixVal off e.1 c.getCurr = .ok e.2

/-- Part of the fix-ups, then an exception. -/
structure PartFixed {κ : Type} [DecidableEq κ] (key : κ) (off : Nat) (l l' : List (κ × JmpLabel)) (c c' : CA) : Prop where
  rest : l'.Sublist l
  fx : ∃ fx : List (JmpLabel × Word), c' = applyFixes c fx ∧
    (∀ e ∈ fx, (key, e.1) ∈ l) ∧ ∀ e ∈ fx, fixVal off e.1 c.getCurr = .ok e.2

theorem defineInScope_sat (key : String) (off : Nat) (st : SState) (c : CA) (hw : c.Wf)
    (hl : ∀ e ∈ st.undef, JOk c.maxSize e.2) :
    (defineInScope key off st c).Sat
      (fun _ r => st.defs key = none ∧ r.1.defs = upd st.defs key (some off) ∧
        Fixed key off st.undef r.1.undef c r.2)
      (fun e r => (e = .LABEL_IS_REDEFINED ∧ r = (st, c) ∧ st.defs key ≠ none) ∨
        (st.defs key = none ∧ r.1.defs = upd st.defs key (some off) ∧ PartFixed key off st.undef r.1.undef c r.2)) := by
  unfold defineInScope
  cases hd : st.defs key with
  | some o => exact .inl ⟨rfl, rfl, by simp⟩
  | none =>
    simp only
    have := resolve_sat key off st.undef c hw hl
    cases hr : resolve key off st.undef c with
    | ub u => rw [hr] at this; exact this
    | ok a r =>
      obtain ⟨u, c'⟩ := r
      rw [hr] at this
      exact ⟨trivial, rfl, this.1, this.2⟩
    | err e r =>
      obtain ⟨u, c'⟩ := r
      rw [hr] at this
      exact .inr ⟨trivial, rfl, this.1, this.2⟩

theorem defineId_sat (id off : Nat) (g : G) (hw : g.ca.Wf) (hl : ∀ e ∈ g.cundef, JOk g.ca.maxSize e.2) :
    (defineId id off g).Sat
      (fun _ g' => g.cdef id = none ∧ g' = { g with cdef := upd g.cdef id (some ⟨off, 1⟩), cundef := g'.cundef, ca := g'.ca } ∧
        Fixed id off g.cundef g'.cundef g.ca g'.ca)
      (fun e g' => (e = .LABEL_IS_REDEFINED ∧ g' = g ∧ g.cdef id ≠ none) ∨
        (g.cdef id = none ∧ g' = { g with cdef := upd g.cdef id (some ⟨off, 1⟩), cundef := g'.cundef, ca := g'.ca } ∧
          PartFixed id off g.cundef g'.cundef g.ca g'.ca)) := by
  unfold defineId
  cases hd : g.cdef id with
  | some o => exact .inl ⟨rfl, rfl, by simp⟩
  | none =>
    simp only
    have := resolve_sat id off g.cundef g.ca hw hl
    cases hr : resolve id off g.cundef g.ca with
    | ub u => rw [hr] at this; exact this
    | ok a r =>
      obtain ⟨u, c'⟩ := r
      rw [hr] at this
      exact ⟨trivial, rfl, this.1, this.2⟩
    | err e r =>
      obtain ⟨u, c'⟩ := r
      rw [hr] at this
      exact .inr ⟨trivial, rfl, this.1, this.2⟩

end G
end Xbyak
