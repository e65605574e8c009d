import Verif.Lands
/-! # Scopes and identities along a run of the specification -/
namespace Xbyak
open CA G
namespace Asm

/-- Scope instances are never reused. -/
structure ScopeOk (s : Spec) : Prop where
  nodup : s.scopes.Nodup
  lt : ∀ σ ∈ s.scopes, σ < s.nextScope

theorem Tab.scopeOk {g : G} {s : Spec} (h : Tab g s) : ScopeOk s := ⟨h.nodup, h.scopeLt⟩

theorem touch_nextScope (s : Spec) (l : LRef) : (s.touch l).nextScope = s.nextScope := by
  unfold Spec.touch
  cases l with
  | str n => rfl
  | obj h => simp only; split <;> rfl

theorem Step.nextScope {cx : Cx} {op : Op} {s s' : Spec} (h : Step cx op s s') (h1 : op ≠ .inLocal) (h3 : op ≠ .reset) :
    s'.nextScope = s.nextScope := by
  cases op with
  | db b => subst h; rfl
  | defL l => obtain ⟨k, a, b, rfl⟩ := h; exact touch_nextScope s l
  | jmp l => obtain ⟨k, a, rfl⟩ := h; exact touch_nextScope s l
  | jmpAbs => subst h; rfl
  | putL l => obtain ⟨k, a, rfl⟩ := h; exact touch_nextScope s l
  | ripL l => obtain ⟨k, a, rfl⟩ := h; exact touch_nextScope s l
  | assignL d r => obtain ⟨nd, nr, o, _, _, _, b, rfl⟩ := h; exact touch_nextScope s _
  | inLocal => exact absurd rfl h1
  | outLocal => obtain ⟨_, _, _, _, _, rfl⟩ := h; rfl
  | newLabel y => subst h; rfl
  | copyLabel y => obtain ⟨_, _, rfl⟩ := h; rfl
  | assignLabel y => obtain ⟨_, _, _, rfl⟩ := h; rfl
  | dtorLabel y => subst h; rfl
  | setDefaultJmpNEAR => subst h; rfl
  | align => obtain ⟨_, rfl⟩ := h; rfl
  | setSize => exact h.elim
  | rewrite => exact h.elim
  | reset => exact absurd rfl h3
  | ready => obtain ⟨_, rfl⟩ := h; rfl

theorem Fail.nextScope {op : Op} {s s' : Spec} (h : Fail op s s') : s'.nextScope = s.nextScope := by
  obtain ⟨bs, rfl | ⟨l, _, rfl⟩⟩ := h
  · rfl
  · exact touch_nextScope s l

/-- Definitions of `n` happen in scopes opened after the start only, and the starting scope is not left. -/
def innerOnly (n : String) : List (Op × Bool) → Nat → Bool
  | [], _ => true
  | (.inLocal, true) :: t, d => innerOnly n t (d + 1)
  | (.outLocal, true) :: t, d => match d with
    | 0 => false
    | d + 1 => innerOnly n t d
  | (.defL (.str m), true) :: t, d => (m != n || d != 0) && innerOnly n t d
  | _ :: t, d => innerOnly n t d

/-- Keys other than the defined one are untouched. -/
theorem Step.defs_loc {cx : Cx} {op : Op} {s s' : Spec} (h : Step cx op s s') (hr : op ≠ .reset) (σ : Nat) (n : String)
    (hn : isDot n = true) (hd : op = .defL (.str n) → s.scopes.head? ≠ some σ) (h0 : s.defs (.loc σ n) = none) :
    s'.defs (.loc σ n) = none := by
  cases op with
  | db b => subst h; exact h0
  | defL l =>
    obtain ⟨k, a, b, rfl⟩ := h
    show upd (s.touch l).defs k (some s.size) (.loc σ n) = none
    rw [sp_touch_defs]
    by_cases hk : Key.loc σ n = k
    · exfalso
      subst hk
      cases l with
      | obj x =>
        simp only [Spec.keyDef] at a
        cases hx : (s.touch (.obj x)).objs x with
        | none => rw [hx] at a; cases a
        | some v => rw [hx] at a; cases a
      | str m =>
        simp only [Spec.keyDef, Spec.touch] at a
        split at a
        · cases a
        · split at a
          · cases a
          · split at a
            · cases hh : s.scopes.head? with
              | none => rw [hh] at a; cases a
              | some τ =>
                rw [hh] at a
                simp only [Option.map_some, Option.some.injEq, Key.loc.injEq] at a
                obtain ⟨rfl, rfl⟩ := a
                exact hd rfl hh
            · cases a
    · rw [upd_other _ _ _ _ hk]; exact h0
  | jmp l => obtain ⟨k, a, rfl⟩ := h; show (s.touch l).defs _ = _; rw [sp_touch_defs]; exact h0
  | jmpAbs => subst h; exact h0
  | putL l => obtain ⟨k, a, rfl⟩ := h; show (s.touch l).defs _ = _; rw [sp_touch_defs]; exact h0
  | ripL l => obtain ⟨k, a, rfl⟩ := h; show (s.touch l).defs _ = _; rw [sp_touch_defs]; exact h0
  | assignL d r =>
    obtain ⟨nd, nr, o, _, _, _, b, rfl⟩ := h
    show upd (s.touch (.obj d)).defs (.obj nd) (some o) (.loc σ n) = none
    rw [upd_other _ _ _ _ (by simp), sp_touch_defs]; exact h0
  | inLocal => subst h; exact h0
  | outLocal => obtain ⟨_, _, _, _, _, rfl⟩ := h; exact h0
  | newLabel y => subst h; exact h0
  | copyLabel y => obtain ⟨_, _, rfl⟩ := h; exact h0
  | assignLabel y => obtain ⟨_, _, _, rfl⟩ := h; exact h0
  | dtorLabel y => subst h; exact h0
  | setDefaultJmpNEAR => subst h; exact h0
  | align => obtain ⟨_, rfl⟩ := h; exact h0
  | setSize => exact h.elim
  | rewrite => exact h.elim
  | reset => exact absurd rfl hr
  | ready => obtain ⟨_, rfl⟩ := h; exact h0

theorem Run.inner {cx : Cx} {t : List (Op × Bool)} {s s' : Spec} {n : String} {d σ : Nat} {inner base : List Nat}
    (h : Run cx t s s') (hn : isDot n = true) (hb : innerOnly n t d = true) (hs : s.scopes = inner ++ σ :: base)
    (hd : inner.length = d) (hok : ScopeOk s) (h0 : s.defs (.loc σ n) = none) (hr : ∀ e ∈ t, e.1 ≠ .reset) :
    s'.defs (.loc σ n) = none := by
  induction h generalizing d inner with
  | nil s => exact h0
  | @ok op t s s' s'' a b ih =>
    have hr' : ∀ e ∈ t, e.1 ≠ .reset := fun e he => hr e (by simp [he])
    have hres : op ≠ .reset := hr (op, true) (by simp)
    have hnodup := hok.nodup
    by_cases h1 : op = .inLocal
    · subst h1
      refine ih (d := d + 1) (inner := s.nextScope :: inner) hb ?_ (by simp [hd]) ?_ (by rw [a]; exact h0) hr'
      · rw [a]; simp [hs]
      · rw [a]
        refine ⟨List.nodup_cons.mpr ⟨fun hm => Nat.lt_irrefl _ (hok.lt _ hm), hok.nodup⟩, ?_⟩
        intro τ hτ
        simp only [List.mem_cons] at hτ
        rcases hτ with rfl | hτ
        · simp
        · have := hok.lt τ hτ; simp only; omega
    · by_cases h2 : op = .outLocal
      · subst h2
        obtain ⟨τ, τ', rest, c1, _, rfl⟩ := a
        cases d with
        | zero => simp [innerOnly] at hb
        | succ d =>
          match inner, hd with
          | i :: inner, hd =>
            have hs' := hs
            rw [c1, List.cons_append] at hs'
            simp only [List.cons.injEq] at hs'
            refine ih (d := d) (inner := inner) hb hs'.2 (by simpa using hd) ⟨?_, ?_⟩ h0 hr'
            · rw [c1] at hnodup; exact (List.nodup_cons.mp hnodup).2
            · intro x hx; exact hok.lt x (by rw [c1]; exact List.mem_cons_of_mem _ hx)
      · have hsc := a.scopes h1 h2 hres
        have hnx := a.nextScope h1 hres
        refine ih (d := d) (inner := inner) ?_ (by rw [hsc]; exact hs) hd ⟨by rw [hsc]; exact hnodup, by rw [hsc, hnx]; exact hok.lt⟩ ?_ hr'
        · cases op with
          | defL l => cases l with
            | obj x => exact hb
            | str m => simp only [innerOnly, Bool.and_eq_true] at hb; exact hb.2
          | inLocal => exact absurd rfl h1
          | outLocal => exact absurd rfl h2
          | _ => exact hb
        · refine a.defs_loc hres σ n hn ?_ h0
          rintro rfl hh
          simp only [innerOnly, bne_self_eq_false, Bool.false_or, Bool.and_eq_true, bne_iff_ne, ne_eq] at hb
          match inner, hd with
          | [], hd => exact hb.1 hd.symm
          | i :: inner, hd =>
            rw [hs, List.cons_append] at hh
            simp only [List.head?_cons, Option.some.injEq] at hh
            subst hh
            rw [hs, List.cons_append] at hnodup
            exact (List.nodup_cons.mp hnodup).1 (by simp)
  | @fail op t s s' s'' a b ih =>
    have hsc := a.scopes
    have hnx := a.nextScope
    have hdf : s'.defs = s.defs := by
      obtain ⟨bs, rfl | ⟨l, _, rfl⟩⟩ := a
      · rfl
      · exact sp_touch_defs s l
    refine ih (d := d) (inner := inner) ?_ (by rw [hsc]; exact hs) hd ⟨by rw [hsc]; exact hok.nodup, by rw [hsc, hnx]; exact hok.lt⟩
      (by rw [hdf]; exact h0) (fun e he => hr e (by simp [he]))
    cases op with
    | defL l => cases l <;> exact hb
    | _ => exact hb

/-! ## copy classes of `Label` objects -/

/-- Which objects are copies of each other: class of every live object, and the next class. -/
def classStep (op : Op) (c : (Nat → Option Nat) × Nat) : (Nat → Option Nat) × Nat :=
  match op with
  | .newLabel h => (upd c.1 h (some c.2), c.2 + 1)
  | .copyLabel h r | .assignLabel h r => (upd c.1 h (c.1 r), c.2)
  | .dtorLabel h => (upd c.1 h none, c.2)
  | _ => c

/-- Classes after a history (failed calls copy nothing). -/
def classes : List (Op × Bool) → (Nat → Option Nat) × Nat → (Nat → Option Nat) × Nat
  | [], c => c
  | (op, true) :: t, c => classes t (classStep op c)
  | (_, false) :: t, c => classes t c

/-- Same identity in use implies same class. -/
structure ClassOk (s : Spec) (c : Nat → Option Nat) : Prop where
  lt : ∀ x n, s.objs x = some n → n ≠ 0 → n < s.nextId
  pos : 0 < s.nextId
  same : ∀ x y n, s.objs x = some n → s.objs y = some n → n ≠ 0 → c x = c y

theorem ClassOk.touch {s : Spec} {c} (h : ClassOk s c) (l : LRef) : ClassOk (s.touch l) c := by
  unfold Spec.touch
  cases l with
  | str n => exact h
  | obj x =>
    simp only
    split
    · refine ⟨?_, Nat.succ_pos _, ?_⟩
      · intro y n hy h0
        simp only at hy ⊢
        by_cases e : y = x
        · subst e; rw [upd_same] at hy; cases hy; omega
        · rw [upd_other _ _ _ _ e] at hy; have := h.lt y n hy h0; omega
      · intro y z n hy hz h0
        simp only at hy hz
        by_cases e : y = x
        · subst e; rw [upd_same] at hy; cases hy
          by_cases e' : z = y
          · rw [e']
          · rw [upd_other _ _ _ _ e'] at hz; have := h.lt z _ hz h0; omega
        · rw [upd_other _ _ _ _ e] at hy
          by_cases e' : z = x
          · subst e'; rw [upd_same] at hz; cases hz; have := h.lt y _ hy h0; omega
          · rw [upd_other _ _ _ _ e'] at hz; exact h.same y z n hy hz h0
    · exact h

theorem ClassOk.copy {s : Spec} {c} (h : ClassOk s c) {x r n : Nat} (hr : s.objs r = some n) :
    ClassOk { s with objs := upd s.objs x (some n) } (upd c x (c r)) := by
  refine ⟨?_, h.pos, ?_⟩
  · intro y m hy h0
    simp only at hy ⊢
    by_cases e : y = x
    · subst e; rw [upd_same] at hy; cases hy; exact h.lt r _ hr h0
    · rw [upd_other _ _ _ _ e] at hy; exact h.lt y m hy h0
  · intro y z m hy hz h0
    simp only at hy hz
    by_cases e : y = x
    · rw [e, upd_same] at hy ⊢; cases hy
      by_cases e' : z = x
      · rw [e', upd_same]
      · rw [upd_other _ _ _ _ e'] at hz ⊢; exact h.same r z _ hr hz h0
    · rw [upd_other _ _ _ _ e] at hy ⊢
      by_cases e' : z = x
      · rw [e', upd_same] at hz ⊢; cases hz; exact h.same y r _ hy hr h0
      · rw [upd_other _ _ _ _ e'] at hz ⊢; exact h.same y z m hy hz h0

theorem ClassOk.put {s : Spec} {c} (h : ClassOk s c) {x : Nat} {v w : Option Nat} (hv : v = none ∨ v = some 0) :
    ClassOk { s with objs := upd s.objs x v } (upd c x w) := by
  have key : ∀ y n, upd s.objs x v y = some n → n ≠ 0 → y ≠ x ∧ s.objs y = some n := by
    intro y n hy h0
    by_cases e : y = x
    · subst e
      rw [upd_same] at hy
      rcases hv with rfl | rfl
      · cases hy
      · cases hy; exact absurd rfl h0
    · rw [upd_other _ _ _ _ e] at hy; exact ⟨e, hy⟩
  refine ⟨fun y n hy h0 => h.lt y n (key y n hy h0).2 h0, h.pos, fun y z n hy hz h0 => ?_⟩
  obtain ⟨e1, a1⟩ := key y n hy h0
  obtain ⟨e2, a2⟩ := key z n hz h0
  rw [upd_other _ _ _ _ e1, upd_other _ _ _ _ e2]
  exact h.same y z n a1 a2 h0

theorem ClassOk.sameObjs {s s' : Spec} {c} (h : ClassOk s c) (h1 : s'.objs = s.objs) (h2 : s'.nextId = s.nextId) : ClassOk s' c :=
  ⟨by rw [h1, h2]; exact h.lt, by rw [h2]; exact h.pos, by rw [h1]; exact h.same⟩

theorem Step.classes {cx : Cx} {op : Op} {s s' : Spec} {c} (h : Step cx op s s') (hc : ClassOk s c.1) :
    ClassOk s' (classStep op c).1 := by
  cases op with
  | db b => subst h; exact hc.sameObjs rfl rfl
  | defL l => obtain ⟨k, a, b, rfl⟩ := h; exact (hc.touch l).sameObjs rfl rfl
  | jmp l => obtain ⟨k, a, rfl⟩ := h; exact (hc.touch l).sameObjs rfl rfl
  | jmpAbs => subst h; exact hc.sameObjs rfl rfl
  | putL l => obtain ⟨k, a, rfl⟩ := h; exact (hc.touch l).sameObjs rfl rfl
  | ripL l => obtain ⟨k, a, rfl⟩ := h; exact (hc.touch l).sameObjs rfl rfl
  | assignL d r => obtain ⟨nd, nr, o, _, _, _, b, rfl⟩ := h; exact (hc.touch _).sameObjs rfl rfl
  | inLocal => subst h; exact hc.sameObjs rfl rfl
  | outLocal => obtain ⟨_, _, _, _, _, rfl⟩ := h; exact hc.sameObjs rfl rfl
  | newLabel y => subst h; exact hc.put (.inr rfl)
  | copyLabel y => obtain ⟨_, a, rfl⟩ := h; exact hc.copy a
  | assignLabel y => obtain ⟨_, _, a, rfl⟩ := h; exact hc.copy a
  | dtorLabel y => subst h; exact hc.put (.inl rfl)
  | setDefaultJmpNEAR => subst h; exact hc.sameObjs rfl rfl
  | align => obtain ⟨_, rfl⟩ := h; exact hc.sameObjs rfl rfl
  | setSize => exact h.elim
  | rewrite => exact h.elim
  | reset =>
    subst h
    have key : ∀ x n, (s.objs x).map (fun _ => 0) = some n → n = 0 := by
      intro x n hx
      cases ho : s.objs x with
      | none => rw [ho] at hx; cases hx
      | some m => rw [ho] at hx; cases hx; rfl
    exact ⟨fun x n hx h0 => absurd (key x n hx) h0, Nat.one_pos, fun x y n hx _ h0 => absurd (key x n hx) h0⟩
  | ready => obtain ⟨_, rfl⟩ := h; exact hc

theorem Run.classes {cx : Cx} {t : List (Op × Bool)} {s s' : Spec} {c} (h : Run cx t s s') (hc : ClassOk s c.1) :
    ClassOk s' (classes t c).1 := by
  induction h generalizing c with
  | nil s => exact hc
  | @ok op t s s' s'' a b ih => exact ih (a.classes hc)
  | @fail op t s s' s'' a b ih =>
    refine ih (c := c) ?_
    obtain ⟨bs, rfl | ⟨l, _, rfl⟩⟩ := a
    · exact hc.sameObjs rfl rfl
    · exact (hc.touch l).sameObjs rfl rfl

theorem classOk_init : ClassOk Spec.init fun _ => none :=
  ⟨fun _ _ h => (by cases h), Nat.one_pos, fun _ _ _ h => (by cases h)⟩

end Asm
end Xbyak
