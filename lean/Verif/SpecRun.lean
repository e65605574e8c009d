import Verif.RefineEnd
/-! # Facts about runs of the symbolic assembler -/
namespace Xbyak
open CA G
namespace Asm

theorem Run.append {cx : Cx} {t1 t2 : List (Op × Bool)} {s s' : Spec} :
    Run cx (t1 ++ t2) s s' ↔ ∃ m, Run cx t1 s m ∧ Run cx t2 m s' := by
  induction t1 generalizing s with
  | nil =>
    constructor
    · intro h; exact ⟨s, .nil s, h⟩
    · rintro ⟨m, h1, h2⟩; cases h1; exact h2
  | cons e t ih =>
    constructor
    · intro h
      rw [List.cons_append] at h
      cases h with
      | ok a b => obtain ⟨m, h1, h2⟩ := ih.mp b; exact ⟨m, .ok a h1, h2⟩
      | fail a b => obtain ⟨m, h1, h2⟩ := ih.mp b; exact ⟨m, .fail a h1, h2⟩
    · rintro ⟨m, h1, h2⟩
      cases h1 with
      | ok a b => exact .ok a (ih.mpr ⟨m, b, h2⟩)
      | fail a b => exact .fail a (ih.mpr ⟨m, b, h2⟩)

theorem run_ok {cx : Cx} {op : Op} {t} {s s' : Spec} : Run cx ((op, true) :: t) s s' ↔ ∃ m, Step cx op s m ∧ Run cx t m s' := by
  constructor
  · intro h; cases h with | ok a b => exact ⟨_, a, b⟩
  · rintro ⟨m, a, b⟩; exact .ok a b

theorem run_fail {cx : Cx} {op : Op} {t} {s s' : Spec} : Run cx ((op, false) :: t) s s' ↔ ∃ m, Fail op s m ∧ Run cx t m s' := by
  constructor
  · intro h; cases h with | fail a b => exact ⟨_, a, b⟩
  · rintro ⟨m, a, b⟩; exact .fail a b

theorem run_nil {cx : Cx} {s s' : Spec} : Run cx [] s s' ↔ s' = s := by
  constructor
  · intro h; cases h; rfl
  · rintro rfl; exact .nil _

/-- The specification leaves no freedom except for the padding bytes of `align`. -/
theorem Step.det {cx : Cx} {op : Op} {s s1 s2 : Spec} (h1 : Step cx op s s1) (h2 : Step cx op s s2)
    (ha : ∀ x m, op ≠ .align x m) : s1 = s2 := by
  cases op with
  | align x m => exact absurd rfl (ha x m)
  | db b => exact h1.trans h2.symm
  | jmpAbs => exact h1.trans h2.symm
  | inLocal => exact h1.trans h2.symm
  | newLabel => exact h1.trans h2.symm
  | dtorLabel => exact h1.trans h2.symm
  | setDefaultJmpNEAR => exact h1.trans h2.symm
  | reset => exact h1.trans h2.symm
  | ready => exact h1.2.trans h2.2.symm
  | setSize => exact h1.elim
  | rewrite => exact h1.elim
  | defL l =>
    obtain ⟨k, a, _, b⟩ := h1
    obtain ⟨k', a', _, b'⟩ := h2
    rw [a] at a'; cases a'
    rw [b, b']
  | jmp l =>
    obtain ⟨k, a, b⟩ := h1
    obtain ⟨k', a', b'⟩ := h2
    rw [a] at a'; cases a'
    rw [b, b']
  | putL l =>
    obtain ⟨k, a, b⟩ := h1
    obtain ⟨k', a', b'⟩ := h2
    rw [a] at a'; cases a'
    rw [b, b']
  | ripL l =>
    obtain ⟨k, a, b⟩ := h1
    obtain ⟨k', a', b'⟩ := h2
    rw [a] at a'; cases a'
    rw [b, b']
  | assignL d r =>
    obtain ⟨n, m, o, a1, a2, a3, _, a4⟩ := h1
    obtain ⟨n', m', o', b1, b2, b3, _, b4⟩ := h2
    rw [a1] at b1; cases b1
    rw [a2] at b2; cases b2
    rw [a3] at b3; cases b3
    rw [a4, b4]
  | outLocal =>
    obtain ⟨a, b, r, c1, _, c2⟩ := h1
    obtain ⟨a', b', r', d1, _, d2⟩ := h2
    rw [c1] at d1; cases d1
    rw [c2, d2]
  | copyLabel =>
    obtain ⟨a, c1, c2⟩ := h1
    obtain ⟨a', d1, d2⟩ := h2
    rw [c1] at d1; cases d1
    rw [c2, d2]
  | assignLabel =>
    obtain ⟨_, a, c1, c2⟩ := h1
    obtain ⟨_, a', d1, d2⟩ := h2
    rw [c1] at d1; cases d1
    rw [c2, d2]

/-- Number of successful `L("@@")`. -/
def atCount (t : List (Op × Bool)) : Nat := t.countP fun e => e == (.defL (.str "@@"), true)

/-- What a run without `reset` cannot undo. -/
structure Grow (s s' : Spec) (n : Nat) : Prop where
  cells : ∃ cs, s'.cells = s.cells ++ cs
  defs : ∀ k o, s.defs k = some o → s'.defs k = some o
  anons : s'.anons = s.anons + n
  ids : s.nextId ≤ s'.nextId
  scopes : s.nextScope ≤ s'.nextScope

theorem Grow.refl (s : Spec) : Grow s s 0 := ⟨⟨[], by simp⟩, fun _ _ h => h, rfl, Nat.le_refl _, Nat.le_refl _⟩
theorem Grow.trans {a b c : Spec} {n m : Nat} (h : Grow a b n) (h' : Grow b c m) : Grow a c (n + m) := by
  obtain ⟨cs, e⟩ := h.cells
  obtain ⟨cs', e'⟩ := h'.cells
  exact ⟨⟨cs ++ cs', by rw [e', e, List.append_assoc]⟩, fun k o hk => h'.defs k o (h.defs k o hk), by rw [h'.anons, h.anons]; omega,
    Nat.le_trans h.ids h'.ids, Nat.le_trans h.scopes h'.scopes⟩

theorem Grow.touch (s : Spec) (l : LRef) : Grow s (s.touch l) 0 := by
  unfold Spec.touch
  cases l with
  | str n => exact .refl s
  | obj h =>
    simp only
    split
    · exact ⟨⟨[], by simp⟩, fun _ _ h => h, rfl, Nat.le_succ _, Nat.le_refl _⟩
    · exact .refl s

theorem Grow.emit (s : Spec) (cs : List Cell) : Grow s (s.emit cs) 0 :=
  ⟨⟨cs, rfl⟩, fun _ _ h => h, rfl, Nat.le_refl _, Nat.le_refl _⟩

theorem Grow.define (s : Spec) (k : Key) (o n : Nat) (h : s.defs k = none) :
    Grow s { s.define k o with anons := s.anons + n } n := by
  refine ⟨⟨[], by simp [Spec.define]⟩, fun k' o' hk => ?_, rfl, Nat.le_refl _, Nat.le_refl _⟩
  show upd s.defs k (some o) k' = _
  rw [upd_other]
  · exact hk
  · rintro rfl; rw [h] at hk; cases hk

theorem Step.grow {cx : Cx} {op : Op} {s s' : Spec} (h : Step cx op s s') (hr : op ≠ .reset) :
    Grow s s' (if op = .defL (.str "@@") then 1 else 0) := by
  cases op with
  | db b => subst h; exact .emit _ _
  | defL l =>
    obtain ⟨k, a, b, rfl⟩ := h
    have e : s.anons = (s.touch l).anons := (sp_touch_anons s l).symm
    have hd : (s.touch l).defs k = none := by rw [sp_touch_defs]; exact b
    have h2 := (Grow.touch s l).trans (Grow.define (s.touch l) k s.size (if l = .str "@@" then 1 else 0) hd)
    rw [Nat.zero_add] at h2
    by_cases hl : l = .str "@@"
    · subst hl; exact h2
    · have hl' : ¬ Op.defL l = .defL (.str "@@") := by simpa using hl
      rw [if_neg hl']
      rw [if_neg hl] at h2 ⊢
      rw [e]; exact h2
  | jmp l => obtain ⟨k, a, rfl⟩ := h; exact (Grow.touch s l).trans (.emit _ _)
  | jmpAbs => subst h; exact .emit _ _
  | putL l => obtain ⟨k, a, rfl⟩ := h; exact (Grow.touch s l).trans (.emit _ _)
  | ripL l => obtain ⟨k, a, rfl⟩ := h; exact (Grow.touch s l).trans (.emit _ _)
  | assignL d r =>
    obtain ⟨nd, nr, o, _, _, _, b, rfl⟩ := h
    have hd : (s.touch (.obj d)).defs (.obj nd) = none := by rw [sp_touch_defs]; exact b
    exact (Grow.touch s _).trans (Grow.define _ _ o 0 hd)
  | inLocal => subst h; exact ⟨⟨[], by simp⟩, fun _ _ h => h, rfl, Nat.le_refl _, Nat.le_succ _⟩
  | outLocal => obtain ⟨_, _, _, _, _, rfl⟩ := h; exact ⟨⟨[], by simp⟩, fun _ _ h => h, rfl, Nat.le_refl _, Nat.le_refl _⟩
  | newLabel => subst h; exact ⟨⟨[], by simp⟩, fun _ _ h => h, rfl, Nat.le_refl _, Nat.le_refl _⟩
  | copyLabel => obtain ⟨_, _, rfl⟩ := h; exact ⟨⟨[], by simp⟩, fun _ _ h => h, rfl, Nat.le_refl _, Nat.le_refl _⟩
  | assignLabel => obtain ⟨_, _, _, rfl⟩ := h; exact ⟨⟨[], by simp⟩, fun _ _ h => h, rfl, Nat.le_refl _, Nat.le_refl _⟩
  | dtorLabel => subst h; exact ⟨⟨[], by simp⟩, fun _ _ h => h, rfl, Nat.le_refl _, Nat.le_refl _⟩
  | setDefaultJmpNEAR => subst h; exact ⟨⟨[], by simp⟩, fun _ _ h => h, rfl, Nat.le_refl _, Nat.le_refl _⟩
  | align => obtain ⟨_, rfl⟩ := h; exact .emit _ _
  | setSize => exact h.elim
  | rewrite => exact h.elim
  | reset => exact absurd rfl hr
  | ready => obtain ⟨_, rfl⟩ := h; exact .refl _

theorem Fail.grow {op : Op} {s s' : Spec} (h : Fail op s s') : Grow s s' 0 := by
  obtain ⟨bs, rfl | ⟨l, _, rfl⟩⟩ := h
  · exact .emit _ _
  · exact (Grow.touch s l).trans (.emit _ _)

theorem Run.grow {cx : Cx} {t : List (Op × Bool)} {s s' : Spec} (h : Run cx t s s') (hr : ∀ e ∈ t, e.1 ≠ .reset) :
    Grow s s' (atCount t) := by
  induction h with
  | nil s => exact .refl s
  | @ok op t s s' s'' a b ih =>
    have h1 := (a.grow (hr (op, true) (by simp))).trans (ih fun e he => hr e (by simp [he]))
    have : atCount ((op, true) :: t) = (if op = .defL (.str "@@") then 1 else 0) + atCount t := by
      unfold atCount
      rw [List.countP_cons]
      by_cases ho : op = .defL (.str "@@")
      · subst ho; simp; omega
      · simp [ho]
    rw [this]; exact h1
  | @fail op t s s' s'' a b ih =>
    have h1 := a.grow.trans (ih fun e he => hr e (by simp [he]))
    have : atCount ((op, false) :: t) = 0 + atCount t := by
      unfold atCount
      rw [List.countP_cons]
      simp
    rw [this]; exact h1

end Asm
end Xbyak
