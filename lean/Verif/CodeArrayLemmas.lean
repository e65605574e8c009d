import Verif.CodeArray
/-! # Lemmas about the code buffer model -/
namespace Xbyak

/-- The allocator never hands out half of the address space. -/
def Env.Sane (env : Env) : Prop := ∀ k n a j, env.alloc k n = .ok a j → n < 2 ^ 63

namespace CA

/-- Well-formed buffer: the cursor is inside the capacity and the capacity is backed by memory. -/
structure Wf (c : CA) : Prop where
  size_le : c.size ≤ c.maxSize
  max_le : c.maxSize ≤ c.mem.length
  lt : c.ty = .autoGrow → c.maxSize < 2 ^ 63

/-- The emitted code. -/
def code (c : CA) : List Byte := c.mem.take c.size

/-- `c'` is `c` after appending `bs` (possibly relocated if AutoGrow). -/
structure Emit (c c' : CA) (bs : List Byte) : Prop where
  size : c'.size = c.size + bs.length
  code : c'.code = c.code ++ bs
  wf : c'.Wf
  ty : c'.ty = c.ty
  info : c'.addrInfo = c.addrInfo
  calcD : c'.calcDone = c.calcDone
  max : c.maxSize ≤ c'.maxSize
  fixedTop : c.ty ≠ .autoGrow → c'.top = c.top ∧ c'.maxSize = c.maxSize ∧ c'.mem.length = c.mem.length
  nProt : c'.nProt = c.nProt

theorem Emit.refl {c : CA} (h : c.Wf) : Emit c c [] :=
  ⟨by simp, by simp, h, rfl, rfl, rfl, Nat.le_refl _, fun _ => ⟨rfl, rfl, rfl⟩, rfl⟩

theorem Emit.trans {a b c : CA} {x y : List Byte} (h : Emit a b x) (h' : Emit b c y) :
    Emit a c (x ++ y) := by
  refine ⟨?_, ?_, h'.wf, h'.ty.trans h.ty, h'.info.trans h.info, h'.calcD.trans h.calcD,
    Nat.le_trans h.max h'.max, ?_, h'.nProt.trans h.nProt⟩
  · rw [h'.size, h.size, List.length_append]; omega
  · rw [h'.code, h.code, List.append_assoc]
  · intro ht
    have h1 := h.fixedTop ht
    have h2 := h'.fixedTop (by rw [h.ty]; exact ht)
    exact ⟨h2.1.trans h1.1, h2.2.1.trans h1.2.1, h2.2.2.trans h1.2.2⟩

theorem code_length {c : CA} (h : c.Wf) : c.code.length = c.size := by
  have := h.size_le; have := h.max_le
  simp only [code, List.length_take]; omega

/-- growing keeps everything -/
theorem growMemory_sat (env : Env) (he : env.Sane) {c : CA} (h : c.Wf) (ht : c.ty = .autoGrow) :
    (growMemory env c).Sat
      (fun _ c' => Emit c c' [] ∧ c'.maxSize = Max.max 4096 (c.maxSize * 2) ∧ c'.mem.length = c'.maxSize)
      (fun _ c' => c' = { c with nAlloc := c.nAlloc + 1 }) := by
  have h1 := h.size_le
  have h2 := h.max_le
  have h3 := h.lt ht
  have e : c.maxSize * 2 % 2 ^ 64 = c.maxSize * 2 := Nat.mod_eq_of_lt (by omega)
  unfold growMemory
  simp only [e, DEFAULT_MAX_CODE_SIZE]
  cases ha : env.alloc c.nAlloc (Max.max 4096 (c.maxSize * 2)) with
  | fail => simp [Res.Sat]
  | freeFail e => simp [Res.Sat]
  | ok addr junk =>
    have hs := he _ _ _ _ ha
    have hc : c.size ≤ Max.max 4096 (c.maxSize * 2) ∧ c.size ≤ c.mem.length := by omega
    simp only [hc, and_self, if_true, Res.Sat]
    refine ⟨⟨by simp, ?_, ⟨?_, ?_, ?_⟩, rfl, rfl, rfl, ?_, ?_, rfl⟩, trivial, ?_⟩
    · simp only [code, List.append_nil]
      rw [List.take_append_of_le_length (by rw [List.length_take]; omega), List.take_take]
      simp
    · simp only; omega
    · simp only [List.length_append, List.length_take, List.length_map, List.length_range]; omega
    · intro _; simpa using hs
    · simp only; omega
    · intro hn; exact absurd ht hn
    · simp only [List.length_append, List.length_take, List.length_map, List.length_range]; omega

theorem emit_set {c : CA} (h : c.Wf) (hlt : c.size < c.maxSize) (b : Byte) :
    Emit c { c with mem := c.mem.set c.size b, size := c.size + 1 } [b] := by
  have h2 := h.max_le
  refine ⟨by simp, ?_, ⟨by simp only; omega, by simp only [List.length_set]; exact h2, h.lt⟩,
    rfl, rfl, rfl, Nat.le_refl _, fun _ => ⟨rfl, rfl, by simp⟩, rfl⟩
  simp only [code]
  apply List.ext_getElem
  · simp only [List.length_take, List.length_set, List.length_append, List.length_cons, List.length_nil]; omega
  · intro i h1 h2
    simp only [List.getElem_take, List.getElem_set, List.getElem_append]
    split
    · subst_vars
      have : ¬ c.size < (List.take c.size c.mem).length := by rw [List.length_take]; omega
      simp only [this, dite_false]
      simp
    · simp only [List.length_take] at h1 h2 ⊢
      simp only [List.length_set] at h1
      split
      · rfl
      · omega

theorem db_sat (env : Env) (he : env.Sane) {c : CA} (h : c.Wf) (b : Byte) :
    (db env b c).Sat (fun _ c' => Emit c c' [b])
      (fun _ c' => Emit c c' []) := by
  have h1 := h.size_le
  have h2 := h.max_le
  unfold db
  by_cases hf : c.size ≥ c.maxSize
  · simp only [hf, if_true]
    by_cases ht : c.ty = .autoGrow
    · simp only [ht, if_true]
      refine M.sat_bind (Q' := fun _ c' => Emit c c' [] ∧ c'.size < c'.maxSize) ?_ ?_
      · refine (growMemory_sat env he h ht).mono ?_ ?_
        · intro _ c' hc
          refine ⟨hc.1, ?_⟩
          have := hc.1.size
          simp at this
          omega
        · intro e c' hc
          subst hc
          exact ⟨by simp, by simp [code], ⟨h1, h2, h.lt⟩, rfl, rfl, rfl, Nat.le_refl _, fun _ => ⟨rfl, rfl, rfl⟩, rfl⟩
      · intro _ c' hc
        rw [M.bind_run]
        simp only [M.get_run]
        have hl := hc.1.wf.max_le
        have : c'.size < c'.mem.length := by omega
        simp only [this, if_true, M.set_run, Res.Sat]
        have := hc.1.trans (emit_set hc.1.wf hc.2 b)
        simpa using this
    · simp only [ht, if_false]
      rw [M.bind_run]
      simp only [M.throw_run, Res.Sat]
      exact Emit.refl h
  · simp only [hf, if_false]
    rw [M.get_bind]
    have : c.size < c.mem.length := by omega
    simp only [this, if_true, M.set_run, Res.Sat]
    exact emit_set h (by omega) b

theorem dbs_sat (env : Env) (he : env.Sane) (bs : List Byte) {c : CA} (h : c.Wf) :
    (dbs env bs c).Sat (fun _ c' => Emit c c' bs) (fun _ c' => ∃ p, p <+: bs ∧ Emit c c' p) := by
  induction bs generalizing c with
  | nil => simp only [dbs, M.pure_run', Res.Sat]; exact Emit.refl h
  | cons b t ih =>
    unfold dbs
    refine M.sat_bind (Q' := fun _ c' => Emit c c' [b]) ?_ ?_
    · refine (db_sat env he h b).mono (fun _ _ h => h) ?_
      intro _ c' hc
      exact ⟨[], List.nil_prefix, hc⟩
    · intro _ c' hc
      refine (ih hc.wf).mono ?_ ?_
      · intro _ c'' hc'
        simpa using hc.trans hc'
      · rintro _ c'' ⟨p, hp, hc'⟩
        exact ⟨b :: p, List.cons_prefix_cons.mpr ⟨rfl, hp⟩, by simpa using hc.trans hc'⟩

theorem dbN_sat (env : Env) (he : env.Sane) (v : Word) (n : Nat) {c : CA} (h : c.Wf) :
    (dbN env v n c).Sat (fun _ c' => n ≤ 8 ∧ Emit c c' (leBytes n v)) (fun _ c' => ∃ p, Emit c c' p) := by
  unfold dbN
  unfold M.throwIf
  by_cases hn : n > 8
  · simp only [hn, decide_true, if_true]
    rw [M.bind_run]
    simp only [M.throw_run, Res.Sat]
    exact ⟨[], Emit.refl h⟩
  · simp only [hn, decide_false, Bool.false_eq_true, if_false]
    rw [M.bind_run]
    simp only [M.pure_run']
    refine (dbs_sat env he _ h).mono ?_ ?_
    · intro _ c' hc; exact ⟨by omega, hc⟩
    · rintro _ c' ⟨p, _, hc⟩; exact ⟨p, hc⟩

end CA
end Xbyak
