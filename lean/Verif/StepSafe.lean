import Verif.GenChar
/-! # Every call keeps the buffer invariant (helper lemmas for C04) -/
namespace Xbyak
namespace G
open CA

/-- Buffer safety carries over to any state with the same tables and buffer. -/
theorem BufSafe.same {g g' : G} (h : BufSafe g) (hc : g'.ca = g.ca) (hg : g'.glob = g.glob)
    (hl : g'.locals = g.locals) (hu : g'.cundef = g.cundef) : BufSafe g' := by
  refine h.of (hc ▸ h.wf) (by rw [hc]; exact Nat.le_refl _) ?_ ?_ (hl ▸ h.loc)
  · intro j hj; unfold Pending at hj ⊢; rw [hg, hl, hu] at hj; exact .inl hj
  · intro i hi; rw [hc] at hi; exact .inl hi

theorem BufSafe.touch {g : G} (h : BufSafe g) (l : LRef) : BufSafe (touch l g) :=
  h.same (touch_ca l g) (touch_glob l g) (touch_locals l g) (touch_cundef l g)

theorem Appends.safe {g g' : G} (h : BufSafe g) (ha : Appends g g') : BufSafe g' := by
  obtain ⟨bs, hb⟩ := ha
  exact hb.safe h

theorem RefErr.safe {g g' : G} {l : LRef} (h : BufSafe g) (ha : RefErr l g g') : BufSafe g' := by
  rcases ha with ha | ha
  · exact ha.safe h
  · exact ha.safe (h.touch l)

theorem mem_insertAt {α : Type} (n : Nat) (x y : α) (l : List α) : y ∈ insertAt n x l ↔ y = x ∨ y ∈ l := by
  unfold insertAt
  conv => rhs; rw [← List.take_append_drop n l]
  simp only [List.mem_append, List.mem_cons]
  grind

theorem addU_ca (env : Env) (l : LRef) (j : JmpLabel) (g : G) : (addU env l j g).ca = g.ca := by
  unfold addU
  cases l with
  | obj h => rfl
  | str s =>
    simp only
    split
    · split <;> rfl
    · rfl

theorem addU_pending (env : Env) (l : LRef) (j : JmpLabel) (g : G) (k : JmpLabel) (h : Pending (addU env l j g) k) :
    Pending g k ∨ k = j := by
  unfold addU at h
  cases l with
  | obj h0 =>
    simp only [Pending] at h ⊢
    rcases h with ⟨a, h⟩ | h | h
    · rw [mem_insertAt] at h
      rcases h with h | h
      · simp only [Prod.mk.injEq] at h; exact .inr h.2
      · exact .inl (.inl ⟨a, h⟩)
    · exact .inl (.inr (.inl h))
    · exact .inl (.inr (.inr h))
  | str s =>
    simp only at h
    split at h
    · split at h
      · exact .inl h
      · rename_i st rest hloc
        simp only [Pending, hloc] at h ⊢
        rcases h with h | h | ⟨st', hst, a, h⟩
        · exact .inl (.inl h)
        · exact .inl (.inr (.inl h))
        · rcases List.mem_cons.mp hst with rfl | hst
          · simp only at h
            rw [mem_insertAt] at h
            rcases h with h | h
            · simp only [Prod.mk.injEq] at h; exact .inr h.2
            · exact .inl (.inr (.inr ⟨st, by simp, a, h⟩))
          · exact .inl (.inr (.inr ⟨st', by simp [hst], a, h⟩))
    · simp only [Pending] at h ⊢
      rcases h with h | ⟨a, h⟩ | h
      · exact .inl (.inl h)
      · rw [mem_insertAt] at h
        rcases h with h | h
        · simp only [Prod.mk.injEq] at h; exact .inr h.2
        · exact .inl (.inr (.inl ⟨a, h⟩))
      · exact .inl (.inr (.inr h))

theorem addU_locals (env : Env) (l : LRef) (j : JmpLabel) (g : G) (h : g.locals ≠ []) : (addU env l j g).locals ≠ [] := by
  unfold addU
  cases l with
  | obj h0 => exact h
  | str s =>
    simp only
    split
    · split
      · exact h
      · simp
    · exact h

theorem BufSafe.addU {g : G} (h : BufSafe g) (env : Env) (l : LRef) {j : JmpLabel} (hj : JOk g.ca.maxSize j) :
    BufSafe (addU env l j g) := by
  refine h.of (by rw [addU_ca]; exact h.wf) (by rw [addU_ca]; exact Nat.le_refl _) ?_ ?_ (addU_locals env l j g h.loc)
  · intro k hk
    rcases addU_pending env l j g k hk with h1 | rfl
    · exact .inl h1
    · right; rw [addU_ca]; exact hj
  · intro i hi; rw [addU_ca] at hi; exact .inl hi

theorem BufSafe.save {g : G} (h : BufSafe g) {i : AddrInfo} (hi : IOk g.ca.maxSize i) :
    BufSafe { g with ca := { g.ca with addrInfo := g.ca.addrInfo ++ [i] } } := by
  refine h.of ⟨h.wf.size_le, h.wf.max_le, h.wf.lt⟩ (Nat.le_refl _) (fun j hj => .inl hj) ?_ h.loc
  intro i' hi'
  simp only [List.mem_append, List.mem_singleton] at hi'
  rcases hi' with h1 | rfl
  · exact .inl h1
  · exact .inr hi

theorem jok_end {g g1 : G} {a b : List Byte} {w : Nat} (hw : w = 1 ∨ w = 4 ∨ w = 8) (hl : b.length = w)
    (h : EmitG g g1 (a ++ b)) (mode : LabelMode) (d : Word) : JOk g1.ca.maxSize ⟨g1.ca.size, w, mode, d⟩ := by
  refine ⟨hw, ?_, h.emit.wf.size_le⟩
  have := h.emit.size
  simp only [List.length_append, hl] at this
  simp only; omega

theorem fwdW_cases (n : Bool) : fwdW n = 1 ∨ fwdW n = 4 ∨ fwdW n = 8 := by cases n <;> decide

theorem JmpOk.safe {env : Env} {l : LRef} {ty s lo p} {g g' : G} (h : BufSafe g) (hj : JmpOk env l ty s lo p g g') :
    BufSafe g' := by
  obtain ⟨_, l', off, _, hm⟩ := hj
  cases off with
  | some o =>
    obtain ⟨_, bs, _, hem⟩ := hm
    exact hem.safe (h.touch l)
  | none =>
    obtain ⟨g1, hem, rfl⟩ := hm
    exact (hem.safe (h.touch l)).addU env l' (jok_end (fwdW_cases _) (leBytes_length _ _) hem _ _)

theorem PutOk.safe {env : Env} {l : LRef} {rel disp} {g g' : G} (h : BufSafe g) (hj : PutOk env l rel disp g g') :
    BufSafe g' := by
  obtain ⟨l', off, _, hm⟩ := hj
  cases off with
  | some o =>
    simp only at hm
    split at hm
    · exact hm.2.safe (h.touch l)
    · split at hm
      · obtain ⟨g1, hem, rfl⟩ := hm
        refine (hem.safe (h.touch l)).save ⟨.inr (.inr rfl), ?_⟩
        have h1 := hem.emit.size
        have h2 := hem.emit.wf.size_le
        rw [leBytes_length] at h1
        simp only; omega
      · exact hm.safe (h.touch l)
  | none =>
    obtain ⟨g1, hem, rfl⟩ := hm
    refine (hem.safe (h.touch l)).addU env l' (jok_end (a := []) ?_ (leBytes_length _ _) hem _ _)
    cases rel <;> simp

theorem JmpAbsOk.safe {addr ty s lo p} {g g' : G} (h : BufSafe g) (hj : JmpAbsOk addr ty s lo p g g') : BufSafe g' := by
  obtain ⟨_, hm⟩ := hj
  split at hm
  · obtain ⟨_, g1, hem, rfl⟩ := hm
    refine (hem.safe h).save ⟨.inr (.inl rfl), ?_⟩
    have h1 := hem.emit.size
    have h2 := hem.emit.wf.size_le
    simp only [List.length_append, leBytes_length] at h1
    simp only; omega
  · obtain ⟨_, bs, _, hem⟩ := hm
    exact hem.safe h

theorem fixed_same {κ : Type} [DecidableEq κ] {key : κ} {off : Nat} {l l' : List (κ × JmpLabel)} {c c' : CA}
    (hw : c.Wf) (hl : ∀ e ∈ l, JOk c.maxSize e.2) (h : Fixed key off l l' c c') :
    SameBuf c c' ∧ (∀ e ∈ l', e ∈ l) ∧ ((∀ i ∈ c.addrInfo, IOk c.maxSize i) → ∀ i ∈ c'.addrInfo, IOk c'.maxSize i) := by
  obtain ⟨fx, rfl, hm, _⟩ := h.fx
  have hj : ∀ e ∈ fx, JOk c.maxSize e.1 := by
    intro e he
    have : e.1 ∈ fx.map Prod.fst := List.mem_map_of_mem he
    rw [hm] at this
    obtain ⟨e', he', h2⟩ := List.mem_map.mp this
    rw [← h2]; exact hl e' (List.mem_filter.mp he').1
  have hs := applyFixes_same hw fx hj
  refine ⟨hs, ?_, ?_⟩
  · intro e he; rw [h.rest] at he; exact (List.mem_filter.mp he).1
  · intro hi; rw [hs.maxSize]; exact applyFixes_info hw fx hj hi

theorem partFixed_same {κ : Type} [DecidableEq κ] {key : κ} {off : Nat} {l l' : List (κ × JmpLabel)} {c c' : CA}
    (hw : c.Wf) (hl : ∀ e ∈ l, JOk c.maxSize e.2) (h : PartFixed key off l l' c c') :
    SameBuf c c' ∧ (∀ e ∈ l', e ∈ l) ∧ ((∀ i ∈ c.addrInfo, IOk c.maxSize i) → ∀ i ∈ c'.addrInfo, IOk c'.maxSize i) := by
  obtain ⟨fx, rfl, hm, _⟩ := h.fx
  have hj : ∀ e ∈ fx, JOk c.maxSize e.1 := by
    intro e he
    exact hl _ (hm e he)
  have hs := applyFixes_same hw fx hj
  refine ⟨hs, ?_, ?_⟩
  · intro e he; exact h.rest.subset he
  · intro hi; rw [hs.maxSize]; exact applyFixes_info hw fx hj hi

/-- `g'` is `g` after some fix-ups: the buffer has the same shape, no pending reference was added. -/
structure Fewer (g g' : G) : Prop where
  same : SameBuf g.ca g'.ca
  pend : ∀ j, Pending g' j → Pending g j
  info : (∀ i ∈ g.ca.addrInfo, IOk g.ca.maxSize i) → ∀ i ∈ g'.ca.addrInfo, IOk g'.ca.maxSize i
  loc : g.locals ≠ [] → g'.locals ≠ []

theorem Fewer.refl (g : G) : Fewer g g := ⟨SameBuf.refl _, fun _ h => h, fun h => h, fun h => h⟩
theorem Fewer.trans {a b c : G} (h : Fewer a b) (h' : Fewer b c) : Fewer a c :=
  ⟨h.same.trans h'.same, fun j hj => h.pend j (h'.pend j hj), fun hi => h'.info (h.info hi), fun hl => h'.loc (h.loc hl)⟩

theorem Fewer.safe {g g' : G} (h : BufSafe g) (hf : Fewer g g') : BufSafe g' :=
  ⟨hf.same.wf h.wf, fun j hj => by rw [hf.same.maxSize]; exact h.pend j (hf.pend j hj), hf.info h.info, hf.loc h.loc⟩

theorem Fewer.frame {g g' : G} (hc : g'.ca = g.ca) (hg : g'.glob.undef = g.glob.undef) (hl : g'.locals = g.locals)
    (hu : g'.cundef = g.cundef) : Fewer g g' := by
  refine ⟨by rw [hc]; exact SameBuf.refl _, ?_, by rw [hc]; exact fun h => h, by rw [hl]; exact fun h => h⟩
  intro j hj; unfold Pending at hj ⊢; rw [hg, hl, hu] at hj; exact hj

theorem Fewer.touch (l : LRef) (g : G) : Fewer g (touch l g) :=
  .frame (touch_ca l g) (by rw [touch_glob]) (touch_locals l g) (touch_cundef l g)

theorem defineId_fewer (id off : Nat) (g : G) (h : BufSafe g) :
    (defineId id off g).Sat (fun _ g' => Fewer g g') (fun _ g' => Fewer g g') := by
  have hl : ∀ e ∈ g.cundef, JOk g.ca.maxSize e.2 := fun e he => h.pend _ (.inl ⟨_, he⟩)
  refine (defineId_sat id off g h.wf hl).mono ?_ ?_
  · rintro _ g' ⟨_, hf, hx⟩
    obtain ⟨h1, h2, h3⟩ := fixed_same h.wf hl hx
    refine ⟨h1, ?_, h3, by rw [hf]; exact fun h => h⟩
    rintro j (⟨k, hk⟩ | hj)
    · exact .inl ⟨k, h2 _ hk⟩
    · rw [hf] at hj; exact .inr hj
  · rintro _ g' (⟨_, rfl, _⟩ | ⟨_, hf, hx⟩)
    · exact Fewer.refl _
    · obtain ⟨h1, h2, h3⟩ := partFixed_same h.wf hl hx
      refine ⟨h1, ?_, h3, by rw [hf]; exact fun h => h⟩
      rintro j (⟨k, hk⟩ | hj)
      · exact .inl ⟨k, h2 _ hk⟩
      · rw [hf] at hj; exact .inr hj

theorem ULr.weak {g : G} {l : LRef} : ∀ u, ULr g l u → UL u := fun _ h => h.1

theorem deref_sat (h : Nat) (g : G) :
    (deref h g).Sat (fun o g' => g' = g ∧ g.heap h = some o) (fun _ _ => False) (ULr g (.obj h)) := by
  unfold deref
  cases hh : g.heap h with
  | none => exact ⟨rfl, fun h => h hh⟩
  | some o => exact ⟨rfl, rfl⟩

theorem attach_sat (h : Nat) (g : G) :
    (attach h g).Sat (fun _ g' => ∃ o, g.heap h = some o ∧
      g' = { g with heap := upd g.heap h (some { o with mgr := true }), ptrs := insPtr h g.ptrs })
      (fun _ _ => False) (ULr g (.obj h)) := by
  unfold attach
  refine M.sat_bind (deref_sat h g) ?_
  rintro o g' ⟨rfl, ho⟩
  exact ⟨o, ho, rfl⟩

theorem defineClabel_fewer (h : Nat) (g : G) (hs : BufSafe g) :
    (defineClabel h g).Sat (fun _ g' => Fewer g g') (fun _ g' => Fewer g g') UL := by
  unfold defineClabel
  refine M.sat_bind ((getId_sat h g).monoU (fun _ _ h => h) (fun _ _ h => h.elim) ULr.weak) ?_
  rintro id g1 ⟨rfl, o, ho, rfl⟩
  rw [M.get_bind]
  have h1 := Fewer.touch (.obj h) g
  refine M.sat_bind (((defineId_fewer o.id _ _ (h1.safe hs)).mono (fun _ _ h => h1.trans h)
    (fun _ _ h => h1.trans h)).weakU) ?_
  intro _ g2 h2
  refine (attach_sat h g2).monoU ?_ (fun _ _ h => h.elim) ULr.weak
  rintro _ g3 ⟨o', _, rfl⟩
  exact h2.trans (.frame rfl rfl rfl rfl)

theorem assign_fewer (d s : Nat) (g : G) (hs : BufSafe g) :
    (assign d s g).Sat (fun _ g' => Fewer g g') (fun _ g' => Fewer g g') UL := by
  unfold assign
  refine M.sat_bind ((deref_sat s g).monoU (fun _ _ h => h) (fun _ _ h => h.elim) ULr.weak) ?_
  rintro so g1 ⟨rfl, hso⟩
  rw [M.get_bind]
  cases hc : g1.cdef so.id with
  | none => exact Fewer.refl _
  | some v =>
    simp only
    refine M.sat_bind ((deref_sat d g1).monoU (fun _ _ h => h) (fun _ _ h => h.elim) ULr.weak) ?_
    rintro o g2 ⟨rfl, hdo⟩
    refine M.sat_bind ((defineId_fewer o.id v.offset _ hs).weakU) ?_
    intro _ g3 h3
    refine (attach_sat d g3).monoU ?_ (fun _ _ h => h.elim) ULr.weak
    rintro _ g4 ⟨o', _, rfl⟩
    exact h3.trans (.frame rfl rfl rfl rfl)

theorem onScope_fewer (key : String) (off : Nat) (k : String) (g : G) (h : BufSafe g) :
    (onScope k (defineInScope key off) g).Sat (fun _ g' => Fewer g g') (fun _ g' => Fewer g g') := by
  unfold onScope
  split
  · cases hloc : g.locals with
    | nil => exact absurd hloc h.loc
    | cons st rest =>
      simp only
      have hl : ∀ e ∈ st.undef, JOk g.ca.maxSize e.2 :=
        fun e he => h.pend _ (.inr (.inr ⟨st, by rw [hloc]; simp, _, he⟩))
      have fin : ∀ st' c', SameBuf g.ca c' → (∀ e ∈ st'.undef, e ∈ st.undef) →
          ((∀ i ∈ g.ca.addrInfo, IOk g.ca.maxSize i) → ∀ i ∈ c'.addrInfo, IOk c'.maxSize i) →
          Fewer g { g with locals := st' :: rest, ca := c' } := by
        intro st' c' h1 h2 h3
        refine ⟨h1, ?_, h3, fun _ => by simp⟩
        rintro j (hj | hj | ⟨s0, hs0, k', hk'⟩)
        · exact .inl hj
        · exact .inr (.inl hj)
        · simp only [List.mem_cons] at hs0
          rcases hs0 with rfl | hs0
          · exact .inr (.inr ⟨st, by rw [hloc]; simp, k', h2 _ hk'⟩)
          · exact .inr (.inr ⟨s0, by rw [hloc]; simp [hs0], k', hk'⟩)
      have := defineInScope_sat key off st g.ca h.wf hl
      cases hr : defineInScope key off st g.ca with
      | ub u => rw [hr] at this; exact this
      | ok a r =>
        obtain ⟨st', c'⟩ := r
        rw [hr] at this
        obtain ⟨_, _, hx⟩ := this
        obtain ⟨h1, h2, h3⟩ := fixed_same h.wf hl hx
        exact fin st' c' h1 h2 h3
      | err e r =>
        obtain ⟨st', c'⟩ := r
        rw [hr] at this
        rcases this with ⟨_, h2, _⟩ | ⟨_, _, hx⟩
        · cases h2
          exact fin _ _ (SameBuf.refl _) (fun _ h => h) (fun h => h)
        · obtain ⟨h1, h2, h3⟩ := partFixed_same h.wf hl hx
          exact fin st' c' h1 h2 h3
  · have hl : ∀ e ∈ g.glob.undef, JOk g.ca.maxSize e.2 :=
      fun e he => h.pend _ (.inr (.inl ⟨_, he⟩))
    have fin : ∀ st' c', SameBuf g.ca c' → (∀ e ∈ st'.undef, e ∈ g.glob.undef) →
        ((∀ i ∈ g.ca.addrInfo, IOk g.ca.maxSize i) → ∀ i ∈ c'.addrInfo, IOk c'.maxSize i) →
        Fewer g { g with glob := st', ca := c' } := by
      intro st' c' h1 h2 h3
      refine ⟨h1, ?_, h3, fun h => h⟩
      rintro j (hj | ⟨k', hk'⟩ | hj)
      · exact .inl hj
      · exact .inr (.inl ⟨k', h2 _ hk'⟩)
      · exact .inr (.inr hj)
    have := defineInScope_sat key off g.glob g.ca h.wf hl
    cases hr : defineInScope key off g.glob g.ca with
    | ub u => rw [hr] at this; exact this
    | ok a r =>
      obtain ⟨st', c'⟩ := r
      rw [hr] at this
      obtain ⟨_, _, hx⟩ := this
      obtain ⟨h1, h2, h3⟩ := fixed_same h.wf hl hx
      exact fin st' c' h1 h2 h3
    | err e r =>
      obtain ⟨st', c'⟩ := r
      rw [hr] at this
      rcases this with ⟨_, h2, _⟩ | ⟨_, _, hx⟩
      · cases h2
        exact fin _ _ (SameBuf.refl _) (fun _ h => h) (fun h => h)
      · obtain ⟨h1, h2, h3⟩ := partFixed_same h.wf hl hx
        exact fin st' c' h1 h2 h3

theorem defineSlabel_fewer (s : String) (g : G) (h : BufSafe g) :
    (defineSlabel s g).Sat (fun _ g' => Fewer g g') (fun _ g' => Fewer g g') := by
  unfold defineSlabel
  rw [M.throwIf_bind]
  split
  · exact Fewer.refl _
  · rw [M.get_bind]
    split
    · cases hf : g.glob.defs "@f" with
      | some o =>
        simp only
        rw [M.modify_bind]
        have h1 : Fewer g { g with glob := { g.glob with defs := upd g.glob.defs "@f" none } } :=
          .frame rfl rfl rfl rfl
        exact (onScope_fewer _ _ _ _ (h1.safe h)).mono (fun _ _ h => h1.trans h) (fun _ _ h => h1.trans h)
      | none =>
        simp only
        rw [M.modify_bind]
        have h1 : Fewer g { g with glob := { g.glob with defs := upd g.glob.defs "@b" none } } :=
          .frame rfl rfl rfl rfl
        exact (onScope_fewer _ _ _ _ (h1.safe h)).mono (fun _ _ h => h1.trans h) (fun _ _ h => h1.trans h)
    · exact onScope_fewer _ _ _ _ h

theorem defL_fewer (l : LRef) (g : G) (h : BufSafe g) :
    (defL l g).Sat (fun _ g' => Fewer g g') (fun _ g' => Fewer g g') UL := by
  cases l with
  | obj o => exact defineClabel_fewer o g h
  | str s => exact (defineSlabel_fewer s g h).weakU

/-- Outcome of the deferred fix-ups: same shape, contents rewritten. -/
theorem calcLoop_same (l : List AddrInfo) (c : CA) (hw : c.Wf) (hl : ∀ i ∈ l, IOk c.maxSize i) :
    (calcLoop l c).Sat (fun _ c' => SameBuf c c' ∧ c'.addrInfo = c.addrInfo)
      (fun _ c' => SameBuf c c' ∧ c'.addrInfo = c.addrInfo) := by
  induction l generalizing c with
  | nil => exact ⟨SameBuf.refl _, rfl⟩
  | cons i t ih =>
    unfold calcLoop
    rw [M.get_bind]
    have hv : (AddrInfo.getVal i c.top c : Res CA Word).Sat (fun _ c' => c' = c) (fun _ c' => c' = c) := by
      unfold AddrInfo.getVal
      split
      · rw [verifyInInt32_bind]
        (repeat' split) <;> exact rfl
      · exact rfl
    refine M.sat_bind (Q' := fun _ c' => c' = c) (hv.mono (fun _ _ h => h) (fun _ _ h => h ▸ ⟨SameBuf.refl _, rfl⟩)) ?_
    rintro v c' rfl
    obtain ⟨h1, h2⟩ := hl i (by simp)
    have hm := hw.max_le
    rw [M.bind_run]
    unfold CA.rewrite
    rw [if_neg (by omega), if_pos (by omega)]
    simp only
    have hsame : SameBuf c' { c' with mem := patch c'.mem i.codeOffset (leBytes i.jmpSize v) } :=
      ⟨rfl, rfl, rfl, rfl, patch_length _ _ _ (by rw [leBytes_length]; omega), rfl, rfl, rfl⟩
    refine (ih _ (hsame.wf hw) (fun i hi => hl i (by simp [hi]))).mono ?_ ?_
    · rintro _ c'' ⟨h3, h4⟩; exact ⟨hsame.trans h3, h4⟩
    · rintro _ c'' ⟨h3, h4⟩; exact ⟨hsame.trans h3, h4⟩

theorem ready_sat (env : Env) (g : G) (h : BufSafe g) :
    (ready env g).Sat (fun _ g' => BufSafe g') (fun _ g' => BufSafe g') := by
  unfold ready
  rw [M.get_bind, M.throwIf_bind]
  split
  · exact h
  · split
    · refine M.sat_bind (Q' := fun _ g' => BufSafe g') ?_ ?_
      · have : (calcJmpAddress g.ca).Sat (fun _ c' => c'.Wf ∧ c'.maxSize = g.ca.maxSize ∧ c'.addrInfo = g.ca.addrInfo)
            (fun _ c' => c'.Wf ∧ c'.maxSize = g.ca.maxSize ∧ c'.addrInfo = g.ca.addrInfo) := by
          unfold calcJmpAddress
          rw [M.get_bind]
          split
          · exact ⟨h.wf, rfl, rfl⟩
          · refine M.sat_bind (Q' := fun _ c' => c'.Wf ∧ c'.maxSize = g.ca.maxSize ∧ c'.addrInfo = g.ca.addrInfo)
              ((calcLoop_same _ _ h.wf h.info).mono ?_ ?_) ?_
            · rintro _ c' ⟨h1, h2⟩; exact ⟨h1.wf h.wf, h1.maxSize, h2⟩
            · rintro _ c' ⟨h1, h2⟩; exact ⟨h1.wf h.wf, h1.maxSize, h2⟩
            · rintro _ c' ⟨h1, h2, h3⟩; exact ⟨⟨h1.size_le, h1.max_le, h1.lt⟩, h2, h3⟩
        have fin : ∀ g' : G, g' = { g with ca := g'.ca } → (g'.ca.Wf ∧ g'.ca.maxSize = g.ca.maxSize ∧ g'.ca.addrInfo = g.ca.addrInfo) → BufSafe g' := by
          rintro g' hf ⟨h1, h2, h3⟩
          refine h.of h1 (by rw [h2]; exact Nat.le_refl _) ?_ ?_ (by rw [hf]; exact h.loc)
          · intro j hj; rw [hf] at hj; exact .inl hj
          · intro i hi; rw [h3] at hi; exact .inl hi
        exact (liftCA_sat this).mono (fun _ g' hg => fin g' hg.1 hg.2) (fun _ g' hg => fin g' hg.1 hg.2)
      · intro _ g' hg'
        split
        · unfold liftCA setProtectMode
          simp only
          have hs : BufSafe { g' with ca := { g'.ca with nProt := g'.ca.nProt + 1 } } :=
            hg'.of ⟨hg'.wf.size_le, hg'.wf.max_le, hg'.wf.lt⟩ (Nat.le_refl _) (fun j hj => .inl hj) (fun i hi => .inl hi) hg'.loc
          split
          · rename_i heq; split at heq <;> cases heq; exact hs
          · rename_i heq; split at heq <;> cases heq; exact hs
          · rename_i heq; split at heq <;> cases heq
        · exact hg'
    · exact h

theorem clearAll_sat (l : List Nat) (g : G) :
    (clearAll l g).Sat (fun _ g' => g' = { g with heap := g'.heap }) (fun _ _ => False) UL := by
  induction l generalizing g with
  | nil => exact rfl
  | cons h t ih =>
    unfold clearAll
    refine M.sat_bind ((deref_sat h g).monoU (fun _ _ h => h) (fun _ _ h => h) ULr.weak) ?_
    rintro o g1 ⟨rfl, _⟩
    rw [M.modify_bind]
    refine (ih _).mono ?_ (fun _ _ h => h.elim)
    intro _ g' hg'
    rw [hg']

theorem reset_safe (g : G) (h : BufSafe g) :
    (reset g).Sat (fun _ g' => BufSafe g') (fun _ _ => False) UL := by
  unfold reset resetLabelPtrList
  rw [M.modify_bind, M.get_bind]
  refine M.sat_bind (clearAll_sat _ _) ?_
  rintro _ g1 h1
  simp only [M.modify_run, Res.Sat]
  have hw := h.wf
  rw [h1]
  refine ⟨⟨Nat.zero_le _, hw.max_le, hw.lt⟩, ?_, by simp [resetSize], by simp⟩
  rintro j (⟨k, hk⟩ | ⟨k, hk⟩ | ⟨st, hst, k, hk⟩)
  · simp at hk
  · simp [SState.empty] at hk
  · simp at hst; subst hst; simp [SState.empty] at hk

/-- The caller's obligation of `rewrite`: address bytes of the buffer. -/
def RewriteInside (g : G) : Op → Prop
  | .rewrite off _ n => (n = 1 ∨ n = 2 ∨ n = 4 ∨ n = 8) → off + n ≤ g.ca.mem.length
  | _ => True

theorem step_safe (env : Env) (he : env.Sane) (op : Op) (g : G) (h : BufSafe g) (hr : RewriteInside g op) :
    (step env op g).Sat (fun _ g' => BufSafe g') (fun _ g' => BufSafe g') UL := by
  have frame : ∀ g' : G, g'.ca = g.ca → g'.glob = g.glob → g'.locals = g.locals → g'.cundef = g.cundef → BufSafe g' :=
    fun g' => h.same
  cases op with
  | db b => exact ((db_g env he h.wf b).mono (fun _ _ hh => hh.safe h) (fun _ _ hh => hh.safe h)).weakU
  | defL l => exact (defL_fewer l g h).mono (fun _ _ hh => hh.safe h) (fun _ _ hh => hh.safe h)
  | jmp l ty s lo p =>
    exact (opJmp_sat env he l ty s lo p g h.wf h.loc).monoU (fun _ _ hh => hh.safe h) (fun _ _ hh => hh.safe h) ULr.weak
  | jmpAbs a ty s lo p =>
    exact ((opJmpAbs_sat env he a ty s lo p g h.wf).mono (fun _ _ hh => hh.safe h) (fun _ _ hh => hh.safe h)).weakU
  | putL l => exact (putLInner_sat env he l _ _ g h.wf h.loc).monoU (fun _ _ hh => hh.safe h) (fun _ _ hh => hh.safe h) ULr.weak
  | ripL l d => exact (putLInner_sat env he l _ _ g h.wf h.loc).monoU (fun _ _ hh => hh.safe h) (fun _ _ hh => hh.safe h) ULr.weak
  | assignL d s => exact (assign_fewer d s g h).mono (fun _ _ hh => hh.safe h) (fun _ _ hh => hh.safe h)
  | inLocal =>
    simp only [step, enterLocal, M.modify_run, Res.Sat]
    refine h.of h.wf (Nat.le_refl _) ?_ (fun i hi => .inl hi) (by simp)
    rintro j (hj | hj | ⟨st, hst, k, hk⟩)
    · exact .inl (.inl hj)
    · exact .inl (.inr (.inl hj))
    · rcases List.mem_cons.mp hst with rfl | hst
      · simp [SState.empty] at hk
      · exact .inl (.inr (.inr ⟨st, hst, k, hk⟩))
  | outLocal =>
    simp only [step, leaveLocal]
    split
    · exact h
    · exact h
    · rename_i st rest hne hloc
      split
      · exact h
      · have hr : rest ≠ [] := by
          intro he; subst he; exact hne rfl
        refine h.of h.wf (Nat.le_refl _) ?_ (fun i hi => .inl hi) hr
        rintro j (hj | hj | ⟨s', hst, k, hk⟩)
        · exact .inl (.inl hj)
        · exact .inl (.inr (.inl hj))
        · exact .inl (.inr (.inr ⟨s', by rw [hloc]; simp [show s' ∈ rest from hst], k, hk⟩))
  | newLabel o =>
    simp only [step, newLabel]
    rw [M.get_bind]
    cases g.heap o with
    | some _ => exact rfl
    | none => exact frame _ rfl rfl rfl rfl
  | copyLabel o s =>
    simp only [step, copyLabel]
    refine M.sat_bind ((deref_sat s g).monoU (fun _ _ h => h) (fun _ _ h => h.elim) ULr.weak) ?_
    rintro r g1 ⟨rfl, _⟩
    rw [M.get_bind]
    cases g1.heap o with
    | some _ => exact rfl
    | none =>
      simp only
      rw [M.set_bind]
      split
      · exact frame _ rfl rfl rfl rfl
      · exact frame _ rfl rfl rfl rfl
  | assignLabel o s =>
    simp only [step, assignLabel]
    refine M.sat_bind ((deref_sat o g).monoU (fun _ _ h => h) (fun _ _ h => h.elim) ULr.weak) ?_
    rintro r g1 ⟨rfl, _⟩
    rw [M.throwIf_bind]
    split
    · exact h
    · refine M.sat_bind ((deref_sat s g1).monoU (fun _ _ h => h) (fun _ _ h => h.elim) ULr.weak) ?_
      rintro r' g2 ⟨rfl, _⟩
      rw [M.modify_bind]
      split
      · exact frame _ rfl rfl rfl rfl
      · exact frame _ rfl rfl rfl rfl
  | dtorLabel o =>
    simp only [step, dtorLabel]
    refine M.sat_bind ((deref_sat o g).monoU (fun _ _ h => h) (fun _ _ h => h.elim) ULr.weak) ?_
    rintro r g1 ⟨rfl, _⟩
    split
    · unfold decRef
      rw [M.modify_bind]
      simp only [M.modify_run, Res.Sat]
      split
      · exact frame _ rfl rfl rfl rfl
      · split
        · exact frame _ rfl rfl rfl rfl
        · exact frame _ rfl rfl rfl rfl
    · exact frame _ rfl rfl rfl rfl
  | setDefaultJmpNEAR b => exact frame _ rfl rfl rfl rfl
  | align x m =>
    refine Res.Sat.weakU ?_
    have : (align env x m g.ca).Sat (fun _ c' => ∃ bs, Emit g.ca c' bs) (fun _ c' => ∃ bs, Emit g.ca c' bs) := by
      unfold align
      split
      · exact ⟨[], Emit.refl h.wf⟩
      · rw [M.get_bind, M.throwIf_bind]
        split
        · exact ⟨[], Emit.refl h.wf⟩
        · rw [M.throwIf_bind]
          split
          · exact ⟨[], Emit.refl h.wf⟩
          · split
            · exact (dbs_sat env he _ h.wf).mono (fun _ _ h => ⟨_, h⟩) (fun _ _ ⟨p, _, h⟩ => ⟨p, h⟩)
            · exact ⟨[], Emit.refl h.wf⟩
    refine (liftCA_sat this).mono ?_ ?_
    · rintro _ g' ⟨h1, bs, h2⟩; exact EmitG.safe h ⟨h1, h2⟩
    · rintro _ g' ⟨h1, bs, h2⟩; exact EmitG.safe h ⟨h1, h2⟩
  | setSize n =>
    refine Res.Sat.weakU ?_
    have : (CA.setSize n g.ca).Sat (fun _ c' => n ≤ g.ca.maxSize ∧ c' = { g.ca with size := n }) (fun _ c' => c' = g.ca) := by
      unfold CA.setSize
      split
      · exact rfl
      · exact ⟨by omega, rfl⟩
    refine (liftCA_sat this).mono ?_ ?_
    · rintro _ g' ⟨h1, h2, h3⟩
      rw [h1, h3]
      exact h.of ⟨h2, h.wf.max_le, h.wf.lt⟩ (Nat.le_refl _) (fun j hj => .inl hj) (fun i hi => .inl hi) h.loc
    · rintro _ g' ⟨h1, h2⟩
      rw [h1, h2]; exact h
  | rewrite o v n =>
    refine Res.Sat.weakU ?_
    have : (CA.rewrite o v n g.ca).Sat (fun _ c' => SameBuf g.ca c' ∧ c'.addrInfo = g.ca.addrInfo) (fun _ c' => c' = g.ca) := by
      unfold CA.rewrite
      split
      · exact rfl
      · rename_i hn
        have hb := hr (by omega)
        rw [if_pos hb]
        exact ⟨⟨rfl, rfl, rfl, rfl, patch_length _ _ _ (by rw [leBytes_length]; omega), rfl, rfl, rfl⟩, rfl⟩
    refine (liftCA_sat this).mono ?_ ?_
    · rintro _ g' ⟨h1, h2, h3⟩
      refine h.of (h2.wf h.wf) (by rw [h2.maxSize]; exact Nat.le_refl _) ?_ (fun i hi => .inl (by rw [h3] at hi; exact hi)) (by rw [h1]; exact h.loc)
      intro j hj; rw [h1] at hj; exact .inl hj
    · rintro _ g' ⟨h1, h2⟩
      rw [h1, h2]; exact h
  | ready => exact (ready_sat env g h).weakU
  | reset => exact (reset_safe g h).mono (fun _ _ h => h) (fun _ _ h => h.elim)

end G
end Xbyak
