import Verif.Life
/-! # Bound labels keep their meaning (helper lemmas for C12, C18, C22) -/
namespace Xbyak
namespace G
open CA

/-- The object `h` is attached to the manager and denotes offset `off`. -/
def Bound (g : G) (h off : Nat) : Prop :=
  ∃ o v, g.heap h = some o ∧ o.mgr = true ∧ g.cdef o.id = some v ∧ v.offset = off

/-- Every bound object that survives the call keeps its meaning. -/
def Keeps (g g' : G) (dead : Nat → Prop) : Prop := ∀ h off, ¬ dead h → Bound g h off → Bound g' h off

theorem Keeps.refl (g : G) (d) : Keeps g g d := fun _ _ _ h => h
theorem Keeps.trans {a b c : G} {d} (h : Keeps a b d) (h' : Keeps b c d) : Keeps a c d :=
  fun x off hd hb => h' x off hd (h x off hd hb)
theorem Keeps.same {g g' : G} {d} (s : SameLife g g') : Keeps g g' d := by
  intro x off _ hb
  unfold Bound at hb ⊢
  rw [s.heap, s.cdef]; exact hb

theorem Keeps.of_emit {g g' : G} {d} {bs : List Byte} (h : EmitG g g' bs) : Keeps g g' d := .same (.of_emit h)

theorem Keeps.touch {g : G} (h : Life g) (l : LRef) (d) : Keeps g (touch l g) d := by
  intro x off _ ⟨o, v, h1, h2, h3, h4⟩
  refine ⟨o, v, ?_, h2, by rw [touch_cdef]; exact h3, h4⟩
  unfold G.touch
  cases l with
  | str s => exact h1
  | obj y =>
    simp only
    cases hh : g.heap y with
    | none => exact h1
    | some oy =>
      simp only
      split
      · rename_i h0
        by_cases e : x = y
        · subst e; rw [h1] at hh; cases hh; exact absurd h0 (h.ptr.nz x o h1 h2)
        · simp only [upd_other _ _ _ _ e]; exact h1
      · exact h1

theorem define_keeps {g : G} (hs : BufSafe g) (x id off : Nat) (ho : ∃ o, g.heap x = some o ∧ o.id = id) (d) :
    ((do defineId id off; attach x : M G Unit) g).Sat (fun _ g' => Keeps g g' d ∧ Bound g' x off) (fun _ g' => Keeps g g' d) := by
  obtain ⟨o, hx, rfl⟩ := ho
  have hl : ∀ e ∈ g.cundef, JOk g.ca.maxSize e.2 := fun e he => hs.pend _ (.inl ⟨_, he⟩)
  have mid : ∀ g' : G, g.cdef o.id = none → g' = { g with cdef := upd g.cdef o.id (some ⟨off, 1⟩), cundef := g'.cundef, ca := g'.ca } →
      Keeps g g' d := by
    intro g' hn hf y off' _ ⟨oy, v, h1, h2, h3, h4⟩
    refine ⟨oy, v, by rw [hf]; exact h1, h2, ?_, h4⟩
    rw [hf]
    simp only
    rw [upd_other]
    · exact h3
    · intro e; rw [e, hn] at h3; cases h3
  refine M.sat_bind ((defineId_sat o.id off g hs.wf hl).mono (fun _ _ h => h) ?_) ?_
  · rintro _ g' (⟨_, rfl, _⟩ | ⟨hn, hf, _⟩)
    · exact Keeps.refl _ _
    · exact mid g' hn hf
  · rintro _ g1 ⟨hn, hf, _⟩
    have hh1 : g1.heap x = some o := by rw [hf]; exact hx
    refine (attach_sat x g1).monoU ?_ (fun _ _ h => h.elim) (fun u hu => hu.2 (by simp [LiveRef, hh1]))
    rintro _ g2 ⟨o', ho', rfl⟩
    rw [hh1] at ho'; cases ho'
    refine ⟨(mid g1 hn hf).trans ?_, ?_⟩
    · intro y off' _ ⟨oy, v, h1, h2, h3, h4⟩
      by_cases e : y = x
      · subst e
        rw [hh1] at h1; cases h1
        exact ⟨_, v, upd_same _ _ _, rfl, h3, h4⟩
      · exact ⟨oy, v, by simp only [upd_other _ _ _ _ e]; exact h1, h2, h3, h4⟩
    · refine ⟨_, ⟨off, 1⟩, upd_same _ _ _, rfl, ?_, rfl⟩
      rw [hf]; simp

theorem copy_keeps {g : G} (h : Life g) (x : Nat) (r : LabelObj) (src : Nat) (hr : g.heap src = some r)
    (hx : ∀ o, g.heap x = some o → o.mgr = false) (d) :
    ((if r.mgr then incRef r.id x else pure () : M G Unit) { g with heap := upd g.heap x (some r) }).Sat
      (fun _ g' => Keeps g g' d ∧ ∀ off, Bound g src off → Bound g' x off) (fun _ _ => False) := by
  have hne : ∀ y oy, g.heap y = some oy → oy.mgr = true → y ≠ x := by
    intro y oy h1 h2 e; subst e; rw [hx oy h1] at h2; cases h2
  by_cases hm : r.mgr = true
  · rw [if_pos hm]
    unfold incRef
    simp only [M.modify_run, Res.Sat]
    obtain ⟨v, hv, hc⟩ := cdef_of_mgr h hr hm
    rw [hv]
    simp only [Option.getD_some]
    refine ⟨?_, ?_⟩
    · intro y off' _ ⟨oy, w, h1, h2, h3, h4⟩
      by_cases e : oy.id = r.id
      · refine ⟨oy, ⟨v.offset, v.refCount + 1⟩, ?_, h2, ?_, ?_⟩
        · simp only [upd_other _ _ _ _ (hne y oy h1 h2)]; exact h1
        · simp only [e, upd_same]
        · rw [e, hv] at h3; cases h3; exact h4
      · refine ⟨oy, w, ?_, h2, ?_, h4⟩
        · simp only [upd_other _ _ _ _ (hne y oy h1 h2)]; exact h1
        · simp only [upd_other _ _ _ _ e]; exact h3
    · rintro off ⟨o, w, h1, h2, h3, h4⟩
      rw [hr] at h1; cases h1
      rw [hv] at h3; cases h3
      exact ⟨r, ⟨v.offset, v.refCount + 1⟩, upd_same _ _ _, h2, upd_same _ _ _, h4⟩
  · rw [if_neg hm]
    refine ⟨?_, ?_⟩
    · intro y off' _ ⟨oy, w, h1, h2, h3, h4⟩
      exact ⟨oy, w, by simp only [upd_other _ _ _ _ (hne y oy h1 h2)]; exact h1, h2, h3, h4⟩
    · rintro off ⟨o, w, h1, h2, h3, h4⟩
      rw [hr] at h1; cases h1
      exact absurd h2 hm

theorem dtor_keeps {g : G} (h : Life g) (x : Nat) (o : LabelObj) (hx : g.heap x = some o) :
    ((dtorLabel x) g).Sat (fun _ g' => Keeps g g' (· = x)) (fun _ _ => False) := by
  unfold dtorLabel
  refine M.sat_bind ((deref_sat x g).monoU (fun _ _ h => h) (fun _ _ h => h.elim) (fun u hu => hu.2 (by simp [LiveRef, hx]))) ?_
  rintro o' g1 ⟨rfl, ho'⟩
  rw [hx] at ho'; cases ho'
  by_cases hm : o.mgr = true
  · have hid := h.ptr.nz x o hx hm
    rw [if_pos ⟨hid, hm⟩]
    unfold decRef
    rw [M.modify_bind]
    simp only [M.modify_run, Res.Sat]
    obtain ⟨v, hv, hr⟩ := cdef_of_mgr h hx hm
    rw [hv]
    simp only
    have two : ∀ y oy, y ≠ x → g1.heap y = some oy → oy.mgr = true → oy.id = o.id → 2 ≤ cnt g1 o.id := by
      intro y oy hne h1 h2 h3
      unfold cnt
      have hmx : x ∈ (g1.ptrs.filter fun y => (g1.heap y).map LabelObj.id == some o.id) := by
        rw [List.mem_filter]; exact ⟨h.ptr.reg x o hx hm, by simp [hx]⟩
      have hmy : y ∈ (g1.ptrs.filter fun y => (g1.heap y).map LabelObj.id == some o.id).erase x := by
        rw [List.mem_erase_of_ne hne, List.mem_filter]; exact ⟨h.ptr.reg y oy h1 h2, by simp [h1, h3]⟩
      have := List.length_pos_of_mem hmy
      rw [List.length_erase_of_mem hmx] at this
      omega
    by_cases h1 : v.refCount = 1
    · rw [if_pos h1]
      intro y off' hd ⟨oy, w, a1, a2, a3, a4⟩
      have hne : oy.id ≠ o.id := by
        intro e
        have := two y oy hd a1 a2 e
        omega
      exact ⟨oy, w, by simp only [upd_other _ _ _ _ hd]; exact a1, a2, by simp only [upd_other _ _ _ _ hne]; exact a3, a4⟩
    · rw [if_neg h1]
      intro y off' hd ⟨oy, w, a1, a2, a3, a4⟩
      by_cases e : oy.id = o.id
      · refine ⟨oy, ⟨v.offset, v.refCount - 1⟩, by simp only [upd_other _ _ _ _ hd]; exact a1, a2, ?_, ?_⟩
        · simp only [e, upd_same]
        · rw [e, hv] at a3; cases a3; exact a4
      · exact ⟨oy, w, by simp only [upd_other _ _ _ _ hd]; exact a1, a2, by simp only [upd_other _ _ _ _ e]; exact a3, a4⟩
  · rw [if_neg (fun hc => hm hc.2)]
    simp only [M.modify_run, Res.Sat]
    intro y off' hd ⟨oy, w, a1, a2, a3, a4⟩
    exact ⟨oy, w, by simp only [upd_other _ _ _ _ hd]; exact a1, a2, a3, a4⟩

/-- Objects that stop existing or being bound by the call. -/
def Ends : Op → Nat → Prop
  | .dtorLabel x => (· = x)
  | .reset => fun _ => True
  | _ => fun _ => False

theorem step_keeps (env : Env) (he : env.Sane) (op : Op) (g : G) (hs : BufSafe g) (h : Life g)
    (hr : RewriteInside g op) (hl : LifeOk g op) :
    (step env op g).Sat (fun _ g' => Keeps g g' (Ends op)) (fun _ g' => Keeps g g' (Ends op)) := by
  have noU : ∀ l, LiveRef g l → ∀ u, ULr g l u → False := fun l hl u hu => hu.2 hl
  have refErr : ∀ l g' d, RefErr l g g' → Keeps g g' d := by
    rintro l g' d (⟨_, hb⟩ | ⟨_, hb⟩)
    · exact .of_emit hb
    · exact (Keeps.touch h l d).trans (.of_emit hb)
  have put : ∀ l rel disp g' d, PutOk env l rel disp g g' → Keeps g g' d := by
    rintro l rel disp g' d ⟨l', off, _, hm⟩
    refine (Keeps.touch h l d).trans ?_
    cases off with
    | some o =>
      simp only at hm
      split at hm
      · exact .of_emit hm.2
      · split at hm
        · obtain ⟨g1, hem, rfl⟩ := hm
          exact (Keeps.of_emit hem).trans (.same ⟨rfl, rfl, rfl, rfl⟩)
        · exact .of_emit hm
    | none => obtain ⟨g1, hem, rfl⟩ := hm; exact (Keeps.of_emit hem).trans (.same (.addU _ _ _ _))
  have liftK : ∀ m : M CA Unit, ∀ d, (liftCA m g).Sat (fun _ _ => True) (fun _ _ => True) →
      (liftCA m g).Sat (fun _ g' => Keeps g g' d) (fun _ g' => Keeps g g' d) := by
    intro m d hm
    unfold liftCA at hm ⊢
    cases hc : m g.ca with
    | ok a c => exact .same ⟨rfl, rfl, rfl, rfl⟩
    | err a c => exact .same ⟨rfl, rfl, rfl, rfl⟩
    | ub u => rw [hc] at hm; exact hm
  have hsl := step_life env he op g hs h hr hl
  cases op with
  | db b => exact liftK _ _ (hsl.mono (fun _ _ _ => trivial) (fun _ _ _ => trivial))
  | align x m => exact liftK _ _ (hsl.mono (fun _ _ _ => trivial) (fun _ _ _ => trivial))
  | setSize n => exact liftK _ _ (hsl.mono (fun _ _ _ => trivial) (fun _ _ _ => trivial))
  | rewrite o v n => exact liftK _ _ (hsl.mono (fun _ _ _ => trivial) (fun _ _ _ => trivial))
  | defL l =>
    cases l with
    | str s => exact (defineSlabel_sameLife s g hs).mono (fun _ _ hh => .same hh) (fun _ _ hh => .same hh)
    | obj x =>
      simp only [step, defL, defineClabel]
      refine M.sat_bind ((getId_sat x g).monoU (fun _ _ h => h) (fun _ _ h => h.elim) (noU _ hl)) ?_
      rintro id g1 ⟨rfl, ho⟩
      rw [M.get_bind]
      exact (define_keeps (hs.touch _) x id _ ho _).mono (fun _ _ hh => (Keeps.touch h _ _).trans hh.1)
        (fun _ _ hh => (Keeps.touch h _ _).trans hh)
  | jmp l ty s lo p =>
    refine (opJmp_sat env he l ty s lo p g hs.wf hs.loc).monoU ?_ (fun _ _ hh => refErr _ _ _ hh) (noU l hl)
    rintro _ g' ⟨_, l', off, _, hm⟩
    refine (Keeps.touch h l _).trans ?_
    cases off with
    | some o => obtain ⟨_, bs, _, hem⟩ := hm; exact .of_emit hem
    | none => obtain ⟨g1, hem, rfl⟩ := hm; exact (Keeps.of_emit hem).trans (.same (.addU _ _ _ _))
  | jmpAbs a ty s lo p =>
    refine (opJmpAbs_sat env he a ty s lo p g hs.wf).mono ?_ (fun _ _ ⟨_, hh⟩ => .of_emit hh)
    rintro _ g' ⟨_, hm⟩
    split at hm
    · obtain ⟨_, g1, hem, rfl⟩ := hm
      exact (Keeps.of_emit hem).trans (.same ⟨rfl, rfl, rfl, rfl⟩)
    · obtain ⟨_, bs, _, hem⟩ := hm
      exact .of_emit hem
  | putL l => exact (putLInner_sat env he l _ _ g hs.wf hs.loc).monoU (fun _ _ hh => put _ _ _ _ _ hh) (fun _ _ hh => refErr _ _ _ hh) (noU l hl)
  | ripL l d => exact (putLInner_sat env he l _ _ g hs.wf hs.loc).monoU (fun _ _ hh => put _ _ _ _ _ hh) (fun _ _ hh => refErr _ _ _ hh) (noU l hl)
  | assignL d s =>
    obtain ⟨⟨o, ho, hid⟩, hsrc⟩ := hl
    simp only [step, assign]
    refine M.sat_bind ((deref_sat s g).monoU (fun _ _ h => h) (fun _ _ h => h.elim) (noU (.obj s) hsrc)) ?_
    rintro so g1 ⟨rfl, hso⟩
    rw [M.get_bind]
    cases hc : g1.cdef so.id with
    | none => exact Keeps.refl _ _
    | some v =>
      simp only
      refine M.sat_bind ((deref_sat d g1).monoU (fun _ _ h => h) (fun _ _ h => h.elim)
        (noU (.obj d) (by simp [LiveRef, ho]))) ?_
      rintro o2 g2 ⟨rfl, hdo⟩
      rw [ho] at hdo; cases hdo
      exact (define_keeps hs d o.id _ ⟨o, ho, rfl⟩ _).mono (fun _ _ hh => hh.1) (fun _ _ hh => hh)
  | inLocal => exact Keeps.same ⟨rfl, rfl, rfl, rfl⟩
  | outLocal =>
    simp only [step, leaveLocal]
    split
    · exact Keeps.refl _ _
    · exact Keeps.refl _ _
    · split
      · exact Keeps.refl _ _
      · exact Keeps.same ⟨rfl, rfl, rfl, rfl⟩
  | newLabel x =>
    simp only [step, newLabel]
    rw [M.get_bind]
    have hx : g.heap x = none := hl
    rw [hx]
    intro y off _ ⟨oy, w, a1, a2, a3, a4⟩
    refine ⟨oy, w, ?_, a2, a3, a4⟩
    simp only
    rw [upd_other]
    · exact a1
    · intro e; subst e; rw [hx] at a1; cases a1
  | copyLabel x s =>
    obtain ⟨hx, hsl'⟩ := hl
    simp only [step, copyLabel]
    refine M.sat_bind ((deref_sat s g).monoU (fun _ _ h => h) (fun _ _ h => h.elim) (noU (.obj s) hsl')) ?_
    rintro r g1 ⟨rfl, hr'⟩
    rw [M.get_bind, hx]
    simp only
    rw [M.set_bind]
    exact (copy_keeps h x r s hr' (by simp [hx]) _).mono (fun _ _ h => h.1) (fun _ _ h => h.elim)
  | assignLabel x s =>
    obtain ⟨hx, hsl'⟩ := hl
    simp only [step, assignLabel]
    refine M.sat_bind ((deref_sat x g).monoU (fun _ _ h => h) (fun _ _ h => h.elim) (noU (.obj x) hx)) ?_
    rintro o g1 ⟨rfl, ho⟩
    rw [M.throwIf_bind]
    split
    · exact Keeps.refl _ _
    · rename_i h0
      refine M.sat_bind ((deref_sat s g1).monoU (fun _ _ h => h) (fun _ _ h => h.elim) (noU (.obj s) hsl')) ?_
      rintro r g2 ⟨rfl, hr'⟩
      rw [M.modify_bind]
      refine (copy_keeps h x r s hr' ?_ _).mono (fun _ _ h => h.1) (fun _ _ h => h.elim)
      intro o' ho'
      rw [ho] at ho'; cases ho'
      refine Bool.eq_false_iff.mpr fun hm => ?_
      have := h.ptr.nz x o ho (by simpa using hm)
      simp [this] at h0
  | dtorLabel x =>
    cases hx : g.heap x with
    | none => exact absurd hx hl
    | some o => exact (dtor_keeps h x o hx).mono (fun _ _ h => h) (fun _ _ h => h.elim)
  | setDefaultJmpNEAR b => exact Keeps.same ⟨rfl, rfl, rfl, rfl⟩
  | ready =>
    simp only [step] at hsl ⊢
    unfold ready at hsl ⊢
    rw [M.get_bind, M.throwIf_bind] at hsl ⊢
    split
    · exact Keeps.refl _ _
    · rename_i hu
      rw [if_neg hu] at hsl
      split
      · rename_i ha
        rw [if_pos ha] at hsl
        rw [M.bind_run] at hsl ⊢
        unfold liftCA at hsl ⊢
        cases hc : calcJmpAddress g.ca with
        | ub u => simp only [hc] at hsl; exact hsl
        | err e c => exact Keeps.same ⟨rfl, rfl, rfl, rfl⟩
        | ok a c =>
          simp only
          split
          · unfold setProtectMode
            cases hp : env.protect c.nProt
            · simp only [hp]; exact Keeps.same ⟨rfl, rfl, rfl, rfl⟩
            · simp only [hp]; exact Keeps.same ⟨rfl, rfl, rfl, rfl⟩
          · exact Keeps.same ⟨rfl, rfl, rfl, rfl⟩
      · exact Keeps.refl _ _
  | reset => exact hsl.mono (fun _ _ _ _ _ hd => absurd trivial hd) (fun _ _ _ _ _ hd => absurd trivial hd)

end G
end Xbyak
