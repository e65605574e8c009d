import Verif.StepSafe
/-! # Lifecycle invariant of `Label` objects (helper lemmas for C17, C18) -/
namespace Xbyak
namespace G
open CA

theorem ne_of_notin {x h : Nat} {l : List Nat} (hx : x ∈ l) (hn : h ∉ l) : x ≠ h := fun e => hn (e ▸ hx)

/-- Number of live objects attached to the manager with identity `n`. -/
def cnt (g : G) (n : Nat) : Nat := (g.ptrs.filter fun h => (g.heap h).map LabelObj.id == some n).length

/-- Reference counts match the live objects.  A definition that failed half way keeps count 1 without objects. -/
def RefOk (g : G) : Prop := ∀ n, match g.cdef n with
  | none => cnt g n = 0
  | some v => v.refCount = max 1 (cnt g n)

structure Life (g : G) : Prop where
  ptr : PtrOk g
  ref : RefOk g

/-- Obligations of the caller regarding `Label` objects: storage is fresh for construction, arguments are alive,
and the destination of `assignL` has been used before. -/
def LifeOk (g : G) : Op → Prop
  | .defL l | .jmp l .. | .putL l | .ripL l _ => LiveRef g l
  | .assignL d s => (∃ o, g.heap d = some o ∧ o.id ≠ 0) ∧ g.heap s ≠ none
  | .newLabel h => g.heap h = none
  | .copyLabel h s => g.heap h = none ∧ g.heap s ≠ none
  | .assignLabel h s => g.heap h ≠ none ∧ g.heap s ≠ none
  | .dtorLabel h => g.heap h ≠ none
  | _ => True

/-- The part of the state the invariant talks about. -/
structure SameLife (g g' : G) : Prop where
  heap : g'.heap = g.heap
  ptrs : g'.ptrs = g.ptrs
  cdef : g'.cdef = g.cdef
  lid : g'.labelId = g.labelId

theorem Life.same {g g' : G} (h : Life g) (s : SameLife g g') : Life g' := by
  obtain ⟨h1, h2, h3, h4⟩ := s
  refine ⟨⟨?_, ?_, ?_, ?_, ?_⟩, ?_⟩
  · rw [h2]; exact h.ptr.nodup
  · rw [h2, h1]; exact h.ptr.live
  · rw [h2, h1]; exact h.ptr.reg
  · rw [h1]; exact h.ptr.nz
  · rw [h4]; exact h.ptr.idpos
  · unfold RefOk cnt; rw [h1, h2, h3]; exact h.ref

theorem SameLife.of_emit {g g' : G} {bs : List Byte} (h : EmitG g g' bs) : SameLife g g' := by
  rw [h.frame]; exact ⟨rfl, rfl, rfl, rfl⟩

theorem Life.touch {g : G} (h : Life g) (l : LRef) : Life (touch l g) := by
  unfold G.touch
  cases l with
  | str s => exact h
  | obj o =>
    simp only
    cases hh : g.heap o with
    | none => exact h
    | some ob =>
      simp only
      split
      · rename_i h0
        have hm : ob.mgr = false := by
          refine Bool.eq_false_iff.mpr fun hc => ?_
          exact h.ptr.nz o ob hh (by simpa using hc) h0
        have hnp : o ∉ g.ptrs := by
          intro hp
          obtain ⟨o', h1, h2⟩ := h.ptr.live o hp
          rw [hh] at h1; cases h1; simp [hm] at h2
        have ho : ∀ x ∈ g.ptrs, upd g.heap o (some { ob with id := g.labelId }) x = g.heap x := by
          intro x hx
          exact upd_other _ _ _ _ (ne_of_notin hx hnp)
        refine ⟨⟨h.ptr.nodup, ?_, ?_, ?_, ?_⟩, ?_⟩
        · intro x hx
          simp only at hx ⊢
          rw [ho x hx]; exact h.ptr.live x hx
        · intro x ox hx hmx
          simp only at hx ⊢
          by_cases hxo : x = o
          · subst hxo; rw [upd_same] at hx; cases hx; simp [hm] at hmx
          · rw [upd_other _ _ _ _ hxo] at hx; exact h.ptr.reg x ox hx hmx
        · intro x ox hx hmx
          simp only at hx ⊢
          by_cases hxo : x = o
          · subst hxo; rw [upd_same] at hx; cases hx; simp [hm] at hmx
          · rw [upd_other _ _ _ _ hxo] at hx; exact h.ptr.nz x ox hx hmx
        · simp
        · intro n
          have := h.ref n
          have e : cnt { g with labelId := g.labelId + 1, heap := upd g.heap o (some { ob with id := g.labelId }) } n = cnt g n := by
            unfold cnt
            simp only
            congr 1
            apply List.filter_congr
            intro x hx
            rw [ho x hx]
          simp only [e]; exact this
      · exact h

theorem SameLife.addU (env : Env) (l : LRef) (j : JmpLabel) (g : G) : SameLife g (addU env l j g) := by
  unfold G.addU
  cases l with
  | obj h => exact ⟨rfl, rfl, rfl, rfl⟩
  | str s =>
    simp only
    split
    · split <;> exact ⟨rfl, rfl, rfl, rfl⟩
    · exact ⟨rfl, rfl, rfl, rfl⟩

theorem RefErr.life {g g' : G} {l : LRef} (h : Life g) (he : RefErr l g g') : Life g' := by
  rcases he with ⟨bs, hb⟩ | ⟨bs, hb⟩
  · exact h.same (.of_emit hb)
  · exact (h.touch l).same (.of_emit hb)

theorem JmpOk.life {env : Env} {l ty s lo p} {g g' : G} (h : Life g) (hj : JmpOk env l ty s lo p g g') : Life g' := by
  obtain ⟨_, l', off, _, hm⟩ := hj
  cases off with
  | some o => obtain ⟨_, bs, _, hem⟩ := hm; exact (h.touch l).same (.of_emit hem)
  | none => obtain ⟨g1, hem, rfl⟩ := hm; exact ((h.touch l).same (.of_emit hem)).same (.addU _ _ _ _)

theorem PutOk.life {env : Env} {l rel disp} {g g' : G} (h : Life g) (hj : PutOk env l rel disp g g') : Life g' := by
  obtain ⟨l', off, _, hm⟩ := hj
  cases off with
  | some o =>
    simp only at hm
    split at hm
    · exact (h.touch l).same (.of_emit hm.2)
    · split at hm
      · obtain ⟨g1, hem, rfl⟩ := hm
        exact ((h.touch l).same (.of_emit hem)).same ⟨rfl, rfl, rfl, rfl⟩
      · exact (h.touch l).same (.of_emit hm)
  | none => obtain ⟨g1, hem, rfl⟩ := hm; exact ((h.touch l).same (.of_emit hem)).same (.addU _ _ _ _)

theorem cnt_upd_notin {g : G} {h : Nat} (hn : h ∉ g.ptrs) (o : Option LabelObj) (n : Nat) :
    (g.ptrs.filter fun x => (upd g.heap h o x).map LabelObj.id == some n).length = cnt g n := by
  unfold cnt
  congr 1
  apply List.filter_congr
  intro x hx
  rw [upd_other _ _ _ _ (ne_of_notin hx hn)]

theorem notin_of_free {g : G} (h : PtrOk g) {x : Nat} (hx : ∀ o, g.heap x = some o → o.mgr = false) : x ∉ g.ptrs := by
  intro hp
  obtain ⟨o, h1, h2⟩ := h.live x hp
  rw [hx o h1] at h2; cases h2

/-- Binding one more object `h` (so far unbound) with identity `id` to an entry of the manager. -/
theorem Life.bind {g : G} (h : Life g) (x id : Nat) (v : CVal) (hid : id ≠ 0)
    (hx : ∀ o, g.heap x = some o → o.mgr = false)
    (hv : v.refCount = max 1 (cnt g id + 1)) :
    Life { g with heap := upd g.heap x (some ⟨true, id⟩), ptrs := insPtr x g.ptrs, cdef := upd g.cdef id (some v) } := by
  have hn := notin_of_free h.ptr hx
  have hins : insPtr x g.ptrs = x :: g.ptrs := by unfold insPtr; rw [if_neg hn]
  have hc : ∀ n, cnt { g with heap := upd g.heap x (some ⟨true, id⟩), ptrs := insPtr x g.ptrs, cdef := upd g.cdef id (some v) } n
      = cnt g n + if n = id then 1 else 0 := by
    intro n
    conv => lhs; unfold cnt
    simp only [hins, List.filter_cons, upd_same, Option.map_some]
    by_cases hni : n = id
    · subst hni; simp only [beq_self_eq_true, if_true, List.length_cons]; rw [cnt_upd_notin hn]
    · have : ((some id : Option Nat) == some n) = false := by
        simp only [beq_eq_false_iff_ne, ne_eq, Option.some.injEq]; exact fun e => hni e.symm
      simp only [this, Bool.false_eq_true, if_false, if_neg hni]; rw [cnt_upd_notin hn]; omega
  refine ⟨⟨?_, ?_, ?_, ?_, h.ptr.idpos⟩, ?_⟩
  · simp only [hins]; exact List.nodup_cons.mpr ⟨hn, h.ptr.nodup⟩
  · intro y hy
    simp only [hins] at hy ⊢
    rcases List.mem_cons.mp hy with rfl | hy
    · exact ⟨_, upd_same _ _ _, rfl⟩
    · rw [upd_other _ _ _ _ (ne_of_notin hy hn)]; exact h.ptr.live y hy
  · intro y o hy hm
    simp only [hins] at hy ⊢
    by_cases e : y = x
    · simp [e]
    · rw [upd_other _ _ _ _ e] at hy; exact List.mem_cons_of_mem _ (h.ptr.reg y o hy hm)
  · intro y o hy hm
    simp only at hy
    by_cases e : y = x
    · subst e; rw [upd_same] at hy; cases hy; exact hid
    · rw [upd_other _ _ _ _ e] at hy; exact h.ptr.nz y o hy hm
  · intro n
    rw [hc]
    by_cases hni : n = id
    · subst hni; simp only [upd_same, if_true]; exact hv
    · simp only [upd_other _ _ _ _ hni, if_neg hni]; exact h.ref n

theorem cnt_pos_of_mem {g : G} (h : Life g) {x : Nat} {o : LabelObj} (hx : g.heap x = some o) (hm : o.mgr = true) :
    0 < cnt g o.id := by
  unfold cnt
  apply List.length_pos_of_mem (a := x)
  rw [List.mem_filter]
  exact ⟨h.ptr.reg x o hx hm, by simp [hx]⟩

theorem cdef_of_mgr {g : G} (h : Life g) {x : Nat} {o : LabelObj} (hx : g.heap x = some o) (hm : o.mgr = true) :
    ∃ v, g.cdef o.id = some v ∧ v.refCount = cnt g o.id := by
  have hp := cnt_pos_of_mem h hx hm
  have := h.ref o.id
  cases hc : g.cdef o.id with
  | none => rw [hc] at this; simp only at this; omega
  | some v => rw [hc] at this; simp only at this; exact ⟨v, rfl, by omega⟩

theorem getD_map_id {o : LabelObj} (h : o.mgr = false) : o = ⟨false, o.id⟩ := by
  cases o; simp_all

/-- Definition of an identity followed by binding of the object. -/
theorem define_life {g : G} (hs : BufSafe g) (h : Life g) (x id off : Nat) (ho : ∃ o, g.heap x = some o ∧ o.id = id)
    (hid : id ≠ 0) :
    ((do defineId id off; attach x : M G Unit) g).Sat (fun _ g' => Life g') (fun _ g' => Life g') := by
  obtain ⟨o, hx, rfl⟩ := ho
  have hl : ∀ e ∈ g.cundef, JOk g.ca.maxSize e.2 := fun e he => hs.pend _ (.inl ⟨_, he⟩)
  have hfree : g.cdef o.id = none → o.mgr = false := by
    intro hc
    refine Bool.eq_false_iff.mpr fun hm => ?_
    obtain ⟨v, hv, _⟩ := cdef_of_mgr h hx (by simpa using hm)
    rw [hc] at hv; cases hv
  have hc0 : g.cdef o.id = none → cnt g o.id = 0 := by
    intro hc; have := h.ref o.id; rw [hc] at this; exact this
  refine M.sat_bind ((defineId_sat o.id off g hs.wf hl).mono (fun _ _ h => h) ?_) ?_
  · rintro _ g' (⟨_, rfl, _⟩ | ⟨hn, hf, _⟩)
    · exact h
    · rw [hf]
      refine ⟨⟨h.ptr.nodup, h.ptr.live, h.ptr.reg, h.ptr.nz, h.ptr.idpos⟩, ?_⟩
      intro n
      have e : cnt { g with cdef := upd g.cdef o.id (some ⟨off, 1⟩), cundef := g'.cundef, ca := g'.ca } n = cnt g n := rfl
      rw [e]
      by_cases hni : n = o.id
      · subst hni; simp only [upd_same, hc0 hn]; rfl
      · simp only [upd_other _ _ _ _ hni]; exact h.ref n
  · rintro _ g1 ⟨hn, hf, _⟩
    have hh1 : g1.heap x = some o := by rw [hf]; exact hx
    have hm := hfree hn
    refine (attach_sat x g1).monoU ?_ (fun _ _ h => h.elim) (fun u hu => hu.2 (by simp [LiveRef, hh1]))
    rintro _ g2 ⟨o', ho', rfl⟩
    rw [hh1] at ho'; cases ho'
    have := h.bind x o.id ⟨off, 1⟩ hid (by intro o' h'; rw [hx] at h'; cases h'; exact hm) (by rw [hc0 hn]; rfl)
    refine this.same ?_
    rw [hf]
    exact ⟨rfl, rfl, rfl, rfl⟩

theorem touch_heap_obj {g : G} {h : Nat} (hp : 0 < g.labelId) (hl : g.heap h ≠ none) :
    ∃ o, (touch (.obj h) g).heap h = some o ∧ o.id ≠ 0 := by
  unfold touch
  simp only
  cases hh : g.heap h with
  | none => exact absurd hh hl
  | some o =>
    simp only
    by_cases h0 : o.id = 0
    · rw [if_pos h0]; exact ⟨_, upd_same _ _ _, by simp only; omega⟩
    · rw [if_neg h0]; exact ⟨o, hh, h0⟩

theorem defineSlabel_sameLife (s : String) (g : G) (hs : BufSafe g) :
    (defineSlabel s g).Sat (fun _ g' => SameLife g g') (fun _ g' => SameLife g g') := by
  have key : ∀ k key off g1, BufSafe g1 → SameLife g g1 → (onScope k (defineInScope key off) g1).Sat (fun _ g' => SameLife g g') (fun _ g' => SameLife g g') := by
    intro k key off g1 hs1 h1
    have hsafe := onScope_fewer key off k g1 hs1
    unfold onScope at hsafe ⊢
    obtain ⟨a, b, c, d⟩ := h1
    by_cases hk : isLocalName k = true
    · simp only [hk, if_true] at hsafe ⊢
      cases hloc : g1.locals with
      | nil => rw [hloc] at hsafe; exact hsafe
      | cons st rest =>
        rw [hloc] at hsafe
        simp only at hsafe ⊢
        cases hr : defineInScope key off st g1.ca with
        | ok _ r => exact ⟨a, b, c, d⟩
        | err _ r => exact ⟨a, b, c, d⟩
        | ub u => rw [hr] at hsafe; exact hsafe
    · simp only [hk] at hsafe ⊢
      cases hr : defineInScope key off g1.glob g1.ca with
      | ok _ r => exact ⟨a, b, c, d⟩
      | err _ r => exact ⟨a, b, c, d⟩
      | ub u => rw [hr] at hsafe; exact hsafe
  unfold defineSlabel
  rw [M.throwIf_bind]
  split
  · exact ⟨rfl, rfl, rfl, rfl⟩
  · rw [M.get_bind]
    split
    · cases hf : g.glob.defs "@f" with
      | some o =>
        simp only
        rw [M.modify_bind]
        have h1 : Fewer g { g with glob := { g.glob with defs := upd g.glob.defs "@f" none } } :=
          .frame rfl rfl rfl rfl
        exact key _ _ _ _ (h1.safe hs) ⟨rfl, rfl, rfl, rfl⟩
      | none =>
        simp only
        rw [M.modify_bind]
        have h1 : Fewer g { g with glob := { g.glob with defs := upd g.glob.defs "@b" none } } :=
          .frame rfl rfl rfl rfl
        exact key _ _ _ _ (h1.safe hs) ⟨rfl, rfl, rfl, rfl⟩
    · exact key _ _ _ _ hs ⟨rfl, rfl, rfl, rfl⟩

/-- Removing a bound or unbound object. -/
theorem Life.unbind {g : G} (h : Life g) (x : Nat) (o : LabelObj) (hx : g.heap x = some o) :
    ((dtorLabel x) g).Sat (fun _ g' => Life g') (fun _ _ => False) := by
  unfold dtorLabel
  refine M.sat_bind ((deref_sat x g).monoU (fun _ _ h => h) (fun _ _ h => h.elim) (fun u hu => hu.2 (by simp [LiveRef, hx]))) ?_
  rintro o' g1 ⟨rfl, ho'⟩
  rw [hx] at ho'; cases ho'
  by_cases hm : o.mgr = true
  · have hid := h.ptr.nz x o hx hm
    rw [if_pos ⟨hid, hm⟩]
    unfold decRef
    rw [M.modify_bind]
    simp only [M.modify_run, Res.Sat]
    obtain ⟨v, hv, hr⟩ := cdef_of_mgr h hx hm
    have hmem := h.ptr.reg x o hx hm
    have hc : ∀ n, ((g1.ptrs.filter (· ≠ x)).filter fun y => (upd g1.heap x none y).map LabelObj.id == some n).length
        + (if n = o.id then 1 else 0) = cnt g1 n := by
      intro n
      unfold cnt
      have e1 : ((g1.ptrs.filter (· ≠ x)).filter fun y => (upd g1.heap x none y).map LabelObj.id == some n)
          = (g1.ptrs.filter fun y => (g1.heap y).map LabelObj.id == some n).filter (· ≠ x) := by
        rw [List.filter_filter, List.filter_filter]
        apply List.filter_congr
        intro y _
        by_cases e : y = x
        · simp [e]
        · simp [e, upd_other]
      rw [e1]
      have hnd : (g1.ptrs.filter fun y => (g1.heap y).map LabelObj.id == some n).Nodup := h.ptr.nodup.filter _
      by_cases hn : n = o.id
      · rw [if_pos hn]
        have hmx : x ∈ (g1.ptrs.filter fun y => (g1.heap y).map LabelObj.id == some n) := by
          rw [List.mem_filter]; exact ⟨hmem, by simp [hx, hn]⟩
        have := List.Nodup.erase_eq_filter hnd x
        have e2 : (List.filter (fun x_1 => decide (x_1 ≠ x)) (g1.ptrs.filter fun y => (g1.heap y).map LabelObj.id == some n))
           = (g1.ptrs.filter fun y => (g1.heap y).map LabelObj.id == some n).erase x := by
          rw [this]; apply List.filter_congr; intro y _; by_cases e : y = x <;> simp [e]
        rw [e2, List.length_erase_of_mem hmx]
        have := List.length_pos_of_mem hmx
        omega
      · rw [if_neg hn, Nat.add_zero]
        congr 1
        apply List.filter_eq_self.mpr
        intro y hy
        rw [List.mem_filter] at hy
        have : y ≠ x := by
          intro e; subst e
          rw [hx] at hy
          have := hy.2
          simp at this
          exact hn this.symm
        simpa using this
    have hptr : ∀ cd : Nat → Option CVal, (∀ n, match cd n with | none => cnt g1 n = (if n = o.id then 1 else 0) | some w => w.refCount = max 1 (cnt g1 n - (if n = o.id then 1 else 0))) →
        Life { g1 with ptrs := g1.ptrs.filter (· ≠ x), heap := upd g1.heap x none, cdef := cd } := by
      intro cd hcd
      refine ⟨⟨h.ptr.nodup.filter _, ?_, ?_, ?_, h.ptr.idpos⟩, ?_⟩
      · intro y hy
        simp only [List.mem_filter, decide_eq_true_eq] at hy ⊢
        rw [upd_other _ _ _ _ hy.2]; exact h.ptr.live y hy.1
      · intro y oy hy hmy
        simp only at hy ⊢
        by_cases e : y = x
        · subst e; rw [upd_same] at hy; cases hy
        · rw [upd_other _ _ _ _ e] at hy
          simp only [List.mem_filter, decide_eq_true_eq]
          exact ⟨h.ptr.reg y oy hy hmy, e⟩
      · intro y oy hy hmy
        simp only at hy ⊢
        by_cases e : y = x
        · subst e; rw [upd_same] at hy; cases hy
        · rw [upd_other _ _ _ _ e] at hy; exact h.ptr.nz y oy hy hmy
      · intro n
        have := hcd n
        have hcn := hc n
        cases hcase : cd n with
        | none =>
          rw [hcase] at this
          simp only [hcase] at this ⊢
          unfold cnt
          simp only
          omega
        | some w =>
          rw [hcase] at this
          simp only [hcase] at this ⊢
          rw [this]
          congr 1
          rw [← hcn, Nat.add_sub_cancel]
          rfl
    rw [hv]
    simp only
    by_cases h1 : v.refCount = 1
    · rw [if_pos h1]
      apply hptr
      intro n
      have hrn := h.ref n
      by_cases hn : n = o.id
      · subst hn; simp only [upd_same, if_true]; omega
      · simp only [upd_other _ _ _ _ hn, if_neg hn]; simpa using hrn
    · rw [if_neg h1]
      apply hptr
      intro n
      have hrn := h.ref n
      have hp := cnt_pos_of_mem h hx hm
      by_cases hn : n = o.id
      · subst hn; simp only [upd_same, if_true]; omega
      · simp only [upd_other _ _ _ _ hn, if_neg hn]; simpa using hrn
  · rw [if_neg (fun hc => hm hc.2)]
    simp only [M.modify_run, Res.Sat]
    have hn := notin_of_free h.ptr (x := x) (by intro o' h'; rw [hx] at h'; cases h'; simpa using hm)
    refine ⟨⟨h.ptr.nodup, ?_, ?_, ?_, h.ptr.idpos⟩, ?_⟩
    · intro y hy
      simp only
      rw [upd_other _ _ _ _ (ne_of_notin hy hn)]; exact h.ptr.live y hy
    · intro y oy hy hmy
      simp only at hy ⊢
      by_cases e : y = x
      · subst e; rw [upd_same] at hy; cases hy
      · rw [upd_other _ _ _ _ e] at hy; exact h.ptr.reg y oy hy hmy
    · intro y oy hy hmy
      simp only at hy ⊢
      by_cases e : y = x
      · subst e; rw [upd_same] at hy; cases hy
      · rw [upd_other _ _ _ _ e] at hy; exact h.ptr.nz y oy hy hmy
    · intro n
      have := h.ref n
      rw [← cnt_upd_notin hn none n] at this
      exact this

/-- Giving an unbound object the (unbound) value of another one, or constructing it. -/
theorem Life.setFree {g : G} (h : Life g) (x : Nat) (id : Nat) (hx : ∀ o, g.heap x = some o → o.mgr = false) :
    Life { g with heap := upd g.heap x (some ⟨false, id⟩) } := by
  have hn := notin_of_free h.ptr hx
  refine ⟨⟨h.ptr.nodup, ?_, ?_, ?_, h.ptr.idpos⟩, ?_⟩
  · intro y hy
    simp only
    rw [upd_other _ _ _ _ (ne_of_notin hy hn)]; exact h.ptr.live y hy
  · intro y oy hy hmy
    simp only at hy ⊢
    by_cases e : y = x
    · subst e; rw [upd_same] at hy; cases hy; cases hmy
    · rw [upd_other _ _ _ _ e] at hy; exact h.ptr.reg y oy hy hmy
  · intro y oy hy hmy
    simp only at hy ⊢
    by_cases e : y = x
    · subst e; rw [upd_same] at hy; cases hy; cases hmy
    · rw [upd_other _ _ _ _ e] at hy; exact h.ptr.nz y oy hy hmy
  · intro n
    have := h.ref n
    rw [← cnt_upd_notin hn (some ⟨false, id⟩) n] at this
    exact this

/-- Common part of copy construction and assignment. -/
theorem Life.copy {g : G} (h : Life g) (x : Nat) (r : LabelObj) (src : Nat) (hr : g.heap src = some r)
    (hx : ∀ o, g.heap x = some o → o.mgr = false) :
    ((if r.mgr then incRef r.id x else pure () : M G Unit) { g with heap := upd g.heap x (some r) }).Sat
      (fun _ g' => Life g') (fun _ _ => False) := by
  by_cases hm : r.mgr = true
  · rw [if_pos hm]
    unfold incRef
    simp only [M.modify_run, Res.Sat]
    obtain ⟨v, hv, hc⟩ := cdef_of_mgr h hr hm
    have := h.bind x r.id ⟨v.offset, v.refCount + 1⟩ (h.ptr.nz src r hr hm) hx (by simp only; omega)
    rw [hv]
    simp only [Option.getD_some]
    have e : r = ⟨true, r.id⟩ := by cases r; simp_all
    rw [← e] at this
    exact this
  · rw [if_neg hm]
    have e : r = ⟨false, r.id⟩ := by cases r; simp_all
    rw [e]
    exact h.setFree x r.id hx

/-- `reset` clears every registered object; all of them are alive. -/
theorem clearAll_life (l : List Nat) (g : G) (hl : ∀ x ∈ l, g.heap x ≠ none) :
    (clearAll l g).Sat (fun _ g' => g' = { g with heap := fun x => if x ∈ l then some ⟨false, 0⟩ else g.heap x })
      (fun _ _ => False) := by
  induction l generalizing g with
  | nil => simp [clearAll, Res.Sat]
  | cons x t ih =>
    unfold clearAll
    refine M.sat_bind ((deref_sat x g).monoU (fun _ _ h => h) (fun _ _ h => h.elim)
      (fun u hu => hu.2 (hl x (by simp)))) ?_
    rintro o g1 ⟨rfl, _⟩
    rw [M.modify_bind]
    refine (ih _ ?_).mono ?_ (fun _ _ h => h)
    · intro y hy
      simp only
      by_cases e : y = x
      · subst e; rw [upd_same]; simp
      · rw [upd_other _ _ _ _ e]; exact hl y (by simp [hy])
    · rintro _ g' rfl
      congr 1
      funext y
      by_cases e : y = x
      · subst e; simp [upd_same]
      · simp [upd_other, e]

theorem reset_eq (g : G) (h : PtrOk g) :
    (reset g).Sat (fun _ g' => g' = { g with
      ca := g.ca.resetSize, labelId := 1, glob := .empty, locals := [.empty], cdef := fun _ => none, cundef := [],
      ptrs := [], heap := fun x => if x ∈ g.ptrs then some ⟨false, 0⟩ else g.heap x }) (fun _ _ => False) := by
  unfold reset resetLabelPtrList
  rw [M.modify_bind, M.get_bind]
  refine M.sat_bind (clearAll_life _ _ ?_) ?_
  · intro x hx
    obtain ⟨o, ho, _⟩ := h.live x hx
    simp only [ho]; simp
  · rintro _ g1 rfl
    exact rfl

theorem step_life (env : Env) (he : env.Sane) (op : Op) (g : G) (hs : BufSafe g) (h : Life g)
    (hr : RewriteInside g op) (hl : LifeOk g op) :
    (step env op g).Sat (fun _ g' => Life g') (fun _ g' => Life g') := by
  have noU : ∀ l, LiveRef g l → ∀ u, ULr g l u → False := fun l hl u hu => hu.2 hl
  have liftLife : ∀ m : M CA Unit, (liftCA m g).Sat (fun _ _ => True) (fun _ _ => True) →
      (liftCA m g).Sat (fun _ g' => Life g') (fun _ g' => Life g') := by
    intro m hm
    unfold liftCA at hm ⊢
    cases hc : m g.ca with
    | ok a c => exact h.same ⟨rfl, rfl, rfl, rfl⟩
    | err a c => exact h.same ⟨rfl, rfl, rfl, rfl⟩
    | ub u => rw [hc] at hm; exact hm
  cases op with
  | db b => exact (db_g env he hs.wf b).mono (fun _ _ hh => h.same (.of_emit hh)) (fun _ _ ⟨_, hh⟩ => h.same (.of_emit hh))
  | defL l =>
    cases l with
    | str s => exact (defineSlabel_sameLife s g hs).mono (fun _ _ hh => h.same hh) (fun _ _ hh => h.same hh)
    | obj x =>
      simp only [step, defL, defineClabel]
      refine M.sat_bind ((getId_sat x g).monoU (fun _ _ h => h) (fun _ _ h => h.elim) (noU _ hl)) ?_
      rintro id g1 ⟨rfl, ho⟩
      rw [M.get_bind]
      obtain ⟨o1, ho1, hnz⟩ := touch_heap_obj h.ptr.idpos hl
      obtain ⟨o2, ho2, hid⟩ := ho
      rw [ho1] at ho2; cases ho2
      exact define_life (hs.touch _) (h.touch _) x id _ ⟨o1, ho1, hid⟩ (hid ▸ hnz)
  | jmp l ty s lo p =>
    exact (opJmp_sat env he l ty s lo p g hs.wf hs.loc).monoU (fun _ _ hh => hh.life h) (fun _ _ hh => hh.life h) (noU l hl)
  | jmpAbs a ty s lo p =>
    refine (opJmpAbs_sat env he a ty s lo p g hs.wf).mono ?_ (fun _ _ ⟨_, hh⟩ => h.same (.of_emit hh))
    rintro _ g' ⟨_, hm⟩
    split at hm
    · obtain ⟨_, g1, hem, rfl⟩ := hm
      exact (h.same (.of_emit hem)).same ⟨rfl, rfl, rfl, rfl⟩
    · obtain ⟨_, bs, _, hem⟩ := hm
      exact h.same (.of_emit hem)
  | putL l => exact (putLInner_sat env he l _ _ g hs.wf hs.loc).monoU (fun _ _ hh => hh.life h) (fun _ _ hh => hh.life h) (noU l hl)
  | ripL l d => exact (putLInner_sat env he l _ _ g hs.wf hs.loc).monoU (fun _ _ hh => hh.life h) (fun _ _ hh => hh.life h) (noU l hl)
  | assignL d s =>
    obtain ⟨⟨o, ho, hid⟩, hsrc⟩ := hl
    simp only [step, assign]
    refine M.sat_bind ((deref_sat s g).monoU (fun _ _ h => h) (fun _ _ h => h.elim) (noU (.obj s) hsrc)) ?_
    rintro so g1 ⟨rfl, hso⟩
    rw [M.get_bind]
    cases hc : g1.cdef so.id with
    | none => exact h
    | some v =>
      simp only
      refine M.sat_bind ((deref_sat d g1).monoU (fun _ _ h => h) (fun _ _ h => h.elim)
        (noU (.obj d) (by simp [LiveRef, ho]))) ?_
      rintro o2 g2 ⟨rfl, hdo⟩
      rw [ho] at hdo; cases hdo
      exact define_life hs h d o.id _ ⟨o, ho, rfl⟩ hid
  | inLocal => exact h.same ⟨rfl, rfl, rfl, rfl⟩
  | outLocal =>
    simp only [step, leaveLocal]
    split
    · exact h
    · exact h
    · split
      · exact h
      · exact h.same ⟨rfl, rfl, rfl, rfl⟩
  | newLabel x =>
    simp only [step, newLabel]
    rw [M.get_bind]
    have : g.heap x = none := hl
    rw [this]
    exact h.setFree x 0 (by simp [this])
  | copyLabel x s =>
    obtain ⟨hx, hsl⟩ := hl
    simp only [step, copyLabel]
    refine M.sat_bind ((deref_sat s g).monoU (fun _ _ h => h) (fun _ _ h => h.elim) (noU (.obj s) hsl)) ?_
    rintro r g1 ⟨rfl, hr'⟩
    rw [M.get_bind, hx]
    simp only
    rw [M.set_bind]
    exact (h.copy x r s hr' (by simp [hx])).mono (fun _ _ h => h) (fun _ _ h => h.elim)
  | assignLabel x s =>
    obtain ⟨hx, hsl⟩ := hl
    simp only [step, assignLabel]
    refine M.sat_bind ((deref_sat x g).monoU (fun _ _ h => h) (fun _ _ h => h.elim) (noU (.obj x) hx)) ?_
    rintro o g1 ⟨rfl, ho⟩
    rw [M.throwIf_bind]
    split
    · exact h
    · rename_i h0
      refine M.sat_bind ((deref_sat s g1).monoU (fun _ _ h => h) (fun _ _ h => h.elim) (noU (.obj s) hsl)) ?_
      rintro r g2 ⟨rfl, hr'⟩
      rw [M.modify_bind]
      refine (h.copy x r s hr' ?_).mono (fun _ _ h => h) (fun _ _ h => h.elim)
      intro o' ho'
      rw [ho] at ho'; cases ho'
      refine Bool.eq_false_iff.mpr fun hm => ?_
      have := h.ptr.nz x o ho (by simpa using hm)
      simp [this] at h0
  | dtorLabel x =>
    cases hx : g.heap x with
    | none => exact absurd hx hl
    | some o => exact (h.unbind x o hx).mono (fun _ _ h => h) (fun _ _ h => h.elim)
  | setDefaultJmpNEAR b => exact h.same ⟨rfl, rfl, rfl, rfl⟩
  | align x m =>
    have := step_safe env he (.align x m) g hs trivial
    simp only [step] at this ⊢
    apply liftLife
    unfold liftCA at this ⊢
    have hb : ∀ u, align env x m g.ca ≠ .ub u := by
      intro u hu
      have : (align env x m g.ca).Sat (fun _ _ => True) (fun _ _ => True) := by
        unfold align
        split
        · trivial
        · rw [M.get_bind, M.throwIf_bind]
          split
          · trivial
          · rw [M.throwIf_bind]
            split
            · trivial
            · split
              · exact (dbs_sat env he _ hs.wf).mono (fun _ _ _ => trivial) (fun _ _ _ => trivial)
              · trivial
      rw [hu] at this; exact this
    cases hc : align env x m g.ca with
    | ok a c => trivial
    | err a c => trivial
    | ub u => exact hb u hc
  | setSize n =>
    apply liftLife
    unfold liftCA CA.setSize
    split
    · trivial
    · trivial
    · rename_i heq; split at heq <;> cases heq
  | rewrite o v n =>
    apply liftLife
    unfold liftCA CA.rewrite
    by_cases hn : n ≠ 1 ∧ n ≠ 2 ∧ n ≠ 4 ∧ n ≠ 8
    · rw [if_pos hn]; trivial
    · rw [if_neg hn, if_pos (hr (by omega))]; trivial
  | ready =>
    have key := ready_sat env g hs
    simp only [step]
    unfold ready at key ⊢
    rw [M.get_bind, M.throwIf_bind] at key ⊢
    split
    · exact h
    · rename_i hu
      simp only [hu] at key
      split
      · rename_i ha
        simp only [ha, if_true] at key
        rw [M.bind_run] at key ⊢
        unfold liftCA at key ⊢
        cases hc : calcJmpAddress g.ca with
        | ub u => simp only [hc] at key; exact key
        | err e c => exact h.same ⟨rfl, rfl, rfl, rfl⟩
        | ok a c =>
          simp only
          split
          · unfold setProtectMode
            cases hp : env.protect c.nProt
            · simp only [hp]; exact h.same ⟨rfl, rfl, rfl, rfl⟩
            · simp only [hp]; exact h.same ⟨rfl, rfl, rfl, rfl⟩
          · exact h.same ⟨rfl, rfl, rfl, rfl⟩
      · exact h
  | reset =>
    refine (reset_eq g h.ptr).mono ?_ (fun _ _ h => h.elim)
    rintro _ g' rfl
    refine ⟨⟨by simp, by simp, ?_, ?_, by simp⟩, ?_⟩
    · intro x o hx hm
      simp only at hx
      split at hx
      · cases hx; cases hm
      · rename_i hn; exact absurd (h.ptr.reg x o hx hm) hn
    · intro x o hx hm
      simp only at hx
      split at hx
      · cases hx; cases hm
      · exact h.ptr.nz x o hx hm
    · intro n; simp [cnt]

end G
end Xbyak
