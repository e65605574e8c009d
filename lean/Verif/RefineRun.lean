import Verif.RefineDef
/-! # Every call refines the symbolic assembler -/
namespace Xbyak
open CA G
namespace Asm

/-! ## `Label` objects -/

theorem Inv.objs {cx : Cx} {g g' : G} {sp : Spec} {ob : Nat → Option Nat} (h : Inv cx g sp)
    (hg : g' = { g with heap := g'.heap, cdef := g'.cdef, ptrs := g'.ptrs })
    (ho : ∀ x, ob x = (g'.heap x).map LabelObj.id)
    (hdef : ∀ x o, g'.heap x = some o → o.id ≠ 0 → o.id < sp.nextId ∧
      (g'.cdef o.id).map CVal.offset = sp.defs (.obj o.id) ∧
      (o.mgr = false → g'.cdef o.id = none ∧ ∀ x' o', g'.heap x' = some o' → o'.id = o.id → x' = x))
    (hfresh : ∀ n, n = 0 ∨ sp.nextId ≤ n → g'.cdef n = none) : Inv cx g' { sp with objs := ob } := by
  have e0 : g'.ca = g.ca := by rw [hg]
  have e1 : g'.glob = g.glob := by rw [hg]
  have e2 : g'.locals = g.locals := by rw [hg]
  have e5 : g'.labelId = g.labelId := by rw [hg]
  have e6 : g'.defNear = g.defNear := by rw [hg]
  have e7 : g'.cundef = g.cundef := by rw [hg]
  have ht := h.tab
  refine ⟨by rw [e0]; exact h.buf, h.vals, ?_, ?_⟩
  · have hE : ∀ k j, Entry g' { sp with objs := ob } k j ↔ Entry g sp k j := by
      intro k j; unfold Entry; rw [e1, e2, e7]
    exact ⟨fun k j he => h.pend.ok k j ((hE k j).mp he), fun p f k d hf ht hn => by
      obtain ⟨j, h1, h2⟩ := h.pend.ex p f k d hf ht hn
      exact ⟨j, (hE k j).mpr h1, h2⟩⟩
  · refine ⟨e6.trans ht.near, e5.trans ht.labelId, ht.idPos, ho, hdef, fun n hn => ⟨hfresh n hn, (ht.fresh n hn).2⟩, ?_, ?_, ?_, ?_, ?_, ht.anonDef, ?_, ?_, ht.nodup, ht.scopeLt, ht.scopeFresh⟩
    · rw [e7]; exact ht.freshU
    · rw [e1]; exact ht.glob
    · rw [e1]; exact ht.globU
    · rw [e1]; exact ht.anonCur
    · rw [e1]; exact ht.anonPrev
    · rw [e2]; exact ht.locLen
    · rw [e2]; exact ht.loc

theorem new_refines {cx : Cx} {g : G} {sp : Spec} {x : Nat} (h : Inv cx g sp) (hx : g.heap x = none) :
    Inv cx { g with heap := upd g.heap x (some ⟨false, 0⟩) } { sp with objs := upd sp.objs x (some 0) } := by
  have ht := h.tab
  refine h.objs rfl ?_ ?_ (fun n hn => (ht.fresh n hn).1)
  · intro y
    simp only
    by_cases hy : y = x
    · subst hy; simp
    · rw [upd_other _ _ _ _ hy, upd_other _ _ _ _ hy]; exact ht.objs y
  · intro y o hy hid
    simp only at hy ⊢
    by_cases e : y = x
    · subst e; simp only [upd_same, Option.some.injEq] at hy; subst hy; exact absurd rfl hid
    · rw [upd_other _ _ _ _ e] at hy
      obtain ⟨a, b, c⟩ := ht.objDef y o hy hid
      refine ⟨a, b, fun hm => ⟨(c hm).1, fun y' o' hy' he => ?_⟩⟩
      by_cases e' : y' = x
      · subst e'; simp only [upd_same, Option.some.injEq] at hy'; subst hy'; exact absurd he.symm hid
      · rw [upd_other _ _ _ _ e'] at hy'
        exact (c hm).2 y' o' hy' he

theorem copy_refines {cx : Cx} {g : G} {sp : Spec} {x src : Nat} {r : LabelObj} (h : Inv cx g sp) (hl : Life g)
    (hr : g.heap src = some r) (hx : ∀ o, g.heap x = some o → o.id = 0) (hok : r.id ≠ 0 → r.mgr = true) :
    ((if r.mgr then incRef r.id x else pure () : M G Unit) { g with heap := upd g.heap x (some r) }).Sat
      (fun _ g' => Inv cx g' { sp with objs := upd sp.objs x (some r.id) }) (fun _ _ => False) := by
  have ht := h.tab
  have ho : ∀ y, upd sp.objs x (some r.id) y = (upd g.heap x (some r) y).map LabelObj.id := by
    intro y
    by_cases hy : y = x
    · subst hy; simp
    · rw [upd_other _ _ _ _ hy, upd_other _ _ _ _ hy]; exact ht.objs y
  have main : ∀ cd : Nat → Option CVal, (∀ n, (cd n).map CVal.offset = (g.cdef n).map CVal.offset) → ∀ y o,
      upd g.heap x (some r) y = some o → o.id ≠ 0 → o.id < sp.nextId ∧ (cd o.id).map CVal.offset = sp.defs (.obj o.id) ∧
      (o.mgr = false → cd o.id = none ∧ ∀ x' o', upd g.heap x (some r) x' = some o' → o'.id = o.id → x' = y) := by
    intro cd hcd y o hy hid
    have hnone : ∀ n, g.cdef n = none → cd n = none := by
      intro n hn
      have := hcd n
      rw [hn] at this
      simpa using this
    by_cases e : y = x
    · subst e
      simp only [upd_same, Option.some.injEq] at hy
      subst hy
      obtain ⟨a, b, c⟩ := ht.objDef src r hr hid
      refine ⟨a, by rw [hcd]; exact b, fun hm => ?_⟩
      rw [hok hid] at hm; cases hm
    · rw [upd_other _ _ _ _ e] at hy
      obtain ⟨a, b, c⟩ := ht.objDef y o hy hid
      refine ⟨a, by rw [hcd]; exact b, fun hm => ⟨hnone _ (c hm).1, fun y' o' hy' he => ?_⟩⟩
      by_cases e' : y' = x
      · subst e'
        simp only [upd_same, Option.some.injEq] at hy'
        subst hy'
        have h1 := (c hm).2 src r hr he
        subst h1
        rw [hr] at hy; cases hy
        rw [hok hid] at hm; cases hm
      · rw [upd_other _ _ _ _ e'] at hy'
        exact (c hm).2 y' o' hy' he
  by_cases hm : r.mgr = true
  · rw [if_pos hm]
    obtain ⟨v, hv, _⟩ := cdef_of_mgr hl hr hm
    have hid := hl.ptr.nz src r hr hm
    have hcd : ∀ n, (upd g.cdef r.id (some ⟨v.offset, v.refCount + 1⟩) n).map CVal.offset = (g.cdef n).map CVal.offset := by
      intro n
      by_cases e : n = r.id
      · subst e; simp [hv]
      · rw [upd_other _ _ _ _ e]
    unfold incRef
    simp only [M.modify_run, Res.Sat, hv, Option.getD_some]
    refine h.objs rfl ho (main _ hcd) ?_
    intro n hn
    have h1 := (ht.fresh n hn).1
    have := hcd n
    rw [h1] at this
    simpa using this
  · rw [if_neg hm]
    exact h.objs rfl ho (main _ fun _ => rfl) (fun n hn => (ht.fresh n hn).1)

theorem dtor_refines {cx : Cx} {g : G} {sp : Spec} {x : Nat} {o : LabelObj} (h : Inv cx g sp) (hl : Life g)
    (hx : g.heap x = some o) :
    (dtorLabel x g).Sat (fun _ g' => Inv cx g' { sp with objs := upd sp.objs x none }) (fun _ _ => False) (fun _ => True) := by
  have ht := h.tab
  have ho : ∀ y, upd sp.objs x none y = (upd g.heap x none y).map LabelObj.id := by
    intro y
    by_cases hy : y = x
    · subst hy; simp
    · rw [upd_other _ _ _ _ hy, upd_other _ _ _ _ hy]; exact ht.objs y
  have main : ∀ cd : Nat → Option CVal, (∀ n, cd n = none ∨ (cd n).map CVal.offset = (g.cdef n).map CVal.offset) →
      (∀ y oy, y ≠ x → g.heap y = some oy → oy.id ≠ 0 → (cd oy.id).map CVal.offset = (g.cdef oy.id).map CVal.offset) →
      ∀ y oy, upd g.heap x none y = some oy → oy.id ≠ 0 → oy.id < sp.nextId ∧ (cd oy.id).map CVal.offset = sp.defs (.obj oy.id) ∧
      (oy.mgr = false → cd oy.id = none ∧ ∀ x' o', upd g.heap x none x' = some o' → o'.id = oy.id → x' = y) := by
    intro cd hcd hcd2 y oy hy hid
    by_cases e : y = x
    · subst e; simp at hy
    · rw [upd_other _ _ _ _ e] at hy
      obtain ⟨a, b, c⟩ := ht.objDef y oy hy hid
      refine ⟨a, by rw [hcd2 y oy e hy hid]; exact b, fun hm => ⟨?_, fun y' o' hy' he => ?_⟩⟩
      · rcases hcd oy.id with h1 | h1
        · exact h1
        · rw [(c hm).1] at h1; simpa using h1
      · by_cases e' : y' = x
        · subst e'; simp at hy'
        · rw [upd_other _ _ _ _ e'] at hy'
          exact (c hm).2 y' o' hy' he
  unfold dtorLabel
  refine M.sat_bind ((deref_sat x g).monoU (fun _ _ h => h) (fun _ _ h => h.elim) (fun _ _ => trivial)) ?_
  rintro o' g1 ⟨rfl, ho'⟩
  rw [hx] at ho'; cases ho'
  by_cases hm : o.mgr = true
  · have hid := hl.ptr.nz x o hx hm
    rw [if_pos ⟨hid, hm⟩]
    unfold decRef
    rw [M.modify_bind]
    simp only [M.modify_run, Res.Sat]
    obtain ⟨v, hv, hc⟩ := cdef_of_mgr hl hx hm
    have hr := hl.ref o.id
    rw [hv] at hr ⊢
    simp only at hr ⊢
    by_cases h1 : v.refCount = 1
    · rw [if_pos h1]
      have huniq : ∀ y oy, y ≠ x → g1.heap y = some oy → oy.id ≠ 0 → oy.id ≠ o.id := by
        intro y oy hne hy hidy e
        cases hmy : oy.mgr with
        | false =>
          have := ((ht.objDef y oy hy hidy).2.2 hmy).1
          rw [e, hv] at this; cases this
        | true =>
          have m1 : x ∈ g1.ptrs.filter fun z => (g1.heap z).map LabelObj.id == some o.id := by
            rw [List.mem_filter]; exact ⟨hl.ptr.reg x o hx hm, by simp [hx]⟩
          have m2 : y ∈ g1.ptrs.filter fun z => (g1.heap z).map LabelObj.id == some o.id := by
            rw [List.mem_filter]; exact ⟨hl.ptr.reg y oy hy hmy, by simp [hy, e]⟩
          have hlen : (g1.ptrs.filter fun z => (g1.heap z).map LabelObj.id == some o.id).length ≤ 1 := by
            have : cnt g1 o.id ≤ 1 := by omega
            exact this
          generalize (g1.ptrs.filter fun z => (g1.heap z).map LabelObj.id == some o.id) = L at m1 m2 hlen
          match L, hlen, m1, m2 with
          | [z], _, m1, m2 =>
            simp only [List.mem_singleton] at m1 m2
            exact hne (m2.trans m1.symm)
          | [], _, m1, _ => cases m1
          | _ :: _ :: _, h, _, _ => simp at h
      refine h.objs rfl ho (main (upd g1.cdef o.id none) ?_ ?_) ?_
      · intro n
        by_cases e : n = o.id
        · subst e; simp
        · right; rw [upd_other _ _ _ _ e]
      · intro y oy hne hy hidy
        rw [upd_other _ _ _ _ (huniq y oy hne hy hidy)]
      · intro n hn
        by_cases e : n = o.id
        · subst e; simp
        · simp only [upd_other _ _ _ _ e]; exact (ht.fresh n hn).1
    · rw [if_neg h1]
      have hcd : ∀ n, (upd g1.cdef o.id (some ⟨v.offset, v.refCount - 1⟩) n).map CVal.offset = (g1.cdef n).map CVal.offset := by
        intro n
        by_cases e : n = o.id
        · subst e; simp [hv]
        · rw [upd_other _ _ _ _ e]
      refine h.objs rfl ho (main _ (fun n => .inr (hcd n)) (fun _ oy _ _ _ => hcd oy.id)) ?_
      intro n hn
      have h1 := (ht.fresh n hn).1
      have := hcd n
      rw [h1] at this
      simpa using this
  · rw [if_neg (fun hc => hm hc.2)]
    simp only [M.modify_run, Res.Sat]
    exact h.objs rfl ho (main _ (fun n => .inr rfl) (fun _ oy _ _ _ => rfl)) (fun n hn => (ht.fresh n hn).1)

/-! ## scopes -/

theorem inLocal_refines {cx : Cx} {g : G} {sp : Spec} (h : Inv cx g sp) :
    Inv cx { g with locals := SState.empty :: g.locals }
      { sp with scopes := sp.nextScope :: sp.scopes, nextScope := sp.nextScope + 1 } := by
  have ht := h.tab
  have hE : ∀ k j, Entry { g with locals := SState.empty :: g.locals }
      { sp with scopes := sp.nextScope :: sp.scopes, nextScope := sp.nextScope + 1 } k j ↔ Entry g sp k j := by
    intro k j
    cases k with
    | loc σ s =>
      simp only [Entry, List.zip_cons_cons, List.mem_cons, Prod.mk.injEq]
      constructor
      · rintro ⟨st, (⟨_, rfl⟩ | h1), h2⟩
        · cases h2
        · exact ⟨st, h1, h2⟩
      · rintro ⟨st, h1, h2⟩; exact ⟨st, .inr h1, h2⟩
    | _ => rfl
  refine ⟨h.buf, h.vals, ⟨fun k j he => h.pend.ok k j ((hE k j).mp he), fun p f k d hf ht hn => by
      obtain ⟨j, h1, h2⟩ := h.pend.ex p f k d hf ht hn
      exact ⟨j, (hE k j).mpr h1, h2⟩⟩, ?_⟩
  refine ⟨ht.near, ht.labelId, ht.idPos, ht.objs, ht.objDef, ht.fresh, ht.freshU, ht.glob, ht.globU, ht.anonCur, ht.anonPrev,
    ht.anonDef, by simp [ht.locLen], ?_, ?_, ?_, ?_⟩
  · intro σ st hm
    simp only [List.zip_cons_cons, List.mem_cons, Prod.mk.injEq] at hm
    rcases hm with ⟨rfl, rfl⟩ | hm
    · exact ⟨fun s _ => (ht.scopeFresh _ s (Nat.le_refl _)).symm, fun s j hj => by cases hj⟩
    · exact ht.loc σ st hm
  · refine List.nodup_cons.mpr ⟨fun hm => ?_, ht.nodup⟩
    have := ht.scopeLt _ hm; omega
  · intro σ hm
    simp only [List.mem_cons] at hm
    rcases hm with rfl | hm
    · simp
    · have := ht.scopeLt _ hm; simp only; omega
  · intro σ s hσ
    simp only at hσ ⊢
    exact ht.scopeFresh σ s (by omega)

theorem outLocal_refines {cx : Cx} {g : G} {sp : Spec} {st st2 : SState} {rest : List SState} (h : Inv cx g sp)
    (hloc : g.locals = st :: st2 :: rest) (hu : st.undef = []) :
    ∃ sp', Step cx .outLocal sp sp' ∧ Inv cx { g with locals := st2 :: rest } sp' := by
  have ht := h.tab
  have hlen := ht.locLen
  rw [hloc] at hlen
  obtain ⟨σ, σ', ss, hsc⟩ : ∃ σ σ' ss, sp.scopes = σ :: σ' :: ss := by
    match hs : sp.scopes, hlen with
    | a :: b :: c, _ => exact ⟨a, b, c, rfl⟩
    | [_], h => simp at h
    | [], h => simp at h
  have hnd : (σ :: σ' :: ss).Nodup := hsc ▸ ht.nodup
  have hz : ∀ τ st1, (τ, st1) ∈ sp.scopes.zip g.locals ↔ (τ = σ ∧ st1 = st) ∨ (τ ≠ σ ∧ (τ, st1) ∈ (σ' :: ss).zip (st2 :: rest)) := by
    intro τ st1; rw [hsc, hloc]
    rw [List.zip_cons_cons, List.mem_cons, Prod.mk.injEq]
    constructor
    · rintro (h | h)
      · exact .inl h
      · refine .inr ⟨?_, h⟩
        rintro rfl
        exact (List.nodup_cons.mp hnd).1 (List.of_mem_zip h).1
    · rintro (h | h)
      · exact .inl h
      · exact .inr h.2
  have hnoE : ∀ s j, ¬ Entry g sp (.loc σ s) j := by
    rintro s j ⟨st1, h1, h2⟩
    rcases (hz σ st1).mp h1 with ⟨_, rfl⟩ | ⟨h3, _⟩
    · rw [hu] at h2; cases h2
    · exact h3 rfl
  have hnd' : ¬ sp.Dangling σ := by
    rintro ⟨f, n, d, hf, htg, hn⟩
    obtain ⟨pre, post, hpp⟩ := List.append_of_mem hf
    have hfa : fieldAt sp.cells (len pre) = some f := by rw [hpp]; exact fieldAt_mid pre post f
    obtain ⟨j, h1, _⟩ := h.pend.ex _ f _ d hfa htg hn
    exact hnoE n j h1
  refine ⟨_, ⟨σ, σ', ss, hsc, hnd', rfl⟩, ?_⟩
  have hE : ∀ k j, Entry { g with locals := st2 :: rest } { sp with scopes := σ' :: ss } k j ↔ Entry g sp k j := by
    intro k j
    cases k with
    | loc τ s =>
      simp only [Entry]
      constructor
      · rintro ⟨st1, h1, h2⟩
        have : τ ≠ σ := by
          rintro rfl; exact (List.nodup_cons.mp hnd).1 (List.of_mem_zip h1).1
        exact ⟨st1, (hz _ _).mpr (.inr ⟨this, h1⟩), h2⟩
      · rintro ⟨st1, h1, h2⟩
        rcases (hz τ st1).mp h1 with ⟨rfl, rfl⟩ | ⟨_, h3⟩
        · rw [hu] at h2; cases h2
        · exact ⟨st1, h3, h2⟩
    | _ => rfl
  refine ⟨h.buf, h.vals, ⟨fun k j he => h.pend.ok k j ((hE k j).mp he), fun p f k d hf ht hn => by
      obtain ⟨j, h1, h2⟩ := h.pend.ex p f k d hf ht hn
      exact ⟨j, (hE k j).mpr h1, h2⟩⟩, ?_⟩
  refine ⟨ht.near, ht.labelId, ht.idPos, ht.objs, ht.objDef, ht.fresh, ht.freshU, ht.glob, ht.globU, ht.anonCur, ht.anonPrev,
    ht.anonDef, ?_, ?_, (List.nodup_cons.mp hnd).2, ?_, ht.scopeFresh⟩
  · rw [hsc] at hlen; simpa using hlen
  · intro τ st1 hm
    have : τ ≠ σ := by
      rintro rfl; exact (List.nodup_cons.mp hnd).1 (List.of_mem_zip hm).1
    exact ht.loc τ st1 ((hz _ _).mpr (.inr ⟨this, hm⟩))
  · intro τ hm
    exact ht.scopeLt τ (by rw [hsc]; exact List.mem_cons_of_mem _ hm)

/-! ## definitions -/

theorem defStr_refines {cx : Cx} {g : G} {sp : Spec} (h : Inv cx g sp) (hs : BufSafe g) (s : String) :
    (defineSlabel s g).Sat (fun _ g' => ∃ sp', Step cx (.defL (.str s)) sp sp' ∧ Inv cx g' sp') (fun _ _ => True) := by
  have ht := h.tab
  have hgs : g.ca.size = sp.size := h.buf.size
  have pg : ∀ e ∈ g.glob.undef, JOk g.ca.maxSize e.2 := fun e he => hs.pend _ (.inr (.inl ⟨_, he⟩))
  unfold defineSlabel
  rw [M.throwIf_bind]
  by_cases hbf : (s == "@b" || s == "@f") = true
  · rw [if_pos hbf]; trivial
  rw [if_neg hbf, M.get_bind]
  have hb : s ≠ "@b" := fun e => hbf (by simp [e])
  have hf : s ≠ "@f" := fun e => hbf (by simp [e])
  have anon : ∀ (other : String), other = nm (sp.anons + 1) →
      (onScope (nm sp.anons) (defineInScope (nm sp.anons) g.ca.size)
        { g with glob := { g.glob with defs := upd g.glob.defs other none } }).Sat
      (fun _ g' => ∃ sp', Step cx (.defL (.str "@@")) sp sp' ∧ Inv cx g' sp') (fun _ _ => True) := by
    rintro _ rfl
    unfold onScope
    have : isLocalName (nm sp.anons) = false := nm_not_dot _
    rw [this]
    simp only [Bool.false_eq_true, if_false]
    have := defineInScope_sat (nm sp.anons) g.ca.size { g.glob with defs := upd g.glob.defs (nm (sp.anons + 1)) none } g.ca hs.wf pg
    cases hr : defineInScope (nm sp.anons) g.ca.size { g.glob with defs := upd g.glob.defs (nm (sp.anons + 1)) none } g.ca with
    | ub u => rw [hr] at this; exact this
    | err e r => trivial
    | ok a r =>
      obtain ⟨st', c⟩ := r
      rw [hr] at this
      obtain ⟨_, h2, h3⟩ := this
      obtain ⟨h4, h5⟩ := h.defineAnon (g' := { g with glob := st', ca := c }) hs rfl rfl h2 h3
      rw [hgs] at h5
      exact ⟨_, ⟨.anon sp.anons, by simp [Spec.keyDef, Spec.touch], h4, rfl⟩, h5⟩
  by_cases hat : s = "@@"
  · subst hat
    rw [if_pos rfl]
    rcases nm_cases sp.anons with ⟨h1, h2⟩ | ⟨h1, h2⟩
    · have : g.glob.defs "@f" = none := by rw [← h1]; exact ht.anonCur
      rw [this]
      simp only
      rw [M.modify_bind]
      have := anon "@b" h2.symm
      rw [h1] at this
      exact this
    · have h0 : sp.anons ≠ 0 := by
        intro e; rw [e] at h1; revert h1; decide
      have : g.glob.defs "@f" ≠ none := by
        rw [← h2, ht.anonPrev, if_neg h0]
        intro hc
        have := (ht.anonDef _).mp hc
        omega
      cases hc : g.glob.defs "@f" with
      | none => exact absurd hc this
      | some o =>
        simp only
        rw [M.modify_bind]
        have := anon "@f" h2.symm
        rw [h1] at this
        exact this
  rw [if_neg hat]
  have step : ∀ k sp', sp.keyDef (.str s) = some k → sp.defs k = none → sp' = sp.define k sp.size →
      Step cx (.defL (.str s)) sp sp' := by
    rintro k _ h1 h2 rfl
    refine ⟨k, h1, h2, ?_⟩
    simp only [Spec.touch]
    rw [if_neg (by simpa using hat)]
    rfl
  unfold onScope
  by_cases hd : isLocalName s = true
  · rw [if_pos hd]
    cases hloc : g.locals with
    | nil => exact absurd hloc hs.loc
    | cons st rest =>
      have pl : ∀ e ∈ st.undef, JOk g.ca.maxSize e.2 := fun e he => hs.pend _ (.inr (.inr ⟨st, by rw [hloc]; simp, _, he⟩))
      have := defineInScope_sat s g.ca.size st g.ca hs.wf pl
      simp only
      cases hr : defineInScope s g.ca.size st g.ca with
      | ub u => rw [hr] at this; exact this
      | err e r => trivial
      | ok a r =>
        obtain ⟨st', c⟩ := r
        rw [hr] at this
        obtain ⟨h1, h2, h3⟩ := this
        have hlen := ht.locLen
        rw [hloc] at hlen
        obtain ⟨σ, σs, hsc⟩ : ∃ σ σs, sp.scopes = σ :: σs := by
          match hs : sp.scopes, hlen with
          | a :: b, _ => exact ⟨a, b, rfl⟩
          | [], h => simp at h
        obtain ⟨h4, h5⟩ := h.defineLoc (g' := { g with locals := st' :: rest, ca := c }) hs hd rfl hsc hloc rfl h1 h2 h3
        rw [hgs] at h5
        refine ⟨_, step (.loc σ s) _ ?_ h4 rfl, h5⟩
        have hd' : isDot s = true := hd
        simp [Spec.keyDef, hb, hf, hat, hd', hsc]
  · rw [if_neg hd]
    have := defineInScope_sat s g.ca.size g.glob g.ca hs.wf pg
    cases hr : defineInScope s g.ca.size g.glob g.ca with
    | ub u => rw [hr] at this; exact this
    | err e r => trivial
    | ok a r =>
      obtain ⟨st', c⟩ := r
      rw [hr] at this
      obtain ⟨h1, h2, h3⟩ := this
      have hd' : isDot s = false := by
        have : isLocalName s = false := by simpa using hd
        exact this
      obtain ⟨h4, h5⟩ := h.defineName (g' := { g with glob := st', ca := c }) hs hd' hb hf rfl rfl h1 h2 h3
      rw [hgs] at h5
      refine ⟨_, step (.name s) _ ?_ h4 rfl, h5⟩
      simp [Spec.keyDef, hb, hf, hat, hd']

theorem defineAttach_refines {cx : Cx} {g : G} {sp : Spec} {x off : Nat} {o : LabelObj} (h : Inv cx g sp) (hs : BufSafe g)
    (hl : Life g) (hx : g.heap x = some o) (hid : o.id ≠ 0) (hoff : off ≤ g.ca.size)
    (habs : cx.auto = false → ∀ j, (o.id, j) ∈ g.cundef → j.mode = .abs → off = g.ca.size) :
    ((do defineId o.id off; attach x : M G Unit) g).Sat
      (fun _ g' => sp.defs (.obj o.id) = none ∧ Inv cx g' (sp.define (.obj o.id) off)) (fun _ _ => True) := by
  have hu : ∀ e ∈ g.cundef, JOk g.ca.maxSize e.2 := fun e he => hs.pend _ (.inl ⟨_, he⟩)
  refine M.sat_bind ((defineId_sat o.id off g hs.wf hu).mono (fun _ _ h => h) (fun _ _ _ => trivial)) ?_
  rintro _ g1 ⟨hn, hf, hfix⟩
  have hh : g1.heap x = some o := by rw [hf]; exact hx
  refine (attach_sat x g1).monoU ?_ (fun _ _ h => h.elim) (fun u hu => hu.2 (by simp [LiveRef, hh]))
  rintro _ g2 ⟨o', ho', rfl⟩
  rw [hh] at ho'; cases ho'
  refine h.defineObj hs hl hx hid hoff hn ?_ hfix habs
  rw [hf]

theorem defObj_refines {cx : Cx} {g : G} {sp : Spec} (h : Inv cx g sp) (hs : BufSafe g) (hl : Life g) (x : Nat) :
    (defineClabel x g).Sat (fun _ g' => ∃ sp', Step cx (.defL (.obj x)) sp sp' ∧ Inv cx g' sp') (fun _ _ => True) (fun _ => True) := by
  unfold defineClabel
  refine M.sat_bind ((getId_sat x g).monoU (fun _ _ h => h) (fun _ _ h => h.elim) (fun _ _ => trivial)) ?_
  rintro id g1 ⟨rfl, o, ho, rfl⟩
  rw [M.get_bind]
  have hi := h.touch hl (.obj x)
  have hid := touched_id h.tab (.obj x) x o rfl ho
  refine (defineAttach_refines hi (hs.touch _) (hl.touch _) ho hid (Nat.le_refl _) (fun _ _ _ _ => rfl)).monoU ?_
    (fun _ _ _ => trivial) (fun _ _ => trivial)
  rintro _ g' ⟨h1, h2⟩
  have hgs : (touch (.obj x) g).ca.size = sp.size := by rw [touch_ca]; exact h.buf.size
  rw [hgs] at h2
  refine ⟨_, ⟨.obj o.id, ?_, by rw [sp_touch_defs] at h1; exact h1, ?_⟩, h2⟩
  · simp only [Spec.keyDef]
    rw [hi.tab.objs, ho]; rfl
  · rw [if_neg (by simp)]
    have := sp_touch_anons sp (.obj x)
    rw [← this]
    rfl

/-- Obligations of the caller, beyond those regarding the lifetime of labels, under which every call refines the
specification.  Each excludes a call that the code gets wrong or that leaves the language of the specification:
* `jmp`, `jmpAbs`: `makeJmp` checks the distance before subtracting the length of the instruction;
* copying a label that is used but not yet defined creates an unrelated label;
* `assignL` in a fixed buffer writes the current address to pending absolute references;
* `reset` does not clear labels that are used but not defined;
* `ready` in AutoGrow mode is treated separately;
* `setSize` and `rewrite` overwrite the program. -/
def AsmOk (cx : Cx) (g : G) : Op → Prop
  | .jmp .. => g.ca.size + 6 ≤ 2 ^ 31
  | .jmpAbs a .. => cx.auto = false → -(2 ^ 31) + 6 ≤ (a - g.ca.getCurr).toInt
  | .copyLabel _ r | .assignLabel _ r => ∀ o, g.heap r = some o → o.id ≠ 0 → o.mgr = true
  | .assignL d _ => cx.auto = false → ∀ o j, g.heap d = some o → (o.id, j) ∈ g.cundef → j.mode ≠ .abs
  | .ready => cx.auto = false ∨ hasUndefinedLabel g = true
  | .reset => ∀ x o, g.heap x = some o → o.id ≠ 0 → o.mgr = true
  | .setSize _ | .rewrite _ _ _ => False
  | _ => True

theorem inv_init (cx : Cx) (c : CA) (hw : c.Wf) (h0 : c.size = 0) (hi : c.addrInfo = []) (hc : c.calcDone = false) (ha : c.isAutoGrow = cx.auto)
    (ht : cx.auto = false → c.top = cx.top) : Inv cx (G.init c) Spec.init := by
  refine ⟨⟨hw, ha, ht, fun _ => hi, hc, h0, ?_, ?_, ?_⟩, ⟨?_, ?_, ?_⟩, ⟨?_, ?_⟩, ?_⟩
  · intro i h; simp [G.init, hi] at h
  · intro t _
    simp [G.init, vcode, CA.code, h0, hi, applyInfos, Spec.init, renderR]
  · intro _ p f a hf; cases hf
  · intro p f t v hf; cases hf
  · intro p f hf; cases hf
  · intro k o h; cases h
  · rintro k j he
    cases k with
    | obj n => cases he
    | name s => obtain ⟨_, _, _, h⟩ := he; cases h
    | anon i => obtain ⟨_, h⟩ := he; cases h
    | loc σ s =>
      obtain ⟨st, h1, h2⟩ := he
      simp only [Spec.init, G.init, List.zip_cons_cons, List.zip_nil_left, List.mem_singleton, Prod.mk.injEq] at h1
      rw [h1.2] at h2
      cases h2
  · intro p f k d hf; cases hf
  · refine ⟨rfl, rfl, Nat.one_pos, fun _ => rfl, ?_, fun _ _ => ⟨rfl, rfl⟩, ?_, fun _ _ _ _ => rfl, ?_, rfl, rfl, ?_, rfl, ?_, ?_, ?_, fun _ _ _ => rfl⟩
    · intro x o h; cases h
    · intro n j h; cases h
    · intro n j h; cases h
    · intro k; simp [Spec.init]
    · intro σ st h1
      simp only [Spec.init, G.init, List.zip_cons_cons, List.zip_nil_left, List.mem_singleton, Prod.mk.injEq] at h1
      rw [h1.2]
      exact ⟨fun _ _ => rfl, fun s j h => by cases h⟩
    · simp [Spec.init]
    · intro σ h
      simp only [Spec.init, List.mem_singleton] at h
      simp [Spec.init, h]

/-- A generator as good as new, with live but unused labels. -/
theorem Inv.blank {cx : Cx} {g : G} {ob : Nat → Option Nat} (h : Inv cx (G.init g.ca) Spec.init)
    (hg : g = { G.init g.ca with heap := g.heap, defNear := g.defNear }) (h0 : ∀ x o, g.heap x = some o → o.id = 0)
    (ho : ∀ x, ob x = (g.heap x).map LabelObj.id) : Inv cx g { Spec.init with objs := ob, defNear := g.defNear } := by
  have ht := h.tab
  have e1 : g.glob = (G.init g.ca).glob := by rw [hg]; rfl
  have e2 : g.locals = (G.init g.ca).locals := by rw [hg]; rfl
  have e3 : g.cundef = (G.init g.ca).cundef := by rw [hg]; rfl
  have e4 : g.cdef = (G.init g.ca).cdef := by rw [hg]; rfl
  have e5 : g.labelId = (G.init g.ca).labelId := by rw [hg]; rfl
  have hE : ∀ k j, Entry g { Spec.init with objs := ob, defNear := g.defNear } k j ↔ Entry (G.init g.ca) Spec.init k j := by
    intro k j; unfold Entry; rw [e1, e2, e3]
  refine ⟨h.buf, h.vals, ⟨fun k j he => h.pend.ok k j ((hE k j).mp he), fun p f k d hf => by cases hf⟩, ?_⟩
  refine ⟨rfl, by rw [e5]; rfl, Nat.one_pos, ho, ?_, ?_, ?_, ?_, ?_, ?_, ?_, ht.anonDef, ?_, ?_, ht.nodup, ht.scopeLt, ht.scopeFresh⟩
  · intro x o hx hid; exact absurd (h0 x o hx) hid
  · rw [e4]; exact ht.fresh
  · rw [e3]; exact ht.freshU
  · rw [e1]; exact ht.glob
  · rw [e1]; exact ht.globU
  · rw [e1]; exact ht.anonCur
  · rw [e1]; exact ht.anonPrev
  · rw [e2]; exact ht.locLen
  · rw [e2]; exact ht.loc

theorem reset_refines {cx : Cx} {g : G} {sp : Spec} (h : Inv cx g sp) (hl : Life g)
    (ha : ∀ x o, g.heap x = some o → o.id ≠ 0 → o.mgr = true) :
    Inv cx { g with ca := g.ca.resetSize, labelId := 1, glob := .empty, locals := [.empty], cdef := fun _ => none, cundef := [], ptrs := [], heap := fun x => if x ∈ g.ptrs then some ⟨false, 0⟩ else g.heap x }
      { Spec.init with objs := fun x => (sp.objs x).map fun _ => 0, defNear := sp.defNear } := by
  rw [← h.tab.near]
  have hw := h.buf.wf
  have hout : ∀ x o, x ∉ g.ptrs → g.heap x = some o → o.id = 0 := by
    intro x o hx ho
    refine Nat.eq_zero_of_not_pos fun hp => hx (hl.ptr.reg x o ho (ha x o ho (by omega)))
  refine Inv.blank (g := { g with ca := g.ca.resetSize, labelId := 1, glob := .empty, locals := [.empty], cdef := fun _ => none, cundef := [], ptrs := [], heap := fun x => if x ∈ g.ptrs then some ⟨false, 0⟩ else g.heap x }) (inv_init cx _ ⟨Nat.zero_le _, hw.max_le, hw.lt⟩ rfl rfl rfl h.buf.auto h.buf.top) rfl ?_ ?_
  · intro x o ho
    simp only at ho
    split at ho
    · cases ho; rfl
    · rename_i hx; exact hout x o hx ho
  · intro x
    simp only
    rw [h.tab.objs]
    split
    · rename_i hx
      obtain ⟨o, ho, _⟩ := hl.ptr.live x hx
      rw [ho]; rfl
    · rename_i hx
      cases ho : g.heap x with
      | none => rfl
      | some o => simp [hout x o hx ho]

theorem step_refines (env : Env) (he : env.Sane) {cx : Cx} {g : G} {sp : Spec} (h : Inv cx g sp) (hs : BufSafe g)
    (hl : Life g) (op : Op) (hlo : LifeOk g op) (ha : AsmOk cx g op) :
    (step env op g).Sat (fun _ g' => ∃ sp', Step cx op sp sp' ∧ Inv cx g' sp') (fun _ _ => True) (fun _ => True) := by
  cases op with
  | db b =>
    refine (db_g env he hs.wf b).monoU ?_ (fun _ _ _ => trivial) (fun _ _ => trivial)
    intro _ g' hg
    exact ⟨_, rfl, h.emitBytes hg⟩
  | defL l =>
    cases l with
    | str s => exact (defStr_refines h hs s).monoU (fun _ _ h => h) (fun _ _ _ => trivial) (fun _ _ => trivial)
    | obj x => exact defObj_refines h hs hl x
  | jmp l ty s lo p =>
    exact (opJmp_sat env he l ty s lo p g hs.wf hs.loc).monoU (fun _ _ hj => jmp_refines h hs hl hj ha)
      (fun _ _ _ => trivial) (fun _ _ => trivial)
  | jmpAbs a ty s lo p =>
    exact (opJmpAbs_sat env he a ty s lo p g hs.wf).monoU (fun _ _ hj => jmpAbs_refines h hj ha)
      (fun _ _ _ => trivial) (fun _ _ => trivial)
  | putL l =>
    exact (putLInner_sat env he l _ _ g hs.wf hs.loc).monoU (fun _ _ hj => abs_refines h hs hl hj)
      (fun _ _ _ => trivial) (fun _ _ => trivial)
  | ripL l d =>
    exact (putLInner_sat env he l _ _ g hs.wf hs.loc).monoU (fun _ _ hj => rel_refines h hs hl hj)
      (fun _ _ _ => trivial) (fun _ _ => trivial)
  | assignL d s =>
    obtain ⟨⟨o, ho, hid⟩, hsrc⟩ := hlo
    simp only [step, assign]
    refine M.sat_bind ((deref_sat s g).monoU (fun _ _ h => h) (fun _ _ h => h.elim) (fun _ _ => trivial)) ?_
    rintro so g1 ⟨rfl, hso⟩
    rw [M.get_bind]
    cases hc : g1.cdef so.id with
    | none => trivial
    | some v =>
      simp only
      refine M.sat_bind ((deref_sat d g1).monoU (fun _ _ h => h) (fun _ _ h => h.elim) (fun _ _ => trivial)) ?_
      rintro o2 g2 ⟨rfl, hdo⟩
      rw [ho] at hdo; cases hdo
      have hsid : so.id ≠ 0 := by
        intro e
        have := (h.tab.fresh so.id (.inl e)).1
        rw [hc] at this; cases this
      have hsd : sp.defs (.obj so.id) = some v.offset := by
        rw [← (h.tab.objDef s so hso hsid).2.1, hc]; rfl
      have hoff : v.offset ≤ g2.ca.size := by
        rw [h.buf.size]; exact h.vals.defsLe _ _ hsd
      refine (defineAttach_refines h hs hl ho hid hoff (fun hx j hj hm => absurd hm (ha hx o j ho hj))).monoU ?_
        (fun _ _ _ => trivial) (fun _ _ => trivial)
      rintro _ g' ⟨h1, h2⟩
      have htouch : sp.touch (.obj d) = sp := by
        unfold Spec.touch
        simp only
        rw [if_neg]
        rw [h.tab.objs, ho]
        simpa using hid
      refine ⟨_, ⟨o.id, so.id, v.offset, ?_, ?_, hsd, h1, rfl⟩, ?_⟩
      · rw [htouch, h.tab.objs, ho]; rfl
      · rw [h.tab.objs, hso]; rfl
      · rw [htouch]; exact h2
  | inLocal => exact ⟨_, rfl, inLocal_refines h⟩
  | outLocal =>
    simp only [step, leaveLocal]
    match hloc : g.locals with
    | [] => trivial
    | [_] => trivial
    | st :: st2 :: rest =>
      simp only
      by_cases hu : (!st.undef.isEmpty) = true
      · rw [if_pos hu]; trivial
      · rw [if_neg hu]
        exact outLocal_refines h hloc (by simpa using hu)
  | newLabel x =>
    have hx : g.heap x = none := hlo
    simp only [step, newLabel]
    rw [M.get_bind, hx]
    exact ⟨_, rfl, new_refines h hx⟩
  | copyLabel x s =>
    obtain ⟨hx, hsl⟩ := hlo
    simp only [step, copyLabel]
    refine M.sat_bind ((deref_sat s g).monoU (fun _ _ h => h) (fun _ _ h => h.elim) (fun _ _ => trivial)) ?_
    rintro r g1 ⟨rfl, hr⟩
    rw [M.get_bind, hx]
    simp only
    rw [M.set_bind]
    refine (copy_refines h hl hr (by simp [hx]) (ha r hr)).monoU ?_ (fun _ _ _ => trivial) (fun _ _ => trivial)
    intro _ g' hi
    exact ⟨_, ⟨r.id, by rw [h.tab.objs, hr]; rfl, rfl⟩, hi⟩
  | assignLabel x s =>
    obtain ⟨hx, hsl⟩ := hlo
    simp only [step, assignLabel]
    refine M.sat_bind ((deref_sat x g).monoU (fun _ _ h => h) (fun _ _ h => h.elim) (fun _ _ => trivial)) ?_
    rintro o g1 ⟨rfl, ho⟩
    rw [M.throwIf_bind]
    by_cases h0 : (o.id != 0) = true
    · rw [if_pos h0]; trivial
    · rw [if_neg h0]
      have hid : o.id = 0 := by simpa using h0
      refine M.sat_bind ((deref_sat s g1).monoU (fun _ _ h => h) (fun _ _ h => h.elim) (fun _ _ => trivial)) ?_
      rintro r g2 ⟨rfl, hr⟩
      rw [M.modify_bind]
      refine (copy_refines h hl hr (fun o' ho' => by rw [ho] at ho'; cases ho'; exact hid) (ha r hr)).monoU ?_
        (fun _ _ _ => trivial) (fun _ _ => trivial)
      intro _ g' hi
      exact ⟨_, ⟨by rw [h.tab.objs, ho]; simp [hid], r.id, by rw [h.tab.objs, hr]; rfl, rfl⟩, hi⟩
  | dtorLabel x =>
    cases hx : g.heap x with
    | none => exact absurd hx hlo
    | some o => exact (dtor_refines h hl hx).mono (fun _ _ hi => ⟨_, rfl, hi⟩) (fun _ _ _ => trivial)
  | setDefaultJmpNEAR b =>
    have ht := h.tab
    exact ⟨_, rfl, h.buf, h.vals, ⟨h.pend.ok, h.pend.ex⟩, rfl, ht.labelId, ht.idPos, ht.objs, ht.objDef, ht.fresh, ht.freshU,
      ht.glob, ht.globU, ht.anonCur, ht.anonPrev, ht.anonDef, ht.locLen, ht.loc, ht.nodup, ht.scopeLt, ht.scopeFresh⟩
  | align x m =>
    simp only [step]
    have : (align env x m g.ca).Sat (fun _ c => ∃ bs, Emit g.ca c bs) (fun _ _ => True) := by
      unfold align
      split
      · exact ⟨[], Emit.refl hs.wf⟩
      · rw [M.get_bind, M.throwIf_bind]
        split
        · trivial
        · rw [M.throwIf_bind]
          split
          · trivial
          · split
            · exact (dbs_sat env he _ hs.wf).mono (fun _ _ h => ⟨_, h⟩) (fun _ _ _ => trivial)
            · exact ⟨[], Emit.refl hs.wf⟩
    unfold liftCA
    cases hc : align env x m g.ca with
    | err e c => trivial
    | ub u => trivial
    | ok a c =>
      rw [hc] at this
      obtain ⟨bs, hem⟩ := this
      exact ⟨_, ⟨bs, rfl⟩, h.emitBytes (g' := { g with ca := c }) ⟨rfl, hem⟩⟩
  | setSize n => exact ha.elim
  | rewrite o v n => exact ha.elim
  | reset =>
    refine (reset_eq g hl.ptr).monoU ?_ (fun _ _ _ => trivial) (fun _ _ => trivial)
    rintro _ g' rfl
    exact ⟨_, rfl, reset_refines h hl ha⟩
  | ready =>
    simp only [step, ready]
    rw [M.get_bind, M.throwIf_bind]
    split
    · trivial
    · rename_i hu
      have hx : cx.auto = false := ha.resolve_right hu
      rw [if_neg (by rw [h.buf.auto, hx]; simp)]
      exact ⟨sp, ⟨hx, rfl⟩, h⟩

/-- A definition that fails because a pending reference is out of range leaves the label half resolved; this excludes
it.  All other failures are allowed. -/
def Whole (env : Env) (g : G) (op : Op) : Prop :=
  match op with
  | .defL _ | .assignL _ _ =>
    match step env op g with
    | .err e _ => e ≠ .LABEL_IS_TOO_FAR ∧ e ≠ .OFFSET_IS_TOO_BIG
    | _ => True
  | _ => True

/-- The obligations of the caller for one call. -/
def CallOk (cx : Cx) (env : Env) (g : G) (op : Op) : Prop := LifeOk g op ∧ AsmOk cx g op ∧ Whole env g op

theorem AsmOk.inside {cx : Cx} {g : G} {op : Op} (h : AsmOk cx g op) : RewriteInside g op := by
  cases op <;> first | trivial | exact h.elim

section
variable {κ : Type} [DecidableEq κ]
theorem fixVal_err {off : Nat} {j : JmpLabel} {cur : Word} {e : Err} (h : fixVal off j cur = .error e) :
    e = .LABEL_IS_TOO_FAR ∨ e = .OFFSET_IS_TOO_BIG := by
  unfold fixVal at h
  split at h
  · cases h
  · cases h
  · simp only at h
    split at h
    · cases h; exact .inr rfl
    · split at h
      · cases h; exact .inl rfl
      · cases h

theorem resolve_err (key : κ) (off : Nat) (l : List (κ × JmpLabel)) (c : CA) (hw : c.Wf)
    (hl : ∀ e ∈ l, JOk c.maxSize e.2) :
    (resolve key off l c).Sat (fun _ _ => True) (fun e _ => e = .LABEL_IS_TOO_FAR ∨ e = .OFFSET_IS_TOO_BIG) := by
  induction l generalizing c with
  | nil => trivial
  | cons e t ih =>
    obtain ⟨k, j⟩ := e
    have hj : JOk c.maxSize j := hl (k, j) (by simp)
    unfold resolve
    by_cases hk : k = key
    · rw [if_pos hk, fixup_eq off j c hw hj]
      cases hv : fixVal off j c.getCurr with
      | error e => exact fixVal_err hv
      | ok v =>
        have hs := applyFix_same hw hj v
        exact ih (applyFix c j v) (hs.wf hw) (by rw [hs.maxSize]; exact fun e he => hl e (by simp [he]))
    · rw [if_neg hk]
      have := ih c hw (fun e he => hl e (by simp [he]))
      cases hr : resolve key off t c with
      | ub u => rw [hr] at this; exact this
      | ok a r => trivial
      | err a r => rw [hr] at this; exact this
end

theorem defineInScope_err (key : String) (off : Nat) (st : SState) (c : CA) (hw : c.Wf)
    (hl : ∀ e ∈ st.undef, JOk c.maxSize e.2) (hn : st.defs key = none) :
    (defineInScope key off st c).Sat (fun _ _ => True) (fun e _ => e = .LABEL_IS_TOO_FAR ∨ e = .OFFSET_IS_TOO_BIG) := by
  unfold defineInScope
  rw [hn]
  simp only
  have := resolve_err key off st.undef c hw hl
  cases hr : resolve key off st.undef c with
  | ub u => rw [hr] at this; exact this
  | ok a r => trivial
  | err a r => rw [hr] at this; exact this

theorem defineId_err (id off : Nat) (g : G) (hw : g.ca.Wf) (hl : ∀ e ∈ g.cundef, JOk g.ca.maxSize e.2)
    (hn : g.cdef id = none) :
    (defineId id off g).Sat (fun _ _ => True) (fun e _ => e = .LABEL_IS_TOO_FAR ∨ e = .OFFSET_IS_TOO_BIG) := by
  unfold defineId
  rw [hn]
  simp only
  have := resolve_err id off g.cundef g.ca hw hl
  cases hr : resolve id off g.cundef g.ca with
  | ub u => rw [hr] at this; exact this
  | ok a r => trivial
  | err a r => rw [hr] at this; exact this

/-- Neither error of a failed resolution. -/
def Soft (e : Err) : Prop := e ≠ .LABEL_IS_TOO_FAR ∧ e ≠ .OFFSET_IS_TOO_BIG

theorem defStr_fails {cx : Cx} {g : G} {sp : Spec} (h : Inv cx g sp) (hs : BufSafe g) (s : String) :
    (defineSlabel s g).Sat (fun _ _ => True) (fun e g' => Soft e → g' = g) := by
  have ht := h.tab
  have pg : ∀ e ∈ g.glob.undef, JOk g.ca.maxSize e.2 := fun e he => hs.pend _ (.inr (.inl ⟨_, he⟩))
  have soft : ∀ {e : Err}, Soft e → ¬ (e = .LABEL_IS_TOO_FAR ∨ e = .OFFSET_IS_TOO_BIG) :=
    fun h h' => h'.elim h.1 h.2
  unfold defineSlabel
  rw [M.throwIf_bind]
  by_cases hbf : (s == "@b" || s == "@f") = true
  · rw [if_pos hbf]; intro _; rfl
  rw [if_neg hbf, M.get_bind]
  have anon : ∀ (other : String), other = nm (sp.anons + 1) →
      (onScope (nm sp.anons) (defineInScope (nm sp.anons) g.ca.size)
        { g with glob := { g.glob with defs := upd g.glob.defs other none } }).Sat
      (fun _ _ => True) (fun e g' => Soft e → g' = g) := by
    rintro _ rfl
    unfold onScope
    have : isLocalName (nm sp.anons) = false := nm_not_dot _
    rw [this]
    simp only [Bool.false_eq_true, if_false]
    have := defineInScope_err (nm sp.anons) g.ca.size { g.glob with defs := upd g.glob.defs (nm (sp.anons + 1)) none } g.ca hs.wf pg
      (by show upd g.glob.defs (nm (sp.anons + 1)) none (nm sp.anons) = none
          rw [upd_other _ _ _ _ (nm_ne _)]; exact ht.anonCur)
    cases hr : defineInScope (nm sp.anons) g.ca.size { g.glob with defs := upd g.glob.defs (nm (sp.anons + 1)) none } g.ca with
    | ub u => rw [hr] at this; exact this
    | err e r => rw [hr] at this; exact fun hc => absurd this (soft hc)
    | ok a r => trivial
  by_cases hat : s = "@@"
  · subst hat
    rw [if_pos rfl]
    rcases nm_cases sp.anons with ⟨h1, h2⟩ | ⟨h1, h2⟩
    · have : g.glob.defs "@f" = none := by rw [← h1]; exact ht.anonCur
      rw [this]
      simp only
      rw [M.modify_bind]
      have := anon "@b" h2.symm
      rw [h1] at this
      exact this
    · have h0 : sp.anons ≠ 0 := by
        intro e; rw [e] at h1; revert h1; decide
      have : g.glob.defs "@f" ≠ none := by
        rw [← h2, ht.anonPrev, if_neg h0]
        intro hc
        have := (ht.anonDef _).mp hc
        omega
      cases hc : g.glob.defs "@f" with
      | none => exact absurd hc this
      | some o =>
        simp only
        rw [M.modify_bind]
        have := anon "@f" h2.symm
        rw [h1] at this
        exact this
  rw [if_neg hat]
  unfold onScope
  by_cases hd : isLocalName s = true
  · rw [if_pos hd]
    cases hloc : g.locals with
    | nil => exact absurd hloc hs.loc
    | cons st rest =>
      have pl : ∀ e ∈ st.undef, JOk g.ca.maxSize e.2 := fun e he => hs.pend _ (.inr (.inr ⟨st, by rw [hloc]; simp, _, he⟩))
      have := defineInScope_sat s g.ca.size st g.ca hs.wf pl
      have h2 := defineInScope_err s g.ca.size st g.ca hs.wf pl
      simp only
      cases hr : defineInScope s g.ca.size st g.ca with
      | ub u => rw [hr] at this; exact this
      | ok a r => trivial
      | err e r =>
        rw [hr] at this h2
        intro hsf
        rcases this with ⟨_, h3, h4⟩ | ⟨h3, _⟩
        · rw [h3, ← hloc]
        · exact absurd (h2 h3) (soft hsf)
  · rw [if_neg hd]
    have := defineInScope_sat s g.ca.size g.glob g.ca hs.wf pg
    have h2 := defineInScope_err s g.ca.size g.glob g.ca hs.wf pg
    cases hr : defineInScope s g.ca.size g.glob g.ca with
    | ub u => rw [hr] at this; exact this
    | ok a r => trivial
    | err e r =>
      rw [hr] at this h2
      intro hsf
      rcases this with ⟨_, h3, h4⟩ | ⟨h3, _⟩
      · rw [h3]
      · exact absurd (h2 h3) (soft hsf)

theorem defineAttach_fails {g : G} {x off id : Nat} (hs : BufSafe g) :
    ((do defineId id off; attach x : M G Unit) g).Sat (fun _ _ => True) (fun e g' => Soft e → g' = g) (fun _ => True) := by
  have hu : ∀ e ∈ g.cundef, JOk g.ca.maxSize e.2 := fun e he => hs.pend _ (.inl ⟨_, he⟩)
  have h1 := defineId_sat id off g hs.wf hu
  have h2 := defineId_err id off g hs.wf hu
  rw [M.bind_run]
  cases hr : defineId id off g with
  | ub u => trivial
  | err e r =>
    rw [hr] at h1 h2
    intro hsf
    rcases h1 with ⟨_, h3, _⟩ | ⟨h3, _⟩
    · exact h3
    · exact ((h2 h3).elim hsf.1 hsf.2).elim
  | ok a g1 =>
    simp only
    exact (attach_sat x g1).monoU (fun _ _ _ => trivial) (fun _ _ h => h.elim) (fun _ _ => trivial)

theorem Inv.appends {cx : Cx} {g g' : G} {sp : Spec} {op : Op} (h : Inv cx g sp) (ha : Appends g g') :
    ∃ sp', Fail op sp sp' ∧ Inv cx g' sp' := by
  obtain ⟨bs, hb⟩ := ha
  exact ⟨_, ⟨bs, .inl rfl⟩, h.emitBytes hb⟩

theorem Inv.refErr {cx : Cx} {g g' : G} {sp : Spec} {op : Op} {l : LRef} (h : Inv cx g sp) (hl : Life g)
    (ho : opLabel op = some l) (ha : RefErr l g g') : ∃ sp', Fail op sp sp' ∧ Inv cx g' sp' := by
  rcases ha with ha | ⟨bs, hb⟩
  · exact h.appends ha
  · exact ⟨_, ⟨bs, .inr ⟨l, ho, rfl⟩⟩, (h.touch hl l).emitBytes hb⟩

theorem Inv.same {cx : Cx} {g : G} {sp : Spec} {op : Op} (h : Inv cx g sp) : ∃ sp', Fail op sp sp' ∧ Inv cx g sp' :=
  h.appends ⟨[], EmitG.refl h.buf.wf⟩

/-- Failed calls refine the specification as well. -/
theorem step_fails (env : Env) (he : env.Sane) {cx : Cx} {g g' : G} {sp : Spec} {e : Err} (h : Inv cx g sp) (hs : BufSafe g)
    (hl : Life g) (op : Op) (hlo : LifeOk g op) (ha : AsmOk cx g op) (hwh : Whole env g op)
    (hst : step env op g = .err e g') : ∃ sp', Fail op sp sp' ∧ Inv cx g' sp' := by
  have key : ∀ {E : Err → G → Prop} {U : UB → Prop}, (step env op g).Sat (fun _ _ => True) E U → E e g' := by
    intro E U h; rw [hst] at h; exact h
  have T : ∀ {α : Type} {r : Res G α} {Q E} {U : UB → Prop}, r.Sat Q E U → r.Sat (fun _ _ => True) E U :=
    fun h => h.monoU (fun _ _ _ => trivial) (fun _ _ h => h) (fun _ h => h)
  cases op with
  | db b => exact h.appends (key (T (db_g env he hs.wf b)))
  | defL l =>
    have hsf : Soft e := by
      simp only [Whole, hst] at hwh; exact hwh
    cases l with
    | str s =>
      have := key (defStr_fails h hs s) hsf
      rw [this]; exact h.same
    | obj x =>
      have : (step env (.defL (.obj x)) g).Sat (fun _ _ => True) (fun e g' => Soft e → g' = touch (.obj x) g) (fun _ => True) := by
        simp only [step, defL, defineClabel]
        refine M.sat_bind ((getId_sat x g).monoU (fun _ _ h => h) (fun _ _ h => h.elim) (fun _ _ => trivial)) ?_
        rintro id g1 ⟨rfl, _⟩
        rw [M.get_bind]
        exact defineAttach_fails (hs.touch _)
      have := key this hsf
      refine h.refErr hl (l := .obj x) rfl (.inr ⟨[], ?_⟩)
      rw [this]
      exact EmitG.refl (hs.touch _).wf
  | jmp l ty s lo p => exact h.refErr hl rfl (key (T (opJmp_sat env he l ty s lo p g hs.wf hs.loc)))
  | jmpAbs a ty s lo p => exact h.appends (key (T (opJmpAbs_sat env he a ty s lo p g hs.wf)))
  | putL l => exact h.refErr hl rfl (key (T (putLInner_sat env he l _ _ g hs.wf hs.loc)))
  | ripL l d => exact h.refErr hl rfl (key (T (putLInner_sat env he l _ _ g hs.wf hs.loc)))
  | assignL d s =>
    have hsf : Soft e := by
      simp only [Whole, hst] at hwh; exact hwh
    have : (step env (.assignL d s) g).Sat (fun _ _ => True) (fun e g' => Soft e → g' = g) (fun _ => True) := by
      simp only [step, assign]
      refine M.sat_bind ((deref_sat s g).monoU (fun _ _ h => h) (fun _ _ h => h.elim) (fun _ _ => trivial)) ?_
      rintro so g1 ⟨rfl, hso⟩
      rw [M.get_bind]
      cases hc : g1.cdef so.id with
      | none => exact fun _ => rfl
      | some v =>
        simp only
        refine M.sat_bind ((deref_sat d g1).monoU (fun _ _ h => h) (fun _ _ h => h.elim) (fun _ _ => trivial)) ?_
        rintro o2 g2 ⟨rfl, hdo⟩
        exact defineAttach_fails hs
    have := key this hsf
    rw [this]; exact h.same
  | inLocal => cases hst
  | outLocal =>
    have : (step env .outLocal g).Sat (fun _ _ => True) (fun _ g' => g' = g) (fun _ => True) := by
      simp only [step, leaveLocal]
      match g.locals with
      | [] => trivial
      | [_] => exact rfl
      | st :: st2 :: rest =>
        simp only
        split
        · exact rfl
        · trivial
    rw [key this]; exact h.same
  | newLabel x =>
    have hx : g.heap x = none := hlo
    simp only [step, newLabel] at hst
    rw [M.get_bind, hx] at hst
    cases hst
  | copyLabel x s =>
    obtain ⟨hx, hsl⟩ := hlo
    have : (step env (.copyLabel x s) g).Sat (fun _ _ => True) (fun _ _ => False) (fun _ => True) := by
      simp only [step, copyLabel]
      refine M.sat_bind ((deref_sat s g).monoU (fun _ _ h => h) (fun _ _ h => h.elim) (fun _ _ => trivial)) ?_
      rintro r g1 ⟨rfl, hr⟩
      rw [M.get_bind, hx]
      simp only
      rw [M.set_bind]
      exact (copy_refines h hl hr (by simp [hx]) (ha r hr)).monoU (fun _ _ _ => trivial) (fun _ _ h => h) (fun _ _ => trivial)
    exact (key this).elim
  | assignLabel x s =>
    have : (step env (.assignLabel x s) g).Sat (fun _ _ => True) (fun _ g' => g' = g) (fun _ => True) := by
      obtain ⟨hx, hsl⟩ := hlo
      simp only [step, assignLabel]
      refine M.sat_bind ((deref_sat x g).monoU (fun _ _ h => h) (fun _ _ h => h.elim) (fun _ _ => trivial)) ?_
      rintro o g1 ⟨rfl, ho⟩
      rw [M.throwIf_bind]
      by_cases h0 : (o.id != 0) = true
      · rw [if_pos h0]; rfl
      · rw [if_neg h0]
        have hid : o.id = 0 := by simpa using h0
        refine M.sat_bind ((deref_sat s g1).monoU (fun _ _ h => h) (fun _ _ h => h.elim) (fun _ _ => trivial)) ?_
        rintro r g2 ⟨rfl, hr⟩
        rw [M.modify_bind]
        exact (copy_refines h hl hr (fun o' ho' => by rw [ho] at ho'; cases ho'; exact hid) (ha r hr)).monoU
          (fun _ _ _ => trivial) (fun _ _ h => h.elim) (fun _ _ => trivial)
    rw [key this]; exact h.same
  | dtorLabel x =>
    cases hx : g.heap x with
    | none => exact absurd hx hlo
    | some o => exact (key (T (dtor_refines h hl hx))).elim
  | setDefaultJmpNEAR b => cases hst
  | align x m =>
    have : (step env (.align x m) g).Sat (fun _ _ => True) (fun _ g' => Appends g g') (fun _ => True) := by
      simp only [step]
      have : (align env x m g.ca).Sat (fun _ _ => True) (fun _ c => ∃ bs, Emit g.ca c bs) := by
        unfold align
        split
        · trivial
        · rw [M.get_bind, M.throwIf_bind]
          split
          · exact ⟨[], Emit.refl hs.wf⟩
          · rw [M.throwIf_bind]
            split
            · exact ⟨[], Emit.refl hs.wf⟩
            · split
              · exact (dbs_sat env he _ hs.wf).mono (fun _ _ _ => trivial) (fun _ _ ⟨p, _, h⟩ => ⟨p, h⟩)
              · trivial
      unfold liftCA
      cases hc : align env x m g.ca with
      | ok a c => trivial
      | ub u => trivial
      | err a c =>
        rw [hc] at this
        obtain ⟨bs, hem⟩ := this
        exact ⟨bs, rfl, hem⟩
    exact h.appends (key this)
  | setSize n => exact ha.elim
  | rewrite o v n => exact ha.elim
  | reset => exact (key (T (reset_eq g hl.ptr))).elim
  | ready =>
    simp only [step, ready] at hst
    rw [M.get_bind, M.throwIf_bind] at hst
    split at hst
    · cases hst; exact h.same
    · rename_i hu
      have hx : cx.auto = false := ha.resolve_right hu
      rw [if_neg (by rw [h.buf.auto, hx]; simp)] at hst
      cases hst

/-- The calls of a history with their outcomes. -/
def outcomes (env : Env) : List Op → G → List (Op × Bool)
  | [], _ => []
  | op :: t, g => match step env op g with
    | .ok _ g' => (op, true) :: outcomes env t g'
    | .err _ g' => (op, false) :: outcomes env t g'
    | .ub _ => []

theorem run_refines (env : Env) (he : env.Sane) {cx : Cx} (ops : List Op) {g : G} {sp : Spec} (h : Inv cx g sp)
    (hs : BufSafe g) (hl : Life g) (hh : Hist (CallOk cx env) env ops g) :
    ∃ g' sp', run env ops g = .ok g' ∧ Run cx (outcomes env ops g) sp sp' ∧ Inv cx g' sp' ∧ BufSafe g' ∧ Life g' := by
  induction ops generalizing g sp with
  | nil => exact ⟨g, sp, rfl, .nil sp, h, hs, hl⟩
  | cons op t ih =>
    obtain ⟨⟨h1, h2, hw⟩, h3⟩ := hh
    have a := step_refines env he h hs hl op h1 h2
    have b := step_safe env he op g hs h2.inside
    have c := step_life env he op g hs hl h2.inside h1
    unfold run outcomes
    cases hst : step env op g with
    | ub u => rw [hst] at c; exact c.elim
    | err e g1 =>
      have a' := step_fails env he h hs hl op h1 h2 hw hst
      rw [hst] at b c h3
      obtain ⟨sp1, h4, h5⟩ := a'
      obtain ⟨g', sp', h6, h7, h8⟩ := ih h5 b c h3
      exact ⟨g', sp', h6, .fail h4 h7, h8⟩
    | ok u g1 =>
      rw [hst] at a b c h3
      obtain ⟨sp1, h4, h5⟩ := a
      obtain ⟨g', sp', h6, h7, h8⟩ := ih h5 b c h3
      exact ⟨g', sp', h6, .ok h4 h7, h8⟩

end Asm
end Xbyak
