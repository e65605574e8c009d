import Verif.RefineOps
/-! # Refinement of label definitions -/
namespace Xbyak
open CA G
namespace Asm

theorem fixed_mem {κ : Type} [DecidableEq κ] {key : κ} {l : List (κ × JmpLabel)} {fx : List (JmpLabel × Word)}
    (h : fx.map Prod.fst = (l.filter (fun e => e.1 = key)).map Prod.snd) (j : JmpLabel) :
    j ∈ fx.map Prod.fst ↔ (key, j) ∈ l := by
  rw [h]
  simp only [List.mem_map, List.mem_filter, decide_eq_true_eq]
  constructor
  · rintro ⟨⟨k, j'⟩, ⟨h1, h2⟩, h3⟩
    simp only at h2 h3
    subst h2 h3
    exact h1
  · intro h; exact ⟨(key, j), ⟨h, rfl⟩, rfl⟩

theorem Inv.defineObj {cx : Cx} {g g' : G} {sp : Spec} {x off : Nat} {o : LabelObj} (h : Inv cx g sp) (hs : BufSafe g)
    (hl : Life g) (hx : g.heap x = some o) (hid : o.id ≠ 0) (hoff : off ≤ g.ca.size) (hc : g.cdef o.id = none)
    (hf : g' = { g with cdef := upd g.cdef o.id (some ⟨off, 1⟩), cundef := g'.cundef, ca := g'.ca, heap := upd g.heap x (some { o with mgr := true }), ptrs := insPtr x g.ptrs })
    (hfix : Fixed o.id off g.cundef g'.cundef g.ca g'.ca)
    (habs : cx.auto = false → ∀ j, (o.id, j) ∈ g.cundef → j.mode = .abs → off = g.ca.size) :
    sp.defs (.obj o.id) = none ∧ Inv cx g' (sp.define (.obj o.id) off) := by
  obtain ⟨hrest, fx, hca, hfx, hval⟩ := hfix
  obtain ⟨hlt, hdef, hmgr⟩ := h.tab.objDef x o hx hid
  have hk : sp.defs (.obj o.id) = none := by rw [← hdef, hc]; rfl
  have hm : o.mgr = false := by
    refine Bool.eq_false_iff.mpr fun hm => ?_
    obtain ⟨v, hv, _⟩ := cdef_of_mgr hl hx (by simpa using hm)
    rw [hc] at hv; cases hv
  have huniq := (hmgr hm).2
  obtain ⟨hb, hv⟩ := Buf.define (k := .obj o.id) (off := off) (fx := fx) h.buf h.vals h.pend hs hk hoff (fun j => fixed_mem hfx j)
    (fun j hj => .inl ⟨_, hj⟩) hval habs
  have e1 : g'.glob = g.glob := by rw [hf]
  have e2 : g'.locals = g.locals := by rw [hf]
  have e3 : g'.cdef = upd g.cdef o.id (some ⟨off, 1⟩) := by rw [hf]
  have e4 : g'.heap = upd g.heap x (some { o with mgr := true }) := by rw [hf]
  have e5 : g'.labelId = g.labelId := by rw [hf]
  have e6 : g'.defNear = g.defNear := by rw [hf]
  have od : ∀ k, (∀ n, k ≠ .obj n) → (sp.define (.obj o.id) off).defs k = sp.defs k := fun k hk =>
    upd_other _ _ _ _ (hk _)
  have on : ∀ n, n ≠ o.id → (sp.define (.obj o.id) off).defs (.obj n) = sp.defs (.obj n) := fun n hn =>
    upd_other _ _ _ _ (fun e => hn (by cases e; rfl))
  refine ⟨hk, ⟨by rw [hca]; exact hb, hv, ?_, ?_⟩⟩
  · refine h.pend.define (k := .obj o.id) (off := off) rfl rfl ?_
    intro k' j
    cases k' with
    | obj n =>
      simp only [Entry, hrest, List.mem_filter]
      constructor
      · rintro ⟨h1, h2⟩
        refine ⟨fun e => ?_, h1⟩
        cases e; simp at h2
      · rintro ⟨h1, h2⟩
        refine ⟨h2, ?_⟩
        have : n ≠ o.id := fun e => h1 (by rw [e])
        simpa using this
    | name s => simp only [Entry, e1]; exact ⟨fun h => ⟨by simp, h⟩, fun h => h.2⟩
    | anon i => simp only [Entry, e1]; exact ⟨fun h => ⟨by simp, h⟩, fun h => h.2⟩
    | loc σ s => simp only [Entry, e2]; exact ⟨fun h => ⟨by simp, h⟩, fun h => h.2⟩
  · have ht := h.tab
    refine ⟨e6.trans ht.near, e5.trans ht.labelId, ht.idPos, ?_, ?_, ?_, ?_, ?_, ?_, ?_, ?_, ?_, ?_, ?_, ht.nodup, ht.scopeLt, ?_⟩
    · intro y
      rw [e4]
      by_cases hy : y = x
      · subst hy
        have := ht.objs y
        rw [hx] at this
        simp only [upd_same]
        exact this
      · rw [upd_other _ _ _ _ hy]; exact ht.objs y
    · intro y oy
      rw [e4, e3]
      by_cases hy : y = x
      · subst hy
        simp only [upd_same]
        intro h1 h2
        cases h1
        refine ⟨hlt, ?_, fun h => by cases h⟩
        simp [Spec.define]
      · rw [upd_other _ _ _ _ hy]
        intro h1 h2
        have hne : oy.id ≠ o.id := fun e => hy (huniq y oy h1 e)
        rw [upd_other _ _ _ _ hne, on _ hne]
        obtain ⟨a, b, c⟩ := ht.objDef y oy h1 h2
        refine ⟨a, b, fun hf => ⟨(c hf).1, ?_⟩⟩
        intro y' o' hy' he
        by_cases hy2 : y' = x
        · subst hy2
          simp only [upd_same] at hy'
          cases hy'
          exact absurd he.symm hne
        · rw [upd_other _ _ _ _ hy2] at hy'
          exact (c hf).2 y' o' hy' he
    · intro n hn
      change n = 0 ∨ sp.nextId ≤ n at hn
      have hne : n ≠ o.id := by rcases hn with rfl | hn; exact fun e => hid e.symm; omega
      rw [e3, upd_other _ _ _ _ hne, on _ hne]
      exact ht.fresh n hn
    · intro n j hj
      rw [hrest] at hj
      exact ht.freshU n j (List.mem_filter.mp hj).1
    · rw [e1]; intro s h1 h2 h3; rw [od _ (by simp)]; exact ht.glob s h1 h2 h3
    · rw [e1]; exact ht.globU
    · rw [e1]; exact ht.anonCur
    · rw [e1, od _ (by simp)]; exact ht.anonPrev
    · intro k; rw [od _ (by simp)]; exact ht.anonDef k
    · rw [e2]; exact ht.locLen
    · rw [e2]
      intro σ st hm
      obtain ⟨a, b⟩ := ht.loc σ st hm
      exact ⟨fun s hs => by rw [od _ (by simp)]; exact a s hs, b⟩
    · intro σ s hσ; rw [od _ (by simp)]; exact ht.scopeFresh σ s hσ

theorem Inv.defineName {cx : Cx} {g g' : G} {sp : Spec} {s : String} {off : Nat} (h : Inv cx g sp) (hs : BufSafe g)
    (hd : isDot s = false) (hb : s ≠ "@b") (hf : s ≠ "@f") (hoff : off = g.ca.size)
    (hg : g' = { g with glob := g'.glob, ca := g'.ca })
    (hn : g.glob.defs s = none) (hdefs : g'.glob.defs = upd g.glob.defs s (some off))
    (hfix : Fixed s off g.glob.undef g'.glob.undef g.ca g'.ca) :
    sp.defs (.name s) = none ∧ Inv cx g' (sp.define (.name s) off) := by
  obtain ⟨hrest, fx, hca, hfx, hval⟩ := hfix
  have ht := h.tab
  have hk : sp.defs (.name s) = none := by rw [← ht.glob s hd hb hf, hn]
  have hE : ∀ j, (s, j) ∈ g.glob.undef ↔ Entry g sp (.name s) j := fun j => by
    simp only [Entry]; exact ⟨fun h => ⟨hd, hb, hf, h⟩, fun h => h.2.2.2⟩
  obtain ⟨hbuf, hv⟩ := Buf.define (k := .name s) (off := off) (fx := fx) h.buf h.vals h.pend hs hk (by omega)
    (fun j => (fixed_mem hfx j).trans (hE j))
    (fun j hj => .inr (.inl ⟨_, (hE j).mpr hj⟩)) hval (fun _ _ _ _ => hoff)
  have e2 : g'.locals = g.locals := by rw [hg]
  have e3 : g'.cdef = g.cdef := by rw [hg]
  have e4 : g'.heap = g.heap := by rw [hg]
  have e5 : g'.labelId = g.labelId := by rw [hg]
  have e6 : g'.defNear = g.defNear := by rw [hg]
  have e7 : g'.cundef = g.cundef := by rw [hg]
  have od : ∀ k, (∀ n, k ≠ .name n) → (sp.define (.name s) off).defs k = sp.defs k := fun k hk =>
    upd_other _ _ _ _ (hk _)
  have hsn : ∀ n, nm n ≠ s := by
    intro n e
    rcases nm_cases n with ⟨h1, _⟩ | ⟨h1, _⟩
    · exact hf (e.symm.trans h1)
    · exact hb (e.symm.trans h1)
  have hmem : ∀ s' j, (s', j) ∈ g'.glob.undef ↔ (s', j) ∈ g.glob.undef ∧ s' ≠ s := by
    intro s' j; rw [hrest, List.mem_filter]; simp
  refine ⟨hk, ⟨by rw [hca]; exact hbuf, hv, ?_, ?_⟩⟩
  · refine h.pend.define (k := .name s) (off := off) rfl rfl ?_
    intro k' j
    cases k' with
    | obj n => simp only [Entry, e7]; exact ⟨fun h => ⟨by simp, h⟩, fun h => h.2⟩
    | name s' =>
      simp only [Entry, hmem, ne_eq, Key.name.injEq]
      exact ⟨fun ⟨a, b, c, d, e⟩ => ⟨e, a, b, c, d⟩, fun ⟨e, a, b, c, d⟩ => ⟨a, b, c, d, e⟩⟩
    | anon i =>
      simp only [Entry, hmem]
      exact ⟨fun h => ⟨by simp, h.1, h.2.1⟩, fun h => ⟨h.2.1, h.2.2, hsn _⟩⟩
    | loc σ s => simp only [Entry, e2]; exact ⟨fun h => ⟨by simp, h⟩, fun h => h.2⟩
  · refine ⟨e6.trans ht.near, e5.trans ht.labelId, ht.idPos, ?_, ?_, ?_, ?_, ?_, ?_, ?_, ?_, ?_, ?_, ?_, ht.nodup, ht.scopeLt, ?_⟩
    · rw [e4]; exact ht.objs
    · rw [e4, e3]; intro y oy; rw [od _ (by simp)]; exact ht.objDef y oy
    · rw [e3]; intro n hn; rw [od _ (by simp)]; exact ht.fresh n hn
    · rw [e7]; exact ht.freshU
    · intro s' h1 h2 h3
      rw [hdefs]
      by_cases e : s' = s
      · subst e; simp [Spec.define]
      · rw [upd_other _ _ _ _ e]
        have : (sp.define (.name s) off).defs (.name s') = sp.defs (.name s') := upd_other _ _ _ _ (by simpa using e)
        rw [this]; exact ht.glob s' h1 h2 h3
    · intro s' j hj; exact ht.globU s' j ((hmem s' j).mp hj).1
    · rw [hdefs]
      show upd g.glob.defs s (some off) (nm sp.anons) = none
      rw [upd_other _ _ _ _ (hsn _)]; exact ht.anonCur
    · rw [hdefs, od _ (by simp)]
      show upd g.glob.defs s (some off) (nm (sp.anons + 1)) = _
      rw [upd_other _ _ _ _ (hsn _)]; exact ht.anonPrev
    · intro k; rw [od _ (by simp)]; exact ht.anonDef k
    · rw [e2]; exact ht.locLen
    · rw [e2]
      intro σ st hm
      obtain ⟨a, b⟩ := ht.loc σ st hm
      exact ⟨fun s hs => by rw [od _ (by simp)]; exact a s hs, b⟩
    · intro σ s hσ; rw [od _ (by simp)]; exact ht.scopeFresh σ s hσ

theorem nm_two (n : Nat) : nm (n + 2) = nm n := by unfold nm; simp

theorem nm_not_dot (n : Nat) : isDot (nm n) = false := by
  unfold nm; split <;> decide

theorem Inv.defineAnon {cx : Cx} {g g' : G} {sp : Spec} {off : Nat} (h : Inv cx g sp) (hs : BufSafe g)
    (hoff : off = g.ca.size) (hg : g' = { g with glob := g'.glob, ca := g'.ca })
    (hdefs : g'.glob.defs = upd (upd g.glob.defs (nm (sp.anons + 1)) none) (nm sp.anons) (some off))
    (hfix : Fixed (nm sp.anons) off g.glob.undef g'.glob.undef g.ca g'.ca) :
    sp.defs (.anon sp.anons) = none ∧ Inv cx g' { sp.define (.anon sp.anons) off with anons := sp.anons + 1 } := by
  obtain ⟨hrest, fx, hca, hfx, hval⟩ := hfix
  have ht := h.tab
  have hk : sp.defs (.anon sp.anons) = none := (ht.anonDef _).mpr (Nat.le_refl _)
  have hE : ∀ j, (nm sp.anons, j) ∈ g.glob.undef ↔ Entry g sp (.anon sp.anons) j := fun j => by
    simp only [Entry]; exact ⟨fun h => ⟨trivial, h⟩, fun h => h.2⟩
  obtain ⟨hbuf, hv⟩ := Buf.define (k := .anon sp.anons) (off := off) (fx := fx) h.buf h.vals h.pend hs hk (by omega)
    (fun j => (fixed_mem hfx j).trans (hE j))
    (fun j hj => .inr (.inl ⟨_, (hE j).mpr hj⟩)) hval (fun _ _ _ _ => hoff)
  have e2 : g'.locals = g.locals := by rw [hg]
  have e3 : g'.cdef = g.cdef := by rw [hg]
  have e4 : g'.heap = g.heap := by rw [hg]
  have e5 : g'.labelId = g.labelId := by rw [hg]
  have e6 : g'.defNear = g.defNear := by rw [hg]
  have e7 : g'.cundef = g.cundef := by rw [hg]
  have od : ∀ k, (∀ n, k ≠ .anon n) → upd sp.defs (.anon sp.anons) (some off) k = sp.defs k := fun k hk =>
    upd_other _ _ _ _ (hk _)
  have hmem : ∀ s' j, (s', j) ∈ g'.glob.undef ↔ (s', j) ∈ g.glob.undef ∧ s' ≠ nm sp.anons := by
    intro s' j; rw [hrest, List.mem_filter]; simp
  have nmbf : ∀ n, nm n = "@b" ∨ nm n = "@f" := by
    intro n; rcases nm_cases n with ⟨h1, _⟩ | ⟨h1, _⟩
    · exact .inr h1
    · exact .inl h1
  have hnone : ∀ s j, (s, j) ∈ g'.glob.undef → s = "@b" ∨ s = "@f" → False := by
    intro s j hj hs
    obtain ⟨h1, h2⟩ := (hmem s j).mp hj
    exact h2 ((ht.globU s j h1).2 hs)
  have other : ∀ s, s ≠ "@b" → s ≠ "@f" → ∀ n, s ≠ nm n := by
    intro s h1 h2 n e
    rcases nmbf n with h | h
    · exact h1 (e.trans h)
    · exact h2 (e.trans h)
  refine ⟨hk, ⟨by rw [hca]; exact hbuf, hv, ?_, ?_⟩⟩
  · refine h.pend.define (k := .anon sp.anons) (off := off) rfl rfl ?_
    intro k' j
    cases k' with
    | obj n => simp only [Entry, e7]; exact ⟨fun h => ⟨by simp, h⟩, fun h => h.2⟩
    | name s' =>
      simp only [Entry, hmem]
      exact ⟨fun ⟨a, b, c, d, e⟩ => ⟨by simp, a, b, c, d⟩, fun ⟨e, a, b, c, d⟩ => ⟨a, b, c, d, other s' b c _⟩⟩
    | anon i =>
      simp only [Entry]
      constructor
      · rintro ⟨_, h2⟩; exact (hnone _ j h2 (nmbf _)).elim
      · rintro ⟨h1, h2, _⟩; exact absurd (by rw [h2]) h1
    | loc σ s => simp only [Entry, e2]; exact ⟨fun h => ⟨by simp, h⟩, fun h => h.2⟩
  · refine ⟨e6.trans ht.near, e5.trans ht.labelId, ht.idPos, ?_, ?_, ?_, ?_, ?_, ?_, ?_, ?_, ?_, ?_, ?_, ht.nodup, ht.scopeLt, ?_⟩
    · rw [e4]; exact ht.objs
    · rw [e4, e3]; intro y oy; simp only [Spec.define]; rw [od _ (by simp)]; exact ht.objDef y oy
    · rw [e3]; intro n hn; simp only [Spec.define]; rw [od _ (by simp)]; exact ht.fresh n hn
    · rw [e7]; exact ht.freshU
    · intro s' h1 h2 h3
      rw [hdefs, upd_other _ _ _ _ (other s' h2 h3 _), upd_other _ _ _ _ (other s' h2 h3 _)]
      simp only [Spec.define]; rw [od _ (by simp)]; exact ht.glob s' h1 h2 h3
    · intro s' j hj
      exact ⟨(ht.globU s' j ((hmem s' j).mp hj).1).1, fun hh => (hnone s' j hj hh).elim⟩
    · rw [hdefs]
      show upd _ _ _ (nm (sp.anons + 1)) = none
      rw [upd_other _ _ _ _ (nm_ne _).symm, upd_same]
    · rw [hdefs]
      show upd _ _ _ (nm (sp.anons + 2)) = _
      rw [nm_two, upd_same]
      simp [Spec.define]
    · intro k
      show upd sp.defs (.anon sp.anons) (some off) (.anon k) = none ↔ sp.anons + 1 ≤ k
      by_cases e : k = sp.anons
      · subst e; simp
      · rw [upd_other _ _ _ _ (by simpa using e), ht.anonDef]; omega
    · rw [e2]; exact ht.locLen
    · rw [e2]
      intro σ st hm
      obtain ⟨a, b⟩ := ht.loc σ st hm
      exact ⟨fun s hs => by simp only [Spec.define]; rw [od _ (by simp)]; exact a s hs, b⟩
    · intro σ s hσ; simp only [Spec.define]; rw [od _ (by simp)]; exact ht.scopeFresh σ s hσ

theorem Inv.defineLoc {cx : Cx} {g g' : G} {sp : Spec} {s : String} {off σ : Nat} {σs : List Nat} {st st' : SState}
    {rest : List SState} (h : Inv cx g sp) (hs : BufSafe g)
    (hd : isDot s = true) (hoff : off = g.ca.size) (hsc : sp.scopes = σ :: σs) (hloc : g.locals = st :: rest)
    (hg : g' = { g with locals := st' :: rest, ca := g'.ca })
    (hn : st.defs s = none) (hdefs : st'.defs = upd st.defs s (some off))
    (hfix : Fixed s off st.undef st'.undef g.ca g'.ca) :
    sp.defs (.loc σ s) = none ∧ Inv cx g' (sp.define (.loc σ s) off) := by
  obtain ⟨hrest, fx, hca, hfx, hval⟩ := hfix
  have ht := h.tab
  have hnd : (σ :: σs).Nodup := hsc ▸ ht.nodup
  have hz : ∀ τ st1, (τ, st1) ∈ sp.scopes.zip g.locals ↔ (τ = σ ∧ st1 = st) ∨ (τ ≠ σ ∧ (τ, st1) ∈ σs.zip rest) := by
    intro τ st1; rw [hsc, hloc]
    simp only [List.zip_cons_cons, List.mem_cons, Prod.mk.injEq]
    constructor
    · rintro (h | h)
      · exact .inl h
      · refine .inr ⟨?_, h⟩
        rintro rfl
        exact (List.nodup_cons.mp hnd).1 (List.of_mem_zip h).1
    · rintro (h | h)
      · exact .inl h
      · exact .inr h.2
  have hz' : ∀ τ st1, (τ, st1) ∈ sp.scopes.zip g'.locals ↔ (τ = σ ∧ st1 = st') ∨ (τ ≠ σ ∧ (τ, st1) ∈ σs.zip rest) := by
    intro τ st1; rw [hsc, hg]
    simp only [List.zip_cons_cons, List.mem_cons, Prod.mk.injEq]
    constructor
    · rintro (h | h)
      · exact .inl h
      · refine .inr ⟨?_, h⟩
        rintro rfl
        exact (List.nodup_cons.mp hnd).1 (List.of_mem_zip h).1
    · rintro (h | h)
      · exact .inl h
      · exact .inr h.2
  have hcur := ht.loc σ st ((hz σ st).mpr (.inl ⟨rfl, rfl⟩))
  have hk : sp.defs (.loc σ s) = none := by rw [← hcur.1 s hd, hn]
  have hE : ∀ j, (s, j) ∈ st.undef ↔ Entry g sp (.loc σ s) j := fun j => by
    simp only [Entry, hz]
    constructor
    · intro h; exact ⟨st, .inl ⟨trivial, rfl⟩, h⟩
    · rintro ⟨st1, (⟨_, rfl⟩ | ⟨h1, _⟩), h2⟩
      · exact h2
      · exact absurd rfl h1
  obtain ⟨hbuf, hv⟩ := Buf.define (k := .loc σ s) (off := off) (fx := fx) h.buf h.vals h.pend hs hk (by omega)
    (fun j => (fixed_mem hfx j).trans (hE j))
    (fun j hj => .inr (.inr ⟨st, by rw [hloc]; simp, _, (hE j).mpr hj⟩)) hval (fun _ _ _ _ => hoff)
  have e1 : g'.glob = g.glob := by rw [hg]
  have e2 : g'.locals = st' :: rest := by rw [hg]
  have e3 : g'.cdef = g.cdef := by rw [hg]
  have e4 : g'.heap = g.heap := by rw [hg]
  have e5 : g'.labelId = g.labelId := by rw [hg]
  have e6 : g'.defNear = g.defNear := by rw [hg]
  have e7 : g'.cundef = g.cundef := by rw [hg]
  have od : ∀ k, (∀ τ n, k ≠ .loc τ n) → (sp.define (.loc σ s) off).defs k = sp.defs k := fun k hk =>
    upd_other _ _ _ _ (hk _ _)
  have hmem : ∀ s' j, (s', j) ∈ st'.undef ↔ (s', j) ∈ st.undef ∧ s' ≠ s := by
    intro s' j; rw [hrest, List.mem_filter]; simp
  refine ⟨hk, ⟨by rw [hca]; exact hbuf, hv, ?_, ?_⟩⟩
  · refine h.pend.define (k := .loc σ s) (off := off) rfl rfl ?_
    intro k' j
    cases k' with
    | obj n => simp only [Entry, e7]; exact ⟨fun h => ⟨by simp, h⟩, fun h => h.2⟩
    | name s' => simp only [Entry, e1]; exact ⟨fun h => ⟨by simp, h⟩, fun h => h.2⟩
    | anon i => simp only [Entry, e1]; exact ⟨fun h => ⟨by simp, h⟩, fun h => h.2⟩
    | loc τ s' =>
      simp only [Entry]
      simp only [Spec.define] at *
      constructor
      · rintro ⟨st1, h1, h2⟩
        rcases (hz' τ st1).mp h1 with ⟨rfl, rfl⟩ | ⟨h3, h4⟩
        · obtain ⟨h5, h6⟩ := (hmem s' j).mp h2
          exact ⟨by simpa using h6, st, (hz _ _).mpr (.inl ⟨rfl, rfl⟩), h5⟩
        · exact ⟨by simp [h3], st1, (hz _ _).mpr (.inr ⟨h3, h4⟩), h2⟩
      · rintro ⟨h0, st1, h1, h2⟩
        rcases (hz τ st1).mp h1 with ⟨rfl, rfl⟩ | ⟨h3, h4⟩
        · exact ⟨st', (hz' _ _).mpr (.inl ⟨rfl, rfl⟩), (hmem s' j).mpr ⟨h2, by simpa using h0⟩⟩
        · exact ⟨st1, (hz' _ _).mpr (.inr ⟨h3, h4⟩), h2⟩
  · refine ⟨e6.trans ht.near, e5.trans ht.labelId, ht.idPos, ?_, ?_, ?_, ?_, ?_, ?_, ?_, ?_, ?_, ?_, ?_, ht.nodup, ht.scopeLt, ?_⟩
    · rw [e4]; exact ht.objs
    · rw [e4, e3]; intro y oy; rw [od _ (by simp)]; exact ht.objDef y oy
    · rw [e3]; intro n hn; rw [od _ (by simp)]; exact ht.fresh n hn
    · rw [e7]; exact ht.freshU
    · rw [e1]; intro s h1 h2 h3; rw [od _ (by simp)]; exact ht.glob s h1 h2 h3
    · rw [e1]; exact ht.globU
    · rw [e1]; exact ht.anonCur
    · rw [e1, od _ (by simp)]; exact ht.anonPrev
    · intro k; rw [od _ (by simp)]; exact ht.anonDef k
    · rw [e2]
      have := ht.locLen
      rw [hloc] at this
      exact this
    · intro τ st1 hm
      rcases (hz' τ st1).mp hm with ⟨rfl, rfl⟩ | ⟨h3, h4⟩
      · refine ⟨?_, fun s' j hj => hcur.2 s' j ((hmem s' j).mp hj).1⟩
        intro s' hs'
        rw [hdefs]
        by_cases e : s' = s
        · subst e; simp [Spec.define]
        · rw [upd_other _ _ _ _ e]
          have : (sp.define (.loc τ s) off).defs (.loc τ s') = sp.defs (.loc τ s') := upd_other _ _ _ _ (by simpa using e)
          rw [this]; exact hcur.1 s' hs'
      · obtain ⟨a, b⟩ := ht.loc τ st1 ((hz _ _).mpr (.inr ⟨h3, h4⟩))
        refine ⟨fun s' hs' => ?_, b⟩
        have : (sp.define (.loc σ s) off).defs (.loc τ s') = sp.defs (.loc τ s') := upd_other _ _ _ _ (by simp [h3])
        rw [this]; exact a s' hs'
    · intro τ s' hτ
      have hne : τ ≠ σ := by
        have := ht.scopeLt σ (by rw [hsc]; simp)
        have : sp.nextScope ≤ τ := hτ
        omega
      have : (sp.define (.loc σ s) off).defs (.loc τ s') = sp.defs (.loc τ s') := upd_other _ _ _ _ (by simp [hne])
      rw [this]; exact ht.scopeFresh τ s' hτ

end Asm
end Xbyak
