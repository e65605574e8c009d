import Verif.Props.LabelKinds
import Verif.ScopeRun
/-! # C16 (rest), C18-C21: scopes, copies, reset, identities, aliases -/
namespace Xbyak
open CA G
namespace Asm

/-! ## C16: global labels and scopes -/

theorem keyDef_name {s : Spec} {n : String} (h : isDot n = false) (hn : n ≠ "@@" ∧ n ≠ "@b" ∧ n ≠ "@f") :
    s.keyDef (.str n) = some (.name n) := by simp [Spec.keyDef, h, hn]

theorem keyRef_name {s : Spec} {n : String} (h : isDot n = false) (hn : n ≠ "@@" ∧ n ≠ "@b" ∧ n ≠ "@f") :
    s.keyRef (.str n) = some (.name n) := by simp [Spec.keyRef, h, hn]

/-- **C16.** Labels without a dot are unaffected by scopes: whatever scopes are opened and closed in between (`b`), a
reference reaches the definition made before it. -/
theorem c16_global_back (env : Env) (he : env.Sane) (c : CA) (hc : NewCode c) (a b d : List Op) (n : String)
    (hd : isDot n = false) (hn : n ≠ "@@" ∧ n ≠ "@b" ∧ n ≠ "@f") (ty : LabelType) (sh lo p : Byte) (g1 g1' g2 g3 g4 g5 : G)
    (hh : Hist (CallOk (cxOf c) env) env (a ++ .defL (.str n) :: (b ++ .jmp (.str n) ty sh lo p :: d)) (G.init c))
    (h1 : run env a (G.init c) = .ok g1) (h2 : step env (.defL (.str n)) g1 = .ok () g1')
    (h3 : run env b g1' = .ok g2) (h4 : step env (.jmp (.str n) ty sh lo p) g2 = .ok () g3)
    (h5 : run env d g3 = .ok g4) (h6 : Final env g4 g5) (hr1 : .reset ∉ b) (hr2 : .reset ∉ d) :
    Reaches g5.ca.code g2.ca.size g3.ca.size g1.ca.size := by
  obtain ⟨ha, hh⟩ := hist_append hh h1
  obtain ⟨hp, hh⟩ := hist_cons_ok hh h2
  obtain ⟨hb', hh⟩ := hist_append hh h3
  obtain ⟨sp1, r1, s1⟩ := (St.mk hc.inv hc.safe (init_life c)).run he ha h1
  obtain ⟨sp1', r1', s1'⟩ := s1.step he hp h2
  obtain ⟨sp2, r2, s2⟩ := s1'.run he hb' h3
  obtain ⟨sp3, sp4, k, r3, r4, s3, s4, hk, hg, hland⟩ := s2.jump he hh h4 h5 hr2 h6
  have hgb := r2.grow (outcomes_noreset hr1)
  refine hland _ (hg.defs _ _ ((r3.grow (by simp)).defs _ _ (hgb.defs _ _ ?_)))
  obtain ⟨k', a, _, rfl⟩ := r1'
  simp only [Spec.touch] at a hk
  rw [keyDef_name hd hn] at a
  rw [keyRef_name hd hn, a] at hk
  cases hk
  show upd sp1.defs k (some sp1.size) k = _
  rw [upd_same, s1.inv.buf.size]
  rfl

/-- **C16.** The same for references before the definition. -/
theorem c16_global_forward (env : Env) (he : env.Sane) (c : CA) (hc : NewCode c) (a b d : List Op) (n : String)
    (hd : isDot n = false) (hn : n ≠ "@@" ∧ n ≠ "@b" ∧ n ≠ "@f") (ty : LabelType) (sh lo p : Byte) (g1 g2 g3 g3' g4 g5 : G)
    (hh : Hist (CallOk (cxOf c) env) env (a ++ .jmp (.str n) ty sh lo p :: (b ++ .defL (.str n) :: d)) (G.init c))
    (h1 : run env a (G.init c) = .ok g1) (h2 : step env (.jmp (.str n) ty sh lo p) g1 = .ok () g2)
    (h3 : run env b g2 = .ok g3) (h4 : step env (.defL (.str n)) g3 = .ok () g3')
    (h5 : run env d g3' = .ok g4) (h6 : Final env g4 g5) (hr1 : .reset ∉ b) (hr2 : .reset ∉ d) :
    Reaches g5.ca.code g1.ca.size g2.ca.size g3.ca.size := by
  obtain ⟨ha, hh⟩ := hist_append hh h1
  obtain ⟨sp1, r1, s1⟩ := (St.mk hc.inv hc.safe (init_life c)).run he ha h1
  obtain ⟨hp, hh⟩ := hist_cons_ok hh h2
  obtain ⟨hb', hh⟩ := hist_append hh h3
  obtain ⟨hp', hh⟩ := hist_cons_ok hh h4
  obtain ⟨sp2, r2, s2⟩ := s1.step he hp h2
  obtain ⟨sp3, r3, s3⟩ := s2.run he hb' h3
  obtain ⟨sp3', r3', s3'⟩ := s3.step he hp' h4
  obtain ⟨sp4, r4, s4⟩ := s3'.run he hh h5
  have gb := r3.grow (outcomes_noreset hr1)
  have gd := r4.grow (outcomes_noreset hr2)
  have gl := r3'.grow (by simp)
  obtain ⟨k, hk, _⟩ := id r2
  rw [s1.inv.buf.size, s2.inv.buf.size]
  refine jump_lands r2 ((gb.trans gl).trans gd) (final_implements s4.inv s4.safe h6).1 hk (gd.defs _ _ ?_)
  obtain ⟨k', a, _, rfl⟩ := r3'
  simp only [Spec.touch] at a hk
  rw [keyRef_name hd hn] at hk
  rw [keyDef_name hd hn, hk] at a
  cases a
  show upd sp3.defs k (some sp3.size) k = _
  rw [upd_same, s3.inv.buf.size]
  rfl

/-- **C16.** `outLocalLabel` outside any scope fails with `ERR_UNDER_LOCAL_LABEL` and changes nothing. -/
theorem c16_out_under (env : Env) (he : env.Sane) (c : CA) (hc : NewCode c) (a : List Op) (g : G)
    (hh : Hist (CallOk (cxOf c) env) env a (G.init c)) (h1 : run env a (G.init c) = .ok g)
    (hb : balanced (outcomes env a (G.init c)) 0 = true) (hr : .reset ∉ a) :
    step env .outLocal g = .err .UNDER_LOCAL_LABEL g := by
  obtain ⟨sp1, r1, s1⟩ := (St.mk hc.inv hc.safe (init_life c)).run he hh h1
  have e : sp1.scopes = [0] := r1.scopes (inner := []) hb rfl rfl (outcomes_noreset hr)
  have hl := s1.inv.tab.locLen
  rw [e] at hl
  simp only [step, leaveLocal]
  match hg : g.locals with
  | [] => rfl
  | [_] => rfl
  | _ :: _ :: _ => rw [hg] at hl; simp at hl

/-- **C16.** Inside a scope `outLocalLabel` fails with `ERR_LABEL_IS_NOT_FOUND` (changing nothing) exactly when a dot
label used in that scope is undefined, and otherwise leaves the scope. -/
theorem c16_out (env : Env) {cx : Cx} {g : G} {sp : Spec} (h : St cx g sp) (σ σ' : Nat) (rest : List Nat)
    (hs : sp.scopes = σ :: σ' :: rest) :
    (sp.Dangling σ → step env .outLocal g = .err .LABEL_IS_NOT_FOUND g) ∧
    (¬ sp.Dangling σ → ∃ st st' rest', g.locals = st :: st' :: rest' ∧ step env .outLocal g = .ok () { g with locals := st' :: rest' }) := by
  have hl := h.inv.tab.locLen
  rw [hs] at hl
  match hg : g.locals with
  | [] => rw [hg] at hl; simp at hl
  | [_] => rw [hg] at hl; simp at hl
  | st :: st' :: rest' =>
    have hz : (σ, st) ∈ sp.scopes.zip g.locals := by rw [hs, hg]; simp
    simp only [step, leaveLocal, hg]
    constructor
    · rintro ⟨f, n, d, hf, htg, hn⟩
      obtain ⟨pre, post, hpp⟩ := List.append_of_mem hf
      have hfa : fieldAt sp.cells (len pre) = some f := by rw [hpp]; exact fieldAt_mid pre post f
      obtain ⟨j, he, _⟩ := h.inv.pend.ex _ f _ d hfa htg hn
      obtain ⟨st2, h1, h2⟩ := he
      have hnd := h.inv.tab.nodup
      have hst : st2 = st := by
        rw [hs, hg, List.zip_cons_cons, List.mem_cons] at h1
        rcases h1 with h1 | h1
        · exact (Prod.mk.inj h1).2
        · have := (List.of_mem_zip h1).1
          rw [hs] at hnd
          exact absurd this (List.nodup_cons.mp hnd).1
      subst hst
      have : st2.undef.isEmpty = false := by
        cases hu : st2.undef with
        | nil => rw [hu] at h2; cases h2
        | cons => rfl
      rw [this]
      rfl
    · intro hnd
      refine ⟨st, st', rest', rfl, ?_⟩
      have : st.undef = [] := by
        cases hu : st.undef with
        | nil => rfl
        | cons e t =>
          exfalso
          apply hnd
          obtain ⟨s, j⟩ := e
          obtain ⟨h1, f, h2, _, _, h3, _⟩ := h.inv.pend.ok (.loc σ s) j ⟨st, hz, by rw [hu]; simp⟩
          obtain ⟨pre, post, hpp, _⟩ := fieldAt_split h2
          exact ⟨f, s, j.disp, by rw [hpp]; simp, h3, h1⟩
      rw [this]
      rfl

/-- **C16.** A definition of an equal dot name in another scope never resolves a reference: if after a jump to `.n` (not
yet defined in the current scope) only inner scopes define `.n`, the jump is still reported as undefined. -/
theorem c16_no_capture (env : Env) (he : env.Sane) (c : CA) (hc : NewCode c) (a b : List Op) (n : String) (hn : isDot n = true)
    (ty : LabelType) (sh lo p : Byte) (g1 g2 g3 : G) (hu : ∀ st rest, g1.locals = st :: rest → st.defs n = none)
    (hh : Hist (CallOk (cxOf c) env) env (a ++ .jmp (.str n) ty sh lo p :: b) (G.init c))
    (h1 : run env a (G.init c) = .ok g1) (h2 : step env (.jmp (.str n) ty sh lo p) g1 = .ok () g2)
    (h3 : run env b g2 = .ok g3) (hb : innerOnly n (outcomes env b g2) 0 = true) (hr : .reset ∉ b) :
    hasUndefinedLabel g3 = true := by
  obtain ⟨ha, hh⟩ := hist_append hh h1
  obtain ⟨sp1, r1, s1⟩ := (St.mk hc.inv hc.safe (init_life c)).run he ha h1
  obtain ⟨hp, hh⟩ := hist_cons_ok hh h2
  obtain ⟨sp2, r2, s2⟩ := s1.step he hp h2
  obtain ⟨sp3, r3, s3⟩ := s2.run he hh h3
  rw [undef_iff s3.inv]
  have esc : sp2.scopes = sp1.scopes := r2.scopes (by simp) (by simp) (by simp)
  obtain ⟨cs, hcs⟩ := (r3.grow (outcomes_noreset hr)).cells
  obtain ⟨k, hk, rfl⟩ := r2
  simp only [Spec.touch] at hk
  rw [keyRef_dot hn] at hk
  cases hsc : sp1.scopes with
  | nil => rw [hsc] at hk; cases hk
  | cons σ rest =>
    rw [hsc] at hk
    simp only [List.head?_cons, Option.map_some, Option.some.injEq] at hk
    subst hk
    have hloc : sp1.defs (.loc σ n) = none := by
      have hl := s1.inv.tab.locLen
      rw [hsc] at hl
      cases hg : g1.locals with
      | nil => rw [hg] at hl; simp at hl
      | cons st rest' =>
        rw [← (s1.inv.tab.loc σ st (by rw [hsc, hg]; simp)).1 n hn]
        exact hu st rest' hg
    have hnone := r3.inner (σ := σ) (inner := []) (base := rest) hn hb
      (by rw [esc, hsc]; rfl) rfl s2.inv.tab.scopeOk hloc (outcomes_noreset hr)
    have hmem : ∃ w, Cell.field ⟨w, false, .label (.loc σ n) 0⟩ ∈
        jmpCells (sp1.shortForm (.loc σ n) ty) sh lo p (.label (.loc σ n) 0) := by
      unfold jmpCells
      split
      · exact ⟨.w1, by simp⟩
      · exact ⟨.w4, by simp⟩
    obtain ⟨w, hw⟩ := hmem
    refine ⟨⟨w, false, .label (.loc σ n) 0⟩, .loc σ n, 0, ?_, rfl, hnone⟩
    rw [hcs]
    exact List.mem_append_left _ (List.mem_append_right _ hw)

/-- **C16.** A new scope knows none of the dot names of the enclosing scopes: right after `inLocalLabel` no dot label is
defined, so neither is `L(".n")` a redefinition nor does a jump to `.n` bind to an outer `.n`. -/
theorem c16_fresh_scope (env : Env) (g : G) :
    ∃ g', step env .inLocal g = .ok () g' ∧ g'.ca = g.ca ∧
      ∀ n, isLocalName n = true → lookupS n g' = .ok none g' := by
  refine ⟨_, rfl, rfl, ?_⟩
  intro n hn
  unfold lookupS
  rw [if_pos hn]
  rfl

/-- `L(".x"); inLocalLabel(); jmp(".x"); L(".x"); outLocalLabel(); jmp(".x")`: each jump takes its own `.x`. -/
example : (match run demoEnv [.defL (.str ".x"), .inLocal, .jmp (.str ".x") .auto 0xEB 0xE9 0, .defL (.str ".x"), .outLocal,
    .jmp (.str ".x") .auto 0xEB 0xE9 0] (G.init demoCA) with
    | .ok g => g.ca.code
    | .error _ => []) = [0xEB, 0, 0xEB, 0xFC] := by decide +kernel

/-! ## C18: copies -/

theorem bound_spec {cx : Cx} {g : G} {sp : Spec} (h : St cx g sp) {y off : Nat} (hb : Bound g y off) :
    ∃ id, id ≠ 0 ∧ sp.objs y = some id ∧ sp.defs (.obj id) = some off := by
  obtain ⟨o, v, h1, h2, h3, h4⟩ := hb
  have hid := h.life.ptr.nz y o h1 h2
  refine ⟨o.id, hid, by rw [h.inv.tab.objs, h1]; rfl, ?_⟩
  rw [← (h.inv.tab.objDef y o h1 hid).2.1, h3, ← h4]
  rfl

/-- **C18.** A jump to a bound label - the one given to `L` or any copy of it, see `c18_copy_construct`,
`c18_copy_assign` - reaches the offset of the definition, whatever happens in between to other labels, including the
destruction of the original.  (`Renews y`: `y` itself is destroyed or overwritten, or the generator is reset.) -/
theorem c18_bound_jump (env : Env) (he : env.Sane) (c : CA) (hc : NewCode c) (a b d : List Op) (y off : Nat)
    (ty : LabelType) (sh lo p : Byte) (g1 g2 g3 g4 g5 : G)
    (hh : Hist (CallOk (cxOf c) env) env (a ++ (b ++ .jmp (.obj y) ty sh lo p :: d)) (G.init c))
    (h1 : run env a (G.init c) = .ok g1) (hb : Bound g1 y off)
    (h3 : run env b g1 = .ok g2) (h4 : step env (.jmp (.obj y) ty sh lo p) g2 = .ok () g3)
    (h5 : run env d g3 = .ok g4) (h6 : Final env g4 g5)
    (hr1 : ∀ op ∈ b, ¬ Renews y op) (hr2 : .reset ∉ d) :
    Reaches g5.ca.code g2.ca.size g3.ca.size off := by
  obtain ⟨ha, hh⟩ := hist_append hh h1
  obtain ⟨hb', hh⟩ := hist_append hh h3
  obtain ⟨sp1, r1, s1⟩ := (St.mk hc.inv hc.safe (init_life c)).run he ha h1
  obtain ⟨sp2, r2, s2⟩ := s1.run he hb' h3
  obtain ⟨sp3, sp4, k, r3, r4, s3, s4, hk, hg, hland⟩ := s2.jump he hh h4 h5 hr2 h6
  have hres : Op.reset ∉ b := fun h => hr1 _ h trivial
  have hgb := r2.grow (outcomes_noreset hres)
  obtain ⟨id, h0, ho, hdef⟩ := bound_spec s1 hb
  have ho2 := r2.objs ho h0 (fun e he => hr1 _ (outcomes_fst env b g1 e he))
  have hk' : k = .obj id := by
    simp only [Spec.keyRef] at hk
    rw [touch_objs ho2 h0] at hk
    cases hk; rfl
  subst hk'
  exact hland _ (hg.defs _ _ ((r3.grow (by simp)).defs _ _ (hgb.defs _ _ hdef)))

/-- Original destroyed, copy of the copy used: `Label x; L(x); Label y(x); ~x; nop; jmp(y)` -/
example : (match run demoEnv [.newLabel 0, .defL (.obj 0), .copyLabel 1 0, .dtorLabel 0, .db 0x90,
    .jmp (.obj 1) .auto 0xEB 0xE9 0] (G.init demoCA) with
    | .ok g => g.ca.code
    | .error _ => []) = [0x90, 0xEB, 0xFD] := by decide +kernel

/-! ## C19: reset -/

/-- All the `Label` objects of the caller, as just constructed. -/
def freshHeap (g : G) : Nat → Option LabelObj := fun x => (g.heap x).map fun _ => ⟨false, 0⟩

/-- **C19 (partial).** After `reset()` the generator is, state for state, a new generator over the same buffer whose caller
holds freshly constructed labels: hence every further program has the same outcome as there.  Missing: labels that
were used but not defined before the reset keep their old identity, see `c19_refuted`.
(`setDefaultJmpNEAR` is a setting of the generator, not of the program.) -/
theorem c19_reset_partial (env : Env) (g : G) (hl : Life g)
    (hok : ∀ x o, g.heap x = some o → o.id ≠ 0 → o.mgr = true) :
    step env .reset g = .ok () { G.init g.ca.resetSize with heap := freshHeap g, defNear := g.defNear } ∧
      (g.ca.Wf → NewCode g.ca.resetSize) ∧ g.ca.resetSize.mem = g.ca.mem ∧ g.ca.resetSize.top = g.ca.top ∧
      g.ca.resetSize.maxSize = g.ca.maxSize := by
  refine ⟨?_, fun hw => ⟨⟨Nat.zero_le _, hw.max_le, fun h => by have := hw.lt h; exact this⟩, rfl, rfl, rfl⟩, rfl, rfl, rfl⟩
  have := reset_eq g hl.ptr
  show reset g = _
  cases hr : reset g with
  | ok _ g' =>
    rw [hr] at this
    have hg : g' = _ := this
    rw [hg]
    have hheap : (fun x => if x ∈ g.ptrs then some ⟨false, 0⟩ else g.heap x) = freshHeap g := by
      funext x
      unfold freshHeap
      by_cases hx : x ∈ g.ptrs
      · obtain ⟨o, ho, _⟩ := hl.ptr.live x hx
        simp [hx, ho]
      · rw [if_neg hx]
        cases ho : g.heap x with
        | none => rfl
        | some o =>
          have hm : o.mgr = false := Bool.eq_false_iff.mpr fun hm => hx (hl.ptr.reg x o ho hm)
          have hid : o.id = 0 := by
            by_cases h0 : o.id = 0
            · exact h0
            · rw [hok x o ho h0] at hm; cases hm
          obtain ⟨m, i⟩ := o
          simp only at hm hid
          subst hm hid
          rfl
    rw [hheap]
    rfl
  | err _ _ => rw [hr] at this; exact this.elim
  | ub _ => rw [hr] at this; exact this.elim

/-- The program used against `reset`: label 1 is used but never defined, label 0 is defined. -/
def staleProg : List Op := [.newLabel 1, .jmp (.obj 1) .near 0xEB 0xE9 0, .defL (.obj 0)]

/-- **Finding (violates C19 and C20).** A label used but not defined before `reset()` keeps its identity; the first label
used afterwards gets the same one.  Here label 0 is used, the generator is reset, and then `L(0)` resolves the jump to
the unrelated label 1, so that `hasUndefinedLabel()` is false; on a new generator it is true. -/
theorem c19_refuted :
    (match run demoEnv ([.newLabel 0, .jmp (.obj 0) .near 0xEB 0xE9 0, .reset] ++ staleProg) (G.init demoCA) with
      | .ok g => hasUndefinedLabel g
      | .error _ => true) = false ∧
    (match run demoEnv ([.newLabel 0] ++ staleProg) (G.init demoCA) with
      | .ok g => hasUndefinedLabel g
      | .error _ => false) = true := by decide +kernel

/-- Reset in the middle: everything defined, so the same bytes as on a new generator. -/
example : (match run demoEnv [.newLabel 0, .jmp (.obj 0) .near 0xEB 0xE9 0, .defL (.obj 0), .reset, .newLabel 1,
      .jmp (.obj 1) .near 0xEB 0xE9 0, .defL (.obj 0), .defL (.obj 1)] (G.init demoCA) with
      | .ok g => g.ca.code
      | .error _ => []) = [0xE9, 0, 0, 0, 0] := by decide +kernel

/-! ## C20: distinct labels -/

/-- **C20 (partial).** Two live `Label` objects with the same identity in use are copies of each other: they come, by copy
construction and assignment, from the same constructed `Label`.  Missing: histories that reset the generator while
some label is used but undefined (`c19_refuted`). -/
theorem c20_no_alias_partial (env : Env) (he : env.Sane) (c : CA) (hc : NewCode c) (ops : List Op) (g : G)
    (hh : Hist (CallOk (cxOf c) env) env ops (G.init c)) (h1 : run env ops (G.init c) = .ok g)
    (x y : Nat) (ox oy : LabelObj) (hx : g.heap x = some ox) (hy : g.heap y = some oy) (hid : ox.id = oy.id) (h0 : ox.id ≠ 0) :
    (classes (outcomes env ops (G.init c)) (fun _ => none, 0)).1 x = (classes (outcomes env ops (G.init c)) (fun _ => none, 0)).1 y := by
  obtain ⟨sp, r, s⟩ := (St.mk hc.inv hc.safe (init_life c)).run he hh h1
  have := r.classes (c := (fun _ => none, 0)) classOk_init
  refine this.same x y ox.id ?_ ?_ h0
  · rw [s.inv.tab.objs, hx]; rfl
  · rw [s.inv.tab.objs, hy, hid]; rfl

/-- **C20 (partial).** A definition of one label never resolves a reference to another one: after a successful `L(y)` or
`assignL(y, z)` every pending reference to an identity other than that of `y` is still pending. -/
theorem c20_definition_partial (env : Env) (he : env.Sane) {cx : Cx} (g g' : G) (sp : Spec) (s : St cx g sp) (op : Op) (y : Nat)
    (hop : op = .defL (.obj y) ∨ ∃ z, op = .assignL y z) (hc : CallOk cx env g op) (hst : step env op g = .ok () g')
    (oy : LabelObj) (hy : g'.heap y = some oy) (n : Nat) (j : JmpLabel) (hj : (n, j) ∈ g.cundef) (hn : n ≠ oy.id) :
    ∃ j', (n, j') ∈ g'.cundef ∧ j'.endOfJmp = j.endOfJmp ∧ j'.jmpSize = j.jmpSize := by
  obtain ⟨sp', r, s'⟩ := s.step he hc hst
  obtain ⟨h1, f, h2, h3, h4, h5, _⟩ := s.inv.pend.ok (.obj n) j hj
  have hyo : sp'.objs y = some oy.id := by rw [s'.inv.tab.objs, hy]; rfl
  have key : sp'.cells = sp.cells ∧ sp'.defs (.obj n) = none := by
    rcases hop with rfl | ⟨z, rfl⟩
    · obtain ⟨k, a, _, rfl⟩ := r
      have hk : k = .obj oy.id := by
        simp only [Spec.keyDef] at a
        have : (sp.touch (.obj y)).objs y = some oy.id := hyo
        rw [this] at a; cases a; rfl
      subst hk
      refine ⟨sp_touch_cells sp _, ?_⟩
      show upd (sp.touch (.obj y)).defs _ _ _ = _
      rw [upd_other _ _ _ _ (by simpa using hn), sp_touch_defs]
      exact h1
    · obtain ⟨nd, nr, o, a, _, _, _, rfl⟩ := r
      have : (sp.touch (.obj y)).objs y = some oy.id := hyo
      rw [this] at a; cases a
      refine ⟨sp_touch_cells sp _, ?_⟩
      show upd (sp.touch (.obj y)).defs _ _ _ = _
      rw [upd_other _ _ _ _ (by simpa using hn), sp_touch_defs]
      exact h1
  obtain ⟨j', e1, e2, e3⟩ := s'.inv.pend.ex _ f (.obj n) j.disp (by rw [key.1]; exact h2) h5 key.2
  exact ⟨j', e1, by rw [e2]; omega, by rw [e3]; omega⟩

/-- Two labels and a copy. -/
example : (classes (outcomes demoEnv [.newLabel 0, .newLabel 1, .jmp (.obj 0) .near 0xEB 0xE9 0, .defL (.obj 0), .copyLabel 2 0,
      .jmp (.obj 1) .near 0xEB 0xE9 0] (G.init demoCA)) (fun _ => none, 0)).1 2 = some 0 := by decide +kernel

/-! ## C21: aliases -/

/-- **C21 (partial).** After a successful `assignL(dst, src)`, a jump to `dst` made before (`dst` not being renewed in
between) reaches the definition of `src`, which is at `off`.  Missing: `dst` never used before `assignL` (`c08_refuted`)
and pending absolute references in a fixed buffer (`c10_refuted`). -/
theorem c21_past_partial (env : Env) (he : env.Sane) (c : CA) (hc : NewCode c) (a b d : List Op) (x y off : Nat)
    (ty : LabelType) (sh lo p : Byte) (g1 g2 g3 g3' g4 g5 : G)
    (hh : Hist (CallOk (cxOf c) env) env (a ++ .jmp (.obj x) ty sh lo p :: (b ++ .assignL x y :: d)) (G.init c))
    (h1 : run env a (G.init c) = .ok g1) (h2 : step env (.jmp (.obj x) ty sh lo p) g1 = .ok () g2)
    (h3 : run env b g2 = .ok g3) (hb : Bound g3 y off) (h4 : step env (.assignL x y) g3 = .ok () g3')
    (h5 : run env d g3' = .ok g4) (h6 : Final env g4 g5)
    (hr1 : ∀ op ∈ b, ¬ Renews x op) (hr2 : .reset ∉ d) :
    Reaches g5.ca.code g1.ca.size g2.ca.size off := by
  obtain ⟨ha, hh⟩ := hist_append hh h1
  obtain ⟨sp1, r1, s1⟩ := (St.mk hc.inv hc.safe (init_life c)).run he ha h1
  obtain ⟨hp, hh⟩ := hist_cons_ok hh h2
  obtain ⟨hb', hh⟩ := hist_append hh h3
  obtain ⟨hp', hh⟩ := hist_cons_ok hh h4
  obtain ⟨sp2, r2, s2⟩ := s1.step he hp h2
  obtain ⟨sp3, r3, s3⟩ := s2.run he hb' h3
  obtain ⟨sp3', r3', s3'⟩ := s3.step he hp' h4
  obtain ⟨sp4, r4, s4⟩ := s3'.run he hh h5
  have hres : Op.reset ∉ b := fun h => hr1 _ h trivial
  have gb := r3.grow (outcomes_noreset hres)
  have gd := r4.grow (outcomes_noreset hr2)
  have gl := r3'.grow (by simp)
  obtain ⟨k, hk, hsp2⟩ := id r2
  rw [s1.inv.buf.size, s2.inv.buf.size]
  refine jump_lands r2 ((gb.trans gl).trans gd) (final_implements s4.inv s4.safe h6).1 hk (gd.defs _ _ ?_)
  obtain ⟨id, h0, ho, hdef⟩ := bound_spec s3 hb
  obtain ⟨nd, nr, o, e1, e2, e3, _, rfl⟩ := r3'
  rw [ho] at e2; cases e2
  rw [hdef] at e3; cases e3
  -- identity of `x` from the jump on
  obtain ⟨n, hn, hkn⟩ : ∃ n, (sp1.touch (.obj x)).objs x = some n ∧ k = .obj n := by
    simp only [Spec.keyRef] at hk
    cases hx : (sp1.touch (.obj x)).objs x with
    | none => rw [hx] at hk; cases hk
    | some n => rw [hx] at hk; cases hk; exact ⟨n, rfl, rfl⟩
  have hn0 : n ≠ 0 := by
    rintro rfl
    unfold Spec.touch at hn
    simp only at hn
    split at hn
    · simp only [upd_same, Option.some.injEq] at hn
      have := s1.inv.tab.idPos
      omega
    · rename_i hne; exact hne hn
  have hx2 : sp2.objs x = some n := by rw [hsp2]; exact hn
  have hx3 := r3.objs hx2 hn0 (fun e he => hr1 _ (outcomes_fst env b g2 e he))
  rw [touch_objs hx3 hn0] at e1
  cases e1
  subst hkn
  show upd (sp3.touch (.obj x)).defs _ _ _ = _
  rw [upd_same]

/-- **C21 (partial).** The same for jumps to `dst` after `assignL`; `dst` may be used until it is destroyed. -/
theorem c21_future_partial (env : Env) (he : env.Sane) (c : CA) (hc : NewCode c) (a b d : List Op) (x y off : Nat)
    (ty : LabelType) (sh lo p : Byte) (g1 g1' g2 g3 g4 g5 : G)
    (hh : Hist (CallOk (cxOf c) env) env (a ++ .assignL x y :: (b ++ .jmp (.obj x) ty sh lo p :: d)) (G.init c))
    (h1 : run env a (G.init c) = .ok g1) (hb : Bound g1 y off) (h2 : step env (.assignL x y) g1 = .ok () g1')
    (h3 : run env b g1' = .ok g2) (h4 : step env (.jmp (.obj x) ty sh lo p) g2 = .ok () g3)
    (h5 : run env d g3 = .ok g4) (h6 : Final env g4 g5)
    (hr1 : ∀ op ∈ b, ¬ Renews x op) (hr2 : .reset ∉ d) :
    Reaches g5.ca.code g2.ca.size g3.ca.size off := by
  have hrun : run env (a ++ [.assignL x y]) (G.init c) = .ok g1' := by
    have : ∀ (l : List Op) (g g' g'' : G), run env l g = .ok g' → step env (.assignL x y) g' = .ok () g'' →
        run env (l ++ [.assignL x y]) g = .ok g'' := by
      intro l
      induction l with
      | nil => intro g g' g'' e1 e2; cases e1; simp [run, e2]
      | cons op t ih =>
        intro g g' g'' e1 e2
        rw [List.cons_append]
        unfold run at e1 ⊢
        cases hst : step env op g with
        | ok _ g1 => rw [hst] at e1; exact ih g1 g' g'' e1 e2
        | err _ g1 => rw [hst] at e1; exact ih g1 g' g'' e1 e2
        | ub u => rw [hst] at e1; cases e1
    exact this a _ _ _ h1 h2
  obtain ⟨ha, hh'⟩ := hist_append hh h1
  obtain ⟨hp, _⟩ := hist_cons_ok hh' h2
  obtain ⟨sp1, r1, s1⟩ := (St.mk hc.inv hc.safe (init_life c)).run he ha h1
  obtain ⟨sp1', r1', s1'⟩ := s1.step he hp h2
  have hbx : Bound g1' x off := by
    obtain ⟨id, h0, ho, hdef⟩ := bound_spec s1 hb
    obtain ⟨nd, nr, o, e1, e2, e3, _, rfl⟩ := r1'
    rw [ho] at e2; cases e2
    rw [hdef] at e3; cases e3
    have hobj : (sp1.touch (.obj x)).objs x = some nd := e1
    have hx := s1'.inv.tab.objs x
    rw [show ((sp1.touch (.obj x)).define (.obj nd) off).objs x = some nd from hobj] at hx
    cases hox : g1'.heap x with
    | none => rw [hox] at hx; cases hx
    | some ox =>
      rw [hox] at hx
      simp only [Option.map_some, Option.some.injEq] at hx
      obtain ⟨⟨ox1, hox1, hid1⟩, _⟩ := hp.1
      have hsx : sp1.objs x = some ox1.id := by rw [s1.inv.tab.objs, hox1]; rfl
      rw [touch_objs hsx hid1] at e1
      cases e1
      have hid : ox.id ≠ 0 := by rw [← hx]; exact hid1
      obtain ⟨_, q2, q3⟩ := s1'.inv.tab.objDef x ox hox hid
      have hd : ((sp1.touch (.obj x)).define (.obj ox1.id) off).defs (.obj ox.id) = some off := by
        rw [← hx]; show upd _ _ _ _ = _; rw [upd_same]
      rw [hd] at q2
      cases hcd : g1'.cdef ox.id with
      | none => rw [hcd] at q2; cases q2
      | some v =>
        rw [hcd] at q2
        simp only [Option.map_some, Option.some.injEq] at q2
        refine ⟨ox, v, hox, ?_, hcd, q2⟩
        cases hm : ox.mgr with
        | true => rfl
        | false => rw [(q3 hm).1] at hcd; cases hcd
  refine c18_bound_jump env he c hc (a ++ [.assignL x y]) b d x off ty sh lo p g1' g2 g3 g4 g5 ?_ hrun hbx h3 h4 h5 h6 hr1 hr2
  rw [List.append_assoc]
  exact hh

/-- `jmp(y); L(x); nop; assignL(y, x); jmp(y)` -/
example : (match run demoEnv [.newLabel 0, .newLabel 1, .jmp (.obj 1) .auto 0xEB 0xE9 0, .defL (.obj 0), .db 0x90, .assignL 1 0,
    .jmp (.obj 1) .auto 0xEB 0xE9 0] (G.init demoCA) with
    | .ok g => g.ca.code
    | .error _ => []) = [0xEB, 0, 0x90, 0xEB, 0xFD] := by decide +kernel

end Asm
end Xbyak
