import Verif.Props.Refinement
/-! # C15, C16, C18, C19, C20, C21: which definition a reference binds to -/
namespace Xbyak
open CA G
namespace Asm

/-! ## C15: anonymous labels -/

theorem str_jump_anons {cx : Cx} {op : Op} {s s' : Spec} (h : Step cx op s s') (hr : op ≠ .reset)
    (ho : op ≠ .defL (.str "@@")) : s'.anons = s.anons := by
  have := (h.grow hr).anons
  rw [if_neg ho] at this
  exact this

/-- **C15.** `@b` is the nearest preceding `L("@@")`: a jump to `"@b"` continues at the offset at which the most recent
`L("@@")` was executed.  `a`, `b`, `d` are arbitrary calls, except that no `L("@@")` succeeds in `b` and the generator
is not reset after the definition. -/
theorem c15_back (env : Env) (he : env.Sane) (c : CA) (hc : NewCode c) (a b d : List Op) (ty : LabelType) (sh lo p : Byte)
    (g1 g1' g2 g3 g4 g5 : G)
    (hh : Hist (CallOk (cxOf c) env) env (a ++ .defL (.str "@@") :: (b ++ .jmp (.str "@b") ty sh lo p :: d)) (G.init c))
    (h1 : run env a (G.init c) = .ok g1) (h2 : step env (.defL (.str "@@")) g1 = .ok () g1')
    (h3 : run env b g1' = .ok g2) (h4 : step env (.jmp (.str "@b") ty sh lo p) g2 = .ok () g3)
    (h5 : run env d g3 = .ok g4) (h6 : Final env g4 g5)
    (hb : (.defL (.str "@@"), true) ∉ outcomes env b g1') (hr1 : .reset ∉ b) (hr2 : .reset ∉ d) :
    Reaches g5.ca.code g2.ca.size g3.ca.size g1.ca.size := by
  obtain ⟨ha, hh⟩ := hist_append hh h1
  obtain ⟨hp, hh⟩ := hist_cons_ok hh h2
  obtain ⟨hb', hh⟩ := hist_append hh h3
  obtain ⟨sp1, r1, s1⟩ := (St.mk hc.inv hc.safe (init_life c)).run he ha h1
  obtain ⟨sp1', r1', s1'⟩ := s1.step he hp h2
  obtain ⟨sp2, r2, s2⟩ := s1'.run he hb' h3
  obtain ⟨sp3, sp4, k, r3, r4, s3, s4, hk, hg, hland⟩ := s2.jump he hh h4 h5 hr2 h6
  have hcnt : atCount (outcomes env b g1') = 0 := by
    unfold atCount
    rw [List.countP_eq_zero]
    intro e he' hc
    simp only [beq_iff_eq] at hc
    exact hb (hc ▸ he')
  have hgb := r2.grow (outcomes_noreset hr1)
  have e1 : sp2.anons = sp1.anons + 1 := by
    rw [hgb.anons, hcnt, (r1'.grow (by simp)).anons]; simp
  refine hland _ ?_
  have hk' : k = .anon sp1.anons := by
    simp only [Spec.touch, Spec.keyRef, if_true, e1] at hk
    rw [if_neg (by omega)] at hk
    cases hk; congr 1
  subst hk'
  refine hg.defs _ _ (((r3.grow (by simp)).defs _ _ (hgb.defs _ _ ?_)))
  obtain ⟨k, a, _, rfl⟩ := r1'
  simp only [Spec.touch, Spec.keyDef] at a
  simp only [String.reduceEq, or_self, if_false, if_true, Option.some.injEq] at a
  subst a
  show upd sp1.defs (.anon sp1.anons) (some sp1.size) (.anon sp1.anons) = _
  rw [upd_same, s1.inv.buf.size]
  rfl

/-- **C15.** `@f` is the nearest following `L("@@")`. -/
theorem c15_forward (env : Env) (he : env.Sane) (c : CA) (hc : NewCode c) (a b d : List Op) (ty : LabelType) (sh lo p : Byte)
    (g1 g2 g3 g3' g4 g5 : G)
    (hh : Hist (CallOk (cxOf c) env) env (a ++ .jmp (.str "@f") ty sh lo p :: (b ++ .defL (.str "@@") :: d)) (G.init c))
    (h1 : run env a (G.init c) = .ok g1) (h2 : step env (.jmp (.str "@f") ty sh lo p) g1 = .ok () g2)
    (h3 : run env b g2 = .ok g3) (h4 : step env (.defL (.str "@@")) g3 = .ok () g3')
    (h5 : run env d g3' = .ok g4) (h6 : Final env g4 g5)
    (hb : (.defL (.str "@@"), true) ∉ outcomes env b g2) (hr1 : .reset ∉ b) (hr2 : .reset ∉ d) :
    Reaches g5.ca.code g1.ca.size g2.ca.size g3.ca.size := by
  obtain ⟨ha, hh⟩ := hist_append hh h1
  obtain ⟨sp1, r1, s1⟩ := (St.mk hc.inv hc.safe (init_life c)).run he ha h1
  obtain ⟨hp, hh⟩ := hist_cons_ok hh h2
  obtain ⟨hb', hh⟩ := hist_append hh h3
  obtain ⟨hp', hh⟩ := hist_cons_ok hh h4
  obtain ⟨sp2, r2, s2⟩ := s1.step he hp h2
  obtain ⟨sp3, r3, s3⟩ := s2.run he hb' h3
  obtain ⟨sp3', r3', s3'⟩ := s3.step he hp' h4
  obtain ⟨sp4, r4, s4⟩ := s3'.run he hh h5
  have hcnt : atCount (outcomes env b g2) = 0 := by
    unfold atCount
    rw [List.countP_eq_zero]
    intro e he' hc
    simp only [beq_iff_eq] at hc
    exact hb (hc ▸ he')
  have gb := r3.grow (outcomes_noreset hr1)
  have gd := r4.grow (outcomes_noreset hr2)
  have gl := r3'.grow (by simp)
  have e3 : sp3.anons = sp1.anons := by
    rw [gb.anons, hcnt, (r2.grow (by simp)).anons]; simp
  have hk : (sp1.touch (.str "@f")).keyRef (.str "@f") = some (.anon sp1.anons) := by
    simp [Spec.touch, Spec.keyRef]
  rw [s1.inv.buf.size, s2.inv.buf.size]
  refine jump_lands r2 ((gb.trans gl).trans gd) (final_implements s4.inv s4.safe h6).1 hk (gd.defs _ _ ?_)
  obtain ⟨k, a, _, rfl⟩ := r3'
  simp only [Spec.touch, Spec.keyDef] at a
  simp only [String.reduceEq, or_self, if_false, if_true, Option.some.injEq] at a
  subst a
  show upd sp3.defs (.anon sp3.anons) (some sp3.size) (.anon sp1.anons) = _
  rw [e3, upd_same, s3.inv.buf.size]
  rfl

/-- **C15.** A jump to `"@b"` without a preceding `L("@@")` fails; with `ERR_LABEL_IS_NOT_FOUND` and without any effect
unless the call fails earlier (far jump, buffer growth). -/
theorem c15_no_back (env : Env) (he : env.Sane) (c : CA) (hc : NewCode c) (a : List Op) (ty : LabelType) (sh lo p : Byte) (g : G)
    (hh : Hist (CallOk (cxOf c) env) env a (G.init c)) (h1 : run env a (G.init c) = .ok g)
    (hb : (.defL (.str "@@"), true) ∉ outcomes env a (G.init c)) (hr : .reset ∉ a) :
    (∀ g', step env (.jmp (.str "@b") ty sh lo p) g ≠ .ok () g') ∧
      (ty ≠ .far → g.ca.isAutoGrow = false → step env (.jmp (.str "@b") ty sh lo p) g = .err .LABEL_IS_NOT_FOUND g) := by
  obtain ⟨sp, r1, s1⟩ := (St.mk hc.inv hc.safe (init_life c)).run he hh h1
  have hcnt : atCount (outcomes env a (G.init c)) = 0 := by
    unfold atCount
    rw [List.countP_eq_zero]
    intro e he' hc
    simp only [beq_iff_eq] at hc
    exact hb (hc ▸ he')
  have h0 : sp.anons = 0 := by
    rw [(r1.grow (outcomes_noreset hr)).anons, hcnt]; rfl
  have ht := s1.inv.tab
  have d1 : g.glob.defs "@f" = none := by have := ht.anonCur; rw [h0] at this; exact this
  have d2 : g.glob.defs "@b" = none := by have := ht.anonPrev; rw [h0] at this; exact this
  have hrn : rname g "@b" = .error .LABEL_IS_NOT_FOUND := by simp [rname, d1, d2]
  constructor
  · intro g' hst
    have := opJmp_sat env he (.str "@b") ty sh lo p g s1.safe.wf s1.safe.loc
    simp only [step] at hst
    rw [hst] at this
    obtain ⟨_, l', off, hres, _⟩ := this
    obtain ⟨s', hs', _⟩ := hres
    rw [show rname (touch (.str "@b") g) "@b" = rname g "@b" from rfl, hrn] at hs'
    cases hs'
  · intro hty hau
    simp only [step, opJmp]
    rw [M.throwIf_bind, if_neg (by simpa using hty), M.bind_run]
    have : reserve env g = .ok () g := by
      unfold reserve; rw [M.get_bind, if_neg (by simp [hau])]; rfl
    rw [this]
    simp only
    rw [M.bind_run]
    simp only [getOffset]
    rw [M.bind_run, resolveName_eq, hrn]

/-- **C15.** `"@b"` and `"@f"` cannot be defined. -/
theorem c15_not_definable (env : Env) (g : G) (s : String) (hs : s = "@b" ∨ s = "@f") :
    step env (.defL (.str s)) g = .err .BAD_LABEL_STR g := by
  simp only [step, defL, defineSlabel]
  rw [M.throwIf_bind, if_pos (by rcases hs with rfl | rfl <;> rfl)]

/-- `jmp @f; L @@; jmp @b; jmp @f; L @@` -/
example : (match run demoEnv [.jmp (.str "@f") .auto 0xEB 0xE9 0, .defL (.str "@@"), .jmp (.str "@b") .auto 0xEB 0xE9 0,
    .jmp (.str "@f") .auto 0xEB 0xE9 0, .defL (.str "@@"), .db 0xC3] (G.init demoCA) with
    | .ok g => g.ca.code
    | .error _ => []) = [0xEB, 0, 0xEB, 0xFE, 0xEB, 0, 0xC3] := by decide +kernel

/-! ## C16: dot labels -/

/-- A name that is a dot label. -/
theorem keyDef_dot {s : Spec} {n : String} (h : isDot n = true) : s.keyDef (.str n) = s.scopes.head?.map fun σ => .loc σ n := by
  have h1 : n ≠ "@b" := by rintro rfl; revert h; decide
  have h2 : n ≠ "@f" := by rintro rfl; revert h; decide
  have h3 : n ≠ "@@" := by rintro rfl; revert h; decide
  simp [Spec.keyDef, h, h1, h2, h3]

theorem keyRef_dot {s : Spec} {n : String} (h : isDot n = true) : s.keyRef (.str n) = s.scopes.head?.map fun σ => .loc σ n := by
  have h1 : n ≠ "@b" := by rintro rfl; revert h; decide
  have h2 : n ≠ "@f" := by rintro rfl; revert h; decide
  simp [Spec.keyRef, h, h1, h2]

/-- **C16.** A reference to a dot label after its definition in the same scope instance reaches that definition.
Between them (`b`) there may be anything that closes the scopes it opens and does not close the current one, including
definitions of the same name in inner scopes. -/
theorem c16_back (env : Env) (he : env.Sane) (c : CA) (hc : NewCode c) (a b d : List Op) (n : String) (hn : isDot n = true)
    (ty : LabelType) (sh lo p : Byte) (g1 g1' g2 g3 g4 g5 : G)
    (hh : Hist (CallOk (cxOf c) env) env (a ++ .defL (.str n) :: (b ++ .jmp (.str n) ty sh lo p :: d)) (G.init c))
    (h1 : run env a (G.init c) = .ok g1) (h2 : step env (.defL (.str n)) g1 = .ok () g1')
    (h3 : run env b g1' = .ok g2) (h4 : step env (.jmp (.str n) ty sh lo p) g2 = .ok () g3)
    (h5 : run env d g3 = .ok g4) (h6 : Final env g4 g5)
    (hb : balanced (outcomes env b g1') 0 = true) (hr1 : .reset ∉ b) (hr2 : .reset ∉ d) :
    Reaches g5.ca.code g2.ca.size g3.ca.size g1.ca.size := by
  obtain ⟨ha, hh⟩ := hist_append hh h1
  obtain ⟨hp, hh⟩ := hist_cons_ok hh h2
  obtain ⟨hb', hh⟩ := hist_append hh h3
  obtain ⟨sp1, r1, s1⟩ := (St.mk hc.inv hc.safe (init_life c)).run he ha h1
  obtain ⟨sp1', r1', s1'⟩ := s1.step he hp h2
  obtain ⟨sp2, r2, s2⟩ := s1'.run he hb' h3
  obtain ⟨sp3, sp4, k, r3, r4, s3, s4, hk, hg, hland⟩ := s2.jump he hh h4 h5 hr2 h6
  have hgb := r2.grow (outcomes_noreset hr1)
  have e1 : sp2.scopes = sp1'.scopes := r2.scopes (inner := []) hb rfl rfl (outcomes_noreset hr1)
  have e2 : sp1'.scopes = sp1.scopes := r1'.scopes (by simp) (by simp) (by simp)
  refine hland _ (hg.defs _ _ ((r3.grow (by simp)).defs _ _ (hgb.defs _ _ ?_)))
  obtain ⟨k', a, _, rfl⟩ := r1'
  simp only [Spec.touch] at a hk
  rw [keyDef_dot hn] at a
  rw [keyRef_dot hn, e1, e2, a] at hk
  cases hk
  show upd sp1.defs k (some sp1.size) k = _
  rw [upd_same, s1.inv.buf.size]
  rfl

/-- **C16.** A reference to a dot label before its definition in the same scope instance reaches that definition. -/
theorem c16_forward (env : Env) (he : env.Sane) (c : CA) (hc : NewCode c) (a b d : List Op) (n : String) (hn : isDot n = true)
    (ty : LabelType) (sh lo p : Byte) (g1 g2 g3 g3' g4 g5 : G)
    (hh : Hist (CallOk (cxOf c) env) env (a ++ .jmp (.str n) ty sh lo p :: (b ++ .defL (.str n) :: d)) (G.init c))
    (h1 : run env a (G.init c) = .ok g1) (h2 : step env (.jmp (.str n) ty sh lo p) g1 = .ok () g2)
    (h3 : run env b g2 = .ok g3) (h4 : step env (.defL (.str n)) g3 = .ok () g3')
    (h5 : run env d g3' = .ok g4) (h6 : Final env g4 g5)
    (hb : balanced (outcomes env b g2) 0 = true) (hr1 : .reset ∉ b) (hr2 : .reset ∉ d) :
    Reaches g5.ca.code g1.ca.size g2.ca.size g3.ca.size := by
  obtain ⟨ha, hh⟩ := hist_append hh h1
  obtain ⟨sp1, r1, s1⟩ := (St.mk hc.inv hc.safe (init_life c)).run he ha h1
  obtain ⟨hp, hh⟩ := hist_cons_ok hh h2
  obtain ⟨hb', hh⟩ := hist_append hh h3
  obtain ⟨hp', hh⟩ := hist_cons_ok hh h4
  obtain ⟨sp2, r2, s2⟩ := s1.step he hp h2
  obtain ⟨sp3, r3, s3⟩ := s2.run he hb' h3
  obtain ⟨sp3', r3', s3'⟩ := s3.step he hp' h4
  obtain ⟨sp4, r4, s4⟩ := s3'.run he hh h5
  have gb := r3.grow (outcomes_noreset hr1)
  have gd := r4.grow (outcomes_noreset hr2)
  have gl := r3'.grow (by simp)
  have e1 : sp3.scopes = sp2.scopes := r3.scopes (inner := []) hb rfl rfl (outcomes_noreset hr1)
  have e2 : sp2.scopes = sp1.scopes := r2.scopes (by simp) (by simp) (by simp)
  obtain ⟨k, hk, _⟩ := id r2
  rw [s1.inv.buf.size, s2.inv.buf.size]
  refine jump_lands r2 ((gb.trans gl).trans gd) (final_implements s4.inv s4.safe h6).1 hk (gd.defs _ _ ?_)
  obtain ⟨k', a, _, rfl⟩ := r3'
  simp only [Spec.touch] at a hk
  rw [keyRef_dot hn] at hk
  rw [keyDef_dot hn, e1, e2, hk] at a
  cases a
  show upd sp3.defs k (some sp3.size) k = _
  rw [upd_same, s3.inv.buf.size]
  rfl

end Asm
end Xbyak
