import Verif.Lands
import Verif.Props.Labels
/-!
# Labels: the finished code does what the program says

C08-C11, C15, C16, C19-C21: theorems about whole histories of calls, judged against the symbolic assembler of
`Verif.Spec.Asm`, and counterexamples for the statements the code violates.
-/
namespace Xbyak
open CA G
namespace Asm

/-! ## C08, C09: relative references -/

/-- Common part: any history (failing calls included) on a new generator is a run of the specification, and the
finished code implements it. -/
theorem history_implements (env : Env) (he : env.Sane) (c : CA) (hc : NewCode c) (ops : List Op)
    (hh : Hist (CallOk (cxOf c) env) env ops (G.init c)) :
    ∃ g sp, run env ops (G.init c) = .ok g ∧ Run (cxOf c) (outcomes env ops (G.init c)) Spec.init sp ∧
      St (cxOf c) g sp ∧ ∀ g', Final env g g' → Implements g'.ca.code g'.ca.top sp := by
  obtain ⟨g, sp, h1, h2, h3, h4, h5⟩ := run_refines env he ops hc.inv hc.safe (init_life c) hh
  exact ⟨g, sp, h1, h2, ⟨h3, h4, h5⟩, fun g' hf => (final_implements h3 h4 hf).1⟩

/-- **C08 (partial).** In a fixed buffer the code is, at any time, the program: literal bytes are in place and every
reference whose label is defined holds the displacement the CPU needs.  Missing: histories excluded by `CallOk`
(`assignL` to a never used label, code beyond 2 GiB - 6, `setSize`, `rewrite`), for which the claim fails or has no
meaning; see `c08_refuted`. -/
theorem c08_fixed_buffer_partial (env : Env) (he : env.Sane) (c : CA) (hc : NewCode c) (hfix : c.isAutoGrow = false)
    (ops : List Op) (hh : Hist (CallOk (cxOf c) env) env ops (G.init c)) :
    ∃ g sp, run env ops (G.init c) = .ok g ∧ Run (cxOf c) (outcomes env ops (G.init c)) Spec.init sp ∧
      g.ca.top = c.top ∧ Implements g.ca.code c.top sp := by
  obtain ⟨g, sp, h1, h2, h3, h4⟩ := history_implements env he c hc ops hh
  have ht : g.ca.top = c.top := h3.inv.buf.top hfix
  refine ⟨g, sp, h1, h2, ht, ?_⟩
  rw [← ht]
  refine h4 g ?_
  unfold Final
  rw [h3.inv.buf.auto]
  simp [cxOf, hfix]

/-- **C09 (partial).** In AutoGrow mode the same holds for the code at its final address once `ready()` has returned,
wherever the buffer was moved in between; no reference is left undefined. -/
theorem c09_autogrow_partial (env : Env) (he : env.Sane) (c : CA) (hc : NewCode c) (hauto : c.isAutoGrow = true)
    (ops : List Op) (hh : Hist (CallOk (cxOf c) env) env ops (G.init c)) :
    ∃ g sp, run env ops (G.init c) = .ok g ∧ Run (cxOf c) (outcomes env ops (G.init c)) Spec.init sp ∧
      ∀ g', step env .ready g = .ok () g' → Implements g'.ca.code g'.ca.top sp ∧ ¬ sp.HasUndefined := by
  obtain ⟨g, sp, h1, h2, h3, _⟩ := history_implements env he c hc ops hh
  refine ⟨g, sp, h1, h2, fun g' hr => ?_⟩
  have hf : Final env g g' := by
    unfold Final
    rw [h3.inv.buf.auto]
    simpa [cxOf, hauto] using hr
  obtain ⟨a, b⟩ := final_implements h3.inv h3.safe hf
  exact ⟨a, b hauto⟩

/-- Obligations of the caller that keep only `Label` objects alive. -/
def UseOk (g : G) : Op → Prop
  | .assignL d r => LiveRef g (.obj d) ∧ LiveRef g (.obj r)
  | .setSize _ | .rewrite _ _ _ => False
  | op => LifeOk g op

instance (g : G) (op : Op) : Decidable (UseOk g op) := by
  cases op <;> simp only [UseOk] <;> infer_instance

theorem demo_new : NewCode demoCA := ⟨demoCA_wf, rfl, rfl, rfl⟩
theorem demoAuto_new : NewCode demoAuto := ⟨demoAuto_wf, rfl, rfl, rfl⟩

/-- `L(x); nop; assignL(y, x); jmp(y)` with a `y` not used before. -/
def freshAssign : List Op :=
  [.newLabel 0, .newLabel 1, .defL (.obj 0), .db 0x90, .assignL 1 0, .jmp (.obj 1) .auto 0xEB 0xE9 0]

/-- **Finding (violates C08, C21, C11).** `assignL(dst, src)` on a label not used before: all calls succeed, but a
later jump to `dst` is never resolved. -/
theorem c08_refuted :
    ¬ ∀ (env : Env), env.Sane → ∀ c, NewCode c → c.isAutoGrow = false → ∀ ops, Hist UseOk env ops (G.init c) →
      (∀ e ∈ outcomes env ops (G.init c), e.2 = true) →
      ∃ g sp, run env ops (G.init c) = .ok g ∧ Run (cxOf c) (outcomes env ops (G.init c)) Spec.init sp ∧
        Implements g.ca.code c.top sp := by
  intro hall
  have ho : outcomes demoEnv freshAssign (G.init demoCA) = freshAssign.map fun op => (op, true) := by decide +kernel
  obtain ⟨g, sp, h1, h2, h3⟩ := hall demoEnv demoEnv_sane demoCA demo_new rfl freshAssign (by decide +kernel)
    (by rw [ho]; decide)
  have hcode : (match run demoEnv freshAssign (G.init demoCA) with
    | .ok g => g.ca.code
    | .error _ => []) = [0x90, 0xEB, 0x00] := by decide +kernel
  rw [h1] at hcode
  simp only at hcode
  rw [ho] at h2
  simp only [freshAssign, List.map_cons, List.map_nil, run_ok, run_nil] at h2
  obtain ⟨s1, rfl, s2, rfl, s3, ⟨k3, a3, _, rfl⟩, s4, rfl, s5, ⟨nd, nr, o, a5, b5, c5, _, rfl⟩, s6, ⟨k6, a6, rfl⟩, rfl⟩ := h2
  cases a3
  cases a5
  cases b5
  cases a6
  cases c5
  have := h3.fields [.byte 0x90, .byte 0xEB] ⟨.w1, false, .label (.obj 2) 0⟩ [] (by rfl)
  simp only [Field.Correct] at this
  have h4 := this 0 (by rfl)
  rw [hcode] at h4
  revert h4
  decide

/-! ### examples -/

instance (env : Env) (g : G) (op : Op) : Decidable (Whole env g op) := by
  cases op <;> simp only [Whole] <;> first | infer_instance | (split <;> infer_instance)

/-- Executable sufficient condition for `CallOk`. -/
def callOkB (cx : Cx) (env : Env) (g : G) (op : Op) : Bool :=
  decide (LifeOk g op) && decide (Whole env g op) &&
  match op with
  | .jmp .. => decide (g.ca.size + 6 ≤ 2 ^ 31)
  | .jmpAbs a .. => cx.auto || decide (-(2 ^ 31) + 6 ≤ (a - g.ca.getCurr).toInt)
  | .copyLabel _ r | .assignLabel _ r => match g.heap r with
    | some o => o.id == 0 || o.mgr
    | none => true
  | .assignL d _ => cx.auto || match g.heap d with
    | some o => g.cundef.all fun e => e.1 != o.id || decide (e.2.mode ≠ .abs)
    | none => true
  | .ready => !cx.auto || hasUndefinedLabel g
  | .reset | .setSize _ | .rewrite _ _ _ => false
  | _ => true

theorem callOkB_sound {cx : Cx} {env : Env} {g : G} {op : Op} (h : callOkB cx env g op = true) : CallOk cx env g op := by
  simp only [callOkB, Bool.and_eq_true, decide_eq_true_eq] at h
  obtain ⟨⟨h1, h2⟩, h3⟩ := h
  refine ⟨h1, ?_, h2⟩
  cases op <;> simp only [AsmOk, Bool.false_eq_true] at h3 ⊢
  case jmp => simpa using h3
  case jmpAbs =>
    intro hx; rw [hx] at h3; simpa using h3
  case copyLabel h r =>
    intro o ho hid
    rw [ho] at h3
    simp only [Bool.or_eq_true, beq_iff_eq] at h3
    exact h3.resolve_left hid
  case assignLabel h r =>
    intro o ho hid
    rw [ho] at h3
    simp only [Bool.or_eq_true, beq_iff_eq] at h3
    exact h3.resolve_left hid
  case assignL d r =>
    intro hx o j ho hj
    rw [hx, ho] at h3
    simp only [Bool.false_or, List.all_eq_true] at h3
    have := h3 _ hj
    simpa using this
  case ready =>
    cases hx : cx.auto with
    | false => exact .inl rfl
    | true => rw [hx] at h3; exact .inr (by simpa using h3)

theorem hist_mono {P Q : G → Op → Prop} {env : Env} (hpq : ∀ g op, P g op → Q g op) {ops : List Op} {g : G}
    (h : Hist P env ops g) : Hist Q env ops g := by
  induction ops generalizing g with
  | nil => trivial
  | cons op t ih =>
    obtain ⟨h1, h2⟩ := h
    refine ⟨hpq _ _ h1, ?_⟩
    cases hst : step env op g with
    | ok _ g1 => rw [hst] at h2; exact ih h2
    | err _ g1 => rw [hst] at h2; exact ih h2
    | ub u => trivial

theorem hist_check {cx : Cx} {env : Env} {ops : List Op} {g : G} (h : Hist (fun g op => callOkB cx env g op = true) env ops g) :
    Hist (CallOk cx env) env ops g := hist_mono (fun _ _ => callOkB_sound) h

/-- A program with forward and backward references, every kind of label, scopes, a failing call and aliases. -/
def demoProg : List Op :=
  [.newLabel 0, .newLabel 1, .jmp (.obj 0) .near 0xEB 0xE9 0, .putL (.obj 0), .jmp (.str "@f") .auto 0xEB 0xE9 0,
   .defL (.str "@@"), .db 0x90, .jmp (.str "@b") .auto 0x74 0x84 0x0F, .inLocal, .jmp (.str ".x") .auto 0xEB 0xE9 0,
   .outLocal, .defL (.str ".x"), .outLocal, .defL (.obj 0), .db 0xC3, .jmp (.obj 1) .near 0xEB 0xE9 0, .assignL 1 0,
   .ripL (.obj 1) 5, .defL (.str "@b")]

example : Hist (CallOk (cxOf demoCA) demoEnv) demoEnv demoProg (G.init demoCA) := hist_check (by decide +kernel)
example : Hist (CallOk (cxOf demoAuto) demoEnv) demoEnv demoProg (G.init demoAuto) := hist_check (by decide +kernel)
/-- the third `outLocal` and the last call fail, the others succeed -/
example : (outcomes demoEnv demoProg (G.init demoCA)).map Prod.snd =
    [true, true, true, true, true, true, true, true, true, true, false, true, true, true, true, true, true, true, false] := by
  decide +kernel

/-! ## C10: absolute references -/

/-- **C10 (partial).** A `putL(label)` (also the immediate of `mov reg, label`) executed anywhere in the program holds
`getCode()` + offset of the label in the finished code, if the label is defined in the end.  Missing: as for C08, and
in a fixed buffer `assignL` to a label with pending absolute references, see `c10_refuted`. -/
theorem c10_absolute_partial (env : Env) (he : env.Sane) (c : CA) (hc : NewCode c) (a b : List Op) (l : LRef) (g1 g2 g3 g4 : G)
    (hh : Hist (CallOk (cxOf c) env) env (a ++ .putL l :: b) (G.init c))
    (h1 : run env a (G.init c) = .ok g1) (h2 : step env (.putL l) g1 = .ok () g2) (h3 : run env b g2 = .ok g3)
    (hr : .reset ∉ b) (h4 : Final env g3 g4) :
    ∃ sp1 sp3 k, Run (cxOf c) (outcomes env a (G.init c)) Spec.init sp1 ∧ (sp1.touch l).keyRef l = some k ∧
      Run (cxOf c) (outcomes env (a ++ .putL l :: b) (G.init c)) Spec.init sp3 ∧
      ∀ o, sp3.defs k = some o →
        BitVec.ofNat 64 (fromLE (bytesAt g4.ca.code g1.ca.size 8)) = g4.ca.top + BitVec.ofNat 64 o := by
  obtain ⟨ha, hh⟩ := hist_append hh h1
  obtain ⟨hp, hb⟩ := hist_cons_ok hh h2
  obtain ⟨sp1, r1, s1⟩ := (St.mk hc.inv hc.safe (init_life c)).run he ha h1
  obtain ⟨sp2, r2, s2⟩ := s1.step he hp h2
  obtain ⟨sp3, r3, s3⟩ := s2.run he hb h3
  obtain ⟨k, hk, _⟩ := id r2
  refine ⟨sp1, sp3, k, r1, hk, ?_, fun o ho => ?_⟩
  · rw [outcomes_append h1, outcomes_cons_ok h2]
    exact Run.append.mpr ⟨sp1, r1, .ok r2 r3⟩
  · have := abs_lands r2 (r3.grow (outcomes_noreset hr)) (final_implements s3.inv s3.safe h4).1 hk ho
    rw [s1.inv.buf.size]
    exact this.2

/-- `L(x); nop; dq &y; assignL(y, x)` -/
def absAssign : List Op :=
  [.newLabel 0, .newLabel 1, .defL (.obj 0), .db 0x90, .putL (.obj 1), .assignL 1 0]

/-- **Finding (violates C10, C21).** In a fixed buffer, `assignL(dst, src)` stores the current address instead of the
address of `src` in the absolute references to `dst` made before. -/
theorem c10_refuted :
    ¬ ∀ (env : Env), env.Sane → ∀ c, NewCode c → c.isAutoGrow = false → ∀ ops, Hist UseOk env ops (G.init c) →
      (∀ e ∈ outcomes env ops (G.init c), e.2 = true) →
      ∃ g sp, run env ops (G.init c) = .ok g ∧ Run (cxOf c) (outcomes env ops (G.init c)) Spec.init sp ∧
        Implements g.ca.code c.top sp := by
  intro hall
  have ho : outcomes demoEnv absAssign (G.init demoCA) = absAssign.map fun op => (op, true) := by decide +kernel
  obtain ⟨g, sp, h1, h2, h3⟩ := hall demoEnv demoEnv_sane demoCA demo_new rfl absAssign (by decide +kernel)
    (by rw [ho]; decide)
  have hcode : (match run demoEnv absAssign (G.init demoCA) with
    | .ok g => fromLE (bytesAt g.ca.code 1 8) == (demoCA.top + 9).toNat
    | .error _ => false) = true := by decide +kernel
  rw [h1] at hcode
  simp only [beq_iff_eq] at hcode
  rw [ho] at h2
  simp only [absAssign, List.map_cons, List.map_nil, run_ok, run_nil] at h2
  obtain ⟨s1, rfl, s2, rfl, s3, ⟨k3, a3, _, rfl⟩, s4, rfl, s6, ⟨k6, a6, rfl⟩, s5, ⟨nd, nr, o, a5, b5, c5, _, rfl⟩, rfl⟩ := h2
  cases a3
  cases a5
  cases b5
  cases a6
  cases c5
  have := h3.fields [.byte 0x90] ⟨.w8, true, .label (.obj 2) 0⟩ [] (by rfl)
  simp only [Field.Correct] at this
  have h4 := this 0 (by rfl)
  simp only [if_true, len, Cell.len, Width.len, hcode] at h4
  revert h4
  decide

/-! ## C11: undefined labels -/

/-- **C11 (partial).** `hasUndefinedLabel()` is true iff some reference of the program names an undefined label, and
`ready()` fails with `ERR_LABEL_IS_NOT_FOUND` in exactly that case (the state is then unchanged). -/
theorem c11_undefined_partial (env : Env) (he : env.Sane) (c : CA) (hc : NewCode c) (ops : List Op)
    (hh : Hist (CallOk (cxOf c) env) env ops (G.init c)) :
    ∃ g sp, run env ops (G.init c) = .ok g ∧ Run (cxOf c) (outcomes env ops (G.init c)) Spec.init sp ∧
      (hasUndefinedLabel g = true ↔ sp.HasUndefined) ∧
      (sp.HasUndefined → step env .ready g = .err .LABEL_IS_NOT_FOUND g) ∧
      (¬ sp.HasUndefined → ∀ g', step env .ready g ≠ .err .LABEL_IS_NOT_FOUND g') := by
  obtain ⟨g, sp, h1, h2, h3, _⟩ := history_implements env he c hc ops hh
  have hu := undef_iff h3.inv
  refine ⟨g, sp, h1, h2, hu, fun h => ?_, fun h g' hr => ?_⟩
  · simp only [step, ready]
    rw [M.get_bind, M.throwIf_bind, if_pos (hu.mpr h)]
  · simp only [step, ready] at hr
    rw [M.get_bind, M.throwIf_bind, if_neg (fun hc => h (hu.mp hc))] at hr
    have := ready_err env g
    rw [hr] at this
    exact this rfl

/-- **Finding (violates C11).** After `assignL(y, x)` with a `y` not used before, a jump to `y` counts as undefined. -/
theorem c11_refuted :
    (match run demoEnv freshAssign (G.init demoCA) with
    | .ok g => hasUndefinedLabel g
    | .error _ => false) = true := by decide +kernel

end Asm
end Xbyak
