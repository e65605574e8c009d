import Verif.Keep
/-!
# C04, C12, C17, C18, C58: safety of every history, label lifecycle

Histories are arbitrary lists of calls (`Op`), exceptions are caught and the history goes on.  `G.run` answers
`.error u` when a call is undefined: `bounds` for an access outside of the block owned by the generator,
`lifetime` for the use of a destroyed `Label`.
-/
namespace Xbyak
open CA G

/-- A concrete environment for the examples: the allocator returns zeroed blocks at page addresses. -/
def demoEnv : Env where
  alloc := fun k n => if n < 2 ^ 20 then .ok (BitVec.ofNat 64 (0x100000 * (k + 1))) (fun _ => 0) else .fail
  protect := fun _ => true
  useProtect := true
  pageSize := 4096
  pos := fun _ _ => 0

theorem demoEnv_sane : demoEnv.Sane := by
  intro k n a j h
  simp only [demoEnv] at h
  split at h
  · omega
  · cases h

/-- A fixed buffer of 64 bytes at address 0x1000. -/
def demoCA : CA := initUser 64 0x1000 (List.replicate 64 0)
/-- An AutoGrow buffer of 8 bytes. -/
def demoAuto : CA := ⟨.autoGrow, 8, 0x5000, List.replicate 8 0, 0, [], false, 1, 0⟩

theorem demoCA_wf : demoCA.Wf := ⟨by decide, by decide, by decide⟩
theorem demoAuto_wf : demoAuto.Wf := ⟨by decide, by decide, by decide⟩

/-- The constructors build well-formed buffers (the caller owns at least `maxSize` bytes at the address they pass). -/
theorem constructor_wf (maxSize : Nat) (top : Word) (mem : List Byte) (h : maxSize ≤ mem.length) :
    (initUser maxSize top mem).Wf := ⟨by simp [initUser], by simpa [initUser] using h, by simp [initUser]⟩

theorem constructor_alloc_wf (env : Env) (he : env.Sane) (auto : Bool) (maxSize : Nat) (c : CA)
    (h : initAlloc env auto maxSize = some c) : c.Wf := by
  unfold initAlloc at h
  cases ha : env.alloc 0 (max maxSize 1) with
  | ok addr junk =>
    have := he _ _ _ _ ha
    simp only [ha, Option.some.injEq] at h
    subst h
    exact ⟨Nat.zero_le _, by simp only [List.length_map, List.length_range]; omega, fun _ => by simp only; omega⟩
  | fail =>
    simp only [ha] at h
    split at h <;> cases h
    exact ⟨Nat.zero_le _, by simp only; omega, fun _ => by simp only; omega⟩
  | freeFail e =>
    simp only [ha] at h
    split at h <;> cases h
    exact ⟨Nat.zero_le _, by simp only; omega, fun _ => by simp only; omega⟩

theorem init_safe (c : CA) (h : c.Wf) (hi : c.addrInfo = []) : BufSafe (G.init c) := by
  refine ⟨h, ?_, ?_, by simp [G.init]⟩
  · rintro j (⟨k, hk⟩ | ⟨k, hk⟩ | ⟨st, hst, k, hk⟩)
    · simp [G.init] at hk
    · simp [G.init, SState.empty] at hk
    · simp [G.init] at hst; subst hst; simp [SState.empty] at hk
  · simp [G.init, hi]

theorem init_life (c : CA) : Life (G.init c) := by
  refine ⟨⟨by simp [G.init], by simp [G.init], by simp [G.init], by simp [G.init], by simp [G.init]⟩, ?_⟩
  intro n; simp [G.init, cnt]

theorem run_safe (env : Env) (he : env.Sane) (ops : List Op) (g : G) (h : BufSafe g)
    (hr : Hist RewriteInside env ops g) :
    match run env ops g with
    | .ok g' => BufSafe g'
    | .error u => u = .lifetime := by
  induction ops generalizing g with
  | nil => exact h
  | cons op t ih =>
    obtain ⟨h1, h2⟩ := hr
    have := step_safe env he op g h h1
    unfold run
    cases hs : step env op g with
    | ok a g' => rw [hs] at this h2; exact ih g' this h2
    | err a g' => rw [hs] at this h2; exact ih g' this h2
    | ub u => rw [hs] at this; exact this

/-- **C04.** In every history of calls starting from construction, with any allocator, any labels and any failing
calls in between, no access leaves the memory block the generator owns at that moment.  The caller's own
`rewrite` calls must address the buffer. -/
theorem c04_all_writes_inside (env : Env) (he : env.Sane) (c : CA) (hc : c.Wf) (hi : c.addrInfo = [])
    (ops : List Op) (hr : Hist RewriteInside env ops (G.init c)) :
    run env ops (G.init c) ≠ .error .bounds := by
  have := run_safe env he ops (G.init c) (init_safe c hc hi) hr
  intro hb
  rw [hb] at this
  cases this

/-- Obligations of the caller in C17. -/
def CallerOk (g : G) (op : Op) : Prop := RewriteInside g op ∧ LifeOk g op

theorem run_life (env : Env) (he : env.Sane) (ops : List Op) (g : G) (h : BufSafe g) (hl : Life g)
    (hr : Hist CallerOk env ops g) :
    ∃ g', run env ops g = .ok g' ∧ BufSafe g' ∧ Life g' := by
  induction ops generalizing g with
  | nil => exact ⟨g, rfl, h, hl⟩
  | cons op t ih =>
    obtain ⟨h1, h2⟩ := hr
    have a := step_safe env he op g h h1.1
    have b := step_life env he op g h hl h1.1 h1.2
    unfold run
    cases hs : step env op g with
    | ok _ g' => rw [hs] at a b h2; exact ih g' a b h2
    | err _ g' => rw [hs] at a b h2; exact ih g' a b h2
    | ub u => rw [hs] at b; exact b.elim

/-- Specification: the live `Label` objects bound to identity `n` of the generator. -/
def BoundObjs (g : G) (n : Nat) (l : List Nat) : Prop :=
  l.Nodup ∧ ∀ h, h ∈ l ↔ ∃ o, g.heap h = some o ∧ o.mgr = true ∧ o.id = n

/-- **C17 (partial).**  For every history in which the caller uses live labels only, and uses `assignL` on
destinations that have been referenced before, the generator never touches a destroyed `Label`: all registered
pointers are live, and an entry of the table of definitions counts exactly its live bound objects (an entry
created by an `L` that failed half way has count one and no object).
Missing: `assignL` on a destination that was never referenced, see `c17_assignL_fresh_dst_dangles`. -/
theorem c17_lifecycle_partial (env : Env) (he : env.Sane) (c : CA) (hc : c.Wf) (hi : c.addrInfo = [])
    (ops : List Op) (hr : Hist CallerOk env ops (G.init c)) :
    ∃ g', run env ops (G.init c) = .ok g' ∧
      (∀ h, h ∈ g'.ptrs ↔ ∃ o, g'.heap h = some o ∧ o.mgr = true) ∧
      (∀ n l, BoundObjs g' n l →
        (g'.cdef n = none → l = []) ∧
        (∀ v, g'.cdef n = some v → v.refCount = l.length ∨ (l = [] ∧ v.refCount = 1))) := by
  obtain ⟨g', h1, _, h3⟩ := run_life env he ops (G.init c) (init_safe c hc hi) (init_life c) hr
  refine ⟨g', h1, ?_, ?_⟩
  · intro h
    refine ⟨h3.ptr.live h, ?_⟩
    rintro ⟨o, ho, hm⟩
    exact h3.ptr.reg h o ho hm
  · intro n l hl
    have hlen : l.length = cnt g' n := by
      unfold cnt
      apply List.Perm.length_eq
      apply (List.perm_ext_iff_of_nodup hl.1 (h3.ptr.nodup.filter _)).mpr
      intro x
      rw [hl.2, List.mem_filter]
      constructor
      · rintro ⟨o, a, b, d⟩; exact ⟨h3.ptr.reg x o a b, by simp [a, d]⟩
      · rintro ⟨a, b⟩
        obtain ⟨o, ho, hm⟩ := h3.ptr.live x a
        exact ⟨o, ho, hm, by rw [ho] at b; simpa using b⟩
    have := h3.ref n
    constructor
    · intro hn; rw [hn] at this; simp only at this
      exact List.eq_nil_of_length_eq_zero (by omega)
    · intro v hv; rw [hv] at this; simp only at this
      by_cases h0 : l.length = 0
      · right; exact ⟨List.eq_nil_of_length_eq_zero h0, by omega⟩
      · left; omega

/-- A history exercising every lifecycle call. -/
def demoLife : List Op :=
  [.newLabel 1, .jmp (.obj 1) .near 0xEB 0xE9 0, .defL (.obj 1), .copyLabel 2 1, .newLabel 3, .assignLabel 3 2,
   .dtorLabel 1, .jmp (.obj 3) .auto 0xEB 0xE9 0, .dtorLabel 3, .reset, .dtorLabel 2]

instance (g : G) (op : Op) : Decidable (RewriteInside g op) := by
  cases op <;> simp only [RewriteInside] <;> infer_instance
instance (g : G) (l : LRef) : Decidable (LiveRef g l) := by
  cases l <;> simp only [LiveRef] <;> infer_instance
instance (g : G) (d : Nat) : Decidable (∃ o, g.heap d = some o ∧ o.id ≠ 0) :=
  match h : g.heap d with
  | none => isFalse (by rintro ⟨o, ho, _⟩; cases ho)
  | some o => if h0 : o.id ≠ 0 then isTrue ⟨o, rfl, h0⟩ else isFalse (by rintro ⟨o', ho', h1⟩; cases ho'; exact h0 h1)
instance (g : G) (op : Op) : Decidable (LifeOk g op) := by
  cases op <;> simp only [LifeOk] <;> infer_instance
instance (g : G) (op : Op) : Decidable (CallerOk g op) := by unfold CallerOk; infer_instance
instance instDecHist (P : G → Op → Prop) [∀ g op, Decidable (P g op)] (env : Env) :
    (ops : List Op) → (g : G) → Decidable (Hist P env ops g)
  | [], _ => isTrue trivial
  | op :: t, g => by
    unfold Hist
    cases step env op g with
    | ok _ g' => exact @instDecidableAnd _ _ _ (instDecHist P env t g')
    | err _ g' => exact @instDecidableAnd _ _ _ (instDecHist P env t g')
    | ub _ => exact @instDecidableAnd _ _ _ (isTrue trivial)

example : Hist RewriteInside demoEnv demoLife (G.init demoAuto) := by decide +kernel
example : Hist CallerOk demoEnv demoLife (G.init demoCA) := by decide +kernel

/-- **Finding (violates C17).** `assignL(dst, src)` on a `dst` that was never referenced registers it under identity
0; destroying `dst` then leaves a dangling pointer, through which `reset()` writes. -/
theorem c17_assignL_fresh_dst_dangles :
    run demoEnv [.newLabel 1, .defL (.obj 1), .newLabel 2, .assignL 2 1, .dtorLabel 2, .reset] (G.init demoCA)
      = .error .lifetime := by
  have : (match run demoEnv [.newLabel 1, .defL (.obj 1), .newLabel 2, .assignL 2 1, .dtorLabel 2, .reset] (G.init demoCA) with
    | .error .lifetime => true
    | _ => false) = true := by decide +kernel
  revert this
  split
  · intro; assumption
  · simp

/-! ## C12 -/

/-- A string label is defined in the scope it belongs to. -/
def SDefined (g : G) (s : String) (off : Nat) : Prop :=
  if isLocalName s then ∃ st rest, g.locals = st :: rest ∧ st.defs s = some off else g.glob.defs s = some off

/-- **C12.** Defining a label again fails with `ERR_LABEL_IS_REDEFINED` and changes nothing: `Label` objects. -/
theorem c12_redefine_object (env : Env) (g : G) (h off : Nat) (hb : Bound g h off) (hl : Life g) :
    step env (.defL (.obj h)) g = .err .LABEL_IS_REDEFINED g := by
  obtain ⟨o, v, h1, h2, h3, _⟩ := hb
  have hid := hl.ptr.nz h o h1 h2
  simp only [step, defL, defineClabel]
  have : getId h g = .ok o.id g := by
    unfold getId
    rw [M.bind_run]
    simp only [deref, h1]
    rw [if_neg hid]
    rfl
  rw [M.bind_run, this]
  simp only
  rw [M.get_bind, M.bind_run]
  simp only [defineId, h3]

/-- **C12.** The same for string labels (the anonymous `@@` is redefinable by design). -/
theorem c12_redefine_string (env : Env) (g : G) (s : String) (off : Nat) (hs : SDefined g s off)
    (hn : s ≠ "@@" ∧ s ≠ "@b" ∧ s ≠ "@f") :
    step env (.defL (.str s)) g = .err .LABEL_IS_REDEFINED g := by
  simp only [step, defL, defineSlabel]
  rw [M.throwIf_bind]
  have : (s == "@b" || s == "@f") = false := by simp [hn.2.1, hn.2.2]
  rw [this]
  simp only [Bool.false_eq_true, if_false]
  rw [M.get_bind, if_neg hn.1]
  unfold SDefined at hs
  unfold onScope
  by_cases hloc : isLocalName s = true
  · rw [if_pos hloc] at hs ⊢
    obtain ⟨st, rest, h1, h2⟩ := hs
    rw [h1]
    simp only [defineInScope, h2]
    rw [← h1]
  · rw [if_neg hloc] at hs ⊢
    simp only [defineInScope, hs]

/-- A successful `L` defines the label at the current size. -/
theorem c12_first_definition_object (env : Env) (g g' : G) (h : Nat) (hs : BufSafe g)
    (hst : step env (.defL (.obj h)) g = .ok () g') : Bound g' h g.ca.size := by
  simp only [step, defL, defineClabel] at hst
  have hlive : g.heap h ≠ none := by
    intro hn
    rw [M.bind_run] at hst
    have : getId h g = .ub .lifetime := by
      unfold getId; rw [M.bind_run]; simp only [deref, hn]
    rw [this] at hst
    cases hst
  have : ((do let id ← getId h; let g ← M.get; defineId id g.ca.size; attach h : M G Unit) g).Sat
      (fun _ g' => Bound g' h g.ca.size) (fun _ _ => True) := by
    refine M.sat_bind ((getId_sat h g).monoU (fun _ _ h => h) (fun _ _ h => h.elim) (fun u hu => hu.2 hlive)) ?_
    rintro id g1 ⟨rfl, ho⟩
    rw [M.get_bind]
    refine (define_keeps (hs.touch _) h id _ ho (fun _ => False)).mono ?_ (fun _ _ _ => trivial)
    intro _ g2 hh
    rw [touch_ca] at hh
    exact hh.2
  rw [hst] at this
  exact this

/-- **C12/C18.** Whatever happens to other labels, a bound label stays bound to the same offset until it is destroyed
or the generator is reset. -/
theorem bound_stays (env : Env) (he : env.Sane) (ops : List Op) (g : G) (h off : Nat) (hs : BufSafe g) (hl : Life g)
    (hb : Bound g h off) (hr : Hist CallerOk env ops g) (hne : ∀ op ∈ ops, op ≠ .reset ∧ op ≠ .dtorLabel h) :
    ∃ g', run env ops g = .ok g' ∧ Bound g' h off ∧ BufSafe g' ∧ Life g' := by
  induction ops generalizing g with
  | nil => exact ⟨g, rfl, hb, hs, hl⟩
  | cons op t ih =>
    obtain ⟨h1, h2⟩ := hr
    have a := step_safe env he op g hs h1.1
    have b := step_life env he op g hs hl h1.1 h1.2
    have k := step_keeps env he op g hs hl h1.1 h1.2
    have hend : ¬ Ends op h := by
      obtain ⟨n1, n2⟩ := hne op (by simp)
      intro hd
      cases op <;> simp only [Ends] at hd
      · subst hd; exact n2 rfl
      · exact n1 rfl
    unfold run
    cases hst : step env op g with
    | ok _ g' =>
      rw [hst] at a b k h2
      exact ih g' a b (k h off hend hb) h2 (fun op ho => hne op (by simp [ho]))
    | err _ g' =>
      rw [hst] at a b k h2
      exact ih g' a b (k h off hend hb) h2 (fun op ho => hne op (by simp [ho]))
    | ub u => rw [hst] at b; exact b.elim

/-- **C12.** After a successful `L(label)` every later `L(label)` fails and changes nothing, as long as the label lives
and the generator is not reset. -/
theorem c12_defined_once (env : Env) (he : env.Sane) (ops : List Op) (g g1 : G) (h : Nat) (hs : BufSafe g) (hl : Life g)
    (hst : step env (.defL (.obj h)) g = .ok () g1) (hlive : g.heap h ≠ none)
    (hr : Hist CallerOk env ops g1) (hne : ∀ op ∈ ops, op ≠ .reset ∧ op ≠ .dtorLabel h) :
    ∃ g2, run env ops g1 = .ok g2 ∧ step env (.defL (.obj h)) g2 = .err .LABEL_IS_REDEFINED g2 := by
  have hb := c12_first_definition_object env g g1 h hs hst
  have a := step_safe env he (.defL (.obj h)) g hs trivial
  have b := step_life env he (.defL (.obj h)) g hs hl trivial hlive
  rw [hst] at a b
  obtain ⟨g2, h1, h2, _, h4⟩ := bound_stays env he ops g1 h _ a b hb hr hne
  exact ⟨g2, h1, c12_redefine_object env g2 h _ h2 h4⟩

/-! ## C18 -/

/-- **C18.** A copy of a bound label (by copy construction) is bound to the same offset. -/
theorem c18_copy_construct (env : Env) (g : G) (x s off : Nat) (hl : Life g) (hb : Bound g s off)
    (hx : g.heap x = none) : ∃ g', step env (.copyLabel x s) g = .ok () g' ∧ Bound g' x off ∧ Bound g' s off := by
  obtain ⟨r, v, h1, h2, h3, h4⟩ := hb
  have : (step env (.copyLabel x s) g).Sat (fun _ g' => Keeps g g' (fun _ => False) ∧ ∀ off, Bound g s off → Bound g' x off)
      (fun _ _ => False) := by
    simp only [step, copyLabel]
    refine M.sat_bind ((deref_sat s g).monoU (fun _ _ h => h) (fun _ _ h => h.elim)
      (fun u hu => hu.2 (by simp [LiveRef, h1]))) ?_
    rintro r' g1 ⟨rfl, hr'⟩
    rw [M.get_bind, hx]
    simp only
    rw [M.set_bind]
    exact copy_keeps hl x r' s hr' (by simp [hx]) _
  cases hst : step env (.copyLabel x s) g with
  | ok _ g' =>
    rw [hst] at this
    have hb : Bound g s off := ⟨r, v, h1, h2, h3, h4⟩
    exact ⟨g', rfl, this.2 off hb, this.1 s off id hb⟩
  | err _ _ => rw [hst] at this; exact this.elim
  | ub _ => rw [hst] at this; exact this.elim

/-- **C18.** A copy of a bound label (by assignment to an unused label) is bound to the same offset. -/
theorem c18_copy_assign (env : Env) (g : G) (x s off : Nat) (hl : Life g) (hb : Bound g s off)
    (hx : ∃ o, g.heap x = some o ∧ o.id = 0) :
    ∃ g', step env (.assignLabel x s) g = .ok () g' ∧ Bound g' x off ∧ Bound g' s off := by
  obtain ⟨r, v, h1, h2, h3, h4⟩ := hb
  obtain ⟨o, ho, h0⟩ := hx
  have : (step env (.assignLabel x s) g).Sat (fun _ g' => Keeps g g' (fun _ => False) ∧ ∀ off, Bound g s off → Bound g' x off)
      (fun _ _ => False) := by
    simp only [step, assignLabel]
    refine M.sat_bind ((deref_sat x g).monoU (fun _ _ h => h) (fun _ _ h => h.elim)
      (fun u hu => hu.2 (by simp [LiveRef, ho]))) ?_
    rintro r' g1 ⟨rfl, hr'⟩
    rw [ho] at hr'; cases hr'
    rw [M.throwIf_bind, h0]
    simp only [bne_self_eq_false, Bool.false_eq_true, if_false]
    refine M.sat_bind ((deref_sat s g1).monoU (fun _ _ h => h) (fun _ _ h => h.elim)
      (fun u hu => hu.2 (by simp [LiveRef, h1]))) ?_
    rintro r' g2 ⟨rfl, hr'⟩
    rw [M.modify_bind]
    refine copy_keeps hl x r' s hr' ?_ _
    intro o' ho'
    rw [ho] at ho'; cases ho'
    refine Bool.eq_false_iff.mpr fun hm => ?_
    exact hl.ptr.nz x o ho hm h0
  cases hst : step env (.assignLabel x s) g with
  | ok _ g' =>
    rw [hst] at this
    have hb : Bound g s off := ⟨r, v, h1, h2, h3, h4⟩
    exact ⟨g', rfl, this.2 off hb, this.1 s off id hb⟩
  | err _ _ => rw [hst] at this; exact this.elim
  | ub _ => rw [hst] at this; exact this.elim

/-- What a call that names a bound label sees: its offset, with no side effect on labels. -/
theorem bound_lookup {g : G} {h off : Nat} (hl : Life g) (hb : Bound g h off) :
    getOffset (.obj h) g = .ok (.obj h, some off) g := by
  obtain ⟨o, v, h1, h2, h3, h4⟩ := hb
  have hid := hl.ptr.nz h o h1 h2
  have : getId h g = .ok o.id g := by
    unfold getId
    rw [M.bind_run]
    simp only [deref, h1]
    rw [if_neg hid]
    rfl
  unfold getOffset lookupC
  simp only [M.bind_run, this, M.get_run, h3, M.pure_run, Option.map_some, h4]

end Xbyak
