import Verif.Util
/-!
# C90, C91: CPU signature, clock and profiler

Specification side: the signature is the number `eax` written in its fields (SDM vol. 2, CPUID leaf 01H); a measured time is the sum of the
differences of the counter; a line of the map file is read back by a reader of "START SIZE NAME" lines.
-/
namespace Xbyak
namespace Cpu

/-- The fields of the signature: `eax` of leaf 1 as a number with digits of 4, 4, 4, 2, 2, 4, 8 and 4 bits (SDM vol. 2, figure 3-6). -/
structure IsSig (eax : Nat) (s : Sig) : Prop where
  widths : s.stepping.toNat < 16 ∧ s.model.toNat < 16 ∧ s.family.toNat < 16 ∧ s.extModel.toNat < 16 ∧ s.extFamily.toNat < 256
  digits : ∃ ty r1 r2, ty < 4 ∧ r1 < 4 ∧ r2 < 16 ∧
    eax = s.stepping.toNat + 16 * (s.model.toNat + 16 * (s.family.toNat + 16 * (ty + 4 * (r1 + 4 * (s.extModel.toNat + 16 * (s.extFamily.toNat + 256 * r2))))))

theorem extractBit_nat (v : BitVec 32) (b e : Nat) (h : b ≤ e) (he : e < 31) : (extractBit v b e).toNat = v.toNat / 2 ^ b % 2 ^ (e + 1 - b) := by
  have hle : e + 1 - b < 32 := by omega
  have hp : 2 ^ (e + 1 - b) < 2 ^ 32 := Nat.pow_lt_pow_right (by omega) hle
  have h1 : ((1 : BitVec 32) <<< (e + 1 - b) - 1).toNat = 2 ^ (e + 1 - b) - 1 := by
    have hpos : 0 < 2 ^ (e + 1 - b) := Nat.two_pow_pos _
    rw [BitVec.toNat_sub_of_le]
    · simp [BitVec.toNat_shiftLeft, Nat.shiftLeft_eq, Nat.mod_eq_of_lt hp]
    · rw [BitVec.le_def, BitVec.toNat_shiftLeft, Nat.shiftLeft_eq]
      show 1 ≤ 1 * 2 ^ (e + 1 - b) % 2 ^ 32
      rw [Nat.one_mul, Nat.mod_eq_of_lt hp]
      exact hpos
  rw [extractBit, BitVec.toNat_and, h1, BitVec.toNat_ushiftRight, Nat.shiftRight_eq_div_pow, Nat.and_two_pow_sub_one_eq_mod]

/-- C90: the fields are those of the signature. -/
theorem c90_fields (e : Env) : IsSig (e.cpuid 1 0).eax.toNat (setFamily e) := by
  generalize hv : (e.cpuid 1 0).eax = v
  have hlt := v.isLt
  have e1 : (setFamily e).stepping.toNat = v.toNat / 2 ^ 0 % 2 ^ (3 + 1 - 0) := by rw [← extractBit_nat v 0 3 (by omega) (by omega), ← hv]; rfl
  have e2 : (setFamily e).model.toNat = v.toNat / 2 ^ 4 % 2 ^ (7 + 1 - 4) := by rw [← extractBit_nat v 4 7 (by omega) (by omega), ← hv]; rfl
  have e3 : (setFamily e).family.toNat = v.toNat / 2 ^ 8 % 2 ^ (11 + 1 - 8) := by rw [← extractBit_nat v 8 11 (by omega) (by omega), ← hv]; rfl
  have e4 : (setFamily e).extModel.toNat = v.toNat / 2 ^ 16 % 2 ^ (19 + 1 - 16) := by rw [← extractBit_nat v 16 19 (by omega) (by omega), ← hv]; rfl
  have e5 : (setFamily e).extFamily.toNat = v.toNat / 2 ^ 20 % 2 ^ (27 + 1 - 20) := by rw [← extractBit_nat v 20 27 (by omega) (by omega), ← hv]; rfl
  simp only [Nat.reducePow, Nat.reduceAdd, Nat.reduceSub] at e1 e2 e3 e4 e5 hlt
  refine ⟨⟨by omega, by omega, by omega, by omega, by omega⟩, v.toNat / 4096 % 4, v.toNat / 16384 % 4, v.toNat / 268435456, by omega, by omega, by omega, ?_⟩
  rw [e1, e2, e3, e4, e5]
  omega

/-- C90: the displayed family and model (SDM vol. 2, CPUID leaf 01H): the extended family counts for family 15 only, the extended model for
families 6 and 15; on other makers' CPUs it counts for family 15 only (AMD APM vol. 3, E.3.2). -/
theorem c90_display (e : Env) :
    (setFamily e).displayFamily.toNat = (setFamily e).family.toNat + (if (setFamily e).family.toNat = 15 then (setFamily e).extFamily.toNat else 0) ∧
    (setFamily e).displayModel.toNat = (setFamily e).model.toNat +
      (if (setFamily e).family.toNat = 15 ∨ ((setFamily e).family.toNat = 6 ∧ (features e).has Feature.tINTEL.ty = true)
        then 16 * (setFamily e).extModel.toNat else 0) := by
  obtain ⟨w1, w2, w3, w4, w5⟩ := (c90_fields e).widths
  have d1 : (setFamily e).displayFamily = if (setFamily e).family == 0x0f then (setFamily e).family + (setFamily e).extFamily else (setFamily e).family := rfl
  have d2 : (setFamily e).displayModel = if ((features e).has Feature.tINTEL.ty && (setFamily e).family == 6) || (setFamily e).family == 0x0f then
    ((setFamily e).extModel <<< 4) + (setFamily e).model else (setFamily e).model := rfl
  have hf : ∀ k : Nat, k < 16 → ((setFamily e).family == BitVec.ofNat 32 k) = decide ((setFamily e).family.toNat = k) := by
    intro k hk
    rw [Bool.eq_iff_iff]
    simp only [beq_iff_eq, decide_eq_true_eq]
    constructor
    · intro h; rw [h, BitVec.toNat_ofNat]; omega
    · intro h; apply BitVec.eq_of_toNat_eq; rw [h, BitVec.toNat_ofNat]; omega
  have h15 : ((setFamily e).family == 0x0f) = decide ((setFamily e).family.toNat = 15) := hf 15 (by omega)
  have h6 : ((setFamily e).family == 6) = decide ((setFamily e).family.toNat = 6) := hf 6 (by omega)
  rw [d1, d2]
  generalize (setFamily e).family = fam at *
  generalize (setFamily e).extModel = em at *
  generalize (setFamily e).extFamily = ef at *
  generalize (setFamily e).model = mo at *
  constructor
  · by_cases h : fam.toNat = 15
    · rw [if_pos h, if_pos (by rw [h15]; exact decide_eq_true h), BitVec.toNat_add]
      omega
    · rw [if_neg h, if_neg (by rw [h15]; simpa using h)]
      rfl
  · have hs : (em <<< 4 + mo).toNat = mo.toNat + 16 * em.toNat := by
      rw [BitVec.toNat_add, BitVec.toNat_shiftLeft, Nat.shiftLeft_eq]
      omega
    by_cases h : fam.toNat = 15 ∨ (fam.toNat = 6 ∧ (features e).has Feature.tINTEL.ty = true)
    · rw [if_pos h, if_pos, hs]
      rw [h15, h6]
      rcases h with h | ⟨h, hi⟩
      · simp [h]
      · simp [h, hi]
    · rw [if_neg h, if_neg]
      · rfl
      · rw [h15, h6]
        simp only [not_or, not_and, Bool.not_eq_true] at h
        simp only [Bool.or_eq_true, Bool.and_eq_true, decide_eq_true_eq, not_or, not_and]
        exact ⟨fun hi h6 => by rw [h.2 h6] at hi; exact absurd hi (by simp), h.1⟩

end Cpu

namespace Clock

/-- Specification: the calls after the last `clear`. -/
def recent : List Call → List Call
  | [] => []
  | a :: t => if .clear ∈ t then recent t else if a = .clear then t else a :: t

/-- Specification: one call's share of the time, as an integer. -/
def Call.share : Call → Int
  | .begin t => -(t.toNat : Int)
  | .finish t => t.toNat
  | .clear => 0

/-- Specification: is it an `end`. -/
def Call.ends : Call → Bool
  | .finish _ => true
  | _ => false

/-- What the members show of the calls `l`. -/
def Shows (c : Clock) (l : List Call) : Prop :=
  c.clock = BitVec.ofInt 64 (l.map Call.share).sum ∧ c.count = l.countP Call.ends

theorem run_shows {l pre : List Call} {c c' : Clock} (hn : .clear ∉ l) (h : run l c = some c') (hs : Shows c pre) : Shows c' (pre ++ l) := by
  induction l generalizing c pre with
  | nil => cases h; simpa using hs
  | cons a t ih =>
    rw [run] at h
    cases hst : step a c with
    | none => rw [hst] at h; exact absurd h (by simp)
    | some c1 =>
      rw [hst] at h
      have h1 : Shows c1 (pre ++ [a]) := by
        obtain ⟨q1, q2⟩ := hs
        cases a with
        | begin x =>
          cases hst
          refine ⟨?_, by simp [q2, List.countP_append, Call.ends]⟩
          show c.clock - x = _
          rw [q1, List.map_append, List.sum_append, BitVec.ofInt_add, BitVec.sub_eq_add_neg]
          simp [Call.share, BitVec.ofInt_neg]
        | finish x =>
          rw [step] at hst
          split at hst
          · cases hst
            refine ⟨?_, by simp [q2, List.countP_append, Call.ends]⟩
            show c.clock + x = _
            rw [q1, List.map_append, List.sum_append, BitVec.ofInt_add]
            simp [Call.share]
          · exact absurd hst (by simp)
        | clear => exact absurd (List.mem_cons_self ..) hn
      have := ih (fun hc => hn (List.mem_cons_of_mem _ hc)) h h1
      simpa using this

/-- C90: after any history the clock holds, modulo 2^64, the sum of the counter values at `end` minus those at `begin` since the last `clear`,
and the count is the number of calls of `end` since then. -/
theorem c90_clock {l : List Call} {c : Clock} (h : run l new = some c) : Shows c (recent l) := by
  have key : ∀ (l : List Call) (a : Clock), run l a = some c → (.clear ∈ l → Shows c (recent l)) ∧ (.clear ∉ l → recent l = l) := by
    intro l
    induction l with
    | nil => intro a _; exact ⟨fun h => absurd h (by simp), fun _ => rfl⟩
    | cons x t ih =>
      intro a h
      rw [run] at h
      cases hst : step x a with
      | none => rw [hst] at h; exact absurd h (by simp)
      | some a1 =>
        rw [hst] at h
        obtain ⟨i1, i2⟩ := ih a1 h
        refine ⟨fun hm => ?_, fun hm => ?_⟩
        · by_cases ht : Call.clear ∈ t
          · rw [recent, if_pos ht]; exact i1 ht
          · rcases List.mem_cons.mp hm with rfl | hm
            · rw [recent, if_neg ht, if_pos rfl]
              cases hst
              have := run_shows (pre := []) ht h ⟨by simp, by simp⟩
              simpa using this
            · exact absurd hm ht
        · have hx : x ≠ .clear := fun e => hm (by rw [e]; exact List.mem_cons_self ..)
          have ht : Call.clear ∉ t := fun e => hm (List.mem_cons_of_mem _ e)
          rw [recent, if_neg ht, if_neg hx]
  obtain ⟨k1, k2⟩ := key l new h
  by_cases hc : Call.clear ∈ l
  · exact k1 hc
  · rw [k2 hc]
    have := run_shows (pre := []) hc h ⟨by simp [new], by simp [new]⟩
    simpa using this

/-- C90: measured intervals add up: `n` pairs of `begin` and `end` give the sum of their lengths and the count `n`. -/
theorem c90_intervals (l : List (Word × Word)) (h : l.length < 2 ^ 31) :
    run (l.flatMap fun p => [.begin p.1, .finish p.2]) new = some ⟨(l.map fun p => p.2 - p.1).sum, l.length⟩ := by
  have key : ∀ (l : List (Word × Word)) (c : Clock), c.count + l.length < 2 ^ 31 →
      run (l.flatMap fun p => [.begin p.1, .finish p.2]) c = some ⟨c.clock + (l.map fun p => p.2 - p.1).sum, c.count + l.length⟩ := by
    intro l
    induction l with
    | nil => intro c _; simp [run]
    | cons p t ih =>
      intro c hc
      rw [List.length_cons] at hc
      rw [List.flatMap_cons, List.cons_append, List.cons_append, List.nil_append, run, step, Option.bind_some, run, step, if_pos (by simp only; omega),
        Option.bind_some, ih _ (by simp only; omega)]
      simp only [List.map_cons, List.sum_cons, List.length_cons]
      congr 2
      · rw [← BitVec.add_assoc]
        congr 1
        rw [BitVec.sub_eq_add_neg, BitVec.sub_eq_add_neg, BitVec.add_assoc, BitVec.add_comm (-p.1)]
      · omega
  have := key l new (by simpa [new] using h)
  simpa [new] using this

/-- Two intervals of 5 and 7 ticks after a `clear`. -/
example : run [.begin 3, .clear, .begin 10, .finish 15, .begin 20, .finish 27] new = some ⟨12, 2⟩ := by decide

end Clock

namespace Prof

/-- Specification: the handle an object owns. -/
def own (w : W) (h : Nat) : Option Nat := (w.obj h).bind P.fp

/-- Every open file has exactly one owner, and owned files are open. -/
structure Inv (own : Nat → Option Nat) (live : List Nat) (n : Nat) : Prop where
  owned : ∀ k, k ∈ live ↔ ∃ h, own h = some k
  inj : ∀ h h' k, own h = some k → own h' = some k → h = h'
  below : ∀ k ∈ live, k < n

/-- the owners after one changed -/
def upd (o : Nat → Option Nat) (h : Nat) (x : Option Nat) : Nat → Option Nat := fun i => if i = h then x else o i

theorem upd_same (o : Nat → Option Nat) (h : Nat) : upd o h (o h) = o := by
  funext i
  unfold upd
  split
  · next e => rw [e]
  · rfl

theorem own_put (w : W) (f : F) (h : Nat) (p : Option P) : own ⟨put w.obj h p, f⟩ = upd (own w) h (p.bind P.fp) := by
  funext i
  simp only [own, put, upd]
  split <;> rfl

theorem Inv.close {o : Nat → Option Nat} {live : List Nat} {n h k : Nat} (hi : Inv o live n) (hk : o h = some k) :
    k ∈ live ∧ Inv (upd o h none) (live.filter (· ≠ k)) n := by
  refine ⟨(hi.owned k).mpr ⟨h, hk⟩, ⟨?_, ?_, ?_⟩⟩
  · intro j
    rw [List.mem_filter, hi.owned]
    constructor
    · rintro ⟨⟨h', e⟩, hn⟩
      refine ⟨h', ?_⟩
      have : h' ≠ h := by
        rintro rfl
        rw [hk] at e
        cases e
        simp at hn
      rw [upd, if_neg this, e]
    · rintro ⟨h', e⟩
      rw [upd] at e
      split at e
      · exact absurd e (by simp)
      · next hne =>
        refine ⟨⟨h', e⟩, ?_⟩
        simp only [ne_eq, decide_not, Bool.not_eq_eq_eq_not, Bool.not_true, decide_eq_false_iff_not]
        rintro rfl
        exact hne (hi.inj _ _ _ e hk)
  · intro a b j ha hb
    rw [upd] at ha hb
    split at ha
    · exact absurd ha (by simp)
    · split at hb
      · exact absurd hb (by simp)
      · exact hi.inj _ _ _ ha hb
  · intro j hj
    exact hi.below j (List.mem_filter.mp hj).1

theorem Inv.opened {o : Nat → Option Nat} {live : List Nat} {n h : Nat} (hi : Inv o live n) (hk : o h = none) :
    Inv (upd o h (some n)) (n :: live) (n + 1) := by
  have hfresh : ∀ h', o h' ≠ some n := fun h' e => Nat.lt_irrefl n (hi.below n ((hi.owned n).mpr ⟨h', e⟩))
  refine ⟨?_, ?_, ?_⟩
  · intro j
    rw [List.mem_cons, hi.owned]
    constructor
    · rintro (rfl | ⟨h', e⟩)
      · exact ⟨h, by rw [upd, if_pos rfl]⟩
      · refine ⟨h', ?_⟩
        rw [upd, if_neg, e]
        rintro rfl
        rw [hk] at e
        cases e
    · rintro ⟨h', e⟩
      rw [upd] at e
      split at e
      · exact Or.inl (by cases e; rfl)
      · exact Or.inr ⟨h', e⟩
  · intro a b j ha hb
    rw [upd] at ha hb
    split at ha
    · next ea =>
      cases ha
      split at hb
      · next eb => rw [ea, eb]
      · exact absurd hb (hfresh b)
    · split at hb
      · cases hb; exact absurd ha (hfresh a)
      · exact hi.inj _ _ _ ha hb
  · intro j hj
    rcases List.mem_cons.mp hj with rfl | hj
    · omega
    · have := hi.below j hj; omega

theorem Inv.mono {o : Nat → Option Nat} {live : List Nat} {n m : Nat} (hi : Inv o live n) (h : n ≤ m) : Inv o live m :=
  ⟨hi.owned, hi.inj, fun k hk => Nat.lt_of_lt_of_le (hi.below k hk) h⟩

/-- the invariant of a state -/
def W.Ok (w : W) : Prop := Inv (own w) w.f.live w.f.n

/-- `close` succeeds and releases the file of the object. -/
theorem close_ok {o : Nat → Option Nat} {h : Nat} {p : P} {f : F} (hi : Inv o f.live f.n) (hp : o h = p.fp) :
    ∃ p' f', close p f = .ok (p', f') ∧ p' = { p with fp := none } ∧ Inv (upd o h none) f'.live f'.n ∧ f'.n = f.n ∧ f'.out = f.out := by
  unfold close
  cases hf : p.fp with
  | none =>
    refine ⟨p, f, rfl, ?_, ?_, rfl, rfl⟩
    · cases p; simp_all
    · rw [← hf, ← hp, upd_same]; exact hi
  | some k =>
    rw [hf] at hp
    obtain ⟨h1, h2⟩ := hi.close hp
    exact ⟨{ p with fp := none }, { f with live := f.live.filter (· ≠ k) }, by simp only [if_pos h1], rfl, h2, rfl, rfl⟩

theorem own_of {w : W} {h : Nat} {p : P} (e : w.obj h = some p) : own w h = p.fp := by rw [own, e]; rfl

theorem set3_ok {w : W} {h : Nat} {p : P} (nm : List Char) (a s : Word) (hi : w.Ok) (e : w.obj h = some p) :
    set3 nm a s p w.f = .ok (if p.perf = true ∧ p.fp ≠ none then { w.f with out := w.f.out ++ line a s nm p.suffix } else w.f) := by
  unfold set3
  cases hp : p.perf with
  | false => simp
  | true =>
    cases hf : p.fp with
    | none => simp
    | some k =>
      have : k ∈ w.f.live := (hi.owned k).mpr ⟨h, by rw [own_of e, hf]⟩
      simp [this]

/-- Every call but a copy keeps the invariant; the only mistake possible is a call on an object that does not exist (or creating one that does). -/
theorem step_ok (fo : Nat → Bool) (w : W) (c : Call) (hc : ∀ h s, c ≠ .copy h s) (hi : w.Ok) :
    match step fo w c with
    | .ok w' => w'.Ok
    | .error b => b = .object := by
  cases c with
  | copy h s => exact absurd rfl (hc h s)
  | new h =>
    cases e : w.obj h with
    | some p => simp only [step, e]
    | none =>
      simp only [step, e]
      show Inv _ _ _
      rw [own_put]
      have : own w h = (some new : Option P).bind P.fp := by rw [own, e]; rfl
      rw [← this, upd_same]
      exact hi
  | dtor h =>
    cases e : w.obj h with
    | none => simp only [step, e]
    | some p =>
      obtain ⟨p', f', h1, rfl, h3, _⟩ := close_ok (h := h) hi (own_of e)
      simp only [step, e, h1, Except.map]
      show Inv _ _ _
      rw [own_put]
      exact h3
  | close h =>
    cases e : w.obj h with
    | none => simp only [step, e]
    | some p =>
      obtain ⟨p', f', h1, rfl, h3, _⟩ := close_ok (h := h) hi (own_of e)
      simp only [step, e, h1, Except.map]
      show Inv _ _ _
      rw [own_put]
      exact h3
  | init h m =>
    cases e : w.obj h with
    | none => simp only [step, e]
    | some p =>
      have same : Inv (own ⟨put w.obj h (some { p with perf := false }), w.f⟩) w.f.live w.f.n := by
        rw [own_put]
        have : own w h = (some { p with perf := false } : Option P).bind P.fp := by rw [own, e]; rfl
        rw [← this, upd_same]
        exact hi
      cases m with
      | none => simp only [step, e, init, Except.map]; exact same
      | vtune => simp only [step, e, init, Except.map]; exact same
      | other => simp only [step, e, init, Except.map]; exact same
      | perf =>
        obtain ⟨p', f', h1, rfl, h3, h4, h5⟩ := close_ok (p := { p with perf := false }) (h := h) hi (by rw [own_of e])
        have hb : init fo .perf p w.f = if fo f'.n then
            .ok ({ p with fp := some f'.n, perf := true }, { f' with n := f'.n + 1, live := f'.n :: f'.live })
            else .ok ({ p with fp := none, perf := false }, { f' with n := f'.n + 1 }) := by
          simp only [init, h1]
          rfl
        simp only [step, e, hb]
        cases fo f'.n with
        | true =>
          show Inv _ _ _
          rw [own_put]
          have h6 := h3.opened (h := h) (by rw [upd, if_pos rfl])
          have h7 : upd (upd (own w) h none) h (some f'.n) = upd (own w) h (some f'.n) := by
            funext i; simp only [upd]; split <;> rfl
          rw [h7] at h6
          exact h6
        | false =>
          show Inv _ _ _
          rw [own_put]
          exact h3.mono (Nat.le_succ _)
  | setNameSuffix h s =>
    cases e : w.obj h with
    | none => simp only [step, e]
    | some p =>
      simp only [step, e]
      show Inv _ _ _
      rw [own_put]
      have : own w h = (some { p with suffix := s } : Option P).bind P.fp := by rw [own, e]; rfl
      rw [← this, upd_same]
      exact hi
  | setStartAddr h a =>
    cases e : w.obj h with
    | none => simp only [step, e]
    | some p =>
      simp only [step, e]
      show Inv _ _ _
      rw [own_put]
      have : own w h = (some { p with start := a } : Option P).bind P.fp := by rw [own, e]; rfl
      rw [← this, upd_same]
      exact hi
  | set3 h nm a s =>
    cases e : w.obj h with
    | none => simp only [step, e]
    | some p =>
      simp only [step, e, set3_ok nm a s hi e, Except.map]
      show Inv (own w) _ _
      split <;> exact hi
  | set2 h nm a =>
    cases e : w.obj h with
    | none => simp only [step, e]
    | some p =>
      have hb : set2 nm a p w.f = .ok ({ p with start := a }, if p.perf = true ∧ p.fp ≠ none then
          { w.f with out := w.f.out ++ line p.start (a - p.start) nm p.suffix } else w.f) := by
        simp only [set2, set3_ok nm p.start (a - p.start) hi e]
        rfl
      simp only [step, e, hb, Except.map]
      show Inv _ _ _
      rw [own_put]
      have : own w h = (some { p with start := a } : Option P).bind P.fp := by rw [own, e]; rfl
      rw [← this, upd_same]
      split <;> exact hi

theorem run_ok (fo : Nat → Bool) (l : List Call) (w : W) (hc : ∀ h s, .copy h s ∉ l) (hi : w.Ok) :
    match run fo l w with
    | .ok w' => w'.Ok
    | .error b => b = .object := by
  induction l generalizing w with
  | nil => exact hi
  | cons c t ih =>
    have h1 := step_ok fo w c (fun h s e => hc h s (by rw [e]; exact List.mem_cons_self ..)) hi
    rw [run]
    cases hs : step fo w c with
    | error b => rw [hs] at h1; exact h1
    | ok w' =>
      rw [hs] at h1
      exact ih w' (fun h s e => hc h s (List.mem_cons_of_mem _ e)) h1

theorem start_ok : start.Ok := ⟨fun k => ⟨fun h => absurd h (by simp [start]), fun ⟨_, h⟩ => absurd h (by simp [own, start])⟩,
  fun _ _ _ h => absurd h (by simp [own, start]), fun _ h => absurd h (by simp [start])⟩

/-- C91, as far as it holds: in a history without copies of profilers no closed file is written or closed again, whatever `fopen` answers, and
every file still open belongs to a living profiler: when all are destroyed, all files are closed. -/
theorem c91_files_partial (fo : Nat → Bool) (l : List Call) (hc : ∀ h s, .copy h s ∉ l) :
    run fo l start ≠ .error .file ∧
    ∀ w, run fo l start = .ok w → (∀ k ∈ w.f.live, ∃ h p, w.obj h = some p ∧ p.fp = some k) ∧ ((∀ h, w.obj h = none) → w.f.live = []) := by
  have h := run_ok fo l start hc start_ok
  refine ⟨fun e => by rw [e] at h; exact absurd h (by simp), fun w e => ?_⟩
  rw [e] at h
  have h1 : ∀ k ∈ w.f.live, ∃ h p, w.obj h = some p ∧ p.fp = some k := by
    intro k hk
    obtain ⟨i, hi⟩ := (h.owned k).mp hk
    cases ho : w.obj i with
    | none => rw [own, ho] at hi; exact absurd hi (by simp)
    | some p => exact ⟨i, p, ho, by rw [own, ho] at hi; exact hi⟩
  refine ⟨h1, fun hn => ?_⟩
  cases hl : w.f.live with
  | nil => rfl
  | cons k t =>
    obtain ⟨i, p, hp, _⟩ := h1 k (by rw [hl]; exact List.mem_cons_self ..)
    rw [hn i] at hp
    cases hp

/-- C91, refuted: a profiler can be copied, and the second destructor closes the file again. -/
theorem c91_refuted_copy : run (fun _ => true) [.new 0, .init 0 .perf, .copy 1 0, .dtor 1, .dtor 0] start = .error .file := by rfl

/-- Specification: the number a text of digits denotes. -/
def hexVal (l : List Char) : Nat := l.foldl (fun n c => n * 16 + (if c ≤ '9' then c.toNat - 48 else c.toNat - 87)) 0

/-- Specification: a reader of one line "START SIZE NAME". -/
def readLine (l : List Char) : Nat × Nat × List Char :=
  let a := l.takeWhile (· ≠ ' ')
  let l := (l.dropWhile (· ≠ ' ')).drop 1
  let s := l.takeWhile (· ≠ ' ')
  let l := (l.dropWhile (· ≠ ' ')).drop 1
  (hexVal a, hexVal s, l.takeWhile (· ≠ '\n'))

/-- the digit of a value -/
def dig (m : Nat) : Char := ['0', '1', '2', '3', '4', '5', '6', '7', '8', '9', 'a', 'b', 'c', 'd', 'e', 'f'].getD m '0'

theorem dig_all : ∀ m : Fin 16, dig m.val ≠ ' ' ∧ (if dig m.val ≤ '9' then (dig m.val).toNat - 48 else (dig m.val).toNat - 87) = m.val := by decide

theorem hexF_nospace (k n : Nat) : ∀ c ∈ hexF k n, c ≠ ' ' := by
  induction k generalizing n with
  | zero => intro c hc; exact absurd hc (by simp [hexF])
  | succ k ih =>
    intro c hc
    rw [hexF, List.mem_append] at hc
    rcases hc with hc | hc
    · split at hc
      · exact absurd hc (by simp)
      · exact ih _ c hc
    · rw [List.mem_singleton.mp hc]
      exact (dig_all ⟨n % 16, Nat.mod_lt _ (by omega)⟩).1

theorem hexVal_hexF (k n : Nat) (h : n < 16 ^ k) : hexVal (hexF k n) = n := by
  induction k generalizing n with
  | zero => simp only [Nat.pow_zero] at h; rw [hexF, hexVal, List.foldl_nil]; omega
  | succ k ih =>
    have hd := (dig_all ⟨n % 16, Nat.mod_lt _ (by omega)⟩).2
    have hv : hexVal ((if n < 16 then [] else hexF k (n / 16))) = n / 16 := by
      split
      · rw [hexVal, List.foldl_nil]; omega
      · exact ih _ (by rw [Nat.pow_succ] at h; omega)
    rw [hexF, hexVal, List.foldl_append]
    rw [hexVal] at hv
    rw [hv]
    show n / 16 * 16 + (if dig (n % 16) ≤ '9' then (dig (n % 16)).toNat - 48 else (dig (n % 16)).toNat - 87) = n
    rw [hd]
    show n / 16 * 16 + n % 16 = n
    omega

theorem takeWhile_stop {p : Char → Bool} {a : List Char} {c : Char} {b : List Char} (h : ∀ x ∈ a, p x = true) (hc : p c = false) :
    (a ++ c :: b).takeWhile p = a ∧ (a ++ c :: b).dropWhile p = c :: b := by
  induction a with
  | nil => simp [hc]
  | cons x t ih =>
    obtain ⟨h1, h2⟩ := ih (fun y hy => h y (List.mem_cons_of_mem _ hy))
    simp [h x (by simp), h1, h2]

/-- C91: what `set` writes is one line that reads back as the start address, the size and the name with its suffix, filled up with underscores
to three characters. -/
theorem c91_line (addr size : Word) (name suffix : List Char) (h1 : '\n' ∉ name) (h2 : '\n' ∉ suffix) :
    ∃ pad, readLine (line addr size name suffix) = (addr.toNat, size.toNat, name ++ suffix ++ pad) ∧ 3 ≤ (name ++ suffix ++ pad).length ∧
      (∀ c ∈ pad, c = '_') ∧ (3 ≤ (name ++ suffix).length → pad = []) ∧
      ∃ body, line addr size name suffix = body ++ ['\n'] ∧ '\n' ∉ body := by
  refine ⟨List.replicate (3 - (name.length + suffix.length)) '_', ?_, ?_, ?_, ?_, ?_⟩
  · have e : line addr size name suffix = hexF 16 addr.toNat ++ ' ' :: (hexF 16 size.toNat ++ ' ' ::
        ((name ++ suffix ++ List.replicate (3 - (name.length + suffix.length)) '_') ++ '\n' :: [])) := by
      simp [line]
    obtain ⟨t1, d1⟩ := takeWhile_stop (p := fun x => decide (x ≠ ' ')) (a := hexF 16 addr.toNat) (c := ' ') (b := hexF 16 size.toNat ++ ' ' ::
        ((name ++ suffix ++ List.replicate (3 - (name.length + suffix.length)) '_') ++ '\n' :: []))
      (fun x hx => by simpa using hexF_nospace _ _ x hx) (by simp)
    obtain ⟨t2, d2⟩ := takeWhile_stop (p := fun x => decide (x ≠ ' ')) (a := hexF 16 size.toNat) (c := ' ') (b :=
        ((name ++ suffix ++ List.replicate (3 - (name.length + suffix.length)) '_') ++ '\n' :: []))
      (fun x hx => by simpa using hexF_nospace _ _ x hx) (by simp)
    obtain ⟨t3, _⟩ := takeWhile_stop (p := fun x => decide (x ≠ '\n'))
      (a := name ++ suffix ++ List.replicate (3 - (name.length + suffix.length)) '_') (c := '\n') (b := [])
      (fun x hx => by
        have : x ≠ '\n' := by
          rintro rfl
          rcases List.mem_append.mp hx with hx | hx
          · rcases List.mem_append.mp hx with hx | hx
            · exact h1 hx
            · exact h2 hx
          · exact absurd (List.mem_replicate.mp hx).2 (by decide)
        simpa using this) (by simp)
    rw [e]
    unfold readLine
    simp only [t1, d1, List.drop_succ_cons, List.drop_zero, t2, d2, t3]
    rw [hexVal_hexF 16 _ addr.isLt, hexVal_hexF 16 _ size.isLt]
  · simp only [List.length_append, List.length_replicate]; omega
  · intro c hc; exact (List.mem_replicate.mp hc).2
  · intro h
    simp only [List.length_append] at h
    have : 3 - (name.length + suffix.length) = 0 := by omega
    rw [this]; rfl
  · refine ⟨_, rfl, ?_⟩
    have hx : ∀ k n, '\n' ∉ hexF k n := by
      intro k
      induction k with
      | zero => intro n; simp [hexF]
      | succ k ih =>
        intro n
        rw [hexF, List.mem_append]
        rintro (h | h)
        · split at h
          · exact absurd h (by simp)
          · exact ih _ h
        · have hd : ∀ m : Fin 16, dig m.val ≠ '\n' := by decide
          exact hd ⟨n % 16, Nat.mod_lt _ (by omega)⟩ (List.mem_singleton.mp h).symm
    simp only [List.mem_append, List.mem_cons, not_or]
    refine ⟨⟨⟨⟨hx _ _, ⟨by decide, hx _ _⟩⟩, ⟨by decide, h1⟩⟩, h2⟩, ?_⟩
    intro h
    exact absurd (List.mem_replicate.mp h).2 (by decide)

/-- Continuous calls of `set(funcName, endAddr)`. -/
def setAll : List (List Char × Word) → P × F → Except Bad (P × F)
  | [], r => .ok r
  | c :: t, r => (set2 c.1 c.2 r.1 r.2).bind (setAll t)

/-- Specification: ends in ascending order, none before `a`. -/
def Ascend : Nat → List (List Char × Word) → Prop
  | _, [] => True
  | a, c :: t => a ≤ c.2.toNat ∧ Ascend c.2.toNat t

/-- Specification: the last end. -/
def lastEnd : Word → List (List Char × Word) → Word
  | a, [] => a
  | _, c :: t => lastEnd c.2 t

theorem lastEnd_ge (a : Word) (l : List (List Char × Word)) (h : Ascend a.toNat l) : a.toNat ≤ (lastEnd a l).toNat := by
  induction l generalizing a with
  | nil => exact Nat.le_refl _
  | cons c t ih => exact Nat.le_trans h.1 (ih c.2 h.2)

/-- C91: continuous calls with ascending ends record functions that lie side by side: the names in order, every address from the start up to the
last end in exactly one record and every other address in none. -/
theorem c91_tile (l : List (List Char × Word)) (p : P) (f : F) (k : Nat) (hp : p.perf = true) (hf : p.fp = some k) (hk : k ∈ f.live)
    (ha : Ascend p.start.toNat l) :
    ∃ recs : List (List Char × Word × Word),
      setAll l (p, f) = .ok ({ p with start := lastEnd p.start l }, { f with out := f.out ++ recs.flatMap fun r => line r.2.1 r.2.2 r.1 p.suffix }) ∧
      recs.map (·.1) = l.map (·.1) ∧
      ∀ x : Nat, recs.countP (fun r => decide (r.2.1.toNat ≤ x ∧ x < r.2.1.toNat + r.2.2.toNat)) =
        if p.start.toNat ≤ x ∧ x < (lastEnd p.start l).toNat then 1 else 0 := by
  induction l generalizing p f with
  | nil =>
    refine ⟨[], ?_, rfl, ?_⟩
    · simp [setAll, lastEnd]
    · intro x
      rw [if_neg (by simp only [lastEnd]; omega)]
      rfl
  | cons c t ih =>
    have hs : set2 c.1 c.2 p f = .ok ({ p with start := c.2 }, { f with out := f.out ++ line p.start (c.2 - p.start) c.1 p.suffix }) := by
      simp [set2, set3, hp, hf, hk]
      rfl
    obtain ⟨recs, e1, e2, e3⟩ := ih { p with start := c.2 } { f with out := f.out ++ line p.start (c.2 - p.start) c.1 p.suffix } hp hf hk ha.2
    refine ⟨(c.1, p.start, c.2 - p.start) :: recs, ?_, ?_, ?_⟩
    · rw [setAll, hs]
      show setAll t _ = _
      rw [e1]
      simp [lastEnd]
    · simp [e2]
    · intro x
      have hsub : (c.2 - p.start).toNat = c.2.toNat - p.start.toNat := BitVec.toNat_sub_of_le (by rw [BitVec.le_def]; exact ha.1)
      have hge := lastEnd_ge c.2 t ha.2
      rw [List.countP_cons, e3 x]
      simp only [lastEnd, hsub, decide_eq_true_eq]
      have := ha.1
      by_cases q1 : p.start.toNat ≤ x ∧ x < p.start.toNat + (c.2.toNat - p.start.toNat)
      · rw [if_pos q1, if_neg (by omega)]
        exact (if_pos (by omega)).symm
      · rw [if_neg q1]
        by_cases q2 : c.2.toNat ≤ x ∧ x < (lastEnd c.2 t).toNat
        · rw [if_pos q2]
          exact (if_pos (by omega)).symm
        · rw [if_neg q2]
          exact (if_neg (by omega)).symm

/-- Non-trivial case: two functions of 16 and 5 bytes from address 0x1000, the second name too short for the reader. -/
example : (run (fun _ => true) [.new 0, .init 0 .perf, .setStartAddr 0 0x1000, .set2 0 "func".toList 0x1010, .set2 0 "g".toList 0x1015, .dtor 0] start).map (·.f) =
    .ok ⟨1, [], "1000 10 func\n1010 5 g__\n".toList⟩ := by rfl

/-- C91: without an open file, or in another mode, nothing is written. -/
theorem c91_off (nm : List Char) (a s : Word) (p : P) (f : F) (h : p.perf = false ∨ p.fp = none) : set3 nm a s p f = .ok f := by
  unfold set3
  rcases h with h | h
  · rw [if_pos h]
  · rw [h]; split <;> rfl

end Prof
end Xbyak
