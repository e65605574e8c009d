import Verif.RegExp
/-!
# Address expressions (C27, C28, C32)

The specification is the expression the user wrote: a tree of registers, scaled registers, constants, `+` and `-`, with a value
for every assignment of numbers to registers.
-/
namespace Xbyak

/-- The expression in the source of the caller. -/
inductive Term
  | reg (r : Reg)
  | scaled (r : Reg) (k : Int)
  | const (c : Word)
  | add (a b : Term)
  | sub (a : Term) (c : Word)

namespace Term

/-- Value of the expression modulo 2^64. -/
def val (ρ : Reg → Word) : Term → Word
  | reg r => ρ r
  | scaled r k => ρ r * BitVec.ofInt 64 k
  | const c => c
  | add a b => a.val ρ + b.val ρ
  | sub a c => a.val ρ - c

/-- What the overloaded operators construct (conversions xbyak.h 991-992, operators 1045-1078). -/
def build : Term → Except Err RegExp
  | reg r => RegExp.ofReg r
  | scaled r k => RegExp.ofReg r k
  | const c => .ok (RegExp.ofDisp c)
  | add a b => do
    let x ← a.build
    let y ← b.build
    RegExp.add x y
  | sub a c => do
    let x ← a.build
    return RegExp.sub x c

/-- The registers of the expression with their factors. -/
def regs : Term → List (Reg × Int)
  | reg r => [(r, 1)]
  | scaled r k => [(r, k)]
  | const _ => []
  | add a b => a.regs ++ b.regs
  | sub a _ => a.regs

/-- All registers are registers of the machine. -/
def Named (t : Term) : Prop := ∀ p ∈ t.regs, p.1.Named

/-- A register the addressing modes know: 32/64-bit general, or a vector (or tile) register. -/
def regOK (r : Reg) : Bool :=
  (r.kind == .reg && (r.bit == 32 || r.bit == 64)) || r.kind == .xmm || r.kind == .ymm || r.kind == .zmm || r.kind == .tmm

/-- An allowed factor; the factor 0 makes the term vanish. -/
def scaleOK (k : Int) : Bool := k == 0 || k == 1 || k == 2 || k == 4 || k == 8

/-- Can be used without a scale, as a base. -/
def plain (p : Reg × Int) : Bool := p.1.kind == .reg && p.2 == 1
/-- Needs the index slot. -/
def needsIndex (p : Reg × Int) : Bool := p.2 != 0 && !plain p

/-- The sum is of the form `base + index * scale + disp`. -/
def Fits (t : Term) : Prop :=
  (∀ p ∈ t.regs, regOK p.1 ∧ scaleOK p.2) ∧
    (t.regs.filter needsIndex).length ≤ 1 ∧
    (t.regs.filter needsIndex).length + (t.regs.filter plain).length ≤ 2

end Term

/-- Value of a `RegExp`; an absent register counts 0. -/
def RegExp.val (ρ : Reg → Word) (e : RegExp) : Word :=
  (if e.base.bit = 0 then 0 else ρ e.base) + (if e.index.bit = 0 then 0 else ρ e.index * BitVec.ofInt 64 e.scale) + e.disp

namespace Term

theorem named_bit {r : Reg} (h : r.Named) : r.bit = 8 ∨ r.bit = 16 ∨ r.bit = 32 ∨ r.bit = 64 ∨ r.bit = 128 ∨ r.bit = 256 ∨
    r.bit = 512 ∨ r.bit = 8192 := by
  rcases h.shape with ⟨_, h⟩ | ⟨_, h⟩ | ⟨_, h⟩ | ⟨_, h⟩ | ⟨_, h⟩ | ⟨_, h⟩ | ⟨_, h⟩ | ⟨_, h⟩ | ⟨_, h⟩ <;> omega

/-- The acceptance condition of the constructor, in terms of `regOK`. -/
theorem ctor_regOK {r : Reg} (h : r.Named) :
    (!r.isREG 96 && !(r.isXMM || r.isYMM || r.isZMM || r.isTMM)) = !regOK r := by
  obtain ⟨hs, -, -, -⟩ := h
  unfold Reg.isREG Reg.isXMM Reg.isYMM Reg.isZMM Reg.isTMM regOK Reg.isBit
  rcases hs with ⟨h1, h2 | h2 | h2 | h2⟩ | ⟨h1, h2⟩ | ⟨h1, h2⟩ | ⟨h1, h2⟩ | ⟨h1, h2⟩ | ⟨h1, h2⟩ | ⟨h1, h2⟩ | ⟨h1, h2⟩ | ⟨h1, h2⟩ <;>
    rw [h1, h2] <;> rfl

theorem regOK_bit {r : Reg} (h : r.Named) (ok : regOK r = true) : r.bit ≠ 0 ∧ (r.bit ≥ 128 ↔ r.kind ≠ .reg) := by
  obtain ⟨hs, -, -, -⟩ := h
  rcases hs with ⟨h1, h2 | h2 | h2 | h2⟩ | ⟨h1, h2⟩ | ⟨h1, h2⟩ | ⟨h1, h2⟩ | ⟨h1, h2⟩ | ⟨h1, h2⟩ | ⟨h1, h2⟩ | ⟨h1, h2⟩ | ⟨h1, h2⟩ <;>
    simp_all [regOK]

/-- What an accepted `RegExp` looks like, related to the registers of the expression. -/
structure Rep (l : List (Reg × Int)) (e : RegExp) : Prop where
  ok : ∀ p ∈ l, regOK p.1 ∧ scaleOK p.2
  slots : (l.filter needsIndex).length + (l.filter plain).length =
    (if e.base.bit = 0 then 0 else 1) + (if e.index.bit = 0 then 0 else 1)
  idx1 : (l.filter needsIndex).length = 1 → e.index.bit ≠ 0
  idx2 : (l.filter needsIndex).length ≤ 1
  full : (l.filter needsIndex).length = 0 → e.base.bit = 0 → e.index.bit = 0

theorem rep_ofReg {r : Reg} (hr : r.Named) (k : Int) :
    (∀ e, RegExp.ofReg r k = .ok e → Rep [(r, k)] e) ∧
    ((∃ e, RegExp.ofReg r k = .ok e) ↔ (regOK r ∧ scaleOK k)) := by
  unfold RegExp.ofReg
  rw [ctor_regOK hr]
  cases hok : regOK r with
  | false => simp
  | true =>
    obtain ⟨b0, b1⟩ := regOK_bit hr hok
    by_cases hk0 : k = 0
    · subst hk0
      refine ⟨?_, by simp [scaleOK]⟩
      intro e he
      simp at he
      subst he
      exact ⟨by simp [hok, scaleOK], by simp [needsIndex, plain, Reg.nil], by simp [needsIndex],
        by simp [needsIndex], fun _ _ => rfl⟩
    · by_cases hk : k ≠ 1 ∧ k ≠ 2 ∧ k ≠ 4 ∧ k ≠ 8
      · simp [hk0, hk, scaleOK]
      · have hsc : scaleOK k = true := by
          simp only [scaleOK, Bool.or_eq_true, beq_iff_eq]; omega
        by_cases hi : r.bit ≥ 128 ∨ k ≠ 1
        · refine ⟨?_, by simp [hk0, hk, hi, hsc]⟩
          intro e he
          simp [hk0, hk, hi] at he
          subst he
          have hp : plain (r, k) = false := by
            simp only [plain, Bool.and_eq_false_iff, beq_eq_false_iff_ne]
            rcases hi with hi | hi
            · exact Or.inl (b1.1 hi)
            · exact Or.inr hi
          have hn : needsIndex (r, k) = true := by simp [needsIndex, hk0, hp]
          exact ⟨by simp [hok, hsc], by simp [hn, hp, b0, Reg.nil], fun _ => b0,
            by simp [hn], by simp [hn]⟩
        · refine ⟨?_, by simp [hk0, hk, hi, hsc]⟩
          intro e he
          simp [hk0, hk, hi] at he
          subst he
          have hp : plain (r, k) = true := by
            simp only [plain, Bool.and_eq_true, beq_iff_eq]
            refine ⟨Classical.byContradiction fun h => hi (Or.inl (b1.2 h)), ?_⟩
            exact Classical.byContradiction fun h => hi (Or.inr h)
          have hn : needsIndex (r, k) = false := by simp [needsIndex, hp]
          exact ⟨by simp [hok, hsc], by simp [hn, hp, b0, Reg.nil], by simp [hn],
            by simp [hn], fun _ h => absurd h b0⟩

/-- An absent register is the default one. -/
def Tidy (e : RegExp) : Prop := (e.base.bit = 0 → e.base = .nil) ∧ (e.index.bit = 0 → e.index = .nil)

theorem ofReg_val {r : Reg} (hr : r.Named) {k : Int} {e : RegExp} (h : RegExp.ofReg r k = .ok e) :
    Tidy e ∧ ∀ ρ, e.val ρ = ρ r * BitVec.ofInt 64 k := by
  unfold RegExp.ofReg at h
  rw [ctor_regOK hr] at h
  cases hok : regOK r with
  | false => simp [hok] at h
  | true =>
    obtain ⟨b0, -⟩ := regOK_bit hr hok
    have n0 : Reg.nil.bit = 0 := rfl
    simp only [hok, Bool.not_true, Bool.false_eq_true, if_false] at h
    split at h
    · rename_i hk
      have := (Except.ok.inj h).symm; subst this; subst hk
      exact ⟨⟨fun _ => rfl, fun _ => rfl⟩, fun ρ => by simp [RegExp.val, n0]⟩
    · split at h
      · cases h
      · split at h
        · have := (Except.ok.inj h).symm; subst this
          exact ⟨⟨fun _ => rfl, fun h => absurd h b0⟩, fun ρ => by simp [RegExp.val, n0, b0]⟩
        · rename_i hk
          have := (Except.ok.inj h).symm; subst this
          have hk1 : k = 1 := Classical.byContradiction fun h => hk (Or.inr h)
          subst hk1
          exact ⟨⟨fun h => absurd h b0, fun _ => rfl⟩, fun ρ => by simp [RegExp.val, n0, b0]⟩

theorem fits_single {r : Reg} {k : Int} : (regOK r = true ∧ scaleOK k = true) ↔ (scaled r k).Fits := by
  constructor
  · intro h
    refine ⟨by simpa [regs] using h, ?_, ?_⟩
    · simp only [regs]; exact List.length_filter_le _ _
    · have h1 := List.length_filter_le needsIndex [(r, k)]
      have h2 := List.length_filter_le plain [(r, k)]
      simp only [regs, List.length_cons, List.length_nil] at *; omega
  · intro h; exact h.1 (r, k) (by simp [regs])

theorem fits_left {a b : Term} (h : (add a b).Fits) : a.Fits := by
  obtain ⟨h1, h2, h3⟩ := h
  simp only [regs, List.filter_append, List.length_append] at h2 h3
  exact ⟨fun p hp => h1 p (List.mem_append_left _ hp), by omega, by omega⟩

theorem fits_right {a b : Term} (h : (add a b).Fits) : b.Fits := by
  obtain ⟨h1, h2, h3⟩ := h
  simp only [regs, List.filter_append, List.length_append] at h2 h3
  exact ⟨fun p hp => h1 p (List.mem_append_right _ hp), by omega, by omega⟩

theorem add_ok {x y e : RegExp} (hx : Tidy x) (hy : Tidy y) (h : RegExp.add x y = .ok e) :
    Tidy e ∧ (∀ ρ, e.val ρ = x.val ρ + y.val ρ) ∧
    (e.base.bit = 0 ↔ x.base.bit = 0 ∧ y.base.bit = 0) ∧
    (e.index.bit = 0 ↔ x.index.bit = 0 ∧ y.index.bit = 0 ∧ (x.base.bit = 0 ∨ y.base.bit = 0)) ∧
    ¬ (x.index.bit ≠ 0 ∧ y.index.bit ≠ 0) ∧
    ¬ (x.base.bit ≠ 0 ∧ y.base.bit ≠ 0 ∧ (x.index.bit ≠ 0 ∨ y.index.bit ≠ 0)) := by
  obtain ⟨xb, xi, xs, xd⟩ := x
  obtain ⟨yb, yi, ys, yd⟩ := y
  obtain ⟨hx1, hx2⟩ := hx
  obtain ⟨hy1, hy2⟩ := hy
  dsimp only at hx1 hx2 hy1 hy2
  unfold RegExp.add at h
  dsimp only at h ⊢
  have c1 : BitVec.ofInt 64 1 = 1 := rfl
  by_cases hxi : xi.bit = 0 <;> by_cases hyi : yi.bit = 0 <;> by_cases hyb : yb.bit = 0 <;> by_cases hxb : xb.bit = 0 <;>
    simp only [hxi, hyi, hyb, hxb, ne_eq, not_true_eq_false, not_false_eq_true, and_self, and_true, and_false, false_and, true_and,
      if_true, if_false] at h
  all_goals first
    | (cases h; done)
    | skip
  all_goals first
    | (have e1 : e = _ := (Except.ok.inj h).symm
       subst e1
       refine ⟨⟨?_, ?_⟩, ?_, ?_, ?_, ?_, ?_⟩
       · intro hh; simp_all
       · intro hh; simp_all
       · intro ρ; simp [RegExp.val, hxi, hyi, hyb, hxb] <;> ac_rfl
       all_goals simp_all)
    | (by_cases h4 : yb.idx = 4
       all_goals
         simp only [h4, if_true, if_false] at h
         have e1 : e = _ := (Except.ok.inj h).symm
         subst e1
         refine ⟨⟨?_, ?_⟩, ?_, ?_, ?_, ?_, ?_⟩
         · intro hh; simp_all
         · intro hh; simp_all
         · intro ρ; simp [RegExp.val, hxi, hyi, hyb, hxb] <;> ac_rfl
         all_goals simp_all)

theorem add_total {x y : RegExp} (h1 : ¬ (x.index.bit ≠ 0 ∧ y.index.bit ≠ 0))
    (h2 : ¬ (x.base.bit ≠ 0 ∧ y.base.bit ≠ 0 ∧ (x.index.bit ≠ 0 ∨ y.index.bit ≠ 0))) : ∃ e, RegExp.add x y = .ok e := by
  obtain ⟨xb, xi, xs, xd⟩ := x
  obtain ⟨yb, yi, ys, yd⟩ := y
  unfold RegExp.add
  dsimp only at h1 h2 ⊢
  by_cases hxi : xi.bit = 0 <;> by_cases hyi : yi.bit = 0 <;> by_cases hyb : yb.bit = 0 <;> by_cases hxb : xb.bit = 0 <;>
    by_cases h4 : yb.idx = 4 <;> simp_all

theorem rep_add {l m : List (Reg × Int)} {x y : RegExp} (hx : Rep l x) (hy : Rep m y) (tx : Tidy x) (ty : Tidy y) :
    (∀ e, RegExp.add x y = .ok e → Rep (l ++ m) e) ∧
    ((∃ e, RegExp.add x y = .ok e) ↔ ((l ++ m).filter needsIndex).length ≤ 1 ∧
      ((l ++ m).filter needsIndex).length + ((l ++ m).filter plain).length ≤ 2) := by
  have okk : ∀ p ∈ l ++ m, regOK p.1 ∧ scaleOK p.2 := by
    intro p hp; rcases List.mem_append.1 hp with h | h
    · exact hx.ok p h
    · exact hy.ok p h
  have xsl := hx.slots
  have x1 := hx.idx1
  have x2 := hx.idx2
  have xf := hx.full
  have ysl := hy.slots
  have y1 := hy.idx1
  have y2 := hy.idx2
  have yf := hy.full
  have key : (¬ (x.index.bit ≠ 0 ∧ y.index.bit ≠ 0) ∧
      ¬ (x.base.bit ≠ 0 ∧ y.base.bit ≠ 0 ∧ (x.index.bit ≠ 0 ∨ y.index.bit ≠ 0))) ↔
      ((l ++ m).filter needsIndex).length ≤ 1 ∧ ((l ++ m).filter needsIndex).length + ((l ++ m).filter plain).length ≤ 2 := by
    simp only [List.filter_append, List.length_append]
    split at xsl <;> split at xsl <;> split at ysl <;> split at ysl <;> omega
  refine ⟨?_, ⟨?_, ?_⟩⟩
  · intro e he
    obtain ⟨-, -, eb, ei, h1, h2⟩ := add_ok tx ty he
    refine ⟨okk, ?_, ?_, (key.1 ⟨h1, h2⟩).1, ?_⟩
    · simp only [List.filter_append, List.length_append, eb, ei]
      split at xsl <;> split at xsl <;> split at ysl <;> split at ysl <;> split <;> split <;> omega
    · simp only [List.filter_append, List.length_append, ne_eq, ei]; omega
    · simp only [List.filter_append, List.length_append, eb, ei]; omega
  · rintro ⟨e, he⟩
    obtain ⟨-, -, -, -, h1, h2⟩ := add_ok tx ty he
    exact key.1 ⟨h1, h2⟩
  · intro h
    exact add_total (key.2 h).1 (key.2 h).2

/-- Main invariant of C27. -/
theorem build_rep (t : Term) (ht : t.Named) :
    (∀ e, t.build = .ok e → Rep t.regs e ∧ Tidy e ∧ ∀ ρ, e.val ρ = t.val ρ) ∧ ((∃ e, t.build = .ok e) ↔ t.Fits) := by
  induction t with
  | reg r =>
    have hr : r.Named := ht (r, 1) (by simp [regs])
    obtain ⟨h1, h2⟩ := rep_ofReg hr 1
    refine ⟨fun e he => ⟨h1 e he, (ofReg_val hr he).1, fun ρ => ?_⟩, ?_⟩
    · rw [(ofReg_val hr he).2 ρ]; simp [val]
    · rw [build, h2]; exact fits_single
  | scaled r k =>
    have hr : r.Named := ht (r, k) (by simp [regs])
    obtain ⟨h1, h2⟩ := rep_ofReg hr k
    refine ⟨fun e he => ⟨h1 e he, (ofReg_val hr he).1, fun ρ => ?_⟩, ?_⟩
    · rw [(ofReg_val hr he).2 ρ]; simp [val]
    · rw [build, h2]; exact fits_single
  | const c =>
    refine ⟨fun e he => ?_, ?_⟩
    · have : e = RegExp.ofDisp c := (Except.ok.inj he).symm
      subst this
      refine ⟨⟨by simp [regs], by simp [regs, RegExp.ofDisp, Reg.nil], by simp [regs], by simp [regs], fun _ _ => rfl⟩,
        ⟨fun _ => rfl, fun _ => rfl⟩, fun ρ => by simp [RegExp.val, RegExp.ofDisp, Reg.nil, val]⟩
    · exact ⟨fun _ => ⟨by simp [regs], by simp [regs], by simp [regs]⟩, fun _ => ⟨_, rfl⟩⟩
  | add a b iha ihb =>
    have ha : a.Named := fun p hp => ht p (List.mem_append_left _ hp)
    have hb : b.Named := fun p hp => ht p (List.mem_append_right _ hp)
    obtain ⟨a1, a2⟩ := iha ha
    obtain ⟨b1, b2⟩ := ihb hb
    constructor
    · intro e he
      rw [build] at he
      cases hx : a.build with
      | error _ => rw [hx] at he; cases he
      | ok x =>
        cases hy : b.build with
        | error _ => rw [hx, hy] at he; cases he
        | ok y =>
          rw [hx, hy] at he
          have he' : RegExp.add x y = .ok e := he
          obtain ⟨rx, tx, vx⟩ := a1 x hx
          obtain ⟨ry, ty, vy⟩ := b1 y hy
          refine ⟨(rep_add rx ry tx ty).1 e he', (add_ok tx ty he').1, fun ρ => ?_⟩
          rw [(add_ok tx ty he').2.1 ρ, vx, vy]; rfl
    · constructor
      · rintro ⟨e, he⟩
        rw [build] at he
        cases hx : a.build with
        | error _ => rw [hx] at he; cases he
        | ok x =>
          cases hy : b.build with
          | error _ => rw [hx, hy] at he; cases he
          | ok y =>
            rw [hx, hy] at he
            have he' : RegExp.add x y = .ok e := he
            obtain ⟨rx, tx, -⟩ := a1 x hx
            obtain ⟨ry, ty, -⟩ := b1 y hy
            exact ⟨((rep_add rx ry tx ty).1 e he').ok, (rep_add rx ry tx ty).2.1 ⟨e, he'⟩⟩
      · intro hf
        have hfa : a.Fits := fits_left hf
        have hfb : b.Fits := fits_right hf
        obtain ⟨x, hx⟩ := a2.2 hfa
        obtain ⟨y, hy⟩ := b2.2 hfb
        obtain ⟨rx, tx, -⟩ := a1 x hx
        obtain ⟨ry, ty, -⟩ := b1 y hy
        obtain ⟨e, he⟩ := (rep_add rx ry tx ty).2.2 hf.2
        exact ⟨e, by rw [build, hx, hy]; exact he⟩
  | sub a c iha =>
    obtain ⟨a1, a2⟩ := iha ht
    constructor
    · intro e he
      rw [build] at he
      cases hx : a.build with
      | error _ => rw [hx] at he; cases he
      | ok x =>
        rw [hx] at he
        have : e = RegExp.sub x c := (Except.ok.inj he).symm
        subst this
        obtain ⟨rx, tx, vx⟩ := a1 x hx
        refine ⟨⟨rx.ok, rx.slots, rx.idx1, rx.idx2, rx.full⟩, tx, fun ρ => ?_⟩
        have hv := vx ρ
        simp only [val, ← hv, RegExp.val, RegExp.sub, BitVec.sub_eq_add_neg]
        ac_rfl
    · constructor
      · rintro ⟨e, he⟩
        rw [build] at he
        cases hx : a.build with
        | error _ => rw [hx] at he; cases he
        | ok x => exact a2.1 ⟨x, hx⟩
      · intro hf
        obtain ⟨x, hx⟩ := a2.2 hf
        exact ⟨_, by rw [build, hx]; rfl⟩

end Term

/-! ## C27 -/

/-- **C27** (value).  An accepted expression denotes, for every register assignment, exactly the sum the user wrote. -/
theorem c27_denotes (t : Term) (ht : t.Named) {e : RegExp} (h : t.build = .ok e) (ρ : Reg → Word) : e.val ρ = t.val ρ :=
  ((t.build_rep ht).1 e h).2.2 ρ

/-- **C27** (acceptance).  An expression is accepted iff it is expressible: only address registers, factors 0, 1, 2, 4, 8, at most one
term that needs the index slot, at most two register terms.  Everything else is refused. -/
theorem c27_accepts_iff (t : Term) (ht : t.Named) : (∃ e, t.build = .ok e) ↔ t.Fits := (t.build_rep ht).2

/-- `rcx*4 + rax - 8 + 24` is accepted. -/
example : (Term.build (.add (.sub (.add (.scaled (.gp 1 64) 4) (.reg (.gp 0 64))) 8) (.const 24))) =
    .ok ⟨.gp 0 64, .gp 1 64, 4, 16⟩ := rfl
/-- `rax*2 + rcx*2` is refused. -/
example : (Term.build (.add (.scaled (.gp 0 64) 2) (.scaled (.gp 1 64) 2))) = .error .BAD_ADDRESSING := rfl

/-! ## C28 -/

theorem named_isBit96 {r : Reg} (h : r.Named) (h96 : r.isBit 96 = true) : r.bit = 32 ∨ r.bit = 64 := by
  unfold Reg.isBit at h96
  rcases Term.named_bit h with h | h | h | h | h | h | h | h <;> rw [h] at h96 <;> revert h96 <;> simp [h] <;> decide

/-- **C28** (value).  The rewriting of `[reg*2]` to `[reg+reg]` keeps the value for every register assignment. -/
theorem c28_value (e : RegExp) (ρ : Reg → Word) : e.optimize.val ρ = e.val ρ := by
  unfold RegExp.optimize
  split
  · rename_i h
    simp only [Bool.and_eq_true, beq_iff_eq, decide_eq_true_eq] at h
    obtain ⟨⟨h1, h2⟩, h3⟩ := h
    have hb : e.index.bit ≠ 0 := by
      intro h0; simp [Reg.isBit, h0] at h1
    have c2 : BitVec.ofInt 64 2 = 2 := rfl
    have c1 : BitVec.ofInt 64 1 = 1 := rfl
    simp only [RegExp.val, hb, h2, h3, if_true, if_false, c1, c2]
    have : ρ e.index * 2 = ρ e.index + ρ e.index := by
      rw [show (2 : BitVec 64) = 1 + 1 from rfl, BitVec.mul_add]; simp
    rw [this]; simp
  · rfl

/-- **C28** (encodability).  An address that is accepted stays acceptable, keeps its displacement, and its registers are among the old
ones. -/
theorem c28_encodable (e : RegExp) (hi : e.index.bit = 0 ∨ e.index.Named) (h : e.verify = .ok ()) :
    e.optimize.verify = .ok () ∧ e.optimize.disp = e.disp ∧ e.optimize.index = e.index ∧
      (e.optimize.base = e.base ∨ e.optimize.base = e.index) ∧ (e.optimize.scale = e.scale ∨ e.optimize.scale = 1) := by
  unfold RegExp.optimize
  split
  · rename_i hc
    simp only [Bool.and_eq_true, beq_iff_eq, decide_eq_true_eq] at hc
    obtain ⟨⟨h1, h2⟩, h3⟩ := hc
    have hb : e.index.bit ≠ 0 := by
      intro h0; simp [Reg.isBit, h0] at h1
    have hN : e.index.Named := hi.resolve_left hb
    have h96 := named_isBit96 hN h1
    refine ⟨?_, rfl, rfl, Or.inr rfl, Or.inr rfl⟩
    unfold RegExp.verify at h ⊢
    have h4 : e.index.bit ≠ 0 ∧ e.index.bit ≤ 64 := ⟨hb, by omega⟩
    have hlt : ¬ e.index.bit ≥ 128 := by omega
    by_cases hne : e.index.idx = 4
    · rw [if_neg (by omega), if_pos h4, if_pos hne] at h; cases h
    · rw [if_neg hlt, if_pos h4, if_neg hne, if_neg (by simp)]
  · exact ⟨h, rfl, rfl, Or.inl rfl, Or.inl rfl⟩

/-- `[rcx*2+8]` becomes `[rcx+rcx*1+8]`. -/
example : RegExp.optimize ⟨.nil, .gp 1 64, 2, 8⟩ = ⟨.gp 1 64, .gp 1 64, 1, 8⟩ := rfl

/-! ## C32 -/

namespace Term

/-- How the register terms of an expression are placed. -/
inductive Shape : List (Reg × Int) → List (Reg × Int) → RegExp → Prop
  | none (d) (s : Int) : Shape [] [] ⟨.nil, .nil, s, d⟩
  | base (b d) (s : Int) : Shape [(b, 1)] [] ⟨b, .nil, s, d⟩
  | index (i k d) : Shape [] [(i, k)] ⟨.nil, i, k, d⟩
  | both (b i k d) : Shape [(b, 1)] [(i, k)] ⟨b, i, k, d⟩
  | two (b c d) : c.idx ≠ 4 → Shape [(b, 1), (c, 1)] [] ⟨b, c, 1, d⟩
  | twoSwap (b c d) : c.idx = 4 → Shape [(b, 1), (c, 1)] [] ⟨c, b, 1, d⟩

/-- Registers of `Shape` are real ones. -/
def Live (l : List (Reg × Int)) : Prop := ∀ p ∈ l, p.1.bit ≠ 0

theorem shape_add {P P' N N' : List (Reg × Int)} {x y e : RegExp} (hx : Shape P N x) (hy : Shape P' N' y)
    (lx : Live (P ++ N)) (ly : Live (P' ++ N')) (h : RegExp.add x y = .ok e) : Shape (P ++ P') (N ++ N') e := by
  have n0 : Reg.nil.bit = 0 := rfl
  unfold RegExp.add at h
  cases hx <;> cases hy <;>
    simp only [Live, List.mem_append, List.mem_cons, List.not_mem_nil, or_false, false_or, forall_eq_or_imp, forall_eq,
      List.nil_append, List.cons_append] at lx ly ⊢ <;>
    simp [n0, lx, ly] at h <;> (try subst h) <;> (try constructor) <;>
    (try (split at h <;> cases h <;> constructor <;> assumption)) <;> (try assumption)

theorem shape_ofReg {r : Reg} (hr : r.Named) {k : Int} {e : RegExp} (h : RegExp.ofReg r k = .ok e) :
    Shape ([(r, k)].filter plain) ([(r, k)].filter needsIndex) e := by
  unfold RegExp.ofReg at h
  rw [ctor_regOK hr] at h
  cases hok : regOK r with
  | false => simp [hok] at h
  | true =>
    obtain ⟨b0, b1⟩ := regOK_bit hr hok
    simp only [hok, Bool.not_true, Bool.false_eq_true, if_false] at h
    split at h
    · rename_i hk
      cases h; subst hk
      simp only [List.filter, plain, needsIndex]
      simp
      exact .none _ _
    · rename_i hk0
      split at h
      · cases h
      · split at h
        · rename_i hi
          cases h
          have hp : plain (r, k) = false := by
            simp only [plain, Bool.and_eq_false_iff, beq_eq_false_iff_ne]
            rcases hi with hi | hi
            · exact Or.inl (b1.1 hi)
            · exact Or.inr hi
          have hn : needsIndex (r, k) = true := by simp [needsIndex, hk0, hp]
          simp only [List.filter, hp, hn]
          exact .index _ _ _
        · rename_i hk
          cases h
          have hk1 : k = 1 := Classical.byContradiction fun h => hk (Or.inr h)
          subst hk1
          have hp : plain (r, 1) = true := by
            simp only [plain, Bool.and_eq_true, beq_iff_eq, and_true]
            exact Classical.byContradiction fun h => hk (Or.inl (b1.2 h))
          have hn : needsIndex (r, 1) = false := by simp [needsIndex, hp]
          simp only [List.filter, hp, hn]
          exact .base _ _ _

theorem live_of {t : Term} (ht : t.Named) {e : RegExp} (h : t.build = .ok e) :
    Live (t.regs.filter plain ++ t.regs.filter needsIndex) := by
  have hf := (t.build_rep ht).2.1 ⟨e, h⟩
  intro p hp
  have hp' : p ∈ t.regs := by
    rcases List.mem_append.1 hp with h | h <;> exact (List.mem_filter.1 h).1
  exact (regOK_bit (ht p hp') (hf.1 p hp').1).1

theorem build_shape (t : Term) (ht : t.Named) {e : RegExp} (h : t.build = .ok e) :
    Shape (t.regs.filter plain) (t.regs.filter needsIndex) e ∧ Live (t.regs.filter plain ++ t.regs.filter needsIndex) := by
  refine ⟨?_, ?_⟩
  · induction t generalizing e with
    | reg r => exact shape_ofReg (ht (r, 1) (by simp [regs])) h
    | scaled r k => exact shape_ofReg (ht (r, k) (by simp [regs])) h
    | const c => cases h; exact .none _ _
    | add a b iha ihb =>
      have ha : a.Named := fun p hp => ht p (List.mem_append_left _ hp)
      have hb : b.Named := fun p hp => ht p (List.mem_append_right _ hp)
      rw [build] at h
      cases hx : a.build with
      | error _ => rw [hx] at h; cases h
      | ok x =>
        cases hy : b.build with
        | error _ => rw [hx, hy] at h; cases h
        | ok y =>
          rw [hx, hy] at h
          simp only [regs, List.filter_append]
          exact shape_add (iha ha hx) (ihb hb hy) (live_of ha hx) (live_of hb hy) h
    | sub a c iha =>
      rw [build] at h
      cases hx : a.build with
      | error _ => rw [hx] at h; cases h
      | ok x =>
        rw [hx] at h
        cases h
        have := iha ht hx
        revert this
        simp only [regs]
        intro this
        generalize a.regs.filter plain = P at this
        generalize a.regs.filter needsIndex = N at this
        cases this <;> constructor <;> assumption
  · exact live_of ht h

/-- The 32/64-bit general registers that take part have one width. -/
def WidthOK (t : Term) : Prop :=
  ∀ p ∈ t.regs, ∀ q ∈ t.regs, p.1.kind = .reg → q.1.kind = .reg → p.2 ≠ 0 → q.2 ≠ 0 → p.1.bit = q.1.bit

/-- `rsp`/`esp` occurs at most once and is not scaled. -/
def RspOK (t : Term) : Prop :=
  (∀ p ∈ t.regs, p.1.kind = .reg → p.1.idx = 4 → p.2 = 0 ∨ p.2 = 1) ∧
    (t.regs.filter fun p => plain p && p.1.idx == 4).length ≤ 1

/-- `ptr[t]`, `dword[t]`, … -/
def addr (t : Term) (bit : Nat) (bc : Bool) : Except Err Addr := do
  let e ← t.build
  Addr.ofExp bit bc e

theorem mem_plain {t : Term} {p : Reg × Int} : p ∈ t.regs.filter plain ↔ p ∈ t.regs ∧ p.1.kind = .reg ∧ p.2 = 1 := by
  simp [List.mem_filter, plain]

theorem mem_needs {t : Term} {p : Reg × Int} :
    p ∈ t.regs.filter needsIndex ↔ p ∈ t.regs ∧ p.2 ≠ 0 ∧ ¬ (p.1.kind = .reg ∧ p.2 = 1) := by
  simp only [List.mem_filter, needsIndex, plain, Bool.and_eq_true, bne_iff_ne, Bool.not_eq_true', Bool.and_eq_false_iff,
    beq_eq_false_iff_ne, ne_eq, Classical.not_and_iff_not_or_not]

/-- The registers that take part, by slot. -/
theorem mem_split {t : Term} {p : Reg × Int} :
    (p ∈ t.regs ∧ p.2 ≠ 0) ↔ p ∈ t.regs.filter plain ∨ p ∈ t.regs.filter needsIndex := by
  rw [mem_plain, mem_needs]
  constructor
  · rintro ⟨h1, h2⟩
    by_cases h : p.1.kind = .reg ∧ p.2 = 1
    · exact Or.inl ⟨h1, h⟩
    · exact Or.inr ⟨h1, h2, h⟩
  · rintro (⟨h1, h2⟩ | ⟨h1, h2, -⟩)
    · exact ⟨h1, by rw [h2.2]; decide⟩
    · exact ⟨h1, h2⟩

theorem widthOK_iff {t : Term} : t.WidthOK ↔ ∀ p ∈ t.regs.filter plain ++ t.regs.filter needsIndex,
    ∀ q ∈ t.regs.filter plain ++ t.regs.filter needsIndex, p.1.kind = .reg → q.1.kind = .reg → p.1.bit = q.1.bit := by
  constructor
  · intro h p hp q hq kp kq
    have hp' := mem_split.2 (List.mem_append.1 hp)
    have hq' := mem_split.2 (List.mem_append.1 hq)
    exact h p hp'.1 q hq'.1 kp kq hp'.2 hq'.2
  · intro h p hp q hq kp kq p0 q0
    exact h p (List.mem_append.2 (mem_split.1 ⟨hp, p0⟩)) q (List.mem_append.2 (mem_split.1 ⟨hq, q0⟩)) kp kq

theorem rspOK_iff {t : Term} : t.RspOK ↔ (∀ p ∈ t.regs.filter needsIndex, p.1.kind = .reg → p.1.idx ≠ 4) ∧
    ((t.regs.filter plain).filter fun p => p.1.idx == 4).length ≤ 1 := by
  unfold RspOK
  rw [List.filter_filter]
  have e : (fun p : Reg × Int => plain p && p.1.idx == 4) = fun p => p.1.idx == 4 && plain p := by
    funext p; exact Bool.and_comm _ _
  rw [e]
  refine and_congr_left fun _ => ⟨?_, ?_⟩
  · intro h p hp kp ip
    rw [mem_needs] at hp
    rcases h p hp.1 kp ip with h' | h'
    · exact hp.2.1 h'
    · exact hp.2.2 ⟨kp, h'⟩
  · intro h p hp kp ip
    by_cases h0 : p.2 = 0
    · exact Or.inl h0
    · by_cases h1 : p.2 = 1
      · exact Or.inr h1
      · exact absurd ip (h p (mem_needs.2 ⟨hp, h0, fun hh => h1 hh.2⟩) kp)

/-- Bits of the registers in the slots. -/
theorem slot_bits {t : Term} (ht : t.Named) (hf : t.Fits) {p : Reg × Int}
    (hp : p ∈ t.regs.filter plain ++ t.regs.filter needsIndex) :
    (p.1.kind = .reg → p.1.bit = 32 ∨ p.1.bit = 64) ∧ (p.1.kind ≠ .reg → p.1.bit ≥ 128) := by
  have hp' := mem_split.2 (List.mem_append.1 hp)
  have ok := (hf.1 p hp'.1).1
  have b := regOK_bit (ht p hp'.1) ok
  refine ⟨fun k => ?_, fun k => b.2.2 k⟩
  simp only [regOK, k] at ok
  simpa using ok

theorem verify_iff {t : Term} (ht : t.Named) {e : RegExp} (h : t.build = .ok e) :
    e.verify = .ok () ↔ t.WidthOK ∧ t.RspOK := by
  have hf := (t.build_rep ht).2.1 ⟨e, h⟩
  obtain ⟨hs, -⟩ := t.build_shape ht h
  have hb := fun p hp => slot_bits (p := p) ht hf hp
  have hpk : ∀ p ∈ t.regs.filter plain, p.1.kind = .reg := fun p hp => (mem_plain.1 hp).2.1
  rw [widthOK_iff, rspOK_iff]
  generalize t.regs.filter plain = P at hs hb hpk
  generalize t.regs.filter needsIndex = N at hs hb
  have n0 : Reg.nil.bit = 0 := rfl
  have er : ∀ {E : Err}, (Except.error E : Except Err Unit) = .ok () ↔ False := by intro E; simp
  unfold RegExp.verify
  cases hs with
  | none d s => simp [n0]
  | base b d s =>
    have h1 := (hb (b, 1) (by simp)).1 (hpk _ (by simp))
    have h2 : ¬ b.bit ≥ 128 := by dsimp only at h1; omega
    dsimp only
    rw [if_neg h2, if_neg (by simp [n0])]
    simp [List.filter]
    split <;> simp
  | index i k d =>
    have h1 := hb (i, k) (by simp)
    dsimp only at h1 ⊢
    rw [if_neg (by simp [n0])]
    by_cases hk : i.kind = .reg
    · have h2 := h1.1 hk
      rw [if_pos (by omega)]
      by_cases h4 : i.idx = 4
      · rw [if_pos h4, er]; simp [hk, h4]
      · rw [if_neg h4, if_neg (by simp [n0])]; simp; exact fun _ => h4
    · have h2 := h1.2 hk
      rw [if_neg (by omega)]; simp [hk]
  | both b i k d =>
    have g1 := (hb (b, 1) (by simp)).1 (hpk _ (by simp))
    have kb : b.kind = .reg := hpk (b, 1) (by simp)
    have h1 := hb (i, k) (by simp)
    dsimp only at h1 g1 ⊢
    have fl : (List.filter (fun p : Reg × Int => p.1.idx == 4) [(b, 1)]).length ≤ 1 := List.length_filter_le _ _
    rw [if_neg (by omega)]
    by_cases hk : i.kind = .reg
    · have h2 := h1.1 hk
      rw [if_pos (by omega)]
      by_cases h4 : i.idx = 4
      · rw [if_pos h4, er]; simp [hk, h4]
      · rw [if_neg h4]
        by_cases hw : b.bit = i.bit
        · rw [if_neg (by simp [hw])]; simp only [fl, and_true, true_iff]; simp [hk, hw]; exact h4
        · rw [if_pos ⟨by omega, hw⟩, er]
          refine iff_of_false id fun hh => hw (hh.1 (b, 1) (by simp) (i, k) (by simp) kb hk)
    · have h2 := h1.2 hk
      rw [if_neg (by omega)]; simp only [fl, and_true, true_iff]; simp [hk]
  | two b c d hc =>
    have g1 := (hb (b, 1) (by simp)).1 (hpk _ (by simp))
    have kb : b.kind = .reg := hpk (b, 1) (by simp)
    have g2 := (hb (c, 1) (by simp)).1 (hpk _ (by simp))
    have kc : c.kind = .reg := hpk (c, 1) (by simp)
    dsimp only at g1 g2 ⊢
    have fl : (List.filter (fun p : Reg × Int => p.1.idx == 4) [(b, 1), (c, 1)]).length ≤ 1 := by
      have : ((c.idx == 4) = false) := by simpa using hc
      simp only [List.filter, this]; split <;> simp
    rw [if_neg (by omega), if_pos (by omega), if_neg hc]
    by_cases hw : b.bit = c.bit
    · rw [if_neg (by simp [hw])]; simp only [fl, and_true, true_iff]; simp [hw]
    · rw [if_pos ⟨by omega, hw⟩, er]
      refine iff_of_false id fun hh => hw (hh.1 (b, 1) (by simp) (c, 1) (by simp) kb kc)
  | twoSwap b c d hc =>
    have g1 := (hb (b, 1) (by simp)).1 (hpk _ (by simp))
    have kb : b.kind = .reg := hpk (b, 1) (by simp)
    have g2 := (hb (c, 1) (by simp)).1 (hpk _ (by simp))
    have kc : c.kind = .reg := hpk (c, 1) (by simp)
    dsimp only at g1 g2 ⊢
    rw [if_neg (by omega), if_pos (by omega)]
    have hc' : (c.idx == 4) = true := by simpa using hc
    by_cases h4 : b.idx = 4
    · have h4' : (b.idx == 4) = true := by simpa using h4
      rw [if_pos h4, er]; refine iff_of_false id fun hh => ?_
      have := hh.2.2; simp only [List.filter, hc', h4'] at this; simp at this
    · have h4' : (b.idx == 4) = false := by simpa using h4
      rw [if_neg h4]
      by_cases hw : c.bit = b.bit
      · rw [if_neg (by simp [hw])]
        have fl : (List.filter (fun p : Reg × Int => p.1.idx == 4) [(b, 1), (c, 1)]).length ≤ 1 := by
          simp only [List.filter, hc', h4']; simp
        simp only [fl, and_true, true_iff]; simp [hw]
      · rw [if_pos ⟨by omega, hw⟩, er]
        refine iff_of_false id fun hh => hw (hh.1 (c, 1) (by simp) (b, 1) (by simp) kc kb)

end Term

/-- **C32** (registers).  An address expression is accepted as an operand iff it fits `base + index * scale + disp` (C27), all its general
registers have one width, and `rsp` occurs at most once and unscaled.  Everything else is refused when the operand is built. -/
theorem c32_operand_iff (t : Term) (ht : t.Named) (bit : Nat) (bc : Bool) :
    (∃ a, t.addr bit bc = .ok a) ↔ t.Fits ∧ t.WidthOK ∧ t.RspOK := by
  constructor
  · rintro ⟨a, ha⟩
    unfold Term.addr at ha
    cases hx : t.build with
    | error _ => rw [hx] at ha; cases ha
    | ok e =>
      rw [hx] at ha
      refine ⟨(t.build_rep ht).2.1 ⟨e, hx⟩, (Term.verify_iff ht hx).1 ?_⟩
      have ha' : Addr.ofExp bit bc e = .ok a := ha
      unfold Addr.ofExp at ha'
      cases hv : e.verify with
      | error _ => rw [hv] at ha'; cases ha'
      | ok _ => rfl
  · rintro ⟨hf, hw⟩
    obtain ⟨e, he⟩ := (t.build_rep ht).2.2 hf
    have hv := (Term.verify_iff ht he).2 hw
    exact ⟨_, by unfold Term.addr; rw [he]; show Addr.ofExp bit bc e = _; unfold Addr.ofExp; rw [hv]; rfl⟩

/-- An address made of an expression. -/
theorem addr_ok {t : Term} {bit : Nat} {bc : Bool} {a : Addr} (h : t.addr bit bc = .ok a) :
    ∃ e, t.build = .ok e ∧ e.verify = .ok () ∧ a = { o := Addr.memOp bit, e := e, broadcast := bc } := by
  unfold Term.addr at h
  cases hx : t.build with
  | error _ => rw [hx] at h; cases h
  | ok e =>
    rw [hx] at h
    have h' : Addr.ofExp bit bc e = .ok a := h
    unfold Addr.ofExp at h'
    cases hv : e.verify with
    | error _ => rw [hv] at h'; cases h'
    | ok _ => rw [hv] at h'; cases h'; exact ⟨e, rfl, hv, rfl⟩

/-- A `RegExp` the encoder can meet: the slots hold address registers, `rsp` is no index, the widths agree, and the scale is legal. -/
structure RegExp.WF (e : RegExp) : Prop where
  base : e.base = .nil ∨ (e.base.kind = .reg ∧ (e.base.bit = 32 ∨ e.base.bit = 64) ∧ e.base.ext8 = false)
  index : e.index = .nil ∨ (e.index.kind = .reg ∧ (e.index.bit = 32 ∨ e.index.bit = 64) ∧ e.index.ext8 = false ∧ e.index.idx ≠ 4 ∧
      (e.base = .nil ∨ e.base.bit = e.index.bit)) ∨
    (e.index.kind = .xmm ∧ e.index.bit = 128) ∨ (e.index.kind = .ymm ∧ e.index.bit = 256) ∨ (e.index.kind = .zmm ∧ e.index.bit = 512) ∨
    (e.index.kind = .tmm ∧ e.index.bit = 8192)
  scale : e.index ≠ .nil → e.scale = 1 ∨ e.scale = 2 ∨ e.scale = 4 ∨ e.scale = 8

/-- Every operand built from an expression of named registers satisfies `WF`. -/
theorem addr_wf {t : Term} (ht : t.Named) {e : RegExp} (h : t.build = .ok e) (hv : e.verify = .ok ()) : e.WF := by
  have hf := (t.build_rep ht).2.1 ⟨e, h⟩
  obtain ⟨hs, hl⟩ := t.build_shape ht h
  have hok : ∀ p ∈ t.regs.filter Term.plain ++ t.regs.filter Term.needsIndex, p.1.Named ∧ Term.regOK p.1 = true ∧ Term.scaleOK p.2 = true ∧ p.2 ≠ 0 := by
    intro p hp
    have hp' := Term.mem_split.2 (List.mem_append.1 hp)
    exact ⟨ht p hp'.1, (hf.1 p hp'.1).1, (hf.1 p hp'.1).2, hp'.2⟩
  have hpk : ∀ p ∈ t.regs.filter Term.plain, p.1.kind = .reg := fun p hp => (Term.mem_plain.1 hp).2.1
  generalize t.regs.filter Term.plain = P at hs hok hpk hl
  generalize t.regs.filter Term.needsIndex = N at hs hok hl
  have gp : ∀ r : Reg, r.Named → Term.regOK r = true → r.kind = .reg →
      (r.kind = .reg ∧ (r.bit = 32 ∨ r.bit = 64) ∧ r.ext8 = false) := by
    intro r hr ok k
    simp only [Term.regOK, k] at ok
    have hb : r.bit = 32 ∨ r.bit = 64 := by simpa using ok
    refine ⟨k, hb, ?_⟩
    cases h8 : r.ext8 with
    | false => rfl
    | true => have := (hr.ext8 h8).2.1; omega
  have vec : ∀ r : Reg, r.Named → Term.regOK r = true → r.kind ≠ .reg →
      (r.kind = .xmm ∧ r.bit = 128) ∨ (r.kind = .ymm ∧ r.bit = 256) ∨ (r.kind = .zmm ∧ r.bit = 512) ∨ (r.kind = .tmm ∧ r.bit = 8192) := by
    intro r hr ok k
    rcases hr.shape with ⟨h1, _⟩ | ⟨h1, h2⟩ | ⟨h1, h2⟩ | ⟨h1, h2⟩ | ⟨h1, h2⟩ | ⟨h1, h2⟩ | ⟨h1, h2⟩ | ⟨h1, h2⟩ | ⟨h1, h2⟩ <;>
      simp_all [Term.regOK]
  have sc : ∀ k : Int, Term.scaleOK k = true → k ≠ 0 → k = 1 ∨ k = 2 ∨ k = 4 ∨ k = 8 := by
    intro k h1 h0
    simp only [Term.scaleOK, Bool.or_eq_true, beq_iff_eq] at h1; omega
  have er : ∀ {E : Err}, (Except.error E : Except Err Unit) ≠ .ok () := by intro E; simp
  have n0 : Reg.nil.bit = 0 := rfl
  unfold RegExp.verify at hv
  -- the checks of `verify` for a general register in the index slot
  have chk : ∀ b i : Reg, (i.bit = 32 ∨ i.bit = 64) →
      (if b.bit ≥ 128 then (.error .BAD_SIZE_OF_REGISTER : Except Err Unit)
        else if i.bit ≠ 0 ∧ i.bit ≤ 64 then
          if i.idx = 4 then .error .ESP_CANT_BE_INDEX
          else if b.bit ≠ 0 ∧ b.bit ≠ i.bit then .error .BAD_SIZE_OF_REGISTER else .ok () else .ok ()) = .ok () →
      i.idx ≠ 4 ∧ (b.bit = 0 ∨ b.bit = i.bit) := by
    intro b i hi hh
    split at hh
    · exact absurd hh er
    · rw [if_pos (by omega)] at hh
      split at hh
      · exact absurd hh er
      · rename_i h4
        split at hh
        · exact absurd hh er
        · rename_i hw; exact ⟨h4, by omega⟩
  have idx : ∀ b i : Reg, i.Named → Term.regOK i = true → (b = .nil ∨ b.bit ≠ 0) →
      (if b.bit ≥ 128 then (.error .BAD_SIZE_OF_REGISTER : Except Err Unit)
        else if i.bit ≠ 0 ∧ i.bit ≤ 64 then
          if i.idx = 4 then .error .ESP_CANT_BE_INDEX
          else if b.bit ≠ 0 ∧ b.bit ≠ i.bit then .error .BAD_SIZE_OF_REGISTER else .ok () else .ok ()) = .ok () →
      (i.kind = .reg ∧ (i.bit = 32 ∨ i.bit = 64) ∧ i.ext8 = false ∧ i.idx ≠ 4 ∧ (b = .nil ∨ b.bit = i.bit)) ∨
      (i.kind = .xmm ∧ i.bit = 128) ∨ (i.kind = .ymm ∧ i.bit = 256) ∨ (i.kind = .zmm ∧ i.bit = 512) ∨ (i.kind = .tmm ∧ i.bit = 8192) := by
    intro b i hi ok hb hh
    by_cases k : i.kind = .reg
    · obtain ⟨g1, g2, g3⟩ := gp i hi ok k
      obtain ⟨c1, c2⟩ := chk b i g2 hh
      exact Or.inl ⟨g1, g2, g3, c1, hb.imp id fun h => c2.resolve_left h⟩
    · exact Or.inr (vec i hi ok k)
  cases hs with
  | none d s => exact ⟨Or.inl rfl, Or.inl rfl, fun h => absurd rfl h⟩
  | base b d s =>
    have o := hok (b, 1) (by simp)
    exact ⟨Or.inr (gp b o.1 o.2.1 (hpk (b, 1) (by simp))), Or.inl rfl, fun h => absurd rfl h⟩
  | index i k d =>
    have o := hok (i, k) (by simp)
    exact ⟨Or.inl rfl, Or.inr (idx .nil i o.1 o.2.1 (Or.inl rfl) hv), fun _ => sc k o.2.2.1 o.2.2.2⟩
  | both b i k d =>
    have o := hok (i, k) (by simp)
    have ob := hok (b, 1) (by simp)
    have g := gp b ob.1 ob.2.1 (hpk (b, 1) (by simp))
    exact ⟨Or.inr g, Or.inr (idx b i o.1 o.2.1 (Or.inr (by have := g.2.1; omega)) hv), fun _ => sc k o.2.2.1 o.2.2.2⟩
  | two b c d _ =>
    have o := hok (c, 1) (by simp)
    have ob := hok (b, 1) (by simp)
    have g := gp b ob.1 ob.2.1 (hpk (b, 1) (by simp))
    exact ⟨Or.inr g, Or.inr (idx b c o.1 o.2.1 (Or.inr (by have := g.2.1; omega)) hv), fun _ => Or.inl rfl⟩
  | twoSwap b c d _ =>
    have ob := hok (c, 1) (by simp)
    have o := hok (b, 1) (by simp)
    have g := gp c ob.1 ob.2.1 (hpk (c, 1) (by simp))
    exact ⟨Or.inr g, Or.inr (idx c b o.1 o.2.1 (Or.inr (by have := g.2.1; omega)) hv), fun _ => Or.inl rfl⟩

/-- Concrete cases: `[rsp*2]`, `[rax+ecx]`, `[rax*3]`, `[ax]`, `[xmm0+xmm1]` are refused; `[rax+rsp]` is accepted with `rsp` as base. -/
example : Term.addr (.scaled (.gp 4 64) 2) 0 false = .error .ESP_CANT_BE_INDEX ∧
    Term.addr (.add (.reg (.gp 0 64)) (.reg (.gp 1 32))) 0 false = .error .BAD_SIZE_OF_REGISTER ∧
    Term.addr (.scaled (.gp 0 64) 3) 0 false = .error .BAD_SCALE ∧
    Term.addr (.reg (.gp 0 16)) 0 false = .error .BAD_SIZE_OF_REGISTER ∧
    Term.addr (.add (.reg (.xmm 0)) (.reg (.xmm 1))) 0 false = .error .BAD_ADDRESSING ∧
    Term.build (.add (.reg (.gp 0 64)) (.reg (.gp 4 64))) = .ok ⟨.gp 4 64, .gp 0 64, 1, 0⟩ :=
  ⟨rfl, rfl, rfl, rfl, rfl, rfl⟩

end Xbyak
