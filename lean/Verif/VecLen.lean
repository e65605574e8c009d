import Verif.Spec.VecLen
import Verif.Props.Decor
import Verif.Props.Movd
set_option linter.unusedSimpArgs false
/-!
# The vector length (C77)

VEX.L and EVEX.L'L of an accepted call are the length the manual defines for the operands (`Spec/VecLen.lean`).
-/
namespace Xbyak
namespace Mn
open E

/-- The width of the vector register an operand is, or whose elements index its address. -/
def Operand.vw : Operand → Nat
  | .reg q => if q.isSIMD then q.bit else 0
  | .mem a => if a.e.index.isSIMD then a.e.index.bit else 0

/-- The size stated for the memory operand. -/
def stated (g : Args) : Option Nat := g.ops.findSome? fun | .mem a => some a.o.bit | .reg _ => none

def Param.isVec : Param → Bool
  | .xmm | .ymm | .zmm => true
  | _ => false

/-- The first parameter that is declared a vector register. -/
def Entry.lead (e : Entry) (n : Nat) : Option Nat := (e.pars n).findIdx? Param.isVec

def leadW (e : Entry) (g : Args) : Nat := match e.lead g.ops.length with | some i => Operand.vw (g.op i) | none => 0

/-- The registers of the call have different widths by design: conversions that narrow, gathers and scatters, `vfpclass`. -/
def Leaf.resizes : Leaf → Bool
  | .cvt .. | .cvt2 .. | .cvt2Enc .. | .cvt5 .. | .cvt6 .. | .gather .. | .gather2 .. | .gatherFetch .. | .vexCB .. => true
  | _ => false

def Entry.resizes (e : Entry) : Bool := e.body.leaves.any Leaf.resizes

def Leaf.isCvt5 : Leaf → Bool
  | .cvt5 .. => true
  | _ => false

/-- A register as the library makes them. -/
def Fit (q : Reg) : Prop :=
  (q.isXMM = true → q.bit = 128) ∧ (q.isYMM = true → q.bit = 256) ∧ (q.isZMM = true → q.bit = 512) ∧ (q.isSIMD = false → q.kind ≠ .tmm → q.bit ≤ 128)

/-- Conditions on the arguments: modifiers as for C78, no rounding (that replaces the length), and the following. -/
structure Sized (e : Entry) (g : Args) : Prop extends Decorated e g where
  rnd : ∀ i, (g.op i).deco.rnd = 0
  regs : ∀ i q, g.op i = .reg q → Fit q
  /-- tile registers only where declared (`c77_refuted_tile`) -/
  tile : ∀ i q, g.op i = .reg q → q.kind = .tmm → (e.pars g.ops.length)[i]? = some .tmm
  adr : ∀ i a, g.op i = .mem a → a.WF ∧ a.e.index.kind ≠ .tmm ∧ a.permitVsib = false
  /-- no vector register is wider than the first (`c77_refuted_narrow`, `c77_refuted_is4`) -/
  lead : e.resizes = false → ∀ i, Operand.vw (g.op i) ≤ max 128 (leadW e g)
  /-- no zmm register in gathers with VEX (`c77_refuted_gather`) -/
  zmm : e.gathers = true → ∀ i q, g.op i = .reg q → q.isZMM = false
  /-- the size stated for a memory source fits the destination (`c77_refuted_small`, `c77_refuted_large`) -/
  src : X86.among e.name X86.bySource = true → ∀ i a, g.op i = .mem a →
    (a.o.bit ≤ 128 ∨ a.o.bit = 256 ∨ a.o.bit = 512) ∧ ((g.reg 0).isYMM = true → a.o.bit = 0 ∨ a.o.bit = 512) ∧
      ((g.reg 0).isXMM = true → a.o.bit = 512 → e.body.leaves.any Leaf.isCvt5 = true)

/-! ## The length of `opVex` -/

def opBits (o : Operand) : Nat := max (rmReg o).bit (rmVL o)

theorem len_of {r : Reg} {v : Option Reg} {o : Operand} {u : Ty} {h : X86.Head} {W : Nat} (H : VexHead r v o u h)
    (n0 : r.rnd = 0 ∧ (rmReg o).rnd = 0 ∧ vRnd v = 0) (hW : W = 128 ∨ W = 256 ∨ W = 512)
    (E : u.has (T_EVEX ||| T_MUST_EVEX) = true → max 128 (evexVL r (rmReg o) v (rmVL o)) = W)
    (V : u.has T_MUST_EVEX = false → r.hasEvex = false → (∀ q, v = some q → q.hasEvex = false) → rmPlain o → W = if vexL u r then 256 else 128) :
    h.L = X86.lengthBits W := by
  cases H with
  | vex sp L b aaa z must hr hv hop =>
    rw [L, V must hr hv hop]
    split <;> rfl
  | evex sp ty ln k len mask mk bc L b aaa z =>
    have E := E ty
    obtain ⟨rnd, hsel, hc⟩ := evexLen_ok len
    have h0 : rnd = 0 := by
      rcases hsel.2 with h | h
      · exact h
      · simp only [List.mem_cons, List.not_mem_nil, or_false] at h
        rcases h with h | h | h
        · exact h.trans n0.1
        · exact h.trans n0.2.1
        · exact h.trans n0.2.2
    rcases hc with ⟨-, rfl⟩ | ⟨h, -⟩ | ⟨h, -⟩
    · rw [L]
      generalize evexVL r (rmReg o) v (rmVL o) = X at E
      show (llOf X).setWidth 2 = _
      rcases hW with rfl | rfl | rfl
      · have h1 : X ≠ 512 := by omega
        have h2 : X ≠ 256 := by omega
        simp [llOf, h1, h2, X86.lengthBits]
      · have : X = 256 := by omega
        subst this; rfl
      · have : X = 512 := by omega
        subst this; rfl
    · rw [h0] at h; exact absurd h (by decide)
    · exact absurd h0 h

theorem bits_eq {r : Reg} {v : Option Reg} {o : Operand} {W : Nat} (h128 : 128 ≤ W) (hr : r.bit ≤ W) (hv : vBit v ≤ W) (ho : opBits o ≤ W)
    (low : W = 128 ∨ W ≤ r.bit ∨ W ≤ vBit v ∨ W ≤ opBits o) : max 128 (evexVL r (rmReg o) v (rmVL o)) = W := by
  unfold evexVL
  unfold opBits at ho low
  omega

theorem vexL_eq {u : Ty} {r : Reg} (h1 : u.has T_L1 = false) (h0 : u.has T_L0 = false) : vexL u r = r.isYMM := by
  unfold vexL
  rw [h1, h0]; rfl

/-! ## Widths of the arguments -/

variable {g : Args}

/-- The widest vector register. -/
def widest (g : Args) : Nat := (g.ops.map Operand.vw).foldl max 128

theorem foldl_max (l : List Nat) (a : Nat) : a ≤ l.foldl max a ∧ (∀ x ∈ l, x ≤ l.foldl max a) ∧ (l.foldl max a = a ∨ l.foldl max a ∈ l) := by
  induction l generalizing a with
  | nil => exact ⟨Nat.le_refl _, fun x h => (by cases h), .inl rfl⟩
  | cons b l ih =>
    obtain ⟨h1, h2, h3⟩ := ih (max a b)
    refine ⟨Nat.le_trans (Nat.le_max_left _ _) h1, ?_, ?_⟩
    · intro x hx
      rcases List.mem_cons.mp hx with rfl | hx
      · exact Nat.le_trans (Nat.le_max_right _ _) h1
      · exact h2 x hx
    · rcases h3 with h | h
      · by_cases hab : b ≤ a
        · left; show List.foldl max (max a b) l = a; rw [h]; exact Nat.max_eq_left hab
        · right; show List.foldl max (max a b) l ∈ _; rw [h, Nat.max_eq_right (by omega)]; exact List.mem_cons_self
      · exact .inr (List.mem_cons_of_mem _ h)

theorem widest_128 (g : Args) : 128 ≤ widest g := (foldl_max _ _).1

theorem vw_le (g : Args) (i : Nat) : Operand.vw (g.op i) ≤ widest g := by
  by_cases hi : i < g.ops.length
  · apply (foldl_max _ _).2.1
    refine List.mem_map.mpr ⟨g.op i, ?_, rfl⟩
    unfold Args.op
    rw [List.getElem?_eq_getElem hi]
    exact List.getElem_mem hi
  · have : g.op i = .reg .nil := by
      unfold Args.op
      rw [List.getElem?_eq_none (by omega)]; rfl
    rw [this]; exact Nat.zero_le _

theorem widest_eq (g : Args) : widest g = 128 ∨ ∃ i, widest g = Operand.vw (g.op i) := by
  rcases (foldl_max (g.ops.map Operand.vw) 128).2.2 with h | h
  · exact .inl h
  · right
    obtain ⟨o, ho, h⟩ := List.mem_map.mp h
    obtain ⟨i, hi, rfl⟩ := List.mem_iff_getElem.mp ho
    refine ⟨i, ?_⟩
    unfold Args.op
    rw [List.getElem?_eq_getElem hi]
    exact h.symm

theorem index_bits {a : Addr} (ha : a.WF) (ht : a.e.index.kind ≠ .tmm) : Fit a.e.index := by
  unfold Fit Reg.isSIMD Reg.isXMM Reg.isYMM Reg.isZMM
  by_cases hmo : a.mode = .modRM
  · rcases (ha.exp hmo).1.index with h | h | h | h | h | h
    · rw [h]; decide
    · rw [h.1]
      refine ⟨fun h => (by cases h), fun h => (by cases h), fun h => (by cases h), fun _ _ => ?_⟩
      rcases h.2.1 with h | h <;> omega
    · rw [h.1]; exact ⟨fun _ => h.2, fun h => (by cases h), fun h => (by cases h), fun h => (by cases h)⟩
    · rw [h.1]; exact ⟨fun h => (by cases h), fun _ => h.2, fun h => (by cases h), fun h => (by cases h)⟩
    · rw [h.1]; exact ⟨fun h => (by cases h), fun h => (by cases h), fun _ => h.2, fun h => (by cases h)⟩
    · exact absurd h.1 ht
  · rw [(ha.rip hmo).2]; decide

theorem Fit.vw {q : Reg} (h : Fit q) : Operand.vw (.reg q) = 0 ∨ Operand.vw (.reg q) = 128 ∨ Operand.vw (.reg q) = 256 ∨ Operand.vw (.reg q) = 512 := by
  obtain ⟨h1, h2, h3, -⟩ := h
  unfold Operand.vw Reg.isSIMD
  dsimp only
  split
  · rename_i hs
    rw [Bool.or_eq_true, Bool.or_eq_true] at hs
    rcases hs with (h | h) | h
    · exact .inr (.inl (h1 h))
    · exact .inr (.inr (.inl (h2 h)))
    · exact .inr (.inr (.inr (h3 h)))
  · exact .inl rfl

theorem Sized.width {e : Entry} (hp : Sized e g) (i : Nat) :
    Operand.vw (g.op i) = 0 ∨ Operand.vw (g.op i) = 128 ∨ Operand.vw (g.op i) = 256 ∨ Operand.vw (g.op i) = 512 := by
  cases hq : g.op i with
  | reg q => exact (hp.regs i q hq).vw
  | mem a => exact (index_bits (hp.adr i a hq).1 (hp.adr i a hq).2.1).vw

theorem Sized.widest {e : Entry} (hp : Sized e g) : widest g = 128 ∨ widest g = 256 ∨ widest g = 512 := by
  have := widest_128 g
  rcases widest_eq g with h | ⟨i, h⟩
  · exact .inl h
  · rcases hp.width i with h' | h' | h' | h' <;> omega

theorem Sized.lead_eq {e : Entry} (hp : Sized e g) (hr : e.resizes = false) : Mn.widest g = max 128 (leadW e g) := by
  have h1 : leadW e g ≤ Mn.widest g := by
    unfold leadW
    split
    · exact vw_le _ _
    · exact Nat.zero_le _
  have := widest_128 g
  rcases widest_eq g with h | ⟨i, h⟩
  · omega
  · have := hp.lead hr i
    omega

/-- The size of a register argument. -/
theorem Fit.le {q : Reg} (h : Fit q) (ht : q.kind ≠ .tmm) : q.bit ≤ max 128 (Operand.vw (.reg q)) := by
  obtain ⟨h1, h2, h3, h4⟩ := h
  unfold Operand.vw
  dsimp only
  split
  · omega
  · rename_i hs
    have := h4 (by simpa using hs) ht
    omega

theorem Fit.simd {q : Reg} (h : q.isSIMD = true) : q.bit = Operand.vw (.reg q) := by
  unfold Operand.vw
  dsimp only
  rw [if_pos h]

theorem rmVL_eq {a : Addr} (ha : a.WF) (ht : a.e.index.kind ≠ .tmm) : rmVL (.mem a) = Operand.vw (.mem a) := by
  have h1 : a.getRegExp.isVsib = a.e.index.isSIMD := by
    rw [← isVsib_simd ha ht]
    unfold Addr.isVsib RegExp.isVsib
    rw [(getRegExp_index a).1]
  unfold rmVL Operand.vw
  dsimp only
  rw [h1, (getRegExp_index a).1]

theorem opBits_mem {a : Addr} (ha : a.WF) (ht : a.e.index.kind ≠ .tmm) : opBits (.mem a) ≤ max 128 (Operand.vw (.mem a)) := by
  unfold opBits
  have h1 : (rmReg (.mem a)).bit ≤ 64 := base_le ha
  rw [rmVL_eq ha ht]
  omega


/-! ## Tables -/

/-- The flags a helper may pass to `opVex`. -/
def Leaf.types : Leaf → List Ty
  | .avx3 _ _ _ t .. | .avx2 _ _ t .. | .avxK _ _ _ t .. | .vex _ _ _ t .. | .vexCB _ _ t .. | .cvt _ _ t .. | .cvt2 _ _ t .. | .cvt5 _ _ t .. | .cvt6 _ _ _ t ..
  | .vmov _ _ t .. | .gather _ _ _ t .. | .gather2 _ _ t .. | .gatherFetch _ _ t .. | .amx _ _ t .. => [t]
  | .cvt2Enc _ _ t _ tv te _ | .encoding _ _ _ t _ _ tv te _ => encTys t tv te
  | .cvt3 _ _ _ t t6 t3 _ => [t ||| t6, t ||| t3]
  | .rro _ _ _ t .. => [t ||| T_W1, t ||| T_W0]
  | .kmov _ _ _ sz => [T_L0 ||| kmovType true sz, T_L0 ||| kmovType false sz]
  | _ => []

theorem Leaf.makes_type {l : Leaf} {r : Reg} {v : Option Reg} {o : Operand} {u : Ty} (h : l.Makes g r v o u) : u ∈ l.types := by
  cases l with
  | kmov k p rv sz =>
    obtain ⟨R, rfl, -⟩ := h
    cases R <;> simp [Leaf.types]
  | encoding => exact h.1
  | cvt2Enc => exact h.1
  | cvt3 => exact h.1
  | rro => exact h.1
  | _ => first | exact List.mem_singleton.mpr h.1 | exact h.elim

def Slot.given (n : Nat) : Slot → Bool
  | .a j => decide (j < n)
  | _ => true

/-- The slots passed for ModRM.reg, VEX.vvvv and ModRM.rm by the helpers that pass them as they are. -/
def Leaf.trip (n : Nat) : Leaf → Option (Slot × List Slot × Slot)
  | .avx3 x o1 o2 .. => if o2.given n then some (x, [o1], o2) else some (x, [x], o1)
  | .avx2 x p .. => some (x, [], p)
  | .avxK k x p .. => some (k, [x], p)
  | .vex r v p .. => some (r, v.toList, p)
  | .cvt3 x y p .. => some (x, [y], p)
  | .encoding x y p .. => if p.given n then some (x, [y], p) else some (x, [x], y)
  | .vmov p x .. => some (x, [], p)
  | .rro d q p .. => some (d, [q], p)
  | _ => none

/-- Three operands whose first two are checked to be of the same kind. -/
def Leaf.same (n : Nat) : Leaf → Bool
  | .avx3 _ _ p .. | .encoding _ _ p .. => p.given n
  | _ => false

/-- A slot whose register is no wider than the vector registers among the arguments. -/
def Slot.tame (ps : List Param) : Slot → Bool
  | .a _ | .xmmOf _ => true
  | .r q => decide (q.bit ≤ 128) && (!q.isXMM || q.bit == 128) && !q.isYMM && !q.isZMM
  | .kindOf i _ => (match ps[i]? with | some p => Param.isVec p | none => false)
  | _ => false

/-- A slot whose register is no ymm register if no argument is. -/
def Slot.notYmm : Slot → Bool
  | .a _ | .xmmOf _ | .bitOf .. => true
  | .r q => !q.isYMM
  | _ => false

def Ty.evx (u : Ty) : Bool := u.has (T_EVEX ||| T_MUST_EVEX)

def tied (i : Nat) (same : Bool) (x : Slot) (vs : List Slot) : Bool :=
  x == .a i || (match x with | .kindOf j _ => j == i | _ => false) || (same && (vs == [.a i] || vs == [.zeroOf i]))

def cvtShape (n : Nat) (e : Entry) (x p : Slot) : Bool :=
  X86.among e.name X86.bySource && !X86.among e.name X86.maskOps && !X86.among e.name X86.prefetches && n == 2 && x == .a 0 && p == .a 1 && (e.pars n)[1]? == some .op

def Body.check4 : Body → Bool
  | .check .cvt4 (.a 0) (.a 1) (.leaf _) => true
  | _ => false

def Leaf.lenOk (e : Entry) (n : Nat) (l : Leaf) : Bool :=
  match l with
  | .gatherFetch m x t .. => X86.among e.name X86.prefetches && !X86.among e.name X86.maskOps && m.par (e.pars n) == some .addr && (match x with | .r q => q.bit == 512 | _ => false) && t.has T_MUST_EVEX
  | .vexCB x p t .. => cvtShape n e x p && t.has T_MUST_EVEX && !t.has T_VSIB && x.par (e.pars n) == some .opmask
  | .cvt x p t .. => cvtShape n e x p && !e.body.leaves.any Leaf.isCvt5 && e.body.check4 && !t.has T_VSIB && !t.has T_L1 && !t.has T_L0
  | .cvt2 x p t .. => cvtShape n e x p && !e.body.leaves.any Leaf.isCvt5 && !t.has T_VSIB && !t.has T_L1 && !t.has T_L0
  | .cvt2Enc x p .. => cvtShape n e x p && !e.body.leaves.any Leaf.isCvt5 && l.types.all fun t => !t.has T_VSIB && !t.has T_L1 && !t.has T_L0
  | .cvt5 x p t .. => cvtShape n e x p && t.has T_MUST_EVEX && !t.has T_VSIB
  | _ => !X86.among e.name X86.prefetches && !X86.among e.name X86.bySource &&
    match l with
    | .gather x m y t .. => !X86.among e.name X86.maskOps && !Ty.evx t && !t.has T_L1 && !t.has T_L0 && x == .a 0 && m == .a 1 && y == .a 2 && n == 3 && e.pars n == [.xmm, .addr, .xmm]
    | .gather2 x m t .. => !X86.among e.name X86.maskOps && t.has T_MUST_EVEX && n == 2 && !(e.pars n).contains .tmm && m.par (e.pars n) == some .addr && ((x == .a 0 && m == .a 1) || (x == .a 1 && m == .a 0))
    | .cvt6 x y p t .. => !X86.among e.name X86.maskOps && t.has T_MUST_EVEX && !(e.pars n).contains .tmm && n == 3 && x == .a 0 && y == .a 1 && p == .a 2
    | .kmov .. => !X86.among e.name X86.maskOps && !e.resizes && (e.lead n).isNone && l.types.all fun u => !Ty.evx u && !u.has T_L1 && u.has T_L0
    | .amx x .. => !X86.among e.name X86.maskOps && !e.resizes && (e.lead n).isNone && x.par (e.pars n) == some .tmm && l.types.all fun u => !Ty.evx u && !u.has T_L1 && !u.has T_L0
    | _ => !e.resizes && (match l.trip n with
      | none => false
      | some (x, vs, p) => l.types.all fun u => u.has T_L1 == X86.among e.name X86.maskOps && !u.has T_L0 && !(Ty.evx u && u.has T_L1) &&
        (!Ty.evx u || (x.tame (e.pars n) && vs.all (Slot.tame (e.pars n)) && p.tame (e.pars n) && !(e.pars n).contains .tmm &&
          (match e.lead n with | none => true | some i => x == .a i || vs == [.a i] || p == .a i))) &&
        (u.has T_MUST_EVEX || u.has T_L1 || Nat.beq e.line 1473 || Nat.beq e.line 1439 ||
          (match e.lead n with | none => x.notYmm | some i => tied i (l.same n) x vs)))

def Entry.lenAt (e : Entry) (n : Nat) : Bool := e.body.leaves.all (Leaf.lenOk e n)

def Entry.lenOk (e : Entry) : Bool :=
  let n := (e.params.filter Param.isOperand).length
  decide (e.opt ≤ 1) && e.lenAt n && (e.opt == 0 || e.lenAt (n - 1))

/-- `vp2intersectd` and `vp2intersectq` (2427, 2428) are written with VEX, which they do not have (`c45_refuted_vp2intersect`, `c77_refuted_vp2intersect`). -/
def noLength (line : Nat) : Bool := Nat.beq line 2427 || Nat.beq line 2428

set_option maxRecDepth 1000000 in
theorem len_check : (all.all fun e => !e.vexed || noLength e.line || e.lenOk) = true := by decide +kernel

theorem lenAt_of {e : Entry} (he : e ∈ all) (hv : e.vexed = true) (hl : noLength e.line = false) (hf : g.Fits e.params e.opt) : e.lenAt g.ops.length = true := by
  have h := List.all_eq_true.mp len_check e he
  simp only [hv, hl, Bool.not_true, Bool.false_or] at h
  unfold Entry.lenOk at h
  simp only [Bool.and_eq_true, Bool.or_eq_true, decide_eq_true_eq, beq_iff_eq] at h
  obtain ⟨⟨h2, h3⟩, h4⟩ := h
  have a := hf.1
  have b := hf.2.1
  by_cases hn : g.ops.length = (e.params.filter Param.isOperand).length
  · rw [hn]; exact h3
  · have : e.opt = 1 := by omega
    rw [this] at h4
    rw [show g.ops.length = (e.params.filter Param.isOperand).length - 1 by omega]
    rcases h4 with h4 | h4
    · cases h4
    · exact h4

/-! ## Helpers that pass their operands as they are -/

theorem Slot.given_opt {s : Slot} : s.given g.ops.length = (s.opt g).isSome := by
  cases s with
  | a j =>
    show decide (j < g.ops.length) = (g.ops[j]?).isSome
    by_cases h : j < g.ops.length
    · rw [List.getElem?_eq_getElem h, decide_eq_true h]; rfl
    · rw [List.getElem?_eq_none (by omega), decide_eq_false h]; rfl
  | _ => rfl

theorem trip3 (hg : g.Good) {x o1 o2 : Slot} {xs : Reg} {p1 : Operand} {r : Reg} {v : Option Reg} {o : Operand} {u : Ty} {q : Option Operand} (hx : xs = x.reg g) (h1 : p1 = o1.op g)
    (hq : q = o2.opt g) (h : Made3 xs p1 q u r v o) {a : Slot} {vs : List Slot} {p : Slot} {l : Leaf}
    (hs : l.same g.ops.length = o2.given g.ops.length) (hy : (x.op g).isMEM = false)
    (ht : (if o2.given g.ops.length then some (x, [o1], o2) else some (x, [x], o1)) = some (a, vs, p)) :
    r = a.reg g ∧ (o = p.op g ∨ opBits o ≤ 128 ∧ ∃ q, p.op g = .reg q ∧ q.kind = .reg) ∧ (∀ s, vs = [s] → v = some (s.reg g)) ∧ (vs = [] → v = none ∨ v = some (cvtIdx0 r) ∧ r.isSIMD = true) ∧
      (l.same g.ops.length = true → ∃ s, vs = [s] ∧ SameVec u r (s.reg g)) ∧ vs.length ≤ 1 ∧ ∀ s ∈ a :: vs, (s.op g).isMEM = false := by
  subst hx h1 hq
  rw [hs]
  rw [Slot.given_opt] at ht ⊢
  obtain ⟨rfl, ⟨h1, rfl, rfl, h4⟩ | ⟨h1, rfl, h3⟩⟩ := h
  · rw [h1] at ht ⊢
    cases ht
    exact ⟨rfl, .inl rfl, fun s hs => (by cases hs; rfl), fun h => (by cases h), fun h => (by cases h), Nat.le_refl _, by simpa [Leaf.regSlots] using hy⟩
  · rw [h1] at ht ⊢
    cases ht
    refine ⟨rfl, .inl (Slot.opt_is h1).symm, fun s hs => (by cases hs; rfl), fun h => (by cases h), fun _ => ⟨_, rfl, h3⟩, Nat.le_refl _, ?_⟩
    intro s hs
    simp only [List.mem_cons, List.not_mem_nil, or_false] at hs
    rcases hs with rfl | rfl
    · exact hy
    · cases ha : s.op g with
      | reg q => rfl
      | mem b =>
        have h := kind_SameVec h3
        rw [ha] at h
        have hk := Slot.kind_mem hg _ _ ha
        unfold Operand.hd Reg.isSIMD Reg.isXMM Reg.isYMM Reg.isZMM at h
        dsimp only at h
        rw [hk] at h; cases h

theorem trip_made (hg : g.Good) {l : Leaf} {r : Reg} {v : Option Reg} {o : Operand} {u : Ty} (h : l.Makes g r v o u) (hy : ∀ s ∈ l.regSlots, (s.op g).isMEM = false)
    {x : Slot} {vs : List Slot} {p : Slot} (ht : l.trip g.ops.length = some (x, vs, p)) :
    r = x.reg g ∧ (o = p.op g ∨ opBits o ≤ 128 ∧ ∃ q, p.op g = .reg q ∧ q.kind = .reg) ∧ (∀ s, vs = [s] → v = some (s.reg g)) ∧ (vs = [] → v = none ∨ v = some (cvtIdx0 r) ∧ r.isSIMD = true) ∧
      (l.same g.ops.length = true → ∃ s, vs = [s] ∧ SameVec u r (s.reg g)) ∧ vs.length ≤ 1 ∧ ∀ s ∈ x :: vs, (s.op g).isMEM = false := by
  cases l with
  | avx3 x' o1 o2 t c i => exact trip3 hg rfl rfl rfl h.2 rfl (hy x' (by simp [Leaf.regSlots])) ht
  | encoding x' y p' t c i tv te s =>
    refine trip3 hg rfl ?_ rfl h.2 rfl (hy x' (by simp [Leaf.regSlots])) ht
    exact (isMEM_reg (hy y (by simp [Leaf.regSlots]))).symm
  | avx2 x' p' t c i =>
    obtain ⟨-, rfl, rfl, rfl, h⟩ := h
    cases ht
    refine ⟨rfl, .inl rfl, fun s hs => (by cases hs), fun _ => .inr ⟨rfl, ?_⟩, fun h => (by cases h), Nat.zero_le _, by simpa [Leaf.regSlots] using hy⟩
    unfold SameVec at h
    unfold Reg.isSIMD
    rcases h with ⟨h, _⟩ | ⟨_, ⟨h, _⟩ | ⟨h, _⟩⟩ <;> simp [h]
  | avxK k x' p' t c i =>
    obtain ⟨-, rfl, rfl, rfl, h⟩ := h
    cases ht
    exact ⟨rfl, .inl rfl, fun s hs => (by cases hs; rfl), fun h => (by cases h), fun h => (by cases h), Nat.le_refl _, by simpa [Leaf.regSlots] using hy⟩
  | vex x' y p' t c i =>
    obtain ⟨-, rfl, rfl, rfl⟩ := h
    cases ht
    refine ⟨rfl, .inl rfl, fun s hs => ?_, fun h => ?_, fun h => (by cases h), ?_, ?_⟩
    · cases y <;> cases hs; rfl
    · cases y <;> cases h; exact .inl rfl
    · cases y <;> simp
    · cases y <;> simpa [Leaf.regSlots] using hy
  | cvt3 x' y p' t t6 t3 c =>
    obtain ⟨-, rfl, rfl, -, -, h⟩ := h
    cases ht
    refine ⟨rfl, ?_, fun s hs => (by cases hs; rfl), fun h => (by cases h), fun h => (by cases h), Nat.le_refl _, by simpa [Leaf.regSlots] using hy⟩
    rcases h with ⟨q, hq, hk, rfl⟩ | ⟨rfl, -⟩
    · refine .inr ⟨by simp [opBits, rmReg, rmVL, Reg.xmm], q, hq, ?_⟩
      unfold Reg.isREG at hk
      simp only [Bool.and_eq_true, beq_iff_eq] at hk
      exact hk.1
    · exact .inl rfl
  | vmov p' x' t c m =>
    obtain ⟨-, rfl, rfl, rfl, h⟩ := h
    cases ht
    exact ⟨rfl, .inl rfl, fun s hs => (by cases hs), fun _ => .inl rfl, fun h => (by cases h), Nat.zero_le _, by simpa [Leaf.regSlots] using hy⟩
  | rro d q p' t c i =>
    obtain ⟨-, rfl, rfl, rfl, -⟩ := h
    cases ht
    exact ⟨rfl, .inl rfl, fun s hs => (by cases hs; rfl), fun h => (by cases h), fun h => (by cases h), Nat.le_refl _, by simpa [Leaf.regSlots] using hy⟩
  | _ => cases ht

theorem lead_reg {e : Entry} (ht : g.Are (e.pars g.ops.length)) {i : Nat} (hi : e.lead g.ops.length = some i) : ∃ q, g.op i = .reg q ∧ q.isSIMD = true := by
  obtain ⟨hl, hv, -⟩ := List.findIdx?_eq_some_iff_getElem.mp hi
  have := ht i _ (List.getElem?_eq_getElem hl)
  generalize (e.pars g.ops.length)[i] = p at this hv
  have key : (g.op i).isMEM = false ∧ (g.op i).hd.isSIMD = true := by
    cases p <;> first | (cases hv; done) | skip
    all_goals
      simp only [Param.takes, Bool.and_eq_true, Bool.not_eq_true', Bool.or_eq_true] at this
      refine ⟨this.1, ?_⟩
      unfold Reg.isSIMD at *
      simp only [Bool.or_eq_true] at *
      have := this.2
    · exact this
    · rcases this with h | h <;> simp [h]
    · simp [this]
  obtain ⟨q, hq, hq'⟩ := op_reg key.1
  exact ⟨q, hq, hq' ▸ key.2⟩

theorem Slot.tame_le {e : Entry} (hp : Sized e g) (ht : g.Are (e.pars g.ops.length)) (hn : (e.pars g.ops.length).contains .tmm = false) {s : Slot}
    (hs : s.tame (e.pars g.ops.length) = true) (hm : (s.op g).isMEM = false) : (s.reg g).bit ≤ widest g := by
  have h128 := widest_128 g
  cases s with
  | a i =>
    obtain ⟨q, hq, hq'⟩ := op_reg (j := i) hm
    have h1 : q.kind ≠ .tmm := by
      intro h
      have := hp.tile i q hq h
      have : Param.tmm ∈ e.pars g.ops.length := List.mem_of_getElem? this
      rw [List.contains_eq_mem, decide_eq_false_iff_not] at hn
      exact hn this
    have h2 := (hp.regs i q hq).le h1
    have h3 := vw_le g i
    rw [hq] at h3
    show (g.op i).hd.bit ≤ _
    rw [hq']
    omega
  | xmmOf i => exact h128
  | r q =>
    have : q.bit ≤ 128 := by
      simp only [Slot.tame, Bool.and_eq_true, decide_eq_true_eq] at hs
      exact hs.1.1.1
    show q.bit ≤ _
    omega
  | kindOf i n =>
    have hs : (match (e.pars g.ops.length)[i]? with | some p => Param.isVec p | none => false) = true := hs
    cases hpi : (e.pars g.ops.length)[i]? with
    | none => rw [hpi] at hs; cases hs
    | some p =>
      rw [hpi] at hs
      have := ht i p hpi
      have key : (g.op i).isMEM = false ∧ (g.op i).hd.isSIMD = true := by
        cases p <;> first | (cases hs; done) | skip
        all_goals
          simp only [Param.takes, Bool.and_eq_true, Bool.not_eq_true', Bool.or_eq_true] at this
          refine ⟨this.1, ?_⟩
          unfold Reg.isSIMD at *
          simp only [Bool.or_eq_true] at *
          have := this.2
        · exact this
        · rcases this with h | h <;> simp [h]
        · simp [this]
      obtain ⟨q, hq, hq'⟩ := op_reg key.1
      rw [hq'] at key
      have h3 := vw_le g i
      rw [hq, ← Fit.simd key.2] at h3
      obtain ⟨f1, f2, f3, -⟩ := hp.regs i q hq
      show (vecOf (g.op i).hd.kind n).bit ≤ _
      rw [hq']
      have hk := key.2
      unfold Reg.isSIMD at hk
      simp only [Bool.or_eq_true] at hk
      unfold vecOf
      dsimp only
      rcases hk with (hk | hk) | hk
      · rw [if_pos (by simpa [Reg.isXMM] using hk)]; exact h128
      · have h : q.kind = .ymm := by simpa [Reg.isYMM] using hk
        rw [h, if_neg (by decide), if_pos rfl]
        rw [f2 hk] at h3; exact h3
      · have h : q.kind = .zmm := by simpa [Reg.isZMM] using hk
        rw [h, if_neg (by decide), if_neg (by decide)]
        rw [f3 hk] at h3; exact h3
  | _ => cases hs

theorem Slot.tame_op {e : Entry} (hp : Sized e g) (ht : g.Are (e.pars g.ops.length)) (hn : (e.pars g.ops.length).contains .tmm = false) {s : Slot}
    (hs : s.tame (e.pars g.ops.length) = true) : opBits (s.op g) ≤ widest g := by
  cases hm : (s.op g).isMEM with
  | false =>
    have := Slot.tame_le hp ht hn hs hm
    rw [isMEM_reg hm]
    unfold opBits rmReg rmVL
    dsimp only
    omega
  | true =>
    cases s with
    | a i =>
      cases ha : g.op i with
      | reg q => rw [show Slot.op g (.a i) = g.op i from rfl, ha] at hm; cases hm
      | mem a =>
        have h1 := hp.adr i a ha
        have h2 := opBits_mem h1.1 h1.2.1
        have h3 := vw_le g i
        have h4 := widest_128 g
        rw [ha] at h3
        show opBits (g.op i) ≤ _
        rw [ha]
        omega
    | _ => cases hm

theorem Slot.tame_fit {e : Entry} (hp : Sized e g) (ht : g.Are (e.pars g.ops.length)) {s : Slot}
    (hs : s.tame (e.pars g.ops.length) = true) (hm : (s.op g).isMEM = false) : Fit (s.reg g) := by
  cases s with
  | a i =>
    obtain ⟨q, hq, hq'⟩ := op_reg (j := i) hm
    show Fit (g.op i).hd
    rw [hq']; exact hp.regs i q hq
  | xmmOf i => exact ⟨fun _ => rfl, fun h => (by cases h), fun h => (by cases h), fun h => (by cases h)⟩
  | r q =>
    simp only [Slot.tame, Bool.and_eq_true, decide_eq_true_eq, Bool.or_eq_true, Bool.not_eq_true', beq_iff_eq] at hs
    obtain ⟨⟨⟨h1, h2⟩, h3⟩, h4⟩ := hs
    show Fit q
    refine ⟨fun h => h2.resolve_left (by rw [h]; decide), fun h => ?_, fun h => ?_, fun _ _ => h1⟩
    · rw [h3] at h; cases h
    · rw [h4] at h; cases h
  | kindOf i n =>
    show Fit (vecOf (g.reg i).kind n)
    have hs : (match (e.pars g.ops.length)[i]? with | some p => Param.isVec p | none => false) = true := hs
    cases hpi : (e.pars g.ops.length)[i]? with
    | none => rw [hpi] at hs; cases hs
    | some p =>
      rw [hpi] at hs
      have := ht i p hpi
      have key : (g.reg i).isSIMD = true := by
        unfold Args.reg
        cases p <;> first | (cases hs; done) | skip
        all_goals
          simp only [Param.takes, Bool.and_eq_true, Bool.not_eq_true', Bool.or_eq_true] at this
          unfold Reg.isSIMD at *
          simp only [Bool.or_eq_true] at *
          have := this.2
        · exact this
        · rcases this with h | h <;> simp [h]
        · simp [this]
      unfold Reg.isSIMD Reg.isXMM Reg.isYMM Reg.isZMM at key
      simp only [Bool.or_eq_true, beq_iff_eq] at key
      rcases key with (h | h) | h <;> rw [h]
      · exact ⟨fun _ => rfl, fun h => (by cases h), fun h => (by cases h), fun h => (by cases h)⟩
      · exact ⟨fun h => (by cases h), fun _ => rfl, fun h => (by cases h), fun h => (by cases h)⟩
      · exact ⟨fun h => (by cases h), fun h => (by cases h), fun _ => rfl, fun h => (by cases h)⟩
  | _ => cases hs


theorem vw_lead {e : Entry} (hp : Sized e g) {q : Reg} {i : Nat} (hq : g.op i = .reg q) (hz : q.isZMM = false) :
    max 128 (Operand.vw (g.op i)) = if q.isYMM then 256 else 128 := by
  rw [hq]
  obtain ⟨h1, h2, h3, h4⟩ := hp.regs i q hq
  unfold Operand.vw Reg.isSIMD
  dsimp only
  rw [hz]
  cases hx : q.isXMM <;> cases hy : q.isYMM
  · rfl
  · rw [h2 hy]; rfl
  · rw [h1 hx]; rfl
  · rw [h2 hy]; rfl

theorem not_zmm {r : Reg} (h : r.hasEvex = false) : r.isZMM = false := by
  unfold Reg.hasEvex at h
  simp only [Bool.or_eq_false_iff] at h
  exact h.1.1.1

/-- The register in ModRM.reg has the kind of the leading argument. -/
theorem tied_kind {e : Entry} (ht : g.Are (e.pars g.ops.length)) {l : Leaf} {r : Reg} {u : Ty} {x : Slot} {vs : List Slot} {i : Nat}
    (hi : e.lead g.ops.length = some i) (hm : r = x.reg g ∧ (l.same g.ops.length = true → ∃ s, vs = [s] ∧ SameVec u r (s.reg g)))
    (hx : tied i (l.same g.ops.length) x vs = true) : ∃ q, g.op i = .reg q ∧ r.isYMM = q.isYMM ∧ r.isZMM = q.isZMM := by
  obtain ⟨q, hq, hs⟩ := lead_reg ht hi
  refine ⟨q, hq, ?_⟩
  unfold tied at hx
  simp only [Bool.or_eq_true, Bool.and_eq_true, beq_iff_eq] at hx
  have hr : g.reg i = q := by unfold Args.reg; rw [hq]; rfl
  rcases hx with (rfl | hx) | ⟨h1, hx⟩
  · rw [hm.1]
    show (g.op i).hd.isYMM = _ ∧ (g.op i).hd.isZMM = _
    rw [hq]; exact ⟨rfl, rfl⟩
  · cases x with
    | kindOf j n =>
      have : j = i := by simpa using hx
      subst this
      rw [hm.1]
      show (vecOf (g.reg j).kind n).isYMM = _ ∧ (vecOf (g.reg j).kind n).isZMM = _
      rw [hr]; exact ⟨rfl, rfl⟩
    | _ => cases hx
  · obtain ⟨s, hs, hv⟩ := hm.2 h1
    have key : ∀ y : Reg, SameVec u r y → r.isYMM = y.isYMM ∧ r.isZMM = y.isZMM := by
      intro y h
      unfold SameVec at h
      unfold Reg.isXMM Reg.isYMM Reg.isZMM at *
      simp only [beq_iff_eq] at h
      rcases h with ⟨h1, h2⟩ | ⟨_, ⟨h1, h2⟩ | ⟨h1, h2⟩⟩ <;> rw [h1, h2] <;> exact ⟨rfl, rfl⟩
    have := key _ hv
    rcases hx with rfl | rfl
    · cases hs
      rw [show (Slot.a i).reg g = q by show (g.op i).hd = q; rw [hq]; rfl] at this
      exact this
    · cases hs
      rw [show (Slot.zeroOf i).reg g = cvtIdx0 q by show cvtIdx0 (g.reg i) = _; rw [hr]] at this
      unfold cvtIdx0 at this
      rw [this.1, this.2]
      clear this key hv
      unfold Reg.isSIMD at hs
      cases hz : q.isZMM
      · cases hy : q.isYMM <;> exact ⟨rfl, rfl⟩
      · have : q.isYMM = false := by unfold Reg.isYMM Reg.isZMM at *; rw [beq_iff_eq] at hz; rw [hz]; rfl
        rw [this]; exact ⟨rfl, rfl⟩

theorem cvtIdx0_bit {r : Reg} (h : Fit r) (hs : r.isSIMD = true) : (cvtIdx0 r).bit = r.bit := by
  obtain ⟨h1, h2, h3, -⟩ := h
  unfold cvtIdx0
  unfold Reg.isSIMD at hs
  cases hz : r.isZMM
  · cases hy : r.isYMM
    · rw [hz, hy] at hs
      have : r.isXMM = true := by simpa using hs
      rw [h1 this]; rfl
    · rw [h2 hy]; rfl
  · rw [h3 hz]; rfl

/-- The helpers that pass their operands as they are. -/
theorem len_trip {e : Entry} (hp : Sized e g) (ht : g.Are (e.pars g.ops.length)) (hr : e.resizes = false) {l : Leaf} {r : Reg} {v : Option Reg} {o : Operand} {u : Ty} {h : X86.Head}
    (hmk : l.Makes g r v o u) (hy : ∀ s ∈ l.regSlots, (s.op g).isMEM = false) {x p : Slot} {vs : List Slot} (htr : l.trip g.ops.length = some (x, vs, p))
    (n0 : r.rnd = 0 ∧ (rmReg o).rnd = 0 ∧ vRnd v = 0) (H : VexHead r v o u h) (h1 : u.has T_L1 = false) (h0 : u.has T_L0 = false)
    (E : Ty.evx u = true → x.tame (e.pars g.ops.length) = true ∧ (∀ s ∈ vs, s.tame (e.pars g.ops.length) = true) ∧ p.tame (e.pars g.ops.length) = true ∧
      (e.pars g.ops.length).contains .tmm = false ∧ ∀ i, e.lead g.ops.length = some i → x = .a i ∨ vs = [.a i] ∨ p = .a i)
    (V : u.has T_MUST_EVEX = true ∨ (rmPlain o → r.hasEvex = false → widest g = if r.isYMM then 256 else 128) ∨ (e.lead g.ops.length = none ∧ x.notYmm = true) ∨
      ∃ i, e.lead g.ops.length = some i ∧ tied i (l.same g.ops.length) x vs = true) : h.L = X86.lengthBits (widest g) := by
  obtain ⟨hrx, ho, hv1, hv0, hsame, hlen, hvs⟩ := trip_made hp.good hmk hy htr
  refine len_of H n0 hp.widest (fun hE => ?_) (fun hmust hre hve hpl => ?_)
  · obtain ⟨e1, e2, e3, e4, e5⟩ := E hE
    have h128 := widest_128 g
    have br : r.bit ≤ widest g := by rw [hrx]; exact Slot.tame_le hp ht e4 e1 (hvs x List.mem_cons_self)
    have bo : opBits o ≤ widest g := by
      rcases ho with rfl | ⟨h, -⟩
      · exact Slot.tame_op hp ht e4 e3
      · omega
    have bv : vBit v ≤ widest g := by
      clear E V htr hmk hsame H e5 n0 ho bo
      rcases vs with _ | ⟨s, _ | ⟨s', vs⟩⟩
      · rcases hv0 rfl with rfl | ⟨rfl, hs⟩
        · exact Nat.zero_le _
        · show (cvtIdx0 r).bit ≤ _
          rw [cvtIdx0_bit (hrx ▸ Slot.tame_fit hp ht e1 (hvs x List.mem_cons_self)) hs]
          exact br
      · rw [hv1 s rfl]
        exact Slot.tame_le hp ht e4 (e2 s List.mem_cons_self) (hvs s (List.mem_cons_of_mem _ List.mem_cons_self))
      · simp at hlen
    refine bits_eq h128 br bv bo ?_
    have hW := hp.lead_eq hr
    unfold leadW at hW
    cases hi : e.lead g.ops.length with
    | none => rw [hi] at hW; left; exact hW
    | some i =>
      rw [hi] at hW
      obtain ⟨q, hq, hs⟩ := lead_reg ht hi
      dsimp only at hW
      rw [hq, ← Fit.simd hs] at hW
      rcases e5 i hi with rfl | rfl | rfl
      · have : r.bit = q.bit := by rw [hrx]; show (g.op i).hd.bit = _; rw [hq]; rfl
        omega
      · have : vBit v = q.bit := by rw [hv1 _ rfl]; show (g.op i).hd.bit = _; rw [hq]; rfl
        omega
      · rcases ho with rfl | ⟨h, q', hq', hk⟩
        · have : opBits (Slot.op g (.a i)) = q.bit := by
            show opBits (g.op i) = _
            rw [hq]; simp [opBits, rmReg, rmVL]
          omega
        · rw [show Slot.op g (.a i) = g.op i from rfl, hq] at hq'
          cases hq'
          unfold Reg.isSIMD Reg.isXMM Reg.isYMM Reg.isZMM at hs
          rw [hk] at hs; cases hs
  · rw [vexL_eq h1 h0]
    rcases V with h | h | ⟨h, hx⟩ | ⟨i, hi, hx⟩
    · rw [h] at hmust; cases hmust
    · exact h hpl hre
    · have hW := hp.lead_eq hr
      unfold leadW at hW
      rw [h] at hW
      have hW : widest g = 128 := hW
      rw [hW]
      have : r.isYMM = false := by
        rw [hrx]
        cases x with
        | a i =>
          obtain ⟨q, hq, hq'⟩ := op_reg (j := i) (hvs (.a i) List.mem_cons_self)
          show (g.op i).hd.isYMM = false
          rw [hq']
          cases hy : q.isYMM with
          | false => rfl
          | true =>
            have h1 := vw_le g i
            rw [hq, ← Fit.simd (by unfold Reg.isSIMD; rw [hy]; simp), (hp.regs i q hq).2.1 hy] at h1
            omega
        | r q =>
          show q.isYMM = false
          simpa [Slot.notYmm] using hx
        | xmmOf i => rfl
        | bitOf i n => rfl
        | _ => cases hx
      rw [this]; rfl
    · obtain ⟨q, hq, k1, k2⟩ := tied_kind ht hi ⟨hrx, hsame⟩ hx
      have hW := hp.lead_eq hr
      unfold leadW at hW
      rw [hi] at hW
      dsimp only at hW
      rw [hW, vw_lead hp hq (k2 ▸ not_zmm hre), k1]

end Mn
end Xbyak
