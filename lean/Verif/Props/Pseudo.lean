import Verif.Mnemonic.All
import Verif.Spec.Pseudo
/-!
# C65: pseudo-ops are their base instructions with the immediate of the manual
-/
namespace Xbyak
namespace Mn
open E

/-- `e` is `f` with the first integer argument replaced by the constant `k`. -/
def isPseudo (k : Byte) (e f : Entry) : Bool :=
  decide (f.params = e.params ++ [.int]) && Nat.beq e.opt 0 && Nat.beq f.opt 0 &&
  match e.body, f.body with
  | .leaf (.sse r o t c v (.c k')), .leaf (.sse r' o' t' c' v' (.i 0)) => decide (r = r' ∧ o = o' ∧ t = t' ∧ c = c' ∧ v = v' ∧ k = k')
  | .leaf (.avx3 r s o t c (.c k')), .leaf (.avx3 r' s' o' t' c' (.i 0)) => decide (r = r' ∧ s = s' ∧ o = o' ∧ t = t' ∧ c = c' ∧ k = k')
  | .leaf (.avxK r s o t c (.c k')), .leaf (.avxK r' s' o' t' c' (.i 0)) => decide (r = r' ∧ s = s' ∧ o = o' ∧ t = t' ∧ c = c' ∧ k = k')
  | _, _ => false

theorem Slot.op_ints (g : Args) (l : List Word) (s : Slot) : s.op { g with ints := l } = s.op g := by cases s <;> rfl
theorem Slot.reg_ints (g : Args) (l : List Word) (s : Slot) : s.reg { g with ints := l } = s.reg g := by unfold Slot.reg; rw [Slot.op_ints]
theorem Slot.opt_ints (g : Args) (l : List Word) (s : Slot) : s.opt { g with ints := l } = s.opt g := by cases s <;> rfl

theorem isPseudo_run {k : Byte} {e f : Entry} (h : isPseudo k e f = true) (g : Args) :
    e.body.run g = f.body.run { g with ints := [k.setWidth 64] } ∧ f.params = e.params ++ [.int] ∧ e.opt = 0 ∧ f.opt = 0 := by
  unfold isPseudo at h
  rw [Bool.and_eq_true, Bool.and_eq_true, Bool.and_eq_true] at h
  obtain ⟨⟨⟨h1, h2⟩, h3⟩, h⟩ := h
  refine ⟨?_, of_decide_eq_true h1, Nat.beq_eq.mp h2, Nat.beq_eq.mp h3⟩
  have hk : ({ g with ints := [k.setWidth 64] } : Args).i8 0 = k := by
    show ((k.setWidth 64 : Word).setWidth 8) = k
    simp
  split at h
  · rename_i e1 e2
    obtain ⟨rfl, rfl, rfl, rfl, rfl, rfl⟩ := of_decide_eq_true h
    rw [e1, e2]
    simp only [Body.run, Leaf.run, Imm.val, Slot.op_ints, Slot.reg_ints, hk]
  · rename_i e1 e2
    obtain ⟨rfl, rfl, rfl, rfl, rfl, rfl⟩ := of_decide_eq_true h
    rw [e1, e2]
    simp only [Body.run, Leaf.run, Imm.val, Slot.op_ints, Slot.opt_ints, Slot.reg_ints, hk]
  · rename_i e1 e2
    obtain ⟨rfl, rfl, rfl, rfl, rfl, rfl⟩ := of_decide_eq_true h
    rw [e1, e2]
    simp only [Body.run, Leaf.run, Imm.val, Slot.op_ints, Slot.reg_ints, hk]
  · cases h

/-- The function `e` behaves as the function called `base` with the immediate `k`. -/
structure Stands (e : Entry) (base : Nat) (k : Byte) : Prop where
  same : ∃ f ∈ all, f.name = base ∧ f.params = e.params ++ [.int] ∧ e.opt = 0 ∧ f.opt = 0 ∧
    ∀ g : Args, e.body.run g = f.body.run { g with ints := [k.setWidth 64] }

def standsB (n base : Nat) (k : Byte) : Bool :=
  let es := named n
  !es.isEmpty && es.all fun e => (named base).any fun f => isPseudo k e f

theorem stands_of {n base : Nat} {k : Byte} (h : standsB n base k = true) : (∃ e ∈ all, e.name = n) ∧ ∀ e ∈ all, e.name = n → Stands e base k := by
  unfold standsB at h
  rw [Bool.and_eq_true, List.all_eq_true] at h
  constructor
  · cases hn : named n with
    | nil => rw [hn] at h; exact absurd h.1 (by decide)
    | cons e l =>
      have : e ∈ named n := by rw [hn]; exact List.mem_cons_self
      have := List.mem_filter.mp this
      exact ⟨e, this.1, Nat.beq_eq.mp this.2⟩
  · intro e he hn
    obtain ⟨f, hf, hp⟩ := List.any_eq_true.mp (h.2 e (List.mem_filter.mpr ⟨he, Nat.beq_eq.mpr hn⟩))
    have hf := List.mem_filter.mp hf
    have := isPseudo_run hp
    exact ⟨f, hf.1, Nat.beq_eq.mp hf.2, (this ⟨[], [], .default, fun _ => .evex⟩).2.1, (this ⟨[], [], .default, fun _ => .evex⟩).2.2.1,
      (this ⟨[], [], .default, fun _ => .evex⟩).2.2.2, fun g => (this g).1⟩

/-- The number of a predicate. -/
def numOf (p : X86.Pred) : Nat := ((List.range 32).find? fun n => X86.pred n = some p).getD 32

theorem sse_check : (X86.ssePreds.all fun s => decide (X86.pred (numOf s.2) = some s.2) && X86.fmts.all fun x =>
    standsB (X86.glue (X86.glue n!"cmp" s.1) x) (X86.glue n!"cmp" x) (BitVec.ofNat 8 (numOf s.2))) = true := by decide +kernel

theorem avx_check : (X86.avxPreds.all fun s => decide (X86.pred (numOf s.2) = some s.2) && X86.fmts.all fun x =>
    standsB (X86.glue (X86.glue n!"vcmp" s.1) x) (X86.glue n!"vcmp" x) (BitVec.ofNat 8 (numOf s.2))) = true := by decide +kernel

def clmulImm (b : Bool × Bool) : Byte := (if b.1 then 1 else 0) ||| (if b.2 then 0x10 else 0)

theorem clmul_check : ([n!"pclmul", n!"vpclmul"].all fun p => X86.clmulHalves.all fun s =>
    standsB (X86.glue (X86.glue p s.1) n!"dq") (X86.glue p n!"qdq") (clmulImm s.2)) = true := by decide +kernel

theorem cmp_stands {p : Nat} {preds : List (Nat × X86.Pred)} (h : (preds.all fun s => decide (X86.pred (numOf s.2) = some s.2) && X86.fmts.all fun x =>
    standsB (X86.glue (X86.glue p s.1) x) (X86.glue p x) (BitVec.ofNat 8 (numOf s.2))) = true) {s : Nat × X86.Pred} (hs : s ∈ preds) :
    ∃ k : Byte, X86.pred k.toNat = some s.2 ∧ ∀ x ∈ X86.fmts, (∃ e ∈ all, e.name = X86.glue (X86.glue p s.1) x) ∧
      ∀ e ∈ all, e.name = X86.glue (X86.glue p s.1) x → Stands e (X86.glue p x) k := by
  have := List.all_eq_true.mp h s hs
  rw [Bool.and_eq_true, List.all_eq_true] at this
  have hlt : numOf s.2 < 256 := by
    unfold numOf
    cases hf : (List.range 32).find? fun n => X86.pred n = some s.2 with
    | none => decide
    | some n =>
      have := List.mem_range.mp (List.mem_of_find?_eq_some hf)
      show n < 256
      omega
  refine ⟨BitVec.ofNat 8 (numOf s.2), ?_, fun x hx => stands_of (this.2 x hx)⟩
  rw [BitVec.toNat_ofNat, Nat.mod_eq_of_lt hlt]
  exact of_decide_eq_true this.1

/-- C65, SSE: `cmpeqps` and so on exist, and every call is the call of `cmpps` with the number the manual gives to a predicate that means
what the name says. -/
theorem c65_sse {s : Nat × X86.Pred} (hs : s ∈ X86.ssePreds) :
    ∃ k : Byte, X86.pred k.toNat = some s.2 ∧ ∀ x ∈ X86.fmts, (∃ e ∈ all, e.name = X86.glue (X86.glue n!"cmp" s.1) x) ∧
      ∀ e ∈ all, e.name = X86.glue (X86.glue n!"cmp" s.1) x → Stands e (X86.glue n!"cmp" x) k := cmp_stands sse_check hs

/-- C65, AVX and AVX-512: likewise all 32 predicates, for vector and mask destinations, with and without the first source. -/
theorem c65_avx {s : Nat × X86.Pred} (hs : s ∈ X86.avxPreds) :
    ∃ k : Byte, X86.pred k.toNat = some s.2 ∧ ∀ x ∈ X86.fmts, (∃ e ∈ all, e.name = X86.glue (X86.glue n!"vcmp" s.1) x) ∧
      ∀ e ∈ all, e.name = X86.glue (X86.glue n!"vcmp" s.1) x → Stands e (X86.glue n!"vcmp" x) k := cmp_stands avx_check hs

/-- C65, carry-less multiplication: `pclmullqhqdq` and so on are `pclmulqdq` with the selector of the halves in the name. -/
theorem c65_clmul {p : Nat} (hp : p = n!"pclmul" ∨ p = n!"vpclmul") {s : Nat × Bool × Bool} (hs : s ∈ X86.clmulHalves) :
    ∃ k : Byte, X86.clmulSel k = s.2 ∧ (∃ e ∈ all, e.name = X86.glue (X86.glue p s.1) n!"dq") ∧
      ∀ e ∈ all, e.name = X86.glue (X86.glue p s.1) n!"dq" → Stands e (X86.glue p n!"qdq") k := by
  have hp' : p ∈ [n!"pclmul", n!"vpclmul"] := by rcases hp with rfl | rfl <;> simp
  have := List.all_eq_true.mp (List.all_eq_true.mp clmul_check p hp') s hs
  refine ⟨clmulImm s.2, ?_, stands_of this⟩
  exact (by decide : ∀ a b, X86.clmulSel (clmulImm (a, b)) = (a, b)) s.2.1 s.2.2

/-- The manual's numbers and the names determine each other: all 32 predicates are different. -/
theorem c65_pred_inj : ∀ n, n < 32 → ∀ m, m < 32 → X86.pred n = X86.pred m → n = m := by decide +kernel

/-- Example: the name of `vcmpnge_uqps` and its number 0x19. -/
example : X86.glue (X86.glue n!"vcmp" n!"nge_uq") n!"ps" = n!"vcmpnge_uqps" ∧
    (n!"nge_uq", X86.holds (fun c => !(c == .gt || c == .eq)) false) ∈ X86.avxPreds ∧
    X86.pred 0x19 = some (X86.holds (fun c => !(c == .gt || c == .eq)) false) := by decide +kernel

end Mn
end Xbyak
