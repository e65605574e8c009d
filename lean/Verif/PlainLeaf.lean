import Verif.Plain
/-!
# Which operands the vector functions accept

A fast evaluator of acceptance (`Body.quick`), which agrees with the model of the functions and looks at the kind, the width, bit 4 of the number
of registers and the presence of a mask, and at the size of memory and broadcast only.
-/
set_option linter.unusedSimpArgs false
namespace Xbyak
open E
open Enc
namespace Mn

/-- A constant register of the line has no mask and no rounding. -/
def Slot.bare : Slot → Bool
  | r q => q.mask == 0 && q.rnd == 0
  | _ => true

/-- No operand has a rounding, or a mask other than `m`. -/
def Args.Plain (m : BitVec 3) (g : Args) : Prop := ∀ i, (g.op i).Plain m

namespace Args.Plain
variable {m : BitVec 3} {g : Args} (h : g.Plain m)
include h

theorem reg (i : Nat) : (g.reg i).Plain m := (h i).hd

theorem slot {s : Slot} (hs : s.bare = true) : (s.op g).Plain m := by
  cases s with
  | a i => exact h i
  | r q =>
    simp only [Slot.bare, Bool.and_eq_true, beq_iff_eq] at hs
    exact ⟨.inl hs.1, hs.2⟩
  | zeroOf i =>
    show (Operand.reg (cvtIdx0 _)).Plain m
    unfold cvtIdx0
    split
    · exact ⟨.inl rfl, rfl⟩
    · split <;> exact ⟨.inl rfl, rfl⟩
  | nfOf i => exact ⟨(h.reg i).mask, (h.reg i).rnd⟩
  | _ => exact ⟨.inl rfl, rfl⟩

theorem slotReg {s : Slot} (hs : s.bare = true) : (s.reg g).Plain m := (h.slot hs).hd

theorem slotOpt {s : Slot} (hs : s.bare = true) : ∀ q, s.opt g = some q → q.Plain m := by
  intro q hq
  have := h.slot hs
  cases s with
  | a i =>
    have h1 : g.op i = q := by unfold Args.op; rw [show g.ops[i]? = some q from hq]; rfl
    rw [← h1]; exact h i
  | _ => cases hq; exact this
end Args.Plain

/-- Whether the call returns; `none`: not one of the calls considered here. -/
def Leaf.quick (g : Args) : Leaf → Option Bool
  | avx3 x a b t _ _ => bif x.bare && a.bare && b.bare then some (okAvx3 (x.reg g) (a.op g) (b.opt g) t) else none
  | avx2 x o t _ _ => bif x.bare && o.bare then some (okAvx3 (x.reg g) (.reg (cvtIdx0 (x.reg g))) (some (o.op g)) t) else none
  | avxK k x o t _ _ => bif k.bare && x.bare && o.bare then
      some (((o.op g).isMEM || decide ((x.reg g).kind = (o.op g).hd.kind)) && okVex (k.reg g) (some (x.reg g)) (o.op g) t) else none
  | vex r none o t _ _ => bif r.bare && o.bare then some (okVex (r.reg g) none (o.op g) t) else none
  | vex r (some v) o t _ _ => bif r.bare && v.bare && o.bare then some (okVex (r.reg g) (some (v.reg g)) (o.op g) t) else none
  | vexCB k o t _ _ => bif k.bare && o.bare && decide ((k.reg g).kind = .opmask) then some (validBit (o.op g).bit && okVex (k.reg g) none (o.op g) t) else none
  | cvt x o t _ => bif x.bare && o.bare then some (okCvt (x.reg g) (o.op g) t) else none
  | cvt2 x o t _ => bif x.bare && o.bare then some (okCvt2 (x.reg g) (o.op g) && okCvt (x.reg g) (o.op g) t) else none
  | cvt3 x y o t t64 t32 _ => bif x.bare && y.bare && o.bare then
      some ((x.reg g).isXMM && (y.reg g).isXMM && ((o.op g).isREG 96 || (o.op g).isMEM) &&
        okVex (x.reg g) (some (y.reg g)) (if (o.op g).isREG then .reg (.xmm (o.op g).hd.idx) else o.op g) (t ||| (if (o.op g).isBit 64 then t64 else t32))) else none
  | cvt5 x o t _ => bif x.bare && o.bare then
      some ((x.reg g).isXMM && (o.op g).isBit 896 &&
        okVex ((x.reg g).setKind (if (o.op g).isBit 128 then Kind.xmm else if (o.op g).isBit 256 then .ymm else .zmm)) (some (.xmm 0)) (o.op g) t) else none
  | cvt6 x y o t _ => bif x.bare && y.bare && o.bare then
      some ((((x.reg g).bit == 128 && ((y.reg g).bit == 128 || (y.reg g).bit == 256) && ((y.reg g).bit == (o.op g).bit || (o.op g).isMEM)) ||
        ((x.reg g).bit == 256 && (y.reg g).bit == 512 && ((o.op g).bit == (y.reg g).bit || (o.op g).isMEM))) && okVex (x.reg g) (some (y.reg g)) (o.op g) t) else none
  | encoding x y o t _ _ tv te s => bif x.bare && y.bare && o.bare then
      some (match orEvexIf (g.dflt s) g.enc tv te s with
        | .ok u => okAvx3 (x.reg g) (.reg (y.reg g)) (o.opt g) (t ||| u)
        | .error _ => false) else none
  | cvt2Enc x o t _ tv te s => bif x.bare && o.bare then
      some (match orEvexIf (g.dflt s) g.enc tv te s with
        | .ok u => okCvt2 (x.reg g) (o.op g) && okCvt (x.reg g) (o.op g) (t ||| u)
        | .error _ => false) else none
  | vmov o x t _ m => bif o.bare && x.bare then
      some (((o.op g).isMEM || if m then ((o.op g).hd.isXMM && (x.reg g).isXMM) || ((o.op g).hd.isXMM && (x.reg g).isYMM) || ((o.op g).hd.isYMM && (x.reg g).isZMM)
        else (o.op g).hd.isXMM) && okVex (x.reg g) none (o.op g) t) else none
  | _ => none

def Check.ok : Check → Reg → Operand → Bool
  | cvt1 => okCvt1
  | cvt4 => okCvt4

/-- Whether the function returns. -/
def Body.quick (g : Args) : Body → Option Bool
  | leaf l => l.quick g
  | guard bad _ b => (b.quick g).map fun r => !bad g && r
  | check c x o b => (b.quick g).map fun r => c.ok (x.reg g) (o.op g) && r
  | ite c t e => bif c g then t.quick g else e.quick g
  | _ => none

theorem bif_some {c : Bool} {x b : Bool} (h : (bif c then some x else none) = some b) : c = true ∧ x = b := by
  cases c
  · cases h
  · cases h; exact ⟨rfl, rfl⟩

theorem Leaf.quick_ok {k : BitVec 3} {g : Args} (h : g.Plain k) {l : Leaf} {b : Bool} (hq : l.quick g = some b) : isOk (l.run g).res = b := by
  cases l with
  | avx3 x p q t c i =>
    obtain ⟨h1, rfl⟩ := bif_some hq
    simp only [Bool.and_eq_true] at h1
    exact opAVX3_plain (h.slotReg h1.1.1) (h.slot h1.1.2) t c _ (h.slotOpt h1.2)
  | avx2 x o t c i =>
    obtain ⟨h1, rfl⟩ := bif_some hq
    simp only [Bool.and_eq_true] at h1
    exact opAVX2_plain (h.slotReg h1.1) (h.slot h1.2) t c _
  | avxK k x o t c i =>
    obtain ⟨h1, rfl⟩ := bif_some hq
    simp only [Bool.and_eq_true] at h1
    exact opAVXK_plain (h.slotReg h1.1.1) (h.slotReg h1.1.2) (h.slot h1.2) t c _
  | vex r v o t c i =>
    cases v with
    | none =>
      obtain ⟨h1, rfl⟩ := bif_some hq
      simp only [Bool.and_eq_true] at h1
      show isOk (opVex _ none _ _ _ _).res = _
      rw [opVex_plain (h.slotReg h1.1) (fun q e => by cases e) (h.slot h1.2)]
    | some v =>
      obtain ⟨h1, rfl⟩ := bif_some hq
      simp only [Bool.and_eq_true] at h1
      show isOk (opVex _ (some _) _ _ _ _).res = _
      rw [opVex_plain (h.slotReg h1.1.1) (fun q e => by cases e; exact h.slotReg h1.1.2) (h.slot h1.2)]
  | vexCB k o t c i =>
    obtain ⟨h1, rfl⟩ := bif_some hq
    simp only [Bool.and_eq_true, decide_eq_true_eq] at h1
    exact vexCB_plain (h.slotReg h1.1.1) (h.slot h1.1.2) t c _ h1.2
  | cvt x o t c =>
    obtain ⟨h1, rfl⟩ := bif_some hq
    simp only [Bool.and_eq_true] at h1
    exact opCvt_plain (h.slotReg h1.1) (h.slot h1.2) t c
  | cvt2 x o t c =>
    obtain ⟨h1, rfl⟩ := bif_some hq
    simp only [Bool.and_eq_true] at h1
    exact opCvt2_plain (h.slotReg h1.1) (h.slot h1.2) t c
  | cvt3 x y o t t64 t32 c =>
    obtain ⟨h1, rfl⟩ := bif_some hq
    simp only [Bool.and_eq_true] at h1
    exact opCvt3_plain (h.slotReg h1.1.1) (h.slotReg h1.1.2) (h.slot h1.2) t c t64 t32
  | cvt5 x o t c =>
    obtain ⟨h1, rfl⟩ := bif_some hq
    simp only [Bool.and_eq_true] at h1
    exact opCvt5_plain (h.slotReg h1.1) (h.slot h1.2) t c
  | cvt6 x y o t c =>
    obtain ⟨h1, rfl⟩ := bif_some hq
    simp only [Bool.and_eq_true] at h1
    exact opCvt6_plain (h.slotReg h1.1.1) (h.slotReg h1.1.2) (h.slot h1.2) t c
  | encoding x y o t c i tv te s =>
    obtain ⟨h1, rfl⟩ := bif_some hq
    simp only [Bool.and_eq_true] at h1
    show isOk (opEncoding _ _ _ _ _ _ _ _ _ _ _).res = _
    unfold opEncoding
    encres
    cases orEvexIf (g.dflt s) g.enc tv te s with
    | error e => rfl
    | ok u => exact opAVX3_plain (h.slotReg h1.1.1) (o := .reg _) (h.slotReg h1.1.2) _ c _ (h.slotOpt h1.2)
  | cvt2Enc x o t c tv te s =>
    obtain ⟨h1, rfl⟩ := bif_some hq
    simp only [Bool.and_eq_true] at h1
    show isOk (lift (orEvexIf _ _ _ _ _) >>= fun u => opCvt2 _ _ _ _).res = _
    encres
    cases orEvexIf (g.dflt s) g.enc tv te s with
    | error e => rfl
    | ok u => exact opCvt2_plain (h.slotReg h1.1) (h.slot h1.2) _ c
  | vmov o x t c m =>
    obtain ⟨h1, rfl⟩ := bif_some hq
    simp only [Bool.and_eq_true] at h1
    exact opVmov_plain (h.slotReg h1.2) (h.slot h1.1) t c m
  | _ => cases hq

theorem isOk_bind {x : Except Err Unit} {y : Except Err Unit} : isOk (x.bind fun _ => y) = (isOk x && isOk y) := by cases x <;> rfl

theorem Check.ok_eq (c : Check) (x : Reg) (o : Operand) : isOk (c.run x o).res = c.ok x o := by
  cases c
  · exact checkCvt1_ok x o
  · exact checkCvt4_ok x o

/-- The evaluator agrees with the function. -/
theorem Body.quick_ok {k : BitVec 3} {g : Args} (h : g.Plain k) : ∀ {b : Body} {r : Bool}, b.quick g = some r → ∃ m, b.run g = some m ∧ isOk m.res = r
  | leaf l, r, hq => ⟨_, rfl, Leaf.quick_ok h hq⟩
  | guard bad e b, r, hq => by
    unfold quick at hq
    cases hb : b.quick g with
    | none => rw [hb] at hq; cases hq
    | some r' =>
      rw [hb] at hq; cases hq
      obtain ⟨m, h1, h2⟩ := quick_ok h hb
      refine ⟨_, by unfold run; rw [h1]; rfl, ?_⟩
      encres; rw [isOk_throw, h2]
  | check c x o b, r, hq => by
    unfold quick at hq
    cases hb : b.quick g with
    | none => rw [hb] at hq; cases hq
    | some r' =>
      rw [hb] at hq; cases hq
      obtain ⟨m, h1, h2⟩ := quick_ok h hb
      refine ⟨_, by unfold run; rw [h1]; rfl, ?_⟩
      encres; rw [isOk_bind, h2, Check.ok_eq]
  | ite c t e, r, hq => by
    unfold quick at hq
    unfold run
    cases hc : c g
    · rw [hc] at hq
      simpa using quick_ok h (b := e) hq
    · rw [hc] at hq
      simpa using quick_ok h (b := t) hq
  | pre .., _, hq => by cases hq
  | apx .., _, hq => by cases hq
  | jmp .., _, hq => by cases hq
  | jmpAbs .., _, hq => by cases hq

end Mn
end Xbyak
