import Verif.PlainLeaf
/-!
# What the evaluator looks at
-/
set_option linter.unusedSimpArgs false
namespace Xbyak
open E
open Enc
namespace Mn

/-- Registers of the same kind and width, both below 16 or both not, both with a mask or both without. -/
structure Reg.Weak (r s : Reg) : Prop where
  kind : r.kind = s.kind
  bit : r.bit = s.bit
  mask : (r.mask == 0) = (s.mask == 0)
  ext2 : r.idx.getLsbD 4 = s.idx.getLsbD 4

theorem ge16_of : ∀ i : BitVec 5, decide (i.toNat ≥ 16) = i.getLsbD 4 := by decide +kernel
theorem lt16_of : ∀ i : BitVec 5, decide (i.toNat < 16) = !i.getLsbD 4 := by decide +kernel

namespace Reg.Weak
theorem refl (r : Reg) : Weak r r := ⟨rfl, rfl, rfl, rfl⟩
variable {r s : Reg} (h : Weak r s)
include h
theorem isBit (m : Nat) : r.isBit m = s.isBit m := by unfold Reg.isBit; rw [h.bit]
theorem isREG (m : Nat) : r.isREG m = s.isREG m := by unfold Reg.isREG; rw [h.kind, h.isBit]
theorem isXMM : r.isXMM = s.isXMM := by unfold Reg.isXMM; rw [h.kind]
theorem isYMM : r.isYMM = s.isYMM := by unfold Reg.isYMM; rw [h.kind]
theorem isZMM : r.isZMM = s.isZMM := by unfold Reg.isZMM; rw [h.kind]
theorem isMMX : r.isMMX = s.isMMX := by unfold Reg.isMMX; rw [h.kind]
theorem isTMM : r.isTMM = s.isTMM := by unfold Reg.isTMM; rw [h.kind]
theorem isOPMASK : r.isOPMASK = s.isOPMASK := by unfold Reg.isOPMASK; rw [h.kind]
theorem isBNDREG : r.isBNDREG = s.isBNDREG := by unfold Reg.isBNDREG; rw [h.kind]
theorem isSIMD : r.isSIMD = s.isSIMD := by unfold Reg.isSIMD; rw [h.isXMM, h.isYMM, h.isZMM]
theorem maskNe : (r.mask != 0) = (s.mask != 0) := by unfold bne; rw [h.mask]
theorem masked : (r.mask ≠ 0) = (s.mask ≠ 0) := by
  have := h.maskNe
  rw [Bool.eq_iff_iff, bne_iff_ne, bne_iff_ne] at this
  exact propext this
theorem isExtIdx2 : r.isExtIdx2 = s.isExtIdx2 := h.ext2
theorem wide : wide r = wide s := by unfold Mn.wide; rw [h.isZMM, h.isExtIdx2, h.maskNe]
theorem ge16 : decide (r.idx.toNat ≥ 16) = decide (s.idx.toNat ≥ 16) := by rw [ge16_of, ge16_of, h.ext2]
theorem lt16 : decide (r.idx.toNat < 16) = decide (s.idx.toNat < 16) := by rw [lt16_of, lt16_of, h.ext2]
theorem cvtIdx0 : cvtIdx0 r = cvtIdx0 s := by unfold E.cvtIdx0; rw [h.isZMM, h.isYMM]
theorem setKind (k : Kind) : Weak (r.setKind k) (s.setKind k) := by
  unfold Reg.setKind; split <;> first | exact ⟨rfl, rfl, h.mask, h.ext2⟩ | exact ⟨rfl, h.bit, h.mask, h.ext2⟩ | exact h
end Reg.Weak

/-- Operands of the same kind and width, both with a mask or both without, both with broadcast or both without. -/
def OpWeak : Operand → Operand → Prop
  | .reg r, .reg s => Reg.Weak r s
  | .mem a, .mem b => Reg.Weak a.o b.o ∧ a.broadcast = b.broadcast
  | _, _ => False

namespace OpWeak
theorem refl : ∀ o, OpWeak o o
  | .reg r => Reg.Weak.refl r
  | .mem a => ⟨Reg.Weak.refl a.o, rfl⟩
variable {p q : Operand} (h : OpWeak p q)
include h
theorem hd : Reg.Weak p.hd q.hd := by
  cases p <;> cases q <;> first | exact h | exact h.1 | exact h.elim
theorem isMEM : p.isMEM = q.isMEM := by
  cases p <;> cases q <;> first | rfl | exact h.elim
theorem isREG (m : Nat) : p.isREG m = q.isREG m := h.hd.isREG m
theorem isBit (m : Nat) : p.isBit m = q.isBit m := h.hd.isBit m
theorem bit : p.bit = q.bit := h.hd.bit
end OpWeak

def OptWeak : Option Operand → Option Operand → Prop
  | some a, some b => OpWeak a b
  | none, none => True
  | _, _ => False

def RegOptWeak : Option Reg → Option Reg → Prop
  | some a, some b => Reg.Weak a b
  | none, none => True
  | _, _ => False

theorem okVex_weak {r s : Reg} {p q : Option Reg} {o o' : Operand} (h : Reg.Weak r s) (k : RegOptWeak p q) (l : OpWeak o o') (t : Ty) : okVex r p o t = okVex s q o' t := by
  have hk : wideO p = wideO q := by
    cases p <;> cases q <;> first | rfl | exact k.elim | exact Reg.Weak.wide k
  unfold okVex
  cases o <;> cases o' <;> first | exact l.elim | skip
  · rename_i a b
    have l1 : Reg.Weak a b := l
    dsimp only; rw [h.wide, hk, l1.wide]
  · rename_i a b
    have l1 : Reg.Weak a.o b.o := l.1
    dsimp only; rw [h.wide, hk, l1.mask, l1.maskNe, l.2]

theorem okAvx3_weak {r s : Reg} {p q : Option Operand} {o o' : Operand} (h : Reg.Weak r s) (k : OpWeak o o') (l : OptWeak p q) (t : Ty) : okAvx3 r o p t = okAvx3 s o' q t := by
  unfold okAvx3
  cases p <;> cases q <;> first | exact l.elim | skip
  · dsimp only; rw [h.isXMM, h.isYMM, h.isZMM, okVex_weak h (p := some r) (q := some s) h k t]
  · dsimp only; rw [h.isXMM, h.isYMM, h.isZMM, k.hd.isXMM, k.hd.isYMM, k.hd.isZMM, okVex_weak h (p := some _) (q := some _) k.hd l t]

section
variable {x y : Reg} {p q : Operand} (h : Reg.Weak x y) (k : OpWeak p q)
include h k
theorem okCvt1_weak : okCvt1 x p = okCvt1 y q := by unfold okCvt1; rw [k.isMEM, h.isXMM, h.isYMM, h.isZMM, k.hd.isXMM, k.hd.isYMM]
theorem okCvt2_weak : okCvt2 x p = okCvt2 y q := by unfold okCvt2; rw [k.isMEM, h.isXMM, h.isYMM, k.hd.isXMM, k.hd.isYMM, k.hd.isZMM]
theorem okCvt4_weak : okCvt4 x p = okCvt4 y q := by unfold okCvt4; rw [k.isMEM, h.isXMM, h.isYMM, k.hd.isXMM, k.hd.isYMM, k.hd.isZMM, k.isBit]
theorem okCvt_weak (t : Ty) : okCvt x p t = okCvt y q t := by
  unfold okCvt; rw [h.isXMM, k.isBit]; exact okVex_weak (h.setKind _) (p := some (.xmm 0)) (q := some (.xmm 0)) (Reg.Weak.refl _) k t
theorem Check.ok_weak (c : Check) : c.ok x p = c.ok y q := by
  cases c
  · exact okCvt1_weak h k
  · exact okCvt4_weak h k
end

/-- Argument lists of the same length whose operands are of the same kind and width one by one. -/
structure Args.Weak (g g' : Args) : Prop where
  ops : ∀ i : Nat, OptWeak g.ops[i]? g'.ops[i]?
  enc : g.enc = g'.enc
  dflt : g.dflt = g'.dflt

namespace Args.Weak
variable {g g' : Args} (h : g.Weak g')
include h
theorem op (i : Nat) : OpWeak (g.op i) (g'.op i) := by
  have := h.ops i
  unfold Args.op
  cases h1 : g.ops[i]? <;> cases h2 : g'.ops[i]? <;> rw [h1, h2] at this
  · exact OpWeak.refl _
  · exact this.elim
  · exact this.elim
  · exact this
theorem reg (i : Nat) : Reg.Weak (g.reg i) (g'.reg i) := (h.op i).hd
theorem isMEM (i : Nat) : (g.op i).isMEM = (g'.op i).isMEM := (h.op i).isMEM
theorem isNone (i : Nat) : (g.ops[i]?).isNone = (g'.ops[i]?).isNone := by
  have := h.ops i
  cases h1 : g.ops[i]? <;> cases h2 : g'.ops[i]? <;> rw [h1, h2] at this <;> first | rfl | exact this.elim
theorem slot (s : Slot) : OpWeak (s.op g) (s.op g') := by
  cases s with
  | a i => exact h.op i
  | r q => exact OpWeak.refl _
  | xmmOf i => exact ⟨rfl, rfl, rfl, (h.reg i).ext2⟩
  | ymmOf i => exact ⟨rfl, rfl, rfl, (h.reg i).ext2⟩
  | gp16Of i => exact ⟨rfl, rfl, rfl, (h.reg i).ext2⟩
  | gp64Of i => exact ⟨rfl, rfl, rfl, (h.reg i).ext2⟩
  | kindOf i n => unfold Slot.op; dsimp only; rw [(h.reg i).kind]; exact OpWeak.refl _
  | zeroOf i => unfold Slot.op; dsimp only; rw [(h.reg i).cvtIdx0]; exact OpWeak.refl _
  | bitOf i n => unfold Slot.op; dsimp only; rw [(h.reg i).bit]; exact OpWeak.refl _
  | nfOf i => exact ⟨(h.reg i).kind, (h.reg i).bit, (h.reg i).mask, (h.reg i).ext2⟩
theorem slotReg (s : Slot) : Reg.Weak (s.reg g) (s.reg g') := (h.slot s).hd
theorem slotOpt (s : Slot) : OptWeak (s.opt g) (s.opt g') := by
  have k := h.slot s
  cases s with
  | a i => exact h.ops i
  | _ => exact k

theorem leaf (l : Leaf) : l.quick g = l.quick g' := by
  cases l with
  | avx3 x p q t c i => unfold Leaf.quick; dsimp only; rw [okAvx3_weak (h.slotReg x) (h.slot p) (h.slotOpt q)]
  | avx2 x o t c i => unfold Leaf.quick; dsimp only; rw [(h.slotReg x).cvtIdx0, okAvx3_weak (h.slotReg x) (OpWeak.refl _) (p := some _) (q := some _) (h.slot o)]
  | avxK k x o t c i => unfold Leaf.quick; dsimp only; rw [(h.slot o).isMEM, (h.slotReg x).kind, (h.slot o).hd.kind, okVex_weak (h.slotReg k) (p := some _) (q := some _) (h.slotReg x) (h.slot o)]
  | vex r v o t c i =>
    cases v with
    | none => unfold Leaf.quick; dsimp only; rw [okVex_weak (h.slotReg r) (p := none) (q := none) trivial (h.slot o)]
    | some v => unfold Leaf.quick; dsimp only; rw [okVex_weak (h.slotReg r) (p := some _) (q := some _) (h.slotReg v) (h.slot o)]
  | vexCB k o t c i => unfold Leaf.quick; dsimp only; rw [(h.slotReg k).kind, (h.slot o).bit, okVex_weak (h.slotReg k) (p := none) (q := none) trivial (h.slot o)]
  | cvt x o t c => unfold Leaf.quick; dsimp only; rw [okCvt_weak (h.slotReg x) (h.slot o)]
  | cvt2 x o t c => unfold Leaf.quick; dsimp only; rw [okCvt_weak (h.slotReg x) (h.slot o), okCvt2_weak (h.slotReg x) (h.slot o)]
  | cvt3 x y o t t64 t32 c =>
    unfold Leaf.quick; dsimp only
    have hp : OpWeak (if (o.op g').isREG then Operand.reg (.xmm (o.op g).hd.idx) else o.op g) (if (o.op g').isREG then Operand.reg (.xmm (o.op g').hd.idx) else o.op g') := by
      split
      · exact ⟨rfl, rfl, rfl, (h.slot o).hd.ext2⟩
      · exact h.slot o
    rw [(h.slotReg x).isXMM, (h.slotReg y).isXMM, (h.slot o).isREG, (h.slot o).isMEM, (h.slot o).isREG, (h.slot o).isBit,
      okVex_weak (h.slotReg x) (p := some _) (q := some _) (h.slotReg y) hp]
  | cvt5 x o t c =>
    unfold Leaf.quick; dsimp only
    rw [(h.slotReg x).isXMM, (h.slot o).isBit, (h.slot o).isBit, (h.slot o).isBit, okVex_weak ((h.slotReg x).setKind _) (p := some _) (q := some _) (Reg.Weak.refl _) (h.slot o)]
  | cvt6 x y o t c =>
    unfold Leaf.quick; dsimp only
    rw [(h.slotReg x).bit, (h.slotReg y).bit, (h.slot o).bit, (h.slot o).isMEM, okVex_weak (h.slotReg x) (p := some _) (q := some _) (h.slotReg y) (h.slot o)]
  | encoding x y o t c i tv te s =>
    unfold Leaf.quick; dsimp only
    rw [h.enc, h.dflt]
    cases orEvexIf (g'.dflt s) g'.enc tv te s with
    | error e => rfl
    | ok u => dsimp only; rw [okAvx3_weak (h.slotReg x) (o := .reg _) (o' := .reg _) (h.slotReg y) (h.slotOpt o)]
  | cvt2Enc x o t c tv te s =>
    unfold Leaf.quick; dsimp only
    rw [h.enc, h.dflt]
    cases orEvexIf (g'.dflt s) g'.enc tv te s with
    | error e => rfl
    | ok u => dsimp only; rw [okCvt_weak (h.slotReg x) (h.slot o), okCvt2_weak (h.slotReg x) (h.slot o)]
  | vmov o x t c m =>
    unfold Leaf.quick; dsimp only
    rw [(h.slot o).isMEM, (h.slot o).hd.isXMM, (h.slot o).hd.isYMM, (h.slotReg x).isXMM, (h.slotReg x).isYMM, (h.slotReg x).isZMM, okVex_weak (h.slotReg x) (p := none) (q := none) trivial (h.slot o)]
  | _ => rfl
end Args.Weak

/-- The tests written in the line look at kinds and widths only. -/
def Body.WResp : Body → Prop
  | leaf _ => True
  | guard bad _ b => (∀ g g' : Args, g.Weak g' → bad g = bad g') ∧ b.WResp
  | check _ _ _ b => b.WResp
  | pre _ _ b => b.WResp
  | ite c t e => (∀ g g' : Args, g.Weak g' → c g = c g') ∧ t.WResp ∧ e.WResp
  | apx _ _ _ _ _ b => b.WResp
  | jmp .. => True
  | jmpAbs .. => True

theorem Body.quick_weak {g g' : Args} (h : g.Weak g') : ∀ (b : Body), b.WResp → b.quick g = b.quick g'
  | leaf l, _ => h.leaf l
  | guard bad e b, hr => by unfold quick; rw [hr.1 g g' h, quick_weak h b hr.2]
  | check c x o b, hr => by unfold quick; rw [quick_weak h b hr, Check.ok_weak (h.slotReg x) (h.slot o)]
  | ite c t e, hr => by unfold quick; rw [hr.1 g g' h, quick_weak h t hr.2.1, quick_weak h e hr.2.2]
  | pre .., _ => rfl
  | apx .., _ => rfl
  | jmp .., _ => rfl
  | jmpAbs .., _ => rfl

/-- Proves `Body.WResp`. -/
macro "wresp" : tactic => `(tactic|
  (simp only [Body.WResp, and_true]
   first
   | (intro _; trivial)
   | (intro hz
      first
      | (exact absurd hz (by decide))
      | (repeat' first | trivial | apply And.intro
         all_goals
           (intro g g' h
            simp only [h.isMEM, h.isNone, (h.reg _).isXMM, (h.reg _).isYMM, (h.reg _).isZMM, (h.reg _).isMMX, (h.reg _).isREG, (h.reg _).isBit, (h.reg _).bit, (h.reg _).kind,
              (h.reg _).masked, (h.reg _).ge16, (h.reg _).lt16, (h.reg _).isOPMASK])))))

set_option maxRecDepth 100000
theorem wresp01 : ∀ e ∈ t01, e.zeroTest = false → e.body.WResp := by
  unfold t01
  repeat' first | exact trivial | refine List.forall_mem_cons.2 ⟨?_, ?_⟩ | exact List.forall_mem_nil _
  all_goals wresp
theorem wresp02 : ∀ e ∈ t02, e.zeroTest = false → e.body.WResp := by
  unfold t02
  repeat' first | exact trivial | refine List.forall_mem_cons.2 ⟨?_, ?_⟩ | exact List.forall_mem_nil _
  all_goals wresp
theorem wresp03 : ∀ e ∈ t03, e.zeroTest = false → e.body.WResp := by
  unfold t03
  repeat' first | exact trivial | refine List.forall_mem_cons.2 ⟨?_, ?_⟩ | exact List.forall_mem_nil _
  all_goals wresp
theorem wresp04 : ∀ e ∈ t04, e.zeroTest = false → e.body.WResp := by
  unfold t04
  repeat' first | exact trivial | refine List.forall_mem_cons.2 ⟨?_, ?_⟩ | exact List.forall_mem_nil _
  all_goals wresp
theorem wresp05 : ∀ e ∈ t05, e.zeroTest = false → e.body.WResp := by
  unfold t05
  repeat' first | exact trivial | refine List.forall_mem_cons.2 ⟨?_, ?_⟩ | exact List.forall_mem_nil _
  all_goals wresp
theorem wresp06 : ∀ e ∈ t06, e.zeroTest = false → e.body.WResp := by
  unfold t06
  repeat' first | exact trivial | refine List.forall_mem_cons.2 ⟨?_, ?_⟩ | exact List.forall_mem_nil _
  all_goals wresp
theorem wresp07 : ∀ e ∈ t07, e.zeroTest = false → e.body.WResp := by
  unfold t07
  repeat' first | exact trivial | refine List.forall_mem_cons.2 ⟨?_, ?_⟩ | exact List.forall_mem_nil _
  all_goals wresp
theorem wresp08 : ∀ e ∈ t08, e.zeroTest = false → e.body.WResp := by
  unfold t08
  repeat' first | exact trivial | refine List.forall_mem_cons.2 ⟨?_, ?_⟩ | exact List.forall_mem_nil _
  all_goals wresp

theorem all_wresp {e : Entry} (he : e ∈ all) (hz : e.zeroTest = false) : e.body.WResp := by
  unfold all at he
  simp only [List.mem_append] at he
  rcases he with (((((((he | he) | he) | he) | he) | he) | he) | he)
  · exact wresp01 e he hz
  · exact wresp02 e he hz
  · exact wresp03 e he hz
  · exact wresp04 e he hz
  · exact wresp05 e he hz
  · exact wresp06 e he hz
  · exact wresp07 e he hz
  · exact wresp08 e he hz

end Mn
end Xbyak
