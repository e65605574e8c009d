import Verif.Mnemonic.Basic
/-!
# Acceptance depends on the shape of the operands only

Two operands are alike if they differ at most in the number of the register (general and mask registers: within the classes 0, 1, 2, 3, 4-7, 8-15,
16-31; vector and tile registers: 0-7, 8-15, 16-31; base and index: 0-15, 16-31), in the displacement (as long as both fit into 32 bits or both do
not) and in the scale (as long as both or none are `[reg*2]`).  Every encoder then returns normally for both, or throws the same error for both.
-/
namespace Xbyak

/-- The representative of the class of a register number. -/
def repIdx (i : BitVec 5) : BitVec 5 := if i < 4 then i else if i < 8 then 4 else if i < 16 then 8 else 16

/-- The representative of the class of the number of a vector register. -/
def coarseIdx (i : BitVec 5) : BitVec 5 := if i < 8 then 0 else if i < 16 then 8 else 16

/-- A vector or tile register. -/
def Reg.vec (r : Reg) : Bool := (match r.kind with | .mmx | .xmm | .ymm | .zmm | .tmm => true | _ => false) && !r.isBit 8

/-- The class of the number of a register. -/
def Reg.numClass (r : Reg) : BitVec 5 := if r.vec then coarseIdx r.idx else repIdx r.idx

/-- Registers that differ in the number only, within a class. -/
structure Reg.Like (r s : Reg) : Prop where
  kind : r.kind = s.kind
  bit : r.bit = s.bit
  ext8 : r.ext8 = s.ext8
  zero : r.zero = s.zero
  mask : r.mask = s.mask
  rnd : r.rnd = s.rnd
  nf : r.nf = s.nf
  zu : r.zu = s.zu
  idx : r.numClass = s.numClass

namespace Reg.Like

theorem refl (r : Reg) : r.Like r := ⟨rfl, rfl, rfl, rfl, rfl, rfl, rfl, rfl, rfl⟩

theorem rep_coarse : ∀ i j : BitVec 5, repIdx i = repIdx j → coarseIdx i = coarseIdx j := by decide +kernel
theorem rep_ext2 : ∀ i j : BitVec 5, coarseIdx i = coarseIdx j → i.getLsbD 4 = j.getLsbD 4 := by decide +kernel
theorem rep_ge8 : ∀ i j : BitVec 5, coarseIdx i = coarseIdx j → decide (i.toNat ≥ 8) = decide (j.toNat ≥ 8) := by decide +kernel
theorem rep_gt7 : ∀ i j : BitVec 5, coarseIdx i = coarseIdx j → decide (i.toNat > 7) = decide (j.toNat > 7) := by decide +kernel
theorem rep_ge16 : ∀ i j : BitVec 5, coarseIdx i = coarseIdx j → decide (i.toNat ≥ 16) = decide (j.toNat ≥ 16) := by decide +kernel
theorem rep_lt16 : ∀ i j : BitVec 5, coarseIdx i = coarseIdx j → decide (i.toNat < 16) = decide (j.toNat < 16) := by decide +kernel
theorem rep_le15 : ∀ i j : BitVec 5, coarseIdx i = coarseIdx j → decide (i.toNat ≤ 15) = decide (j.toNat ≤ 15) := by decide +kernel
theorem rep_lt8 : ∀ i j : BitVec 5, coarseIdx i = coarseIdx j → (i.toNat < 8 ↔ j.toNat < 8) := by decide +kernel
theorem rep_high : ∀ i j : BitVec 5, repIdx i = repIdx j → decide (4 ≤ i.toNat ∧ i.toNat ≤ 7) = decide (4 ≤ j.toNat ∧ j.toNat ≤ 7) := by decide +kernel
theorem rep_high' : ∀ i j : BitVec 5, repIdx i = repIdx j → decide (4 ≤ i.toNat ∧ i.toNat < 8) = decide (4 ≤ j.toNat ∧ j.toNat < 8) := by decide +kernel
theorem rep_eq : ∀ i j : BitVec 5, repIdx i = repIdx j → (i = 0 ↔ j = 0) ∧ (i = 1 ↔ j = 1) ∧ (i = 2 ↔ j = 2) := by decide +kernel
theorem rep_eq0 {i j : BitVec 5} (h : repIdx i = repIdx j) : i = 0 ↔ j = 0 := (rep_eq _ _ h).1
theorem rep_eq2 {i j : BitVec 5} (h : repIdx i = repIdx j) : i = 2 ↔ j = 2 := (rep_eq _ _ h).2.2
theorem rep_beq0 {i j : BitVec 5} (h : repIdx i = repIdx j) : (i == 0) = (j == 0) := by
  rw [Bool.eq_iff_iff, beq_iff_eq, beq_iff_eq]; exact rep_eq0 h
theorem rep_bne1 {i j : BitVec 5} (h : repIdx i = repIdx j) : (i != 1) = (j != 1) := by
  unfold bne; rw [show (i == 1) = (j == 1) by rw [Bool.eq_iff_iff, beq_iff_eq, beq_iff_eq]; exact (rep_eq _ _ h).2.1]
theorem rep_ne0 : ∀ {i j : BitVec 5}, repIdx i = repIdx j → decide (i.toNat ≠ 0) = decide (j.toNat ≠ 0) := by decide +kernel

variable {r s : Reg} (h : r.Like s)
include h

theorem symm : s.Like r := ⟨h.kind.symm, h.bit.symm, h.ext8.symm, h.zero.symm, h.mask.symm, h.rnd.symm, h.nf.symm, h.zu.symm, h.idx.symm⟩
theorem isBit (m : Nat) : r.isBit m = s.isBit m := by unfold Reg.isBit; rw [h.bit]
theorem vec : r.vec = s.vec := by unfold Reg.vec; rw [h.kind, h.isBit]
theorem fidx (hv : r.vec = false) : repIdx r.idx = repIdx s.idx := by
  have := h.idx; unfold Reg.numClass at this; rw [← h.vec, hv] at this; exact this
theorem cidx : coarseIdx r.idx = coarseIdx s.idx := by
  cases hv : r.vec
  · exact rep_coarse _ _ (h.fidx hv)
  · have := h.idx; unfold Reg.numClass at this; rw [← h.vec, hv] at this; exact this
theorem gpIdx (hk : r.kind = .reg) : repIdx r.idx = repIdx s.idx := h.fidx (by unfold Reg.vec; rw [hk]; rfl)
theorem byteIdx (hk : r.isBit 8 = true) : repIdx r.idx = repIdx s.idx := h.fidx (by unfold Reg.vec; rw [hk]; exact Bool.and_false _)
theorem isREG (m : Nat) : r.isREG m = s.isREG m := by unfold Reg.isREG; rw [h.kind, h.isBit]
theorem isXMM : r.isXMM = s.isXMM := by unfold Reg.isXMM; rw [h.kind]
theorem isYMM : r.isYMM = s.isYMM := by unfold Reg.isYMM; rw [h.kind]
theorem isZMM : r.isZMM = s.isZMM := by unfold Reg.isZMM; rw [h.kind]
theorem isMMX : r.isMMX = s.isMMX := by unfold Reg.isMMX; rw [h.kind]
theorem isTMM : r.isTMM = s.isTMM := by unfold Reg.isTMM; rw [h.kind]
theorem isOPMASK : r.isOPMASK = s.isOPMASK := by unfold Reg.isOPMASK; rw [h.kind]
theorem isBNDREG : r.isBNDREG = s.isBNDREG := by unfold Reg.isBNDREG; rw [h.kind]
theorem isSIMD : r.isSIMD = s.isSIMD := by unfold Reg.isSIMD; rw [h.isXMM, h.isYMM, h.isZMM]
theorem isExtIdx2 : r.isExtIdx2 = s.isExtIdx2 := rep_ext2 _ _ h.cidx
theorem hasEvex : r.hasEvex = s.hasEvex := by unfold Reg.hasEvex; rw [h.isZMM, h.isExtIdx2, h.mask, h.rnd]
theorem hasRex2 : r.hasRex2 = s.hasRex2 := by unfold Reg.hasRex2; rw [h.isREG, h.isExtIdx2]
theorem isHigh8bit : r.isHigh8bit = s.isHigh8bit := by
  unfold Reg.isHigh8bit; rw [← h.isBit, ← h.ext8]
  cases hb : r.isBit 8
  · rfl
  · rw [rep_high _ _ (h.byteIdx hb)]
theorem ge8 : decide (r.idx.toNat ≥ 8) = decide (s.idx.toNat ≥ 8) := rep_ge8 _ _ h.cidx
theorem gt7 : decide (r.idx.toNat > 7) = decide (s.idx.toNat > 7) := rep_gt7 _ _ h.cidx
theorem ge16 : decide (r.idx.toNat ≥ 16) = decide (s.idx.toNat ≥ 16) := rep_ge16 _ _ h.cidx
theorem lt16 : decide (r.idx.toNat < 16) = decide (s.idx.toNat < 16) := rep_lt16 _ _ h.cidx
theorem le15 : decide (r.idx.toNat ≤ 15) = decide (s.idx.toNat ≤ 15) := rep_le15 _ _ h.cidx
theorem lt8 : r.idx.toNat < 8 ↔ s.idx.toNat < 8 := rep_lt8 _ _ h.cidx
theorem reg0 (m : Nat) : (r.isREG m && r.idx == 0) = (s.isREG m && s.idx == 0) := by
  rw [← h.isREG]
  cases hr : r.isREG m
  · rfl
  · unfold Reg.isREG at hr; rw [Bool.and_eq_true, beq_iff_eq] at hr
    rw [rep_beq0 (h.gpIdx hr.1)]

theorem setKind (k : Kind) : (r.setKind k).Like (s.setKind k) := by
  unfold Reg.setKind
  cases k <;> first | exact h | exact ⟨rfl, rfl, h.ext8, h.zero, h.mask, h.rnd, h.nf, h.zu, by simp [Reg.numClass, Reg.vec, Reg.isBit]; exact h.cidx⟩

theorem setNF : r.setNF.Like s.setNF := ⟨h.kind, h.bit, h.ext8, h.zero, h.mask, h.rnd, rfl, h.zu, h.idx⟩
end Reg.Like

/-- Registers of the same kind and size. -/
theorem Reg.Like.cls_of {r s : Reg} (hk : r.kind = s.kind) (hb : r.bit = s.bit) (h : repIdx r.idx = repIdx s.idx) : r.numClass = s.numClass := by
  have hv : r.vec = s.vec := by unfold Reg.vec Reg.isBit; rw [hk, hb]
  unfold Reg.numClass; rw [hv]
  split
  · exact rep_coarse _ _ h
  · exact h

theorem Reg.Like.made {i j : BitVec 5} (h : repIdx i = repIdx j) (e : Bool) (k : Kind) (b : Nat) :
    Reg.Like { idx := i, ext8 := e, kind := k, bit := b } { idx := j, ext8 := e, kind := k, bit := b } :=
  ⟨rfl, rfl, rfl, rfl, rfl, rfl, rfl, rfl, cls_of rfl rfl h⟩

/-- Registers in the address of a memory operand, which is alike for numbers below 16. -/
structure Reg.Base (r s : Reg) : Prop where
  kind : r.kind = s.kind
  bit : r.bit = s.bit
  mask : r.mask = s.mask
  rnd : r.rnd = s.rnd
  nf : r.nf = s.nf
  zu : r.zu = s.zu
  isExtIdx2 : r.isExtIdx2 = s.isExtIdx2

theorem Reg.Like.xmm {i j : BitVec 5} (h : coarseIdx i = coarseIdx j) : (Reg.xmm i).Like (.xmm j) :=
  ⟨rfl, rfl, rfl, rfl, rfl, rfl, rfl, rfl, by simp [Reg.numClass, Reg.vec, Reg.isBit, Reg.xmm]; exact h⟩
theorem Reg.Like.ymm {i j : BitVec 5} (h : coarseIdx i = coarseIdx j) : (Reg.ymm i).Like (.ymm j) :=
  ⟨rfl, rfl, rfl, rfl, rfl, rfl, rfl, rfl, by simp [Reg.numClass, Reg.vec, Reg.isBit, Reg.ymm]; exact h⟩

theorem Reg.Like.toBase {r s : Reg} (h : r.Like s) : r.Base s := ⟨h.kind, h.bit, h.mask, h.rnd, h.nf, h.zu, h.isExtIdx2⟩

namespace Reg.Base
theorem refl (r : Reg) : r.Base r := ⟨rfl, rfl, rfl, rfl, rfl, rfl, rfl⟩
variable {r s : Reg} (h : r.Base s)
include h
theorem isBit (m : Nat) : r.isBit m = s.isBit m := by unfold Reg.isBit; rw [h.bit]
theorem isREG (m : Nat) : r.isREG m = s.isREG m := by unfold Reg.isREG; rw [h.kind, h.isBit]
theorem isXMM : r.isXMM = s.isXMM := by unfold Reg.isXMM; rw [h.kind]
theorem isYMM : r.isYMM = s.isYMM := by unfold Reg.isYMM; rw [h.kind]
theorem isZMM : r.isZMM = s.isZMM := by unfold Reg.isZMM; rw [h.kind]
theorem isSIMD : r.isSIMD = s.isSIMD := by unfold Reg.isSIMD; rw [h.isXMM, h.isYMM, h.isZMM]
theorem hasRex2 : r.hasRex2 = s.hasRex2 := by unfold Reg.hasRex2; rw [h.isREG, h.isExtIdx2]
end Reg.Base

/-- Results that are both errors, the same one, or both values that are alike. -/
def LikeRes (R : α → β → Prop) : Except Err α → Except Err β → Prop
  | .ok a, .ok b => R a b
  | .error e, .error f => e = f
  | _, _ => False

theorem Reg.Like.setBit {r s : Reg} (h : r.Like s) (hx : repIdx r.idx = repIdx s.idx) (b : Nat) : LikeRes Reg.Like (r.setBit b) (s.setBit b) := by
  unfold Reg.setBit
  rw [← h.isBit b, ← h.kind, ← h.isREG 8, ← h.ext8, ← rep_high' _ _ hx]
  split
  · rfl
  split
  · exact h
  split
  · exact ⟨rfl, rfl, rfl, h.zero, h.mask, h.rnd, h.nf, h.zu, cls_of rfl rfl hx⟩
  split
  · split
    · rfl
    dsimp only
    split
    · exact ⟨rfl, rfl, rfl, h.zero, h.mask, h.rnd, h.nf, h.zu, cls_of rfl rfl hx⟩
    · exact ⟨rfl, rfl, rfl, h.zero, rfl, rfl, h.nf, h.zu, cls_of rfl rfl hx⟩
  · rfl

theorem Reg.setBit_idx {r q : Reg} {b : Nat} (h : r.setBit b = .ok q) : q.idx = r.idx := by
  unfold Reg.setBit at h
  split at h
  · cases h
  split at h
  · cases h; rfl
  split at h
  · cases h; rfl
  split at h
  · split at h
    · cases h
    dsimp only at h
    split at h <;> cases h <;> rfl
  · cases h

theorem Reg.Like.cvtGp {r s : Reg} (h : r.Like s) (hx : repIdx r.idx = repIdx s.idx) (b : Nat) : LikeRes Reg.Like (r.cvtGp b) (s.cvtGp b) := by
  have := h.setBit hx b
  unfold Reg.cvtGp Reg.changeBit
  cases h1 : r.setBit b <;> cases h2 : s.setBit b <;> rw [h1, h2] at this
  · exact this
  · cases this
  · cases this
  · exact Reg.Like.made (by rw [Reg.setBit_idx h1, Reg.setBit_idx h2]; exact hx) _ _ _

/-- Addresses. -/
structure Addr.Like (a b : Addr) : Prop where
  o : a.o.Like b.o
  base : a.e.base.Base b.e.base
  index : a.e.index.Base b.e.index
  scale : a.e.index.isBit 96 = true → a.e.base.bit = 0 → (a.e.scale = 2 ↔ b.e.scale = 2)
  disp : isInInt32 a.e.disp = isInInt32 b.e.disp
  label : a.label.isSome = b.label.isSome
  mode : a.mode = b.mode
  vsib : a.permitVsib = b.permitVsib
  bcast : a.broadcast = b.broadcast
  opt : a.opt = b.opt

/-- Expressions. -/
structure RegExp.Like (a b : RegExp) : Prop where
  base : a.base.Base b.base
  index : a.index.Base b.index
  disp : isInInt32 a.disp = isInInt32 b.disp

namespace Addr.Like
theorem refl (a : Addr) : a.Like a := ⟨.refl _, .refl _, .refl _, fun _ _ => Iff.rfl, rfl, rfl, rfl, rfl, rfl, rfl⟩

variable {a b : Addr} (h : a.Like b)
include h

theorem is32bit : a.is32bit = b.is32bit := by unfold Addr.is32bit; rw [h.base.bit, h.index.bit]
theorem hasRex2 : a.hasRex2 = b.hasRex2 := by unfold Addr.hasRex2; rw [h.base.hasRex2, h.index.hasRex2]
theorem is64bitDisp : a.is64bitDisp = b.is64bitDisp := by unfold Addr.is64bitDisp; rw [h.mode]
theorem isVsib : a.isVsib = b.isVsib := by unfold Addr.isVsib RegExp.isVsib; rw [h.index.isBit]

theorem getRegExp : a.getRegExp.Like b.getRegExp := by
  unfold Addr.getRegExp
  rw [← h.opt]
  split
  · unfold RegExp.optimize
    have hs : (a.e.index.isBit 96 && (a.e.base.bit == 0 && decide (a.e.scale = 2))) = (a.e.index.isBit 96 && (a.e.base.bit == 0 && decide (b.e.scale = 2))) := by
      cases hi : a.e.index.isBit 96
      · rfl
      cases hb : (a.e.base.bit == 0)
      · rfl
      · rw [decide_eq_decide.mpr (h.scale hi (beq_iff_eq.1 hb))]
    rw [← h.index.isBit, ← h.base.bit, Bool.and_assoc, Bool.and_assoc, ← hs]
    split
    · exact ⟨h.index, h.index, h.disp⟩
    · exact ⟨h.base, h.index, h.disp⟩
  · exact ⟨h.base, h.index, h.disp⟩

theorem withImm (m n : Nat) : ({ a with immSize := m } : Addr).Like { b with immSize := n } :=
  ⟨h.o, h.base, h.index, h.scale, h.disp, h.label, h.mode, h.vsib, h.bcast, h.opt⟩
theorem noOpt : ({ a with opt := false } : Addr).Like { b with opt := false } :=
  ⟨h.o, h.base, h.index, h.scale, h.disp, h.label, h.mode, h.vsib, h.bcast, rfl⟩
end Addr.Like

/-- Operands. -/
def Operand.Like : Operand → Operand → Prop
  | .reg r, .reg s => r.Like s
  | .mem a, .mem b => a.Like b
  | _, _ => False

namespace Operand.Like
theorem refl : ∀ o : Operand, o.Like o
  | .reg r => Reg.Like.refl r
  | .mem a => Addr.Like.refl a

variable {p q : Operand} (h : p.Like q)
include h
theorem hd : p.hd.Like q.hd := by
  cases p <;> cases q
  · exact h
  · cases h
  · cases h
  · exact h.o
theorem hdIdx (hk : p.isREG 0 = true) : repIdx p.hd.idx = repIdx q.hd.idx := by
  unfold Operand.isREG Reg.isREG at hk; rw [Bool.and_eq_true, beq_iff_eq] at hk; exact h.hd.gpIdx hk.1
theorem isMEM : p.isMEM = q.isMEM := by
  cases p <;> cases q <;> first | rfl | cases h
theorem isREG (m : Nat) : p.isREG m = q.isREG m := h.hd.isREG m
theorem reg0 (m : Nat) : (p.isREG m && p.hd.idx == 0) = (q.isREG m && q.hd.idx == 0) := h.hd.reg0 m
theorem isBit (m : Nat) : p.isBit m = q.isBit m := h.hd.isBit m
theorem bit : p.bit = q.bit := h.hd.bit
theorem hasRex2 : p.hasRex2 = q.hasRex2 := by
  cases p <;> cases q
  · exact Reg.Like.hasRex2 h
  · cases h
  · cases h
  · exact Addr.Like.hasRex2 h
theorem hasRex2NFZU : p.hasRex2NFZU = q.hasRex2NFZU := by
  unfold Operand.hasRex2NFZU; rw [h.hasRex2, h.hd.nf, h.hd.zu]
end Operand.Like

end Xbyak
