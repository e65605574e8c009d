import Verif.LikeEnc
import Verif.EncMore
/-!
# The instruction families treat alike operands alike
-/
set_option linter.unusedSimpArgs false
namespace Xbyak
namespace E
open Enc

theorem xmm_like {i j : BitVec 5} (h : coarseIdx i = coarseIdx j) : (Reg.xmm i).Like (.xmm j) := .xmm h
theorem ymm_like {i j : BitVec 5} (h : coarseIdx i = coarseIdx j) : (Reg.ymm i).Like (.ymm j) := .ymm h

theorem likeReg {r s : Reg} (h : r.Like s) : (Operand.reg r).Like (.reg s) := h
theorem likeMem {r s : Addr} (h : r.Like s) : (Operand.mem r).Like (.mem s) := h

section
variable {p q : Operand} (h : p.Like q)
include h
theorem isValidSSE_like : isValidSSE p = isValidSSE q := by unfold isValidSSE; rw [h.hd.isXMM, h.hd.ge16]
theorem verifyMemHasSize_like : (verifyMemHasSize p).res = (verifyMemHasSize q).res := by
  unfold verifyMemHasSize; encres; rw [h.isMEM, h.bit]
theorem shiftSizeBad_like {d d' : Option Reg} (k : OLike d d') : shiftSizeBad p d = shiftSizeBad q d' := by
  unfold shiftSizeBad
  obtain ⟨rfl, rfl⟩ | ⟨r, s, rfl, rfl, k1⟩ := k.or
  · rfl
  · dsimp only; rw [h.bit, k1.bit]
end

/-- A predicate on operands that respects the classes. -/
def VLike (v : Option (Operand → Operand → Bool)) : Prop :=
  match v with
  | some f => ∀ (a b c d : Operand), a.Like b → c.Like d → f a c = f b d
  | none => True

theorem VLike.some {f : Operand → Operand → Bool} (h : ∀ {a b c d : Operand}, a.Like b → c.Like d → f a c = f b d) : VLike (some f) :=
  fun _ _ _ _ k l => h k l

section
variable {a b c d : Operand} (h : a.Like b) (k : c.Like d)
include h k
theorem xx_like : isXMM_XMMorMEM a c = isXMM_XMMorMEM b d := by unfold isXMM_XMMorMEM; rw [h.hd.isXMM, k.hd.isXMM, k.isMEM]
theorem xmmx_like : isXMMorMMX_MEM a c = isXMMorMMX_MEM b d := by unfold isXMMorMMX_MEM; rw [xx_like h k, h.hd.isMMX, k.hd.isMMX, k.isMEM]
theorem xm_like : isXMM_MMXorMEM a c = isXMM_MMXorMEM b d := by unfold isXMM_MMXorMEM; rw [h.hd.isXMM, k.hd.isMMX, k.isMEM]
theorem mx_like : isMMX_XMMorMEM a c = isMMX_XMMorMEM b d := by unfold isMMX_XMMorMEM; rw [h.hd.isMMX, k.hd.isXMM, k.isMEM]
theorem xr_like : isXMM_REG32orMEM a c = isXMM_REG32orMEM b d := by unfold isXMM_REG32orMEM; rw [h.hd.isXMM, k.isREG, k.isMEM]
theorem rx_like : isREG32_XMMorMEM a c = isREG32_XMMorMEM b d := by unfold isREG32_XMMorMEM; rw [h.isREG, k.hd.isXMM, k.isMEM]
theorem rr_like : isREG32_REG32orMEM a c = isREG32_REG32orMEM b d := by unfold isREG32_REG32orMEM; rw [h.isREG, k.isREG, h.bit, k.bit, k.isMEM]
end

section
variable {r s : Reg} {p q : Operand} (h : r.Like s) (k : p.Like q)
include h k

theorem opSSE_like (t : Ty) (c : Byte) (v : Option (Operand → Operand → Bool)) (hv : VLike v) (i j : Option Byte) :
    (opSSE r p t c v i).res = (opSSE s q t c v j).res := by
  unfold opSSE
  encres
  rw [isValidSSE_like (likeReg h), isValidSSE_like k, opRO_like h k t c c true (optSize i) (optSize j)]
  simp only [dbOpt_res]
  cases v
  · rfl
  · dsimp only; rw [hv _ _ _ _ (likeReg h) k]

theorem opMMX_like (c : Byte) (t pr : Ty) (i j : Option Byte) : (opMMX r p c t pr i).res = (opMMX s q c t pr j).res := by
  unfold opMMX; rw [h.isXMM]; exact opSSE_like h k _ c _ (.some xmmx_like) i j

theorem opExt_like (c : Byte) (i j : Byte) (m : Bool) : (opExt p r c i m).res = (opExt q s c j m).res := by
  unfold opExt
  encres
  rw [isValidSSE_like (likeReg h), isValidSSE_like k, k.isREG, opRR_like k.hd h T_0F 0xC5 0xC5, opSSE_like h k _ c _ (.some xr_like) (some i) (some j)]

theorem opMovxx_like (c : Byte) : (opMovxx r p c).res = (opMovxx s q c).res := by
  unfold opMovxx
  encres
  rw [k.isBit, h.isREG, h.bit, k.bit, opRO_like h k _ (c ||| sel (p.isBit 16) 1) (c ||| sel (q.isBit 16) 1) true 0 0]

theorem opCnt_like (c : Byte) : (opCnt r p c).res = (opCnt s q c).res := by
  unfold opCnt
  encres
  rw [h.isBit, h.isREG, k.isREG, k.isMEM, h.isREG, h.bit, k.isREG, opRO_like h k _ c c true 0 0]
end

theorem opMMX_IMM_like {r s : Reg} (h : r.Like s) (i j : Byte) (c : Byte) (e : BitVec 5) : (opMMX_IMM r i c e).res = (opMMX_IMM s j c e).res := by
  unfold opMMX_IMM
  encres
  rw [isValidSSE_like (likeReg h), h.isXMM, opRR_like (.refl _) h _ c c]

theorem opMovXMM_like {a b c d : Operand} (h : a.Like b) (k : c.Like d) (t : Ty) (cd : Byte) : (opMovXMM a c t cd).res = (opMovXMM b d t cd).res := by
  unfold opMovXMM
  encres
  rw [isValidSSE_like h, isValidSSE_like k]
  refine bind_congr' rfl fun _ => ?_
  obtain ⟨r, s, rfl, rfl, h1⟩ | ⟨r, s, rfl, rfl, h1⟩ := h.or <;> obtain ⟨r', s', rfl, rfl, k1⟩ | ⟨r', s', rfl, rfl, k1⟩ := k.or
  · rfl
  · dsimp only; encres; rw [h1.isXMM, opMR_like k1 h1 t cd cd 0 none none]
  · dsimp only; encres; rw [k1.isXMM, opMR_like h1 k1 t _ (cd ||| 1) 0 none none]
  · rfl

theorem opSetCC_like {p q : Operand} (h : p.Like q) (e : Byte) : (opSetCC p e).res = (opSetCC q e).res := by
  unfold opSetCC
  encres
  rw [opROO_like (.refl .nil) h (.refl (.reg .nil)) _ (0x40 ||| e) (0x40 ||| e) 0 0 none none, opRext_like h 8 rfl T_0F _ (0x90 ||| e) false 0 0 (OLike.refl none)]

theorem shiftType_like (e : BitVec 4) {d d' : Option Reg} (k : OLike d d') : shiftType e d = shiftType e d' := by
  unfold shiftType; rw [k.isSome]

theorem opShiftI_like {p q : Operand} (h : p.Like q) (i j : BitVec 32) (e : BitVec 4) {d d' : Option Reg} (k : OLike d d') :
    (opShiftI p i e d).res = (opShiftI q j e d').res := by
  unfold opShiftI
  encres
  rw [k.isNone, verifyMemHasSize_like h, shiftSizeBad_like h k, shiftType_like e k, opRext_like h 0 rfl _ _ (if j = 1 then 0xD0 else 0xC0) false _ (if j ≠ 1 then 1 else 0) k]

theorem opShiftCL_like {p q : Operand} (h : p.Like q) {cl cl' : Reg} (hc : repIdx cl.idx = repIdx cl'.idx) (e : BitVec 4) {d d' : Option Reg} (k : OLike d d') :
    (opShiftCL p cl e d).res = (opShiftCL q cl' e d').res := by
  unfold opShiftCL
  encres
  rw [Reg.Like.rep_bne1 hc, shiftSizeBad_like h k, shiftType_like e k, opRext_like h 0 rfl _ _ 0xD2 false _ 0 k]

theorem opShxd_like {d d' : Reg} (hd : d.Like d') {p q : Operand} (h : p.Like q) {r s : Reg} (k : r.Like s) (i j : Byte) (c c2 : Byte) {cl cl' : Option Reg}
    (hc : OLike cl cl') (hx : ∀ x y, cl = some x → cl' = some y → repIdx x.idx = repIdx y.idx) : (opShxd d p r i c c2 cl).res = (opShxd d' q s j c c2 cl').res := by
  unfold opShxd
  encres
  obtain ⟨rfl, rfl⟩ | ⟨x, y, rfl, rfl, hc1⟩ := hc.or
  · rw [k.isREG, hd.isREG, opROO_like hd h (likeReg k) _ (if (none : Option Reg).isSome then (if (none : Option Reg).isSome then c ||| 1 else c) else c2)
      (if (none : Option Reg).isSome then (if (none : Option Reg).isSome then c ||| 1 else c) else c2) _ (if (none : Option Reg).isSome then 0 else 1) none none,
      opRO_like k h T_0F _ (if (none : Option Reg).isSome then c ||| 1 else c) true _ (if (none : Option Reg).isSome then 0 else 1)]
  · simp only [Reg.Like.rep_bne1 (hx x y rfl rfl), k.isREG, hd.isREG, Option.isSome, if_true, opROO_like hd h (likeReg k) _ (c ||| 1) (c ||| 1) 0 0 none none, opRO_like k h T_0F (c ||| 1) (c ||| 1) true 0 0]

theorem opRO_MR_like {a b c d : Operand} (h : a.Like b) (k : c.Like d) (cd : Byte) : (opRO_MR a c cd).res = (opRO_MR b d cd).res := by
  unfold opRO_MR
  obtain ⟨r', s', rfl, rfl, k1⟩ | ⟨r', s', rfl, rfl, k1⟩ := k.or
  · dsimp only; rw [h.hd.kind, k1.kind]; exact opRO_like k1 h 0 cd cd _ 0 0
  · dsimp only; encres; rw [h.isREG, opMR_like k1 h.hd 0 _ (cd ||| 2) 0 none none]

theorem getImmBit_like {p q : Operand} (h : p.Like q) (i : BitVec 32) : (getImmBit p i).res = (getImmBit q i).res := by
  unfold getImmBit
  encres
  rw [verifyMemHasSize_like h, h.isBit, h.bit, h.isBit]

theorem opOI_like {p q : Operand} (h : p.Like q) (i : BitVec 32) (c : Byte) (e : BitVec 5) : (opOI p i c e).res = (opOI q i c e).res := by
  unfold opOI
  encres
  rw [getImmBit_like h]
  refine bind_congr' rfl fun n => ?_
  rw [h.reg0, h.bit, h.isBit, rex_like h (.refl (.reg .nil)), opRext_like h 0 rfl 0 _ (0x80 ||| if n < min q.bit 32 then 2 else 0) false _ (n / 8) (OLike.refl none)]

theorem opROI_like {d d' : Reg} (hd : d.Like d') {p q : Operand} (h : p.Like q) (i : BitVec 32) (t : Ty) (e : BitVec 5) : (opROI d p i t e).res = (opROI d' q i t e).res := by
  unfold opROI
  encres
  rw [getImmBit_like (likeReg hd)]
  refine bind_congr' rfl fun n => ?_
  rw [hd.bit, opROO_like hd h (.refl (.reg (.gp e d'.bit))) t _ (0x80 ||| if n < min d'.bit 32 then 2 else 0) _ (n / 8) none none]

theorem opIncDec_like {d d' : Reg} (hd : d.Like d') {p q : Operand} (h : p.Like q) (e : BitVec 5) : (opIncDec d p e).res = (opIncDec d' q e).res := by
  unfold opIncDec
  encres
  rw [hd.isREG, verifyMemHasSize_like h, hd.isBit, hd.bit, h.bit, opRext_like h q.bit rfl 0 _ 0xFE false _ 0 (OLike.refl none),
    opROO_like hd h (.refl (.reg (.gp e d'.bit))) _ _ (if d'.isBit 8 then 0xFE else 0xFF) _ 0 none none]

theorem opPushPop_like {p q : Operand} (h : p.Like q) (c : Byte) (e : BitVec 5) (a : Byte) : (opPushPop p c e a).res = (opPushPop q c e a).res := by
  unfold opPushPop
  encres
  rw [h.isREG, h.hasRex2, h.bit]
  refine cond_congr' rfl rfl (cond_congr' rfl ?_ rfl)
  obtain ⟨r', s', rfl, rfl, k1⟩ | ⟨r', s', rfl, rfl, k1⟩ := h.or
  · dsimp only; encres; rw [k1.isREG]
  · exact opMR_like k1 (.refl _) _ c c 0 none none

theorem opFpuMem_like {a b : Addr} (h : a.Like b) (m16 m32 m64 e f : Byte) : (opFpuMem a m16 m32 m64 e f).res = (opFpuMem b m16 m32 m64 e f).res := by
  unfold opFpuMem
  encres
  rw [h.is64bitDisp, h.o.isBit, h.o.isBit, h.o.isBit, rex_like (likeMem h) (.refl (.reg (.st 0)))]
  rw [opAddr_like h _ (BitVec.setWidth 5 (if f ≠ 0 ∧ b.o.isBit 64 then f else e))]

theorem opFpuFpu_like {r r' s s' : Reg} (h : repIdx r.idx = repIdx r'.idx) (k : repIdx s.idx = repIdx s'.idx) (c d : BitVec 16) : (opFpuFpu r s c d).res = (opFpuFpu r' s' c d).res := by
  unfold opFpuFpu
  encres
  simp only [Reg.Like.rep_eq0 h, Reg.Like.rep_eq0 k]

theorem opFpu_like (r r' : Reg) (c d : Byte) : (opFpu r c d).res = (opFpu r' c d).res := rfl

section
variable {r s : Reg} {p p' : Option Reg} (h : r.Like s) (k : OLike p p')
include h k
theorem memEvex_like {a b : Addr} (l : a.Like b) (t : Ty) : memEvex r p a t = memEvex s p' b t := by
  unfold memEvex; rw [h.hasEvex, l.bcast, l.o.mask, l.hasRex2]
  obtain ⟨rfl, rfl⟩ | ⟨x, y, rfl, rfl, k1⟩ := k.or
  · rfl
  · dsimp only; rw [k1.hasEvex]
theorem regEvex_like {a b : Reg} (l : a.Like b) (t : Ty) : regEvex r p a t = regEvex s p' b t := by
  unfold regEvex; rw [h.hasEvex, l.hasEvex]
  obtain ⟨rfl, rfl⟩ | ⟨x, y, rfl, rfl, k1⟩ := k.or
  · rfl
  · dsimp only; rw [k1.hasEvex]

theorem opVex_like {a b : Operand} (l : a.Like b) (t : Ty) (c : Byte) (i j : Option Byte) : (opVex r p a t c i).res = (opVex s p' b t c j).res := by
  unfold opVex
  obtain ⟨x, y, rfl, rfl, l1⟩ | ⟨x, y, rfl, rfl, l1⟩ := l.or
  · dsimp only; encres
    rw [regEvex_like h k l1, evex_like h l1.toBase k t c c none none false 0 0 false false, vex_like h l1.toBase k t c c false false]
    simp only [dbOpt_res, setModRM_res, ok_bind]
  · dsimp only; encres
    have he := l1.getRegExp
    rw [memEvex_like h k l1, vex_like h he.base k t c c x.getRegExp.index.isExtIdx y.getRegExp.index.isExtIdx, l1.o.mask, l1.bcast]
    have hv : x.getRegExp.isVsib = y.getRegExp.isVsib := by unfold RegExp.isVsib; rw [he.index.isBit]
    rw [hv, he.index.bit, he.index.isSIMD, he.index.isExtIdx2, evex_like h he.base k t c c _ (some y.getRegExp.index) y.broadcast y.o.mask _ _ (y.getRegExp.index.isSIMD && y.getRegExp.index.isExtIdx2)]
    have ha : ∀ (n n' m m' : Nat), (opAddr { x with permitVsib := x.permitVsib || t.has T_VSIB, disp8N := n, immSize := m, broadcast := y.broadcast } r.idx).res =
        (opAddr { y with permitVsib := y.permitVsib || t.has T_VSIB, disp8N := n', immSize := m' } s.idx).res := fun n n' m m' =>
      opAddr_like (a := { x with permitVsib := x.permitVsib || t.has T_VSIB, disp8N := n, immSize := m, broadcast := y.broadcast }) (b := { y with permitVsib := y.permitVsib || t.has T_VSIB, disp8N := n', immSize := m' })
        ⟨l1.o, l1.base, l1.index, l1.scale, l1.disp, l1.label, l1.mode, congrArg (· || t.has T_VSIB) l1.vsib, rfl, l1.opt⟩ _ _
    refine cond_congr' rfl (bind_congr' rfl fun _ => bind_congr' rfl fun _ => bind_congr' rfl fun n => ?_) (bind_congr' rfl fun _ => ?_)
    · rw [ha _ (if n ≠ 0 then n else y.disp8N) _ (if j.isSome then 1 else y.immSize)]
      simp only [dbOpt_res]
    · rw [ha _ (if 0 ≠ 0 then 0 else y.disp8N) _ (if j.isSome then 1 else y.immSize)]
      simp only [dbOpt_res]
end

theorem opRRO_like {d d' r r' : Reg} {p q : Operand} (hd : d.Like d') (h : r.Like r') (k : p.Like q) (t : Ty) (c : Byte) (i j : Option Byte) :
    (opRRO d r p t c i).res = (opRRO d' r' q t c j).res := by
  unfold opRRO
  encres
  rw [h.bit, hd.bit, k.isREG, k.bit, hd.hasRex2, h.hasRex2, k.hasRex2, hd.nf, opROO_like h k (likeReg hd) _ c c 0 0 none none,
    opVex_like hd (p := some r) (p' := some r') h k _ c i j]
  simp only [dbOpt_res]

/-- Optional operands. -/
def OpLike : Option Operand → Option Operand → Prop
  | some a, some b => a.Like b
  | none, none => True
  | _, _ => False

theorem OpLike.or : ∀ {p q : Option Operand}, OpLike p q → (p = none ∧ q = none) ∨ ∃ r s, p = some r ∧ q = some s ∧ r.Like s
  | none, none, _ => .inl ⟨rfl, rfl⟩
  | some r, some s, h => .inr ⟨r, s, rfl, rfl, h⟩
  | some _, none, h => h.elim
  | none, some _, h => h.elim

theorem opAVX_X_X_XM_like {x y : Reg} {a b : Operand} {p q : Option Operand} (h : x.Like y) (k : a.Like b) (l : OpLike p q) (t : Ty) (c : Byte) (i j : Option Byte) :
    (opAVX_X_X_XM x a p t c i).res = (opAVX_X_X_XM y b q t c j).res := by
  unfold opAVX_X_X_XM
  obtain ⟨rfl, rfl⟩ | ⟨r, s, rfl, rfl, l1⟩ := l.or
  · dsimp only; encres
    rw [h.isXMM, h.isYMM, h.isZMM, opVex_like h (p := some x) (p' := some y) h k t c i j]
  · dsimp only; encres
    rw [h.isXMM, h.isYMM, h.isZMM, k.hd.isXMM, k.hd.isYMM, k.hd.isZMM, opVex_like h (p := some a.hd) (p' := some b.hd) k.hd l1 t c i j]

section
variable {x y : Reg} {p q : Operand} (h : x.Like y) (k : p.Like q)
include h k

theorem opAVX_K_X_XM_like {m n : Reg} (l : m.Like n) (t : Ty) (c : Byte) (i j : Option Byte) : (opAVX_K_X_XM m x p t c i).res = (opAVX_K_X_XM n y q t c j).res := by
  unfold opAVX_K_X_XM
  encres
  rw [k.isMEM, h.kind, k.hd.kind, opVex_like l (p := some x) (p' := some y) h k t c i j]
theorem checkCvt1_like : (checkCvt1 x p).res = (checkCvt1 y q).res := by
  unfold checkCvt1; encres; rw [k.isMEM, h.isXMM, h.isYMM, h.isZMM, k.hd.isXMM, k.hd.isYMM]
theorem checkCvt2_like : (checkCvt2 x p).res = (checkCvt2 y q).res := by
  unfold checkCvt2; encres; rw [k.isMEM, h.isXMM, h.isYMM, k.hd.isXMM, k.hd.isYMM, k.hd.isZMM]
theorem checkCvt4_like : (checkCvt4 x p).res = (checkCvt4 y q).res := by
  unfold checkCvt4; encres; rw [k.isMEM, h.isXMM, h.isYMM, k.hd.isXMM, k.hd.isYMM, k.hd.isZMM, k.isBit]
theorem opCvt_like (t : Ty) (c : Byte) : (opCvt x p t c).res = (opCvt y q t c).res := by
  unfold opCvt; dsimp only; rw [h.isXMM, k.isBit]
  exact opVex_like (h.setKind _) (OLike.refl (some (.xmm 0))) k t c none none
theorem opCvt2_like (t : Ty) (c : Byte) : (opCvt2 x p t c).res = (opCvt2 y q t c).res := by
  unfold opCvt2; encres; rw [checkCvt2_like h k, opCvt_like h k]
theorem opCvt5_like (t : Ty) (c : Byte) : (opCvt5 x p t c).res = (opCvt5 y q t c).res := by
  unfold opCvt5; encres; rw [h.isXMM, k.isBit, k.isBit, k.isBit, opVex_like (h.setKind _) (OLike.refl (some (.xmm 0))) k t c none none]
theorem opCvt3_like {m n : Reg} (l : m.Like n) (t t1 t2 : Ty) (c : Byte) : (opCvt3 m x p t t1 t2 c).res = (opCvt3 n y q t t1 t2 c).res := by
  unfold opCvt3; encres
  rw [l.isXMM, h.isXMM, k.isREG, k.isMEM, k.isREG, k.isBit]
  have hp : (if q.isREG then Operand.reg (.xmm p.hd.idx) else p).Like (if q.isREG then Operand.reg (.xmm q.hd.idx) else q) := by
    split
    · exact xmm_like k.hd.cidx
    · exact k
  rw [opVex_like l (p := some x) (p' := some y) h hp _ c none none]
theorem opCvt6_like {m n : Reg} (l : m.Like n) (t : Ty) (c : Byte) : (opCvt6 m x p t c).res = (opCvt6 n y q t c).res := by
  unfold opCvt6; encres
  rw [l.bit, h.bit, k.bit, k.isMEM, opVex_like l (p := some x) (p' := some y) h k t c none none]
theorem opVmov_like (t : Ty) (c : Byte) (m : Bool) : (opVmov p x t c m).res = (opVmov q y t c m).res := by
  unfold opVmov; encres
  rw [k.isMEM, k.hd.isXMM, k.hd.isYMM, h.isXMM, h.isYMM, h.isZMM, opVex_like h (OLike.refl none) k t c none none]
omit k in
theorem cvtIdx0_like : cvtIdx0 x = cvtIdx0 y := by unfold cvtIdx0; rw [h.isZMM, h.isYMM]
theorem opAVX_X_XM_IMM_like (t : Ty) (c : Byte) (i j : Option Byte) : (opAVX_X_XM_IMM x p t c i).res = (opAVX_X_XM_IMM y q t c j).res := by
  unfold opAVX_X_XM_IMM; rw [cvtIdx0_like h]
  exact opAVX_X_X_XM_like h (.refl (.reg (cvtIdx0 y))) (p := some p) (q := some q) k t c i j
theorem opKmov_like (rev : Bool) (sz : Nat) : (opKmov x p rev sz).res = (opKmov y q rev sz).res := by
  unfold opKmov; encres
  rw [k.isREG, k.isMEM, k.hd.isOPMASK]
  generalize hc : (if rev = true then if q.isREG (if sz < 64 then 32 else 64) = true then (0x93 : Byte) else if q.isMEM = true then 0x91 else 0
          else if (q.hd.isOPMASK || q.isMEM) = true then 0x90 else if q.isREG (if sz < 64 then 32 else 64) = true then 0x92 else 0) = cd
  generalize (T_0F ||| _ : Ty) = t
  have h1 : (if cd = 0x93 then p else .reg x).Like (if cd = 0x93 then q else .reg y) := by split; exact k; exact h
  have h2 : (if cd = 0x93 then .reg x else p).Like (if cd = 0x93 then .reg y else q) := by split; exact h; exact k
  rw [opROO_like (.refl .nil) h2 h1 _ cd cd 0 0 none none, opVex_like h1.hd (OLike.refl none) h2 _ cd none none]
theorem opSSE_APX_like (t1 : Ty) (c1 : Byte) (t2 : Ty) (c2 : Byte) (i j : Option Byte) : (opSSE_APX x p t1 c1 t2 c2 i).res = (opSSE_APX y q t1 c1 t2 c2 j).res := by
  unfold opSSE_APX; encres
  rw [h.le15, k.hasRex2, opROO_like (.refl .nil) k (likeReg h) t2 c2 c2 (optSize i) (optSize j) none none, opSSE_like h k t1 c1 _ (.some xx_like) i j]
  simp only [dbOpt_res]
end

theorem opGatherFetch_like {a b : Addr} {x y : Reg} (h : a.Like b) (k : x.Like y) (t : Ty) (c : Byte) (kd : Kind) :
    (opGatherFetch a x t c kd).res = (opGatherFetch b y t c kd).res := by
  unfold opGatherFetch; encres
  rw [h.o.zero, h.getRegExp.index.kind, opVex_like k (OLike.refl none) (likeMem h) t c none none]

theorem opEncoding_like (df : PrefEnc) {x1 y1 x2 y2 : Reg} {p q : Option Operand} (h : x1.Like y1) (k : x2.Like y2) (l : OpLike p q) (t : Ty) (c : Byte) (e : PrefEnc)
    (i j : Option Byte) (tv te : Ty) (s : Nat) : (opEncoding df x1 x2 p t c e i tv te s).res = (opEncoding df y1 y2 q t c e j tv te s).res := by
  unfold opEncoding; encres
  refine bind_congr' rfl fun _ => opAVX_X_X_XM_like h (likeReg k) l _ c i j

theorem opInOutDX_like {a b d e : Reg} (h : a.Like b) (k : d.Like e) (hx : repIdx a.idx = repIdx b.idx) (kx : repIdx d.idx = repIdx e.idx) (c : Byte) : (opInOutDX a d c).res = (opInOutDX b e c).res := by
  unfold opInOutDX; encres; simp only [Reg.Like.rep_eq0 hx, Reg.Like.rep_eq2 kx, k.bit, h.bit]
theorem opInOutImm_like {a b : Reg} (h : a.Like b) (hx : repIdx a.idx = repIdx b.idx) (c v w : Byte) : (opInOutImm a c v).res = (opInOutImm b c w).res := by
  unfold opInOutImm; encres; simp only [Reg.Like.rep_eq0 hx, h.bit]

theorem opCcmp_like {a b c d : Operand} (h : a.Like b) (k : c.Like d) (f : Int) (cd : Byte) (sc : BitVec 4) : (opCcmp a c f cd sc).res = (opCcmp b d f cd sc).res := by
  unfold opCcmp; encres; rw [h.bit, k.bit, opROO_like (.refl (dfvReg f (b.bit ||| d.bit))) h k _ cd cd 0 0 (some sc) (some sc)]
theorem opCcmpi_like {a b : Operand} (h : a.Like b) (i : BitVec 32) (f : Int) (sc : BitVec 4) : (opCcmpi a i f sc).res = (opCcmpi b i f sc).res := by
  unfold opCcmpi; encres; rw [getImmBit_like h]
  refine bind_congr' rfl fun _ => bind_congr' rfl fun n => ?_
  rw [h.bit, opROO_like (.refl (dfvReg f b.bit)) h (.refl (.reg (.gp 15 b.bit))) _ _ (0x80 ||| if n < min b.bit 32 then 2 else 0) _ (n / 8) (some sc) (some sc)]
theorem opTesti_like {a b : Operand} (h : a.Like b) (i : BitVec 32) (f : Int) (sc : BitVec 4) : (opTesti a i f sc).res = (opTesti b i f sc).res := by
  unfold opTesti; encres
  rw [h.bit, opROO_like (.refl (dfvReg f b.bit)) h (.refl (.reg (.gp 0 b.bit))) _ _ 0xF6 _ (min b.bit 32 / 8) (some sc) (some sc)]

theorem opCfcmov_like {x y : Reg} {a b c d : Operand} (hx : x.Like y) (h : a.Like b) (k : c.Like d) (cd : Byte) : (opCfcmov x a c cd).res = (opCfcmov y b d cd).res := by
  unfold opCfcmov; encres
  rw [hx.bit, k.bit, h.isBit]
  refine bind_congr' rfl fun _ => bind_congr' rfl fun _ => ?_
  obtain ⟨r', s', rfl, rfl, k1⟩ | ⟨r', s', rfl, rfl, k1⟩ := k.or
  · dsimp only; encres; rw [opROO_like hx h (likeReg k1.setNF) _ cd cd 0 0 none none]
  · dsimp only; encres; rw [h.isMEM, opROO_like hx (likeMem k1) h _ cd cd 0 0 none none]

theorem opAMX_like {x y : Reg} {a b : Addr} (hx : x.Like y) (h : a.Like b) (t : Ty) (c : Byte) : (opAMX x a t c).res = (opAMX y b t c).res := by
  unfold opAMX; encres
  rw [h.noOpt.getRegExp.base.bit, h.noOpt.getRegExp.index.bit, opROO_like (.refl .nil) (likeMem h.noOpt) (likeReg hx) _ c c 0 0 none none,
    opVex_like hx (OLike.refl (some (.tmm 0))) (likeMem h.noOpt) t c none none]

theorem opEncodeKey_like {x y r s : Reg} (h : x.Like y) (k : r.Like s) (c1 c2 : Byte) : (opEncodeKey x r c1 c2).res = (opEncodeKey y s c1 c2).res := by
  unfold opEncodeKey; encres
  simp only [h.lt8, k.lt8]
  rw [opROO_like (.refl .nil) (likeReg k) (likeReg h) _ c2 c2 0 0 none none]
  rfl

theorem opAVX10ZeroExt_like (df : PrefEnc) {a b c d : Operand} (h : a.Like b) (k : c.Like d) (tt : Nat → Ty) (ct : Nat → Byte) (e : PrefEnc) (bit : Nat) :
    (opAVX10ZeroExt df a c tt ct e bit).res = (opAVX10ZeroExt df b d tt ct e bit).res := by
  have h1 : (if b.isMEM then c else a).Like (if b.isMEM then d else b) := by split; exact k; exact h
  have h2 : (if b.isMEM then a else c).Like (if b.isMEM then b else d) := by split; exact h; exact k
  unfold opAVX10ZeroExt
  encres
  rw [h.isMEM]
  generalize (if b.isMEM then c else a) = p1 at h1 ⊢
  generalize (if b.isMEM then d else b) = p1' at h1 ⊢
  generalize (if b.isMEM then a else c) = p2 at h2 ⊢
  generalize (if b.isMEM then b else d) = p2' at h2 ⊢
  have h3 : (if p1'.hd.isXMM then p2 else p1).Like (if p1'.hd.isXMM then p2' else p1') := by split; exact h2; exact h1
  have h4 : (if p1'.hd.isXMM then p1 else p2).Like (if p1'.hd.isXMM then p1' else p2') := by split; exact h1; exact h2
  rw [h1.isMEM, h1.hd.isXMM]
  refine bind_congr' rfl fun _ => bind_congr' rfl fun e => ?_
  generalize (if p1'.hd.isXMM then p2 else p1) = q1 at h3 ⊢
  generalize (if p1'.hd.isXMM then p2' else p1') = q1' at h3 ⊢
  generalize (if p1'.hd.isXMM then p1 else p2) = q2 at h4 ⊢
  generalize (if p1'.hd.isXMM then p1' else p2') = q2' at h4 ⊢
  rw [h3.hd.isXMM, h3.isMEM, h3.isREG]
  refine cond_congr' rfl ?_ (cond_congr' rfl ?_ rfl)
  · exact opAVX_X_X_XM_like h4.hd (.refl (.reg (.xmm 0))) (p := some q1) (q := some q1') h3 _ _ none none
  · exact opAVX_X_X_XM_like h4.hd (.refl (.reg (.xmm 0))) (p := some q1) (q := some q1') h3 _ _ none none

theorem test_like {p q : Operand} {r s : Reg} (h : p.Like q) (k : r.Like s) : (test p r).res = (test q s).res := by
  unfold test; rw [h.hd.kind, k.kind]; exact opRO_like k h 0 0x84 0x84 _ 0 0
theorem testI_like {p q : Operand} (h : p.Like q) (i j : BitVec 32) : (testI p i).res = (testI q j).res := by
  unfold testI; encres
  rw [verifyMemHasSize_like h, h.reg0, rex_like h (.refl (.reg .nil)), opRext_like h 0 rfl 0 0xF6 0xF6 false _ (min (q.bit / 8) 4) (OLike.refl none)]
theorem imulI_like {r s : Reg} {p q : Operand} (k : r.Like s) (h : p.Like q) (i j : BitVec 32) : (imulI r p i).res = (imulI s q j).res := by
  unfold imulI; encres
  rw [h.hd.kind, k.kind, opROO_like (.refl .nil) h (likeReg k) _ _ (0x69 ||| sel (isInDisp8 j) 2) _ (if isInDisp8 j then 1 else if s.isREG 16 then 2 else 4) none none,
    opRO_like k h 0 _ (0x69 ||| sel (isInDisp8 j) 2) _ _ (if isInDisp8 j then 1 else if s.isREG 16 then 2 else 4)]
theorem push_like {p q : Operand} (h : p.Like q) : (push p).res = (push q).res := opPushPop_like h _ _ _
theorem pop_like {p q : Operand} (h : p.Like q) : (pop p).res = (pop q).res := opPushPop_like h _ _ _

theorem mov_like {a b c d : Operand} (h : a.Like b) (k : c.Like d) : (mov a c).res = (mov b d).res := by
  have hm := opRO_MR_like h k 0x88
  unfold mov
  obtain ⟨r, s, rfl, rfl, h1⟩ | ⟨r, s, rfl, rfl, h1⟩ := h.or <;> obtain ⟨r', s', rfl, rfl, k1⟩ | ⟨r', s', rfl, rfl, k1⟩ := k.or
  · exact hm
  · dsimp only; encres; rw [hm, h1.reg0, k1.is64bitDisp, rex_like (likeReg h1) (.refl (.reg .nil))]
  · dsimp only; encres; rw [hm, k1.reg0, h1.is64bitDisp, rex_like (likeReg k1) (.refl (.reg .nil))]
  · exact hm

theorem xchg_like {a b c d : Operand} (h : a.Like b) (k : c.Like d) : (xchg a c).res = (xchg b d).res := by
  unfold xchg
  encres
  rw [h.isMEM, show (c.isREG 112 && c.hd.idx == 0) = (d.isREG 112 && d.hd.idx == 0) from k.reg0 112]
  generalize (b.isMEM || d.isREG 112 && d.hd.idx == 0) = sw
  have h1 : (if sw then c else a).Like (if sw then d else b) := by split; exact k; exact h
  have h2 : (if sw then a else c).Like (if sw then b else d) := by split; exact h; exact k
  generalize (if sw then c else a) = p1 at h1 ⊢
  generalize (if sw then d else b) = p1' at h1 ⊢
  generalize (if sw then a else c) = p2 at h2 ⊢
  generalize (if sw then b else d) = p2' at h2 ⊢
  have hq : (p2.isREG && (p1.isREG 112 && p1.hd.idx == 0) && (p2.hd.idx != 0 || !p1.isREG 32)) =
      (p2'.isREG && (p1'.isREG 112 && p1'.hd.idx == 0) && (p2'.hd.idx != 0 || !p1'.isREG 32)) := by
    rw [h1.reg0, ← h2.isREG, h1.isREG]
    cases hr : p2.isREG 0
    · rfl
    · unfold bne; rw [Reg.Like.rep_beq0 (h2.hdIdx hr)]
  rw [h1.isMEM, hq, h2.isREG, h1.isREG, rex_like h2 h1]
  generalize (p1'.isREG && p2'.isREG) = both
  have h3 : (if both then p2 else p1).Like (if both then p2' else p1') := by split; exact h2; exact h1
  have h4 : (if both then p1 else p2).Like (if both then p1' else p2') := by split; exact h1; exact h2
  rw [h3.isREG, h3.bit, h4.bit, h3.isBit, opRO_like h3.hd h4 0 _ (0x86 ||| if (if both then p2' else p1').isBit 8 then 0 else 1) _ 0 0]

theorem bswap_like {r s : Reg} (_ : r.Like s) : (bswap r).res = (bswap s).res := by
  unfold bswap; encres; simp only [Bool.cond_self, ok_bind]

end E
end Xbyak
