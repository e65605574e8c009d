import Verif.Lower
import Verif.Reads
set_option linter.unusedSimpArgs false
/-!
# What exactly the helpers pass to `opVex`

`Leaf.Makes` gives the registers, the operand and the flags of the call with all their attributes (kind, width, opmask, …) and the checks made before
it; `opVex_head` says how the prefix depends on them.
-/
namespace Xbyak
open E

/-- The register whose attributes count for ModRM.rm: the register itself, or the base of the address. -/
def rmReg : Operand → Reg
  | .reg q => q
  | .mem a => a.getRegExp.base

/-- The broadcast, opmask and index width an address carries. -/
def rmBcast : Operand → Bool
  | .reg _ => false
  | .mem a => a.broadcast
def rmMask : Operand → BitVec 3
  | .reg _ => 0
  | .mem a => a.o.mask
def rmVL : Operand → Nat
  | .reg _ => 0
  | .mem a => if a.getRegExp.isVsib then a.getRegExp.index.bit else 0

/-- The operand can be written with VEX. -/
def rmPlain : Operand → Prop
  | .reg q => q.hasEvex = false
  | .mem a => a.broadcast = false ∧ a.o.mask = 0

/-- The decoded prefix of what `opVex` writes. -/
inductive VexHead (r : Reg) (v : Option Reg) (op : Operand) (type : Ty) (h : X86.Head) : Prop
  | vex (sp : h.space = .vex) (L : h.L = if vexL type r then 1 else 0) (b : h.b = false) (aaa : h.aaa = 0) (z : h.z = false)
      (must : type.has T_MUST_EVEX = false) (hr : r.hasEvex = false) (hv : ∀ q, v = some q → q.hasEvex = false) (hop : rmPlain op)
  | evex (sp : h.space = .evex) (ty : type.has (T_EVEX ||| T_MUST_EVEX) = true) (ln : EvexLen) (k : BitVec 3)
      (len : evexLen r (rmReg op) v type (rmBcast op) (rmVL op) = .ok ln) (mask : evexMask r (rmReg op) v (rmMask op) = .ok k)
      (mk : rmMask op ≠ 0 → type.has T_M_K = true) (bc : rmBcast op = true → type.has (T_B32 ||| T_B64) = true)
      (L : h.L = ln.LL.setWidth 2) (b : h.b = ln.b) (aaa : h.aaa = k) (z : h.z = (k != 0 && anyZero r (rmReg op) v))
      (u : ∀ q, op = .reg q → h.u = !ln.uzero)

theorem opVex_head {r : Reg} {v : Option Reg} {op : Operand} {type : Ty} {code : Byte} {imm : Option Byte} {w : List Act} {u : Unit}
    (hw : (opVex r v op type code imm).Gives w u) (fill : Act → BitVec 32) :
    ∃ h, VexHead r v op type h ∧ ∀ tl, ∃ t, X86.head (concr fill w ++ tl) = some (h, t) := by
  have me : type.has (T_MUST_EVEX ||| T_MEM_EVEX) = false → type.has T_MUST_EVEX = false := by
    intro h
    simp only [Ty.has, bne_eq_false_iff_eq] at h ⊢
    have : T_MUST_EVEX = (T_MUST_EVEX ||| T_MEM_EVEX) &&& T_MUST_EVEX := by decide
    rw [this, ← BitVec.and_assoc, h]; decide
  unfold opVex at hw
  cases op with
  | mem a =>
    dsimp only at hw
    rw [Enc.dbIf_bind] at hw
    obtain ⟨w1, rfl, hw⟩ := hw
    by_cases hx : memEvex r v a type = true
    · rw [if_pos hx] at hw
      rw [Enc.throwIf_bind] at hw
      obtain ⟨hmk, hw⟩ := hw
      rw [Enc.throwIf_bind] at hw
      obtain ⟨hbc, hw⟩ := hw
      simp only [Enc.gives_bind, evex_gives, gives_dbOpt] at hw
      obtain ⟨_, n, _, ⟨hty, ln, k, hln, hk, rfl, rfl⟩, ⟨w2, _, _, hw, rfl, rfl⟩, rfl⟩ := hw
      refine ⟨(evexF r a.getRegExp.base v type (some a.getRegExp.index) (a.getRegExp.index.isSIMD && a.getRegExp.index.isExtIdx2) ln k).head code a.is32bit,
        .evex rfl hty ln k hln hk (fun h => ?_) (fun h => ?_) rfl rfl rfl rfl (fun q h => by cases h), fun tl => ⟨concr fill w2 ++ (imm.toList ++ tl), ?_⟩⟩
      · have h : a.o.mask ≠ 0 := h
        simp only [Bool.and_eq_false_iff, bne_eq_false_iff_eq, Bool.not_eq_false'] at hmk
        exact hmk.resolve_left h
      · have h : a.broadcast = true := h
        simpa [h] using hbc
      have e := head_evex (evexF r a.getRegExp.base v type (some a.getRegExp.index) (a.getRegExp.index.isSIMD && a.getRegExp.index.isExtIdx2) ln k) code a.is32bit
      simp only [concr_append, concr_bytes, List.append_assoc]
      exact e _
    · rw [if_neg hx] at hw
      have hx' := hx
      unfold memEvex at hx'
      simp only [Bool.or_eq_true, not_or, Bool.not_eq_true, bne_eq_false_iff_eq] at hx'
      obtain ⟨⟨⟨⟨⟨h1', h2'⟩, h3'⟩, h4'⟩, h5'⟩, h6'⟩ := hx'
      simp only [Enc.gives_bind, vex_gives, gives_dbOpt, Enc.gives_pure] at hw
      obtain ⟨_, _, _, ⟨⟨h1, h2, h3⟩, rfl⟩, ⟨_, _, _, ⟨rfl, rfl⟩, ⟨w2, _, _, hw, rfl, rfl⟩, rfl⟩, rfl⟩ := hw
      refine ⟨vexHead r a.getRegExp.base v type code a.getRegExp.index.isExtIdx a.is32bit,
        .vex rfl rfl rfl rfl rfl (me h1') h2' (fun q hq => by subst hq; exact h3') ⟨h4', by simpa using h5'⟩, fun tl => ⟨concr fill w2 ++ (imm.toList ++ tl), ?_⟩⟩
      have e := head_vex r a.getRegExp.base v type code a.getRegExp.index.isExtIdx a.is32bit h1
      simp only [concr_append, concr_bytes, List.append_assoc]
      exact e _
  | reg b =>
    dsimp only at hw
    by_cases hx : regEvex r v b type = true
    · rw [if_pos hx] at hw
      simp only [Enc.gives_bind, evex_gives, setModRM, Enc.gives_db, gives_dbOpt] at hw
      obtain ⟨_, _, _, ⟨hty, ln, k, hln, hk, rfl, rfl⟩, ⟨_, _, _, rfl, rfl, rfl⟩, rfl⟩ := hw
      refine ⟨(evexF r b v type none false ln k).head code false, .evex rfl hty ln k hln hk (fun h => absurd rfl h) (fun h => by cases h) rfl rfl rfl rfl
        (fun q _ => Bool.and_true _),
        fun tl => ⟨concr fill [.byte (modRM 3 r.idx b.idx)] ++ (imm.toList ++ tl), ?_⟩⟩
      have e := head_evex (evexF r b v type none false ln k) code false
      simp only [concr_append, concr_bytes, List.append_assoc]
      exact e _
    · rw [if_neg hx] at hw
      have hx' := hx
      unfold regEvex at hx'
      simp only [Bool.or_eq_true, not_or, Bool.not_eq_true] at hx'
      obtain ⟨⟨⟨h1', h2'⟩, h3'⟩, h4'⟩ := hx'
      simp only [Enc.gives_bind, vex_gives, setModRM, Enc.gives_db, gives_dbOpt] at hw
      obtain ⟨_, _, _, ⟨⟨h1, h2, h3⟩, rfl⟩, ⟨_, _, _, rfl, rfl, rfl⟩, rfl⟩ := hw
      refine ⟨vexHead r b v type code false false, .vex rfl rfl rfl rfl rfl h1' h2' (fun q hq => by subst hq; exact h3') h4',
        fun tl => ⟨concr fill [.byte (modRM 3 r.idx b.idx)] ++ (imm.toList ++ tl), ?_⟩⟩
      have e := head_vex r b v type code false false h1
      simp only [concr_append, concr_bytes, List.append_assoc]
      exact e _

namespace Mn

/-- The flags chosen by the encoding preference. -/
def encTys (t tv te : Ty) : List Ty := [t ||| tv, t ||| (T_MUST_EVEX ||| te)]

/-- The kinds checked by `opAVX_X_X_XM`. -/
def SameVec (t : Ty) (x y : Reg) : Prop :=
  (x.isXMM = true ∧ y.isXMM = true) ∨ (t.has T_YMM = true ∧ ((x.isYMM = true ∧ y.isYMM = true) ∨ (x.isZMM = true ∧ y.isZMM = true)))

/-- `opAVX_X_X_XM`: what is passed for two or three operands. -/
def Made3 (x1 : Reg) (o1 : Operand) (o2 : Option Operand) (t : Ty) (r : Reg) (v : Option Reg) (o : Operand) : Prop :=
  r = x1 ∧ ((o2 = none ∧ v = some x1 ∧ o = o1 ∧ SameVec t x1 x1) ∨ (o2 = some o ∧ v = some o1.hd ∧ SameVec t x1 o1.hd))

/-- The call of `opVex` (`r` for ModRM.reg, `v` for VEX.vvvv, `o` for ModRM.rm, flags `u`) made by a helper, and what it checks. -/
def Leaf.Makes (g : Args) (r : Reg) (v : Option Reg) (o : Operand) (u : Ty) : Leaf → Prop
  | avx3 x o1 o2 t _ _ => u = t ∧ Made3 (x.reg g) (o1.op g) (o2.opt g) u r v o
  | avx2 x p t _ _ => u = t ∧ r = x.reg g ∧ v = some (cvtIdx0 r) ∧ o = p.op g ∧ SameVec u r (cvtIdx0 r)
  | avxK k x p t _ _ => u = t ∧ r = k.reg g ∧ v = some (x.reg g) ∧ o = p.op g ∧ ((p.op g).isMEM = true ∨ (x.reg g).kind = (p.op g).hd.kind)
  | vex x y p t _ _ => u = t ∧ r = x.reg g ∧ v = y.map (·.reg g) ∧ o = p.op g
  | vexCB k p t _ _ => u = t ∧ (k.reg g).changeBit (p.op g).bit = .ok r ∧ v = none ∧ o = p.op g
  | cvt x p t _ => u = t ∧ r = (x.reg g).setKind (if (x.reg g).isXMM then (if (p.op g).isBit 256 then .ymm else .xmm) else .zmm) ∧ v = some (.xmm 0) ∧ o = p.op g
  | cvt2 x p t _ => u = t ∧ r = (x.reg g).setKind (if (x.reg g).isXMM then (if (p.op g).isBit 256 then .ymm else .xmm) else .zmm) ∧ v = some (.xmm 0) ∧ o = p.op g ∧
      (((x.reg g).isXMM = true ∧ ((p.op g).hd.isXMM = true ∨ (p.op g).hd.isYMM = true ∨ (p.op g).isMEM = true)) ∨
        ((x.reg g).isYMM = true ∧ ((p.op g).hd.isZMM = true ∨ (p.op g).isMEM = true)))
  | cvt2Enc x p t _ tv te _ => u ∈ encTys t tv te ∧ r = (x.reg g).setKind (if (x.reg g).isXMM then (if (p.op g).isBit 256 then .ymm else .xmm) else .zmm) ∧ v = some (.xmm 0) ∧ o = p.op g ∧
      (((x.reg g).isXMM = true ∧ ((p.op g).hd.isXMM = true ∨ (p.op g).hd.isYMM = true ∨ (p.op g).isMEM = true)) ∨
        ((x.reg g).isYMM = true ∧ ((p.op g).hd.isZMM = true ∨ (p.op g).isMEM = true)))
  | cvt3 x y p t t6 t3 _ => u ∈ [t ||| t6, t ||| t3] ∧ r = x.reg g ∧ v = some (y.reg g) ∧ r.isXMM = true ∧ (y.reg g).isXMM = true ∧
      ((∃ q, p.op g = .reg q ∧ q.isREG 96 = true ∧ o = .reg (.xmm q.idx)) ∨ (o = p.op g ∧ o.isMEM = true))
  | cvt5 x p t _ => u = t ∧ (x.reg g).isXMM = true ∧ (p.op g).isBit 896 = true ∧ v = some (.xmm 0) ∧ o = p.op g ∧
      r = (x.reg g).setKind (if (p.op g).isBit 128 then .xmm else if (p.op g).isBit 256 then .ymm else .zmm)
  | cvt6 x y p t _ => u = t ∧ r = x.reg g ∧ v = some (y.reg g) ∧ o = p.op g ∧
      ((r.bit = 128 ∧ ((y.reg g).bit = 128 ∨ (y.reg g).bit = 256) ∧ ((y.reg g).bit = o.bit ∨ o.isMEM = true)) ∨
        (r.bit = 256 ∧ (y.reg g).bit = 512 ∧ (o.bit = (y.reg g).bit ∨ o.isMEM = true)))
  | encoding x y p t _ _ tv te _ => u ∈ encTys t tv te ∧ Made3 (x.reg g) (.reg (y.reg g)) (p.opt g) u r v o
  | vmov p x t _ m => u = t ∧ r = x.reg g ∧ v = none ∧ o = p.op g ∧
      (o.isMEM = true ∨ if m then (o.hd.isXMM = true ∧ r.isXMM = true) ∨ (o.hd.isXMM = true ∧ r.isYMM = true) ∨ (o.hd.isYMM = true ∧ r.isZMM = true) else o.hd.isXMM = true)
  | gather x m y t _ md => u = t ∧ o = .mem (m.mem g) ∧ (m.mem g).getRegExp.isVsib 384 = true ∧
      r = (if (m.mem g).getRegExp.index.bit = 256 then .ymm (x.reg g).idx else x.reg g) ∧
      v = some (if (m.mem g).getRegExp.index.bit = 256 then .ymm (y.reg g).idx else y.reg g) ∧ SameVec t r (v.getD .nil) ∧
      (((x.reg g).isXMM = true ∧ (m.mem g).getRegExp.index.bit ≠ 256 ∧ (y.reg g).isXMM = true) ∨
        (if md = 0 then (x.reg g).isYMM = true ∧ (m.mem g).getRegExp.index.bit ≠ 256 ∧ (y.reg g).isYMM = true
         else if md = 1 then (x.reg g).isYMM = true ∧ (m.mem g).getRegExp.index.bit = 256 ∧ (y.reg g).isYMM = true
         else (x.reg g).isYMM = false ∧ (m.mem g).getRegExp.index.bit = 256 ∧ (y.reg g).isYMM = false)) ∧
      (x.reg g).idx ≠ (m.mem g).getRegExp.index.idx ∧ (x.reg g).idx ≠ (y.reg g).idx ∧ (m.mem g).getRegExp.index.idx ≠ (y.reg g).idx
  | gather2 x m t _ md => u = t ∧ r = x.reg g ∧ v = none ∧ o = .mem (m.mem g) ∧ r.zero = false ∧
      ((r.isXMM = true ∧ (m.mem g).getRegExp.index.isXMM = true) ∨
        (if md = 0 then (r.isYMM = true ∧ (m.mem g).getRegExp.index.isYMM = true) ∨ (r.isZMM = true ∧ (m.mem g).getRegExp.index.isZMM = true)
         else if md = 1 then (r.isYMM = true ∧ (m.mem g).getRegExp.index.isXMM = true) ∨ (r.isZMM = true ∧ (m.mem g).getRegExp.index.isYMM = true)
         else md = 2 ∧ ((r.isXMM = true ∧ (m.mem g).getRegExp.index.isYMM = true) ∨ (r.isYMM = true ∧ (m.mem g).getRegExp.index.isZMM = true)))) ∧
      (if t.has T_M_K && (m.mem g).o.mask != 0 then (m.mem g).o.mask else r.mask) ≠ 0 ∧
      (t.has T_M_K = false → r.idx ≠ (m.mem g).getRegExp.index.idx)
  | gatherFetch m x t _ k => u = t ∧ r = x.reg g ∧ v = none ∧ o = .mem (m.mem g) ∧ (m.mem g).o.zero = false ∧ (m.mem g).getRegExp.index.kind = k
  | rro d q p t _ _ => u ∈ [t ||| T_W1, t ||| T_W0] ∧ r = d.reg g ∧ v = some (q.reg g) ∧ o = p.op g ∧ (q.reg g).bit = r.bit ∧ (o.isREG = true → o.bit = r.bit)
  | kmov k p rv sz => ∃ R, u = T_L0 ||| kmovType R sz ∧ v = none ∧
      ((rv = true ∧ r = (p.op g).hd ∧ (p.op g).isREG (if sz < 64 then 32 else 64) = true ∧ o = .reg (k.reg g)) ∨ (r = k.reg g ∧ o = p.op g))
  | amx x m t _ => u = t ∧ r = x.reg g ∧ v = some (.tmm 0) ∧ o = .mem { m.mem g with opt := false }
  | _ => False

variable {g : Args} {w : List Act} {ps : List Param}

theorem made3 {x1 : Reg} {o1 : Operand} {o2 : Option Operand} {t : Ty} {c : Byte} {i : Option Byte} (hw : (opAVX_X_X_XM x1 o1 o2 t c i).Gives w ()) :
    ∃ r v o, Made3 x1 o1 o2 t r v o ∧ (opVex r v o t c i).Gives w () := by
  unfold opAVX_X_X_XM at hw
  dsimp only at hw
  rw [Enc.throwIf_bind] at hw
  obtain ⟨hk, hw⟩ := hw
  have key : ∀ y : Reg, (!((x1.isXMM && y.isXMM) || (t.has T_YMM && ((x1.isYMM && y.isYMM) || (x1.isZMM && y.isZMM))))) = false → SameVec t x1 y := by
    intro y h
    unfold SameVec
    simpa only [Bool.not_eq_false', Bool.or_eq_true, Bool.and_eq_true] using h
  cases o2 with
  | none => exact ⟨x1, some x1, o1, ⟨rfl, .inl ⟨rfl, rfl, rfl, key _ hk⟩⟩, hw⟩
  | some o => exact ⟨x1, some o1.hd, o, ⟨rfl, .inr ⟨rfl, rfl, key _ hk⟩⟩, hw⟩

/-- The call of `opVex` made by a helper. -/
def Leaf.MadeBy (g : Args) (l : Leaf) (w : List Act) : Prop := ∃ r v o t c i, l.Makes g r v o t ∧ (opVex r v o t c i).Gives w ()

theorem made_cvt {x : Reg} {p : Operand} (h : (!(x.isXMM && (p.hd.isXMM || p.hd.isYMM || p.isMEM)) && !(x.isYMM && (p.hd.isZMM || p.isMEM))) = false) :
    (x.isXMM = true ∧ (p.hd.isXMM = true ∨ p.hd.isYMM = true ∨ p.isMEM = true)) ∨ (x.isYMM = true ∧ (p.hd.isZMM = true ∨ p.isMEM = true)) := by
  simpa only [Bool.and_eq_false_iff, Bool.not_eq_false', Bool.or_eq_true, Bool.and_eq_true, or_assoc] using h

theorem Leaf.made_gather {x m y : Slot} {t : Ty} {c : Byte} {md : Nat} (hw : ((Leaf.gather x m y t c md).run g).Gives w ()) : (Leaf.gather x m y t c md).MadeBy g w := by
  replace hw : (opGather (x.reg g) (m.mem g) (y.reg g) t c md).Gives w () := hw
  unfold opGather at hw
  dsimp only at hw
  rw [Enc.throwIf_bind] at hw
  obtain ⟨hv, hw⟩ := hw
  rw [Enc.throwIf_bind] at hw
  obtain ⟨hk, hw⟩ := hw
  rw [Enc.throwIf_bind] at hw
  obtain ⟨hi, hw⟩ := hw
  obtain ⟨r, v, o, ⟨rfl, h | ⟨h1, rfl, h2⟩⟩, hw⟩ := made3 hw
  · cases h.1
  cases h1
  refine ⟨_, _, _, _, _, _, ⟨rfl, rfl, by simpa using hv, ?_, ?_, ?_, ?_, ?_⟩, hw⟩
  · simp only [beq_iff_eq]
  · simp only [beq_iff_eq, Operand.hd]
  · exact h2
  · rw [Bool.and_eq_false_iff] at hk
    rcases hk with hk | hk
    · left
      simpa only [Bool.or_eq_false_iff, Bool.not_eq_false', beq_eq_false_iff_ne, and_assoc] using hk
    · right
      rw [Bool.not_eq_false'] at hk
      by_cases h0 : md = 0
      · rw [if_pos h0] at hk ⊢
        simpa only [Bool.and_eq_true, Bool.not_eq_true', beq_eq_false_iff_ne, and_assoc] using hk
      · rw [if_neg h0] at hk ⊢
        by_cases h1 : md = 1
        · rw [if_pos h1] at hk ⊢
          simpa only [Bool.and_eq_true, Bool.not_eq_true', beq_iff_eq, and_assoc] using hk
        · rw [if_neg h1] at hk ⊢
          simpa only [Bool.and_eq_true, Bool.not_eq_true', beq_iff_eq, and_assoc] using hk
  · simpa only [Bool.or_eq_false_iff, beq_eq_false_iff_ne, and_assoc] using hi

theorem Leaf.made_gather2 {x m : Slot} {t : Ty} {c : Byte} {md : Nat} (hw : ((Leaf.gather2 x m t c md).run g).Gives w ()) : (Leaf.gather2 x m t c md).MadeBy g w := by
  replace hw : (opGather2 (x.reg g) (m.mem g) t c md).Gives w () := hw
  unfold opGather2 checkGather2 at hw
  dsimp only at hw
  rw [Enc.throwIf_bind] at hw
  obtain ⟨hz, hw⟩ := hw
  rw [Enc.throwIf_bind] at hw
  obtain ⟨hk, hw⟩ := hw
  rw [Enc.throwIf_bind] at hw
  obtain ⟨hm, hw⟩ := hw
  rw [Enc.throwIf_bind] at hw
  obtain ⟨hi, hw⟩ := hw
  refine ⟨_, _, _, _, _, _, ⟨rfl, rfl, rfl, rfl, hz, ?_, by simpa using hm, ?_⟩, hw⟩
  · rw [Bool.not_eq_false', Bool.or_eq_true] at hk
    rcases hk with hk | hk
    · exact .inl (by simpa only [Bool.and_eq_true] using hk)
    · right
      by_cases h0 : md = 0
      · rw [if_pos h0] at hk ⊢
        simpa only [Bool.and_eq_true, Bool.or_eq_true] using hk
      · rw [if_neg h0] at hk ⊢
        by_cases h1 : md = 1
        · rw [if_pos h1] at hk ⊢
          simpa only [Bool.and_eq_true, Bool.or_eq_true] using hk
        · rw [if_neg h1] at hk ⊢
          by_cases h2 : md = 2
          · rw [if_pos h2] at hk
            exact ⟨h2, by simpa only [Bool.and_eq_true, Bool.or_eq_true] using hk⟩
          · rw [if_neg h2] at hk; cases hk
  · intro ht
    rw [ht] at hi
    simpa using hi

theorem Leaf.made_kmov (hn : g.NoApx) {k o : Slot} (hk : k.low = true) (ho : o.low = true) {rv : Bool} {sz : Nat}
    (hT : (T_APX ||| kmovType true sz).has T_MUST_EVEX = false ∧ (T_APX ||| kmovType false sz).has T_MUST_EVEX = false)
    (hr : (k.op g).isMEM = false) (hw : ((Leaf.kmov k o rv sz).run g).Gives w ()) : (Leaf.kmov k o rv sz).MadeBy g w := by
  replace hw : (opKmov (k.reg g) (o.op g) rv sz).Gives w () := hw
  have kr : k.op g = .reg (k.reg g) := by
    unfold Slot.reg
    cases hq : k.op g with
    | reg q => rfl
    | mem a => rw [hq] at hr; cases hr
  have k2 : (Operand.reg (k.reg g)).hasRex2NFZU = false := by
    have := Slot.low_op hn hk
    rwa [kr] at this
  have o2 := Slot.low_op hn ho
  have T : ∀ b, (T_APX ||| kmovType b sz).has T_MUST_EVEX = false := by intro b; cases b; exact hT.2; exact hT.1
  unfold opKmov at hw
  dsimp only at hw
  rw [Enc.throwIf_bind] at hw
  obtain ⟨hc, hw⟩ := hw
  generalize hC : (if rv = true then (if (o.op g).isREG (if sz < 64 then 32 else 64) = true then (0x93 : Byte) else if (o.op g).isMEM = true then 0x91 else 0)
    else (if ((o.op g).hd.isOPMASK || (o.op g).isMEM) = true then 0x90 else if (o.op g).isREG (if sz < 64 then 32 else 64) = true then 0x92 else 0)) = C at hc hw
  have h93 : C = 0x93 → rv = true ∧ (o.op g).isREG (if sz < 64 then 32 else 64) = true := by
    intro h
    rw [← hC] at h
    cases rv with
    | true =>
      rw [if_pos rfl] at h
      by_cases hR : (o.op g).isREG (if sz < 64 then 32 else 64) = true
      · exact ⟨rfl, hR⟩
      · rw [if_neg hR] at h
        split at h <;> exact absurd h (by decide)
    | false =>
      rw [if_neg Bool.false_ne_true] at h
      by_cases h1 : ((o.op g).hd.isOPMASK || (o.op g).isMEM) = true
      · rw [if_pos h1] at h; exact absurd h (by decide)
      · rw [if_neg h1] at h
        by_cases h2 : (o.op g).isREG (if sz < 64 then 32 else 64) = true
        · rw [if_pos h2] at h; exact absurd h (by decide)
        · rw [if_neg h2] at h; exact absurd h (by decide)
  generalize hR : (o.op g).isREG (if sz < 64 then 32 else 64) = R at hw h93
  change (opROO .nil _ _ (T_APX ||| kmovType R sz) _ >>= fun done => if done = true then pure () else opVex _ none _ (T_L0 ||| kmovType R sz) _).Gives w () at hw
  have go : ∀ {p1 p2 : Operand} {code : Byte}, p1.hasRex2NFZU = false → p2.hasRex2NFZU = false →
      (opROO .nil p2 p1 (T_APX ||| kmovType R sz) code >>= fun done => if done = true then pure () else opVex p1.hd none p2 (T_L0 ||| kmovType R sz) code).Gives w () →
      (opVex p1.hd none p2 (T_L0 ||| kmovType R sz) code).Gives w () := by
    intro p1 p2 code h1 h2 hw
    rw [opROO_no (T R) h2 h1, Enc.gives_bind] at hw
    obtain ⟨w1, b, w2, hb, hw, rfl⟩ := hw
    obtain ⟨rfl, rfl⟩ := Enc.gives_pure.mp hb
    rwa [if_neg Bool.false_ne_true] at hw
  by_cases h : C = 0x93
  · simp only [if_pos h] at hw
    obtain ⟨h1, h2⟩ := h93 h
    exact ⟨_, _, _, _, _, _, ⟨R, rfl, rfl, .inl ⟨h1, rfl, by rw [hR]; exact h2, rfl⟩⟩, go o2 k2 hw⟩
  · simp only [if_neg h] at hw
    exact ⟨_, _, _, _, _, _, ⟨R, rfl, rfl, .inr ⟨rfl, rfl⟩⟩, go (p1 := .reg (k.reg g)) k2 o2 hw⟩

theorem Leaf.made_rro (hn : g.NoApx) (hk : ∀ i a, g.op i = .mem a → a.o.kind = .mem) {d r o : Slot} {t : Ty} {c : Byte} {i : Imm}
    (hl : d.low = true ∧ r.low = true ∧ o.low = true) (hw : ((Leaf.rro d r o t c i).run g).Gives w ()) : (Leaf.rro d r o t c i).MadeBy g w := by
  replace hw : (opRRO (d.reg g) (r.reg g) (o.op g) t c (i.val g)).Gives w () := hw
  unfold opRRO at hw
  dsimp only at hw
  rw [Enc.throwIf_bind] at hw
  have hr : ∀ s : Slot, s.low = true → (s.reg g).hasRex2 = false := by
    intro s h
    rcases Slot.low_reg hn h with h' | ⟨a, h'⟩
    · exact h'
    · cases s with
      | a j =>
        have := hk j a h'
        unfold Slot.reg
        rw [h']
        show a.o.hasRex2 = false
        unfold Reg.hasRex2 Reg.isREG
        rw [this]; rfl
      | _ => cases h'
  have hn' : (d.reg g).nf = false := by
    have := Slot.low_op hn hl.1
    unfold Operand.hasRex2NFZU at this
    simp only [Bool.or_eq_false_iff] at this
    exact this.1.2
  have ho : (o.op g).hasRex2 = false := by
    have := Slot.low_op hn hl.2.2
    unfold Operand.hasRex2NFZU at this
    simp only [Bool.or_eq_false_iff] at this
    exact this.1.1
  rw [hr d hl.1, hr r hl.2.1, ho, hn'] at hw
  obtain ⟨hb, hw⟩ := hw
  rw [Bool.or_eq_false_iff] at hb
  refine ⟨_, _, _, _, _, _, ⟨?_, rfl, rfl, rfl, by simpa using hb.1, fun h => ?_⟩, hw⟩
  · split <;> simp
  · have := hb.2
    rw [h] at this
    simpa using this

theorem Leaf.made_amx (ht : g.Are ps) (hn : g.NoApx) {x m : Slot} (hx : x.low = true) (hl : m.low = true) (hm : m.par ps = some .addr) {t : Ty} {c : Byte}
    (hT : (T_APX ||| t).has T_MUST_EVEX = false) (hr : (x.op g).isMEM = false)
    (hw : ((Leaf.amx x m t c).run g).Gives w ()) : (Leaf.amx x m t c).MadeBy g w := by
  replace hw : (opAMX (x.reg g) (m.mem g) t c).Gives w () := hw
  unfold opAMX at hw
  dsimp only at hw
  rw [Enc.throwIf_bind] at hw
  have e := Slot.mem_op ht hm
  have h1 : (Operand.mem { m.mem g with opt := false }).hasRex2NFZU = false := by
    have := Slot.low_op hn hl
    rw [e] at this
    exact this
  have h2 : (Operand.reg (x.reg g)).hasRex2NFZU = false := by
    have := Slot.low_op hn hx
    unfold Slot.reg
    cases ho : x.op g with
    | reg q => rw [ho] at this; exact this
    | mem a => rw [ho] at hr; cases hr
  rw [opROO_no hT h1 h2] at hw
  have hw := hw.2
  rw [Enc.gives_bind] at hw
  obtain ⟨w1, b, w2, hb, hw, rfl⟩ := hw
  obtain ⟨rfl, rfl⟩ := Enc.gives_pure.mp hb
  rw [if_neg Bool.false_ne_true] at hw
  exact ⟨_, _, _, _, _, _, ⟨rfl, rfl, rfl, rfl⟩, hw⟩

theorem Leaf.made (hg : g.Good) (ht : g.Are ps) {l : Leaf} (hs : l.sends ps g.ops.length = true) (hn : l.viaRoo = true → g.NoApx) (hw : (l.run g).Gives w ()) :
    l.MadeBy g w := by
  unfold Leaf.sends at hs
  rw [Bool.and_eq_true, Bool.not_eq_true', List.isEmpty_eq_false_iff] at hs
  obtain ⟨hne, hs⟩ := hs
  cases l with
  | avx3 x o1 o2 t c i =>
    obtain ⟨r, v, o, h, hw⟩ := made3 (show (opAVX_X_X_XM (x.reg g) (o1.op g) (o2.opt g) t c (i.val g)).Gives w () from hw)
    exact ⟨_, _, _, _, _, _, ⟨rfl, h⟩, hw⟩
  | avx2 x o t c i =>
    obtain ⟨r, v, o', ⟨rfl, h | ⟨h1, rfl, h2⟩⟩, hw⟩ := made3 (show (opAVX_X_X_XM (x.reg g) (.reg (cvtIdx0 (x.reg g))) (some (o.op g)) t c (i.val g)).Gives w () from hw)
    · cases h.1
    cases h1
    exact ⟨_, _, _, _, _, _, ⟨rfl, rfl, rfl, rfl, h2⟩, hw⟩
  | avxK k x o t c i =>
    replace hw : (opAVX_K_X_XM (k.reg g) (x.reg g) (o.op g) t c (i.val g)).Gives w () := hw
    unfold opAVX_K_X_XM at hw
    rw [Enc.throwIf_bind] at hw
    refine ⟨_, _, _, _, _, _, ⟨rfl, rfl, rfl, rfl, ?_⟩, hw.2⟩
    simpa only [Bool.and_eq_false_iff, Bool.not_eq_false', bne_eq_false_iff_eq] using hw.1
  | vex r v o t c i => exact ⟨_, _, _, _, _, _, ⟨rfl, rfl, rfl, rfl⟩, hw⟩
  | vexCB k o t c i =>
    replace hw : (Enc.lift ((k.reg g).changeBit (o.op g).bit) >>= fun r => opVex r none (o.op g) t c (i.val g)).Gives w () := hw
    rw [Enc.lift_bind] at hw
    obtain ⟨q, hq, hw⟩ := hw
    exact ⟨_, _, _, _, _, _, ⟨rfl, hq, rfl, rfl⟩, hw⟩
  | cvt x o t c => exact ⟨_, _, _, _, _, _, ⟨rfl, rfl, rfl, rfl⟩, hw⟩
  | cvt2 x o t c =>
    replace hw : (opCvt2 (x.reg g) (o.op g) t c).Gives w () := hw
    unfold opCvt2 checkCvt2 at hw
    rw [Enc.throwIf_bind] at hw
    exact ⟨_, _, _, _, _, _, ⟨rfl, rfl, rfl, rfl, made_cvt hw.1⟩, hw.2⟩
  | cvt3 x y o t t6 t3 c =>
    replace hw : (opCvt3 (x.reg g) (y.reg g) (o.op g) t t6 t3 c).Gives w () := hw
    unfold opCvt3 at hw
    dsimp only at hw
    rw [Enc.throwIf_bind] at hw
    obtain ⟨hk, hw⟩ := hw
    rw [Bool.not_eq_false', Bool.and_eq_true, Bool.and_eq_true, Bool.or_eq_true] at hk
    obtain ⟨⟨h1, h2⟩, h3⟩ := hk
    refine ⟨_, _, _, _, _, _, ⟨?_, rfl, rfl, h1, h2, ?_⟩, hw⟩
    · split <;> simp
    · cases ho : o.op g with
      | mem a =>
        right
        have := Slot.kind_mem hg _ _ ho
        rw [if_neg (by show ¬ (a.o.isREG = true); simp [Reg.isREG, this])]
        exact ⟨rfl, rfl⟩
      | reg q =>
        left
        rw [ho] at h3
        have h3 : q.isREG 96 = true := h3.resolve_right (by simp [Operand.isMEM])
        refine ⟨q, rfl, h3, ?_⟩
        have : q.isREG = true := by
          unfold Reg.isREG at h3 ⊢
          simp only [Bool.and_eq_true, beq_iff_eq] at h3
          simp [h3.1]
        rw [if_pos (show (Operand.reg q).isREG = true from this)]; rfl
  | cvt5 x o t c =>
    replace hw : (opCvt5 (x.reg g) (o.op g) t c).Gives w () := hw
    unfold opCvt5 at hw
    rw [Enc.throwIf_bind] at hw
    obtain ⟨hk, hw⟩ := hw
    rw [Bool.not_eq_false', Bool.and_eq_true] at hk
    exact ⟨_, _, _, _, _, _, ⟨rfl, hk.1, hk.2, rfl, rfl, rfl⟩, hw⟩
  | cvt6 x y o t c =>
    replace hw : (opCvt6 (x.reg g) (y.reg g) (o.op g) t c).Gives w () := hw
    unfold opCvt6 at hw
    dsimp only at hw
    split at hw
    · rename_i h
      refine ⟨_, _, _, _, _, _, ⟨rfl, rfl, rfl, rfl, ?_⟩, hw⟩
      simpa only [Bool.or_eq_true, Bool.and_eq_true, beq_iff_eq, and_assoc] using h
    · exact (Enc.gives_throw.mp hw).elim
  | encoding x y o t c i tv te s =>
    replace hw : (opEncoding (g.dflt s) (x.reg g) (y.reg g) (o.opt g) t c g.enc (i.val g) tv te s).Gives w () := hw
    unfold opEncoding at hw
    rw [Enc.lift_bind] at hw
    obtain ⟨u, hu, hw⟩ := hw
    have hu : t ||| u ∈ encTys t tv te := by
      rcases orEvexIf_cases hu with rfl | rfl <;> simp [encTys]
    obtain ⟨r, v, o, h, hw⟩ := made3 hw
    exact ⟨_, _, _, _, _, _, ⟨hu, h⟩, hw⟩
  | cvt2Enc x o t c tv te s =>
    replace hw : (Enc.lift (orEvexIf (g.dflt s) g.enc tv te s) >>= fun u => opCvt2 (x.reg g) (o.op g) (t ||| u) c).Gives w () := hw
    rw [Enc.lift_bind] at hw
    obtain ⟨u, hu, hw⟩ := hw
    unfold opCvt2 checkCvt2 at hw
    rw [Enc.throwIf_bind] at hw
    refine ⟨_, _, _, _, _, _, ⟨?_, rfl, rfl, rfl, made_cvt hw.1⟩, hw.2⟩
    rcases orEvexIf_cases hu with rfl | rfl <;> simp [encTys]
  | vmov o x t c m =>
    replace hw : (opVmov (o.op g) (x.reg g) t c m).Gives w () := hw
    unfold opVmov at hw
    rw [Enc.throwIf_bind] at hw
    refine ⟨_, _, _, _, _, _, ⟨rfl, rfl, rfl, rfl, ?_⟩, hw.2⟩
    have h := hw.1
    cases m with
    | true => simpa only [if_true, Bool.and_eq_false_iff, Bool.not_eq_false', Bool.or_eq_true, Bool.and_eq_true, or_assoc] using h
    | false => simpa only [Bool.false_eq_true, if_false, Bool.and_eq_false_iff, Bool.not_eq_false'] using h
  | gather => exact Leaf.made_gather hw
  | gather2 => exact Leaf.made_gather2 hw
  | gatherFetch m x t c k =>
    replace hw : (opGatherFetch (m.mem g) (x.reg g) t c k).Gives w () := hw
    unfold opGatherFetch at hw
    rw [Enc.throwIf_bind] at hw
    obtain ⟨hz, hw⟩ := hw
    rw [Enc.throwIf_bind] at hw
    exact ⟨_, _, _, _, _, _, ⟨rfl, rfl, rfl, rfl, hz, by simpa using hw.1⟩, hw.2⟩
  | rro =>
    simp only [Bool.and_eq_true] at hs
    exact Leaf.made_rro (hn rfl) hg.kind ⟨hs.1.1, hs.1.2, hs.2⟩ hw
  | amx =>
    simp only [Bool.and_eq_true, beq_iff_eq, Bool.not_eq_true'] at hs
    obtain ⟨⟨⟨⟨h1, h2⟩, h3⟩, h4⟩, h5⟩ := hs
    exact Leaf.made_amx ht (hn rfl) h1 h2 h3 h4 (Slot.not_mem ht h5) hw
  | kmov =>
    simp only [Bool.and_eq_true, beq_iff_eq, Bool.not_eq_true'] at hs
    obtain ⟨⟨⟨⟨h1, h2⟩, h3⟩, h4⟩, h5⟩ := hs
    exact Leaf.made_kmov (hn rfl) h1 h2 ⟨h3, h4⟩ (Slot.not_mem ht h5) hw
  | _ => exact absurd rfl hne

/-- The call a body ends in for these arguments, and the last check before it. -/
def Body.leafAt (g : Args) : Body → Option (Option (Check × Slot × Slot) × Leaf)
  | leaf l => some (none, l)
  | guard _ _ b | pre _ _ b | apx _ _ _ _ _ b => b.leafAt g
  | check c x o b => (b.leafAt g).map fun p => (some (c, x, o), p.2)
  | ite c t e => if c g then t.leafAt g else e.leafAt g
  | _ => none

/-- The check was passed. -/
def Passes (g : Args) : Option (Check × Slot × Slot) → Prop
  | none => True
  | some (.cvt1, x, o) => (o.op g).isMEM = true ∨ (((x.reg g).isXMM = true ∨ (x.reg g).isYMM = true) ∧ (o.op g).hd.isXMM = true) ∨
      ((x.reg g).isZMM = true ∧ (o.op g).hd.isYMM = true)
  | some (.cvt4, x, o) => ((x.reg g).isXMM = true ∧ ((o.op g).hd.isXMM = true ∨ (o.op g).hd.isYMM = true ∨ (o.op g).isMEM = true) ∧ (o.op g).isBit 384 = true) ∨
      ((x.reg g).isYMM = true ∧ ((o.op g).hd.isZMM = true ∨ (o.op g).isMEM = true))

theorem Body.made (hg : g.Good) (ht : g.Are ps) {b : Body} (hs : b.sends ps g.ops.length = true) (hn : b.viaRoo = true → g.NoApx) {m : Enc Unit}
    (hm : b.run g = some m) (hw : m.Gives w ()) : ∃ c l, l ∈ b.leaves ∧ b.leafAt g = some (c, l) ∧ Passes g c ∧ l.MadeBy g w := by
  induction b generalizing m w with
  | leaf l =>
    cases hm
    exact ⟨none, l, List.mem_singleton.mpr rfl, rfl, trivial, Leaf.made hg ht hs hn hw⟩
  | guard bad err b ih =>
    obtain ⟨m', hm', rfl⟩ := Option.map_eq_some_iff.mp hm
    rw [Enc.throwIf_bind] at hw
    exact ih hs hn hm' hw.2
  | check c x op b ih =>
    obtain ⟨m', hm', rfl⟩ := Option.map_eq_some_iff.mp hm
    have hw : ((c.run (x.reg g) (op.op g)) >>= fun _ => m').Gives w () := hw
    have : Passes g (some (c, x, op)) ∧ (m').Gives w () := by
      cases c
      · change (checkCvt1 _ _ >>= _).Gives w () at hw
        unfold checkCvt1 at hw
        rw [Enc.throwIf_bind] at hw
        refine ⟨?_, hw.2⟩
        simpa only [Passes, Bool.and_eq_false_iff, Bool.not_eq_false', Bool.or_eq_true, Bool.and_eq_true, or_assoc] using hw.1
      · change (checkCvt4 _ _ >>= _).Gives w () at hw
        unfold checkCvt4 at hw
        rw [Enc.throwIf_bind] at hw
        refine ⟨?_, hw.2⟩
        simpa only [Passes, Bool.and_eq_false_iff, Bool.not_eq_false', Bool.or_eq_true, Bool.and_eq_true, or_assoc, and_assoc] using hw.1
    obtain ⟨c', l, h1, h2, _, h4⟩ := ih hs hn hm' this.2
    exact ⟨_, l, h1, by show (Body.leafAt g b).map _ = _; rw [h2]; rfl, this.1, h4⟩
  | ite c t e iht ihe =>
    unfold Body.sends at hs
    rw [Bool.and_eq_true] at hs
    unfold Body.viaRoo at hn
    unfold Body.run at hm
    split at hm
    · rename_i hc
      obtain ⟨c', l, hl, h2, h⟩ := iht hs.1 (fun h => hn (by rw [h]; rfl)) hm hw
      exact ⟨c', l, List.mem_append_left _ hl, by show (if c g then _ else _) = _; rw [if_pos hc]; exact h2, h⟩
    · rename_i hc
      obtain ⟨c', l, hl, h2, h⟩ := ihe hs.2 (fun h => hn (by rw [h, Bool.or_true])) hm hw
      exact ⟨c', l, List.mem_append_right _ hl, by show (if c g then _ else _) = _; rw [if_neg hc]; exact h2, h⟩
  | apx d a b' t c e ih =>
    unfold Body.sends at hs
    simp only [Bool.and_eq_true, beq_iff_eq, Bool.not_eq_true'] at hs
    obtain ⟨⟨⟨⟨rfl, h2⟩, h3⟩, h4⟩, h5⟩ := hs
    obtain ⟨m', hm', rfl⟩ := Option.map_eq_some_iff.mp hm
    have hN := hn rfl
    change (opROO .nil _ _ t c >>= _).Gives w () at hw
    rw [opROO_no h4 (Slot.low_op hN h2) (Slot.low_op hN h3), Enc.gives_bind] at hw
    obtain ⟨w1, x, w2, hb, hw, rfl⟩ := hw
    obtain ⟨rfl, rfl⟩ := Enc.gives_pure.mp hb
    rw [if_neg Bool.false_ne_true] at hw
    exact ih h5 (fun _ => hN) hm' hw
  | _ => cases hs

end Mn
end Xbyak
