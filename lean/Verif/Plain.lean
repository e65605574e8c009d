import Verif.Accept
/-!
# Which operands the vector encoders accept

For operands without rounding that have at most one opmask register the result of `opVex` has a closed form: it throws only if EVEX is needed and the instruction has
no EVEX form, or if a mask or a broadcast is given with memory and the instruction does not have it.
-/
set_option linter.unusedSimpArgs false
namespace Xbyak
open E
open Enc

/-- A register without rounding and with no mask but `m`. -/
structure Reg.Plain (m : BitVec 3) (r : Reg) : Prop where
  mask : r.mask = 0 ∨ r.mask = m
  rnd : r.rnd = 0

/-- The address without mask and broadcast. -/
def Addr.strip (a : Addr) : Addr := { a with o := { a.o with mask := 0, zero := false }, broadcast := false }

/-- An operand without rounding and with no mask but `m`; an address as programs write it, possibly with a mask and broadcast. -/
def Operand.Plain (m : BitVec 3) : Operand → Prop
  | .reg r => r.Plain m
  | .mem a => (∃ n, Mn.Written n a.strip) ∧ (a.o.mask = 0 ∨ a.o.mask = m)

theorem Operand.Plain.hd {m : BitVec 3} {o : Operand} (h : o.Plain m) : o.hd.Plain m := by
  cases o with
  | reg r => exact h
  | mem a =>
    obtain ⟨⟨n, h⟩, hm⟩ := h
    refine ⟨hm, ?_⟩
    have := congrArg Reg.rnd h.o
    exact this

namespace Mn

/-- The register makes EVEX necessary. -/
def wide (r : Reg) : Bool := r.isZMM || r.isExtIdx2 || r.mask != 0

def wideO : Option Reg → Bool
  | some q => wide q
  | none => false

/-- `opVex` returns. -/
def okVex (r : Reg) (p : Option Reg) (o : Operand) (t : Ty) : Bool :=
  match o with
  | .reg b => t.has (T_EVEX ||| T_MUST_EVEX) || !(wide r || wideO p || (t.has T_MUST_EVEX || wide b))
  | .mem a => (t.has (T_EVEX ||| T_MUST_EVEX) && (a.o.mask == 0 || t.has T_M_K) && (!a.broadcast || t.has (T_B32 ||| T_B64))) ||
      !(wide r || wideO p || (t.has (T_MUST_EVEX ||| T_MEM_EVEX) || a.broadcast || a.o.mask != 0))

theorem hasEvex_plain {m : BitVec 3} {r : Reg} (h : r.Plain m) : r.hasEvex = wide r := by
  unfold Reg.hasEvex wide; rw [h.rnd]; simp

/-- Base and index of an address as programs write it. -/
structure Small (r : Reg) : Prop where
  plain : ∀ m, r.Plain m
  ext : r.isExtIdx2 = false
  simd : r.isSIMD = false
  zmm : r.isZMM = false
  vec : r.isBit 896 = false
  nums : r.idx.toNat < 16

theorem small_of {r : Reg} (h : r = .nil ∨ ∃ i, i.toNat < 16 ∧ (r = .gp i 32 ∨ r = .gp i 64)) : Small r := by
  have ext : ∀ i : BitVec 5, i.toNat < 16 → i.getLsbD 4 = false := by decide +kernel
  rcases h with rfl | ⟨i, hi, rfl | rfl⟩
  · exact ⟨fun _ => ⟨.inl rfl, rfl⟩, rfl, rfl, rfl, by decide, by decide⟩
  · exact ⟨fun _ => ⟨.inl rfl, rfl⟩, ext i hi, rfl, rfl, by simp [Reg.isBit, Reg.gp], hi⟩
  · exact ⟨fun _ => ⟨.inl rfl, rfl⟩, ext i hi, rfl, rfl, by simp [Reg.isBit, Reg.gp], hi⟩

section
variable {n : Nat} {a : Addr} (h : Written n a)
include h

theorem Written.small : Small a.getRegExp.base ∧ Small a.getRegExp.index ∧ isInInt32 a.getRegExp.disp = true := by
  have hb := small_of h.base
  have hi := small_of h.index
  unfold Addr.getRegExp RegExp.optimize
  rw [h.opt]
  simp only [if_true]
  split
  · exact ⟨hi, hi, h.disp⟩
  · exact ⟨hb, hi, h.disp⟩

theorem Written.noRex2 : a.hasRex2 = false := by
  unfold Addr.hasRex2 Reg.hasRex2
  rw [(small_of h.base).ext, (small_of h.index).ext, Bool.and_false, Bool.and_false]; rfl

theorem Written.opAddr (o : Reg) (bc pv : Bool) (d m : Nat) (r : BitVec 5) :
    (opAddr { o := o, e := a.e, label := a.label, mode := a.mode, broadcast := bc, immSize := m, disp8N := d, permitVsib := pv, opt := a.opt } r).res = .ok () := by
  have hv : a.e.isVsib = false := (small_of h.index).vec
  unfold E.opAddr Addr.isVsib
  encres
  rw [hv]
  simp only [Bool.and_false, cond_false, ok_bind]
  rcases h.mode with hm | ⟨hm, _, _⟩ <;> rw [hm] <;> dsimp only
  · rw [setSIB_res]
    have := h.small.2.2
    unfold Addr.getRegExp at this ⊢
    dsimp only
    rw [this]; rfl
  · encres
    rw [setModRM_res]
    cases a.label with
    | some l => rfl
    | none => encres; rw [h.disp]; rfl
end

theorem dup_plain : ∀ m a b c : BitVec 3, (a = 0 ∨ a = m) → (b = 0 ∨ b = m) → (c = 0 ∨ c = m) → ((a ≠ 0 ∧ a ≠ a ||| b ||| c) ∨ (b ≠ 0 ∧ b ≠ a ||| b ||| c) ∨ (c ≠ 0 ∧ c ≠ a ||| b ||| c)) = False := by
  intro m a b c ha hb hc
  have h : m ||| m = m := BitVec.or_self
  rcases ha with rfl | rfl <;> rcases hb with rfl | rfl <;> rcases hc with rfl | rfl <;> simp

theorem dup_ok {m a b c : BitVec 3} (ha : a = 0 ∨ a = m) (hb : b = 0 ∨ b = m) (hc : c = 0 ∨ c = m) (e : Err) : ∃ k, verifyDuplicate a b c e = .ok k := by
  unfold verifyDuplicate
  dsimp only
  rw [if_neg (by rw [dup_plain m _ _ _ ha hb hc]; exact id)]
  exact ⟨_, rfl⟩

theorem evex_plain {m : BitVec 3} {r b : Reg} {v : Option Reg} (hr : r.Plain m) (hb : b.Plain m) (hv : ∀ q, v = some q → q.Plain m) (t : Ty) (c : Byte) (x : Option Reg) (bc : Bool) (aaa : BitVec 3)
    (VL : Nat) (hi : Bool) :
    (t.has (T_EVEX ||| T_MUST_EVEX) = false → (evex r b v t c x bc aaa VL hi).res = .error .EVEX_IS_INVALID) ∧
    (t.has (T_EVEX ||| T_MUST_EVEX) = true → ∃ n, (evex r b v t c x bc aaa VL hi).res = .ok n) := by
  constructor <;> intro ht <;> unfold evex <;> encres <;> rw [ht]
  · rfl
  · simp only [Bool.not_true, cond_false, ok_bind]
    unfold evexLen
    rw [hr.rnd, hb.rnd]
    cases v with
    | none =>
      obtain ⟨k, hd⟩ := dup_ok hb.mask hr.mask (.inl rfl) .OPMASK_IS_ALREADY_SET
      dsimp only
      rw [hd]
      cases decide (aaa = 0) <;> exact ⟨_, rfl⟩
    | some q =>
      obtain ⟨k, hd⟩ := dup_ok hb.mask hr.mask (hv q rfl).mask .OPMASK_IS_ALREADY_SET
      dsimp only
      rw [hd, (hv q rfl).rnd]
      cases decide (aaa = 0) <;> exact ⟨_, rfl⟩

theorem low16 : ∀ i j k : BitVec 5, i.getLsbD 4 = false → j.getLsbD 4 = false → k.getLsbD 4 = false → decide ((i ||| j ||| k).toNat ≥ 16) = false := by
  intro i j k h1 h2 h3
  rw [ge16_bit]
  rw [BitVec.getLsbD_or, BitVec.getLsbD_or, h1, h2, h3]; rfl

theorem vex_plain {r b : Reg} {v : Option Reg} (hr : r.isExtIdx2 = false) (hb : b.isExtIdx2 = false) (hv : ∀ q, v = some q → q.isExtIdx2 = false) (t : Ty) (c : Byte) (x : Bool) :
    (vex r b v t c x).res = .ok () := by
  unfold vex
  encres
  rw [low16 _ _ _ (by cases v with | none => rfl | some q => exact hv q rfl) hr hb]
  simp only [cond_false, ok_bind]
  cases !b.isExtIdx && !x && !t.has T_W1 && t.has T_0F <;> rfl

theorem wide_ext2 {r : Reg} (h : wide r = false) : r.isExtIdx2 = false := by
  unfold wide at h
  simp only [Bool.or_eq_false_iff] at h
  exact h.1.2

/-- The computation returns. -/
def isOk {α : Type} : Except Err α → Bool
  | .ok _ => true
  | .error _ => false

/-- Which operands `opVex` accepts. -/
theorem opVex_plain {m : BitVec 3} {r : Reg} {p : Option Reg} {o : Operand} (hr : r.Plain m) (hp : ∀ q, p = some q → q.Plain m) (ho : o.Plain m) (t : Ty) (c : Byte) (i : Option Byte) :
    isOk (opVex r p o t c i).res = okVex r p o t := by
  unfold opVex okVex
  have hx : wideO p = false → ∀ q, p = some q → q.isExtIdx2 = false := fun h q e => by subst e; exact wide_ext2 h
  cases o with
  | reg b =>
    dsimp only; encres
    have hg : regEvex r p b t = (wide r || wideO p || (t.has T_MUST_EVEX || wide b)) := by
      unfold regEvex
      rw [hasEvex_plain hr, hasEvex_plain (r := b) ho]
      cases p with
      | none => cases wide r <;> cases wide b <;> cases t.has T_MUST_EVEX <;> rfl
      | some q => dsimp only [wideO]; rw [hasEvex_plain (hp q rfl)]; cases wide r <;> cases wide b <;> cases t.has T_MUST_EVEX <;> cases wide q <;> rfl
    rw [hg]
    simp only [dbOpt_res, setModRM_res, ok_bind]
    cases hw : (wide r || wideO p || (t.has T_MUST_EVEX || wide b))
    · simp only [Bool.or_eq_false_iff] at hw
      rw [vex_plain (wide_ext2 hw.1.1) (wide_ext2 hw.2.2) (hx hw.1.2)]
      simp [ok_bind, isOk]
    · obtain ⟨e1, e2⟩ := evex_plain hr ho hp t c none false 0 0 false
      cases ht : t.has (T_EVEX ||| T_MUST_EVEX)
      · rw [e1 ht]; rfl
      · obtain ⟨n, e⟩ := e2 ht; rw [e]; rfl
  | mem a =>
    obtain ⟨⟨n, ho⟩, hm⟩ := ho
    dsimp only; encres
    have hg : memEvex r p a t = (wide r || wideO p || (t.has (T_MUST_EVEX ||| T_MEM_EVEX) || a.broadcast || a.o.mask != 0)) := by
      unfold memEvex
      rw [hasEvex_plain hr, show a.hasRex2 = false from ho.noRex2]
      cases p with
      | none => cases wide r <;> cases t.has (T_MUST_EVEX ||| T_MEM_EVEX) <;> simp [wideO]
      | some q => dsimp only [wideO]; rw [hasEvex_plain (hp q rfl)]; cases wide r <;> cases t.has (T_MUST_EVEX ||| T_MEM_EVEX) <;> cases wide q <;> simp
    obtain ⟨hb, -⟩ : Small a.getRegExp.base ∧ _ := ho.small
    have ha := fun o bc pv d m r => ho.opAddr o bc pv d m r
    simp only [Addr.strip] at ha
    rw [hg]
    simp only [dbOpt_res, ha, ok_bind]
    cases hw : (wide r || wideO p || (t.has (T_MUST_EVEX ||| T_MEM_EVEX) || a.broadcast || a.o.mask != 0))
    · simp only [Bool.or_eq_false_iff] at hw
      rw [vex_plain (wide_ext2 hw.1.1) hb.ext (hx hw.1.2)]
      simp [ok_bind, ha, isOk]
    · obtain ⟨e1, e2⟩ := evex_plain hr (hb.plain m) hp t c (some a.getRegExp.index) a.broadcast a.o.mask (if a.getRegExp.isVsib then a.getRegExp.index.bit else 0)
        (a.getRegExp.index.isSIMD && a.getRegExp.index.isExtIdx2)
      have hR : isOk (evex r a.getRegExp.base p t c (some a.getRegExp.index) a.broadcast a.o.mask (if a.getRegExp.isVsib then a.getRegExp.index.bit else 0)
          (a.getRegExp.index.isSIMD && a.getRegExp.index.isExtIdx2)).res = t.has (T_EVEX ||| T_MUST_EVEX) := by
        cases ht : t.has (T_EVEX ||| T_MUST_EVEX)
        · rw [e1 ht]; rfl
        · obtain ⟨n, e⟩ := e2 ht; rw [e]; rfl
      rw [← hR]
      generalize (evex r a.getRegExp.base p t c (some a.getRegExp.index) a.broadcast a.o.mask (if a.getRegExp.isVsib then a.getRegExp.index.bit else 0)
          (a.getRegExp.index.isSIMD && a.getRegExp.index.isExtIdx2)).res = R
      have hn : (a.o.mask != 0) = !(a.o.mask == 0) := rfl
      rw [hn]
      cases a.o.mask == 0 <;> cases t.has T_M_K <;> cases a.broadcast <;> cases t.has (T_B32 ||| T_B64) <;> cases R <;> first | rfl | simp [ok_bind, ha, isOk, Except.bind]

/-! ## The other helpers -/

/-- `opAVX_X_X_XM` returns. -/
def okAvx3 (x1 : Reg) (op1 : Operand) (op2 : Option Operand) (t : Ty) : Bool :=
  let x2 := match op2 with | none => x1 | some _ => op1.hd
  let op := match op2 with | none => op1 | some o => o
  ((x1.isXMM && x2.isXMM) || (t.has T_YMM && ((x1.isYMM && x2.isYMM) || (x1.isZMM && x2.isZMM)))) && okVex x1 (some x2) op t

/-- `checkCvt1`, `checkCvt2`, `checkCvt4` return. -/
def okCvt1 (x : Reg) (op : Operand) : Bool := op.isMEM || ((x.isXMM || x.isYMM) && op.hd.isXMM) || (x.isZMM && op.hd.isYMM)
def okCvt2 (x : Reg) (op : Operand) : Bool := (x.isXMM && (op.hd.isXMM || op.hd.isYMM || op.isMEM)) || (x.isYMM && (op.hd.isZMM || op.isMEM))
def okCvt4 (x : Reg) (op : Operand) : Bool :=
  (x.isXMM && (op.hd.isXMM || op.hd.isYMM || op.isMEM) && op.isBit 384) || (x.isYMM && (op.hd.isZMM || op.isMEM))

/-- `opCvt` returns. -/
def okCvt (x : Reg) (op : Operand) (t : Ty) : Bool :=
  okVex (x.setKind (if x.isXMM then (if op.isBit 256 then Kind.ymm else .xmm) else .zmm)) (some (.xmm 0)) op t

def validBit (n : Nat) : Bool := Nat.beq n 8 || Nat.beq n 16 || Nat.beq n 32 || Nat.beq n 64 || Nat.beq n 128 || Nat.beq n 256 || Nat.beq n 512 || Nat.beq n 8192

theorem validBit_iff (n : Nat) : validBit n = true ↔ n = 8 ∨ n = 16 ∨ n = 32 ∨ n = 64 ∨ n = 128 ∨ n = 256 ∨ n = 512 ∨ n = 8192 := by
  unfold validBit; simp only [Bool.or_eq_true, Nat.beq_eq, or_assoc]

theorem Plain.setKind {m : BitVec 3} {r : Reg} (h : r.Plain m) (k : Kind) : (r.setKind k).Plain m := by
  unfold Reg.setKind; split <;> exact ⟨h.mask, h.rnd⟩

theorem isOk_cond (c : Bool) (e : Err) : isOk (cond c (.ok ()) (.error e)) = c := by cases c <;> rfl
theorem isOk_throw (c : Bool) (e : Err) (x : Except Err Unit) : isOk ((cond c (.error e) (.ok ()) : Except Err Unit).bind fun _ => x) = (!c && isOk x) := by cases c <;> rfl
theorem isOk_throw1 (c : Bool) (e : Err) : isOk (cond c (.error e) (.ok ()) : Except Err Unit) = !c := by cases c <;> rfl

section
variable {m : BitVec 3} {x y : Reg} {o : Operand} (hx : x.Plain m) (hy : y.Plain m) (ho : o.Plain m) (t : Ty) (c : Byte) (i : Option Byte)
include hx ho

theorem opAVX3_plain {p : Option Operand} (hp : ∀ q, p = some q → q.Plain m) : isOk (opAVX_X_X_XM x o p t c i).res = okAvx3 x o p t := by
  unfold opAVX_X_X_XM okAvx3
  cases p with
  | none => dsimp only; encres; rw [isOk_throw, opVex_plain hx (fun q e => by cases e; exact hx) ho, Bool.not_not]
  | some q => dsimp only; encres; rw [isOk_throw, opVex_plain hx (fun q e => by cases e; exact ho.hd) (hp q rfl), Bool.not_not]

include hy in
theorem opAVXK_plain : isOk (opAVX_K_X_XM x y o t c i).res = ((o.isMEM || decide (y.kind = o.hd.kind)) && okVex x (some y) o t) := by
  unfold opAVX_K_X_XM
  encres
  rw [isOk_throw, opVex_plain hx (fun q e => by cases e; exact hy) ho]
  congr 1
  cases o.isMEM <;> simp [bne, Bool.beq_eq_decide_eq]

theorem opAVX2_plain : isOk (opAVX_X_XM_IMM x o t c i).res = okAvx3 x (.reg (cvtIdx0 x)) (some o) t := by
  unfold opAVX_X_XM_IMM
  exact opAVX3_plain hx (o := .reg (cvtIdx0 x)) (by
    unfold cvtIdx0
    split
    · exact ⟨.inl rfl, rfl⟩
    · split <;> exact ⟨.inl rfl, rfl⟩) t c i (fun q e => by cases e; exact ho)

theorem opCvt_plain : isOk (opCvt x o t c).res = okCvt x o t := by
  unfold opCvt okCvt
  dsimp only
  rw [opVex_plain (Plain.setKind hx _) (fun q e => by cases e; exact ⟨.inl rfl, rfl⟩) ho]

omit hx ho in
theorem checkCvt1_ok (x : Reg) (o : Operand) : isOk (checkCvt1 x o).res = okCvt1 x o := by
  unfold checkCvt1 okCvt1; encres; rw [isOk_throw1]
  cases o.isMEM <;> cases x.isXMM <;> cases x.isYMM <;> cases x.isZMM <;> cases o.hd.isXMM <;> cases o.hd.isYMM <;> rfl
omit hx ho in
theorem checkCvt2_ok (x : Reg) (o : Operand) : isOk (checkCvt2 x o).res = okCvt2 x o := by
  unfold checkCvt2 okCvt2; encres; rw [isOk_throw1, Bool.not_and, Bool.not_not, Bool.not_not]
omit hx ho in
theorem checkCvt4_ok (x : Reg) (o : Operand) : isOk (checkCvt4 x o).res = okCvt4 x o := by
  unfold checkCvt4 okCvt4; encres; rw [isOk_throw1, Bool.not_and, Bool.not_not, Bool.not_not]

theorem opCvt2_plain : isOk (opCvt2 x o t c).res = (okCvt2 x o && okCvt x o t) := by
  unfold opCvt2; encres
  rw [← checkCvt2_ok, ← opCvt_plain hx ho t c]
  cases (checkCvt2 x o).res <;> rfl

include hy in
theorem opCvt3_plain (t64 t32 : Ty) : isOk (opCvt3 x y o t t64 t32 c).res =
    (x.isXMM && y.isXMM && (o.isREG 96 || o.isMEM) && okVex x (some y) (if o.isREG then .reg (.xmm o.hd.idx) else o) (t ||| (if o.isBit 64 then t64 else t32))) := by
  unfold opCvt3; encres
  rw [isOk_throw, opVex_plain hx (fun q e => by cases e; exact hy) (by
    split
    · exact ⟨.inl rfl, rfl⟩
    · exact ho), Bool.not_not]

theorem opCvt5_plain : isOk (opCvt5 x o t c).res =
    (x.isXMM && o.isBit 896 && okVex (x.setKind (if o.isBit 128 then Kind.xmm else if o.isBit 256 then .ymm else .zmm)) (some (.xmm 0)) o t) := by
  unfold opCvt5; encres
  rw [isOk_throw, opVex_plain (Plain.setKind hx _) (fun q e => by cases e; exact ⟨.inl rfl, rfl⟩) ho, Bool.not_not]

include hy in
theorem opCvt6_plain : isOk (opCvt6 x y o t c).res =
    (((x.bit == 128 && (y.bit == 128 || y.bit == 256) && (y.bit == o.bit || o.isMEM)) || (x.bit == 256 && y.bit == 512 && (o.bit == y.bit || o.isMEM))) && okVex x (some y) o t) := by
  unfold opCvt6; dsimp only; encres
  cases (x.bit == 128 && (y.bit == 128 || y.bit == 256) && (y.bit == o.bit || o.isMEM)) || (x.bit == 256 && y.bit == 512 && (o.bit == y.bit || o.isMEM))
  · rfl
  · exact opVex_plain hx (fun q e => by cases e; exact hy) ho t c none

theorem opVmov_plain (m : Bool) : isOk (opVmov o x t c m).res =
    ((o.isMEM || if m then (o.hd.isXMM && x.isXMM) || (o.hd.isXMM && x.isYMM) || (o.hd.isYMM && x.isZMM) else o.hd.isXMM) && okVex x none o t) := by
  unfold opVmov; encres
  rw [isOk_throw, opVex_plain hx (fun q e => by cases e) ho]
  congr 1
  cases m <;> simp

theorem vexCB_plain (hk : x.kind = .opmask) : isOk ((lift (x.changeBit o.bit)) >>= fun r => opVex r none o t c i).res = (validBit o.bit && okVex x none o t) := by
  have hv : isOk (x.changeBit o.bit) = validBit o.bit ∧ ∀ r, x.changeBit o.bit = .ok r → r.Plain m ∧ okVex r none o t = okVex x none o t := by
    have hz : x.isZMM = false := by unfold Reg.isZMM; rw [hk]; rfl
    unfold Reg.changeBit Reg.setBit
    rw [hk]
    split
    · rename_i h
      refine ⟨?_, fun r e => by cases e⟩
      rw [← validBit_iff] at h
      simp only [isOk]; cases hv : validBit o.bit
      · rfl
      · exact absurd hv h
    · rename_i h
      rw [Decidable.not_not, ← validBit_iff] at h
      rw [h]
      split
      · exact ⟨rfl, fun r e => by cases e; exact ⟨hx, rfl⟩⟩
      · exact ⟨rfl, fun r e => by cases e; exact ⟨⟨hx.mask, hx.rnd⟩, by unfold okVex wide; rw [hz]; rfl⟩⟩
  encres
  cases hb : x.changeBit o.bit with
  | error e => rw [← hv.1, hb]; rfl
  | ok r =>
    obtain ⟨h1, h2⟩ := hv.2 r hb
    rw [← hv.1, hb, ← h2]
    show isOk (opVex r none o t c i).res = _
    rw [opVex_plain h1 (fun q e => by cases e) ho]; rfl
end

end Mn
end Xbyak
