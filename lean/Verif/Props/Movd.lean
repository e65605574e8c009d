import Verif.EncMore
import Verif.High
import Verif.Reads
import Verif.Spec.Movd
/-!
# vmovd and vmovw (C76)
-/
namespace Xbyak
open E

/-- An operand of `vmovd`/`vmovw` as a program can pass it, without opmask, zeroing and rounding. -/
def MovOK : Operand → Prop
  | .reg q => (q.kind = .xmm → q.bit = 128) ∧ (q.kind = .reg → q.bit ≤ 64) ∧ q.mask = 0 ∧ q.zero = false ∧ q.rnd = 0
  | .mem a => a.WF ∧ a.disp8N = 0 ∧ a.permitVsib = false ∧ a.e.index.kind ≠ .tmm ∧ a.mode ≠ .disp64 ∧ a.o.mask = 0 ∧
      a.getRegExp.base.mask = 0

/-- A register that is read from ModRM.rm: of the right kind, with this number. -/
def MovRm (fill : Act → BitVec 32) (bits : Nat) (vec : Bool) (h : X86.Head) (rm : X86.RM) : Operand → Prop
  | .reg q => ∃ n, rm = .reg n ∧ if vec then q.kind = .xmm ∧ X86.rmVec h n = q.idx else q.isREG bits = true ∧ X86.rmGpr h n = q.idx
  | .mem a => ∃ m, rm = .mem m ∧ a.Means fill h m

/-- What the helper passes to `opVex`. -/
theorem zeroExt_gives {dflt enc : PrefEnc} {op1 op2 : Operand} {T : Nat → Ty} {C : Nat → Byte} {bits : Nat} (k1 : ∀ a, op1 = .mem a → a.o.kind = .mem)
    (k2 : ∀ a, op2 = .mem a → a.o.kind = .mem) (hT : ∀ i, (T i).has T_YMM = false)
    {w : List Act} (hw : (opAVX10ZeroExt dflt op1 op2 T C enc bits).Gives w ()) :
    ∃ (x : Reg) (q : Operand) (dir vec : Bool), x.kind = .xmm ∧ ((dir = true ∧ op1 = .reg x ∧ op2 = q) ∨ (dir = false ∧ op1 = q ∧ op2 = .reg x)) ∧
      (∀ y, q = .reg y → if vec then y.kind = .xmm else y.isREG bits = true) ∧
      (opVex x (some (.xmm 0)) q (T (if vec then (if dir then 3 else 2) else if dir then 1 else 0))
        (C (if vec then (if dir then 3 else 2) else if dir then 1 else 0))).Gives w () := by
  have xk : ∀ r : Reg, r.isXMM = true → r.kind = .xmm := fun r h => by simpa [Reg.isXMM] using h
  have nx : ∀ a : Addr, a.o.kind = .mem → a.o.isXMM = false := fun a h => by simp [Reg.isXMM, h]
  have nr : ∀ (a : Addr) (b : Nat), a.o.kind = .mem → a.o.isREG b = false := fun a b h => by simp [Reg.isREG, h]
  have xr : ∀ (q : Reg) (b : Nat), q.isXMM = true → q.isREG b = false := fun q b h => by simp [Reg.isREG, xk q h]
  -- the last step, for the chosen register and operand
  have fin : ∀ (x : Reg) (q : Operand) (i : Nat), (opAVX_X_X_XM x (.reg (.xmm 0)) (some q) (T i) (C i)).Gives w () →
      x.isXMM = true ∧ (opVex x (some (.xmm 0)) q (T i) (C i)).Gives w () := by
    intro x q i h
    unfold opAVX_X_X_XM at h
    dsimp only at h
    rw [Enc.throwIf_bind] at h
    obtain ⟨h1, h2⟩ := h
    rw [hT i] at h1
    simp only [Bool.false_and, Bool.or_false, Bool.not_eq_false', Bool.and_eq_true] at h1
    exact ⟨h1.1, h2⟩
  -- the choice among the forms
  have pick : ∀ (q1 q2 : Operand) (r : Nat) (enc : PrefEnc),
      (if q1.hd.isXMM || (q1.isMEM && enc == .avx10v2) then opAVX_X_X_XM q2.hd (.reg (.xmm 0)) (some q1) (T (2 + r)) (C (2 + r))
        else if q1.isREG bits || q1.isMEM then opAVX_X_X_XM q2.hd (.reg (.xmm 0)) (some q1) (T r) (C r)
        else Enc.throw .BAD_COMBINATION).Gives w () →
      q2.hd.isXMM = true ∧ ∃ vec : Bool, (∀ y, q1 = .reg y → if vec then y.kind = .xmm else y.isREG bits = true) ∧
        (opVex q2.hd (some (.xmm 0)) q1 (T (if vec then 2 + r else r)) (C (if vec then 2 + r else r))).Gives w () := by
    intro q1 q2 r enc h
    split at h
    · rename_i hc
      obtain ⟨a, b⟩ := fin _ _ _ h
      refine ⟨a, true, fun y hy => ?_, b⟩
      subst hy
      simp only [Operand.isMEM, Bool.false_and, Bool.or_false] at hc
      exact xk _ hc
    · split at h
      · rename_i hc
        obtain ⟨a, b⟩ := fin _ _ _ h
        refine ⟨a, false, fun y hy => ?_, b⟩
        subst hy
        simp only [Operand.isMEM, Bool.or_false] at hc
        exact hc
      · exact absurd h.2 (by intro h; cases h)
  unfold opAVX10ZeroExt at hw
  dsimp only at hw
  rw [Enc.throwIf_bind] at hw
  obtain ⟨hm, hw⟩ := hw
  rw [Enc.lift_bind] at hw
  obtain ⟨e, _, hw⟩ := hw
  obtain ⟨hx, vec, hv, hw⟩ := pick _ _ _ _ hw
  cases op1 with
  | mem a =>
    cases op2 with
    | mem b => simp [Operand.isMEM] at hm
    | reg y =>
      cases hy : y.isXMM with
      | true =>
        simp only [Operand.isMEM, Operand.hd, if_true, hy] at hw hv
        exact ⟨y, .mem a, false, vec, xk _ hy, .inr ⟨rfl, rfl, rfl⟩, fun _ h => (by cases h), by simpa using hw⟩
      | false => simp [Operand.isMEM, Operand.hd, hy, nx a (k1 a rfl)] at hx
  | reg x =>
    cases hq : x.isXMM with
    | true =>
      exact ⟨x, op2, true, vec, xk _ hq, .inl ⟨rfl, rfl, rfl⟩, by simpa [Operand.isMEM, Operand.hd, hq] using hv,
        by simpa [Operand.isMEM, Operand.hd, hq] using hw⟩
    | false =>
      cases op2 with
      | mem b => simp [Operand.isMEM, Operand.hd, hq, nx b (k2 b rfl)] at hx
      | reg y =>
        exact ⟨y, .reg x, false, vec, xk _ (by simpa [Operand.isMEM, Operand.hd, hq] using hx), .inr ⟨rfl, rfl, rfl⟩,
          by simpa [Operand.isMEM, Operand.hd, hq] using hv, by simpa [Operand.isMEM, Operand.hd, hq] using hw⟩

theorem selects_zero {k : BitVec 3} {l : List (BitVec 3)} (h : Selects k l) (hl : ∀ a ∈ l, a = 0) : k = 0 := by
  rcases h.2 with h | h
  · exact h
  · exact hl _ h

theorem base_le {a : Addr} (ha : a.WF) : a.getRegExp.base.bit ≤ 64 := by
  by_cases hm : a.mode = .modRM
  · rcases (getRegExp_wf (ha.exp hm).1).base with h | h
    · rw [h]; decide
    · rcases h.2.1 with h | h <;> rw [h] <;> decide
  · rw [nil_getRegExp a (ha.rip hm), (ha.rip hm).1]; decide

theorem has_or {t a b : Ty} (h : t.has a = true) : t.has (a ||| b) = true := by
  cases h' : t.has (a ||| b) with
  | true => rfl
  | false =>
    simp only [Ty.has, bne_eq_false_iff_eq] at h'
    have e : a = (a ||| b) &&& a := by
      ext i; simp only [BitVec.getElem_and, BitVec.getElem_or]
      cases a[i] <;> simp
    rw [Ty.has, e, ← BitVec.and_assoc, h'] at h
    simp at h

/-- The chosen call of `opVex` decodes to the plain 128-bit instruction. -/
theorem mov_reads {x : Reg} {q : Operand} {t : Ty} {c : Byte} {w : List Act} (hk : x.kind = .xmm) (hx : MovOK (.reg x)) (hq : MovOK q)
    (hr : ∀ y, q = .reg y → y.kind = .xmm ∨ y.kind = .reg) (f1 : t.has T_ER_R = false) (f2 : t.has (T_B32 ||| T_B64) = false) (f3 : t.has T_VSIB = false)
    (f4 : t.has T_L1 = false) (hw : (opVex x (some (.xmm 0)) q t c).Gives w ()) (fill : Act → BitVec 32) :
    ∃ (h : X86.Head) (reg : BitVec 3) (rm : X86.RM),
      (∀ tl, X86.insn false (if h.space = .evex then disp8Scale t false 128 else 1) (concr fill w ++ tl) = some (⟨h, reg, rm⟩, tl)) ∧
      (h.space = .vex ∧ t.has T_MUST_EVEX = false ∧ h.map = mapOf t ∧ h.w = t.has T_W1 ∨
        h.space = .evex ∧ h.map = (evexMap t).setWidth 5 ∧ h.w = t.has T_EW1) ∧
      h.pp = ppOf t ∧ h.opcode = c ∧ X86.plain128 h = true ∧ X86.regNum h reg = x.idx ∧
      match q with
      | .reg y => ∃ n, rm = .reg n ∧ (y.kind = .xmm → X86.rmVec h n = y.idx) ∧ (y.kind = .reg → X86.rmGpr h n = y.idx)
      | .mem a => ∃ m, rm = .mem m ∧ a.Means fill h m := by
  obtain ⟨hxb, -, hx1, hx2, hx3⟩ := hx
  have hxb := hxb hk
  have hy : x.isYMM = false := by simp [Reg.isYMM, hk]
  have hL : vexL t x = false := by unfold vexL; rw [f4, hy]; simp
  cases q with
  | reg y =>
    obtain ⟨y1, y2, y3, y4, y5⟩ := hq
    have hyk := hr y rfl
    have hb : y.isSIMD = true ∨ y.kind = .reg ∨ y.idx.toNat < 16 := by
      rcases hyk with h | h
      · left; simp [Reg.isSIMD, Reg.isXMM, h]
      · exact .inr (.inl h)
    have hyb : y.bit ≤ 128 := by
      rcases hyk with h | h
      · rw [y1 h]; omega
      · have := y2 h; omega
    have hsx : y.kind = .xmm → y.isSIMD = true := fun h => by simp [Reg.isSIMD, Reg.isXMM, h]
    have hsr : y.kind = .reg → y.isSIMD = false := fun h => by simp [Reg.isSIMD, Reg.isXMM, Reg.isYMM, Reg.isZMM, h]
    cases hE : regEvex x (some (.xmm 0)) y t with
    | true =>
      obtain ⟨bs, h, reg, rm, rfl, h1, h2, h3, h4, h5, h6, h7, rnd, h8, h9, h10, -⟩ := c39_reg x _ y hb t c none hE hw
      have ha : h.aaa = 0 := selects_zero h6 (by simp [y3, hx1, vMask, Reg.xmm])
      have hrn : rnd = 0 := selects_zero h8 (by simp [y5, hx3, vRnd, Reg.xmm])
      have hv : evexVL x y (some (.xmm 0)) 0 = 128 := by
        show max (max x.bit y.bit) (max 0 128) = 128
        omega
      rw [hv] at h10
      have hz : h.z = false := by rw [h7, ha]; rfl
      have hbb : h.b = false := by
        have := h9.1 hrn
        unfold X86.staticRounding at this
        cases hh : h.b with
        | false => rfl
        | true => rw [hh] at this; simp at this
      have hl : h.L = 0 := (h10 hrn).2
      refine ⟨h, reg, .reg rm, fun tl => ?_, .inr ⟨h2.space, h2.map, h2.w⟩, h2.pp, h2.opcode, ?_, h3, rm, rfl, fun h => h5.1 (.inl (hsx h)), fun h => h5.2 (.inl (hsr h))⟩
      · rw [concr_bytes]; exact Mn.insn_reg_any (h1 tl)
      · have h4 : h.vreg = 0 := h4
        simp [X86.plain128, h4, hl, h2.p66, h2.pF2, h2.pF3, ha, hz, hbb]
    | false =>
      obtain ⟨bs, h, reg, rm, rfl, h1, h2, h3, h4, h5⟩ := c38_reg x _ y t c none hE hw
      have hme : t.has T_MUST_EVEX = false := by
        unfold regEvex at hE
        simp only [Bool.or_eq_false_iff] at hE
        exact hE.1.1.1
      refine ⟨h, reg, .reg rm, fun tl => ?_, .inl ⟨h2.space, hme, h2.map, h2.w⟩, h2.pp, h2.opcode, ?_, h3, rm, rfl, fun _ => h4, fun _ => h5⟩
      · rw [concr_bytes]; exact Mn.insn_reg_any (h1 tl)
      · have hv : h.vreg = 0 := h2.vreg
        have hl : h.L = 0 := by rw [h2.L, hL]; rfl
        simp [X86.plain128, hv, hl, h2.p66, h2.pF2, h2.pF3, h2.space]
  | mem a =>
    obtain ⟨a1, a2, a3, a4, a5, a6, hbm⟩ := hq
    have hvs : a.isVsib = false := by
      cases hh : a.isVsib with
      | false => rfl
      | true => exact absurd hw (opVex_vsib _ _ _ _ _ _ a3 hh f3 _ _)
    have hs : a.e.index.isSIMD = false := by rw [← Mn.isVsib_simd a1 a4]; exact hvs
    have hbc : a.broadcast = false := by
      cases hh : a.broadcast with
      | false => rfl
      | true => rw [Mn.opVex_bcast hw hh] at f2; cases f2
    cases hE : memEvex x (some (.xmm 0)) a t with
    | true =>
      obtain ⟨h, reg, m, VL, hVL, h1, h2, h3, h4, h5, -, h6, h7, h8, h9, -⟩ := c39_mem_partial x _ a a1 a4 a5 (by rw [hs]; intro h; cases h) t f1 c none hE hw fill
      have hb : a.getRegExp.base.bit ≤ 64 := base_le a1
      have hVL : VL = 128 := by
        rw [hVL, hvs]
        show max (max x.bit a.getRegExp.base.bit) (max 0 128) = 128
        omega
      subst hVL
      rw [hbc] at h1
      have ha : h.aaa = 0 := selects_zero (h6 a6) (by simp [hbm, hx1, vMask, Reg.xmm])
      have hz : h.z = false := by rw [h7, ha]; rfl
      have hv : h.vreg = 0 := h5 hs
      have hl : h.L = 0 := h9
      refine ⟨h, reg, .mem m, fun tl => ?_, .inr ⟨h2.space, h2.map, h2.w⟩, h2.pp, h2.opcode, ?_, h3, m, rfl, h4⟩
      · rw [if_pos h2.space]; rw [hs] at h1; exact h1 tl
      · simp [X86.plain128, hv, hl, h2.p66, h2.pF2, h2.pF3, ha, hz, h8, hbc]
    | false =>
      obtain ⟨h, reg, m, h1, h2, h3, h4⟩ := c38_mem_partial x _ a a1 a2 a4 a5 (by rw [hs]; intro h; cases h) t c none hE hw fill
      have hme : t.has T_MUST_EVEX = false := by
        cases hh : t.has T_MUST_EVEX with
        | false => rfl
        | true =>
          have : t.has (T_MUST_EVEX ||| T_MEM_EVEX) = true := has_or hh
          unfold memEvex at hE
          rw [this] at hE
          simp at hE
      refine ⟨h, reg, .mem m, fun tl => ?_, .inl ⟨h2.space, hme, h2.map, h2.w⟩, h2.pp, h2.opcode, ?_, h3, m, rfl, h4⟩
      · rw [if_neg (by rw [h2.space]; decide), ← hs]; exact h1 tl
      · have hv : h.vreg = 0 := h2.vreg
        have hl : h.L = 0 := by rw [h2.L, hL]; rfl
        simp [X86.plain128, hv, hl, h2.p66, h2.pF2, h2.pF3, h2.space]

/-- What an accepted call means: the form read, its destination and its source. -/
structure MovReads (fill : Act → BitVec 32) (form : X86.Head → Option X86.MovForm) (bits : Nat) (op1 op2 : Operand) (w : List Act)
    (f : X86.MovForm) (h : X86.Head) (reg : BitVec 3) (rm : X86.RM) : Prop where
  insn : ∀ tl, X86.insn false (if h.space = .evex then f.bytes else 1) (concr fill w ++ tl) = some (⟨h, reg, rm⟩, tl)
  form : form h = some f
  toReg : f.dir = true → (∃ x, op1 = .reg x ∧ x.kind = .xmm ∧ X86.regNum h reg = x.idx) ∧ MovRm fill bits f.vec h rm op2
  toRm : f.dir = false → MovRm fill bits f.vec h rm op1 ∧ ∃ x, op2 = .reg x ∧ x.kind = .xmm ∧ X86.regNum h reg = x.idx

/-- No 256-bit form, rounding, broadcast, vector index or fixed vector length; the displacement unit. -/
def plainTy (t : Ty) (n : Nat) : Bool :=
  !t.has T_YMM && !t.has T_ER_R && !t.has (T_B32 ||| T_B64) && !t.has T_VSIB && !t.has T_L1 && disp8Scale t false 128 == n

theorem plainTy_of {t : Ty} {n : Nat} (h : plainTy t n = true) : t.has T_YMM = false ∧ t.has T_ER_R = false ∧ t.has (T_B32 ||| T_B64) = false ∧
    t.has T_VSIB = false ∧ t.has T_L1 = false ∧ disp8Scale t false 128 = n := by
  simpa [plainTy, and_assoc] using h

theorem zeroExt_reads {dflt enc : PrefEnc} {op1 op2 : Operand} {T : Nat → Ty} {C : Nat → Byte} {bits : Nat} {form : X86.Head → Option X86.MovForm} {n : Nat}
    (h1 : MovOK op1) (h2 : MovOK op2) (hb : ∀ y : Reg, y.isREG bits = true → y.kind = .reg)
    (hT : ∀ i, (T i).has T_YMM = false ∧ (T i).has T_ER_R = false ∧ (T i).has (T_B32 ||| T_B64) = false ∧ (T i).has T_VSIB = false ∧ (T i).has T_L1 = false ∧
      disp8Scale (T i) false 128 = n)
    (hf : ∀ (vec dir : Bool) (h : X86.Head) (i : Nat), i = (if vec then (if dir then 3 else 2) else if dir then 1 else 0) → X86.plain128 h = true →
      (h.space = .vex ∧ (T i).has T_MUST_EVEX = false ∧ h.map = mapOf (T i) ∧ h.w = (T i).has T_W1 ∨
        h.space = .evex ∧ h.map = (evexMap (T i)).setWidth 5 ∧ h.w = (T i).has T_EW1) → h.pp = ppOf (T i) → h.opcode = C i →
      form h = some ⟨dir, vec, n⟩)
    {w : List Act} (hw : (opAVX10ZeroExt dflt op1 op2 T C enc bits).Gives w ()) (fill : Act → BitVec 32) :
    ∃ f h reg rm, MovReads fill form bits op1 op2 w f h reg rm := by
  have k : ∀ o, MovOK o → ∀ a, o = .mem a → a.o.kind = .mem := by
    intro o ho a e
    subst e
    exact ho.1.kind
  obtain ⟨x, q, dir, vec, hx, hd, hq, hw⟩ := zeroExt_gives (k op1 h1) (k op2 h2) (fun i => (hT i).1) hw
  generalize hi : (if vec then (if dir then 3 else 2) else if dir then 1 else 0) = i at hw
  obtain ⟨-, t1, t2, t3, t4, t5⟩ := hT i
  have hoks : MovOK (.reg x) ∧ MovOK q := by
    rcases hd with ⟨-, e1, e2⟩ | ⟨-, e1, e2⟩
    · exact ⟨e1 ▸ h1, e2 ▸ h2⟩
    · exact ⟨e2 ▸ h2, e1 ▸ h1⟩
  have hkq : ∀ y, q = .reg y → y.kind = .xmm ∨ y.kind = .reg := by
    intro y hy
    have := hq y hy
    cases vec with
    | true => exact .inl this
    | false => exact .inr (hb y this)
  obtain ⟨h, reg, rm, hin, hsp, hpp, hop, hpl, hrg, hrm⟩ := mov_reads hx hoks.1 hoks.2 hkq t1 t2 t3 t4 hw fill
  have hMR : MovRm fill bits vec h rm q := by
    cases q with
    | mem a => exact hrm
    | reg y =>
      obtain ⟨n, e, r1, r2⟩ := hrm
      refine ⟨n, e, ?_⟩
      have := hq y rfl
      cases vec with
      | true => exact ⟨this, r1 this⟩
      | false => exact ⟨this, r2 (hb y this)⟩
  refine ⟨⟨dir, vec, n⟩, h, reg, rm, fun tl => ?_, hf vec dir h i hi.symm hpl hsp hpp hop, fun e => ?_, fun e => ?_⟩
  · rw [t5] at hin; exact hin tl
  · rcases hd with ⟨-, e1, e2⟩ | ⟨e0, -, -⟩
    · exact ⟨⟨x, e1, hx, hrg⟩, e2 ▸ hMR⟩
    · rw [show dir = true from e] at e0; cases e0
  · rcases hd with ⟨e0, -, -⟩ | ⟨-, e1, e2⟩
    · rw [show dir = false from e] at e0; cases e0
    · exact ⟨e1 ▸ hMR, x, e2, hx, hrg⟩

/-- C76: an accepted `vmovd` is read as a form of VMOVD whose destination and source are the operands given; a general register is a 32-bit one,
the others are xmm registers; the displacement of a memory operand has the unit 4.
Partial: `MovOK` excludes opmasks, zeroing and rounding (`c76_refuted_mask`) and `ptr[uint64_t]` addresses (`c38_refuted_disp64`). -/
theorem c76_vmovd_partial {dflt enc : PrefEnc} {op1 op2 : Operand} (h1 : MovOK op1) (h2 : MovOK op2) {w : List Act} (hw : (vmovd dflt op1 op2 enc).Gives w ())
    (fill : Act → BitVec 32) : ∃ f h reg rm, MovReads fill X86.vmovd 32 op1 op2 w f h reg rm := by
  refine zeroExt_reads (n := 4) h1 h2 (fun y h => ?_) (fun i => ?_) (fun vec dir h i hi hpl hsp hpp hop => ?_) hw fill
  · simp only [Reg.isREG, Bool.and_eq_true, beq_iff_eq] at h; exact h.1
  · match i with
    | 0 => decide
    | 1 => decide
    | 2 => decide
    | k + 3 => exact plainTy_of (by decide : plainTy (T_MUST_EVEX ||| T_F3 ||| T_0F ||| T_EW0 ||| T_N4) 4 = true)
  · unfold X86.vmovd
    rw [hpl]
    cases vec <;> cases dir <;> subst hi <;> rcases hsp with ⟨e1, e2, e3, e4⟩ | ⟨e1, e3, e4⟩ <;>
      first
        | exact absurd e2 (by decide)
        | (rw [hpp, hop, e1, e3, e4]; decide)

/-- C76: an accepted `vmovw` is read as a form of VMOVW whose destination and source are the operands given.  Partial as above. -/
theorem c76_vmovw_partial {dflt enc : PrefEnc} {op1 op2 : Operand} (h1 : MovOK op1) (h2 : MovOK op2) {w : List Act} (hw : (vmovw dflt op1 op2 enc).Gives w ())
    (fill : Act → BitVec 32) : ∃ f h reg rm, MovReads fill X86.vmovw (16 ||| 32 ||| 64) op1 op2 w f h reg rm := by
  refine zeroExt_reads (n := 2) h1 h2 (fun y h => ?_) (fun i => ?_) (fun vec dir h i hi hpl hsp hpp hop => ?_) hw fill
  · simp only [Reg.isREG, Bool.and_eq_true, beq_iff_eq] at h; exact h.1
  · match i with
    | 0 => decide
    | 1 => decide
    | k + 2 => exact plainTy_of (by decide : plainTy (T_MUST_EVEX ||| T_F3 ||| T_MAP5 ||| T_EW0 ||| T_N2) 2 = true)
  · unfold X86.vmovw
    rw [hpl]
    cases vec <;> cases dir <;> subst hi <;> rcases hsp with ⟨e1, e2, e3, e4⟩ | ⟨e1, e3, e4⟩ <;>
      first
        | exact absurd e2 (by decide)
        | (rw [hpp, hop, e1, e3]; simp only [e4]; decide)

/-- C76 does not hold in full: `vmovd(xmm1 | k1, eax)` is accepted; no form of VMOVD has an opmask. -/
theorem c76_refuted_mask : ∃ h, vmovd .default (.reg { Reg.xmm 1 with mask := 1 }) (.reg (.gp 0 32)) .preAVX10v2 =
      ⟨[.byte 0x62, .byte 0xF1, .byte 0x7D, .byte 0x09, .byte 0x6E, .byte 0xC8], .ok ()⟩ ∧
    X86.head [0x62, 0xF1, 0x7D, 0x09, 0x6E, 0xC8] = some (h, [0xC8]) ∧ X86.vmovd h = none := ⟨_, rfl, rfl, by decide⟩

/-! ## Examples -/

/-- `vmovd(r20d, xmm17)` -/
example : vmovd .default (.reg (.gp 20 32)) (.reg (.xmm 17)) .preAVX10v2 = ⟨[.byte 0x62, .byte 0xE9, .byte 0x7D, .byte 0x08, .byte 0x7E, .byte 0xCC], .ok ()⟩ ∧
    MovOK (.reg (.gp 20 32)) ∧ MovOK (.reg (.xmm 17)) := ⟨rfl, ⟨by decide, by decide, rfl, rfl, rfl⟩, ⟨by decide, by decide, rfl, rfl, rfl⟩⟩

/-- `vmovd(xmm1, xmm2)` and `vmovw(xmm1, ptr [rcx + 4])` -/
example : vmovd .default (.reg (.xmm 1)) (.reg (.xmm 2)) .preAVX10v2 = ⟨[.byte 0x62, .byte 0xF1, .byte 0x7E, .byte 0x08, .byte 0x7E, .byte 0xCA], .ok ()⟩ ∧
    ∃ a, Term.addr (.add (.reg (.gp 1 64)) (.const 4)) 0 false = .ok a ∧
      vmovw .default (.reg (.xmm 1)) (.mem a) .preAVX10v2 = ⟨[.byte 0x62, .byte 0xF5, .byte 0x7D, .byte 0x08, .byte 0x6E, .byte 0x49, .byte 2], .ok ()⟩ :=
  ⟨rfl, _, rfl, rfl⟩

end Xbyak
