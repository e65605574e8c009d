import Verif.Spec.Cond
import Verif.Props.Apx
/-!
# C44: conditions

What the condition codes mean, and that every family of conditional instructions carries the code it is given.
-/
namespace Xbyak
open E

/-! ## Codes -/

/-- C44: inverting bit 0 of a condition code negates the condition. -/
theorem c44_negate (c : BitVec 4) (f : X86.Flags) : X86.cond (c ^^^ 1) f = !X86.cond c f := by
  have : ∀ (c : BitVec 4) (a b d e g : Bool), X86.cond (c ^^^ 1) ⟨a, b, d, e, g⟩ = !X86.cond c ⟨a, b, d, e, g⟩ := by decide +kernel
  exact this c f.cf f.zf f.sf f.of f.pf

/-- C44: the code of a condition is unique: two codes that test the same are equal. -/
theorem c44_unique (c d : BitVec 4) (h : ∀ f, X86.cond c f = X86.cond d f) : c = d := by
  have : ∀ (c d : BitVec 4), (∀ x y z u v : Bool, X86.cond c ⟨x, y, z, u, v⟩ = X86.cond d ⟨x, y, z, u, v⟩) → c = d := by decide +kernel
  exact this c d fun _ _ _ _ _ => h _

theorem two_pow_split {w : Nat} (hw : 0 < w) : (2 : Int) ^ w = 2 * 2 ^ (w - 1) := by
  cases w with
  | zero => omega
  | succ n => simp [Int.pow_succ]; omega

theorem toInt_sub_cases {w : Nat} (hw : 0 < w) (a b : BitVec w) :
    ((a - b).toInt = a.toInt - b.toInt ∧ -(2 ^ (w - 1)) ≤ a.toInt - b.toInt ∧ a.toInt - b.toInt < 2 ^ (w - 1)) ∨
    ((a - b).toInt = a.toInt - b.toInt + 2 ^ w ∧ a.toInt - b.toInt < -(2 ^ (w - 1))) ∨
    ((a - b).toInt = a.toInt - b.toInt - 2 ^ w ∧ 2 ^ (w - 1) ≤ a.toInt - b.toInt) := by
  have hp := two_pow_split hw
  have ha := BitVec.toInt_lt (x := a)
  have ha' := BitVec.le_toInt (x := a)
  have hb := BitVec.toInt_lt (x := b)
  have hb' := BitVec.le_toInt (x := b)
  have hc := BitVec.toInt_lt (x := a - b)
  have hc' := BitVec.le_toInt (x := a - b)
  have hs : ∃ k : Int, (a - b).toInt = a.toInt - b.toInt + k * (2 ^ w : Int) := by
    rw [BitVec.toInt_sub]
    refine ⟨-(Int.bdiv (a.toInt - b.toInt) (2 ^ w)), ?_⟩
    have := Int.bmod_add_bdiv (a.toInt - b.toInt) (2 ^ w)
    have e : ((2 ^ w : Nat) : Int) = 2 ^ w := by simp
    rw [e, Int.mul_comm] at this
    rw [Int.neg_mul]
    omega
  obtain ⟨k, hk⟩ := hs
  generalize (2 : Int) ^ (w - 1) = P at *
  have hP : 0 < P := by omega
  rw [hp] at hk ⊢
  generalize (a - b).toInt = z at *
  generalize a.toInt = x at *
  generalize b.toInt = y at *
  have hk1 : -2 < k := by
    rcases Int.lt_or_le (-2) k with h | h
    · exact h
    · have := Int.mul_le_mul_of_nonneg_right h (show 0 ≤ 2 * P by omega)
      omega
  have hk2 : k < 2 := by
    rcases Int.lt_or_le k 2 with h | h
    · exact h
    · have := Int.mul_le_mul_of_nonneg_right h (show 0 ≤ 2 * P by omega)
      omega
  have : k = -1 ∨ k = 0 ∨ k = 1 := by omega
  rcases this with rfl | rfl | rfl <;> omega

/-- C44: what the conditions of the names say after a comparison, for operands of any width: `b`/`a` order unsigned, `l`/`g` signed values. -/
theorem c44_compare {w : Nat} (hw : 0 < w) (a b : BitVec w) (pf : Bool) :
    let f := X86.cmpFlags a b pf
    (X86.cond 2 f = decide (a.toNat < b.toNat)) ∧ (X86.cond 6 f = decide (a.toNat ≤ b.toNat)) ∧ (X86.cond 4 f = decide (a = b)) ∧
    (X86.cond 0xC f = decide (a.toInt < b.toInt)) ∧ (X86.cond 0xE f = decide (a.toInt ≤ b.toInt)) := by
  have hz : (a - b == 0) = decide (a = b) := by
    rw [Bool.eq_iff_iff]; simp only [beq_iff_eq, decide_eq_true_eq]
    constructor
    · intro h
      have := congrArg (· + b) h
      simpa [BitVec.sub_add_cancel] using this
    · rintro rfl; exact BitVec.sub_self _
  have hl : ((a - b).msb != decide (a.toInt - b.toInt < -(2 ^ (w - 1)) ∨ 2 ^ (w - 1) ≤ a.toInt - b.toInt)) = decide (a.toInt < b.toInt) := by
    rw [BitVec.msb_eq_toInt]
    have hp := two_pow_split hw
    have hc := BitVec.toInt_lt (x := a - b)
    have hc' := BitVec.le_toInt (x := a - b)
    have h := toInt_sub_cases hw a b
    have ha := BitVec.toInt_lt (x := a)
    have ha' := BitVec.le_toInt (x := a)
    have hb := BitVec.toInt_lt (x := b)
    have hb' := BitVec.le_toInt (x := b)
    generalize (2 : Int) ^ (w - 1) = P at *
    rw [hp] at h
    generalize (a - b).toInt = z at *
    generalize a.toInt = x at *
    generalize b.toInt = y at *
    rw [Bool.eq_iff_iff, bne_iff_ne, ne_eq, Bool.eq_iff_iff]
    simp only [decide_eq_true_eq]
    omega
  have hab : (decide (a.toNat < b.toNat) || decide (a = b)) = decide (a.toNat ≤ b.toNat) := by
    rw [Bool.eq_iff_iff]; simp only [Bool.or_eq_true, decide_eq_true_eq, BitVec.toNat_eq]; omega
  have hab' : (decide (a = b) || decide (a.toInt < b.toInt)) = decide (a.toInt ≤ b.toInt) := by
    rw [Bool.eq_iff_iff]; simp only [Bool.or_eq_true, decide_eq_true_eq, ← BitVec.toInt_inj]; omega
  have hu : a.ult b = decide (a.toNat < b.toNat) := rfl
  refine ⟨?_, ?_, ?_, ?_, ?_⟩
  · exact (Bool.bne_false _).trans hu
  · exact (Bool.bne_false _).trans (by rw [← hab, ← hz]; rfl)
  · exact (Bool.bne_false _).trans hz
  · exact (Bool.bne_false _).trans hl
  · exact (Bool.bne_false _).trans (by rw [← hab', ← hz, ← hl]; rfl)

/-! ## Set byte on condition -/

/-- The operand as `opSetCC` takes it: a byte register, in the APX form not ah..bh, or memory. -/
def SetOK (op : Operand) : Prop :=
  OpOK op ∧ (∀ q, op = .reg q → q.Named ∧ q.kind = .reg ∧ q.bit = 8) ∧
  (op.hasRex2NFZU = true → ApxOK op ∧ ∀ q, op = .reg q → q.isHigh8bit = false)

theorem cc90 : ∀ cc : BitVec 4, let o : Byte := 0x90 ||| cc.setWidth 8
    o &&& 0xF0 = 0x90 ∧ o.extractLsb' 0 4 = cc ∧ X86.OpcodeOK 1 o := by decide +kernel
theorem cc40 : ∀ cc : BitVec 4, let o : Byte := 0x40 ||| cc.setWidth 8
    o &&& 0xF0 = 0x40 ∧ o.extractLsb' 0 4 = cc ∧ X86.OpcodeOK 1 o := by decide +kernel

/-- `opc` leaves the opcode alone for types that do not select it by operand size. -/
theorem opc_fix {type : Ty} (h : (type &&& T_SENTRY == 0 || type.has T_CODE1_IF1) = false) (q : Reg) (c : Byte) : opc type q c = c := by
  unfold opc; rw [h]; show c ||| 0 = c; exact BitVec.or_zero

/-- C44: `setcc` decodes to SETcc with the given condition and operand.
Partial: in the APX form the size of the register is not checked (`c44_refuted_setcc`); `SetOK` asks for a byte register. -/
theorem c44_setcc_partial (op : Operand) (hop : SetOK op) (cc : BitVec 4) {w : List Act} (hw : (opSetCC op (cc.setWidth 8)).Gives w ())
    (fill : Act → BitVec 32) :
    ∃ i : X86.Setcc, (∀ t, X86.setcc (concr fill w ++ t) = some (i, t)) ∧ i.cc = cc ∧ RmIs fill i.head i.rm (op.withImm 0) ∧
      i.zu = (op.hasRex2NFZU && (rmBase op).zu) ∧ ByteIs i.head op := by
  obtain ⟨hop, hq, hx⟩ := hop
  unfold opSetCC at hw
  have hu : rooUsed .nil op (.reg .nil) (T_APX ||| T_ZU ||| T_F2) = op.hasRex2NFZU := by
    unfold rooUsed
    have e1 : (T_APX ||| T_ZU ||| T_F2 : Ty).has T_MUST_EVEX = false := by decide +kernel
    have e2 : Reg.nil.isREG = false := by decide +kernel
    have e3 : (Operand.reg .nil).hasRex2NFZU = false := by decide +kernel
    rw [e1, e2, e3]; simp
  cases hr : op.hasRex2NFZU with
  | false =>
    rw [roo_false _ _ _ _ _ _ _ (hu.trans hr), Enc.pure_bind] at hw
    have hw : (opRext op 8 0 T_0F (0x90 ||| cc.setWidth 8)).Gives w () := hw
    obtain ⟨c1, c2, c3⟩ := cc90 cc
    have ho : opc T_0F (.gp 0 op.bit) (0x90 ||| cc.setWidth 8) = 0x90 ||| cc.setWidth 8 := opc_fix (by decide +kernel) _ _
    have hm : mapOf T_0F = 1 := by decide +kernel
    obtain ⟨h, reg, rm, hdec, hl, hrex, hb⟩ := c34_rext op hop (fun q e => (hq q e).1) 8 0 T_0F (0x90 ||| cc.setWidth 8) 0
      (fun h => absurd h (by decide +kernel)) (fun h => absurd h (by decide +kernel)) (by rw [ho, hm]; exact c3) hw fill
    refine ⟨⟨h, cc, false, rm⟩, fun t => ?_, rfl, hl.rm, by simp, ?_⟩
    · unfold X86.setcc
      rw [hdec]
      dsimp only
      have ho' : h.opcode = 0x90 ||| cc.setWidth 8 := hl.head.opcode.trans ho
      rw [if_pos ⟨hl.head.space, hl.head.map.trans hm, by rw [ho']; exact c1⟩, ho', c2]
    · cases op with
      | mem a => trivial
      | reg q =>
        intro h8
        exact byte_rext 0 _ q h hl.head.rexp hrex h8 h8
  | true =>
    obtain ⟨ha, hh8⟩ := hx hr
    rw [Enc.gives_bind] at hw
    obtain ⟨w1, v, w2, h1, h2, rfl⟩ := hw
    have em : rooRm op (.reg .nil) = op := by cases op <;> rfl
    have er : rooReg op (.reg .nil) = .nil := by cases op <;> rfl
    have ec : ∀ c, rooCode op (.reg .nil) c = c := by intro c; cases op <;> rfl
    obtain ⟨rfl, h, reg, rm, hdec, hh, hreg, hrm, hv, _, hok⟩ := c41_roo .nil op (.reg .nil) _ _ 0 none (hu.trans hr) (.inl (by decide +kernel))
      (by rw [em]; exact ha) h1 fill
    rw [er, em] at hh hv hok
    rw [em] at hrm
    rw [ec, opc_fix (by decide +kernel)] at hh
    obtain ⟨hv, hnf⟩ := hv rfl
    rw [if_pos rfl] at h2
    obtain ⟨rfl, _⟩ := (Enc.gives_pure ..).1 h2
    obtain ⟨c1, c2, _⟩ := cc40 cc
    have hnf0 : h.nf = false := by
      rw [hnf]
      exact hok.1.resolve_left (by decide +kernel)
    refine ⟨⟨h, cc, h.nd, rm⟩, fun t => ?_, rfl, hrm, ?_, ?_⟩
    · rw [List.append_nil]
      unfold X86.setcc
      rw [hdec]
      dsimp only
      have hmap : h.map = 4 := by rw [hh.map]; decide +kernel
      have hpp : h.pp = 3 := by rw [hh.pp]; unfold apxPP; rw [if_pos (by decide +kernel)]; decide +kernel
      rw [if_neg (by rw [hh.space]; simp), if_pos ⟨hh.space, hmap, hpp, hv, hnf0, by rw [hh.opcode]; exact c1⟩, hh.opcode, c2]
    · show h.nd = _
      rw [hh.nd]; unfold apxND; rw [if_pos (by decide +kernel)]; rfl
    · cases op with
      | mem a => trivial
      | reg q =>
        intro h8
        rw [X86.apx_byte h hh.space]
        unfold Reg.view8
        rw [hh8 q rfl]; rfl

/-! ## Conditional moves -/

/-- C44: `cmovcc(reg, r/m)` decodes to CMOVcc with the given condition and operands.
Partial: the destination must be a general register of 16, 32 or 64 bits, which is not checked with a memory source
(`c44_refuted_cmov`). -/
theorem c44_cmov_partial (r : Reg) (hk : r.kind = .reg) (hb : r.bit = 16 ∨ r.bit = 32 ∨ r.bit = 64) (op : Operand) (hop : OpOK op)
    (cc : BitVec 4) {w : List Act} (hw : (opRO r op T_0F (0x40 ||| cc.setWidth 8) (op.hd.isREG 112)).Gives w ()) (fill : Act → BitVec 32) :
    ∃ i : X86.Cmov, (∀ t, X86.cmov (concr fill w ++ t) = some (i, t)) ∧ i.cc = cc ∧ i.bits = r.bit ∧ i.cf = false ∧ i.dst = .gpr r.idx ∧
      SrcIs fill i.head (op.withImm 0) i.yes ∧ i.no = some (.gpr r.idx) ∧ (op.bit = r.bit ∨ op.isMEM = true ∧ op.bit = 0) := by
  obtain ⟨c1, c2, c3⟩ := cc40 cc
  have ho : opc T_0F r (0x40 ||| cc.setWidth 8) = 0x40 ||| cc.setWidth 8 := opc_fix (by decide +kernel) _ _
  have hm : mapOf T_0F = 1 := by decide +kernel
  have hA : ∀ p : Prop, T_0F.has T_APX = true → p := fun p h => absurd h (by decide +kernel)
  obtain ⟨h, reg, rm, hdec, hl, _⟩ := c34_ro r (fun h => absurd hk h) op hop T_0F _ _ 0 (hA _) (by rw [ho, hm]; exact c3) hw fill
  have hs : X86.opBits h = r.bit ∧ (op.bit = r.bit ∨ op.isMEM = true ∧ op.bit = 0) := by
    cases op with
    | reg q =>
      have hw : (Enc.throwIf (!q.isREG 112) .BAD_COMBINATION >>= fun _ => opRR r q T_0F (0x40 ||| cc.setWidth 8)).Gives w () := hw
      rw [Enc.throwIf_bind] at hw
      have hq : q.kind = .reg := by
        have := hw.1
        unfold Reg.isREG at this
        by_cases hk : q.kind = .reg
        · exact hk
        · exfalso; revert this; simp [hk]
      have := c33_size r q hk hq hb T_0F (by decide +kernel) (by decide +kernel) _ (hA _) hw.2 h _ _ hl.head
      exact ⟨this.1, .inl this.2⟩
    | mem a =>
      have hw : (opMR { a with immSize := 0 } r T_0F (0x40 ||| cc.setWidth 8)).Gives w () := hw
      have hh := hl.head
      rw [isREG_mem hop.1, Bool.false_or] at hh
      have := c34_size { a with immSize := 0 } r hk hb T_0F (by decide +kernel) (by decide +kernel) _ (hA _) hw h _ hh
      refine ⟨this.1, ?_⟩
      by_cases h0 : a.o.bit = 0
      · exact .inr ⟨rfl, h0⟩
      · exact .inl (this.2 h0)
  have ho' : h.opcode = 0x40 ||| cc.setWidth 8 := hl.head.opcode.trans ho
  refine ⟨⟨h, cc, r.bit, false, .gpr r.idx, X86.rmSrc h rm, some (.gpr r.idx)⟩, fun t => ?_, rfl, rfl, rfl, rfl, srcIs_rm hl.rm, rfl, hs.2⟩
  unfold X86.cmov
  rw [hdec]
  dsimp only
  rw [if_neg (by rw [ho']; exact not_not_intro c1), if_pos ⟨hl.head.space, hl.head.map.trans hm⟩, ho', c2, hs.1, hl.reg]

/-- The operand is a general register of `n` bits or memory of `n` bits or of unspecified size. -/
def WidthIs (n : Nat) : Operand → Prop
  | .reg q => q.kind = .reg ∧ q.bit = n
  | .mem a => a.o.bit = 0 ∨ a.o.bit = n

/-- The decoded operand size of an APX instruction whose registers have `n` bits, if the type does not fix it. -/
theorem apx_size' {type : Ty} {r d : Reg} {o : Byte} {nd : Bool} {hd : X86.Head} {n : Nat} (hb : n = 16 ∨ n = 32 ∨ n = 64)
    (hr : r.bit = n) (hd' : d.bit = n ∨ d.bit = 0) (f : type.has (T_F2 ||| T_F3 ||| T_66) = false ∧ type.has T_W0 = false ∧ type.has T_W1 = false)
    (hh : ApxHead type o (apxPP r d type) (apxW r d type) nd hd) : X86.apxBits hd = n ∧ (hd.pp = 0 ∨ hd.pp = 1) := by
  unfold X86.apxBits
  rw [hh.w, hh.pp, apxPP, apxW, f.1, f.2.1, f.2.2]
  unfold Reg.isBit
  rw [hr]
  rcases hb with hb | hb | hb <;> subst hb <;> rcases hd' with h | h <;> rw [h] <;> (generalize ppOf type = p; revert p; decide)

/-- C44: `cmovcc(d, r, r/m)` (APX) decodes to CMOVcc with the given condition: `d` becomes the second source if the condition holds, else
the first.  Partial: one size, not checked (`c41_refuted_size`); for `ApxOK` see there. -/
theorem c44_cmov3_partial (d r : Reg) (hd : d.kind = .reg) (hb : d.bit = 16 ∨ d.bit = 32 ∨ d.bit = 64) (hr : r.kind = .reg ∧ r.bit = d.bit)
    (op : Operand) (hop : ApxOK op) (cc : BitVec 4) {w : List Act} {v : Bool}
    (hw : (opROO d op (.reg r) (T_APX ||| T_ND1) (0x40 ||| cc.setWidth 8)).Gives w v) (fill : Act → BitVec 32) :
    ∃ i : X86.Cmov, (∀ t, X86.cmov (concr fill w ++ t) = some (i, t)) ∧ i.cc = cc ∧ i.bits = d.bit ∧ i.cf = false ∧ i.dst = .gpr d.idx ∧
      SrcIs fill i.head (op.withImm 0) i.yes ∧ i.no = some (.gpr r.idx) := by
  obtain ⟨c1, c2, _⟩ := cc40 cc
  have hu : rooUsed d op (.reg r) (T_APX ||| T_ND1) = true := by simp [rooUsed, Reg.isREG, hd]
  have em : rooRm op (.reg r) = op := by cases op <;> rfl
  have er : rooReg op (.reg r) = r := by cases op <;> rfl
  have ec : ∀ c, rooCode op (.reg r) c = c := by intro c; cases op <;> rfl
  obtain ⟨rfl, h, reg, rm, hdec, hh, hreg, hrm, hv, _, hok⟩ := c41_roo d op (.reg r) _ _ 0 none hu (.inl (by decide +kernel))
    (by rw [em]; exact hop) hw fill
  rw [er, em] at hh hv hok
  rw [em] at hrm
  rw [er] at hreg
  rw [ec, opc_fix (by decide +kernel)] at hh
  obtain ⟨hv, hnf⟩ := hv rfl
  have hnf0 : h.nf = false := by
    rw [hnf]
    exact hok.1.resolve_left (by decide +kernel)
  have hnd : h.nd = true := by rw [hh.nd]; unfold apxND; rw [if_neg (by decide +kernel), if_pos (by decide +kernel)]
  have hs := apx_size' hb hr.2 (.inl rfl) (by decide +kernel) hh
  have hmap : h.map = 4 := by rw [hh.map]; decide +kernel
  refine ⟨⟨h, cc, d.bit, false, .gpr d.idx, X86.rmSrc h rm, some (.gpr r.idx)⟩, fun t => ?_, rfl, rfl, rfl, rfl, srcIs_rm hrm, rfl⟩
  unfold X86.cmov
  rw [hdec]
  dsimp only
  rw [if_neg (by rw [hh.opcode]; exact not_not_intro c1), if_neg (by rw [hh.space]; simp), if_pos ⟨hh.space, hmap, hs.2⟩, if_pos hnd, hh.opcode, c2, hs.1,
    hnf0, hv, hreg]

/-- C44: `cfcmovcc(d, r, r/m)` (APX, three operands). Partial: as `c44_cmov3_partial`; only `d` and `r` are compared. -/
theorem c44_cfcmov3_partial (d r : Reg) (hd : d.kind = .reg) (hb : d.bit = 16 ∨ d.bit = 32 ∨ d.bit = 64) (op : Operand) (hop : ApxOK op)
    (hz : r.bit ≠ 0) (cc : BitVec 4) {w : List Act} (hw : (opCfcmov d.setNF op (.reg r) (0x40 ||| cc.setWidth 8)).Gives w ())
    (fill : Act → BitVec 32) :
    ∃ i : X86.Cmov, (∀ t, X86.cmov (concr fill w ++ t) = some (i, t)) ∧ i.cc = cc ∧ i.bits = d.bit ∧ i.cf = true ∧ i.dst = .gpr d.idx ∧
      SrcIs fill i.head (op.withImm 0) i.yes ∧ i.no = some (.gpr r.idx) ∧ r.bit = d.bit := by
  obtain ⟨c1, c2, _⟩ := cc40 cc
  unfold opCfcmov at hw
  rw [Enc.throwIf_bind, Enc.throwIf_bind] at hw
  obtain ⟨hsz, h8, hw⟩ := hw
  have hrd : r.bit = d.bit := by
    have e : (Operand.reg r).bit = r.bit := rfl
    have e' : d.setNF.bit = d.bit := rfl
    rw [e, e'] at hsz
    have : 0 < d.bit := by omega
    simp [this] at hsz
    exact (hsz (by omega)).symm
  rw [Enc.gives_bind] at hw
  obtain ⟨w1, v, w2, hw, h2, rfl⟩ := hw
  obtain ⟨rfl, _⟩ := (Enc.gives_pure ..).1 h2
  rw [List.append_nil]
  have hu : rooUsed d.setNF op (.reg r.setNF) (T_MUST_EVEX ||| T_NF) = true := by
    unfold rooUsed; rw [show (T_MUST_EVEX ||| T_NF : Ty).has T_MUST_EVEX = true by decide +kernel]; rfl
  have em : rooRm op (.reg r.setNF) = op := by cases op <;> rfl
  have er : rooReg op (.reg r.setNF) = r.setNF := by cases op <;> rfl
  have ec : ∀ c, rooCode op (.reg r.setNF) c = c := by intro c; cases op <;> rfl
  obtain ⟨rfl, h, reg, rm, hdec, hh, hreg, hrm, hv, _, hok⟩ := c41_roo d.setNF op (.reg r.setNF) _ _ 0 none hu (.inr (by decide +kernel))
    (by rw [em]; exact hop) hw fill
  rw [er, em] at hh hv
  rw [em] at hrm
  rw [er] at hreg
  rw [ec, opc_fix (by decide +kernel)] at hh
  obtain ⟨hv, hnf⟩ := hv rfl
  have hnf0 : h.nf = true := by rw [hnf]; rfl
  have hnd : h.nd = true := by
    rw [hh.nd]; unfold apxND; rw [if_neg (by decide +kernel), if_neg (by decide +kernel), if_neg (by decide +kernel)]
    show d.isREG = true
    unfold Reg.isREG; rw [hd]; rfl
  have hs := apx_size' (n := d.bit) hb hrd (.inl rfl) (by decide +kernel) hh
  have hmap : h.map = 4 := by rw [hh.map]; decide +kernel
  refine ⟨⟨h, cc, d.bit, true, .gpr d.idx, X86.rmSrc h rm, some (.gpr r.idx)⟩, fun t => ?_, rfl, rfl, rfl, rfl, srcIs_rm hrm, rfl, hrd⟩
  unfold X86.cmov
  rw [hdec]
  dsimp only
  rw [if_neg (by rw [hh.opcode]; exact not_not_intro c1), if_neg (by rw [hh.space]; simp), if_pos ⟨hh.space, hmap, hs.2⟩, if_pos hnd, hh.opcode, c2, hs.1,
    hnf0, hv, hreg]
  rfl

/-- C44: `cfcmovcc(r/m, r)` and `cfcmovcc(r, m)` (APX, two operands). Partial: one size, not checked. -/
theorem c44_cfcmov2_partial (n : Nat) (hn : n = 16 ∨ n = 32 ∨ n = 64) (op1 op2 : Operand) (h1 : ApxOK op1) (h2 : ApxOK op2)
    (w1 : WidthIs n op1) (w2 : WidthIs n op2) (cc : BitVec 4) {w : List Act}
    (hw : (opCfcmov .nil op1 op2 (0x40 ||| cc.setWidth 8)).Gives w ()) (fill : Act → BitVec 32) :
    ∃ i : X86.Cmov, (∀ t, X86.cmov (concr fill w ++ t) = some (i, t)) ∧ i.cc = cc ∧ i.bits = n ∧ i.cf = true ∧
      SrcIs fill i.head (op1.withImm 0) i.dst ∧ SrcIs fill i.head (op2.withImm 0) i.yes ∧ i.no = none := by
  obtain ⟨c1, c2, _⟩ := cc40 cc
  unfold opCfcmov at hw
  rw [Enc.throwIf_bind, Enc.throwIf_bind] at hw
  obtain ⟨_, h8, hw⟩ := hw
  cases op2 with
  | reg r =>
    rw [Enc.gives_bind] at hw
    obtain ⟨wa, v, wb, hw, h2, rfl⟩ := hw
    obtain ⟨rfl, _⟩ := (Enc.gives_pure ..).1 h2
    rw [List.append_nil]
    have hu : rooUsed .nil op1 (.reg r.setNF) (T_MUST_EVEX ||| T_NF) = true := by
      unfold rooUsed; rw [show (T_MUST_EVEX ||| T_NF : Ty).has T_MUST_EVEX = true by decide +kernel]; rfl
    have em : rooRm op1 (.reg r.setNF) = op1 := by cases op1 <;> rfl
    have er : rooReg op1 (.reg r.setNF) = r.setNF := by cases op1 <;> rfl
    have ec : ∀ c, rooCode op1 (.reg r.setNF) c = c := by intro c; cases op1 <;> rfl
    obtain ⟨rfl, h, reg, rm, hdec, hh, hreg, hrm, hv, _, hok⟩ := c41_roo .nil op1 (.reg r.setNF) _ _ 0 none hu (.inr (by decide +kernel))
      (by rw [em]; exact h1) hw fill
    rw [er, em] at hh hv
    rw [em] at hrm
    rw [er] at hreg
    rw [ec, opc_fix (by decide +kernel)] at hh
    obtain ⟨hv, hnf⟩ := hv rfl
    have hnf0 : h.nf = true := by rw [hnf]; rfl
    have hnd : h.nd = false := by
      rw [hh.nd]; unfold apxND; rw [if_neg (by decide +kernel), if_neg (by decide +kernel), if_neg (by decide +kernel)]; rfl
    have hs := apx_size' (n := n) hn w2.2 (.inr rfl) (by decide +kernel) hh
    have hmap : h.map = 4 := by rw [hh.map]; decide +kernel
    refine ⟨⟨h, cc, n, true, X86.rmSrc h rm, .gpr r.idx, none⟩, fun t => ?_, rfl, rfl, rfl, srcIs_rm hrm, rfl, rfl⟩
    unfold X86.cmov
    rw [hdec]
    dsimp only
    rw [if_neg (by rw [hh.opcode]; exact not_not_intro c1), if_neg (by rw [hh.space]; simp), if_pos ⟨hh.space, hmap, hs.2⟩, if_neg (by rw [hnd]; decide),
      if_neg (by rw [hv]; decide), if_pos hnf0, hh.opcode, c2, hs.1, hreg]
    rfl
  | mem a =>
    rw [Enc.throwIf_bind] at hw
    obtain ⟨hm, hw⟩ := hw
    rw [Enc.gives_bind] at hw
    obtain ⟨wa, v, wb, hw, h2', rfl⟩ := hw
    obtain ⟨rfl, _⟩ := (Enc.gives_pure ..).1 h2'
    rw [List.append_nil]
    cases op1 with
    | mem b => exact absurd hm (by intro h; cases h)
    | reg r =>
      have hw : (opROO .nil (.mem a) (.reg r) T_MUST_EVEX (0x40 ||| cc.setWidth 8)).Gives wa v := hw
      have hu : rooUsed .nil (.mem a) (.reg r) T_MUST_EVEX = true := by
        unfold rooUsed; rw [show T_MUST_EVEX.has T_MUST_EVEX = true by decide +kernel]; rfl
      obtain ⟨rfl, h, reg, rm, hdec, hh, hreg, hrm, hv, _, hok⟩ := c41_roo .nil (.mem a) (.reg r) _ _ 0 none hu (.inr (by decide +kernel))
        h2 hw fill
      have hh : ApxHead T_MUST_EVEX (opc T_MUST_EVEX .nil (0x40 ||| cc.setWidth 8)) (apxPP r .nil T_MUST_EVEX) (apxW r .nil T_MUST_EVEX)
        (apxND r (rmBase (.mem a)) .nil T_MUST_EVEX) h := hh
      have hreg : X86.regNum h reg = r.idx := hreg
      have hrm : RmIs fill h rm ((Operand.mem a).withImm 0) := hrm
      rw [opc_fix (by decide +kernel)] at hh
      obtain ⟨hv, hnf⟩ := hv rfl
      have hnf0 : h.nf = false := by
        rw [hnf]
        exact hok.1.resolve_left (by decide +kernel)
      have hnd : h.nd = false := by
        rw [hh.nd]; unfold apxND; rw [if_neg (by decide +kernel), if_neg (by decide +kernel), if_neg (by decide +kernel)]; rfl
      have hs := apx_size' (n := n) hn w1.2 (.inr rfl) (by decide +kernel) hh
      have hmap : h.map = 4 := by rw [hh.map]; decide +kernel
      refine ⟨⟨h, cc, n, true, .gpr r.idx, X86.rmSrc h rm, none⟩, fun t => ?_, rfl, rfl, rfl, rfl, srcIs_rm hrm, rfl⟩
      unfold X86.cmov
      rw [hdec]
      dsimp only
      rw [if_neg (by rw [hh.opcode]; exact not_not_intro c1), if_neg (by rw [hh.space]; simp), if_pos ⟨hh.space, hmap, hs.2⟩, if_neg (by rw [hnd]; decide),
        if_neg (by rw [hv]; decide), if_neg (by rw [hnf0]; decide), hh.opcode, c2, hs.1, hreg]

/-! ## Conditional comparisons -/

theorem dfv_value (dfv : Int) (h : 0 ≤ dfv) (h' : dfv ≤ 15) (bit : Nat) : ~~~((dfvReg dfv bit).idx.setWidth 4) = BitVec.ofInt 4 dfv := by
  have : ∀ k : Fin 16, ~~~((BitVec.ofInt 5 (15 - (k.val : Int))).setWidth 4) = BitVec.ofInt 4 k.val := by decide +kernel
  have e := this ⟨dfv.toNat, by omega⟩
  have e' : ((dfv.toNat : Nat) : Int) = dfv := by omega
  simp only [e'] at e
  exact e

theorem bits_or (n : Nat) (op1 op2 : Operand) (hm : (op1.isMEM && op2.isMEM) = false) (w1 : WidthIs n op1) (w2 : WidthIs n op2) :
    op1.bit ||| op2.bit = n := by
  cases op1 with
  | reg a =>
    cases op2 with
    | reg b => show a.bit ||| b.bit = n; rw [w1.2, w2.2, Nat.or_self]
    | mem b =>
      show a.bit ||| b.o.bit = n
      rcases w2 with h | h <;> rw [w1.2, h]
      · exact Nat.or_zero _
      · exact Nat.or_self _
  | mem a =>
    cases op2 with
    | reg b =>
      show a.o.bit ||| b.bit = n
      rcases w1 with h | h <;> rw [w2.2, h]
      · exact Nat.zero_or _
      · exact Nat.or_self _
    | mem b => cases hm

theorem ccmp_code : ∀ (test dir c : Bool), (test && dir) = false →
    let o : Byte := (if dir then (if test then 0x84 else 0x38) ||| 2 else if test then 0x84 else 0x38) ||| sel c 1
    (o &&& 1 = 0 ↔ c = false) ∧ (test = false → o &&& 0xFC = 0x38 ∧ (o &&& 2 = 0 ↔ dir = false)) ∧
    (test = true → o &&& 0xFC ≠ 0x38 ∧ o &&& 0xFE = 0x84) := by decide +kernel

/-- The decoded size of a conditional comparison. -/
theorem ccmp_bits {r d : Reg} {o : Byte} {nd : Bool} {h : X86.Head} {n : Nat} (hn : n = 8 ∨ n = 16 ∨ n = 32 ∨ n = 64) (hr : r.bit = n) (hd : d.bit = n)
    (hh : ApxHead (T_APX ||| T_CODE1_IF1) o (apxPP r d (T_APX ||| T_CODE1_IF1)) (apxW r d (T_APX ||| T_CODE1_IF1)) nd h)
    (ho : h.opcode &&& 1 = 0 ↔ (!d.isBit 8) = false) : (if h.opcode &&& 1 = 0 then 8 else X86.apxBits h) = n := by
  simp only [ho]
  unfold Reg.isBit
  rw [hd]
  rcases hn with hb | hb
  · rw [hb]; rfl
  · rw [(apx_size' hb hr (.inl hd) (by decide +kernel) hh).1]
    rcases hb with hb | hb | hb <;> rw [hb] <;> rfl

/-- C44: `ccmpcc(op1, op2, dfv)` and `ctestcc(op, r, dfv)` decode to the comparison with the given source condition, default flags and
operands in order.  Partial: one size, not checked (`c44_refuted_ccmp`); for `ApxOK` see there. -/
theorem c44_ccmp_partial (n : Nat) (hn : n = 8 ∨ n = 16 ∨ n = 32 ∨ n = 64) (op1 op2 : Operand) (h1 : ApxOK op1) (h2 : ApxOK op2)
    (w1 : WidthIs n op1) (w2 : WidthIs n op2) (test : Bool) (ht : test = true → op2.isMEM = false) (dfv : Int) (sc : BitVec 4) {w : List Act}
    (hw : (opCcmp op1 op2 dfv (if test then 0x84 else 0x38) sc).Gives w ()) (fill : Act → BitVec 32) :
    ∃ i : X86.Ccmp, (∀ t, X86.ccmp (concr fill w ++ t) = some (i, t)) ∧ i.test = test ∧ i.sc = sc ∧ i.dfv = BitVec.ofInt 4 dfv ∧ i.bits = n ∧
      SrcIs fill i.head (op1.withImm 0) i.src1 ∧ SrcIs fill i.head (op2.withImm 0) i.src2 ∧ 0 ≤ dfv ∧ dfv ≤ 15 := by
  unfold opCcmp at hw
  rw [Enc.throwIf_bind] at hw
  obtain ⟨hd, hw⟩ := hw
  rw [decide_eq_false_iff_not] at hd
  rw [Enc.gives_bind] at hw
  obtain ⟨wa, v, wb, hw, h2', rfl⟩ := hw
  obtain ⟨rfl, _⟩ := (Enc.gives_pure ..).1 h2'
  rw [List.append_nil]
  generalize hD : dfvReg dfv (op1.bit ||| op2.bit) = d at hw
  have hu : rooUsed d op1 op2 (T_APX ||| T_CODE1_IF1) = true := by subst hD; simp [rooUsed, Reg.isREG, dfvReg, Reg.gp]
  have hnm := ((roo_gives d op1 op2 _ _ 0 _ hu wa v).1 hw).1
  have hdb : d.bit = n := by subst hD; exact bits_or n op1 op2 hnm w1 w2
  have hrm : ApxOK (rooRm op1 op2) := by cases op1 <;> cases op2 <;> first | exact h1 | exact h2
  obtain ⟨_, h, reg, rm, hdec, hh, hreg, hrm, _, hs, _⟩ := c41_roo d op1 op2 _ _ 0 _ hu (.inl (by decide +kernel)) hrm hw fill
  obtain ⟨hs1, hs2⟩ := hs sc rfl
  have hrb : (rooReg op1 op2).bit = n := by
    cases op1 with
    | reg a =>
      cases op2 with
      | reg b => exact w2.2
      | mem b => exact w1.2
    | mem a =>
      cases op2 with
      | reg b => exact w2.2
      | mem b => cases hnm
  have hdv : ~~~(h.vreg.setWidth 4) = BitVec.ofInt 4 dfv := by
    rw [hs2, ← hD]; exact dfv_value dfv (by omega) (by omega) _
  have hmap : h.map = 4 := by rw [hh.map]; decide +kernel
  have hnd : h.nd = false := by
    rw [hh.nd]; unfold apxND; rw [if_neg (by decide +kernel), if_neg (by decide +kernel), if_pos (by decide +kernel)]
  have hopc : h.opcode = (if !op1.isMEM && op2.isMEM then (if test then 0x84 else 0x38) ||| 2 else if test then 0x84 else 0x38) ||| sel (!d.isBit 8) 1 := by
    rw [hh.opcode]
    unfold opc
    rw [show ((T_APX ||| T_CODE1_IF1 : Ty) &&& T_SENTRY == 0 || (T_APX ||| T_CODE1_IF1 : Ty).has T_CODE1_IF1) = true by decide +kernel]
    cases op1 <;> cases op2 <;> rfl
  have htd : (test && (!op1.isMEM && op2.isMEM)) = false := by
    cases test with
    | false => rfl
    | true => rw [ht rfl]; simp
  obtain ⟨k1, k2, k3⟩ := ccmp_code test (!op1.isMEM && op2.isMEM) (!d.isBit 8) htd
  rw [← hopc] at k1 k2 k3
  have hbits := ccmp_bits hn hrb hdb hh k1
  have hn' : ¬ (h.space ≠ .evex ∨ h.map ≠ 4 ∨ h.nd = true) := by rw [hh.space, hmap, hnd]; simp
  have hs0 : 0 ≤ dfv ∧ dfv ≤ 15 := by omega
  cases test with
  | true =>
    obtain ⟨k3, k4⟩ := k3 rfl
    have hm2 := ht rfl
    refine ⟨⟨h, true, sc, BitVec.ofInt 4 dfv, n, X86.rmSrc h rm, .gpr (X86.regNum h reg)⟩, fun t => ?_, rfl, rfl, rfl, rfl, ?_, ?_, hs0.1, hs0.2⟩
    · unfold X86.ccmp
      rw [hdec]
      dsimp only
      rw [if_neg hn', if_neg k3, if_pos k4, hbits, hs1, hdv]
    · cases op2 with
      | reg b => cases op1 <;> exact srcIs_rm hrm
      | mem b => cases hm2
    · cases op2 with
      | reg b => show _ = _; rw [hreg]; cases op1 <;> rfl
      | mem b => cases hm2
  | false =>
    obtain ⟨k2, k4⟩ := k2 rfl
    refine ⟨⟨h, false, sc, BitVec.ofInt 4 dfv, n, if h.opcode &&& 2 = 0 then X86.rmSrc h rm else .gpr (X86.regNum h reg),
      if h.opcode &&& 2 = 0 then .gpr (X86.regNum h reg) else X86.rmSrc h rm⟩, fun t => ?_, rfl, rfl, rfl, rfl, ?_, ?_, hs0.1, hs0.2⟩
    · unfold X86.ccmp
      rw [hdec]
      dsimp only
      rw [if_neg hn', if_pos k2, hbits, hs1, hdv]
    · dsimp only
      cases op1 with
      | reg a =>
        cases op2 with
        | reg b => rw [if_pos (k4.2 rfl)]; exact srcIs_rm hrm
        | mem b => rw [if_neg (fun e => by cases k4.1 e), hreg]; rfl
      | mem a =>
        cases op2 with
        | reg b => rw [if_pos (k4.2 rfl)]; exact srcIs_rm hrm
        | mem b => cases hnm
    · dsimp only
      cases op1 with
      | reg a =>
        cases op2 with
        | reg b => rw [if_pos (k4.2 rfl), hreg]; rfl
        | mem b => rw [if_neg (fun e => by cases k4.1 e)]; exact srcIs_rm hrm
      | mem a =>
        cases op2 with
        | reg b => rw [if_pos (k4.2 rfl), hreg]; rfl
        | mem b => cases hnm

theorem sext_bytes (k : Nat) (imm : BitVec 32) (hk : k ≤ 4) :
    sextLE (leBytes k (imm.signExtend 64)) = sextLE (leBytes k (imm.setWidth 64)) := by
  rw [sextLE_eq, sextLE_eq, low_setWidth (8 * k) imm (by omega)]

theorem ccmpi_code : ∀ (bit immBit : Nat), (bit = 8 ∧ immBit = 8) ∨ (bit = 16 ∧ immBit = 8) ∨ (bit = 16 ∧ immBit = 16) ∨ (bit = 32 ∧ immBit = 8) ∨
    (bit = 32 ∧ immBit = 32) ∨ (bit = 64 ∧ immBit = 8) ∨ (bit = 64 ∧ immBit = 32) →
    ((0x80 ||| (if immBit < min bit 32 then 2 else 0) ||| sel (!(bit &&& 8 != 0)) 1 : Byte) = if bit = 8 then 0x80 else if immBit = 8 then 0x83 else 0x81) := by
  intro bit immBit h
  rcases h with ⟨rfl, rfl⟩ | ⟨rfl, rfl⟩ | ⟨rfl, rfl⟩ | ⟨rfl, rfl⟩ | ⟨rfl, rfl⟩ | ⟨rfl, rfl⟩ | ⟨rfl, rfl⟩ <;> decide +kernel

/-- What the prefix and ModRM of a conditional comparison with an immediate decode to. -/
theorem ccmpi_core (op : Operand) (hop : ApxOK op) (n : Nat) (hn : n = 8 ∨ n = 16 ∨ n = 32 ∨ n = 64) (hb : op.bit = n) (ext : BitVec 5)
    (dfv : Int) (hd : 0 ≤ dfv ∧ dfv ≤ 15) (code : Byte) (k : Nat) (sc : BitVec 4) {w : List Act} {v : Bool}
    (hw : (opROO (dfvReg dfv op.bit) op (.reg (.gp ext op.bit)) (T_APX ||| T_CODE1_IF1) code k (some sc)).Gives w v) (fill : Act → BitVec 32)
    (hc1 : (code ||| sel (!(n &&& 8 != 0)) 1) &&& 1 = 0 ↔ n = 8) :
    ∃ (h : X86.Head) (reg : BitVec 3) (rm : X86.RM), (∀ t, X86.insn false 1 (concr fill w ++ t) = some (⟨h, reg, rm⟩, t)) ∧
      X86.regNum h reg = ext ∧ RmIs fill h rm (op.withImm k) ∧ h.space = .evex ∧ h.map = 4 ∧ h.nd = false ∧
      h.opcode = code ||| sel (!(n &&& 8 != 0)) 1 ∧ h.low4 = sc ∧ ~~~(h.vreg.setWidth 4) = BitVec.ofInt 4 dfv ∧
      (if h.opcode &&& 1 = 0 then 8 else X86.apxBits h) = n := by
  generalize hD : dfvReg dfv op.bit = d at hw
  have hdb : d.bit = n := by subst hD; exact hb
  have hu : rooUsed d op (.reg (.gp ext op.bit)) (T_APX ||| T_CODE1_IF1) = true := by subst hD; simp [rooUsed, Reg.isREG, dfvReg, Reg.gp]
  have em : rooRm op (.reg (.gp ext op.bit)) = op := by cases op <;> rfl
  have er : rooReg op (.reg (.gp ext op.bit)) = .gp ext op.bit := by cases op <;> rfl
  have ec : ∀ c, rooCode op (.reg (.gp ext op.bit)) c = c := by intro c; cases op <;> rfl
  obtain ⟨_, h, reg, rm, hdec, hh, hreg, hrm, _, hs, _⟩ := c41_roo d op _ _ _ k _ hu (.inl (by decide +kernel)) (by rw [em]; exact hop) hw fill
  obtain ⟨hs1, hs2⟩ := hs sc rfl
  rw [er, em, ec] at hh
  rw [er] at hreg
  rw [em] at hrm
  have hopc : h.opcode = code ||| sel (!(n &&& 8 != 0)) 1 := by
    rw [hh.opcode]
    unfold opc
    rw [show ((T_APX ||| T_CODE1_IF1 : Ty) &&& T_SENTRY == 0 || (T_APX ||| T_CODE1_IF1 : Ty).has T_CODE1_IF1) = true by decide +kernel]
    unfold Reg.isBit; rw [hdb]; rfl
  have hdv : ~~~(h.vreg.setWidth 4) = BitVec.ofInt 4 dfv := by
    rw [hs2, ← hD]; exact dfv_value dfv hd.1 hd.2 _
  have hmap : h.map = 4 := by rw [hh.map]; decide +kernel
  have hnd : h.nd = false := by
    rw [hh.nd]; unfold apxND; rw [if_neg (by decide +kernel), if_neg (by decide +kernel), if_pos (by decide +kernel)]
  have hbits := ccmp_bits (n := n) (r := .gp ext op.bit) hn hb hdb hh (by
    rw [hopc, hc1]
    unfold Reg.isBit; rw [hdb]
    rcases hn with h | h | h | h <;> subst h <;> decide)
  exact ⟨h, reg, rm, hdec, hreg, hrm, hh.space, hmap, hnd, hopc, hs1, hdv, hbits⟩

/-- C44: `ccmpcc(op, imm, dfv)` decodes to the comparison with the given source condition, default flags, operand and immediate (on the
operand width).  Partial: the operand must be a general register or memory of 8 to 64 bits, which is not checked. -/
theorem c44_ccmpi_partial (op : Operand) (hop : ApxOK op) (hb : op.bit = 8 ∨ op.bit = 16 ∨ op.bit = 32 ∨ op.bit = 64) (imm : BitVec 32) (dfv : Int)
    (sc : BitVec 4) {w : List Act} (hw : (opCcmpi op imm dfv sc).Gives w ()) (fill : Act → BitVec 32) :
    ∃ (i : X86.Ccmp) (k : Nat) (v : Word), (∀ t, X86.ccmp (concr fill w ++ t) = some (i, t)) ∧ i.test = false ∧ i.sc = sc ∧
      i.dfv = BitVec.ofInt 4 dfv ∧ i.bits = op.bit ∧ SrcIs fill i.head (op.withImm k) i.src1 ∧ i.src2 = .imm v ∧
      v.setWidth op.bit = (imm.signExtend 64).setWidth op.bit ∧ 0 ≤ dfv ∧ dfv ≤ 15 ∧ ∃ w', concr fill w = w' ++ leBytes k (imm.signExtend 64) := by
  unfold opCcmpi at hw
  rw [Enc.throwIf_bind, decide_eq_false_iff_not] at hw
  obtain ⟨hd, hw⟩ := hw
  have hd : 0 ≤ dfv ∧ dfv ≤ 15 := by omega
  rw [Enc.gives_bind] at hw
  obtain ⟨w0, immBit, w1, hi, hw, rfl⟩ := hw
  obtain ⟨rfl, hi'⟩ := getImmBit_gives op imm w0 immBit hi hb
  have hc := immBit_cases hb hi'
  rw [List.nil_append]
  dsimp only at hw
  have himm : (sextLE (leBytes (immBit / 8) (imm.setWidth 64))).setWidth op.bit = (imm.signExtend 64).setWidth op.bit := by
    apply imm_value
    rcases hc with ⟨h1, h2⟩ | ⟨h1, h2, h3⟩ | ⟨h1, h2⟩ | ⟨h1, h2, h3⟩ | ⟨h1, h2⟩ | ⟨h1, h2, h3⟩ | ⟨h1, h2⟩ <;> simp_all
  have hk4 : immBit / 8 ≤ 4 := by omega
  rw [Enc.gives_bind] at hw
  obtain ⟨w2, v, w3, hr, hdb, rfl⟩ := hw
  rw [Enc.gives_dbN] at hdb
  subst hdb
  have hcode := ccmpi_code op.bit immBit (by
    rcases hc with ⟨h1, h2⟩ | ⟨h1, h2, h3⟩ | ⟨h1, h2⟩ | ⟨h1, h2, h3⟩ | ⟨h1, h2⟩ | ⟨h1, h2, h3⟩ | ⟨h1, h2⟩ <;> simp [h1, h2])
  obtain ⟨h, reg, rm, hdec, hreg, hrm, hsp, hmap, hnd, hop', hs1, hdv, hbits⟩ := ccmpi_core op hop op.bit hb rfl 15 dfv hd _ _ sc hr fill (by
    rw [hcode]
    rcases hc with ⟨h1, h2⟩ | ⟨h1, h2, h3⟩ | ⟨h1, h2⟩ | ⟨h1, h2, h3⟩ | ⟨h1, h2⟩ | ⟨h1, h2, h3⟩ | ⟨h1, h2⟩ <;> rw [h1, h2] <;> decide)
  rw [hcode] at hop'
  have hreg7 : reg = 7 := by
    have : ∀ (a b : Bool) (r : BitVec 3), X86.mk5 a b r = 15 → r = 7 := by decide +kernel
    exact this _ _ _ hreg
  refine ⟨⟨h, false, sc, BitVec.ofInt 4 dfv, op.bit, X86.rmSrc h rm, .imm (sextLE (leBytes (immBit / 8) (imm.signExtend 64)))⟩, immBit / 8, _,
    fun t => ?_, rfl, rfl, rfl, rfl, srcIs_rm hrm, rfl, by rw [sext_bytes _ _ hk4]; exact himm, hd.1, hd.2, ?_⟩
  · rw [concr_append, concr_bytes, List.append_assoc]
    unfold X86.ccmp
    rw [hdec]
    dsimp only
    rw [if_neg (by rw [hsp, hmap, hnd]; simp), hbits, hs1, hdv, hreg7, hop']
    rcases hc with ⟨h1, h2⟩ | ⟨h1, h2, _⟩ | ⟨h1, h2⟩ | ⟨h1, h2, _⟩ | ⟨h1, h2⟩ | ⟨h1, h2, _⟩ | ⟨h1, h2⟩ <;> rw [h1, h2] <;> simp [imm_append]
  · exact ⟨concr fill w2, by rw [concr_append, concr_bytes]⟩

/-- C44: `ctestcc(op, imm, dfv)`.  Partial: as `c44_ccmpi_partial`. -/
theorem c44_testi_partial (op : Operand) (hop : ApxOK op) (hb : op.bit = 8 ∨ op.bit = 16 ∨ op.bit = 32 ∨ op.bit = 64) (imm : BitVec 32) (dfv : Int)
    (sc : BitVec 4) {w : List Act} (hw : (opTesti op imm dfv sc).Gives w ()) (fill : Act → BitVec 32) :
    ∃ (i : X86.Ccmp) (v : Word), (∀ t, X86.ccmp (concr fill w ++ t) = some (i, t)) ∧ i.test = true ∧ i.sc = sc ∧
      i.dfv = BitVec.ofInt 4 dfv ∧ i.bits = op.bit ∧ SrcIs fill i.head (op.withImm (min op.bit 32 / 8)) i.src1 ∧ i.src2 = .imm v ∧
      v.setWidth op.bit = (imm.signExtend 64).setWidth op.bit ∧ 0 ≤ dfv ∧ dfv ≤ 15 := by
  unfold opTesti at hw
  rw [Enc.throwIf_bind, decide_eq_false_iff_not, Enc.throwIf_bind] at hw
  obtain ⟨hd, _, hw⟩ := hw
  have hd : 0 ≤ dfv ∧ dfv ≤ 15 := by omega
  dsimp only at hw
  rw [Enc.gives_bind] at hw
  obtain ⟨w2, v, w3, hr, hdb, rfl⟩ := hw
  rw [Enc.gives_dbN] at hdb
  subst hdb
  have himm : (sextLE (leBytes (min op.bit 32 / 8) (imm.setWidth 64))).setWidth op.bit = (imm.signExtend 64).setWidth op.bit := by
    apply imm_value
    rcases hb with h | h | h | h <;> rw [h] <;> simp
  have hk4 : min op.bit 32 / 8 ≤ 4 := by omega
  obtain ⟨h, reg, rm, hdec, hreg, hrm, hsp, hmap, hnd, hop', hs1, hdv, hbits⟩ := ccmpi_core op hop op.bit hb rfl 0 dfv hd _ _ sc hr fill (by
    rcases hb with h | h | h | h <;> rw [h] <;> decide)
  have hreg7 : reg = 0 := by
    have : ∀ (a b : Bool) (r : BitVec 3), X86.mk5 a b r = 0 → r = 0 := by decide +kernel
    exact this _ _ _ hreg
  refine ⟨⟨h, true, sc, BitVec.ofInt 4 dfv, op.bit, X86.rmSrc h rm, .imm (sextLE (leBytes (min op.bit 32 / 8) (imm.signExtend 64)))⟩, _,
    fun t => ?_, rfl, rfl, rfl, rfl, srcIs_rm hrm, rfl, by rw [sext_bytes _ _ hk4]; exact himm, hd.1, hd.2⟩
  rw [concr_append, concr_bytes, List.append_assoc]
  unfold X86.ccmp
  rw [hdec]
  dsimp only
  rw [if_neg (by rw [hsp, hmap, hnd]; simp), hbits, hs1, hdv, hreg7, hop']
  rcases hb with h | h | h | h <;> rw [h] <;> simp [imm_append, sel]

end Xbyak
