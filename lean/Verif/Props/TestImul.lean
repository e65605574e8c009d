import Verif.Props.Imm
import Verif.Props.Apx
/-!
# test and imul with an immediate (C72)
-/
namespace Xbyak
open E

/-- C72: an accepted `test(op, imm)` decodes to TEST with that operand and width, and the immediate, sign-extended by the CPU, agrees with the
requested one on the operand width. -/
theorem c72_test (op : Operand) (hop : OpOK op) (hq : ∀ q, op = .reg q → q.Named)
    (hb : op.bit = 8 ∨ op.bit = 16 ∨ op.bit = 32 ∨ op.bit = 64) (imm : BitVec 32)
    {w : List Act} (hw : (testI op imm).Gives w ()) (fill : Act → BitVec 32) :
    ∃ (i : X86.OpI) (k : Nat), (∀ t, X86.testI (concr fill w ++ t) = some (i, t)) ∧ i.op = 0 ∧ i.bits = op.bit ∧
      LocIs fill i.head (op.withImm k) i.loc ∧ ByteIs i.head op ∧ i.imm.setWidth op.bit = (imm.signExtend 64).setWidth op.bit ∧
      ∃ w', concr fill w = w' ++ leBytes k (imm.setWidth 64) := by
  unfold testI verifyMemHasSize at hw
  rw [Enc.throwIf_bind] at hw
  obtain ⟨_, hw⟩ := hw
  dsimp only at hw
  have m0 : mapOf 0 = 0 := by decide
  generalize hk : min (op.bit / 8) 4 = k at hw
  have hc : op.bit = 8 ∧ k = 1 ∨ op.bit = 16 ∧ k = 2 ∨ op.bit = 32 ∧ k = 4 ∨ op.bit = 64 ∧ k = 4 := by
    rcases hb with hb | hb | hb | hb <;> rw [hb] at hk ⊢ <;> simp at hk ⊢ <;> exact hk.symm
  have himm : (sextLE (leBytes k (imm.setWidth 64))).setWidth op.bit = (imm.signExtend 64).setWidth op.bit := by
    have := imm_value (bits := op.bit) (k := 8 * k) (imm := imm) (by omega)
    rwa [show 8 * k / 8 = k by omega] at this
  split at hw
  · rename_i ha
    rw [Bool.and_eq_true, beq_iff_eq] at ha
    obtain ⟨hr', h0⟩ := ha
    cases op with
    | mem a => rw [isREG_mem hop.1] at hr'; cases hr'
    | reg q =>
      have hk' : q.kind = .reg := by simpa [Operand.isREG, Operand.hd, Reg.isREG] using hr'
      simp only [Enc.gives_bind, rex_reg, Enc.gives_db, Enc.gives_dbN] at hw
      obtain ⟨_, _, _, ⟨⟨_, _, h38⟩, _, rfl⟩, ⟨_, _, _, rfl, rfl, rfl⟩, rfl⟩ := hw
      generalize hO : (0xA8 ||| (if (Operand.reg q).isBit 8 = true then 0 else 1) : Byte) = o
      have hO' : X86.OpcodeOK 0 o ∧ o = (if q.bit = 8 then 0xA8 else 0xA9) := by
        subst hO
        unfold Operand.isBit Operand.hd Reg.isBit
        dsimp only
        rcases hc with ⟨h1, _⟩ | ⟨h1, _⟩ | ⟨h1, _⟩ | ⟨h1, _⟩ <;> (have h1 : q.bit = _ := h1; rw [h1]; decide)
      obtain ⟨h, hdec, hl, _, hx⟩ := rex_one q hk' o hO'.1 hb
      refine ⟨⟨h, 0, q.bit, .acc, sextLE (leBytes k (imm.setWidth 64))⟩, k, fun t => ?_, rfl, rfl, ⟨q, rfl, hk', h0⟩,
        fun hb => byte_nil q h hl.rexp hx hb, himm, ?_⟩
      · simp only [concr_append, concr_bytes, List.append_assoc]
        have hd := hdec (leBytes k (imm.setWidth 64) ++ t)
        rw [List.append_assoc] at hd
        unfold X86.testI
        show (match X86.head (_ ++ ([o] ++ _)) with | none => none | some (h, t) => _) = _
        rw [hd]
        dsimp only
        rw [hl.map, m0, hl.opcode, hO'.2]
        unfold X86.immz X86.opBits
        rw [hl.p66, hl.w]
        rcases hc with ⟨h1, h2⟩ | ⟨h1, h2⟩ | ⟨h1, h2⟩ | ⟨h1, h2⟩ <;> (have h1 : q.bit = _ := h1; rw [h1, h2]; simp [imm_append])
      · refine ⟨rexBytes 0 (p66of 0 q .nil) false (extRR .nil q) ++ [o], ?_⟩
        simp only [concr_append, concr_bytes, List.append_assoc]
        rfl
  · rw [Enc.gives_bind] at hw
    obtain ⟨w1, _, w2, hr, hd, rfl⟩ := hw
    rw [Enc.gives_dbN] at hd
    subst hd
    have ho : ∀ e, opc 0 (.gp e op.bit) 0xF6 = if op.bit = 8 then 0xF6 else 0xF7 := by
      intro e
      unfold opc Reg.isBit
      rcases hc with ⟨h1, _⟩ | ⟨h1, _⟩ | ⟨h1, _⟩ | ⟨h1, _⟩ <;> rw [h1] <;> (simp only [Reg.gp]; decide)
    obtain ⟨h, reg, rm, hdec, hl, hx, _⟩ := c34_rext op hop hq 0 0 0 _ _ (fun h => absurd h (by decide)) (by decide)
      (by rw [ho]; split <;> decide) hr fill
    have e3 := hl.head.opcode
    rw [ho] at e3
    have e4 := hl.head.p66
    rw [p66_rext op _ hb] at e4
    have e5 := hl.head.w
    rw [w_rext op _ hb] at e5
    have hreg : reg = 0 := mk5_digit _ _ _ _ hl.reg
    refine ⟨⟨h, reg, op.bit, .rm rm, sextLE (leBytes k (imm.setWidth 64))⟩, k, fun t => ?_, hreg, rfl, hl.rm, ?_, himm, ?_⟩
    · rw [concr_append, concr_bytes, List.append_assoc]
      obtain ⟨t', e1, e2⟩ := insn_head (hdec (leBytes k (imm.setWidth 64) ++ t))
      unfold X86.testI
      rw [e1]
      dsimp only
      rw [hl.head.map, m0, e2]
      dsimp only
      rw [e3]
      unfold X86.immz X86.opBits
      rw [e4, e5]
      rcases hc with ⟨h1, h2⟩ | ⟨h1, h2⟩ | ⟨h1, h2⟩ | ⟨h1, h2⟩ <;> rw [h1, h2] <;> simp [imm_append]
    · cases op with
      | mem a => trivial
      | reg q => exact fun hb => byte_rext 0 q.bit q h hl.head.rexp hx hb hb
    · exact ⟨concr fill w1, by rw [concr_append, concr_bytes]⟩

theorem leBytes_low (k : Nat) (h : k ≤ 4) (imm : BitVec 32) : leBytes k (imm.signExtend 64) = leBytes k (imm.setWidth 64) := by
  have e := low_setWidth 32 imm (by decide)
  unfold leBytes
  refine List.map_congr_left fun i hi => ?_
  have hi' := List.mem_range.mp hi
  ext j hj
  have h1 : 8 * i + j < 64 := by omega
  have h2 : 8 * i + j < 32 := by omega
  have := congrArg (fun v : BitVec 32 => v.getLsbD (8 * i + j)) e
  simp [h1, h2] at this ⊢
  exact this.symm

/-- The operand of `imul(reg, op, imm)` has the width of the register, if it has one. -/
def SameWidth (r : Reg) : Operand → Prop
  | .reg q => q.kind = .reg ∧ q.bit = r.bit
  | .mem a => a.o.bit = 0 ∨ a.o.bit = r.bit

/-- C72: an accepted `imul(reg, op, imm)` without APX registers and modifiers decodes to IMUL of that operand by the immediate into that register;
the operand has the width of the register, and the immediate, sign-extended by the CPU, agrees with the requested one on that width.  `hb`: byte
registers are accepted too (`c72_refuted_byte`). -/
theorem c72_imul_partial (r : Reg) (hk : r.kind = .reg) (hb : r.bit = 16 ∨ r.bit = 32 ∨ r.bit = 64) (op : Operand) (hop : OpOK op)
    (ha : (Operand.reg r).hasRex2NFZU = false) (ha' : op.hasRex2NFZU = false) (imm : BitVec 32)
    {w : List Act} (hw : (imulI r op imm).Gives w ()) (fill : Act → BitVec 32) :
    ∃ (i : X86.OpI) (k : Nat) (reg : BitVec 3), (∀ t, X86.imulI (concr fill w ++ t) = some (i, reg, t)) ∧ i.bits = r.bit ∧
      X86.regNum i.head reg = r.idx ∧ LocIs fill i.head (op.withImm k) i.loc ∧ i.imm.setWidth r.bit = (imm.signExtend 64).setWidth r.bit ∧
      SameWidth r op ∧ ∃ w', concr fill w = w' ++ leBytes k (imm.setWidth 64) := by
  have m0 : mapOf 0 = 0 := by decide
  have hn : rooUsed .nil op (.reg r) (T_APX ||| T_NF ||| T_ZU) = false := by
    unfold rooUsed; rw [ha, ha']; decide
  unfold imulI at hw
  dsimp only at hw
  rw [roo_false _ _ _ _ _ _ _ hn] at hw
  generalize hk' : (if isInDisp8 imm = true then 1 else if r.isREG 16 = true then 2 else 4) = k at hw
  have hc : isInDisp8 imm = true ∧ k = 1 ∨ isInDisp8 imm = false ∧ (r.bit = 16 ∧ k = 2 ∨ r.bit ≠ 16 ∧ k = 4) := by
    cases hd : isInDisp8 imm
    · rw [hd] at hk'
      refine .inr ⟨rfl, ?_⟩
      rcases hb with h | h | h <;> rw [h] <;> simp [Reg.isREG, Reg.isBit, hk, h] at hk' ⊢ <;> exact hk'.symm
    · rw [hd] at hk'; exact .inl ⟨rfl, hk'.symm⟩
  have hw : (opRO r op 0 (0x69 ||| sel (isInDisp8 imm) 2) (r.kind == op.hd.kind) k >>= fun _ => Enc.dbN (imm.signExtend 64) k).Gives w () := hw
  rw [Enc.gives_bind] at hw
  obtain ⟨w1, _, w2, hr, hd, rfl⟩ := hw
  rw [Enc.gives_dbN, leBytes_low k (by omega)] at hd
  subst hd
  have hs : SameWidth r op := by
    unfold opRO at hr
    cases op with
    | reg q =>
      dsimp only at hr
      rw [Enc.throwIf_bind] at hr
      obtain ⟨h1, hr⟩ := hr
      unfold opRR at hr
      rw [Enc.throwIf_bind] at hr
      obtain ⟨h2, _⟩ := hr
      have hq : r.kind = q.kind := by simpa [Operand.hd] using h1
      have hq' : q.kind = .reg := by rw [← hq]; exact hk
      refine ⟨hq', ?_⟩
      simp [Reg.isREG, hk, hq'] at h2
      exact (h2 (by decide)).symm
    | mem a =>
      dsimp only at hr
      unfold opMR at hr
      rw [if_neg (by decide)] at hr
      have hr : (Enc.throwIf _ _ >>= fun _ => Enc.throwIf _ _ >>= fun _ => _).Gives w1 () := hr
      rw [Enc.throwIf_bind, Enc.throwIf_bind] at hr
      obtain ⟨_, h2, _⟩ := hr
      have hb' : r.bit ≤ 64 := by omega
      simp [hb'] at h2
      by_cases h0 : a.o.bit = 0
      · exact .inl h0
      · exact .inr (h2 (by decide) (by omega))
  have ho : opc 0 r (0x69 ||| sel (isInDisp8 imm) 2) = if isInDisp8 imm then 0x6B else 0x69 := by
    unfold opc
    generalize (!r.isBit 8) = b
    cases b <;> cases isInDisp8 imm <;> decide
  obtain ⟨h, reg, rm, hdec, hl, _⟩ := c34_ro r (fun h => absurd hk h) op hop 0 _ _ _ (fun h => absurd h (by decide))
    (by rw [ho]; split <;> decide) hr fill
  have e3 := hl.head.opcode
  rw [ho] at e3
  have e4 := hl.head.p66
  have e5 := hl.head.w
  have e45 : X86.opBits h = r.bit := by
    unfold X86.opBits
    rw [e4, e5]
    cases op with
    | reg q =>
      obtain ⟨h1, h2⟩ := hs
      have g : (Operand.reg q).hd = q := rfl
      rw [g]
      unfold p66of Operand.isREG Reg.isREG Reg.isBit
      rw [g, h1, h2, hk]
      rcases hb with h | h | h <;> rw [h] <;> decide
    | mem a =>
      have g : (Operand.mem a).hd = a.o := rfl
      rw [g, isREG_mem hop.1]
      unfold p66of Reg.isREG Reg.isBit
      rw [hk]
      rcases hs with h1 | h1 <;> rw [h1] <;> rcases hb with h | h | h <;> rw [h] <;> decide
  have himm : (sextLE (leBytes k (imm.setWidth 64))).setWidth r.bit = (imm.signExtend 64).setWidth r.bit := by
    have := imm_value (bits := r.bit) (k := 8 * k) (imm := imm)
      (by rcases hc with ⟨h1, h2⟩ | ⟨_, h⟩
          · exact .inr (.inl ⟨by omega, h1⟩)
          · rcases h with ⟨h2, h3⟩ | ⟨h2, h3⟩
            · exact .inl (by omega)
            · exact .inr (.inr (by omega)))
    rwa [show 8 * k / 8 = k by omega] at this
  refine ⟨⟨h, 0, r.bit, .rm rm, sextLE (leBytes k (imm.setWidth 64))⟩, k, reg, fun t => ?_, rfl, hl.reg, hl.rm, himm, hs,
    concr fill w1, by rw [concr_append, concr_bytes]⟩
  rw [concr_append, concr_bytes, List.append_assoc]
  obtain ⟨t', e1, e2⟩ := insn_head (hdec (leBytes k (imm.setWidth 64) ++ t))
  unfold X86.imulI
  rw [e1]
  dsimp only
  rw [hl.head.map, m0, e2]
  dsimp only
  rw [e3]
  unfold X86.immz
  rw [e45]
  rcases hc with ⟨h1, h2⟩ | ⟨h1, ⟨h2, h3⟩ | ⟨h2, h3⟩⟩
  · rw [h1, h2]; simp [imm_append]
  · rw [h1, h3, h2]; simp [imm_append]
  · rw [h1, h3, if_neg h2]; simp [imm_append]

/-- C72: with APX registers or modifiers, `imul(reg, op, imm)` writes the extended EVEX form of IMUL with an immediate: map 4, opcode 69 or 6B,
operand size in pp and W, the register, the operand, the zero-upper bit (in place of ND) and NF; the immediate follows. -/
theorem c72_imul_apx_partial (r : Reg) (hk : r.kind = .reg) (hb : r.bit = 16 ∨ r.bit = 32 ∨ r.bit = 64) (op : Operand) (hop : ApxOK op)
    (ha : (Operand.reg r).hasRex2NFZU = true ∨ op.hasRex2NFZU = true) (imm : BitVec 32)
    {w : List Act} (hw : (imulI r op imm).Gives w ()) (fill : Act → BitVec 32) :
    ∃ (h : X86.Head) (k : Nat) (reg : BitVec 3) (rm : X86.RM),
      (∀ t, X86.insn false 1 (concr fill w ++ t) = some (⟨h, reg, rm⟩, leBytes k (imm.setWidth 64) ++ t)) ∧
      h.space = .evex ∧ h.map = 4 ∧ h.opcode = (if k = 1 then 0x6B else 0x69) ∧ (k ≠ 1 → k = min (r.bit / 8) 4) ∧
      h.pp = (if r.bit = 16 then 1 else 0) ∧ h.w = (r.bit == 64) ∧ h.vreg = 0 ∧
      h.nd = (r.zu || (rmBase op).zu) ∧ h.nf = (r.nf || (rmBase op).nf || (rmIndex op).nf) ∧
      X86.regNum h reg = r.idx ∧ RmIs fill h rm (op.withImm k) ∧
      (sextLE (leBytes k (imm.setWidth 64))).setWidth r.bit = (imm.signExtend 64).setWidth r.bit := by
  have hn : rooUsed .nil op (.reg r) (T_APX ||| T_NF ||| T_ZU) = true := by
    unfold rooUsed; rcases ha with h | h <;> rw [h] <;> simp
  unfold imulI at hw
  dsimp only at hw
  generalize hk' : (if isInDisp8 imm = true then 1 else if r.isREG 16 = true then 2 else 4) = k at hw
  have hc : isInDisp8 imm = true ∧ k = 1 ∨ isInDisp8 imm = false ∧ (r.bit = 16 ∧ k = 2 ∨ r.bit ≠ 16 ∧ k = 4) := by
    cases hd : isInDisp8 imm
    · rw [hd] at hk'
      refine .inr ⟨rfl, ?_⟩
      rcases hb with h | h | h <;> rw [h] <;> simp [Reg.isREG, Reg.isBit, hk, h] at hk' ⊢ <;> exact hk'.symm
    · rw [hd] at hk'; exact .inl ⟨rfl, hk'.symm⟩
  rw [Enc.gives_bind] at hw
  obtain ⟨w1, v, w2, hr, hd, rfl⟩ := hw
  have er : rooReg op (.reg r) = r := by cases op <;> rfl
  have em : rooRm op (.reg r) = op := by cases op <;> rfl
  obtain ⟨rfl, h, reg, rm, hdec, hh, hreg, hrm, hv, _, _⟩ := c41_roo .nil op (.reg r) _ _ k none hn (.inl (by decide)) (by rw [em]; exact hop) hr fill
  rw [er, em] at hv
  rw [er] at hreg hh
  rw [em] at hrm hh
  rw [if_pos rfl, Enc.gives_dbN, leBytes_low k (by omega)] at hd
  subst hd
  obtain ⟨hv, hnf⟩ := hv rfl
  have eo : opc (T_APX ||| T_NF ||| T_ZU) .nil (rooCode op (.reg r) (0x69 ||| sel (isInDisp8 imm) 2)) = if isInDisp8 imm then 0x6B else 0x69 := by
    have : ∀ c, rooCode op (.reg r) c = c := by intro c; cases op <;> rfl
    rw [this]
    cases isInDisp8 imm <;> decide
  refine ⟨h, k, reg, rm, fun t => ?_, hh.space, hh.map.trans (by decide), hh.opcode.trans ?_, ?_, hh.pp.trans ?_, hh.w.trans ?_, hv, hh.nd.trans ?_, ?_, hreg, hrm, ?_⟩
  · rw [concr_append, concr_bytes, List.append_assoc]
    exact hdec _
  · rw [eo]
    rcases hc with ⟨h1, h2⟩ | ⟨h1, ⟨_, h2⟩ | ⟨_, h2⟩⟩ <;> rw [h1, h2] <;> decide
  · rcases hc with ⟨h1, h2⟩ | ⟨h1, ⟨_, h2⟩ | ⟨_, h2⟩⟩ <;> omega
  · unfold apxPP
    rw [if_neg (by decide)]
    unfold Reg.isBit
    rcases hb with h | h | h <;> rw [h] <;> decide
  · unfold apxW
    rw [if_neg (by decide)]
    unfold Reg.isBit
    rcases hb with h | h | h <;> rw [h] <;> decide
  · unfold apxND
    rw [if_pos (by decide)]
  · rw [hnf]
    unfold apxNF
    rw [show Reg.nil.nf = false from rfl, Bool.or_false]
  · have := imm_value (bits := r.bit) (k := 8 * k) (imm := imm)
      (by rcases hc with ⟨h1, h2⟩ | ⟨_, h⟩
          · exact .inr (.inl ⟨by omega, h1⟩)
          · rcases h with ⟨h2, h3⟩ | ⟨h2, h3⟩
            · exact .inl (by omega)
            · exact .inr (.inr (by omega)))
    rwa [show 8 * k / 8 = k by omega] at this

/-! ## Refutations -/

/-- C72 does not hold in full: a byte register is accepted; `imul(al, cl, 3)` is `imul eax, ecx, 3`. -/
theorem c72_refuted_byte : ∃ i, imulI (.r8 0) (.reg (.r8 1)) 3 = ⟨[.byte 0x6B, .byte 0xC1, .byte 3], .ok ()⟩ ∧
    X86.imulI [0x6B, 0xC1, 3] = some (i, 0, []) ∧ i.bits = 32 := ⟨_, rfl, rfl, rfl⟩

/-- C72 does not hold in full: with an extended register the widths are not compared; `imul(r16d, rcx, 3)` is `imul r16d, ecx, 3`. -/
theorem c72_refuted_width : imulI (.gp 16 32) (.reg (.gp 1 64)) 3 = imulI (.gp 16 32) (.reg (.gp 1 32)) 3 ∧
    (imulI (.gp 16 32) (.reg (.gp 1 32)) 3).res = .ok () := ⟨rfl, rfl⟩

/-! ## Examples -/

/-- `imul(r9d, dword [rcx + 4], 300)` -/
example : ∃ a, Term.addr (.add (.reg (.gp 1 64)) (.const 4)) 32 false = .ok a ∧
    imulI (.gp 9 32) (.mem a) 300 = ⟨[.byte 0x44, .byte 0x69, .byte 0x49, .byte 4, .byte 0x2C, .byte 1, .byte 0, .byte 0], .ok ()⟩ := ⟨_, rfl, rfl⟩

/-- `test(r9, -1)`, `test(al, 5)` -/
example : testI (.reg (.gp 9 64)) 0xFFFFFFFF = ⟨[.byte 0x49, .byte 0xF7, .byte 0xC1, .byte 0xFF, .byte 0xFF, .byte 0xFF, .byte 0xFF], .ok ()⟩ ∧
    testI (.reg (.r8 0)) 5 = ⟨[.byte 0xA8, .byte 5], .ok ()⟩ := ⟨rfl, rfl⟩

/-- `imul(r16d, ecx, 3)` -/
example : imulI (.gp 16 32) (.reg (.gp 1 32)) 3 = ⟨[.byte 0x62, .byte 0xE4, .byte 0x7C, .byte 0x08, .byte 0x6B, .byte 0xC1, .byte 3], .ok ()⟩ := rfl

end Xbyak
