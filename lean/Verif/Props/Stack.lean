import Verif.Props.Imm
/-!
# push, pop and xchg (C47, C48)
-/
namespace Xbyak
open E

/-- `push` or `pop`. -/
def pp (pop : Bool) (op : Operand) : Enc Unit := if pop then E.pop op else E.push op

theorem opc50 : ∀ (p : Bool) (i : BitVec 5), X86.OpcodeOK 0 ((if p then 0x58 else 0x50) ||| (i &&& 7).setWidth 8 : Byte) ∧
    ((if p then 0x58 else 0x50) ||| (i &&& 7).setWidth 8 : Byte).extractLsb' 0 3 = i.extractLsb' 0 3 ∧
    ((if p then 0x58 else 0x50) ||| (i &&& 7).setWidth 8 : Byte) &&& 0xF8 = (if p then 0x58 else 0x50) := by decide +kernel

theorem small_idx : ∀ i : BitVec 5, i.getLsbD 4 = false → (decide (8 ≤ i.toNat) = i.getLsbD 3) := by decide +kernel

theorem has0 (m : Ty) : Ty.has 0 m = false := by simp [Ty.has]

/-- The register whose prefixes push and pop emit. -/
def ppReg (r : Reg) : Reg := .gp r.idx (if r.idx.getLsbD 4 = false ∧ r.bit = 16 then 16 else 32)

/-- The bytes of push and pop of a register. -/
theorem pp_reg (pop : Bool) (r : Reg) {w : List Act} (hpp : (pp pop (.reg r)).Gives w ()) :
    r.kind = .reg ∧ (r.idx.getLsbD 4 = true ∨ r.bit = 16 ∨ r.bit = 64) ∧
    w = (rexBytes 0 (p66of 0 (ppReg r) .nil) false (extRR .nil (ppReg r)) ++
      [((if pop then 0x58 else 0x50) ||| (r.idx &&& 7).setWidth 8 : Byte)]).map .byte := by
  have hw : ∃ c e, (opPushPop (.reg r) c e (if pop then 0x58 else 0x50)).Gives w () := by
    cases pop
    · exact ⟨0xFF, 6, hpp⟩
    · exact ⟨0x8F, 0, hpp⟩
  clear hpp
  obtain ⟨c, e, hw⟩ := hw
  unfold opPushPop at hw
  split at hw
  · rename_i h
    have h : (r.isREG && r.hasRex2) = true := h
    simp only [Reg.hasRex2, Reg.isExtIdx2, Reg.isREG, Bool.and_eq_true, beq_iff_eq] at h
    obtain ⟨⟨hk, _⟩, _, h4⟩ := h
    refine ⟨hk, .inl h4, ?_⟩
    simp only [Operand.hd, rex2, Enc.bind_assoc, Enc.db_bind, Enc.gives_db] at hw
    obtain ⟨_, rfl, _, rfl, rfl⟩ := hw
    have e1 : (extRR .nil (ppReg r)).rex2 = true := by simp [extRR, ppReg, Reg.gp, Reg.hasRex2, Reg.isExtIdx2, Reg.isREG, h4]
    unfold rexBytes
    rw [if_pos e1]
    have e2 : ppReg r = .gp r.idx 32 := by unfold ppReg; rw [if_neg (fun h => by rw [h4] at h; cases h.1)]
    have e3 : p66of 0 (.gp r.idx 32) .nil = false := by rw [p66of, has0]; simp [Reg.isBit, Reg.gp, Reg.nil]
    have e4 : (extRR .nil (.gp r.idx 32)).w = false := by simp [extRR, Reg.isREG, Reg.isBit, Reg.gp, Reg.nil]
    rw [e2, e3, has0, has0, has0, e4]
    rfl
  · rename_i h
    dsimp only at hw
    split at hw
    case isFalse => exact (Enc.gives_throw.1 hw).elim
    rename_i hb
    have hb : r.bit = 16 ∨ r.bit = 64 := hb
    rw [Enc.dbIf_bind] at hw
    obtain ⟨w', rfl, hw⟩ := hw
    split at hw
    case isFalse => exact (Enc.gives_throw.1 hw).elim
    rename_i hk
    have hk : r.kind = .reg := by simpa [Reg.isREG] using hk
    have h4 : r.idx.getLsbD 4 = false := by
      have h : ¬ (r.isREG && r.hasRex2) = true := h
      simp only [Reg.hasRex2, Reg.isExtIdx2, Reg.isREG, hk] at h
      cases h4 : r.idx.getLsbD 4
      · rfl
      · rw [h4] at h; exact absurd rfl h
    refine ⟨hk, .inr hb, ?_⟩
    rw [Enc.dbIf_bind] at hw
    obtain ⟨w', rfl, hw⟩ := hw
    rw [Enc.gives_db] at hw
    obtain rfl := hw
    have e2 : ppReg r = .gp r.idx (if r.bit = 16 then 16 else 32) := by
      unfold ppReg; simp only [h4, true_and]
    rw [e2]
    have e0 : (extRR .nil (.gp r.idx (if r.bit = 16 then 16 else 32))).rex2 = false := by
      simp only [extRR, Reg.gp, Reg.nil, Reg.hasRex2, Reg.isExtIdx2, h4]; simp
    have hs := small_idx r.idx h4
    unfold rexBytes
    rw [e0, if_neg Bool.false_ne_true, has0, has0]
    unfold X86.Ext.present
    rw [e0]
    unfold extRR p66of
    rw [has0]
    have hbit : (Operand.reg r).bit = r.bit := rfl
    rw [hbit]
    generalize ((if pop then 0x58 else 0x50) ||| (r.idx &&& 7).setWidth 8 : Byte) = o
    rcases hb with hb | hb <;> rw [hb] <;> cases h3 : r.idx.getLsbD 3 <;> rw [h3] at hs <;>
      simp only [decide_eq_true_eq, decide_eq_false_iff_not] at hs <;>
      simp only [hs, Reg.gp, h3, Reg.nil, Reg.isREG, Reg.isBit, X86.nib, X86.opt] <;> simp [sel]

/-- C47, registers: an accepted push or pop of a register decodes to a push or pop of that register; the operand size is the register's,
except that r16..r31 are always pushed and popped with 64 bits (see `c47_refuted_size`). -/
theorem c47_reg_partial (pop : Bool) (r : Reg) {w : List Act} (hw : (pp pop (.reg r)).Gives w ()) :
    ∃ (bs : List Byte) (i : X86.PushPop), w = bs.map .byte ∧ (∀ t, X86.pushPop (bs ++ t) = some (i, t)) ∧ i.pop = pop ∧
      (∀ fill, LocIs fill i.head (.reg r) i.loc) ∧ (r.idx.toNat < 16 → i.bits = r.bit) ∧ (16 ≤ r.idx.toNat → i.bits = 64) := by
  obtain ⟨hk, hb, rfl⟩ := pp_reg pop r hw
  obtain ⟨o1, o2, o3⟩ := opc50 pop r.idx
  have hbb : (ppReg r).bit = 16 ∨ (ppReg r).bit = 32 := by unfold ppReg; split <;> simp [Reg.gp]
  obtain ⟨h, hdec, hl, hm, _⟩ := rex_one (ppReg r) rfl _ o1 (by rcases hbb with h | h <;> simp [h])
  refine ⟨_, ⟨h, pop, if r.idx.getLsbD 4 = false ∧ r.bit = 16 then 16 else 64, .opc (r.idx.extractLsb' 0 3)⟩, rfl, fun t => ?_, rfl,
    fun _ => ⟨r, rfl, hk, hm⟩, ?_, ?_⟩
  · unfold X86.pushPop
    rw [hdec]
    dsimp only
    have m0 : mapOf 0 = 0 := by decide
    have hs : X86.stackBits h = if r.idx.getLsbD 4 = false ∧ r.bit = 16 then 16 else 64 := by
      unfold X86.stackBits
      rw [hl.p66, hl.w]
      unfold ppReg
      split <;> simp [Reg.gp]
    rw [hl.map, m0, hl.opcode, o3, o2, hs]
    cases pop <;> simp
  · intro h16
    have : ∀ i : BitVec 5, i.toNat < 16 → i.getLsbD 4 = false := by decide
    have h4 := this r.idx h16
    dsimp only
    rw [h4] at hb ⊢
    rcases hb with hb | hb | hb
    · cases hb
    · rw [hb]; rfl
    · rw [hb]; rfl
  · intro h16
    have : ∀ i : BitVec 5, 16 ≤ i.toNat → i.getLsbD 4 = true := by decide
    rw [this r.idx h16]; rfl

/-- C47 does not hold in full: push(r16w) is accepted and decodes to a 64-bit push of r16. -/
theorem c47_refuted_size : (push (.reg (.gp 16 16))).res = .ok () ∧ ∃ i : X86.PushPop,
    X86.pushPop (concr (fun _ => 0) (push (.reg (.gp 16 16))).acts) = some (i, []) ∧ i.bits = 64 :=
  ⟨rfl, ⟨{ b4 := true, rex := true, space := .rex2, opcode := 0x50 }, false, 64, .opc 0⟩, by decide +kernel, rfl⟩

/-- `c34_mr` with a 66 byte already emitted. -/
theorem mr66 (a : Addr) (ha : a.WF) (hp : a.permitVsib = false) (hn : a.disp8N = 0) (ht : a.e.index.kind ≠ .tmm)
    (r : Reg) (hr : LegacyReg r) (type : Ty) (code : Byte) (p66 : Bool) (h66 : p66of type a.o r = false)
    (hapx : type.has T_APX = true → mapOf type = 0) (ho : X86.OpcodeOK (mapOf type) (opc type r code))
    {w : List Act} (hw : (opMR a r type code).Gives w ()) (fill : Act → BitVec 32) :
    ∃ (h : X86.Head) (reg : BitVec 3) (m : X86.Mem),
      LegacyHead type (opc type r code) p66 a.is32bit (r.isREG 64) h ∧
      X86.regNum h reg = r.idx ∧ h.rex = (extMR r a).present ∧
      (∀ t, X86.insn false 1 (X86.opt p66 0x66 ++ concr fill w ++ t) = some (⟨h, reg, .mem m⟩, t)) ∧ a.Means fill h m := by
  obtain ⟨hd, _, ⟨_, _, h38⟩, w', hw', rfl⟩ := (opMR_gives a r type code hapx w).1 hw
  have hv := opAddr_vsib hw' hp
  have hh := headFor_legacy r a ha ht hv type (opc type r code) p66
  have hd : a.mode ≠ .disp64 := by simpa [Addr.is64bitDisp] using hd
  obtain ⟨m, hm, hme⟩ := opAddr_decode a ha ht hd r.idx (.inl hn) hw' _ hh fill
  refine ⟨_, r.idx.extractLsb' 0 3, m, ext_head (extMR r a) _ _ _ _, ?_, rfl, fun t => ?_, hme⟩
  · unfold X86.regNum X86.Ext.head
    dsimp only
    have : ((extMR r a).rex2 && (extMR r a).r4) = r.idx.getLsbD 4 := by
      have := legacy_bit4 hr
      unfold extMR
      cases h4 : r.idx.getLsbD 4 with
      | false => simp
      | true => simp [this h4]
    rw [this]; exact mk5_idx _
  · have hm := hm t
    rw [concr_append, concr_bytes, h66]
    have e : X86.opt p66 0x66 ++ legBytes type false a.is32bit (extMR r a) (opc type r code) =
        legBytes type p66 a.is32bit (extMR r a) (opc type r code) := by
      unfold legBytes
      simp [X86.opt]
    unfold X86.insn
    rw [← List.append_assoc, e, List.append_assoc, head_legBytes _ _ _ _ _ ho h38]
    dsimp only
    rw [hn, not_simd (wf_index ha ht hv)] at hm
    rw [if_pos rfl] at hm
    rw [hm]

/-- C47, memory: an accepted push or pop of a memory operand decodes to a push or pop of that address with the given size. -/
theorem c47_mem (pop : Bool) (a : Addr) (ha : OpOK (.mem a)) {w : List Act} (hw : (pp pop (.mem a)).Gives w ()) (fill : Act → BitVec 32) :
    ∃ i : X86.PushPop, (∀ t, X86.pushPop (concr fill w ++ t) = some (i, t)) ∧ i.pop = pop ∧ i.bits = a.o.bit ∧
      LocIs fill i.head (.mem a) i.loc := by
  have hp : (opPushPop (.mem a) (if pop then 0x8F else 0xFF) (if pop then 0 else 6) (if pop then 0x58 else 0x50)).Gives w () := by
    cases pop <;> exact hw
  clear hw
  obtain ⟨haw, hap, han, hat⟩ := ha
  unfold opPushPop at hp
  rw [isREG_mem haw, Bool.false_and, if_neg (by decide)] at hp
  dsimp only at hp
  split at hp
  case isFalse => exact (Enc.gives_throw.1 hp).elim
  rename_i hb
  have hb : a.o.bit = 16 ∨ a.o.bit = 64 := hb
  rw [Enc.dbIf_bind] at hp
  obtain ⟨w', rfl, hw⟩ := hp
  have h66 : p66of T_ALLOW_DIFF_SIZE a.o (.gp (if pop then 0 else 6) 32) = false := by
    unfold p66of Reg.isBit
    rw [show Ty.has T_ALLOW_DIFF_SIZE T_66 = false by decide]
    rcases hb with hb | hb <;> rw [hb] <;> simp [Reg.gp]
  have ho : opc T_ALLOW_DIFF_SIZE (.gp (if pop then 0 else 6) 32) (if pop then 0x8F else 0xFF) = if pop then 0x8F else 0xFF := by
    unfold opc
    cases pop <;> decide
  have m0 : mapOf T_ALLOW_DIFF_SIZE = 0 := by decide
  obtain ⟨h, reg, m, hl, hr, hx, hdec, hm⟩ := mr66 a haw hap han hat (.gp (if pop then 0 else 6) 32) (fun h => absurd rfl h) _ _ (a.o.bit == 16)
    h66 (fun h => absurd h (by decide)) (by rw [m0, ho]; cases pop <;> decide) hw fill
  have hreg : reg = if pop then 0 else 6 := by
    apply mk5_digit
    rw [show X86.mk5 _ _ _ = _ from hr]
    cases pop <;> rfl
  refine ⟨⟨h, pop, a.o.bit, .rm (.mem m)⟩, fun t => ?_, rfl, rfl, ⟨m, rfl, hm⟩⟩
  have e : concr fill (List.map Act.byte (if decide ((Operand.mem a).bit = 16) = true then [102] else []) ++ w') =
      X86.opt (a.o.bit == 16) 0x66 ++ concr fill w' := by
    rw [concr_append, concr_bytes]
    show (if decide (a.o.bit = 16) = true then _ else _) ++ _ = _
    unfold X86.opt
    rcases hb with hb | hb <;> rw [hb] <;> rfl
  rw [e]
  obtain ⟨t', e1, e2⟩ := insn_head (hdec t)
  unfold X86.pushPop
  rw [e1]
  dsimp only
  have hs : X86.stackBits h = a.o.bit := by
    unfold X86.stackBits
    rw [hl.p66, hl.w]
    rcases hb with hb | hb <;> rw [hb] <;> simp [Reg.isREG, Reg.isBit, Reg.gp]
  rw [hl.map, m0, hl.opcode, ho, e2, hs]
  subst hreg
  cases pop <;> simp

/-- No REX prefix. -/
def noExt : X86.Ext := { w := false, r3 := false, x3 := false, b3 := false }

/-- C47, immediates: push(imm) decodes to a 64-bit push of the sign-extended value. -/
theorem c47_imm (imm : BitVec 32) {w : List Act} (hw : (E.pushI imm).Gives w ()) :
    ∃ bs : List Byte, w = bs.map .byte ∧ ∀ t, X86.pushI (bs ++ t) = some (64, imm.signExtend 64, t) := by
  unfold E.pushI pushAF at hw
  split at hw
  · rename_i h8
    rw [if_pos rfl, Enc.db_bind] at hw
    obtain ⟨_, rfl, hw⟩ := hw
    rw [Enc.gives_db] at hw
    subst hw
    refine ⟨[0x6A, imm.setWidth 8], rfl, fun t => ?_⟩
    have e := head_legBytes 0 false false noExt 0x6A (by decide) (fun _ => by decide) (imm.setWidth 8 :: t)
    have e' : legBytes 0 false false noExt 0x6A = [0x6A] := by decide +kernel
    rw [e'] at e
    show X86.pushI ([0x6A] ++ imm.setWidth 8 :: t) = _
    unfold X86.pushI
    rw [e]
    have : X86.imm 1 (imm.setWidth 8 :: t) = some (imm.signExtend 64, t) := by
      rw [← sext_byte imm h8]; rfl
    have m0 : mapOf 0 = 0 := by decide
    simp [X86.Ext.head, this, X86.stackBits, noExt]; exact m0
  · rw [if_neg (by decide), if_neg (by decide), Enc.db_bind] at hw
    obtain ⟨_, rfl, hw⟩ := hw
    rw [Enc.gives_dbN] at hw
    subst hw
    refine ⟨[0x68] ++ leBytes 4 (imm.setWidth 64), rfl, fun t => ?_⟩
    have e := head_legBytes 0 false false noExt 0x68 (by decide) (fun _ => by decide) (leBytes 4 (imm.setWidth 64) ++ t)
    have e' : legBytes 0 false false noExt 0x68 = [0x68] := by decide +kernel
    rw [e'] at e
    unfold X86.pushI
    rw [List.append_assoc, e]
    have m0 : mapOf 0 = 0 := by decide
    simp [X86.Ext.head, imm_append, X86.stackBits, sext_field, noExt]; exact m0

/-! ## xchg -/

/-- The decoded instruction exchanges register `x` and `y`. -/
def Exchanges (fill : Act → BitVec 32) (i : X86.Xchg) (x y : Operand) : Prop :=
  ∃ q, x = .reg q ∧ (match i.reg with | none => q.idx = 0 | some lo => X86.regNum i.head lo = q.idx) ∧ LocIs fill i.head y i.loc

theorem gp_bits {r : Reg} (h : r.Named) (hk : r.kind = .reg) : r.bit = 8 ∨ r.bit = 16 ∨ r.bit = 32 ∨ r.bit = 64 := by
  rcases h.shape with ⟨_, h⟩ | ⟨h, _⟩ | ⟨h, _⟩ | ⟨h, _⟩ | ⟨h, _⟩ | ⟨h, _⟩ | ⟨h, _⟩ | ⟨h, _⟩ | ⟨h, _⟩
  · exact h
  all_goals rw [hk] at h; cases h

theorem opc90 : ∀ i : BitVec 5, X86.OpcodeOK 0 (0x90 ||| (i &&& 7).setWidth 8 : Byte) ∧
    (0x90 ||| (i &&& 7).setWidth 8 : Byte).extractLsb' 0 3 = i.extractLsb' 0 3 ∧
    (0x90 ||| (i &&& 7).setWidth 8 : Byte) &&& 0xF8 = 0x90 ∧
    ((0x90 ||| (i &&& 7).setWidth 8 : Byte) = 0x90 → i.extractLsb' 0 3 = 0) := by decide +kernel

theorem xchg_short (p q : Reg) (hp : p.kind = .reg) (hq : q.kind = .reg) (np : p.Named) (h0 : p.idx = 0) (hb : p.bit = q.bit)
    (hbit : q.bit = 16 ∨ q.bit = 32 ∨ q.bit = 64) (hn : q.idx ≠ 0 ∨ q.bit ≠ 32) {w : List Act}
    (hw : (rex (.reg q) (.reg p) 0 >>= fun _ => Enc.db (0x90 ||| (q.idx &&& 7).setWidth 8)).Gives w ()) (fill : Act → BitVec 32) :
    ∃ i : X86.Xchg, (∀ t, X86.xchg (concr fill w ++ t) = some (i, t)) ∧ i.bits = q.bit ∧ Exchanges fill i (.reg p) (.reg q) := by
  simp only [Enc.gives_bind, rex_reg, Enc.gives_db] at hw
  obtain ⟨_, _, _, ⟨_, _, rfl⟩, rfl, rfl⟩ := hw
  have pe : p.ext8 = false := by
    cases h : p.ext8
    · rfl
    · have := (np.ext8 h).2.1; omega
  have e1 : extRR p q = extRR .nil q := by
    unfold extRR Reg.isREG Reg.isBit Reg.hasRex2 Reg.isExtIdx2
    rw [hb, h0, pe, hp, hq]
    rcases hbit with h | h | h <;> simp [h, Reg.nil, Reg.isREG]
  have e2 : p66of 0 q p = p66of 0 q .nil := by
    unfold p66of Reg.isBit
    rw [hb]
    rcases hbit with h | h | h <;> simp [h, Reg.nil]
  obtain ⟨o1, o2, o3, o4⟩ := opc90 q.idx
  obtain ⟨h, hdec, hl, hm, _⟩ := rex_one q hq _ o1 (.inr hbit)
  refine ⟨⟨h, q.bit, none, .opc (q.idx.extractLsb' 0 3)⟩, fun t => ?_, rfl, p, rfl, h0, q, rfl, hq, hm⟩
  have hd := hdec t
  rw [e1, e2]
  rw [concr_append, concr_bytes]
  unfold X86.xchg
  show (match X86.head (_ ++ [_] ++ t) with | none => none | some (h, t) => _) = _
  rw [hd]
  dsimp only
  have m0 : mapOf 0 = 0 := by decide
  have hs : X86.opBits h = q.bit := by
    unfold X86.opBits
    rw [hl.w, hl.p66]
    rcases hbit with h | h | h <;> simp [h]
  have hz : ¬ ((h.opcode = 0x90 ∧ h.b3 = false ∧ h.b4 = false ∧ X86.opBits h = 32) ∨ h.pF3 = true) := by
    rintro (⟨z1, z2, z3, z4⟩ | z)
    · rw [hl.opcode] at z1
      rw [o4 z1, z2, z3] at hm
      rcases hn with hn | hn
      · exact hn hm.symm
      · exact hn (hs ▸ z4)
    · rw [hl.pF3, has0] at z; cases z
  rw [if_neg hz, hl.map, m0, hl.opcode, o3, o2, hs]
  simp

theorem xchg_long (r : Reg) (hk : r.kind = .reg) (hb : r.bit = 8 ∨ r.bit = 16 ∨ r.bit = 32 ∨ r.bit = 64) (op : Operand) (hop : OpOK op)
    (ho : ∀ q, op = .reg q → q.kind = .reg ∧ q.bit = r.bit) (c : Bool)
    {w : List Act} (hw : (opRO r op 0 (0x86 ||| (if r.isBit 8 then 0 else 1)) c).Gives w ()) (fill : Act → BitVec 32) :
    ∃ i : X86.Xchg, (∀ t, X86.xchg (concr fill w ++ t) = some (i, t)) ∧ i.bits = r.bit ∧ Exchanges fill i (.reg r) (op.withImm 0) := by
  have oc : opc 0 r (0x86 ||| (if r.isBit 8 then 0 else 1)) = if r.bit = 8 then 0x86 else 0x87 := by
    unfold opc Reg.isBit
    rcases hb with h | h | h | h <;> rw [h] <;> decide
  have m0 : mapOf 0 = 0 := by decide
  obtain ⟨h, reg, rm, hdec, hl, _⟩ := c34_ro r (fun h => absurd hk h) op hop 0 _ c 0 (fun h => absurd h (by decide))
    (by rw [m0, oc]; split <;> decide) hw fill
  refine ⟨⟨h, r.bit, some reg, .rm rm⟩, fun t => ?_, rfl, r, rfl, hl.reg, hl.rm⟩
  obtain ⟨t', e1, e2⟩ := insn_head (hdec t)
  have e3 := hl.head.opcode
  rw [oc] at e3
  have hs : r.bit ≠ 8 → X86.opBits h = r.bit := by
    intro h8
    unfold X86.opBits
    rw [hl.head.w, hl.head.p66]
    unfold p66of
    rw [has0]
    cases op with
    | reg q =>
      obtain ⟨q1, q2⟩ := ho q rfl
      unfold Operand.isREG Operand.hd Reg.isREG Reg.isBit
      dsimp only
      rw [q1, hk, q2]
      rcases hb with h | h | h | h
      · omega
      all_goals rw [h]; simp
    | mem a =>
      have hbit : a.o.bit = 0 ∨ a.o.bit = r.bit := by
        obtain ⟨_, hs, _⟩ := (opMR_gives { a with immSize := 0 } r 0 _ (fun h => absurd h (by decide)) w).1 hw
        by_cases h0 : a.o.bit = 0
        · exact .inl h0
        · right
          have : r.bit ≤ 64 := by omega
          rw [has0] at hs
          simp [this] at hs
          exact hs (by omega)
      rw [isREG_mem hop.1]
      unfold Operand.hd Reg.isREG Reg.isBit
      dsimp only
      rw [hk]
      rcases hbit with h0 | h0 <;> rw [h0] <;> rcases hb with h | h | h | h <;> first | omega | (rw [h]; simp)
  unfold X86.xchg
  rw [e1]
  dsimp only
  rw [hl.head.map, m0, e2]
  dsimp only
  rw [e3]
  by_cases h8 : r.bit = 8
  · rw [if_pos h8]; simp [h8]
  · rw [if_neg h8, hs h8]; simp

/-- C48: an accepted xchg of two general registers of the same size, or of a general register and memory, decodes to an exchange of exactly
these two operands with the register's size. -/
theorem c48_partial (op1 op2 : Operand) (h1 : OpOK op1) (h2 : OpOK op2) (hq : ∀ q, op1 = .reg q ∨ op2 = .reg q → q.Named ∧ q.kind = .reg)
    (hs : ∀ q1 q2, op1 = .reg q1 → op2 = .reg q2 → q1.bit = q2.bit)
    {w : List Act} (hw : (E.xchg op1 op2).Gives w ()) (fill : Act → BitVec 32) :
    ∃ i : X86.Xchg, (∀ t, X86.xchg (concr fill w ++ t) = some (i, t)) ∧ (∀ q, op1 = .reg q ∨ op2 = .reg q → i.bits = q.bit) ∧
      (Exchanges fill i op1 (op2.withImm 0) ∨ Exchanges fill i op2 (op1.withImm 0)) := by
  have key : ∀ p1 p2 : Operand, (p1 = op1 ∧ p2 = op2 ∨ p1 = op2 ∧ p2 = op1) → (do
      Enc.throwIf p1.isMEM .BAD_COMBINATION
      if p2.isREG && (p1.isREG 112 && p1.hd.idx == 0) && (p2.hd.idx != 0 || !p1.isREG 32) then do
        let _ ← rex p2 p1 0
        Enc.db (0x90 ||| (p2.hd.idx &&& 7).setWidth 8)
      else do
        let both := p1.isREG && p2.isREG
        let q1 := if both then p2 else p1
        let q2 := if both then p1 else p2
        opRO q1.hd q2 0 (0x86 ||| (if q1.isBit 8 then 0 else 1)) (q1.isREG && q1.bit == q2.bit) : Enc Unit).Gives w () →
      ∃ i : X86.Xchg, (∀ t, X86.xchg (concr fill w ++ t) = some (i, t)) ∧ (∀ q, p1 = .reg q ∨ p2 = .reg q → i.bits = q.bit) ∧
        (Exchanges fill i p1 (p2.withImm 0) ∨ Exchanges fill i p2 (p1.withImm 0)) := by
    intro p1 p2 hp hw
    rw [Enc.throwIf_bind] at hw
    obtain ⟨hm, hw⟩ := hw
    have hok : OpOK p1 ∧ OpOK p2 ∧ (∀ q, p1 = .reg q ∨ p2 = .reg q → q.Named ∧ q.kind = .reg) ∧
        (∀ q1 q2, p1 = .reg q1 → p2 = .reg q2 → q1.bit = q2.bit) := by
      rcases hp with ⟨rfl, rfl⟩ | ⟨rfl, rfl⟩
      · exact ⟨h1, h2, hq, hs⟩
      · exact ⟨h2, h1, fun q h => hq q h.symm, fun q1 q2 e1 e2 => (hs q2 q1 e2 e1).symm⟩
    obtain ⟨k1, k2, k3, k4⟩ := hok
    cases p1 with
    | mem a => cases hm
    | reg p =>
      obtain ⟨np, kp⟩ := k3 p (.inl rfl)
      have bp := gp_bits np kp
      have rp : (Operand.reg p).isREG = true := by simp [Operand.isREG, Operand.hd, Reg.isREG, kp]
      cases p2 with
      | reg q =>
        obtain ⟨nq, kq⟩ := k3 q (.inr rfl)
        have bb := k4 p q rfl rfl
        have rq : (Operand.reg q).isREG = true := by simp [Operand.isREG, Operand.hd, Reg.isREG, kq]
        split at hw
        · rename_i hc
          simp only [Operand.isREG, Operand.hd, Reg.isREG, Reg.isBit, Bool.and_eq_true, beq_iff_eq, Bool.or_eq_true, bne_iff_ne, Bool.not_eq_true', kp, kq] at hc
          obtain ⟨⟨_, hc1, hc2⟩, hc3⟩ := hc
          have hbit : q.bit = 16 ∨ q.bit = 32 ∨ q.bit = 64 := by
            rcases bp with h | h | h | h <;> rw [h] at hc1 bb <;> first | (simp [← bb]; done) | (exfalso; revert hc1; decide)
          obtain ⟨i, i1, i2, i3⟩ := xchg_short p q kp kq np hc2 bb hbit (by
            rcases hc3 with h | h
            · exact .inl h
            · right; intro h32; rw [bb, h32] at h; revert h; decide) hw fill
          refine ⟨i, i1, ?_, .inl i3⟩
          rintro q' (h | h) <;> cases h
          · rw [i2, bb]
          · exact i2
        · dsimp only at hw
          rw [rp, rq] at hw
          obtain ⟨i, i1, i2, i3⟩ := xchg_long q kq (bb ▸ bp) (.reg p) k1 (fun q' e => by cases e; exact ⟨kp, bb⟩) _ hw fill
          refine ⟨i, i1, ?_, .inr i3⟩
          rintro q' (h | h) <;> cases h
          · rw [i2, bb]
          · exact i2
      | mem a =>
        have rm : (Operand.mem a).isREG = false := isREG_mem k2.1 0
        rw [rm, Bool.false_and, Bool.false_and, if_neg (by decide)] at hw
        dsimp only at hw
        rw [rp] at hw
        obtain ⟨i, i1, i2, i3⟩ := xchg_long p kp bp (.mem a) k2 (fun q' e => by cases e) _ hw fill
        refine ⟨i, i1, ?_, .inl i3⟩
        rintro q' (h | h) <;> cases h
        exact i2
  unfold E.xchg at hw
  dsimp only at hw
  generalize (op1.isMEM || (op2.isREG 112 && op2.hd.idx == 0)) = sw at hw
  cases sw with
  | false => exact key op1 op2 (.inl ⟨rfl, rfl⟩) hw
  | true =>
    obtain ⟨i, i1, i2, i3⟩ := key op2 op1 (.inr ⟨rfl, rfl⟩) hw
    exact ⟨i, i1, fun q h => i2 q h.symm, i3.symm⟩

/-- `xchg eax, eax` is 87 C0; `xchg rax, rax` may be the one-byte form. -/
example : (E.xchg (.reg (.gp 0 32)) (.reg (.gp 0 32))).acts = [.byte 0x87, .byte 0xC0] := by decide +kernel
example : (E.xchg (.reg (.gp 0 64)) (.reg (.gp 0 64))).acts = [.byte 0x48, .byte 0x90] := by decide +kernel

/-- C48 does not hold in full: xchg(rax, ecx) is accepted and exchanges rax and rcx. -/
theorem c48_refuted_size : (E.xchg (.reg (.gp 0 64)) (.reg (.gp 1 32))).res = .ok () ∧ ∃ i : X86.Xchg,
    X86.xchg (concr (fun _ => 0) (E.xchg (.reg (.gp 0 64)) (.reg (.gp 1 32))).acts) = some (i, []) ∧ i.bits = 64 ∧ i.loc = .opc 1 :=
  ⟨rfl, ⟨{ w := true, rex := true, opcode := 0x91 }, 64, none, .opc 1⟩, by decide +kernel, rfl, rfl⟩

/-- C48 does not hold in full: xchg(rax, ah) is accepted and exchanges rax and rsp. -/
theorem c48_refuted_high : (E.xchg (.reg (.gp 0 64)) (.reg (.r8 4))).res = .ok () ∧ ∃ i : X86.Xchg,
    X86.xchg (concr (fun _ => 0) (E.xchg (.reg (.gp 0 64)) (.reg (.r8 4))).acts) = some (i, []) ∧ i.bits = 64 ∧ i.loc = .opc 4 :=
  ⟨rfl, ⟨{ w := true, rex := true, opcode := 0x94 }, 64, none, .opc 4⟩, by decide +kernel, rfl, rfl⟩

/-- C48 does not hold in full: xchg(xmm1, ptr[rax]) is accepted and exchanges ecx and a dword. -/
theorem c48_refuted_xmm : ∃ a, Term.addr (.reg (.gp 0 64)) 0 false = .ok a ∧ (E.xchg (.reg (.xmm 1)) (.mem a)).res = .ok () ∧ ∃ i : X86.Xchg,
    X86.xchg (concr (fun _ => 0) (E.xchg (.reg (.xmm 1)) (.mem a)).acts) = some (i, []) ∧ i.bits = 32 ∧ i.reg = some 1 :=
  ⟨_, rfl, rfl, ⟨{ opcode := 0x87 }, 32, some 1, .rm (.mem { base := some 0, index := none, scale := 1, disp := 0 })⟩, by decide +kernel, rfl, rfl⟩

end Xbyak
