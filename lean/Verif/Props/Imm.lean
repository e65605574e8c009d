import Verif.Props.Legacy
/-!
# Instructions with immediates (C36, C37)
-/
namespace Xbyak
open E

theorem insn_head {v : Bool} {n : Nat} {bs : List Byte} {h : X86.Head} {r : BitVec 3} {m : X86.RM} {t : List Byte}
    (hi : X86.insn v n bs = some (⟨h, r, m⟩, t)) : ∃ t', X86.head bs = some (h, t') ∧ X86.modrm h v n t' = some (r, m, t) := by
  unfold X86.insn at hi
  split at hi
  · cases hi
  · rename_i h' t' e
    split at hi
    · cases hi
    · rename_i r' m' t'' e'
      cases hi
      exact ⟨t', e, e'⟩

theorem imm_append (n : Nat) (v : Word) (t : List Byte) : X86.imm n (leBytes n v ++ t) = some (sextLE (leBytes n v), t) := by
  unfold X86.imm
  have e : (leBytes n v).length = n := leBytes_length n v
  rw [if_pos (by rw [List.length_append, e]; omega)]
  rw [List.take_left' e, List.drop_left' e]

theorem sextLE_eq (n : Nat) (v : Word) : sextLE (leBytes n v) = (v.setWidth (8 * n)).signExtend 64 := by
  unfold sextLE
  rw [fromLE_leBytes, leBytes_length]
  congr 1
  apply BitVec.eq_of_toNat_eq
  simp [Nat.pow_mul]

/-- The stored bytes keep the low bits. -/
theorem sextLE_low (n : Nat) (hn : n ≤ 8) (v : Word) : (sextLE (leBytes n v)).setWidth (8 * n) = v.setWidth (8 * n) := by
  rw [sextLE_eq]
  ext i hi
  have : i < 64 := by omega
  simp [BitVec.getElem_signExtend, hi, this]

theorem setWidth_mono {a b : Word} {n m : Nat} (h : m ≤ n) (e : a.setWidth n = b.setWidth n) : a.setWidth m = b.setWidth m := by
  have := congrArg (BitVec.setWidth m) e
  rwa [BitVec.setWidth_setWidth_of_le _ h, BitVec.setWidth_setWidth_of_le _ h] at this

theorem low_setWidth (n : Nat) (v : BitVec 32) (h : n ≤ 32) : (v.setWidth 64).setWidth n = (v.signExtend 64).setWidth n := by
  ext i hi
  have h32 : i < 32 := by omega
  have h64 : i < 64 := by omega
  simp [h64, h32, BitVec.getElem_signExtend]

/-- `getImmBit`: the size of the immediate. -/
theorem getImmBit_gives (op : Operand) (imm : BitVec 32) (w : List Act) (k : Nat) (h : (getImmBit op imm).Gives w k)
    (hb : op.bit = 8 ∨ op.bit = 16 ∨ op.bit = 32 ∨ op.bit = 64) :
    w = [] ∧ (k = 8 ∧ (op.bit = 8 ∨ isInDisp8 imm = true) ∨ k = 16 ∧ op.bit = 16 ∧ isInDisp16relaxed imm = true ∨ k = 32 ∧ 32 ≤ op.bit) := by
  unfold getImmBit verifyMemHasSize at h
  rw [Enc.throwIf_bind] at h
  dsimp only at h
  rw [Enc.throwIf_bind, Enc.gives_pure] at h
  obtain ⟨_, h2, rfl, rfl⟩ := h
  refine ⟨rfl, ?_⟩
  unfold Operand.isBit Reg.isBit at *
  unfold Operand.bit at *
  rcases hb with hb | hb | hb | hb <;> rw [hb] at h2 ⊢ <;>
    cases h8 : isInDisp8 imm <;> cases h16 : isInDisp16relaxed imm <;> simp [h8, h16] at h2 ⊢

/-- Where the operand of a decoded instruction is. -/
def LocIs (fill : Act → BitVec 32) (h : X86.Head) (op : Operand) : X86.Loc → Prop
  | .acc => ∃ q, op = .reg q ∧ q.kind = .reg ∧ q.idx = 0
  | .opc lo => ∃ q, op = .reg q ∧ q.kind = .reg ∧ X86.mk5 h.b4 h.b3 lo = q.idx
  | .rm m => RmIs fill h m op

/-- Byte registers are told apart. -/
def ByteIs (h : X86.Head) : Operand → Prop
  | .reg q => q.bit = 8 → X86.reg8 h q.idx = q.view8
  | .mem _ => True

theorem digit_small (n : BitVec 3) : (n.setWidth 5).getLsbD 3 = false ∧ (n.setWidth 5).getLsbD 4 = false ∧
    (n.setWidth 5).extractLsb' 0 3 = n := by revert n; decide +kernel

/-- With a digit in ModRM.reg a byte register in ModRM.rm is the named one. -/
theorem byte_rext (n : BitVec 3) (bit : Nat) (q : Reg) (h : X86.Head) (hl : h.rex = false → h.space = .legacy)
    (hx : h.rex = (extRR (.gp (n.setWidth 5) bit) q).present) (hbit : bit = 8) (hb : q.bit = 8) : X86.reg8 h q.idx = q.view8 := by
  subst hbit
  obtain ⟨d3, d4, _⟩ := digit_small n
  refine reg8_view h q hb hl (fun hh => ?_) (fun hh => by rw [hx]; simp [X86.Ext.present, extRR, hh])
  rw [hx]
  unfold Reg.isHigh8bit at hh
  simp only [Bool.and_eq_true, Bool.not_eq_true', decide_eq_true_eq] at hh
  obtain ⟨⟨_, he⟩, _, _⟩ := hh
  obtain ⟨q3, q4⟩ := idx_small q.idx (by omega)
  have w : q.isREG 64 = false := by unfold Reg.isREG Reg.isBit; rw [hb]; cases q.kind == .reg <;> rfl
  simp only [X86.Ext.present, extRR, Reg.hasRex2, Reg.isExtIdx2, q3, q4, he, w, Reg.gp, d3, d4, Bool.and_false, Bool.or_false]
  simp only [Reg.isREG, Reg.isBit]; decide

theorem p66_rext (op : Operand) (e : BitVec 5) (hb : op.bit = 8 ∨ op.bit = 16 ∨ op.bit = 32 ∨ op.bit = 64) :
    p66of 0 op.hd (.gp e op.bit) = (op.bit == 16) := by
  unfold p66of Reg.isBit
  show (false || _) = _
  unfold Operand.bit at *
  rcases hb with hb | hb | hb | hb <;> simp [hb, Reg.gp]

theorem w_rext (op : Operand) (e : BitVec 5) (hb : op.bit = 8 ∨ op.bit = 16 ∨ op.bit = 32 ∨ op.bit = 64) :
    (op.isREG 64 || (Reg.gp e op.bit).isREG 64) = (op.bit == 64) := by
  unfold Operand.isREG Reg.isREG Reg.isBit Operand.bit at *
  rcases hb with hb | hb | hb | hb <;> simp [hb, Reg.gp]

/-- Operand widths and immediate widths that occur together. -/
theorem immBit_cases {op : Operand} {imm : BitVec 32} {k : Nat} (hb : op.bit = 8 ∨ op.bit = 16 ∨ op.bit = 32 ∨ op.bit = 64)
    (hi : k = 8 ∧ (op.bit = 8 ∨ isInDisp8 imm = true) ∨ k = 16 ∧ op.bit = 16 ∧ isInDisp16relaxed imm = true ∨ k = 32 ∧ 32 ≤ op.bit) :
    (op.bit = 8 ∧ k = 8) ∨ (op.bit = 16 ∧ k = 8 ∧ isInDisp8 imm = true) ∨ (op.bit = 16 ∧ k = 16) ∨ (op.bit = 32 ∧ k = 8 ∧ isInDisp8 imm = true) ∨
    (op.bit = 32 ∧ k = 32) ∨ (op.bit = 64 ∧ k = 8 ∧ isInDisp8 imm = true) ∨ (op.bit = 64 ∧ k = 32) := by
  rcases hi with ⟨rfl, h1 | h1⟩ | ⟨rfl, h1, _⟩ | ⟨rfl, h1⟩
  · exact .inl ⟨h1, rfl⟩
  · rcases hb with hb | hb | hb | hb <;> simp [hb, h1]
  · simp [h1]
  · rcases hb with hb | hb | hb | hb <;> first | omega | simp [hb]

/-- The CPU's sign extension gives the requested value on the operand width. -/
theorem imm_value {bits k : Nat} {imm : BitVec 32} (h : bits ≤ k ∧ k ≤ 32 ∧ k % 8 = 0 ∨ k = 8 ∧ isInDisp8 imm = true ∨ k = 32 ∧ bits ≤ 64) :
    (sextLE (leBytes (k / 8) (imm.setWidth 64))).setWidth bits = (imm.signExtend 64).setWidth bits := by
  rcases h with ⟨h1, h2, h3⟩ | ⟨rfl, h⟩ | ⟨rfl, h⟩
  · have e : 8 * (k / 8) = k := by omega
    have := sextLE_low (k / 8) (by omega) (imm.setWidth 64)
    rw [e, low_setWidth k imm h2] at this
    exact setWidth_mono h1 this
  · have : leBytes (8 / 8) (imm.setWidth 64) = [imm.setWidth 8] := by
      show [_] = _
      congr 1
    rw [this, sext_byte imm h]
  · rw [show 32 / 8 = 4 from rfl, sext_field]

theorem mk5_digit : ∀ (b4 b3 : Bool) (lo n : BitVec 3), X86.mk5 b4 b3 lo = n.setWidth 5 → lo = n := by decide +kernel

/-- `rex(q)` followed by an opcode byte, for a general register `q` in the opcode (or the accumulator). -/
theorem rex_one (q : Reg) (hk : q.kind = .reg) (o : Byte) (ho : X86.OpcodeOK 0 o) (hb : q.bit = 8 ∨ q.bit = 16 ∨ q.bit = 32 ∨ q.bit = 64) :
    ∃ h : X86.Head, (∀ t, X86.head (rexBytes 0 (p66of 0 q .nil) false (extRR .nil q) ++ [o] ++ t) = some (h, t)) ∧
      LegacyHead 0 o (q.bit == 16) false (q.bit == 64) h ∧ X86.mk5 h.b4 h.b3 (q.idx.extractLsb' 0 3) = q.idx ∧
      h.rex = (extRR .nil q).present := by
  have m0 : mapOf 0 = 0 := by decide
  have e1 : p66of 0 q .nil = (q.bit == 16) := by
    unfold p66of Reg.isBit
    show (false || _) = _
    rcases hb with hb | hb | hb | hb <;> simp [hb, Reg.nil]
  have e2 : (extRR .nil q).w = (q.bit == 64) := by
    unfold extRR Reg.isREG Reg.isBit
    rcases hb with hb | hb | hb | hb <;> simp [hb, Reg.nil, hk]
  have hbytes : rexBytes 0 (p66of 0 q .nil) false (extRR .nil q) ++ [o] = legBytes 0 (p66of 0 q .nil) false (extRR .nil q) o := by
    rw [← rex_code _ _ _ _ _ (by decide)]
    congr 1
    unfold codeBytes
    rw [m0]
    cases (extRR Reg.nil q).rex2 <;> rfl
  refine ⟨(extRR .nil q).head { p66 := p66of 0 q .nil } 0 o, fun t => ?_, ?_, ?_, rfl⟩
  · rw [hbytes]
    exact head_legBytes 0 _ false _ o (by rw [m0]; exact ho) (fun _ => by decide) t
  · have := ext_head (extRR .nil q) 0 o (p66of 0 q .nil) false
    rw [e2, e1] at this
    rw [e1]
    exact this
  · have := legacy_bit4 (r := q) (fun h => absurd hk h)
    have hb4 : ((extRR Reg.nil q).rex2 && (extRR Reg.nil q).b4) = q.idx.getLsbD 4 := by
      unfold extRR
      cases h4 : q.idx.getLsbD 4 with
      | false => simp
      | true => simp [this h4]
    show X86.mk5 ((extRR Reg.nil q).rex2 && (extRR Reg.nil q).b4) (q.idx.getLsbD 3) _ = _
    rw [hb4, mk5_idx]

/-- Without a partner register, byte registers are the named ones. -/
theorem byte_nil (q : Reg) (h : X86.Head) (hl : h.rex = false → h.space = .legacy) (hx : h.rex = (extRR .nil q).present) (hb : q.bit = 8) :
    X86.reg8 h q.idx = q.view8 := by
  refine reg8_view h q hb hl (fun hh => ?_) (fun hh => by rw [hx]; simp [X86.Ext.present, extRR, hh])
  rw [hx]
  unfold Reg.isHigh8bit at hh
  simp only [Bool.and_eq_true, Bool.not_eq_true', decide_eq_true_eq] at hh
  obtain ⟨⟨_, he⟩, _, _⟩ := hh
  obtain ⟨q3, q4⟩ := idx_small q.idx (by omega)
  have w : q.isREG 64 = false := by unfold Reg.isREG Reg.isBit; rw [hb]; cases q.kind == .reg <;> rfl
  simp only [X86.Ext.present, extRR, Reg.hasRex2, Reg.isExtIdx2, q3, q4, he, w, Bool.and_false, Bool.or_false]
  decide

/-- C36: an accepted add/or/adc/sbb/and/sub/xor/cmp (`n` = 0..7) with an immediate decodes to that operation, operand and operand width, and
the immediate, sign-extended by the CPU, agrees with the requested one on the operand width. -/
theorem c36_alu (n : BitVec 3) (op : Operand) (hop : OpOK op) (hq : ∀ q, op = .reg q → q.Named)
    (hb : op.bit = 8 ∨ op.bit = 16 ∨ op.bit = 32 ∨ op.bit = 64) (imm : BitVec 32)
    {w : List Act} (hw : (opOI op imm (n.setWidth 8 <<< 3) (n.setWidth 5)).Gives w ()) (fill : Act → BitVec 32) :
    ∃ (i : X86.OpI) (k : Nat), (∀ t, X86.aluI (concr fill w ++ t) = some (i, t)) ∧ i.op = n ∧ i.bits = op.bit ∧
      LocIs fill i.head (op.withImm k) i.loc ∧ ByteIs i.head op ∧ i.imm.setWidth op.bit = (imm.signExtend 64).setWidth op.bit ∧
      ∃ w', concr fill w = w' ++ leBytes k (imm.setWidth 64) := by
  unfold opOI at hw
  rw [Enc.gives_bind] at hw
  obtain ⟨w0, immBit, w1, hi, hw, rfl⟩ := hw
  obtain ⟨rfl, hi'⟩ := getImmBit_gives op imm w0 immBit hi hb
  have hc := immBit_cases hb hi'
  have m0 : mapOf 0 = 0 := by decide
  rw [List.nil_append]
  dsimp only at hw
  have himm : (sextLE (leBytes (immBit / 8) (imm.setWidth 64))).setWidth op.bit = (imm.signExtend 64).setWidth op.bit := by
    apply imm_value
    rcases hc with ⟨h1, h2⟩ | ⟨h1, h2, h3⟩ | ⟨h1, h2⟩ | ⟨h1, h2, h3⟩ | ⟨h1, h2⟩ | ⟨h1, h2, h3⟩ | ⟨h1, h2⟩ <;> simp_all
  split at hw
  · rename_i ha
    simp only [Bool.and_eq_true, beq_iff_eq, Bool.or_eq_true] at ha
    obtain ⟨⟨hr, h0⟩, hbit⟩ := ha
    cases op with
    | mem a => rw [isREG_mem hop.1] at hr; cases hr
    | reg q =>
      have hk : q.kind = .reg := by simpa [Operand.isREG, Operand.hd, Reg.isREG] using hr
      simp only [Enc.gives_bind, rex_reg, Enc.gives_db, Enc.gives_dbN] at hw
      obtain ⟨_, _, _, ⟨⟨_, _, h38⟩, _, rfl⟩, ⟨_, _, _, rfl, rfl, rfl⟩, rfl⟩ := hw
      have h0 : q.idx = 0 := h0
      generalize hO : (n.setWidth 8 <<< 3 ||| 4 ||| (if immBit = 8 then 0 else 1) : Byte) = o
      have hO' : X86.OpcodeOK 0 o ∧ o.extractLsb' 3 3 = n ∧ o &&& 0xC7 = (if immBit = 8 then 0x04 else 0x05) := by
        subst hO
        have : ∀ (b : Bool) (n : BitVec 3), X86.OpcodeOK 0 (n.setWidth 8 <<< 3 ||| 4 ||| (if b then 0 else 1) : Byte) ∧
          (n.setWidth 8 <<< 3 ||| 4 ||| (if b then 0 else 1) : Byte).extractLsb' 3 3 = n ∧
          (n.setWidth 8 <<< 3 ||| 4 ||| (if b then 0 else 1) : Byte) &&& 0xC7 = (if b then 0x04 else 0x05) := by decide +kernel
        have := this (decide (immBit = 8)) n
        simpa only [decide_eq_true_eq] using this
      obtain ⟨h, hdec, hl, _, hx⟩ := rex_one q hk o hO'.1 hb
      refine ⟨⟨h, n, q.bit, .acc, sextLE (leBytes (immBit / 8) (imm.setWidth 64))⟩, immBit / 8, fun t => ?_, rfl, rfl, ⟨q, rfl, hk, h0⟩,
        fun hb => byte_nil q h hl.rexp hx hb, himm, ?_⟩
      · simp only [concr_append, concr_bytes, List.append_assoc]
        have hd := hdec (leBytes (immBit / 8) (imm.setWidth 64) ++ t)
        rw [List.append_assoc] at hd
        unfold X86.aluI
        show (match X86.head (_ ++ ([o] ++ _)) with | none => none | some (h, t) => _) = _
        rw [hd]
        dsimp only
        rw [hl.map, m0, hl.opcode, hO'.2.2, hO'.2.1]
        unfold X86.immz X86.opBits
        rw [hl.p66, hl.w]
        have hbit : q.bit = immBit ∨ q.bit = 64 ∧ immBit = 32 := by
          have h64 : q.isBit 64 = true → q.bit = 64 := by
            unfold Reg.isBit
            rcases hb with hb | hb | hb | hb <;> (have hb : q.bit = _ := hb; rw [hb]; decide)
          rcases hbit with h | h
          · exact .inl h
          · exact .inr ⟨h64 h.1, h.2⟩
        have hc : _ := hc
        unfold Operand.bit Operand.hd at hc
        dsimp only at hc
        rcases hc with ⟨h1, h2⟩ | ⟨h1, h2, _⟩ | ⟨h1, h2⟩ | ⟨h1, h2, _⟩ | ⟨h1, h2⟩ | ⟨h1, h2, _⟩ | ⟨h1, h2⟩ <;>
          (try omega) <;> rw [h1, h2] <;> simp [imm_append]
      · refine ⟨rexBytes 0 (p66of 0 q .nil) false (extRR .nil q) ++ [o], ?_⟩
        simp only [concr_append, concr_bytes, List.append_assoc]
        rfl
  · rename_i ha
    rw [Enc.gives_bind] at hw
    obtain ⟨w2, _, w3, hr, hd, rfl⟩ := hw
    rw [Enc.gives_dbN] at hd
    subst hd
    have ho : ∀ e, opc 0 (.gp e op.bit) (0x80 ||| if immBit < min op.bit 32 then 2 else 0) =
        if op.bit = 8 then 0x80 else if immBit = 8 then 0x83 else 0x81 := by
      intro e
      unfold opc Reg.isBit
      rcases hc with ⟨h1, h2⟩ | ⟨h1, h2, _⟩ | ⟨h1, h2⟩ | ⟨h1, h2, _⟩ | ⟨h1, h2⟩ | ⟨h1, h2, _⟩ | ⟨h1, h2⟩ <;> rw [h1, h2] <;>
        (simp only [Reg.gp]; decide)
    obtain ⟨h, reg, rm, hdec, hl, hx, _⟩ := c34_rext op hop hq 0 (n.setWidth 5) 0 _ _ (fun h => absurd h (by decide)) (by decide)
      (by rw [ho]; split; · decide
          split <;> decide) hr fill
    have e3 := hl.head.opcode
    rw [ho] at e3
    have e4 := hl.head.p66
    rw [p66_rext op _ hb] at e4
    have e5 := hl.head.w
    rw [w_rext op _ hb] at e5
    have hreg : reg = n := by
      exact mk5_digit _ _ _ _ hl.reg
    refine ⟨⟨h, reg, op.bit, .rm rm, sextLE (leBytes (immBit / 8) (imm.setWidth 64))⟩, immBit / 8, fun t => ?_, hreg, rfl, hl.rm, ?_, himm, ?_⟩
    · rw [concr_append, concr_bytes, List.append_assoc]
      obtain ⟨t', e1, e2⟩ := insn_head (hdec (leBytes (immBit / 8) (imm.setWidth 64) ++ t))
      unfold X86.aluI
      rw [e1]
      dsimp only
      rw [hl.head.map, m0, e2]
      dsimp only
      rw [e3, if_neg (by decide)]
      unfold X86.immz X86.opBits
      rw [e4, e5]
      rcases hc with ⟨h1, h2⟩ | ⟨h1, h2, _⟩ | ⟨h1, h2⟩ | ⟨h1, h2, _⟩ | ⟨h1, h2⟩ | ⟨h1, h2, _⟩ | ⟨h1, h2⟩ <;> rw [h1, h2] <;>
        simp [imm_append]
    · cases op with
      | mem a => trivial
      | reg q => exact fun hb => byte_rext n q.bit q h hl.head.rexp hx hb hb
    · exact ⟨concr fill w2, by rw [concr_append, concr_bytes]⟩

theorem high16 (x : BitVec 32) : (x &&& 0xffff0000).toNat = x.toNat / 65536 * 65536 := by
  have : x &&& (0xffff0000 : BitVec 32) = (x >>> 16) <<< 16 := by
    apply BitVec.eq_of_getLsbD_eq
    intro i hi
    have h1 : ∀ j : Fin 32, (0xffff0000 : BitVec 32).getLsbD j.val = decide (16 ≤ j.val) := by decide
    rw [BitVec.getLsbD_and, h1 ⟨i, hi⟩, BitVec.getLsbD_shiftLeft, BitVec.getLsbD_ushiftRight]
    by_cases h : 16 ≤ i
    · have : 16 + (i - 16) = i := by omega
      simp [h, hi, this]
    · simp [h]
  rw [this, BitVec.toNat_shiftLeft, BitVec.toNat_ushiftRight, Nat.shiftRight_eq_div_pow, Nat.shiftLeft_eq]
  have := x.isLt
  omega

theorem relaxed16_iff (x : BitVec 32) : isInDisp16relaxed x = true ↔ -65536 ≤ x.toInt ∧ x.toInt < 65536 := by
  unfold isInDisp16relaxed
  have h := high16 x
  have hlt := x.isLt
  simp only [Bool.or_eq_true, beq_iff_eq]
  rw [← BitVec.toNat_inj, ← BitVec.toNat_inj, h, BitVec.toInt_eq_toNat_cond]
  show (_ = 0 ∨ _ = 4294901760) ↔ _
  split <;> omega

/-- C36: a 16-bit operand refuses immediates outside -65536..65535. -/
theorem c36_refuses16 (n : BitVec 3) (op : Operand) (hb : op.bit = 16) (imm : BitVec 32) (hi : imm.toInt < -65536 ∨ 65535 < imm.toInt)
    (w : List Act) : ¬ (opOI op imm (n.setWidth 8 <<< 3) (n.setWidth 5)).Gives w () := by
  intro hw
  unfold opOI at hw
  rw [Enc.gives_bind] at hw
  obtain ⟨w0, immBit, w1, hi', _⟩ := hw
  obtain ⟨_, h⟩ := getImmBit_gives op imm w0 immBit hi' (.inr (.inl hb))
  rw [isInDisp8_iff, relaxed16_iff] at h
  omega

/-- C36 does not hold in full: for 8-bit operands values that do not fit are accepted and truncated (`add(cl, 0x1234)` is 80 C1 34). -/
theorem c36_refuted_byte : (opOI (.reg (.r8 1)) 0x1234 0 0).res = .ok () ∧
    (opOI (.reg (.r8 1)) 0x1234 0 0).acts = [.byte 0x80, .byte 0xC1, .byte 0x34] := ⟨rfl, by decide +kernel⟩

/-- `cmp(word[rsp+8], -3)`: 66 83 7C 24 08 FD; `and(eax, 0x12345678)`: 25 78 56 34 12. -/
example : ∃ a, Term.addr (.add (.reg (.gp 4 64)) (.const 8)) 16 false = .ok a ∧
    (opOI (.mem a) (-3) 0x38 7).acts = [.byte 0x66, .byte 0x83, .byte 0x7C, .byte 0x24, .byte 0x08, .byte 0xFD] := ⟨_, rfl, by decide +kernel⟩
example : (opOI (.reg (.gp 0 32)) 0x12345678 0x20 4).acts = [.byte 0x25, .byte 0x78, .byte 0x56, .byte 0x34, .byte 0x12] := by decide +kernel

/-! ## mov with an immediate -/

theorem opc_low : ∀ (i : BitVec 5), (0xB0 ||| (i &&& 7).setWidth 8 : Byte).extractLsb' 0 3 = i.extractLsb' 0 3 ∧
    (0xB8 ||| (i &&& 7).setWidth 8 : Byte).extractLsb' 0 3 = i.extractLsb' 0 3 ∧
    (0xB0 ||| (i &&& 7).setWidth 8 : Byte) &&& 0xF8 = 0xB0 ∧ (0xB8 ||| (i &&& 7).setWidth 8 : Byte) &&& 0xF8 = 0xB8 ∧
    X86.OpcodeOK 0 (0xB0 ||| (i &&& 7).setWidth 8) ∧ X86.OpcodeOK 0 (0xB8 ||| (i &&& 7).setWidth 8) ∧
    (0xC0 ||| (i &&& 7).setWidth 8 : Byte).extractLsb' 0 3 = i.extractLsb' 0 3 ∧
    (0xC0 ||| (i &&& 7).setWidth 8 : Byte).extractLsb' 3 3 = 0 ∧ (0xC0 ||| (i &&& 7).setWidth 8 : Byte).extractLsb' 6 2 = 3 := by
  decide +kernel

theorem mask32 (v : Word) : v &&& 0xFFFFFFFF = (v.setWidth 32).setWidth 64 := by
  apply BitVec.eq_of_getLsbD_eq
  intro i hi
  have h1 : ∀ j : Fin 64, (0xFFFFFFFF : Word).getLsbD j.val = decide (j.val < 32) := by decide
  rw [BitVec.getLsbD_and, h1 ⟨i, hi⟩]
  by_cases h : i < 32 <;> simp [h, hi]
theorem mask16 (v : Word) : v &&& 0xFFFF = (v.setWidth 16).setWidth 64 := by
  apply BitVec.eq_of_getLsbD_eq
  intro i hi
  have h1 : ∀ j : Fin 64, (0xFFFF : Word).getLsbD j.val = decide (j.val < 16) := by decide
  rw [BitVec.getLsbD_and, h1 ⟨i, hi⟩]
  by_cases h : i < 16 <;> simp [h, hi]
theorem mask8 (v : Word) : v &&& 0xFF = (v.setWidth 8).setWidth 64 := by
  apply BitVec.eq_of_getLsbD_eq
  intro i hi
  have h1 : ∀ j : Fin 64, (0xFF : Word).getLsbD j.val = decide (j.val < 8) := by decide
  rw [BitVec.getLsbD_and, h1 ⟨i, hi⟩]
  by_cases h : i < 8 <;> simp [h, hi]

theorem modrm_direct (h : X86.Head) (v : Bool) (n : Nat) (c : Byte) (t : List Byte) (hc : c.extractLsb' 6 2 = 3) :
    X86.modrm h v n (c :: t) = some (c.extractLsb' 3 3, .reg (c.extractLsb' 0 3), t) := by
  unfold X86.modrm
  dsimp only
  rw [if_pos hc]

/-- Only the low bits of the value matter for a write. -/
theorem write_congr {bits : Nat} (hb : bits = 8 ∨ bits = 16 ∨ bits = 32 ∨ bits = 64) {a b : Word} (h : a.setWidth bits = b.setWidth bits) (old : Word) :
    X86.write bits old a = X86.write bits old b := by
  unfold X86.write
  rcases hb with rfl | rfl | rfl | rfl
  · simp only [mask8, h]; rfl
  · simp only [mask16, h]; rfl
  · simp only [mask32, h]; rfl
  · have : a = b := by simpa using h
    rw [this]

theorem writeHigh_congr {a b : Word} (h : a.setWidth 8 = b.setWidth 8) (old : Word) : X86.writeHigh old a = X86.writeHigh old b := by
  unfold X86.writeHigh
  simp only [mask8, h]

/-- C37: an accepted `mov(reg, imm)` decodes to a move of an immediate into that register; executed, the 64-bit register holds what
writing `imm` with the width of the destination gives.  For a 64-bit destination that is `imm` itself. -/
theorem c37_mov (r : Reg) (hr : r.Named) (imm : Word) {w : List Act} (hw : (movI (.reg r) imm).Gives w ()) :
    ∃ (bs : List Byte) (i : X86.OpI), w = bs.map .byte ∧ (∀ t, X86.movI (bs ++ t) = some (i, t)) ∧ i.op = 0 ∧
      (∀ fill, LocIs fill i.head (.reg r) i.loc) ∧
      (∀ old, X86.write i.bits old i.imm = X86.write r.bit old imm) ∧
      (r.bit = 8 → i.bits = 8 ∧ X86.reg8 i.head r.idx = r.view8 ∧ ∀ old, X86.writeHigh old i.imm = X86.writeHigh old imm) := by
  unfold movI at hw
  dsimp only at hw
  split at hw
  case isFalse => exact absurd hw (fun h => (Enc.gives_throw.1 h))
  rename_i hk
  have hk : r.kind = .reg := by simpa [Reg.isREG] using hk
  have hb : r.bit = 8 ∨ r.bit = 16 ∨ r.bit = 32 ∨ r.bit = 64 := by
    rcases hr.shape with ⟨_, h⟩ | ⟨h, _⟩ | ⟨h, _⟩ | ⟨h, _⟩ | ⟨h, _⟩ | ⟨h, _⟩ | ⟨h, _⟩ | ⟨h, _⟩ | ⟨h, _⟩
    · exact h
    all_goals rw [hk] at h; cases h
  have m0 : mapOf 0 = 0 := by decide
  obtain ⟨l1, l2, l3, l4, l5, l6, l7, l8, l9⟩ := opc_low r.idx
  have h8 : r.bit = 8 → (if r.bit = 8 then 0 else 8 : Byte) = 0 := fun h => by rw [if_pos h]
  rw [Enc.gives_bind] at hw
  obtain ⟨w1, size, w2, hw, hd, rfl⟩ := hw
  rw [Enc.gives_dbN] at hd
  subst hd
  unfold mov_imm at hw
  dsimp only at hw
  split at hw
  · rename_i h64
    simp only [Enc.gives_bind, rex_reg, Enc.gives_db, Enc.gives_pure] at hw
    obtain ⟨_, _, _, ⟨_, _, rfl⟩, ⟨_, _, _, rfl, ⟨rfl, rfl⟩, rfl⟩, rfl⟩ := hw
    obtain ⟨hb64, himm⟩ := h64
    rw [if_neg (by omega)]
    obtain ⟨h, hdec, hl, hm, _⟩ := rex_one (.gp r.idx 32) rfl _ l6 (.inr (.inr (.inl rfl)))
    refine ⟨rexBytes 0 (p66of 0 (.gp r.idx 32) .nil) false (extRR .nil (.gp r.idx 32)) ++ [0xB8 ||| (r.idx &&& 7).setWidth 8] ++ leBytes 4 imm,
      ⟨h, 0, 32, .opc (r.idx.extractLsb' 0 3), sextLE (leBytes 4 imm)⟩, ?_, fun t => ?_, rfl, fun _ => ⟨r, rfl, hk, hm⟩, ?_, fun h => by omega⟩
    rotate_left
    · have hd := hdec (leBytes 4 imm ++ t)
      rw [← List.append_assoc] at hd
      unfold X86.movI
      rw [hd]
      dsimp only
      unfold X86.opBits
      rw [hl.map, m0, hl.opcode, l2, l4, hl.p66, hl.w]
      simp [imm_append, Reg.gp]
    · intro old
      show X86.write 32 old _ = X86.write r.bit old imm
      rw [hb64]
      unfold X86.write
      rw [if_neg (by decide), if_pos rfl, if_pos rfl, mask32, sextLE_low 4 (by decide)]
      show (imm.setWidth 32).setWidth 64 = imm
      rw [← mask32]
      have h2 : imm &&& (0xFFFFFFFF ||| ~~~(0xffffffff : Word)) = imm := by
        rw [show (0xFFFFFFFF ||| ~~~(0xffffffff : Word)) = BitVec.allOnes 64 by decide, BitVec.and_allOnes]
      rw [BitVec.and_or_distrib_left, himm] at h2
      simpa using h2
    · simp only [List.map_append, List.append_assoc, List.map_cons, List.map_nil]
      rfl
  · rename_i h64
    simp only [Enc.gives_bind, rex_reg] at hw
    obtain ⟨_, _, _, ⟨_, _, rfl⟩, hw, rfl⟩ := hw
    split at hw
    · rename_i h32
      simp only [Enc.gives_bind, Enc.gives_db, Enc.gives_pure] at hw
      obtain ⟨_, _, _, rfl, ⟨_, _, _, rfl, ⟨rfl, rfl⟩, rfl⟩, rfl⟩ := hw
      obtain ⟨hb64, h32⟩ := h32
      obtain ⟨h, hdec, hl, hm, _⟩ := rex_one r hk 0xC7 (by decide) hb
      refine ⟨rexBytes 0 (p66of 0 r .nil) false (extRR .nil r) ++ [0xC7] ++ [0xC0 ||| (r.idx &&& 7).setWidth 8] ++ leBytes 4 imm,
        ⟨h, 0, 64, .rm (.reg (r.idx.extractLsb' 0 3)), imm⟩, ?_, fun t => ?_, rfl, fun _ => ⟨_, rfl, hm⟩, ?_, fun h => by omega⟩
      rotate_left
      · have hd := hdec ((0xC0 ||| (r.idx &&& 7).setWidth 8) :: (leBytes 4 imm ++ t))
        have e : sextLE (leBytes 4 imm) = imm := sextLE_leBytes 4 imm (.inr (.inr (.inl rfl))) ((isInInt32_iff imm).1 h32)
        unfold X86.movI
        rw [List.append_assoc, List.append_assoc, List.singleton_append, hd]
        dsimp only
        rw [modrm_direct h false 1 _ _ l9, l7, l8]
        unfold X86.immz X86.opBits
        rw [hl.map, m0, hl.opcode, hl.p66, hl.w, hb64]
        simp [imm_append, e]
      · intro old
        rw [hb64]
      · simp only [List.map_append, List.append_assoc, List.map_cons, List.map_nil]
        rfl
    · simp only [Enc.gives_bind, Enc.gives_db, Enc.gives_pure] at hw
      obtain ⟨_, _, _, rfl, ⟨rfl, rfl⟩, rfl⟩ := hw
      by_cases hb8 : r.bit = 8
      · rw [if_pos hb8]
        obtain ⟨h, hdec, hl, hm, hx⟩ := rex_one r hk _ l5 hb
        have low : (sextLE (leBytes 1 imm)).setWidth 8 = imm.setWidth 8 := sextLE_low 1 (by decide) imm
        refine ⟨rexBytes 0 (p66of 0 r .nil) false (extRR .nil r) ++ [0xB0 ||| (r.idx &&& 7).setWidth 8] ++ leBytes 1 imm,
          ⟨h, 0, 8, .opc (r.idx.extractLsb' 0 3), sextLE (leBytes 1 imm)⟩, ?_, fun t => ?_, rfl, fun _ => ⟨r, rfl, hk, hm⟩, ?_,
          fun _ => ⟨rfl, byte_nil r h hl.rexp hx hb8, writeHigh_congr low⟩⟩
        rotate_left
        · have hd := hdec (leBytes 1 imm ++ t)
          rw [← List.append_assoc] at hd
          unfold X86.movI
          rw [hd]
          dsimp only
          rw [hl.map, m0, hl.opcode, l1, l3]
          simp [imm_append]
        · intro old
          rw [hb8]
          exact write_congr (.inl rfl) low old
        · rw [hb8]
          simp only [List.map_append, List.append_assoc, List.map_cons, List.map_nil]
          rfl
      · rw [if_neg hb8]
        obtain ⟨h, hdec, hl, hm, hx⟩ := rex_one r hk _ l6 hb
        have low : (sextLE (leBytes (r.bit / 8) imm)).setWidth r.bit = imm.setWidth r.bit := by
          have := sextLE_low (r.bit / 8) (by omega) imm
          rwa [show 8 * (r.bit / 8) = r.bit by omega] at this
        refine ⟨rexBytes 0 (p66of 0 r .nil) false (extRR .nil r) ++ [0xB8 ||| (r.idx &&& 7).setWidth 8] ++ leBytes (r.bit / 8) imm,
          ⟨h, 0, r.bit, .opc (r.idx.extractLsb' 0 3), sextLE (leBytes (r.bit / 8) imm)⟩, ?_, fun t => ?_, rfl,
          fun _ => ⟨r, rfl, hk, hm⟩, fun old => write_congr hb low old, fun h => by omega⟩
        rotate_left
        · have hd := hdec (leBytes (r.bit / 8) imm ++ t)
          rw [← List.append_assoc] at hd
          unfold X86.movI
          rw [hd]
          dsimp only
          unfold X86.opBits
          rw [hl.map, m0, hl.opcode, l2, l4, hl.p66, hl.w]
          have : ∀ t, X86.imm (r.bit / 8) (leBytes (r.bit / 8) imm ++ t) = _ := imm_append _ imm
          rcases hb with hb | hb | hb | hb
          · omega
          all_goals rw [hb] at this ⊢; simp [this]
        · simp only [List.map_append, List.append_assoc, List.map_cons, List.map_nil]
          rfl

/-- mov(r15, -2): 49 C7 C7 FE FF FF FF; mov(rax, 2^32 - 2): B8 FE FF FF FF; mov(ah, 0x12): B4 12; mov(r16, 2^40): REX2, 8 bytes. -/
example : (movI (.reg (.gp 15 64)) (-2)).acts = [.byte 0x49, .byte 0xC7, .byte 0xC7, .byte 0xFE, .byte 0xFF, .byte 0xFF, .byte 0xFF] := by
  decide +kernel
example : (movI (.reg (.gp 0 64)) 0xFFFFFFFE).acts = [.byte 0xB8, .byte 0xFE, .byte 0xFF, .byte 0xFF, .byte 0xFF] := by decide +kernel
example : (movI (.reg (.r8 4)) 0x12).acts = [.byte 0xB4, .byte 0x12] := by decide +kernel
example : (movI (.reg (.gp 16 64)) 0x10000000000).acts = ([0xD5, 0x18, 0xB8, 0, 0, 0, 0, 0, 1, 0, 0] : List Byte).map .byte := by decide +kernel

/-- C37 also for memory: an accepted `mov(size [..], imm)` decodes to a move of the immediate to that address with that size. -/
theorem c37_mem (a : Addr) (ha : OpOK (.mem a)) (hb : a.o.bit = 8 ∨ a.o.bit = 16 ∨ a.o.bit = 32 ∨ a.o.bit = 64) (imm : Word)
    {w : List Act} (hw : (movI (.mem a) imm).Gives w ()) (fill : Act → BitVec 32) :
    ∃ (i : X86.OpI) (k : Nat), (∀ t, X86.movI (concr fill w ++ t) = some (i, t)) ∧ i.op = 0 ∧ i.bits = a.o.bit ∧
      LocIs fill i.head ((Operand.mem a).withImm k) i.loc ∧ i.imm.setWidth a.o.bit = imm.setWidth a.o.bit ∧
      ∃ w', concr fill w = w' ++ leBytes k imm := by
  have m0 : mapOf 0 = 0 := by decide
  obtain ⟨haw, hap, han, hat⟩ := ha
  have low : ∀ k, k ≤ 4 → leBytes k ((lo32 imm).setWidth 64) = leBytes k imm := by
    intro k hk
    unfold leBytes
    refine List.map_congr_left fun i hi => ?_
    have hi := List.mem_range.1 hi
    unfold lo32
    ext j hj
    have : 8 * i + j < 32 := by omega
    have : 8 * i + j < 64 := by omega
    simp [*]
  have key : ∀ k w, (opMR { a with immSize := k } (.gp 0 a.o.bit) 0 0xC6).Gives w () → k = min (a.o.bit / 8) 4 →
      (sextLE (leBytes k imm)).setWidth a.o.bit = imm.setWidth a.o.bit →
      ∃ i : X86.OpI, (∀ t, X86.movI (concr fill w ++ leBytes k imm ++ t) = some (i, t)) ∧ i.op = 0 ∧ i.bits = a.o.bit ∧
        LocIs fill i.head ((Operand.mem a).withImm k) i.loc ∧ i.imm.setWidth a.o.bit = imm.setWidth a.o.bit := by
    intro k w hw hk hv
    obtain ⟨h, reg, m, hl, hr, hx, hdec, hm⟩ := c34_mr { a with immSize := k } ⟨haw.exp, haw.rip, haw.kind⟩ hap han hat (.gp 0 a.o.bit)
      (fun h => absurd rfl h) 0 0xC6 (fun h => absurd h (by decide)) (by
        unfold opc Reg.isBit
        rcases hb with hb | hb | hb | hb <;> rw [hb] <;> (simp only [Reg.gp]; decide)) hw fill
    have hreg : reg = 0 := mk5_digit _ _ _ _ hr
    refine ⟨⟨h, reg, a.o.bit, .rm (.mem m), sextLE (leBytes k imm)⟩, fun t => ?_, hreg, rfl, ⟨m, rfl, hm⟩, hv⟩
    obtain ⟨t', e1, e2⟩ := insn_head (hdec (leBytes k imm ++ t))
    unfold X86.movI
    rw [List.append_assoc, e1]
    dsimp only
    rw [hl.map, m0, e2]
    dsimp only
    unfold X86.immz X86.opBits
    have ho : opc 0 (.gp 0 a.o.bit) 0xC6 = if a.o.bit = 8 then 0xC6 else 0xC7 := by
      unfold opc Reg.isBit
      rcases hb with hb | hb | hb | hb <;> rw [hb] <;> (simp only [Reg.gp]; decide)
    have hW : (Reg.gp 0 a.o.bit).isREG 64 = (a.o.bit == 64) := by
      unfold Reg.isREG Reg.isBit
      rcases hb with hb | hb | hb | hb <;> rw [hb] <;> rfl
    rw [hl.p66, hl.w, hl.opcode, ho, hW]
    have h6 : p66of 0 a.o (.gp 0 a.o.bit) = (a.o.bit == 16) := p66_rext (.mem a) 0 hb
    rw [show ({ a with immSize := k } : Addr).o = a.o from rfl, h6]
    subst hk
    rcases hb with hb | hb | hb | hb <;> rw [hb] <;> simp [imm_append]
  unfold movI at hw
  dsimp only at hw
  unfold verifyMemHasSize at hw
  rw [Enc.throwIf_bind] at hw
  obtain ⟨_, hw⟩ := hw
  split at hw
  · rename_i h4
    rw [Enc.throwIf_bind] at hw
    obtain ⟨_, hw⟩ := hw
    simp only [Enc.gives_bind, Enc.gives_dbN] at hw
    obtain ⟨w1, _, w2, h1, rfl, rfl⟩ := hw
    obtain ⟨i, h⟩ := key _ _ h1 (by omega) (by
      have := sextLE_low (a.o.bit / 8) (by omega) imm
      rwa [show 8 * (a.o.bit / 8) = a.o.bit by omega] at this)
    refine ⟨i, a.o.bit / 8, ?_, h.2.1, h.2.2.1, h.2.2.2.1, h.2.2.2.2, concr fill w1, ?_⟩
    · rw [concr_append, concr_bytes, low _ h4]; exact h.1
    · rw [concr_append, concr_bytes, low _ h4]
  · rw [Enc.throwIf_bind] at hw
    obtain ⟨hi, hw⟩ := hw
    simp only [Enc.gives_bind, Enc.gives_dbN] at hw
    obtain ⟨w1, _, w2, h1, rfl, rfl⟩ := hw
    have hi : isInInt32 imm = true := by simpa using hi
    obtain ⟨i, h⟩ := key _ _ h1 (by omega) (by
      rw [sextLE_leBytes 4 imm (.inr (.inr (.inl rfl))) ((isInInt32_iff imm).1 hi)])
    refine ⟨i, 4, ?_, h.2.1, h.2.2.1, h.2.2.2.1, h.2.2.2.2, concr fill w1, ?_⟩
    · rw [concr_append, concr_bytes, low _ (by decide)]; exact h.1
    · rw [concr_append, concr_bytes, low _ (by decide)]

end Xbyak
