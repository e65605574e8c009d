import Verif.OpAddr
import Verif.Spec.X86Ops
/-!
# Legacy-encoded instructions (C33, C34, C35, C40)
-/
namespace Xbyak
open E

/-- Which byte register is meant by an 8-bit register operand. -/
def Reg.view8 (r : Reg) : X86.Reg8 := if r.isHigh8bit then .high (r.idx - 4) else .low r.idx

/-- Registers other than general ones must have a number below 16 in legacy encodings. -/
def LegacyReg (r : Reg) : Prop := r.kind ≠ .reg → r.idx.toNat < 16

theorem legacy_bit4 {r : Reg} (h : LegacyReg r) : (r.idx.getLsbD 4 = true → r.hasRex2 = true) := by
  intro h4
  by_cases hk : r.kind = .reg
  · simp [Reg.hasRex2, Reg.isREG, Reg.isExtIdx2, hk, h4]
  · have := h hk
    have h16 : ∀ i : BitVec 5, i.toNat < 16 → i.getLsbD 4 = false := by decide +kernel
    rw [h16 _ this] at h4; cases h4

/-- The decoded instruction `h reg rm` has the legacy prefixes, map, opcode and operand size that were asked for. -/
structure LegacyHead (type : Ty) (o : Byte) (p66 p67 w : Bool) (h : X86.Head) : Prop where
  map : h.map = mapOf type
  opcode : h.opcode = o
  p66 : h.p66 = p66
  p67 : h.p67 = p67
  pF2 : h.pF2 = type.has T_F2
  pF3 : h.pF3 = type.has T_F3
  w : h.w = w
  seg : h.seg = none
  space : h.space = .legacy ∨ h.space = .rex2
  rexp : h.rex = false → h.space = .legacy

theorem ext_head (x : X86.Ext) (type : Ty) (o : Byte) (p66 p67 : Bool) :
    LegacyHead type o p66 p67 x.w (x.head { p66 := p66, pF2 := type.has T_F2, pF3 := type.has T_F3, p67 := p67 } (mapOf type) o) :=
  ⟨rfl, rfl, rfl, rfl, rfl, rfl, rfl, rfl, by unfold X86.Ext.head; dsimp only; split <;> simp,
    by unfold X86.Ext.head X86.Ext.present; dsimp only; intro h; split <;> simp_all⟩

/-- C33: an accepted register-register instruction decodes to opcode, map, prefixes, operand size and the two registers.
Hypotheses: the opcode is readable in its map (`OpcodeOK`), vector registers are numbered below 16 (checked by the callers of `opRR`),
and `T_APX` occurs only with map 0 (as in the callers). -/
theorem c33_rr (r1 r2 : Reg) (k1 : LegacyReg r1) (k2 : LegacyReg r2) (type : Ty) (code : Byte)
    (ha : type.has T_APX = true → mapOf type = 0) (ho : X86.OpcodeOK (mapOf type) (opc type r1 code))
    {w : List Act} (hw : (opRR r1 r2 type code).Gives w ()) :
    ∃ (bs : List Byte) (h : X86.Head) (reg rm : BitVec 3), w = bs.map .byte ∧
      (∀ t, X86.insn false 1 (bs ++ t) = some (⟨h, reg, .reg rm⟩, t)) ∧
      LegacyHead type (opc type r1 code) (p66of type r2 r1) false (r2.isREG 64 || r1.isREG 64) h ∧
      X86.regNum h reg = r1.idx ∧ X86.rmGpr h rm = r2.idx ∧
      h.rex = (extRR r1 r2).present := by
  obtain ⟨_, _, ⟨_, _, h38⟩, rfl⟩ := (opRR_gives r1 r2 type code ha w).1 hw
  refine ⟨_, _, r1.idx.extractLsb' 0 3, r2.idx.extractLsb' 0 3, rfl, ?_, ext_head (extRR r1 r2) _ _ _ _, ?_, ?_, rfl⟩
  · intro t
    unfold X86.insn
    rw [List.append_assoc, head_legBytes _ _ _ _ _ ho h38]
    dsimp only
    show (match X86.modrm _ false 1 (modRM 3 r1.idx r2.idx :: t) with | none => none | some (r, m, t) => some (_, t)) = _
    unfold X86.modrm
    dsimp only
    rw [modRM_mod, modRM_reg, modRM_rm, if_pos rfl]
  · unfold X86.regNum X86.Ext.head
    dsimp only
    have : ((extRR r1 r2).rex2 && (extRR r1 r2).r4) = r1.idx.getLsbD 4 := by
      have := legacy_bit4 k1
      unfold extRR
      cases h4 : r1.idx.getLsbD 4 with
      | false => simp
      | true => simp [this h4]
    rw [this]; exact mk5_idx _
  · unfold X86.rmGpr X86.Ext.head
    dsimp only
    have : ((extRR r1 r2).rex2 && (extRR r1 r2).b4) = r2.idx.getLsbD 4 := by
      have := legacy_bit4 k2
      unfold extRR
      cases h4 : r2.idx.getLsbD 4 with
      | false => simp
      | true => simp [this h4]
    rw [this]; exact mk5_idx _

/-- C33, operand size: for two general registers of the same size (16, 32 or 64 bits) the decoded operand size is that size, unless
66 is part of the opcode. -/
theorem c33_size (r1 r2 : Reg) (hk1 : r1.kind = .reg) (hk2 : r2.kind = .reg) (hb : r1.bit = 16 ∨ r1.bit = 32 ∨ r1.bit = 64)
    (type : Ty) (hd : type.has T_ALLOW_DIFF_SIZE = false) (h66 : type.has T_66 = false) (code : Byte)
    (ha : type.has T_APX = true → mapOf type = 0)
    {w : List Act} (hw : (opRR r1 r2 type code).Gives w ()) (h : X86.Head) (o : Byte) (p67 : Bool)
    (hh : LegacyHead type o (p66of type r2 r1) p67 (r2.isREG 64 || r1.isREG 64) h) :
    X86.opBits h = r1.bit ∧ r2.bit = r1.bit := by
  obtain ⟨hs, _⟩ := (opRR_gives r1 r2 type code ha w).1 hw
  have e : r2.bit = r1.bit := by
    simp [hd, Reg.isREG, hk1, hk2] at hs; exact hs.symm
  refine ⟨?_, e⟩
  unfold X86.opBits
  rw [hh.w, hh.p66, p66of, h66]
  unfold Reg.isREG Reg.isBit
  rw [hk1, hk2, e]
  rcases hb with hb | hb | hb <;> rw [hb] <;> rfl

/-- The byte register read by the CPU is the named one if REX is absent for ah..bh and present for spl..dil. -/
theorem reg8_view (h : X86.Head) (r : Reg) (hb : r.bit = 8) (hx : h.rex = false → h.space = .legacy)
    (hh : r.isHigh8bit = true → h.rex = false) (hl : r.ext8 = true → h.rex = true) : X86.reg8 h r.idx = r.view8 := by
  unfold X86.reg8 Reg.view8
  unfold Reg.isHigh8bit Reg.isBit at *
  rw [hb] at *
  cases he : r.ext8 with
  | true => simp [hl he]
  | false =>
    simp only [he, Bool.not_false, Bool.and_true, show (8 &&& 8 != 0) = true from rfl, Bool.true_and] at hh ⊢
    by_cases hi : 4 ≤ r.idx.toNat ∧ r.idx.toNat ≤ 7
    · have h0 := hh (by simpa using hi)
      simp [h0, hx h0, hi]
    · simp only [hi, decide_false, Bool.and_false]

theorem idx_small : ∀ i : BitVec 5, i.toNat < 8 → i.getLsbD 3 = false ∧ i.getLsbD 4 = false := by decide +kernel

/-- A high byte register that is not in a bad combination needs no REX. -/
theorem high_no_rex (r q : Reg) (h : r.isHigh8bit = true) (hb : isBadCombination r q = false) (hr : r.isREG 64 = false) (hq : q.isREG 64 = false) :
    (extRR r q).present = false ∧ (extRR q r).present = false := by
  unfold isBadCombination at hb
  rw [h, Bool.true_and, Bool.or_eq_false_iff, decide_eq_false_iff_not] at hb
  obtain ⟨hq1, hq2⟩ := hb
  obtain ⟨q3, q4⟩ := idx_small q.idx (by omega)
  unfold Reg.isHigh8bit at h
  simp only [Bool.and_eq_true, Bool.not_eq_true', decide_eq_true_eq] at h
  obtain ⟨⟨hb, he⟩, _, _⟩ := h
  obtain ⟨r3, r4⟩ := idx_small r.idx (by omega)
  simp only [X86.Ext.present, extRR, hr, hq, r3, q3, he, hq1, Reg.hasRex2, Reg.isExtIdx2, q4, r4, Bool.and_false, Bool.or_self, and_self]

/-- C33/C35, byte registers: ah, ch, dh, bh and spl, bpl, sil, dil are told apart.  For two byte registers the accepted instruction
decodes to exactly the registers that were named. -/
theorem c33_byte (r1 r2 : Reg) (hk1 : r1.kind = .reg) (hk2 : r2.kind = .reg)
    (hb1 : r1.bit = 8) (hb2 : r2.bit = 8) (type : Ty) (code : Byte)
    (hab : type.has T_ALLOW_ABCDH = false) (ha : type.has T_APX = true → mapOf type = 0)
    (ho : X86.OpcodeOK (mapOf type) (opc type r1 code)) {w : List Act} (hw : (opRR r1 r2 type code).Gives w ()) :
    ∃ (bs : List Byte) (h : X86.Head) (reg rm : BitVec 3), w = bs.map .byte ∧
      (∀ t, X86.insn false 1 (bs ++ t) = some (⟨h, reg, .reg rm⟩, t)) ∧
      X86.reg8 h (X86.regNum h reg) = r1.view8 ∧ X86.reg8 h (X86.rmGpr h rm) = r2.view8 := by
  obtain ⟨bs, h, reg, rm, e, hdec, lh, g1, g2, hx⟩ := c33_rr r1 r2 (fun h => absurd hk1 h) (fun h => absurd hk2 h) type code ha ho hw
  obtain ⟨_, hbad, _⟩ := (opRR_gives r1 r2 type code ha w).1 hw
  have w1 : r1.isREG 64 = false := by unfold Reg.isREG Reg.isBit; rw [hk1, hb1]; rfl
  have w2 : r2.isREG 64 = false := by unfold Reg.isREG Reg.isBit; rw [hk2, hb2]; rfl
  simp only [hab, Bool.not_false, Bool.true_and, Bool.or_eq_false_iff] at hbad
  refine ⟨bs, h, reg, rm, e, hdec, ?_, ?_⟩
  · rw [g1]
    exact reg8_view h r1 hb1 lh.rexp (fun hh => by rw [hx]; exact (high_no_rex r1 r2 hh hbad.1 w1 w2).1)
      (fun hh => by rw [hx]; simp [X86.Ext.present, extRR, hh])
  · rw [g2]
    exact reg8_view h r2 hb2 lh.rexp (fun hh => by rw [hx]; exact (high_no_rex r2 r1 hh hbad.2 w2 w1).2)
      (fun hh => by rw [hx]; simp [X86.Ext.present, extRR, hh])

/-! ## Register and memory -/

theorem wf_index {a : Addr} (ha : a.WF) (ht : a.e.index.kind ≠ .tmm) (hv : a.isVsib = false) :
    a.e.index = .nil ∨ a.e.index.kind = .reg := by
  by_cases hm : a.mode = .modRM
  · rcases (ha.exp hm).1.index with h | h | h | h | h | h
    · exact .inl h
    · exact .inr h.1
    · exfalso; revert hv; simp [Addr.isVsib, RegExp.isVsib, Reg.isBit, h.2]
    · exfalso; revert hv; simp [Addr.isVsib, RegExp.isVsib, Reg.isBit, h.2]
    · exfalso; revert hv; simp [Addr.isVsib, RegExp.isVsib, Reg.isBit, h.2]
    · exact absurd h.1 ht
  · exact .inl (ha.rip hm).2

theorem wf_base {a : Addr} (ha : a.WF) : a.e.base = .nil ∨ a.e.base.kind = .reg := by
  by_cases hm : a.mode = .modRM
  · rcases (ha.exp hm).1.base with h | h
    · exact .inl h
    · exact .inr h.1
  · exact .inl (ha.rip hm).1

theorem getRegExp_base (a : Addr) : a.getRegExp.base = a.e.base ∨ a.getRegExp.base = a.e.index := by
  unfold Addr.getRegExp RegExp.optimize
  split
  · split
    · exact .inr rfl
    · exact .inl rfl
  · exact .inl rfl

theorem bit4_rex2 {r : Reg} (h : r = .nil ∨ r.kind = .reg) : r.idx.getLsbD 4 = true → r.hasRex2 = true := by
  rcases h with rfl | h
  · intro h; exact absurd h (by decide)
  · intro h4; simp only [Reg.hasRex2, Reg.isREG, Reg.isExtIdx2, h, h4]; rfl

/-- The prefixes written by the legacy encoders carry the extension bits of the address. -/
theorem headFor_legacy (r : Reg) (a : Addr) (ha : a.WF) (ht : a.e.index.kind ≠ .tmm) (hv : a.isVsib = false) (type : Ty) (o : Byte) (p66 : Bool) :
    HeadFor ((extMR r a).head { p66 := p66, pF2 := type.has T_F2, pF3 := type.has T_F3, p67 := a.is32bit } (mapOf type) o) a.getRegExp := by
  have hi := wf_index ha ht hv
  have hb := wf_base ha
  have ix := (getRegExp_index a).1
  have hb' : a.getRegExp.base = .nil ∨ a.getRegExp.base.kind = .reg := by
    rcases getRegExp_base a with h | h <;> rw [h]
    · exact hb
    · exact hi
  have r2 : a.getRegExp.base.hasRex2 = true → a.hasRex2 = true := by
    intro h
    unfold Addr.hasRex2
    rcases getRegExp_base a with h' | h' <;> rw [h'] at h <;> simp [h]
  have r3 : a.e.index.hasRex2 = true → a.hasRex2 = true := by
    intro h; unfold Addr.hasRex2; simp [h]
  refine ⟨fun _ => ⟨rfl, ?_⟩, rfl, fun _ => ?_, fun h => ?_, is32bit_getRegExp a⟩
  · show ((extMR r a).rex2 && (extMR r a).b4) = _
    have := bit4_rex2 hb'
    unfold extMR
    dsimp only
    cases h4 : a.getRegExp.base.idx.getLsbD 4 with
    | false => rw [Bool.and_false]
    | true => rw [r2 (this h4), Bool.or_true]; rfl
  · show ((extMR r a).rex2 && (extMR r a).x4) = _
    have := bit4_rex2 hi
    unfold extMR
    dsimp only
    rw [ix]
    cases h4 : a.e.index.idx.getLsbD 4 with
    | false => rw [Bool.and_false]
    | true => rw [r3 (this h4), Bool.or_true]; rfl
  · rw [ix] at h
    exfalso
    rcases hi with hi | hi
    · rw [hi] at h; exact absurd h (by decide)
    · revert h; simp [Reg.isSIMD, Reg.isXMM, Reg.isYMM, Reg.isZMM, hi]

theorem not_simd {a : Addr} (h : a.e.index = .nil ∨ a.e.index.kind = .reg) : a.e.index.isSIMD = false := by
  rcases h with hi | hi
  · rw [hi]; rfl
  · simp [Reg.isSIMD, Reg.isXMM, Reg.isYMM, Reg.isZMM, hi]

theorem opAddr_vsib {a : Addr} {reg : BitVec 5} {w : List Act} (h : (opAddr a reg).Gives w ()) (hp : a.permitVsib = false) :
    a.isVsib = false := by
  unfold opAddr at h
  rw [Enc.throwIf_bind, hp] at h
  simpa using h.1

/-- C34: an accepted register-memory instruction decodes to opcode, map, prefixes, operand size, the register and the address.
`hp`, `hn`: the operand has not been marked by the AVX encoders; `ht`: see `c32_refuted_tile`. -/
theorem c34_mr (a : Addr) (ha : a.WF) (hp : a.permitVsib = false) (hn : a.disp8N = 0) (ht : a.e.index.kind ≠ .tmm)
    (r : Reg) (hr : LegacyReg r) (type : Ty) (code : Byte)
    (hapx : type.has T_APX = true → mapOf type = 0) (ho : X86.OpcodeOK (mapOf type) (opc type r code))
    {w : List Act} (hw : (opMR a r type code).Gives w ()) (fill : Act → BitVec 32) :
    ∃ (h : X86.Head) (reg : BitVec 3) (m : X86.Mem),
      LegacyHead type (opc type r code) (p66of type a.o r) a.is32bit (r.isREG 64) h ∧
      X86.regNum h reg = r.idx ∧ h.rex = (extMR r a).present ∧
      (∀ t, X86.insn false 1 (concr fill w ++ t) = some (⟨h, reg, .mem m⟩, t)) ∧ a.Means fill h m := by
  obtain ⟨hd, _, ⟨_, _, h38⟩, w', hw', rfl⟩ := (opMR_gives a r type code hapx w).1 hw
  have hv := opAddr_vsib hw' hp
  have hh := headFor_legacy r a ha ht hv type (opc type r code) (p66of type a.o r)
  have hd : a.mode ≠ .disp64 := by simpa [Addr.is64bitDisp] using hd
  obtain ⟨m, hm, hme⟩ := opAddr_decode a ha ht hd r.idx (.inl hn) hw' _ hh fill
  refine ⟨_, r.idx.extractLsb' 0 3, m, ext_head (extMR r a) _ _ _ _, ?_, rfl, fun t => ?_, hme⟩
  · unfold X86.regNum X86.Ext.head
    dsimp only
    have : ((extMR r a).rex2 && (extMR r a).r4) = r.idx.getLsbD 4 := by
      have := legacy_bit4 hr
      unfold extMR
      cases h4 : r.idx.getLsbD 4 with
      | false => simp
      | true => simp [this h4]
    rw [this]; exact mk5_idx _
  · have hm := hm t
    rw [concr_append, concr_bytes]
    unfold X86.insn
    rw [List.append_assoc, head_legBytes _ _ _ _ _ ho h38]
    dsimp only
    rw [hn, not_simd (wf_index ha ht hv)] at hm
    rw [if_pos rfl] at hm
    rw [hm]

/-- C34, operand size: with a general register of 16, 32 or 64 bits the decoded operand size is the register's, and a memory operand with
an explicit size has that size. -/
theorem c34_size (a : Addr) (r : Reg) (hk : r.kind = .reg) (hb : r.bit = 16 ∨ r.bit = 32 ∨ r.bit = 64)
    (type : Ty) (hd : type.has T_ALLOW_DIFF_SIZE = false) (h66 : type.has T_66 = false) (code : Byte)
    (ha : type.has T_APX = true → mapOf type = 0) {w : List Act} (hw : (opMR a r type code).Gives w ()) (h : X86.Head) (o : Byte)
    (hh : LegacyHead type o (p66of type a.o r) a.is32bit (r.isREG 64) h) :
    X86.opBits h = r.bit ∧ (a.o.bit ≠ 0 → a.o.bit = r.bit) := by
  obtain ⟨_, hs, _⟩ := (opMR_gives a r type code ha w).1 hw
  have e : a.o.bit = 0 ∨ a.o.bit = r.bit := by
    by_cases h0 : a.o.bit = 0
    · exact .inl h0
    · right
      have : r.bit ≤ 64 := by omega
      simp [hd, this] at hs
      exact hs (by omega)
  refine ⟨?_, fun h0 => e.resolve_left h0⟩
  unfold X86.opBits
  rw [hh.w, hh.p66, p66of, h66]
  unfold Reg.isREG Reg.isBit
  rw [hk]
  rcases e with e | e <;> rw [e] <;> rcases hb with hb | hb | hb <;> rw [hb] <;> rfl

/-- C35, memory: a byte register in an accepted register-memory instruction is the named one, unless ah..bh meets an address that needs
REX. -/
theorem c35_mr_partial (a : Addr) (r : Reg) (hb : r.bit = 8) (h : X86.Head) (type : Ty) (o : Byte) (p66 p67 w : Bool)
    (lh : LegacyHead type o p66 p67 w h) (hx : h.rex = (extMR r a).present)
    (hno : r.isHigh8bit = true → (extMR r a).present = false) : X86.reg8 h r.idx = r.view8 :=
  reg8_view h r hb lh.rexp (fun hh => by rw [hx]; exact hno hh) (fun hh => by rw [hx]; simp [X86.Ext.present, extMR, hh])

/-! ## Register or memory -/

/-- The operand with the number of immediate bytes that follow it. -/
def Operand.withImm (n : Nat) : Operand → Operand
  | .reg q => .reg q
  | .mem a => .mem { a with immSize := n }

/-- The decoded r/m operand is `op`. -/
def RmIs (fill : Act → BitVec 32) (h : X86.Head) (rm : X86.RM) : Operand → Prop
  | .reg q => ∃ lo, rm = .reg lo ∧ X86.rmGpr h lo = q.idx
  | .mem a => ∃ m, rm = .mem m ∧ a.Means fill h m

/-- Operands as a program can pass them to legacy instructions. -/
def OpOK : Operand → Prop
  | .reg q => LegacyReg q
  | .mem a => a.WF ∧ a.permitVsib = false ∧ a.disp8N = 0 ∧ a.e.index.kind ≠ .tmm

/-- `bs` starts with a legacy instruction `o` with register field `r` and r/m operand `op`. -/
structure Legacy (fill : Act → BitVec 32) (type : Ty) (o : Byte) (p66 w : Bool) (r : BitVec 5) (op : Operand)
    (h : X86.Head) (reg : BitVec 3) (rm : X86.RM) : Prop where
  head : LegacyHead type o p66 (match op with | .mem a => a.is32bit | .reg _ => false) w h
  reg : X86.regNum h reg = r
  rm : RmIs fill h rm op

/-- Whether REX (or REX2) is used for register `r` and operand `op`. -/
def rexUsed (r : Reg) : Operand → Bool
  | .reg q => (extRR r q).present
  | .mem a => (extMR r a).present

theorem isREG_mem {a : Addr} (ha : a.WF) (m : Nat) : (Operand.mem a).isREG m = false := by
  simp [Operand.isREG, Operand.hd, Reg.isREG, ha.kind]

/-- C33 and C34 for `opRO`: register and register-or-memory. -/
theorem c34_ro (r : Reg) (hr : LegacyReg r) (op : Operand) (hop : OpOK op) (type : Ty) (code : Byte) (condR : Bool) (immSize : Nat)
    (hapx : type.has T_APX = true → mapOf type = 0) (ho : X86.OpcodeOK (mapOf type) (opc type r code))
    {w : List Act} (hw : (opRO r op type code condR immSize).Gives w ()) (fill : Act → BitVec 32) :
    ∃ (h : X86.Head) (reg : BitVec 3) (rm : X86.RM), (∀ t, X86.insn false 1 (concr fill w ++ t) = some (⟨h, reg, rm⟩, t)) ∧
      Legacy fill type (opc type r code) (p66of type op.hd r) (op.isREG 64 || r.isREG 64) r.idx (op.withImm immSize) h reg rm ∧
      h.rex = rexUsed r op := by
  cases op with
  | reg q =>
    have hw : (Enc.throwIf (!condR) .BAD_COMBINATION >>= fun _ => opRR r q type code).Gives w () := hw
    rw [Enc.throwIf_bind] at hw
    obtain ⟨bs, h, reg, rm, rfl, hdec, hh, g1, g2, hx⟩ := c33_rr r q hr hop type code hapx ho hw.2
    exact ⟨h, reg, .reg rm, by rw [concr_bytes]; exact hdec, ⟨hh, g1, ⟨rm, rfl, g2⟩⟩, hx⟩
  | mem a =>
    obtain ⟨ha, hp, hn, ht⟩ := hop
    have ha' : Addr.WF { a with immSize := immSize } := ⟨ha.exp, ha.rip, ha.kind⟩
    obtain ⟨h, reg, m, hh, g1, hx, hdec, hm⟩ := c34_mr { a with immSize := immSize } ha' hp hn ht r hr type code hapx ho hw fill
    refine ⟨h, reg, .mem m, hdec, ⟨?_, g1, ⟨m, rfl, hm⟩⟩, hx⟩
    rw [isREG_mem ha, Bool.false_or]; exact hh

theorem changeBit_self {q : Reg} (h : q.Named) (hk : q.kind = .reg) : q.changeBit q.bit = .ok q := by
  have hb : q.bit = 8 ∨ q.bit = 16 ∨ q.bit = 32 ∨ q.bit = 64 := by
    rcases h.shape with ⟨_, h⟩ | ⟨h, _⟩ | ⟨h, _⟩ | ⟨h, _⟩ | ⟨h, _⟩ | ⟨h, _⟩ | ⟨h, _⟩ | ⟨h, _⟩ | ⟨h, _⟩
    · exact h
    all_goals rw [hk] at h; cases h
  unfold Reg.changeBit Reg.setBit Reg.isBit
  rcases hb with hb | hb | hb | hb <;> rw [hb] <;> rfl

/-- The flags of `type` matter below `T_ALLOW_ABCDH` only. -/
theorem abcdh_type (type : Ty) : mapOf (type ||| T_ALLOW_ABCDH) = mapOf type ∧
    (type ||| T_ALLOW_ABCDH).has T_APX = type.has T_APX ∧ (type ||| T_ALLOW_ABCDH).has T_F2 = type.has T_F2 ∧
    (type ||| T_ALLOW_ABCDH).has T_F3 = type.has T_F3 ∧ (type ||| T_ALLOW_ABCDH).has T_66 = type.has T_66 ∧
    (∀ q c, opc (type ||| T_ALLOW_ABCDH) q c = opc type q c) := by
  have key : ∀ m : Ty, T_ALLOW_ABCDH &&& m = 0 → (type ||| T_ALLOW_ABCDH) &&& m = type &&& m := by
    intro m hm; rw [BitVec.and_or_distrib_right, hm]; simp
  have k : ∀ m : Ty, T_ALLOW_ABCDH &&& m = 0 → (type ||| T_ALLOW_ABCDH).has m = type.has m := by
    intro m hm; unfold Ty.has; rw [key m hm]
  refine ⟨?_, k _ (by decide), k _ (by decide), k _ (by decide), k _ (by decide), fun q c => ?_⟩
  · rw [mapOf_cases, mapOf_cases, k _ (by decide), k _ (by decide), k _ (by decide)]
  · unfold opc
    rw [key T_SENTRY (by decide), k _ (by decide)]

/-- `opRext` without APX features: the extension digit, the operand and nothing else. -/
theorem c34_rext (op : Operand) (hop : OpOK op) (hq : ∀ q, op = .reg q → q.Named) (bit : Nat) (ext : BitVec 5) (type : Ty) (code : Byte)
    (immSize : Nat) (hx : type.has T_APX = true → op.hasRex2NFZU = false)
    (hapx : type.has T_APX = true → mapOf type = 0) (ho : X86.OpcodeOK (mapOf type) (opc type (.gp ext op.bit) code))
    {w : List Act} (hw : (opRext op bit ext type code false immSize).Gives w ()) (fill : Act → BitVec 32) :
    ∃ (h : X86.Head) (reg : BitVec 3) (rm : X86.RM), (∀ t, X86.insn false 1 (concr fill w ++ t) = some (⟨h, reg, rm⟩, t)) ∧
      Legacy fill type (opc type (.gp ext op.bit) code) (p66of type op.hd (.gp ext op.bit)) (op.isREG 64 || (Reg.gp ext op.bit).isREG 64) ext
        (op.withImm immSize) h reg rm ∧
      h.rex = rexUsed (.gp ext op.bit) op ∧ (∀ q, op = .reg q → q.isREG bit = true) := by
  have hr : LegacyReg (.gp ext op.bit) := fun h => absurd rfl h
  unfold opRext at hw
  have ex : (type.has T_APX && ((none : Option Reg).isSome || op.hasRex2NFZU)) = false := by
    cases h : type.has T_APX with
    | false => rfl
    | true => simp [hx h]
  rw [ex, if_neg (by decide), Enc.pure_bind] at hw
  dsimp only at hw
  rw [if_neg (by decide)] at hw
  cases op with
  | reg q =>
    have hqn := hq q rfl
    have hw : (Enc.throwIf (!q.isREG bit) .BAD_COMBINATION >>= fun _ => Enc.lift (q.changeBit q.bit) >>= fun q' =>
      opRR (.gp ext q.bit) q' (type ||| T_ALLOW_ABCDH) code).Gives w () := hw
    rw [Enc.throwIf_bind, Enc.lift_bind] at hw
    obtain ⟨hb, q', hq', hw⟩ := hw
    have hb : q.isREG bit = true := by simpa using hb
    have hk : q.kind = .reg := by
      unfold Reg.isREG at hb
      simp only [Bool.and_eq_true, beq_iff_eq] at hb
      exact hb.1
    rw [changeBit_self hqn hk] at hq'
    cases hq'
    obtain ⟨t1, t2, t3, t4, t5, t6⟩ := abcdh_type type
    obtain ⟨bs, h, reg, rm, rfl, hdec, hh, g1, g2, hx⟩ := c33_rr (.gp ext q.bit) q hr hop (type ||| T_ALLOW_ABCDH) code (by rw [t1, t2]; exact hapx)
      (by rw [t1, t6]; exact ho) hw
    refine ⟨h, reg, .reg rm, by rw [concr_bytes]; exact hdec, ⟨⟨?_, ?_, ?_, hh.p67, ?_, ?_, hh.w, hh.seg, hh.space, hh.rexp⟩, g1, ⟨rm, rfl, g2⟩⟩, hx, ?_⟩
    · rw [hh.map, t1]
    · rw [hh.opcode, t6]; rfl
    · rw [hh.p66]; unfold p66of; rw [t5]; rfl
    · rw [hh.pF2, t3]
    · rw [hh.pF3, t4]
    · intro q' e; cases e; exact hb
  | mem a =>
    obtain ⟨h, reg, rm, h1, h2, h3⟩ := c34_ro (.gp ext a.o.bit) hr (.mem a) hop type code true immSize hapx ho hw fill
    exact ⟨h, reg, rm, h1, h2, h3, fun q e => by cases e⟩

/-! ## REX2 -/

/-- C40: legacy instructions of the one-byte and 0F maps carry r16-r31 in every position: the register operands (or register and
address) decode to exactly what was given, whatever the numbers are. -/
theorem c40_rex2 (r : Reg) (hr : r.kind = .reg) (op : Operand) (hop : OpOK op) (type : Ty) (code : Byte) (condR : Bool) (immSize : Nat)
    (hapx : type.has T_APX = true → mapOf type = 0) (ho : X86.OpcodeOK (mapOf type) (opc type r code))
    {w : List Act} (hw : (opRO r op type code condR immSize).Gives w ()) (fill : Act → BitVec 32) :
    ∃ (h : X86.Head) (reg : BitVec 3) (rm : X86.RM), (∀ t, X86.insn false 1 (concr fill w ++ t) = some (⟨h, reg, rm⟩, t)) ∧
      h.map = mapOf type ∧ h.opcode = opc type r code ∧ X86.regNum h reg = r.idx ∧ RmIs fill h rm (op.withImm immSize) := by
  obtain ⟨h, reg, rm, h1, h2, _⟩ := c34_ro r (fun h => absurd hr h) op hop type code condR immSize hapx ho hw fill
  exact ⟨h, reg, rm, h1, h2.head.map, h2.head.opcode, h2.reg, h2.rm⟩

/-- C40: in the maps 0F38 and 0F3A nothing that needs REX2 is accepted. -/
theorem c40_refused (r : Reg) (op : Operand) (type : Ty) (code : Byte) (condR : Bool) (immSize : Nat) (hx : r.hasRex2 = true ∨ op.hasRex2 = true)
    (hm : type.has (T_0F38 ||| T_0F3A) = true) (hapx : type.has T_APX = true → mapOf type = 0) (w : List Act) :
    ¬ (opRO r op type code condR immSize).Gives w () := by
  intro hw
  cases op with
  | reg q =>
    have hw : (Enc.throwIf (!condR) .BAD_COMBINATION >>= fun _ => opRR r q type code).Gives w () := hw
    rw [Enc.throwIf_bind] at hw
    obtain ⟨_, _, ⟨_, _, h38⟩, _⟩ := (opRR_gives r q type code hapx w).1 hw.2
    rw [h38] at hm
    · cases hm
    · rcases hx with hx | hx
      · simp [extRR, hx]
      · have hx : q.hasRex2 = true := hx
        simp [extRR, hx]
  | mem a =>
    obtain ⟨_, _, ⟨_, _, h38⟩, _⟩ := (opMR_gives { a with immSize := immSize } r type code hapx w).1 hw
    rw [h38] at hm
    · cases hm
    · rcases hx with hx | hx
      · simp [extMR, hx]
      · have hx : a.hasRex2 = true := hx
        simp only [extMR, Bool.or_eq_true]; exact .inr hx

/-- The error is `CANT_USE_REX2`: `popcnt`-like instruction in map 0F38 with r16 (crc32 r16, eax). -/
example : (opRO (.gp 16 32) (.reg (.gp 0 32)) (T_0F38 ||| T_F2) 0xF1).res = .error .CANT_USE_REX2 := by rfl
/-- `add r16, [r31 + r17*4]`: D5 79 03 04 8F. -/
example : ∃ a, Term.addr (.add (.reg (.gp 31 64)) (.scaled (.gp 17 64) 4)) 0 false = .ok a ∧
    (opRO_MR (.reg (.gp 16 64)) (.mem a) 0).acts.map (fun a => match a with | .byte b => b.toNat | _ => 0) = [0xD5, 0x79, 0x03, 0x04, 0x8F] :=
  ⟨_, rfl, by decide +kernel⟩

/-! ## ah, ch, dh, bh -/

/-- C35 does not hold: `mov(ah, ptr[r8])` is accepted and decodes to `mov spl, [r8]`. -/
theorem c35_refuted_mov : ∃ (a : Addr) (h : X86.Head) (reg : BitVec 3) (rm : X86.RM),
    Term.addr (.reg (.gp 8 64)) 0 false = .ok a ∧ (mov (.reg (.r8 4)) (.mem a)).res = .ok () ∧
    X86.insn false 1 (concr (fun _ => 0) (mov (.reg (.r8 4)) (.mem a)).acts) = some (⟨h, reg, rm⟩, []) ∧
    (Reg.r8 4).view8 = .high 0 ∧ X86.reg8 h (X86.regNum h reg) = .low 4 :=
  ⟨_, { b3 := true, rex := true, opcode := 0x8A }, 4, .mem { base := some 8, index := none, scale := 1, disp := 0 }, rfl, rfl,
    by decide +kernel, by decide +kernel, by decide +kernel⟩

/-- C35 does not hold: `movzx(rax, ah)` is accepted and decodes to `movzx rax, spl`. -/
theorem c35_refuted_movzx : ∃ (h : X86.Head) (reg lo : BitVec 3),
    (opMovxx (.gp 0 64) (.reg (.r8 4)) 0xB6).res = .ok () ∧
    X86.insn false 1 (concr (fun _ => 0) (opMovxx (.gp 0 64) (.reg (.r8 4)) 0xB6).acts) = some (⟨h, reg, .reg lo⟩, []) ∧
    (Reg.r8 4).view8 = .high 0 ∧ X86.reg8 h (X86.rmGpr h lo) = .low 4 :=
  ⟨{ w := true, rex := true, map := 1, opcode := 0xB6 }, 0, 4, rfl, by decide +kernel, by decide +kernel, by decide +kernel⟩

/-- `add(ah, spl)` is refused, `add(ah, cl)` is 00 CC. -/
example : (opRO_MR (.reg (.r8 4)) (.reg (.r8 4 true)) 0).res = .error .CANT_USE_ABCDH := by rfl
example : (opRO_MR (.reg (.r8 4)) (.reg (.r8 1)) 0).acts = [.byte 0x00, .byte 0xCC] := by decide +kernel

end Xbyak
