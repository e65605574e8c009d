import Verif.Spec.Group
import Verif.Props.Cond
import Verif.Mnemonic.All
/-!
# C46: shifts, rotates and unary instructions
-/
namespace Xbyak
open E Mn

/-- What matters of the type flags of the group instructions. -/
structure GrpTy (type : Ty) (nd : Bool) : Prop where
  map : mapOf type = 0
  apx : type.has T_APX = true
  pp : type.has (T_F2 ||| T_F3 ||| T_66) = false
  p66 : type.has T_66 = false
  w0 : type.has T_W0 = false
  w1 : type.has T_W1 = false
  zu : type.has T_ZU = false
  nd : type.has T_ND1 = nd
  byte : (type &&& T_SENTRY == 0 || type.has T_CODE1_IF1) = true

/-- The decoded instruction: group member `ext` with opcode `code` (or `code + 1`), operand size `n`, destination, operand. -/
structure Grp (fill : Act → BitVec 32) (code : Byte) (ext : BitVec 3) (n : Nat) (dst : Option (BitVec 5)) (nf : Bool) (k : Nat) (op : Operand)
    (h : X86.Head) (reg : BitVec 3) (rm : X86.RM) : Prop where
  grp : X86.InGroup h
  opcode : h.opcode = code ||| sel (n != 8) 1
  reg : reg = ext
  bits : code &&& 1 = 0 → X86.byteOr h = n
  dst : X86.nddDst h = dst
  nf : X86.noFlags h = nf
  rm : RmIs fill h rm (op.withImm k)
  byte : ByteIs h op

theorem byte_code : ∀ (c : Byte) (b : Bool), c &&& 1 = 0 → (c ||| sel b 1) &&& 1 = if b then 1 else 0 := by decide +kernel

/-- The promoted form. -/
theorem grp_roo (D : Reg) (hD : D.kind = .reg) (n : Nat) (hb : D.bit = n) (hn : n = 8 ∨ n = 16 ∨ n = 32 ∨ n = 64) (op : Operand) (ha : ApxOK op)
    (hq : ∀ q, op = .reg q → q.isHigh8bit = false) (ext : BitVec 3) (rb : Nat) (hr : rb = 0 ∨ rb = n) (type : Ty) (nd : Bool) (ht : GrpTy type nd)
    (h0 : nd = false → D.idx = 0) (code : Byte) (k : Nat) {w : List Act} {v : Bool}
    (hw : (opROO D op (.reg (.gp (ext.setWidth 5) rb)) type code k).Gives w v) (fill : Act → BitVec 32) :
    v = true ∧ ∃ (h : X86.Head) (reg : BitVec 3) (rm : X86.RM), (∀ t, X86.insn false 1 (concr fill w ++ t) = some (⟨h, reg, rm⟩, t)) ∧
      Grp fill code ext n (if nd then some D.idx else none) (opNF op || D.nf) k op h reg rm ∧ (type.has T_NF = false → (opNF op || D.nf) = false) := by
  have hu : rooUsed D op (.reg (.gp (ext.setWidth 5) rb)) type = true := by simp [rooUsed, Reg.isREG, hD]
  have em : rooRm op (.reg (.gp (ext.setWidth 5) rb)) = op := by cases op <;> rfl
  have er : rooReg op (.reg (.gp (ext.setWidth 5) rb)) = .gp (ext.setWidth 5) rb := by cases op <;> rfl
  have ec : ∀ c, rooCode op (.reg (.gp (ext.setWidth 5) rb)) c = c := by intro c; cases op <;> rfl
  obtain ⟨rfl, h, reg, rm, hdec, hh, hreg, hrm, hv, _, hok⟩ := c41_roo D op _ type code k none hu (.inl ht.apx) (by rw [em]; exact ha) hw fill
  rw [er, em] at hh hv hok
  rw [er] at hreg
  rw [em] at hrm
  rw [ec] at hh
  obtain ⟨hv, hnf⟩ := hv rfl
  have hnf : h.nf = (opNF op || D.nf) := by
    rw [hnf]; unfold apxNF opNF; show (false || _ || _ || _) = _; rw [Bool.false_or]
  have ho : h.opcode = code ||| sel (n != 8) 1 := by
    rw [hh.opcode]; unfold opc Reg.isBit; rw [ht.byte, hb]
    rcases hn with h | h | h | h <;> subst h <;> rfl
  have hnd : h.nd = nd := by
    rw [hh.nd]; unfold apxND; rw [ht.zu, ht.nd, ht.apx]; cases nd <;> rfl
  have hmap : h.map = 4 := by rw [hh.map]; unfold apxMap; rw [ht.map]; rfl
  refine ⟨rfl, h, reg, rm, hdec, ⟨.inr ⟨hh.space, hmap, hh.pF2, hh.pF3, ?_⟩, ho, mk5_digit _ _ _ _ hreg, fun hc => ?_, ?_, ?_, hrm, ?_⟩, fun hN => ?_⟩
  · intro e; rw [hv]; exact h0 (hnd.symm.trans e)
  · unfold X86.byteOr X86.fullBits X86.apxBits
    rw [ho, byte_code _ _ hc, hh.space, hh.w, hh.pp]
    unfold apxPP apxW Reg.isBit
    rw [ht.pp, ht.w0, ht.w1, hb]
    show (if (if (n != 8) = true then (1 : Byte) else 0) = 0 then 8 else if true = true then (if ((rb &&& 64 != 0) || (n &&& 64 != 0) || false) = true then 64 else
      if (if ((rb &&& 16 != 0) || (n &&& 16 != 0)) = true then (1 : BitVec 2) else 0) = 1 then 16 else 32) else X86.opBits h) = n
    rcases hn with h | h | h | h <;> rcases hr with hr | hr <;> subst hr <;> subst h <;> rfl
  · unfold X86.nddDst
    rw [hh.space, hnd, hv]
    cases nd <;> rfl
  · unfold X86.noFlags
    rw [hh.space, hnf]; rfl
  · cases op with
    | mem a => trivial
    | reg q =>
      intro h8
      rw [X86.apx_byte h hh.space]
      unfold Reg.view8
      rw [hq q rfl]; rfl
  · rw [← hnf]
    rcases hok.1 with h | h
    · rw [hN] at h; cases h
    · rw [hnf]
      have : apxNF (.gp (ext.setWidth 5) rb) (rmBase op) (rmIndex op) D = (opNF op || D.nf) := by
        unfold apxNF opNF; show (false || _ || _ || _) = _; rw [Bool.false_or]
      rw [← this]; exact h

/-- Operands of the group instructions: an optional destination (APX) and a register or memory operand. -/
structure GrpOK (op : Operand) (d : Option Reg) (n : Nat) : Prop where
  ok : OpOK op
  named : ∀ q, op = .reg q → q.Named ∧ q.kind = .reg
  size : n = 8 ∨ n = 16 ∨ n = 32 ∨ n = 64
  dst : ∀ D, d = some D → D.kind = .reg ∧ D.bit = n
  bit : op.bit = n ∨ op.bit = 0 ∧ d.isSome = true
  apx : d.isSome = true ∨ op.hasRex2NFZU = true → ApxOK op ∧ ∀ q, op = .reg q → q.isHigh8bit = false

/-- The legacy form. -/
theorem grp_leg (op : Operand) (n : Nat) (hok : OpOK op) (hnm : ∀ q, op = .reg q → q.Named ∧ q.kind = .reg) (hsz : n = 8 ∨ n = 16 ∨ n = 32 ∨ n = 64)
    (hbit : op.bit = n) (ext : BitVec 3) (type : Ty) (hx : type.has T_APX = true → op.hasRex2NFZU = false) (hm : mapOf type = 0) (h66 : type.has T_66 = false)
    (hby : (type &&& T_SENTRY == 0 || type.has T_CODE1_IF1) = true) (code : Byte) (hc : ∀ b, X86.OpcodeOK 0 (code ||| sel b 1)) (bit k : Nat) {w : List Act}
    (hw : (opRext op bit (ext.setWidth 5) type code false k).Gives w ()) (fill : Act → BitVec 32) :
    ∃ (h : X86.Head) (reg : BitVec 3) (rm : X86.RM), (∀ t, X86.insn false 1 (concr fill w ++ t) = some (⟨h, reg, rm⟩, t)) ∧
      Grp fill code ext n none false k op h reg rm := by
  have ho : opc type (.gp (ext.setWidth 5) op.bit) code = code ||| sel (n != 8) 1 := by
    unfold opc; rw [hby]
    rw [hbit]
    show code ||| sel (true && !(n &&& 8 != 0)) 1 = _
    rcases hsz with h | h | h | h <;> subst h <;> rfl
  obtain ⟨h, reg, rm, hdec, hl, hrex, hb⟩ := c34_rext op hok (fun q e => (hnm q e).1) bit (ext.setWidth 5) type code k hx
    (fun _ => hm) (by rw [hm, ho]; exact hc _) hw fill
  have hns : h.space ≠ .evex := by rcases hl.head.space with h | h <;> rw [h] <;> simp
  have h66 : h.p66 = (n == 16) := by
    rw [hl.head.p66, p66of, h66]
    unfold Reg.isBit
    have : op.hd.bit = n := hbit
    rw [hbit, this]
    show (false || ((n &&& 16 != 0) && !(n &&& 96 != 0) || (n &&& 16 != 0) && !(n &&& 96 != 0))) = (n == 16)
    rcases hsz with h | h | h | h <;> subst h <;> rfl
  have hw64 : h.w = (n == 64) := by
    rw [hl.head.w, w_rext op _ (by rw [hbit]; exact hsz), hbit]
  refine ⟨h, reg, rm, hdec, ⟨.inl ⟨hl.head.space, hl.head.map.trans hm⟩, hl.head.opcode.trans ho, mk5_digit _ _ _ _ hl.reg, fun hc => ?_, ?_, ?_, hl.rm, ?_⟩⟩
  · unfold X86.byteOr X86.fullBits X86.opBits
    rw [hl.head.opcode.trans ho, byte_code _ _ hc, if_neg hns, h66, hw64]
    rcases hsz with h | h | h | h <;> subst h <;> rfl
  · unfold X86.nddDst; rw [if_neg (by simp [hns])]
  · unfold X86.noFlags; simp [hns]
  · cases op with
    | mem a => trivial
    | reg q =>
      intro h8
      exact byte_rext ext q.bit q h hl.head.rexp hrex h8 h8

/-- Immediate bytes the memory operand takes into account: the APX form forgets them. -/
def grpImm (op : Operand) (d : Option Reg) (k : Nat) : Nat := if d.isSome || op.hasRex2NFZU then 0 else k

/-- Whether `T_nf` is requested. -/
def grpNF (op : Operand) (d : Option Reg) : Bool := (d.isSome || op.hasRex2NFZU) && (opNF op || (match d with | some D => D.nf | none => false))

theorem grp_rext (op : Operand) (d : Option Reg) (n : Nat) (hop : GrpOK op d n) (ext : BitVec 3) (type : Ty) (ht : GrpTy type d.isSome) (code : Byte)
    (hc : ∀ b, X86.OpcodeOK 0 (code ||| sel b 1)) (k : Nat) {w : List Act} (hw : (opRext op 0 (ext.setWidth 5) type code false k d).Gives w ())
    (fill : Act → BitVec 32) :
    ∃ (h : X86.Head) (reg : BitVec 3) (rm : X86.RM), (∀ t, X86.insn false 1 (concr fill w ++ t) = some (⟨h, reg, rm⟩, t)) ∧
      Grp fill code ext n (d.map (·.idx)) (grpNF op d) (grpImm op d k) op h reg rm ∧ (type.has T_NF = false → grpNF op d = false) := by
  have hsz := hop.size
  by_cases ha : (d.isSome || op.hasRex2NFZU) = true
  · unfold opRext at hw
    dsimp only at hw
    rw [ht.apx, Bool.true_and, if_pos ha, if_neg (by simp), Enc.gives_bind] at hw
    obtain ⟨w1, v, w2, h1, h2, rfl⟩ := hw
    obtain ⟨hx, hq⟩ := hop.apx (by simpa using ha)
    have key : ∀ (D : Reg), (d.getD (.gp 0 op.bit)) = D → D.kind = .reg ∧ D.bit = n ∧ (d.isSome = false → D.idx = 0) ∧
        (if d.isSome then some D.idx else none) = d.map (·.idx) ∧ (opNF op || D.nf) = grpNF op d := by
      intro D hD
      cases d with
      | none =>
        subst hD
        refine ⟨rfl, hop.bit.resolve_right (by simp), fun _ => rfl, rfl, ?_⟩
        unfold grpNF; rw [ha]; simp [Reg.gp]
      | some q =>
        cases hD
        obtain ⟨d1, d2⟩ := hop.dst q rfl
        exact ⟨d1, d2, fun h => (by cases h), rfl, (by unfold grpNF; rw [ha]; simp)⟩
    generalize hD : d.getD (.gp 0 op.bit) = D at *
    obtain ⟨d1, d2, d3, d4, d5⟩ := key D rfl
    obtain ⟨rfl, h, reg, rm, hdec, hg, hN⟩ := grp_roo D d1 n d2 hsz op hx hq ext op.bit (by rcases hop.bit with h | h <;> simp [h]) type d.isSome ht d3
      code 0 h1 fill
    rw [if_pos rfl] at h2
    obtain ⟨rfl, _⟩ := (Enc.gives_pure ..).1 h2
    rw [d4, d5] at hg
    rw [d5] at hN
    refine ⟨h, reg, rm, by rw [List.append_nil]; exact hdec, ?_, hN⟩
    unfold grpImm; rw [if_pos ha]; exact hg
  · have hd : d = none := by cases d with | none => rfl | some q => simp at ha
    subst hd
    have hx : op.hasRex2NFZU = false := by simpa using ha
    have hbit : op.bit = n := hop.bit.resolve_right (by simp)
    obtain ⟨h, reg, rm, hdec, hg⟩ := grp_leg op n hop.ok hop.named hsz hbit ext type (fun _ => hx) ht.map ht.p66 ht.byte code hc 0 k hw fill
    have e1 : grpNF op none = false := by unfold grpNF; simp [hx]
    have e2 : grpImm op none k = k := by unfold grpImm; rw [if_neg ha]
    exact ⟨h, reg, rm, hdec, by rw [e1, e2]; exact hg, fun _ => e1⟩

theorem shift_ty : ∀ (e : BitVec 4) (nd : Bool), let type := (T_APX ||| T_CODE1_IF1) ||| (if e &&& 8 ≠ 0 then T_NF else 0) ||| (if nd = true then T_ND1 else 0)
    mapOf type = 0 ∧ type.has T_APX = true ∧ type.has (T_F2 ||| T_F3 ||| T_66) = false ∧ type.has T_66 = false ∧ type.has T_W0 = false ∧
    type.has T_W1 = false ∧ type.has T_ZU = false ∧ type.has T_ND1 = nd ∧ (type &&& T_SENTRY == 0 || type.has T_CODE1_IF1) = true ∧
    type.has T_NF = e.getLsbD 3 := by decide +kernel

theorem shift_grp (e : BitVec 4) (d : Option Reg) : GrpTy (shiftType e d) d.isSome ∧ (shiftType e d).has T_NF = e.getLsbD 3 := by
  obtain ⟨h1, h2, h3, h4, h5, h6, h7, h8, h9, h10⟩ := shift_ty e d.isSome
  exact ⟨⟨h1, h2, h3, h4, h5, h6, h7, h8, h9⟩, h10⟩

theorem shift_digit : ∀ e : BitVec 4, (e &&& 7).setWidth 5 = (e.setWidth 3).setWidth 5 := by decide +kernel
theorem shift_codes : ∀ b : Bool, X86.OpcodeOK 0 (0xC0 ||| sel b 1) ∧ X86.OpcodeOK 0 (0xD0 ||| sel b 1) ∧ X86.OpcodeOK 0 (0xD2 ||| sel b 1) ∧
    ((0xC0 ||| sel b 1 : Byte) &&& 0xFE = 0xC0) ∧ ((0xD0 ||| sel b 1 : Byte) &&& 0xFE = 0xD0) ∧ ((0xD2 ||| sel b 1 : Byte) &&& 0xFE = 0xD2) := by decide +kernel

/-- C46: a shift or rotate by an immediate decodes to the requested operation (`e` without its NF bit), operand, operand size, destination,
and count.
Partial: `GrpOK` — the operand must be a general register or memory and be of 8 to 64 bits, and in the APX form not ah..bh
(not checked: `c46_refuted_kind`, `c46_refuted_dst`, `c46_refuted_high`, `c46_refuted_size`); for rip-relative operands of the APX form the displacement
does not take the immediate into account (`grpImm`, `c46_refuted_rip`). -/
theorem c46_imm_partial (op : Operand) (d : Option Reg) (n : Nat) (hop : GrpOK op d n) (imm : BitVec 32) (e : BitVec 4)
    {w : List Act} (hw : (opShiftI op imm e d).Gives w ()) (fill : Act → BitVec 32) :
    ∃ i : X86.Shift, (∀ t, X86.shift (concr fill w ++ t) = some (i, t)) ∧ i.op = e.setWidth 3 ∧ i.bits = n ∧ i.dst = d.map (·.idx) ∧
      i.nf = grpNF op d ∧ i.count = .imm (imm.setWidth 8) ∧ RmIs fill i.head i.rm (op.withImm (grpImm op d (if imm = 1 then 0 else 1))) ∧
      ByteIs i.head op ∧ (e.getLsbD 3 = false → i.nf = false) := by
  unfold opShiftI at hw
  have hw : ∃ w', (opRext op 0 ((e &&& 7).setWidth 5) (shiftType e d) (if imm = 1 then 0xD0 else 0xC0) false (if imm ≠ 1 then 1 else 0) d).Gives w' () ∧
      w = w' ++ if imm = 1 then [] else [.byte (imm.setWidth 8)] := by
    have key : ∀ w, ((do Enc.throwIf (shiftSizeBad op d) .BAD_SIZE_OF_REGISTER
                         opRext op 0 ((e &&& 7).setWidth 5) (shiftType e d) (if imm = 1 then 0xD0 else 0xC0) false (if imm ≠ 1 then 1 else 0) d
                         Enc.dbIf (imm ≠ 1) (imm.setWidth 8)) : Enc Unit).Gives w () → ∃ w', (opRext op 0 ((e &&& 7).setWidth 5) (shiftType e d) (if imm = 1 then 0xD0 else 0xC0) false (if imm ≠ 1 then 1 else 0) d).Gives w' () ∧
      w = w' ++ if imm = 1 then [] else [.byte (imm.setWidth 8)] := by
      intro w hw
      rw [Enc.throwIf_bind, Enc.gives_bind] at hw
      obtain ⟨_, w1, _, w2, h1, h2, rfl⟩ := hw
      refine ⟨w1, h1, ?_⟩
      congr 1
      rw [Enc.gives_dbIf] at h2
      rw [h2]
      by_cases hi : imm = 1
      · rw [if_pos hi, if_neg (by simp [hi])]; rfl
      · rw [if_neg hi, if_pos (by simpa using hi)]; rfl
    cases d with
    | none =>
      have hw : (verifyMemHasSize op >>= fun _ => _).Gives w () := hw
      unfold verifyMemHasSize at hw
      rw [Enc.throwIf_bind] at hw
      exact key w hw.2
    | some q =>
      have hw : (pure () >>= fun _ => _ : Enc Unit).Gives w () := hw
      rw [Enc.pure_bind] at hw
      exact key w hw
  obtain ⟨w', hw1, rfl⟩ := hw
  rw [shift_digit] at hw1
  obtain ⟨ht, hN⟩ := shift_grp e d
  obtain ⟨h, reg, rm, hdec, hg, hnf⟩ := grp_rext op d n hop (e.setWidth 3) _ ht (if imm = 1 then 0xD0 else 0xC0)
    (fun b => by obtain ⟨h1, h2, h3, _⟩ := shift_codes b; split <;> assumption) _ hw1 fill
  rw [hN] at hnf
  have ek : (if imm ≠ 1 then 1 else 0) = (if imm = 1 then 0 else 1) := by by_cases hi : imm = 1 <;> simp [hi]
  rw [ek] at hg
  obtain ⟨_, _, _, c4, c5, c6⟩ := shift_codes (n != 8)
  refine ⟨⟨h, e.setWidth 3, n, d.map (·.idx), grpNF op d, rm, .imm (imm.setWidth 8)⟩, fun t => ?_, rfl, rfl, rfl, rfl, rfl, hg.rm, hg.byte, hnf⟩
  unfold X86.shift
  rw [concr_append, List.append_assoc, hdec]
  dsimp only
  rw [if_neg (not_not_intro hg.grp), hg.opcode, hg.reg, hg.bits (by split <;> decide), hg.dst, hg.nf]
  by_cases hi : imm = 1
  · rw [if_pos hi, if_pos hi, if_neg (by rcases hop.size with h | h | h | h <;> subst h <;> decide), if_pos c5, hi]; rfl
  · rw [if_neg hi, if_neg hi, if_pos c4]; rfl

/-- C46: a shift or rotate by a register: the register is cl, and the instruction decodes to the requested operation, operand, operand size
and destination.  Partial: see `c46_imm_partial`; memory without a size is taken as 32 bits wide (`c46_refuted_unsized`). -/
theorem c46_cl_partial (op : Operand) (d : Option Reg) (n : Nat) (hop : GrpOK op d n) (cl : Reg) (e : BitVec 4)
    {w : List Act} (hw : (opShiftCL op cl e d).Gives w ()) (fill : Act → BitVec 32) :
    cl.idx = 1 ∧ ∃ i : X86.Shift, (∀ t, X86.shift (concr fill w ++ t) = some (i, t)) ∧ i.op = e.setWidth 3 ∧ i.bits = n ∧ i.dst = d.map (·.idx) ∧
      i.nf = grpNF op d ∧ i.count = .cl ∧ RmIs fill i.head i.rm (op.withImm 0) ∧ ByteIs i.head op ∧ (e.getLsbD 3 = false → i.nf = false) := by
  unfold opShiftCL at hw
  rw [Enc.throwIf_bind, Enc.throwIf_bind] at hw
  obtain ⟨hc, _, hw⟩ := hw
  rw [shift_digit] at hw
  obtain ⟨ht, hN⟩ := shift_grp e d
  obtain ⟨h, reg, rm, hdec, hg, hnf⟩ := grp_rext op d n hop (e.setWidth 3) _ ht _ (fun b => (shift_codes b).2.2.1) _ hw fill
  rw [hN] at hnf
  have ek : grpImm op d 0 = 0 := by unfold grpImm; split <;> rfl
  rw [ek] at hg
  obtain ⟨_, _, _, c4, c5, c6⟩ := shift_codes (n != 8)
  refine ⟨by simpa using hc, ⟨h, e.setWidth 3, n, d.map (·.idx), grpNF op d, rm, .cl⟩, fun t => ?_, rfl, rfl, rfl, rfl, rfl, hg.rm, hg.byte, hnf⟩
  unfold X86.shift
  rw [hdec]
  dsimp only
  rw [if_neg (not_not_intro hg.grp), hg.opcode, hg.reg, hg.bits (by decide), hg.dst, hg.nf, c6]
  rfl

/-- C46: a count register other than cl is refused, nothing is emitted. -/
theorem c46_only_cl (op : Operand) (d : Option Reg) (cl : Reg) (e : BitVec 4) (h : cl.idx ≠ 1) :
    opShiftCL op cl e d = Enc.throw .BAD_COMBINATION := by
  unfold opShiftCL Enc.throwIf
  rw [if_pos (by simpa using h)]; rfl

/-- The functions and the operation numbers of the SDM. -/
def shiftNames : List (Nat × BitVec 3) :=
  [(n!"rol", 0), (n!"ror", 1), (n!"rcl", 2), (n!"rcr", 3), (n!"shl", 4), (n!"sal", 4), (n!"shr", 5), (n!"sar", 7)]

/-- Rotates through carry cannot leave the flags alone. -/
def shiftNF (o : BitVec 3) : Bool := !(o == 2 || o == 3)

/-- The shape of the table's shift entries. -/
inductive ShiftKind | imm | cl | ndImm | ndCl
  deriving DecidableEq

def shiftOf (e : Entry) : Option (ShiftKind × BitVec 4) :=
  match e.body with
  | .leaf (.shiftI (.a 0) 0 x none) => if e.params = [.op, .int] then some (.imm, x) else none
  | .leaf (.shiftCL (.a 0) (.a 1) x none) => if e.params = [.op, .reg8] then some (.cl, x) else none
  | .leaf (.shiftI (.a 1) 0 x (some (.a 0))) => if e.params = [.reg, .op, .int] then some (.ndImm, x) else none
  | .leaf (.shiftCL (.a 1) (.a 2) x (some (.a 0))) => if e.params = [.reg, .op, .reg8] then some (.ndCl, x) else none
  | _ => none

theorem shift_table : (shiftNames.all fun p => let es := named p.1
    decide (es.filterMap (fun e => (shiftOf e).map (·.1)) = [.cl, .imm, .ndCl, .ndImm]) &&
    es.all fun e => match shiftOf e with | some (_, x) => x.setWidth 3 == p.2 && x.getLsbD 3 == shiftNF p.2 | none => false) = true := by decide +kernel

/-- The decoded instruction is the shift named. -/
def ShiftIs (fill : Act → BitVec 32) (o : BitVec 3) (n : Nat) (d : Option Reg) (op : Operand) (k : Nat) (c : X86.Count) (w : List Act) : Prop :=
  ∃ i : X86.Shift, (∀ t, X86.shift (concr fill w ++ t) = some (i, t)) ∧ i.op = o ∧ i.bits = n ∧ i.dst = d.map (·.idx) ∧ i.nf = grpNF op d ∧
    i.count = c ∧ RmIs fill i.head i.rm (op.withImm k) ∧ ByteIs i.head op ∧ (i.nf = true → shiftNF o = true)

/-- C46: the functions `rol`, `ror`, `rcl`, `rcr`, `shl`, `sal`, `shr`, `sar` in their four forms each (two operands and three, count immediate
or register) emit the shift or rotate they are named after.  Partial: see `c46_imm_partial`, `c46_cl_partial`. -/
theorem c46_names_partial (p : Nat × BitVec 3) (hp : p ∈ shiftNames) :
    (named p.1).filterMap (fun e => (shiftOf e).map (·.1)) = [.cl, .imm, .ndCl, .ndImm] ∧
    ∀ e ∈ named p.1, match shiftOf e with
      | none => False
      | some (.imm, _) => e.params = [.op, .int] ∧ ∀ (g : Args) (n : Nat), GrpOK (g.op 0) none n → ∃ m, e.body.run g = some m ∧ ∀ w, m.Gives w () → ∀ fill,
          ShiftIs fill p.2 n none (g.op 0) (grpImm (g.op 0) none (if g.i32 0 = 1 then 0 else 1)) (.imm ((g.i32 0).setWidth 8)) w
      | some (.cl, _) => e.params = [.op, .reg8] ∧ ∀ (g : Args) (n : Nat), GrpOK (g.op 0) none n → ∃ m, e.body.run g = some m ∧ ∀ w, m.Gives w () →
          (g.reg 1).idx = 1 ∧ ∀ fill, ShiftIs fill p.2 n none (g.op 0) 0 .cl w
      | some (.ndImm, _) => e.params = [.reg, .op, .int] ∧ ∀ (g : Args) (n : Nat), GrpOK (g.op 1) (some (g.reg 0)) n → ∃ m, e.body.run g = some m ∧ ∀ w, m.Gives w () → ∀ fill,
          ShiftIs fill p.2 n (some (g.reg 0)) (g.op 1) 0 (.imm ((g.i32 0).setWidth 8)) w
      | some (.ndCl, _) => e.params = [.reg, .op, .reg8] ∧ ∀ (g : Args) (n : Nat), GrpOK (g.op 1) (some (g.reg 0)) n → ∃ m, e.body.run g = some m ∧ ∀ w, m.Gives w () →
          (g.reg 2).idx = 1 ∧ ∀ fill, ShiftIs fill p.2 n (some (g.reg 0)) (g.op 1) 0 .cl w := by
  have hT := List.all_eq_true.1 shift_table p hp
  dsimp only at hT
  rw [Bool.and_eq_true, decide_eq_true_eq, List.all_eq_true] at hT
  refine ⟨hT.1, fun e he => ?_⟩
  have h2 := hT.2 e he
  have conv : ∀ x : BitVec 4, (x.setWidth 3 == p.2 && x.getLsbD 3 == shiftNF p.2) = true → x.setWidth 3 = p.2 ∧ x.getLsbD 3 = shiftNF p.2 := by
    intro x h; simpa using h
  cases ho : shiftOf e with
  | none => rw [ho] at h2; cases h2
  | some y =>
    obtain ⟨y, x⟩ := y
    rw [ho] at h2
    obtain ⟨x1, x2⟩ := conv x h2
    unfold shiftOf at ho
    split at ho
    · rename_i x' hb
      by_cases hc : e.params = [.op, .int]
      · rw [if_pos hc] at ho; cases ho
        refine ⟨hc, fun g n hg => ⟨_, by rw [hb]; rfl, fun w hw fill => ?_⟩⟩
        obtain ⟨i, h3, h4, h5, h6, h7, h8, h9, h10, h11⟩ := c46_imm_partial (g.op 0) none n hg (g.i32 0) x hw fill
        exact ⟨i, h3, h4.trans x1, h5, h6, h7, h8, h9, h10, fun h => by cases hh : shiftNF p.2; · rw [h11 (x2.trans hh)] at h; cases h
                                                                        · rfl⟩
      · rw [if_neg hc] at ho; cases ho
    · rename_i x' hb
      by_cases hc : e.params = [.op, .reg8]
      · rw [if_pos hc] at ho; cases ho
        refine ⟨hc, fun g n hg => ⟨_, by rw [hb]; rfl, fun w hw => ?_⟩⟩
        refine ⟨(c46_cl_partial (g.op 0) none n hg (g.reg 1) x hw (fun _ => 0)).1, fun fill => ?_⟩
        obtain ⟨_, i, h3, h4, h5, h6, h7, h8, h9, h10, h11⟩ := c46_cl_partial (g.op 0) none n hg (g.reg 1) x hw fill
        exact ⟨i, h3, h4.trans x1, h5, h6, h7, h8, h9, h10, fun h => by cases hh : shiftNF p.2; · rw [h11 (x2.trans hh)] at h; cases h
                                                                        · rfl⟩
      · rw [if_neg hc] at ho; cases ho
    · rename_i x' hb
      by_cases hc : e.params = [.reg, .op, .int]
      · rw [if_pos hc] at ho; cases ho
        refine ⟨hc, fun g n hg => ⟨_, by rw [hb]; rfl, fun w hw fill => ?_⟩⟩
        obtain ⟨i, h3, h4, h5, h6, h7, h8, h9, h10, h11⟩ := c46_imm_partial (g.op 1) (some (g.reg 0)) n hg (g.i32 0) x hw fill
        exact ⟨i, h3, h4.trans x1, h5, h6, h7, h8, h9, h10, fun h => by cases hh : shiftNF p.2; · rw [h11 (x2.trans hh)] at h; cases h
                                                                        · rfl⟩
      · rw [if_neg hc] at ho; cases ho
    · rename_i x' hb
      by_cases hc : e.params = [.reg, .op, .reg8]
      · rw [if_pos hc] at ho; cases ho
        refine ⟨hc, fun g n hg => ⟨_, by rw [hb]; rfl, fun w hw => ?_⟩⟩
        refine ⟨(c46_cl_partial (g.op 1) (some (g.reg 0)) n hg (g.reg 2) x hw (fun _ => 0)).1, fun fill => ?_⟩
        obtain ⟨_, i, h3, h4, h5, h6, h7, h8, h9, h10, h11⟩ := c46_cl_partial (g.op 1) (some (g.reg 0)) n hg (g.reg 2) x hw fill
        exact ⟨i, h3, h4.trans x1, h5, h6, h7, h8, h9, h10, fun h => by cases hh : shiftNF p.2; · rw [h11 (x2.trans hh)] at h; cases h
                                                                        · rfl⟩
      · rw [if_neg hc] at ho; cases ho
    · cases ho

/-! ### Examples and counterexamples -/

/-- `sar(r9w, 5)`: 66 41 C1 F9 05 -/
example : (opShiftI (.reg (.gp 9 16)) 5 15).acts = [.byte 0x66, .byte 0x41, .byte 0xC1, .byte 0xF9, .byte 5] := by decide +kernel
/-- `shl(r31, r20 | T_nf, cl)`: 62 FC 84 14 D3 E4 -/
example : (opShiftCL (.reg (Reg.gp 20 64).setNF) (.r8 1) 12 (some (.gp 31 64))).acts =
    [.byte 0x62, .byte 0xFC, .byte 0x84, .byte 0x14, .byte 0xD3, .byte 0xE4] := by decide +kernel

/-- C46 does not hold in full: `shl(rax, mm1, 1)` is accepted; it encodes `shl rax, rcx, 1`. -/
theorem c46_refuted_kind : (opShiftI (.reg (.mm 1)) 1 12 (some (.gp 0 64))).res = .ok () ∧
    (opShiftI (.reg (.mm 1)) 1 12 (some (.gp 0 64))).acts = (opShiftI (.reg (.gp 1 64)) 1 12 (some (.gp 0 64))).acts := ⟨rfl, by decide +kernel⟩

/-- C46 does not hold in full: with a destination that is not a general register, `shl(xmm1, ptr [rax], 1)`, the destination is
dropped; the code of `shl(dword [rax], 1)` is emitted. -/
theorem c46_refuted_dst : ∃ a b, Term.addr (.reg (.gp 0 64)) 0 false = .ok a ∧ Term.addr (.reg (.gp 0 64)) 32 false = .ok b ∧
    (opShiftI (.mem a) 1 12 (some (.xmm 1))).res = .ok () ∧ (opShiftI (.mem a) 1 12 (some (.xmm 1))).acts = (opShiftI (.mem b) 1 12).acts :=
  ⟨_, _, rfl, rfl, rfl, by decide +kernel⟩

/-- C46 does not hold in full: `shl(cl, ah, 1)` is accepted; byte register 4 of an extended EVEX instruction is spl. -/
theorem c46_refuted_high : (Reg.r8 4).isHigh8bit = true ∧ ∃ bs i,
    opShiftI (.reg (.r8 4)) 1 12 (some (.r8 1)) = ⟨bs.map .byte, .ok ()⟩ ∧ X86.shift bs = some (i, []) ∧ i.rm = .reg 4 ∧
    X86.reg8 i.head (X86.rmGpr i.head 4) = .low 4 := ⟨rfl, [0x62, 0xF4, 0x74, 0x18, 0xD0, 0xE4], _, rfl, rfl, rfl, rfl⟩

/-- C46 does not hold in full: `shl(xword [rax], 1)` is accepted; it encodes a shift of 32 bits. -/
theorem c46_refuted_size : ∃ a b, Term.addr (.reg (.gp 0 64)) 128 false = .ok a ∧ Term.addr (.reg (.gp 0 64)) 32 false = .ok b ∧
    (opShiftI (.mem a) 1 12).res = .ok () ∧ (opShiftI (.mem a) 1 12).acts = (opShiftI (.mem b) 1 12).acts := ⟨_, _, rfl, rfl, rfl, by decide +kernel⟩

/-- C46 does not hold in full: `shl(ptr [rax], cl)` is accepted although no size is given (`shl(ptr [rax], 1)` is refused); it encodes a
shift of 32 bits. -/
theorem c46_refuted_unsized : ∃ a b, Term.addr (.reg (.gp 0 64)) 0 false = .ok a ∧ Term.addr (.reg (.gp 0 64)) 32 false = .ok b ∧
    (opShiftCL (.mem a) (.r8 1) 12).res = .ok () ∧ (opShiftCL (.mem a) (.r8 1) 12).acts = (opShiftCL (.mem b) (.r8 1) 12).acts ∧
    (opShiftI (.mem a) 1 12).res = .error .MEM_SIZE_IS_NOT_SPECIFIED := ⟨_, _, rfl, rfl, rfl, by decide +kernel, rfl⟩

/-- C46 does not hold in full: `shl(eax, dword [rip + L], 2)` ends with `L` relative to the end of the displacement and then the count
byte, so the CPU reads `[L + 1]`; `shl(dword [rip + L], 2)` subtracts the byte. -/
theorem c46_refuted_rip : let a := Addr.ofRip 32 false { label := some 1 }
    opShiftI (.mem a) 2 12 = ⟨[.byte 0xC1, .byte 0x25, .rel 1 (-1), .byte 2], .ok ()⟩ ∧
    opShiftI (.mem a) 2 12 (some (.gp 0 32)) =
      ⟨[.byte 0x62, .byte 0xF4, .byte 0x7C, .byte 0x18, .byte 0xC1, .byte 0x25, .rel 1 0, .byte 2], .ok ()⟩ := ⟨rfl, rfl⟩

/-! ## Unary instructions (C64) -/

theorem unary_code : ∀ b : Bool, X86.OpcodeOK 0 (0xF6 ||| sel b 1) ∧ X86.OpcodeOK 0 (0xFE ||| sel b 1) ∧
    ((0xF6 ||| sel b 1 : Byte) &&& 0xFE = 0xF6) ∧ ((0xFE ||| sel b 1 : Byte) &&& 0xFE = 0xFE) := by decide +kernel

theorem unary_op (b : Bool) (r : BitVec 3) : X86.unaryOp (0xF6 ||| sel b 1) r = X86.unaryOp 0xF6 r ∧
    X86.unaryOp (0xFE ||| sel b 1) r = X86.unaryOp 0xFE r := by revert b r; decide +kernel

/-- The decoded instruction is the unary operation `u` on `op`. -/
def UnaryIs (fill : Act → BitVec 32) (u : X86.UnaryOp) (n : Nat) (d : Option Reg) (nf : Bool) (op : Operand) (w : List Act) : Prop :=
  ∃ i : X86.Unary, (∀ t, X86.unary (concr fill w ++ t) = some (i, t)) ∧ i.op = u ∧ i.bits = n ∧ i.dst = d.map (·.idx) ∧ i.nf = nf ∧
    RmIs fill i.head i.rm (op.withImm 0) ∧ ByteIs i.head op

theorem unary_of_grp {fill : Act → BitVec 32} {code : Byte} {ext : BitVec 3} {u : X86.UnaryOp} (hc : code = 0xF6 ∨ code = 0xFE)
    (hu : X86.unaryOp code ext = some u) {n : Nat} {d : Option Reg} {nf : Bool} {op : Operand} {h : X86.Head} {reg : BitVec 3} {rm : X86.RM} {w : List Act}
    (hdec : ∀ t, X86.insn false 1 (concr fill w ++ t) = some (⟨h, reg, rm⟩, t)) (hg : Grp fill code ext n (d.map (·.idx)) nf 0 op h reg rm) :
    UnaryIs fill u n d nf op w := by
  refine ⟨⟨h, u, n, d.map (·.idx), nf, rm⟩, fun t => ?_, rfl, rfl, rfl, rfl, hg.rm, hg.byte⟩
  unfold X86.unary
  rw [hdec]
  dsimp only
  have e : X86.unaryOp (code ||| sel (n != 8) 1) ext = some u := by
    rcases hc with rfl | rfl
    · rw [(unary_op _ _).1, hu]
    · rw [(unary_op _ _).2, hu]
  rw [if_neg (not_not_intro hg.grp), hg.opcode, hg.reg, e]
  dsimp only
  rw [hg.bits (by rcases hc with rfl | rfl <;> decide), hg.dst, hg.nf]

theorem unary_tys : GrpTy (fl [T_APX, T_NF, T_CODE1_IF1]) false ∧ GrpTy (fl [T_APX, T_CODE1_IF1]) false ∧
    GrpTy (fl [T_APX, T_NF, T_CODE1_IF1, T_ND1]) true ∧ GrpTy (fl [T_APX, T_CODE1_IF1, T_ND1]) true :=
  ⟨by constructor <;> decide +kernel, by constructor <;> decide +kernel, by constructor <;> decide +kernel, by constructor <;> decide +kernel⟩

/-- `NOT` cannot leave the flags alone: it does not change them. -/
def unaryNF (u : X86.UnaryOp) : Bool := decide (u ≠ .not)
def unaryTy (u : X86.UnaryOp) (nd : Bool) : Ty := T_APX ||| T_CODE1_IF1 ||| (if unaryNF u then T_NF else 0) ||| (if nd then T_ND1 else 0)

theorem unaryTy_grp (u : X86.UnaryOp) (nd : Bool) : GrpTy (unaryTy u nd) nd ∧ (unaryTy u nd).has T_NF = unaryNF u := by
  cases u <;> cases nd <;> exact ⟨by constructor <;> decide +kernel, by decide +kernel⟩

/-- C64: `not`, `neg`, `mul`, `imul`, `div`, `idiv` with one operand decode to the requested operation, operand, size and NF.
Partial: `GrpOK`, in particular the operand has a size, which is not checked for memory (`c64_refuted_unsized`). -/
theorem c64_one_partial (op : Operand) (n : Nat) (hop : GrpOK op none n) (ext : BitVec 3) (u : X86.UnaryOp) (hu : X86.unaryOp 0xF6 ext = some u)
    {w : List Act} (hw : (opRext op 0 (ext.setWidth 5) (unaryTy u false) 0xF6).Gives w ()) (fill : Act → BitVec 32) :
    UnaryIs fill u n none (grpNF op none) op w ∧ (u = .not → grpNF op none = false) := by
  obtain ⟨ht, hN⟩ := unaryTy_grp u false
  obtain ⟨h, reg, rm, hdec, hg, hnf⟩ := grp_rext op none n hop ext _ ht 0xF6 (fun b => (unary_code b).1) 0 hw fill
  have ek : grpImm op none 0 = 0 := by unfold grpImm; split <;> rfl
  rw [ek] at hg
  exact ⟨unary_of_grp (.inl rfl) hu hdec hg, fun h => hnf (by rw [hN, h]; rfl)⟩

/-- C64: `not`, `neg` with a destination.  Partial: see `c64_one_partial`; the destination and the operand are not checked at all
(`c64_refuted_empty`, `c64_refuted_kind`). -/
theorem c64_ndd_partial (D : Reg) (op : Operand) (n : Nat) (hop : GrpOK op (some D) n) (ext : BitVec 3) (u : X86.UnaryOp)
    (hu : X86.unaryOp 0xF6 ext = some u) {w : List Act} {v : Bool}
    (hw : (opROO D op (.reg (.gp (ext.setWidth 5) D.bit)) (unaryTy u true) 0xF6).Gives w v) (fill : Act → BitVec 32) :
    UnaryIs fill u n (some D) (grpNF op (some D)) op w ∧ (u = .not → grpNF op (some D) = false) := by
  obtain ⟨ht, hN⟩ := unaryTy_grp u true
  obtain ⟨d1, d2⟩ := hop.dst D rfl
  obtain ⟨hx, hq⟩ := hop.apx (.inl rfl)
  obtain ⟨_, h, reg, rm, hdec, hg, hnf⟩ := grp_roo D d1 n d2 hop.size op hx hq ext D.bit (.inr d2) _ true ht (fun h => by cases h) 0xF6 0 hw fill
  exact ⟨unary_of_grp (.inl rfl) hu hdec hg, fun h => hnf (by rw [hN, h]; rfl)⟩

/-- Type of `inc`, `dec` with a destination. -/
def incTy (n : Nat) : Ty := T_APX ||| T_NF ||| T_ND1 ||| (if n &&& 16 != 0 then T_66 else 0)

/-- NF of `inc`, `dec`: only the form with a destination supports it. -/
def incNF (op : Operand) : Option Reg → Bool
  | none => false
  | some D => opNF op || D.nf

/-- C64: `inc`, `dec` with one operand or with a destination.  Partial: `GrpOK` as above. -/
theorem c64_incdec_partial (d : Option Reg) (op : Operand) (n : Nat) (hop : GrpOK op d n) (ext : BitVec 3) (u : X86.UnaryOp)
    (hu : X86.unaryOp 0xFE ext = some u) {w : List Act} (hw : (opIncDec (d.getD .nil) op (ext.setWidth 5)).Gives w ()) (fill : Act → BitVec 32) :
    UnaryIs fill u n d (incNF op d) op w := by
  unfold opIncDec at hw
  cases d with
  | none =>
    have hw : (verifyMemHasSize op >>= fun _ => opRext op op.bit (ext.setWidth 5) 0 0xFE).Gives w () := hw
    unfold verifyMemHasSize at hw
    rw [Enc.throwIf_bind] at hw
    have hbit : op.bit = n := hop.bit.resolve_right (by simp)
    obtain ⟨h, reg, rm, hdec, hg⟩ := grp_leg op n hop.ok hop.named hop.size hbit ext 0 (fun h => absurd h (by decide +kernel)) (by decide +kernel)
      (by decide +kernel) (by decide +kernel) 0xFE (fun b => (unary_code b).2.1) _ 0 hw.2 fill
    exact unary_of_grp (.inr rfl) hu hdec hg
  | some D =>
    obtain ⟨d1, d2⟩ := hop.dst D rfl
    obtain ⟨ha, hq⟩ := hop.apx (.inl rfl)
    have hsz := hop.size
    have hD : D.isREG = true := by simp [Reg.isREG, d1]
    have hw : (if D.isREG = true then _ else _ : Enc Unit).Gives w () := hw
    rw [if_pos hD] at hw
    dsimp only at hw
    rw [Enc.gives_bind] at hw
    obtain ⟨w1, v, w2, hw1, hp, rfl⟩ := hw
    obtain ⟨rfl, _⟩ := (Enc.gives_pure ..).1 hp
    rw [List.append_nil]
    have hw := hw1
    have hw : (opROO D op (.reg (.gp (ext.setWidth 5) D.bit)) (T_APX ||| T_NF ||| T_ND1 ||| (if D.isBit 16 = true then T_66 else 0))
      (if D.isBit 8 = true then 0xFE else 0xFF)).Gives w1 v := hw
    have ety : T_APX ||| T_NF ||| T_ND1 ||| (if D.isBit 16 = true then T_66 else 0) = incTy n := by unfold Reg.isBit incTy; rw [d2]
    rw [ety, d2] at hw
    have ft : (incTy n).has T_APX = true ∧ mapOf (incTy n) = 0 ∧ (incTy n).has T_W0 = false ∧ (incTy n).has T_W1 = false ∧ (incTy n).has T_ZU = false ∧
        (incTy n).has T_ND1 = true ∧ (incTy n &&& T_SENTRY == 0 || (incTy n).has T_CODE1_IF1) = false ∧
        (incTy n).has (T_F2 ||| T_F3 ||| T_66) = (n == 16) ∧ (n = 16 → ppOf (incTy n) = 1) := by
      rcases hsz with h | h | h | h <;> subst h <;> decide +kernel
    obtain ⟨f1, f2, f3, f4, f5, f6, f7, f8, f9⟩ := ft
    have hu' : rooUsed D op (.reg (.gp (ext.setWidth 5) n)) (incTy n) = true := by simp [rooUsed, hD]
    have em : rooRm op (.reg (.gp (ext.setWidth 5) n)) = op := by cases op <;> rfl
    have er : rooReg op (.reg (.gp (ext.setWidth 5) n)) = .gp (ext.setWidth 5) n := by cases op <;> rfl
    have ec : ∀ c, rooCode op (.reg (.gp (ext.setWidth 5) n)) c = c := by intro c; cases op <;> rfl
    obtain ⟨_, h, reg, rm, hdec, hh, hreg, hrm, hv, _, hok⟩ := c41_roo D op _ (incTy n) _ 0 none hu' (.inl f1) (by rw [em]; exact ha) hw fill
    rw [er, em] at hh hv hok
    rw [er] at hreg
    rw [em] at hrm
    rw [ec, opc_fix f7] at hh
    obtain ⟨hv, hnf⟩ := hv rfl
    have hnf : h.nf = (opNF op || D.nf) := by
      rw [hnf]; unfold apxNF opNF; show (false || _ || _ || _) = _; rw [Bool.false_or]
    have ho : h.opcode = 0xFE ||| sel (n != 8) 1 := by
      rw [hh.opcode]; unfold Reg.isBit; rw [d2]
      rcases hsz with h | h | h | h <;> subst h <;> rfl
    have hnd : h.nd = true := by
      rw [hh.nd]; unfold apxND; rw [f5, f6]; rfl
    have hmap : h.map = 4 := by rw [hh.map]; unfold apxMap; rw [f2]; rfl
    refine unary_of_grp (code := 0xFE) (ext := ext) (h := h) (reg := reg) (rm := rm) (.inr rfl) hu hdec
      ⟨.inr ⟨hh.space, hmap, hh.pF2, hh.pF3, ?_⟩, ho, mk5_digit _ _ _ _ hreg, fun hc => ?_, ?_, ?_, hrm, ?_⟩
    · intro e; rw [hnd] at e; cases e
    · unfold X86.byteOr X86.fullBits X86.apxBits
      rw [ho, byte_code _ _ hc, hh.space, hh.w, hh.pp]
      unfold apxPP apxW Reg.isBit
      rw [f3, f4, f8, d2]
      show (if (if (n != 8) = true then (1 : Byte) else 0) = 0 then 8 else if true = true then (if ((n &&& 64 != 0) || (n &&& 64 != 0) || false) = true then 64 else
        if (if (n == 16) = true then ppOf (incTy n) else if ((n &&& 16 != 0) || (n &&& 16 != 0)) = true then (1 : BitVec 2) else 0) = 1 then 16 else 32) else X86.opBits h) = n
      rcases hsz with h | h | h | h <;> subst h
      · rfl
      · rw [f9 rfl]; rfl
      · rfl
      · rfl
    · unfold X86.nddDst
      rw [hh.space, hnd, hv]; rfl
    · unfold X86.noFlags
      rw [hh.space, hnf]; rfl
    · cases op with
      | mem a => trivial
      | reg q =>
        intro h8
        rw [X86.apx_byte h hh.space]
        unfold Reg.view8
        rw [hq q rfl]; rfl

/-- The functions and the operations they are named after. -/
def unaryNames : List (Nat × X86.UnaryOp) :=
  [(n!"not_", .not), (n!"not", .not), (n!"neg", .neg), (n!"mul", .mul), (n!"div", .div), (n!"idiv", .idiv), (n!"inc", .inc), (n!"dec", .dec)]

inductive UnaryKind | one | ndd | inc | incNdd
  deriving DecidableEq

def unaryOf (u : X86.UnaryOp) (e : Entry) : Option (UnaryKind × BitVec 3) :=
  match e.body with
  | .leaf (.rext (.a 0) 0 x t c) => if e.params = [.op] ∧ t = unaryTy u false ∧ c = 0xF6 ∧ x.toNat < 8 then some (.one, x.setWidth 3) else none
  | .leaf (.roo (.a 0) (.a 1) (.bitOf 0 x) t c) =>
    if e.params = [.reg, .op] ∧ t = unaryTy u true ∧ c = 0xF6 ∧ x.toNat < 8 then some (.ndd, x.setWidth 3) else none
  | .leaf (.incDec (.r q) (.a 0) x) => if e.params = [.op] ∧ q = .nil ∧ x.toNat < 8 then some (.inc, x.setWidth 3) else none
  | .leaf (.incDec (.a 0) (.a 1) x) => if e.params = [.reg, .op] ∧ x.toNat < 8 then some (.incNdd, x.setWidth 3) else none
  | _ => none

theorem unary_table : (unaryNames.all fun p => !(named p.1).isEmpty && (named p.1).all fun e =>
    match unaryOf p.2 e with
    | some (k, x) => decide (X86.unaryOp (if k = .inc ∨ k = .incNdd then 0xFE else 0xF6) x = some p.2)
    | none => false) = true := by decide +kernel

theorem small5 : ∀ x : BitVec 5, x.toNat < 8 → x = (x.setWidth 3).setWidth 5 := by decide +kernel

/-- C64: the functions `not`, `neg`, `mul`, `div`, `idiv`, `inc`, `dec`, with one operand and (where they exist) with a destination, emit the
instruction they are named after.  Partial: see `c64_one_partial`, `c64_ndd_partial`, `c64_incdec_partial`. -/
theorem c64_names_partial (p : Nat × X86.UnaryOp) (hp : p ∈ unaryNames) : named p.1 ≠ [] ∧ ∀ e ∈ named p.1,
    (e.params = [.op] ∧ ∀ (g : Args) (n : Nat), GrpOK (g.op 0) none n → ∃ m, e.body.run g = some m ∧ ∀ w, m.Gives w () → ∀ fill,
      ∃ nf, UnaryIs fill p.2 n none nf (g.op 0) w ∧ (nf = true → grpNF (g.op 0) none = true)) ∨
    (e.params = [.reg, .op] ∧ ∀ (g : Args) (n : Nat), GrpOK (g.op 1) (some (g.reg 0)) n → ∃ m, e.body.run g = some m ∧ ∀ w, m.Gives w () → ∀ fill,
      UnaryIs fill p.2 n (some (g.reg 0)) (opNF (g.op 1) || (g.reg 0).nf) (g.op 1) w) := by
  have hT := List.all_eq_true.1 unary_table p hp
  rw [Bool.and_eq_true, List.all_eq_true] at hT
  refine ⟨fun h => (by rw [h] at hT; exact absurd hT.1 (by decide)), fun e he => ?_⟩
  have h2 := hT.2 e he
  cases ho : unaryOf p.2 e with
  | none => rw [ho] at h2; cases h2
  | some y =>
    obtain ⟨k, x⟩ := y
    rw [ho] at h2
    have h2 : X86.unaryOp (if k = .inc ∨ k = .incNdd then 0xFE else 0xF6) x = some p.2 := of_decide_eq_true h2
    unfold unaryOf at ho
    split at ho
    · rename_i x' t c hb
      split at ho
      · rename_i hc
        cases ho
        obtain ⟨hc, rfl, rfl, hx⟩ := hc
        refine .inl ⟨hc, fun g n hg => ⟨_, by rw [hb]; rfl, fun w hw fill => ⟨_, (c64_one_partial (g.op 0) n hg (x'.setWidth 3) p.2 h2 ?_ fill).1, fun h => h⟩⟩⟩
        rw [← small5 x' hx]; exact hw
      · cases ho
    · rename_i x' t c hb
      split at ho
      · rename_i hc
        cases ho
        obtain ⟨hc, rfl, rfl, hx⟩ := hc
        refine .inr ⟨hc, fun g n hg => ⟨_, by rw [hb]; rfl, fun w hw fill => ?_⟩⟩
        have hw : (opROO (g.reg 0) (g.op 1) (.reg (.gp x' (g.reg 0).bit)) (unaryTy p.2 true) 0xF6 >>= fun _ => pure ()).Gives w () := hw
        rw [Enc.gives_bind] at hw
        obtain ⟨w1, v, w2, hw1, hp, rfl⟩ := hw
        obtain ⟨rfl, _⟩ := (Enc.gives_pure ..).1 hp
        rw [List.append_nil]
        rw [small5 x' hx] at hw1
        exact (c64_ndd_partial (g.reg 0) (g.op 1) n hg (x'.setWidth 3) p.2 h2 hw1 fill).1
      · cases ho
    · rename_i q x' hb
      split at ho
      · rename_i hc
        cases ho
        obtain ⟨hc, rfl, hx⟩ := hc
        refine .inl ⟨hc, fun g n hg => ⟨_, by rw [hb]; rfl, fun w hw fill => ⟨_, c64_incdec_partial none (g.op 0) n hg (x'.setWidth 3) p.2 h2 ?_ fill, fun h => by cases h⟩⟩⟩
        rw [← small5 x' hx]; exact hw
      · cases ho
    · rename_i x' hb
      split at ho
      · rename_i hc
        cases ho
        obtain ⟨hc, hx⟩ := hc
        refine .inr ⟨hc, fun g n hg => ⟨_, by rw [hb]; rfl, fun w hw fill => c64_incdec_partial (some (g.reg 0)) (g.op 1) n hg (x'.setWidth 3) p.2 h2 ?_ fill⟩⟩
        rw [← small5 x' hx]; exact hw
      · cases ho
    · cases ho

/-- `neg(r8, qword [rbx])`: 62 F4 BC 18 F7 1B -/
example : ∃ a, Term.addr (.reg (.gp 3 64)) 64 false = .ok a ∧ (opROO (.gp 8 64) (.mem a) (.reg (.gp 3 64)) (unaryTy .neg true) 0xF6).acts =
    [.byte 0x62, .byte 0xF4, .byte 0xBC, .byte 0x18, .byte 0xF7, .byte 0x1B] := ⟨_, rfl, by decide +kernel⟩

/-- C64 does not hold in full: `mul(ptr [rax])` is accepted although no size is given (`inc(ptr [rax])` is refused); it encodes 32 bits. -/
theorem c64_refuted_unsized : ∃ a b, Term.addr (.reg (.gp 0 64)) 0 false = .ok a ∧ Term.addr (.reg (.gp 0 64)) 32 false = .ok b ∧
    (opRext (.mem a) 0 4 (unaryTy .mul false) 0xF6).res = .ok () ∧
    (opRext (.mem a) 0 4 (unaryTy .mul false) 0xF6).acts = (opRext (.mem b) 0 4 (unaryTy .mul false) 0xF6).acts ∧
    (opIncDec .nil (.mem a) 0).res = .error .MEM_SIZE_IS_NOT_SPECIFIED := ⟨_, _, rfl, rfl, rfl, by decide +kernel, rfl⟩

/-- C64 does not hold in full: `neg(xmm1, rax)` is accepted and emits nothing. -/
theorem c64_refuted_empty : opROO (.xmm 1) (.reg (.gp 0 64)) (.reg (.gp 3 128)) (unaryTy .neg true) 0xF6 = ⟨[], .ok false⟩ := rfl

/-- C64 does not hold in full: `inc(rax, xmm2)` is accepted; it encodes `inc rax, rdx`. -/
theorem c64_refuted_kind : (opIncDec (.gp 0 64) (.reg (.xmm 2)) 0).res = .ok () ∧
    (opIncDec (.gp 0 64) (.reg (.xmm 2)) 0).acts = (opIncDec (.gp 0 64) (.reg (.gp 2 64)) 0).acts := ⟨rfl, by decide +kernel⟩

end Xbyak
