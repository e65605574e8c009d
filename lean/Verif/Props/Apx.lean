import Verif.Apx
import Verif.Spec.Apx
import Verif.Props.Imm
/-!
# C41: APX instructions
-/
namespace Xbyak
open E

/-- The head `h` is that of an APX (extended EVEX) instruction with the given selectors. -/
structure ApxHead (type : Ty) (o : Byte) (pp : BitVec 2) (w nd : Bool) (h : X86.Head) : Prop where
  space : h.space = .evex
  map : h.map = (apxMap type).setWidth 5
  opcode : h.opcode = o
  pp : h.pp = pp
  w : h.w = w
  nd : h.nd = nd
  L : h.L = 0
  z : h.z = false
  p66 : h.p66 = false
  pF2 : h.pF2 = false
  pF3 : h.pF3 = false
  p67 : h.p67 = false
  seg : h.seg = none

/-- Operands as a program can pass them, without the two kinds of address `opROO` gets wrong (`c41_refuted_addr32`, `c41_refuted_disp64`). -/
def ApxOK : Operand → Prop
  | .reg _ => True
  | .mem a => OpOK (.mem a) ∧ a.is32bit = false ∧ a.mode ≠ .disp64

theorem low4_sc : ∀ sc : BitVec 4, (if (!sc.getLsbD 3) then (0 : BitVec 4) else 8) ||| (sc.setWidth 3).setWidth 4 = sc := by decide +kernel
theorem vreg_low : ∀ (i : BitVec 5) (c : Bool), ((if c then 16 else 0) ||| i &&& 15 : BitVec 5).setWidth 4 = i.setWidth 4 := by decide +kernel
theorem nf_bit2 : ∀ c : Bool, (if c then (4 : BitVec 3) else 0).getLsbD 2 = c := by decide +kernel
theorem vreg_eq' : ∀ (i : BitVec 5), (if i.getLsbD 4 then 16 else 0) ||| i &&& 15 = i := by decide +kernel

theorem roo_bytes (type : Ty) (f : EvexF) (o : Byte) (he : type.has T_APX = true ∨ mapOf type = 0) :
    f.pre ++ codeBytes type false o = f.bytes o := by
  unfold codeBytes
  rcases he with h | h
  · rw [h]; rfl
  · rw [h]; split <;> rfl

/-- C41: the bytes of `opROO` decode to the APX instruction: map, embedded prefix, W, ND, opcode, the register operand, the
register-or-memory operand, and either the third operand and NF or (`sc`) the source condition and the flags value. -/
theorem c41_roo (d : Reg) (op1 op2 : Operand) (type : Ty) (code : Byte) (n : Nat) (sc : Option (BitVec 4))
    (hu : rooUsed d op1 op2 type = true) (he : type.has T_APX = true ∨ mapOf type = 0) (ho : ApxOK (rooRm op1 op2))
    {w : List Act} {v : Bool} (hw : (opROO d op1 op2 type code n sc).Gives w v) (fill : Act → BitVec 32) :
    v = true ∧ ∃ (h : X86.Head) (reg : BitVec 3) (rm : X86.RM), (∀ t, X86.insn false 1 (concr fill w ++ t) = some (⟨h, reg, rm⟩, t)) ∧
      ApxHead type (opc type d (rooCode op1 op2 code)) (apxPP (rooReg op1 op2) d type) (apxW (rooReg op1 op2) d type)
        (apxND (rooReg op1 op2) (rmBase (rooRm op1 op2)) d type) h ∧
      X86.regNum h reg = (rooReg op1 op2).idx ∧ RmIs fill h rm ((rooRm op1 op2).withImm n) ∧
      (sc = none → h.vreg = d.idx ∧ h.nf = apxNF (rooReg op1 op2) (rmBase (rooRm op1 op2)) (rmIndex (rooRm op1 op2)) d) ∧
      (∀ c, sc = some c → h.low4 = c ∧ h.vreg.setWidth 4 = d.idx.setWidth 4) ∧
      legOK (rooReg op1 op2) (rmBase (rooRm op1 op2)) (rmIndex (rooRm op1 op2)) d type := by
  obtain ⟨_, rfl, hok, w', hw', rfl⟩ := (roo_gives d op1 op2 type code n sc hu w v).1 hw
  refine ⟨rfl, ?_⟩
  rw [roo_bytes _ _ _ he]
  generalize hr : rooReg op1 op2 = r at *
  generalize hm : rooRm op1 op2 = rm at *
  generalize ho' : opc type d (rooCode op1 op2 code) = o at *
  have hf : rooF d op1 op2 type sc = legF r (rmBase rm) (rmIndex rm) d type sc := by unfold rooF; rw [hr, hm]
  rw [hf]
  generalize hF : legF r (rmBase rm) (rmIndex rm) d type sc = f
  have hd : ∀ t, X86.head (concr fill ((f.bytes o).map .byte ++ w') ++ t) = some (f.head o false, concr fill w' ++ t) := by
    intro t
    rw [concr_append, concr_bytes, List.append_assoc]
    exact head_evex f o false _
  have hh : ApxHead type o (apxPP r d type) (apxW r d type) (apxND r (rmBase rm) d type) (f.head o false) := by
    subst hF; exact ⟨rfl, rfl, rfl, rfl, rfl, rfl, rfl, rfl, rfl, rfl, rfl, rfl, rfl⟩
  have hreg : X86.regNum (f.head o false) (r.idx.extractLsb' 0 3) = r.idx := by subst hF; exact mk5_idx _
  have hv : sc = none → (f.head o false).vreg = d.idx ∧ (f.head o false).nf = apxNF r (rmBase rm) (rmIndex rm) d := by
    rintro rfl; subst hF
    exact ⟨vreg_eq' _, nf_bit2 _⟩
  have hs : ∀ c, sc = some c → (f.head o false).low4 = c ∧ (f.head o false).vreg.setWidth 4 = d.idx.setWidth 4 := by
    rintro c rfl; subst hF
    exact ⟨low4_sc _, vreg_low _ _⟩
  cases rm with
  | reg q =>
    have hw' : (setModRM 3 r.idx q.idx).Gives w' () := hw'
    rw [setModRM, Enc.gives_db] at hw'
    subst hw'
    refine ⟨f.head o false, r.idx.extractLsb' 0 3, .reg (q.idx.extractLsb' 0 3), fun t => ?_, hh, hreg, ⟨_, rfl, ?_⟩, hv, hs, hok⟩
    · unfold X86.insn
      rw [hd]
      show (match X86.modrm _ _ _ (modRM 3 r.idx q.idx :: t) with | none => none | some (r, m, t) => _) = _
      rw [modrm_reg]
    · subst hF; exact mk5_idx _
  | mem a =>
    have hw' : (opAddr { a with immSize := n } r.idx).Gives w' () := hw'
    obtain ⟨⟨ha, hp, hn, ht⟩, h32, h64⟩ := ho
    have ha' : Addr.WF { a with immSize := n } := ⟨ha.exp, ha.rip, ha.kind⟩
    have hvs := opAddr_vsib hw' hp
    have hvs' : a.isVsib = false := hvs
    have hi := wf_index ha ht hvs'
    have ix := (getRegExp_index a).1
    have hH : HeadFor (f.head o false) (Addr.getRegExp { a with immSize := n }) := by
      show HeadFor (f.head o false) a.getRegExp
      refine ⟨fun _ => ⟨?_, ?_⟩, ?_, fun _ => ?_, fun h => ?_, ?_⟩
      · subst hF; rfl
      · subst hF; rfl
      · subst hF; rfl
      · subst hF; exact Bool.not_not _
      · rw [ix, not_simd hi] at h; cases h
      · rw [← is32bit_getRegExp, h32]; rfl
    obtain ⟨m, hmm, hme⟩ := opAddr_decode { a with immSize := n } ha' ht h64 r.idx (.inl hn) hw' _ hH fill
    refine ⟨f.head o false, r.idx.extractLsb' 0 3, .mem m, fun t => ?_, hh, hreg, ⟨m, rfl, hme⟩, hv, hs, hok⟩
    have hmm := hmm t
    unfold X86.insn
    rw [hd]
    dsimp only at hmm ⊢
    rw [hn, if_pos rfl, not_simd hi] at hmm
    rw [hmm]

/-! ## Instructions with a new data destination -/

/-- The decoded source is the operand. -/
def SrcIs (fill : Act → BitVec 32) (h : X86.Head) : Operand → X86.Src → Prop
  | .reg q, s => s = .gpr q.idx
  | .mem a, s => ∃ m, s = .mem m ∧ a.Means fill h m

/-- A general register of `n` bits, not ah..bh; or memory, whose size must not contradict. -/
def SizeIs (n : Nat) : Operand → Prop
  | .reg q => q.kind = .reg ∧ q.bit = n ∧ q.isHigh8bit = false
  | .mem _ => True

/-- The modifier `T_nf` on a register of the operand. -/
def opNF (op : Operand) : Bool := (rmBase op).nf || (rmIndex op).nf

theorem srcIs_rm {fill : Act → BitVec 32} {h : X86.Head} {rm : X86.RM} {op : Operand} (hr : RmIs fill h rm op) : SrcIs fill h op (X86.rmSrc h rm) := by
  cases op with
  | reg q => obtain ⟨lo, rfl, h⟩ := hr; show X86.Src.gpr _ = _; rw [h]
  | mem a => obtain ⟨m, rfl, h⟩ := hr; exact ⟨m, rfl, h⟩

/-- Types of the arithmetic instructions with three operands (xbyak_mnemonic.h 5-6, 11-12, …). -/
def AluTy (type : Ty) : Prop := type = T_NF ||| T_CODE1_IF1 ∨ type = 0

theorem aluTy_facts {type : Ty} (h : AluTy type) : mapOf type = 0 ∧ type.has (T_F2 ||| T_F3 ||| T_66) = false ∧ type.has T_W0 = false ∧
    type.has T_W1 = false ∧ type.has T_ZU = false ∧ type.has T_ND1 = false ∧ type.has T_APX = false ∧
    (type &&& T_SENTRY == 0 || type.has T_CODE1_IF1) = true := by
  rcases h with rfl | rfl <;> decide +kernel

theorem opcode_alu : ∀ (n : BitVec 3) (c : Bool), let o : Byte := n.setWidth 8 <<< 3 ||| sel c 1
    o &&& 0xC4 = 0 ∧ o.extractLsb' 3 3 = n ∧ (o &&& 1 = 0 ↔ c = false) ∧ o &&& 2 = 0 := by decide +kernel
theorem opcode_alu2 : ∀ (n : BitVec 3) (c : Bool), let o : Byte := n.setWidth 8 <<< 3 ||| 2 ||| sel c 1
    o &&& 0xC4 = 0 ∧ o.extractLsb' 3 3 = n ∧ (o &&& 1 = 0 ↔ c = false) ∧ o &&& 2 ≠ 0 := by decide +kernel

/-- The decoded size of an instruction whose register operands have `n` bits. -/
theorem apx_size {type : Ty} (h : AluTy type) {r d : Reg} {o : Byte} {nd : Bool} {hd : X86.Head} (hr : r.bit = d.bit)
    (hb : d.bit = 16 ∨ d.bit = 32 ∨ d.bit = 64) (hh : ApxHead type o (apxPP r d type) (apxW r d type) nd hd) : X86.apxBits hd = d.bit := by
  obtain ⟨_, f1, f2, f3, _⟩ := aluTy_facts h
  unfold X86.apxBits
  rw [hh.w, hh.pp, apxPP, apxW, f1, f2, f3]
  unfold Reg.isBit
  rw [hr]
  rcases hb with hb | hb | hb <;> rw [hb] <;> rfl

/-- C41: `add`, `or`, `adc`, `sbb`, `and`, `sub`, `xor` with three operands decode to the requested operation, destination, sources in the
requested order, operand size, ND and NF, for all 32 registers and every address.
Partial: the registers must have one size and must not be ah..bh, which is not checked (`c41_refuted_size`, `c41_refuted_high`); the
destination must be a general register (`c41_refuted_empty`); for `ApxOK` see there. -/
theorem c41_alu_partial (n : BitVec 3) (type : Ty) (hty : AluTy type) (d : Reg) (hdk : d.kind = .reg)
    (hdb : d.bit = 8 ∨ d.bit = 16 ∨ d.bit = 32 ∨ d.bit = 64) (op1 op2 : Operand) (h1 : SizeIs d.bit op1) (h2 : SizeIs d.bit op2)
    (o1 : ApxOK op1) (o2 : ApxOK op2) {w : List Act} {v : Bool} (hw : (opROO d op1 op2 type (n.setWidth 8 <<< 3)).Gives w v) (fill : Act → BitVec 32) :
    ∃ i : X86.Ndd, (∀ t, X86.apxAlu (concr fill w ++ t) = some (i, t)) ∧ i.op = n ∧ i.bits = d.bit ∧ i.nd = true ∧ i.dst = d.idx ∧
      i.nf = (opNF op1 || opNF op2 || d.nf) ∧ SrcIs fill i.head (op1.withImm 0) i.src1 ∧ SrcIs fill i.head (op2.withImm 0) i.src2 ∧
      (type = 0 → i.nf = false) := by
  obtain ⟨f0, f1, f2, f3, f4, f5, f6, f7⟩ := aluTy_facts hty
  have hu : rooUsed d op1 op2 type = true := by simp [rooUsed, Reg.isREG, hdk]
  have hnm := ((roo_gives d op1 op2 type _ 0 none hu w v).1 hw).1
  have hrm : ApxOK (rooRm op1 op2) := by
    cases op1 <;> cases op2 <;> first | exact o1 | exact o2
  obtain ⟨_, h, reg, rm, hdec, hh, hreg, hrm, hv, _, hok⟩ := c41_roo d op1 op2 type _ 0 none hu (.inr f0) hrm hw fill
  obtain ⟨hvr, hnf⟩ := hv rfl
  have hrb : (rooReg op1 op2).bit = d.bit := by
    cases op1 with
    | reg a =>
      cases op2 with
      | reg b => exact h2.2.1
      | mem b => exact h1.2.1
    | mem a =>
      cases op2 with
      | reg b => exact h2.2.1
      | mem b => exact absurd hnm (by simp [Operand.isMEM])
  have hbits : (if (!d.isBit 8) = false then 8 else X86.apxBits h) = d.bit := by
    unfold Reg.isBit
    rcases hdb with hb | hb
    · rw [hb]; rfl
    · rw [apx_size hty hrb hb hh]
      rcases hb with hb | hb | hb <;> rw [hb] <;> rfl
  have hmap : h.map = 4 := by rw [hh.map]; unfold apxMap; rw [f0]; rfl
  have hnd : h.nd = true := by rw [hh.nd]; unfold apxND Reg.isREG; rw [f4, f5, f6, hdk]; rfl
  have hopc : ∀ c : Byte, opc type d c = c ||| sel (!d.isBit 8) 1 := by intro c; unfold opc; rw [f7]; rfl
  have hnf0 : type = 0 → h.nf = false := by
    rintro rfl
    rw [hnf]
    rcases hok.1 with h | h
    · exact absurd h (by decide)
    · exact h
  have hr := hh.opcode
  rw [hopc] at hr
  have run : ∀ t, X86.apxAlu (concr fill w ++ t) = some (⟨h, n, d.bit, true, h.nf, d.idx,
      if h.opcode &&& 2 = 0 then X86.rmSrc h rm else .gpr (X86.regNum h reg), if h.opcode &&& 2 = 0 then .gpr (X86.regNum h reg) else X86.rmSrc h rm⟩, t) := by
    intro t
    unfold X86.apxAlu
    rw [hdec]
    dsimp only
    rw [if_neg (by rw [hh.space, hmap]; simp)]
    have hc : h.opcode &&& 0xC4 = 0 ∧ h.opcode.extractLsb' 3 3 = n ∧ (h.opcode &&& 1 = 0 ↔ (!d.isBit 8) = false) := by
      rw [hr]
      cases op1 <;> cases op2 <;> first
        | exact ⟨(opcode_alu n _).1, (opcode_alu n _).2.1, (opcode_alu n _).2.2.1⟩
        | exact ⟨(opcode_alu2 n _).1, (opcode_alu2 n _).2.1, (opcode_alu2 n _).2.2.1⟩
    rw [if_pos hc.1, hc.2.1, hnd, hvr]
    simp only [hc.2.2, hbits]
  refine ⟨_, run, rfl, rfl, rfl, rfl, ?_, ?_, ?_, hnf0⟩
  · show h.nf = _
    rw [hnf]
    unfold apxNF opNF
    cases op1 <;> cases op2 <;> simp only [rooReg, rooRm, rmBase, rmIndex, Operand.hd, Reg.nil, Bool.or_false]
    · ac_rfl
    · ac_rfl
    · ac_rfl
    · exact absurd hnm (by simp [Operand.isMEM])
  · dsimp only
    cases op1 with
    | reg a =>
      cases op2 with
      | reg b => rw [if_pos (by rw [hr]; exact (opcode_alu n _).2.2.2)]; exact srcIs_rm hrm
      | mem b => rw [if_neg (by rw [hr]; exact (opcode_alu2 n _).2.2.2), hreg]; rfl
    | mem a =>
      cases op2 with
      | reg b => rw [if_pos (by rw [hr]; exact (opcode_alu n _).2.2.2)]; exact srcIs_rm hrm
      | mem b => exact absurd hnm (by simp [Operand.isMEM])
  · dsimp only
    cases op1 with
    | reg a =>
      cases op2 with
      | reg b => rw [if_pos (by rw [hr]; exact (opcode_alu n _).2.2.2), hreg]; rfl
      | mem b => rw [if_neg (by rw [hr]; exact (opcode_alu2 n _).2.2.2)]; exact srcIs_rm hrm
    | mem a =>
      cases op2 with
      | reg b => rw [if_pos (by rw [hr]; exact (opcode_alu n _).2.2.2), hreg]; rfl
      | mem b => exact absurd hnm (by simp [Operand.isMEM])

/-- C41: the same instructions with an immediate (`opROI`). The immediate, sign-extended by the CPU, agrees with the requested one on the
operand width.  Partial: see `c41_alu_partial`. -/
theorem c41_alui_partial (n : BitVec 3) (type : Ty) (hty : AluTy type) (d : Reg) (hdk : d.kind = .reg)
    (hdb : d.bit = 8 ∨ d.bit = 16 ∨ d.bit = 32 ∨ d.bit = 64) (op : Operand) (o1 : ApxOK op) (imm : BitVec 32)
    {w : List Act} (hw : (opROI d op imm type (n.setWidth 5)).Gives w ()) (fill : Act → BitVec 32) :
    ∃ (i : X86.Ndd) (k : Nat) (v : Word), (∀ t, X86.apxAlu (concr fill w ++ t) = some (i, t)) ∧ i.op = n ∧ i.bits = d.bit ∧ i.nd = true ∧
      i.dst = d.idx ∧ i.nf = (opNF op || d.nf) ∧ SrcIs fill i.head (op.withImm k) i.src1 ∧ i.src2 = .imm v ∧
      v.setWidth d.bit = (imm.signExtend 64).setWidth d.bit ∧ ∃ w', concr fill w = w' ++ leBytes k (imm.setWidth 64) := by
  obtain ⟨f0, f1, f2, f3, f4, f5, f6, f7⟩ := aluTy_facts hty
  unfold opROI at hw
  rw [Enc.gives_bind] at hw
  obtain ⟨w0, immBit, w1, hi, hw, rfl⟩ := hw
  have hdb' : (Operand.reg d).bit = 8 ∨ (Operand.reg d).bit = 16 ∨ (Operand.reg d).bit = 32 ∨ (Operand.reg d).bit = 64 := hdb
  obtain ⟨rfl, hi'⟩ := getImmBit_gives (.reg d) imm w0 immBit hi hdb'
  have hc := immBit_cases hdb' hi'
  rw [List.nil_append]
  dsimp only at hw
  have himm : (sextLE (leBytes (immBit / 8) (imm.setWidth 64))).setWidth d.bit = (imm.signExtend 64).setWidth d.bit := by
    apply imm_value
    have hc : _ := hc
    unfold Operand.bit Operand.hd at hc
    dsimp only at hc
    rcases hc with ⟨h1, h2⟩ | ⟨h1, h2, h3⟩ | ⟨h1, h2⟩ | ⟨h1, h2, h3⟩ | ⟨h1, h2⟩ | ⟨h1, h2, h3⟩ | ⟨h1, h2⟩ <;> simp_all
  rw [Enc.gives_bind] at hw
  obtain ⟨w2, v, w3, hr, hd, rfl⟩ := hw
  rw [Enc.gives_dbN] at hd
  subst hd
  have hu : rooUsed d op (.reg (.gp (n.setWidth 5) d.bit)) type = true := by simp [rooUsed, Reg.isREG, hdk]
  have er : rooReg op (.reg (.gp (n.setWidth 5) d.bit)) = .gp (n.setWidth 5) d.bit := by cases op <;> rfl
  have em : rooRm op (.reg (.gp (n.setWidth 5) d.bit)) = op := by cases op <;> rfl
  have ec : ∀ c, rooCode op (.reg (.gp (n.setWidth 5) d.bit)) c = c := by intro c; cases op <;> rfl
  obtain ⟨_, h, reg, rm, hdec, hh, hreg, hrm, hv, _, _⟩ := c41_roo d op _ type _ (immBit / 8) none hu (.inr f0) (by rw [em]; exact o1) hr fill
  rw [er, em] at hh hv
  rw [er] at hreg
  rw [em] at hrm
  obtain ⟨hvr, hnf⟩ := hv rfl
  have ho : h.opcode = if d.bit = 8 then 0x80 else if immBit = 8 then 0x83 else 0x81 := by
    rw [hh.opcode, ec]
    unfold opc Reg.isBit
    rw [f7]
    have hc : _ := hc
    unfold Operand.bit Operand.hd at hc
    dsimp only at hc
    rcases hc with ⟨h1, h2⟩ | ⟨h1, h2, _⟩ | ⟨h1, h2⟩ | ⟨h1, h2, _⟩ | ⟨h1, h2⟩ | ⟨h1, h2, _⟩ | ⟨h1, h2⟩ <;> rw [h1, h2] <;> decide
  have hmap : h.map = 4 := by rw [hh.map]; unfold apxMap; rw [f0]; rfl
  have hnd : h.nd = true := by rw [hh.nd]; unfold apxND Reg.isREG; rw [f4, f5, f6, hdk]; rfl
  have hreg : reg = n := mk5_digit _ _ _ _ hreg
  have hsz : d.bit ≠ 8 → X86.apxBits h = d.bit := fun h8 => apx_size hty rfl (by omega) hh
  refine ⟨⟨h, n, d.bit, true, h.nf, d.idx, X86.rmSrc h rm, .imm (sextLE (leBytes (immBit / 8) (imm.setWidth 64)))⟩, immBit / 8, _,
    fun t => ?_, rfl, rfl, rfl, rfl, ?_, srcIs_rm hrm, rfl, himm, ?_⟩
  · rw [concr_append, concr_bytes, List.append_assoc]
    unfold X86.apxAlu
    rw [hdec]
    dsimp only
    rw [if_neg (by rw [hh.space, hmap]; simp), hnd, hvr, hreg, ho]
    have hc : _ := hc
    unfold Operand.bit Operand.hd at hc
    dsimp only at hc
    rcases hc with ⟨h1, h2⟩ | ⟨h1, h2, _⟩ | ⟨h1, h2⟩ | ⟨h1, h2, _⟩ | ⟨h1, h2⟩ | ⟨h1, h2, _⟩ | ⟨h1, h2⟩ <;>
      (try rw [hsz (by omega)]) <;> rw [h1, h2] <;> simp [imm_append]
  · show h.nf = _
    rw [hnf]
    unfold apxNF opNF
    show (false || _ || _ || _) = _
    rw [Bool.false_or]
  · exact ⟨concr fill w2, by rw [concr_append, concr_bytes]⟩

/-! ### Examples and counterexamples -/

/-- `add(r31d, r20d, r8d | T_nf)`: 62 7C 04 14 01 C4 -/
example : (opROO (.gp 31 32) (.reg (.gp 20 32)) (.reg (Reg.gp 8 32).setNF) (T_NF ||| T_CODE1_IF1) 0).acts =
    [.byte 0x62, .byte 0x7C, .byte 0x04, .byte 0x14, .byte 0x01, .byte 0xC4] := by decide +kernel

/-- `sub(rcx, r9, ptr [r17 + r30*4 + 8])`: 62 3C F0 18 2B 4C B1 08 -/
example : ∃ a, Term.addr (.add (.add (.reg (.gp 17 64)) (.scaled (.gp 30 64) 4)) (.const 8)) 0 false = .ok a ∧
    (opROO (.gp 1 64) (.reg (.gp 9 64)) (.mem a) (T_NF ||| T_CODE1_IF1) 0x28).acts =
      [.byte 0x62, .byte 0x3C, .byte 0xF0, .byte 0x18, .byte 0x2B, .byte 0x4C, .byte 0xB1, .byte 8] := ⟨_, rfl, by decide +kernel⟩

/-- C41 does not hold in full: operand sizes are not compared; `add(rax, ecx, dl)` is accepted and encodes `add rax, rcx, rdx`. -/
theorem c41_refuted_size : (opROO (.gp 0 64) (.reg (.gp 1 32)) (.reg (.r8 2)) (T_NF ||| T_CODE1_IF1) 0).res = .ok true ∧
    (opROO (.gp 0 64) (.reg (.gp 1 32)) (.reg (.r8 2)) (T_NF ||| T_CODE1_IF1) 0).acts =
    (opROO (.gp 0 64) (.reg (.gp 1 64)) (.reg (.gp 2 64)) (T_NF ||| T_CODE1_IF1) 0).acts := ⟨rfl, by decide +kernel⟩

/-- C41 does not hold in full: `add(cl, ah, dl)` is accepted; the byte register 4 of an extended EVEX instruction is spl. -/
theorem c41_refuted_high : (Reg.r8 4).isHigh8bit = true ∧ ∃ bs i,
    opROO (.r8 1) (.reg (.r8 4)) (.reg (.r8 2)) (T_NF ||| T_CODE1_IF1) 0 = ⟨bs.map .byte, .ok true⟩ ∧
    X86.apxAlu bs = some (i, []) ∧ i.bits = 8 ∧ i.src1 = .gpr 4 ∧ X86.reg8 i.head 4 = .low 4 :=
  ⟨rfl, [0x62, 0xF4, 0x74, 0x18, 0x00, 0xD4], _, rfl, rfl, rfl, rfl, rfl⟩

/-- C41 does not hold in full: a destination that is not a general register is accepted and nothing is emitted (`add(xmm0, rax, rcx)`). -/
theorem c41_refuted_empty : opROO (.xmm 0) (.reg (.gp 0 64)) (.reg (.gp 1 64)) (T_NF ||| T_CODE1_IF1) 0 = ⟨[], .ok false⟩ ∧
    opROI (.xmm 0) (.reg (.gp 0 64)) 5 (T_NF ||| T_CODE1_IF1) 0 = ⟨[.byte 5], .ok ()⟩ := ⟨rfl, rfl⟩

/-- C41 does not hold in full: the address size prefix is missing; `add(eax, ecx, ptr [edx])` reads `[rdx]`. -/
theorem c41_refuted_addr32 : ∃ a b, Term.addr (.reg (.gp 2 32)) 0 false = .ok a ∧ Term.addr (.reg (.gp 2 64)) 0 false = .ok b ∧
    (opROO (.gp 0 32) (.reg (.gp 1 32)) (.mem a) (T_NF ||| T_CODE1_IF1) 0).res = .ok true ∧
    (opROO (.gp 0 32) (.reg (.gp 1 32)) (.mem a) (T_NF ||| T_CODE1_IF1) 0).acts =
    (opROO (.gp 0 32) (.reg (.gp 1 32)) (.mem b) (T_NF ||| T_CODE1_IF1) 0).acts := ⟨_, _, rfl, rfl, rfl, by decide +kernel⟩

/-- C41 does not hold in full: with a 64-bit absolute address nothing follows the opcode (`add(eax, ecx, ptr [0x123456789abc])`). -/
theorem c41_refuted_disp64 : ∃ (a : Addr), a.WF ∧ a.mode = .disp64 ∧
    opROO (.gp 0 32) (.reg (.gp 1 32)) (.mem a) (T_NF ||| T_CODE1_IF1) 0 =
      ⟨[.byte 0x62, .byte 0xF4, .byte 0x7C, .byte 0x18, .byte 0x03], .ok true⟩ := by
  refine ⟨{ o := { idx := 0, ext8 := false, kind := .mem, bit := 0 }, e := { base := .nil, index := .nil, scale := 0, disp := 0x123456789abc }, mode := .disp64 }, ⟨fun h => ?_, fun _ => ⟨rfl, rfl⟩, rfl⟩, rfl, rfl⟩
  cases h

end Xbyak
