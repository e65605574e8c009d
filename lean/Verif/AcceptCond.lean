import Verif.AcceptApx
import Verif.Props.CondTable
/-!
# Which calls of shifts, one-operand arithmetic and conditional instructions with APX operands are accepted

The helpers of xbyak.h 2274-2307, 2375-2396 and 2746-2782 lead to `opROO`, whose acceptance is `opROO_ok`.
-/
set_option linter.unusedSimpArgs false
namespace Xbyak
open E
open Enc
namespace Mn

/-- A general register of `n` bits, or memory of `n` bits or of no given size; NF only if `nf`. -/
def GpIs (nf : Bool) (n : Nat) : Operand → Prop
  | .reg q => q.kind = .reg ∧ q.bit = n ∧ q.zu = false ∧ (q.nf = true → nf = true)
  | .mem a => AddrA a ∧ (a.o.bit = n ∨ a.o.bit = 0)

variable {nf : Bool} {n : Nat} {op : Operand} {d : Reg}

theorem GpIs.plain (h : GpIs nf n op) : PlainOp nf op := by
  cases op with
  | reg q => exact ⟨h.2.2.1, h.2.2.2⟩
  | mem a => exact h.1

theorem GpIs.bits (h : GpIs nf n op) : op.bit = n ∨ (op.bit = 0 ∧ op.isMEM = true) := by
  cases op with
  | reg q => exact .inl h.2.1
  | mem a => exact h.2.imp id fun h => ⟨h, rfl⟩

theorem plain_gp (i : BitVec 5) (b : Nat) : PlainOp nf (.reg (.gp i b)) := ⟨rfl, fun h => by cases h⟩

theorem isREG_of (h : d.kind = .reg) : d.isREG = true := by unfold Reg.isREG; rw [h]; rfl

theorem plain_dfv (v : Int) (b : Nat) : PlainOp nf (.reg (dfvReg v b)) := plain_gp _ b

theorem rooUsed_d (h : d.isREG = true) (a b : Operand) (t : Ty) : rooUsed d a b t = true := by unfold rooUsed; rw [h]; simp

theorem rooUsed_t {t : Ty} (h : t.has T_MUST_EVEX = true) (d : Reg) (a b : Operand) : rooUsed d a b t = true := by unfold rooUsed; rw [h]; rfl

/-- `opRext` in its extended EVEX form -/
theorem opRext_apx {t : Ty} {d : Option Reg} (ha : t.has T_APX = true) (hq : d.isSome = true ∨ op.hasRex2NFZU = true) (hd : ∀ q, d = some q → q.kind = .reg ∧ PlainOp nf (.reg q))
    (hop : PlainOp nf op) (ht : nf = true → t.has T_NF = true) (bit : Nat) (x : BitVec 5) (c : Byte) (dr : Bool) (k : Nat) : (opRext op bit x t c dr k d).res = .ok () := by
  unfold opRext
  have hq' : (t.has T_APX && (d.isSome || op.hasRex2NFZU)) = true := by
    rw [ha]; rcases hq with h | h <;> rw [h] <;> simp
  have hD : ∀ m, (d.getD (.gp 0 m)).isREG = true ∧ PlainOp nf (.reg (d.getD (.gp 0 m))) := by
    intro m
    cases d with
    | none => exact ⟨rfl, plain_gp 0 m⟩
    | some q => exact ⟨isREG_of (hd q rfl).1, (hd q rfl).2⟩
  simp only [hq', if_true]
  encres
  rw [opROO_ok (hD _).2 hop (plain_gp _ _) ht (by simp [Operand.isMEM]) (rooUsed_d (hD _).1 _ _ _)]
  rfl

/-! ## Shifts -/

theorem shiftType_has (x : BitVec 4) (d : Option Reg) : (shiftType x d).has T_APX = true ∧ (x.getLsbD 3 = true → (shiftType x d).has T_NF = true) := by
  have h : ∀ (x : BitVec 4) (b : Bool), (((T_APX ||| T_CODE1_IF1) ||| (if x &&& 8 ≠ 0 then T_NF else 0) ||| (if b = true then T_ND1 else 0) : Ty).has T_APX = true) ∧
      (x.getLsbD 3 = true → ((T_APX ||| T_CODE1_IF1) ||| (if x &&& 8 ≠ 0 then T_NF else 0) ||| (if b = true then T_ND1 else 0) : Ty).has T_NF = true) := by decide +kernel
  exact h x d.isSome

/-- What a shift asks for: a destination, or an operand that needs the extended form. -/
structure ShiftAsk (nf : Bool) (n : Nat) (d : Option Reg) (op : Operand) : Prop where
  src : GpIs nf n op
  dst : ∀ q, d = some q → GpIs nf n (.reg q)
  asks : d = none → op.hasRex2NFZU = true ∧ op.bit = n

theorem ShiftAsk.size {d : Option Reg} (h : ShiftAsk nf n d op) : shiftSizeBad op d = false := by
  unfold shiftSizeBad
  cases d with
  | none => rfl
  | some q =>
    have hq := (h.dst q rfl).2.1
    dsimp only
    rw [hq]
    rcases h.src.bits with e | ⟨e, _⟩ <;> rw [e] <;> simp

theorem ShiftAsk.rext {d : Option Reg} (h : ShiftAsk nf n d op) {x : BitVec 4} (hx : nf = true → x.getLsbD 3 = true) (y : BitVec 5) (c : Byte) (k : Nat) :
    (opRext op 0 y (shiftType x d) c false k d).res = .ok () := by
  refine opRext_apx (nf := nf) (shiftType_has x d).1 ?_ (fun q e => ⟨(h.dst q e).1, (h.dst q e).plain⟩) h.src.plain (fun e => (shiftType_has x d).2 (hx e)) _ _ _ _ _
  cases hd : d with
  | none => exact .inr (h.asks hd).1
  | some q => exact .inl rfl

theorem opShiftI_ok {d : Option Reg} (h : ShiftAsk nf n d op) (hn : n ≠ 0) {x : BitVec 4} (hx : nf = true → x.getLsbD 3 = true) (imm : BitVec 32) : (opShiftI op imm x d).res = .ok () := by
  unfold opShiftI
  have hv : d = none → (verifyMemHasSize op).res = .ok () := by
    intro e
    unfold verifyMemHasSize
    encres
    rw [(h.asks e).2, show (n == 0) = false from beq_eq_false_iff_ne.2 hn, Bool.and_false]
    rfl
  cases d with
  | none =>
    encres
    simp only [Option.isNone, if_true]
    rw [hv rfl, h.size, h.rext hx]
    simp [ok_bind]
  | some q =>
    encres
    simp only [Option.isNone]
    rw [h.size, h.rext hx]
    simp [ok_bind]

theorem opShiftCL_ok {d : Option Reg} (h : ShiftAsk nf n d op) {x : BitVec 4} (hx : nf = true → x.getLsbD 3 = true) {cl : Reg} (hc : cl.idx = 1) : (opShiftCL op cl x d).res = .ok () := by
  unfold opShiftCL
  encres
  rw [h.size, h.rext hx, hc]
  rfl

/-! ## INC, DEC -/

theorem opIncDec_ok (hd : GpIs true n (.reg d)) (hop : GpIs true n op) (x : BitVec 5) : (opIncDec d op x).res = .ok () := by
  unfold opIncDec
  rw [if_pos (isREG_of hd.1)]
  encres
  rw [opROO_ok hd.plain hop.plain (plain_gp _ _) (fun _ => by cases d.isBit 16 <;> decide) (by simp [Operand.isMEM]) (rooUsed_d (isREG_of hd.1) _ _ _)]
  rfl

/-! ## SETcc -/

/-- A register of 8 bits with a number of 16 or more or with ZU, or memory with such registers. -/
structure SetAsk (op : Operand) : Prop where
  shape : match op with | .reg q => q.kind = .reg ∧ q.bit = 8 ∧ q.nf = false | .mem a => AddrA a
  asks : op.hasRex2NFZU = true

theorem opSetCC_ok (h : SetAsk op) (x : Byte) : (opSetCC op x).res = .ok () := by
  suffices hs : (opROO .nil op (.reg .nil) (T_APX ||| T_ZU ||| T_F2) (0x40 ||| x)).res = .ok true by
    unfold opSetCC
    encres
    rw [hs]
    rfl
  have ha := h.asks
  have hs := h.shape
  unfold opROO
  rw [if_neg (by rw [ha]; simp)]
  cases op with
  | reg q =>
    enccases
    rw [evexLeg_ok (r := (Operand.reg .nil).hd) (b := (Operand.reg q).hd) (x := .nil) (v := .nil)
      (by intro hn; have : q.nf = false := hs.2.2; change (false || q.nf || false || false) = true at hn; rw [this] at hn; cases hn) rfl]
    simp only [ok_bind, writeCode_res, setModRM_res]
  | mem a =>
    have hs : AddrA a := hs
    enccases
    rw [evexLeg_ok (r := (Operand.reg .nil).hd) (b := a.getRegExp.base) (x := a.getRegExp.index) (v := .nil) (by rw [hs.nf.1, hs.nf.2]; intro hn; cases hn) rfl]
    simp only [ok_bind, writeCode_res, AddrA.opAddr hs]

/-! ## CFCMOVcc -/

/-- Two operands: one of them may be memory. -/
theorem opCfcmov2_ok {a b : Operand} (h8 : n = 16 ∨ n = 32 ∨ n = 64) (ha : GpIs false n a) (hb : GpIs false n b) (hm : (a.isMEM && b.isMEM) = false) (c : Byte) :
    (opCfcmov .nil a b c).res = .ok () := by
  have hn8 : (a.isBit 8 || b.bit == 8) = false := by
    have h1 : a.isBit 8 = false := by
      show (a.bit &&& 8 != 0) = false
      rcases ha.bits with e | ⟨e, _⟩ <;> rw [e]
      · rcases h8 with e | e | e <;> rw [e] <;> rfl
      · rfl
    have h2 : (b.bit == 8) = false := by
      rcases hb.bits with e | ⟨e, _⟩ <;> rw [e]
      · rcases h8 with e | e | e <;> rw [e] <;> rfl
      · rfl
    rw [h1, h2]; rfl
  have hs : (decide (Reg.nil.bit > 0) && decide (b.bit > 0) && Reg.nil.bit != b.bit) = false := by
    rw [show decide (Reg.nil.bit > 0) = false from rfl]; rfl
  unfold opCfcmov
  encres
  rw [hn8, hs]
  simp only [ok_bind, cond_false]
  cases b with
  | mem b =>
    have hA : a.isMEM = false := by simpa [Operand.isMEM] using hm
    rw [hA]
    have := opROO_ok (d := .nil) (a := .mem b) (b := a) (t := T_MUST_EVEX) (nf := false) ⟨rfl, fun h => by cases h⟩ hb.plain ha.plain (fun h => by cases h)
      (by rw [hA]; rfl) (rooUsed_t (by decide) _ _ _) c 0 none
    encres
    simp only [show ¬ Reg.nil.bit > 0 by decide, if_false]
    rw [this]
    rfl
  | reg r =>
    have hr : PlainOp true (.reg r.setNF) := ⟨hb.2.2.1, fun _ => rfl⟩
    have hA : PlainOp true a := by
      have := ha.plain
      cases a with
      | reg q => exact ⟨this.1, fun h => rfl⟩
      | mem q => exact this
    have := opROO_ok (d := .nil) (a := a) (b := .reg r.setNF) (t := T_MUST_EVEX ||| T_NF) (nf := true) ⟨rfl, fun h => by cases h⟩ hA hr (fun _ => by decide)
      (by simp [Operand.isMEM]) (rooUsed_t (by decide) _ _ _) c 0 none
    encres
    rw [this]
    rfl

/-- Three operands: a destination, a register, a register or memory. -/
theorem opCfcmov3_ok {r : Reg} {b : Operand} (h8 : n = 16 ∨ n = 32 ∨ n = 64) (hd : GpIs false n (.reg d)) (hr : GpIs false n (.reg r)) (hb : GpIs false n b) (c : Byte) :
    (opCfcmov d.setNF b (.reg r) c).res = .ok () := by
  have hn8 : (b.isBit 8 || (Operand.reg r).bit == 8) = false := by
    have h1 : b.isBit 8 = false := by
      show (b.bit &&& 8 != 0) = false
      rcases hb.bits with e | ⟨e, _⟩ <;> rw [e]
      · rcases h8 with e | e | e <;> rw [e] <;> rfl
      · rfl
    have h2 : ((Operand.reg r).bit == 8) = false := by
      rw [show (Operand.reg r).bit = n from hr.2.1]
      rcases h8 with e | e | e <;> rw [e] <;> rfl
    rw [h1, h2]; rfl
  have hs : (decide (d.setNF.bit > 0) && decide ((Operand.reg r).bit > 0) && d.setNF.bit != (Operand.reg r).bit) = false := by
    rw [show d.setNF.bit = n from hd.2.1, show (Operand.reg r).bit = n from hr.2.1]; simp
  unfold opCfcmov
  encres
  rw [hn8, hs]
  simp only [ok_bind, cond_false]
  have hB : PlainOp true b := by
    have := hb.plain
    cases b with
    | reg q => exact ⟨this.1, fun h => rfl⟩
    | mem q => exact this
  have := opROO_ok (d := d.setNF) (a := b) (b := .reg r.setNF) (t := T_MUST_EVEX ||| T_NF) (nf := true) ⟨hd.2.2.1, fun _ => rfl⟩ hB ⟨hr.2.2.1, fun _ => rfl⟩ (fun _ => by decide)
    (by simp [Operand.isMEM]) (rooUsed_t (by decide) _ _ _) c 0 none
  rw [this]
  rfl

/-! ## CCMPcc, CTESTcc -/

theorem opCcmp_ok {a b : Operand} (ha : GpIs false n a) (hb : GpIs false n b) (hm : (a.isMEM && b.isMEM) = false) {v : Int} (hv : 0 ≤ v ∧ v ≤ 15) (c : Byte) (sc : BitVec 4) :
    (opCcmp a b v c sc).res = .ok () := by
  unfold opCcmp
  encres
  rw [opROO_ok (nf := false) (plain_dfv _ _) ha.plain hb.plain (fun h => by cases h) hm (rooUsed_d rfl _ _ _), decide_eq_false (by omega)]
  rfl

/-- The immediate fits an operand whose size is known. -/
theorem getImmBit_op {o : Operand} (hb : o.bit = 8 ∨ o.bit = 16 ∨ o.bit = 32 ∨ o.bit = 64) {imm : BitVec 32}
    (hi : o.bit = 16 → -(2 ^ 15 : Int) ≤ imm.toInt ∧ imm.toInt < 2 ^ 16) : ∃ k, (getImmBit o imm).res = .ok k := by
  obtain ⟨k, hk⟩ := getImmBit_ok (d := .gp 0 o.bit) hb hi
  refine ⟨k, hk ▸ ?_⟩
  have h0 : (o.bit == 0) = false := by rcases hb with e | e | e | e <;> rw [e] <;> rfl
  unfold getImmBit verifyMemHasSize
  encres
  rw [show (Operand.reg (.gp 0 o.bit)).bit = o.bit from rfl, h0, Bool.and_false, Bool.and_false]
  rfl

theorem opCcmpi_ok (hn : n = 8 ∨ n = 16 ∨ n = 32 ∨ n = 64) (hop : GpIs false n op) (hs : op.bit = n) {imm : BitVec 32}
    (hi : n = 16 → -(2 ^ 15 : Int) ≤ imm.toInt ∧ imm.toInt < 2 ^ 16) {v : Int} (hv : 0 ≤ v ∧ v ≤ 15) (sc : BitVec 4) : (opCcmpi op imm v sc).res = .ok () := by
  obtain ⟨k, hk⟩ := getImmBit_op (o := op) (hs ▸ hn) (hs ▸ hi)
  unfold opCcmpi
  encres
  rw [hk, decide_eq_false (by omega)]
  simp only [ok_bind, cond_false]
  rw [opROO_ok (nf := false) (plain_dfv _ _) hop.plain (plain_gp _ _) (fun h => by cases h) (by simp [Operand.isMEM]) (rooUsed_d rfl _ _ _)]
  rfl

theorem opTesti_ok (hn : n = 8 ∨ n = 16 ∨ n = 32 ∨ n = 64) (hop : GpIs false n op) (hs : op.bit = n) (imm : BitVec 32) {v : Int} (hv : 0 ≤ v ∧ v ≤ 15) (sc : BitVec 4) :
    (opTesti op imm v sc).res = .ok () := by
  unfold opTesti
  encres
  rw [decide_eq_false (by omega), opROO_ok (nf := false) (plain_dfv _ _) hop.plain (plain_gp _ _) (fun h => by cases h) (by simp [Operand.isMEM]) (rooUsed_d rfl _ _ _)]
  rw [hs, show (n == 0) = false by rcases hn with e | e | e | e <;> rw [e] <;> rfl]
  rfl

/-! ## From a table entry to a call -/

/-- An entry with these parameters that runs one helper. -/
theorem leaf_calls {e : Entry} {l : Leaf} (he : e ∈ all) (hb : e.body = .leaf l) {g : Args} (hl : (e.params.filter Param.isOperand).length = g.ops.length)
    (ht : (((e.params.filter Param.isOperand).zip g.ops).all fun p => p.1.takes p.2) = true) (hr : (l.run g).res = .ok ()) : ∃ w, Calls e g w := by
  apply Entry.accepts_calls he
  unfold Entry.accepts
  have hm : e.body.run g = some (l.run g) := by rw [hb]; rfl
  rw [hm, ht]
  simp only [hr, Bool.and_true, decide_eq_true_eq]
  omega

end Mn
end Xbyak
