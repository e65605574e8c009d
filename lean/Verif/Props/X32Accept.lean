import Verif.Props.X32
/-!
# C93: the documented operands are accepted by the 32-bit build
-/
namespace Xbyak.E32
open E (modRM sel getImmBit verifyMemHasSize)
open Enc (Gives)

/-- The call returns normally. -/
def Takes (e : Enc Unit) : Prop := ∃ w, e.Gives w ()

theorem takes_throwIf {c : Bool} {e : Err} {f : Unit → Enc Unit} : Takes (Enc.throwIf c e >>= f) ↔ c = false ∧ Takes (f ()) := by
  unfold Takes
  simp only [Enc.throwIf_bind]
  constructor
  · rintro ⟨w, h, h'⟩; exact ⟨h, w, h'⟩
  · rintro ⟨h, w, h'⟩; exact ⟨w, h, h'⟩

theorem takes_bind {e : Enc Unit} {f : Unit → Enc Unit} : Takes (e >>= f) ↔ Takes e ∧ Takes (f ()) := by
  unfold Takes
  simp only [Enc.gives_bind]
  constructor
  · rintro ⟨w, w1, _, w2, h1, h2, rfl⟩; exact ⟨⟨_, h1⟩, ⟨_, h2⟩⟩
  · rintro ⟨⟨w1, h1⟩, ⟨w2, h2⟩⟩; exact ⟨_, _, _, _, h1, h2, rfl⟩

theorem takes_throw1 {c : Bool} {e : Err} : Takes (Enc.throwIf c e) ↔ c = false := by
  unfold Takes
  simp only [Enc.gives_throwIf]
  exact ⟨fun ⟨_, h, _⟩ => h, fun h => ⟨_, h, rfl⟩⟩

@[simp] theorem takes_db {b : Byte} : Takes (Enc.db b) := ⟨_, Enc.gives_db.2 rfl⟩
@[simp] theorem takes_dbN {v : Word} {n : Nat} : Takes (Enc.dbN v n) := ⟨_, Enc.gives_dbN.2 rfl⟩
@[simp] theorem takes_dbIf {c : Bool} {b : Byte} : Takes (Enc.dbIf c b) := ⟨_, Enc.gives_dbIf.2 rfl⟩
theorem takes_rexnil {r : Reg} (hr : R32 r) : Takes (rex (.reg r) (.reg .nil) 0) := ⟨_, (rex_nil hr _).2 rfl⟩
theorem takes_rr {r q : Reg} (hr : R32 r) (hq : R32 q) : Takes (rex (.reg r) (.reg q) 0) := ⟨_, (rex_rr r q hr.plain hq.plain 0 (by decide) (by decide) _).2 rfl⟩
theorem takes_rm {r : Reg} {a : Addr} (hr : R32 r) (ha : Ok (.mem a)) : Takes (rex (.reg r) (.mem a) 0) :=
  ⟨_, (rex_rm a r ha.1 hr.plain 0 (by decide) (by decide) _).2 rfl⟩
theorem takes_mr {r : Reg} {a : Addr} (hr : R32 r) (ha : Ok (.mem a)) (ty : Ty) (f2 : ty.has T_F2 = false) (f3 : ty.has T_F3 = false) :
    Takes (rex (.mem a) (.reg r) ty) := ⟨_, (rex_mr a r ha.1 hr.plain ty f2 f3 _).2 rfl⟩
theorem takes_addr {a : Addr} (ha : Ok (.mem a)) (i : BitVec 5) : Takes (opAddr a i) := ⟨_, (opAddr_gives ha.1 _ _).2 rfl⟩
theorem takes_rext {op : Operand} (hop : Ok op) {bit : Nat} (hb : (op.isMEM || op.isREG bit) = true) (ext : BitVec 5) (he : ext.toNat < 8) (ty : Ty) (h : Flat ty)
    (h' : Flat (ty ||| T_ALLOW_ABCDH)) (code : Byte) : Takes (opRext op bit ext ty code) := ⟨_, (opRext_flat hop bit ext he ty h h' code _).2 ⟨hb, rfl⟩⟩

theorem rm_any {op : Operand} (hop : Ok op) : (op.isMEM || op.isREG 0) = true := by
  cases op with
  | mem a => rfl
  | reg r => simp [Operand.isMEM, Operand.isREG, Operand.hd, Reg.isREG, (show R32 r from hop).kind]

theorem has_size {op : Operand} (h : op.bit ≠ 0) : (op.isMEM && op.bit == 0) = false := by simp [h]

theorem reg_isREG {r : Reg} (hr : R32 r) : r.isREG = true := by simp [Reg.isREG, hr.kind]

/-- mov -/
theorem c93_mov_accepts {op1 op2 : Operand} (h1 : Ok op1) (h2 : Ok op2) (hm : (op1.isMEM && op2.isMEM) = false) {bits : Nat} (s1 : Sized bits op1) (s2 : Sized bits op2) :
    Takes (mov op1 op2) := by
  have main := (c93_alu_accepts h1 h2 0x88).2 ⟨hm, bits, s1, s2⟩
  cases op1 with
  | reg r =>
    cases op2 with
    | reg q => exact main
    | mem a =>
      simp only [mov]
      split
      · simp only [takes_bind, takes_db, takes_dbN, and_true]
        exact takes_rm h1 h2
      · exact main
  | mem a =>
    cases op2 with
    | mem b => exact main
    | reg r =>
      simp only [mov]
      split
      · simp only [takes_bind, takes_db, takes_dbN, and_true]
        exact takes_rm h2 h1
      · exact main

/-- test -/
theorem c93_test_accepts {op : Operand} {r : Reg} (h1 : Ok op) (h2 : R32 r) (s : Sized r.bit op) : Takes (test op r) := by
  refine (c93_alu_accepts h1 (show Ok (.reg r) from h2) 0x84).2 ⟨by cases op <;> rfl, r.bit, s, .inl rfl⟩

/-- xchg -/
theorem c93_xchg_accepts {op1 op2 : Operand} (h1 : Ok op1) (h2 : Ok op2) (hm : (op1.isMEM && op2.isMEM) = false) {bits : Nat} (s1 : Sized bits op1) (s2 : Sized bits op2) :
    Takes (xchg op1 op2) := by
  have key : ∀ {r : Reg} {o : Operand}, R32 r → Ok o → Sized bits (.reg r) → Sized bits o →
      Takes (opRO r o 0 (0x86 ||| sel (!(Operand.reg r).isBit 8) 1) (r.isREG && r.bit == o.bit)) := by
    intro r o hr ho s1 s2
    have e1 : r.bit = bits := s1.resolve_right (by rintro ⟨h, _⟩; cases h)
    have := (c93_alu_accepts ho (show Ok (.reg r) from hr) (0x86 ||| sel (!(Operand.reg r).isBit 8) 1)).2 ⟨by cases o <;> rfl, bits, s2, s1⟩
    cases o with
    | mem a => exact this
    | reg q =>
      have e2 : q.bit = bits := s2.resolve_right (by rintro ⟨h, _⟩; cases h)
      have hc : (r.isREG && r.bit == (Operand.reg q).bit) = true := by simp [reg_isREG hr, Operand.bit, Operand.hd, e1, e2]
      have hk : (q.kind == r.kind) = true := by rw [hr.kind, (show R32 q from ho).kind]; rfl
      rw [hc]
      have this : Takes (opRO r (.reg q) 0 (0x86 ||| sel (!(Operand.reg r).isBit 8) 1) (q.kind == r.kind)) := this
      rwa [hk] at this
  unfold xchg
  cases op1 with
  | reg r =>
    have hr : R32 r := h1
    cases op2 with
    | reg q =>
      have hq : R32 q := h2
      by_cases hf : (q.isREG 48 && q.idx == 0) = true
      · simp only [Operand.isMEM, Bool.false_or, Operand.isREG, Operand.hd, hf, if_true, true_and, reg_isREG hr, Bool.true_and, takes_bind, takes_throw1, takes_db, and_true]
        exact takes_rr hr hq
      · simp only [Operand.isMEM, Bool.false_or, Operand.isREG, Operand.hd, hf, if_false, takes_throwIf, true_and, reg_isREG hr, Bool.true_and, Bool.false_eq_true]
        split
        · simp only [takes_bind, takes_db, and_true]
          exact takes_rr hq hr
        · have := key hq h1 s2 s1
          simp only [reg_isREG hq, if_true]
          simp only [reg_isREG hq] at this
          exact this
    | mem a =>
      have km : a.o.isREG = false := by simp [Reg.isREG, h2.1.kind]
      have km' : a.o.isREG 48 = false := by simp [Reg.isREG, h2.1.kind]
      simp only [Operand.isMEM, Bool.false_or, Operand.isREG, Operand.hd, km, km', Bool.false_and, Bool.and_false, Bool.false_eq_true, if_false, takes_throwIf, true_and]
      exact key hr h2 s1 s2
  | mem a =>
    have km : a.o.isREG = false := by simp [Reg.isREG, h1.1.kind]
    cases op2 with
    | reg r =>
      have hr : R32 r := h2
      simp only [Operand.isMEM, Bool.true_or, if_true, Operand.isREG, Operand.hd, km, Bool.false_and, Bool.and_false, Bool.false_eq_true, if_false, takes_throwIf, true_and]
      exact key hr h1 s2 s1
    | mem b => cases hm

/-- lea -/
theorem c93_lea_accepts {r : Reg} {a : Addr} (hr : R32 r) (ha : Ok (.mem a)) (hb : r.bit = 16 ∨ r.bit = 32) (hs : a.o.bit = 0 ∨ a.o.bit = r.bit) : Takes (lea r a) := by
  unfold lea
  rw [takes_throwIf]
  refine ⟨by unfold Reg.isBit; rcases hb with e | e <;> rw [e] <;> rfl, ?_⟩
  exact (c93_alu_accepts ha (show Ok (.reg r) from hr) 0x8D).2 ⟨rfl, r.bit, hs.elim (fun h => .inr ⟨rfl, h⟩) .inl, .inl rfl⟩

/-- movzx, movsx -/
theorem c93_movxx_accepts {r : Reg} {op : Operand} (hr : R32 r) (hop : Ok op) (code : Byte) (h : op.bit < r.bit) : Takes (opMovxx r op code) := by
  have hb := hr.bit
  have ob := hop.bit
  unfold opMovxx
  simp only [takes_throwIf]
  refine ⟨?_, by simp [reg_isREG hr, h], ?_⟩
  · show (op.bit &&& 32 != 0) = false
    have : op.bit = 0 ∨ op.bit = 8 ∨ op.bit = 16 := by omega
    rcases this with e | e | e <;> rw [e] <;> rfl
  · have wc : ∀ c : Byte, Takes (E.writeCode (T_0F ||| T_ALLOW_DIFF_SIZE) r c false) := by
      intro c
      unfold E.writeCode
      simp [takes_bind]
    cases op with
    | mem a =>
      simp only [opRO, opMR, takes_throw1, takes_bind]
      exact ⟨by simp [show Ty.has (T_0F ||| T_ALLOW_DIFF_SIZE) T_ALLOW_DIFF_SIZE = true from by decide], takes_mr hr hop _ (by decide) (by decide), wc _, takes_addr hop _⟩
    | reg q =>
      have hq : R32 q := hop
      have bad : ∀ a b : Reg, R32 b → E.isBadCombination a b = false := by
        intro a b hb
        have := hb.idx
        simp [E.isBadCombination, hb.ext8]
        intro _; omega
      simp only [opRO, opRR, takes_throw1, takes_bind, E.setModRM, takes_db, and_true, Bool.not_true, true_and]
      exact ⟨by simp [show Ty.has (T_0F ||| T_ALLOW_DIFF_SIZE) T_ALLOW_DIFF_SIZE = true from by decide], by simp [bad r q hq, bad q r hr],
        ⟨_, (rex_rr q r hq.plain hr.plain _ (by decide) (by decide) _).2 rfl⟩, wc _⟩

/-- not, neg, mul, imul, div, idiv -/
theorem c93_unary_accepts {op : Operand} (hop : Ok op) (n : BitVec 3) : Takes (unary op n) := by
  have fl : ∀ e : Ty, e = 0 ∨ e = T_NF → Flat (T_APX ||| e ||| T_CODE1_IF1) ∧ Flat (T_APX ||| e ||| T_CODE1_IF1 ||| T_ALLOW_ABCDH) := by
    rintro e (rfl | rfl) <;> constructor <;> constructor <;> decide
  have hf := fl (if n = 2 then 0 else T_NF) (by split <;> simp)
  exact takes_rext hop (rm_any hop) _ ((by decide +kernel : ∀ n : BitVec 3, (n.setWidth 5).toNat < 8) n) _ hf.1 hf.2 _

/-- shifts and rotates -/
theorem c93_shift_accepts {op : Operand} (hop : Ok op) (ext : BitVec 4) (imm : BitVec 32) {cl : Reg} (hcl : cl.idx = 1) :
    (op.bit ≠ 0 → Takes (opShiftI op imm ext)) ∧ Takes (opShiftCL op cl ext) := by
  have fl : Flat (E.shiftType ext none) ∧ Flat (E.shiftType ext none ||| T_ALLOW_ABCDH) := by
    have : E.shiftType ext none = (T_APX ||| T_CODE1_IF1) ||| T_NF ||| 0 ∨ E.shiftType ext none = (T_APX ||| T_CODE1_IF1) ||| 0 ||| 0 := by
      unfold E.shiftType; split <;> simp
    rcases this with h | h <;> rw [h] <;> constructor <;> constructor <;> decide
  have h8 : ((ext &&& 7).setWidth 5).toNat < 8 := by clear fl; revert ext; decide +kernel
  refine ⟨fun hb => ?_, ?_⟩
  · unfold opShiftI verifyMemHasSize
    simp only [takes_throw1, takes_bind, takes_dbIf, and_true]
    exact ⟨has_size hb, takes_rext hop (rm_any hop) _ h8 _ fl.1 fl.2 _⟩
  · unfold opShiftCL
    simp only [takes_throwIf, hcl]
    exact ⟨rfl, takes_rext hop (rm_any hop) _ h8 _ fl.1 fl.2 _⟩

/-- inc, dec -/
theorem c93_incdec_accepts {op : Operand} (hop : Ok op) (hb : op.bit ≠ 0) (d : Bool) : Takes (opIncDec op (if d then 1 else 0)) := by
  unfold opIncDec verifyMemHasSize
  rw [takes_throwIf]
  refine ⟨has_size hb, ?_⟩
  split
  · rename_i hc
    cases op with
    | mem a => have := hop.1.kind; simp [Operand.isREG, Operand.hd, Reg.isREG, this] at hc
    | reg r =>
      simp only [takes_bind, takes_db, and_true]
      exact takes_rexnil hop
  · refine takes_rext hop ?_ _ (by cases d <;> decide) 0 flat0 flatA _
    cases op with
    | mem a => rfl
    | reg r =>
      have hr : R32 r := hop
      show r.isREG r.bit = true
      unfold Reg.isREG Reg.isBit
      rw [hr.kind]
      rcases hr.bit with e | e | e <;> rw [e] <;> rfl

/-- push, pop -/
theorem c93_pushpop_accepts {op : Operand} (hop : Ok op) (hb : op.bit = 16 ∨ op.bit = 32) (p : Bool) :
    Takes (opPushPop op (if p then 0x8F else 0xFF) (if p then 0 else 6) (if p then 0x58 else 0x50)) := by
  unfold opPushPop
  simp only [if_pos hb, takes_bind, takes_dbIf, true_and]
  cases op with
  | reg r =>
    simp only [reg_isREG (show R32 r from hop), if_true, takes_bind, takes_dbIf, takes_db, and_true]
  | mem a =>
    have e8 : ((if p then 0 else 6 : BitVec 5)).toNat < 8 := by cases p <;> decide
    exact ⟨_, (opMR_flat a _ hop.1 (gp_plain _ e8 (.inr (.inr (.inr rfl)))) _ flatD _ _).2
      ⟨by simp [show Ty.has T_ALLOW_DIFF_SIZE T_ALLOW_DIFF_SIZE = true from by decide], rfl⟩⟩

/-- jmp, call through an operand -/
theorem c93_jmp_accepts {op : Operand} (hop : Ok op) (c : Bool) :
    (op.bit ≠ 8 → Takes (opJmpOp op false (if c then 2 else 4))) ∧
    (op.isMEM = true → op.bit = 16 ∨ op.bit = 32 → Takes (opJmpOp op true (if c then 2 else 4))) := by
  constructor
  · intro h8
    simp only [opJmpOp, Bool.false_eq_true, if_false]
    refine takes_rext hop ?_ _ (by cases c <;> decide) 0 flat0 flatA _
    cases op with
    | mem a => rfl
    | reg r =>
      have hr : R32 r := hop
      show r.isREG 48 = true
      unfold Reg.isREG Reg.isBit
      rw [hr.kind]
      rcases hr.bit.resolve_left h8 with e | e <;> rw [e] <;> rfl
  · intro hm hb
    simp only [opJmpOp, if_true, takes_throwIf]
    refine ⟨?_, takes_rext hop (by rw [hm]; rfl) _ (by cases c <;> decide) 0 flat0 flatA _⟩
    rw [hm]
    show (!(true && (op.bit &&& 48 != 0))) = false
    rcases hb with e | e <;> rw [e] <;> rfl

/-- lds, les -/
theorem c93_loadSeg_accepts {r : Reg} {a : Addr} (hr : R32 r) (ha : Ok (.mem a)) (hb : r.bit = 16 ∨ r.bit = 32) : Takes (lds r a) ∧ Takes (les r a) := by
  have : ∀ c, Takes (opLoadSeg a r 0 c) := by
    intro c
    unfold opLoadSeg
    simp only [takes_throw1, takes_bind, takes_dbIf, takes_db, true_and]
    refine ⟨by unfold Reg.isBit; rcases hb with e | e <;> rw [e] <;> rfl, takes_mr hr ha _ (by decide) (by decide), takes_addr ha _⟩
  exact ⟨this _, this _⟩

/-- mov with an immediate: a value that fits as signed or unsigned number -/
theorem c93_movI_accepts {op : Operand} (hop : Ok op) (hb : op.bit ≠ 0) (imm : Word) (hi : -(2 ^ op.bit : Int) ≤ imm.toInt ∧ imm.toInt < 2 ^ op.bit) : Takes (movI op imm) := by
  cases op with
  | reg r =>
    simp only [movI, reg_isREG (show R32 r from hop), if_true, takes_bind, takes_db, takes_dbN, and_true]
    exact takes_rexnil hop
  | mem a =>
    have hs : a.o.bit = 8 ∨ a.o.bit = 16 ∨ a.o.bit = 32 := hop.2.resolve_left hb
    have n4 : (Operand.mem a).bit / 8 ≤ 4 := by simp only [Operand.bit, Operand.hd]; omega
    have n8 : (Operand.mem a).bit / 8 * 8 = a.o.bit := by simp only [Operand.bit, Operand.hd]; omega
    unfold movI verifyMemHasSize
    simp only [takes_throwIf]
    refine ⟨has_size hb, ?_⟩
    rw [if_pos n4, takes_throwIf, n8]
    refine ⟨?_, ?_⟩
    · have hi : -(2 ^ a.o.bit : Int) ≤ imm.toInt ∧ imm.toInt < 2 ^ a.o.bit := hi
      have hq : (imm.sshiftRight a.o.bit).toInt = imm.toInt >>> a.o.bit := BitVec.toInt_sshiftRight
      rw [Int.shiftRight_eq_div_pow] at hq
      have : (imm.sshiftRight a.o.bit).toInt = 0 ∨ (imm.sshiftRight a.o.bit).toInt = -1 := by
        rcases hs with e | e | e <;> rw [e] at hi hq ⊢ <;> omega
      have : imm.sshiftRight a.o.bit = 0 ∨ imm.sshiftRight a.o.bit = -1 := this.imp
        (fun h => BitVec.eq_of_toInt_eq (h.trans (by decide))) (fun h => BitVec.eq_of_toInt_eq (h.trans (by decide)))
      rcases this with e | e <;> rw [e] <;> decide
    · rw [takes_bind]
      refine ⟨⟨_, (opMR_flat a _ hop.1 (gp_plain 0 (by decide) hop.2) 0 flat0 _ _).2 ⟨?_, rfl⟩⟩, takes_dbN⟩
      simp [Reg.gp]

/-- test with an immediate -/
theorem c93_testI_accepts {op : Operand} (hop : Ok op) (hb : op.bit ≠ 0) (imm : BitVec 32) : Takes (testI op imm) := by
  unfold testI verifyMemHasSize
  rw [takes_throwIf]
  refine ⟨has_size hb, ?_⟩
  simp only
  split
  · rename_i hc
    cases op with
    | mem a => have := hop.1.kind; simp [Operand.isREG, Operand.hd, Reg.isREG, this] at hc
    | reg r =>
      simp only [takes_bind, takes_db, takes_dbN, and_true]
      exact takes_rexnil hop
  · rw [takes_bind]
    exact ⟨takes_rext hop (rm_any hop) _ (by decide) 0 flat0 flatA _, takes_dbN⟩

/-- add, or, adc, sbb, and, sub, xor, cmp with an immediate that fits as signed or unsigned number -/
theorem c93_aluI_accepts {op : Operand} (hop : Ok op) (hb : op.bit ≠ 0) (n : BitVec 3) (imm : BitVec 32)
    (hi : -(2 ^ op.bit : Int) ≤ imm.toInt ∧ imm.toInt < 2 ^ op.bit) :
    Takes (opOI op imm (n.setWidth 8 <<< 3) (n.setWidth 5)) := by
  have hn8 : (n.setWidth 5).toNat < 8 := (by decide +kernel : ∀ n : BitVec 3, (n.setWidth 5).toNat < 8) n
  have hs := hop.bit.resolve_left hb
  have g : ∃ m, (getImmBit op imm).Gives [] m := by
    unfold getImmBit verifyMemHasSize
    simp only [Enc.throwIf_bind, Enc.gives_pure]
    refine ⟨_, has_size hb, ?_, trivial, rfl⟩
    have b8 : op.isBit 8 = (op.bit == 8) := by
      show (op.bit &&& 8 != 0) = _
      rcases hs with e | e | e <;> rw [e] <;> rfl
    rw [b8]
    have h16 : op.bit = 16 → E.isInDisp16relaxed imm = true := by
      intro e
      rw [e] at hi
      unfold E.isInDisp16relaxed
      have hq : (imm.sshiftRight 16).toInt = imm.toInt >>> 16 := BitVec.toInt_sshiftRight
      rw [Int.shiftRight_eq_div_pow] at hq
      have : (imm.sshiftRight 16).toInt = 0 ∨ (imm.sshiftRight 16).toInt = -1 := by omega
      have : imm.sshiftRight 16 = 0 ∨ imm.sshiftRight 16 = -1 := this.imp
        (fun h => BitVec.eq_of_toInt_eq (h.trans (by decide))) (fun h => BitVec.eq_of_toInt_eq (h.trans (by decide)))
      have mask : ∀ i : Fin 32, (0xffff0000 : BitVec 32).getLsbD i.1 = decide (16 ≤ i.1) := by decide +kernel
      have ones : ∀ i : Fin 32, (-1 : BitVec 32).getLsbD i.1 = true := by decide +kernel
      have bit : ∀ i, 16 ≤ i → i < 32 → imm.getLsbD i = (imm.sshiftRight 16).getLsbD (i - 16) := by
        intro i h1 h2
        rw [BitVec.getLsbD_sshiftRight]
        simp [show 16 + (i - 16) = i by omega, show ¬ 32 ≤ i - 16 by omega]
        omega
      have all : ∀ v : Bool, (∀ i, 16 ≤ i → i < 32 → imm.getLsbD i = v) → imm &&& 0xffff0000 = if v then 0xffff0000 else 0 := by
        intro v hv
        apply BitVec.eq_of_getLsbD_eq
        intro i hi
        rw [BitVec.getLsbD_and, mask ⟨i, hi⟩]
        by_cases h : 16 ≤ i
        · rw [hv i h hi]
          cases v
          · simp
          · simp only [if_true]; rw [mask ⟨i, hi⟩]; simp [h]
        · cases v
          · simp [h]
          · simp only [if_true]; rw [mask ⟨i, hi⟩]; simp [h]
      rcases this with e | e
      · rw [all false fun i h1 h2 => by rw [bit i h1 h2, e]; simp]; rfl
      · rw [all true fun i h1 h2 => by rw [bit i h1 h2, e]; exact ones ⟨i - 16, by omega⟩]; rfl
    rcases hs with e | e | e
    · rw [e]; simp
    · rw [e, h16 e]; cases isInDisp8 imm <;> rfl
    · rw [e]; cases isInDisp8 imm <;> cases E.isInDisp16relaxed imm <;> rfl
  obtain ⟨m, g⟩ := g
  have body : Takes (do
      if op.isREG && op.hd.idx == 0 && op.bit == m then do
        rex op (.reg .nil) 0
        Enc.db (n.setWidth 8 <<< 3 ||| 4 ||| (if m = 8 then 0 else 1))
      else do
        let tmp : Byte := if m < min op.bit 32 then 2 else 0
        opRext op 0 (n.setWidth 5) 0 (0x80 ||| tmp)
      Enc.dbN (imm.setWidth 64) (m / 8)) := by
    simp only
    split
    · rename_i hc
      cases op with
      | mem a => have := hop.1.kind; simp [Operand.isREG, Operand.hd, Reg.isREG, this] at hc
      | reg r =>
        simp only [takes_bind, takes_db, takes_dbN, and_true]
        exact takes_rexnil hop
    · rw [takes_bind]
      exact ⟨takes_rext hop (rm_any hop) _ hn8 0 flat0 flatA _, takes_dbN⟩
  obtain ⟨w, hw⟩ := body
  exact ⟨_, Enc.gives_bind.2 ⟨_, _, _, g, hw, rfl⟩⟩

/-- push with an immediate -/
theorem c93_pushI_accepts (imm : BitVec 32) : Takes (pushI imm) := by
  unfold pushI
  split <;> simp [takes_bind]

end Xbyak.E32
