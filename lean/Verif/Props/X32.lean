import Verif.Dec32
/-!
# C93: integer instructions of the 32-bit build

The bytes written by the 32-bit build of xbyak, read as 32-bit mode reads them (`Verif/Spec/X32.lean`), are the instruction that was asked for.
-/
namespace Xbyak.E32
open E (modRM sel getImmBit verifyMemHasSize)
open Enc (Gives)

/-- An argument as the caller means it. -/
inductive Want | opd (o : Operand) | imm (v : Word) | cl

/-- The argument of the decoded instruction is the one meant; immediates count modulo the operand size. -/
def Fits (bits : Nat) : Want → X32.Arg → Prop
  | .opd o, x => Means o x
  | .imm v, .imm x => x.setWidth bits = v.setWidth bits
  | .cl, .cl => True
  | _, _ => False

def FitsAll (bits : Nat) : List Want → List X32.Arg → Prop
  | [], [] => True
  | w :: ws, x :: xs => Fits bits w x ∧ FitsAll bits ws xs
  | _, _ => False

/-- The acts are bytes that 32-bit mode reads as one instruction with these operands. -/
def Reads (w : List Act) (op : X32.Op) (bits : Nat) (args : List Want) : Prop :=
  ∃ bs xs, w = bs.map .byte ∧ FitsAll bits args xs ∧ ∀ t, X32.decode (bs ++ t) = some (⟨op, bits, xs⟩, t)

/-- An operand of a given size; memory may be without size. -/
def Sized (bits : Nat) (op : Operand) : Prop := op.bit = bits ∨ (op.isMEM = true ∧ op.bit = 0)

/-- Opcode and ModRM of a flat encoding. -/
theorem reads_rm {op : Operand} (hop : Ok op) (b : Nat) (c : Byte) (f : Bool → X32.Form) (hf : ∀ w, X32.form (c ||| sel w 1) = some (f w))
    (he : ∀ w, f w ≠ .esc) :
    ∃ x, Means op x ∧ x.isMem = op.isMEM ∧ (∀ reg t, X32.modrm (rmBytes op reg ++ t) = some (reg.extractLsb' 0 3, x, t)) ∧
      ∀ reg t, X32.decode (pre (b == 16) ++ (c ||| sel (b != 8) 1) :: rmBytes op reg ++ t) =
        X32.operands (f (b != 8)) (if (b == 16) = true then 16 else 32) (rmBytes op reg ++ t) := by
  obtain ⟨x, h1, h2, h3⟩ := modrm_rm hop
  refine ⟨x, h1, h2, h3, fun reg t => ?_⟩
  rw [List.append_assoc, List.cons_append]
  exact decode_pre _ _ _ _ (hf _) (he _)

/-! ## Two operands -/

theorem opRO_MR_gives {op1 op2 : Operand} (h1 : Ok op1) (h2 : Ok op2) (code : Byte) (w : List Act) :
    (opRO_MR op1 op2 code).Gives w () ↔
      (∃ r q, op1 = .reg r ∧ op2 = .reg q ∧ q.bit = r.bit ∧ w = (pre (r.bit == 16) ++ (code ||| sel (r.bit != 8) 1) :: rmBytes op1 q.idx).map .byte) ∨
      (∃ r a, op1 = .reg r ∧ op2 = .mem a ∧ (a.o.bit = 0 ∨ a.o.bit = r.bit) ∧
        w = (pre (r.bit == 16) ++ (code ||| 2 ||| sel (r.bit != 8) 1) :: rmBytes op2 r.idx).map .byte) ∨
      (∃ a r, op1 = .mem a ∧ op2 = .reg r ∧ (a.o.bit = 0 ∨ a.o.bit = r.bit) ∧
        w = (pre (r.bit == 16) ++ (code ||| sel (r.bit != 8) 1) :: rmBytes op1 r.idx).map .byte) := by
  have flat0 : Flat 0 := by constructor <;> decide
  have n0 : Ty.has 0 T_ALLOW_DIFF_SIZE = false := by decide
  have mr : ∀ (a : Addr) (r : Reg), Ok (.mem a) → R32 r → ∀ c w, (opMR a r 0 c).Gives w () ↔
      (a.o.bit = 0 ∨ a.o.bit = r.bit) ∧ w = (pre (r.bit == 16) ++ (c ||| sel (r.bit != 8) 1) :: rmBytes (.mem a) r.idx).map .byte := by
    intro a r ha hr c w
    rw [opMR_flat a r ha.1 hr.plain 0 flat0, isBit8 (.inr hr.bit), n0]
    have hs : (!false && decide (r.bit ≤ 32) && decide (a.o.bit > 0) && a.o.bit != r.bit) = false ↔ (a.o.bit = 0 ∨ a.o.bit = r.bit) := by
      have : r.bit ≤ 32 := by rcases hr.bit with e | e | e <;> omega
      simp [this, Nat.pos_iff_ne_zero]
      constructor
      · intro h; by_cases e : a.o.bit = 0
        · exact .inl e
        · exact .inr (h e)
      · rintro (h | h) h'
        · exact absurd h h'
        · exact h
    rw [hs]
    constructor
    · rintro ⟨h, rfl⟩
      refine ⟨h, ?_⟩
      rw [← pre_eq hr.bit h]; rfl
    · rintro ⟨h, rfl⟩
      refine ⟨h, ?_⟩
      rw [← pre_eq hr.bit h]; rfl
  cases op1 with
  | reg r =>
    have hr : R32 r := h1
    cases op2 with
    | reg q =>
      have hq : R32 q := h2
      have hk : (r.kind == q.kind) = true := by rw [hr.kind, hq.kind]; rfl
      show (opRO q (.reg r) 0 code (r.kind == q.kind)).Gives w () ↔ _
      simp only [opRO, Enc.throwIf_bind, hk, Bool.not_true, true_and]
      rw [opRR_flat q r hq.plain hr.plain 0 flat0, n0]
      have hs : (!false && q.isREG && r.isREG && q.bit != r.bit) = false ↔ q.bit = r.bit := by
        simp [Reg.isREG, hr.kind, hq.kind]
      rw [hs]
      simp only [reduceCtorEq, false_and, exists_false, and_false, or_false, Operand.reg.injEq]
      constructor
      · rintro ⟨h, rfl⟩
        refine ⟨r, q, rfl, rfl, h, ?_⟩
        rw [isBit8 (.inr hq.bit), h, ← pre_eq hr.bit (.inr h)]
        simp only [Bool.or_comm, rmBytes]; rfl
      · rintro ⟨_, _, rfl, rfl, h, rfl⟩
        refine ⟨h, ?_⟩
        rw [isBit8 (.inr hq.bit), h, ← pre_eq hr.bit (.inr h)]
        simp only [Bool.or_comm, rmBytes]; rfl
    | mem a =>
      have : (Operand.reg r).isREG = true := by simp [Operand.isREG, Operand.hd, Reg.isREG, hr.kind]
      simp only [opRO_MR, Enc.throwIf_bind, this, Bool.not_true, true_and, Operand.hd]
      rw [mr a r h2 hr]
      simp only [reduceCtorEq, false_and, exists_false, and_false, or_false, false_or, Operand.reg.injEq, Operand.mem.injEq]
      constructor
      · rintro ⟨h, rfl⟩; exact ⟨r, a, rfl, rfl, h, rfl⟩
      · rintro ⟨_, _, rfl, rfl, h⟩; exact h
  | mem a =>
    cases op2 with
    | reg r =>
      show (opMR a r 0 code).Gives w () ↔ _
      rw [mr a r h1 h2]
      simp only [reduceCtorEq, false_and, exists_false, false_or, Operand.reg.injEq, Operand.mem.injEq]
      constructor
      · rintro ⟨h, rfl⟩; exact ⟨a, r, rfl, rfl, h, rfl⟩
      · rintro ⟨_, _, rfl, rfl, h⟩; exact h
    | mem b =>
      have : (Operand.mem a).isREG = false := by simp [Operand.isREG, Operand.hd, Reg.isREG, h1.1.kind]
      simp only [opRO_MR, Enc.throwIf_bind, this, Bool.not_false, reduceCtorEq, false_and, exists_false, and_false, or_false]

/-- add, or, adc, sbb, and, sub, xor, cmp -/
theorem c93_alu {op1 op2 : Operand} (h1 : Ok op1) (h2 : Ok op2) (n : BitVec 3) {w : List Act} (h : (opRO_MR op1 op2 (n.setWidth 8 <<< 3)).Gives w ()) :
    ∃ bits, Sized bits op1 ∧ Sized bits op2 ∧ Reads w (.alu n) bits [.opd op1, .opd op2] := by
  have f1 : ∀ w, X32.form (n.setWidth 8 <<< 3 ||| sel w 1) = some (.rmR (.alu n) w) := by clear h; revert n; decide +kernel
  have f2 : ∀ w, X32.form (n.setWidth 8 <<< 3 ||| 2 ||| sel w 1) = some (.rRm (.alu n) w) := by clear h f1; revert n; decide +kernel
  rcases (opRO_MR_gives h1 h2 _ w).1 h with ⟨r, q, rfl, rfl, e, rfl⟩ | ⟨r, a, rfl, rfl, e, rfl⟩ | ⟨a, r, rfl, rfl, e, rfl⟩
  · have hr : R32 r := h1
    obtain ⟨x, hx, _, hm, hd⟩ := reads_rm h1 r.bit _ _ f1 (by simp)
    refine ⟨r.bit, .inl rfl, .inl e, _, [x, .reg (q.idx.extractLsb' 0 3)], rfl, ⟨hx, rfl, trivial⟩, fun t => ?_⟩
    rw [hd]
    simp only [X32.operands, hm, Option.map_some, size_eff (.inr hr.bit), eff_of hr.bit]
  · have hr : R32 r := h1
    obtain ⟨x, hx, _, hm, hd⟩ := reads_rm h2 r.bit _ _ f2 (by simp)
    refine ⟨r.bit, .inl rfl, e.elim (fun h => .inr ⟨rfl, h⟩) .inl, _, [.reg (r.idx.extractLsb' 0 3), x], rfl, ⟨rfl, hx, trivial⟩, fun t => ?_⟩
    rw [hd]
    simp only [X32.operands, hm, Option.map_some, size_eff (.inr hr.bit), eff_of hr.bit]
  · have hr : R32 r := h2
    obtain ⟨x, hx, _, hm, hd⟩ := reads_rm h1 r.bit _ _ f1 (by simp)
    refine ⟨r.bit, e.elim (fun h => .inr ⟨rfl, h⟩) .inl, .inl rfl, _, [x, .reg (r.idx.extractLsb' 0 3)], rfl, ⟨hx, rfl, trivial⟩, fun t => ?_⟩
    rw [hd]
    simp only [X32.operands, hm, Option.map_some, size_eff (.inr hr.bit), eff_of hr.bit]

/-- Exactly the documented operand pairs are accepted. -/
theorem c93_alu_accepts {op1 op2 : Operand} (h1 : Ok op1) (h2 : Ok op2) (code : Byte) :
    (∃ w, (opRO_MR op1 op2 code).Gives w ()) ↔ (op1.isMEM && op2.isMEM) = false ∧ ∃ bits, Sized bits op1 ∧ Sized bits op2 := by
  constructor
  · rintro ⟨w, h⟩
    rcases (opRO_MR_gives h1 h2 _ w).1 h with ⟨r, q, rfl, rfl, e, rfl⟩ | ⟨r, a, rfl, rfl, e, rfl⟩ | ⟨a, r, rfl, rfl, e, rfl⟩
    · exact ⟨rfl, r.bit, .inl rfl, .inl e⟩
    · exact ⟨rfl, r.bit, .inl rfl, e.elim (fun h => .inr ⟨rfl, h⟩) .inl⟩
    · exact ⟨rfl, r.bit, e.elim (fun h => .inr ⟨rfl, h⟩) .inl, .inl rfl⟩
  · rintro ⟨hm, b, s1, s2⟩
    cases op1 with
    | reg r =>
      have e1 : r.bit = b := s1.resolve_right (by rintro ⟨h, _⟩; cases h)
      cases op2 with
      | reg q =>
        have e2 : q.bit = b := s2.resolve_right (by rintro ⟨h, _⟩; cases h)
        exact ⟨_, (opRO_MR_gives h1 h2 _ _).2 (.inl ⟨r, q, rfl, rfl, e2.trans e1.symm, rfl⟩)⟩
      | mem a => exact ⟨_, (opRO_MR_gives h1 h2 _ _).2 (.inr (.inl ⟨r, a, rfl, rfl, s2.symm.imp (·.2) (fun h => h.trans e1.symm), rfl⟩))⟩
    | mem a =>
      cases op2 with
      | reg r =>
        have e1 : r.bit = b := s2.resolve_right (by rintro ⟨h, _⟩; cases h)
        exact ⟨_, (opRO_MR_gives h1 h2 _ _).2 (.inr (.inr ⟨a, r, rfl, rfl, s1.symm.imp (·.2) (fun h => h.trans e1.symm), rfl⟩))⟩
      | mem c => cases hm

/-- `mov` between registers and memory; the address form without registers for the accumulator is not checked for its size. -/
theorem c93_mov_partial {op1 op2 : Operand} (h1 : Ok op1) (h2 : Ok op2) {w : List Act} (h : (mov op1 op2).Gives w ())
    (hs : ∃ bits, Sized bits op1 ∧ Sized bits op2) :
    ∃ bits, Sized bits op1 ∧ Sized bits op2 ∧ Reads w .mov bits [.opd op1, .opd op2] := by
  have f1 : ∀ w, X32.form (0x88 ||| sel w 1) = some (.rmR .mov w) := by decide +kernel
  have f2 : ∀ w, X32.form (0x88 ||| 2 ||| sel w 1) = some (.rRm .mov w) := by decide +kernel
  have main : (opRO_MR op1 op2 0x88).Gives w () → ∃ bits, Sized bits op1 ∧ Sized bits op2 ∧ Reads w .mov bits [.opd op1, .opd op2] := by
    intro h
    rcases (opRO_MR_gives h1 h2 _ w).1 h with ⟨r, q, rfl, rfl, e, rfl⟩ | ⟨r, a, rfl, rfl, e, rfl⟩ | ⟨a, r, rfl, rfl, e, rfl⟩
    · have hr : R32 r := h1
      obtain ⟨x, hx, _, hm, hd⟩ := reads_rm h1 r.bit _ _ f1 (by simp)
      refine ⟨r.bit, .inl rfl, .inl e, _, [x, .reg (q.idx.extractLsb' 0 3)], rfl, ⟨hx, rfl, trivial⟩, fun t => ?_⟩
      rw [hd]
      simp only [X32.operands, hm, Option.map_some, size_eff (.inr hr.bit), eff_of hr.bit]
    · have hr : R32 r := h1
      obtain ⟨x, hx, _, hm, hd⟩ := reads_rm h2 r.bit _ _ f2 (by simp)
      refine ⟨r.bit, .inl rfl, e.elim (fun h => .inr ⟨rfl, h⟩) .inl, _, [.reg (r.idx.extractLsb' 0 3), x], rfl, ⟨rfl, hx, trivial⟩, fun t => ?_⟩
      rw [hd]
      simp only [X32.operands, hm, Option.map_some, size_eff (.inr hr.bit), eff_of hr.bit]
    · have hr : R32 r := h2
      obtain ⟨x, hx, _, hm, hd⟩ := reads_rm h1 r.bit _ _ f1 (by simp)
      refine ⟨r.bit, e.elim (fun h => .inr ⟨rfl, h⟩) .inl, .inl rfl, _, [x, .reg (r.idx.extractLsb' 0 3)], rfl, ⟨hx, rfl, trivial⟩, fun t => ?_⟩
      rw [hd]
      simp only [X32.operands, hm, Option.map_some, size_eff (.inr hr.bit), eff_of hr.bit]
  have dm : ∀ (a : Addr), isOnlyDisp a = true → Means (.mem a) (.mem ⟨none, none, lo32 a.e.disp⟩) := by
    intro a ha g
    simp only [isOnlyDisp, Bool.and_eq_true, beq_iff_eq] at ha
    simp [X32.Mem.ea, meant, ha.1, ha.2]
  cases op1 with
  | reg r =>
    cases op2 with
    | reg q => exact main h
    | mem a =>
      simp only [mov] at h
      split at h
      · rename_i hc
        simp only [Bool.and_eq_true, beq_iff_eq] at hc
        have hr : R32 r := h1
        obtain ⟨b, s1, s2⟩ := hs
        have e1 : r.bit = b := s1.resolve_right (by rintro ⟨h, _⟩; cases h)
        have e2 : a.o.bit = 0 ∨ a.o.bit = r.bit := s2.symm.imp (·.2) (fun h => h.trans e1.symm)
        refine ⟨b, s1, s2, pre (r.bit == 16) ++ (0xA0 ||| sel (r.bit != 8) 1) :: leBytes 4 ((lo32 a.e.disp).setWidth 64),
          [.reg (r.idx.extractLsb' 0 3), .mem ⟨none, none, lo32 a.e.disp⟩], ?_, ⟨rfl, dm a hc.2, trivial⟩, fun t => ?_⟩
        · simp only [Enc.gives_bind, Enc.gives_db, Enc.gives_dbN, rex_rm a r h2.1 hr.plain 0 (by decide) (by decide)] at h
          obtain ⟨_, _, _, rfl, ⟨_, _, _, rfl, rfl, rfl⟩, rfl⟩ := h
          rw [← pre_eq' hr.bit e2, isBit8 (.inr hr.bit)]
          simp only [List.map_append, List.map_cons, List.cons_append, List.nil_append]
          rfl
        · have f : ∀ w, X32.form (0xA0 ||| sel w 1) = some (.load w) := by decide +kernel
          rw [List.append_assoc, List.cons_append, decode_pre _ _ _ _ (f _) (by simp)]
          simp only [X32.operands, imm32_le, Option.map_some, size_eff (.inr hr.bit), eff_of hr.bit, hc.1.2]
          rw [e1]; rfl
      · exact main h
  | mem a =>
    cases op2 with
    | mem b => exact main h
    | reg r =>
      simp only [mov] at h
      split at h
      · rename_i hc
        simp only [Bool.and_eq_true, beq_iff_eq] at hc
        have hr : R32 r := h2
        obtain ⟨b, s1, s2⟩ := hs
        have e1 : r.bit = b := s2.resolve_right (by rintro ⟨h, _⟩; cases h)
        have e2 : a.o.bit = 0 ∨ a.o.bit = r.bit := s1.symm.imp (·.2) (fun h => h.trans e1.symm)
        refine ⟨b, s1, s2, pre (r.bit == 16) ++ (0xA2 ||| sel (r.bit != 8) 1) :: leBytes 4 ((lo32 a.e.disp).setWidth 64),
          [.mem ⟨none, none, lo32 a.e.disp⟩, .reg (r.idx.extractLsb' 0 3)], ?_, ⟨dm a hc.2, rfl, trivial⟩, fun t => ?_⟩
        · simp only [Enc.gives_bind, Enc.gives_db, Enc.gives_dbN, rex_rm a r h1.1 hr.plain 0 (by decide) (by decide)] at h
          obtain ⟨_, _, _, rfl, ⟨_, _, _, rfl, rfl, rfl⟩, rfl⟩ := h
          rw [← pre_eq' hr.bit e2, isBit8 (.inr hr.bit)]
          simp only [List.map_append, List.map_cons, List.cons_append, List.nil_append]
          rfl
        · have f : ∀ w, X32.form (0xA2 ||| sel w 1) = some (.store w) := by decide +kernel
          rw [List.append_assoc, List.cons_append, decode_pre _ _ _ _ (f _) (by simp)]
          simp only [X32.operands, imm32_le, Option.map_some, size_eff (.inr hr.bit), eff_of hr.bit, hc.1.2]
          rw [e1]; rfl
      · exact main h

/-! ## One operand -/

/-- not, neg, mul, imul, div, idiv -/
theorem c93_unary {op : Operand} (hop : Ok op) (n : BitVec 3) (hn : 2 ≤ n.toNat) {w : List Act} (h : (unary op n).Gives w ()) :
    Reads w (.group3 n) (eff op.bit) [.opd op] := by
  have fl : ∀ e : Ty, e = 0 ∨ e = T_NF → Flat (T_APX ||| e ||| T_CODE1_IF1) ∧ Flat (T_APX ||| e ||| T_CODE1_IF1 ||| T_ALLOW_ABCDH) := by
    rintro e (rfl | rfl) <;> constructor <;> constructor <;> decide
  have hf := fl (if n = 2 then 0 else T_NF) (by split <;> simp)
  have hn8 : (n.setWidth 5).toNat < 8 := (by decide +kernel : ∀ n : BitVec 3, (n.setWidth 5).toNat < 8) n
  obtain ⟨_, rfl⟩ := (opRext_flat hop 0 (n.setWidth 5) hn8 _ hf.1 hf.2 0xF6 w).1 h
  obtain ⟨x, hx, _, hm, hd⟩ := reads_rm hop op.bit 0xF6 .group3 (by decide +kernel) (by simp)
  refine ⟨_, [x], rfl, ⟨hx, trivial⟩, fun t => ?_⟩
  rw [hd]
  have e0 : (n.setWidth 5).extractLsb' 0 3 = n := (by decide +kernel : ∀ n : BitVec 3, (n.setWidth 5).extractLsb' 0 3 = n) n
  have n0 : n ≠ 0 := by rintro rfl; exact absurd hn (by decide)
  have n1 : n ≠ 1 := by rintro rfl; exact absurd hn (by decide)
  simp only [X32.operands, hm, Option.bind_some, e0, if_neg n0, if_neg n1, size_eff hop.bit]

/-- Shifts and rotates by a constant. -/
theorem c93_shiftI {op : Operand} (hop : Ok op) (ext : BitVec 4) (imm : BitVec 32) {w : List Act} (h : (opShiftI op imm ext).Gives w ()) :
    op.bit ≠ 0 ∧ ∃ v : BitVec 32, v.setWidth 8 = imm.setWidth 8 ∧
      ∃ bs x, w = bs.map .byte ∧ Means op x ∧ ∀ t, X32.decode (bs ++ t) = some (⟨.shift (ext.setWidth 3), op.bit, [x, .imm v]⟩, t) := by
  have fl : ∀ e : BitVec 4, Flat (E.shiftType e none) ∧ Flat (E.shiftType e none ||| T_ALLOW_ABCDH) := by
    intro e
    have : E.shiftType e none = (T_APX ||| T_CODE1_IF1) ||| T_NF ||| 0 ∨ E.shiftType e none = (T_APX ||| T_CODE1_IF1) ||| 0 ||| 0 := by
      unfold E.shiftType; split <;> simp
    rcases this with h | h <;> rw [h] <;> constructor <;> constructor <;> decide
  have h8 : ((ext &&& 7).setWidth 5).toNat < 8 := by clear h; revert ext; decide +kernel
  have e0 : ((ext &&& 7).setWidth 5 : BitVec 5).extractLsb' 0 3 = ext.setWidth 3 := by clear h h8; revert ext; decide +kernel
  unfold opShiftI verifyMemHasSize at h
  rw [Enc.throwIf_bind] at h
  obtain ⟨hv, h⟩ := h
  have b0 : op.bit ≠ 0 := by
    intro e
    cases op with
    | reg r => have := (show R32 r from hop).bit; simp only [Operand.bit, Operand.hd] at e; omega
    | mem a => simp [Operand.isMEM, e] at hv
  have hb : op.bit = 8 ∨ op.bit = 16 ∨ op.bit = 32 := hop.bit.resolve_left b0
  refine ⟨b0, ?_⟩
  rw [Enc.gives_bind] at h
  obtain ⟨w1, _, w2, g1, g2, rfl⟩ := h
  rw [Enc.gives_dbIf] at g2
  subst g2
  by_cases hi : imm = 1
  · subst hi
    obtain ⟨_, rfl⟩ := (opRext_flat hop 0 _ h8 _ (fl ext).1 (fl ext).2 0xD0 w1).1 g1
    obtain ⟨x, hx, _, hm, hd⟩ := reads_rm hop op.bit 0xD0 .shift1 (by decide +kernel) (by simp)
    refine ⟨1, rfl, pre (op.bit == 16) ++ (0xD0 ||| sel (op.bit != 8) 1) :: rmBytes op ((ext &&& 7).setWidth 5), x, by simp, hx, fun t => ?_⟩
    rw [hd]
    simp only [X32.operands, hm, Option.map_some, e0, size_eff hop.bit, eff_of hb]
  · rw [if_neg hi] at g1
    obtain ⟨_, rfl⟩ := (opRext_flat hop 0 _ h8 _ (fl ext).1 (fl ext).2 0xC0 w1).1 g1
    obtain ⟨x, hx, _, hm, hd⟩ := reads_rm hop op.bit 0xC0 .shiftI (by decide +kernel) (by simp)
    refine ⟨(imm.setWidth 8).signExtend 32, imm8_mod _, (pre (op.bit == 16) ++ (0xC0 ||| sel (op.bit != 8) 1) :: rmBytes op ((ext &&& 7).setWidth 5)) ++ [imm.setWidth 8], x,
      by rw [if_pos (by simpa using hi)]; simp, hx, fun t => ?_⟩
    rw [List.append_assoc, hd]
    simp only [X32.operands, hm, Option.bind_some, e0, size_eff hop.bit, eff_of hb, List.cons_append, List.nil_append, X32.imm8, Option.map_some]

/-- Shifts and rotates by cl. -/
theorem c93_shiftCL {op : Operand} (hop : Ok op) (cl : Reg) (ext : BitVec 4) {w : List Act} (h : (opShiftCL op cl ext).Gives w ()) :
    cl.idx = 1 ∧ Reads w (.shift (ext.setWidth 3)) (eff op.bit) [.opd op, .cl] := by
  have fl : ∀ e : BitVec 4, Flat (E.shiftType e none) ∧ Flat (E.shiftType e none ||| T_ALLOW_ABCDH) := by
    intro e
    have : E.shiftType e none = (T_APX ||| T_CODE1_IF1) ||| T_NF ||| 0 ∨ E.shiftType e none = (T_APX ||| T_CODE1_IF1) ||| 0 ||| 0 := by
      unfold E.shiftType; split <;> simp
    rcases this with h | h <;> rw [h] <;> constructor <;> constructor <;> decide
  have h8 : ((ext &&& 7).setWidth 5).toNat < 8 := by clear h; revert ext; decide +kernel
  have e0 : ((ext &&& 7).setWidth 5 : BitVec 5).extractLsb' 0 3 = ext.setWidth 3 := by clear h h8; revert ext; decide +kernel
  unfold opShiftCL at h
  rw [Enc.throwIf_bind] at h
  obtain ⟨hc, h⟩ := h
  obtain ⟨_, rfl⟩ := (opRext_flat hop 0 _ h8 _ (fl ext).1 (fl ext).2 0xD2 w).1 h
  obtain ⟨x, hx, _, hm, hd⟩ := reads_rm hop op.bit 0xD2 .shiftCl (by decide +kernel) (by simp)
  refine ⟨by simpa using hc, _, [x, .cl], rfl, ⟨hx, trivial, trivial⟩, fun t => ?_⟩
  rw [hd]
  simp only [X32.operands, hm, Option.map_some, e0, size_eff hop.bit]

theorem flat0 : Flat 0 := by constructor <;> decide
theorem flatA : Flat (0 ||| T_ALLOW_ABCDH) := by constructor <;> decide
theorem flatD : Flat T_ALLOW_DIFF_SIZE := by constructor <;> decide

theorem size_ne0 {op : Operand} (hop : Ok op) (hv : (op.isMEM && op.bit == 0) = false) : op.bit = 8 ∨ op.bit = 16 ∨ op.bit = 32 := by
  cases op with
  | reg r => exact (show R32 r from hop).bit
  | mem a =>
    refine hop.2.resolve_left fun e => ?_
    simp [Operand.isMEM, Operand.bit, Operand.hd, e] at hv

theorem rex_nil {r : Reg} (hr : R32 r) (w : List Act) : (rex (.reg r) (.reg .nil) 0).Gives w () ↔ w = (pre (r.bit == 16)).map .byte := by
  rw [rex_rr r .nil hr.plain .nil 0 (by decide) (by decide)]
  rw [← pre_eq' hr.bit (.inl rfl : (Reg.nil).bit = 0 ∨ _)]
  rfl

/-- inc, dec: `ext` is 0 or 1 -/
theorem c93_incdec {op : Operand} (hop : Ok op) (d : Bool) {w : List Act} (h : (opIncDec op (if d then 1 else 0)).Gives w ()) :
    op.bit ≠ 0 ∧ Reads w (if d then .dec else .inc) op.bit [.opd op] := by
  unfold opIncDec verifyMemHasSize at h
  rw [Enc.throwIf_bind] at h
  obtain ⟨hv, h⟩ := h
  have hb := size_ne0 hop hv
  refine ⟨by omega, ?_⟩
  split at h
  · rename_i hc
    cases op with
    | mem a => have := hop.1.kind; simp [Operand.isREG, Operand.hd, Reg.isREG, this] at hc
    | reg r =>
      have hr : R32 r := hop
      simp only [Enc.gives_bind, Enc.gives_db, rex_nil hr] at h
      obtain ⟨_, _, _, rfl, rfl, rfl⟩ := h
      have b8 : r.bit ≠ 8 := by
        intro e; simp [Operand.isBit, Operand.hd, Reg.isBit, e] at hc
      refine ⟨pre (r.bit == 16) ++ [(if (if d then 1 else 0 : BitVec 5) ≠ 0 then 0x48 else 0x40) ||| r.idx.setWidth 8], [.reg (r.idx.extractLsb' 0 3)],
        by simp [Operand.hd], ⟨rfl, trivial⟩, fun t => ?_⟩
      have f : X32.form ((if (if d then 1 else 0 : BitVec 5) ≠ 0 then 0x48 else 0x40) ||| r.idx.setWidth 8) =
          some (.plus (if d then .dec else .inc) (r.idx.extractLsb' 0 3)) := by
        have := hr.idx
        clear hb hc hv hop hr b8
        generalize r.idx = i at *
        revert d i; decide +kernel
      rw [List.append_assoc, List.cons_append, decode_pre _ _ _ _ f (by simp)]
      simp only [X32.operands, List.nil_append, Operand.bit, Operand.hd]
      rcases hr.bit with e | e | e
      · exact absurd e b8
      · rw [e]; rfl
      · rw [e]; rfl
  · have e8 : ((if d then 1 else 0 : BitVec 5)).toNat < 8 := by cases d <;> decide
    obtain ⟨_, rfl⟩ := (opRext_flat hop _ _ e8 0 flat0 flatA 0xFE w).1 h
    obtain ⟨x, hx, _, hm, hd⟩ := reads_rm hop op.bit 0xFE (fun w => if w then .group5 else .group4) (by decide +kernel) (by intro w; cases w <;> simp)
    refine ⟨_, [x], rfl, ⟨hx, trivial⟩, fun t => ?_⟩
    rw [hd]
    rcases hb with e | e | e <;> rw [e] <;> cases d <;> simp [X32.operands, hm, X32.op5]

/-- push, pop -/
theorem c93_pushpop {op : Operand} (hop : Ok op) (p : Bool) {w : List Act}
    (h : (opPushPop op (if p then 0x8F else 0xFF) (if p then 0 else 6) (if p then 0x58 else 0x50)).Gives w ()) :
    (op.bit = 16 ∨ op.bit = 32) ∧ Reads w (if p then .pop else .push) op.bit [.opd op] := by
  unfold opPushPop at h
  by_cases hb : op.bit = 16 ∨ op.bit = 32
  · refine ⟨hb, ?_⟩
    simp only [if_pos hb, Enc.dbIf_bind] at h
    obtain ⟨w', rfl, h⟩ := h
    have z : (if (op.bit == 16) = true then 16 else 32) = op.bit := by rcases hb with e | e <;> rw [e] <;> rfl
    have hpre : (if decide (op.bit = 16) = true then [0x66] else [] : List Byte) = pre (op.bit == 16) := rfl
    rw [hpre]
    cases op with
    | reg r =>
      have hr : R32 r := hop
      have hk : r.isREG = true := by simp [Reg.isREG, hr.kind]
      simp only [hk, if_true, Enc.dbIf_bind, Enc.gives_db] at h
      obtain ⟨_, rfl, rfl⟩ := h
      have hi : ¬ r.idx.toNat ≥ 8 := by have := hr.idx; omega
      refine ⟨pre (r.bit == 16) ++ [(if p then 0x58 else 0x50) ||| (r.idx &&& 7).setWidth 8], [.reg (r.idx.extractLsb' 0 3)], by simp [hi, Operand.bit, Operand.hd],
        ⟨rfl, trivial⟩, fun t => ?_⟩
      have f : X32.form ((if p then 0x58 else 0x50) ||| (r.idx &&& 7).setWidth 8) = some (.plus (if p then .pop else .push) (r.idx.extractLsb' 0 3)) := by
        clear hb hop hr hk hi z hpre
        generalize r.idx = i
        revert p i; decide +kernel
      rw [List.append_assoc, List.cons_append, decode_pre _ _ _ _ f (by simp)]
      simp only [X32.operands, List.nil_append]
      rw [← z]; rfl
    | mem a =>
      simp only at h
      have e8 : ((if p then 0 else 6 : BitVec 5)).toNat < 8 := by cases p <;> decide
      obtain ⟨_, rfl⟩ := (opMR_flat a _ hop.1 (gp_plain _ e8 (.inr (.inr (.inr rfl)))) _ flatD _ w').1 h
      obtain ⟨x, hx, hxm, hm⟩ := modrm_rm hop
      have hp : ((a.o.isBit 16 && !(Reg.gp (if p then 0 else 6) 32).isBit 32) || ((Reg.gp (if p then 0 else 6) 32).isBit 16 && !a.o.isBit 32)) = false := by
        have e1 : ∀ i, (Reg.gp i 32).isBit 32 = true := fun _ => by simp [Reg.gp, Reg.isBit]
        have e2 : ∀ i, (Reg.gp i 32).isBit 16 = false := fun _ => by simp [Reg.gp, Reg.isBit]
        rw [e1, e2]; simp
      have hw : (!(Reg.gp (if p then 0 else 6) 32).isBit 8) = true := by
        have e1 : ∀ i, (Reg.gp i 32).isBit 8 = false := fun _ => by simp [Reg.gp, Reg.isBit]
        rw [e1]; rfl
      rw [hp, hw]
      refine ⟨pre (a.o.bit == 16) ++ ((if p then 0x8F else 0xFF) ||| sel true 1) :: rmBytes (.mem a) (if p then 0 else 6), [x], by simp [pre, Operand.bit, Operand.hd, Reg.gp],
        ⟨hx, trivial⟩, fun t => ?_⟩
      have f : X32.form ((if p then 0x8F else 0xFF) ||| sel true 1) = some (if p then .group1A else .group5) := by cases p <;> decide +kernel
      rw [List.append_assoc, List.cons_append, decode_pre _ _ _ _ f (by cases p <;> simp)]
      show X32.operands _ (if (a.o.bit == 16) = true then 16 else 32) _ = _
      rw [show (if (a.o.bit == 16) = true then 16 else 32) = a.o.bit from z]
      cases p <;> simp [X32.operands, hm, X32.op5, Operand.bit, Operand.hd]
  · simp only [if_neg hb, Enc.gives_throw] at h

/-- `jmp`, `call` through a register or memory; memory may be without size. -/
theorem c93_jmp_partial {op : Operand} (hop : Ok op) (h8 : op.isMEM = true → op.bit ≠ 8) (c : Bool) {w : List Act} (h : (opJmpOp op false (if c then 2 else 4)).Gives w ()) :
    Reads w (if c then .call else .jmp) (eff op.bit) [.opd op] := by
  have e8 : ((if c then 2 else 4 : BitVec 5)).toNat < 8 := by cases c <;> decide
  obtain ⟨hk, rfl⟩ := (opRext_flat hop _ _ e8 0 flat0 flatA 0xFF w).1 h
  have b8 : op.bit ≠ 8 := by
    intro e
    cases op with
    | mem a => exact h8 rfl e
    | reg r => simp only [Operand.bit, Operand.hd] at e; simp [Operand.isMEM, Operand.isREG, Operand.hd, Reg.isREG, Reg.isBit, e] at hk
  have hw : (op.bit != 8) = true := by simpa using b8
  obtain ⟨x, hx, _, hm, hd⟩ := reads_rm hop op.bit 0xFF (fun _ => .group5) (by decide +kernel) (by simp)
  refine ⟨_, [x], rfl, ⟨hx, trivial⟩, fun t => ?_⟩
  rw [hd]
  have : (if (op.bit == 16) = true then 16 else 32) = eff op.bit := by
    rcases hop.bit with e | e | e | e
    · rw [e]; rfl
    · exact absurd e b8
    · rw [e]; rfl
    · rw [e]; rfl
  rw [this]
  cases c <;> simp [X32.operands, hm, X32.op5]

/-- Far `jmp`, `call`. -/
theorem c93_jmp_far {op : Operand} (hop : Ok op) (c : Bool) {w : List Act} (h : (opJmpOp op true (if c then 2 else 4)).Gives w ()) :
    op.isMEM = true ∧ (op.bit = 16 ∨ op.bit = 32) ∧ Reads w (if c then .callFar else .jmpFar) op.bit [.opd op] := by
  simp only [opJmpOp, if_true, Enc.throwIf_bind] at h
  obtain ⟨hm, h⟩ := h
  simp only [Bool.not_eq_false', Bool.and_eq_true] at hm
  have hb : op.bit = 16 ∨ op.bit = 32 := by
    rcases hop.bit with e | e | e | e
    · have := hm.2; simp only [Operand.bit] at e; simp [Operand.isBit, Reg.isBit, e] at this
    · have := hm.2; simp only [Operand.bit] at e; simp [Operand.isBit, Reg.isBit, e] at this
    · exact .inl e
    · exact .inr e
  have e8 : ((if c then 2 else 4 : BitVec 5) + 1).toNat < 8 := by cases c <;> decide
  obtain ⟨hk, rfl⟩ := (opRext_flat hop _ _ e8 0 flat0 flatA 0xFF w).1 h
  obtain ⟨x, hx, hxm, hmo, hd⟩ := reads_rm hop op.bit 0xFF (fun _ => .group5) (by decide +kernel) (by simp)
  refine ⟨hm.1, hb, _, [x], rfl, ⟨hx, trivial⟩, fun t => ?_⟩
  rw [hd]
  have : (if (op.bit == 16) = true then 16 else 32) = op.bit := by rcases hb with e | e <;> rw [e] <;> rfl
  rw [this]
  rw [hm.1] at hxm
  cases c <;> simp [X32.operands, hmo, X32.op5, hxm]

/-! ## Immediates -/

theorem reads_imm {op : Operand} (hop : Ok op) {b : Nat} (hb : b = 8 ∨ b = 16 ∨ b = 32) (c : Byte) (reg : BitVec 5) (v : Word) (o : X32.Op)
    (f : Bool → X32.Form) (hf : ∀ w, X32.form (c ||| sel w 1) = some (f w)) (he : ∀ w, f w ≠ .esc)
    (ho : ∀ z w t x u, X32.modrm t = some (reg.extractLsb' 0 3, x, u) →
      X32.operands (f w) z t = (X32.immZ (X32.size z w) u).map fun q => (⟨o, X32.size z w, [x, .imm q.1]⟩, q.2)) :
    Reads ((pre (b == 16) ++ (c ||| sel (b != 8) 1) :: rmBytes op reg ++ leBytes (b / 8) v).map .byte) o b [.opd op, .imm v] := by
  obtain ⟨x, hx, _, hm, hd⟩ := reads_rm hop b c f hf he
  obtain ⟨y, hy, hi⟩ := immZ_le hb v
  refine ⟨_, [x, .imm y], rfl, ⟨hx, hy, trivial⟩, fun t => ?_⟩
  rw [List.append_assoc, hd, ho _ _ _ _ _ (hm _ _), size_eff (.inr hb), eff_of hb, hi]
  rfl

/-- `mov` of an immediate; the upper bits of a value too wide for the register are dropped (`mov(al, 0x1234)`). -/
theorem c93_movI {op : Operand} (hop : Ok op) (imm : Word) {w : List Act} (h : (movI op imm).Gives w ()) :
    op.bit ≠ 0 ∧ Reads w .mov op.bit [.opd op, .imm imm] := by
  cases op with
  | reg r =>
    have hr : R32 r := hop
    have hk : r.isREG = true := by simp [Reg.isREG, hr.kind]
    simp only [movI, hk, if_true, Enc.gives_bind, Enc.gives_db, Enc.gives_dbN, rex_nil hr] at h
    obtain ⟨_, _, _, rfl, ⟨_, _, _, rfl, rfl, rfl⟩, rfl⟩ := h
    refine ⟨by have := hr.bit; simp only [Operand.bit, Operand.hd]; omega, ?_⟩
    obtain ⟨y, hy, hi⟩ := immZ_le hr.bit imm
    have f : X32.form (0xB0 ||| sel (r.bit ≠ 8) 8 ||| (r.idx &&& 7).setWidth 8) = some (.plusI (r.idx.extractLsb' 0 3) (r.bit != 8)) := by
      have : decide (r.bit ≠ 8) = (r.bit != 8) := by rcases hr.bit with e | e | e <;> rw [e] <;> rfl
      rw [this]
      generalize r.idx = i, (r.bit != 8) = b
      revert i b; decide +kernel
    refine ⟨pre (r.bit == 16) ++ (0xB0 ||| sel (r.bit ≠ 8) 8 ||| (r.idx &&& 7).setWidth 8) :: leBytes (r.bit / 8) imm, [.reg (r.idx.extractLsb' 0 3), .imm y],
      by simp, ⟨rfl, hy, trivial⟩, fun t => ?_⟩
    rw [List.append_assoc, List.cons_append, decode_pre _ _ _ _ f (by simp)]
    simp only [X32.operands, size_eff (.inr hr.bit), eff_of hr.bit, hi, Option.map_some]
    rfl
  | mem a =>
    unfold movI verifyMemHasSize at h
    simp only [Enc.throwIf_bind] at h
    obtain ⟨hv, h⟩ := h
    have hb := size_ne0 hop hv
    have h4 : (Operand.mem a).bit / 8 ≤ 4 := by omega
    have hmin : min (a.o.bit / 8) 4 = a.o.bit / 8 := by simp only [Operand.bit, Operand.hd] at hb; omega
    rw [if_pos h4, Enc.throwIf_bind, Enc.gives_bind] at h
    simp only [Operand.bit, Operand.hd] at hb h ⊢
    refine ⟨by omega, ?_⟩
    obtain ⟨_, w1, _, w2, g1, g2, rfl⟩ := h
    rw [Enc.gives_dbN, hmin] at g2
    subst g2
    rw [opMR_flat a _ hop.1 (gp_plain 0 (by decide) hop.2) 0 flat0, isBit8 (r := .gp 0 a.o.bit) hop.2] at g1
    have hp : ((a.o.isBit 16 && !(Reg.gp 0 a.o.bit).isBit 32) || ((Reg.gp 0 a.o.bit).isBit 16 && !a.o.isBit 32)) = (a.o.bit == 16) := pre_eq hb (.inr rfl)
    rw [hp] at g1
    obtain ⟨_, rfl⟩ := g1
    have lo : leBytes (a.o.bit / 8) ((lo32 imm).setWidth 64) = leBytes (a.o.bit / 8) imm := by
      rcases hb with e | e | e <;> rw [e]
      · show leBytes 1 _ = leBytes 1 _
        rw [leBytes1, leBytes1]; simp [lo32]
      · show leBytes 2 _ = leBytes 2 _
        rw [leBytes2, leBytes2]
        refine List.cons_eq_cons.2 ⟨by ext; simp [lo32], List.cons_eq_cons.2 ⟨?_, rfl⟩⟩
        ext i hi
        have : 8 + i < 32 := by omega
        simp [lo32, this]
        intro _; omega
      · exact (leBytes4_lo imm).symm
    rw [lo, ← List.map_append]
    refine reads_imm hop hb 0xC6 0 imm .mov .group11 (by decide +kernel) (by simp) ?_
    intro z w t x u e
    simp only [X32.operands, e, Option.bind_some]
    rfl

/-- `test` with an immediate -/
theorem c93_testI {op : Operand} (hop : Ok op) (imm : BitVec 32) {w : List Act} (h : (testI op imm).Gives w ()) :
    op.bit ≠ 0 ∧ Reads w .test op.bit [.opd op, .imm (imm.setWidth 64)] := by
  unfold testI verifyMemHasSize at h
  rw [Enc.throwIf_bind] at h
  obtain ⟨hv, h⟩ := h
  have hb := size_ne0 hop hv
  have hmin : min (op.bit / 8) 4 = op.bit / 8 := by omega
  refine ⟨by omega, ?_⟩
  rw [hmin] at h
  simp only at h
  split at h
  · rename_i hc
    cases op with
    | mem a => have := hop.1.kind; simp [Operand.isREG, Operand.hd, Reg.isREG, this] at hc
    | reg r =>
      have hr : R32 r := hop
      have h0 : r.idx = 0 := by simp only [Bool.and_eq_true, beq_iff_eq] at hc; exact hc.2
      simp only [Enc.gives_bind, Enc.gives_db, Enc.gives_dbN, rex_nil hr] at h
      obtain ⟨_, _, _, rfl, ⟨_, _, _, rfl, rfl, rfl⟩, rfl⟩ := h
      obtain ⟨y, hy, hi⟩ := immZ_le hr.bit (imm.setWidth 64)
      have f : ∀ w, X32.form (0xA8 ||| sel w 1) = some (.accI .test w) := by decide +kernel
      have e8 : (!(Operand.reg r).isBit 8) = (r.bit != 8) := isBit8 (.inr hr.bit)
      refine ⟨pre (r.bit == 16) ++ (0xA8 ||| sel (r.bit != 8) 1) :: leBytes (r.bit / 8) (imm.setWidth 64), [.reg 0, .imm y],
        by rw [e8]; simp [Operand.bit, Operand.hd], ⟨by rw [Fits, Means, h0]; rfl, hy, trivial⟩, fun t => ?_⟩
      rw [List.append_assoc, List.cons_append, decode_pre _ _ _ _ (f _) (by simp)]
      simp only [X32.operands, size_eff (.inr hr.bit), eff_of hr.bit, hi, Option.map_some]
      rfl
  · rw [Enc.gives_bind] at h
    obtain ⟨w1, _, w2, g1, g2, rfl⟩ := h
    rw [Enc.gives_dbN] at g2
    subst g2
    obtain ⟨_, rfl⟩ := (opRext_flat hop _ 0 (by decide) 0 flat0 flatA 0xF6 w1).1 g1
    rw [← List.map_append]
    refine reads_imm hop hb 0xF6 0 _ .test .group3 (by decide +kernel) (by simp) ?_
    intro z w t x u e
    simp only [X32.operands, e, Option.bind_some]
    rfl

/-- What `getImmBit` chooses. -/
theorem getImmBit_gives {op : Operand} (hop : Ok op) (imm : BitVec 32) {w : List Act} {n : Nat} (h : (getImmBit op imm).Gives w n) :
    w = [] ∧ (op.bit = 8 ∨ op.bit = 16 ∨ op.bit = 32) ∧ (n = op.bit ∨ (n = 8 ∧ op.bit ≠ 8 ∧ isInDisp8 imm = true)) := by
  unfold getImmBit verifyMemHasSize at h
  simp only [Enc.throwIf_bind, Enc.gives_pure] at h
  obtain ⟨hv, h2, rfl, rfl⟩ := h
  have hb := size_ne0 hop hv
  refine ⟨rfl, hb, ?_⟩
  have b8 : op.isBit 8 = (op.bit == 8) := by
    show (op.bit &&& 8 != 0) = _
    rcases hb with e | e | e <;> rw [e] <;> rfl
  have b96 : op.isBit 96 = (op.bit == 32) := by
    show (op.bit &&& 96 != 0) = _
    rcases hb with e | e | e <;> rw [e] <;> rfl
  rw [b8] at h2 ⊢
  rw [b96]
  rcases hb with e | e | e <;> rw [e] at h2 ⊢ <;> cases h1 : isInDisp8 imm <;> cases h3 : E.isInDisp16relaxed imm <;> simp [h1, h3] at h2 ⊢

/-- add, or, adc, sbb, and, sub, xor, cmp with an immediate -/
theorem c93_aluI {op : Operand} (hop : Ok op) (n : BitVec 3) (imm : BitVec 32) {w : List Act}
    (h : (opOI op imm (n.setWidth 8 <<< 3) (n.setWidth 5)).Gives w ()) :
    op.bit ≠ 0 ∧ Reads w (.alu n) op.bit [.opd op, .imm (imm.setWidth 64)] := by
  have e0 : (n.setWidth 5).extractLsb' 0 3 = n := (by decide +kernel : ∀ n : BitVec 3, (n.setWidth 5).extractLsb' 0 3 = n) n
  have hn8 : (n.setWidth 5).toNat < 8 := (by decide +kernel : ∀ n : BitVec 3, (n.setWidth 5).toNat < 8) n
  unfold opOI at h
  rw [Enc.gives_bind] at h
  obtain ⟨w0, m, w3, g0, h, rfl⟩ := h
  obtain ⟨rfl, hb, hm⟩ := getImmBit_gives hop imm g0
  refine ⟨by omega, ?_⟩
  rw [List.nil_append]
  simp only at h
  split at h
  · rename_i hc
    simp only [Bool.and_eq_true, beq_iff_eq] at hc
    cases op with
    | mem a => have := hop.1.kind; simp [Operand.isREG, Operand.hd, Reg.isREG, this] at hc
    | reg r =>
      have hr : R32 r := hop
      have h0 : r.idx = 0 := hc.1.2
      have hmb : m = r.bit := hc.2.symm
      subst hmb
      simp only [Enc.gives_bind, Enc.gives_db, Enc.gives_dbN, rex_nil hr] at h
      obtain ⟨_, _, _, rfl, ⟨_, _, _, rfl, rfl, rfl⟩, rfl⟩ := h
      obtain ⟨y, hy, hi⟩ := immZ_le hr.bit (imm.setWidth 64)
      have f : X32.form (n.setWidth 8 <<< 3 ||| 4 ||| (if r.bit = 8 then 0 else 1)) = some (.accI (.alu n) (r.bit != 8)) := by
        have : (if r.bit = 8 then 0 else 1 : Byte) = sel (r.bit != 8) 1 := by rcases hr.bit with e | e | e <;> rw [e] <;> rfl
        rw [this]
        generalize (r.bit != 8) = b
        exact (by decide +kernel : ∀ (n : BitVec 3) b, X32.form (n.setWidth 8 <<< 3 ||| 4 ||| sel b 1) = some (.accI (.alu n) b)) n b
      refine ⟨pre (r.bit == 16) ++ (n.setWidth 8 <<< 3 ||| 4 ||| (if r.bit = 8 then 0 else 1)) :: leBytes (r.bit / 8) (imm.setWidth 64), [.reg 0, .imm y],
        by simp, ⟨by rw [Fits, Means, h0]; rfl, hy, trivial⟩, fun t => ?_⟩
      rw [List.append_assoc, List.cons_append, decode_pre _ _ _ _ f (by simp)]
      simp only [X32.operands, size_eff (.inr hr.bit), eff_of hr.bit, hi, Option.map_some]
      rfl
  · rw [Enc.gives_bind] at h
    obtain ⟨w1, _, w2, g1, g2, rfl⟩ := h
    rw [Enc.gives_dbN] at g2
    subst g2
    rcases hm with rfl | ⟨rfl, hn, h8⟩
    · have : ¬ op.bit < min op.bit 32 := by omega
      rw [if_neg this] at g1
      obtain ⟨_, rfl⟩ := (opRext_flat hop _ _ hn8 0 flat0 flatA _ w1).1 g1
      rw [← List.map_append]
      refine reads_imm hop hb _ _ _ (.alu n) (fun w => .group1 w false) (by decide +kernel) (by simp) ?_
      intro z w t x u e
      rw [e0] at e
      simp only [X32.operands, e, Option.bind_some]
      rfl
    · have : 8 < min op.bit 32 := by omega
      rw [if_pos this] at g1
      obtain ⟨_, rfl⟩ := (opRext_flat hop _ _ hn8 0 flat0 flatA _ w1).1 g1
      have hw : (op.bit != 8) = true := by simpa using hn
      rw [hw]
      obtain ⟨x, hx, _, hm⟩ := modrm_rm hop
      refine ⟨pre (op.bit == 16) ++ (0x80 ||| 2 ||| sel true 1) :: rmBytes op (n.setWidth 5) ++ [imm.setWidth 8], [x, .imm imm], ?_, ⟨hx, ?_, trivial⟩, fun t => ?_⟩
      · show _ ++ (leBytes 1 _).map _ = _
        rw [leBytes1]; simp
      · show imm.setWidth _ = (imm.setWidth 64).setWidth _
        rcases hb with e | e | e <;> rw [e] <;> (ext i hi; simp; try omega)
      · rw [List.append_assoc, List.append_assoc, List.cons_append, decode_pre _ _ _ (.group1 true true) (by decide +kernel) (by simp)]
        simp only [X32.operands, hm, Option.bind_some, e0, if_true, List.cons_append, List.nil_append, X32.imm8, sext8 imm h8, Option.map_some]
        have := size_eff hop.bit
        rw [hw] at this
        rw [this, eff_of hb]

/-- `push` of an immediate pushes 32 bits. -/
theorem c93_pushI (imm : BitVec 32) {w : List Act} (h : (pushI imm).Gives w ()) : Reads w .push 32 [.imm (imm.setWidth 64)] := by
  unfold pushI at h
  split at h
  · rename_i h8
    simp only [Enc.gives_bind, Enc.gives_db] at h
    obtain ⟨_, _, _, rfl, rfl, rfl⟩ := h
    refine ⟨[0x6A, imm.setWidth 8], [.imm imm], rfl, ⟨by simp [Fits], trivial⟩, fun t => ?_⟩
    show X32.decode (pre false ++ 0x6A :: _) = _
    rw [decode_pre false 0x6A _ (.pushI true) (by decide) (by simp)]
    simp [X32.operands, X32.imm8, sext8 imm h8]
  · simp only [Enc.gives_bind, Enc.gives_db, Enc.gives_dbN] at h
    obtain ⟨_, _, _, rfl, rfl, rfl⟩ := h
    refine ⟨0x68 :: leBytes 4 (imm.setWidth 64), [.imm imm], rfl, ⟨by simp [Fits], trivial⟩, fun t => ?_⟩
    show X32.decode (pre false ++ 0x68 :: _) = _
    rw [decode_pre false 0x68 _ (.pushI false) (by decide) (by simp)]
    simp [X32.operands, X32.immZ, imm32_le]

/-! ## test, xchg, lea, movzx, movsx, lds, les -/

/-- `test` of registers and memory -/
theorem c93_test {op : Operand} {r : Reg} (h1 : Ok op) (h2 : R32 r) {w : List Act} (h : (test op r).Gives w ()) :
    Sized r.bit op ∧ Reads w .test r.bit [.opd op, .opd (.reg r)] := by
  have f1 : ∀ w, X32.form (0x84 ||| sel w 1) = some (.rmR .test w) := by decide +kernel
  have h : (opRO_MR op (.reg r) 0x84).Gives w () := h
  rcases (opRO_MR_gives h1 (show Ok (.reg r) from h2) _ w).1 h with ⟨q, r', rfl, e', e, rfl⟩ | ⟨_, _, _, e', _⟩ | ⟨a, r', rfl, e', e, rfl⟩
  · cases e'
    have hq : R32 q := h1
    obtain ⟨x, hx, _, hm, hd⟩ := reads_rm h1 q.bit _ _ f1 (by simp)
    rw [e]
    refine ⟨.inl rfl, _, [x, .reg (r.idx.extractLsb' 0 3)], rfl, ⟨hx, rfl, trivial⟩, fun t => ?_⟩
    rw [hd]
    simp only [X32.operands, hm, Option.map_some, size_eff (.inr hq.bit), eff_of hq.bit]
  · cases e'
  · cases e'
    obtain ⟨x, hx, _, hm, hd⟩ := reads_rm h1 r.bit _ _ f1 (by simp)
    refine ⟨e.elim (fun h => .inr ⟨rfl, h⟩) .inl, _, [x, .reg (r.idx.extractLsb' 0 3)], rfl, ⟨hx, rfl, trivial⟩, fun t => ?_⟩
    rw [hd]
    simp only [X32.operands, hm, Option.map_some, size_eff (.inr h2.bit), eff_of h2.bit]

/-- Exchange is symmetric: the operands may be written in either order. -/
def ReadsSym (w : List Act) (op : X32.Op) (bits : Nat) (a b : Operand) : Prop :=
  Reads w op bits [.opd a, .opd b] ∨ Reads w op bits [.opd b, .opd a]

/-- `xchg`; the one-byte form does not compare sizes. -/
theorem c93_xchg_partial {op1 op2 : Operand} (h1 : Ok op1) (h2 : Ok op2) {w : List Act} (h : (xchg op1 op2).Gives w ())
    {bits : Nat} (s1 : Sized bits op1) (s2 : Sized bits op2) : ReadsSym w .xchg bits op1 op2 := by
  have key : ∀ {r : Reg} {o : Operand}, R32 r → Ok o → (opRO r o 0 (0x86 ||| sel (!(Operand.reg r).isBit 8) 1) (r.isREG && r.bit == o.bit)).Gives w () →
      Sized bits (.reg r) → Sized bits o → Reads w .xchg bits [.opd o, .opd (.reg r)] := by
    intro r o hr ho h s1 s2
    have e1 : r.bit = bits := s1.resolve_right (by rintro ⟨h, _⟩; cases h)
    have h : (opRO_MR o (.reg r) (0x86 ||| sel (!(Operand.reg r).isBit 8) 1)).Gives w () := by
      cases o with
      | mem a => exact h
      | reg q =>
        have hk : (q.kind == r.kind) = true := by rw [hr.kind, (show R32 q from ho).kind]; rfl
        simp only [opRO, Enc.throwIf_bind] at h
        simp only [opRO_MR, opRO, Enc.throwIf_bind, Operand.hd, hk]
        exact ⟨rfl, h.2⟩
    have e8 : (!(Operand.reg r).isBit 8) = (r.bit != 8) := isBit8 (.inr hr.bit)
    have idem : ∀ b, (0x86 ||| sel b 1 ||| sel b 1 : Byte) = 0x86 ||| sel b 1 := by decide +kernel
    have f1 : ∀ w, X32.form (0x86 ||| sel w 1) = some (.rmR .xchg w) := by decide +kernel
    obtain ⟨x, hx, _, hm, hd⟩ := reads_rm ho r.bit _ _ f1 (by simp)
    refine ⟨pre (r.bit == 16) ++ (0x86 ||| sel (r.bit != 8) 1) :: rmBytes o r.idx, [x, .reg (r.idx.extractLsb' 0 3)], ?_, ⟨hx, rfl, trivial⟩, fun t => ?_⟩
    · rw [e8] at h
      rcases (opRO_MR_gives ho (show Ok (.reg r) from hr) _ w).1 h with ⟨q, r', rfl, e', e, rfl⟩ | ⟨_, _, _, e', _⟩ | ⟨a, r', rfl, e', e, rfl⟩
      · cases e'; rw [← e, idem]
      · cases e'
      · cases e'; rw [idem]
    · rw [hd]
      simp only [X32.operands, hm, Option.map_some, size_eff (.inr hr.bit), eff_of hr.bit]
      rw [e1]
  have one : ∀ {r q : Reg}, R32 r → R32 q → (do rex (.reg q) (.reg r) 0; Enc.db (0x90 ||| (q.idx &&& 7).setWidth 8) : Enc Unit).Gives w () →
      (r.isREG 48 && r.idx == 0) = true → r.bit = bits → q.bit = bits → Reads w .xchg bits [.opd (.reg r), .opd (.reg q)] := by
    intro r q hr hq h hc e1 e2
    simp only [Bool.and_eq_true, beq_iff_eq] at hc
    simp only [Enc.gives_bind, Enc.gives_db, rex_rr q r hq.plain hr.plain 0 (by decide) (by decide)] at h
    obtain ⟨_, _, _, rfl, rfl, rfl⟩ := h
    have hp : ((q.isBit 16 && !r.isBit 32) || (r.isBit 16 && !q.isBit 32)) = (r.bit == 16) := pre_eq hr.bit (.inr (e2.trans e1.symm))
    have h16 : r.bit = 16 ∨ r.bit = 32 := hr.bit.resolve_left (by
      intro e; have := hc.1; simp [Reg.isREG, Reg.isBit, e] at this)
    refine ⟨pre (r.bit == 16) ++ [0x90 ||| (q.idx &&& 7).setWidth 8], [.reg 0, .reg (q.idx.extractLsb' 0 3)], ?_, ⟨?_, rfl, trivial⟩, fun t => ?_⟩
    · rw [hp, show Ty.has 0 T_66 = false from by decide, Bool.false_or]
      simp
    · rw [Fits, Means, hc.2]; rfl
    · have f : ∀ i : BitVec 5, X32.form (0x90 ||| (i &&& 7).setWidth 8) = some (.accPlus (i.extractLsb' 0 3)) := by decide +kernel
      rw [List.append_assoc, List.cons_append, decode_pre _ _ _ _ (f _) (by simp)]
      simp only [X32.operands, List.nil_append]
      rw [← e1]
      rcases h16 with e | e <;> rw [e] <;> rfl
  have nm : ∀ {r : Reg}, Sized bits (.reg r) → r.bit = bits := fun s => s.resolve_right (by rintro ⟨h, _⟩; cases h)
  unfold xchg at h
  cases op1 with
  | reg r =>
    have hr : R32 r := h1
    cases op2 with
    | reg q =>
      have hq : R32 q := h2
      have kr : r.isREG = true := by simp [Reg.isREG, hr.kind]
      have kq : q.isREG = true := by simp [Reg.isREG, hq.kind]
      by_cases hf : (q.isREG 48 && q.idx == 0) = true
      · simp only [Operand.isMEM, Bool.false_or, Operand.isREG, Operand.hd, hf, if_true, Enc.throwIf_bind, true_and, kr, Bool.true_and] at h
        exact .inr (one hq hr h hf (nm s2) (nm s1))
      · simp only [Operand.isMEM, Bool.false_or, Operand.isREG, Operand.hd, hf, if_false, Enc.throwIf_bind, true_and, kr, kq, Bool.true_and, Bool.false_eq_true] at h
        split at h
        · rename_i hc
          exact .inl (one hr hq h hc (nm s1) (nm s2))
        · exact .inl (key hq h1 h s2 s1)
    | mem a =>
      have km : a.o.isREG = false := by simp [Reg.isREG, h2.1.kind]
      have km' : a.o.isREG 48 = false := by simp [Reg.isREG, h2.1.kind]
      simp only [Operand.isMEM, Bool.false_or, Operand.isREG, Operand.hd, km, km', Bool.false_and, Bool.and_false, Bool.false_eq_true, if_false, Enc.throwIf_bind, true_and] at h
      exact .inr (key hr h2 h s1 s2)
  | mem a =>
    have km : a.o.isREG = false := by simp [Reg.isREG, h1.1.kind]
    cases op2 with
    | reg r =>
      have hr : R32 r := h2
      simp only [Operand.isMEM, Bool.true_or, if_true, Operand.isREG, Operand.hd, km, Bool.false_and, Bool.and_false, Bool.false_eq_true, if_false, Enc.throwIf_bind, true_and] at h
      exact .inl (key hr h1 h s2 s1)
    | mem b =>
      simp only [Operand.isMEM, Bool.true_or, if_true, Enc.throwIf_bind] at h
      exact absurd h.1 (by decide)

/-- `lea` -/
theorem c93_lea {r : Reg} {a : Addr} (hr : R32 r) (ha : Ok (.mem a)) {w : List Act} (h : (lea r a).Gives w ()) :
    (r.bit = 16 ∨ r.bit = 32) ∧ Reads w .lea r.bit [.opd (.reg r), .opd (.mem a)] := by
  unfold lea at h
  rw [Enc.throwIf_bind] at h
  obtain ⟨hb, h⟩ := h
  have hb : r.bit = 16 ∨ r.bit = 32 := hr.bit.resolve_left (by intro e; simp [Reg.isBit, e] at hb)
  have h : (opRO_MR (.mem a) (.reg r) 0x8D).Gives w () := h
  rcases (opRO_MR_gives ha (show Ok (.reg r) from hr) _ w).1 h with ⟨_, _, e', _⟩ | ⟨_, _, e', _⟩ | ⟨a', r', e', e2, e, rfl⟩
  · cases e'
  · cases e'
  · cases e'; cases e2
    refine ⟨hb, ?_⟩
    obtain ⟨x, hx, hxm, hm, hd⟩ := reads_rm ha r.bit 0x8D (fun _ => .rM .lea) (by decide +kernel) (by simp)
    cases x with
    | mem m =>
      refine ⟨_, [.reg (r.idx.extractLsb' 0 3), .mem m], rfl, ⟨rfl, hx, trivial⟩, fun t => ?_⟩
      rw [hd]
      simp only [X32.operands, hm, Option.bind_some]
      rcases hb with e | e <;> rw [e] <;> rfl
    | _ => cases hxm

theorem decode_pre2 (p : Bool) (c : Byte) (t : List Byte) (f : X32.Form) (hf : X32.form2 c = some f) :
    X32.decode (pre p ++ 0x0F :: c :: t) = X32.operands f (if p then 16 else 32) t := by
  have op : ∀ z, X32.opcode z (0x0F :: c :: t) = X32.operands f z t := by
    intro z
    simp only [X32.opcode, show X32.form 0x0F = some .esc from by decide, hf, Option.bind_some]
  rw [← op]
  cases p <;> rfl

/-- `movzx`, `movsx`: the source has the size of the operand, and memory without size is read as a byte. -/
theorem c93_movxx_partial {r : Reg} {op : Operand} (hr : R32 r) (hop : Ok op) (s : Bool) (h8 : r.bit ≠ 8) {w : List Act}
    (h : (opMovxx r op (if s then 0xBE else 0xB6)).Gives w ()) :
    op.bit < r.bit ∧ Reads w (if s then .movsx (if op.bit = 16 then 16 else 8) else .movzx (if op.bit = 16 then 16 else 8)) r.bit [.opd (.reg r), .opd op] := by
  unfold opMovxx at h
  simp only [Enc.throwIf_bind] at h
  obtain ⟨h32, hlt, h⟩ := h
  have hlt : op.bit < r.bit := by simpa [Reg.isREG, hr.kind] using hlt
  refine ⟨hlt, ?_⟩
  have hb : r.bit = 16 ∨ r.bit = 32 := hr.bit.resolve_left h8
  have ob : op.bit = 0 ∨ op.bit = 8 ∨ op.bit = 16 := by have := hop.bit; omega
  have wc : ∀ (c : Byte) (w : List Act), (E.writeCode (T_0F ||| T_ALLOW_DIFF_SIZE) r c false).Gives w () ↔ w = [.byte 0x0F, .byte c] := by
    intro c w
    unfold E.writeCode
    have t1 : Ty.has (T_0F ||| T_ALLOW_DIFF_SIZE) T_APX = false := by decide
    have t2 : Ty.has (T_0F ||| T_ALLOW_DIFF_SIZE) T_0F = true := by decide
    have t3 : ((T_0F ||| T_ALLOW_DIFF_SIZE) &&& T_SENTRY == 0 || Ty.has (T_0F ||| T_ALLOW_DIFF_SIZE) T_CODE1_IF1) = false := by decide
    simp only [Enc.dbIf_bind, Enc.gives_db, t1, t2, t3]
    simp [sel]
  have pf : ∀ {b c : Nat}, (b = 16 ∨ b = 32) → (c = 0 ∨ c = 8 ∨ c = 16) → c < b →
      ((c &&& 16 != 0 && !(b &&& 32 != 0)) || (b &&& 16 != 0 && !(c &&& 32 != 0))) = (b == 16) := by
    rintro b c (rfl | rfl) (rfl | rfl | rfl) hlt <;> first | rfl | exact absurd hlt (by decide)
  have bytes : w = (pre (r.bit == 16) ++ 0x0F :: ((if s then 0xBE else 0xB6) ||| sel (op.isBit 16) 1) :: rmBytes op r.idx).map .byte := by
    cases op with
    | mem a =>
      simp only [opRO, opMR, Enc.throwIf_bind] at h
      simp only [Enc.gives_bind, wc, opAddr_gives hop.1, rex_mr a r hop.1 hr.plain _ (by decide : Ty.has (T_0F ||| T_ALLOW_DIFF_SIZE) T_F2 = false)
        (by decide)] at h
      obtain ⟨_, _, _, _, rfl, ⟨_, _, _, rfl, rfl, rfl⟩, rfl⟩ := h
      have hp : (Ty.has (T_0F ||| T_ALLOW_DIFF_SIZE) T_66 || ((a.o.isBit 16 && !r.isBit 32) || (r.isBit 16 && !a.o.isBit 32))) = (r.bit == 16) := by
        rw [show Ty.has (T_0F ||| T_ALLOW_DIFF_SIZE) T_66 = false from by decide, Bool.false_or]
        exact pf hb ob hlt
      rw [hp]
      simp [rmBytes]
    | reg q =>
      have hq : R32 q := hop
      simp only [opRO, opRR, Enc.throwIf_bind] at h
      simp only [Enc.gives_bind, wc, E.setModRM, Enc.gives_db, rex_rr q r hq.plain hr.plain _ (by decide : Ty.has (T_0F ||| T_ALLOW_DIFF_SIZE) T_F2 = false)
        (by decide)] at h
      obtain ⟨_, _, _, _, _, _, rfl, ⟨_, _, _, rfl, rfl, rfl⟩, rfl⟩ := h
      have hp : (Ty.has (T_0F ||| T_ALLOW_DIFF_SIZE) T_66 || ((q.isBit 16 && !r.isBit 32) || (r.isBit 16 && !q.isBit 32))) = (r.bit == 16) := by
        rw [show Ty.has (T_0F ||| T_ALLOW_DIFF_SIZE) T_66 = false from by decide, Bool.false_or]
        exact pf hb ob hlt
      rw [hp]
      simp [rmBytes]
  obtain ⟨x, hx, _, hm⟩ := modrm_rm hop
  refine ⟨_, [.reg (r.idx.extractLsb' 0 3), x], bytes, ⟨rfl, hx, trivial⟩, fun t => ?_⟩
  have o16 : op.isBit 16 = (op.bit == 16) := by
    show (op.bit &&& 16 != 0) = _
    rcases ob with e | e | e <;> rw [e] <;> rfl
  have f : X32.form2 ((if s then 0xBE else 0xB6) ||| sel (op.isBit 16) 1) =
      some (.ext (if s then .movsx (if op.bit = 16 then 16 else 8) else .movzx (if op.bit = 16 then 16 else 8))) := by
    rw [o16]
    clear bytes
    rcases ob with e | e | e <;> rw [e] <;> cases s <;> decide +kernel
  rw [List.append_assoc, List.cons_append, List.cons_append, decode_pre2 _ _ _ _ f]
  simp only [X32.operands, hm, Option.map_some]
  rcases hb with e | e <;> rw [e] <;> rfl

/-- `lds`, `les`: the size of the memory operand takes part in choosing the prefix. -/
theorem c93_loadSeg_partial {r : Reg} {a : Addr} (hr : R32 r) (ha : Ok (.mem a)) (l : Bool) (hs : r.bit = 16 → a.o.bit ≠ 32) {w : List Act}
    (h : (if l then les r a else lds r a).Gives w ()) :
    (r.bit = 16 ∨ r.bit = 32) ∧ Reads w (if l then .les else .lds) r.bit [.opd (.reg r), .opd (.mem a)] := by
  have h : (opLoadSeg a r 0 (if l then 0xC4 else 0xC5)).Gives w () := by cases l <;> exact h
  unfold opLoadSeg at h
  rw [Enc.throwIf_bind] at h
  obtain ⟨hb, h⟩ := h
  have hb : r.bit = 16 ∨ r.bit = 32 := hr.bit.resolve_left (by intro e; simp [Reg.isBit, e] at hb)
  refine ⟨hb, ?_⟩
  simp only [Enc.gives_bind, Enc.gives_db, opAddr_gives ha.1, rex_mr a r ha.1 hr.plain 0 (by decide) (by decide), Enc.dbIf, show Ty.has 0 T_0F = false from by decide,
    Bool.false_eq_true, if_false] at h
  obtain ⟨_, _, _, rfl, ⟨_, _, _, ⟨rfl, _⟩, ⟨_, _, _, rfl, rfl, rfl⟩, rfl⟩, rfl⟩ := h
  have hp : (Ty.has 0 T_66 || ((a.o.isBit 16 && !r.isBit 32) || (r.isBit 16 && !a.o.isBit 32))) = (r.bit == 16) := by
    rw [show Ty.has 0 T_66 = false from by decide, Bool.false_or]
    show ((a.o.bit &&& 16 != 0 && !(r.bit &&& 32 != 0)) || (r.bit &&& 16 != 0 && !(a.o.bit &&& 32 != 0))) = _
    rcases hb with e | e
    · rcases ha.2 with e2 | e2 | e2 | e2
      · rw [e, e2]; rfl
      · rw [e, e2]; rfl
      · rw [e, e2]; rfl
      · exact absurd e2 (hs e)
    · rcases ha.2 with e2 | e2 | e2 | e2 <;> rw [e, e2] <;> rfl
  rw [hp]
  obtain ⟨x, hx, hxm, hm⟩ := modrm_rm ha
  cases x with
  | mem m =>
    refine ⟨pre (r.bit == 16) ++ (if l then 0xC4 else 0xC5) :: rmBytes (.mem a) r.idx, [.reg (r.idx.extractLsb' 0 3), .mem m],
      by simp [rmBytes, Enc.pure], ⟨rfl, hx, trivial⟩, fun t => ?_⟩
    have f : X32.form (if l then 0xC4 else 0xC5) = some (.rM (if l then .les else .lds)) := by cases l <;> decide +kernel
    rw [List.append_assoc, List.cons_append, decode_pre _ _ _ _ f (by simp)]
    simp only [X32.operands, hm, Option.bind_some]
    rcases hb with e | e <;> rw [e] <;> rfl
  | _ => cases hxm

/-- What the functions without operands are to be. -/
def named : List (String × X32.Op × List X32.Arg) :=
  [("aaa", .aaa, []), ("aad", .aad, [.imm 10]), ("aam", .aam, [.imm 10]), ("aas", .aas, []), ("daa", .daa, []), ("das", .das, []), ("into", .into, []),
   ("popad", .popa, []), ("popfd", .popf, []), ("pusha", .pusha, []), ("pushad", .pusha, []), ("pushfd", .pushf, []), ("popa", .popa, [])]

/-- Each function without operands writes its instruction. -/
theorem c93_fixed : fixed.map (·.1) = named.map (·.1) ∧
    ∀ p ∈ fixed.zip named, ∀ t, X32.decode (p.1.2 ++ t) = some (⟨p.2.2.1, 32, p.2.2.2⟩, t) := by
  refine ⟨by decide, ?_⟩
  simp only [fixed, named, List.zip_cons_cons, List.zip_nil_right, List.mem_cons, List.not_mem_nil, or_false]
  rintro p (rfl | rfl | rfl | rfl | rfl | rfl | rfl | rfl | rfl | rfl | rfl | rfl | rfl) t <;> rfl

/-! ## Where the natural statements fail -/

/-- An address without registers. -/
def at_ (bits : Nat) (d : Word) : Addr := { o := Addr.memOp bits, e := .ofDisp d }
/-- An address with one register. -/
def ind (bits : Nat) (i : BitVec 5) : Addr := { o := Addr.memOp bits, e := ⟨.gp i 32, .nil, 0, 0⟩ }

theorem at_ok (bits : Nat) (hb : bits = 0 ∨ bits = 8 ∨ bits = 16 ∨ bits = 32) (d : Word) : Ok (.mem (at_ bits d)) :=
  ⟨⟨rfl, rfl, rfl, .inl rfl, .inl rfl, fun h => absurd rfl h⟩, hb⟩
theorem ind_ok (bits : Nat) (hb : bits = 0 ∨ bits = 8 ∨ bits = 16 ∨ bits = 32) (i : BitVec 5) (hi : i.toNat < 8) : Ok (.mem (ind bits i)) :=
  ⟨⟨rfl, rfl, rfl, .inr ⟨rfl, gp_plain i hi (.inr (.inr (.inr rfl)))⟩, .inl rfl, fun h => absurd rfl h⟩, hb⟩

/-- `mov(ax, dword[0x1000])` is accepted and loads eax; `mov(dword[0x1000], ax)` stores four bytes; `mov(al, dword[0x1000])` loads one. -/
theorem c93_refuted_mov :
    (mov (.reg (.gp 0 16)) (.mem (at_ 32 0x1000))).Gives ([0xA1, 0, 0x10, 0, 0].map .byte) () ∧
    X32.decode [0xA1, 0, 0x10, 0, 0] = some (⟨.mov, 32, [.reg 0, .mem ⟨none, none, 0x1000⟩]⟩, []) ∧
    (mov (.mem (at_ 32 0x1000)) (.reg (.gp 0 16))).Gives ([0xA3, 0, 0x10, 0, 0].map .byte) () ∧
    X32.decode [0xA3, 0, 0x10, 0, 0] = some (⟨.mov, 32, [.mem ⟨none, none, 0x1000⟩, .reg 0]⟩, []) ∧
    (mov (.reg (.r8 0)) (.mem (at_ 32 0x1000))).Gives ([0xA0, 0, 0x10, 0, 0].map .byte) () ∧
    X32.decode [0xA0, 0, 0x10, 0, 0] = some (⟨.mov, 8, [.reg 0, .mem ⟨none, none, 0x1000⟩]⟩, []) ∧
    (mov (.reg (.gp 1 16)) (.mem (at_ 32 0x1000))).res = .error .BAD_MEM_SIZE := by
  refine ⟨⟨rfl, rfl⟩, rfl, ⟨rfl, rfl⟩, rfl, ⟨rfl, rfl⟩, rfl, rfl⟩

/-- `xchg(eax, cx)` exchanges eax and ecx, `xchg(ax, ah)` ax and sp. -/
theorem c93_refuted_xchg :
    (xchg (.reg (.gp 0 32)) (.reg (.gp 1 16))).Gives ([0x91].map .byte) () ∧ X32.decode [0x91] = some (⟨.xchg, 32, [.reg 0, .reg 1]⟩, []) ∧
    (xchg (.reg (.gp 0 16)) (.reg (.r8 4))).Gives ([0x66, 0x94].map .byte) () ∧ X32.decode [0x66, 0x94] = some (⟨.xchg, 16, [.reg 0, .reg 4]⟩, []) :=
  ⟨⟨rfl, rfl⟩, rfl, ⟨rfl, rfl⟩, rfl⟩

/-- `movzx(al, ptr[eax])` writes all of eax. -/
theorem c93_refuted_movxx :
    (opMovxx (.r8 0) (.mem (ind 0 0)) 0xB6).Gives ([0x0F, 0xB6, 0].map .byte) () ∧
    X32.decode [0x0F, 0xB6, 0] = some (⟨.movzx 8, 32, [.reg 0, .mem ⟨some 0, none, 0⟩]⟩, []) := ⟨⟨rfl, rfl⟩, rfl⟩

/-- `les(ax, dword[ecx])` loads eax, although m16:16 has 32 bits. -/
theorem c93_refuted_loadSeg :
    (les (.gp 0 16) (ind 32 1)).Gives ([0xC4, 1].map .byte) () ∧ X32.decode [0xC4, 1] = some (⟨.les, 32, [.reg 0, .mem ⟨some 1, none, 0⟩]⟩, []) := ⟨⟨rfl, rfl⟩, rfl⟩

/-- `jmp(byte[eax])` is accepted and reads four bytes. -/
theorem c93_refuted_jmp :
    (opJmpOp (.mem (ind 8 0)) false 4).Gives ([0xFF, 0x20].map .byte) () ∧ X32.decode [0xFF, 0x20] = some (⟨.jmp, 32, [.mem ⟨some 0, none, 0⟩]⟩, []) :=
  ⟨⟨rfl, rfl⟩, rfl⟩

/-- Operands as named by users satisfy the hypotheses, and the conclusions are about real encodings: `add(word[ecx], ax)`, `dec(esi)`, `mov(eax, [0x1000])`,
`cmp(dword[ecx], -2)`. -/
theorem c93_example :
    Ok (.mem (ind 16 1)) ∧ Ok (.reg (.gp 0 16)) ∧ Ok (.mem (at_ 0 0x1000)) ∧
    (opRO_MR (.mem (ind 16 1)) (.reg (.gp 0 16)) 0).Gives ([0x66, 0x01, 0x01].map .byte) () ∧
    X32.decode [0x66, 0x01, 0x01] = some (⟨.alu 0, 16, [.mem ⟨some 1, none, 0⟩, .reg 0]⟩, []) ∧
    (opIncDec (.reg (.gp 6 32)) 1).Gives ([0x4E].map .byte) () ∧ X32.decode [0x4E] = some (⟨.dec, 32, [.reg 6]⟩, []) ∧
    (mov (.reg (.gp 0 32)) (.mem (at_ 0 0x1000))).Gives ([0xA1, 0, 0x10, 0, 0].map .byte) () ∧
    (opOI (.mem (ind 32 1)) (-2) 0x38 7).Gives ([0x83, 0x39, 0xFE].map .byte) () ∧
    X32.decode [0x83, 0x39, 0xFE] = some (⟨.alu 7, 32, [.mem ⟨some 1, none, 0⟩, .imm (-2)]⟩, []) :=
  ⟨ind_ok 16 (by decide) 1 (by decide), ⟨rfl, by decide, by decide, rfl, rfl, rfl⟩, at_ok 0 (by decide) _, ⟨rfl, rfl⟩, rfl, ⟨rfl, rfl⟩, rfl, ⟨rfl, rfl⟩, ⟨rfl, rfl⟩, rfl⟩

end Xbyak.E32
