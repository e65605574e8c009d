import Verif.X32
import Verif.Sib
import Verif.Spec.X32
/-!
# Lemmas on the 32-bit build: bytes written, and reading them back
-/
namespace Xbyak
namespace E32
open E (rexRXB writeCode setModRM dispForm scaleBits isBadCombination verifyMemHasSize getImmBit sel modRM dispBytes)
open Enc (throwIf db dbIf dbN lift Gives)

/-- A register of 32-bit mode or no register, without EVEX flags. -/
structure Plain (r : Reg) : Prop where
  idx : r.idx.toNat < 8
  ext8 : r.ext8 = false
  nf : r.nf = false
  zu : r.zu = false
  q : r.isREG 64 = false

theorem Plain.bit3 {r : Reg} (h : Plain r) : r.idx.getLsbD 3 = false := by
  have := h.idx; generalize r.idx = i at *; revert i; decide +kernel

theorem Plain.nil : Plain .nil := by constructor <;> decide

/-- A general purpose register of 32-bit mode: al, cl, dl, bl, ah, ch, dh, bh, ax, …, eax, …. -/
structure R32 (r : Reg) : Prop where
  kind : r.kind = .reg
  bit : r.bit = 8 ∨ r.bit = 16 ∨ r.bit = 32
  idx : r.idx.toNat < 8
  ext8 : r.ext8 = false
  nf : r.nf = false
  zu : r.zu = false

theorem R32.plain {r : Reg} (h : R32 r) : Plain r := by
  refine ⟨h.idx, h.ext8, h.nf, h.zu, ?_⟩
  rcases h.bit with e | e | e <;> simp [Reg.isREG, Reg.isBit, e]

/-- An address of this build: base and index are 32-bit registers, esp is no index. -/
structure A32 (a : Addr) : Prop where
  kind : a.o.kind = .mem
  nf : a.o.nf = false
  zu : a.o.zu = false
  base : a.e.base = .nil ∨ (a.e.base.bit = 32 ∧ Plain a.e.base)
  index : a.e.index = .nil ∨ (a.e.index.bit = 32 ∧ Plain a.e.index ∧ a.e.index.idx ≠ 4)
  scale : a.e.index ≠ .nil → a.e.scale = 1 ∨ a.e.scale = 2 ∨ a.e.scale = 4 ∨ a.e.scale = 8

/-- The address meant, given the register contents; displacements count modulo 2^32. -/
def meant (e : RegExp) (g : BitVec 3 → BitVec 32) : BitVec 32 :=
  (if e.base.bit = 0 then 0 else g (e.base.idx.extractLsb' 0 3)) +
  (if e.index.bit = 0 then 0 else g (e.index.idx.extractLsb' 0 3) * BitVec.ofInt 32 e.scale) + lo32 e.disp

theorem opt_A32 {a : Addr} (h : A32 a) : A32 { a with e := a.getRegExp, opt := false } := by
  unfold Addr.getRegExp
  split
  · unfold RegExp.optimize
    split
    · rename_i hc
      simp only [Bool.and_eq_true, beq_iff_eq, decide_eq_true_eq] at hc
      have hi : a.e.index ≠ .nil := by intro e; rw [e] at hc; exact absurd hc.1.1 (by decide)
      have := h.index.resolve_left hi
      exact ⟨h.kind, h.nf, h.zu, .inr ⟨this.1, this.2.1⟩, .inr this, fun _ => .inl rfl⟩
    · exact ⟨h.kind, h.nf, h.zu, h.base, h.index, h.scale⟩
  · exact ⟨h.kind, h.nf, h.zu, h.base, h.index, h.scale⟩

theorem opt_meant (a : Addr) (g : BitVec 3 → BitVec 32) : meant a.getRegExp g = meant a.e g := by
  unfold Addr.getRegExp
  split
  · unfold RegExp.optimize
    split
    · rename_i hc
      simp only [Bool.and_eq_true, beq_iff_eq, decide_eq_true_eq] at hc
      obtain ⟨⟨hi, hb⟩, hs⟩ := hc
      have ib : a.e.index.bit ≠ 0 := by intro e; simp [Reg.isBit, e] at hi
      unfold meant
      rw [hs, hb]
      simp only [if_neg ib, if_true]
      generalize g (a.e.index.idx.extractLsb' 0 3) = x
      have : x * BitVec.ofInt 32 2 = x + x := by
        show x * 2#32 = _
        rw [BitVec.mul_two]
      rw [this, show BitVec.ofInt 32 1 = 1#32 from rfl, BitVec.mul_one]
      have z : ∀ y : BitVec 32, 0 + y = y := fun y => BitVec.zero_add y
      rw [z]
    · rfl
  · rfl

/-! ## ModRM -/

/-- Bytes of `setSIB`. -/
def sib32 (e : RegExp) (reg : BitVec 5) : List Byte :=
  let md := dispForm e.base (lo32 e.disp) 0
  let nb : BitVec 5 := if e.base.bit ≠ 0 then e.base.idx &&& 7 else 5
  (if e.index.bit ≠ 0 || e.base.idx &&& 7 == 4 then
    [modRM md.1 reg 4, modRM (scaleBits e.scale) (if e.index.bit ≠ 0 then e.index.idx &&& 7 else 4) nb]
  else [modRM md.1 reg nb]) ++ dispBytes md.1 md.2 (e.base.bit == 0)

theorem setSIB_gives (e : RegExp) (reg : BitVec 5) (w : List Act) :
    (setSIB e reg).Gives w () ↔ w = (sib32 e reg).map .byte := by
  have tail : ∀ (mod : BitVec 2) (d : BitVec 32) (w : List Act),
      (if mod = 1 then db (d.setWidth 8) else if mod = 2 ∨ (mod = 0 ∧ e.base.bit = 0) then dbN (d.setWidth 64) 4
        else (pure () : Enc Unit)).Gives w () ↔ w = (dispBytes mod d (e.base.bit == 0)).map .byte := by
    intro mod d w
    unfold dispBytes
    simp only [beq_iff_eq]
    split
    · exact Enc.gives_db
    · split
      · exact Enc.gives_dbN
      · rw [Enc.gives_pure]; exact ⟨fun h => h.1, fun h => ⟨h, rfl⟩⟩
  unfold setSIB sib32
  simp only [setModRM]
  generalize dispForm e.base (lo32 e.disp) 0 = md
  generalize (if e.base.bit ≠ 0 then e.base.idx &&& 7 else 5) = nb
  by_cases hs : (decide (e.index.bit ≠ 0) || e.base.idx &&& 7 == 4) = true
  · rw [if_pos hs, if_pos hs]
    simp only [Enc.db_bind, tail]
    constructor
    · rintro ⟨_, rfl, _, rfl, rfl⟩; rfl
    · rintro rfl; exact ⟨_, rfl, _, rfl, rfl⟩
  · rw [if_neg hs, if_neg hs]
    simp only [Enc.db_bind, tail]
    constructor
    · rintro ⟨_, rfl, rfl⟩; rfl
    · rintro rfl; exact ⟨_, rfl, rfl⟩

theorem opAddr_gives {a : Addr} (h : A32 a) (reg : BitVec 5) (w : List Act) :
    (opAddr a reg).Gives w () ↔ w = (sib32 a.getRegExp reg).map .byte := by
  have hv : a.isVsib = false := by
    unfold Addr.isVsib RegExp.isVsib
    rcases h.index with e | ⟨e, _⟩
    · rw [e]; rfl
    · simp [Reg.isBit, e]
  unfold opAddr
  rw [Enc.throwIf_bind, setSIB_gives, hv]
  simp

theorem imm32_le (d : BitVec 32) (t : List Byte) : X32.imm32 (leBytes 4 (d.setWidth 64) ++ t) = some (d, t) := by
  rw [E.fromLE4]
  simp only [List.cons_append, List.nil_append, X32.imm32, Option.some.injEq, Prod.mk.injEq, and_true]
  ext i hi
  simp only [BitVec.getElem_or, BitVec.getElem_setWidth, BitVec.getElem_shiftLeft, BitVec.getLsbD_setWidth, BitVec.getLsbD_ushiftRight]
  by_cases h1 : i < 8
  · simp [h1, show i < 16 by omega, show i < 24 by omega, BitVec.getLsbD_eq_getElem hi]
  · by_cases h2 : i < 16
    · simp [h1, h2, show i < 24 by omega, show i - 8 < 8 by omega, show 8 + (i - 8) = i by omega, hi]
    · by_cases h3 : i < 24
      · simp [h1, h2, h3, show ¬ i - 8 < 8 by omega, show i - 16 < 8 by omega, show 16 + (i - 16) = i by omega, hi]
      · simp [h1, h2, h3, show ¬ i - 8 < 8 by omega, show ¬ i - 16 < 8 by omega, show i - 24 < 8 by omega, show 24 + (i - 24) = i by omega, hi]

theorem sext8 (d : BitVec 32) (h : isInDisp8 d = true) : (d.setWidth 8).signExtend 32 = d := by
  have h := (isInDisp8_iff d).1 h
  apply BitVec.eq_of_toInt_eq
  rw [BitVec.toInt_signExtend_of_le (by decide), BitVec.toInt_setWidth]
  have := d.isLt
  rw [BitVec.toInt_eq_toNat_cond] at h ⊢
  rw [Int.bmod_def]
  split at h <;> rename_i hc <;> simp only [hc, if_true, if_false] <;> split <;> omega

theorem displacement_form (base : Reg) (d : BitVec 32) (t : List Byte) :
    X32.displacement (dispForm base d 0).1 (base.bit == 0) (dispBytes (dispForm base d 0).1 (dispForm base d 0).2 (base.bit == 0) ++ t) = some (d, t) := by
  unfold dispForm
  split
  · rename_i h
    by_cases hb : base.bit = 0
    · simp only [hb, X32.displacement, dispBytes]
      simpa using imm32_le d t
    · have h0 : d = 0 := by rcases h with h | h; exact absurd h hb; exact h.2
      simp [hb, X32.displacement, dispBytes, h0]
  · simp only [if_true]
    split
    · rename_i h8
      simp [X32.displacement, dispBytes, X32.imm8, sext8 d h8]
    · simp only [X32.displacement, dispBytes]
      simpa using imm32_le d t

/-- What an operand argument means. -/
def Means : Operand → X32.Arg → Prop
  | .reg r, .reg n => n = r.idx.extractLsb' 0 3
  | .mem a, .mem m => ∀ g, m.ea g = meant a.e g
  | _, _ => False

/-- Operands of this build. -/
def Ok : Operand → Prop
  | .reg r => R32 r
  | .mem a => A32 a ∧ (a.o.bit = 0 ∨ a.o.bit = 8 ∨ a.o.bit = 16 ∨ a.o.bit = 32)

/-- ModRM, SIB and displacement of an operand. -/
def rmBytes (op : Operand) (reg : BitVec 5) : List Byte :=
  match op with
  | .reg q => [modRM 3 reg q.idx]
  | .mem a => sib32 a.getRegExp reg

theorem modrm_reg (reg i : BitVec 5) (t : List Byte) :
    X32.modrm (modRM 3 reg i :: t) = some (reg.extractLsb' 0 3, .reg (i.extractLsb' 0 3), t) := by
  simp [X32.modrm, E.modRM_mod, E.modRM_reg, E.modRM_rm]

/-- What `modrm` yields for the bytes of `setSIB`. -/
theorem modrm_sib {a : Addr} (h : A32 a) :
    ∃ m : X32.Mem, (∀ g, m.ea g = meant a.e g) ∧ ∀ reg t, X32.modrm (sib32 a.e reg ++ t) = some (reg.extractLsb' 0 3, .mem m, t) := by
  have n0 : (Reg.nil).bit = 0 := rfl
  have hd := displacement_form a.e.base (lo32 a.e.disp)
  have hm0 := E.dispForm_mod0 a.e.base (lo32 a.e.disp) 0
  have hm3 := E.dispForm_ne3 a.e.base (lo32 a.e.disp) 0
  have hnb : a.e.base.bit = 0 → (dispForm a.e.base (lo32 a.e.disp) 0).1 = 0 := by intro e; simp [dispForm, e]
  unfold sib32
  generalize hmd : dispForm a.e.base (lo32 a.e.disp) 0 = md at *
  obtain ⟨mod, dv⟩ := md
  simp only at *
  refine ⟨⟨if a.e.base.bit = 0 then none else some (a.e.base.idx.extractLsb' 0 3),
    if a.e.index.bit = 0 then none else some (a.e.index.idx.extractLsb' 0 3, 2 ^ (scaleBits a.e.scale).toNat), lo32 a.e.disp⟩, ?_, ?_⟩
  · intro g
    unfold X32.Mem.ea meant
    by_cases hi : a.e.index.bit = 0
    · by_cases hb : a.e.base.bit = 0 <;> simp [hi, hb]
    · have hi' : a.e.index ≠ .nil := by intro e; rw [e] at hi; exact hi n0
      have hs : BitVec.ofNat 32 (2 ^ (scaleBits a.e.scale).toNat) = BitVec.ofInt 32 a.e.scale := by
        rcases h.scale hi' with e | e | e | e <;> rw [e] <;> rfl
      by_cases hb : a.e.base.bit = 0 <;> simp only [hi, hb, if_true, if_false, Option.map_some, Option.map_none, Option.getD_some, Option.getD_none, hs]
  · intro reg t
    by_cases hs : (decide (a.e.index.bit ≠ 0) || a.e.base.idx &&& 7 == 4) = true
    · rw [if_pos hs]
      simp only [List.cons_append, List.nil_append, X32.modrm, E.modRM_mod, E.modRM_reg, E.modRM_rm]
      rw [if_neg hm3, if_pos (by decide)]
      have nbase : (mod = 0 ∧ (if a.e.base.bit ≠ 0 then a.e.base.idx &&& 7 else 5 : BitVec 5).extractLsb' 0 3 = 5) ↔ a.e.base.bit = 0 := by
        by_cases hb : a.e.base.bit = 0
        · simp [hb, hnb hb]
        · simp only [hb, ne_eq, not_false_eq_true, if_true, E.and7_low, iff_false, not_and]
          intro m0 h5
          exact hm0 hb m0 ((E.and7_eq _ 5 (by decide)).2 h5)
      simp only [nbase]
      rw [show decide (a.e.base.bit = 0) = (a.e.base.bit == 0) from rfl, hd t]
      simp only [Option.map_some, Option.some.injEq, Prod.mk.injEq, true_and, and_true, X32.Arg.mem.injEq, X32.Mem.mk.injEq]
      constructor
      · split
        · rfl
        · rw [E.and7_low]
      · by_cases hi : a.e.index.bit = 0
        · simp [hi]
        · have hi' : a.e.index ≠ .nil := by intro e; rw [e] at hi; exact hi n0
          have h4 := (h.index.resolve_left hi').2
          have : a.e.index.idx.extractLsb' 0 3 ≠ 4 := by
            intro e
            have h8 := h4.1.idx
            have h4' := h4.2
            clear h4
            generalize a.e.index.idx = i at e h8 h4'
            revert i; decide +kernel
          rw [if_pos hi, E.and7_low, if_neg this, if_neg hi]
    · rw [if_neg hs]
      simp only [Bool.or_eq_true, decide_eq_true_eq, beq_iff_eq, not_or, ne_eq, Decidable.not_not] at hs
      have n4 : (if a.e.base.bit ≠ 0 then a.e.base.idx &&& 7 else 5 : BitVec 5).extractLsb' 0 3 ≠ 4 := by
        by_cases hb : a.e.base.bit = 0
        · simp [hb]
        · simp only [hb, ne_eq, not_false_eq_true, if_true, E.and7_low]
          intro h5
          exact hs.2 ((E.and7_eq _ 4 (by decide)).2 h5)
      simp only [List.cons_append, List.nil_append, X32.modrm, E.modRM_mod, E.modRM_reg, E.modRM_rm]
      rw [if_neg hm3, if_neg n4]
      have nbase : (mod = 0 ∧ (if a.e.base.bit ≠ 0 then a.e.base.idx &&& 7 else 5 : BitVec 5).extractLsb' 0 3 = 5) ↔ a.e.base.bit = 0 := by
        by_cases hb : a.e.base.bit = 0
        · simp [hb, hnb hb]
        · simp only [hb, ne_eq, not_false_eq_true, if_true, E.and7_low, iff_false, not_and]
          intro m0 h5
          exact hm0 hb m0 ((E.and7_eq _ 5 (by decide)).2 h5)
      simp only [nbase]
      rw [show decide (a.e.base.bit = 0) = (a.e.base.bit == 0) from rfl, hd t]
      simp only [Option.map_some, Option.some.injEq, Prod.mk.injEq, true_and, and_true, X32.Arg.mem.injEq, X32.Mem.mk.injEq]
      constructor
      · split
        · rfl
        · rw [E.and7_low]
      · simp [hs.1]

theorem modrm_rm {op : Operand} (h : Ok op) :
    ∃ x, Means op x ∧ x.isMem = op.isMEM ∧ ∀ reg t, X32.modrm (rmBytes op reg ++ t) = some (reg.extractLsb' 0 3, x, t) := by
  cases op with
  | reg r => exact ⟨.reg (r.idx.extractLsb' 0 3), rfl, rfl, fun reg t => modrm_reg reg r.idx t⟩
  | mem a =>
    obtain ⟨m, hm, h2⟩ := modrm_sib (opt_A32 h.1)
    exact ⟨.mem m, fun g => by rw [hm g]; exact opt_meant a g, rfl, h2⟩

/-! ## Bytes before ModRM -/

/-- The operand size prefix. -/
def pre (p : Bool) : List Byte := if p then [0x66] else []

theorem rxb (r b x : Reg) (q : Bool) (hr : Plain r) (hb : Plain b) (hx : Plain x) (hq : q = false) : rexRXB 3 q r b x = 0 := by
  unfold rexRXB sel
  rw [hr.bit3, hb.bit3, hx.bit3, hq]; rfl

theorem A32.regs {a : Addr} (h : A32 a) : Plain a.getRegExp.base ∧ Plain a.getRegExp.index := by
  have h := opt_A32 h
  constructor
  · rcases h.base with e | e
    · simp only at e; rw [e]; exact .nil
    · exact e.2
  · rcases h.index with e | e
    · simp only at e; rw [e]; exact .nil
    · exact e.2.1

theorem rex_rr (r1 r2 : Reg) (h1 : Plain r1) (h2 : Plain r2) (ty : Ty) (f2 : ty.has T_F2 = false) (f3 : ty.has T_F3 = false) (w : List Act) :
    (rex (.reg r1) (.reg r2) ty).Gives w () ↔
      w = (pre (ty.has T_66 || ((r1.isBit 16 && !r2.isBit 32) || (r2.isBit 16 && !r1.isBit 32)))).map .byte := by
  unfold rex
  simp only [Enc.throwIf_bind, Enc.dbIf_bind, Operand.hd, h1.nf, h2.nf, h1.zu, h2.zu, Operand.isMEM, f2, f3, Operand.isBit,
    rxb r2 r1 .nil _ h2 h1 .nil (by rw [h1.q, h2.q]; rfl : (r1.isREG 64 || r2.isREG 64) = false), h1.ext8, h2.ext8, pre]
  simp [Enc.gives_dbIf]

theorem rex_mr (a : Addr) (r : Reg) (h1 : A32 a) (h2 : Plain r) (ty : Ty) (f2 : ty.has T_F2 = false) (f3 : ty.has T_F3 = false) (w : List Act) :
    (rex (.mem a) (.reg r) ty).Gives w () ↔
      w = (pre (ty.has T_66 || ((a.o.isBit 16 && !r.isBit 32) || (r.isBit 16 && !a.o.isBit 32)))).map .byte := by
  have hr := h1.regs
  unfold rex
  simp only [Enc.throwIf_bind, Enc.dbIf_bind, Operand.hd, h1.nf, h2.nf, h1.zu, h2.zu, Operand.isMEM, f2, f3, Operand.isBit, if_true,
    rxb r _ _ _ h2 hr.1 hr.2 h2.q, h2.ext8, Enc.gives_dbIf, pre]
  simp

theorem rex_rm (a : Addr) (r : Reg) (h1 : A32 a) (h2 : Plain r) (ty : Ty) (f2 : ty.has T_F2 = false) (f3 : ty.has T_F3 = false) (w : List Act) :
    (rex (.reg r) (.mem a) ty).Gives w () ↔
      w = (pre (ty.has T_66 || ((r.isBit 16 && !a.o.isBit 32) || (a.o.isBit 16 && !r.isBit 32)))).map .byte := by
  have hr := h1.regs
  unfold rex
  simp only [Enc.throwIf_bind, Enc.dbIf_bind, Operand.hd, h1.nf, h2.nf, h1.zu, h2.zu, Operand.isMEM, f2, f3, Operand.isBit, if_false, Bool.false_eq_true,
    rxb r _ _ _ h2 hr.1 hr.2 h2.q, h2.ext8, Enc.gives_dbIf, pre]
  simp

/-- Type flags without prefix and escape: the opcode byte is `code`, with bit 0 for operands other than bytes. -/
structure Flat (ty : Ty) : Prop where
  p66 : ty.has T_66 = false
  f2 : ty.has T_F2 = false
  f3 : ty.has T_F3 = false
  esc : (!(ty.has T_APX) && (ty.has T_0F || ty.has T_0F38 || ty.has T_0F3A)) = false
  w : (ty &&& T_SENTRY == 0 || ty.has T_CODE1_IF1) = true

theorem writeCode_flat (ty : Ty) (h : Flat ty) (r : Reg) (code : Byte) (w : List Act) :
    (writeCode ty r code false).Gives w () ↔ w = [.byte (code ||| sel (!r.isBit 8) 1)] := by
  have := h.esc
  unfold writeCode
  simp only [Enc.dbIf_bind, Enc.gives_db, h.w, Bool.true_and, Bool.or_false]
  revert this
  generalize ty.has T_APX = a, ty.has T_0F = b, ty.has T_0F38 = c, ty.has T_0F3A = d
  intro this
  have e1 : (!a && (b || !b && c || !b && !(!b && c) && d)) = false := by revert a b c d; decide
  have e2 : (!a && (!b && c)) = false := by revert a b c d; decide
  have e3 : (!a && (!b && !(!b && c) && d)) = false := by revert a b c d; decide
  rw [e1, e2, e3]
  simp

theorem opRR_flat (r1 r2 : Reg) (h1 : Plain r1) (h2 : Plain r2) (ty : Ty) (h : Flat ty) (code : Byte) (w : List Act) :
    (opRR r1 r2 ty code).Gives w () ↔
      (!ty.has T_ALLOW_DIFF_SIZE && r1.isREG && r2.isREG && r1.bit != r2.bit) = false ∧
      w = (pre ((r2.isBit 16 && !r1.isBit 32) || (r1.isBit 16 && !r2.isBit 32)) ++ (code ||| sel (!r1.isBit 8) 1) :: [modRM 3 r1.idx r2.idx]).map .byte := by
  have bad : ∀ a b : Reg, Plain b → isBadCombination a b = false := by
    intro a b hb
    have := hb.idx
    simp [isBadCombination, hb.ext8]
    intro _; omega
  unfold opRR
  rw [Enc.throwIf_bind]
  apply and_congr Iff.rfl
  rw [Enc.throwIf_bind, bad r1 r2 h2, bad r2 r1 h1]
  simp only [Bool.or_self, Bool.and_false, true_and, Enc.gives_bind, setModRM, Enc.gives_db, writeCode_flat ty h, h.p66, Bool.false_or,
    rex_rr r2 r1 h2 h1 ty h.f2 h.f3]
  constructor
  · rintro ⟨_, _, _, rfl, ⟨_, _, _, rfl, rfl, rfl⟩, rfl⟩; simp
  · rintro rfl; exact ⟨_, (), _, rfl, ⟨_, (), _, rfl, rfl, rfl⟩, by simp⟩

theorem opMR_flat (a : Addr) (r : Reg) (h1 : A32 a) (h2 : Plain r) (ty : Ty) (h : Flat ty) (code : Byte) (w : List Act) :
    (opMR a r ty code).Gives w () ↔
      (!ty.has T_ALLOW_DIFF_SIZE && decide (r.bit ≤ 32) && decide (a.o.bit > 0) && a.o.bit != r.bit) = false ∧
      w = (pre ((a.o.isBit 16 && !r.isBit 32) || (r.isBit 16 && !a.o.isBit 32)) ++ (code ||| sel (!r.isBit 8) 1) :: rmBytes (.mem a) r.idx).map .byte := by
  unfold opMR
  rw [Enc.throwIf_bind]
  apply and_congr Iff.rfl
  simp only [Enc.gives_bind, writeCode_flat ty h, h.p66, Bool.false_or, rex_mr a r h1 h2 ty h.f2 h.f3, opAddr_gives h1, rmBytes]
  constructor
  · rintro ⟨_, _, _, rfl, ⟨_, _, _, rfl, rfl, rfl⟩, rfl⟩; simp
  · rintro rfl; exact ⟨_, (), _, rfl, ⟨_, (), _, rfl, rfl, rfl⟩, by simp⟩

/-! ## Reading the opcode -/

theorem decode_pre (p : Bool) (b : Byte) (t : List Byte) (f : X32.Form) (hf : X32.form b = some f) (he : f ≠ .esc) :
    X32.decode (pre p ++ b :: t) = X32.operands f (if p then 16 else 32) t := by
  have hb : b ≠ 0x66 := by intro e; rw [e] at hf; exact absurd hf (by rw [show X32.form 0x66 = none from by decide]; simp)
  have op : ∀ z, X32.opcode z (b :: t) = X32.operands f z t := by
    intro z
    unfold X32.opcode
    simp only [hf]
  cases p
  · simp only [pre, Bool.false_eq_true, if_false, List.nil_append]
    rw [← op]
    unfold X32.decode
    split
    · rename_i h; cases h; exact absurd rfl hb
    · rfl
  · simp only [pre, if_true, List.cons_append, List.nil_append]
    rw [← op]; rfl

/-! ## Operand sizes -/

/-- Size of the operation for an operand: 32 for memory without size. -/
def eff (b : Nat) : Nat := if b = 0 then 32 else b

theorem pre_eq {b c : Nat} (h : b = 8 ∨ b = 16 ∨ b = 32) (hc : c = 0 ∨ c = b) :
    ((c &&& 16 != 0 && !(b &&& 32 != 0)) || (b &&& 16 != 0 && !(c &&& 32 != 0))) = (b == 16) := by
  rcases h with rfl | rfl | rfl <;> rcases hc with rfl | rfl <;> decide

theorem pre_eq' {b c : Nat} (h : b = 8 ∨ b = 16 ∨ b = 32) (hc : c = 0 ∨ c = b) :
    ((b &&& 16 != 0 && !(c &&& 32 != 0)) || (c &&& 16 != 0 && !(b &&& 32 != 0))) = (b == 16) := by
  rcases h with rfl | rfl | rfl <;> rcases hc with rfl | rfl <;> decide

theorem isBit8 {r : Reg} (h : r.bit = 0 ∨ r.bit = 8 ∨ r.bit = 16 ∨ r.bit = 32) : (!r.isBit 8) = (r.bit != 8) := by
  unfold Reg.isBit
  rcases h with e | e | e | e <;> rw [e] <;> decide

theorem size_eff {b : Nat} (h : b = 0 ∨ b = 8 ∨ b = 16 ∨ b = 32) : X32.size (if (b == 16) = true then 16 else 32) (b != 8) = eff b := by
  rcases h with rfl | rfl | rfl | rfl <;> decide

theorem eff_of {b : Nat} (h : b = 8 ∨ b = 16 ∨ b = 32) : eff b = b := by
  rcases h with rfl | rfl | rfl <;> rfl

theorem Ok.bit {op : Operand} (h : Ok op) : op.bit = 0 ∨ op.bit = 8 ∨ op.bit = 16 ∨ op.bit = 32 := by
  cases op with
  | reg r => exact .inr (show R32 r from h).bit
  | mem a => exact h.2

theorem gp_plain (ext : BitVec 5) (he : ext.toNat < 8) {b : Nat} (h : b = 0 ∨ b = 8 ∨ b = 16 ∨ b = 32) : Plain (.gp ext b) := by
  refine ⟨he, rfl, rfl, rfl, ?_⟩
  rcases h with rfl | rfl | rfl | rfl <;> simp [Reg.isREG, Reg.isBit, Reg.gp]

theorem changeBit_self {r : Reg} (h : R32 r) : r.changeBit r.bit = .ok r := by
  unfold Reg.changeBit Reg.setBit
  have : r.isBit r.bit = true := by unfold Reg.isBit; rcases h.bit with e | e | e <;> rw [e] <;> decide
  rw [if_neg (by rcases h.bit with e | e | e <;> simp [e]), if_pos this]

theorem opRext_flat {op : Operand} (hop : Ok op) (bit : Nat) (ext : BitVec 5) (he : ext.toNat < 8) (ty : Ty) (h : Flat ty) (h' : Flat (ty ||| T_ALLOW_ABCDH))
    (code : Byte) (w : List Act) :
    (opRext op bit ext ty code).Gives w () ↔ (op.isMEM || op.isREG bit) = true ∧
      w = (pre (op.bit == 16) ++ (code ||| sel (op.bit != 8) 1) :: rmBytes op ext).map .byte := by
  have hg : (Reg.gp ext op.bit).bit = op.bit := rfl
  cases op with
  | mem a =>
    simp only [Operand.isMEM, Bool.true_or, true_and]
    show (opMR a (.gp ext a.o.bit) ty code).Gives w () ↔ _
    rw [opMR_flat a _ hop.1 (gp_plain ext he hop.2) ty h, isBit8 (r := .gp ext a.o.bit) (by exact hop.2)]
    have : (a.o.bit != (Reg.gp ext a.o.bit).bit) = false := by rw [show (Reg.gp ext a.o.bit).bit = a.o.bit from rfl]; simp
    simp only [Operand.bit, Operand.hd, this, Bool.and_false, true_and]
    have hp : ((a.o.isBit 16 && !(Reg.gp ext a.o.bit).isBit 32) || ((Reg.gp ext a.o.bit).isBit 16 && !a.o.isBit 32)) = (a.o.bit == 16) := by
      show ((a.o.bit &&& 16 != 0 && !(a.o.bit &&& 32 != 0)) || (a.o.bit &&& 16 != 0 && !(a.o.bit &&& 32 != 0))) = _
      rcases hop.2 with e | e | e | e <;> rw [e] <;> decide
    rw [hp]; rfl
  | reg r =>
    have hr : R32 r := hop
    simp only [opRext, Operand.isMEM, Bool.false_or, Enc.throwIf_bind, Operand.isREG, Operand.hd, Bool.not_eq_false']
    apply and_congr Iff.rfl
    rw [Enc.lift_bind]
    simp only [Operand.bit, Operand.hd, changeBit_self hr, Except.ok.injEq]
    constructor
    · rintro ⟨_, rfl, h2⟩
      rw [opRR_flat _ _ (gp_plain ext he (.inr hr.bit)) hr.plain _ h', isBit8 (r := .gp ext r.bit) (.inr hr.bit)] at h2
      have hp : ((r.isBit 16 && !(Reg.gp ext r.bit).isBit 32) || ((Reg.gp ext r.bit).isBit 16 && !r.isBit 32)) = (r.bit == 16) := pre_eq hr.bit (.inr rfl)
      rw [hp] at h2
      exact h2.2
    · intro h2
      refine ⟨r, rfl, ?_⟩
      rw [opRR_flat _ _ (gp_plain ext he (.inr hr.bit)) hr.plain _ h', isBit8 (r := .gp ext r.bit) (.inr hr.bit)]
      have hp : ((r.isBit 16 && !(Reg.gp ext r.bit).isBit 32) || ((Reg.gp ext r.bit).isBit 16 && !r.isBit 32)) = (r.bit == 16) := pre_eq hr.bit (.inr rfl)
      rw [hp]
      refine ⟨?_, h2⟩
      show (_ && r.bit != r.bit) = false
      simp

/-! ## Immediates -/

theorem imm8_mod (x : BitVec 8) : (x.signExtend 32).setWidth 8 = x := by
  revert x; decide +kernel

theorem leBytes1 (v : Word) : leBytes 1 v = [v.setWidth 8] := by
  simp [leBytes]

theorem leBytes2 (v : Word) : leBytes 2 v = [v.setWidth 8, (v >>> 8).setWidth 8] := by
  simp [leBytes, List.range, List.range.loop]

theorem imm16_le (v : Word) (t : List Byte) : ∃ x, X32.imm16 (leBytes 2 v ++ t) = some (x, t) ∧ x.setWidth 16 = v.setWidth 16 := by
  rw [leBytes2]
  refine ⟨_, rfl, ?_⟩
  ext i hi
  simp only [BitVec.getElem_setWidth, BitVec.getLsbD_or, BitVec.getLsbD_setWidth, BitVec.getLsbD_shiftLeft, BitVec.getLsbD_ushiftRight]
  by_cases h1 : i < 8
  · simp [h1, show i < 32 by omega]
  · simp [h1, show i < 32 by omega, show i - 8 < 32 by omega, show i - 8 < 8 by omega, show 8 + (i - 8) = i by omega]

theorem leBytes4_lo (v : Word) : leBytes 4 v = leBytes 4 ((lo32 v).setWidth 64) := by
  rw [E.fromLE4]
  simp only [leBytes, List.range, List.range.loop, List.map, lo32]
  refine List.cons_eq_cons.2 ⟨by ext; simp, List.cons_eq_cons.2 ⟨?_, List.cons_eq_cons.2 ⟨?_, List.cons_eq_cons.2 ⟨?_, rfl⟩⟩⟩⟩
  all_goals
    ext i hi
    have a : 8 + i < 32 := by omega
    have b : 16 + i < 32 := by omega
    have c : 24 + i < 32 := by omega
    simp [a, b, c]

/-- An immediate of the operand size. -/
theorem immZ_le {b : Nat} (h : b = 8 ∨ b = 16 ∨ b = 32) (v : Word) :
    ∃ x, x.setWidth b = v.setWidth b ∧ ∀ t, X32.immZ b (leBytes (b / 8) v ++ t) = some (x, t) := by
  rcases h with rfl | rfl | rfl
  · refine ⟨(v.setWidth 8).signExtend 32, ?_, fun t => ?_⟩
    · exact imm8_mod _
    · rw [show 8 / 8 = 1 from rfl, leBytes1]; rfl
  · obtain ⟨x, _, h2⟩ := imm16_le v []
    refine ⟨x, h2, fun t => ?_⟩
    obtain ⟨y, h3, h4⟩ := imm16_le v t
    rename_i h1
    rw [leBytes2] at h1 h3
    show X32.imm16 (leBytes 2 v ++ t) = _
    rw [leBytes2, h3]
    simp only [X32.imm16, List.cons_append, List.nil_append, Option.some.injEq, Prod.mk.injEq, and_true] at h1 h3
    rw [← h1, ← h3]
  · refine ⟨lo32 v, ?_, fun t => ?_⟩
    · simp [lo32]
    · show X32.imm32 (leBytes 4 v ++ t) = _
      rw [leBytes4_lo, imm32_le]

end E32
end Xbyak
