import Verif.Sib
/-!
# Effective addresses (C29, C30, C32)
-/
namespace Xbyak
open E

/-- Value of an address register: 32-bit registers are zero-extended, vector registers stand for one of their elements. -/
def regVal (g v : BitVec 5 → Word) (r : Reg) : Word :=
  if r.kind = .reg then (if r.bit = 32 then ((g r.idx).setWidth 32).setWidth 64 else g r.idx) else v r.idx

/-- Effective address meant by a `RegExp`: with 32-bit registers the sum is taken modulo 2^32. -/
def RegExp.ea (g v : BitVec 5 → Word) (e : RegExp) : Word :=
  if e.base.bit = 32 ∨ e.index.bit = 32 then ((e.val (regVal g v)).setWidth 32).setWidth 64 else e.val (regVal g v)

theorem optimize_wf {e : RegExp} (h : e.WF) : e.optimize.WF := by
  unfold RegExp.optimize
  split
  · rename_i hc
    simp only [Bool.and_eq_true, beq_iff_eq, decide_eq_true_eq] at hc
    obtain ⟨⟨hi, hb⟩, hs⟩ := hc
    have hk : e.index.kind = .reg ∧ (e.index.bit = 32 ∨ e.index.bit = 64) ∧ e.index.ext8 = false ∧ e.index.idx ≠ 4 := by
      rcases h.index with h1 | ⟨h1, h2, h3, h4, _⟩ | ⟨_, h1⟩ | ⟨_, h1⟩ | ⟨_, h1⟩ | ⟨_, h1⟩
      · rw [h1] at hi; exact absurd hi (by decide)
      · exact ⟨h1, h2, h3, h4⟩
      all_goals (simp only [Reg.isBit, h1] at hi; exact absurd hi (by decide))
    exact ⟨Or.inr ⟨hk.1, hk.2.1, hk.2.2.1⟩, Or.inr (Or.inl ⟨hk.1, hk.2.1, hk.2.2.1, hk.2.2.2, Or.inr rfl⟩), fun _ => Or.inl rfl⟩
  · exact h

theorem optimize_ea (e : RegExp) (g v : BitVec 5 → Word) : e.optimize.ea g v = e.ea g v := by
  unfold RegExp.ea
  rw [c28_value]
  have : (e.optimize.base.bit = 32 ∨ e.optimize.index.bit = 32) ↔ (e.base.bit = 32 ∨ e.index.bit = 32) := by
    unfold RegExp.optimize
    split
    · rename_i hc
      simp only [Bool.and_eq_true, beq_iff_eq] at hc
      have := hc.1.2
      constructor
      · rintro (h | h) <;> exact Or.inr h
      · rintro (h | h)
        · omega
        · exact Or.inr h
    · rfl
  simp only [this]

theorem ea_mem (e : RegExp) (he : e.WF) (ht : e.index.kind ≠ .tmm) (h : X86.Head)
    (hp : h.p67 = (e.base.bit == 32 || e.index.bit == 32)) (s : Nat) (hs : e.index ≠ .nil → (s : Int) = e.scale)
    (g v : BitVec 5 → Word) (next : Word) :
    X86.ea h { base := if e.base = .nil then none else some e.base.idx, index := if e.index = .nil then none else some e.index.idx
               scale := s, disp := e.disp } e.index.isSIMD g v next = e.ea g v := by
  have sc : e.index ≠ .nil → BitVec.ofInt 64 e.scale = BitVec.ofNat 64 s := by intro h; rw [← hs h]; simp
  have n0 : Reg.nil.bit = 0 := rfl
  have tr : ∀ x : Word, ((x.setWidth 32).setWidth 64).setWidth 32 = x.setWidth 32 := by
    intro x; ext i hi; simp
  have ad : ∀ x y : Word, (x + y).setWidth 32 = x.setWidth 32 + y.setWidth 32 := fun x y => BitVec.setWidth_add x y (by decide)
  have ml : ∀ x y : Word, (x * y).setWidth 32 = x.setWidth 32 * y.setWidth 32 := fun x y => BitVec.setWidth_mul x y (by decide)
  unfold X86.ea RegExp.ea RegExp.val regVal
  rw [hp]
  have z : ∀ x : Word, x + 0 = x := fun x => BitVec.add_zero x
  simp only [Bool.or_eq_true, beq_iff_eq, if_false, Bool.false_eq_true, z]
  have hbase : ((if e.base = .nil then none else some e.base.idx).map g).getD 0 =
      if e.base.bit = 0 then 0 else g e.base.idx := by
    rcases he.base with hb | ⟨_, bb, _⟩
    · rw [hb]; simp [n0]
    · have : e.base ≠ .nil := by intro h; rw [h, n0] at bb; omega
      rw [if_neg this, if_neg (by omega)]; rfl
  have hidx : ((if e.index = .nil then none else some e.index.idx).map fun r =>
        (if e.index.isSIMD = true then v r else g r) * BitVec.ofNat 64 s).getD 0 =
      if e.index.bit = 0 then 0 else (if e.index.kind = .reg then g e.index.idx else v e.index.idx) * BitVec.ofInt 64 e.scale := by
    by_cases hi : e.index = .nil
    · rw [hi]; simp [n0]
    · have key : e.index.bit ≠ 0 ∧ (e.index.isSIMD = true ↔ ¬ e.index.kind = .reg) := by
        rcases he.index with h1 | ⟨h1, h2, _⟩ | ⟨h1, h2⟩ | ⟨h1, h2⟩ | ⟨h1, h2⟩ | ⟨h1, h2⟩
        · exact absurd h1 hi
        · exact ⟨by omega, by simp [Reg.isSIMD, Reg.isXMM, Reg.isYMM, Reg.isZMM, h1]⟩
        · exact ⟨by omega, by simp [Reg.isSIMD, Reg.isXMM, Reg.isYMM, Reg.isZMM, h1]⟩
        · exact ⟨by omega, by simp [Reg.isSIMD, Reg.isXMM, Reg.isYMM, Reg.isZMM, h1]⟩
        · exact ⟨by omega, by simp [Reg.isSIMD, Reg.isXMM, Reg.isYMM, Reg.isZMM, h1]⟩
        · exact absurd h1 ht
      rw [if_neg hi, if_neg key.1, sc hi]
      by_cases hk : e.index.kind = .reg
      · have : ¬ e.index.isSIMD = true := fun h => key.2.1 h hk
        simp [if_pos hk, if_neg this]
      · simp [if_neg hk, if_pos (key.2.2 hk)]
  rw [hbase, hidx]
  by_cases h32 : e.base.bit = 32 ∨ e.index.bit = 32
  · rw [if_pos h32, if_pos h32]
    congr 1
    simp only [ad]
    congr 2
    · split
      · rfl
      · rename_i hb0
        have hk : e.base.kind = .reg := by
          rcases he.base with hb | ⟨hk, _⟩
          · rw [hb] at hb0; exact absurd n0 hb0
          · exact hk
        rw [if_pos hk]; split
        · rw [tr]
        · rfl
    · split
      · rfl
      · simp only [ml]
        congr 1
        split
        · split
          · rw [tr]
          · rfl
        · rfl
  · rw [if_neg h32, if_neg h32]
    have b32 : ¬ e.base.bit = 32 := fun h => h32 (Or.inl h)
    have i32 : ¬ e.index.bit = 32 := fun h => h32 (Or.inr h)
    simp only [if_neg b32, if_neg i32]
    congr 2
    split
    · rfl
    · rename_i hb0
      have hk : e.base.kind = .reg := by
        rcases he.base with hb | ⟨hk, _⟩
        · rw [hb] at hb0; exact absurd n0 hb0
        · exact hk
      rw [if_pos hk]

/-- C29: the bytes of `setSIB`, decoded together with matching extension bits, give the requested address for every register file
(`g` general registers, `v` elements of vector registers) and the requested reg field. -/
theorem c29_setSIB (e : RegExp) (he : e.WF) (ht : e.index.kind ≠ .tmm) (reg : BitVec 5) (n : Nat) (hn : n = 0 ∨ IsN n)
    {w : List Act} (hw : (setSIB e reg n).Gives w ()) :
    ∃ bs : List Byte, w = bs.map .byte ∧ ∀ (h : X86.Head), HeadFor h e → ∃ m : X86.Mem,
      (∀ t, X86.modrm h e.index.isSIMD (if n = 0 then 1 else n) (bs ++ t) = some (reg.extractLsb' 0 3, .mem m, t)) ∧
      ∀ g v next, X86.ea h m e.index.isSIMD g v next = e.ea g v := by
  obtain ⟨hd, rfl⟩ := (setSIB_gives e reg n w).1 hw
  refine ⟨_, rfl, fun h hh => ?_⟩
  obtain ⟨s, hs, hm⟩ := modrm_sib e he ht reg n hn hd h hh
  exact ⟨_, hm, fun g v next => ea_mem e he ht h hh.p67 s hs g v next⟩

/-- `[r13 + r12*4 - 8]` with reg field 3: 5C A5 F8. -/
example : (setSIB ⟨.gp 13 64, .gp 12 64, 4, -8⟩ 11 0).acts = [.byte 0x5C, .byte 0xA5, .byte 0xF8] := by decide +kernel

/-- C30: with factor `n` the compressed form (mod 1) is chosen iff `n` divides the displacement and the quotient fits in a signed byte;
then stored byte times `n` is the displacement, and otherwise the displacement itself is kept for 32 bits. -/
theorem c30_compressed (base : Reg) (d : BitVec 32) (n : Nat) (hn : IsN n) (hb : base.bit ≠ 0) :
    ((dispForm base d n).1 = 1 ↔ ¬ (base.idx &&& 7 ≠ 5 ∧ d = 0) ∧ (n : Int) ∣ d.toInt ∧ -128 ≤ d.toInt / n ∧ d.toInt / n < 128) ∧
    ((dispForm base d n).1 = 1 → ((dispForm base d n).2.setWidth 8 : Byte).toInt * n = d.toInt) ∧
    ((dispForm base d n).1 ≠ 1 → (dispForm base d n).2 = d ∧
      ((dispForm base d n).1 = 2 ∨ (dispForm base d n).1 = 0 ∧ d = 0 ∧ base.idx &&& 7 ≠ 5)) := by
  have hn0 : n ≠ 0 := by rcases hn with h | h | h | h | h | h | h | h <;> omega
  have dl := d.isLt
  have rng : -(2 ^ 31) ≤ d.toInt ∧ d.toInt < 2 ^ 31 := ⟨by have := BitVec.le_toInt d; omega, by have := BitVec.toInt_lt (x := d); omega⟩
  have hi : d.toNat % n = 0 ↔ (n : Int) ∣ d.toInt := by
    rw [Int.dvd_iff_emod_eq_zero]
    rw [BitVec.toInt_eq_toNat_cond]
    rcases hn with h | h | h | h | h | h | h | h <;> subst h <;> split <;> omega
  have q : (n : Int) ∣ d.toInt → (BitVec.ofInt 32 (d.toInt.tdiv n)).toInt = d.toInt / n := by
    intro h
    rw [Int.tdiv_eq_ediv_of_dvd h, BitVec.toInt_ofInt]
    rcases hn with h | h | h | h | h | h | h | h <;> subst h <;> apply Int.bmod_eq_of_le <;> omega
  have cond : (d.toNat % n = 0 ∧ isInDisp8 (BitVec.ofInt 32 (d.toInt.tdiv n)) = true) ↔
      (n : Int) ∣ d.toInt ∧ -128 ≤ d.toInt / n ∧ d.toInt / n < 128 := by
    rw [hi]
    apply and_congr_right
    intro h; rw [isInDisp8_iff, q h]
  unfold dispForm
  by_cases h0 : base.idx &&& 7 ≠ 5 ∧ d = 0
  · rw [if_pos (Or.inr h0)]
    refine ⟨⟨fun h => (by cases h), fun h => absurd h0 h.1⟩, fun h => (by cases h), fun _ => ⟨rfl, Or.inr ⟨rfl, h0.2, h0.1⟩⟩⟩
  · rw [if_neg (by rintro (h | h); exact hb h; exact h0 h), if_neg hn0]
    dsimp only
    by_cases hc : d.toNat % n = 0 ∧ isInDisp8 (BitVec.ofInt 32 (d.toInt.tdiv n)) = true
    · rw [if_pos hc]
      have hc' := cond.1 hc
      refine ⟨⟨fun _ => ⟨h0, hc'⟩, fun _ => rfl⟩, fun _ => ?_, fun h => absurd rfl h⟩
      have e : ((BitVec.ofInt 32 (d.toInt.tdiv n)).setWidth 8 : Byte).toInt = d.toInt / n := by
        have a := q hc'.1
        rw [← a]
        rw [BitVec.toInt_setWidth]
        have l := (BitVec.ofInt 32 (d.toInt.tdiv n)).isLt
        have b := hc'.2
        rw [← a] at b
        generalize BitVec.ofInt 32 (d.toInt.tdiv n) = y at l b ⊢
        rw [BitVec.toInt_eq_toNat_cond] at b ⊢
        rw [Int.bmod_def]
        split at b <;> rename_i hx <;> (try rw [if_pos hx]) <;> (try rw [if_neg hx]) <;> split <;> omega
      dsimp only
      rw [e]
      exact Int.ediv_mul_cancel hc'.1
    · rw [if_neg hc]
      exact ⟨⟨fun h => (by cases h), fun h => absurd (cond.2 h.2) hc⟩, fun h => (by cases h), fun _ => ⟨rfl, Or.inl rfl⟩⟩

/-- Every scale factor computed by `evex` is one of 1, 2, 4, 8, 16, 32, 64. -/
theorem c30_factors (type : Ty) (b : Bool) (VL : Nat) : IsN (disp8Scale type b VL) := by
  unfold disp8Scale IsN
  split
  · split
    · simp
    · split <;> simp
  · split
    · split
      · simp
      · split <;> simp
    · dsimp only
      have hdef : ∀ ty : Ty, ty &&& (T_NX_MASK ||| T_N_VL) = 0 → (ty ||| (T_N16 ||| T_N_VL)) &&& T_NX_MASK = 5 := by
        intro ty h
        have : ty &&& T_NX_MASK = 0 := by
          have e : T_NX_MASK = (T_NX_MASK ||| T_N_VL) &&& T_NX_MASK := by decide
          rw [e, ← BitVec.and_assoc, h]; decide
        rw [BitVec.and_comm, BitVec.and_or_distrib_left, BitVec.and_comm, this]; decide
      have key : ∀ ty : Ty, (ty &&& T_NX_MASK).toNat ≤ 6 →
          IsN (if (ty &&& T_NX_MASK).toNat > 0 then
            if ty.has T_N_VL = true then 1 <<< ((ty &&& T_NX_MASK).toNat - 1) * (if VL = 512 then 4 else if VL = 256 then 2 else 1)
            else 1 <<< ((ty &&& T_NX_MASK).toNat - 1) else 1) := by
        intro ty h
        generalize (ty &&& T_NX_MASK).toNat = l at h
        generalize ty.has T_N_VL = c
        have hs : (if VL = 512 then 4 else if VL = 256 then 2 else 1 : Nat) = 4 ∨ (if VL = 512 then 4 else if VL = 256 then 2 else 1 : Nat) = 2 ∨
            (if VL = 512 then 4 else if VL = 256 then 2 else 1 : Nat) = 1 := by split; simp; split <;> simp
        generalize (if VL = 512 then 4 else if VL = 256 then 2 else 1 : Nat) = q at hs
        unfold IsN
        have hl : l = 0 ∨ l = 1 ∨ l = 2 ∨ l = 3 ∨ l = 4 ∨ l = 5 ∨ l = 6 := by omega
        rcases hl with h | h | h | h | h | h | h <;> subst h <;> rcases hs with h | h | h <;> subst h <;> cases c <;> simp
      split
      · rename_i h0
        apply key
        rw [hdef _ h0]; decide
      · rename_i hdup _
        apply key
        have h7 : (type &&& T_NX_MASK).toNat ≤ 7 := by
          rw [BitVec.toNat_and]; exact Nat.and_le_right
        have : (type &&& T_NX_MASK).toNat ≠ 7 := fun h' => hdup (BitVec.eq_of_toNat_eq h')
        omega

/-- C32: `setSIB` refuses exactly the displacements that are not sign-extended 32-bit values. -/
theorem c32_displacement_iff (e : RegExp) (reg : BitVec 5) (n : Nat) :
    (∃ w, (setSIB e reg n).Gives w ()) ↔ -(2 ^ 31) ≤ e.disp.toInt ∧ e.disp.toInt < 2 ^ 31 := by
  constructor
  · rintro ⟨w, hw⟩; exact ((setSIB_gives e reg n w).1 hw).1
  · intro h; exact ⟨_, (setSIB_gives e reg n _).2 ⟨h, rfl⟩⟩

/-- C32 fails: a tile register used as index is accepted and encoded as the general register with the same number
(`[rax + tmm1*2]` becomes `[rax + rcx*2]`). -/
theorem c32_refuted_tile :
    ∃ a b : Addr, Term.addr (.add (.reg (.gp 0 64)) (.scaled (.tmm 1) 2)) 64 false = .ok a ∧
      Term.addr (.add (.reg (.gp 0 64)) (.scaled (.gp 1 64) 2)) 64 false = .ok b ∧
      (opAddr a 3).acts = (opAddr b 3).acts ∧ (opAddr a 3).res = .ok () :=
  ⟨_, _, rfl, rfl, by decide +kernel, rfl⟩

end Xbyak
