import Verif.Enc
import Verif.Spec.X86
import Verif.Props.RegExp
/-!
# Lemmas on ModRM, SIB and displacement bytes
-/
namespace Xbyak
namespace Enc
variable {α β γ : Type}

theorem bind_assoc (m : Enc α) (f : α → Enc β) (g : β → Enc γ) : (m >>= f) >>= g = m >>= fun a => f a >>= g := by
  show Enc.bind (Enc.bind m f) g = Enc.bind m fun a => Enc.bind (f a) g
  unfold Enc.bind
  cases h : m.res with
  | error e => simp
  | ok a => cases h2 : (f a).res <;> simp [h2]

theorem pure_bind (a : α) (f : α → Enc β) : (Pure.pure a >>= f : Enc β) = f a := by
  show Enc.bind (Enc.pure a) f = f a
  simp [Enc.bind, Enc.pure]

theorem throw_bind (e : Err) (f : α → Enc β) : (throw e >>= f : Enc β) = throw e := rfl

theorem db_bind {b : Byte} {f : Unit → Enc α} {w : List Act} {a : α} :
    (db b >>= f).Gives w a ↔ ∃ w', w = .byte b :: w' ∧ (f ()).Gives w' a := by
  rw [gives_bind]
  constructor
  · rintro ⟨w1, _, w2, h1, h2, rfl⟩
    rw [gives_db.1 h1]; exact ⟨w2, rfl, h2⟩
  · rintro ⟨w', rfl, h⟩; exact ⟨[.byte b], (), w', gives_db.2 rfl, h, rfl⟩

theorem gives_dbIf {c : Bool} {b : Byte} {w : List Act} {a : Unit} : (dbIf c b).Gives w a ↔ w = (if c then [b] else []).map .byte := by
  cases c
  · simp [dbIf, pure, Gives, eq_comm]
  · simp [dbIf, db, Gives, eq_comm]

theorem dbIf_bind {c : Bool} {b : Byte} {f : Unit → Enc α} {w : List Act} {a : α} :
    (dbIf c b >>= f).Gives w a ↔ ∃ w', w = (if c then [b] else []).map .byte ++ w' ∧ (f ()).Gives w' a := by
  rw [gives_bind]
  constructor
  · rintro ⟨w1, _, w2, h1, h2, rfl⟩
    rw [gives_dbIf.1 h1]; exact ⟨w2, rfl, h2⟩
  · rintro ⟨w', rfl, h⟩; exact ⟨_, (), w', gives_dbIf.2 rfl, h, rfl⟩

theorem act_bind {b : Act} {f : Unit → Enc α} {w : List Act} {a : α} :
    (act b >>= f).Gives w a ↔ ∃ w', w = b :: w' ∧ (f ()).Gives w' a := by
  rw [gives_bind]
  constructor
  · rintro ⟨w1, _, w2, h1, h2, rfl⟩
    rw [gives_act.1 h1]; exact ⟨w2, rfl, h2⟩
  · rintro ⟨w', rfl, h⟩; exact ⟨[b], (), w', gives_act.2 rfl, h, rfl⟩

theorem dbN_bind {v : Word} {n : Nat} {f : Unit → Enc α} {w : List Act} {a : α} :
    (dbN v n >>= f).Gives w a ↔ ∃ w', w = (leBytes n v).map .byte ++ w' ∧ (f ()).Gives w' a := by
  rw [gives_bind]
  constructor
  · rintro ⟨w1, _, w2, h1, h2, rfl⟩
    rw [gives_dbN.1 h1]; exact ⟨w2, rfl, h2⟩
  · rintro ⟨w', rfl, h⟩; exact ⟨_, (), w', gives_dbN.2 rfl, h, rfl⟩

theorem throwIf_bind {c : Bool} {e : Err} {f : Unit → Enc α} {w : List Act} {a : α} :
    (throwIf c e >>= f).Gives w a ↔ c = false ∧ (f ()).Gives w a := by
  rw [gives_bind]
  constructor
  · rintro ⟨w1, _, w2, h1, h2, rfl⟩
    obtain ⟨hc, rfl⟩ := gives_throwIf.1 h1
    exact ⟨hc, h2⟩
  · rintro ⟨hc, h⟩; exact ⟨[], (), w, gives_throwIf.2 ⟨hc, rfl⟩, h, rfl⟩

theorem gives_lift {x : Except Err α} {w : List Act} {a : α} : (lift x).Gives w a ↔ x = .ok a ∧ w = [] := by
  cases x with
  | ok b =>
    constructor
    · rintro ⟨h, h'⟩; cases h'; exact ⟨rfl, h.symm⟩
    · rintro ⟨h, rfl⟩; cases h; exact ⟨rfl, rfl⟩
  | error e => constructor
               · rintro ⟨_, h'⟩; cases h'
               · rintro ⟨h, _⟩; cases h

theorem lift_bind {x : Except Err α} {f : α → Enc β} {w : List Act} {b : β} :
    (lift x >>= f).Gives w b ↔ ∃ a, x = .ok a ∧ (f a).Gives w b := by
  rw [gives_bind]
  constructor
  · rintro ⟨w1, a, w2, h1, h2, rfl⟩
    obtain ⟨hc, rfl⟩ := gives_lift.1 h1
    exact ⟨a, hc, h2⟩
  · rintro ⟨a, hc, h⟩; exact ⟨[], a, w, gives_lift.2 ⟨hc, rfl⟩, h, rfl⟩

end Enc

namespace E
open Enc (throwIf db dbN act lift Gives)

theorem modRM_mod (m : BitVec 2) (r1 r2 : BitVec 5) : (modRM m r1 r2).extractLsb' 6 2 = m := by
  revert m r1 r2; decide +kernel
theorem modRM_reg (m : BitVec 2) (r1 r2 : BitVec 5) : (modRM m r1 r2).extractLsb' 3 3 = r1.extractLsb' 0 3 := by
  revert m r1 r2; decide +kernel
theorem modRM_rm (m : BitVec 2) (r1 r2 : BitVec 5) : (modRM m r1 r2).extractLsb' 0 3 = r2.extractLsb' 0 3 := by
  revert m r1 r2; decide +kernel

/-- A register number is rebuilt from its extension bits and low three bits. -/
theorem mk5_idx (r : BitVec 5) : X86.mk5 (r.getLsbD 4) (r.getLsbD 3) (r.extractLsb' 0 3) = r := by
  revert r; decide +kernel
theorem and7_low (r : BitVec 5) : (r &&& 7).extractLsb' 0 3 = r.extractLsb' 0 3 := by revert r; decide +kernel
theorem and7_eq (r : BitVec 5) (c : BitVec 5) (hc : c &&& 7 = c) : r &&& 7 = c ↔ r.extractLsb' 0 3 = c.extractLsb' 0 3 := by
  revert r c; decide +kernel

/-- The test of `setSIB` on the displacement: bits 31-63 all equal. -/
theorem disp_check (d : Word) :
    ((d >>> 31 ≠ 0) && (d >>> 31 ≠ 0x1FFFFFFFF)) = false ↔ -(2 ^ 31) ≤ d.toInt ∧ d.toInt < 2 ^ 31 := by
  have h := d.isLt
  have e : (d >>> 31).toNat = d.toNat / 2 ^ 31 := by simp [Nat.shiftRight_eq_div_pow]
  have z : d >>> 31 = 0 ↔ d.toNat / 2 ^ 31 = 0 := by rw [← e, BitVec.toNat_eq]; rfl
  have o : d >>> 31 = 0x1FFFFFFFF ↔ d.toNat / 2 ^ 31 = 0x1FFFFFFFF := by rw [← e, BitVec.toNat_eq]; rfl
  simp only [ne_eq, decide_not, Bool.and_eq_false_imp, Bool.not_eq_true', decide_eq_false_iff_not, Bool.not_eq_false',
    decide_eq_true_eq, z, o, BitVec.toInt_eq_toNat_cond]
  split <;> omega

/-- Displacement bytes written after ModRM/SIB. -/
def dispBytes (mod : BitVec 2) (d : BitVec 32) (noBase : Bool) : List Byte :=
  if mod = 1 then [d.setWidth 8] else if mod = 2 ∨ (mod = 0 ∧ noBase = true) then leBytes 4 (d.setWidth 64) else []

/-- All bytes written by `setSIB`. -/
def sibBytes (e : RegExp) (reg : BitVec 5) (n : Nat) : List Byte :=
  let md := dispForm e.base (lo32 e.disp) n
  let nb : BitVec 5 := if e.base.bit ≠ 0 then e.base.idx &&& 7 else 5
  (if e.index.bit ≠ 0 || e.base.idx &&& 7 == 4 || (e.base.bit == 0 && e.index.bit == 0) then
    [modRM md.1 reg 4, modRM (scaleBits e.scale) (if e.index.bit ≠ 0 then e.index.idx &&& 7 else 4) nb]
  else [modRM md.1 reg nb]) ++ dispBytes md.1 md.2 (e.base.bit == 0)

/-- `setSIB` succeeds iff the displacement is a sign-extended 32-bit value, and then writes `sibBytes`. -/
theorem setSIB_gives (e : RegExp) (reg : BitVec 5) (n : Nat) (w : List Act) :
    (setSIB e reg n).Gives w () ↔ (-(2 ^ 31) ≤ e.disp.toInt ∧ e.disp.toInt < 2 ^ 31) ∧ w = (sibBytes e reg n).map .byte := by
  have tail : ∀ (mod : BitVec 2) (d : BitVec 32) (w : List Act),
      (if mod = 1 then db (d.setWidth 8) else if mod = 2 ∨ (mod = 0 ∧ e.base.bit = 0) then dbN (d.setWidth 64) 4
        else (pure () : Enc Unit)).Gives w () ↔ w = (dispBytes mod d (e.base.bit == 0)).map .byte := by
    intro mod d w
    unfold dispBytes
    simp only [beq_iff_eq]
    split
    · exact Enc.gives_db
    · split
      · exact Enc.gives_dbN
      · rw [Enc.gives_pure]; exact ⟨fun h => h.1, fun h => ⟨h, rfl⟩⟩
  rw [← disp_check]
  unfold setSIB sibBytes
  simp only [Enc.throwIf_bind, setModRM]
  apply and_congr Iff.rfl
  generalize dispForm e.base (lo32 e.disp) n = md
  generalize (if e.base.bit ≠ 0 then e.base.idx &&& 7 else 5) = nb
  by_cases hs : (decide (e.index.bit ≠ 0) || e.base.idx &&& 7 == 4 || e.base.bit == 0 && e.index.bit == 0) = true
  · rw [if_pos hs, if_pos hs]
    simp only [Enc.db_bind, tail]
    constructor
    · rintro ⟨_, rfl, _, rfl, rfl⟩; rfl
    · rintro rfl; exact ⟨_, rfl, _, rfl, rfl⟩
  · rw [if_neg hs, if_neg hs]
    simp only [Enc.db_bind, tail]
    constructor
    · rintro ⟨_, rfl, rfl⟩; rfl
    · rintro rfl; exact ⟨_, rfl, rfl⟩

/-! ## Decoding the displacement -/

theorem fromLE4 (d : BitVec 32) : leBytes 4 (d.setWidth 64) =
    [d.setWidth 8, (d >>> 8).setWidth 8, (d >>> 16).setWidth 8, (d >>> 24).setWidth 8] := by
  simp only [leBytes, List.range, List.range.loop, List.map]
  refine List.cons_eq_cons.2 ⟨by ext; simp, List.cons_eq_cons.2 ⟨?_, List.cons_eq_cons.2 ⟨?_, List.cons_eq_cons.2 ⟨?_, rfl⟩⟩⟩⟩
  all_goals
    ext i hi
    simp
    try omega

/-- A sign-extended 32-bit displacement survives storing its low half. -/
theorem sext_lo32 (d : Word) (h : -(2 ^ 31) ≤ d.toInt ∧ d.toInt < 2 ^ 31) : sextLE (leBytes 4 ((lo32 d).setWidth 64)) = d := by
  have : leBytes 4 ((lo32 d).setWidth 64) = leBytes 4 d := by
    simp only [leBytes, List.range, List.range.loop, List.map, lo32]
    refine List.cons_eq_cons.2 ⟨by ext; simp, List.cons_eq_cons.2 ⟨?_, List.cons_eq_cons.2 ⟨?_, List.cons_eq_cons.2 ⟨?_, rfl⟩⟩⟩⟩
    all_goals
      ext i hi
      have a : 8 + i < 32 := by omega
      have b : 16 + i < 32 := by omega
      have c : 24 + i < 32 := by omega
      have a' : 8 + i < 64 := by omega
      have b' : 16 + i < 64 := by omega
      have c' : 24 + i < 64 := by omega
      simp [a, b, c, a', b', c']
  rw [this]
  exact sextLE_leBytes 4 d (by omega) (by simpa using h)

theorem sext_byte (d : BitVec 32) (h : isInDisp8 d = true) : sextLE [d.setWidth 8] = d.signExtend 64 := by
  have hd := (isInDisp8_iff d).1 h
  have : [d.setWidth 8] = leBytes 1 (d.signExtend 64) := by
    simp only [leBytes, List.range, List.range.loop, List.map]
    refine List.cons_eq_cons.2 ⟨?_, rfl⟩
    ext i hi
    have : i < 32 := by omega
    have : i < 64 := by omega
    simp only [BitVec.getElem_setWidth, BitVec.getLsbD_signExtend, Nat.mul_zero, BitVec.ushiftRight_zero, *]
    simp
  rw [this]
  have e : (d.signExtend 64).toInt = d.toInt := BitVec.toInt_signExtend_of_le (by decide)
  exact sextLE_leBytes 1 _ (by omega) (by rw [e]; simpa using hd)

theorem lo32_sext (d : Word) (h : -(2 ^ 31) ≤ d.toInt ∧ d.toInt < 2 ^ 31) : (lo32 d).signExtend 64 = d := by
  apply BitVec.eq_of_toInt_eq
  rw [BitVec.toInt_signExtend_of_le (by decide)]
  unfold lo32
  rw [BitVec.toInt_setWidth]
  have := d.isLt
  rw [BitVec.toInt_eq_toNat_cond] at h ⊢
  rw [Int.bmod_def]
  split at h <;> rename_i hc <;> simp only [hc, if_true, if_false] <;> split <;> omega

/-- Powers of two used as `disp8N`. -/
def IsN (n : Nat) : Prop := n = 1 ∨ n = 2 ∨ n = 4 ∨ n = 8 ∨ n = 16 ∨ n = 32 ∨ n = 64 ∨ n = 128

/-- The compressed byte times `n` is the displacement. -/
theorem compressed (d : BitVec 32) (n : Nat) (hn : IsN n) (hd : d.toNat % n = 0)
    (h8 : isInDisp8 (BitVec.ofInt 32 (d.toInt.tdiv n)) = true) :
    sextLE [(BitVec.ofInt 32 (d.toInt.tdiv n)).setWidth 8] * BitVec.ofNat 64 n = d.signExtend 64 := by
  rw [sext_byte _ h8]
  have dl := d.isLt
  have hi : d.toInt % n = 0 := by
    rw [BitVec.toInt_eq_toNat_cond]
    rcases hn with h | h | h | h | h | h | h | h <;> subst h <;> split <;> omega
  have hb := (isInDisp8_iff _).1 h8
  have td : d.toInt.tdiv n = d.toInt / n := by
    rw [Int.tdiv_eq_ediv_of_dvd (Int.dvd_of_emod_eq_zero hi)]
  rw [td] at hb ⊢
  have rng : -(2 ^ 31) ≤ d.toInt ∧ d.toInt < 2 ^ 31 := ⟨by have := BitVec.le_toInt d; omega, by have := BitVec.toInt_lt (x := d); omega⟩
  have qr : (BitVec.ofInt 32 (d.toInt / n)).toInt = d.toInt / n := by
    rw [BitVec.toInt_ofInt]
    rcases hn with h | h | h | h | h | h | h | h <;> subst h <;> apply Int.bmod_eq_of_le <;> omega
  have e1 : (BitVec.ofInt 32 (d.toInt / n)).signExtend 64 = BitVec.ofInt 64 (d.toInt / n) := by
    rw [BitVec.signExtend, qr]
  have e2 : d.signExtend 64 = BitVec.ofInt 64 d.toInt := rfl
  rw [e1, e2]
  have : (BitVec.ofNat 64 n) = BitVec.ofInt 64 (n : Int) := by simp
  rw [this, ← BitVec.ofInt_mul]
  congr 1
  exact Int.ediv_mul_cancel (Int.dvd_of_emod_eq_zero hi)

/-- Reading back the displacement written in the form chosen by `dispForm`. -/
theorem displacement_dispForm (base : Reg) (d : Word) (n : Nat) (hn : n = 0 ∨ IsN n) (hd : -(2 ^ 31) ≤ d.toInt ∧ d.toInt < 2 ^ 31)
    (t : List Byte) :
    X86.displacement (dispForm base (lo32 d) n).1 (base.bit == 0) (if n = 0 then 1 else n)
      (dispBytes (dispForm base (lo32 d) n).1 (dispForm base (lo32 d) n).2 (base.bit == 0) ++ t) = some (d, t) := by
  have s32 := sext_lo32 d hd
  have sx := lo32_sext d hd
  rw [fromLE4] at s32
  have m2 : X86.disp32 (leBytes 4 ((lo32 d).setWidth 64) ++ t) = some (d, t) := by
    rw [fromLE4]; simp only [List.cons_append, List.nil_append, X86.disp32]; rw [s32]
  have e2 : ∀ b, X86.displacement 2 b (if n = 0 then 1 else n) (dispBytes 2 (lo32 d) b ++ t) = some (d, t) := by
    intro b
    simp only [X86.displacement, dispBytes]; exact m2
  unfold dispForm
  split
  · rename_i h
    by_cases hb : base.bit = 0
    · simp only [hb, beq_self_eq_true, X86.displacement, dispBytes]; exact m2
    · have h0 : lo32 d = 0 := by rcases h with h | h; exact absurd h hb; exact h.2
      have d0 : d = 0 := by rw [← sx, h0]; rfl
      simp [hb, X86.displacement, dispBytes, d0]
  · split
    · rename_i hn0
      split
      · rename_i h8
        simp only [X86.displacement, dispBytes, List.cons_append, List.nil_append, if_true]
        rw [sext_byte _ h8, sx]; simp
      · exact e2 _
    · rename_i hn0
      dsimp only
      split
      · rename_i h8
        simp only [X86.displacement, dispBytes, List.cons_append, List.nil_append, if_true]
        rw [compressed _ n (hn.resolve_left hn0) h8.1 h8.2, sx]
      · exact e2 _

theorem dispForm_mod0 (base : Reg) (d : BitVec 32) (n : Nat) (hb : base.bit ≠ 0) (h : (dispForm base d n).1 = 0) : base.idx &&& 7 ≠ 5 := by
  unfold dispForm at h
  split at h
  · rename_i h'; rcases h' with h' | h'; exact absurd h' hb; exact h'.1
  · split at h
    · split at h <;> cases h
    · dsimp only at h; split at h <;> cases h

theorem dispForm_ne3 (base : Reg) (d : BitVec 32) (n : Nat) : (dispForm base d n).1 ≠ 3 := by
  unfold dispForm
  split
  · simp
  · split
    · split <;> simp
    · dsimp only; split <;> simp

/-- The extension bits in front of ModRM that belong to an address. -/
structure HeadFor (h : X86.Head) (e : RegExp) : Prop where
  b : e.base ≠ .nil → h.b3 = e.base.idx.getLsbD 3 ∧ h.b4 = e.base.idx.getLsbD 4
  x3 : h.x3 = e.index.idx.getLsbD 3
  x4 : e.index = .nil ∨ e.index.kind = .reg → h.x4 = e.index.idx.getLsbD 4
  v4 : e.index.isSIMD = true → h.vreg.getLsbD 4 = e.index.idx.getLsbD 4
  p67 : h.p67 = (e.base.bit == 32 || e.index.bit == 32)

/-- What `modrm` yields for the bytes of `setSIB`. -/
theorem modrm_sib (e : RegExp) (he : e.WF) (ht : e.index.kind ≠ .tmm) (reg : BitVec 5) (n : Nat) (hn : n = 0 ∨ IsN n)
    (hd : -(2 ^ 31) ≤ e.disp.toInt ∧ e.disp.toInt < 2 ^ 31) (h : X86.Head) (hh : HeadFor h e) :
    ∃ s : Nat, (e.index ≠ .nil → (s : Int) = e.scale) ∧ ∀ t,
      X86.modrm h e.index.isSIMD (if n = 0 then 1 else n) (sibBytes e reg n ++ t) =
        some (reg.extractLsb' 0 3, .mem { base := if e.base = .nil then none else some e.base.idx
                                          index := if e.index = .nil then none else some e.index.idx
                                          scale := s, disp := e.disp }, t) := by
  have nb0 : e.base.bit = 0 ↔ e.base = .nil := by
    rcases he.base with h1 | ⟨_, h1, _⟩
    · simp [h1, Reg.nil]
    · constructor
      · intro; omega
      · intro h2; rw [h2]; rfl
  have ni0 : e.index.bit = 0 ↔ e.index = .nil := by
    rcases he.index with h1 | ⟨_, h1, _⟩ | ⟨_, h1⟩ | ⟨_, h1⟩ | ⟨_, h1⟩ | ⟨_, h1⟩
    · simp [h1, Reg.nil]
    all_goals
      constructor
      · intro; omega
      · intro h2; rw [h2]; rfl
  have simd : e.index.isSIMD = true ↔ e.index ≠ .nil ∧ e.index.kind ≠ .reg := by
    rcases he.index with h1 | ⟨h1, _⟩ | ⟨h1, _⟩ | ⟨h1, _⟩ | ⟨h1, _⟩ | ⟨h1, _⟩
    · simp [h1, Reg.nil, Reg.isSIMD, Reg.isXMM, Reg.isYMM, Reg.isZMM]
    · simp [h1, Reg.isSIMD, Reg.isXMM, Reg.isYMM, Reg.isZMM]
    · have : e.index ≠ .nil := by intro h; rw [h] at h1; cases h1
      simp [h1, this, Reg.isSIMD, Reg.isXMM, Reg.isYMM, Reg.isZMM]
    · have : e.index ≠ .nil := by intro h; rw [h] at h1; cases h1
      simp [h1, this, Reg.isSIMD, Reg.isXMM, Reg.isYMM, Reg.isZMM]
    · have : e.index ≠ .nil := by intro h; rw [h] at h1; cases h1
      simp [h1, this, Reg.isSIMD, Reg.isXMM, Reg.isYMM, Reg.isZMM]
    · exact absurd h1 ht
  have ds := displacement_dispForm e.base e.disp n hn hd
  have mne := dispForm_ne3 e.base (lo32 e.disp) n
  have m0 := dispForm_mod0 e.base (lo32 e.disp) n
  unfold sibBytes
  dsimp only
  have mb : e.base.bit = 0 → (dispForm e.base (lo32 e.disp) n).1 = 0 := by
    intro h; unfold dispForm; rw [if_pos (Or.inl h)]
  generalize dispForm e.base (lo32 e.disp) n = md at ds mne m0 mb ⊢
  by_cases hs : (decide (e.index.bit ≠ 0) || e.base.idx &&& 7 == 4 || e.base.bit == 0 && e.index.bit == 0) = true
  · rw [if_pos hs]
    refine ⟨1 <<< (scaleBits e.scale).toNat, ?_, ?_⟩
    · intro hi
      rcases he.scale hi with h1 | h1 | h1 | h1 <;> rw [h1] <;> rfl
    · intro t
      simp only [List.cons_append, List.nil_append, X86.modrm, modRM_mod, modRM_reg, modRM_rm]
      rw [if_neg mne, if_pos (by rfl)]
      have nob : ((if e.base.bit ≠ 0 then e.base.idx &&& 7 else 5 : BitVec 5).extractLsb' 0 3 = 5 ∧ md.1 = 0) ↔ e.base.bit = 0 := by
        constructor
        · rintro ⟨h1, h2⟩
          apply Classical.byContradiction
          intro hb
          rw [if_pos hb, and7_low] at h1
          exact m0 hb h2 ((and7_eq _ 5 (by decide)).2 h1)
        · intro hb
          rw [if_neg (by simpa using hb)]
          exact ⟨rfl, mb hb⟩
      have nobd : decide ((if e.base.bit ≠ 0 then e.base.idx &&& 7 else 5 : BitVec 5).extractLsb' 0 3 = 5 ∧ md.1 = 0) = (e.base.bit == 0) := by
        rw [Bool.eq_iff_iff]; simpa using nob
      rw [nobd, ds]
      dsimp only
      congr 5
      · by_cases hb : e.base = .nil
        · rw [if_pos (nob.2 (nb0.2 hb)), if_pos hb]
        · have hb' : ¬ e.base.bit = 0 := fun h => hb (nb0.1 h)
          rw [if_neg (fun h => hb' (nob.1 h)), if_neg hb, if_pos hb', and7_low, (hh.b hb).1, (hh.b hb).2, mk5_idx]
      · by_cases hi : e.index = .nil
        · have : ¬ e.index.isSIMD = true := by rw [simd]; exact fun h => h.1 hi
          rw [if_neg this, if_pos hi, hh.x3, hh.x4 (Or.inl hi), hi]
          rfl
        · have hi' : ¬ e.index.bit = 0 := fun h => hi (ni0.1 h)
          rw [if_neg hi, if_pos hi', and7_low, hh.x3]
          by_cases hv : e.index.isSIMD = true
          · rw [if_pos hv, hh.v4 hv, mk5_idx]
          · have hk : e.index.kind = .reg := Classical.byContradiction fun h => hv (simd.2 ⟨hi, h⟩)
            have h4 : e.index.idx ≠ 4 := by
              rcases he.index with h1 | ⟨_, _, _, h1, _⟩ | ⟨h1, _⟩ | ⟨h1, _⟩ | ⟨h1, _⟩ | ⟨h1, _⟩
              · exact absurd h1 hi
              · exact h1
              all_goals rw [hk] at h1; cases h1
            rw [if_neg hv, hh.x4 (Or.inr hk), mk5_idx, if_neg h4]
  · rw [if_neg hs]
    simp only [Bool.or_eq_true, Bool.and_eq_true, decide_eq_true_eq, beq_iff_eq, not_or, not_and, Classical.not_not] at hs
    obtain ⟨⟨hi, h4⟩, hb⟩ := hs
    have hb : e.base.bit ≠ 0 := fun h => hb h hi
    have hi := ni0.1 hi
    refine ⟨1, fun h => absurd hi h, fun t => ?_⟩
    simp only [List.cons_append, List.nil_append, X86.modrm, modRM_mod, modRM_reg, modRM_rm]
    have h4' : ¬ (e.base.idx &&& 7).extractLsb' 0 3 = 4 := by
      rw [and7_low]; exact fun h => h4 ((and7_eq _ 4 (by decide)).2 h)
    have h5' : ¬ (md.1 = 0 ∧ (e.base.idx &&& 7).extractLsb' 0 3 = 5) := by
      rw [and7_low]; exact fun h => m0 hb h.1 ((and7_eq _ 5 (by decide)).2 h.2)
    have bf : (e.base.bit == 0) = false := by simpa using hb
    have hb' : e.base ≠ .nil := fun h => hb (nb0.2 h)
    rw [bf] at ds ⊢
    rw [if_neg mne, if_pos hb, if_neg h4', if_neg h5', ds]
    dsimp only
    rw [and7_low, (hh.b hb').1, (hh.b hb').2, mk5_idx, if_neg hb', if_pos hi]

end E
end Xbyak
