import Verif.Operand
/-!
# Register views (C56)

`changeBit` and `cvt8` .. `cvt512` on every register a program can name.
-/
namespace Xbyak
namespace Reg

/-- The size and, for byte registers, the part of the hardware register that an operand denotes: number and "second byte" flag
(ah, ch, dh, bh are bytes 8-15 of registers 0-3). -/
def part (r : Reg) : BitVec 5 × Bool :=
  if r.kind = .reg ∧ r.bit = 8 ∧ r.ext8 = false ∧ 4 ≤ r.idx.toNat ∧ r.idx.toNat ≤ 7 then (r.idx - 4, true) else (r.idx, false)

/-- The operand sizes. -/
def sizes : List Nat := [8, 16, 32, 64, 128, 256, 512, 8192]

theorem bit_sizes {r : Reg} (h : r.Named) : r.bit ∈ sizes := by
  rcases h.shape with ⟨-, h | h | h | h⟩ | ⟨-, h⟩ | ⟨-, h⟩ | ⟨-, h⟩ | ⟨-, h⟩ | ⟨-, h⟩ | ⟨-, h⟩ | ⟨-, h⟩ | ⟨-, h⟩ <;> rw [h] <;> decide

theorem and_sizes : ∀ a ∈ sizes, ∀ b ∈ sizes, (a &&& b != 0) = decide (a = b) := by decide

theorem mem_sizes {b : Nat} : b ∈ sizes ↔ (b = 8 ∨ b = 16 ∨ b = 32 ∨ b = 64 ∨ b = 128 ∨ b = 256 ∨ b = 512 ∨ b = 8192) := by
  simp [sizes]

/-- What `setBit` does on named registers, in terms of the sizes. -/
theorem setBit_eq {r : Reg} (h : r.bit ∈ sizes) (b : Nat) : r.setBit b =
    if b ∉ sizes then .error .CANT_CONVERT else if r.bit = b then .ok r
    else if r.kind = .mem ∨ r.kind = .opmask then .ok { r with bit := b }
    else if r.kind = .reg ∨ r.kind = .xmm ∨ r.kind = .ymm ∨ r.kind = .zmm ∨ r.kind = .tmm then
      if r.kind = .reg ∧ r.bit = 8 ∧ r.ext8 = false ∧ 4 ≤ r.idx.toNat ∧ r.idx.toNat ≤ 7 then .error .CANT_CONVERT
      else .ok { r with
        ext8 := decide (b = 8 ∧ 4 ≤ r.idx.toNat ∧ r.idx.toNat ≤ 7)
        kind := if b = 128 then .xmm else if b = 256 then .ymm else if b = 512 then .zmm else if b = 8192 then .tmm else .reg
        bit := b
        mask := if b ≥ 128 then r.mask else 0
        rnd := if b ≥ 128 then r.rnd else 0 }
    else .error .CANT_CONVERT := by
  unfold setBit
  simp only [← mem_sizes]
  by_cases hb : b ∉ sizes
  · rw [if_pos hb, if_pos hb]
  rw [if_neg hb, if_neg hb]
  replace hb : b ∈ sizes := Classical.not_not.mp hb
  have hi : r.isBit b = decide (r.bit = b) := and_sizes _ h _ hb
  rw [hi]
  have h8 : r.isREG 8 = decide (r.kind = .reg ∧ r.bit = 8) := by
    unfold isREG isBit
    rw [and_sizes _ h 8 (by decide)]
    cases hk : r.kind <;> simp
  by_cases hq : r.bit = b
  · rw [if_pos (by simpa using hq), if_pos hq]
  rw [if_neg (by simpa using hq), if_neg hq]
  split
  · rfl
  split
  rotate_left
  · rfl
  have e : (r.isREG 8 && decide (4 ≤ r.idx.toNat ∧ r.idx.toNat < 8) && !r.ext8) =
      decide (r.kind = .reg ∧ r.bit = 8 ∧ r.ext8 = false ∧ 4 ≤ r.idx.toNat ∧ r.idx.toNat ≤ 7) := by
    rw [h8]
    cases r.ext8 <;> simp [Nat.lt_succ_iff, Bool.and_assoc]
  rw [e]
  split
  · rename_i h1
    rw [if_pos (of_decide_eq_true h1)]
  · rename_i h1
    rw [if_neg (fun h => h1 (decide_eq_true h))]
    have e2 : (b == 8 && decide (4 ≤ r.idx.toNat ∧ r.idx.toNat < 8)) = decide (b = 8 ∧ 4 ≤ r.idx.toNat ∧ r.idx.toNat ≤ 7) := by
      by_cases hb8 : b = 8 <;> simp [Nat.lt_succ_iff, hb8]
    rw [e2]
    split <;> rfl

/-- C56: a converted register has the requested size and denotes the same hardware register number and part. -/
theorem c56_view {r q : Reg} (hr : r.Named) {b : Nat} (h : r.changeBit b = .ok q) : q.bit = b ∧ q.part = r.part := by
  unfold changeBit at h
  rw [setBit_eq (bit_sizes hr)] at h
  split at h
  · cases h
  split at h
  · cases h; exact ⟨by assumption, rfl⟩
  split at h
  · rename_i hk
    cases h
    refine ⟨rfl, ?_⟩
    have : r.kind ≠ .reg := by rcases hk with hk | hk <;> rw [hk] <;> decide
    simp [part, this]
  split at h
  rotate_left
  · cases h
  split at h
  · cases h
  rename_i hn
  cases h
  refine ⟨rfl, ?_⟩
  unfold part
  rw [if_neg hn]
  rw [if_neg]
  rintro ⟨-, h1, h2, h3⟩
  simp only [decide_eq_false_iff_not] at h2
  exact h2 ⟨h1, h3⟩

/-- The registers that have views of several sizes. -/
theorem kinds {r : Reg} (hk : r.kind = .reg ∨ r.isSIMD = true ∨ r.kind = .tmm) :
    (r.kind = .reg ∨ r.kind = .xmm ∨ r.kind = .ymm ∨ r.kind = .zmm ∨ r.kind = .tmm) ∧ ¬ (r.kind = .mem ∨ r.kind = .opmask) := by
  unfold isSIMD isXMM isYMM isZMM at hk
  revert hk
  cases r.kind <;> simp

/-- C56: which conversions of a general, vector or tile register succeed: all of them, except that ah, ch, dh, bh have no other view. -/
theorem c56_accept {r : Reg} (hr : r.Named) (hk : r.kind = .reg ∨ r.isSIMD = true ∨ r.kind = .tmm) (b : Nat) :
    (∃ q, r.changeBit b = .ok q) ↔ b ∈ sizes ∧ (r.bit = b ∨ r.part.2 = false) := by
  obtain ⟨hk', hno⟩ := kinds hk
  unfold changeBit
  rw [setBit_eq (bit_sizes hr), if_neg hno, if_pos hk']
  by_cases hb : b ∉ sizes
  · rw [if_pos hb]; simp [hb]
  rw [if_neg hb]
  replace hb : b ∈ sizes := Classical.not_not.mp hb
  by_cases hq : r.bit = b
  · rw [if_pos hq]; simp [hb, hq]
  rw [if_neg hq]
  unfold part
  split
  · rename_i h; simp [hq]
  · simp [hb]

/-- C56: a conversion to a general register size gives a general register, to a vector size a vector register, and the result is again a
register a program can name.  (Size 8192 is excluded in the last part: `zmm20.changeBit(8192)` is accepted, but there is no tmm20.) -/
theorem c56_kind {r q : Reg} (hr : r.Named) (hk : r.kind = .reg ∨ r.isSIMD = true ∨ r.kind = .tmm) {b : Nat} (h : r.changeBit b = .ok q) :
    (q.kind = .reg ↔ b ≤ 64) ∧ (q.isSIMD = true ↔ b = 128 ∨ b = 256 ∨ b = 512) ∧ (b ≠ 8192 → q.Named) := by
  obtain ⟨hk', hno⟩ := kinds hk
  unfold changeBit at h
  rw [setBit_eq (bit_sizes hr), if_neg hno, if_pos hk'] at h
  split at h
  · cases h
  rename_i hb
  have hb : b ∈ sizes := Classical.not_not.mp hb
  split at h
  · rename_i hq
    cases h
    rw [← and_assoc]
    refine ⟨?_, fun _ => hr⟩
    subst hq
    unfold isSIMD isXMM isYMM isZMM
    rcases hr.shape with ⟨h1, h | h | h | h⟩ | ⟨h1, h⟩ | ⟨h1, h⟩ | ⟨h1, h⟩ | ⟨h1, h⟩ | ⟨h1, h⟩ | ⟨h1, h⟩ | ⟨h1, h⟩ | ⟨h1, h⟩ <;>
      simp [h1, h] at hk' ⊢
  split at h
  · cases h
  cases h
  rw [mem_sizes] at hb
  unfold isSIMD isXMM isYMM isZMM
  refine ⟨?_, ?_, fun h8 => ⟨?_, ?_, ?_, ?_⟩⟩
  · rcases hb with rfl | rfl | rfl | rfl | rfl | rfl | rfl | rfl <;> simp
  · rcases hb with rfl | rfl | rfl | rfl | rfl | rfl | rfl | rfl <;> simp
  · rcases hb with rfl | rfl | rfl | rfl | rfl | rfl | rfl | rfl <;> simp
  · intro h
    obtain ⟨rfl, h1, h2⟩ := of_decide_eq_true h
    exact ⟨rfl, rfl, h1, h2⟩
  · rcases hb with rfl | rfl | rfl | rfl | rfl | rfl | rfl | rfl <;> simp at h8 ⊢
  · rcases hb with rfl | rfl | rfl | rfl | rfl | rfl | rfl | rfl <;> simp

/-- C56: converting and converting back gives the same register, for every register without opmask and rounding decoration. -/
theorem c56_roundtrip {r q : Reg} (hr : r.Named) (hm : r.mask = 0) (hn : r.rnd = 0) {b : Nat} (h : r.changeBit b = .ok q) :
    q.changeBit r.bit = .ok r := by
  have hs := bit_sizes hr
  unfold changeBit at h ⊢
  rw [setBit_eq hs] at h
  split at h
  · cases h
  rename_i hb
  have hb : b ∈ sizes := Classical.not_not.mp hb
  split at h
  · rename_i hq
    cases h
    rw [setBit_eq hs, if_neg (fun h => h hs), if_pos rfl]
  rename_i hq
  have hq' : b ≠ r.bit := fun h => hq h.symm
  split at h
  · rename_i hk
    cases h
    rw [setBit_eq hb, if_neg (fun h => h hs), if_neg hq', if_pos hk]
  split at h
  rotate_left
  · cases h
  rename_i hno hk
  split at h
  · cases h
  rename_i hh
  cases h
  rw [setBit_eq hb, if_neg (fun h => h hs), if_neg hq']
  obtain ⟨idx, ext8, kind, bit, zero, mask, rnd, nf, zu⟩ := r
  obtain ⟨hshape, hext, -, -⟩ := hr
  dsimp only at *
  subst hm hn
  rw [mem_sizes] at hb
  have key : ext8 = decide (kind = .reg ∧ bit = 8 ∧ 4 ≤ idx.toNat ∧ idx.toNat ≤ 7) := by
    cases he : ext8
    · symm; rw [decide_eq_false_iff_not]
      rintro ⟨h1, h2, h3⟩
      exact hh ⟨h1, h2, he, h3⟩
    · symm; rw [decide_eq_true_iff]; exact hext he
  rcases hshape with ⟨rfl, rfl | rfl | rfl | rfl⟩ | ⟨rfl, rfl⟩ | ⟨rfl, rfl⟩ | ⟨rfl, rfl⟩ | ⟨rfl, rfl⟩ | ⟨rfl, rfl⟩ | ⟨rfl, rfl⟩ | ⟨rfl, rfl⟩ | ⟨rfl, rfl⟩ <;>
    (try (simp at hk; done)) <;> rcases hb with rfl | rfl | rfl | rfl | rfl | rfl | rfl | rfl <;> simp [key] at hq ⊢

/-- C56: the same for the `cvt` functions. -/
theorem c56_cvt {r q : Reg} (hr : r.Named) (hk : r.kind = .reg ∨ r.isSIMD = true ∨ r.kind = .tmm) :
    (r.cvt8 = .ok q → q.bit = 8 ∧ q.kind = .reg ∧ q.part = r.part) ∧
    (∀ b, b = 16 ∨ b = 32 ∨ b = 64 → r.cvtGp b = .ok q → q.bit = b ∧ q.kind = .reg ∧ q.part = r.part) ∧
    (r.cvt128 = .ok q → q = .xmm r.idx) ∧ (r.cvt256 = .ok q → q = .ymm r.idx) ∧ (r.cvt512 = .ok q → q = .zmm r.idx) := by
  have key : ∀ {b} {f : Reg → Reg}, (do let q ← r.changeBit b; return f q : Except Err Reg) = .ok q →
      ∃ p, r.changeBit b = .ok p ∧ q = f p := by
    intro b f h
    cases hc : r.changeBit b with
    | error e => rw [hc] at h; cases h
    | ok p => rw [hc] at h; cases h; exact ⟨p, rfl, rfl⟩
  have hidx : ∀ {b p}, r.changeBit b = .ok p → p.idx = r.idx := by
    intro b p h
    unfold changeBit at h
    rw [setBit_eq (bit_sizes hr)] at h
    repeat' split at h
    all_goals first | (cases h; rfl) | cases h
  refine ⟨?_, ?_, ?_, ?_, ?_⟩
  · intro h
    obtain ⟨p, hp, rfl⟩ := key h
    refine ⟨rfl, rfl, ?_⟩
    obtain ⟨h1, h2⟩ := c56_view hr hp
    rw [← h2]
    unfold part
    rw [((c56_kind hr hk hp).1).mpr (by decide), h1]
    rfl
  · intro b hb h
    obtain ⟨p, hp, rfl⟩ := key h
    refine ⟨rfl, rfl, ?_⟩
    obtain ⟨h1, h2⟩ := c56_view hr hp
    rw [← h2]
    unfold part
    rw [if_neg, if_neg]
    · rfl
    · rintro ⟨-, h, -⟩; rw [h1] at h; omega
    · rintro ⟨-, h, -⟩
      have h : b = 8 := h
      omega
  all_goals
    intro h
    obtain ⟨p, hp, rfl⟩ := key h
    rw [hidx hp]

/-- C56 fails for the other register classes, although the comment on `setBit` says that they are refused: `k4.cvt8()` is ah,
`mm3.cvt64()` is rbx and `st1.cvt32()` is ecx. -/
theorem c56_refuted_class : (opmask 4).cvt8 = .ok (r8 4) ∧ (r8 4).part = (0, true) ∧ (mm 3).cvtGp 64 = .ok (gp 3 64) ∧
    (st 1).cvtGp 32 = .ok (gp 1 32) := ⟨rfl, rfl, rfl, rfl⟩

example : (r8 4).changeBit 64 = .error .CANT_CONVERT ∧ (r8 4 true).changeBit 64 = .ok (gp 4 64) ∧ (gp 5 32).cvt8 = .ok (r8 5 true) :=
  ⟨rfl, rfl, rfl⟩
end Reg
end Xbyak
