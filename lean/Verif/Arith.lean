import Verif.Basic
/-!
# Range predicates and little-endian bytes

Models xbyak.h 414-423 (`IsInDisp8`, `IsInInt32`, `VerifyInInt32`) and the byte extraction loops of
xbyak.h 1208 and 1257-1259.
-/
namespace Xbyak

/-- xbyak.h 414 `IsInDisp8(uint32_t)`. -/
def isInDisp8 (x : BitVec 32) : Bool := decide (0xFFFFFF80 ≤ x.toNat) || decide (x.toNat ≤ 0x7F)

/-- xbyak.h 415 `IsInInt32(uint64_t)`: `~uint64_t(0x7fffffffu) <= x || x <= 0x7FFFFFFFU`. -/
def isInInt32 (x : Word) : Bool :=
  decide (0xFFFFFFFF80000000 ≤ x.toNat) || decide (x.toNat ≤ 0x7FFFFFFF)

/-- `static_cast<uint32_t>(uint64_t)` -/
def lo32 (x : Word) : BitVec 32 := x.setWidth 32

/-- The `n` bytes `static_cast<uint8_t>(v >> (i*8))`, `i = 0..n-1` (xbyak.h 1208, 1257-1259). -/
def leBytes (n : Nat) (v : Word) : List Byte :=
  (List.range n).map fun i => (v >>> (8 * i)).setWidth 8

@[simp] theorem leBytes_length (n : Nat) (v : Word) : (leBytes n v).length = n := by simp [leBytes]

/-! ## Specification side: what a CPU reads -/

/-- Value of a little-endian byte string. -/
def fromLE : List Byte → Nat
  | [] => 0
  | b :: t => b.toNat + 256 * fromLE t

theorem fromLE_lt (l : List Byte) : fromLE l < 256 ^ l.length := by
  induction l with
  | nil => simp [fromLE]
  | cons b t ih =>
    simp only [fromLE, List.length_cons, Nat.pow_succ]
    have := b.isLt
    omega

/-- Sign-extended value of a little-endian byte string, as a 64-bit word. -/
def sextLE (l : List Byte) : Word := (BitVec.ofNat (8 * l.length) (fromLE l)).signExtend 64

theorem leBytes_succ (n : Nat) (v : Word) :
    leBytes (n + 1) v = v.setWidth 8 :: leBytes n (v >>> 8) := by
  simp only [leBytes, List.range_succ_eq_map, List.map_cons, List.map_map]
  refine List.cons_eq_cons.mpr ⟨by simp, ?_⟩
  refine List.map_congr_left ?_
  intro i _
  simp only [Function.comp]
  rw [← BitVec.shiftRight_add]
  congr 2
  omega

theorem fromLE_leBytes (n : Nat) (v : Word) : fromLE (leBytes n v) = v.toNat % 256 ^ n := by
  induction n generalizing v with
  | zero => simp [leBytes, fromLE, Nat.mod_one]
  | succ n ih =>
    rw [leBytes_succ, fromLE, ih]
    simp only [BitVec.toNat_setWidth, BitVec.toNat_ushiftRight, Nat.shiftRight_eq_div_pow]
    have : 256 ^ (n + 1) = 256 * 256 ^ n := by rw [Nat.pow_succ, Nat.mul_comm]
    rw [this, Nat.mod_mul]

theorem isInDisp8_iff (x : BitVec 32) : isInDisp8 x = true ↔ -128 ≤ x.toInt ∧ x.toInt < 128 := by
  have := x.isLt
  simp only [isInDisp8, Bool.or_eq_true, decide_eq_true_eq, BitVec.toInt_eq_toNat_cond]
  split <;> omega

theorem isInInt32_iff (x : Word) :
    isInInt32 x = true ↔ -(2 ^ 31) ≤ x.toInt ∧ x.toInt < 2 ^ 31 := by
  have := x.isLt
  simp only [isInInt32, Bool.or_eq_true, decide_eq_true_eq, BitVec.toInt_eq_toNat_cond]
  split <;> omega

/-- The stored `n` bytes, sign-extended by the CPU, give back the value iff it is representable. -/
theorem sextLE_leBytes (n : Nat) (v : Word) (hn : n = 1 ∨ n = 2 ∨ n = 4 ∨ n = 8)
    (h : -(2 ^ (8 * n - 1) : Int) ≤ v.toInt ∧ v.toInt < 2 ^ (8 * n - 1)) :
    sextLE (leBytes n v) = v := by
  have hv := v.isLt
  have e : ∀ m, (BitVec.ofNat (8 * m) (v.toNat % 256 ^ m)) = v.setWidth (8 * m) := by
    intro m
    apply BitVec.eq_of_toNat_eq
    simp [Nat.pow_mul]
  unfold sextLE
  rw [fromLE_leBytes, leBytes_length, e]
  apply BitVec.eq_of_toInt_eq
  rw [BitVec.toInt_signExtend_of_le (by rcases hn with h | h | h | h <;> subst h <;> decide)]
  rw [BitVec.toInt_setWidth]
  rcases hn with rfl | rfl | rfl | rfl <;>
    (simp only [BitVec.toInt_eq_toNat_cond] at h ⊢; simp only [Int.bmod]; split at h <;> split <;> omega)

example : sextLE (leBytes 4 (-5 : Word)) = -5 := by decide

end Xbyak
