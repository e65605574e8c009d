import Verif.AcceptVecChk
import Verif.AcceptMask
/-!
# The check on the representatives with mask and broadcast

The names are checked in 7 parts, to bound the memory the kernel takes.

`AcceptVecChk` is imported only for the two not to be checked at the same time.
-/
namespace Xbyak
namespace Mn
open X86

set_option maxRecDepth 100000

/-- Masks and broadcasts are taken, for every seventh name. -/
private def part (k : Nat) : Bool :=
  Vec.groups.all fun g => g.2.all fun n => !Nat.beq (n % 7) k || dcheck n g.1

private theorem part0 : part 0 = true := by decide +kernel
private theorem part1 : part 1 = true := by decide +kernel
private theorem part2 : part 2 = true := by decide +kernel
private theorem part3 : part 3 = true := by decide +kernel
private theorem part4 : part 4 = true := by decide +kernel
private theorem part5 : part 5 = true := by decide +kernel
private theorem part6 : part 6 = true := by decide +kernel

private theorem parts {k : Nat} (h : k < 7) : part k = true := by
  match k, h with
  | 0, _ => exact part0
  | 1, _ => exact part1
  | 2, _ => exact part2
  | 3, _ => exact part3
  | 4, _ => exact part4
  | 5, _ => exact part5
  | 6, _ => exact part6

theorem dcheck_all {g : List VForm × List Nat} (hg : g ∈ Vec.groups) {n : Nat} (hn : n ∈ g.2) :
    dcheck n g.1 = true := by
  have h := List.all_eq_true.1 (List.all_eq_true.1 (parts (Nat.mod_lt n (by decide : 0 < 7))) g hg) n hn
  rw [Nat.beq_refl] at h
  simpa only [Bool.not_true, Bool.false_or] using h

end Mn
end Xbyak
