import Verif.AcceptGp
import Verif.SoundVec
/-!
# The check of the functions, group by group

`AcceptGp` is imported only for the two not to be checked at the same time, for the memory they take.
-/
namespace Xbyak
namespace Mn
open X86

set_option maxRecDepth 100000

private theorem check0 : (Vec.g0.all fun g => g.2.all fun n => gsound n g.1) = true := by decide +kernel
private theorem check1 : (Vec.g1.all fun g => g.2.all fun n => gsound n g.1) = true := by decide +kernel
private theorem check2 : (Vec.g2.all fun g => g.2.all fun n => gsound n g.1) = true := by decide +kernel
private theorem check3 : (Vec.g3.all fun g => g.2.all fun n => gsound n g.1) = true := by decide +kernel
private theorem check4 : (Vec.g4.all fun g => g.2.all fun n => gsound n g.1) = true := by decide +kernel

theorem gsound_all {g : List VForm × List Nat} (hg : g ∈ Vec.groups) {n : Nat} (hn : n ∈ g.2) : gsound n g.1 = true := by
  unfold Vec.groups at hg
  simp only [List.mem_append] at hg
  rcases hg with (((h | h) | h) | h) | h
  · exact List.all_eq_true.1 (List.all_eq_true.1 check0 g h) n hn
  · exact List.all_eq_true.1 (List.all_eq_true.1 check1 g h) n hn
  · exact List.all_eq_true.1 (List.all_eq_true.1 check2 g h) n hn
  · exact List.all_eq_true.1 (List.all_eq_true.1 check3 g h) n hn
  · exact List.all_eq_true.1 (List.all_eq_true.1 check4 g h) n hn

end Mn
end Xbyak
