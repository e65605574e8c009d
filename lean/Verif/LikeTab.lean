import Verif.LikeLeaf
import Verif.Mnemonic.All
/-!
# The tests written in the lines of the header depend on the shape of the operands only
-/
set_option linter.unusedSimpArgs false
namespace Xbyak
namespace Mn

/-- The lines that compare the number of a register with 0 themselves: `fnstsw(ax)`, `fstsw(ax)`. -/
def Entry.zeroTest (e : Entry) : Bool := Nat.beq e.line 459 || Nat.beq e.line 478

/-- Proves `Body.Resp`. -/
macro "resp" : tactic => `(tactic|
  (simp only [Body.Resp, and_true]
   first
   | trivial
   | (repeat' first | trivial | apply And.intro
      all_goals
        (intro g g' h hf
         first
         | (simp only [Reg.Like.rep_ne0 (hf rfl _)]; done)
         | simp only [h.isMEM, h.isNone, (h.reg _).isXMM, (h.reg _).isYMM, (h.reg _).isZMM, (h.reg _).isMMX, (h.reg _).isREG, (h.reg _).isBit, (h.reg _).bit, (h.reg _).kind,
           (h.reg _).mask, (h.reg _).ge16, (h.reg _).lt16, (h.reg _).isOPMASK]))))

set_option maxRecDepth 100000
theorem resp01 : ∀ e ∈ t01, e.body.Resp e.zeroTest := by
  unfold t01
  repeat' first | exact trivial | refine List.forall_mem_cons.2 ⟨?_, ?_⟩ | exact List.forall_mem_nil _
  all_goals resp
theorem resp02 : ∀ e ∈ t02, e.body.Resp e.zeroTest := by
  unfold t02
  repeat' first | exact trivial | refine List.forall_mem_cons.2 ⟨?_, ?_⟩ | exact List.forall_mem_nil _
  all_goals resp
theorem resp03 : ∀ e ∈ t03, e.body.Resp e.zeroTest := by
  unfold t03
  repeat' first | exact trivial | refine List.forall_mem_cons.2 ⟨?_, ?_⟩ | exact List.forall_mem_nil _
  all_goals resp
theorem resp04 : ∀ e ∈ t04, e.body.Resp e.zeroTest := by
  unfold t04
  repeat' first | exact trivial | refine List.forall_mem_cons.2 ⟨?_, ?_⟩ | exact List.forall_mem_nil _
  all_goals resp
theorem resp05 : ∀ e ∈ t05, e.body.Resp e.zeroTest := by
  unfold t05
  repeat' first | exact trivial | refine List.forall_mem_cons.2 ⟨?_, ?_⟩ | exact List.forall_mem_nil _
  all_goals resp
theorem resp06 : ∀ e ∈ t06, e.body.Resp e.zeroTest := by
  unfold t06
  repeat' first | exact trivial | refine List.forall_mem_cons.2 ⟨?_, ?_⟩ | exact List.forall_mem_nil _
  all_goals resp
theorem resp07 : ∀ e ∈ t07, e.body.Resp e.zeroTest := by
  unfold t07
  repeat' first | exact trivial | refine List.forall_mem_cons.2 ⟨?_, ?_⟩ | exact List.forall_mem_nil _
  all_goals resp
theorem resp08 : ∀ e ∈ t08, e.body.Resp e.zeroTest := by
  unfold t08
  repeat' first | exact trivial | refine List.forall_mem_cons.2 ⟨?_, ?_⟩ | exact List.forall_mem_nil _
  all_goals resp

theorem all_resp {e : Entry} (he : e ∈ all) : e.body.Resp e.zeroTest := by
  unfold all at he
  simp only [List.mem_append] at he
  rcases he with (((((((he | he) | he) | he) | he) | he) | he) | he)
  · exact resp01 e he
  · exact resp02 e he
  · exact resp03 e he
  · exact resp04 e he
  · exact resp05 e he
  · exact resp06 e he
  · exact resp07 e he
  · exact resp08 e he

end Mn
end Xbyak
