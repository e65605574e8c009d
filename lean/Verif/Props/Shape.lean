import Verif.LikeTab
import Verif.Props.Gp
/-!
# C85: which register is used does not decide whether an instruction is accepted

A call that returns for one choice of registers, displacement and scale returns for every other choice of the same shape, and a call
that throws throws the same error.  `Reg.Like`, `Addr.Like` (`Verif.Like`) say what the shape of an operand is: everything but the number of a
register (general registers within 0, 1, 2, 3, 4-7, 8-15, 16-31; vector registers within 0-7, 8-15, 16-31; base and index within 0-15, 16-31), the
displacement within the 32-bit range, and the scale (unless one is `[reg*2]`).
-/
namespace Xbyak
namespace Mn
open E

theorem takes_like (p : Param) {o o' : Operand} (h : o.Like o') : p.takes o = p.takes o' := by
  have k := h.hd
  cases p <;> simp only [Param.takes, h.isMEM, h.isREG, k.isMMX, k.isSIMD, k.isYMM, k.isZMM, k.isTMM, k.isOPMASK, k.isBNDREG, k.kind]

theorem Args.Like.fits {g g' : Args} (h : g.Like g') {ps : List Param} {opt : Nat} (hf : g.Fits ps opt) : g'.Fits ps opt := by
  refine ⟨h.len ▸ hf.1, h.len ▸ hf.2.1, fun i p o' hp ho' => ?_⟩
  rcases (h.opt i).or with ⟨h1, h2⟩ | ⟨r, s, h1, h2, h3⟩
  · rw [h2] at ho'; cases ho'
  · rw [h2] at ho'; cases ho'
    rw [← takes_like p h3]; exact hf.2.2 i p r hp h1

/-- The function does not compare register numbers with each other: it is not a gather with three registers. -/
def Entry.free (e : Entry) : Bool := e.body.leaves.all fun l => !l.compares

/-- The function looks at the value of its integer argument (an immediate that may be too large, or flags). -/
def Entry.looks (e : Entry) : Bool := e.body.leaves.any Leaf.looks

/-- The function compares the number of a register with 0, 1 or 2, or makes a general register of the number of a vector register. -/
def Entry.exact (e : Entry) : Bool := e.zeroTest || e.body.exact

/-- Arguments of the same shape for the function `e`: alike, for some functions also in the classes 0, 1, 2, 3 of vector registers, and with the same
integers where the function looks at them. -/
structure Entry.Alike (e : Entry) (g g' : Args) : Prop where
  like : g.Like g'
  fine : e.exact = true → g.Fine g'
  ints : e.looks = true → g.ints = g'.ints

/-- The functions that compare registers, by line: the gathers and scatters (with and without mask register), whose registers must differ. -/
theorem c85_compare : (all.filter fun e => !e.free).map (·.line) =
    [1301, 1302, 1303, 1304, 1440, 1441, 1442, 1443, 2361, 2362, 2371, 2372, 2497, 2498, 2499, 2500, 2551, 2552, 2553, 2554, 2634, 2635, 2644, 2645] := by
  decide +kernel

/-- C85: the outcome of a call (normal return, or the error thrown) is the same for operands of the same shape. -/
theorem c85_outcome {e : Entry} (he : e ∈ all) (hc : e.free = true) {g g' : Args} (h : e.Alike g g') :
    (e.body.run g).map (·.res) = (e.body.run g').map (·.res) := by
  refine Body.run_like h.like (fun k => h.fine (by unfold Entry.exact; rw [k]; rfl)) e.body (all_resp he) (fun l hl => ?_)
    (fun ⟨l, hl, k⟩ => h.ints (List.any_eq_true.2 ⟨l, hl, k⟩)) fun k => h.fine (by unfold Entry.exact; rw [k, Bool.or_true])
  have := List.all_eq_true.1 hc l hl
  rwa [Bool.not_eq_true'] at this

/-- C85: what is accepted for some registers and displacement is accepted for all of the same shape. -/
theorem c85_accepted {e : Entry} {g g' : Args} {w : List Act} (hw : Calls e g w) (hc : e.free = true) (h : e.Alike g g') :
    ∃ w', Calls e g' w' := by
  obtain ⟨m, hm, hg⟩ := hw.runs
  have := c85_outcome hw.mem hc h
  rw [hm] at this
  cases h2 : e.body.run g' with
  | none => rw [h2] at this; cases this
  | some m' =>
    rw [h2] at this
    exact ⟨m'.acts, hw.mem, h.like.fits hw.fits, m', h2, rfl, (Option.some.inj this).symm.trans hg.2⟩

/-- C85: what is refused for some registers and displacement is refused, with the same error, for all of the same shape. -/
theorem c85_refused {line name : Nat} {g g' : Args} {err : Err} (hw : Throws line name g err) 
    (hc : ∀ e ∈ all, e.line = line → e.name = name → e.free = true ∧ e.Alike g g') : Throws line name g' err := by
  obtain ⟨e, m, he, hl, hn, hf, hm, hr⟩ := hw
  have := c85_outcome he (hc e he hl hn).1 (hc e he hl hn).2
  rw [hm] at this
  cases h2 : e.body.run g' with
  | none => rw [h2] at this; cases this
  | some m' =>
    rw [h2] at this
    exact ⟨e, m', he, hl, hn, (hc e he hl hn).2.like.fits hf, h2, (Option.some.inj this).symm.trans hr⟩

/-- C85 for the functions written in `xbyak.h` itself (xbyak.h 2975-3092): `mov`, `xchg`, `test`, `imul`, `push`, `pop`, `bswap`. -/
theorem c85_functions {a b c d : Operand} {r s : Reg} (h : a.Like b) (k : c.Like d) (q : r.Like s) (i j : BitVec 32) :
    (mov a c).res = (mov b d).res ∧ (xchg a c).res = (xchg b d).res ∧ (test a r).res = (test b s).res ∧ (testI a i).res = (testI b j).res ∧
    (imulI r a i).res = (imulI s b j).res ∧ (push a).res = (push b).res ∧ (pop a).res = (pop b).res ∧ (bswap r).res = (bswap s).res :=
  ⟨mov_like h k, xchg_like h k, test_like h q, testI_like h i j, imulI_like q h i j, push_like h, pop_like h, bswap_like q⟩

/-! ## Examples -/

private def at' (b i : Reg) (s : Nat) (d : Word) : Operand := .mem { o := { idx := 0, ext8 := false, kind := .mem, bit := 32 }, e := { base := b, index := i, scale := s, disp := d } }

/-- `add(r9d, ptr[r8 + r12*4 + 5])` has the shape of `add(r15d, ptr[rbx + r13*2 - 0x80000000])`. -/
theorem c85_alike : Args.Like { ops := [.reg (.gp 9 32), at' (.gp 8 64) (.gp 12 64) 4 5] }
    { ops := [.reg (.gp 15 32), at' (.gp 3 64) (.gp 13 64) 2 (BitVec.ofInt 64 (-0x80000000))] } := by
  refine ⟨rfl, fun i o o' h h' => ?_, rfl, rfl⟩
  match i with
  | 0 => cases h; cases h'; exact ⟨rfl, rfl, rfl, rfl, rfl, rfl, rfl, rfl, by decide⟩
  | 1 => cases h; cases h'; exact ⟨.refl _, ⟨rfl, rfl, rfl, rfl, rfl, rfl, rfl⟩, ⟨rfl, rfl, rfl, rfl, rfl, rfl, rfl⟩, fun _ h => absurd h (by decide), by decide, rfl, rfl, rfl, rfl, rfl⟩
  | i + 2 => cases h

/-- The first of the two is accepted (with the bytes of `add r9d, [r8 + r12*4 + 5]`), hence the second. -/
theorem c85_example : ∃ e w, e.line = 11 ∧ Calls e { ops := [.reg (.gp 15 32), at' (.gp 3 64) (.gp 13 64) 2 (BitVec.ofInt 64 (-0x80000000))] } w := by
  obtain ⟨e, hl, hc⟩ : ∃ e, (e.line = 11 ∧ e.free = true ∧ e.looks = false ∧ e.exact = false) ∧ Calls e { ops := [.reg (.gp 9 32), at' (.gp 8 64) (.gp 12 64) 4 5] }
      ([0x47, 0x03, 0x4C, 0xA0, 0x05].map .byte) := by
    refine ⟨⟨11, n!"add", [.op, .op], 0, .leaf (.roMr (.a 0) (.a 1) 0x00)⟩, ⟨rfl, by decide, by decide, by decide⟩, ?_, ?_, ?_⟩
    · exact List.mem_of_getElem? (i := 9) (rfl)
    · refine ⟨by decide, by decide, fun i p o hp ho => ?_⟩
      match i with
      | 0 => cases hp; rfl
      | 1 => cases hp; rfl
      | i + 2 => cases hp
    · exact ⟨_, rfl, by decide +kernel, rfl⟩
  obtain ⟨w', hw'⟩ := c85_accepted hc hl.2.1 ⟨c85_alike, fun h => absurd h (by rw [hl.2.2.2]; decide), fun h => absurd h (by rw [hl.2.2.1]; decide)⟩
  exact ⟨e, w', hl.1, hw'⟩

/-- The classes matter: `add(al, r9b)`, `add(cl, r9b)` are accepted and `add(ah, r9b)` is not; `add(eax, ptr[rax + 0x7fffffff])` is, and
one more byte is not. -/
theorem c85_boundary :
    (callAt 11 { ops := [.reg (.r8 0), .reg (.r8 9)] }).isSome ∧ (callAt 11 { ops := [.reg (.r8 1), .reg (.r8 9)] }).isSome ∧
    Throws 11 n!"add" { ops := [.reg (.r8 4), .reg (.r8 9)] } .CANT_USE_ABCDH ∧
    (callAt 11 { ops := [.reg (.gp 0 32), at' (.gp 0 64) .nil 0 0x7fffffff] }).isSome ∧
    Throws 11 n!"add" { ops := [.reg (.gp 0 32), at' (.gp 0 64) .nil 0 0x80000000] } .OFFSET_IS_TOO_BIG :=
  ⟨by decide +kernel, by decide +kernel, throws_of (by decide +kernel), by decide +kernel, throws_of (by decide +kernel)⟩

end Mn
end Xbyak
