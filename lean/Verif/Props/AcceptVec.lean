import Verif.AcceptVecChk
import Verif.Props.Accept
/-!
# C87: vector instructions the manual lists are accepted

`X86.Vec.forms` are the lines of the instruction column of the manual; `OneEach` of `vkinds` are the operands of a line for a vector length.
-/
namespace Xbyak
namespace Mn
open E X86

theorem vforms_mem {n : Nat} {f : VForm} (h : f ∈ Vec.forms n) : ∃ g ∈ Vec.groups, n ∈ g.2 ∧ f ∈ g.1 := by
  obtain ⟨g, hg, hf⟩ := List.mem_flatMap.1 h
  split at hf
  · rename_i hi
    obtain ⟨m, hm, h⟩ := List.any_eq_true.1 hi
    exact ⟨g, hg, Nat.eq_of_beq_eq_true h ▸ hm, hf⟩
  · cases hf

/-- C87: for every mnemonic, every line of the manual and every vector length of it there is a function with that name that takes any registers (up to number 15 with
VEX, to 31 with EVEX) and any address of the kinds and sizes listed and returns, whatever the immediate; where the function has a parameter for it, with a suitable choice of
encoding.  Partial: not the lines of `vrefused`; the operands have no mask and no rounding, and the generator its initial preference of encodings. -/
theorem c87_partial {n : Nat} {f : VForm} (hf : f ∈ Vec.forms n) {vl : Nat} (hv : vl ∈ f.lens) (hr : vrefused n f vl = false) {os : List Operand}
    (ho : OneEach (f.ops.map (vkinds f.evex vl)) os) (ints : List Word) :
    ∃ e c w, e.name = n ∧ e.nInts = f.ints ∧ (c = .default ∨ .enc ∈ e.params) ∧ Calls e { ops := os, ints := ints, enc := c } w := by
  obtain ⟨g, hg, hn, hf⟩ := vforms_mem hf
  have h := List.all_eq_true.1 (List.all_eq_true.1 (vcheck_all hg hn) f hf) vl hv
  rw [hr, Bool.false_or] at h
  obtain ⟨ks, hk, ha⟩ := ho.choose
  have h := List.all_eq_true.1 h ks hk
  split at h
  · rw [Bool.and_eq_true, Bool.or_eq_true] at h
    have hc := noByte_clash h.1 ha
    rcases h.2 with h | h
    all_goals
      obtain ⟨e, he, w, h1, h2⟩ := covers_calls (fun e he => (of_namedT e he).1) h ha hc ints
      exact ⟨e, .default, w, (of_namedT e he).2, h1, .inl rfl, h2⟩
  · obtain ⟨e, he, c, w, h1, h2, h3⟩ := qcovers_calls (fun e he => (of_namedT e he).1) h ha ints
    exact ⟨e, c, w, (of_namedT e he).2, h2, h1, h3⟩

/-! ## The table is complete -/

/-- The first letter of a name. -/
def initial : Nat → Nat → Nat
  | 0, n => n
  | fuel + 1, n => bif Nat.blt n 256 then n else initial fuel (n / 256)

/-- The instructions with a vector of indices, and those without operands. -/
def vothers : List Nat :=
  [n!"vgatherdpd", n!"vgatherdps", n!"vgatherqpd", n!"vgatherqps", n!"vpgatherdd", n!"vpgatherdq", n!"vpgatherqd", n!"vpgatherqq", n!"vgatherpf0dpd", n!"vgatherpf0dps",
   n!"vgatherpf0qpd", n!"vgatherpf0qps", n!"vgatherpf1dpd", n!"vgatherpf1dps", n!"vgatherpf1qpd", n!"vgatherpf1qps", n!"vpscatterdd", n!"vpscatterdq", n!"vpscatterqd",
   n!"vpscatterqq", n!"vscatterdpd", n!"vscatterdps", n!"vscatterqpd", n!"vscatterqps", n!"vscatterpf0dpd", n!"vscatterpf0dps", n!"vscatterpf0qpd", n!"vscatterpf0qps",
   n!"vscatterpf1dpd", n!"vscatterpf1dps", n!"vscatterpf1qpd", n!"vscatterpf1qps", n!"vzeroall", n!"vzeroupper"]

private def vnames : List Nat := (Vec.groups.flatMap fun g => if g.1.isEmpty then [] else g.2) ++ vothers

private def listed? (k : Nat) : Bool :=
  let ns := vnames.filter fun n => Nat.beq (n % 61) k
  (bucket k).all fun e => let c := initial 32 e.name
    !(Nat.beq c 118 || Nat.beq c 107) || Manual.isIn e.name ns

private theorem listed_all : ((List.range 61).all listed?) = true := by decide +kernel

/-- Every function of the mnemonic table whose name begins with `v` or `k` is in the table of the manual, but for `vothers`. -/
theorem c87_complete {e : Entry} (he : e ∈ all) (hi : initial 32 e.name = 'v'.toNat ∨ initial 32 e.name = 'k'.toNat) (ho : e.name ∉ vothers) : Vec.forms e.name ≠ [] := by
  obtain ⟨t, ht, het⟩ := tabs_mem he
  have h := List.all_eq_true.1 (List.all_eq_true.1 listed_all (e.name % 61) (List.mem_range.2 (Nat.mod_lt _ (by decide)))) e
    (List.mem_flatMap.2 ⟨t, ht, List.mem_filter.2 ⟨het, Nat.beq_refl _⟩⟩)
  simp only [Bool.or_eq_true, Bool.not_eq_true', Bool.or_eq_false_iff] at h
  rcases h with h | h
  · rcases hi with hi | hi
    · rw [hi] at h; exact absurd h.1 (by decide)
    · rw [hi] at h; exact absurd h.2 (by decide)
  · obtain ⟨m, hm, h⟩ := List.any_eq_true.1 h
    obtain rfl := Nat.eq_of_beq_eq_true h
    rcases List.mem_append.1 (List.mem_filter.1 hm).1 with h1 | h1
    · obtain ⟨g, hg, h1⟩ := List.mem_flatMap.1 h1
      split at h1
      · cases h1
      · rename_i h2
        intro h0
        apply h2
        rw [List.isEmpty_iff, List.eq_nil_iff_forall_not_mem]
        intro f hf
        have : f ∈ Vec.forms e.name := List.mem_flatMap.2 ⟨g, hg, by rw [if_pos (show Manual.isIn e.name g.2 = true from List.any_eq_true.2 ⟨_, h1, Nat.beq_refl _⟩)]; exact hf⟩
        rw [h0] at this; cases this
    · exact absurd h1 ho

/-! ## Lines that are refused -/

/-- No function with the name takes the operands and returns, whatever encoding is asked for. -/
def NoneTakesVec (n : Nat) (os : List Operand) (ints : List Word) : Prop :=
  ∀ c, NoneTakes n { ops := os, ints := ints, enc := c }

theorem noneVec {n : Nat} {os : List Operand} {ints : List Word}
    (h : ([PrefEnc.default, .vex, .evex, .preAVX10v2, .avx10v2].all fun c => tabs.all fun t => (namedIn t n).all fun e => !e.accepts { ops := os, ints := ints, enc := c }) = true) :
    NoneTakesVec n os ints := by
  intro c
  exact noneTakes_of (List.all_eq_true.1 h c (by cases c <;> simp))

/-- Bug: `T_YMM` is missing at `vsm4key4` and `vsm4rnds4` (1559, 1560), so VSM4KEY4 ymm1, ymm2, ymm3 and the 512-bit instruction are refused. -/
theorem c87_refuted_sm4 :
    NoneTakesVec n!"vsm4key4" [.reg (.ymm 1), .reg (.ymm 2), .reg (.ymm 3)] [] ∧ NoneTakesVec n!"vsm4rnds4" [.reg (.ymm 1), .reg (.ymm 2), .reg (.ymm 3)] [] ∧
    NoneTakesVec n!"vsm4key4" [.reg (.zmm 1), .reg (.zmm 2), .reg (.zmm 3)] [] ∧ NoneTakesVec n!"vsm4rnds4" [.reg (.zmm 1), .reg (.zmm 2), .reg (.zmm 3)] [] :=
  ⟨noneVec (by decide +kernel), noneVec (by decide +kernel), noneVec (by decide +kernel), noneVec (by decide +kernel)⟩

/-- `vextractps(rax, xmm1, 1)` is refused, unlike `extractps(rax, xmm1, 1)` and `vpextrb(rax, xmm1, 1)`; the manual has `reg/m32` for both. -/
theorem c87_refuted_vextractps : NoneTakesVec n!"vextractps" [.reg (.gp 0 64), .reg (.xmm 1)] [1] ∧
    (∃ e w, e.name = n!"extractps" ∧ Calls e { ops := [.reg (.gp 0 64), .reg (.xmm 1)], ints := [1] } w) :=
  ⟨noneVec (by decide +kernel), by
    obtain ⟨e, h1, h2⟩ := callAt_calls (line := 366) (g := { ops := [.reg (.gp 0 64), .reg (.xmm 1)], ints := [1] }) (n := n!"extractps") (w := [0x66, 0x48, 0x0F, 0x3A, 0x17, 0xC8, 1].map .byte)
      (by decide +kernel)
    exact ⟨e, _, h1, h2⟩⟩

/-- Bug: `vpbroadcastb(xmm1, ah)` (2440) is accepted, and writes the same as `vpbroadcastb(xmm1, spl)`. -/
theorem c35_refuted_vpbroadcastb : Confused n!"vpbroadcastb" n!"vpbroadcastb" { ops := [.reg (.xmm 1), .reg (.r8 4)] } { ops := [.reg (.xmm 1), .reg (.r8 4 true)] } :=
  confused_of (l := 2440) (l' := 2440) (w := [0x62, 0xF2, 0x7D, 0x08, 0x7A, 0xCC].map .byte) (by decide +kernel) (by decide +kernel)

/-! ## Examples -/

/-- `vpmovzxbd(zmm29, xword [r12 + r9 * 8 - 5])`. -/
theorem c87_example : ∃ e c w, e.name = n!"vpmovzxbd" ∧ e.nInts = 0 ∧ (c = .default ∨ .enc ∈ e.params) ∧
    Calls e { ops := [.reg (.zmm 29), .mem { o := Addr.memOp 128, e := { base := .gp 12 64, index := .gp 9 64, scale := 8, disp := BitVec.ofInt 64 (-5) } }], enc := c } w := by
  refine c87_partial (n := n!"vpmovzxbd") (f := Vec.E Vec.len3 [.v 1, .vm 4] 0) (by decide +kernel) (vl := 512) (by decide) (by decide)
    (os := [.reg (.zmm 29), .mem { o := Addr.memOp 128, e := { base := .gp 12 64, index := .gp 9 64, scale := 8, disp := BitVec.ofInt 64 (-5) } }]) ?_ []
  refine ⟨⟨.zmm, by decide, 29, rfl⟩, ⟨.mem 128, by decide, _, rfl, ?_⟩, trivial⟩
  exact ⟨rfl, .inr ⟨12, by decide, .inr rfl⟩, .inr ⟨9, by decide, .inr rfl⟩, by decide, .inr (.inr rfl), .inl rfl, rfl, rfl, rfl, fun _ => rfl⟩

end Mn
end Xbyak
