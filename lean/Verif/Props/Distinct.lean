import Verif.SelTable
/-!
# C45: no two instructions are confused

Any two functions of `xbyak_mnemonic.h` in the SSE, AVX, AVX-512, mask and tile families with different names write different bytes,
whatever their operands, except the pseudo-ops of the manual and twelve pairs the library does confuse.
-/
namespace Xbyak
namespace Mn
open E

/-- Calling the function of the table entry `e` with the arguments `g` writes `w` and returns. -/
structure Calls (e : Entry) (g : Args) (w : List Act) : Prop where
  mem : e ∈ all
  fits : g.Fits e.params e.opt
  runs : ∃ m, e.body.run g = some m ∧ m.Gives w ()

/-- The arguments have no part in the two ways the library writes another instruction than the one asked for: 64-bit absolute addresses
(no ModRM byte, see C38), and 16-bit operands of instructions without mandatory prefix (`c45_refuted_word`).  The other two conditions
hold for all operands a program can make. -/
structure Plain (e : Entry) (g : Args) : Prop where
  good : g.Good
  no16 : e.body.bare = true → ∀ i, (g.op i).isBit 16 = false

/-- The functions `c45_partial` speaks about include all that have a vector, mask or tile parameter. -/
theorem c45_family {e : Entry} (he : e ∈ all) {p : Param} (hp : p ∈ e.params)
    (h : p = .mmx ∨ p = .xmm ∨ p = .ymm ∨ p = .zmm ∨ p = .tmm ∨ p = .opmask) : e.vec = true := by
  have := List.all_eq_true.mp vec_check e he
  rw [Bool.or_eq_true] at this
  rcases this with h' | h'
  · rw [Bool.not_eq_true'] at h'
    have := List.any_eq_false.mp h' p hp
    rcases h with rfl | rfl | rfl | rfl | rfl | rfl <;> simp at this
  · exact h'

/-- C45: two functions with different names never write the same bytes, whatever their operands (and whatever is filled in for labels).
`pseudoOps` are the aliases of the manual.  Partial: `confusedPairs` are confused (`c45_refuted_*`), and `Plain`. -/
theorem c45_partial {e f : Entry} (ve : e.vec = true) (vf : f.vec = true) {g g' : Args} {w w' : List Act} (hc : Calls e g w) (hc' : Calls f g' w')
    (hp : Plain e g) (hp' : Plain f g') (hn : e.name ≠ f.name) (h1 : listed pseudoOps e.name f.name = false)
    (h2 : listed confusedPairs e.name f.name = false) (fill fill' : Act → BitVec 32) : concr fill w ≠ concr fill' w' := by
  intro heq
  obtain ⟨m, hm, hw⟩ := hc.runs
  obtain ⟨m', hm', hw'⟩ := hc'.runs
  obtain ⟨s, hs, hS⟩ := Entry.shows hc.mem ve hc.fits hp.good hp.no16 hm w () hw fill
  obtain ⟨t, ht, hT⟩ := Entry.shows hc'.mem vf hc'.fits hp'.good hp'.no16 hm' w' () hw' fill'
  rw [← heq] at hT
  exact sels_disj hc.mem hc'.mem ve vf hn h1 h2 hs ht (Sel.disj_sees hS hT)

/-- A pseudo-op and its base instruction agree only if the last byte, the immediate, is that of the pseudo-op: the selectors of a call
are read back from the bytes. -/
theorem c45_reads {e : Entry} (ve : e.vec = true) {g : Args} {w : List Act} (hc : Calls e g w) (hp : Plain e g) (fill : Act → BitVec 32) :
    ∃ s ∈ e.sels, s.Sees (concr fill w) := by
  obtain ⟨m, hm, hw⟩ := hc.runs
  exact Entry.shows hc.mem ve hc.fits hp.good hp.no16 hm w () hw fill

/-! ## The confused pairs -/

/-- The acts of calling the function at a line, if the operands fit and it returns. -/
def callAt (line : Nat) (g : Args) : Option (Nat × List Act) :=
  (all.find? fun e => Nat.beq e.line line).bind fun e =>
    if g.ops.length ≤ (e.params.filter Param.isOperand).length ∧ (e.params.filter Param.isOperand).length ≤ g.ops.length + e.opt ∧ 
        ((e.params.filter Param.isOperand).zip g.ops).all fun p => p.1.takes p.2 then
      (e.body.run g).bind fun m => match m.res with
        | .ok _ => some (e.name, m.acts)
        | .error _ => none
    else none

theorem callAt_calls {line n : Nat} {g : Args} {w : List Act} (h : callAt line g = some (n, w)) : ∃ e, e.name = n ∧ Calls e g w := by
  unfold callAt at h
  obtain ⟨e, he, h⟩ := Option.bind_eq_some_iff.mp h
  split at h
  · rename_i hf
    obtain ⟨m, hm, h⟩ := Option.bind_eq_some_iff.mp h
    split at h
    · rename_i u hr
      cases h
      refine ⟨e, rfl, List.mem_of_find?_eq_some he, ⟨hf.1, hf.2.1, ?_⟩, m, hm, rfl, hr⟩
      intro i p o hp ho
      refine List.all_eq_true.mp hf.2.2 (p, o) ?_
      rw [List.mem_iff_getElem?]
      exact ⟨i, by rw [List.getElem?_zip_eq_some]; exact ⟨hp, ho⟩⟩
    · cases h
  · cases h

/-- Two names, the arguments of the two calls: both return and write the same. -/
def Confused (n n' : Nat) (g g' : Args) : Prop := ∃ e f w, e.name = n ∧ f.name = n' ∧ Calls e g w ∧ Calls f g' w

theorem confused_of {l l' n n' : Nat} {g g' : Args} {w : List Act} (h : callAt l g = some (n, w)) (h' : callAt l' g' = some (n', w)) : Confused n n' g g' := by
  obtain ⟨e, h1, h2⟩ := callAt_calls h
  obtain ⟨f, h3, h4⟩ := callAt_calls h'
  exact ⟨e, f, w, h1, h3, h2, h4⟩

private def rax0 (bit : Nat) : Addr := { o := { idx := 0, ext8 := false, kind := .mem, bit := bit }, e := { base := .gp 0 64, index := .nil, scale := 0, disp := 0 } }

private def two (a b : Operand) (i : List Word := []) : Args := { ops := [a, b], ints := i }
private def three (a b c : Operand) : Args := { ops := [a, b, c] }

/-- `vpermq ymm1, ymm2, ymm3` (1435), which exists only with EVEX, is written as `vpermd` (1426) with VEX. -/
theorem c45_refuted_vpermq : Confused n!"vpermd" n!"vpermq" (three (.reg (.ymm 1)) (.reg (.ymm 2)) (.reg (.ymm 3)))
    (three (.reg (.ymm 1)) (.reg (.ymm 2)) (.reg (.ymm 3))) :=
  confused_of (l := 1426) (l' := 1435) (w := [0xC4, 0xE2, 0x6D, 0x36, 0xCB].map .byte) (by decide +kernel) (by decide +kernel)

/-- `vp2intersectd` and `vp2intersectq` (2427, 2428), which exist only with EVEX, are written with VEX, without their difference. -/
theorem c45_refuted_vp2intersect : Confused n!"vp2intersectd" n!"vp2intersectq" (three (.reg (.opmask 1)) (.reg (.xmm 2)) (.reg (.xmm 3)))
    (three (.reg (.opmask 1)) (.reg (.xmm 2)) (.reg (.xmm 3))) :=
  confused_of (l := 2427) (l' := 2428) (w := [0xC4, 0xE2, 0x6B, 0x68, 0xCB].map .byte) (by decide +kernel) (by decide +kernel)

/-- `vmovhps xmm1, xmm2` (1343, an instruction that only exists with memory) is `vmovlhps xmm1, xmm2` (1344). -/
theorem c45_refuted_vmovhps : Confused n!"vmovhps" n!"vmovlhps" (two (.reg (.xmm 1)) (.reg (.xmm 2)))
    (two (.reg (.xmm 1)) (.reg (.xmm 2))) :=
  confused_of (l := 1343) (l' := 1344) (w := [0xC5, 0xF0, 0x16, 0xCA].map .byte) (by decide +kernel) (by decide +kernel)

/-- `vmovlps xmm1, xmm2` (1348, an instruction that only exists with memory) is `vmovhlps xmm1, xmm2` (1339). -/
theorem c45_refuted_vmovlps : Confused n!"vmovhlps" n!"vmovlps" (two (.reg (.xmm 1)) (.reg (.xmm 2)))
    (two (.reg (.xmm 1)) (.reg (.xmm 2))) :=
  confused_of (l := 1339) (l' := 1348) (w := [0xC5, 0xF0, 0x12, 0xCA].map .byte) (by decide +kernel) (by decide +kernel)

/-- `pinsrd` with a 64-bit register (809) is `pinsrq` (1883). -/
theorem c45_refuted_pinsrd : Confused n!"pinsrd" n!"pinsrq" (two (.reg (.xmm 1)) (.reg (.gp 0 64)) [1]) (two (.reg (.xmm 1)) (.reg (.gp 0 64)) [1]) :=
  confused_of (l := 809) (l' := 1883) (w := [0x66, 0x48, 0x0F, 0x3A, 0x22, 0xC8, 1].map .byte) (by decide +kernel) (by decide +kernel)

/-- `pextrd` with a 64-bit register (799) is `pextrq` (1882). -/
theorem c45_refuted_pextrd : Confused n!"pextrd" n!"pextrq" (two (.reg (.gp 0 64)) (.reg (.xmm 1)) [1]) (two (.reg (.gp 0 64)) (.reg (.xmm 1)) [1]) :=
  confused_of (l := 799) (l' := 1882) (w := [0x66, 0x48, 0x0F, 0x3A, 0x16, 0xC8, 1].map .byte) (by decide +kernel) (by decide +kernel)

/-- `pshufd`, `pshufhw`, `pshuflw` with mmx registers (858-860) are `pshufw` (861): all four write the same. -/
theorem c45_refuted_pshuf {n n' : Nat} (hn : n ∈ [n!"pshufd", n!"pshufhw", n!"pshuflw", n!"pshufw"]) (hn' : n' ∈ [n!"pshufd", n!"pshufhw", n!"pshuflw", n!"pshufw"]) :
    Confused n n' (two (.reg (.mm 1)) (.reg (.mm 2)) [27]) (two (.reg (.mm 1)) (.reg (.mm 2)) [27]) := by
  have h : ∀ k ∈ [n!"pshufd", n!"pshufhw", n!"pshuflw", n!"pshufw"],
      ∃ l, callAt l (two (.reg (.mm 1)) (.reg (.mm 2)) [27]) = some (k, [0x0F, 0x70, 0xCA, 27].map .byte) := by
    simp only [List.mem_cons, List.not_mem_nil, or_false]
    rintro k (rfl | rfl | rfl | rfl)
    · exact ⟨858, by decide +kernel⟩
    · exact ⟨859, by decide +kernel⟩
    · exact ⟨860, by decide +kernel⟩
    · exact ⟨861, by decide +kernel⟩
  obtain ⟨l, hl⟩ := h n hn
  obtain ⟨l', hl'⟩ := h n' hn'
  exact confused_of hl hl'

/-- `addps xmm1, word [rax]` (15) is `addpd` (14): `rex()` writes 0x66 for a 16-bit operand (xbyak.h 1788), which `addpd` has as its prefix. -/
theorem c45_refuted_word : Confused n!"addps" n!"addpd" (two (.reg (.xmm 1)) (.mem (rax0 16))) (two (.reg (.xmm 1)) (.mem (rax0 128))) :=
  confused_of (l := 15) (l' := 14) (w := [0x66, 0x0F, 0x58, 0x08].map .byte) (by decide +kernel) (by decide +kernel)

/-- Every listed confused pair is confused. -/
theorem c45_refuted {p : Nat × Nat} (hp : p ∈ confusedPairs) : ∃ g g', Confused p.1 p.2 g g' := by
  simp only [confusedPairs, List.mem_cons, List.not_mem_nil, or_false] at hp
  rcases hp with rfl | rfl | rfl | rfl | rfl | rfl | rfl | rfl | rfl | rfl | rfl | rfl
  · exact ⟨_, _, c45_refuted_pextrd⟩
  · exact ⟨_, _, c45_refuted_pinsrd⟩
  · exact ⟨_, _, c45_refuted_pshuf (by decide) (by decide)⟩
  · exact ⟨_, _, c45_refuted_pshuf (by decide) (by decide)⟩
  · exact ⟨_, _, c45_refuted_pshuf (by decide) (by decide)⟩
  · exact ⟨_, _, c45_refuted_pshuf (by decide) (by decide)⟩
  · exact ⟨_, _, c45_refuted_pshuf (by decide) (by decide)⟩
  · exact ⟨_, _, c45_refuted_pshuf (by decide) (by decide)⟩
  · exact ⟨_, _, c45_refuted_vmovlps⟩
  · exact ⟨_, _, c45_refuted_vmovhps⟩
  · exact ⟨_, _, c45_refuted_vp2intersect⟩
  · exact ⟨_, _, c45_refuted_vpermq⟩

/-- Example: the hypotheses of `c45_partial` for `addps xmm1, xmm2` and `mulps xmm1, xmm2`; the bytes differ in the opcode. -/
example : ∃ e f w w', e.vec = true ∧ f.vec = true ∧ Calls e (two (.reg (.xmm 1)) (.reg (.xmm 2))) w ∧ Calls f (two (.reg (.xmm 1)) (.reg (.xmm 2))) w' ∧
    e.name = n!"addps" ∧ f.name = n!"mulps" ∧ listed pseudoOps e.name f.name = false ∧ listed confusedPairs e.name f.name = false := by
  obtain ⟨e, h1, h2⟩ := callAt_calls (line := 15) (g := two (.reg (.xmm 1)) (.reg (.xmm 2))) (n := n!"addps") (w := [0x0F, 0x58, 0xCA].map .byte) (by decide +kernel)
  obtain ⟨f, h3, h4⟩ := callAt_calls (line := 735) (g := two (.reg (.xmm 1)) (.reg (.xmm 2))) (n := n!"mulps") (w := [0x0F, 0x59, 0xCA].map .byte) (by decide +kernel)
  have nm : ∀ {e : Entry} {n : Nat}, e ∈ all → e.name = n → (all.all fun e => !(Nat.beq e.name n) || e.vec) = true → e.vec = true := by
    intro e n he h hall
    have := List.all_eq_true.mp hall e he
    rw [h, Bool.or_eq_true, Bool.not_eq_true', show Nat.beq n n = true from Nat.beq_refl n] at this
    rcases this with h | h
    · cases h
    · exact h
  refine ⟨e, f, _, _, nm h2.mem h1 (by decide +kernel), nm h4.mem h3 (by decide +kernel), h2, h4, h1, h3, ?_, ?_⟩ <;> rw [h1, h3] <;> decide +kernel

end Mn
end Xbyak
