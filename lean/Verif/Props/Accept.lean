import Verif.AcceptGp
import Verif.AcceptSse
/-!
# C86: instructions the manual lists are accepted

`OpKind.Is` says which operands are of a kind (all registers of it; all addresses `[base + index * scale + disp]`, `[rip + disp]`); `X86.gformsOf`,
`X86.Manual.forms`, `classes` and `memSizes` are the operands the manual lists.
-/
namespace Xbyak
namespace Mn
open E X86

/-! ## Integer instructions -/

theorem gforms_mem {n : Nat} {f : GForm} (h : f ∈ gformsOf n) : ∃ fs, (n, fs) ∈ gforms ∧ f ∈ fs := by
  obtain ⟨p, hp, hf⟩ := List.mem_flatMap.1 h
  obtain ⟨h1, h2⟩ := List.mem_filter.1 hp
  exact ⟨p.2, by rw [← Nat.eq_of_beq_eq_true h2]; exact h1, hf⟩

private theorem gp_of {n : Nat} {f : GForm} (hf : f ∈ gformsOf n) {p66 w : Bool} (hx : (p66, w) ∈ f.choices) (hl : f.listed p66 w = true) {os : List Operand}
    (ho : OneEach (f.ops.map ((if Manual.isIn n sizeless then gkinds0 else gkinds) p66 w)) os) (hc : clash os = false) (ints : List Word) :
    ∃ e w, e.name = n ∧ e.nInts = (if f.ib then 1 else 0) ∧ Calls e { ops := os, ints := ints } w := by
  obtain ⟨fs, hm, hf⟩ := gforms_mem hf
  have h := List.all_eq_true.1 (List.all_eq_true.1 (List.all_eq_true.1 gcheck_all _ hm) f hf) _ hx
  rw [hl, Bool.not_true, Bool.false_or] at h
  obtain ⟨ks, hk, ha⟩ := ho.choose
  obtain ⟨e, he, w, h1, h2⟩ := covers_calls (fun e he => (of_fewNamed e he).1) (List.all_eq_true.1 h ks hk) ha hc ints
  exact ⟨e, w, (of_fewNamed e he).2, h1, h2⟩

/-- C86 for integer instructions, but those that refuse the size of their memory operand: whatever registers and addresses, of the sizes the
manual lists and without AH, CH, DH, BH beside a register that needs a REX prefix, there is a function that takes them and returns; the
immediate may be anything. -/
theorem c86_gp_partial {n : Nat} (hs : n ∉ sizeless) {f : GForm} (hf : f ∈ gformsOf n) {p66 w : Bool} (hx : (p66, w) ∈ f.choices) (hl : f.listed p66 w = true)
    {os : List Operand} (ho : OneEach (f.ops.map (gkinds p66 w)) os) (hc : clash os = false) (ints : List Word) :
    ∃ e w, e.name = n ∧ e.nInts = (if f.ib then 1 else 0) ∧ Calls e { ops := os, ints := ints } w := by
  refine gp_of hf hx hl ?_ hc ints
  rw [if_neg]
  · exact ho
  · intro h
    obtain ⟨m, hm, h⟩ := List.any_eq_true.1 h
    exact hs (Nat.eq_of_beq_eq_true h ▸ hm)

/-- The others accept the operand if no size is stated. -/
theorem c86_gp_unsized {n : Nat} (hs : n ∈ sizeless) {f : GForm} (hf : f ∈ gformsOf n) {p66 w : Bool} (hx : (p66, w) ∈ f.choices) (hl : f.listed p66 w = true)
    {os : List Operand} (ho : OneEach (f.ops.map (gkinds0 p66 w)) os) (hc : clash os = false) (ints : List Word) :
    ∃ e w, e.name = n ∧ e.nInts = (if f.ib then 1 else 0) ∧ Calls e { ops := os, ints := ints } w := by
  refine gp_of hf hx hl ?_ hc ints
  rw [if_pos (show Manual.isIn n sizeless = true from List.any_eq_true.2 ⟨n, hs, Nat.beq_refl n⟩)]
  exact ho

/-! ## SSE and MMX instructions -/

/-- C86 for SSE and MMX instructions: every function name and every legacy form the manual has for it, with any registers of the kinds listed and any
address.  No size is stated for the memory operand; or the one in the manual, but for the functions that refuse that. -/
theorem c86_sse_partial {n : Nat} (hn : ∃ e ∈ all, e.name = n) {f : Form} (hf : f ∈ Manual.forms n) (hl : f.sp = .legacy)
    {m : Nat} (hm : m = 0 ∨ (m ∈ Manual.memSizes n f ∧ n ∉ refusing)) {os : List Operand}
    (ho : OneEach ((Manual.classes n f).map fun l => l.map (ckind m)) os) (hc : clash os = false) (ints : List Word) :
    ∃ e w, e.name = n ∧ Calls e { ops := os, ints := ints } w := by
  obtain ⟨e, he, rfl⟩ := hn
  obtain ⟨t, ht, het⟩ := tabs_mem he
  have h := List.all_eq_true.1 (scheck_all ht) e het
  unfold scheck at h
  have hf' : f ∈ (Manual.forms e.name).filter fun f => f.sp == .legacy := List.mem_filter.2 ⟨hf, by rw [hl]; rfl⟩
  rw [Bool.or_eq_true] at h
  rcases h with h | h
  · rw [List.isEmpty_iff.1 h] at hf'; cases hf'
  have h := List.all_eq_true.1 (List.all_eq_true.1 h f hf') m (by
    rcases hm with rfl | ⟨hm, hr⟩
    · exact List.mem_cons_self ..
    · refine List.mem_cons_of_mem _ ?_
      rw [if_neg]
      · exact hm
      · intro h
        obtain ⟨m, hm, h⟩ := List.any_eq_true.1 h
        exact hr (Nat.eq_of_beq_eq_true h ▸ hm))
  obtain ⟨ks, hk, ha⟩ := ho.choose
  obtain ⟨i, -, h⟩ := List.any_eq_true.1 (List.all_eq_true.1 h ks hk)
  have hes : ∀ x ∈ (if Nat.beq e.name n!"movq" then namedIn t03 e.name ++ namedIn t06 e.name else namedIn t e.name), x ∈ all ∧ x.name = e.name := by
    intro x hx
    split at hx
    · rcases List.mem_append.1 hx with h | h
      · exact of_namedIn (by simp [tabs]) x h
      · exact of_namedIn (by simp [tabs]) x h
    · exact of_namedIn ht x hx
  rw [Bool.or_eq_true] at h
  rcases h with h | h
  all_goals
    obtain ⟨x, hx, w, -, h2⟩ := covers_calls (fun x hx => (hes x hx).1) h ha hc ints
    exact ⟨x, w, (hes x hx).2, h2⟩

/-! ## Forms that are refused -/

private def at0 (n : Nat) : Operand := .mem (OpKind.at' n (.gp 0 64) .nil 1)

/-- No function with the name takes the operands and returns. -/
def NoneTakes (n : Nat) (g : Args) : Prop := ∀ e w, e.name = n → ¬ Calls e g w

theorem noneTakes_of {n : Nat} {g : Args} (h : (tabs.all fun t => (namedIn t n).all fun e => !e.accepts g) = true) : NoneTakes n g := by
  intro e w hn hc
  obtain ⟨t, ht, het⟩ := tabs_mem hc.mem
  have := List.all_eq_true.1 (List.all_eq_true.1 h t ht) e (List.mem_filter.2 ⟨het, by rw [hn]; exact Nat.beq_refl n⟩)
  rw [Bool.not_eq_true'] at this
  refine absurd (?_ : e.accepts g = true) (by rw [this]; exact Bool.false_ne_true)
  unfold Entry.accepts
  rw [Bool.and_eq_true, Bool.and_eq_true, decide_eq_true_eq]
  obtain ⟨m, hm, hg⟩ := hc.runs
  refine ⟨⟨⟨hc.fits.1, hc.fits.2.1⟩, List.all_eq_true.2 fun p hp => ?_⟩, by rw [hm]; dsimp only; rw [hg.2]⟩
  obtain ⟨i, hi⟩ := List.mem_iff_getElem?.1 hp
  rw [List.getElem?_zip_eq_some] at hi
  exact hc.fits.2.2 i _ _ hi.1 hi.2

/-- Bug: sizes of memory operands that the manual gives are refused.  Integer and x87 instructions of `sizeless`. -/
theorem c86_refuted_gp :
    NoneTakes n!"cmpxchg8b" { ops := [at0 64] } ∧ NoneTakes n!"cmpxchg16b" { ops := [at0 128] } ∧ NoneTakes n!"fbld" { ops := [at0 80] } ∧
    NoneTakes n!"fbstp" { ops := [at0 80] } ∧ NoneTakes n!"fldcw" { ops := [at0 16] } ∧ NoneTakes n!"fnstcw" { ops := [at0 16] } ∧ NoneTakes n!"fnstsw" { ops := [at0 16] } :=
  ⟨noneTakes_of (by decide +kernel), noneTakes_of (by decide +kernel), noneTakes_of (by decide +kernel), noneTakes_of (by decide +kernel),
   noneTakes_of (by decide +kernel), noneTakes_of (by decide +kernel), noneTakes_of (by decide +kernel)⟩

/-- Bug: the size of the memory operand is compared with that of the register.  `cvtsd2si(eax, qword [rax])` (cvtsd2si r32, m64) and
`cvtss2si(rax, dword [rax])` (r64, m32) are refused, as are `cvtpd2pi(mm0, xword [rax])` (m128), `pinsrw(mm0, word [rax], 1)` (m16) and
`punpcklbw(mm0, dword [rax])` (m32); `movntdq` and `movntpd` (m128) accept a word only. -/
theorem c86_refuted_sse :
    NoneTakes n!"cvtsd2si" { ops := [.reg (.gp 0 32), at0 64] } ∧ NoneTakes n!"cvttsd2si" { ops := [.reg (.gp 0 32), at0 64] } ∧
    NoneTakes n!"cvtss2si" { ops := [.reg (.gp 0 64), at0 32] } ∧ NoneTakes n!"cvttss2si" { ops := [.reg (.gp 0 64), at0 32] } ∧
    NoneTakes n!"cvtpd2pi" { ops := [.reg (.mm 0), at0 128] } ∧ NoneTakes n!"cvttpd2pi" { ops := [.reg (.mm 0), at0 128] } ∧
    NoneTakes n!"pinsrw" { ops := [.reg (.mm 0), at0 16], ints := [1] } ∧ NoneTakes n!"punpcklbw" { ops := [.reg (.mm 0), at0 32] } ∧
    NoneTakes n!"punpcklwd" { ops := [.reg (.mm 0), at0 32] } ∧ NoneTakes n!"punpckldq" { ops := [.reg (.mm 0), at0 32] } ∧
    NoneTakes n!"movntdq" { ops := [at0 128, .reg (.xmm 0)] } ∧ NoneTakes n!"movntpd" { ops := [at0 128, .reg (.xmm 0)] } :=
  ⟨noneTakes_of (by decide +kernel), noneTakes_of (by decide +kernel), noneTakes_of (by decide +kernel), noneTakes_of (by decide +kernel),
   noneTakes_of (by decide +kernel), noneTakes_of (by decide +kernel), noneTakes_of (by decide +kernel), noneTakes_of (by decide +kernel),
   noneTakes_of (by decide +kernel), noneTakes_of (by decide +kernel), noneTakes_of (by decide +kernel), noneTakes_of (by decide +kernel)⟩

/-! ## Examples -/

/-- `shrd(qword [r12 + r9*8 - 5], r14, 200)`: the hypotheses of `c86_gp_partial` are met by operands that are not representatives. -/
theorem c86_example : ∃ e w, e.name = n!"shrd" ∧ e.nInts = 1 ∧
    Calls e { ops := [.mem { o := Addr.memOp 64, e := { base := .gp 12 64, index := .gp 9 64, scale := 8, disp := BitVec.ofInt 64 (-5) } }, .reg (.gp 14 64)], ints := [200] } w := by
  refine c86_gp_partial (n := n!"shrd") (by decide) (f := { op := 0xAC, ops := [.rm .v, .r .v], ib := true }) (by decide +kernel) (p66 := false) (w := true) (by decide) (by decide)
    (os := [.mem { o := Addr.memOp 64, e := { base := .gp 12 64, index := .gp 9 64, scale := 8, disp := BitVec.ofInt 64 (-5) } }, .reg (.gp 14 64)]) ?_ (by decide) _
  refine ⟨⟨.mem 64, by decide, _, rfl, ?_⟩, ⟨.gp 64, by decide, .inl ⟨14, by decide, rfl⟩⟩, trivial⟩
  exact ⟨rfl, .inr ⟨12, by decide, .inr rfl⟩, .inr ⟨9, by decide, .inr rfl⟩, by decide, .inr (.inr rfl), .inl rfl, rfl, rfl, rfl, fun _ => rfl⟩

/-- `pmovzxbd(xmm13, dword [rip + 100])`. -/
theorem c86_example_sse : ∃ e w, e.name = n!"pmovzxbd" ∧
    Calls e { ops := [.reg (.xmm 13), .mem { o := Addr.memOp 32, e := .ofDisp 100, mode := .rip }] } w := by
  refine c86_sse_partial (n := n!"pmovzxbd") ?_ (f := Manual.L 1 2 0x31 Manual.any Manual.nx .rm) (by decide +kernel) rfl (m := 32) (.inr ⟨by decide +kernel, by decide⟩)
    (os := [.reg (.xmm 13), .mem { o := Addr.memOp 32, e := .ofDisp 100, mode := .rip }]) ?_ (by decide) []
  · obtain ⟨e, h1, h2⟩ := callAt_calls (line := 832) (g := { ops := [.reg (.xmm 0), .reg (.xmm 0)] }) (n := n!"pmovzxbd") (w := [0x66, 0x0F, 0x38, 0x31, 0xC0].map .byte) (by decide +kernel)
    exact ⟨e, h2.mem, h1⟩
  · exact ⟨⟨.xmm false, by decide +kernel, 13, fun _ => by decide, rfl⟩, ⟨.mem 32, by decide +kernel, _, rfl,
      ⟨rfl, .inl rfl, .inl rfl, by decide, .inl rfl, .inr ⟨rfl, rfl, rfl⟩, rfl, rfl, rfl, fun h => by cases h⟩⟩, trivial⟩

end Mn
end Xbyak
