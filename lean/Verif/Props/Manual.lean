import Verif.Spec.Manual
import Verif.Props.High
/-!
# C66: the encodings are those of the manual

Every accepted call of a vector, mask, tile or BMI function writes prefixes, map, opcode, W and opcode extension that the manual lists for
the mnemonic (`Verif.Spec.Manual`), except the encodings in `odd`, which the library writes and the manual does not have.
-/
namespace Xbyak
namespace Mn
open E

/-- Every instruction with this selector has the form. -/
def Sel.meets (s : Sel) (f : X86.Form) : Bool :=
  decide (s.sp = f.sp) && decide (s.map = f.map) && decide (s.op = f.op) && (s.p66 == (f.sp == .legacy && f.pp == 1)) &&
  (s.pF3 == (f.sp == .legacy && f.pp == 2)) && (s.pF2 == (f.sp == .legacy && f.pp == 3)) && decide (s.pp = if f.sp = .legacy then 0 else f.pp) &&
  (decide (f.w = none) || decide (f.w = s.w)) && (decide (f.ext = none) || decide (f.ext = s.ext))

theorem ole_some {α : Type} {a b : Option α} {c' : α} (h : OLe b (some c')) (hn : a = none ∨ a = b) : a = none ∨ a = some c' := by
  rcases hn with h' | rfl
  · exact .inl h'
  · exact h

theorem Sel.meets_is {s : Sel} {f : X86.Form} (hm : s.meets f = true) {h : X86.Head} (ho : s.Of h) {reg : BitVec 3} (he : OLe s.ext (some reg)) :
    f.Is h reg := by
  simp only [Sel.meets, Bool.and_eq_true, Bool.or_eq_true, decide_eq_true_eq, beq_iff_eq] at hm
  obtain ⟨⟨⟨⟨⟨⟨⟨⟨h1, h2⟩, h3⟩, h4⟩, h5⟩, h6⟩, h7⟩, h8⟩, h9⟩ := hm
  exact ⟨ho.sp.trans h1, ho.map.trans h2, ho.op.trans h3, ho.p66.trans h4, ho.pF3.trans h5, ho.pF2.trans h6, ho.pp.trans h7,
    ole_some ho.w h8, ole_some he h9⟩

open X86.Manual in
/-- Encodings a line of the header writes although the manual does not list them for the mnemonic (`c66_refuted_*`). -/
def odd (line : Nat) : List X86.Form :=
  if line = 799 then [L 1 3 0x16 any nx .mr] else if line = 809 then [L 1 3 0x22 any nx .rm]
  else if line = 858 ∨ line = 859 ∨ line = 860 then [L 0 1 0x70 any nx .rm]
  else if line = 867 then [L 0 1 0x73 any (X 7) .m] else if line = 878 then [L 0 1 0x73 any (X 3) .m]
  else if line = 1435 then [V 1 2 0x36 W0 nx .rvm]
  else if line = 1556 then [E 0 2 0xDA W0 nx .rvm nt 0] else if line = 1557 then [E 1 2 0xDA W0 nx .rvm nt 0]
  else if line = 1558 then [E 1 3 0xDE W0 nx .rvm nt 0]
  else if line = 2427 ∨ line = 2428 then [V 3 2 0x68 W0 nx .rvm] else []

/-- Mnemonics of AVX10.2 whose encoding `Verif.Spec.Manual` does not give. -/
def unlisted : List Nat := [n!"vcomxsd", n!"vcomxsh", n!"vcomxss", n!"vucomxsd", n!"vucomxsh", n!"vucomxss", n!"vgetexppbf16"]

/-- A VEX selector of `vmovq` that no call shows: with register 16-31 the instruction is EVEX, and others take the other branch. -/
def vmovqSel (line : Nat) (s : Sel) : Bool := (Nat.beq line 1355 || Nat.beq line 1356) && decide (s.sp = .vex) && decide (s.pp = 1) && (s.op == 0x7E || s.op == 0x6E)

set_option maxRecDepth 1000000 in
theorem manual_check : (all.all fun e => !e.vec || unlisted.any (Nat.beq e.name) || e.sels.all fun s =>
    vmovqSel e.line s || (X86.Manual.forms e.name).any s.meets || (odd e.line).any s.meets) = true := by decide +kernel

set_option maxRecDepth 1000000 in
theorem line1355 : (all.filter fun e => e.line == 1355) = [⟨1355, n!"vmovq", [.addr, .xmm], 0, .ite (fun g => decide ((g.reg 1).idx.toNat < 16))
    (.leaf (.avx3 (.a 1) (.r (.xmm 0)) (.a 0) (fl [T_0F, T_66, T_EVEX, T_EW1, T_N8]) 0xD6 .none))
    (.leaf (.avx3 (.a 1) (.r (.xmm 0)) (.a 0) (fl [T_0F, T_66, T_EVEX, T_EW1, T_N8]) 0x7E .none))⟩] := rfl
set_option maxRecDepth 1000000 in
theorem line1356 : (all.filter fun e => e.line == 1356) = [⟨1356, n!"vmovq", [.xmm, .addr], 0, .ite (fun g => decide ((g.reg 0).idx.toNat < 16))
    (.leaf (.avx3 (.a 0) (.r (.xmm 0)) (.a 1) (fl [T_0F, T_F3]) 0x7E .none))
    (.leaf (.avx3 (.a 0) (.r (.xmm 0)) (.a 1) (fl [T_0F, T_66, T_EVEX, T_EW1, T_N8]) 0x6E .none))⟩] := rfl

theorem sees_one {s s' : Sel} {bs : List Byte} (h : s.Sees bs) (h' : s'.Sees bs) : s.sp = s'.sp ∧ s.op = s'.op ∧ s.pp = s'.pp := by
  obtain ⟨x, c, t, e, o, _⟩ := h
  obtain ⟨x', c', t', e', o', _⟩ := h'
  rw [e] at e'
  obtain ⟨rfl, -⟩ := Prod.mk.inj (Option.some.inj e')
  exact ⟨o.sp.symm.trans o'.sp, o.op.symm.trans o'.op, o.pp.symm.trans o'.pp⟩

theorem xmm_arg {g : Args} {ps : List Param} (h : g.Are ps) {i : Nat} (hi : ps[i]? = some .xmm) : ∃ q, g.op i = .reg q ∧ q.isSIMD = true := by
  have := h i _ hi
  cases hq : g.op i with
  | mem a => rw [hq] at this; cases this
  | reg q => rw [hq] at this; exact ⟨q, rfl, by simpa [Param.takes, Operand.isMEM, Operand.hd] using this⟩

/-- `vmovq` with memory never shows the VEX encodings 66.0F 7E and 66.0F 6E. -/
theorem vmovq_never {e : Entry} (ve : e.vec = true) {g : Args} {w : List Act} (hc : Calls e g w) (hp : Plain e g) (fill : Act → BitVec 32) {s : Sel}
    (hs : s.Sees (concr fill w)) (hv : vmovqSel e.line s = true) : False := by
  simp only [vmovqSel, Bool.and_eq_true, Bool.or_eq_true, decide_eq_true_eq, beq_iff_eq, Nat.beq_eq] at hv
  obtain ⟨⟨⟨hl, hsp⟩, hpp⟩, hop⟩ := hv
  -- registers from 16 on
  have high : ∀ i q, g.op i = .reg q → q.isSIMD = true → 16 ≤ q.idx.toNat → e.is4 i = false → e.sse = false → False := by
    intro i q h1 h2 h3 h4 h5
    obtain ⟨x, t, hx, hx'⟩ := c42_ymm_partial ve hc h1 h2 h3 h4 h5 fill
    obtain ⟨x', c, t', e', o, _⟩ := hs
    rw [hx] at e'
    obtain ⟨rfl, -⟩ := Prod.mk.inj (Option.some.inj e')
    have := o.sp
    rw [hx', hsp] at this
    exact absurd this (by decide)
  -- the others
  have low : ∀ l : Leaf, l.vec e.ops = true → l.bare = false → e.body.run g = some (l.run g) → (∀ t ∈ l.sels e.ops, t.sp = .vex → t.pp = 1 → t.op ≠ 0x7E ∧ t.op ≠ 0x6E) → False := by
    intro l h1 h2 h3 h4
    obtain ⟨m, hm, hw⟩ := hc.runs
    rw [h3] at hm
    cases hm
    obtain ⟨t, ht, hT⟩ := Leaf.shows hp.good hc.fits.are l h1 (fun h => by rw [h2] at h; cases h) w () hw fill
    obtain ⟨a, b, c⟩ := sees_one hs hT
    have := h4 t ht (a ▸ hsp) (c ▸ hpp)
    rw [← b] at this
    rcases hop with h | h
    · exact this.1 h
    · exact this.2 h
  rcases hl with hl | hl
  · obtain rfl := mem_line hc.mem hl line1355
    by_cases h16 : (g.reg 1).idx.toNat < 16
    · refine low (.avx3 (.a 1) (.r (.xmm 0)) (.a 0) (fl [T_0F, T_66, T_EVEX, T_EW1, T_N8]) 0xD6 .none) (by decide +kernel) (by decide +kernel)
        (by simp only [Body.run]; rw [if_pos (by simpa using h16)]) (by decide +kernel)
    · obtain ⟨q, hq, hS⟩ := xmm_arg hc.fits.are (i := 1) rfl
      refine high 1 q hq hS ?_ (by decide +kernel) (by decide +kernel)
      rw [Args.reg, hq] at h16
      exact Nat.le_of_not_lt h16
  · obtain rfl := mem_line hc.mem hl line1356
    by_cases h16 : (g.reg 0).idx.toNat < 16
    · refine low (.avx3 (.a 0) (.r (.xmm 0)) (.a 1) (fl [T_0F, T_F3]) 0x7E .none) (by decide +kernel) (by decide +kernel)
        (by simp only [Body.run]; rw [if_pos (by simpa using h16)]) (by decide +kernel)
    · obtain ⟨q, hq, hS⟩ := xmm_arg hc.fits.are (i := 0) rfl
      refine high 0 q hq hS ?_ (by decide +kernel) (by decide +kernel)
      rw [Args.reg, hq] at h16
      exact Nat.le_of_not_lt h16

/-- C66: an accepted call writes an instruction whose prefixes, map, opcode, W and opcode extension are those of one of the forms the
manual gives for its mnemonic.  Partial: or one of the encodings in `odd` (`c66_refuted_*`); the mnemonics in `unlisted` are not compared. -/
theorem c66_partial {e : Entry} (ve : e.vec = true) (hu : e.name ∉ unlisted) {g : Args} {w : List Act} (hc : Calls e g w) (hp : Plain e g)
    (fill : Act → BitVec 32) : ∃ h c t, X86.head (concr fill w) = some (h, c :: t) ∧
      ((∃ f ∈ X86.Manual.forms e.name, f.Is h (c.extractLsb' 3 3)) ∨ ∃ f ∈ odd e.line, f.Is h (c.extractLsb' 3 3)) := by
  obtain ⟨s, hs, hS⟩ := c45_reads ve hc hp fill
  have hall := List.all_eq_true.mp manual_check e hc.mem
  simp only [ve, Bool.not_true, Bool.false_or, Bool.or_eq_true] at hall
  rcases hall with hall | hall
  · obtain ⟨n, hn, hn'⟩ := List.any_eq_true.mp hall
    rw [Nat.beq_eq] at hn'
    exact absurd (hn' ▸ hn) hu
  have hall := List.all_eq_true.mp hall s hs
  simp only [Bool.or_eq_true] at hall
  rcases hall with (hall | hall) | hall
  · exact (vmovq_never ve hc hp fill hS hall).elim
  · obtain ⟨f, hf, hm⟩ := List.any_eq_true.mp hall
    obtain ⟨h, c, t, e', o, x, _⟩ := hS
    exact ⟨h, c, t, e', .inl ⟨f, hf, Sel.meets_is hm o x⟩⟩
  · obtain ⟨f, hf, hm⟩ := List.any_eq_true.mp hall
    obtain ⟨h, c, t, e', o, x, _⟩ := hS
    exact ⟨h, c, t, e', .inr ⟨f, hf, Sel.meets_is hm o x⟩⟩

/-- The function at the line returns for these arguments, the bytes have the form, and the manual has no form of the mnemonic they have. -/
def Odd (line : Nat) (g : Args) (f : X86.Form) : Prop := ∃ e w h c t, e.line = line ∧ Calls e g w ∧ X86.head (concr (fun _ => 0) w) = some (h, c :: t) ∧
  f.Is h (c.extractLsb' 3 3) ∧ ∀ f' ∈ X86.Manual.forms e.name, ¬ f'.Is h (c.extractLsb' 3 3)

instance (f : X86.Form) (h : X86.Head) (reg : BitVec 3) : Decidable (f.Is h reg) :=
  decidable_of_iff ((if h.space = .rex2 then .legacy else h.space) = f.sp ∧ h.map = f.map ∧ h.opcode = f.op ∧ h.p66 = (f.sp == .legacy && f.pp == 1) ∧
      h.pF3 = (f.sp == .legacy && f.pp == 2) ∧ h.pF2 = (f.sp == .legacy && f.pp == 3) ∧ (h.pp = if f.sp = .legacy then 0 else f.pp) ∧
      (f.w = none ∨ f.w = some h.w) ∧ (f.ext = none ∨ f.ext = some reg))
    ⟨fun ⟨a, b, c, d, e, f, g, h, i⟩ => ⟨a, b, c, d, e, f, g, h, i⟩, fun ⟨a, b, c, d, e, f, g, h, i⟩ => ⟨a, b, c, d, e, f, g, h, i⟩⟩

theorem callAt_line {line n : Nat} {g : Args} {w : List Act} (h : callAt line g = some (n, w)) : ∃ e, e.line = line ∧ e.name = n ∧ Calls e g w := by
  unfold callAt at h
  obtain ⟨e, he, h⟩ := Option.bind_eq_some_iff.mp h
  have hl := List.find?_some he
  split at h
  · rename_i hf
    obtain ⟨m, hm, h⟩ := Option.bind_eq_some_iff.mp h
    split at h
    · rename_i u hr
      cases h
      refine ⟨e, Nat.eq_of_beq_eq_true hl, rfl, List.mem_of_find?_eq_some he, ⟨hf.1, hf.2.1, ?_⟩, m, hm, rfl, hr⟩
      intro i p o hp ho
      refine List.all_eq_true.mp hf.2.2 (p, o) ?_
      rw [List.mem_iff_getElem?]
      exact ⟨i, by rw [List.getElem?_zip_eq_some]; exact ⟨hp, ho⟩⟩
    · cases h
  · cases h

def oddAt (line : Nat) (g : Args) (f : X86.Form) : Bool := match callAt line g with
  | some (n, w) => match X86.head (concr (fun _ => 0) w) with
    | some (h, c :: _) => decide (f.Is h (c.extractLsb' 3 3)) && (X86.Manual.forms n).all fun f' => !decide (f'.Is h (c.extractLsb' 3 3))
    | _ => false
  | none => false

theorem odd_of {line : Nat} {g : Args} {f : X86.Form} (h : oddAt line g f = true) : Odd line g f := by
  unfold oddAt at h
  split at h
  · rename_i n w hw
    obtain ⟨e, hl, hn, hc⟩ := callAt_line hw
    split at h
    · rename_i x c t hx
      simp only [Bool.and_eq_true, decide_eq_true_eq, List.all_eq_true, Bool.not_eq_true', decide_eq_false_iff_not] at h
      exact ⟨e, w, x, c, t, hl, hc, hx, h.1, fun f' hf' => h.2 f' (hn ▸ hf')⟩
    · cases h
  · cases h

private def ops (l : List Reg) (i : List Word := []) : Args := { ops := l.map .reg, ints := i }

open X86.Manual in
/-- Bug: `pslldq(ymm2, 3)` and `psrldq(ymm2, 3)` (867, 878) are accepted and written as 0F 73 /7 and 0F 73 /3 without the prefix 66;
the manual has no such instruction (the forms of the mmx registers stop at `psllq`/`psrlq`). -/
theorem c66_refuted_pslldq : Odd 867 (ops [.ymm 2] [3]) (L 0 1 0x73 any (X 7) .m) ∧ Odd 878 (ops [.ymm 2] [3]) (L 0 1 0x73 any (X 3) .m) :=
  ⟨odd_of (by decide +kernel), odd_of (by decide +kernel)⟩

open X86.Manual in
/-- Bug: `vsm3msg1`, `vsm3msg2` and `vsm3rnds2` (1556-1558) with xmm16-31 are written with EVEX; these instructions have VEX forms only. -/
theorem c66_refuted_vsm3 : Odd 1556 (ops [.xmm 17, .xmm 2, .xmm 3]) (E 0 2 0xDA W0 nx .rvm nt 0) ∧
    Odd 1557 (ops [.xmm 17, .xmm 2, .xmm 3]) (E 1 2 0xDA W0 nx .rvm nt 0) ∧ Odd 1558 (ops [.xmm 17, .xmm 2, .xmm 3] [1]) (E 1 3 0xDE W0 nx .rvm nt 0) :=
  ⟨odd_of (by decide +kernel), odd_of (by decide +kernel), odd_of (by decide +kernel)⟩

open X86.Manual in
/-- Bug: `vpermq(ymm, ymm, ymm)` (1435), `vp2intersectd` and `vp2intersectq` (2427, 2428) are written with VEX unless an operand needs EVEX;
these instructions have EVEX forms only. -/
theorem c66_refuted_vex : Odd 1435 (ops [.ymm 1, .ymm 2, .ymm 3]) (V 1 2 0x36 W0 nx .rvm) ∧ Odd 2427 (ops [.opmask 1, .xmm 2, .xmm 3]) (V 3 2 0x68 W0 nx .rvm) ∧
    Odd 2428 (ops [.opmask 1, .xmm 2, .xmm 3]) (V 3 2 0x68 W0 nx .rvm) :=
  ⟨odd_of (by decide +kernel), odd_of (by decide +kernel), odd_of (by decide +kernel)⟩

open X86.Manual in
/-- Bug: `pshufd`, `pshufhw`, `pshuflw` (858-860) accept mmx registers and lose their mandatory prefix; `pextrd` and `pinsrd` (799, 809)
accept 64-bit registers and get W = 1 (all of them are then other instructions: `c45_refuted_pshuf`, `c45_refuted_pextrd`, `c45_refuted_pinsrd`). -/
theorem c66_refuted_sse : Odd 858 (ops [.mm 1, .mm 2] [27]) (L 0 1 0x70 any nx .rm) ∧ Odd 859 (ops [.mm 1, .mm 2] [27]) (L 0 1 0x70 any nx .rm) ∧
    Odd 860 (ops [.mm 1, .mm 2] [27]) (L 0 1 0x70 any nx .rm) ∧ Odd 799 (ops [.gp 0 64, .xmm 1] [1]) (L 1 3 0x16 any nx .mr) ∧
    Odd 809 (ops [.xmm 1, .gp 0 64] [1]) (L 1 3 0x22 any nx .rm) :=
  ⟨odd_of (by decide +kernel), odd_of (by decide +kernel), odd_of (by decide +kernel), odd_of (by decide +kernel), odd_of (by decide +kernel)⟩

/-- Every encoding listed as odd is written for some operands. -/
theorem c66_refuted {line : Nat} {f : X86.Form} (h : f ∈ odd line) : ∃ g, Odd line g f := by
  unfold odd at h
  repeat' split at h
  all_goals first
    | (rw [List.mem_singleton] at h; subst h; try rename_i hl; try subst hl
       first
        | exact ⟨_, c66_refuted_pslldq.1⟩ | exact ⟨_, c66_refuted_pslldq.2⟩ | exact ⟨_, c66_refuted_vsm3.1⟩ | exact ⟨_, c66_refuted_vsm3.2.1⟩
        | exact ⟨_, c66_refuted_vsm3.2.2⟩ | exact ⟨_, c66_refuted_vex.1⟩ | exact ⟨_, c66_refuted_sse.2.2.2.1⟩ | exact ⟨_, c66_refuted_sse.2.2.2.2⟩
        | (rcases hl with rfl | rfl
           · exact ⟨_, c66_refuted_vex.2.1⟩
           · exact ⟨_, c66_refuted_vex.2.2⟩)
        | (rcases hl with rfl | rfl | rfl
           · exact ⟨_, c66_refuted_sse.1⟩
           · exact ⟨_, c66_refuted_sse.2.1⟩
           · exact ⟨_, c66_refuted_sse.2.2.1⟩))
    | cases h

/-- Example: `vaddps ymm17, ymm2, [rax]` has the EVEX form of the manual, `vaddps ymm1, ymm2, ymm3` the VEX form. -/
example : ∃ f f', X86.Manual.forms n!"vaddps" = [f, f'] ∧ f.sp = .vex ∧ f'.sp = .evex ∧
    (callAt 1050 (ops [.ymm 17, .ymm 2, .ymm 3])).map (fun p => (X86.head (concr (fun _ => 0) p.2)).map fun q => decide (f'.Is q.1 0)) = some (some true) ∧
    (callAt 1050 (ops [.ymm 1, .ymm 2, .ymm 3])).map (fun p => (X86.head (concr (fun _ => 0) p.2)).map fun q => decide (f.Is q.1 0)) = some (some true) :=
  ⟨_, _, rfl, rfl, rfl, by decide +kernel, by decide +kernel⟩

end Mn
end Xbyak
