import Verif.SoundVecChk
import Verif.Props.AcceptVec
/-!
# C88: vector functions take only the operands the manual lists

The converse of C87.  An accepted call has the operands of a line of the manual (`X86.Vec.forms`).  The library does not look at the size of memory operands,
and in most functions not at the kind of a register passed for the last parameter of type `Operand`; `Documented` has a flag for the latter.
-/
namespace Xbyak
namespace Mn
open E X86

/-- The operand is of the kind, but for the size of memory. -/
def OpKind.Like : OpKind → Operand → Prop
  | .mem _, o => o.isMEM = true
  | c, o => c.Is o

/-- Each operand is of one of the kinds listed for it; where the flag is set, any register will do. -/
def Matches : List Bool → List (List OpKind) → List Operand → Prop
  | l :: ls, ks :: kss, o :: os => ((∃ c ∈ ks, c.Like o) ∨ (l = true ∧ o.isMEM = false)) ∧ Matches ls kss os
  | _, [], [] => True
  | _, _, _ => False

/-- The positions where any register will do: the last `Operand` among the parameters for which an argument is given, in functions that do not look at it. -/
def Entry.anyReg (e : Entry) (lax : Bool) (n : Nat) : List Bool := (lastOp ((e.params.filter Param.isOperand).take n)).map (· && lax)

/-- The operands are those of a line of the manual for the name with as many immediates, or they are so after repeating the first one (`vaddps(xmm1, xmm2)` is short for
`vaddps(xmm1, xmm1, xmm2)`). -/
def Documented (e : Entry) (lax : Bool) (os : List Operand) : Prop :=
  ∃ f ∈ Vec.forms e.name, f.ints = e.nInts ∧ ∃ vl ∈ f.lens, Matches (e.anyReg lax os.length) (f.ops.map (vkinds f.evex vl)) os ∨
    ∃ x r, os = x :: r ∧ Matches (false :: e.anyReg lax os.length) (f.ops.map (vkinds f.evex vl)) (x :: x :: r)

/-! ## The check is what it should be -/

theorem lt16_bit : ∀ i : BitVec 5, i.getLsbD 4 = false → i.toNat < 16 := by decide +kernel

private theorem like_of_fits {c : OpKind} {o : Operand} (ho : ∃ u ∈ anyKind, u.Is o) (h : fits c o = true) : c.Like o := by
  obtain ⟨u, hu, ho⟩ := ho
  cases u with
  | gp n =>
    rcases ho with ⟨i, hi, rfl⟩ | ⟨rfl, i, h1, h2, rfl⟩
    · cases c with
      | gp m =>
        simp only [fits, Bool.and_eq_true] at h
        obtain rfl : n = m := Nat.eq_of_beq_eq_true h.2
        exact .inl ⟨i, hi, rfl⟩
      | _ => cases h
    · cases c with
      | gp m =>
        simp only [fits, Bool.and_eq_true] at h
        obtain rfl : 8 = m := Nat.eq_of_beq_eq_true h.2
        exact .inr ⟨rfl, i, h1, h2, rfl⟩
      | _ => cases h
  | mm =>
    obtain ⟨i, hi, rfl⟩ := ho
    cases c with
    | mm => exact ⟨i, hi, rfl⟩
    | _ => cases h
  | bnd =>
    obtain ⟨i, hi, rfl⟩ := ho
    cases c with
    | bnd => exact ⟨i, hi, rfl⟩
    | _ => cases h
  | cl => exact absurd hu (by decide)
  | xmm x =>
    obtain ⟨i, hi, rfl⟩ := ho
    cases c with
    | xmm y =>
      refine ⟨i, fun hy => ?_, rfl⟩
      subst hy
      simp only [fits, Bool.and_eq_true, Bool.false_or, Bool.not_eq_true'] at h
      exact lt16_bit i h.2
    | _ => cases h
  | ymm x =>
    obtain ⟨i, hi, rfl⟩ := ho
    cases c with
    | ymm y =>
      refine ⟨i, fun hy => ?_, rfl⟩
      subst hy
      simp only [fits, Bool.and_eq_true, Bool.false_or, Bool.not_eq_true'] at h
      exact lt16_bit i h.2
    | _ => cases h
  | zmm =>
    obtain ⟨i, rfl⟩ := ho
    cases c with
    | zmm => exact ⟨i, rfl⟩
    | _ => cases h
  | k =>
    obtain ⟨i, hi, rfl⟩ := ho
    cases c with
    | k => exact ⟨i, hi, rfl⟩
    | _ => cases h
  | st =>
    obtain ⟨i, hi, rfl⟩ := ho
    cases c with
    | st => exact ⟨i, hi, rfl⟩
    | _ => cases h
  | mem n =>
    obtain ⟨a, rfl, -⟩ := ho
    cases c with
    | mem m => rfl
    | _ => cases h

private theorem fits_of_like {c : OpKind} (hc : c ≠ .cl) {o : Operand} (h : c.Like o) : fits c o = true := by
  cases c with
  | gp n =>
    rcases h with ⟨i, hi, rfl⟩ | ⟨rfl, i, h1, h2, rfl⟩
    · simp [fits, Operand.isMEM, Operand.hd, Reg.gp]
    · rfl
  | cl => exact absurd rfl hc
  | xmm x =>
    obtain ⟨i, hi, rfl⟩ := h
    cases x
    · simp only [fits, Bool.and_eq_true, Bool.false_or, Bool.not_eq_true']; exact ⟨⟨rfl, rfl⟩, bit4_lt i (hi rfl)⟩
    · rfl
  | ymm x =>
    obtain ⟨i, hi, rfl⟩ := h
    cases x
    · simp only [fits, Bool.and_eq_true, Bool.false_or, Bool.not_eq_true']; exact ⟨⟨rfl, rfl⟩, bit4_lt i (hi rfl)⟩
    · rfl
  | zmm => obtain ⟨i, rfl⟩ := h; rfl
  | mem n => exact h
  | _ => obtain ⟨i, -, rfl⟩ := h; rfl

private theorem matches_of_near : ∀ {ls : List Bool} {kss : List (List OpKind)} {os : List Operand}, (∀ o ∈ os, ∃ u ∈ anyKind, u.Is o) → near ls kss os = true → Matches ls kss os
  | l :: ls, ks :: kss, o :: os, ho, h => by
    simp only [near, Bool.and_eq_true, Bool.or_eq_true, Bool.not_eq_true'] at h
    refine ⟨?_, matches_of_near (fun o h => ho o (List.mem_cons_of_mem _ h)) h.2⟩
    rcases h.1 with h1 | h1
    · obtain ⟨c, hc, h1⟩ := List.any_eq_true.1 h1
      exact .inl ⟨c, hc, like_of_fits (ho o List.mem_cons_self) h1⟩
    · exact .inr h1
  | [], [], [], _, _ => trivial
  | _ :: _, [], [], _, _ => trivial
  | [], [], _ :: _, _, h => by cases h
  | _ :: _, [], _ :: _, _, h => by cases h
  | [], _ :: _, [], _, h => by cases h
  | _ :: _, _ :: _, [], _, h => by cases h
  | [], _ :: _, _ :: _, _, h => by cases h

private theorem near_of_matches : ∀ {ls : List Bool} {kss : List (List OpKind)} {os : List Operand}, (∀ ks ∈ kss, .cl ∉ ks) → Matches ls kss os → near ls kss os = true
  | l :: ls, ks :: kss, o :: os, hk, h => by
    simp only [near, Bool.and_eq_true, Bool.or_eq_true, Bool.not_eq_true']
    refine ⟨?_, near_of_matches (fun o h => hk o (List.mem_cons_of_mem _ h)) h.2⟩
    rcases h.1 with ⟨c, hc, h1⟩ | h1
    · exact .inl (List.any_eq_true.2 ⟨c, hc, fits_of_like (fun e => hk ks List.mem_cons_self (e ▸ hc)) h1⟩)
    · exact .inr h1
  | [], [], [], _, _ => rfl
  | _ :: _, [], [], _, _ => rfl
  | [], [], _ :: _, _, h => h.elim
  | _ :: _, [], _ :: _, _, h => h.elim
  | [], _ :: _, [], _, h => h.elim
  | _ :: _, _ :: _, [], _, h => h.elim
  | [], _ :: _, _ :: _, _, h => h.elim

private theorem vkinds_cl (x : Bool) (vl : Nat) (v : VOp) : .cl ∉ vkinds x vl v := by
  have hv : ∀ n, OpKind.cl ≠ vreg x n := by
    intro n
    unfold vreg
    split
    · simp
    · split <;> simp
  cases v <;> simp [vkinds, hv]

private theorem kinds_cl (x : Bool) (vl : Nat) (vs : List VOp) : ∀ ks ∈ vs.map (vkinds x vl), .cl ∉ ks := by
  intro ks h
  obtain ⟨v, -, rfl⟩ := List.mem_map.1 h
  exact vkinds_cl x vl v

private theorem documented_of {e : Entry} {lax : Bool} {os : List Operand} {fs : List VForm} (hf : ∀ f ∈ fs, f ∈ Vec.forms e.name) (ho : ∀ o ∈ os, ∃ u ∈ anyKind, u.Is o)
    (h : docOK fs (e.params.filter Param.isOperand) e.nInts lax os = true) : Documented e lax os := by
  unfold docOK at h
  obtain ⟨f, h1, h2⟩ := List.any_eq_true.1 h
  rw [Bool.and_eq_true] at h2
  obtain ⟨vl, h3, h4⟩ := List.any_eq_true.1 h2.2
  refine ⟨f, hf f h1, Nat.eq_of_beq_eq_true h2.1, vl, h3, ?_⟩
  rw [Bool.or_eq_true] at h4
  rcases h4 with h4 | h4
  · exact .inl (matches_of_near ho h4)
  · cases os with
    | nil => cases h4
    | cons x r =>
      refine .inr ⟨x, r, rfl, matches_of_near (fun o h => ?_) h4⟩
      rcases List.mem_cons.1 h with rfl | h
      · exact ho _ List.mem_cons_self
      · exact ho _ h

private theorem docOK_of {e : Entry} {lax : Bool} {os : List Operand} (h : Documented e lax os) : docOK (Vec.forms e.name) (e.params.filter Param.isOperand) e.nInts lax os = true := by
  obtain ⟨f, h1, h2, vl, h3, h4⟩ := h
  unfold docOK
  refine List.any_eq_true.2 ⟨f, h1, ?_⟩
  rw [Bool.and_eq_true]
  refine ⟨by rw [h2]; exact Nat.beq_refl _, List.any_eq_true.2 ⟨vl, h3, ?_⟩⟩
  rw [Bool.or_eq_true]
  rcases h4 with h4 | ⟨x, r, rfl, h4⟩
  · exact .inl (near_of_matches (kinds_cl _ _ _) h4)
  · exact .inr (near_of_matches (kinds_cl _ _ _) h4)

private theorem buckets_eq : buckets = (List.range 61).map bucket := rfl

theorem mem_namedT {e : Entry} (he : e ∈ all) : e ∈ namedT e.name := by
  obtain ⟨t, ht, h⟩ := tabs_mem he
  have hl : e.name % 61 < 61 := Nat.mod_lt _ (by decide)
  refine List.mem_filter.2 ⟨?_, Nat.beq_refl _⟩
  rw [buckets_eq, List.getD_eq_getElem?_getD, List.getElem?_map, List.getElem?_range hl]
  exact List.mem_flatMap.2 ⟨t, ht, List.mem_filter.2 ⟨h, Nat.beq_refl _⟩⟩

/-- C88: whenever a function with a name of the table of vector instructions returns, its operands are those of a line of the manual with that name.
Partial: not for the functions of `looseLines` and `kmovb` etc.; memory may have another size; functions that do not look at it (`Entry.lax`) take any register
for the last `Operand`; the operands have no mask and no rounding, and the generator its initial preference of encodings. -/
theorem c88_partial {e : Entry} {g : Args} {w : List Act} (hc : Calls e g w) (hn : Vec.forms e.name ≠ []) (hs : vslow e.name = false) (hl : e.line ∉ looseLines)
    (hk : g.Usual) (hd : g.dflt = fun sel => if sel = 0 then .evex else .preAVX10v2) (he : g.enc = .default ∨ .enc ∈ e.params) :
    Documented e e.lax g.ops := by
  obtain ⟨f, hf⟩ := List.exists_mem_of_ne_nil _ hn
  obtain ⟨gr, hg, hm, -⟩ := vforms_mem hf
  have h := gsound_all hg hm
  rw [gsound, hs, Bool.false_or] at h
  have h := List.all_eq_true.1 h e (mem_namedT hc.mem)
  rw [Bool.or_eq_true] at h
  rcases h with h | h
  · obtain ⟨m, h1, h2⟩ := List.any_eq_true.1 h
    exact absurd (Nat.eq_of_beq_eq_true h2 ▸ h1) hl
  · refine documented_of (fun f hf => ?_) hk (soundE_calls h hc hk hd he)
    exact List.mem_flatMap.2 ⟨gr, hg, by rw [if_pos (show Manual.isIn e.name gr.2 = true from List.any_eq_true.2 ⟨_, hm, Nat.beq_refl _⟩)]; exact hf⟩

/-- In functions that look at the last operand as well, all operands are as listed, but for the size of memory. -/
theorem c88_checked_partial {e : Entry} {g : Args} {w : List Act} (hc : Calls e g w) (hn : Vec.forms e.name ≠ []) (hs : vslow e.name = false) (hl : e.line ∉ looseLines)
    (hk : g.Usual) (hd : g.dflt = fun sel => if sel = 0 then .evex else .preAVX10v2) (he : g.enc = .default ∨ .enc ∈ e.params) (hx : e.lax = false) :
    Documented e false g.ops := hx ▸ c88_partial hc hn hs hl hk hd he

/-! ## Operands the manual does not list -/

/-- A function with the name takes the operands and writes `w`, and the manual does not list them; with `lax`, not even if any register is allowed for the last `Operand`. -/
def TakesMore (lax : Bool) (n : Nat) (os : List Operand) (ints : List Word) (w : List Act) : Prop :=
  ∃ e, e.name = n ∧ Calls e { ops := os, ints := ints } w ∧ ¬ Documented e lax os

private def moreAt (line : Nat) (lax : Bool) (os : List Operand) : Bool :=
  (all.find? fun e => Nat.beq e.line line).any fun e => !docOK (Vec.forms e.name) (e.params.filter Param.isOperand) e.nInts lax os

private theorem takesMore_of (line : Nat) {lax : Bool} {n : Nat} {os : List Operand} {ints : List Word} {w : List Act} (h : callAt line { ops := os, ints := ints } = some (n, w))
    (hm : moreAt line lax os = true) : TakesMore lax n os ints w := by
  unfold callAt at h
  unfold moreAt at hm
  cases he : all.find? fun e => Nat.beq e.line line with
  | none => rw [he] at hm; cases hm
  | some e =>
    rw [he] at h hm
    simp only [Option.any_some, Bool.not_eq_true'] at hm
    simp only [Option.bind_some] at h
    split at h
    · rename_i hf
      obtain ⟨m, hr, h⟩ := Option.bind_eq_some_iff.mp h
      split at h
      · rename_i u hu
        cases h
        refine ⟨e, rfl, ⟨List.mem_of_find?_eq_some he, ⟨hf.1, hf.2.1, fun i p o hp ho => ?_⟩, m, hr, rfl, hu⟩, fun hd => ?_⟩
        · refine List.all_eq_true.mp hf.2.2 (p, o) ?_
          rw [List.mem_iff_getElem?]
          exact ⟨i, by rw [List.getElem?_zip_eq_some]; exact ⟨hp, ho⟩⟩
        · rw [docOK_of hd] at hm; cases hm
      · cases h
    · cases h

set_option maxRecDepth 100000

/-- VSM3MSG1 has no EVEX form, but `vsm3msg1(xmm17, xmm2, xmm3)` writes one (1556; likewise 1557, 1558). -/
theorem c88_refuted_sm3 : TakesMore true n!"vsm3msg1" [.reg (.xmm 17), .reg (.xmm 2), .reg (.xmm 3)] [] ([0x62, 0xE2, 0x6C, 0x08, 0xDA, 0xCB].map .byte) :=
  takesMore_of 1556 (by decide +kernel) (by decide +kernel)

/-- The scalar VRSQRT14SD is accepted with ymm registers (2617; likewise 2618). -/
theorem c88_refuted_vrsqrt14sd : TakesMore true n!"vrsqrt14sd" [.reg (.ymm 1), .reg (.ymm 2), .reg (.ymm 3)] [] ([0x62, 0xF2, 0xED, 0x28, 0x4F, 0xCB].map .byte) :=
  takesMore_of 2617 (by decide +kernel) (by decide +kernel)

/-- The scalar VCMPSD with a mask as destination is accepted with ymm registers (2165; likewise the others of 2051–2183). -/
theorem c88_refuted_vcmpsd : TakesMore true n!"vcmpsd" [.reg (.opmask 1), .reg (.ymm 2), .reg (.ymm 3)] [0] ([0x62, 0xF1, 0xEF, 0x28, 0xC2, 0xCB, 0].map .byte) :=
  takesMore_of 2165 (by decide +kernel) (by decide +kernel)

/-- The fourth operand of `vblendvpd` (1069) may be xmm16, which is written as xmm0. -/
theorem c88_refuted_vblendvpd : TakesMore true n!"vblendvpd" [.reg (.xmm 1), .reg (.xmm 2), .reg (.xmm 3), .reg (.xmm 16)] [] ([0xC4, 0xE3, 0x69, 0x4B, 0xCB, 0x00].map .byte) ∧
    ∃ e, e.name = n!"vblendvpd" ∧ Calls e { ops := [.reg (.xmm 1), .reg (.xmm 2), .reg (.xmm 3), .reg (.xmm 0)] } ([0xC4, 0xE3, 0x69, 0x4B, 0xCB, 0x00].map .byte) :=
  ⟨takesMore_of 1069 (by decide +kernel) (by decide +kernel), callAt_calls (line := 1069) (by decide +kernel)⟩

/-- `vmovmskpd(mm1, xmm2)` is written as `vmovmskpd(ecx, xmm2)` (1349; likewise 1350). -/
theorem c88_refuted_vmovmskpd : TakesMore true n!"vmovmskpd" [.reg (.mm 1), .reg (.xmm 2)] [] ([0xC5, 0xF9, 0x50, 0xCA].map .byte) ∧
    ∃ e, e.name = n!"vmovmskpd" ∧ Calls e { ops := [.reg (.gp 1 32), .reg (.xmm 2)] } ([0xC5, 0xF9, 0x50, 0xCA].map .byte) :=
  ⟨takesMore_of 1349 (by decide +kernel) (by decide +kernel), callAt_calls (line := 1349) (by decide +kernel)⟩

/-- `vmaskmovdqu(xmm1, ymm2)` is written as `vmaskmovdqu(xmm1, xmm2)` (1317). -/
theorem c88_refuted_vmaskmovdqu : TakesMore true n!"vmaskmovdqu" [.reg (.xmm 1), .reg (.ymm 2)] [] ([0xC5, 0xF9, 0xF7, 0xCA].map .byte) :=
  takesMore_of 1317 (by decide +kernel) (by decide +kernel)

/-- The register passed for `Operand` is not looked at: `vaddps(xmm1, xmm2, eax)`, `vmovhpd(xmm1, eax)`, `vcvtss2usi(eax, ecx)`, `vcvtsi2sh(xmm1, xmm2, mm3)`,
`vfpclasspbf16(k1, ecx, 0)` and `vcvtpd2ph(xmm1, bnd0)` are written. -/
theorem c88_refuted_operand :
    TakesMore false n!"vaddps" [.reg (.xmm 1), .reg (.xmm 2), .reg (.gp 0 32)] [] ([0xC5, 0xE8, 0x58, 0xC8].map .byte) ∧
    TakesMore false n!"vmovhpd" [.reg (.xmm 1), .reg (.gp 0 32)] [] ([0xC5, 0xF1, 0x16, 0xC8].map .byte) ∧
    TakesMore false n!"vcvtss2usi" [.reg (.gp 0 32), .reg (.gp 1 32)] [] ([0x62, 0xF1, 0x7E, 0x08, 0x79, 0xC1].map .byte) ∧
    TakesMore false n!"vcvtsi2sh" [.reg (.xmm 1), .reg (.xmm 2), .reg (.mm 3)] [] ([0x62, 0xF5, 0xEE, 0x08, 0x2A, 0xCB].map .byte) ∧
    TakesMore false n!"vfpclasspbf16" [.reg (.opmask 1), .reg (.gp 1 32)] [0] ([0x62, 0xF3, 0x7F, 0x08, 0x66, 0xC9, 0].map .byte) ∧
    TakesMore false n!"vcvtpd2ph" [.reg (.xmm 1), .reg (.bnd 0)] [] ([0x62, 0xF5, 0xFD, 0x08, 0x5A, 0xC8].map .byte) :=
  ⟨takesMore_of 1050 (by decide +kernel) (by decide +kernel), takesMore_of 1341 (by decide +kernel) (by decide +kernel), takesMore_of 2240 (by decide +kernel) (by decide +kernel),
   takesMore_of 2238 (by decide +kernel) (by decide +kernel), takesMore_of 2354 (by decide +kernel) (by decide +kernel), takesMore_of 2209 (by decide +kernel) (by decide +kernel)⟩

/-- The size of memory is not looked at: `vaddps(xmm1, xmm2, byte [rax])` writes the same as `vaddps(xmm1, xmm2, xword [rax])`. -/
theorem c88_refuted_size : ∃ e e' w, e.name = n!"vaddps" ∧ e'.name = n!"vaddps" ∧
    Calls e { ops := [.reg (.xmm 1), .reg (.xmm 2), .mem (OpKind.at' 8 (.gp 0 64) .nil 1)] } w ∧
    Calls e' { ops := [.reg (.xmm 1), .reg (.xmm 2), .mem (OpKind.at' 128 (.gp 0 64) .nil 1)] } w := by
  obtain ⟨e, h1, h2⟩ := callAt_calls (line := 1050) (g := { ops := [.reg (.xmm 1), .reg (.xmm 2), .mem (OpKind.at' 8 (.gp 0 64) .nil 1)] }) (n := n!"vaddps")
    (w := [0xC5, 0xE8, 0x58, 0x08].map .byte) (by decide +kernel)
  obtain ⟨e', h3, h4⟩ := callAt_calls (line := 1050) (g := { ops := [.reg (.xmm 1), .reg (.xmm 2), .mem (OpKind.at' 128 (.gp 0 64) .nil 1)] }) (n := n!"vaddps")
    (w := [0xC5, 0xE8, 0x58, 0x08].map .byte) (by decide +kernel)
  exact ⟨e, e', _, h1, h3, h2, h4⟩

/-! ## Examples -/

/-- `vpermd(xmm1, xmm2, xmm3)` does not exist, so whatever its function returns for is something else. -/
theorem c88_example {e : Entry} {w : List Act} (hn : e.name = n!"vpermd") (hl : e.line = 1426) : ¬ Calls e { ops := [.reg (.xmm 1), .reg (.xmm 2), .reg (.xmm 3)] } w := by
  intro h
  have hm := mem_namedT h.mem
  rw [hn] at hm
  have hd : Documented e e.lax _ := c88_partial h (by rw [hn]; decide +kernel) (by rw [hn]; decide) (by rw [hl]; decide)
    (by
      intro o ho
      refine ⟨.xmm true, by decide, ?_⟩
      simp only [List.mem_cons, List.not_mem_nil, or_false] at ho
      rcases ho with rfl | rfl | rfl
      · exact ⟨1, by simp, rfl⟩
      · exact ⟨2, by simp, rfl⟩
      · exact ⟨3, by simp, rfl⟩) rfl (.inl rfl)
  have h0 : ((namedT n!"vpermd").all fun e => !docOK (Vec.forms e.name) (e.params.filter Param.isOperand) e.nInts e.lax [.reg (.xmm 1), .reg (.xmm 2), .reg (.xmm 3)]) = true := by decide +kernel
  have h1 := List.all_eq_true.1 h0 e hm
  rw [docOK_of hd] at h1; cases h1

end Mn
end Xbyak
