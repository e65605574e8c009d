import Verif.AcceptMaskChk
import Verif.Props.AcceptVec
import Verif.Props.Decor
/-!
# C92: opmasks and broadcasts the manual lists are accepted

The lines are those of C87; `X86.Vec.noMask` and `X86.Vec.bcast` say which of them have `{k1}` and `mNNbcst`.
-/
namespace Xbyak
namespace Mn
open E X86

private theorem dcheck_at {n : Nat} {f : VForm} (hf : f ∈ Vec.forms n) : mcheck (namedT n) n f = true ∧ bcheck (namedT n) n f = true := by
  obtain ⟨g, hg, hn, hf⟩ := vforms_mem hf
  exact Bool.and_eq_true_iff.1 (List.all_eq_true.1 (dcheck_all hg hn) f hf)

private theorem notIn {n : Nat} {l : List Nat} (h : n ∉ l) : Manual.isIn n l = false := by
  rw [Bool.eq_false_iff]
  intro hc
  obtain ⟨m, hm, h1⟩ := List.any_eq_true.1 hc
  exact h (Nat.eq_of_beq_eq_true h1 ▸ hm)

private theorem head_mem {ks : List OpKind} {os : List Operand} (h : OpKind.AllAre ks os) (hm : (ks.headD .k).isMem = true) : ∃ a, os.head? = some (.mem a) := by
  cases ks with
  | nil => cases hm
  | cons q ks =>
    cases os with
    | nil => exact h.elim
    | cons o os =>
      cases q <;> first | (cases hm; done) | skip
      obtain ⟨a, h1, -⟩ := h.1
      exact ⟨a, congrArg some h1⟩

/-- C92, masks: for every mnemonic with an opmask, every EVEX line of the manual and every vector length there is a function with that name that takes the operands of the line with
any opmask `k1`-`k7` on the destination, with and without `T_z`, and returns, whatever the immediate.  Partial: not the stores of `unmasked`, and not the lines that are refused without
a mask (C87). -/
theorem c92_mask_partial {n : Nat} {f : VForm} (hf : f ∈ Vec.forms n) (he : f.evex = true) (hn : n ∉ Vec.noMask) {vl : Nat} (hv : vl ∈ f.lens) (hr : vrefused n f vl = false)
    {os : List Operand} (ho : OneEach (f.ops.map (vkinds true vl)) os) (hu : n ∈ unmasked → ∀ a, os.head? ≠ some (.mem a)) {m : BitVec 3} (hm : m ≠ 0) (z : Bool) (ints : List Word) :
    ∃ e c w, e.name = n ∧ e.nInts = f.ints ∧ (c = .default ∨ .enc ∈ e.params) ∧ Calls e { ops := decorate m z false os, ints := ints, enc := c } w := by
  have h := (dcheck_at hf).1
  unfold mcheck at h
  rw [he, notIn hn, Bool.not_true, Bool.false_or, Bool.false_or] at h
  have h := List.all_eq_true.1 h vl hv
  rw [hr, Bool.false_or] at h
  obtain ⟨ks, hk, ha⟩ := ho.choose
  have h := List.all_eq_true.1 h ks hk
  rw [Bool.or_eq_true, Bool.and_eq_true] at h
  rcases h with ⟨h1, h2⟩ | h
  · obtain ⟨x, hx, h3⟩ := List.any_eq_true.1 h1
    obtain ⟨a, h4⟩ := head_mem ha h2
    exact absurd h4 (hu (Nat.eq_of_beq_eq_true h3 ▸ hx) a)
  · obtain ⟨e, he, c, w, h1, h2, h3⟩ := dcovers_calls (fun e he => (of_namedT e he).1) (m' := m) (by simpa using hm) h ha z ints
    exact ⟨e, c, w, (of_namedT e he).2, h2, h1, h3⟩

/-- C92, broadcast: for every line with `mNNbcst` and every vector length there is a function with that name that takes any registers and any address with broadcast, the size that of the
vector read (`xword_b`, `yword_b`, `zword_b`) or, if some register shows the length, none (`ptr_b`), without mask or, if the mnemonic has one, with any mask on the destination, and returns,
whatever the immediate.  Partial: not for `unbroadcast`. -/
theorem c92_bcast_partial {n : Nat} {f : VForm} (hf : f ∈ Vec.forms n) (hb : Vec.bcast n f = true) (hn : n ∉ unbroadcast) {vl : Nat} (hv : vl ∈ f.lens)
    {os : List Operand} (ho : OneEach (f.ops.map (bkinds (Vec.sized f) vl)) os) {m : BitVec 3} (hm : m = 0 ∨ n ∉ Vec.noMask) (z : Bool) (ints : List Word) :
    ∃ e c w, e.name = n ∧ e.nInts = f.ints ∧ (c = .default ∨ .enc ∈ e.params) ∧ Calls e { ops := decorate m z true os, ints := ints, enc := c } w := by
  have h := (dcheck_at hf).2
  unfold bcheck at h
  rw [hb, notIn hn, Bool.not_true, Bool.false_or, Bool.false_or] at h
  obtain ⟨ks, hk, ha⟩ := ho.choose
  have h := List.all_eq_true.1 (List.all_eq_true.1 h vl hv) ks hk
  rw [Bool.and_eq_true, Bool.or_eq_true] at h
  by_cases h0 : m = 0
  · subst h0
    obtain ⟨e, he, c, w, h1, h2, h3⟩ := dcovers_calls (fun e he => (of_namedT e he).1) (m' := 0) rfl h.1 ha z ints
    exact ⟨e, c, w, (of_namedT e he).2, h2, h1, h3⟩
  · have h2 := h.2
    rw [notIn (hm.resolve_left h0)] at h2
    obtain ⟨e, he, c, w, h1, h2, h3⟩ := dcovers_calls (fun e he => (of_namedT e he).1) (m' := m) (by simpa using h0) (h2.resolve_left Bool.false_ne_true) ha z ints
    exact ⟨e, c, w, (of_namedT e he).2, h2, h1, h3⟩

/-! ## The lines with broadcast have a memory operand, and those with masks a destination -/

private def shapes (g : List VForm × List Nat) : Bool :=
  g.2.all fun n => g.1.all fun f => !Vec.bcast n f || (f.ops.tail.any fun o => match o with
    | .vm _ => true
    | _ => false)

private theorem shapes_all : Vec.groups.all shapes = true := by decide +kernel

/-- The hypothesis `OneEach (f.ops.map (bkinds …)) os` of `c92_bcast_partial` puts a memory operand behind the first operand. -/
theorem c92_bcast_has_mem {n : Nat} {f : VForm} (hf : f ∈ Vec.forms n) (hb : Vec.bcast n f = true) : ∃ k, .vm k ∈ f.ops.tail := by
  obtain ⟨g, hg, hn, hf⟩ := vforms_mem hf
  have h := List.all_eq_true.1 (List.all_eq_true.1 (List.all_eq_true.1 shapes_all g hg) n hn) f hf
  rw [hb, Bool.not_true, Bool.false_or] at h
  obtain ⟨o, ho, h⟩ := List.any_eq_true.1 h
  split at h
  · exact ⟨_, ho⟩
  · cases h

/-! ## Refused though listed -/

/-- `[rax]|k1` -/
def raxK1 : Operand := .mem { at64 0 0 with o := { Addr.memOp 0 with mask := 1 } }

/-- Bug: `T_M_K` is missing at the compressing stores (2185, 2186, 2461-2464), so VCOMPRESSPS [mem]{k1}, zmm1, what the instruction is for, is refused. -/
theorem c92_refuted_compress : NoneTakesVec n!"vcompressps" [raxK1, .reg (.zmm 1)] [] ∧ NoneTakesVec n!"vcompresspd" [raxK1, .reg (.zmm 1)] [] ∧
    NoneTakesVec n!"vpcompressb" [raxK1, .reg (.zmm 1)] [] ∧ NoneTakesVec n!"vpcompressw" [raxK1, .reg (.zmm 1)] [] ∧
    NoneTakesVec n!"vpcompressd" [raxK1, .reg (.zmm 1)] [] ∧ NoneTakesVec n!"vpcompressq" [raxK1, .reg (.zmm 1)] [] :=
  ⟨noneVec (by decide +kernel), noneVec (by decide +kernel), noneVec (by decide +kernel), noneVec (by decide +kernel), noneVec (by decide +kernel), noneVec (by decide +kernel)⟩

/-- Bug: and at the extractions (2296-2303): VEXTRACTF32X4 [mem]{k1}, zmm1, 1 and the others are refused. -/
theorem c92_refuted_extract : NoneTakesVec n!"vextractf32x4" [raxK1, .reg (.zmm 1)] [1] ∧ NoneTakesVec n!"vextractf64x2" [raxK1, .reg (.zmm 1)] [1] ∧
    NoneTakesVec n!"vextracti32x4" [raxK1, .reg (.zmm 1)] [1] ∧ NoneTakesVec n!"vextracti64x2" [raxK1, .reg (.zmm 1)] [1] ∧
    NoneTakesVec n!"vextractf32x8" [raxK1, .reg (.zmm 1)] [1] ∧ NoneTakesVec n!"vextractf64x4" [raxK1, .reg (.zmm 1)] [1] ∧
    NoneTakesVec n!"vextracti32x8" [raxK1, .reg (.zmm 1)] [1] ∧ NoneTakesVec n!"vextracti64x4" [raxK1, .reg (.zmm 1)] [1] :=
  ⟨noneVec (by decide +kernel), noneVec (by decide +kernel), noneVec (by decide +kernel), noneVec (by decide +kernel), noneVec (by decide +kernel), noneVec (by decide +kernel),
    noneVec (by decide +kernel), noneVec (by decide +kernel)⟩

/-- Bug: `T_B32` and `T_B64` are missing at `valignd` and `valignq` (2035, 2036), so VALIGND zmm1, zmm2, m32bcst, 1 is refused. -/
theorem c92_refuted_valign : NoneTakesVec n!"valignd" [.reg (.zmm 1), .reg (.zmm 2), .mem (at64 0 0 true)] [1] ∧
    NoneTakesVec n!"valignq" [.reg (.zmm 1), .reg (.zmm 2), .mem (at64 0 0 true)] [1] :=
  ⟨noneVec (by decide +kernel), noneVec (by decide +kernel)⟩

/-! ## Accepted though not listed -/

/-- Bug: an opmask on a register is not checked: `vaesenc(xmm1|k1, xmm2, xmm3)` (1057), `vpsadbw(xmm1|k1, xmm2, xmm3)` (1494) and `vcomiss(xmm1|k1, xmm2)` (1208) are written with
EVEX.aaa = 1, and are undefined instructions. -/
theorem c92_refuted_reg : Reads 1057 { ops := [.reg { Reg.xmm 1 with mask := 1 }, .reg (.xmm 2), .reg (.xmm 3)] } (fun f h _ _ => f.sp == .evex && h.aaa == 1) ∧
    Reads 1494 { ops := [.reg { Reg.xmm 1 with mask := 1 }, .reg (.xmm 2), .reg (.xmm 3)] } (fun f h _ _ => f.sp == .evex && h.aaa == 1) ∧
    Reads 1208 { ops := [.reg { Reg.xmm 1 with mask := 1 }, .reg (.xmm 2)] } (fun f h _ _ => f.sp == .evex && h.aaa == 1) :=
  ⟨reads_of (by decide +kernel), reads_of (by decide +kernel), reads_of (by decide +kernel)⟩

/-- Bug: `T_M_K` is set for the memory source of `vcvtsi2sh` (2238) and `vcvtusi2sh` (2282), which have no mask: `vcvtsi2sh(xmm1, xmm2, dword[rax]|k1)` is written with EVEX.aaa = 1. -/
theorem c92_refuted_source : Reads 2238 { ops := [.reg (.xmm 1), .reg (.xmm 2), .mem { at64 0 0 with o := { Addr.memOp 32 with mask := 1 } }] } (fun f h _ _ => f.sp == .evex && h.aaa == 1) ∧
    Reads 2282 { ops := [.reg (.xmm 1), .reg (.xmm 2), .mem { at64 0 0 with o := { Addr.memOp 32 with mask := 1 } }] } (fun f h _ _ => f.sp == .evex && h.aaa == 1) :=
  ⟨reads_of (by decide +kernel), reads_of (by decide +kernel)⟩

/-- Bug: `T_z` for a destination that is an opmask is not refused: `vpcmpeqd(k1|k2|T_z, zmm1, zmm2)` (2448) is written with EVEX.z = 1, and is undefined. -/
theorem c92_refuted_zero : Reads 2448 { ops := [.reg { Reg.opmask 1 with mask := 2, zero := true }, .reg (.zmm 1), .reg (.zmm 2)] } (fun _ h _ _ => h.aaa == 2 && h.z) :=
  reads_of (by decide +kernel)

/-! ## Examples -/

/-- `vaddpd(zmm29|k5|T_z, zmm3, ptr_b[r12 + r9 * 8 - 5])`. -/
theorem c92_example : ∃ e c w, e.name = n!"vaddpd" ∧ e.nInts = 0 ∧ (c = .default ∨ .enc ∈ e.params) ∧
    Calls e { ops := [.reg { Reg.zmm 29 with mask := 5, zero := true }, .reg (.zmm 3),
      .mem { o := Addr.memOp 0, broadcast := true, e := { base := .gp 12 64, index := .gp 9 64, scale := 8, disp := BitVec.ofInt 64 (-5) } }], enc := c } w := by
  refine c92_bcast_partial (n := n!"vaddpd") (f := Vec.E Vec.len3 [.v 1, .v 1, .vm 1] 0) (by decide +kernel) (by decide +kernel) (by decide +kernel) (vl := 512) (by decide)
    (os := [.reg (.zmm 29), .reg (.zmm 3), .mem { o := Addr.memOp 0, e := { base := .gp 12 64, index := .gp 9 64, scale := 8, disp := BitVec.ofInt 64 (-5) } }]) ?_ (m := 5)
    (.inr (by decide +kernel)) true []
  refine ⟨⟨.zmm, by decide, 29, rfl⟩, ⟨.zmm, by decide, 3, rfl⟩, ⟨.mem 0, by decide, _, rfl, ?_⟩, trivial⟩
  exact ⟨rfl, .inr ⟨12, by decide, .inr rfl⟩, .inr ⟨9, by decide, .inr rfl⟩, by decide, .inr (.inr rfl), .inl rfl, rfl, rfl, rfl, fun _ => rfl⟩

end Mn
end Xbyak
