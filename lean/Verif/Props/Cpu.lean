import Verif.Spec.Cpuid
/-!
# CPU features (C54, C63)
-/
namespace Xbyak
namespace Cpu
open Feature

/-- Bit `i` of a feature set. -/
def Ty.bit (t : Ty) (i : Nat) : Bool := if i < 64 then t.L.getLsbD i else t.H.getLsbD (i - 64)

theorem Ty.or_bit (a b : Ty) (i : Nat) : (a.or b).bit i = (a.bit i || b.bit i) := by
  unfold Ty.or Ty.bit
  split <;> simp

theorem Ty.and_bit (a b : Ty) (i : Nat) : (a.and b).bit i = (a.bit i && b.bit i) := by
  unfold Ty.and Ty.bit
  split <;> simp

theorem Ty.ext_bit {a b : Ty} (h : ∀ i < 128, a.bit i = b.bit i) : a = b := by
  cases a with | mk aL aH =>
  cases b with | mk bL bH =>
  congr 1
  · apply BitVec.eq_of_getLsbD_eq
    intro i hi
    have := h i (by omega)
    simpa [Ty.bit, hi] using this
  · apply BitVec.eq_of_getLsbD_eq
    intro i hi
    have := h (i + 64) (by omega)
    have hn : ¬ i + 64 < 64 := by omega
    simpa [Ty.bit, hn] using this

theorem Ty.nonzero_iff (t : Ty) : t.nonzero = true ↔ ∃ i < 128, t.bit i = true := by
  constructor
  · intro h
    by_cases hn : ∃ i < 128, t.bit i = true
    · exact hn
    · exfalso
      have : t = ⟨0, 0⟩ := Ty.ext_bit fun i hi => by
        have : t.bit i = false := by
          cases hb : t.bit i
          · rfl
          · exact absurd ⟨i, hi, hb⟩ hn
        rw [this]; simp [Ty.bit]
      rw [this] at h
      revert h; decide
  · rintro ⟨i, hi, h⟩
    cases hz : t.nonzero
    · exfalso
      unfold Ty.nonzero at hz
      have hz : t.H ||| t.L = 0 := by simpa using hz
      have hb : ∀ j, t.H.getLsbD j = false ∧ t.L.getLsbD j = false := by
        intro j
        have := congrArg (fun v => v.getLsbD j) hz
        simpa using this
      unfold Ty.bit at h
      split at h
      · rw [(hb _).2] at h; cases h
      · rw [(hb _).1] at h; cases h
    · rfl

theorem ctorIdx_lt (f : Feature) : f.ctorIdx < 91 := by cases f <;> decide

/-- Feature number `i`. -/
theorem ty_bit (f : Feature) (i : Nat) (hi : i < 128) : f.ty.bit i = decide (f.ctorIdx = i) := by
  have hf := ctorIdx_lt f
  unfold Feature.ty Ty.bit
  generalize f.ctorIdx = n at *
  have one : ∀ j, (1 : BitVec 64).getLsbD j = decide (j = 0) := by
    intro j
    have : (1 : BitVec 64) = BitVec.twoPow 64 0 := by decide
    rw [this, BitVec.getLsbD_twoPow]
    by_cases h : j = 0 <;> simp [h]
    omega
  dsimp only
  by_cases hn : n < 64 <;> by_cases h64 : i < 64
  · rw [if_pos h64, if_pos hn, BitVec.getLsbD_shiftLeft, one]
    by_cases h : n = i
    · subst h; simp [hn]; omega
    · simp [h64, h]; omega
  · rw [if_neg h64, if_neg (by omega)]
    simp; omega
  · rw [if_pos h64, if_neg hn]
    simp; omega
  · rw [if_neg h64, if_pos (by omega), BitVec.getLsbD_shiftLeft, one]
    by_cases h : n = i
    · subst h; simp; omega
    · simp [h]; omega

theorem test_bit (t : Ty) (f : Feature) : t.test f = t.bit f.ctorIdx := by
  have hf := ctorIdx_lt f
  apply Bool.eq_iff_iff.2
  unfold Ty.test
  rw [Ty.nonzero_iff]
  constructor
  · rintro ⟨i, hi, h⟩
    rw [Ty.and_bit, ty_bit _ _ hi, Bool.and_eq_true, decide_eq_true_iff] at h
    rw [h.2]; exact h.1
  · intro h
    refine ⟨f.ctorIdx, by omega, ?_⟩
    rw [Ty.and_bit, h, ty_bit _ _ (by omega)]
    simp

theorem has_bit (t a : Ty) : t.has a = true ↔ ∀ i < 128, a.bit i = true → t.bit i = true := by
  unfold Ty.has
  rw [beq_iff_eq]
  constructor
  · intro h i _ ha
    rw [← h, Ty.and_bit, Bool.and_eq_true] at ha
    exact ha.2
  · intro h
    apply Ty.ext_bit
    intro i hi
    rw [Ty.and_bit]
    cases ha : a.bit i
    · rfl
    · rw [h i hi ha]; rfl

theorem has_test (t : Ty) (f : Feature) : t.has f.ty = t.test f := by
  have hf := ctorIdx_lt f
  apply Bool.eq_iff_iff.2
  rw [test_bit, has_bit]
  constructor
  · intro h
    exact h _ (by omega) (by rw [ty_bit _ _ (by omega)]; simp)
  · intro h i hi hb
    rw [ty_bit _ _ hi, decide_eq_true_iff] at hb
    rw [← hb]; exact h

theorem ctorIdx_inj {f g : Feature} (h : f.ctorIdx = g.ctorIdx) : f = g := by
  have : ∀ f : Feature, f = (([tMMX, tMMX2, tCMOV, tSSE, tSSE2, tSSE3, tSSSE3, tSSE41, tSSE42, tPOPCNT, tAESNI, tAVX512_FP16, tOSXSAVE,
    tPCLMULQDQ, tAVX, tFMA, t3DN, tE3DN, tWAITPKG, tRDTSCP, tAVX2, tBMI1, tBMI2, tLZCNT, tINTEL, tAMD, tENHANCED_REP, tRDRAND, tADX, tRDSEED,
    tSMAP, tHLE, tRTM, tF16C, tMOVBE, tAVX512F, tAVX512DQ, tAVX512_IFMA, tAVX512PF, tAVX512ER, tAVX512CD, tAVX512BW, tAVX512VL, tAVX512_VBMI,
    tAVX512_4VNNIW, tAVX512_4FMAPS, tPREFETCHWT1, tPREFETCHW, tSHA, tMPX, tAVX512_VBMI2, tGFNI, tVAES, tVPCLMULQDQ, tAVX512_VNNI,
    tAVX512_BITALG, tAVX512_VPOPCNTDQ, tAVX512_BF16, tAVX512_VP2INTERSECT, tAMX_TILE, tAMX_INT8, tAMX_BF16, tAVX_VNNI, tCLFLUSHOPT, tCLDEMOTE,
    tMOVDIRI, tMOVDIR64B, tCLZERO, tAMX_FP16, tAVX_VNNI_INT8, tAVX_NE_CONVERT, tAVX_IFMA, tRAO_INT, tCMPCCXADD, tPREFETCHITI, tSERIALIZE,
    tUINTR, tXSAVE, tSHA512, tSM3, tSM4, tAVX_VNNI_INT16, tAPX_F, tAVX10, tAESKLE, tWIDE_KL, tKEYLOCKER, tKEYLOCKER_WIDE, tSSE4a, tCLWB,
    tTSXLDTRK] : List Feature)[f.ctorIdx]?).getD tMMX := by
    intro f; cases f <;> rfl
  rw [this f, this g, h]

theorem or_test (t : Ty) (f g : Feature) : (t.or f.ty).test g = (t.test g || decide (f = g)) := by
  rw [test_bit, test_bit, Ty.or_bit, ty_bit _ _ (by have := ctorIdx_lt g; omega)]
  congr 1
  exact decide_eq_decide.2 ⟨ctorIdx_inj, fun h => by rw [h]⟩

theorem apply_test (l : List (Bool × Feature)) : ∀ (t : Ty) (g : Feature), (t.apply l).test g = (t.test g || l.any fun e => e.1 && decide (e.2 = g)) := by
  induction l with
  | nil => intro t g; simp [Ty.apply]
  | cons x l ih =>
    intro t g
    show ((if x.1 then t.or x.2.ty else t).apply l).test g = _
    rw [ih, List.any_cons]
    cases hx : x.1
    · simp
    · simp [or_test, Bool.or_assoc]

theorem test_ite (c : Prop) [Decidable c] (a b : Ty) (f : Feature) : (if c then a else b).test f = if c then a.test f else b.test f := by
  split <;> rfl

/-- C54: a set of features is reported iff each of them is. -/
theorem c54_has (t a b : Ty) : t.has (a.or b) = (t.has a && t.has b) := by
  apply Bool.eq_iff_iff.2
  rw [Bool.and_eq_true, has_bit, has_bit, has_bit]
  constructor
  · intro h
    exact ⟨fun i hi ha => h i hi (by rw [Ty.or_bit, ha]; rfl), fun i hi hb => h i hi (by rw [Ty.or_bit, hb, Bool.or_true])⟩
  · rintro ⟨ha, hb⟩ i hi h
    rw [Ty.or_bit, Bool.or_eq_true] at h
    exact h.elim (ha i hi) (hb i hi)

/-- The features before the XCR0 checks. -/
def base (e : Env) : Ty := (((Ty.mk 0 0).apply (vendorRules e)).apply (extRules e)).apply (leaf1Rules e)

theorem base_test (e : Env) (f : Feature) : (base e).test f =
    ((vendorRules e).any (fun x => x.1 && decide (x.2 = f)) || (extRules e).any (fun x => x.1 && decide (x.2 = f)) ||
      (leaf1Rules e).any (fun x => x.1 && decide (x.2 = f))) := by
  unfold base
  rw [apply_test, apply_test, apply_test]
  have : (Ty.mk 0 0).test f = false := by rw [test_bit]; simp [Ty.bit]
  rw [this, Bool.false_or]

theorem osRules_test (e : Env) (t : Ty) (f : Feature) (hF : t.test tAVX512F = false) (hB : t.test tAVX512BW = false) : (osRules e t).test f =
    (t.test f || (t.test tOSXSAVE && avxState e && ((avxRules e).any (fun x => x.1 && decide (x.2 = f)) ||
      (avx512State e && (e.cpuid 7 0).ebx.getLsbD 16 && (decide (tAVX512F = f) || (avx512Rules e).any (fun x => x.1 && decide (x.2 = f)) ||
        ((e.cpuid 7 0).ebx.getLsbD 30 && (e.cpuid 7 0).edx.getLsbD 23 && decide (tAVX512_FP16 = f))))))) := by
  unfold osRules
  have f1 : (t.apply (avxRules e)).test tAVX512F = false := by rw [apply_test, hF]; simp [avxRules]
  have f2 : (t.apply (avxRules e)).test tAVX512BW = false := by rw [apply_test, hB]; simp [avxRules]
  by_cases h1 : (t.test tOSXSAVE && avxState e) = true
  · rw [if_pos h1, h1]
    dsimp only
    by_cases h2 : avx512State e = true
    · rw [if_pos h2, h2]
      have hf : ((t.apply (avxRules e)).apply [((e.cpuid 7 0).ebx.getLsbD 16, tAVX512F)]).test tAVX512F = (e.cpuid 7 0).ebx.getLsbD 16 := by
        rw [apply_test, f1]; simp
      by_cases h3 : (e.cpuid 7 0).ebx.getLsbD 16 = true
      · rw [if_pos (by rw [hf]; exact h3), h3]
        have hb : (((t.apply (avxRules e)).apply [(true, tAVX512F)]).apply (avx512Rules e)).test tAVX512BW = (e.cpuid 7 0).ebx.getLsbD 30 := by
          rw [apply_test, apply_test, f2]
          simp [avx512Rules]
        rw [apply_test, hb, apply_test, apply_test, apply_test]
        simp only [List.any_cons, List.any_nil, Bool.or_false, Bool.true_and, Bool.or_assoc, Bool.and_assoc]
      · rw [if_neg (by rw [hf]; exact h3), apply_test, apply_test, Bool.eq_false_iff.2 h3]
        simp
    · rw [if_neg h2, apply_test]
      simp [h2]
  · rw [if_neg h1]
    simp [h1]

theorem leaf7_test (e : Env) (t : Ty) (f : Feature) : (leaf7 e t).test f =
    (t.test f || (decide ((e.cpuid 0 0).eax ≥ 7) && ((leaf7Rules e t).any (fun x => x.1 && decide (x.2 = f)) ||
      (decide ((e.cpuid 7 0).eax ≥ 1) && (leaf71Rules e t).any (fun x => x.1 && decide (x.2 = f)))))) := by
  unfold leaf7
  by_cases h1 : (e.cpuid 0 0).eax ≥ 7
  · rw [if_pos h1]
    have : leaf71Rules e (t.apply (leaf7Rules e t)) = leaf71Rules e t := by
      unfold leaf71Rules
      rw [apply_test]
      simp [leaf7Rules]
    by_cases h2 : (e.cpuid 7 0).eax ≥ 1
    · dsimp only
      rw [if_pos h2, apply_test, apply_test, this]
      simp only [h1, h2, decide_true, Bool.true_and, Bool.or_assoc]
    · dsimp only
      rw [if_neg h2, apply_test]
      simp only [h1, h2, decide_true, decide_false, Bool.true_and, Bool.false_and, Bool.or_false]
  · rw [if_neg h1]
    simp only [h1, decide_false, Bool.false_and, Bool.or_false]

theorem leaf19_test (e : Env) (t : Ty) (f : Feature) (h : f ≠ tKEYLOCKER_WIDE) : (leaf19 e t).test f =
    (t.test f || (decide ((e.cpuid 0 0).eax ≥ 0x19) && ((e.cpuid 0x19 0).ebx.getLsbD 0 && decide (tAESKLE = f) || (e.cpuid 0x19 0).ebx.getLsbD 2 && decide (tWIDE_KL = f)))) := by
  unfold leaf19
  by_cases h1 : (e.cpuid 0 0).eax ≥ 0x19
  · rw [if_pos h1]
    dsimp only
    rw [apply_test, apply_test, decide_eq_true h1]
    simp [Ne.symm h]
  · rw [if_neg h1]
    simp only [h1, decide_false, Bool.false_and, Bool.or_false]

/-- Features whose instructions need operating system support that `Cpu` does not look at. -/
def unchecked : List Feature :=
  [tF16C, tVAES, tVPCLMULQDQ, tSHA512, tSM3, tSM4, tAVX_VNNI, tAVX_IFMA, tAVX_VNNI_INT8, tAVX_VNNI_INT16, tAVX_NE_CONVERT, tAVX10,
    tAMX_TILE, tAMX_INT8, tAMX_BF16, tAMX_FP16, tAPX_F]

theorem avxState_eq (e : Env) : avxState e = (e.xcr0.getLsbD 1 && e.xcr0.getLsbD 2) := by
  unfold avxState
  apply Bool.eq_iff_iff.2
  rw [beq_iff_eq, Bool.and_eq_true]
  constructor
  · intro h
    have h1 := congrArg (fun v : BitVec 64 => v.getLsbD 1) h
    have h2 := congrArg (fun v : BitVec 64 => v.getLsbD 2) h
    simpa using And.intro h1 h2
  · rintro ⟨h1, h2⟩
    apply BitVec.eq_of_getLsbD_eq
    intro i hi
    rw [BitVec.getLsbD_and]
    have : (6 : BitVec 64).getLsbD i = (decide (i = 1) || decide (i = 2)) := by
      have : ∀ i : Fin 64, (6 : BitVec 64).getLsbD i = (decide (i = 1) || decide (i = 2)) := by decide
      have := this ⟨i, hi⟩
      simpa [Fin.ext_iff] using this
    rw [this]
    by_cases ha : i = 1
    · subst ha; simp [h1]
    · by_cases hb : i = 2
      · subst hb; simp [h2]
      · simp [ha, hb]

theorem avx512State_eq (e : Env) : avx512State e = (e.xcr0.getLsbD 5 && e.xcr0.getLsbD 6 && e.xcr0.getLsbD 7) := by
  unfold avx512State
  apply Bool.eq_iff_iff.2
  rw [beq_iff_eq, Bool.and_eq_true, Bool.and_eq_true]
  constructor
  · intro h
    have h0 := congrArg (fun v : BitVec 64 => v.getLsbD 0) h
    have h1 := congrArg (fun v : BitVec 64 => v.getLsbD 1) h
    have h2 := congrArg (fun v : BitVec 64 => v.getLsbD 2) h
    simpa using And.intro (And.intro h0 h1) h2
  · rintro ⟨⟨h0, h1⟩, h2⟩
    apply BitVec.eq_of_getLsbD_eq
    intro i hi
    rw [BitVec.getLsbD_and]
    have : (7 : BitVec 64).getLsbD i = (decide (i = 0) || decide (i = 1) || decide (i = 2)) := by
      have : ∀ i : Fin 64, (7 : BitVec 64).getLsbD i = (decide (i = 0) || decide (i = 1) || decide (i = 2)) := by decide
      have := this ⟨i, hi⟩
      simpa [Fin.ext_iff] using this
    rw [this]
    by_cases hz : i = 0
    · subst hz; simp [h0]
    · by_cases ha : i = 1
      · subst ha; simp [h1]
      · by_cases hb : i = 2
        · subst hb; simp [h2]
        · simp [hz, ha, hb]

theorem features_eq (e : Env) : features e = leaf19 e (leaf7 e (osRules e (base e))) := rfl

theorem vendor_amd (e : Env) : isAMD (e.cpuid 0 0) = amd e := by
  have h1 : get32 'A' 'u' 't' 'h' = 0x68747541 := by decide +kernel
  have h2 : get32 'e' 'n' 't' 'i' = 0x69746e65 := by decide +kernel
  have h3 : get32 'c' 'A' 'M' 'D' = 0x444d4163 := by decide +kernel
  unfold isAMD amd vendor
  rw [h1, h2, h3]
  apply Bool.eq_iff_iff.2
  simp only [Bool.and_eq_true, beq_iff_eq, List.cons.injEq, and_true]
  exact ⟨fun ⟨⟨a, b⟩, c⟩ => ⟨a.symm, b.symm, c.symm⟩, fun ⟨a, b, c⟩ => ⟨⟨a.symm, b.symm⟩, c.symm⟩⟩

theorem vendor_intel (e : Env) : isIntel (e.cpuid 0 0) = intel e := by
  have h1 : get32 'G' 'e' 'n' 'u' = 0x756e6547 := by decide +kernel
  have h2 : get32 'i' 'n' 'e' 'I' = 0x49656e69 := by decide +kernel
  have h3 : get32 'n' 't' 'e' 'l' = 0x6c65746e := by decide +kernel
  unfold isIntel intel vendor
  rw [h1, h2, h3]
  apply Bool.eq_iff_iff.2
  simp only [Bool.and_eq_true, beq_iff_eq, List.cons.injEq, and_true]
  exact ⟨fun ⟨⟨a, b⟩, c⟩ => ⟨a.symm, b.symm, c.symm⟩, fun ⟨a, b, c⟩ => ⟨⟨a.symm, b.symm⟩, c.symm⟩⟩

theorem not_both (e : Env) (h : amd e = true) : intel e = false := by
  unfold amd vendor at h
  unfold intel vendor
  simp only [beq_iff_eq, List.cons.injEq, and_true] at h
  rw [h.1]; rfl

theorem vendorRules_any (e : Env) (f : Feature) : (vendorRules e).any (fun x => x.1 && decide (x.2 = f)) =
    (amd e && (decide (tAMD = f) || ((e.cpuid 0x80000001 0).edx.getLsbD 31 && decide (t3DN = f)) ||
      (((e.cpuid 0x80000001 0).edx.getLsbD 31 || (e.cpuid 0x80000001 0).edx.getLsbD 29) && decide (tPREFETCHW = f))) ||
      intel e && decide (tINTEL = f)) := by
  unfold vendorRules
  rw [vendor_amd, vendor_intel]
  cases ha : amd e
  · cases hi : intel e <;> simp
  · rw [not_both e ha]
    simp only [if_pos, List.any_cons, List.any_nil, Bool.or_false, Bool.true_and, Bool.false_and, Bool.or_assoc, Bool.and_or_distrib_right]

theorem extRules_any (e : Env) (f : Feature) (hx : (e.cpuid 0x80000000 0).eax ≥ 0x80000001) :
    (extRules e).any (fun x => x.1 && decide (x.2 = f)) =
    let d := e.cpuid 0x80000001 0
    ((d.ecx.getLsbD 5 && decide (tLZCNT = f)) || (d.ecx.getLsbD 6 && decide (tSSE4a = f)) || (d.ecx.getLsbD 8 && decide (tPREFETCHW = f)) ||
      (d.edx.getLsbD 15 && decide (tCMOV = f)) || (d.edx.getLsbD 22 && decide (tMMX2 = f)) || (d.edx.getLsbD 27 && decide (tRDTSCP = f)) ||
      (d.edx.getLsbD 30 && decide (tE3DN = f)) || (d.edx.getLsbD 31 && decide (t3DN = f)) ||
      (decide ((e.cpuid 0x80000000 0).eax ≥ 0x80000008) && (e.cpuid 0x80000008 0).ebx.getLsbD 0 && decide (tCLZERO = f))) := by
  unfold extRules
  dsimp only
  rw [if_pos hx]
  by_cases h8 : (e.cpuid 0x80000000 0).eax ≥ 0x80000008
  · rw [if_pos h8, decide_eq_true h8]
    simp only [List.any_append, List.any_cons, List.any_nil, Bool.or_false, Bool.true_and, Bool.or_assoc]
  · rw [if_neg h8, decide_eq_false h8]
    simp only [List.any_append, List.any_cons, List.any_nil, Bool.or_false, Bool.false_and, Bool.or_assoc]

theorem exLow (e : Env) (l s : BitVec 32) (r : Out4) (n : Nat) (h : l.getLsbD 31 = false) : Bit.exists_ e ⟨l, s, r, n⟩ =
    (decide (l.toNat ≤ (e.cpuid 0 0).eax.toNat) && (s == 0 || decide (s.toNat ≤ (e.cpuid 7 0).eax.toNat))) := by
  unfold Bit.exists_
  dsimp only
  rw [h, if_neg (by decide)]

theorem exHigh (e : Env) (l s : BitVec 32) (r : Out4) (n : Nat) (h : l.getLsbD 31 = true) : Bit.exists_ e ⟨l, s, r, n⟩ =
    (decide (l.toNat ≤ (e.cpuid 0x80000000 0).eax.toNat) && (s == 0 || decide (s.toNat ≤ (e.cpuid 7 0).eax.toNat))) := by
  unfold Bit.exists_
  dsimp only
  rw [h, if_pos rfl]

theorem ex1 (e : Env) (r : Out4) (n : Nat) (hm : (e.cpuid 0 0).eax ≥ 7) : Bit.exists_ e ⟨1, 0, r, n⟩ = true := by
  have h7 : 7 ≤ (e.cpuid 0 0).eax.toNat := hm
  have h1 : (1 : BitVec 32).toNat = 1 := rfl
  rw [exLow _ _ _ _ _ (by decide), decide_eq_true (by omega)]; rfl

theorem ex7 (e : Env) (r : Out4) (n : Nat) (hm : (e.cpuid 0 0).eax ≥ 7) : Bit.exists_ e ⟨7, 0, r, n⟩ = true := by
  rw [exLow _ _ _ _ _ (by decide), decide_eq_true (show BitVec.toNat 7 ≤ (e.cpuid 0 0).eax.toNat from hm)]; rfl

theorem ex71 (e : Env) (r : Out4) (n : Nat) (hm : (e.cpuid 0 0).eax ≥ 7) : Bit.exists_ e ⟨7, 1, r, n⟩ = decide ((e.cpuid 7 0).eax ≥ 1) := by
  rw [exLow _ _ _ _ _ (by decide), decide_eq_true (show BitVec.toNat 7 ≤ (e.cpuid 0 0).eax.toNat from hm)]; rfl

theorem ex19 (e : Env) (r : Out4) (n : Nat) : Bit.exists_ e ⟨0x19, 0, r, n⟩ = decide ((e.cpuid 0 0).eax ≥ 0x19) := by
  rw [exLow _ _ _ _ _ (by decide)]
  exact Bool.and_true _

theorem exX1 (e : Env) (r : Out4) (n : Nat) (hx : (e.cpuid 0x80000000 0).eax ≥ 0x80000001) : Bit.exists_ e ⟨0x80000001, 0, r, n⟩ = true := by
  rw [exHigh _ _ _ _ _ (by decide), decide_eq_true (show BitVec.toNat 0x80000001 ≤ (e.cpuid 0x80000000 0).eax.toNat from hx)]; rfl

theorem exX8 (e : Env) (r : Out4) (n : Nat) : Bit.exists_ e ⟨0x80000008, 0, r, n⟩ = decide ((e.cpuid 0x80000000 0).eax ≥ 0x80000008) := by
  rw [exHigh _ _ _ _ _ (by decide)]
  exact Bool.and_true _

set_option linter.unusedSimpArgs false

theorem base_noF (e : Env) : (base e).test tAVX512F = false ∧ (base e).test tAVX512BW = false := by
  rw [base_test, base_test]
  unfold vendorRules extRules leaf1Rules
  dsimp only
  constructor <;> (repeat' split) <;>
    simp only [List.any_append, List.any_cons, List.any_nil, reduceCtorEq, decide_false, Bool.and_false, Bool.or_false, Bool.or_self]

/-- The features in closed form. -/
theorem features_test (e : Env) (f : Feature) (hk : f ≠ tKEYLOCKER_WIDE) : (features e).test f =
    (((base e).test f || ((base e).test tOSXSAVE && avxState e && ((avxRules e).any (fun x => x.1 && decide (x.2 = f)) ||
      (avx512State e && (e.cpuid 7 0).ebx.getLsbD 16 && (decide (tAVX512F = f) || (avx512Rules e).any (fun x => x.1 && decide (x.2 = f)) ||
        ((e.cpuid 7 0).ebx.getLsbD 30 && (e.cpuid 7 0).edx.getLsbD 23 && decide (tAVX512_FP16 = f))))))) ||
    (decide ((e.cpuid 0 0).eax ≥ 7) && ((leaf7Rules e (osRules e (base e))).any (fun x => x.1 && decide (x.2 = f)) ||
      (decide ((e.cpuid 7 0).eax ≥ 1) && (leaf71Rules e (osRules e (base e))).any (fun x => x.1 && decide (x.2 = f))))) ||
    (decide ((e.cpuid 0 0).eax ≥ 0x19) && ((e.cpuid 0x19 0).ebx.getLsbD 0 && decide (tAESKLE = f) || (e.cpuid 0x19 0).ebx.getLsbD 2 && decide (tWIDE_KL = f)))) := by
  rw [features_eq, leaf19_test _ _ _ hk, leaf7_test, osRules_test _ _ _ (base_noF e).1 (base_noF e).2]

theorem base_osx (e : Env) : (base e).test tOSXSAVE = osxsave e := by
  rw [base_test]
  unfold vendorRules extRules leaf1Rules osxsave
  dsimp only
  (repeat' split) <;>
    simp only [List.any_append, List.any_cons, List.any_nil, reduceCtorEq, decide_false, decide_true, Bool.and_false, Bool.and_true, Bool.or_false, Bool.false_or]

theorem base_avx (e : Env) : (base e).test tAVX = false := by
  rw [base_test]
  unfold vendorRules extRules leaf1Rules
  dsimp only
  (repeat' split) <;>
    simp only [List.any_append, List.any_cons, List.any_nil, reduceCtorEq, decide_false, decide_true, Bool.and_false, Bool.and_true, Bool.or_false, Bool.false_or]

theorem os_avx (e : Env) : (osRules e (base e)).test tAVX = (osxsave e && avxState e && (e.cpuid 1 0).ecx.getLsbD 28) := by
  rw [osRules_test _ _ _ (base_noF e).1 (base_noF e).2, base_osx, base_avx]
  unfold avxRules avx512Rules
  simp only [List.any_append, List.any_cons, List.any_nil, reduceCtorEq, decide_false, decide_true, Bool.and_false, Bool.and_true, Bool.or_false, Bool.false_or]

theorem os_avx512f (e : Env) : (osRules e (base e)).test tAVX512F = (osxsave e && avxState e && (avx512State e && (e.cpuid 7 0).ebx.getLsbD 16)) := by
  rw [osRules_test _ _ _ (base_noF e).1 (base_noF e).2, base_osx, (base_noF e).1]
  unfold avxRules
  simp only [List.any_append, List.any_cons, List.any_nil, reduceCtorEq, decide_false, decide_true, Bool.and_false, Bool.and_true, Bool.or_false, Bool.false_or, Bool.true_or]

theorem features_announced (e : Env) (f : Feature) (hm : (e.cpuid 0 0).eax ≥ 7) (hx : (e.cpuid 0x80000000 0).eax ≥ 0x80000001)
    (hk : f ≠ tKEYLOCKER_WIDE) : (features e).test f = (announced e f && (decide (f ∈ unchecked) || (state f).ok e)) := by
  rw [features_test e f hk, base_test, base_osx, vendorRules_any, extRules_any e f hx, decide_eq_true hm, avxState_eq, avx512State_eq]
  unfold leaf7Rules leaf71Rules
  rw [os_avx, os_avx512f, avxState_eq, avx512State_eq]
  unfold avxRules avx512Rules leaf1Rules
  cases f
  case tKEYLOCKER_WIDE => exact absurd rfl hk
  all_goals
    simp only [List.any_append, List.any_cons, List.any_nil, List.all_cons, List.all_nil, reduceCtorEq, decide_false, decide_true, Bool.and_false, Bool.false_and, Bool.and_true, Bool.true_and,
      Bool.or_false, Bool.false_or, Bool.true_or, Bool.or_true, announced, bits, amdBits, avx512f, Bit.set, ex1 e _ _ hm, ex7 e _ _ hm, ex71 e _ _ hm, ex19, exX1 e _ _ hx, exX8,
      state, State.ok, unchecked, List.mem_cons, List.not_mem_nil, or_false, false_or, or_true, true_or, or_self]
  case t3DN => cases amd e <;> cases (e.cpuid 0x80000001 0).edx.getLsbD 31 <;> rfl
  all_goals first | done | rfl | ac_rfl

/-- C63: on a CPU with leaves 7 and 80000001h, every feature other than KEYLOCKER_WIDE and the ones in `unchecked` is reported iff it is usable
according to the manuals. -/
theorem c63_usable_partial (e : Env) (f : Feature) (hm : (e.cpuid 0 0).eax ≥ 7) (hx : (e.cpuid 0x80000000 0).eax ≥ 0x80000001)
    (hk : f ≠ tKEYLOCKER_WIDE) (hu : f ∉ unchecked) : (features e).has f.ty = usable e f := by
  rw [has_test, features_announced e f hm hx hk, decide_eq_false hu, Bool.false_or]; rfl

/-- C63: the features in `unchecked` are reported iff the CPU announces them, whatever the operating system supports. -/
theorem c63_announced_partial (e : Env) (f : Feature) (hm : (e.cpuid 0 0).eax ≥ 7) (hx : (e.cpuid 0x80000000 0).eax ≥ 0x80000001)
    (hu : f ∈ unchecked) : (features e).has f.ty = announced e f := by
  have hk : f ≠ tKEYLOCKER_WIDE := by rintro rfl; revert hu; decide
  rw [has_test, features_announced e f hm hx hk, decide_eq_true hu, Bool.true_or, Bool.and_true]

/-- A CPU that announces everything, under an operating system that saves the given state. -/
def everything (xcr0 : BitVec 64) : Env := ⟨fun _ _ => ⟨0xffffffff, 0xffffffff, 0xffffffff, 0xffffffff⟩, xcr0⟩

/-- C63 does not hold as stated: every feature in `unchecked` is reported under an operating system without AVX, AMX and APX support. -/
theorem c63_refuted_state (f : Feature) (hu : f ∈ unchecked) : (features (everything 0)).has f.ty = true ∧ usable (everything 0) f = false := by
  revert f; decide +kernel

/-- C63 does not hold as stated: wide Key Locker is reported for a CPU without Key Locker, if it has the bit AESKLE. -/
theorem c63_refuted_keylocker : ∃ e : Env, (features e).has tKEYLOCKER_WIDE.ty = true ∧ usable e tKEYLOCKER_WIDE = false ∧
    announced e tKEYLOCKER = false :=
  ⟨⟨fun l _ => if l = 0 then ⟨0x19, 0, 0, 0⟩ else if l = 0x19 then ⟨0, 1, 0, 0⟩ else ⟨0, 0, 0, 0⟩, 0⟩, by decide +kernel⟩

/-- C63: without leaf 7 the AVX-512 features are read from whatever `cpuid(7)` returns. -/
theorem c63_refuted_leaf : ∃ e : Env, (e.cpuid 0 0).eax = 6 ∧ (features e).has tAVX512F.ty = true ∧ announced e tAVX512F = false :=
  ⟨⟨fun l _ => if l = 0 then ⟨6, 0, 0, 0⟩ else ⟨0, 0xffffffff, 0xffffffff, 0⟩, 0xff⟩, by decide +kernel⟩

/-- The AVX10 version number of the manual: CPUID.(24h,0):EBX[7:0], if AVX10 is announced. -/
def manualAvx10 (e : Env) : BitVec 8 := if announced e tAVX10 && decide (0x24 ≤ (e.cpuid 0 0).eax.toNat) then (e.cpuid 0x24 0).ebx.setWidth 8 else 0

/-- C63: the AVX10 version is cut to 7 bits. -/
theorem c63_avx10_partial (e : Env) (hm : (e.cpuid 0 0).eax ≥ 7) (hx : (e.cpuid 0x80000000 0).eax ≥ 0x80000001) :
    (avx10version e).toNat = (manualAvx10 e).toNat % 128 := by
  unfold avx10version manualAvx10
  rw [c63_announced_partial e tAVX10 hm hx (by decide)]
  have : decide ((e.cpuid 0 0).eax ≥ 0x24) = decide (0x24 ≤ (e.cpuid 0 0).eax.toNat) := rfl
  rw [this]
  split
  · have hm : mask 7 = 127#32 := by decide
    rw [hm, BitVec.toNat_and, BitVec.toNat_setWidth, BitVec.toNat_ofNat]
    rw [show 127 % 2 ^ 32 = 2 ^ 7 - 1 by decide, Nat.and_two_pow_sub_one_eq_mod]
    omega
  · rfl

/-- C63 does not hold as stated for versions above 127. -/
theorem c63_refuted_avx10 : ∃ e : Env, manualAvx10 e = 128 ∧ avx10version e = 0 :=
  ⟨⟨fun l _ => if l = 0x24 then ⟨0, 128, 0, 0⟩ else ⟨0xffffffff, 0, 0, 0xffffffff⟩, 0⟩, by decide +kernel⟩

theorem base_no512 (e : Env) (f : Feature) (hs : state f = .avx512) : (base e).test f = false := by
  rw [base_test]
  unfold vendorRules extRules leaf1Rules
  dsimp only
  (repeat' split) <;> (cases f <;> first
    | exact absurd hs (by decide)
    | simp only [List.any_append, List.any_cons, List.any_nil, reduceCtorEq, decide_false, Bool.and_false, Bool.or_false, Bool.or_self])

theorem late_no512 (e : Env) (t : Ty) (f : Feature) (hs : state f = .avx512) (ht : t.test tAVX512F = false) :
    (leaf7Rules e t).any (fun x => x.1 && decide (x.2 = f)) = false ∧ (leaf71Rules e t).any (fun x => x.1 && decide (x.2 = f)) = false ∧
      (avxRules e).any (fun x => x.1 && decide (x.2 = f)) = false ∧ decide (tAESKLE = f) = false ∧ decide (tWIDE_KL = f) = false := by
  unfold leaf7Rules leaf71Rules avxRules
  rw [ht]
  cases f <;> first
    | exact absurd hs (by decide)
    | simp only [List.any_cons, List.any_nil, reduceCtorEq, decide_false, Bool.and_false, Bool.false_and, Bool.or_false, Bool.or_self, and_self]

/-- C54: a reported AVX-512 feature implies AVX512F and operating system support of the AVX-512 state. -/
theorem c54_avx512 (e : Env) (f : Feature) (hs : state f = .avx512) (h : (features e).has f.ty = true) :
    (features e).has tAVX512F.ty = true ∧ State.ok e .avx512 = true ∧ State.ok e .avx = true := by
  rw [has_test] at h ⊢
  have hk : f ≠ tKEYLOCKER_WIDE := by rintro rfl; cases hs
  have key : (osRules e (base e)).test tAVX512F = true → (features e).test tAVX512F = true ∧ State.ok e .avx512 = true ∧ State.ok e .avx = true := by
    intro hF
    refine ⟨?_, ?_⟩
    · rw [features_eq, leaf19_test _ _ _ (by decide), leaf7_test, hF]; simp
    · rw [os_avx512f, avxState_eq, avx512State_eq] at hF
      simp only [Bool.and_eq_true] at hF
      simp only [State.ok, Bool.and_eq_true]
      obtain ⟨⟨h1, h2, h3⟩, ⟨⟨h4, h5⟩, h6⟩, h7⟩ := hF
      exact ⟨⟨⟨⟨⟨⟨h1, h2⟩, h3⟩, h4⟩, h5⟩, h6⟩, ⟨h1, h2⟩, h3⟩
  apply key
  cases hz : (osRules e (base e)).test tAVX512F
  · exfalso
    obtain ⟨n1, n2, n3, n4, n5⟩ := late_no512 e _ f hs hz
    rw [features_test e f hk, base_no512 e f hs, n1, n2, n3, n4, n5, base_osx] at h
    rw [os_avx512f] at hz
    revert h hz
    cases osxsave e <;> cases avxState e <;> cases avx512State e <;> cases (e.cpuid 7 0).ebx.getLsbD 16 <;> simp
  · rfl

/-- C54: on a CPU that announces AVX whenever it announces AVX512F, a reported AVX-512 feature implies AVX. -/
theorem c54_avx_partial (e : Env) (f : Feature) (hs : state f = .avx512) (h : (features e).has f.ty = true)
    (hc : (e.cpuid 7 0).ebx.getLsbD 16 = true → (e.cpuid 1 0).ecx.getLsbD 28 = true) : (features e).has tAVX.ty = true := by
  obtain ⟨hF, -, -⟩ := c54_avx512 e f hs h
  rw [has_test] at hF ⊢
  rw [features_eq, leaf19_test _ _ _ (by decide), leaf7_test, os_avx]
  rw [features_eq, leaf19_test _ _ _ (by decide), leaf7_test, os_avx512f] at hF
  have n1 : ∀ t, (leaf7Rules e t).any (fun x => x.1 && decide (x.2 = tAVX512F)) = false := by
    intro t; unfold leaf7Rules
    simp only [List.any_cons, List.any_nil, reduceCtorEq, decide_false, Bool.and_false, Bool.or_self]
  have n2 : ∀ t, (leaf71Rules e t).any (fun x => x.1 && decide (x.2 = tAVX512F)) = false := by
    intro t; unfold leaf71Rules
    simp only [List.any_cons, List.any_nil, reduceCtorEq, decide_false, Bool.and_false, Bool.or_self]
  rw [n1, n2] at hF
  simp only [reduceCtorEq, decide_false, Bool.and_false, Bool.or_false, Bool.and_eq_true] at hF
  obtain ⟨⟨h1, h2⟩, -, h4⟩ := hF
  rw [h1, h2, hc h4]; rfl

/-- C54 does not hold as stated: the AVX bit is not looked at before AVX512F is reported. -/
theorem c54_refuted_avx : ∃ e : Env, (features e).has tAVX512F.ty = true ∧ (features e).has tAVX.ty = false :=
  ⟨⟨fun l _ => if l = 7 then ⟨0, 0x10000, 0, 0⟩ else ⟨7, 0, 0x08000000, 0⟩, 0xff⟩, by decide +kernel⟩

example : usable (everything 0xff) tAVX512BW = true ∧ usable (everything 7) tAVX512BW = false ∧ usable (everything 7) tAVX2 = true := by decide +kernel

end Cpu
end Xbyak
