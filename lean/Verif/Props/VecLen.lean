import Verif.VecLen
set_option linter.unusedSimpArgs false
/-!
# C77: the vector length
-/
namespace Xbyak
namespace Mn
open E

variable {g : Args}

theorem two {g : Args} (h : g.ops.length = 2) : g.ops = [g.op 0, g.op 1] := by
  unfold Args.op
  generalize g.ops = l at *
  rcases l with _ | ⟨a, _ | ⟨b, _ | ⟨c, l⟩⟩⟩
  · cases h
  · cases h
  · rfl
  · simp at h

theorem stated_reg (h : g.ops.length = 2) {q : Reg} (h0 : (g.op 0).isMEM = false) (h1 : g.op 1 = .reg q) : stated g = none := by
  unfold stated
  obtain ⟨p, hp, -⟩ := op_reg h0
  rw [two h, hp, h1]; rfl

theorem stated_mem (h : g.ops.length = 2) {a : Addr} (h0 : (g.op 0).isMEM = false) (h1 : g.op 1 = .mem a) : stated g = some a.o.bit := by
  unfold stated
  obtain ⟨p, hp, -⟩ := op_reg h0
  rw [two h, hp, h1]; rfl

/-- The length of the instructions that go by their source. -/
def srcLen (g : Args) : Nat :=
  match stated g with
  | some 0 => if 256 ∈ g.ops.map Operand.vw then 512 else 128
  | some b => max 128 b
  | none => widest g

theorem length_src {e : Entry} (h1 : X86.among e.name X86.bySource = true) (h2 : X86.among e.name X86.maskOps = false) (h3 : X86.among e.name X86.prefetches = false) :
    X86.vectorLength e.name (g.ops.map Operand.vw) (stated g) = srcLen g := by
  unfold X86.vectorLength srcLen widest
  rw [h1, h2, h3]
  cases stated g with
  | none => rfl
  | some b => cases b <;> rfl

theorem length_normal {e : Entry} (h1 : X86.among e.name X86.bySource = false) (h2 : X86.among e.name X86.maskOps = false) (h3 : X86.among e.name X86.prefetches = false) :
    X86.vectorLength e.name (g.ops.map Operand.vw) (stated g) = widest g := by
  unfold X86.vectorLength widest
  rw [h1, h2, h3]; rfl

theorem and256 : ∀ b, b ≤ 128 → b &&& 256 = 0 := by decide
theorem and384 : ∀ b, b ≤ 128 → b &&& 896 ≠ 0 → b = 128 := by decide

/-- Source with memory: the index is no vector register. -/
theorem no_vsib {e : Entry} (hp : Sized e g) {r : Reg} {v : Option Reg} {a : Addr} {u : Ty} {c : Byte} {imm : Option Byte} {w : List Act} {i : Nat} (ha : g.op i = .mem a)
    (hw : (opVex r v (.mem a) u c imm).Gives w ()) (hs : u.has T_VSIB = false) : Operand.vw (.mem a) = 0 := by
  obtain ⟨h1, h2, h3⟩ := hp.adr i a ha
  unfold Operand.vw
  dsimp only
  cases hv : a.e.index.isSIMD with
  | false => rfl
  | true => exact absurd hw (opVex_vsib r v a u c imm h3 ((isVsib_simd h1 h2).trans hv) hs w ())

theorem len_cvt {e : Entry} (hp : Sized e g) (hv : X86.among e.name X86.bySource = true) (h5 : e.body.leaves.any Leaf.isCvt5 = false) (hl : g.ops.length = 2) (h0 : (g.op 0).isMEM = false)
    {r : Reg} {u : Ty} {h : X86.Head} {c : Byte} {imm : Option Byte} {w : List Act}
    (hr : r = (g.reg 0).setKind (if (g.reg 0).isXMM then (if (g.op 1).isBit 256 then .ymm else .xmm) else .zmm))
    (hk : ((g.reg 0).isXMM = true ∧ ((g.op 1).hd.isXMM = true ∨ (g.op 1).hd.isYMM = true ∨ (g.op 1).isMEM = true)) ∨
        ((g.reg 0).isYMM = true ∧ ((g.op 1).hd.isZMM = true ∨ (g.op 1).isMEM = true)))
    (H : VexHead r (some (.xmm 0)) (g.op 1) u h) (n0 : r.rnd = 0 ∧ (rmReg (g.op 1)).rnd = 0 ∧ vRnd (some (.xmm 0)) = 0)
    (hw : (opVex r (some (.xmm 0)) (g.op 1) u c imm).Gives w ()) (hs : u.has T_VSIB = false) (hL1 : u.has T_L1 = false) (hL0 : u.has T_L0 = false) :
    h.L = X86.lengthBits (srcLen g) := by
  obtain ⟨x, hx, hx'⟩ := op_reg h0
  have hx' : g.reg 0 = x := hx'
  rw [hx'] at hr hk
  obtain ⟨f1, f2, f3, -⟩ := hp.regs 0 x hx
  have nx : x.isXMM = true → x.isYMM = false := by unfold Reg.isXMM Reg.isYMM; intro h; rw [beq_iff_eq] at h; rw [h]; rfl
  have ny : x.isYMM = true → x.isXMM = false := by unfold Reg.isXMM Reg.isYMM; intro h; rw [beq_iff_eq] at h; rw [h]; rfl
  -- what is left to show: the width of `r`
  suffices key : ∃ k, (k = .xmm ∧ srcLen g = 128 ∨ k = .ymm ∧ srcLen g = 256 ∨ k = .zmm ∧ srcLen g = 512) ∧ r = x.setKind k ∧ opBits (g.op 1) ≤ srcLen g by
    obtain ⟨k, hk, rfl, hb⟩ := key
    have h128 : 128 ≤ srcLen g := by rcases hk with ⟨-, h⟩ | ⟨-, h⟩ | ⟨-, h⟩ <;> omega
    refine len_of H n0 ?_ (fun _ => ?_) (fun _ hre _ _ => ?_)
    · rcases hk with ⟨-, h⟩ | ⟨-, h⟩ | ⟨-, h⟩ <;> simp [h]
    · refine bits_eq h128 ?_ h128 hb ?_
      · rcases hk with ⟨rfl, h⟩ | ⟨rfl, h⟩ | ⟨rfl, h⟩ <;> rw [h] <;> exact Nat.le_refl _
      · rcases hk with ⟨rfl, h⟩ | ⟨rfl, h⟩ | ⟨rfl, h⟩ <;> rw [h] <;> right <;> left <;> exact Nat.le_refl _
    · rw [vexL_eq hL1 hL0]
      rcases hk with ⟨rfl, h⟩ | ⟨rfl, h⟩ | ⟨rfl, h⟩
      · rw [h]; rfl
      · rw [h]; rfl
      · have := not_zmm hre
        cases this
  cases ho : g.op 1 with
  | reg q =>
    rw [ho] at hr hk
    have hS : srcLen g = max (max 128 (Operand.vw (.reg x))) (Operand.vw (.reg q)) := by
      unfold srcLen
      rw [stated_reg hl h0 ho]
      unfold widest
      rw [two hl, hx, ho]; rfl
    have hob : opBits (.reg q) = q.bit := by simp [opBits, rmReg, rmVL]
    obtain ⟨q1, q2, q3, -⟩ := hp.regs 1 q ho
    rw [hob, hS]
    have sim : ∀ p : Reg, p.isXMM = true ∨ p.isYMM = true ∨ p.isZMM = true → Operand.vw (.reg p) = p.bit := by
      intro p h
      refine (Fit.simd ?_).symm
      unfold Reg.isSIMD
      rcases h with h | h | h <;> simp [h]
    rcases hk with ⟨hx1, hk⟩ | ⟨hx1, hk⟩
    · rw [if_pos hx1] at hr
      rw [sim x (.inl hx1), f1 hx1]
      rcases hk with hk | hk | hk
      · have hk : q.isXMM = true := hk
        rw [sim q (.inl hk), q1 hk]
        rw [if_neg (by show ¬ (q.isBit 256 = true); unfold Reg.isBit; rw [q1 hk]; decide)] at hr
        exact ⟨_, .inl ⟨rfl, rfl⟩, hr, by decide⟩
      · have hk : q.isYMM = true := hk
        rw [sim q (.inr (.inl hk)), q2 hk]
        rw [if_pos (by show q.isBit 256 = true; unfold Reg.isBit; rw [q2 hk]; decide)] at hr
        exact ⟨_, .inr (.inl ⟨rfl, rfl⟩), hr, by decide⟩
      · cases hk
    · rw [if_neg (by rw [ny hx1]; decide)] at hr
      rw [sim x (.inr (.inl hx1)), f2 hx1]
      rcases hk with hk | hk
      · have hk : q.isZMM = true := hk
        rw [sim q (.inr (.inr hk)), q3 hk]
        exact ⟨_, .inr (.inr ⟨rfl, rfl⟩), hr, by decide⟩
      · cases hk
  | mem a =>
    rw [ho] at hr hk hw
    obtain ⟨s1, s2, s3⟩ := hp.src hv 1 a ho
    obtain ⟨w1, w2, -⟩ := hp.adr 1 a ho
    have hvi := no_vsib hp ho hw hs
    have hob : opBits (.mem a) ≤ 128 := by
      have := opBits_mem w1 w2
      omega
    rw [hx'] at s2 s3
    have hS : srcLen g = if a.o.bit = 0 then (if 256 ∈ [Operand.vw (.reg x), 0] then 512 else 128) else max 128 a.o.bit := by
      unfold srcLen
      rw [stated_mem hl h0 ho, two hl, hx, ho]
      simp only [List.map_cons, List.map_nil, hvi]
      cases a.o.bit with
      | zero => rfl
      | succ n => rfl
    have hka : a.o.kind = .mem := w1.kind
    rcases hk with ⟨hx1, -⟩ | ⟨hx1, -⟩
    · rw [if_pos hx1] at hr
      have hvx : Operand.vw (.reg x) = 128 := by rw [← Fit.simd (by unfold Reg.isSIMD; rw [hx1]; rfl), f1 hx1]
      rw [hvx] at hS
      have s3 : a.o.bit ≠ 512 := fun h => by
        have := s3 hx1 h
        rw [h5] at this; cases this
      rcases s1 with s1 | s1 | s1
      · rw [if_neg (by show ¬ (a.o.isBit 256 = true); unfold Reg.isBit; rw [and256 _ s1]; decide)] at hr
        have : srcLen g = 128 := by
          rw [hS]
          split
          · simp
          · omega
        exact ⟨_, .inl ⟨rfl, this⟩, hr, by omega⟩
      · rw [if_pos (by show a.o.isBit 256 = true; unfold Reg.isBit; rw [s1]; decide)] at hr
        have : srcLen g = 256 := by rw [hS, s1]; rfl
        exact ⟨_, .inr (.inl ⟨rfl, this⟩), hr, by omega⟩
      · exact absurd s1 s3
    · rw [if_neg (by rw [ny hx1]; decide)] at hr
      have hvx : Operand.vw (.reg x) = 256 := by rw [← Fit.simd (by unfold Reg.isSIMD; rw [hx1]; simp), f2 hx1]
      rw [hvx] at hS
      have : srcLen g = 512 := by
        rw [hS]
        rcases s2 hx1 with h | h <;> rw [h] <;> simp
      exact ⟨_, .inr (.inr ⟨rfl, this⟩), hr, by omega⟩

theorem len_cvt5 {e : Entry} (hp : Sized e g) (hop : (e.pars g.ops.length)[1]? = some .op) (hv : X86.among e.name X86.bySource = true) (hl : g.ops.length = 2) (h0 : (g.op 0).isMEM = false)
    {r : Reg} {u : Ty} {h : X86.Head} {c : Byte} {imm : Option Byte} {w : List Act}
    (hx : (g.reg 0).isXMM = true) (hb : (g.op 1).isBit 896 = true)
    (hr : r = (g.reg 0).setKind (if (g.op 1).isBit 128 then .xmm else if (g.op 1).isBit 256 then .ymm else .zmm))
    (H : VexHead r (some (.xmm 0)) (g.op 1) u h) (n0 : r.rnd = 0 ∧ (rmReg (g.op 1)).rnd = 0 ∧ vRnd (some (.xmm 0)) = 0)
    (hw : (opVex r (some (.xmm 0)) (g.op 1) u c imm).Gives w ()) (hs : u.has T_VSIB = false) (hm : u.has T_MUST_EVEX = true) :
    h.L = X86.lengthBits (srcLen g) := by
  obtain ⟨x, hx0, hx'⟩ := op_reg h0
  have hx' : g.reg 0 = x := hx'
  rw [hx'] at hr hx
  obtain ⟨f1, -⟩ := hp.regs 0 x hx0
  have hvx : Operand.vw (.reg x) = 128 := by rw [← Fit.simd (by unfold Reg.isSIMD; rw [hx]; rfl), f1 hx]
  suffices key : ∃ k, (k = .xmm ∧ srcLen g = 128 ∨ k = .ymm ∧ srcLen g = 256 ∨ k = .zmm ∧ srcLen g = 512) ∧ r = x.setKind k ∧ opBits (g.op 1) ≤ srcLen g by
    obtain ⟨k, hk, rfl, hb⟩ := key
    have h128 : 128 ≤ srcLen g := by rcases hk with ⟨-, h⟩ | ⟨-, h⟩ | ⟨-, h⟩ <;> omega
    refine len_of H n0 ?_ (fun _ => ?_) (fun h _ _ _ => ?_)
    · rcases hk with ⟨-, h⟩ | ⟨-, h⟩ | ⟨-, h⟩ <;> simp [h]
    · refine bits_eq h128 ?_ h128 hb ?_
      · rcases hk with ⟨rfl, h⟩ | ⟨rfl, h⟩ | ⟨rfl, h⟩ <;> rw [h] <;> exact Nat.le_refl _
      · rcases hk with ⟨rfl, h⟩ | ⟨rfl, h⟩ | ⟨rfl, h⟩ <;> rw [h] <;> right <;> left <;> exact Nat.le_refl _
    · rw [hm] at h; cases h
  -- the three widths
  have fin : ∀ b, (∀ m, (g.op 1).isBit m = (b &&& m != 0)) → (b = 128 ∨ b = 256 ∨ b = 512) → srcLen g = b → opBits (g.op 1) ≤ srcLen g →
      ∃ k, (k = .xmm ∧ srcLen g = 128 ∨ k = .ymm ∧ srcLen g = 256 ∨ k = .zmm ∧ srcLen g = 512) ∧ r = x.setKind k ∧ opBits (g.op 1) ≤ srcLen g := by
    intro b hb1 hb2 hS ho
    rw [hb1, hb1] at hr
    rcases hb2 with rfl | rfl | rfl
    · exact ⟨_, .inl ⟨rfl, hS⟩, hr, ho⟩
    · exact ⟨_, .inr (.inl ⟨rfl, hS⟩), hr, ho⟩
    · exact ⟨_, .inr (.inr ⟨rfl, hS⟩), hr, ho⟩
  cases ho : g.op 1 with
  | reg q =>
    rw [ho] at hb
    have hS : srcLen g = max (max 128 (Operand.vw (.reg x))) (Operand.vw (.reg q)) := by
      unfold srcLen
      rw [stated_reg hl h0 ho]
      unfold widest
      rw [two hl, hx0, ho]; rfl
    have hob : opBits (.reg q) = q.bit := by simp [opBits, rmReg, rmVL]
    obtain ⟨q1, q2, q3, q4⟩ := hp.regs 1 q ho
    have hb : q.bit &&& 896 ≠ 0 := by simpa [Operand.isBit, Operand.hd, Reg.isBit] using hb
    rw [← ho]
    have hbits : ∀ m, (g.op 1).isBit m = (q.bit &&& m != 0) := by intro m; rw [ho]; rfl
    rw [hvx] at hS
    have hvq : Operand.vw (.reg q) = 0 ∧ q.bit = 128 ∨ Operand.vw (.reg q) = q.bit ∧ (q.bit = 128 ∨ q.bit = 256 ∨ q.bit = 512) := by
      cases hsq : q.isSIMD with
      | true =>
        right
        refine ⟨(Fit.simd hsq).symm, ?_⟩
        unfold Reg.isSIMD at hsq
        simp only [Bool.or_eq_true] at hsq
        rcases hsq with (h | h) | h
        · exact .inl (q1 h)
        · exact .inr (.inl (q2 h))
        · exact .inr (.inr (q3 h))
      | false =>
        left
        refine ⟨by unfold Operand.vw; dsimp only; rw [hsq]; rfl, ?_⟩
        by_cases ht : q.kind = .tmm
        · have := hp.tile 1 q ho ht
          rw [hop] at this; cases this
        · exact and384 _ (q4 hsq ht) hb
    refine fin q.bit hbits ?_ ?_ ?_
    · omega
    · omega
    · rw [ho, hob]; omega
  | mem a =>
    obtain ⟨s1, s2, s3⟩ := hp.src hv 1 a ho
    obtain ⟨w1, w2, -⟩ := hp.adr 1 a ho
    rw [ho] at hw hb
    have hvi := no_vsib hp ho hw hs
    have hob : opBits (.mem a) ≤ 128 := by
      have := opBits_mem w1 w2
      omega
    have hb : a.o.bit &&& 896 ≠ 0 := by simpa [Operand.isBit, Operand.hd, Reg.isBit] using hb
    have hb' : a.o.bit = 128 ∨ a.o.bit = 256 ∨ a.o.bit = 512 := by
      rcases s1 with h | h | h
      · exact .inl (and384 _ h hb)
      · exact .inr (.inl h)
      · exact .inr (.inr h)
    have hS : srcLen g = a.o.bit := by
      unfold srcLen
      rw [stated_mem hl h0 ho]
      rcases hb' with h | h | h <;> rw [h] <;> rfl
    rw [← ho]
    refine fin a.o.bit (fun m => by rw [ho]; rfl) hb' hS ?_
    rw [ho]; omega

theorem and_big : ∀ b, b ≤ 128 → b &&& 512 = 0 ∧ b &&& 8192 = 0 := by decide

theorem changeBit_bit {r q : Reg} {b : Nat} (hk : r.kind = .opmask) (h128 : r.bit ≤ 128) (h : r.changeBit b = .ok q) : b ≠ 0 ∧ (q.bit = b ∨ q.bit ≤ 128 ∧ b ≤ 128) := by
  unfold Reg.changeBit Reg.setBit at h
  split at h
  · cases h
  · rename_i hb
    have hb : b = 8 ∨ b = 16 ∨ b = 32 ∨ b = 64 ∨ b = 128 ∨ b = 256 ∨ b = 512 ∨ b = 8192 := Decidable.of_not_not hb
    refine ⟨by omega, ?_⟩
    split at h
    · rename_i hbit
      cases h
      right
      refine ⟨h128, ?_⟩
      unfold Reg.isBit at hbit
      rcases hb with h | h | h | h | h | h | h | h <;> subst h <;> first | decide | skip
      · rw [and256 _ h128] at hbit; cases hbit
      · rw [(and_big _ h128).1] at hbit; cases hbit
      · rw [(and_big _ h128).2] at hbit; cases hbit
    · rw [if_pos (.inr hk)] at h; cases h; exact .inl rfl

/-- `vfpclass`: the opmask is given the width of the source. -/
theorem len_class {e : Entry} (hp : Sized e g) (hop : (e.pars g.ops.length)[1]? = some .op) (hv : X86.among e.name X86.bySource = true) (hl : g.ops.length = 2) (h0 : (g.op 0).isMEM = false)
    {r : Reg} {u : Ty} {h : X86.Head} {c : Byte} {imm : Option Byte} {w : List Act} (hk : (g.reg 0).kind = .opmask) (hr : (g.reg 0).changeBit (g.op 1).bit = .ok r)
    (H : VexHead r none (g.op 1) u h) (n0 : r.rnd = 0 ∧ (rmReg (g.op 1)).rnd = 0 ∧ vRnd none = 0)
    (hw : (opVex r none (g.op 1) u c imm).Gives w ()) (hs : u.has T_VSIB = false) (hm : u.has T_MUST_EVEX = true) :
    h.L = X86.lengthBits (srcLen g) := by
  obtain ⟨x, hx0, hx'⟩ := op_reg h0
  have hx' : g.reg 0 = x := hx'
  rw [hx'] at hr hk
  have hsx : x.isSIMD = false := by unfold Reg.isSIMD Reg.isXMM Reg.isYMM Reg.isZMM; rw [hk]; rfl
  obtain ⟨hb0, hb⟩ := changeBit_bit hk ((hp.regs 0 x hx0).2.2.2 hsx (by rw [hk]; decide)) hr
  have hvx : Operand.vw (.reg x) = 0 := by unfold Operand.vw; dsimp only; rw [hsx]; rfl
  suffices key : (srcLen g = 128 ∨ srcLen g = 256 ∨ srcLen g = 512) ∧ srcLen g = max 128 (g.op 1).bit ∧ opBits (g.op 1) ≤ srcLen g by
    obtain ⟨k1, k2, k3⟩ := key
    have h128 : 128 ≤ srcLen g := by omega
    refine len_of H n0 k1 (fun _ => bits_eq h128 ?_ (Nat.zero_le _) k3 ?_) (fun h _ _ _ => ?_)
    · omega
    · omega
    · rw [hm] at h; cases h
  cases ho : g.op 1 with
  | reg q =>
    have hS : srcLen g = max (max 128 (Operand.vw (.reg x))) (Operand.vw (.reg q)) := by
      unfold srcLen
      rw [stated_reg hl h0 ho]
      unfold widest
      rw [two hl, hx0, ho]; rfl
    have hob : opBits (.reg q) = q.bit := by simp [opBits, rmReg, rmVL]
    have ht : q.kind ≠ .tmm := by
      intro ht
      have := hp.tile 1 q ho ht
      rw [hop] at this; cases this
    have h1 := (hp.regs 1 q ho).le ht
    have h2 := (hp.regs 1 q ho).vw
    have h3 : q.isSIMD = true → q.bit = Operand.vw (.reg q) := Fit.simd
    have h4 : q.isSIMD = false → Operand.vw (.reg q) = 0 := by intro h; unfold Operand.vw; dsimp only; rw [h]; rfl
    have hbit : (Operand.reg q).bit = q.bit := rfl
    rw [hvx] at hS
    rw [hob, hbit]
    cases hsq : q.isSIMD with
    | true => have := h3 hsq; omega
    | false => have := h4 hsq; omega
  | mem a =>
    obtain ⟨s1, s2, s3⟩ := hp.src hv 1 a ho
    obtain ⟨w1, w2, -⟩ := hp.adr 1 a ho
    rw [ho] at hw hb0
    have hvi := no_vsib hp ho hw hs
    have hob : opBits (.mem a) ≤ 128 := by
      have := opBits_mem w1 w2
      omega
    have hbit : (Operand.mem a).bit = a.o.bit := rfl
    rw [hbit] at hb0 ⊢
    have hS : srcLen g = max 128 a.o.bit := by
      unfold srcLen
      rw [stated_mem hl h0 ho]
      generalize a.o.bit = b at hb0
      cases b with
      | zero => exact absurd rfl hb0
      | succ n => rfl
    omega

/-- Every argument is passed on: the widest decides. -/
theorem len_all {e : Entry} (hp : Sized e g) {r : Reg} {v : Option Reg} {o : Operand} {u : Ty} {h : X86.Head} (H : VexHead r v o u h)
    (n0 : r.rnd = 0 ∧ (rmReg o).rnd = 0 ∧ vRnd v = 0) (hm : u.has T_MUST_EVEX = true) (br : r.bit ≤ widest g) (bv : vBit v ≤ widest g) (bo : opBits o ≤ widest g)
    (low : ∀ i, Operand.vw (g.op i) ≤ 128 ∨ Operand.vw (g.op i) ≤ r.bit ∨ Operand.vw (g.op i) ≤ vBit v ∨ Operand.vw (g.op i) ≤ opBits o) :
    h.L = X86.lengthBits (widest g) := by
  have h128 := widest_128 g
  refine len_of H n0 hp.widest (fun _ => bits_eq h128 br bv bo ?_) (fun h _ _ _ => ?_)
  · rcases widest_eq g with h | ⟨i, h⟩
    · exact .inl h
    · have := low i
      omega
  · rw [hm] at h; cases h

theorem vw_bits {o : Operand} (h : ∀ a, o = .mem a → a.WF ∧ a.e.index.kind ≠ .tmm) : Operand.vw o ≤ opBits o := by
  cases o with
  | reg q =>
    unfold Operand.vw opBits rmReg rmVL
    dsimp only
    split <;> omega
  | mem a =>
    have := rmVL_eq (h a rfl).1 (h a rfl).2
    unfold opBits
    omega

set_option maxRecDepth 1000000 in
theorem line1473 : (all.filter fun e => e.line == 1473) = [⟨1473, n!"vpmovmskb", [.reg32e, .xmm], 0,
    .guard (fun g => !((g.reg 1).isXMM || (g.reg 1).isYMM)) .BAD_COMBINATION
    (.ite (fun g => (g.reg 1).isYMM) (.leaf (.vex (.ymmOf 0) none (.a 1) (fl [T_0F, T_66, T_YMM]) 0xD7 .none))
    (.leaf (.vex (.xmmOf 0) none (.a 1) (fl [T_0F, T_66, T_YMM]) 0xD7 .none)))⟩] := rfl

/-- C77: the length field of an accepted vector instruction is the length the manual defines for its operands.
Partial: `Sized` leaves out operands with which the library writes another length, each with the theorem that shows it. -/
theorem c77_partial {e : Entry} (hv : e.vexed = true) (hno : noLength e.line = false) {w : List Act} (hc : Calls e g w) (hp : Sized e g) (fill : Act → BitVec 32) :
    ∃ h, h.L = X86.lengthBits (X86.vectorLength e.name (g.ops.map Operand.vw) (stated g)) ∧ ∀ tl, ∃ t, X86.head (concr fill w ++ tl) = some (h, t) := by
  have ht := pars_are hc hp.good
  have hL := lenAt_of hc.mem hv hno hc.fits
  obtain ⟨c, l, r, v, o, u, code, imm, hl, hat, hpass, hmk, hw, C, hclean, hreg⟩ := called hv hc hp.toDecorated
  have hL := List.all_eq_true.mp hL l hl
  obtain ⟨h, H, hh⟩ := opVex_head hw fill
  refine ⟨h, ?_, hh⟩
  -- no rounding
  have hseen : ∀ d ∈ seen r v o, d.rnd = 0 := by
    intro d hd
    rcases C.only d hd with rfl | ⟨s, hs, rfl⟩
    · rfl
    · rcases Slot.clean_deco (g := g) (hclean s hs) with ⟨i, rfl⟩ | h
      · exact hp.rnd i
      · rw [h]
  have n0 : r.rnd = 0 ∧ (rmReg o).rnd = 0 ∧ vRnd v = 0 := by
    refine ⟨hseen r.deco (by simp [seen]), ?_, ?_⟩
    · cases ho : o with
      | reg q => exact hseen q.deco (by rw [ho]; simp [seen, Operand.deco, Operand.hd])
      | mem a =>
        obtain ⟨s, hs, b, h1, -, h3, h4⟩ := C.memOnly a ho
        have : ∃ i, g.op i = .mem b := by cases s <;> first | (cases h1; done) | exact ⟨_, h1⟩
        obtain ⟨i, hi⟩ := this
        obtain ⟨a1, a2, -⟩ := hp.addr i b hi
        rw [h4] at a1 a2
        show a.getRegExp.base.rnd = 0
        rcases getRegExp_base a with h | h
        · rw [h]; exact congrArg Deco.rnd a1
        · rw [h]; exact congrArg Deco.rnd a2
    · have := hseen (v.getD .nil).deco (by simp [seen])
      cases v <;> exact this
  have ty := Leaf.makes_type hmk
  have hres : l.resizes = true → e.resizes = true := fun h => List.any_eq_true.mpr ⟨l, hl, h⟩
  -- helpers that pass their operands as they are
  have normal : ∀ {x p : Slot} {vs : List Slot}, e.resizes = false → X86.among e.name X86.bySource = false → X86.among e.name X86.prefetches = false →
      l.trip g.ops.length = some (x, vs, p) → (l.types.all fun u => u.has T_L1 == X86.among e.name X86.maskOps && !u.has T_L0 && !(Ty.evx u && u.has T_L1) &&
        (!Ty.evx u || (x.tame (e.pars g.ops.length) && vs.all (Slot.tame (e.pars g.ops.length)) && p.tame (e.pars g.ops.length) && !(e.pars g.ops.length).contains .tmm &&
          (match e.lead g.ops.length with | none => true | some i => x == .a i || vs == [.a i] || p == .a i))) &&
        (u.has T_MUST_EVEX || u.has T_L1 || Nat.beq e.line 1473 || Nat.beq e.line 1439 ||
          (match e.lead g.ops.length with | none => x.notYmm | some i => tied i (l.same g.ops.length) x vs))) = true →
      h.L = X86.lengthBits (X86.vectorLength e.name (g.ops.map Operand.vw) (stated g)) := by
    intro x p vs k1 k2 k3 k4 k5
    have k5 := List.all_eq_true.mp k5 u ty
    simp only [Bool.and_eq_true, beq_iff_eq, Bool.not_eq_true'] at k5
    obtain ⟨⟨⟨⟨l1, l0⟩, lE⟩, kE⟩, kV⟩ := k5
    cases hm : X86.among e.name X86.maskOps with
    | true =>
      rw [hm] at l1
      have : X86.vectorLength e.name (g.ops.map Operand.vw) (stated g) = 256 := by unfold X86.vectorLength; rw [hm]; rfl
      rw [this]
      refine len_of H n0 (.inr (.inl rfl)) (fun h => ?_) (fun _ _ _ _ => ?_)
      · rw [l1, Bool.and_true] at lE
        rw [show Ty.evx u = true from h] at lE; cases lE
      · unfold vexL; rw [l1]; rfl
    | false =>
      rw [hm] at l1
      rw [length_normal k2 hm k3]
      refine len_trip hp ht k1 hmk hreg k4 n0 H l1 l0 (fun hE => ?_) ?_
      · rw [hE] at kE
        simp only [Bool.not_true, Bool.false_or, Bool.and_eq_true, List.all_eq_true, Bool.not_eq_true'] at kE
        obtain ⟨⟨⟨⟨t1, t2⟩, t3⟩, t4⟩, t5⟩ := kE
        refine ⟨t1, t2, t3, t4, fun i hi => ?_⟩
        rw [hi] at t5
        simpa only [Bool.or_eq_true, beq_iff_eq, or_assoc] using t5
      · rw [l1] at kV
        simp only [Bool.or_eq_true, Nat.beq_eq, Bool.or_false] at kV
        rcases kV with ((kV | kV) | kV) | kV
        · exact .inl kV
        · -- vpmovmskb
          right; left
          intro hpl hre
          have he := mem_line hc.mem kV line1473
          have hn : g.ops.length = 2 := by
            have a := hc.fits
            rw [he] at a
            exact Nat.le_antisymm a.1 a.2.1
          have hlead : e.lead g.ops.length = some 1 := by rw [hn, he]; rfl
          have hW := hp.lead_eq k1
          unfold leadW at hW
          rw [hlead] at hW
          obtain ⟨q, hq, -⟩ := lead_reg ht hlead
          have hr1 : g.reg 1 = q := by unfold Args.reg; rw [hq]; rfl
          rw [he] at hat
          simp only [Body.leafAt] at hat
          have key : o = g.op 1 ∧ r.isYMM = q.isYMM := by
            split at hat
            · rename_i hy
              rw [hr1] at hy
              cases hat
              obtain ⟨-, rfl, -, rfl⟩ := hmk
              exact ⟨rfl, hy.symm⟩
            · rename_i hy
              rw [hr1] at hy
              cases hat
              obtain ⟨-, rfl, -, rfl⟩ := hmk
              exact ⟨rfl, (by simpa using hy : q.isYMM = false).symm⟩
          rw [key.1, hq] at hpl
          rw [hW, key.2]
          exact vw_lead hp hq (not_zmm hpl)
        · -- vpextrw
          right; left
          intro hpl hre
          have he := mem_line hc.mem kV line1439
          have hn : g.ops.length = 2 := by
            have a := hc.fits
            rw [he] at a
            exact Nat.le_antisymm a.1 a.2.1
          have hlead : e.lead g.ops.length = some 1 := by rw [hn, he]; rfl
          have hW := hp.lead_eq k1
          unfold leadW at hW
          rw [hlead] at hW
          obtain ⟨q, hq, -⟩ := lead_reg ht hlead
          have hr1 : g.reg 1 = q := by unfold Args.reg; rw [hq]; rfl
          have hx : q.kind = .xmm := by
            obtain ⟨m, hm, hw⟩ := hc.runs
            rw [he] at hm
            simp only [Body.run, Option.map_eq_some_iff] at hm
            obtain ⟨m', hm', rfl⟩ := hm
            rw [Enc.throwIf_bind] at hw
            have := hw.1
            simp only [Bool.not_eq_false', Bool.and_eq_true, hr1] at this
            simpa [Reg.isXMM] using this.2
          have key : r.isYMM = q.isYMM := by
            rw [he] at hat
            simp only [Body.leafAt] at hat
            split at hat
            · cases hat
              rw [hmk.2.1]
              show false = _
              unfold Reg.isYMM; rw [hx]; rfl
            · cases hat
              rw [hmk.2.1]
              show (g.reg 1).isYMM = _
              rw [hr1]
          rw [hW, key]
          exact vw_lead hp hq (by unfold Reg.isZMM; rw [hx]; rfl)
        · right; right
          cases hi : e.lead g.ops.length with
          | none => rw [hi] at kV; exact .inl ⟨rfl, kV⟩
          | some i => rw [hi] at kV; exact .inr ⟨i, rfl, kV⟩
  unfold Leaf.lenOk at hL
  cases l with
  | gatherFetch m x t c' k =>
    simp only [Bool.and_eq_true, beq_iff_eq, Bool.not_eq_true'] at hL
    obtain ⟨⟨⟨⟨p1, p2⟩, p3⟩, p4⟩, p5⟩ := hL
    obtain ⟨rfl, rfl, rfl, rfl, -, -⟩ := hmk
    have : X86.vectorLength e.name (g.ops.map Operand.vw) (stated g) = 512 := by unfold X86.vectorLength; rw [p1, p2]; rfl
    rw [this]
    have hm := Slot.mem_op ht p3
    obtain ⟨i, hi⟩ : ∃ i, g.op i = .mem (m.mem g) := by cases m <;> first | (cases hm; done) | exact ⟨_, hm⟩
    have hb := opBits_mem (hp.adr i _ hi).1 (hp.adr i _ hi).2.1
    have hwd := hp.width i
    rw [hi] at hwd
    have hx : (x.reg g).bit = 512 := by
      cases x <;> first | (cases p4; done) | (rename_i q; show q.bit = 512; simpa using p4)
    refine len_of H n0 (.inr (.inr rfl)) (fun _ => bits_eq (by omega) (by omega) (Nat.zero_le _) (by omega) (by omega)) (fun h => ?_)
    rw [p5] at h; cases h
  | vexCB k p t c' i =>
    simp only [cvtShape, Bool.and_eq_true, beq_iff_eq, Bool.not_eq_true'] at hL
    obtain ⟨⟨⟨⟨⟨⟨⟨⟨⟨p1, p2⟩, p3⟩, p4⟩, rfl⟩, rfl⟩, p5⟩, p6⟩, p7⟩, p8⟩ := hL
    obtain ⟨rfl, h2, rfl, rfl⟩ := hmk
    rw [length_src p1 p2 p3]
    have hk : (g.reg 0).kind = .opmask := by
      have := ht 0 _ p8
      simp only [Param.takes, Bool.and_eq_true, Reg.isOPMASK, beq_iff_eq] at this
      exact this.2
    exact len_class hp p5 p1 p4 (hreg (.a 0) (by simp [Leaf.regSlots])) hk h2 H n0 hw p7 p6
  | cvt x p t c' =>
    simp only [cvtShape, Bool.and_eq_true, beq_iff_eq, Bool.not_eq_true'] at hL
    obtain ⟨⟨⟨⟨⟨⟨⟨⟨⟨⟨⟨p1, p2⟩, p3⟩, p4⟩, rfl⟩, rfl⟩, p5⟩, p5'⟩, p6⟩, p7⟩, p8⟩, p9⟩ := hL
    obtain ⟨rfl, h2, rfl, rfl⟩ := hmk
    rw [length_src p1 p2 p3]
    refine len_cvt hp p1 p5' p4 (hreg (.a 0) (by simp [Leaf.regSlots])) h2 ?_ H n0 hw p7 p8 p9
    have hP : Passes g (some (.cvt4, .a 0, .a 1)) := by
      revert p6 hat
      generalize e.body = B
      intro p6 hat
      unfold Body.check4 at p6
      split at p6
      · cases hat; exact hpass
      · cases p6
    rcases hP with ⟨h1, h2, -⟩ | h
    · exact .inl ⟨h1, h2⟩
    · exact .inr h
  | cvt2 x p t c' =>
    simp only [cvtShape, Bool.and_eq_true, beq_iff_eq, Bool.not_eq_true'] at hL
    obtain ⟨⟨⟨⟨⟨⟨⟨⟨⟨⟨p1, p2⟩, p3⟩, p4⟩, rfl⟩, rfl⟩, p5⟩, p5'⟩, p7⟩, p8⟩, p9⟩ := hL
    obtain ⟨rfl, h2, rfl, rfl, hk⟩ := hmk
    rw [length_src p1 p2 p3]
    exact len_cvt hp p1 p5' p4 (hreg (.a 0) (by simp [Leaf.regSlots])) h2 hk H n0 hw p7 p8 p9
  | cvt2Enc x p t c' tv te s =>
    simp only [cvtShape, Bool.and_eq_true, beq_iff_eq, Bool.not_eq_true'] at hL
    obtain ⟨⟨⟨⟨⟨⟨⟨⟨p1, p2⟩, p3⟩, p4⟩, rfl⟩, rfl⟩, p5⟩, p5'⟩, p7⟩ := hL
    have p7 := List.all_eq_true.mp p7 u ty
    simp only [Bool.and_eq_true, Bool.not_eq_true'] at p7
    obtain ⟨-, h2, rfl, rfl, hk⟩ := hmk
    rw [length_src p1 p2 p3]
    exact len_cvt hp p1 p5' p4 (hreg (.a 0) (by simp [Leaf.regSlots])) h2 hk H n0 hw p7.1.1 p7.1.2 p7.2
  | cvt5 x p t c' =>
    simp only [cvtShape, Bool.and_eq_true, beq_iff_eq, Bool.not_eq_true'] at hL
    obtain ⟨⟨⟨⟨⟨⟨⟨⟨p1, p2⟩, p3⟩, p4⟩, rfl⟩, rfl⟩, p5⟩, p6⟩, p7⟩ := hL
    obtain ⟨rfl, h1, h2, rfl, rfl, h3⟩ := hmk
    rw [length_src p1 p2 p3]
    exact len_cvt5 hp p5 p1 p4 (hreg (.a 0) (by simp [Leaf.regSlots])) h1 h2 h3 H n0 hw p7 p6
  | gather x m y t c' md =>
    simp only [Bool.and_eq_true, beq_iff_eq, Bool.not_eq_true'] at hL
    obtain ⟨⟨p1, p2⟩, ⟨⟨⟨⟨⟨⟨⟨p3, p4⟩, p5⟩, p6⟩, rfl⟩, rfl⟩, rfl⟩, p7⟩, p8⟩ := hL
    rw [length_normal p2 p3 p1]
    obtain ⟨rfl, rfl, hvs, rfl, rfl, -, hk, -⟩ := hmk
    refine len_of H n0 hp.widest (fun h => ?_) (fun _ _ _ _ => ?_)
    · rw [show Ty.evx _ = true from h] at p4; cases p4
    rw [vexL_eq p5 p6]
    have hG : e.gathers = true := List.any_eq_true.mpr ⟨_, hl, rfl⟩
    have a0 : Param.xmm.takes (g.op 0) = true := ht 0 _ (by rw [p8]; rfl)
    have a1 : Param.addr.takes (g.op 1) = true := ht 1 _ (by rw [p8]; rfl)
    have a2 : Param.xmm.takes (g.op 2) = true := ht 2 _ (by rw [p8]; rfl)
    simp only [Param.takes, Bool.and_eq_true, Bool.not_eq_true'] at a0 a1 a2
    obtain ⟨x, hx, hx'⟩ := op_reg a0.1
    obtain ⟨y, hy, hy'⟩ := op_reg a2.1
    have hx' : Slot.reg g (.a 0) = x := hx'
    have hy' : Slot.reg g (.a 2) = y := hy'
    obtain ⟨a, ha⟩ : ∃ a, g.op 1 = .mem a := by
      cases h : g.op 1 with
      | reg q => rw [h] at a1; cases a1
      | mem a => exact ⟨a, rfl⟩
    have hm' : Slot.mem g (.a 1) = a := by show g.mem 1 = a; unfold Args.mem; rw [ha]
    obtain ⟨f1, f2, -, -⟩ := hp.regs 0 x hx
    obtain ⟨e1, e2, -, -⟩ := hp.regs 2 y hy
    have zx := hp.zmm hG 0 x hx
    have zy := hp.zmm hG 2 y hy
    rw [hx', hy', hm', (getRegExp_index a).1] at hk
    rw [hm'] at hvs
    rw [hx', hm', (getRegExp_index a).1]
    have ix := vsib_simd (hp.adr 1 a ha).1 rfl hvs
    have vx : Operand.vw (g.op 0) = x.bit := by rw [hx]; exact (Fit.simd (by rw [hx] at a0; exact a0.2)).symm
    have vy : Operand.vw (g.op 2) = y.bit := by rw [hy]; exact (Fit.simd (by rw [hy] at a2; exact a2.2)).symm
    have va : Operand.vw (g.op 1) = a.e.index.bit := by rw [ha]; unfold Operand.vw; dsimp only; rw [if_pos ix]
    have ib : a.e.index.bit = 128 ∨ a.e.index.bit = 256 := by
      have hF := index_bits (hp.adr 1 a ha).1 (hp.adr 1 a ha).2.1
      have h5 : a.e.index.bit ≠ 512 := by
        intro h
        unfold RegExp.isVsib Reg.isBit at hvs
        rw [(getRegExp_index a).1, h] at hvs
        exact absurd hvs (by decide)
      obtain ⟨i1, i2, i3, -⟩ := hF
      unfold Reg.isSIMD at ix
      simp only [Bool.or_eq_true] at ix
      rcases ix with (h | h) | h
      · exact .inl (i1 h)
      · exact .inr (i2 h)
      · exact absurd (i3 h) h5
    have sx : x.bit = 128 ∧ x.isYMM = false ∨ x.bit = 256 ∧ x.isYMM = true := by
      rw [hx] at a0
      have := a0.2
      unfold Operand.hd Reg.isSIMD at this
      dsimp only at this
      rw [zx] at this
      cases hyx : x.isYMM
      · rw [hyx] at this
        exact .inl ⟨f1 (by simpa using this), rfl⟩
      · exact .inr ⟨f2 hyx, rfl⟩
    have sy : y.bit = 128 ∧ y.isYMM = false ∨ y.bit = 256 ∧ y.isYMM = true := by
      rw [hy] at a2
      have := a2.2
      unfold Operand.hd Reg.isSIMD at this
      dsimp only at this
      rw [zy] at this
      cases hyx : y.isYMM
      · rw [hyx] at this
        exact .inl ⟨e1 (by simpa using this), rfl⟩
      · exact .inr ⟨e2 hyx, rfl⟩
    have kx : x.isXMM = true → x.isYMM = false := by unfold Reg.isXMM Reg.isYMM; intro h; rw [beq_iff_eq] at h; rw [h]; rfl
    have ky : y.isXMM = true → y.isYMM = false := by unfold Reg.isXMM Reg.isYMM; intro h; rw [beq_iff_eq] at h; rw [h]; rfl
    have hWe : widest g = 128 ∨ ∃ i, i < 3 ∧ widest g = Operand.vw (g.op i) := by
      rcases widest_eq g with h | ⟨i, h⟩
      · exact .inl h
      · right
        refine ⟨i, ?_, h⟩
        rcases Nat.lt_or_ge i 3 with h3 | h3
        · exact h3
        · have : g.op i = .reg .nil := by
            unfold Args.op
            rw [List.getElem?_eq_none (by omega)]; rfl
          have h128 := widest_128 g
          rw [h, this] at h128
          exact absurd h128 (by decide)
    have w0 := vw_le g 0
    have w1 := vw_le g 1
    have w2 := vw_le g 2
    have h128 := widest_128 g
    have hWd : widest g = 128 ∨ widest g = x.bit ∨ widest g = y.bit ∨ widest g = a.e.index.bit := by
      rcases hWe with h | ⟨i, hi, h⟩
      · exact .inl h
      · have : i = 0 ∨ i = 1 ∨ i = 2 := by omega
        rcases this with rfl | rfl | rfl
        · rw [vx] at h; simp [h]
        · rw [va] at h; simp [h]
        · rw [vy] at h; simp [h]
    clear hWe
    rw [vx] at w0; rw [va] at w1; rw [vy] at w2
    by_cases hi : a.e.index.bit = 256
    · rw [if_pos hi]
      show widest g = 256
      omega
    · rw [if_neg hi]
      rcases hk with ⟨h1, -, h2⟩ | hk
      · have h1 := kx h1
        have h2 := ky h2
        rw [h1]
        show widest g = 128
        rw [h1] at sx; rw [h2] at sy
        simp only [Bool.false_eq_true, and_false, or_false, and_true] at sx sy
        omega
      · split at hk
        · rw [hk.1]
          show widest g = 256
          have h1 := hk.1
          rw [h1] at sx
          simp only [Bool.true_eq_false, and_false, false_or, and_true] at sx
          omega
        · split at hk
          · exact absurd hk.2.1 hi
          · exact absurd hk.2.1 hi
  | gather2 x m t c' md =>
    simp only [Bool.and_eq_true, beq_iff_eq, Bool.not_eq_true', Bool.or_eq_true] at hL
    obtain ⟨⟨p1, p2⟩, ⟨⟨⟨⟨p3, p4⟩, p5⟩, p6⟩, p7⟩, p8⟩ := hL
    rw [length_normal p2 p3 p1]
    obtain ⟨rfl, rfl, rfl, rfl, -⟩ := hmk
    have hm := Slot.mem_op ht p7
    have hr := hreg x (by simp [Leaf.regSlots])
    have tx : x.tame (e.pars g.ops.length) = true := by rcases p8 with ⟨rfl, _⟩ | ⟨rfl, _⟩ <;> rfl
    have tm : m.tame (e.pars g.ops.length) = true := by rcases p8 with ⟨_, rfl⟩ | ⟨_, rfl⟩ <;> rfl
    have bo := Slot.tame_op hp ht p6 tm
    rw [hm] at bo
    refine len_all hp H n0 p4 (Slot.tame_le hp ht p6 tx hr) (Nat.zero_le _) bo ?_
    have kx : Operand.vw (x.op g) ≤ (x.reg g).bit := by
      rw [isMEM_reg hr]
      unfold Operand.vw
      dsimp only
      split <;> omega
    have km : Operand.vw (m.op g) ≤ opBits (.mem (m.mem g)) := by
      rw [hm]
      refine vw_bits fun a ha => ?_
      cases ha
      obtain ⟨i, hi⟩ : ∃ i, g.op i = .mem (m.mem g) := by cases m <;> first | (cases hm; done) | exact ⟨_, hm⟩
      exact ⟨(hp.adr i _ hi).1, (hp.adr i _ hi).2.1⟩
    intro i
    by_cases hi : i < 2
    · have : i = 0 ∨ i = 1 := by omega
      rcases p8 with ⟨rfl, rfl⟩ | ⟨rfl, rfl⟩ <;> rcases this with rfl | rfl
      · exact .inr (.inl kx)
      · exact .inr (.inr (.inr km))
      · exact .inr (.inr (.inr km))
      · exact .inr (.inl kx)
    · left
      have : g.op i = .reg .nil := by
        unfold Args.op
        rw [List.getElem?_eq_none (by omega)]; rfl
      rw [this]; exact Nat.zero_le _
  | cvt6 x y p t c' =>
    simp only [Bool.and_eq_true, beq_iff_eq, Bool.not_eq_true'] at hL
    obtain ⟨⟨p1, p2⟩, ⟨⟨⟨⟨⟨p3, p4⟩, p5⟩, p6⟩, rfl⟩, rfl⟩, rfl⟩ := hL
    rw [length_normal p2 p3 p1]
    obtain ⟨rfl, rfl, rfl, rfl, -⟩ := hmk
    have h0 := hreg (.a 0) (by simp [Leaf.regSlots])
    have h1 := hreg (.a 1) (by simp [Leaf.regSlots])
    refine len_all hp H n0 p4 (Slot.tame_le hp ht p5 rfl h0) (Slot.tame_le hp ht p5 (s := .a 1) rfl h1) (Slot.tame_op hp ht p5 (s := .a 2) rfl) ?_
    have kr : ∀ s : Slot, (s.op g).isMEM = false → Operand.vw (s.op g) ≤ (s.reg g).bit := by
      intro s hs
      rw [isMEM_reg hs]
      unfold Operand.vw
      dsimp only
      split <;> omega
    intro i
    by_cases hi : i < 3
    · have : i = 0 ∨ i = 1 ∨ i = 2 := by omega
      rcases this with rfl | rfl | rfl
      · exact .inr (.inl (kr _ h0))
      · exact .inr (.inr (.inl (kr _ h1)))
      · exact .inr (.inr (.inr (vw_bits fun a ha => ⟨(hp.adr 2 a ha).1, (hp.adr 2 a ha).2.1⟩)))
    · left
      have : g.op i = .reg .nil := by
        unfold Args.op
        rw [List.getElem?_eq_none (by omega)]; rfl
      rw [this]; exact Nat.zero_le _
  | kmov k p rv sz =>
    simp only [Bool.and_eq_true, beq_iff_eq, Bool.not_eq_true', Option.isNone_iff_eq_none] at hL
    obtain ⟨⟨p1, p2⟩, ⟨⟨p3, p4⟩, p5⟩, p6⟩ := hL
    rw [length_normal p2 p3 p1]
    have hW := hp.lead_eq p4
    unfold leadW at hW
    rw [p5] at hW
    have hW : widest g = 128 := hW
    rw [hW]
    have p6 := List.all_eq_true.mp p6 u ty
    simp only [Bool.and_eq_true, Bool.not_eq_true'] at p6
    refine len_of H n0 (.inl rfl) (fun h => ?_) (fun _ _ _ _ => ?_)
    · rw [show Ty.evx u = true from h] at p6; cases p6.1.1
    · unfold vexL; rw [p6.1.2, p6.2]; rfl
  | amx x m t c' =>
    simp only [Bool.and_eq_true, beq_iff_eq, Bool.not_eq_true', Option.isNone_iff_eq_none] at hL
    obtain ⟨⟨p1, p2⟩, ⟨⟨⟨p3, p4⟩, p5⟩, p5'⟩, p6⟩ := hL
    rw [length_normal p2 p3 p1]
    have hW := hp.lead_eq p4
    unfold leadW at hW
    rw [p5] at hW
    have hW : widest g = 128 := hW
    rw [hW]
    have p6 := List.all_eq_true.mp p6 u ty
    simp only [Bool.and_eq_true, Bool.not_eq_true'] at p6
    refine len_of H n0 (.inl rfl) (fun h => ?_) (fun _ _ _ _ => ?_)
    · rw [show Ty.evx u = true from h] at p6; cases p6.1.1
    · rw [vexL_eq p6.1.2 p6.2]
      obtain ⟨-, rfl, -⟩ := hmk
      cases x with
      | a j =>
        have := ht j _ p5'
        simp only [Param.takes, Bool.and_eq_true, Reg.isTMM, beq_iff_eq] at this
        have hk : (Slot.reg g (.a j)).kind = .tmm := this.2
        unfold Reg.isYMM
        rw [hk]; rfl
      | _ => cases p5'
  | _ =>
    first
    | (exact hmk.elim)
    | (simp only [Bool.and_eq_true, Bool.not_eq_true'] at hL
       obtain ⟨⟨p1, p2⟩, p3, p4⟩ := hL
       split at p4
       · cases p4
       · rename_i htr
         exact normal p3 p2 p1 htr p4)

/-! ## What is wrong -/

/-- The function at the line returns for these arguments, with bytes of length `written` where the operands define `defined`. -/
def Lens (line : Nat) (g : Args) (written defined : Nat) : Prop :=
  ∃ e w h t, e.line = line ∧ Calls e g w ∧ X86.head (concr (fun _ => 0) w) = some (h, t) ∧ h.L = X86.lengthBits written ∧
    X86.vectorLength e.name (g.ops.map Operand.vw) (stated g) = defined

def lensAt (line : Nat) (g : Args) (written defined : Nat) : Bool := match callAt line g with
  | some (n, w) => (match X86.head (concr (fun _ => 0) w) with
    | some (h, _) => decide (h.L = X86.lengthBits written)
    | none => false) && Nat.beq (X86.vectorLength n (g.ops.map Operand.vw) (stated g)) defined
  | none => false

theorem lens_of {line : Nat} {written defined : Nat} (h : lensAt line g written defined = true) : Lens line g written defined := by
  unfold lensAt at h
  split at h
  · rename_i n w hcall
    obtain ⟨e, h1, h2, h3⟩ := callAt_line hcall
    simp only [Bool.and_eq_true, Nat.beq_eq] at h
    obtain ⟨h, hd⟩ := h
    split at h
    · rename_i hd' t hh
      exact ⟨e, w, hd', t, h1, h3, hh, by simpa using h, h2 ▸ hd⟩
    · cases h
  · cases h

/-- Bug: a tile register, 8192 bits wide, is taken as an operand of any vector instruction, and then no length is set: `vaddps(zmm1, zmm2, tmm3)`. -/
theorem c77_refuted_tile : Lens 1050 { ops := [.reg (.zmm 1), .reg (.zmm 2), .reg { idx := 3, ext8 := false, kind := .tmm, bit := 8192 }] } 128 512 := lens_of (by decide +kernel)

/-- Bug: `vaddps(xmm1, xmm2, ymm3)` is not refused; it is written with 128 bits. -/
theorem c77_refuted_narrow : Lens 1050 { ops := [.reg (.xmm 1), .reg (.xmm 2), .reg (.ymm 3)] } 128 256 := lens_of (by decide +kernel)

/-- Bug: the width of the register in the immediate is not looked at: `vblendvps(xmm1, xmm2, xmm3, ymm4)`. -/
theorem c77_refuted_is4 : Lens 1070 { ops := [.reg (.xmm 1), .reg (.xmm 2), .reg (.xmm 3), .reg (.ymm 4)] } 128 256 := lens_of (by decide +kernel)

/-- Bug: `vgatherqps(zmm1, [rax + ymm2], xmm3)` is not refused; the VEX form reads it as xmm1. -/
theorem c77_refuted_gather : Lens 1304 { ops := [.reg (.zmm 1), .mem vsibY, .reg (.xmm 3)] } 256 512 := lens_of (by decide +kernel)

/-- Memory at rax of a stated size. -/
def atSize (n : Nat) : Addr := { at64 0 0 with o := { idx := 0, ext8 := false, kind := .mem, bit := n } }

/-- Bug: `vcvtpd2ps(xmm1, zword[rax])` converts 128 bits. -/
theorem c77_refuted_small : Lens 1217 { ops := [.reg (.xmm 1), .mem (atSize 512)] } 128 512 := lens_of (by decide +kernel)

/-- Bug: `vcvtpd2ps(ymm1, yword[rax])` converts 512 bits. -/
theorem c77_refuted_large : Lens 1217 { ops := [.reg (.ymm 1), .mem (atSize 256)] } 512 256 := lens_of (by decide +kernel)

/-- Bug: `vp2intersectd(k1, ymm2, ymm3)` is written with VEX (it exists with EVEX only) and without its length. -/
theorem c77_refuted_vp2intersect : Lens 2427 { ops := [.reg { idx := 1, ext8 := false, kind := .opmask, bit := 64 }, .reg (.ymm 2), .reg (.ymm 3)] } 128 256 := lens_of (by decide +kernel)

/-! ## Examples -/

/-- `vaddps(ymm1, ymm2, [rax])` -/
example : Lens 1050 { ops := [.reg (.ymm 1), .reg (.ymm 2), .mem (at64 0 0)] } 256 256 := lens_of (by decide +kernel)

/-- `vgatherqps(xmm1, [rax + ymm2], xmm3)`: the index is the widest -/
example : Lens 1304 { ops := [.reg (.xmm 1), .mem vsibY, .reg (.xmm 3)] } 256 256 := lens_of (by decide +kernel)

/-- `vcvtpd2ps(ymm1, zmm2)`, `vcvtpd2ps(ymm1, [rax])`, `vcvtpd2ps(xmm1, yword[rax])` -/
example : Lens 1217 { ops := [.reg (.ymm 1), .reg (.zmm 2)] } 512 512 ∧ Lens 1217 { ops := [.reg (.ymm 1), .mem (at64 0 0)] } 512 512 ∧
    Lens 1217 { ops := [.reg (.xmm 1), .mem (atSize 256)] } 256 256 := ⟨lens_of (by decide +kernel), lens_of (by decide +kernel), lens_of (by decide +kernel)⟩

/-- A call that `c77_partial` speaks about: `vaddps(ymm1, ymm2, ymm3)`. -/
example : ∃ e w, e.vexed = true ∧ noLength e.line = false ∧ Calls e { ops := [.reg (.ymm 1), .reg (.ymm 2), .reg (.ymm 3)] } w ∧
    Sized e { ops := [.reg (.ymm 1), .reg (.ymm 2), .reg (.ymm 3)] } := by
  let g : Args := { ops := [.reg (.ymm 1), .reg (.ymm 2), .reg (.ymm 3)] }
  have key : ((all.filter fun e => Nat.beq e.line 1050).all fun e => e.vexed && !e.body.viaRoo && !e.gathers && !X86.among e.name X86.bySource &&
      decide (e.lead 3 = some 0)) = true := by decide +kernel
  have hop : ∀ i, ∃ q, g.op i = .reg q ∧ q.kind ≠ .reg ∧ Fit q ∧ q.kind ≠ .tmm ∧ q.rnd = 0 ∧ Operand.vw (.reg q) ≤ 256 ∧ q.isZMM = false := by
    intro i
    match i with
    | 0 => exact ⟨_, rfl, by unfold Fit; decide⟩
    | 1 => exact ⟨_, rfl, by unfold Fit; decide⟩
    | 2 => exact ⟨_, rfl, by unfold Fit; decide⟩
    | i + 3 => exact ⟨.nil, rfl, by unfold Fit; decide⟩
  have nomem : ∀ i a, g.op i ≠ .mem a := fun i a h => by obtain ⟨q, hq, -⟩ := hop i; rw [hq] at h; cases h
  have reg : ∀ i q, g.op i = .reg q → q.kind ≠ .reg ∧ Fit q ∧ q.kind ≠ .tmm ∧ q.rnd = 0 ∧ Operand.vw (.reg q) ≤ 256 ∧ q.isZMM = false := fun i q h => by
    obtain ⟨q', hq, h'⟩ := hop i; rw [hq] at h; cases h; exact h'
  obtain ⟨e, hl, hn, hc⟩ := callAt_line (show callAt 1050 g = some (n!"vaddps", [0xC5, 0xEC, 0x58, 0xCB].map .byte) by decide +kernel)
  have hk := List.all_eq_true.mp key e (List.mem_filter.mpr ⟨hc.1, by rw [hl]; rfl⟩)
  simp only [Bool.and_eq_true, Bool.not_eq_true', and_assoc, decide_eq_true_eq] at hk
  obtain ⟨k1, k2, k3, k4, k5⟩ := hk
  refine ⟨e, _, k1, by rw [hl]; rfl, hc, ⟨⟨⟨fun i a h => absurd h (nomem i a), fun i a h => absurd h (nomem i a), fun i q h hk => absurd hk (reg i q h).1⟩, fun h => ?_,
    fun i q h hk => absurd hk (reg i q h).1, fun i h => ?_, fun h => ?_, fun i a h => absurd h (nomem i a), fun i a h => absurd h (nomem i a)⟩,
    fun i => ?_, fun i q h => (reg i q h).2.1, fun i q h hk => absurd hk (reg i q h).2.2.1, fun i a h => absurd h (nomem i a), fun _ i => ?_, fun h => ?_, fun h => ?_⟩⟩
  · rw [k2] at h; cases h
  · rw [hl] at h; simp [onlyNumber] at h
  · rw [k3] at h; cases h
  · obtain ⟨q, hq, h⟩ := hop i
    rw [hq]; exact h.2.2.2.1
  · obtain ⟨q, hq, h⟩ := hop i
    have : leadW e g = 256 := by unfold leadW; rw [show g.ops.length = 3 from rfl, k5]; rfl
    have h6 := h.2.2.2.2.1
    rw [hq]
    show _ ≤ max 128 (leadW e g)
    omega
  · rw [k3] at h; cases h
  · rw [k4] at h; cases h

end Mn
end Xbyak
