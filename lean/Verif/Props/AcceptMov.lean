import Verif.Props.Mov
import Verif.AcceptApx
/-!
# mov accepts what exists (C101)
-/
namespace Xbyak
open E

theorem high_of_view (q : Reg) : q.isHigh8bit = true ↔ ∃ i, q.view8 = .high i := by
  unfold Reg.view8
  cases q.isHigh8bit <;> simp

theorem low_of_view {q : Reg} (hx : q.ext8 = true ∨ q.idx.toNat ≥ 8) : q.view8 = .low q.idx := by
  unfold Reg.view8
  rw [if_neg]
  unfold Reg.isHigh8bit
  rcases hx with h | h
  · simp [h]
  · simp only [Bool.and_eq_true, decide_eq_true_eq]
    omega

/-- C101: `mov` of two general registers of the same size is accepted, unless one is ah, ch, dh or bh and the other a byte register that needs
REX (spl, bpl, sil, dil, r8b and above): such an instruction does not exist. -/
theorem c101_accept_rr (q1 q2 : Reg) (k1 : q1.kind = .reg) (k2 : q2.kind = .reg) (n1 : q1.Named) (n2 : q2.Named)
    (f1 : q1.nf = false ∧ q1.zu = false) (f2 : q2.nf = false ∧ q2.zu = false) :
    (∃ w, (E.mov (.reg q1) (.reg q2)).Gives w ()) ↔ q1.bit = q2.bit ∧
      (∀ i n, q1.view8 = .high i → q2.view8 = .low n → n.toNat < 4) ∧ (∀ i n, q2.view8 = .high i → q1.view8 = .low n → n.toNat < 4) := by
  have i1 : q1.isREG = true := by unfold Reg.isREG; rw [k1]; rfl
  have i2 : q2.isREG = true := by unfold Reg.isREG; rw [k2]; rfl
  have na : Ty.has 0 T_APX = true → mapOf 0 = 0 := fun h => absurd h (by decide)
  have bad : ∀ a b : Reg, b.Named → a.bit = b.bit → (isBadCombination a b = false ↔ ∀ i n, a.view8 = .high i → b.view8 = .low n → n.toNat < 4) := by
    intro a b nb e
    unfold isBadCombination
    constructor
    · intro h i n ha hb
      rw [(high_of_view a).2 ⟨i, ha⟩, Bool.true_and, Bool.or_eq_false_iff, decide_eq_false_iff_not] at h
      unfold Reg.view8 at hb
      split at hb
      · cases hb
      · rename_i hh
        cases hb
        have h8 : a.isHigh8bit = true := (high_of_view a).2 ⟨i, ha⟩
        unfold Reg.isHigh8bit Reg.isBit at hh h8
        rw [e] at h8
        simp only [Bool.and_eq_true, decide_eq_true_eq, h.1, Bool.not_false] at hh h8
        by_cases h4 : b.idx.toNat < 4
        · exact h4
        · exact absurd ⟨⟨h8.1.1, trivial⟩, by omega, by omega⟩ hh
    · intro h
      cases ha : a.isHigh8bit
      · rfl
      · obtain ⟨i, hi⟩ := (high_of_view a).1 ha
        rw [Bool.true_and, Bool.or_eq_false_iff, decide_eq_false_iff_not]
        constructor
        · cases hx : b.ext8
          · rfl
          · have := h i _ hi (low_of_view (.inl hx))
            have := (nb.ext8 hx).2.2.1
            omega
        · intro hx
          have := h i _ hi (low_of_view (.inr hx))
          omega
  have gives : ∀ w, (E.mov (.reg q1) (.reg q2)).Gives w () ↔ (opRR q2 q1 0 0x88).Gives w () := by
    intro w
    show (Enc.throwIf (!(q1.kind == q2.kind)) .BAD_COMBINATION >>= fun _ => opRR q2 q1 0 0x88).Gives w () ↔ _
    rw [Enc.throwIf_bind, k1, k2]
    exact ⟨fun h => h.2, fun h => ⟨rfl, h⟩⟩
  simp only [gives, opRR_gives q2 q1 0 0x88 na]
  rw [has0, has0, i1, i2]
  simp only [Bool.not_false, Bool.true_and, Bool.or_eq_false_iff, bne_eq_false_iff_eq]
  constructor
  · rintro ⟨w, e, ⟨b1, b2⟩, _⟩
    exact ⟨e.symm, (bad q1 q2 n2 e.symm).1 b2, (bad q2 q1 n1 e).1 b1⟩
  · rintro ⟨e, b1, b2⟩
    exact ⟨_, e.symm, ⟨(bad q2 q1 n1 e.symm).2 b2, (bad q1 q2 n2 e).2 b1⟩, ⟨⟨f1.1, f2.1⟩, ⟨f1.2, f2.2⟩, fun _ => has0 _⟩, rfl⟩

/-- C101: `mov` between a general register and memory is accepted if the sizes agree. -/
theorem c101_accept_mem (q : Reg) (k : q.kind = .reg) (f : q.nf = false ∧ q.zu = false) (a : Addr) (ha : Mn.AddrA a) (hm : a.mode ≠ .disp64)
    (hi : a.immSize = 0) (hs : a.o.bit = 0 ∨ a.o.bit = q.bit) :
    (∃ w, (E.mov (.reg q) (.mem a)).Gives w ()) ∧ ∃ w, (E.mov (.mem a) (.reg q)).Gives w () := by
  have na : Ty.has 0 T_APX = true → mapOf 0 = 0 := fun h => absurd h (by decide)
  have i1 : q.isREG = true := by unfold Reg.isREG; rw [k]; rfl
  have hd : a.is64bitDisp = false := by unfold Addr.is64bitDisp; cases h : a.mode <;> first | rfl | exact absurd h hm
  have hc : (q.isREG && q.idx == 0 && a.is64bitDisp) = false := by rw [hd, Bool.and_false]
  have ei : ({ a with immSize := 0 } : Addr) = a := by
    cases a
    simp only at hi
    rw [hi]
  have key : ∀ code, ∃ w, (opMR a q 0 code).Gives w () := by
    intro code
    have hr := ha.opAddr 0 q.idx
    rw [ei] at hr
    obtain ⟨b, hb⟩ := ha.o
    refine ⟨_, (opMR_gives a q 0 code na _).2 ⟨hd, ?_, ⟨⟨by rw [hb]; rfl, f.1⟩, ⟨by rw [hb]; rfl, f.2⟩, fun _ => has0 _⟩, _, ⟨rfl, hr⟩, rfl⟩⟩
    rcases hs with h | h <;> simp [h]
  constructor
  · obtain ⟨w, hw⟩ := key 0x8A
    refine ⟨w, ?_⟩
    unfold E.mov
    dsimp only
    rw [hc, if_neg (by decide)]
    show (Enc.throwIf (!q.isREG) .BAD_COMBINATION >>= fun _ => opMR a q 0 0x8A).Gives w ()
    rw [Enc.throwIf_bind, i1]
    exact ⟨rfl, hw⟩
  · obtain ⟨w, hw⟩ := key 0x88
    refine ⟨w, ?_⟩
    unfold E.mov
    dsimp only
    rw [hc, if_neg (by decide)]
    show (opMR { a with immSize := 0 } q 0 0x88).Gives w ()
    rw [ei]
    exact hw

/-- C101: the accumulator can be loaded from and stored to every 64-bit address. -/
theorem c101_accept_abs (q : Reg) (k : q.kind = .reg) (f : q.nf = false ∧ q.zu = false) (h0 : q.idx = 0) (d : Word) :
    (∃ w, (E.mov (.reg q) (.mem (.ofDisp64 d))).Gives w ()) ∧ ∃ w, (E.mov (.mem (.ofDisp64 d)) (.reg q)).Gives w () := by
  have i1 : q.isREG = true := by unfold Reg.isREG; rw [k]; rfl
  have hc : (q.isREG && q.idx == 0 && (Addr.ofDisp64 d).is64bitDisp) = true := by rw [i1, h0]; rfl
  have hr : ∃ v w, (rex (.reg q) (.reg .nil) 0).Gives w v := ⟨_, _, (rex_reg q .nil 0 _ _).2 ⟨⟨⟨f.1, rfl⟩, ⟨f.2, rfl⟩, fun _ => has0 _⟩, rfl, rfl⟩⟩
  obtain ⟨v, w, hr⟩ := hr
  unfold E.mov
  dsimp only
  rw [hc, if_pos rfl, if_pos rfl]
  simp only [Enc.gives_bind, Enc.gives_db, Enc.gives_dbN]
  exact ⟨⟨_, _, _, _, hr, ⟨_, (), _, rfl, rfl, rfl⟩, rfl⟩, ⟨_, _, _, _, hr, ⟨_, (), _, rfl, rfl, rfl⟩, rfl⟩⟩

/-- `mov(r9b, spl)` exists, `mov(ah, spl)` does not. -/
example : (E.mov (.reg (.r8 9)) (.reg (.r8 4 true))).Gives ([0x41, 0x88, 0xE1].map .byte) () ∧ (E.mov (.reg (.r8 4)) (.reg (.r8 4 true))).res = .error .CANT_USE_ABCDH :=
  ⟨⟨by decide +kernel, rfl⟩, rfl⟩

end Xbyak
