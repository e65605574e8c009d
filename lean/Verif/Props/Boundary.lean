import Verif.Props.Stream
import Verif.Props.Mov
import Verif.Spec.Lock
/-!
# Instruction boundaries: mov and prefixes (C97)
-/
namespace Xbyak
namespace X86

/-- The head with other repeat prefixes and another segment override. -/
def Head.over (h : Head) (a b : Bool) (c : Option Byte) : Head := { h with pF2 := a, pF3 := b, seg := c }

theorem prefixes_over (bs : List Byte) : ∀ (h : Head) (a b : Bool) (c : Option Byte),
    ∃ a' b' c', prefixes (h.over a b c) bs = ((prefixes h bs).1.over a' b' c', (prefixes h bs).2) := by
  induction bs with
  | nil => intro h a b c; exact ⟨a, b, c, rfl⟩
  | cons x t ih =>
    intro h a b c
    unfold prefixes
    by_cases h1 : x = 0x66
    · rw [if_pos h1, if_pos h1]; exact ih { h with p66 := true } a b c
    rw [if_neg h1, if_neg h1]
    by_cases h2 : x = 0xF2
    · rw [if_pos h2, if_pos h2]; exact ih { h with pF2 := true } true b c
    rw [if_neg h2, if_neg h2]
    by_cases h3 : x = 0xF3
    · rw [if_pos h3, if_pos h3]; exact ih { h with pF3 := true } a true c
    rw [if_neg h3, if_neg h3]
    by_cases h4 : x = 0x67
    · rw [if_pos h4, if_pos h4]; exact ih { h with p67 := true } a b c
    rw [if_neg h4, if_neg h4]
    by_cases h5 : x = 0x26 ∨ x = 0x2E ∨ x = 0x36 ∨ x = 0x3E ∨ x = 0x64 ∨ x = 0x65
    · rw [if_pos h5, if_pos h5]; exact ih { h with seg := some x } a b (some x)
    rw [if_neg h5, if_neg h5]
    exact ⟨a, b, c, rfl⟩

theorem opcode_over (h : Head) (a b : Bool) (c : Option Byte) (t : List Byte) :
    opcode (h.over a b c) t = (opcode h t).map fun p => (p.1.over a b c, p.2) := by
  cases t with
  | nil => rfl
  | cons x t =>
    unfold opcode
    by_cases h1 : x = 0x0F
    · simp only [h1, if_true]
      cases t with
      | nil => rfl
      | cons d t =>
        by_cases h2 : d = 0x38
        · simp only [h2, if_true]; cases t <;> rfl
        · simp only [h2, if_false]
          by_cases h3 : d = 0x3A
          · simp only [h3, if_true]; cases t <;> rfl
          · simp only [h3, if_false]; rfl
    · simp only [h1, if_false]; rfl

theorem after_over (h : Head) (a b : Bool) (c : Option Byte) (t : List Byte) :
    afterPrefixes (h.over a b c) t = (afterPrefixes h t).map fun p => (p.1.over a b c, p.2) := by
  cases t with
  | nil => rfl
  | cons k t =>
    unfold afterPrefixes
    dsimp only
    by_cases h1 : k = 0xC5
    · rw [if_pos h1, if_pos h1]; rcases t with _ | ⟨_, _ | ⟨_, _⟩⟩ <;> rfl
    rw [if_neg h1, if_neg h1]
    by_cases h2 : k = 0xC4
    · rw [if_pos h2, if_pos h2]; rcases t with _ | ⟨_, _ | ⟨_, _ | ⟨_, _⟩⟩⟩ <;> rfl
    rw [if_neg h2, if_neg h2]
    by_cases h3 : k = 0x62
    · rw [if_pos h3, if_pos h3]; rcases t with _ | ⟨_, _ | ⟨_, _ | ⟨_, _ | ⟨_, _⟩⟩⟩⟩ <;> rfl
    rw [if_neg h3, if_neg h3]
    by_cases h4 : k = 0xD5
    · rw [if_pos h4, if_pos h4]; rcases t with _ | ⟨_, _ | ⟨_, _⟩⟩ <;> rfl
    rw [if_neg h4, if_neg h4]
    by_cases h5 : k.extractLsb' 4 4 = 4
    · rw [if_pos h5, if_pos h5]
      exact opcode_over (withRex h k) a b c t
    rw [if_neg h5, if_neg h5]
    exact opcode_over h a b c (k :: t)

theorem modrm_over (h : Head) (a b : Bool) (c : Option Byte) (v : Bool) (n : Nat) (t : List Byte) : modrm (h.over a b c) v n t = modrm h v n t := by
  cases t <;> rfl

/-- Repeat and segment prefixes do not change where an instruction ends. -/
theorem skip_over {x : Byte} (hx : x = 0xF2 ∨ x = 0xF3 ∨ x = 0x26 ∨ x = 0x2E ∨ x = 0x36 ∨ x = 0x3E ∨ x = 0x64 ∨ x = 0x65) (bs : List Byte) :
    skip (x :: bs) = skip bs := by
  have hp : ∃ a b c, prefixes {} (x :: bs) = prefixes (Head.over {} a b c) bs := by
    rcases hx with rfl | rfl | rfl | rfl | rfl | rfl | rfl | rfl
    · exact ⟨true, false, none, rfl⟩
    · exact ⟨false, true, none, rfl⟩
    all_goals exact ⟨false, false, some _, rfl⟩
  obtain ⟨a, b, c, e⟩ := hp
  obtain ⟨a', b', c', e'⟩ := prefixes_over bs {} a b c
  have hh : head (x :: bs) = (head bs).map fun p => (p.1.over a' b' c', p.2) := by
    unfold head
    dsimp only
    rw [e, e']
    exact after_over _ _ _ _ _
  unfold skip
  rw [hh]
  cases head bs with
  | none => rfl
  | some p =>
    obtain ⟨h, t⟩ := p
    show (if withModrm h.space h.map h.opcode then _ else _) = (if withModrm h.space h.map h.opcode then _ else _)
    by_cases hm : withModrm h.space h.map h.opcode = true
    · rw [if_pos hm, if_pos hm]
      simp only [modrm_over]
      rfl
    · rw [if_neg hm, if_neg hm]
      rfl

theorem kindA (o : Byte) : o &&& 0xFC = 0xA0 → modrm0 o = false ∧ kind0 o 0 = .a := by revert o; decide +kernel

theorem skip_mov {bs u : List Byte} {i : Mov} (hd : mov bs = some (i, u)) : skip bs = some u := by
  unfold mov at hd
  split at hd
  · cases hd
  · rename_i h t hh
    split at hd
    · cases hd
    · rename_i hm
      rw [not_or] at hm
      have hm : h.map = 0 := Decidable.not_not.mp hm.1
      split at hd
      · rename_i ho
        obtain ⟨a, b⟩ := kindA _ ho
        have hb : immBytes h 0 = if h.p67 = true then 4 else 8 := bytes0 (r := 0) hm b
        dsimp only at hd
        by_cases hl : h.space = .rex2 ∨ t.length < if h.p67 = true then 4 else 8
        · rw [if_pos hl] at hd; cases hd
        · rw [if_neg hl] at hd
          rw [not_or] at hl
          have e : t.drop (if h.p67 = true then 4 else 8) = u := congrArg Prod.snd (Option.some.inj hd)
          rw [skip_plain hh (with0 hm _ a) (by rw [hb]; omega), hb, e]
      · split at hd
        · cases hd
        · rename_i hr
          by_cases h1 : h.opcode = 0x88
          · rw [if_pos h1] at hd; cases hd
            exact skip0m0 hh hr hm (by rw [h1]; rfl) (by rw [h1]; rfl)
          rw [if_neg h1] at hd
          by_cases h2 : h.opcode = 0x89
          · rw [if_pos h2] at hd; cases hd
            exact skip0m0 hh hr hm (by rw [h2]; rfl) (by rw [h2]; rfl)
          rw [if_neg h2] at hd
          by_cases h3 : h.opcode = 0x8A
          · rw [if_pos h3] at hd; cases hd
            exact skip0m0 hh hr hm (by rw [h3]; rfl) (by rw [h3]; rfl)
          rw [if_neg h3] at hd
          by_cases h4 : h.opcode = 0x8B
          · rw [if_pos h4] at hd; cases hd
            exact skip0m0 hh hr hm (by rw [h4]; rfl) (by rw [h4]; rfl)
          rw [if_neg h4] at hd; cases hd

end X86
open E

namespace Mn

/-- C97: `mov` between registers and memory (C101), with the 64-bit addresses. -/
theorem c97_mov_rm_partial (op1 op2 : Operand) (h1 : OpOK op1) (h2 : OpOK op2) (hq : ∀ q, op1 = .reg q ∨ op2 = .reg q → q.Named ∧ q.kind = .reg)
    (hi : ∀ a, op1 = .mem a → a.immSize = 0)
    (hno : ∀ q a, op1 = .reg q ∧ op2 = .mem a ∨ op1 = .mem a ∧ op2 = .reg q → q.isHigh8bit = true → (extMR q a).present = false)
    {w : List Act} (hw : (E.mov op1 op2).Gives w ()) (fill : Act → BitVec 32) : One fill w := by
  obtain ⟨i, hd, -⟩ := c101_partial op1 op2 h1 h2 hq hi hno hw fill
  exact fun t => X86.skip_mov (hd t)

theorem concr_cons (fill : Act → BitVec 32) (x : Byte) (w : List Act) (t : List Byte) : concr fill (.byte x :: w) ++ t = x :: (concr fill w ++ t) := by
  rw [show Act.byte x :: w = [x].map Act.byte ++ w from rfl, concr_append, concr_bytes]
  rfl

/-- C97: an instruction with a segment override (`putSeg`) in front is one instruction. -/
theorem c97_seg (seg : Nat) {fill : Act → BitVec 32} {w p : List Act} (hw : One fill w) (hp : (E.putSeg seg).Gives p ()) : One fill (p ++ w) := by
  unfold E.putSeg at hp
  rw [Enc.gives_db] at hp
  subst hp
  intro t
  rw [List.singleton_append, concr_cons, X86.skip_over]
  · exact hw t
  · split <;> simp

set_option maxRecDepth 1000000 in
private theorem prefix_check : (all.all fun e => (X86.prefixBytes.all fun p => !Nat.beq p.1 e.name) || e.fixed.isSome) = true := by decide +kernel

private theorem prefix_apart : (X86.prefixBytes.all fun p => (X86.fixed.all fun q => !Nat.beq q.1 p.1) && X86.prefixBytes.all fun q => !Nat.beq q.1 p.1 || decide (q.2 = p.2)) = true := by
  decide +kernel

theorem prefix_bytes {e : Entry} {g : Args} {p : List Act} (hc : Calls e g p) {b : Byte} (hb : (e.name, b) ∈ X86.prefixBytes) (fill : Act → BitVec 32) : concr fill p = [b] := by
  have hf : e.fixed.isSome = true := by
    have h := List.all_eq_true.mp prefix_check e hc.mem
    rw [Bool.or_eq_true] at h
    rcases h with h | h
    · have := List.all_eq_true.mp h _ hb
      simp at this
    · exact h
  have ha := List.all_eq_true.mp prefix_apart _ hb
  rw [Bool.and_eq_true] at ha
  rcases c70_fixed hc hf fill with ⟨b', h1, h2⟩ | ⟨f, h1, -⟩
  · have := List.all_eq_true.mp ha.2 _ h1
    simp at this
    rw [h2, this]
  · have := List.all_eq_true.mp ha.1 _ h1
    simp at this

theorem prefix_values : (X86.prefixBytes.all fun p => p.2 = 0xF0 ∨ p.2 = 0xF2 ∨ p.2 = 0xF3) = true := by decide +kernel

/-- C97: an instruction with a repeat prefix function (rep, repe, repz, repne, repnz, bnd) in front is one instruction. -/
theorem c97_rep {e : Entry} {g : Args} {p : List Act} (hc : Calls e g p) {b : Byte} (hb : (e.name, b) ∈ X86.prefixBytes) (hl : b ≠ 0xF0)
    {fill : Act → BitVec 32} {w : List Act} (hw : One fill w) : One fill (p ++ w) := by
  intro t
  rw [concr_append, prefix_bytes hc hb fill, List.singleton_append, List.cons_append, X86.skip_over]
  · exact hw t
  · have := List.all_eq_true.mp prefix_values _ hb
    rw [decide_eq_true_eq] at this
    rcases this with h | h | h
    · exact absurd h hl
    · exact .inl h
    · exact .inr (.inl h)

/-- C97: with `lock` in front as well. -/
theorem c97_prefix {e : Entry} {g : Args} {p : List Act} (hc : Calls e g p) {b : Byte} (hb : (e.name, b) ∈ X86.prefixBytes)
    {fill : Act → BitVec 32} {w : List Act} (hw : One fill w) (t : List Byte) : X86.skipL (concr fill (p ++ w) ++ t) = some t := by
  by_cases hl : b = 0xF0
  · rw [concr_append, prefix_bytes hc hb fill, hl]
    exact hw t
  · have h := c97_rep hc hb hl hw t
    rw [concr_append, prefix_bytes hc hb fill] at h ⊢
    unfold X86.skipL
    split
    · rename_i e'
      cases e'
      exact absurd rfl hl
    · exact h

/-- `lock` and `add [rax], ecx`: F0 01 08. -/
example : X86.skipL [0xF0, 0x01, 0x08, 0x90] = some [0x90] := by decide +kernel
/-- `fs:` and `mov rax, [0x1122334455667788]`. -/
example : X86.skip [0x64, 0x48, 0xA1, 0x88, 0x77, 0x66, 0x55, 0x44, 0x33, 0x22, 0x11, 0x90] = some [0x90] := by decide +kernel

end Mn
end Xbyak
