import Verif.EncOps
import Verif.Props.Address
/-!
# Lemmas on prefixes and opcodes of legacy-encoded instructions
-/
namespace Xbyak
namespace X86

/-- A byte in front of an instruction that is present or not. -/
def opt (c : Bool) (b : Byte) : List Byte := if c then [b] else []

/-- Bytes that cannot start an opcode because they are prefixes. -/
def isPrefix (c : Byte) : Bool :=
  c == 0x66 || c == 0xF2 || c == 0xF3 || c == 0x67 || c == 0x26 || c == 0x2E || c == 0x36 || c == 0x3E || c == 0x64 || c == 0x65

theorem prefixes_stop (h : Head) (c : Byte) (t : List Byte) (hc : isPrefix c = false) : prefixes h (c :: t) = (h, c :: t) := by
  simp only [isPrefix, Bool.or_eq_false_iff, beq_eq_false_iff_ne] at hc
  obtain ⟨⟨⟨⟨⟨⟨⟨⟨⟨h1, h2⟩, h3⟩, h4⟩, h5⟩, h6⟩, h7⟩, h8⟩, h9⟩, h10⟩ := hc
  unfold prefixes
  rw [if_neg h1, if_neg h2, if_neg h3, if_neg h4, if_neg (by rintro (h | h | h | h | h | h) <;> contradiction)]

theorem prefixes_66 (h : Head) (c : Bool) (t : List Byte) :
    prefixes h (opt c 0x66 ++ t) = prefixes { h with p66 := h.p66 || c } t := by
  cases c
  · simp [opt]
  · simp [opt, prefixes]
theorem prefixes_F2 (h : Head) (c : Bool) (t : List Byte) :
    prefixes h (opt c 0xF2 ++ t) = prefixes { h with pF2 := h.pF2 || c } t := by
  cases c
  · simp [opt]
  · simp [opt, prefixes]
theorem prefixes_F3 (h : Head) (c : Bool) (t : List Byte) :
    prefixes h (opt c 0xF3 ++ t) = prefixes { h with pF3 := h.pF3 || c } t := by
  cases c
  · simp [opt]
  · simp [opt, prefixes]
theorem prefixes_67 (h : Head) (c : Bool) (t : List Byte) :
    prefixes h (opt c 0x67 ++ t) = prefixes { h with p67 := h.p67 || c } t := by
  cases c
  · simp [opt]
  · simp [opt, prefixes]

/-- Extension bits of a legacy instruction. -/
structure Ext where
  w : Bool
  r3 : Bool
  x3 : Bool
  b3 : Bool
  r4 : Bool := false
  x4 : Bool := false
  b4 : Bool := false
  /-- REX2 is used -/
  rex2 : Bool := false
  /-- REX is used even if all bits are 0 -/
  force : Bool := false

/-- A REX (or REX2) prefix is present. -/
def Ext.present (e : Ext) : Bool := e.rex2 || e.w || e.r3 || e.x3 || e.b3 || e.force

def nib (a b c d : Bool) : Byte := E.sel a 8 ||| E.sel b 4 ||| E.sel c 2 ||| E.sel d 1

/-- Prefix, map and opcode bytes. -/
def Ext.bytes (e : Ext) (mp : BitVec 5) (o : Byte) : List Byte :=
  if e.rex2 then [0xD5, nib (decide (mp = 1)) e.r4 e.x4 e.b4 <<< 4 ||| nib e.w e.r3 e.x3 e.b3, o]
  else opt e.present (nib e.w e.r3 e.x3 e.b3 ||| 0x40) ++
    (if mp = 1 then [0x0F] else if mp = 2 then [0x0F, 0x38] else if mp = 3 then [0x0F, 0x3A] else []) ++ [o]

/-- An opcode byte that can be read back in its map. -/
def OpcodeOK (mp : BitVec 5) (o : Byte) : Prop :=
  (mp = 0 → isPrefix o = false ∧ o ≠ 0x0F ∧ o ≠ 0xC4 ∧ o ≠ 0xC5 ∧ o ≠ 0x62 ∧ o ≠ 0xD5 ∧ o.extractLsb' 4 4 ≠ 4) ∧
  (mp = 1 → o ≠ 0x38 ∧ o ≠ 0x3A)

instance (mp : BitVec 5) (o : Byte) : Decidable (OpcodeOK mp o) := by unfold OpcodeOK; infer_instance

/-- The head that should be read. -/
def Ext.head (e : Ext) (h : Head) (mp : BitVec 5) (o : Byte) : Head :=
  { h with
    space := if e.rex2 then .rex2 else .legacy, rex := e.present, w := e.w, r3 := e.r3, x3 := e.x3, b3 := e.b3
    r4 := e.rex2 && e.r4, x4 := e.rex2 && e.x4, b4 := e.rex2 && e.b4, map := mp, opcode := o }

theorem nib_rex : ∀ a b c d : Bool, isPrefix (nib a b c d ||| 0x40) = false ∧ nib a b c d ||| 0x40 ≠ 0xC5 ∧ nib a b c d ||| 0x40 ≠ 0xC4 ∧
    nib a b c d ||| 0x40 ≠ 0x62 ∧ nib a b c d ||| 0x40 ≠ 0xD5 ∧ (nib a b c d ||| 0x40).extractLsb' 4 4 = 4 ∧
    bitAt (nib a b c d ||| 0x40) 3 = a ∧ bitAt (nib a b c d ||| 0x40) 2 = b ∧ bitAt (nib a b c d ||| 0x40) 1 = c ∧
    bitAt (nib a b c d ||| 0x40) 0 = d := by decide +kernel

theorem nib_rex2 : ∀ m r4 x4 b4 w r x b : Bool, bitAt (nib m r4 x4 b4 <<< 4 ||| nib w r x b) 7 = m ∧
    bitAt (nib m r4 x4 b4 <<< 4 ||| nib w r x b) 6 = r4 ∧ bitAt (nib m r4 x4 b4 <<< 4 ||| nib w r x b) 5 = x4 ∧
    bitAt (nib m r4 x4 b4 <<< 4 ||| nib w r x b) 4 = b4 ∧ bitAt (nib m r4 x4 b4 <<< 4 ||| nib w r x b) 3 = w ∧
    bitAt (nib m r4 x4 b4 <<< 4 ||| nib w r x b) 2 = r ∧ bitAt (nib m r4 x4 b4 <<< 4 ||| nib w r x b) 1 = x ∧
    bitAt (nib m r4 x4 b4 <<< 4 ||| nib w r x b) 0 = b := by decide +kernel

theorem opcode_map (h : Head) (mp : BitVec 5) (hm : mp.toNat ≤ 3) (o : Byte) (ho : OpcodeOK mp o) (t : List Byte) :
    opcode h ((if mp = 1 then [0x0F] else if mp = 2 then [0x0F, 0x38] else if mp = 3 then [0x0F, 0x3A] else []) ++ [o] ++ t) =
      some ({ h with map := mp, opcode := o }, t) := by
  have hc : mp = 0 ∨ mp = 1 ∨ mp = 2 ∨ mp = 3 := by
    rcases (by omega : mp.toNat = 0 ∨ mp.toNat = 1 ∨ mp.toNat = 2 ∨ mp.toNat = 3) with h | h | h | h
    · exact Or.inl (BitVec.eq_of_toNat_eq h)
    · exact Or.inr (Or.inl (BitVec.eq_of_toNat_eq h))
    · exact Or.inr (Or.inr (Or.inl (BitVec.eq_of_toNat_eq h)))
    · exact Or.inr (Or.inr (Or.inr (BitVec.eq_of_toNat_eq h)))
  rcases hc with h | h | h | h <;> subst h
  · have := (ho.1 rfl).2.1
    show opcode _ (o :: t) = _
    unfold opcode; dsimp only; rw [if_neg this]
  · have := ho.2 rfl
    show opcode _ (0x0F :: o :: t) = _
    unfold opcode; dsimp only; rw [if_pos rfl, if_neg this.1, if_neg this.2]
  · rfl
  · rfl

theorem afterPrefixes_ext (h : Head) (hs : h.space = .legacy) (hx : h.rex = false) (h0 : h.w = false ∧ h.r3 = false ∧ h.x3 = false ∧ h.b3 = false)
    (h4 : h.r4 = false ∧ h.x4 = false ∧ h.b4 = false)
    (e : Ext) (mp : BitVec 5) (hm : mp.toNat ≤ 3) (h2 : e.rex2 = true → mp.toNat ≤ 1) (o : Byte) (ho : OpcodeOK mp o) (t : List Byte) :
    afterPrefixes h (e.bytes mp o ++ t) = some (e.head h mp o, t) := by
  obtain ⟨a1, a2, a3, a4⟩ := h0
  obtain ⟨b1, b2, b3⟩ := h4
  unfold Ext.bytes
  by_cases hr : e.rex2 = true
  · rw [if_pos hr]
    have hm1 := h2 hr
    have hmm : (if decide (mp = 1) = true then 1 else 0 : BitVec 5) = mp := by
      rcases (by omega : mp.toNat = 0 ∨ mp.toNat = 1) with h | h
      · have : mp = 0 := BitVec.eq_of_toNat_eq h
        subst this; rfl
      · have : mp = 1 := BitVec.eq_of_toNat_eq h
        subst this; rfl
    show some (withRex2 h _ _, t) = _
    obtain ⟨c7, c6, c5, c4, c3, c2, c1, c0⟩ := nib_rex2 (decide (mp = 1)) e.r4 e.x4 e.b4 e.w e.r3 e.x3 e.b3
    unfold withRex2 Ext.head Ext.present
    rw [c7, c6, c5, c4, c3, c2, c1, c0, hmm]
    simp [hr]
  · rw [if_neg hr]
    have om := fun h => opcode_map h mp hm o ho t
    by_cases hp : e.present = true
    · obtain ⟨n1, n2, n3, n4, n5, n6, n7, n8, n9, n10⟩ := nib_rex e.w e.r3 e.x3 e.b3
      rw [hp]
      show afterPrefixes h ((nib e.w e.r3 e.x3 e.b3 ||| 0x40) :: ((if mp = 1 then [0x0F] else if mp = 2 then [0x0F, 0x38] else if mp = 3 then [0x0F, 0x3A] else []) ++ [o] ++ t)) = _
      unfold afterPrefixes
      dsimp only
      rw [if_neg n2, if_neg n3, if_neg n4, if_neg n5, if_pos n6]
      rw [om]
      unfold withRex Ext.head
      rw [n7, n8, n9, n10]
      simp [hr, hp, hs, b1, b2, b3]
    · have hp' : e.present = false := by simpa using hp
      rw [hp']
      have om := om h
      have st : ∀ k u, (if mp = 1 then [0x0F] else if mp = 2 then [0x0F, 0x38] else if mp = 3 then [0x0F, 0x3A] else []) ++ [o] ++ t = k :: u →
          k ≠ 0xC5 ∧ k ≠ 0xC4 ∧ k ≠ 0x62 ∧ k ≠ 0xD5 ∧ k.extractLsb' 4 4 ≠ 4 := by
        intro k u hk
        by_cases m0 : mp = 0
        · subst m0
          have q := ho.1 rfl
          have : k = o := by simpa using (List.cons.inj hk).1.symm
          subst this
          exact ⟨q.2.2.2.1, q.2.2.1, q.2.2.2.2.1, q.2.2.2.2.2.1, q.2.2.2.2.2.2⟩
        · have : k = 0x0F := by
            have hk := congrArg List.head? hk
            have n0 : mp.toNat ≠ 0 := fun h => m0 (BitVec.eq_of_toNat_eq h)
            rcases (by omega : mp.toNat = 1 ∨ mp.toNat = 2 ∨ mp.toNat = 3) with h | h | h
            · have : mp = 1 := BitVec.eq_of_toNat_eq h
              subst this; simpa using hk.symm
            · have : mp = 2 := BitVec.eq_of_toNat_eq h
              subst this; simpa using hk.symm
            · have : mp = 3 := BitVec.eq_of_toNat_eq h
              subst this; simpa using hk.symm
          subst this; decide
      have go : ∀ l, (∀ k u, l = k :: u → k ≠ 0xC5 ∧ k ≠ 0xC4 ∧ k ≠ 0x62 ∧ k ≠ 0xD5 ∧ k.extractLsb' 4 4 ≠ 4) → afterPrefixes h l = opcode h l := by
        intro l hl
        cases l with
        | nil => rfl
        | cons k u =>
          obtain ⟨q1, q2, q3, q4, q5⟩ := hl k u rfl
          unfold afterPrefixes
          dsimp only
          rw [if_neg q1, if_neg q2, if_neg q3, if_neg q4, if_neg q5]
      have := go _ st
      simp only [opt, Bool.false_eq_true, if_false, List.nil_append]
      rw [this, om]
      simp only [Ext.present, Bool.or_eq_false_iff] at hp'
      unfold Ext.head
      simp [hp', Ext.present, hs, hx, a1, a2, a3, a4, b1, b2, b3]

/-- Reading prefixes, map and opcode of a legacy instruction. -/
theorem head_legacy (p66 pF2 pF3 p67 : Bool) (e : Ext) (mp : BitVec 5) (hm : mp.toNat ≤ 3) (h2 : e.rex2 = true → mp.toNat ≤ 1)
    (o : Byte) (ho : OpcodeOK mp o) (t : List Byte) :
    head (opt p66 0x66 ++ opt pF2 0xF2 ++ opt pF3 0xF3 ++ opt p67 0x67 ++ e.bytes mp o ++ t) =
      some (e.head { p66 := p66, pF2 := pF2, pF3 := pF3, p67 := p67 } mp o, t) := by
  have stop : ∀ h : Head, prefixes h (e.bytes mp o ++ t) = (h, e.bytes mp o ++ t) := by
    intro h
    have : ∃ k u, e.bytes mp o ++ t = k :: u ∧ isPrefix k = false := by
      unfold Ext.bytes
      by_cases hr : e.rex2 = true
      · rw [if_pos hr]; exact ⟨_, _, rfl, by decide⟩
      · rw [if_neg hr]
        by_cases hp : e.present = true
        · rw [hp]; exact ⟨_, _, rfl, (nib_rex _ _ _ _).1⟩
        · have hp' : e.present = false := by simpa using hp
          rw [hp']
          by_cases m1 : mp = 1
          · rw [if_pos m1]; exact ⟨_, _, rfl, by decide⟩
          · rw [if_neg m1]
            by_cases m2 : mp = 2
            · rw [if_pos m2]; exact ⟨_, _, rfl, by decide⟩
            · rw [if_neg m2]
              by_cases m3 : mp = 3
              · rw [if_pos m3]; exact ⟨_, _, rfl, by decide⟩
              · rw [if_neg m3]
                have m0 : mp = 0 := by
                  apply BitVec.eq_of_toNat_eq
                  have : mp.toNat ≠ 1 := fun h => m1 (BitVec.eq_of_toNat_eq h)
                  have : mp.toNat ≠ 2 := fun h => m2 (BitVec.eq_of_toNat_eq h)
                  have : mp.toNat ≠ 3 := fun h => m3 (BitVec.eq_of_toNat_eq h)
                  show mp.toNat = 0
                  omega
                exact ⟨_, _, rfl, (ho.1 m0).1⟩
    obtain ⟨k, u, hk, hp⟩ := this
    rw [hk]; exact prefixes_stop h k u hp
  unfold head
  simp only [List.append_assoc]
  rw [prefixes_66, prefixes_F2, prefixes_F3, prefixes_67, stop]
  dsimp only
  rw [afterPrefixes_ext _ rfl rfl ⟨rfl, rfl, rfl, rfl⟩ ⟨rfl, rfl, rfl⟩ e mp hm h2 o ho t]
  simp

end X86
end Xbyak
