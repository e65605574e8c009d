import Verif.Props.Manual
import Verif.Props.Legacy
import Verif.Spec.Fixed
/-!
# Instructions without operands (C70)
-/
namespace Xbyak

namespace X86

theorem prefixes_append (s : List Byte) : ∀ (bs : List Byte) (h h' : Head) (c : Byte) (r : List Byte), prefixes h bs = (h', c :: r) →
    prefixes h (bs ++ s) = (h', c :: (r ++ s))
  | [], h, h', c, r, e => by cases e
  | b :: bs, h, h', c, r, e => by
    rw [List.cons_append]
    unfold prefixes at e ⊢
    split at e
    · rename_i hb; rw [if_pos hb]; exact prefixes_append s bs _ _ _ _ e
    · rename_i hb; rw [if_neg hb]
      split at e
      · rename_i hb; rw [if_pos hb]; exact prefixes_append s bs _ _ _ _ e
      · rename_i hb; rw [if_neg hb]
        split at e
        · rename_i hb; rw [if_pos hb]; exact prefixes_append s bs _ _ _ _ e
        · rename_i hb; rw [if_neg hb]
          split at e
          · rename_i hb; rw [if_pos hb]; exact prefixes_append s bs _ _ _ _ e
          · rename_i hb; rw [if_neg hb]
            split at e
            · rename_i hb; rw [if_pos hb]; exact prefixes_append s bs _ _ _ _ e
            · rename_i hb; rw [if_neg hb]; cases e; rfl

theorem opcode_append {h h' : Head} {bs r : List Byte} (s : List Byte) (e : opcode h bs = some (h', r)) : opcode h (bs ++ s) = some (h', r ++ s) := by
  cases bs with
  | nil => cases e
  | cons c t =>
    rw [List.cons_append]
    unfold opcode at e ⊢
    dsimp only at e ⊢
    split at e
    · rename_i hc
      rw [if_pos hc]
      cases t with
      | nil => cases e
      | cons d t =>
        dsimp only [List.cons_append] at e ⊢
        split at e
        · rename_i hd
          rw [if_pos hd]
          cases t with
          | nil => cases e
          | cons o t => cases e; rfl
        · rename_i hd
          rw [if_neg hd]
          split at e
          · rename_i hd
            rw [if_pos hd]
            cases t with
            | nil => cases e
            | cons o t => cases e; rfl
          · rename_i hd
            rw [if_neg hd]
            cases e; rfl
    · rename_i hc
      rw [if_neg hc]
      cases e; rfl

theorem afterPrefixes_append {h h' : Head} {bs r : List Byte} (s : List Byte) (e : afterPrefixes h bs = some (h', r)) :
    afterPrefixes h (bs ++ s) = some (h', r ++ s) := by
  cases bs with
  | nil => cases e
  | cons k t =>
    rw [List.cons_append]
    unfold afterPrefixes at e ⊢
    dsimp only at e ⊢
    by_cases h1 : k = 0xC5
    · rw [if_pos h1] at e ⊢
      match t, e with
      | c :: o :: t, e => cases e; rfl
    · rw [if_neg h1] at e ⊢
      by_cases h2 : k = 0xC4
      · rw [if_pos h2] at e ⊢
        match t, e with
        | c :: d :: o :: t, e => cases e; rfl
      · rw [if_neg h2] at e ⊢
        by_cases h3 : k = 0x62
        · rw [if_pos h3] at e ⊢
          match t, e with
          | c :: d :: x :: o :: t, e => cases e; rfl
        · rw [if_neg h3] at e ⊢
          by_cases h4 : k = 0xD5
          · rw [if_pos h4] at e ⊢
            match t, e with
            | c :: o :: t, e => cases e; rfl
          · rw [if_neg h4] at e ⊢
            split at e
            · rename_i h5; rw [if_pos h5]; exact opcode_append s e
            · rename_i h5; rw [if_neg h5]
              have := opcode_append s e
              rwa [List.cons_append] at this

/-- Bytes behind an instruction do not change how it starts. -/
theorem head_append {h : Head} {bs r : List Byte} (s : List Byte) (e : head bs = some (h, r)) : head (bs ++ s) = some (h, r ++ s) := by
  unfold head at e ⊢
  dsimp only at e ⊢
  cases hp : prefixes {} bs with
  | mk h1 l =>
    cases l with
    | nil => rw [hp] at e; cases e
    | cons c l =>
      rw [hp] at e
      rw [prefixes_append s bs {} h1 c l hp]
      exact afterPrefixes_append s e

theorem Fixed.Reads.append {f : Fixed} {bs : List Byte} (h : f.Reads bs []) (t : List Byte) : f.Reads (bs ++ t) t := by
  obtain ⟨h, bs', rfl, h1, h2⟩ := h
  refine ⟨h, bs' ++ t, ?_, ?_, h2⟩
  · cases f.wait <;> rfl
  · rw [head_append t h1, List.append_nil]

/-- `Fixed.Reads`, computed. -/
def Fixed.test (f : Fixed) (bs : List Byte) : Bool :=
  match (if f.wait then match bs with | c :: t => if c = 0x9B then some t else none | [] => none else some bs) with
  | none => false
  | some bs' => match head bs' with
    | none => false
    | some (h, r) => decide (r = f.after.toList) && decide (h.map = f.map ∧ h.opcode = f.op ∧ h.p67 = false ∧ h.seg = none) &&
      match f.vex with
      | some l => decide (h.space = .vex ∧ h.L = l ∧ h.w = false ∧ h.vreg = 0 ∧ h.pp = 0 ∧ f.pp = none ∧ h.p66 = false ∧ h.pF2 = false ∧ h.pF3 = false)
      | none => decide (h.space = .legacy ∧ h.w = f.w ∧ h.p66 = (f.pp == some 0x66) ∧ h.pF2 = (f.pp == some 0xF2) ∧ h.pF3 = (f.pp == some 0xF3))

theorem Fixed.reads_of {f : Fixed} {bs : List Byte} (h : f.test bs = true) : f.Reads bs [] := by
  unfold Fixed.test at h
  split at h
  · cases h
  · rename_i bs' hb
    split at h
    · cases h
    · rename_i hd r hr
      rw [Bool.and_eq_true, Bool.and_eq_true, decide_eq_true_eq, decide_eq_true_eq] at h
      obtain ⟨⟨rfl, h1, h2, h3, h4⟩, h5⟩ := h
      refine ⟨hd, bs', ?_, by rw [List.append_nil]; exact hr, h1, h2, h3, h4, ?_⟩
      · cases hw : f.wait
        · rw [hw] at hb; cases hb; rfl
        · rw [hw, if_pos rfl] at hb
          cases bs with
          | nil => cases hb
          | cons c t =>
            dsimp only at hb
            split at hb
            · rename_i hc; cases hb; rw [hc]; rfl
            · cases hb
      · cases hv : f.vex <;> rw [hv] at h5 <;> exact of_decide_eq_true h5

end X86

namespace Mn
open E

/-- The bytes of a function that writes the same whatever it is given. -/
def Entry.fixed (e : Entry) : Option (List Byte) := match e.body with
  | .leaf (.bytes l) => some l
  | _ => none

/-- The bytes are those of the manual. -/
def fixedOk (name : Nat) (l : List Byte) : Bool :=
  (X86.prefixBytes.any fun p => Nat.beq p.1 name && decide (l = [p.2])) || X86.fixed.any fun p => Nat.beq p.1 name && p.2.test l

set_option maxRecDepth 1000000 in
theorem fixed_check : (all.all fun e => match e.fixed with | some l => fixedOk e.name l | none => true) = true := by decide +kernel

/-- C70: a function that writes fixed bytes writes the prefix or the complete instruction (and nothing else) of that name: opcode, map,
prefixes, W, the byte in the place of ModRM. -/
theorem c70_fixed {e : Entry} {g : Args} {w : List Act} (hc : Calls e g w) (hf : e.fixed.isSome = true) (fill : Act → BitVec 32) :
    (∃ b, (e.name, b) ∈ X86.prefixBytes ∧ concr fill w = [b]) ∨ ∃ f, (e.name, f) ∈ X86.fixed ∧ ∀ t, f.Reads (concr fill w ++ t) t := by
  obtain ⟨l, hl⟩ := Option.isSome_iff_exists.mp hf
  have hk := List.all_eq_true.mp fixed_check e hc.mem
  rw [hl] at hk
  have hb : e.body = .leaf (.bytes l) := by
    unfold Entry.fixed at hl
    split at hl
    · rename_i l' h; cases hl; exact h
    · cases hl
  obtain ⟨m, hm, hw⟩ := hc.runs
  rw [hb] at hm
  cases hm
  have hw : l.map Act.byte = w := hw.1
  rw [← hw, concr_bytes]
  have hk : fixedOk e.name l = true := hk
  unfold fixedOk at hk
  rw [Bool.or_eq_true] at hk
  rcases hk with hk | hk
  · obtain ⟨⟨n, b⟩, hp, hk⟩ := List.any_eq_true.mp hk
    rw [Bool.and_eq_true, decide_eq_true_eq] at hk
    have : n = e.name := Nat.eq_of_beq_eq_true hk.1
    exact .inl ⟨b, this ▸ hp, hk.2⟩
  · obtain ⟨⟨n, f⟩, hp, hk⟩ := List.any_eq_true.mp hk
    rw [Bool.and_eq_true] at hk
    have : n = e.name := Nat.eq_of_beq_eq_true hk.1
    exact .inr ⟨f, this ▸ hp, (X86.Fixed.reads_of hk.2).append⟩

set_option maxRecDepth 1000000 in
private theorem cover_check : ((X86.fixed.map (·.1) ++ X86.prefixBytes.map (·.1)).all fun n => all.any fun e => e.fixed.isSome && Nat.beq e.name n && e.params.isEmpty) = true := by
  decide +kernel

/-- Every name in the two tables has a function without parameters, and it can be called. -/
theorem c70_cover (n : Nat) (hn : n ∈ X86.fixed.map (·.1) ++ X86.prefixBytes.map (·.1)) : ∃ e w, e.name = n ∧ e.fixed.isSome = true ∧ Calls e { ops := [] } w := by
  obtain ⟨e, he, h⟩ := List.any_eq_true.mp (List.all_eq_true.mp cover_check n hn)
  rw [Bool.and_eq_true, Bool.and_eq_true] at h
  obtain ⟨⟨h1, h2⟩, h3⟩ := h
  have h3 : e.params = [] := List.isEmpty_iff.mp h3
  have hb : ∃ l, e.body = .leaf (.bytes l) := by
    unfold Entry.fixed at h1
    split at h1
    · rename_i l h; exact ⟨l, h⟩
    · cases h1
  obtain ⟨l, hb⟩ := hb
  refine ⟨e, l.map .byte, Nat.eq_of_beq_eq_true h2, h1, he, ?_, ⟨⟨l.map .byte, .ok ()⟩, by rw [hb]; rfl, rfl, rfl⟩⟩
  rw [h3]
  exact ⟨Nat.le_refl _, Nat.zero_le _, fun i p o hp => by cases hp⟩

/-- `cqo` (1872): 48 99, the quadword form of opcode 99. -/
example : ∃ e ∈ all, e.name = n!"cqo" ∧ e.fixed = some [0x48, 0x99] ∧ (n!"cqo", { op := 0x99, w := true }) ∈ X86.fixed := by
  obtain ⟨e, he, h⟩ := List.any_eq_true.mp (show (all.any fun e => Nat.beq e.name n!"cqo" && decide (e.fixed = some [0x48, 0x99])) = true by decide +kernel)
  rw [Bool.and_eq_true, decide_eq_true_eq] at h
  exact ⟨e, he, Nat.eq_of_beq_eq_true h.1, h.2, by decide +kernel⟩

set_option maxRecDepth 1000000 in
private theorem line459 {e : Entry} (he : e ∈ all) (h : e.line = 459) :
    e = ⟨459, n!"fnstsw", [.reg16], 0, .guard (fun g => decide ((g.reg 0).idx.toNat ≠ 0)) .BAD_PARAMETER (.leaf (.bytes [0xDF, 0xE0]))⟩ := mem_line he h rfl
set_option maxRecDepth 1000000 in
private theorem line478 {e : Entry} (he : e ∈ all) (h : e.line = 478) :
    e = ⟨478, n!"fstsw", [.reg16], 0, .guard (fun g => decide ((g.reg 0).idx.toNat ≠ 0)) .BAD_PARAMETER (.leaf (.bytes [0x9B, 0xDF, 0xE0]))⟩ := mem_line he h rfl

private theorem stsw {g : Args} {w : List Act} {l : List Byte}
    (h : ∃ m, (Body.guard (fun g => decide ((g.reg 0).idx.toNat ≠ 0)) .BAD_PARAMETER (.leaf (.bytes l))).run g = some m ∧ m.Gives w ()) :
    (g.reg 0).idx = 0 ∧ w = l.map Act.byte := by
  obtain ⟨m, hm, hw⟩ := h
  cases hm
  obtain ⟨h1, h2⟩ := Enc.throwIf_bind.mp hw
  have h2 : l.map Act.byte = w := h2.1
  rw [decide_eq_false_iff_not, Decidable.not_not] at h1
  exact ⟨BitVec.eq_of_toNat_eq h1, h2.symm⟩

/-- C70 for `fnstsw(ax)` and `fstsw(ax)` (mnemonic.h 459, 478): DF E0, for the latter behind WAIT; another register is refused. -/
theorem c70_stsw {e : Entry} {g : Args} {w : List Act} (hc : Calls e g w) (hl : e.line = 459 ∨ e.line = 478) (fill : Act → BitVec 32) :
    (g.reg 0).idx = 0 ∧ e.name = (if e.line = 478 then n!"fstsw" else n!"fnstsw") ∧
      ∀ t, ({ op := 0xDF, after := some 0xE0, wait := Nat.beq e.line 478 } : X86.Fixed).Reads (concr fill w ++ t) t := by
  rcases hl with hl | hl
  · have := line459 hc.mem hl
    obtain ⟨h1, rfl⟩ := stsw (this ▸ hc.runs)
    rw [concr_bytes]
    refine ⟨h1, by rw [this]; rfl, fun t => ?_⟩
    rw [hl]
    exact (X86.Fixed.reads_of (by decide +kernel)).append t
  · have := line478 hc.mem hl
    obtain ⟨h1, rfl⟩ := stsw (this ▸ hc.runs)
    rw [concr_bytes]
    refine ⟨h1, by rw [this]; rfl, fun t => ?_⟩
    rw [hl]
    exact (X86.Fixed.reads_of (by decide +kernel)).append t

/-- `fstsw(ax)` -/
example : callAt 478 { ops := [.reg (.gp 0 16)] } = some (n!"fstsw", [0x9B, 0xDF, 0xE0].map .byte) := by decide +kernel

end Mn
end Xbyak
