import Verif.Mnemonic.Basic
import Verif.OpAddr
/-!
# What every encoder emits: shape and length

For each `op*` helper: the fields of `[rip + …]` operands are computed for the true end of the instruction (C31), and the number of bytes is
bounded (C43).
-/
namespace Xbyak
open E

/-- Bytes taken by an act. -/
def Act.size : Act → Nat
  | .byte _ => 1
  | .rel _ _ | .ripAddr _ _ => 4

/-- Bytes taken by a list of acts. -/
def asize : List Act → Nat
  | [] => 0
  | x :: t => x.size + asize t

@[simp] theorem asize_append (a b : List Act) : asize (a ++ b) = asize a + asize b := by
  induction a with
  | nil => simp [asize]
  | cons x t ih => simp [asize, ih]; omega

theorem asize_bytes (l : List Byte) : asize (l.map .byte) = l.length := by
  induction l with
  | nil => rfl
  | cons x t ih => simp [asize, Act.size, ih]; omega

theorem concr_length (fill : Act → BitVec 32) (w : List Act) : (concr fill w).length = asize w := by
  induction w with
  | nil => rfl
  | cons x t ih => cases x <;> simp [concr, asize, Act.size, ih, leBytes_length] <;> omega

/-- The act is the field of the operand `a`, `k` bytes before the end of the instruction: label + displacement, or the address, are reached
from there. -/
def Addr.FieldAt (a : Addr) (k : Nat) : Act → Prop
  | .byte _ => False
  | .rel l x => a.label = some l ∧ a.mode ≠ .modRM ∧ x = a.e.disp - BitVec.ofNat 64 k
  | .ripAddr t i => a.label = none ∧ a.mode = .ripAddr ∧ t = a.e.disp ∧ i = k

/-- Every field is the field of an operand in `S`, when `n` more bytes follow. -/
def Tail (S : Addr → Prop) (n : Nat) (w : List Act) : Prop :=
  ∀ p x q, w = p ++ x :: q → (∃ b, x = .byte b) ∨ ∃ a, S a ∧ a.FieldAt (asize q + n) x

theorem Tail.plain {S : Addr → Prop} {n : Nat} {w : List Act} (h : ∀ x ∈ w, ∃ b, x = Act.byte b) : Tail S n w := by
  rintro p x q rfl
  exact .inl (h x (by simp))

theorem Tail.append {S : Addr → Prop} {n : Nat} {u w : List Act} (h1 : Tail S (asize w + n) u) (h2 : Tail S n w) : Tail S n (u ++ w) := by
  intro p x q h
  rcases List.append_eq_append_iff.mp h with ⟨c, hc1, hc2⟩ | ⟨c, hc1, hc2⟩
  · exact h2 c x q hc2
  · cases c with
    | nil => exact h2 [] x q (by simpa using hc2.symm)
    | cons y c =>
      simp only [List.cons_append, List.cons.injEq] at hc2
      obtain ⟨rfl, rfl⟩ := hc2
      rcases h1 p x c (by simpa using hc1) with h | ⟨a, ha, hf⟩
      · exact .inl h
      · refine .inr ⟨a, ha, ?_⟩
        rw [asize_append, Nat.add_assoc]; exact hf

namespace Enc
variable {α β : Type}

/-- Only plain bytes, at most `N`. -/
def Plain (N : Nat) (m : Enc α) : Prop := ∀ w v, m.Gives w v → (∀ x ∈ w, ∃ b, x = Act.byte b) ∧ asize w ≤ N
/-- Exactly `k` plain bytes. -/
def Len (k : Nat) (m : Enc α) : Prop := ∀ w v, m.Gives w v → (∀ x ∈ w, ∃ b, x = Act.byte b) ∧ asize w = k
/-- Fields of operands in `S`, correct when `n` more bytes follow; at most `N` bytes. -/
def Out (S : Addr → Prop) (n N : Nat) (m : Enc α) : Prop := ∀ w v, m.Gives w v → Tail S n w ∧ asize w ≤ N

theorem Len.plain {k : Nat} {m : Enc α} (h : m.Len k) : m.Plain k := fun w v g => ⟨(h w v g).1, Nat.le_of_eq (h w v g).2⟩
theorem Plain.out {S : Addr → Prop} {n N : Nat} {m : Enc α} (h : m.Plain N) : m.Out S n N := fun w v g => ⟨.plain (h w v g).1, (h w v g).2⟩
theorem Plain.mono {N N' : Nat} {m : Enc α} (h : m.Plain N) (hn : N ≤ N') : m.Plain N' := fun w v g => ⟨(h w v g).1, Nat.le_trans (h w v g).2 hn⟩
theorem Out.mono {S : Addr → Prop} {n N N' : Nat} {m : Enc α} (h : m.Out S n N) (hn : N ≤ N') : m.Out S n N' :=
  fun w v g => ⟨(h w v g).1, Nat.le_trans (h w v g).2 hn⟩

theorem Len.pure (a : α) : (Pure.pure a : Enc α).Len 0 := by
  intro w v g; obtain ⟨rfl, _⟩ := gives_pure.mp g; exact ⟨by simp, rfl⟩
theorem Len.throw {k : Nat} (e : Err) : (Enc.throw e : Enc α).Len k := fun _ _ g => (gives_throw.mp g).elim
theorem Len.throwIf (c : Bool) (e : Err) : (Enc.throwIf c e).Len 0 := by
  intro w v g; obtain ⟨_, rfl⟩ := gives_throwIf.mp g; exact ⟨by simp, rfl⟩
theorem Len.db (b : Byte) : (Enc.db b).Len 1 := by
  intro w v g; rw [gives_db.mp g]; exact ⟨by simp, rfl⟩
theorem Len.dbN (v : Word) (n : Nat) : (Enc.dbN v n).Len n := by
  intro w _ g; rw [gives_dbN.mp g, asize_bytes, leBytes_length]; exact ⟨by simp, rfl⟩
theorem Len.lift (e : Except Err α) : (Enc.lift e).Len 0 := by
  cases e with
  | ok a => exact Len.pure a
  | error e => exact Len.throw e
theorem Len.dbIf (c : Bool) (b : Byte) : (Enc.dbIf c b).Len (bif c then 1 else 0) := by
  cases c
  · exact Len.pure ()
  · exact Len.db b
theorem Len.dbOpt (i : Option Byte) : (E.dbOpt i).Len (E.optSize i) := by
  cases i with
  | none => exact Len.pure ()
  | some b => exact Len.db b

theorem Len.bind {k l : Nat} {m : Enc α} {f : α → Enc β} (h1 : m.Len k) (h2 : ∀ a, (f a).Len l) : (m >>= f).Len (k + l) := by
  intro w v g
  obtain ⟨w1, a, w2, g1, g2, rfl⟩ := gives_bind.mp g
  have := h1 _ _ g1; have := h2 _ _ _ g2
  refine ⟨fun x hx => ?_, by rw [asize_append]; omega⟩
  rcases List.mem_append.mp hx with h | h
  · exact (h1 _ _ g1).1 x h
  · exact (h2 _ _ _ g2).1 x h
theorem Plain.bind {k l : Nat} {m : Enc α} {f : α → Enc β} (h1 : m.Plain k) (h2 : ∀ a, (f a).Plain l) : (m >>= f).Plain (k + l) := by
  intro w v g
  obtain ⟨w1, a, w2, g1, g2, rfl⟩ := gives_bind.mp g
  have := h1 _ _ g1; have := h2 _ _ _ g2
  refine ⟨fun x hx => ?_, by rw [asize_append]; omega⟩
  rcases List.mem_append.mp hx with h | h
  · exact (h1 _ _ g1).1 x h
  · exact (h2 _ _ _ g2).1 x h

/-- Plain bytes first. -/
theorem Out.bindP {S : Addr → Prop} {n M N : Nat} {m : Enc α} {f : α → Enc β} (h1 : m.Plain M) (h2 : ∀ a, (f a).Out S n N) :
    (m >>= f).Out S n (M + N) := by
  intro w v g
  obtain ⟨w1, a, w2, g1, g2, rfl⟩ := gives_bind.mp g
  have a1 := h1 _ _ g1; have a2 := h2 _ _ _ g2
  exact ⟨.append (.plain a1.1) a2.1, by rw [asize_append]; omega⟩
/-- A check first. -/
theorem Out.bind0 {S : Addr → Prop} {n N : Nat} {m : Enc α} {f : α → Enc β} (h1 : m.Len 0) (h2 : ∀ a, (f a).Out S n N) :
    (m >>= f).Out S n N := (Out.bindP h1.plain h2).mono (by omega)
theorem Plain.bind0 {N : Nat} {m : Enc α} {f : α → Enc β} (h1 : m.Len 0) (h2 : ∀ a, (f a).Plain N) :
    (m >>= f).Plain N := (Plain.bind h1.plain h2).mono (by omega)
theorem Len.bind0 {N : Nat} {m : Enc α} {f : α → Enc β} (h1 : m.Len 0) (h2 : ∀ a, (f a).Len N) :
    (m >>= f).Len N := by simpa using Len.bind h1 h2
/-- A trailing immediate. -/
theorem Out.bindL {S : Addr → Prop} {n k M : Nat} {m : Enc α} {f : α → Enc β} (h1 : m.Out S (k + n) M) (h2 : ∀ a, (f a).Len k) :
    (m >>= f).Out S n (M + k) := by
  intro w v g
  obtain ⟨w1, a, w2, g1, g2, rfl⟩ := gives_bind.mp g
  have a1 := h1 _ _ g1; have a2 := h2 _ _ _ g2
  refine ⟨.append (by rw [a2.2]; exact a1.1) (.plain a2.1), by rw [asize_append]; omega⟩
/-- `if (helper(…)) return; …` -/
theorem Out.bindDone {S : Addr → Prop} {n N M : Nat} {m : Enc Bool} {f : Enc Unit} (h1 : m.Out S n N) (h0 : ∀ w, m.Gives w false → w = [])
    (h2 : f.Out S n M) : (m >>= fun b => if b = true then Pure.pure () else f).Out S n (max N M) := by
  intro w v g
  obtain ⟨w1, a, w2, g1, g2, rfl⟩ := gives_bind.mp g
  cases a with
  | true =>
    obtain ⟨rfl, _⟩ := gives_pure.mp g2
    have := h1 _ _ g1
    rw [List.append_nil]
    exact ⟨this.1, by omega⟩
  | false =>
    cases h0 _ g1
    have := h2 _ _ g2
    exact ⟨this.1, by show asize w2 ≤ _; omega⟩
theorem Out.bindDoneL {S : Addr → Prop} {n k N M : Nat} {m : Enc Bool} {f t : Enc Unit} (h1 : m.Out S (k + n) N)
    (h0 : ∀ w, m.Gives w false → w = []) (h2 : f.Out S (k + n) M) (ht : t.Len k) :
    (m >>= fun b => if b = true then t else (f >>= fun _ => t)).Out S n (max N M + k) := by
  intro w v g
  obtain ⟨w1, a, w2, g1, g2, rfl⟩ := gives_bind.mp g
  cases a with
  | true =>
    have a1 := h1 _ _ g1; have a2 := ht _ _ g2
    exact ⟨.append (by rw [a2.2]; exact a1.1) (.plain a2.1), by rw [asize_append]; omega⟩
  | false =>
    cases h0 _ g1
    obtain ⟨w3, b, w4, g3, g4, rfl⟩ := gives_bind.mp g2
    have a1 := h2 _ _ g3; have a2 := ht _ _ g4
    rw [List.nil_append]
    exact ⟨.append (by rw [a2.2]; exact a1.1) (.plain a2.1), by rw [asize_append]; omega⟩
theorem Out.ite {S : Addr → Prop} {n N M : Nat} {c : Prop} [Decidable c] {m m' : Enc α} (h1 : m.Out S n N) (h2 : m'.Out S n M) :
    (if c then m else m').Out S n (max N M) := by
  split
  · exact h1.mono (by omega)
  · exact h2.mono (by omega)
theorem Plain.ite {N M : Nat} {c : Prop} [Decidable c] {m m' : Enc α} (h1 : m.Plain N) (h2 : m'.Plain M) :
    (if c then m else m').Plain (max N M) := by
  split
  · exact h1.mono (by omega)
  · exact h2.mono (by omega)

end Enc

namespace E
open Enc (Plain Len Out)

/-! ## Parts -/

/-- `T_F2` and `T_F3` prefixes -/
def pfN (t : Ty) : Nat := (bif t.has T_F2 then 1 else 0) + (bif t.has T_F3 then 1 else 0)
/-- longer opcode map -/
def escN (t : Ty) : Nat := bif t.has (T_0F38 ||| T_0F3A) then 1 else 0
/-- escape bytes after an EVEX prefix -/
def escE (t : Ty) : Nat := bif t.has T_APX then 0 else bif t.has T_0F || t.has T_0F38 || t.has T_0F3A then 2 else 0

theorem setModRM_len (m : BitVec 2) (a b : BitVec 5) : (setModRM m a b).Len 1 := Len.db _

theorem rex2_len (b : Bool) (x : BitVec 8) (r q i : Reg) : (rex2 b x r q i).Len 2 := Len.bind (Len.db _) fun _ => Len.db _

theorem dbIf_plain (c : Bool) (b : Byte) : (Enc.dbIf c b).Plain 1 := (Len.dbIf c b).plain.mono (by cases c <;> decide)

/-- At most `k` bytes, one more with REX2, which is used with one-byte maps only. -/
def RexN (t : Ty) (k : Nat) (m : Enc Bool) : Prop := ∀ w v, m.Gives w v →
  (∀ x ∈ w, ∃ b, x = Act.byte b) ∧ asize w ≤ k + (bif v then 1 else 0) ∧ (v = true → t.has (T_0F38 ||| T_0F3A) = false)

theorem RexN.bind {t : Ty} {j k : Nat} {m : Enc Unit} {f : Unit → Enc Bool} (h1 : m.Plain j) (h2 : ∀ a, RexN t k (f a)) :
    RexN t (j + k) (m >>= f) := by
  intro w v g
  obtain ⟨w1, a, w2, g1, g2, rfl⟩ := Enc.gives_bind.mp g
  have a1 := h1 _ _ g1; have a2 := h2 _ _ _ g2
  refine ⟨fun x hx => ?_, by rw [asize_append]; omega, a2.2.2⟩
  rcases List.mem_append.mp hx with h | h
  · exact a1.1 x h
  · exact a2.1 x h

theorem RexN.mono {t : Ty} {j k : Nat} {m : Enc Bool} (h : RexN t j m) (hk : j ≤ k) : RexN t k m :=
  fun w v g => ⟨(h w v g).1, by have := (h w v g).2.1; omega, (h w v g).2.2⟩

theorem RexN.last {t : Ty} {c : Bool} {m : Enc Unit} {rx : Bool} {y : Byte} (hm : m.Len 2) :
    RexN t 1 (if c = true then (do Enc.throwIf (t.has (T_0F38 ||| T_0F3A)) .CANT_USE_REX2; m; pure true) else
        (do Enc.dbIf rx y; pure false) : Enc Bool) := by
  intro w v g
  cases c with
  | true =>
    obtain ⟨w1, _, w2, g1, g2, rfl⟩ := Enc.gives_bind.mp g
    obtain ⟨hc, rfl⟩ := Enc.gives_throwIf.mp g1
    obtain ⟨w3, _, w4, g3, g4, rfl⟩ := Enc.gives_bind.mp g2
    obtain ⟨rfl, rfl⟩ := Enc.gives_pure.mp g4
    have := hm _ _ g3
    simp only [List.nil_append, List.append_nil]
    exact ⟨this.1, by rw [this.2]; decide, fun _ => hc⟩
  | false =>
    obtain ⟨w1, _, w2, g1, g2, rfl⟩ := Enc.gives_bind.mp g
    obtain ⟨rfl, rfl⟩ := Enc.gives_pure.mp g2
    have := dbIf_plain rx y _ _ g1
    rw [List.append_nil]
    exact ⟨this.1, by simpa using this.2, by simp⟩

theorem rex_out (op1 op2 : Operand) (t : Ty) : RexN t (3 + pfN t) (rex op1 op2 t) := by
  unfold rex
  refine (RexN.bind (Len.throwIf _ _).plain fun _ => RexN.bind (Len.throwIf _ _).plain fun _ => RexN.bind (Len.throwIf _ _).plain fun _ =>
    RexN.bind (dbIf_plain _ _) fun _ => RexN.bind (Len.dbIf _ _).plain fun _ => RexN.bind (Len.dbIf _ _).plain fun _ =>
      (?_ : RexN t 2 _)).mono (by unfold pfN; omega)
  dsimp only
  split
  · exact RexN.bind (dbIf_plain _ _) fun _ => RexN.last (rex2_len _ _ _ _ _)
  · exact (RexN.last (rex2_len _ _ _ _ _)).mono (by omega)

theorem or_ne_zero (a b : Ty) : (a ||| b != 0) = (a != 0 || b != 0) := by
  rw [Bool.eq_iff_iff]
  simp only [bne_iff_ne, Bool.or_eq_true, ne_eq]
  show ¬ (a ||| b) = 0#64 ↔ _
  rw [BitVec.or_eq_zero_iff, Classical.not_and_iff_not_or_not]
  exact Iff.rfl
theorem has_mask_or (t a b : Ty) : t.has (a ||| b) = (t.has a || t.has b) := by
  unfold Ty.has
  rw [BitVec.and_or_distrib_left, or_ne_zero]
theorem has_or (t u m : Ty) : (t ||| u).has m = (t.has m || u.has m) := by
  unfold Ty.has
  rw [BitVec.and_comm, BitVec.and_or_distrib_left, or_ne_zero, BitVec.and_comm m t, BitVec.and_comm m u]

theorem writeCode_plain (t : Ty) (r : Reg) (c : Byte) (v : Bool) (hv : v = true → t.has (T_0F38 ||| T_0F3A) = false) :
    (writeCode t r c v).Plain (bif t.has T_APX || v then 1 else 2 + escN t) := by
  unfold writeCode
  refine (Plain.bind (Len.dbIf _ _).plain fun _ => Plain.bind (Len.dbIf _ _).plain fun _ => Plain.bind (Len.dbIf _ _).plain fun _ =>
    (Len.db _).plain).mono ?_
  have e : t.has (T_0F38 ||| T_0F3A) = (t.has T_0F38 || t.has T_0F3A) := has_mask_or _ _ _
  unfold escN
  rw [e]
  cases t.has T_APX <;> cases v <;> cases t.has T_0F <;> cases t.has T_0F38 <;> cases t.has T_0F3A <;> decide

/-- prefixes and opcode of a legacy instruction -/
def headN (t : Ty) : Nat := 5 + pfN t + escN t

theorem head_plain (op1 op2 : Operand) (t : Ty) (r : Reg) (c : Byte) :
    (rex op1 op2 t >>= fun v => writeCode t r c v).Plain (headN t) := by
  intro w u g
  obtain ⟨w1, v, w2, g1, g2, rfl⟩ := Enc.gives_bind.mp g
  have a := rex_out _ _ _ _ _ g1
  have b := writeCode_plain t r c v a.2.2 _ _ g2
  refine ⟨fun x hx => ?_, ?_⟩
  · rcases List.mem_append.mp hx with h | h
    · exact a.1 x h
    · exact b.1 x h
  · rw [asize_append]
    have a2 := a.2.1; have b2 := b.2
    unfold headN
    cases v
    · cases h : t.has T_APX <;> simp [h] at a2 b2 <;> omega
    · simp at a2 b2; omega

theorem head_out {S : Addr → Prop} {n N : Nat} {op1 op2 : Operand} {t : Ty} {r : Reg} {c : Byte} {f : Enc Unit} (h : f.Out S n N) :
    (rex op1 op2 t >>= fun v => writeCode t r c v >>= fun _ => f).Out S n (headN t + N) := by
  have := Out.bindP (head_plain op1 op2 t r c) fun _ => h
  intro w u g
  refine this w u ?_
  obtain ⟨w1, v, w2, g1, g2, rfl⟩ := Enc.gives_bind.mp g
  obtain ⟨w3, v', w4, g3, g4, rfl⟩ := Enc.gives_bind.mp g2
  rw [← List.append_assoc]
  exact Enc.gives_bind.mpr ⟨_, _, _, Enc.gives_bind.mpr ⟨_, _, _, g1, g3, rfl⟩, g4, rfl⟩

theorem setSIB_plain (e : RegExp) (r : BitVec 5) (n : Nat) : (setSIB e r n).Plain 6 := by
  unfold setSIB
  refine Plain.bind0 (Len.throwIf _ _) fun _ => ?_
  dsimp only
  have last : ∀ {c d : Prop} [Decidable c] [Decidable d] (b : Byte) (v : Word),
      (if c then Enc.db b else if d then Enc.dbN v 4 else pure () : Enc Unit).Plain 4 := by
    intro c d _ _ b v
    exact (Plain.ite (Len.db _).plain (Plain.ite (Len.dbN _ _).plain (Len.pure _).plain)).mono (by decide)
  refine (Plain.ite (N := 6) (M := 5) ?_ ?_).mono (by decide)
  · exact Plain.bind (k := 1) (l := 5) (setModRM_len _ _ _).plain fun _ => Plain.bind (k := 1) (l := 4) (setModRM_len _ _ _).plain fun _ => last _ _
  · exact Plain.bind (k := 1) (l := 4) (setModRM_len _ _ _).plain fun _ => last _ _

/-- Same address, up to the data the encoders add. -/
def SameAddr (b a : Addr) : Prop := b.label = a.label ∧ b.e.disp = a.e.disp ∧ b.mode = a.mode

theorem opAddr_out {S : Addr → Prop} {a b : Addr} (hs : S a) (hab : SameAddr b a) {n : Nat} (hn : a.mode ≠ .modRM → b.immSize = n)
    (r : BitVec 5) : (opAddr b r).Out S n 6 := by
  unfold opAddr
  refine Out.bind0 (Len.throwIf _ _) fun _ => ?_
  obtain ⟨h1, h2, h3⟩ := hab
  have fieldOut : ∀ x : Act, a.FieldAt n x → x.size = 4 → (Enc.act x).Out S n 4 := by
    intro x hx hx4 w u g
    rw [Enc.gives_act.mp g]
    refine ⟨?_, by simp [asize, hx4]⟩
    intro p y q e
    have : p = [] ∧ q = [] ∧ x = y := by
      cases p with
      | nil => simp only [List.nil_append, List.cons.injEq] at e; exact ⟨rfl, e.2.symm, e.1⟩
      | cons z p => simp at e
    obtain ⟨rfl, rfl, rfl⟩ := this
    exact .inr ⟨a, hs, by simpa [asize] using hx⟩
  have ripOut : b.mode ≠ .modRM → (setModRM 0 r 5 >>= fun _ => (match b.label with
      | some l => Enc.act (.rel l (b.e.disp - BitVec.ofNat 64 b.immSize))
      | none => if b.mode = .ripAddr then Enc.act (.ripAddr b.e.disp b.immSize)
        else (do
          Enc.throwIf (!isInInt32 b.e.disp) .OFFSET_IS_TOO_BIG
          Enc.dbN ((lo32 b.e.disp).setWidth 64) 4) : Enc Unit)).Out S n 6 := by
    intro hm
    rw [h3] at hm
    refine (Out.bindP (N := 4) (setModRM_len _ _ _).plain fun _ => ?_).mono (by omega)
    cases hl : b.label with
    | some l =>
      exact fieldOut _ ⟨by rw [← h1, hl], hm, by rw [h2, hn hm]⟩ rfl
    | none =>
      dsimp only
      split
      · rename_i hr
        exact fieldOut _ ⟨by rw [← h1, hl], by rw [← h3, hr], h2, hn hm⟩ rfl
      · exact Out.bind0 (Len.throwIf _ _) fun _ => (Len.dbN _ _).plain.out
  cases hm : b.mode with
  | modRM => exact (setSIB_plain _ _ _).out
  | rip => have := ripOut (by rw [hm]; decide); rw [hm] at this; exact this
  | ripAddr => have := ripOut (by rw [hm]; decide); rw [hm] at this; exact this
  | disp64 => exact (Len.pure _).plain.out.mono (by omega)

/-! ## Legacy and APX forms -/

/-- the operand is a register or an address of `S` -/
def Sub (S : Addr → Prop) (op : Operand) : Prop := ∀ a, op = .mem a → ∃ b, S b ∧ SameAddr a b
/-- the same, and the address has not been prepared for an immediate -/
structure Src (S : Addr → Prop) (op : Operand) : Prop where
  sub : Sub S op
  zero : ∀ a, op = .mem a → a.immSize = 0
theorem Sub.reg {S : Addr → Prop} (r : Reg) : Sub S (.reg r) := by intro a h; cases h
theorem Src.reg {S : Addr → Prop} (r : Reg) : Src S (.reg r) := ⟨.reg r, by intro a h; cases h⟩
theorem Sub.mem {S : Addr → Prop} {a b : Addr} (h : S b) (e : SameAddr a b) : Sub S (.mem a) := by intro c e'; cases e'; exact ⟨b, h, e⟩
theorem Src.mem {S : Addr → Prop} {a b : Addr} (h : S b) (e : SameAddr a b) (hz : a.immSize = 0) : Src S (.mem a) :=
  ⟨.mem h e, by intro c e'; cases e'; exact hz⟩

/-- the operand is relative to `rip` -/
def isRip (op : Operand) : Bool := match op with | .mem a => a.mode != .modRM | .reg _ => false

theorem escE_le (t : Ty) : escE t ≤ 2 := by
  unfold escE
  cases t.has T_APX <;> cases t.has T_0F <;> cases t.has T_0F38 <;> cases t.has T_0F3A <;> decide

theorem writeCode_esc (t : Ty) (r : Reg) (c : Byte) : (writeCode t r c false).Plain (1 + escE t) := by
  unfold writeCode
  refine (Plain.bind (Len.dbIf _ _).plain fun _ => Plain.bind (Len.dbIf _ _).plain fun _ => Plain.bind (Len.dbIf _ _).plain fun _ =>
    (Len.db _).plain).mono ?_
  unfold escE
  cases t.has T_APX <;> cases t.has T_0F <;> cases t.has T_0F38 <;> cases t.has T_0F3A <;> decide

theorem evexLeg_len (r b x v : Reg) (t : Ty) (sc : Option (BitVec 4)) : (evexLeg r b x v t sc).Len 4 := by
  unfold evexLeg
  refine Len.bind0 (Len.throwIf _ _) fun _ => Len.bind0 (Len.throwIf _ _) fun _ => Len.bind (k := 1) (l := 3) (Len.db _) fun _ =>
    Len.bind (k := 1) (l := 2) (Len.db _) fun _ => Len.bind (k := 1) (l := 1) (Len.db _) fun _ => ?_
  cases sc
  · exact Len.db _
  · exact Len.db _

theorem evexHead_plain (r b x v : Reg) (t : Ty) (sc : Option (BitVec 4)) (d : Reg) (c : Byte) {S : Addr → Prop} {n N : Nat} {α : Type}
    {f : Enc α} (h : f.Out S n N) :
    (evexLeg r b x v t sc >>= fun _ => writeCode t d c false >>= fun _ => f).Out S n (5 + escE t + N) :=
  (Out.bindP (evexLeg_len _ _ _ _ _ _).plain fun _ => Out.bindP (writeCode_esc t d c) fun _ => h).mono
    (by omega)

theorem opROO_out {S : Addr → Prop} {n : Nat} (d : Reg) {op1 op2 : Operand} (t : Ty) (c : Byte) (k : Nat) (sc : Option (BitVec 4))
    (h1 : Sub S op1) (h2 : Sub S op2) (hn : isRip op1 = true ∨ isRip op2 = true → k = n) :
    (opROO d op1 op2 t c k sc).Out S n (11 + escE t) := by
  unfold opROO
  refine (Out.ite (N := 0) (M := 11 + escE t) (Len.pure _).plain.out ?_).mono (by omega)
  dsimp only
  refine Out.bind0 (Len.throwIf _ _) fun _ => ?_
  split
  · rename_i a ha
    have hs : (∃ b, S b ∧ SameAddr a b) ∧ (a.mode ≠ .modRM → k = n) := by
      split at ha
      · exact ⟨h1 a ha, fun hm => hn (.inl (by rw [ha]; simpa [isRip] using hm))⟩
      · exact ⟨h2 a ha, fun hm => hn (.inr (by rw [ha]; simpa [isRip] using hm))⟩
    obtain ⟨⟨b, hb, hab⟩, hk⟩ := hs
    refine (evexHead_plain _ _ _ _ _ _ _ _ (N := 6) ?_).mono (by omega)
    exact Out.bindL (k := 0) (M := 6) (by simpa using opAddr_out (a := b) (b := { a with immSize := k }) hb hab (fun h => hk (hab.2.2 ▸ h)) _) fun _ => Len.pure _
  · exact (evexHead_plain _ _ _ _ _ _ _ _ (N := 1) (Out.bindP (M := 1) (N := 0) (setModRM_len _ _ _).plain fun _ => (Len.pure _).plain.out)).mono (by omega)

theorem opROO_false {d : Reg} {op1 op2 : Operand} {t : Ty} {c : Byte} {k : Nat} {sc : Option (BitVec 4)} {w : List Act}
    (h : (opROO d op1 op2 t c k sc).Gives w false) : w = [] := by
  unfold opROO at h
  split at h
  · exact (Enc.gives_pure.mp h).1
  · dsimp only at h
    obtain ⟨w1, _, w2, g1, h, rfl⟩ := Enc.gives_bind.mp h
    generalize (if op1.isMEM = true then op1 else op2) = p at h
    cases p
    all_goals
      obtain ⟨_, _, _, _, h, _⟩ := Enc.gives_bind.mp h
      obtain ⟨_, _, _, _, h, _⟩ := Enc.gives_bind.mp h
      obtain ⟨_, _, _, _, h, _⟩ := Enc.gives_bind.mp h
      obtain ⟨_, _, _, _, h, _⟩ := Enc.gives_bind.mp h
      exact absurd (Enc.gives_pure.mp h).2 (by decide)

theorem opRR_plain (a b : Reg) (t : Ty) (c : Byte) : (opRR a b t c).Plain (headN t + 1) := by
  unfold opRR
  refine Plain.bind0 (Len.throwIf _ _) fun _ => Plain.bind0 (Len.throwIf _ _) fun _ => ?_
  intro w u g
  obtain ⟨w1, v, w2, g1, g2, rfl⟩ := Enc.gives_bind.mp g
  obtain ⟨w3, v', w4, g3, g4, rfl⟩ := Enc.gives_bind.mp g2
  rw [← List.append_assoc]
  exact Plain.bind (head_plain _ _ t a c) (fun _ => (setModRM_len _ _ _).plain) _ u
    (Enc.gives_bind.mpr ⟨_, _, _, Enc.gives_bind.mpr ⟨_, _, _, g1, g3, rfl⟩, g4, rfl⟩)

theorem Out.pureFalse {S : Addr → Prop} {n M : Nat} {f : Enc Unit} (h2 : f.Out S n M) :
    ((pure false : Enc Bool) >>= fun b => if b = true then Pure.pure () else f).Out S n M :=
  (Enc.Out.bindDone (N := 0) (Len.pure _).plain.out (fun _ h => (Enc.gives_pure.mp h).1) h2).mono (by omega)

theorem opMR_out2 {S : Addr → Prop} {a b : Addr} (hs : S a) (hab : SameAddr b a) {n : Nat} (hn : a.mode ≠ .modRM → b.immSize = n)
    (r : Reg) (t : Ty) (c : Byte) (t2 : Ty) (c2 : Option Byte) (h2 : t2 = 0 ∨ (a.mode ≠ .modRM → n = 0)) :
    (opMR b r t c t2 c2).Out S n (max (bif t2 == 0 then 0 else 11 + escE t2) (headN t + 6)) := by
  unfold opMR
  dsimp only
  have last : (do
        Enc.throwIf b.is64bitDisp Err.CANT_USE_64BIT_DISP
        Enc.throwIf (!t.has T_ALLOW_DIFF_SIZE && decide (r.bit ≤ 64) && decide (b.o.bit > 0) && b.o.bit != r.bit)
            Err.BAD_MEM_SIZE
        let rex2 ← rex (Operand.mem b) (Operand.reg r) t
        writeCode t r c rex2
        opAddr b r.idx : Enc Unit).Out S n (headN t + 6) :=
    Out.bind0 (Len.throwIf _ _) fun _ => Out.bind0 (Len.throwIf _ _) fun _ => head_out (opAddr_out hs hab hn _)
  by_cases h0 : t2 = 0
  · rw [if_neg (not_not_intro h0)]
    exact (Out.pureFalse last).mono (by omega)
  · rw [if_pos h0]
    have e0 : (t2 == 0) = false := by simpa using h0
    rw [e0]
    refine Enc.Out.bindDone (opROO_out _ _ _ _ _ (Sub.mem hs hab) (Sub.reg _) fun h => ?_) (fun _ h => opROO_false h) last
    refine (h2.resolve_left h0 ?_).symm
    rw [← hab.2.2]
    simpa [isRip] using h

theorem opMR_out {S : Addr → Prop} {a b : Addr} (hs : S a) (hab : SameAddr b a) {n : Nat} (hn : a.mode ≠ .modRM → b.immSize = n)
    (r : Reg) (t : Ty) (c : Byte) : (opMR b r t c).Out S n (headN t + 6) :=
  (opMR_out2 hs hab hn r t c 0 none (.inl rfl)).mono (by simp)

theorem opRO_out {S : Addr → Prop} {n : Nat} (r : Reg) {op : Operand} (t : Ty) (c : Byte) (cond : Bool) (k : Nat) (hs : Sub S op)
    (hn : isRip op = true → k = n) : (opRO r op t c cond k).Out S n (headN t + 6) := by
  cases op with
  | mem a => 
    obtain ⟨b, hb, hab⟩ := hs a rfl
    exact opMR_out (a := b) (b := { a with immSize := k }) hb hab (fun h => hn (by rw [← hab.2.2] at h; simpa [isRip] using h)) _ _ _
  | reg q =>
    exact (Out.bind0 (N := headN t + 1) (Len.throwIf _ _) fun _ => (opRR_plain _ _ _ _).out).mono (by omega)

theorem headN_or (t : Ty) : headN (t ||| T_ALLOW_ABCDH) = headN t := by
  unfold headN pfN escN
  rw [has_or, has_or, has_or]
  rw [show T_ALLOW_ABCDH.has T_F2 = false by decide, show T_ALLOW_ABCDH.has T_F3 = false by decide,
    show T_ALLOW_ABCDH.has (T_0F38 ||| T_0F3A) = false by decide]
  simp only [Bool.or_false]

/-- both the EVEX and the legacy form -/
def bothN (t : Ty) : Nat := max (bif t.has T_APX then 11 else 0) (headN t + 6)

theorem rext_last {S : Addr → Prop} {n : Nat} (op : Operand) (bit : Nat) (e : BitVec 5) (t : Ty) (c : Byte) (k ob : Nat) :
    Sub S op → (isRip op = true → k = n) → (match op with
    | .mem a => opMR { a with immSize := k } (Reg.gp e ob) t c
    | .reg q => do
      Enc.throwIf (!q.isREG bit) .BAD_COMBINATION
      let q' ← Enc.lift (q.changeBit ob)
      opRR (Reg.gp e ob) q' (t ||| T_ALLOW_ABCDH) c : Enc Unit).Out S n (headN t + 6) := by
  intro hs hn
  cases op with
  | mem a => 
    obtain ⟨b, hb, hab⟩ := hs a rfl
    exact opMR_out (a := b) (b := { a with immSize := k }) hb hab (fun h => hn (by rw [← hab.2.2] at h; simpa [isRip] using h)) _ _ _
  | reg q =>
    refine Out.bind0 (Len.throwIf _ _) fun _ => Out.bind0 (Len.lift _) fun q' => ?_
    have := opRR_plain (Reg.gp e ob) q' (t ||| T_ALLOW_ABCDH) c
    rw [headN_or] at this
    exact this.out.mono (by omega)

theorem opRext_out {S : Addr → Prop} {n : Nat} {op : Operand} (bit : Nat) (e : BitVec 5) (t : Ty) (c : Byte) (dis : Bool) (k : Nat)
    (d : Option Reg) (hs : Sub S op) (hn : isRip op = true → k = n)
    (ha : isRip op = true → t.has T_APX = true → d.isSome = true ∨ op.hasRex2NFZU = true → n = 0) :
    (opRext op bit e t c dis k d).Out S n (bothN t) := by
  unfold opRext bothN
  dsimp only
  have last := rext_last op bit e t c k (if (dis && op.bit == 64) = true then 32 else op.bit) hs hn
  split
  · rename_i hc
    rw [Bool.and_eq_true, Bool.or_eq_true] at hc
    rw [hc.1]
    refine (Enc.Out.bindDone (N := 11 + escE t) ?_ (fun _ h => opROO_false h) last).mono (by simp [escE, hc.1])
    exact opROO_out _ _ _ _ _ hs (Sub.reg _) fun h => (ha (h.resolve_right (by simp [isRip])) hc.1 hc.2).symm
  · exact (Out.pureFalse last).mono (by omega)

/-! ## VEX and EVEX -/

theorem vex_plain (r b : Reg) (v : Option Reg) (t : Ty) (c : Byte) (x : Bool) : (vex r b v t c x).Plain 4 := by
  unfold vex
  dsimp only
  refine Plain.bind0 (Len.throwIf _ _) fun _ => (Plain.ite (N := 3) (M := 4) ?_ ?_).mono (by omega)
  · exact Plain.bind (k := 1) (l := 2) (Len.db _).plain fun _ => Plain.bind (k := 1) (l := 1) (Len.db _).plain fun _ => (Len.db _).plain
  · exact Plain.bind (k := 1) (l := 3) (Len.db _).plain fun _ => Plain.bind (k := 1) (l := 2) (Len.db _).plain fun _ =>
      Plain.bind (k := 1) (l := 1) (Len.db _).plain fun _ => (Len.db _).plain

theorem evex_plain (r b : Reg) (v : Option Reg) (t : Ty) (c : Byte) (x : Option Reg) (bc : Bool) (aaa : BitVec 3) (VL : Nat) (hi : Bool) :
    (evex r b v t c x bc aaa VL hi).Plain 5 := by
  unfold evex
  dsimp only
  refine Plain.bind0 (Len.throwIf _ _) fun _ => Plain.bind0 (Len.lift _) fun ln => ?_
  have last : ∀ (a b c d e : Byte) (n : Nat), (do Enc.db a; Enc.db b; Enc.db c; Enc.db d; Enc.db e; pure n : Enc Nat).Plain 5 := by
    intro a b c d e n
    exact Plain.bind (k := 1) (l := 4) (Len.db _).plain fun _ => Plain.bind (k := 1) (l := 3) (Len.db _).plain fun _ =>
      Plain.bind (k := 1) (l := 2) (Len.db _).plain fun _ => Plain.bind (k := 1) (l := 1) (Len.db _).plain fun _ =>
      Plain.bind (k := 1) (l := 0) (Len.db _).plain fun _ => (Len.pure _).plain
  split
  · exact Plain.bind0 (Len.lift _) fun _ => last _ _ _ _ _ _
  · exact Plain.bind0 (Len.pure _) fun _ => last _ _ _ _ _ _

/-- the address `opVex` passes to `opAddr` -/
def vexAddr (a : Addr) (t : Ty) (n : Nat) (i : Option Byte) : Addr := { a with
  permitVsib := a.permitVsib || t.has T_VSIB
  disp8N := if n ≠ 0 then n else a.disp8N
  immSize := if i.isSome then 1 else a.immSize }

theorem opVex_out {S : Addr → Prop} (r : Reg) (v : Option Reg) {op : Operand} (t : Ty) (c : Byte)
    (i : Option Byte) (hs : Src S op) : (opVex r v op t c i).Out S 0 (12 + optSize i) := by
  unfold opVex
  dsimp only
  cases op with
  | mem a =>
    dsimp only
    have last : ∀ n : Nat, (opAddr (vexAddr a t n i) r.idx >>= fun _ => dbOpt i).Out S 0 (6 + optSize i) := by
      intro n
      obtain ⟨b, hb, hab⟩ := hs.sub a rfl
      refine Out.bindL (k := optSize i) (opAddr_out (a := b) (b := vexAddr a t n i) hb hab (fun _ => ?_) _) fun _ => Len.dbOpt i
      show (if i.isSome = true then 1 else a.immSize) = _
      rw [hs.zero a rfl]; rfl
    refine (Out.bindP (M := 1) (N := 11 + optSize i) (dbIf_plain _ _) fun _ => ?_).mono (by omega)
    split
    · refine Out.bind0 (Len.throwIf _ _) fun _ => Out.bind0 (Len.throwIf _ _) fun _ => ?_
      exact (Out.bindP (evex_plain _ _ _ _ _ _ _ _ _ _) fun n => last n).mono (by omega)
    · exact (Out.bindP (vex_plain _ _ _ _ _ _) fun _ => Out.bind0 (Len.pure _) fun n => last n).mono (by omega)
  | reg b =>
    dsimp only
    have last : (do setModRM 3 r.idx b.idx; dbOpt i : Enc Unit).Plain (1 + optSize i) :=
      Plain.bind (setModRM_len _ _ _).plain fun _ => (Len.dbOpt i).plain
    split
    · refine (Out.bindP (M := 5) (N := 1 + optSize i) (evex_plain _ _ _ _ _ _ _ _ _ _) fun _ => ?_).mono (by omega)
      exact last.out
    · exact (Plain.bind (vex_plain _ _ _ _ _ _) fun _ => last).out.mono (by omega)


section Families
variable {S : Addr → Prop}

theorem opRRO_out (d r1 : Reg) {op : Operand} (t : Ty) (c : Byte) (i : Option Byte) (hs : Src S op)
    (hi : isRip op = true → i.isSome = true → (d.hasRex2 || r1.hasRex2 || op.hasRex2 || d.nf) = false) :
    (opRRO d r1 op t c i).Out S 0 (13 + optSize i) := by
  unfold opRRO
  refine Out.bind0 (Len.throwIf _ _) fun _ => ?_
  dsimp only
  split
  · rename_i hc
    refine (Out.bindL (k := optSize i) (M := 13) ?_ fun _ => Len.dbOpt i).mono (by omega)
    refine (opROO_out _ _ _ _ _ hs.sub (Sub.reg _) fun h => ?_).mono (Nat.add_le_add_left (escE_le _) 11)
    cases i with
    | none => rfl
    | some b => rw [hi (h.resolve_right (by simp [isRip])) rfl] at hc; cases hc
  · exact (opVex_out _ _ _ _ _ hs).mono (by omega)

theorem opAVX_out (x : Reg) {op1 : Operand} {op2 : Option Operand} (t : Ty) (c : Byte) (i : Option Byte)
    (h1 : Src S op1) (h2 : ∀ o, op2 = some o → Src S o) : (opAVX_X_X_XM x op1 op2 t c i).Out S 0 (12 + optSize i) := by
  unfold opAVX_X_X_XM
  dsimp only
  refine Out.bind0 (Len.throwIf _ _) fun _ => opVex_out _ _ _ _ _ ?_
  cases op2 with
  | none => exact h1
  | some o => exact h2 o rfl

theorem opAVXI_out (x : Reg) {op : Operand} (t : Ty) (c : Byte) (i : Option Byte)
    (hs : Src S op) : (opAVX_X_XM_IMM x op t c i).Out S 0 (12 + optSize i) :=
  opAVX_out _ _ _ _ (Src.reg _) fun _ h => by cases h; exact hs

theorem opAVXK_out (k x : Reg) {op : Operand} (t : Ty) (c : Byte) (i : Option Byte)
    (hs : Src S op) : (opAVX_K_X_XM k x op t c i).Out S 0 (12 + optSize i) :=
  Out.bind0 (Len.throwIf _ _) fun _ => opVex_out _ _ _ _ _ hs

theorem opCvt_out (x : Reg) {op : Operand} (t : Ty) (c : Byte) (hs : Src S op) :
    (opCvt x op t c).Out S 0 12 := opVex_out _ _ _ _ _ hs
theorem opCvt2_out (x : Reg) {op : Operand} (t : Ty) (c : Byte) (hs : Src S op) :
    (opCvt2 x op t c).Out S 0 12 := Out.bind0 (Len.throwIf _ _) fun _ => opCvt_out _ _ _ hs
theorem opCvt3_out (x y : Reg) {op : Operand} (t t1 t2 : Ty) (c : Byte) (hs : Src S op) :
    (opCvt3 x y op t t1 t2 c).Out S 0 12 := by
  refine Out.bind0 (Len.throwIf _ _) fun _ => opVex_out _ _ _ _ _ ?_
  split
  · exact Src.reg _
  · exact hs
theorem opCvt5_out (x : Reg) {op : Operand} (t : Ty) (c : Byte) (hs : Src S op) :
    (opCvt5 x op t c).Out S 0 12 := Out.bind0 (Len.throwIf _ _) fun _ => opVex_out _ _ _ _ _ hs
theorem opCvt6_out (x y : Reg) {op : Operand} (t : Ty) (c : Byte) (hs : Src S op) :
    (opCvt6 x y op t c).Out S 0 12 := by
  unfold opCvt6
  dsimp only
  exact (Out.ite (opVex_out _ _ _ _ _ hs) (Len.throw (k := 0) _).plain.out).mono (by simp [optSize])
theorem opEncoding_out (df : PrefEnc) (x y : Reg) {op : Option Operand} (t : Ty) (c : Byte) (en : PrefEnc)
    (i : Option Byte) (tv te : Ty) (s : Nat) (hs : ∀ o, op = some o → Src S o) :
    (opEncoding df x y op t c en i tv te s).Out S 0 (12 + optSize i) :=
  Out.bind0 (Len.lift _) fun _ => opAVX_out _ _ _ _ (Src.reg _) hs
theorem opVmov_out {op : Operand} (x : Reg) (t : Ty) (c : Byte) (m : Bool) (hs : Src S op) :
    (opVmov op x t c m).Out S 0 12 := Out.bind0 (Len.throwIf _ _) fun _ => opVex_out _ _ _ _ _ hs
theorem opGather_out (x : Reg) {a : Addr} (y : Reg) (t : Ty) (c : Byte) (m : Nat) (hs : Src S (.mem a)) :
    (opGather x a y t c m).Out S 0 12 := by
  unfold opGather
  dsimp only
  exact Out.bind0 (Len.throwIf _ _) fun _ => Out.bind0 (Len.throwIf _ _) fun _ => Out.bind0 (Len.throwIf _ _) fun _ =>
    opAVX_out _ _ _ _ (Src.reg _) fun _ h => by cases h; exact hs
theorem opGather2_out (x : Reg) {a : Addr} (t : Ty) (c : Byte) (m : Nat) (hs : Src S (.mem a)) :
    (opGather2 x a t c m).Out S 0 12 := by
  unfold opGather2
  dsimp only
  exact Out.bind0 (Len.throwIf _ _) fun _ => Out.bind0 (Len.throwIf _ _) fun _ => Out.bind0 (Len.throwIf _ _) fun _ =>
    Out.bind0 (Len.throwIf _ _) fun _ => opVex_out _ _ _ _ _ (hs)
theorem opGatherFetch_out {a : Addr} (x : Reg) (t : Ty) (c : Byte) (k : Kind) (hs : Src S (.mem a)) :
    (opGatherFetch a x t c k).Out S 0 12 :=
  Out.bind0 (Len.throwIf _ _) fun _ => Out.bind0 (Len.throwIf _ _) fun _ => opVex_out _ _ _ _ _ (hs)

theorem escE_APX (t : Ty) : escE (T_APX ||| t) = 0 := by
  unfold escE; rw [has_or, show T_APX.has T_APX = true by decide]; rfl

theorem opKmov_out (k : Reg) {op : Operand} (rv : Bool) (sz : Nat) (hs : Src S op) :
    (opKmov k op rv sz).Out S 0 12 := by
  unfold opKmov
  dsimp only
  refine Out.bind0 (Len.throwIf _ _) fun _ => ?_
  have sub : ∀ (p : Prop) [Decidable p] (a b : Operand), Src S a → Src S b → Src S (if p then a else b) := by
    intro p _ a b ha hb; split <;> assumption
  refine (Enc.Out.bindDone (opROO_out _ _ _ _ _ (sub _ _ _ (Src.reg _) hs).sub (sub _ _ _ hs (Src.reg _)).sub fun _ => rfl)
    (fun _ h => opROO_false h) (opVex_out _ _ _ _ _ (sub _ _ _ (Src.reg _) hs))).mono ?_
  rw [escE_APX]; decide

theorem opAMX_out (r : Reg) {a : Addr} (t : Ty) (c : Byte) (hs : Src S (.mem a)) : (opAMX r a t c).Out S 0 12 := by
  unfold opAMX
  dsimp only
  refine Out.bind0 (Len.throwIf _ _) fun _ => ?_
  obtain ⟨b, hb, hab⟩ := hs.sub a rfl
  have h' : Src S (.mem { a with opt := false }) := Src.mem hb hab (hs.zero a rfl)
  refine (Enc.Out.bindDone (opROO_out _ _ _ _ _ h'.sub (Sub.reg _) fun _ => rfl) (fun _ h => opROO_false h) (opVex_out _ _ _ _ _ h')).mono ?_
  rw [escE_APX]; decide

theorem opSSE_out (r : Reg) {op : Operand} (t : Ty) (c : Byte) (v : Option (Operand → Operand → Bool)) (i : Option Byte) (hs : Sub S op) :
    (opSSE r op t c v i).Out S 0 (headN t + 6 + optSize i) :=
  Out.bind0 (Len.throwIf _ _) fun _ => Out.bind0 (Len.throwIf _ _) fun _ =>
    Out.bindL (k := optSize i) (opRO_out _ _ _ _ _ hs fun _ => rfl) fun _ => Len.dbOpt i

theorem opMMXI_out (r : Reg) (b c : Byte) (e : BitVec 5) : (opMMX_IMM r b c e).Out S 0 8 := by
  refine (Plain.bind0 (N := 8) (Len.throwIf _ _) fun _ => ?_).out
  refine (Plain.bind (opRR_plain _ _ _ _) fun _ => (Len.db _).plain).mono ?_
  split <;> decide

theorem opMMX_out (r : Reg) {op : Operand} (c : Byte) (t p : Ty) (i : Option Byte) (hs : Sub S op) :
    (opMMX r op c t p i).Out S 0 (max (headN (t ||| p)) (headN t) + 6 + optSize i) := by
  unfold opMMX
  refine (opSSE_out _ _ _ _ _ hs).mono ?_
  split <;> omega

theorem opMovXMM_out {op1 op2 : Operand} (t : Ty) (c : Byte) (h1 : Src S op1) (h2 : Src S op2) :
    (opMovXMM op1 op2 t c).Out S 0 (headN t + 6) := by
  refine Out.bind0 (Len.throwIf _ _) fun _ => ?_
  split
  · split
    · obtain ⟨b, hb, hab⟩ := h2.sub _ rfl; exact opMR_out hb hab (fun _ => h2.zero _ rfl) _ _ _
    · exact (Len.throw (k := 0) _).plain.out.mono (by omega)
  · split
    · obtain ⟨b, hb, hab⟩ := h1.sub _ rfl; exact opMR_out hb hab (fun _ => h1.zero _ rfl) _ _ _
    · exact (Len.throw (k := 0) _).plain.out.mono (by omega)
  · exact (Len.throw (k := 0) _).plain.out.mono (by omega)

theorem opExt_out {op : Operand} (r : Reg) (c i : Byte) (m : Bool) (hs : Sub S op) : (opExt op r c i m).Out S 0 13 := by
  unfold opExt
  refine Out.bind0 (Len.throwIf _ _) fun _ => (Out.ite (N := 8) (M := 13) ?_ ?_).mono (by omega)
  · exact (Plain.bind (k := 1) (l := 7) (dbIf_plain _ _) fun _ => Plain.bind (k := 6) (l := 1) (opRR_plain _ _ T_0F _) fun _ => (Len.db _).plain).out
  · exact (opSSE_out _ _ _ _ (some i) hs).mono (show headN (T_66 ||| T_0F3A) + 6 + 1 ≤ 13 by decide)

theorem opSetCC_out {op : Operand} (c : Byte) (hs : Sub S op) :
    (opSetCC op c).Out S 0 12 := by
  unfold opSetCC
  refine (Enc.Out.bindDone (opROO_out _ _ _ _ _ hs (Sub.reg _) fun _ => rfl) (fun _ h => opROO_false h)
    (opRext_out _ _ _ _ _ _ _ hs (fun _ => rfl) fun _ h => ?_)).mono ?_
  · cases (show T_0F.has T_APX = false by decide).symm.trans h
  · decide

theorem has_if {m t : Ty} (h : t.has m = false) (a : Prop) [Decidable a] : (if a then t else 0).has m = false := by
  split
  · exact h
  · unfold Ty.has; rw [show (0 : Ty) &&& m = 0 from BitVec.zero_and]; rfl

theorem shiftType_both (e : BitVec 4) (d : Option Reg) : bothN (shiftType e d) = 11 := by
  unfold bothN headN pfN escN shiftType
  have e1 : ∀ (a b : Prop) [Decidable a] [Decidable b] (m : Ty), T_NF.has m = false → T_ND1.has m = false →
      (((T_APX ||| T_CODE1_IF1) ||| (if a then T_NF else 0)) ||| (if b then T_ND1 else 0)).has m = (T_APX ||| T_CODE1_IF1).has m := by
    intro a b _ _ m h1 h2
    rw [has_or, has_or, has_if h1, has_if h2, Bool.or_false, Bool.or_false]
  rw [e1 _ _ _ (by decide) (by decide), e1 _ _ _ (by decide) (by decide), e1 _ _ _ (by decide) (by decide), e1 _ _ _ (by decide) (by decide)]
  decide

/-- shifts with an immediate: `hi` excludes the EVEX forms with a `rip` operand and a count other than 1 -/
theorem opShiftI_out {op : Operand} (m : BitVec 32) (e : BitVec 4) (d : Option Reg) (hs : Sub S op)
    (hi : isRip op = true → d.isSome = true ∨ op.hasRex2NFZU = true → m = 1) : (opShiftI op m e d).Out S 0 12 := by
  have hl : (Enc.dbIf (m ≠ 1) (m.setWidth 8)).Len (if m ≠ 1 then 1 else 0) := by
    have := Len.dbIf (decide (m ≠ 1)) (m.setWidth 8)
    by_cases h : m = 1
    · rw [if_neg (not_not_intro h)]; rw [decide_eq_false (not_not_intro h)] at this ⊢; exact this
    · rw [if_pos h]; rw [decide_eq_true h] at this ⊢; exact this
  have key : (do
      opRext op 0 ((e &&& 7).setWidth 5) (shiftType e d) (if m = 1 then 0xD0 else 0xC0) false (if m ≠ 1 then 1 else 0) d
      Enc.dbIf (m ≠ 1) (m.setWidth 8) : Enc Unit).Out S 0 12 := by
    refine (Out.bindL (k := if m ≠ 1 then 1 else 0) (M := 11) ?_ fun _ => hl).mono (by split <;> omega)
    rw [← shiftType_both e d]
    refine opRext_out _ _ _ _ _ _ _ hs (fun _ => rfl) fun h1 _ h2 => ?_
    rw [if_neg (not_not_intro (hi h1 h2))]
  unfold opShiftI
  dsimp only
  split
  · exact Out.bind0 (Len.throwIf _ _) fun _ => Out.bind0 (Len.throwIf _ _) fun _ => key
  · exact Out.bind0 (Len.throwIf _ _) fun _ => key

theorem opShiftCL_out {op : Operand} (cl : Reg) (e : BitVec 4) (d : Option Reg) (hs : Sub S op) : (opShiftCL op cl e d).Out S 0 11 := by
  refine Out.bind0 (Len.throwIf _ _) fun _ => Out.bind0 (Len.throwIf _ _) fun _ => ?_
  rw [← shiftType_both e d]
  exact opRext_out _ _ _ _ _ _ _ hs (fun _ => rfl) fun _ _ _ => rfl

theorem opShxd_out (d : Reg) {op : Operand} (r : Reg) (b c c2 : Byte) (cl : Option Reg) (hs : Sub S op) :
    (opShxd d op r b c c2 cl).Out S 0 13 := by
  unfold opShxd
  dsimp only
  refine Out.bind0 (Len.throwIf _ _) fun _ => Out.bind0 (Len.throwIf _ _) fun _ => ?_
  have hl : (Enc.dbIf cl.isNone b).Len (if cl.isSome = true then 0 else 1) := by
    have := Len.dbIf cl.isNone b
    cases cl <;> exact this
  refine (Enc.Out.bindDoneL (opROO_out _ _ _ _ _ hs (Sub.reg _) fun _ => rfl) (fun _ h => opROO_false h) (opRO_out _ _ _ _ _ hs fun _ => rfl) hl).mono ?_
  rw [show T_APX ||| T_NF ||| (if d.isREG = true then T_ND1 else 0) = T_APX ||| (T_NF ||| (if d.isREG = true then T_ND1 else 0)) from
    BitVec.or_assoc .., escE_APX]
  refine Nat.le_trans (Nat.add_le_add_left (m := 1) (by split <;> decide) _) (by decide)

theorem opRO_MR_out {op1 op2 : Operand} (c : Byte) (h1 : Src S op1) (h2 : Src S op2) : (opRO_MR op1 op2 c).Out S 0 11 := by
  cases op2 with
  | mem a =>
    obtain ⟨b, hb, hab⟩ := h2.sub a rfl
    exact Out.bind0 (Len.throwIf _ _) fun _ => opMR_out hb hab (fun _ => h2.zero _ rfl) _ 0 _
  | reg r => exact opRO_out _ 0 _ _ _ h1.sub fun _ => rfl

/-- The immediate of an instruction takes 1, 2 or 4 bytes and is written last. -/
theorem getImmBit_len {N : Nat} {op : Operand} {imm : BitVec 32} {f : Nat → Enc Unit}
    (h : ∀ n, n = 8 ∨ n = 16 ∨ n = 32 → (f n).Out S 0 N) : (getImmBit op imm >>= f).Out S 0 N := by
  intro w v g
  obtain ⟨w1, n, w2, g1, g2, rfl⟩ := Enc.gives_bind.mp g
  have : w1 = [] ∧ (n = 8 ∨ n = 16 ∨ n = 32) := by
    unfold getImmBit verifyMemHasSize at g1
    obtain ⟨_, _, _, g3, g4, rfl⟩ := Enc.gives_bind.mp g1
    obtain ⟨_, rfl⟩ := Enc.gives_throwIf.mp g3
    dsimp only at g4
    obtain ⟨_, _, _, g5, g6, rfl⟩ := Enc.gives_bind.mp g4
    obtain ⟨_, rfl⟩ := Enc.gives_throwIf.mp g5
    obtain ⟨rfl, rfl⟩ := Enc.gives_pure.mp g6
    refine ⟨rfl, ?_⟩
    generalize op.isBit 8 = a, op.isBit 96 = b, isInDisp8 imm = c, isInDisp16relaxed imm = d
    revert a b c d
    decide
  obtain ⟨rfl, hn⟩ := this
  exact h n hn _ _ g2

theorem rex_plain (op1 op2 : Operand) (t : Ty) : (rex op1 op2 t).Plain (4 + pfN t) := by
  intro w v g
  have := rex_out _ _ _ _ _ g
  exact ⟨this.1, by have := this.2.1; cases v <;> simp at this <;> omega⟩

theorem opOI_out {op : Operand} (imm : BitVec 32) (c : Byte) (e : BitVec 5) (hs : Sub S op) : (opOI op imm c e).Out S 0 15 := by
  unfold opOI
  refine getImmBit_len fun n hn => ?_
  have hk : n / 8 ≤ 4 := by omega
  dsimp only
  split
  · exact ((Plain.bind (k := 4) (l := 5) (rex_plain _ _ 0) fun _ => Plain.bind (k := 1) (l := 4) (Len.db _).plain fun _ =>
      (Len.dbN _ _).plain.mono hk).mono (by decide)).out
  · refine (Out.bindL (M := 11) (k := n / 8) ?_ fun _ => Len.dbN _ _).mono (by omega)
    exact opRext_out _ _ 0 _ _ _ _ hs (fun _ => rfl) fun _ h _ => nomatch (show Ty.has 0 T_APX = false by decide).symm.trans h

theorem opROI_out (d : Reg) {op : Operand} (imm : BitVec 32) (t : Ty) (e : BitVec 5) (hs : Sub S op) :
    (opROI d op imm t e).Out S 0 (15 + escE t) := by
  unfold opROI
  refine getImmBit_len fun n hn => ?_
  have hk : n / 8 ≤ 4 := by omega
  exact (Out.bindL (k := n / 8) (M := 11 + escE t) (opROO_out _ _ _ _ _ hs (Sub.reg _) fun _ => rfl) fun _ => Len.dbN _ _).mono (by omega)

theorem Out.void {α : Type} {n N : Nat} {m : Enc α} (h : m.Out S n N) : (m >>= fun _ => Pure.pure () : Enc Unit).Out S n N :=
  Out.bindL (k := 0) (by rwa [Nat.zero_add]) fun _ => Len.pure _

theorem opIncDec_out (d : Reg) {op : Operand} (e : BitVec 5) (hs : Sub S op) : (opIncDec d op e).Out S 0 11 := by
  unfold opIncDec
  dsimp only
  split
  · refine Out.void ((opROO_out _ _ _ _ _ hs (Sub.reg _) fun _ => rfl).mono ?_)
    rw [BitVec.or_assoc, BitVec.or_assoc, escE_APX]; decide
  · refine Out.bind0 (Len.throwIf _ _) fun _ => ?_
    exact opRext_out _ _ 0 _ _ _ _ hs (fun _ => rfl) fun _ _ _ => rfl

theorem opPushPop_out {op : Operand} (c : Byte) (e : BitVec 5) (alt : Byte) (hs : Src S op) : (opPushPop op c e alt).Out S 0 12 := by
  unfold opPushPop
  split
  · exact ((Plain.bind (rex2_len _ _ _ _ _).plain fun _ => (Len.db _).plain).mono (by decide)).out
  · dsimp only
    split
    · refine Out.bindP (M := 1) (N := 11) (dbIf_plain _ _) fun _ => ?_
      cases op with
      | reg r =>
        dsimp only
        split
        · exact ((Plain.bind (dbIf_plain _ _) fun _ => (Len.db _).plain).mono (by decide)).out
        · exact (Len.throw (k := 0) _).plain.out.mono (by omega)
      | mem a =>
        obtain ⟨b, hb, hab⟩ := hs.sub a rfl
        exact opMR_out hb hab (fun _ => hs.zero _ rfl) _ T_ALLOW_DIFF_SIZE _
    · exact (Len.throw (k := 0) _).plain.out.mono (by omega)

theorem opMovxx_out (r : Reg) {op : Operand} (c : Byte) (hs : Sub S op) : (opMovxx r op c).Out S 0 11 :=
  Out.bind0 (Len.throwIf _ _) fun _ => Out.bind0 (Len.throwIf _ _) fun _ =>
    opRO_out _ (T_0F ||| T_ALLOW_DIFF_SIZE) _ _ _ hs fun _ => rfl

theorem opCnt_out (r : Reg) {op : Operand} (c : Byte) (hs : Sub S op) : (opCnt r op c).Out S 0 12 :=
  Out.bind0 (Len.throwIf _ _) fun _ => Out.bind0 (Len.throwIf _ _) fun _ =>
    opRO_out _ (T_F3 ||| T_0F) _ _ _ hs fun _ => rfl

theorem Src.addr {a : Addr} (hs : Src S (.mem a)) (r : BitVec 5) : (opAddr a r).Out S 0 6 := by
  obtain ⟨b, hb, hab⟩ := hs.sub a rfl
  exact opAddr_out hb hab (fun _ => hs.zero _ rfl) _

theorem opFpuMem_out {a : Addr} (x y z u v : Byte) (hs : Src S (.mem a)) : (opFpuMem a x y z u v).Out S 0 11 := by
  unfold opFpuMem
  dsimp only
  exact Out.bind0 (Len.throwIf _ _) fun _ => Out.bind0 (Len.throwIf _ _) fun _ =>
    Out.bindP (M := 4) (N := 7) (rex_plain _ _ 0) fun _ => Out.bindP (M := 1) (N := 6) (Len.db _).plain fun _ => hs.addr _

theorem opFpuFpu_out (a b : Reg) (x y : BitVec 16) : (opFpuFpu a b x y).Out S 0 2 := by
  unfold opFpuFpu
  dsimp only
  exact (Plain.bind0 (Len.throwIf _ _) fun _ => Plain.bind (k := 1) (l := 1) (Len.db _).plain fun _ => (Len.db _).plain).out

theorem opFpu_out (a : Reg) (x y : Byte) : (opFpu a x y).Out S 0 2 :=
  (Plain.bind (k := 1) (l := 1) (Len.db _).plain fun _ => (Len.db _).plain).out

theorem opLoadSeg_out {a : Addr} (r : Reg) (t : Ty) (c : Byte) (hs : Src S (.mem a)) : (opLoadSeg a r t c).Out S 0 (12 + pfN t) :=
  (Out.bind0 (Len.throwIf _ _) fun _ => Out.bind0 (Len.throwIf _ _) fun _ => Out.bindP (rex_plain _ _ _) fun _ =>
    Out.bindP (M := 1) (N := 7) (dbIf_plain _ _) fun _ => Out.bindP (M := 1) (N := 6) (Len.db _).plain fun _ => hs.addr _).mono (by omega)

theorem opMIB_out {a : Addr} (r : Reg) (t : Ty) (c : Byte) (hs : Src S (.mem a)) : (opMIB a r t c).Out S 0 (headN t + 6) := by
  obtain ⟨b, hb, hab⟩ := hs.sub a rfl
  exact Out.bind0 (Len.throwIf _ _) fun _ => opMR_out (b := { a with opt := false }) hb hab (fun _ => hs.zero a rfl) _ _ _

theorem opInOutDX_out (a d : Reg) (c : Byte) : (opInOutDX a d c).Out S 0 2 := by
  have e : (Enc.throw (α := Unit) .BAD_COMBINATION).Plain 2 := (Len.throw (k := 2) _).plain
  have e1 : ∀ b, (Enc.db b).Plain 2 := fun b => (Len.db b).plain.mono (by decide)
  have e2 : ∀ b c, (do Enc.db b; Enc.db c : Enc Unit).Plain 2 := fun b c => Plain.bind (k := 1) (l := 1) (Len.db _).plain fun _ => (Len.db _).plain
  unfold opInOutDX
  refine Plain.out ?_
  repeat' split
  all_goals first | exact e | exact e1 _ | exact e2 _ _

theorem opInOutImm_out (a : Reg) (c v : Byte) : (opInOutImm a c v).Out S 0 3 := by
  have e : (Enc.throw (α := Unit) .BAD_COMBINATION).Plain 3 := (Len.throw (k := 3) _).plain
  have e2 : ∀ b c, (do Enc.db b; Enc.db c : Enc Unit).Plain 2 := fun b c => Plain.bind (k := 1) (l := 1) (Len.db _).plain fun _ => (Len.db _).plain
  unfold opInOutImm
  refine Plain.out ?_
  repeat' split
  all_goals first | exact e | exact (e2 _ _).mono (by decide) | exact Plain.bind (k := 1) (l := 2) (Len.db _).plain fun _ => e2 _ _

theorem opCcmp_out {op1 op2 : Operand} (dfv : Int) (c : Byte) (sc : BitVec 4) (h1 : Sub S op1) (h2 : Sub S op2) :
    (opCcmp op1 op2 dfv c sc).Out S 0 11 :=
  Out.bind0 (Len.throwIf _ _) fun _ => Out.void (opROO_out _ (T_APX ||| T_CODE1_IF1) _ _ _ h1 h2 fun _ => rfl)

theorem opCcmpi_out {op : Operand} (imm : BitVec 32) (dfv : Int) (sc : BitVec 4) (hs : Sub S op) :
    (opCcmpi op imm dfv sc).Out S 0 15 := by
  refine Out.bind0 (Len.throwIf _ _) fun _ => getImmBit_len fun n hn => ?_
  have hk : n / 8 ≤ 4 := by omega
  exact (Out.bindL (k := n / 8) (M := 11) (opROO_out _ (T_APX ||| T_CODE1_IF1) _ _ _ hs (Sub.reg _) fun _ => rfl)
    fun _ => Len.dbN _ _).mono (by omega)

theorem opTesti_out {op : Operand} (imm : BitVec 32) (dfv : Int) (sc : BitVec 4) (hs : Sub S op) :
    (opTesti op imm dfv sc).Out S 0 15 := by
  refine Out.bind0 (Len.throwIf _ _) fun _ => Out.bind0 (Len.throwIf _ _) fun _ => ?_
  have hk : min op.bit 32 / 8 ≤ 4 := by omega
  exact (Out.bindL (k := min op.bit 32 / 8) (M := 11) (opROO_out _ (T_APX ||| T_CODE1_IF1) _ _ _ hs (Sub.reg _) fun _ => rfl)
    fun _ => Len.dbN _ _).mono (by omega)

theorem opCfcmov_out (d : Reg) {op1 op2 : Operand} (c : Byte) (h1 : Sub S op1) (h2 : Sub S op2) : (opCfcmov d op1 op2 c).Out S 0 13 := by
  have e : ∀ t, 11 + escE t ≤ 13 := fun t => by have := escE_le t; omega
  refine Out.bind0 (Len.throwIf _ _) fun _ => Out.bind0 (Len.throwIf _ _) fun _ => ?_
  cases op2 with
  | mem a => exact Out.bind0 (Len.throwIf _ _) fun _ => Out.void ((opROO_out _ _ _ _ _ h2 h1 fun _ => rfl).mono (e _))
  | reg r => exact Out.void ((opROO_out _ _ _ _ _ h1 (Sub.reg _) fun _ => rfl).mono (e _))

theorem opEncodeKey_out (a b : Reg) (x y : Byte) : (opEncodeKey a b x y).Out S 0 13 := by
  unfold opEncodeKey
  split
  · refine ((Plain.bind (k := 1) (l := 4) (Len.db _).plain fun _ => Plain.bind (k := 1) (l := 3) (Len.db _).plain fun _ =>
      Plain.bind (k := 1) (l := 2) (Len.db _).plain fun _ => Plain.bind (k := 1) (l := 1) (Len.db _).plain fun _ =>
        (setModRM_len _ _ _).plain).mono (by decide)).out
  · exact Out.void ((opROO_out _ (T_MUST_EVEX ||| T_F3) _ _ _ (Sub.reg _) (Sub.reg _) fun _ => rfl).mono (show 11 ≤ 13 by decide))

theorem opSSE_APX_out (x : Reg) {op : Operand} (t1 : Ty) (c1 : Byte) (t2 : Ty) (c2 : Byte) (i : Option Byte) (hs : Sub S op) :
    (opSSE_APX x op t1 c1 t2 c2 i).Out S 0 (max (11 + escE t2) (headN t1 + 6) + optSize i) := by
  have e := opSSE_out (S := S) x t1 c1 (some isXMM_XMMorMEM) i hs
  unfold opSSE_APX
  dsimp only
  split
  · intro w v g
    obtain ⟨w1, a, w2, g1, g2, rfl⟩ := Enc.gives_bind.mp g
    cases a with
    | true =>
      have a1 := opROO_out (n := optSize i + 0) _ _ _ _ _ hs (Sub.reg _) (fun _ => rfl) _ _ g1
      have a2 := Len.dbOpt i _ _ g2
      exact ⟨.append (by rw [a2.2]; exact a1.1) (.plain a2.1), by rw [asize_append]; omega⟩
    | false =>
      cases opROO_false g1
      have a1 := e _ _ g2
      exact ⟨a1.1, by show asize w2 ≤ _; have := a1.2; omega⟩
  · intro w v g
    obtain ⟨w1, a, w2, g1, g2, rfl⟩ := Enc.gives_bind.mp g
    obtain ⟨rfl, rfl⟩ := Enc.gives_pure.mp g1
    have a1 := e _ _ g2
    exact ⟨a1.1, by show asize w2 ≤ _; have := a1.2; omega⟩

end Families

/-! ## Instructions defined in xbyak.h -/

section Instr
variable {S : Addr → Prop}

theorem test_out {op : Operand} (r : Reg) (hs : Sub S op) : (test op r).Out S 0 11 := opRO_out _ 0 _ _ _ hs fun _ => rfl

theorem testI_out {op : Operand} (imm : BitVec 32) (hs : Sub S op) : (testI op imm).Out S 0 15 := by
  unfold testI
  refine Out.bind0 (Len.throwIf _ _) fun _ => ?_
  have hk : min (op.bit / 8) 4 ≤ 4 := by omega
  dsimp only
  split
  · exact ((Plain.bind (k := 4) (l := 5) (rex_plain _ _ 0) fun _ => Plain.bind (k := 1) (l := 4) (Len.db _).plain fun _ =>
      (Len.dbN _ _).plain.mono hk).mono (by decide)).out
  · refine (Out.bindL (M := 11) (k := min (op.bit / 8) 4) ?_ fun _ => Len.dbN _ _).mono (by omega)
    exact opRext_out _ _ 0 _ _ _ _ hs (fun _ => rfl) fun _ h _ => nomatch (show Ty.has 0 T_APX = false by decide).symm.trans h

theorem imulI_out (r : Reg) {op : Operand} (imm : BitVec 32) (hs : Sub S op) : (imulI r op imm).Out S 0 15 := by
  unfold imulI
  dsimp only
  refine (Enc.Out.bindDoneL (N := 11) (M := 11) (opROO_out _ (T_APX ||| T_NF ||| T_ZU) _ _ _ hs (Sub.reg _) fun _ => rfl)
    (fun _ h => opROO_false h) (opRO_out _ 0 _ _ _ hs fun _ => rfl) (Len.dbN _ _)).mono ?_
  generalize isInDisp8 imm = a, r.isREG 16 = b
  revert a b
  decide

theorem push_out {op : Operand} (hs : Src S op) : (push op).Out S 0 12 := opPushPop_out _ _ _ hs
theorem pop_out {op : Operand} (hs : Src S op) : (pop op).Out S 0 12 := opPushPop_out _ _ _ hs

theorem pushAF_out (b : Nat) (imm : BitVec 32) : (pushAF b imm).Out S 0 5 := by
  unfold pushAF
  refine Plain.out ?_
  repeat' split
  · exact (Plain.bind (k := 1) (l := 1) (Len.db _).plain fun _ => (Len.db _).plain).mono (by decide)
  · exact (Plain.bind (k := 1) (l := 3) (Len.db _).plain fun _ => Plain.bind (k := 1) (l := 2) (Len.db _).plain fun _ => (Len.dbN _ _).plain).mono (by decide)
  · exact Plain.bind (k := 1) (l := 4) (Len.db _).plain fun _ => (Len.dbN _ _).plain

theorem pushI_out (imm : BitVec 32) : (pushI imm).Out S 0 5 := by
  unfold pushI
  split <;> exact pushAF_out _ _

theorem mov_out {op1 op2 : Operand} (h1 : Src S op1) (h2 : Src S op2) : (mov op1 op2).Out S 0 13 := by
  have e : ∀ (r : Reg) (c : Byte) (d : Word), (do let _ ← rex (.reg r) (.reg .nil) 0; Enc.db c; Enc.dbN d 8 : Enc Unit).Out S 0 13 :=
    fun r c d => (Plain.bind (k := 4) (l := 9) (rex_plain _ _ 0) fun _ => Plain.bind (k := 1) (l := 8) (Len.db _).plain fun _ =>
      (Len.dbN _ _).plain).out
  have e2 := (opRO_MR_out 0x88 h1 h2).mono (show 11 ≤ 13 by decide)
  unfold mov
  split
  · split
    · exact e _ _ _
    · exact e2
  · split
    · exact e _ _ _
    · exact e2
  · exact e2

theorem mov_imm_out {r : Reg} (imm : Word) (hr : r.bit ≤ 64) : (do let n ← mov_imm r imm; Enc.dbN imm n : Enc Unit).Plain 13 := by
  intro w v g
  obtain ⟨w1, n, w2, g1, g2, rfl⟩ := Enc.gives_bind.mp g
  have a2 := Len.dbN _ _ _ _ g2
  have : (∀ x ∈ w1, ∃ b, x = Act.byte b) ∧ asize w1 + n ≤ 13 := by
    unfold mov_imm at g1
    dsimp only at g1
    split at g1
    · obtain ⟨w3, _, w4, g3, g4, rfl⟩ := Enc.gives_bind.mp g1
      obtain ⟨w5, _, w6, g5, g6, rfl⟩ := Enc.gives_bind.mp g4
      obtain ⟨rfl, rfl⟩ := Enc.gives_pure.mp g6
      have b := Plain.bind (rex_plain _ _ _) (fun _ => (Len.db _).plain) _ _ (Enc.gives_bind.mpr ⟨_, _, _, g3, g5, rfl⟩)
      rw [List.append_nil]
      exact ⟨b.1, Nat.le_trans (Nat.add_le_add_right b.2 _) (by decide)⟩
    · obtain ⟨w3, _, w4, g3, g4, rfl⟩ := Enc.gives_bind.mp g1
      have b3 := rex_plain _ _ _ _ _ g3
      have b3' : asize w3 ≤ 4 := b3.2
      split at g4
      · obtain ⟨w5, _, w6, g5, g6, rfl⟩ := Enc.gives_bind.mp g4
        obtain ⟨w7, _, w8, g7, g8, rfl⟩ := Enc.gives_bind.mp g6
        obtain ⟨rfl, rfl⟩ := Enc.gives_pure.mp g8
        have b5 := Len.db _ _ _ g5; have b7 := Len.db _ _ _ g7
        refine ⟨fun x hx => ?_, by simp only [asize_append, asize]; omega⟩
        simp only [List.append_nil, List.mem_append] at hx
        rcases hx with h | h | h
        · exact b3.1 x h
        · exact b5.1 x h
        · exact b7.1 x h
      · obtain ⟨w5, _, w6, g5, g6, rfl⟩ := Enc.gives_bind.mp g4
        obtain ⟨rfl, rfl⟩ := Enc.gives_pure.mp g6
        have b5 := Len.db _ _ _ g5
        refine ⟨fun x hx => ?_, by simp only [asize_append, asize]; omega⟩
        simp only [List.append_nil, List.mem_append] at hx
        rcases hx with h | h
        · exact b3.1 x h
        · exact b5.1 x h
  refine ⟨fun x hx => ?_, by rw [asize_append]; omega⟩
  rcases List.mem_append.mp hx with h | h
  · exact this.1 x h
  · exact a2.1 x h

theorem movI_out {op : Operand} (imm : Word) (hs : Sub S op) (hr : op.bit ≤ 64 ∨ op.isMEM = true) : (movI op imm).Out S 0 15 := by
  cases op with
  | reg r =>
    unfold movI
    dsimp only
    split
    · exact ((mov_imm_out imm (hr.resolve_right (by simp [Operand.isMEM]))).mono (by decide)).out
    · exact (Len.throw (k := 0) _).plain.out.mono (by omega)
  | mem a =>
    obtain ⟨b, hb, hab⟩ := hs a rfl
    unfold movI
    refine Out.bind0 (Len.throwIf _ _) fun _ => ?_
    dsimp only
    split
    · rename_i h
      refine (Out.bind0 (N := 11 + a.o.bit / 8) (Len.throwIf _ _) fun _ => ?_).mono (by omega)
      exact Out.bindL (opMR_out (b := { a with immSize := a.o.bit / 8 }) hb hab (fun _ => rfl) _ 0 _) fun _ => Len.dbN _ _
    · refine (Out.bind0 (N := 15) (Len.throwIf _ _) fun _ => ?_)
      exact Out.bindL (M := 11) (k := 4) (opMR_out (b := { a with immSize := 4 }) hb hab (fun _ => rfl) _ 0 _) fun _ => Len.dbN _ _

theorem xchg_out {op1 op2 : Operand} (h1 : Sub S op1) (h2 : Sub S op2) : (xchg op1 op2).Out S 0 11 := by
  have sub : ∀ (p : Prop) [Decidable p] (a b : Operand), Sub S a → Sub S b → Sub S (if p then a else b) := by
    intro p _ a b ha hb; split <;> assumption
  unfold xchg
  extract_lets sw p1 p2
  have s1 : Sub S p1 := sub _ _ _ h2 h1
  have s2 : Sub S p2 := sub _ _ _ h1 h2
  clear_value p1 p2
  refine Out.bind0 (Len.throwIf _ _) fun _ => ?_
  split
  · exact ((Plain.bind (k := 4) (rex_plain _ _ 0) fun _ => (Len.db _).plain).mono (show 5 ≤ 11 by decide)).out
  · exact opRO_out _ 0 _ _ _ (sub _ _ _ s1 s2) fun _ => rfl

theorem movFromSeg_out {op : Operand} (s : BitVec 5) (hs : Sub S op) : (movFromSeg op s).Out S 0 11 :=
  opRO_out _ (T_ALLOW_DIFF_SIZE ||| T_ALLOW_ABCDH) _ _ _ hs fun _ => rfl

theorem movToSeg_out {op : Operand} (s : BitVec 5) (hs : Sub S op) : (movToSeg s op).Out S 0 11 := by
  unfold movToSeg
  dsimp only
  split
  · refine Out.bind0 (Len.lift _) fun _ => ?_
    exact opRO_out _ (T_ALLOW_DIFF_SIZE ||| T_ALLOW_ABCDH) _ _ _ (Sub.reg _) fun _ => rfl
  · exact opRO_out _ (T_ALLOW_DIFF_SIZE ||| T_ALLOW_ABCDH) _ _ _ hs fun _ => rfl

theorem opJmpOp_out {op : Operand} (f : Bool) (e : BitVec 5) (hs : Sub S op) : (opJmpOp op f e).Out S 0 11 := by
  have e0 : ∀ {P : Prop}, Ty.has 0 T_APX = true → P := fun h => nomatch (show Ty.has 0 T_APX = false by decide).symm.trans h
  unfold opJmpOp
  split
  · exact Out.bind0 (Len.throwIf _ _) fun _ => opRext_out _ _ 0 _ _ _ _ hs (fun _ => rfl) fun _ h => e0 h
  · exact opRext_out _ _ 0 _ _ _ _ hs (fun _ => rfl) fun _ h => e0 h

end Instr

end E

/-! ## The mnemonic table -/

namespace Mn
open Enc (Out Len Plain)

/-- The `[rip + …]` operands of a call. -/
def Args.Rip (g : Args) (a : Addr) : Prop := a.mode ≠ .modRM → .mem a ∈ g.ops

/-- The addresses passed have `immSize = 0` (xbyak.h 1329, 1367: set by the helpers only). -/
def Args.Fresh (g : Args) : Prop := ∀ a, .mem a ∈ g.ops → a.immSize = 0

theorem Args.op_src {g : Args} (hf : g.Fresh) (i : Nat) : Src g.Rip (g.op i) := by
  unfold Args.op
  cases h : g.ops[i]? with
  | none => exact Src.reg _
  | some o =>
    cases o with
    | reg r => exact Src.reg _
    | mem a =>
      have : Operand.mem a ∈ g.ops := List.mem_of_getElem? h
      exact Src.mem (fun _ => this) ⟨rfl, rfl, rfl⟩ (hf a this)

theorem Slot.op_src {g : Args} (hf : g.Fresh) (s : Slot) : Src g.Rip (s.op g) := by
  cases s <;> first | exact Args.op_src hf _ | exact Src.reg _

theorem Slot.opt_src {g : Args} (hf : g.Fresh) (s : Slot) (o : Operand) (h : s.opt g = some o) : Src g.Rip o := by
  have : o = s.op g := by
    cases s with
    | a i =>
      show o = (g.ops[i]?).getD _
      rw [show g.ops[i]? = some o from h]; rfl
    | _ => cases h; rfl
  rw [this]; exact Slot.op_src hf s

theorem Slot.mem_src {g : Args} (hf : g.Fresh) (s : Slot) : Src g.Rip (.mem (s.mem g)) := by
  have d : Src g.Rip (.mem default) := Src.mem (fun h => absurd rfl h) ⟨rfl, rfl, rfl⟩ rfl
  cases s with
  | a i =>
    have := Args.op_src hf i
    show Src g.Rip (.mem (g.mem i))
    unfold Args.mem
    cases h : g.op i with
    | mem m => rw [h] at this; exact this
    | reg r => exact d
  | _ => exact d

theorem optSize_le (i : Option Byte) : optSize i ≤ 1 := by cases i <;> simp [optSize]

/-- The length bound of a call. -/
def Leaf.maxLen : Leaf → Nat
  | bytes l => l.length
  | sse _ _ t .. => headN t + 7
  | sseApx _ _ t1 _ t2 .. => max (11 + escE t2) (headN t1 + 6) + 1
  | mmx _ _ _ t p _ => max (headN (t ||| p)) (headN t) + 7
  | movXmm _ _ t _ | ro _ _ t .. | mib _ _ t _ => headN t + 6
  | mr _ _ t _ t2 _ => max (bif t2 == 0 then 0 else 11 + escE t2) (headN t + 6)
  | rr _ _ t _ => headN t + 1
  | loadSeg _ _ t _ => 12 + pfN t
  | rext _ _ _ t _ | rextBnd _ _ t _ => bothN t
  | rextI _ _ _ t _ _ => bothN t + 1
  | roo _ _ _ t _ => 11 + escE t
  | roi _ _ _ t _ => 15 + escE t
  | oi .. | ccmpi .. | testi .. => 15
  | rro .. => 14
  | _ => 13

/-- The calls that do not tell `opAddr` about a trailing immediate: shifts in EVEX form by a count other than 1, and `rorx` with an
extended register or `NF` (xbyak.h 2279, 2541-2543). -/
def Leaf.RipBug (g : Args) : Leaf → Prop
  | shiftI op i _ d => isRip (op.op g) = true ∧ (d.isSome = true ∨ (op.op g).hasRex2NFZU = true) ∧ g.i32 i ≠ 1
  | rextI op _ _ t _ _ => isRip (op.op g) = true ∧ t.has T_APX = true
  | rro d r op _ _ i => isRip (op.op g) = true ∧ i ≠ .none ∧ ((d.reg g).hasRex2 || (r.reg g).hasRex2 || (op.op g).hasRex2 || (d.reg g).nf) = true
  | _ => False

theorem Raw.out {g : Args} (hf : g.Fresh) (r : Raw) : (r.run g).Out g.Rip 0 13 := by
  have P : ∀ {N} {m : Enc Unit}, m.Plain N → N ≤ 13 → m.Out g.Rip 0 13 := fun h hn => (h.mono hn).out
  have b : ∀ x, (Enc.db x).Plain 1 := fun x => (Len.db x).plain
  have n : ∀ x k, (Enc.dbN x k).Plain k := fun x k => (Len.dbN x k).plain
  have m : ∀ x y z, (setModRM x y z).Plain 1 := fun x y z => (setModRM_len x y z).plain
  cases r with
  | enter => exact P (.bind (b _) fun _ => .bind (n _ _) fun _ => b _) (by decide)
  | int_ => exact P (.bind (b _) fun _ => b _) (by decide)
  | movdir64b =>
    have sm := Slot.mem_src hf (.a 1)
    obtain ⟨x, hx, hax⟩ := sm.sub _ rfl
    refine Out.bind0 (Len.lift _) fun q => ?_
    exact (opMR_out2 hx hax (fun _ => sm.zero _ rfl) _ (fl [T_66, T_0F38]) _ (fl [T_APX, T_66]) _ (.inr fun _ => rfl)).mono (by decide)
  | ret =>
    refine (Out.ite (N := 13) (M := 13) ?_ ?_).mono (by decide)
    · exact P (.bind (b _) fun _ => n _ _) (by decide)
    · exact P (b _) (by decide)
  | retf =>
    refine (Out.ite (N := 13) (M := 13) ?_ ?_).mono (by decide)
    · exact P (.bind (b _) fun _ => n _ _) (by decide)
    · exact P (b _) (by decide)
  | tpause => exact P (.bind0 (Len.throwIf _ _) fun _ => .bind (b _) fun _ => .bind (b _) fun _ => .bind (b _) fun _ => m _ _ _) (by decide)
  | umonitor =>
    exact P (.bind0 (Len.throwIf _ _) fun _ => .bind0 (Len.throwIf _ _) fun _ => .bind (dbIf_plain _ _) fun _ =>
      .bind (b _) fun _ => .bind (b _) fun _ => .bind (b _) fun _ => m _ _ _) (by decide)
  | umwait => exact P (.bind0 (Len.throwIf _ _) fun _ => .bind (b _) fun _ => .bind (b _) fun _ => .bind (b _) fun _ => m _ _ _) (by decide)
  | xabort => exact P (.bind (b _) fun _ => .bind (b _) fun _ => b _) (by decide)
  | xbegin => exact P (.bind (b _) fun _ => .bind (b _) fun _ => n _ _) (by decide)
  | senduipi => exact Out.bind0 (Len.lift _) fun q => P (opRR_plain _ _ (fl [T_F3, T_0F]) _) (by decide)
  | jmpabs => exact P (.bind (b _) fun _ => .bind (b _) fun _ => .bind (b _) fun _ => n _ _) (by decide)

theorem Leaf.out {g : Args} (hf : g.Fresh) (l : Leaf) (hb : ¬ l.RipBug g) : (l.run g).Out g.Rip 0 l.maxLen := by
  have so := fun s => Slot.op_src hf s
  have sp := fun s => Slot.opt_src hf s
  have sm := fun s => Slot.mem_src hf s
  have e1 : ∀ i : Option Byte, 12 + optSize i ≤ 13 := fun i => by have := optSize_le i; omega
  have e2 : ∀ i : Option Byte, 13 + optSize i ≤ 14 := fun i => by have := optSize_le i; omega
  have e3 : ∀ (n : Nat) (i : Option Byte), n + 6 + optSize i ≤ n + 7 := fun n i => by have := optSize_le i; omega
  have e4 : ∀ (n : Nat) (i : Option Byte), n + optSize i ≤ n + 1 := fun n i => by have := optSize_le i; omega
  cases l with
  | bytes l =>
    intro w v h
    unfold Leaf.run at h
    have : w = l.map .byte := by simpa [Enc.Gives] using h.1.symm
    subst this
    exact ⟨.plain (by simp), Nat.le_of_eq (asize_bytes l)⟩
  | avx3 a b c t d i => exact (opAVX_out _ _ _ _ (so b) (sp c)).mono (e1 _)
  | avx2 a b t c i => exact (opAVXI_out _ _ _ _ (so b)).mono (e1 _)
  | avxK a b c t d i => exact (opAVXK_out _ _ _ _ _ (so c)).mono (e1 _)
  | vex a b c t d i => exact (opVex_out _ _ _ _ _ (so c)).mono (e1 _)
  | vexCB a b t c i => exact Out.bind0 (Len.lift _) fun _ => (opVex_out _ _ _ _ _ (so b)).mono (e1 _)
  | cvt a b t c => exact (opCvt_out _ _ _ (so b)).mono (show 12 ≤ 13 by decide)
  | cvt2 a b t c => exact (opCvt2_out _ _ _ (so b)).mono (show 12 ≤ 13 by decide)
  | cvt3 a b c t d f h => exact (opCvt3_out _ _ _ _ _ _ (so c)).mono (show 12 ≤ 13 by decide)
  | cvt5 a b t c => exact (opCvt5_out _ _ _ (so b)).mono (show 12 ≤ 13 by decide)
  | cvt6 a b c t d => exact (opCvt6_out _ _ _ _ (so c)).mono (show 12 ≤ 13 by decide)
  | encoding a b c t d i u v s => exact (opEncoding_out _ _ _ _ _ _ _ _ _ _ (sp c)).mono (e1 _)
  | cvt2Enc a b t c u v s => exact Out.bind0 (Len.lift _) fun _ => (opCvt2_out _ _ _ (so b)).mono (show 12 ≤ 13 by decide)
  | vmov a b t c m => exact (opVmov_out _ _ _ _ (so a)).mono (show 12 ≤ 13 by decide)
  | gather a b c t d m => exact (opGather_out _ _ _ _ _ (sm b)).mono (show 12 ≤ 13 by decide)
  | gather2 a b t d m => exact (opGather2_out _ _ _ _ (sm b)).mono (show 12 ≤ 13 by decide)
  | gatherFetch a b t d m => exact (opGatherFetch_out _ _ _ _ (sm a)).mono (show 12 ≤ 13 by decide)
  | kmov a b c d => exact (opKmov_out _ _ _ (so b)).mono (show 12 ≤ 13 by decide)
  | amx a b t c => exact (opAMX_out _ _ _ (sm b)).mono (show 12 ≤ 13 by decide)
  | sse a b t c v i => exact (opSSE_out _ _ _ _ _ (so b).sub).mono (e3 _ _)
  | sseApx a b t c u d i => exact (opSSE_APX_out _ _ _ _ _ _ (so b).sub).mono (e4 _ _)
  | mmx a b c t p i => exact (opMMX_out _ _ _ _ _ (so b).sub).mono (e3 _ _)
  | mmxImm a i c e => exact (opMMXI_out _ _ _ _).mono (show 8 ≤ 13 by decide)
  | movXmm a b t c => exact opMovXMM_out _ _ (so a) (so b)
  | ext a b c i m => exact opExt_out _ _ _ _ (so a).sub
  | encodeKey a b c d => exact opEncodeKey_out _ _ _ _
  | rr a b t c => exact (opRR_plain _ _ _ _).out
  | ro a b t c d => exact opRO_out _ _ _ _ _ (so b).sub fun _ => rfl
  | mr a b t c u d =>
    obtain ⟨x, hx, hax⟩ := (sm a).sub _ rfl
    exact opMR_out2 hx hax (fun _ => (sm a).zero _ rfl) _ _ _ _ _ (.inr fun _ => rfl)
  | mib a b t c => exact opMIB_out _ _ _ (sm a)
  | loadSeg a b t c => exact opLoadSeg_out _ _ _ (sm a)
  | rext a b e t c => exact opRext_out _ _ _ _ _ _ _ (so a).sub (fun _ => rfl) fun _ _ _ => rfl
  | rextI a b e t c i =>
    refine Out.bindL (k := 1) (opRext_out _ _ _ _ _ _ _ (so a).sub (fun _ => rfl) fun h1 h2 _ => ?_) fun _ => Len.db _
    exact absurd ⟨h1, h2⟩ hb
  | rextBnd a b t c => exact opRext_out _ _ _ _ _ _ _ (so a).sub (fun _ => rfl) fun _ _ _ => rfl
  | roo a b c t d => exact Out.void (opROO_out _ _ _ _ _ (so b).sub (so c).sub fun _ => rfl)
  | rro a b c t d i =>
    refine (opRRO_out _ _ _ _ _ (so c) fun h1 h2 => ?_).mono (e2 _)
    cases h : ((a.reg g).hasRex2 || (b.reg g).hasRex2 || (c.op g).hasRex2 || (a.reg g).nf) with
    | false => rfl
    | true => exact absurd ⟨h1, (fun hi => by rw [hi] at h2; cases h2), h⟩ hb
  | roMr a b c => exact (opRO_MR_out _ (so a) (so b)).mono (show 11 ≤ 13 by decide)
  | oi a b c e => exact opOI_out _ _ _ (so a).sub
  | roi a b c t e => exact opROI_out _ _ _ _ (so b).sub
  | incDec a b e => exact (opIncDec_out _ _ (so b).sub).mono (show 11 ≤ 13 by decide)
  | shiftI a i e d =>
    refine (opShiftI_out _ _ _ (so a).sub fun h1 h2 => ?_).mono (show 12 ≤ 13 by decide)
    rw [Option.isSome_map] at h2
    exact Classical.byContradiction fun h3 => hb ⟨h1, h2, h3⟩
  | shiftCL a c e d => exact (opShiftCL_out _ _ _ (so a).sub).mono (show 11 ≤ 13 by decide)
  | shxd a b c i d f => exact opShxd_out _ _ _ _ _ _ (so b).sub
  | shxdCL a b c d e f => exact opShxd_out _ _ _ _ _ _ (so b).sub
  | setcc a b => exact (opSetCC_out _ (so a).sub).mono (show 12 ≤ 13 by decide)
  | ccmp a b c d e => exact (opCcmp_out _ _ _ (so a).sub (so b).sub).mono (show 11 ≤ 13 by decide)
  | ccmpi a b c d => exact opCcmpi_out _ _ _ (so a).sub
  | testi a b c d => exact opTesti_out _ _ _ (so a).sub
  | cfcmov a b c d => exact opCfcmov_out _ _ (so b).sub (so c).sub
  | movxx a b c => exact (opMovxx_out _ _ (so b).sub).mono (show 11 ≤ 13 by decide)
  | cnt a b c => exact (opCnt_out _ _ (so b).sub).mono (show 12 ≤ 13 by decide)
  | inOutDX a b c => exact (opInOutDX_out _ _ _).mono (show 2 ≤ 13 by decide)
  | inOutImm a b c => exact (opInOutImm_out _ _ _).mono (show 3 ≤ 13 by decide)
  | fpuMem a b c d e f => exact (opFpuMem_out _ _ _ _ _ (sm a)).mono (show 11 ≤ 13 by decide)
  | fpuFpu a b c d => exact (opFpuFpu_out _ _ _ _).mono (show 2 ≤ 13 by decide)
  | fpu a b c => exact (opFpu_out _ _ _).mono (show 2 ≤ 13 by decide)
  | raw r => exact Raw.out hf r

/-- The length bound of a function of the header; the wait prefix of `fsave` and the like is counted although it is an instruction of its own. -/
def Body.maxLen : Body → Nat
  | leaf l => l.maxLen
  | guard _ _ b | check _ _ _ b => b.maxLen
  | pre _ _ b => 1 + b.maxLen
  | ite _ t e => max t.maxLen e.maxLen
  | apx _ _ _ t _ b => max (11 + escE t) b.maxLen
  | jmp .. | jmpAbs .. => 0

/-- The call made with these arguments is one of those of `Leaf.RipBug`. -/
def Body.RipBug (g : Args) : Body → Prop
  | leaf l => l.RipBug g
  | guard _ _ b | check _ _ _ b | pre _ _ b | apx _ _ _ _ _ b => b.RipBug g
  | ite c t e => if c g then t.RipBug g else e.RipBug g
  | jmp .. | jmpAbs .. => False

theorem Check.len (c : Check) (x : Reg) (o : Operand) : (c.run x o).Len 0 := by
  cases c <;> exact Len.throwIf _ _

theorem Body.out {g : Args} (hf : g.Fresh) (b : Body) (hb : ¬ b.RipBug g) {m : Enc Unit} (hm : b.run g = some m) : m.Out g.Rip 0 b.maxLen := by
  induction b generalizing m with
  | leaf l => cases hm; exact Leaf.out hf l hb
  | guard bad err b ih =>
    obtain ⟨m', h', rfl⟩ := Option.map_eq_some_iff.mp hm
    exact Out.bind0 (Len.throwIf _ _) fun _ => ih hb h'
  | check c x o b ih =>
    obtain ⟨m', h', rfl⟩ := Option.map_eq_some_iff.mp hm
    exact Out.bind0 (Check.len _ _ _) fun _ => ih hb h'
  | pre c x b ih =>
    obtain ⟨m', h', rfl⟩ := Option.map_eq_some_iff.mp hm
    exact Out.bindP (dbIf_plain _ _) fun _ => ih hb h'
  | ite c t e iht ihe =>
    unfold Body.run at hm
    unfold Body.RipBug at hb
    cases hc : c g with
    | true =>
      rw [hc, if_pos rfl] at hm hb
      exact (iht hb hm).mono (Nat.le_max_left _ _)
    | false =>
      rw [hc, if_neg Bool.false_ne_true] at hm hb
      exact (ihe hb hm).mono (Nat.le_max_right _ _)
  | apx d a b' t c b ih =>
    obtain ⟨m', h', rfl⟩ := Option.map_eq_some_iff.mp hm
    exact Out.bindDone (opROO_out _ _ _ _ _ (Slot.op_src hf _).sub (Slot.op_src hf _).sub fun _ => rfl) (fun _ h => opROO_false h) (ih hb h')
  | jmp | jmpAbs => cases hm

end Mn
end Xbyak
