import Verif.Spec.Asm
import Verif.GenSafe
/-! # Rendering of symbolic programs (helper lemmas for the label refinement) -/
namespace Xbyak
open CA G
namespace Asm

theorem Width.len_pos (w : Width) : 0 < w.len := by cases w <;> decide
theorem Cell.len_pos (c : Cell) : 0 < c.len := by
  cases c with
  | byte => exact Nat.one_pos
  | field f => exact f.w.len_pos

theorem len_append (a b : List Cell) : len (a ++ b) = len a + len b := by
  induction a with
  | nil => simp [len]
  | cons c t ih => simp only [List.cons_append, len, ih]; omega

theorem len_bytes (bs : List Byte) : len (bs.map Cell.byte) = bs.length := by
  induction bs with
  | nil => rfl
  | cons b t ih => simp only [List.map_cons, len, ih, Cell.len, List.length_cons]; omega

/-- The field that starts at offset `p`. -/
def fieldAt : List Cell → Nat → Option Field
  | [], _ => none
  | c :: t, p =>
    if p = 0 then match c with | .field f => some f | .byte _ => none
    else if p < c.len then none else fieldAt t (p - c.len)

/-- Bytes of a program, with `r p f` the value stored in field `f` at offset `p`. -/
def renderR (r : Nat → Field → Word) : Nat → List Cell → List Byte
  | _, [] => []
  | p, .byte b :: t => b :: renderR r (p + 1) t
  | p, .field f :: t => leBytes f.w.len (r p f) ++ renderR r (p + f.w.len) t

theorem renderR_length (r : Nat → Field → Word) (p : Nat) (cs : List Cell) : (renderR r p cs).length = len cs := by
  induction cs generalizing p with
  | nil => rfl
  | cons c t ih =>
    cases c with
    | byte b => simp only [renderR, len, Cell.len, List.length_cons, ih]; omega
    | field f => simp only [renderR, len, Cell.len, List.length_append, leBytes_length, ih]

theorem renderR_append (r : Nat → Field → Word) (p : Nat) (a b : List Cell) :
    renderR r p (a ++ b) = renderR r p a ++ renderR r (p + len a) b := by
  induction a generalizing p with
  | nil => simp [renderR, len]
  | cons c t ih =>
    cases c with
    | byte x => simp only [List.cons_append, renderR, ih, len, Cell.len, Nat.add_assoc]
    | field f => simp only [List.cons_append, renderR, ih, len, Cell.len, Nat.add_assoc, List.append_assoc]

theorem renderR_bytes (r : Nat → Field → Word) (p : Nat) (bs : List Byte) : renderR r p (bs.map .byte) = bs := by
  induction bs generalizing p with
  | nil => rfl
  | cons b t ih => simp only [List.map_cons, renderR, ih]

theorem fieldAt_append (a b : List Cell) (p : Nat) :
    fieldAt (a ++ b) p = if p < len a then fieldAt a p else fieldAt b (p - len a) := by
  induction a generalizing p with
  | nil => simp [len]
  | cons c t ih =>
    have hc := c.len_pos
    have hl : len (c :: t) = c.len + len t := rfl
    simp only [List.cons_append, fieldAt]
    by_cases h0 : p = 0
    · subst h0; simp; omega
    · rw [if_neg h0, if_neg h0]
      by_cases h1 : p < c.len
      · rw [if_pos h1, if_pos h1, if_pos (by omega)]
      · rw [if_neg h1, if_neg h1, ih]
        by_cases h2 : p < c.len + len t
        · rw [if_pos (show p < len (c :: t) by omega), if_pos (by omega)]
        · rw [if_neg (show ¬ p < len (c :: t) by omega), if_neg (by omega)]
          congr 1; omega

theorem fieldAt_bytes (bs : List Byte) (p : Nat) : fieldAt (bs.map .byte) p = none := by
  induction bs generalizing p with
  | nil => rfl
  | cons b t ih =>
    simp only [List.map_cons, fieldAt]
    split
    · rfl
    · split
      · rfl
      · exact ih _

theorem fieldAt_lt {cs : List Cell} {p : Nat} {f : Field} (h : fieldAt cs p = some f) : p + f.w.len ≤ len cs := by
  induction cs generalizing p with
  | nil => cases h
  | cons c t ih =>
    simp only [fieldAt] at h
    split at h
    · subst_vars
      cases c with
      | byte b => cases h
      | field g => cases h; simp only [len, Cell.len]; omega
    · split at h
      · cases h
      · have := ih h; simp only [len]; omega

theorem fieldAt_split {cs : List Cell} {p : Nat} {f : Field} (h : fieldAt cs p = some f) :
    ∃ pre post, cs = pre ++ .field f :: post ∧ len pre = p := by
  induction cs generalizing p with
  | nil => cases h
  | cons c t ih =>
    simp only [fieldAt] at h
    split at h
    · subst_vars
      cases c with
      | byte b => cases h
      | field g => cases h; exact ⟨[], t, rfl, rfl⟩
    · split at h
      · cases h
      · obtain ⟨pre, post, h1, h2⟩ := ih h
        exact ⟨c :: pre, post, by rw [h1]; rfl, by simp only [len]; omega⟩

theorem fieldAt_mid (pre post : List Cell) (f : Field) : fieldAt (pre ++ .field f :: post) (len pre) = some f := by
  rw [fieldAt_append, if_neg (by omega)]
  simp [fieldAt]

theorem renderR_congr (r r' : Nat → Field → Word) (b : Nat) (cs : List Cell)
    (h : ∀ p f, fieldAt cs p = some f → r (b + p) f = r' (b + p) f) : renderR r b cs = renderR r' b cs := by
  induction cs generalizing b with
  | nil => rfl
  | cons c t ih =>
    have hc := c.len_pos
    have key : renderR r (b + c.len) t = renderR r' (b + c.len) t := by
      refine ih _ fun p f hp => ?_
      have := h (c.len + p) f (by
        simp only [fieldAt]
        rw [if_neg (by omega), if_neg (by omega)]
        simpa using hp)
      rwa [← Nat.add_assoc] at this
    cases c with
    | byte x => simp only [renderR]; exact congrArg (x :: ·) key
    | field f =>
      simp only [renderR]
      have := h 0 f (by simp [fieldAt])
      simp only [Nat.add_zero] at this
      rw [this]
      exact congrArg (leBytes f.w.len (r' b f) ++ ·) key

/-- Change the value stored at one offset. -/
def updr (r : Nat → Field → Word) (p : Nat) (v : Word) : Nat → Field → Word :=
  fun p' f => if p' = p then v else r p' f

theorem patch_append_right (a b : List Byte) (p : Nat) (x : List Byte) (h : a.length ≤ p) :
    patch (a ++ b) p x = a ++ patch b (p - a.length) x := by
  unfold patch
  rw [List.take_append, List.drop_append]
  rw [List.take_of_length_le h, List.drop_of_length_le (by omega)]
  rw [List.append_assoc, List.append_assoc, List.nil_append, List.append_assoc]
  congr 4
  omega

theorem patch_append_left (a b : List Byte) (p : Nat) (x : List Byte) (h : p + x.length ≤ a.length) :
    patch (a ++ b) p x = patch a p x ++ b := by
  unfold patch
  rw [List.take_append_of_le_length (by omega), List.drop_append_of_le_length (by omega)]
  simp only [List.append_assoc]

theorem patch_take (l : List Byte) (p n : Nat) (x : List Byte) (h : p + x.length ≤ n) (hn : n ≤ l.length) :
    (patch l p x).take n = patch (l.take n) p x := by
  conv => lhs; rw [← List.take_append_drop n l]
  rw [patch_append_left _ _ _ _ (by rw [List.length_take]; omega)]
  rw [List.take_append_of_le_length]
  · rw [List.take_of_length_le]
    rw [patch_length _ _ _ (by rw [List.length_take]; omega), List.length_take]; omega
  · rw [patch_length _ _ _ (by rw [List.length_take]; omega), List.length_take]; omega

theorem patch_render (r : Nat → Field → Word) (b : Nat) (cs : List Cell) (p : Nat) (f : Field) (v : Word)
    (h : fieldAt cs p = some f) :
    patch (renderR r b cs) p (leBytes f.w.len v) = renderR (updr r (b + p) v) b cs := by
  induction cs generalizing b p with
  | nil => cases h
  | cons c t ih =>
    have hc := c.len_pos
    simp only [fieldAt] at h
    split at h
    · rename_i h0
      subst h0
      cases c with
      | byte x => cases h
      | field g =>
        cases h
        simp only [renderR, Nat.add_zero, updr, if_true]
        unfold patch
        simp only [List.take_zero, List.nil_append, Nat.zero_add, leBytes_length]
        congr 1
        rw [List.drop_append_of_le_length (by simp), List.drop_of_length_le (by simp), List.nil_append]
        refine renderR_congr _ _ _ _ fun p' f' _ => ?_
        unfold updr
        rw [if_neg]
        have := f.w.len_pos
        omega
    · rename_i h0
      split at h
      · cases h
      · rename_i h1
        have hb : b + p = b + c.len + (p - c.len) := by omega
        cases c with
        | byte x =>
          have := patch_append_right [x] (renderR r (b + 1) t) p (leBytes f.w.len v) (by simp; omega)
          simp only [renderR]
          rw [List.singleton_append] at this
          rw [this]
          simp only [Cell.len] at h hb
          rw [List.length_singleton, ih (b + 1) (p - 1) h, hb, List.singleton_append]
        | field g =>
          simp only [Cell.len] at h hb h1 hc
          simp only [renderR]
          rw [patch_append_right _ _ _ _ (by rw [leBytes_length]; omega), leBytes_length, ih _ _ h, ← hb]
          congr 2
          unfold updr
          rw [if_neg (by omega)]

/-- Value a field must hold. -/
def Field.value (top : Word) (defs : Key → Option Nat) (p : Nat) (f : Field) : Option Word :=
  match f.tgt with
  | .label k d => (defs k).map fun o =>
    if f.abs then top + BitVec.ofNat 64 o else BitVec.ofNat 64 o + d - BitVec.ofNat 64 (p + f.w.len)
  | .addr a => some (a - (top + BitVec.ofNat 64 (p + f.w.len)))

/-- Values of the fields for given definitions; unresolved ones are zero. -/
def specR (top : Word) (defs : Key → Option Nat) (p : Nat) (f : Field) : Word := (f.value top defs p).getD 0

/-- Values after several patches. -/
def updsr (r : Nat → Field → Word) : List (Nat × Word) → (Nat → Field → Word)
  | [] => r
  | (p, v) :: t => updsr (updr r p v) t

theorem updsr_notin (r : Nat → Field → Word) (l : List (Nat × Word)) (p : Nat) (f : Field)
    (h : ∀ e ∈ l, e.1 ≠ p) : updsr r l p f = r p f := by
  induction l generalizing r with
  | nil => rfl
  | cons e t ih =>
    obtain ⟨q, v⟩ := e
    simp only [updsr]
    rw [ih _ (fun e he => h e (by simp [he]))]
    unfold updr
    rw [if_neg (fun hh => h (q, v) (by simp) hh.symm)]

theorem updsr_in (r : Nat → Field → Word) (l : List (Nat × Word)) (p : Nat) (f : Field) (V : Word)
    (hv : ∀ e ∈ l, e.1 = p → e.2 = V) (h : ∃ e ∈ l, e.1 = p) : updsr r l p f = V := by
  induction l generalizing r with
  | nil => obtain ⟨e, he, _⟩ := h; cases he
  | cons e t ih =>
    obtain ⟨q, v⟩ := e
    simp only [updsr]
    by_cases ht : ∃ e ∈ t, e.1 = p
    · exact ih _ (fun e he => hv e (by simp [he])) ht
    · rw [updsr_notin _ _ _ _ (fun e he hh => ht ⟨e, he, hh⟩)]
      obtain ⟨e, he, hep⟩ := h
      rcases List.mem_cons.mp he with rfl | he'
      · simp only at hep
        unfold updr
        rw [if_pos hep.symm]
        exact hv (q, v) (by simp) hep
      · exact absurd ⟨e, he', hep⟩ ht

theorem patches_render (r : Nat → Field → Word) (cs : List Cell) (l : List (Nat × Nat × Word))
    (h : ∀ e ∈ l, ∃ f, fieldAt cs e.1 = some f ∧ f.w.len = e.2.1) :
    l.foldl (fun m e => patch m e.1 (leBytes e.2.1 e.2.2)) (renderR r 0 cs) =
      renderR (updsr r (l.map fun e => (e.1, e.2.2))) 0 cs := by
  induction l generalizing r with
  | nil => rfl
  | cons e t ih =>
    obtain ⟨f, h1, h2⟩ := h e (by simp)
    simp only [List.foldl_cons, List.map_cons, updsr]
    rw [← h2, patch_render r 0 cs e.1 f _ h1, Nat.zero_add]
    exact ih _ (fun e he => h e (by simp [he]))

/-! ### virtual code: the buffer with the deferred writes applied for a final address -/

/-- Value of a deferred write for the final address `t`. -/
def infoVal (t : Word) (i : AddrInfo) : Word :=
  match i.mode with
  | .addTop => i.jmpAddr + t
  | .asIs => i.jmpAddr
  | .abs => i.jmpAddr - t

def applyInfos (t : Word) (m : List Byte) (l : List AddrInfo) : List Byte :=
  l.foldl (fun m i => patch m i.codeOffset (leBytes i.jmpSize (infoVal t i))) m

def vcode (t : Word) (c : CA) : List Byte := applyInfos t c.code c.addrInfo

theorem applyInfos_append (t : Word) (m b : List Byte) (l : List AddrInfo)
    (h : ∀ i ∈ l, i.codeOffset + i.jmpSize ≤ m.length) : applyInfos t (m ++ b) l = applyInfos t m l ++ b := by
  induction l generalizing m with
  | nil => rfl
  | cons i t' ih =>
    have hi := h i (by simp)
    simp only [applyInfos, List.foldl_cons] at ih ⊢
    rw [patch_append_left _ _ _ _ (by rw [leBytes_length]; exact hi)]
    rw [ih]
    intro j hj
    rw [patch_length _ _ _ (by rw [leBytes_length]; exact hi)]
    exact h j (by simp [hj])

theorem applyInfos_length (t : Word) (m : List Byte) (l : List AddrInfo)
    (h : ∀ i ∈ l, i.codeOffset + i.jmpSize ≤ m.length) : (applyInfos t m l).length = m.length := by
  induction l generalizing m with
  | nil => rfl
  | cons i t' ih =>
    have hi := h i (by simp)
    simp only [applyInfos, List.foldl_cons] at ih ⊢
    have hl : (patch m i.codeOffset (leBytes i.jmpSize (infoVal t i))).length = m.length :=
      patch_length _ _ _ (by rw [leBytes_length]; exact hi)
    rw [ih, hl]
    intro j hj
    rw [hl]
    exact h j (by simp [hj])

theorem vcode_emit {c c' : CA} {bs : List Byte} (t : Word) (h : c.Wf) (he : Emit c c' bs)
    (hi : ∀ i ∈ c.addrInfo, i.codeOffset + i.jmpSize ≤ c.size) : vcode t c' = vcode t c ++ bs := by
  unfold vcode
  rw [he.code, he.info, applyInfos_append]
  rw [code_length h]; exact hi

/-- Value finally stored by a fix-up. -/
def finV (auto : Bool) (t : Word) (j : JmpLabel) (v : Word) : Word :=
  if auto then infoVal t ⟨0, v, 0, j.mode⟩ else v

theorem vcode_applyFix {c : CA} (t : Word) (h : c.Wf) (hnil : c.isAutoGrow = false → c.addrInfo = [])
    (j : JmpLabel) (v : Word) (hj : j.jmpSize ≤ j.endOfJmp) (hs : j.endOfJmp ≤ c.size) :
    vcode t (applyFix c j v) =
      patch (vcode t c) (j.endOfJmp - j.jmpSize) (leBytes j.jmpSize (finV c.isAutoGrow t j v)) := by
  have h1 := h.size_le
  have h2 := h.max_le
  unfold applyFix finV
  by_cases ha : c.isAutoGrow = true
  · simp only [ha, if_true]
    simp only [vcode, CA.code, applyInfos, List.foldl_append, List.foldl_cons, List.foldl_nil, infoVal]
  · simp only [ha, Bool.false_eq_true, if_false]
    have hn := hnil (by simpa using ha)
    simp only [vcode, CA.code, hn, applyInfos, List.foldl_nil]
    rw [patch_take _ _ _ _ (by rw [leBytes_length]; omega) (by omega)]

theorem vcode_applyFixes {c : CA} (t : Word) (h : c.Wf) (hnil : c.isAutoGrow = false → c.addrInfo = [])
    (fx : List (JmpLabel × Word)) (hj : ∀ e ∈ fx, JOk c.maxSize e.1 ∧ e.1.endOfJmp ≤ c.size) :
    vcode t (applyFixes c fx) = (fx.map fun e => (e.1.endOfJmp - e.1.jmpSize, e.1.jmpSize, finV c.isAutoGrow t e.1 e.2)).foldl
      (fun m e => patch m e.1 (leBytes e.2.1 e.2.2)) (vcode t c) := by
  induction fx generalizing c with
  | nil => rfl
  | cons e tl ih =>
    obtain ⟨j, v⟩ := e
    have hj1 := hj (j, v) (by simp)
    have hsame := applyFix_same h hj1.1 v
    have hauto : (applyFix c j v).isAutoGrow = c.isAutoGrow := by unfold CA.isAutoGrow; rw [hsame.ty]
    simp only [applyFixes, List.map_cons, List.foldl_cons]
    rw [ih (hsame.wf h), vcode_applyFix t h hnil j v hj1.1.2.1 hj1.2, hauto]
    · rw [hauto]
      intro ha
      have : (applyFix c j v).addrInfo = c.addrInfo := by unfold applyFix; simp [ha]
      rw [this]; exact hnil ha
    · intro e he
      rw [hsame.maxSize, hsame.size]
      exact hj e (by simp [he])

end Asm
end Xbyak
