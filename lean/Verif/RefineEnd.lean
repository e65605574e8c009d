import Verif.RefineRun
/-! # From the refinement invariant to the finished code -/
namespace Xbyak
open CA G
namespace Asm

theorem render_field (r : Nat → Field → Word) (pre post : List Cell) (f : Field) :
    bytesAt (renderR r 0 (pre ++ .field f :: post)) (len pre) f.w.len = leBytes f.w.len (r (len pre) f) := by
  have h := renderR_length r 0 pre
  unfold bytesAt
  rw [renderR_append, Nat.zero_add]
  simp only [renderR]
  rw [List.drop_append_of_le_length (by omega), List.drop_of_length_le (by omega), List.nil_append,
    List.take_append_of_le_length (by simp), List.take_of_length_le (by simp)]

theorem render_byte (r : Nat → Field → Word) (pre post : List Cell) (b : Byte) :
    (renderR r 0 (pre ++ .byte b :: post))[len pre]? = some b := by
  have h := renderR_length r 0 pre
  rw [renderR_append, Nat.zero_add, List.getElem?_append_right (by omega), h]
  simp [renderR]

theorem fromLE8 (v : Word) : BitVec.ofNat 64 (fromLE (leBytes 8 v)) = v := by
  rw [fromLE_leBytes]
  apply BitVec.eq_of_toNat_eq
  have := v.isLt
  simp only [BitVec.toNat_ofNat]
  omega

/-- Rendered code with representable values implements the program. -/
theorem implements_render {sp : Spec} {code : List Byte} {t : Word} (hc : code = renderR (specR t sp.defs) 0 sp.cells)
    (hfit : ∀ p f v, fieldAt sp.cells p = some f → f.abs = false → f.value t sp.defs p = some v → FitsW f.w v)
    (hshape : ∀ p f, fieldAt sp.cells p = some f → f.abs = true → f.w = .w8 ∧ ∃ k d, f.tgt = .label k d) :
    Implements code t sp := by
  refine ⟨by rw [hc, renderR_length]; rfl, ?_, ?_⟩
  · intro pre b post he
    rw [hc, he]; exact render_byte _ pre post b
  · intro pre f post he
    have hf : fieldAt sp.cells (len pre) = some f := by rw [he]; exact fieldAt_mid pre post f
    have hb : bytesAt code (len pre) f.w.len = leBytes f.w.len (specR t sp.defs (len pre) f) := by
      rw [hc, he]; exact render_field _ pre post f
    have hsx : ∀ v, FitsW f.w v → sextLE (leBytes f.w.len v) = v := by
      intro v hv
      refine sextLE_leBytes _ v ?_ hv
      cases f.w <;> simp [Width.len]
    unfold Field.Correct
    rw [hb]
    cases htg : f.tgt with
    | label k d =>
      simp only
      intro o ho
      by_cases ha : f.abs = true
      · rw [if_pos ha]
        have hv : specR t sp.defs (len pre) f = t + BitVec.ofNat 64 o := by
          simp [specR, Field.value, htg, ho, ha]
        rw [hv, (hshape _ f hf ha).1]
        exact fromLE8 _
      · have ha' : f.abs = false := by simpa using ha
        rw [if_neg ha]
        have hv : f.value t sp.defs (len pre) = some (BitVec.ofNat 64 o + d - BitVec.ofNat 64 (len pre + f.w.len)) := by
          simp [Field.value, htg, ho, ha']
        have hfw := hfit _ f _ hf ha' hv
        have : specR t sp.defs (len pre) f = BitVec.ofNat 64 o + d - BitVec.ofNat 64 (len pre + f.w.len) := by
          unfold specR; rw [hv]; rfl
        rw [this, hsx _ hfw]
        rw [BitVec.add_comm, BitVec.sub_add_cancel]
    | addr a =>
      simp only
      have ha' : f.abs = false := by
        refine Bool.eq_false_iff.mpr fun ha => ?_
        obtain ⟨_, k, d, h⟩ := hshape _ f hf ha
        rw [htg] at h; cases h
      have hv : f.value t sp.defs (len pre) = some (a - (t + BitVec.ofNat 64 (len pre + f.w.len))) := by
        simp [Field.value, htg]
      have hfw := hfit _ f _ hf ha' hv
      have : specR t sp.defs (len pre) f = a - (t + BitVec.ofNat 64 (len pre + f.w.len)) := by
        unfold specR; rw [hv]; rfl
      rw [this, hsx _ hfw, BitVec.add_comm, BitVec.sub_add_cancel]

/-- In a fixed buffer the code is final at any time. -/
theorem Inv.implements {cx : Cx} {g : G} {sp : Spec} (h : Inv cx g sp) (hx : cx.auto = false) :
    Implements g.ca.code g.ca.top sp := by
  have ht : TopOk cx g.ca.top := fun _ => h.buf.top hx
  refine implements_render ?_ ?_ h.vals.shape
  · have := h.buf.code _ ht
    unfold vcode at this
    rw [h.buf.nil hx] at this
    exact this
  · intro p f v hf ha hv
    exact h.vals.fits p f _ v hf ha ht hv (fun _ => hx)

/-- Deferred writes at `ready`. -/
theorem calcLoop_sat (l : List AddrInfo) (c : CA) (hw : c.Wf) (hl : ∀ i ∈ l, IOk c.maxSize i ∧ i.codeOffset + i.jmpSize ≤ c.size) :
    (calcLoop l c).Sat (fun _ c' => SameBuf c c' ∧ c'.code = applyInfos c.top c.code l ∧
      ∀ i ∈ l, i.jmpSize = 4 → isInInt32 (infoVal c.top i) = true) (fun _ _ => True) := by
  induction l generalizing c with
  | nil => exact ⟨SameBuf.refl _, rfl, fun _ h => by cases h⟩
  | cons i t ih =>
    unfold calcLoop
    rw [M.get_bind]
    have hv : (AddrInfo.getVal i c.top c : Res CA Word).Sat (fun v c' => c' = c ∧
        leBytes i.jmpSize v = leBytes i.jmpSize (infoVal c.top i) ∧ (i.jmpSize = 4 → isInInt32 (infoVal c.top i) = true))
        (fun _ _ => True) := by
      show ((if i.jmpSize = 4 then (do let d ← verifyInInt32 (infoVal c.top i); pure (d.setWidth 64))
        else pure (infoVal c.top i) : M CA Word) c).Sat _ _
      by_cases h4 : i.jmpSize = 4
      · rw [if_pos h4, verifyInInt32_bind]
        split
        · rename_i hi
          exact ⟨rfl, by rw [h4, leBytes4_lo32], fun _ => hi⟩
        · trivial
      · rw [if_neg h4]
        exact ⟨rfl, rfl, fun h => absurd h h4⟩
    refine M.sat_bind (hv.mono (fun _ _ h => h) (fun _ _ _ => trivial)) ?_
    rintro v c' ⟨rfl, hbytes, h4⟩
    obtain ⟨⟨h1, h2⟩, h3⟩ := hl i (by simp)
    have hm := hw.max_le
    have hsz := hw.size_le
    rw [M.bind_run]
    unfold CA.rewrite
    rw [if_neg (by omega), if_pos (by omega)]
    simp only
    rw [hbytes]
    have hsame : SameBuf c' { c' with mem := patch c'.mem i.codeOffset (leBytes i.jmpSize (infoVal c'.top i)) } :=
      ⟨rfl, rfl, rfl, rfl, patch_length _ _ _ (by rw [leBytes_length]; omega), rfl, rfl, rfl⟩
    refine (ih _ (hsame.wf hw) (fun i hi => hl i (by simp [hi]))).mono ?_ (fun _ _ _ => trivial)
    rintro _ c'' ⟨h5, h6, h7⟩
    refine ⟨hsame.trans h5, ?_, ?_⟩
    · rw [h6]
      simp only [applyInfos, List.foldl_cons]
      congr 1
      simp only [CA.code]
      exact patch_take _ _ _ _ (by rw [leBytes_length]; omega) (by omega)
    · intro i' hi'
      simp only [List.mem_cons] at hi'
      rcases hi' with rfl | hi'
      · exact h4
      · exact h7 i' hi'

/-- What is left undefined. -/
theorem undef_iff {cx : Cx} {g : G} {sp : Spec} (h : Inv cx g sp) : hasUndefinedLabel g = true ↔ sp.HasUndefined := by
  have fwd : ∀ k j, Entry g sp k j → sp.HasUndefined := by
    intro k j he
    obtain ⟨h1, f, h2, _, _, h3, _⟩ := h.pend.ok k j he
    obtain ⟨pre, post, hpp, _⟩ := fieldAt_split h2
    exact ⟨f, k, j.disp, by rw [hpp]; simp, h3, h1⟩
  constructor
  · unfold hasUndefinedLabel
    simp only [Bool.or_eq_true, Bool.not_eq_true', List.any_eq_true]
    rintro ((hu | ⟨st, hst, hu⟩) | hu)
    · match hc : g.glob.undef with
      | [] => rw [hc] at hu; cases hu
      | (s, j) :: t =>
        have hm : (s, j) ∈ g.glob.undef := by rw [hc]; simp
        obtain ⟨h1, h2⟩ := h.tab.globU s j hm
        by_cases hbf : s = "@b" ∨ s = "@f"
        · exact fwd (.anon sp.anons) j ⟨rfl, by rw [← h2 hbf]; exact hm⟩
        · exact fwd (.name s) j ⟨h1, fun e => hbf (.inl e), fun e => hbf (.inr e), hm⟩
    · match hc : st.undef with
      | [] => rw [hc] at hu; cases hu
      | (s, j) :: t =>
        have hm : (s, j) ∈ st.undef := by rw [hc]; simp
        obtain ⟨i, hi, hget⟩ := List.getElem_of_mem hst
        have hlen := h.tab.locLen
        have hz : (sp.scopes[i]'(by omega), st) ∈ sp.scopes.zip g.locals := by
          refine List.mem_iff_getElem.mpr ⟨i, by rw [List.length_zip]; omega, ?_⟩
          rw [List.getElem_zip, hget]
        exact fwd (.loc _ s) j ⟨st, hz, hm⟩
    · match hc : g.cundef with
      | [] => rw [hc] at hu; cases hu
      | (n, j) :: t => exact fwd (.obj n) j (by show (n, j) ∈ g.cundef; rw [hc]; simp)
  · rintro ⟨f, k, d, hf, htg, hn⟩
    obtain ⟨pre, post, hpp⟩ := List.append_of_mem hf
    have hfa : fieldAt sp.cells (len pre) = some f := by rw [hpp]; exact fieldAt_mid pre post f
    obtain ⟨j, he, _⟩ := h.pend.ex _ f k d hfa htg hn
    have ne : ∀ {α : Type} {x : α} {l : List α}, x ∈ l → (!l.isEmpty) = true := by
      intro α x l hm; cases l with
      | nil => cases hm
      | cons => rfl
    unfold hasUndefinedLabel
    simp only [Bool.or_eq_true, List.any_eq_true]
    cases k with
    | obj n => exact .inr (ne he)
    | name s => exact .inl (.inl (ne he.2.2.2))
    | anon i => exact .inl (.inl (ne he.2))
    | loc σ s =>
      obtain ⟨st, h1, h2⟩ := he
      exact .inl (.inr ⟨st, (List.of_mem_zip h1).2, ne h2⟩)

/-- `ready` in AutoGrow mode. -/
theorem ready_refines {cx : Cx} {g : G} {sp : Spec} (env : Env) (h : Inv cx g sp) (hs : BufSafe g) (hx : cx.auto = true) :
    (ready env g).Sat (fun _ g' => ¬ sp.HasUndefined ∧ g'.ca.top = g.ca.top ∧ g'.ca.calcDone = true ∧
      Implements g'.ca.code g'.ca.top sp)
      (fun _ _ => True) := by
  unfold ready
  rw [M.get_bind, M.throwIf_bind]
  by_cases hu : hasUndefinedLabel g = true
  · rw [if_pos hu]; trivial
  rw [if_neg hu, if_pos (by rw [h.buf.auto]; exact hx)]
  have hnu : ¬ sp.HasUndefined := fun hc => hu ((undef_iff h).mpr hc)
  refine M.sat_bind (Q' := fun _ g' => g'.ca.top = g.ca.top ∧ g'.ca.calcDone = true ∧ Implements g'.ca.code g'.ca.top sp) ?_ ?_
  · refine (liftCA_sat (Q := fun _ c => c.top = g.ca.top ∧ c.calcDone = true ∧ Implements c.code c.top sp)
      (E := fun _ _ => True) ?_).mono (fun _ g' hg => hg.2) (fun _ _ _ => trivial)
    unfold calcJmpAddress
    rw [M.get_bind, h.buf.calcD]
    simp only [Bool.false_eq_true, if_false]
    refine M.sat_bind (calcLoop_sat _ _ h.buf.wf fun i hi => ⟨hs.info i hi, h.buf.infoIn i hi⟩) ?_
    rintro _ c' ⟨h1, h2, h3⟩
    simp only [M.modify_run, Res.Sat]
    refine ⟨h1.top, trivial, ?_⟩
    have ht : TopOk cx g.ca.top := by intro h'; rw [hx] at h'; cases h'
    show Implements c'.code c'.top sp
    rw [h1.top]
    refine implements_render ?_ ?_ h.vals.shape
    · rw [h2]; exact h.buf.code _ ht
    · intro p f v hf ha hv
      cases htg : f.tgt with
      | label k d => exact h.vals.fits p f _ v hf ha ht hv (fun ⟨a, h⟩ => by rw [htg] at h; cases h)
      | addr a =>
        obtain ⟨h5, h6⟩ := h.buf.addr hx p f a hf htg
        have := h3 _ h5 rfl
        simp only [infoVal] at this
        simp only [Field.value, htg, Option.some.injEq] at hv
        rw [h6] at hv ⊢
        have e : a - BitVec.ofNat 64 (p + 4) - g.ca.top = v := by
          rw [← hv]
          simp only [Width.len, BitVec.sub_eq_add_neg, BitVec.neg_add]
          ac_rfl
        rw [e] at this
        exact (isInInt32_iff _).mp this
  · rintro _ g' ⟨h1, h2, h3⟩
    split
    · unfold liftCA setProtectMode
      simp only
      split
      · rename_i heq; split at heq <;> cases heq; exact ⟨hnu, h1, h2, h3⟩
      · trivial
      · rename_i heq; split at heq <;> cases heq
    · exact ⟨hnu, h1, h2, h3⟩

end Asm
end Xbyak
