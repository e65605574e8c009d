import Verif.RefineStep
/-! # Refinement of the emitting calls -/
namespace Xbyak
open CA G
namespace Asm

theorem fieldAt_tail (hdr : List Byte) (f : Field) (p : Nat) (f' : Field)
    (h : fieldAt (hdr.map .byte ++ [.field f]) p = some f') : p = hdr.length ∧ f' = f := by
  rw [fieldAt_append, fieldAt_bytes, len_bytes] at h
  split at h
  · cases h
  · simp only [fieldAt] at h
    split at h
    · cases h; exact ⟨by omega, rfl⟩
    · split at h <;> cases h

theorem Vals.emit {cx : Cx} {cells cs : List Cell} {defs} (h : Vals cx cells defs)
    (hf : ∀ p f, fieldAt cs p = some f →
      (f.abs = true → f.w = .w8 ∧ ∃ k d, f.tgt = .label k d) ∧
      (f.abs = false → ∀ t v, TopOk cx t → f.value t defs (len cells + p) = some v →
        ((∃ a, f.tgt = .addr a) → cx.auto = false) → FitsW f.w v)) : Vals cx (cells ++ cs) defs := by
  refine ⟨?_, ?_, ?_⟩
  · intro p f t v hp ha ht hv had
    rw [fieldAt_append] at hp
    split at hp
    · exact h.fits p f t v hp ha ht hv had
    · refine (hf _ f hp).2 ha t v ht ?_ had
      have : len cells + (p - len cells) = p := by omega
      rw [this]; exact hv
  · intro p f hp ha
    rw [fieldAt_append] at hp
    split at hp
    · exact h.shape p f hp ha
    · exact (hf _ f hp).1 ha
  · intro k o ho
    have := h.defsLe k o ho
    rw [len_append]; omega

theorem Site.mono {cx : Cx} {cells cs : List Cell} {k : Key} {j : JmpLabel} (h : Site cx cells k j) :
    Site cx (cells ++ cs) k j := by
  obtain ⟨f, h1, h2⟩ := h
  refine ⟨f, ?_, h2⟩
  rw [fieldAt_append, if_pos]
  · exact h1
  · have := fieldAt_lt h1
    have := f.w.len_pos
    omega

theorem Tab.sp {g : G} {sp : Spec} (h : Tab g sp) (cs : List Cell) : Tab g (sp.emit cs) :=
  ⟨h.near, h.labelId, h.idPos, h.objs, h.objDef, h.fresh, h.freshU, h.glob, h.globU, h.anonCur, h.anonPrev, h.anonDef,
    h.locLen, h.loc, h.nodup, h.scopeLt, h.scopeFresh⟩

theorem Entry.emit {g : G} {sp : Spec} (cs : List Cell) (k j) : Entry g (sp.emit cs) k j ↔ Entry g sp k j :=
  Entry.sp rfl rfl k j

theorem Pend.emitKnown {cx : Cx} {g g' : G} {sp : Spec} {cs : List Cell} (h : Pend cx g sp)
    (hf : g' = { g with ca := g'.ca })
    (hk : ∀ p f k d, fieldAt cs p = some f → f.tgt = .label k d → sp.defs k ≠ none) : Pend cx g' (sp.emit cs) := by
  refine ⟨?_, ?_⟩
  · intro k j he
    rw [Entry.emit, Entry.ca hf] at he
    obtain ⟨h1, h2⟩ := h.ok k j he
    exact ⟨h1, h2.mono⟩
  · intro p f k d hp htg hn
    simp only [Spec.emit] at hp hn
    rw [fieldAt_append] at hp
    split at hp
    · obtain ⟨j, h1, h2⟩ := h.ex p f k d hp htg hn
      exact ⟨j, (Entry.emit cs k j).mpr ((Entry.ca hf k j).mpr h1), h2⟩
    · exact absurd hn (hk _ f k d hp htg)

theorem Inv.emitKnown {cx : Cx} {g g' : G} {sp : Spec} {bs : List Byte} {cs : List Cell} (h : Inv cx g sp)
    (he : EmitG g g' bs) (hr : ∀ t, TopOk cx t → renderR (specR t sp.defs) sp.size cs = bs)
    (ha : cx.auto = true → ∀ p f a, fieldAt cs p = some f → f.tgt ≠ .addr a)
    (hk : ∀ p f k d, fieldAt cs p = some f → f.tgt = .label k d → sp.defs k ≠ none)
    (hf : ∀ p f, fieldAt cs p = some f →
      (f.abs = true → f.w = .w8 ∧ ∃ k d, f.tgt = .label k d) ∧
      (f.abs = false → ∀ t v, TopOk cx t → f.value t sp.defs (sp.size + p) = some v →
        ((∃ a, f.tgt = .addr a) → cx.auto = false) → FitsW f.w v)) :
    Inv cx g' (sp.emit cs) :=
  ⟨h.buf.emit he.emit hr ha, h.vals.emit hf, h.pend.emitKnown he.frame hk, (h.tab.ca he.frame).sp cs⟩

/-- Literal bytes. -/
theorem Inv.emitBytes {cx : Cx} {g g' : G} {sp : Spec} {bs : List Byte} (h : Inv cx g sp) (he : EmitG g g' bs) :
    Inv cx g' (sp.emit (bs.map .byte)) := by
  refine h.emitKnown he (fun t _ => renderR_bytes _ _ _) ?_ ?_ ?_
  · intro _ p f a hp; rw [fieldAt_bytes] at hp; cases hp
  · intro p f k d hp; rw [fieldAt_bytes] at hp; cases hp
  · intro p f hp; rw [fieldAt_bytes] at hp; cases hp

/-- Literal bytes followed by a field whose value is known. -/
theorem Inv.emitField {cx : Cx} {g g' : G} {sp : Spec} {hdr : List Byte} {f : Field} {v : Word} (h : Inv cx g sp)
    (he : EmitG g g' (hdr ++ leBytes f.w.len v))
    (hv : ∀ t, TopOk cx t → f.value t sp.defs (sp.size + hdr.length) = some v)
    (ha : cx.auto = true → ∀ a, f.tgt ≠ .addr a)
    (hf : (f.abs = true → f.w = .w8 ∧ ∃ k d, f.tgt = .label k d) ∧ (f.abs = false → FitsW f.w v)) :
    Inv cx g' (sp.emit (hdr.map .byte ++ [.field f])) := by
  refine h.emitKnown he ?_ ?_ ?_ ?_
  · intro t ht
    rw [renderR_append, renderR_bytes, len_bytes]
    simp only [renderR, List.append_nil]
    unfold specR
    rw [hv t ht]; rfl
  · intro hx p f' a hp
    obtain ⟨_, rfl⟩ := fieldAt_tail _ _ _ _ hp
    exact ha hx a
  · intro p f' k d hp htg
    obtain ⟨_, rfl⟩ := fieldAt_tail _ _ _ _ hp
    have := hv cx.top (fun _ => rfl)
    intro hn
    unfold Field.value at this
    rw [htg] at this
    simp [hn] at this
  · intro p f' hp
    obtain ⟨rfl, rfl⟩ := fieldAt_tail _ _ _ _ hp
    refine ⟨hf.1, fun h0 t v' ht hv' _ => ?_⟩
    rw [hv t ht] at hv'; cases hv'
    exact hf.2 h0

/-- Literal bytes followed by a field whose label is not defined yet. -/
theorem Inv.emitPending {cx : Cx} {g g1 : G} {sp : Spec} {hdr : List Byte} {f : Field} {k : Key} {d : Word} {l' : LRef}
    (env : Env) (h : Inv cx g sp) (he : EmitG g g1 (hdr ++ leBytes f.w.len 0)) (htg : f.tgt = .label k d)
    (hk : sp.defs k = none) (hl : KeyLoc g sp l' k) {m : LabelMode}
    (hm : m = (if f.abs then (if cx.auto then .addTop else .abs) else .asIs)) (hw : f.abs = true → f.w = .w8) :
    Inv cx (addU env l' ⟨g1.ca.size, f.w.len, m, d⟩ g1) (sp.emit (hdr.map .byte ++ [.field f])) := by
  have hsz : g1.ca.size = len sp.cells + hdr.length + f.w.len := by
    rw [he.emit.size, h.buf.size]; simp; omega
  have hnone : ∀ t p, f.value t sp.defs p = none := by
    intro t p; unfold Field.value; rw [htg]; simp [hk]
  have hl1 : KeyLoc g1 sp l' k := by rw [he.frame]; exact hl
  have ht1 : Tab g1 sp := h.tab.ca he.frame
  refine ⟨?_, ?_, ?_, (addU_tab ht1 env hl1 _).sp _⟩
  · rw [addU_ca]
    refine h.buf.emit he.emit ?_ ?_
    · intro t ht
      rw [renderR_append, renderR_bytes, len_bytes]
      simp only [renderR, List.append_nil]
      unfold specR
      rw [hnone]; rfl
    · intro _ p f' a hp
      obtain ⟨_, rfl⟩ := fieldAt_tail _ _ _ _ hp
      rw [htg]; simp
  · refine h.vals.emit ?_
    intro p f' hp
    obtain ⟨rfl, rfl⟩ := fieldAt_tail _ _ _ _ hp
    refine ⟨fun ha => ⟨hw ha, k, d, htg⟩, fun h0 t v' ht hv' _ => ?_⟩
    rw [hnone] at hv'; cases hv'
  · have hat : fieldAt (sp.cells ++ (hdr.map .byte ++ [.field f])) (len sp.cells + hdr.length) = some f := by
      rw [← List.append_assoc]
      have := fieldAt_mid (sp.cells ++ hdr.map .byte) [] f
      rwa [len_append, len_bytes] at this
    refine ⟨?_, ?_⟩
    · intro k' j' he'
      rw [Entry.emit, addU_entry ht1 env hl1, Entry.ca he.frame] at he'
      rcases he' with he' | ⟨rfl, rfl⟩
      · obtain ⟨a, b⟩ := h.pend.ok k' j' he'
        exact ⟨a, b.mono⟩
      · refine ⟨hk, f, ?_, rfl, by simp only; omega, htg, hm⟩
        simp only
        rw [hsz]
        have : len sp.cells + hdr.length + f.w.len - f.w.len = len sp.cells + hdr.length := by omega
        rw [this]
        exact hat
    · intro p f' k' d' hp htg' hn
      simp only [Spec.emit] at hp hn
      rw [fieldAt_append] at hp
      split at hp
      · obtain ⟨j, h1, h2⟩ := h.pend.ex p f' k' d' hp htg' hn
        exact ⟨j, (Entry.emit _ k' j).mpr ((addU_entry ht1 env hl1 _ _ _).mpr (.inl ((Entry.ca he.frame k' j).mpr h1))), h2⟩
      · obtain ⟨hp', rfl⟩ := fieldAt_tail _ _ _ _ hp
        rw [htg] at htg'
        cases htg'
        refine ⟨⟨g1.ca.size, f'.w.len, m, d⟩, (Entry.emit _ k _).mpr ((addU_entry ht1 env hl1 _ _ _).mpr (.inr ⟨rfl, rfl⟩)), ?_, rfl⟩
        simp only; omega

/-- Literal bytes followed by a field whose value is deferred to `ready()`. -/
theorem Inv.emitSave {cx : Cx} {g g1 : G} {sp : Spec} {hdr : List Byte} {f : Field} {v : Word} {m : LabelMode}
    (h : Inv cx g sp) (he : EmitG g g1 (hdr ++ leBytes f.w.len 0)) (hx : cx.auto = true)
    (hv : ∀ t, f.value t sp.defs (sp.size + hdr.length) = some (infoVal t ⟨0, v, 0, m⟩))
    (ha : ∀ a, f.tgt = .addr a → f.w = .w4 ∧ v = a - BitVec.ofNat 64 (sp.size + hdr.length + 4) ∧ m = .abs)
    (hf : (f.abs = true ∧ f.w = .w8 ∧ ∃ k d, f.tgt = .label k d) ∨ ∃ a, f.abs = false ∧ f.tgt = .addr a) :
    Inv cx { g1 with ca := { g1.ca with addrInfo := g1.ca.addrInfo ++ [⟨g1.ca.size - f.w.len, v, f.w.len, m⟩] } }
      (sp.emit (hdr.map .byte ++ [.field f])) := by
  have hfr : ({ g1 with ca := { g1.ca with addrInfo := g1.ca.addrInfo ++ [⟨g1.ca.size - f.w.len, v, f.w.len, m⟩] } } : G) =
      { g with ca := { g1.ca with addrInfo := g1.ca.addrInfo ++ [⟨g1.ca.size - f.w.len, v, f.w.len, m⟩] } } := by
    rw [he.frame]
  refine ⟨?_, ?_, ?_, ?_⟩
  · refine h.buf.emitSave he.emit hx ?_ ha
    intro t
    unfold specR
    have := hv t
    unfold Spec.size at this
    rw [this]; rfl
  · refine h.vals.emit ?_
    intro p f' hp
    obtain ⟨rfl, rfl⟩ := fieldAt_tail _ _ _ _ hp
    rcases hf with ⟨h1, h2, h3⟩ | ⟨a, h1, h2⟩
    · exact ⟨fun _ => ⟨h2, h3⟩, fun h0 => (by rw [h0] at h1; cases h1)⟩
    · refine ⟨fun h0 => (by rw [h0] at h1; cases h1), fun _ t v' _ _ had => ?_⟩
      have := had ⟨a, h2⟩
      rw [hx] at this; cases this
  · refine h.pend.emitKnown hfr ?_
    intro p f' k d hp htg
    obtain ⟨_, rfl⟩ := fieldAt_tail _ _ _ _ hp
    have := hv 0
    intro hn
    unfold Field.value at this
    rw [htg] at this
    simp [hn] at this
  · exact (h.tab.ca hfr).sp _

/-! ## jumps -/

theorem jmpCells_eq (short : Bool) (s lo p : Byte) (t : Tgt) : jmpCells short s lo p t =
    (fwdHdr (!short) s lo p).map .byte ++ [.field ⟨if short then .w1 else .w4, false, t⟩] := by
  unfold jmpCells fwdHdr
  cases short with
  | true => rfl
  | false =>
    simp only [Bool.false_eq_true, if_false, Bool.not_false, if_true]
    split <;> rfl

theorem fwdW_eq (short : Bool) : fwdW (!short) = (if short then Width.w1 else .w4).len := by
  cases short <;> rfl

/-- The bytes chosen for a known distance `x`. -/
theorem jmpBytes_spec {x : Word} {ty : LabelType} {s lo p : Byte} {bs : List Byte} (hi : isInInt32 x = true)
    (hb : jmpBytes (lo32 x) ty s lo p = some bs) :
    let short := ty ≠ .near && decide (Fits8 (x - 2))
    let w := if short then Width.w1 else .w4
    bs = fwdHdr (!short) s lo p ++ leBytes w.len (x - BitVec.ofNat 64 ((fwdHdr (!short) s lo p).length + w.len)) ∧
    (-(2 ^ 31) + 6 ≤ x.toInt → FitsW w (x - BitVec.ofNat 64 ((fwdHdr (!short) s lo p).length + w.len))) := by
  have hx := (isInInt32_iff x).mp hi
  have hlt := x.isLt
  have t32 : (2 : BitVec 32).toNat = 2 := rfl
  have t64 : (2 : BitVec 64).toNat = 2 := rfl
  have hlo : (lo32 x - 2).setWidth 8 = (x - 2).setWidth 8 := by
    apply BitVec.eq_of_toNat_eq
    simp only [lo32, BitVec.toNat_setWidth, BitVec.toNat_sub, t32, t64]
    omega
  have hfit : isInDisp8 (lo32 x - 2) = true ↔ Fits8 (x - 2) := by
    rw [isInDisp8_iff]
    unfold Fits8
    simp only [BitVec.toInt_eq_toNat_cond, lo32, BitVec.toNat_setWidth, BitVec.toNat_sub, t32, t64] at hx ⊢
    split at hx <;> split <;> split <;> omega
  have hd : decide (Fits8 (x - 2)) = isInDisp8 (lo32 x - 2) := by
    cases hc : isInDisp8 (lo32 x - 2) with
    | true => exact decide_eq_true (hfit.mp hc)
    | false => exact decide_eq_false (fun h => by rw [hfit.mpr h] at hc; cases hc)
  intro short w
  unfold jmpBytes at hb
  by_cases hc : ty ≠ .near ∧ isInDisp8 (lo32 x - 2) = true
  · rw [if_pos hc] at hb
    cases hb
    have hs : short = true := by
      show (decide (ty ≠ .near) && decide (Fits8 (x - 2))) = true
      rw [hd, hc.2]; simp [hc.1]
    have hw : w = .w1 := by show (if short = true then Width.w1 else .w4) = _; rw [hs]; rfl
    rw [hw, hs]
    refine ⟨?_, ?_⟩
    · simp only [fwdHdr, Bool.not_true, Bool.false_eq_true, if_false, List.length_singleton, Width.len]
      simp only [leBytes, List.range_one, List.map_cons, List.map_nil, List.singleton_append]
      rw [hlo]
      simp
    · intro _
      simp only [fwdHdr, Bool.not_true, Bool.false_eq_true, if_false, List.length_singleton, Width.len]
      have := hfit.mp hc.2
      unfold Fits8 at this
      unfold FitsW
      simp only [Width.len]
      exact ⟨this.1, by have := this.2; show (x - 2).toInt < _; omega⟩
  · rw [if_neg hc] at hb
    split at hb
    · cases hb
    · have hs : short = false := by
        show (decide (ty ≠ .near) && decide (Fits8 (x - 2))) = false
        rw [hd]
        by_cases h1 : ty ≠ .near
        · simp only [h1, ne_eq, not_false_eq_true, decide_true, Bool.true_and]
          exact Bool.eq_false_iff.mpr fun h2 => hc ⟨h1, h2⟩
        · simp [h1]
      have hw : w = .w4 := by show (if short = true then Width.w1 else .w4) = _; rw [hs]; rfl
      cases hb
      rw [hw, hs]
      simp only [fwdHdr, Bool.not_false, if_true, Width.len]
      have hle : ∀ n : Nat, n ≤ 6 → leBytes 4 ((lo32 x - BitVec.ofNat 32 n).setWidth 64) = leBytes 4 (x - BitVec.ofNat 64 n) := by
        intro n hn
        have : ∀ a b : Word, a.setWidth 32 = b.setWidth 32 → leBytes 4 a = leBytes 4 b := by
          intro a b hab
          unfold leBytes
          refine List.map_congr_left fun i hi => ?_
          apply BitVec.eq_of_getLsbD_eq
          intro m hm
          have hi' : i < 4 := List.mem_range.mp hi
          have h1 : ∀ y : Word, ((y >>> (8 * i)).setWidth 8).getLsbD m = (y.setWidth 32).getLsbD (8 * i + m) := by
            intro y
            simp only [BitVec.getLsbD_setWidth, BitVec.getLsbD_ushiftRight]
            have : m < 8 := hm
            have : 8 * i + m < 32 := by omega
            simp [*]
          rw [h1, h1, hab]
        apply this
        apply BitVec.eq_of_toNat_eq
        simp only [lo32, BitVec.toNat_setWidth, BitVec.toNat_sub, BitVec.toNat_ofNat]
        have : n % 2 ^ 32 = n := Nat.mod_eq_of_lt (by omega)
        have : n % 2 ^ 64 = n := Nat.mod_eq_of_lt (by omega)
        omega
      have hfitw : ∀ n : Nat, n ≤ 6 → -(2 ^ 31) + 6 ≤ x.toInt → FitsW .w4 (x - BitVec.ofNat 64 n) := by
        intro n hn hge
        unfold FitsW
        simp only [Width.len]
        have : n % 2 ^ 64 = n := Nat.mod_eq_of_lt (by omega)
        simp only [BitVec.toInt_eq_toNat_cond, BitVec.toNat_sub, BitVec.toNat_ofNat] at hx hge ⊢
        split at hx <;> split <;> omega
      by_cases hp : p ≠ 0
      · simp only [if_pos hp, List.length_append, List.length_singleton]
        refine ⟨?_, hfitw 6 (by omega)⟩
        rw [hle (2 + 4) (by omega)]
      · simp only [if_neg hp, List.nil_append, List.length_singleton]
        refine ⟨?_, hfitw 5 (by omega)⟩
        rw [hle (1 + 4) (by omega)]

end Asm
end Xbyak
