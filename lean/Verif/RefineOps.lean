import Verif.RefineEmit
import Verif.StepSafe
/-! # Refinement of jumps, `putL`, `[rip+label]` and definitions -/
namespace Xbyak
open CA G
namespace Asm

theorem leBytes4_lo32 (x : Word) : leBytes 4 ((lo32 x).setWidth 64) = leBytes 4 x := by
  unfold leBytes
  refine List.map_congr_left fun i hi => ?_
  have hi' : i < 4 := List.mem_range.mp hi
  apply BitVec.eq_of_getLsbD_eq
  intro m hm
  have : m < 8 := hm
  have : 8 * i + m < 32 := by omega
  have : 8 * i + m < 64 := by omega
  simp [lo32, BitVec.getLsbD_ushiftRight, *]

theorem touched_id {g : G} {sp : Spec} (ht : Tab g sp) (l : LRef) :
    ∀ x o, l = .obj x → (touch l g).heap x = some o → o.id ≠ 0 := by
  rintro x o rfl ho
  unfold G.touch at ho
  cases hx : g.heap x with
  | none => simp only [hx] at ho; cases ho
  | some o' =>
    simp only [hx] at ho
    split at ho
    · simp only [upd_same, Option.some.injEq] at ho
      subst ho
      simp only
      rw [ht.labelId]; have := ht.idPos; omega
    · rename_i h0
      rw [hx] at ho; cases ho; exact h0

theorem value_rel (t : Word) (defs : Key → Option Nat) (k : Key) (d : Word) (w : Width) (o p : Nat) (h : defs k = some o) :
    Field.value t defs p ⟨w, false, .label k d⟩ = some (BitVec.ofNat 64 o + d - BitVec.ofNat 64 (p + w.len)) := by
  simp [Field.value, h]

/-- Distance to a label defined inside of less than 2 GiB of code. -/
theorem dist_ge {o s : Nat} (h1 : o ≤ s) (h2 : s + 6 ≤ 2 ^ 31) :
    -(2 ^ 31) + 6 ≤ (BitVec.ofNat 64 o - BitVec.ofNat 64 s).toInt := by
  simp only [BitVec.toInt_eq_toNat_cond, BitVec.toNat_sub, BitVec.toNat_ofNat]
  have : o % 2 ^ 64 = o := Nat.mod_eq_of_lt (by omega)
  have : s % 2 ^ 64 = s := Nat.mod_eq_of_lt (by omega)
  split <;> omega

theorem sub_sub_ofNat (a : Word) (s n : Nat) : a - BitVec.ofNat 64 s - BitVec.ofNat 64 n = a - BitVec.ofNat 64 (s + n) := by
  rw [BitVec.ofNat_add]
  simp only [BitVec.sub_eq_add_neg, BitVec.neg_add]
  ac_rfl

theorem jmp_refines {cx : Cx} {g g' : G} {sp : Spec} {env : Env} {l : LRef} {ty : LabelType} {s lo p : Byte}
    (h : Inv cx g sp) (hs : BufSafe g) (hl : Life g) (hj : JmpOk env l ty s lo p g g') (hsz : g.ca.size + 6 ≤ 2 ^ 31) :
    ∃ sp', Step cx (.jmp l ty s lo p) sp sp' ∧ Inv cx g' sp' := by
  obtain ⟨_, l', off, hr, hm⟩ := hj
  have hi := h.touch hl l
  obtain ⟨k, hk, hoff, hloc⟩ := resolved_key hi (hs.touch l) (touched_id h.tab l) hr
  have hsize : (sp.touch l).size = sp.size := by unfold Spec.size; rw [sp_touch_cells]
  have hgs : g.ca.size = sp.size := h.buf.size
  refine ⟨_, ⟨k, hk, rfl⟩, ?_⟩
  rw [jmpCells_eq]
  rw [sp_touch_defs] at hoff
  cases off with
  | some o =>
    obtain ⟨h1, bs, h2, h3⟩ := hm
    have hsp := jmpBytes_spec h1 h2
    have hshort : sp.shortForm k ty = (ty ≠ .near && decide (Fits8 (BitVec.ofNat 64 o - BitVec.ofNat 64 g.ca.size - 2))) := by
      unfold Spec.shortForm
      rw [← hoff]
      simp only
      have : BitVec.ofNat 64 o - BitVec.ofNat 64 g.ca.size - 2 = BitVec.ofNat 64 o - BitVec.ofNat 64 (sp.size + 2) := by
        rw [hgs]; exact sub_sub_ofNat _ _ 2
      rw [this]
    simp only [← hshort] at hsp
    obtain ⟨hb, hfit⟩ := hsp
    rw [hb] at h3
    refine hi.emitField (f := ⟨if sp.shortForm k ty then .w1 else .w4, false, .label k 0⟩) h3 ?_ ?_ ?_
    · intro t _
      rw [value_rel _ _ _ _ _ o _ (by rw [sp_touch_defs]; exact hoff.symm), hsize, hgs, sub_sub_ofNat]
      rw [show BitVec.ofNat 64 o + (0 : Word) = BitVec.ofNat 64 o from BitVec.add_zero _, Nat.add_assoc]
    · intro _ a; simp
    · refine ⟨by simp, fun _ => hfit (dist_ge ?_ hsz)⟩
      rw [hgs]
      exact h.vals.defsLe k o hoff.symm
  | none =>
    obtain ⟨g1, h1, rfl⟩ := hm
    have hn : isNEAR g ty = !sp.shortForm k ty := by
      unfold Spec.shortForm isNEAR
      rw [← hoff, h.tab.near]
      simp
    rw [hn, fwdW_eq] at h1
    rw [hn, fwdW_eq]
    exact hi.emitPending (f := ⟨if sp.shortForm k ty then .w1 else .w4, false, .label k 0⟩) env h1 rfl
      (by rw [sp_touch_defs]; exact hoff.symm) (hloc rfl) rfl (by simp)

theorem rel_refines {cx : Cx} {g g' : G} {sp : Spec} {env : Env} {l : LRef} {d : Word}
    (h : Inv cx g sp) (hs : BufSafe g) (hl : Life g) (hj : PutOk env l true d g g') :
    ∃ sp', Step cx (.ripL l d) sp sp' ∧ Inv cx g' sp' := by
  obtain ⟨l', off, hr, hm⟩ := hj
  have hi := h.touch hl l
  obtain ⟨k, hk, hoff, hloc⟩ := resolved_key hi (hs.touch l) (touched_id h.tab l) hr
  have hsize : (sp.touch l).size = sp.size := by unfold Spec.size; rw [sp_touch_cells]
  have hgs : g.ca.size = sp.size := h.buf.size
  refine ⟨_, ⟨k, hk, rfl⟩, ?_⟩
  cases off with
  | some o =>
    simp only [if_true] at hm
    obtain ⟨h1, h2⟩ := hm
    have e : BitVec.ofNat 64 o + d - BitVec.ofNat 64 g.ca.size - 4 = BitVec.ofNat 64 o + d - BitVec.ofNat 64 (sp.size + 4) := by
      rw [hgs]; exact sub_sub_ofNat _ _ 4
    rw [e] at h1 h2
    rw [leBytes4_lo32] at h2
    refine hi.emitField (hdr := []) (f := ⟨.w4, false, .label k d⟩) h2 ?_ ?_ ?_
    · intro t _
      rw [value_rel _ _ _ _ _ o _ hoff.symm, hsize]
      rfl
    · intro _ a; simp
    · exact ⟨by simp, fun _ => (isInInt32_iff _).mp h1⟩
  | none =>
    obtain ⟨g1, h1, rfl⟩ := hm
    exact hi.emitPending (hdr := []) (f := ⟨.w4, false, .label k d⟩) env h1 rfl hoff.symm (hloc rfl) rfl (by simp)

theorem abs_refines {cx : Cx} {g g' : G} {sp : Spec} {env : Env} {l : LRef}
    (h : Inv cx g sp) (hs : BufSafe g) (hl : Life g) (hj : PutOk env l false 0 g g') :
    ∃ sp', Step cx (.putL l) sp sp' ∧ Inv cx g' sp' := by
  obtain ⟨l', off, hr, hm⟩ := hj
  have hi := h.touch hl l
  obtain ⟨k, hk, hoff, hloc⟩ := resolved_key hi (hs.touch l) (touched_id h.tab l) hr
  refine ⟨_, ⟨k, hk, rfl⟩, ?_⟩
  have hval : ∀ t p o, (sp.touch l).defs k = some o →
      Field.value t (sp.touch l).defs p ⟨.w8, true, .label k 0⟩ = some (t + BitVec.ofNat 64 o) := by
    intro t p o ho; simp [Field.value, ho]
  cases off with
  | some o =>
    simp only [Bool.false_eq_true, if_false] at hm
    by_cases ha : g.ca.isAutoGrow = true
    · rw [if_pos ha] at hm
      obtain ⟨g1, h1, rfl⟩ := hm
      refine hi.emitSave (hdr := []) (f := ⟨.w8, true, .label k 0⟩) h1 (h.buf.auto ▸ ha) ?_ ?_ ?_
      · intro t
        rw [hval _ _ o hoff.symm]
        simp only [infoVal]
        rw [BitVec.add_comm]
      · intro a ha; simp at ha
      · exact .inl ⟨rfl, rfl, k, 0, rfl⟩
    · rw [if_neg ha] at hm
      have hx : cx.auto = false := by rw [← h.buf.auto]; simpa using ha
      refine hi.emitField (hdr := []) (f := ⟨.w8, true, .label k 0⟩) hm ?_ ?_ ?_
      · intro t ht
        rw [hval _ _ o hoff.symm, ht hx, h.buf.top hx]
      · intro _ a; simp
      · exact ⟨fun _ => ⟨rfl, k, 0, rfl⟩, by simp⟩
  | none =>
    obtain ⟨g1, h1, rfl⟩ := hm
    have := hi.emitPending (hdr := []) (f := ⟨.w8, true, .label k 0⟩) (l' := l')
      (m := if g.ca.isAutoGrow then .addTop else .abs) env h1 rfl hoff.symm (hloc rfl) (by rw [h.buf.auto]; rfl) (by simp)
    exact this

theorem jmpAbs_refines {cx : Cx} {g g' : G} {sp : Spec} {a : Word} {ty : LabelType} {s lo p : Byte}
    (h : Inv cx g sp) (hj : JmpAbsOk a ty s lo p g g')
    (hno : cx.auto = false → -(2 ^ 31) + 6 ≤ (a - g.ca.getCurr).toInt) :
    ∃ sp', Step cx (.jmpAbs a ty s lo p) sp sp' ∧ Inv cx g' sp' := by
  obtain ⟨_, hm⟩ := hj
  have hgs : g.ca.size = sp.size := h.buf.size
  refine ⟨_, rfl, ?_⟩
  rw [jmpCells_eq]
  by_cases ha : g.ca.isAutoGrow = true
  · rw [if_pos ha] at hm
    obtain ⟨_, g1, h1, rfl⟩ := hm
    have hx : cx.auto = true := by rw [← h.buf.auto]; exact ha
    have hshort : sp.shortAbs cx a ty = false := by unfold Spec.shortAbs; rw [hx]; rfl
    rw [hshort]
    have hsz := h1.emit.size
    have hlen : ((if p ≠ 0 then [p] else []) ++ [lo] ++ leBytes 4 0).length = (fwdHdr true s lo p).length + 4 := by
      unfold fwdHdr; simp
    rw [hlen] at hsz
    refine h.emitSave (hdr := fwdHdr true s lo p) (f := ⟨.w4, false, .addr a⟩) h1 hx ?_ ?_ ?_
    · intro t
      simp only [Field.value, infoVal]
      rw [hsz, hgs]
      have : sp.size + (fwdHdr true s lo p).length + Width.w4.len = sp.size + ((fwdHdr true s lo p).length + 4) := by
        simp [Width.len]; omega
      rw [this]
      simp only [BitVec.sub_eq_add_neg, BitVec.neg_add]
      congr 1; ac_rfl
    · intro a' ha'
      simp only [Tgt.addr.injEq] at ha'
      subst ha'
      refine ⟨rfl, ?_, rfl⟩
      rw [hsz, hgs, Nat.add_assoc]
    · exact .inr ⟨a, rfl, rfl⟩
  · rw [if_neg ha] at hm
    have hx : cx.auto = false := by rw [← h.buf.auto]; simpa using ha
    obtain ⟨h1, bs, h2, h3⟩ := hm
    have hcur : g.ca.getCurr = cx.top + BitVec.ofNat 64 sp.size := by
      unfold CA.getCurr; rw [h.buf.top hx, hgs]
    have hsub : ∀ n : Nat, a - g.ca.getCurr - BitVec.ofNat 64 n = a - (cx.top + BitVec.ofNat 64 (sp.size + n)) := by
      intro n
      rw [hcur, BitVec.ofNat_add]
      simp only [BitVec.sub_eq_add_neg, BitVec.neg_add]
      ac_rfl
    have hsp := jmpBytes_spec h1 h2
    have hshort : sp.shortAbs cx a ty = (ty ≠ .near && decide (Fits8 (a - g.ca.getCurr - 2))) := by
      unfold Spec.shortAbs
      rw [hx]
      have : a - g.ca.getCurr - 2 = a - (cx.top + BitVec.ofNat 64 (sp.size + 2)) := hsub 2
      rw [this]
      simp
    simp only [← hshort] at hsp
    obtain ⟨hb, hfit⟩ := hsp
    rw [hb] at h3
    refine h.emitField (f := ⟨if sp.shortAbs cx a ty then .w1 else .w4, false, .addr a⟩) h3 ?_ ?_ ?_
    · intro t ht
      rw [ht hx]
      simp only [Field.value]
      rw [hsub]
      simp only [Nat.add_assoc]
    · intro hx'; rw [hx] at hx'; cases hx'
    · exact ⟨by simp, fun _ => hfit (hno hx)⟩

end Asm
end Xbyak
