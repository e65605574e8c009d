import Verif.Called
import Verif.EncMode
import Verif.Props.Roles
import Verif.Spec.Encoding
/-!
# The encoding asked for is the one used (C80)
-/
namespace Xbyak
open E

/-- The preferences given in one group. -/
def E.SetEnc.inGroup (sel : Nat) : SetEnc → Option PrefEnc
  | .vnni enc => if sel = 0 then some enc else none
  | .avx10 enc => if sel = 1 then some enc else none
  | .reset => none

/-- C80: the default of a group is the last choice made for it that is one of its two, EVEX and pre-AVX10.2 in the beginning; other arguments throw
`ERR_BAD_ENCODING_MODE`. -/
theorem c80_default (cs : List SetEnc) : ∀ sel ≤ 1, (cs.foldl SetEnc.run initEncoding) sel = X86.lastAsked sel (if sel = 0 then .evex else .preAVX10v2) (cs.filterMap (SetEnc.inGroup sel)) := by
  have key : ∀ (cs : List SetEnc) (d : Nat → PrefEnc) (sel : Nat), sel ≤ 1 → (cs.foldl SetEnc.run d) sel = X86.lastAsked sel (d sel) (cs.filterMap (SetEnc.inGroup sel)) := by
    intro cs
    induction cs with
    | nil => intro d sel _; rfl
    | cons c cs ih =>
      intro d sel hs
      have h01 : sel = 0 ∨ sel = 1 := by omega
      rw [List.foldl_cons, ih _ _ hs]
      rcases h01 with rfl | rfl <;> cases c with
        | reset => rfl
        | _ enc => cases enc <;> rfl
  exact fun sel hs => key cs initEncoding sel hs

theorem c80_default_error (d : Nat → PrefEnc) (c : SetEnc) (sel : Nat) (hs : sel ≤ 1) (enc : PrefEnc) (hg : SetEnc.inGroup sel c = some enc) :
    c.call d = .error .BAD_ENCODING_MODE ↔ X86.asked sel enc = none := by
  have h01 : sel = 0 ∨ sel = 1 := by omega
  rcases h01 with rfl | rfl <;> cases c <;> cases hg <;> cases enc <;>
    simp [SetEnc.call, setDefaultEncoding, setDefaultEncodingAVX10, X86.asked]

namespace Mn

variable {g : Args}

/-- The choice for a call: the argument, or the default of the group. -/
def Args.choice (g : Args) (sel : Nat) : PrefEnc := if g.enc = .default then g.dflt sel else g.enc

def Entry.encOk (e : Entry) (sel : Nat) : Bool := match e.body with
  | .leaf (.encoding _ _ _ t _ _ tv _ s) => Nat.beq s sel && !(t ||| tv).has (T_EVEX ||| T_MUST_EVEX)
  | .leaf (.cvt2Enc _ _ t _ tv _ s) => Nat.beq s sel && !(t ||| tv).has (T_EVEX ||| T_MUST_EVEX)
  | _ => false

set_option maxRecDepth 1000000 in
theorem enc_check : (all.all fun e => X86.twoEncodings.all fun p => !Nat.beq e.name p.1 || (decide (p.2 ≤ 1) && e.encOk p.2)) = true := by decide +kernel

/-- The list of instructions is complete. -/
theorem enc_complete : (all.all fun e => !e.params.contains .enc || X86.twoEncodings.any fun p => Nat.beq e.name p.1) = true := by decide +kernel

theorem orEvexIf_ok {d e : PrefEnc} {tv te t : Ty} {s : Nat} (hs : s ≤ 1) (h : orEvexIf d e tv te s = .ok t) :
    (X86.asked s (if e = .default then d else e) = some .vex ∧ t = tv) ∨ (X86.asked s (if e = .default then d else e) = some .evex ∧ t = T_MUST_EVEX ||| te) := by
  have h01 : s = 0 ∨ s = 1 := by omega
  unfold orEvexIf getEncoding at h
  dsimp only at h
  generalize (if e = .default then d else e) = p at *
  rcases h01 with rfl | rfl <;> cases p <;> simp [X86.asked] at h ⊢ <;> first | exact h.symm | (cases h; done) | (cases h; rfl)

theorem orEvexIf_bad {d e : PrefEnc} {tv te : Ty} {s : Nat} (hs : s ≤ 1) (h : X86.asked s (if e = .default then d else e) = none) :
    orEvexIf d e tv te s = .error .BAD_ENCODING_MODE := by
  have h01 : s = 0 ∨ s = 1 := by omega
  unfold orEvexIf getEncoding
  dsimp only
  generalize (if e = .default then d else e) = p at *
  rcases h01 with rfl | rfl <;> cases p <;> first | rfl | (cases h; done)

/-- The prefix of `opVex` is EVEX if the flags demand it and VEX if they do not allow it. -/
theorem space_of {r : Reg} {v : Option Reg} {o : Operand} {u : Ty} {h : X86.Head} (H : VexHead r v o u h) :
    (u.has T_MUST_EVEX = true → h.space = .evex) ∧ (u.has (T_EVEX ||| T_MUST_EVEX) = false → h.space = .vex) := by
  cases H with
  | vex sp _ _ _ _ m => exact ⟨fun h => (by rw [m] at h; cases h), fun _ => sp⟩
  | evex sp ty => exact ⟨fun _ => sp, fun h => (by rw [ty] at h; cases h)⟩

/-- C80: an accepted call of a function with two encodings writes the encoding chosen. -/
theorem c80_space {e : Entry} {sel : Nat} (hn : (e.name, sel) ∈ X86.twoEncodings) {w : List Act} (hc : Calls e g w) (fill : Act → BitVec 32) :
    ∃ h, X86.asked sel (g.choice sel) = some h.space ∧ ∀ tl, ∃ t, X86.head (concr fill w ++ tl) = some (h, t) := by
  have hk := List.all_eq_true.mp (List.all_eq_true.mp enc_check e hc.mem) _ hn
  simp only [Nat.beq_refl, Bool.not_true, Bool.false_or, Bool.and_eq_true, decide_eq_true_eq] at hk
  obtain ⟨hs, hk⟩ := hk
  obtain ⟨m, hm, hw⟩ := hc.runs
  have must : ∀ t te : Ty, (t ||| (T_MUST_EVEX ||| te)).has T_MUST_EVEX = true := by
    intro t te
    unfold Ty.has
    have : (t ||| (T_MUST_EVEX ||| te)) &&& T_MUST_EVEX = T_MUST_EVEX := by
      ext i hi
      simp
      intro h; simp [h]
    rw [this]; decide
  unfold Entry.encOk at hk
  split at hk
  · rename_i x y o t c i tv te s hb
    rw [hb] at hm
    cases hm
    simp only [Bool.and_eq_true, Nat.beq_eq, Bool.not_eq_true'] at hk
    obtain ⟨rfl, hty⟩ := hk
    replace hw : (opEncoding (g.dflt s) (x.reg g) (y.reg g) (o.opt g) t c g.enc (i.val g) tv te s).Gives w () := hw
    unfold opEncoding at hw
    rw [Enc.lift_bind] at hw
    obtain ⟨u, hu, hw⟩ := hw
    obtain ⟨r, v, o, h, hw⟩ := made3 hw
    obtain ⟨h, H, hh⟩ := opVex_head hw fill
    refine ⟨h, ?_, hh⟩
    rcases orEvexIf_ok hs hu with ⟨ha, rfl⟩ | ⟨ha, rfl⟩
    · rw [(space_of H).2 hty]; exact ha
    · rw [(space_of H).1 (must _ _)]; exact ha
  · rename_i x o t c tv te s hb
    rw [hb] at hm
    cases hm
    simp only [Bool.and_eq_true, Nat.beq_eq, Bool.not_eq_true'] at hk
    obtain ⟨rfl, hty⟩ := hk
    replace hw : (Enc.lift (orEvexIf (g.dflt s) g.enc tv te s) >>= fun u => opCvt2 (x.reg g) (o.op g) (t ||| u) c).Gives w () := hw
    rw [Enc.lift_bind] at hw
    obtain ⟨u, hu, hw⟩ := hw
    unfold opCvt2 checkCvt2 at hw
    rw [Enc.throwIf_bind] at hw
    obtain ⟨h, H, hh⟩ := opVex_head hw.2 fill
    refine ⟨h, ?_, hh⟩
    rcases orEvexIf_ok hs hu with ⟨ha, rfl⟩ | ⟨ha, rfl⟩
    · rw [(space_of H).2 hty]; exact ha
    · rw [(space_of H).1 (must _ _)]; exact ha
  · cases hk

/-- C80: a preference of the other group is refused, and nothing is written. -/
theorem c80_error {e : Entry} (he : e ∈ all) {sel : Nat} (hn : (e.name, sel) ∈ X86.twoEncodings) (hb : X86.asked sel (g.choice sel) = none) :
    ∃ m, e.body.run g = some m ∧ m = ⟨[], .error .BAD_ENCODING_MODE⟩ := by
  have hk := List.all_eq_true.mp (List.all_eq_true.mp enc_check e he) _ hn
  simp only [Nat.beq_refl, Bool.not_true, Bool.false_or, Bool.and_eq_true, decide_eq_true_eq] at hk
  obtain ⟨hs, hk⟩ := hk
  unfold Entry.encOk at hk
  split at hk
  · rename_i x y o t c i tv te s hbd
    simp only [Bool.and_eq_true, Nat.beq_eq, Bool.not_eq_true'] at hk
    obtain ⟨rfl, -⟩ := hk
    rw [hbd]
    refine ⟨_, rfl, ?_⟩
    show opEncoding (g.dflt s) (x.reg g) (y.reg g) (o.opt g) t c g.enc (i.val g) tv te s = _
    unfold opEncoding
    rw [orEvexIf_bad hs hb]; rfl
  · rename_i x o t c tv te s hbd
    simp only [Bool.and_eq_true, Nat.beq_eq, Bool.not_eq_true'] at hk
    obtain ⟨rfl, -⟩ := hk
    rw [hbd]
    refine ⟨_, rfl, ?_⟩
    show (Enc.lift (orEvexIf (g.dflt s) g.enc tv te s) >>= fun u => opCvt2 (x.reg g) (o.op g) (t ||| u) c) = _
    rw [orEvexIf_bad hs hb]; rfl
  · cases hk


/-- C80: without an argument the encoding is the last one set. -/
theorem c80_last {e : Entry} {sel : Nat} (hn : (e.name, sel) ∈ X86.twoEncodings) {w : List Act} (hc : Calls e g w) (fill : Act → BitVec 32)
    (cs : List SetEnc) (hd : g.dflt = cs.foldl SetEnc.run initEncoding) (hg : g.enc = .default) :
    ∃ h, X86.asked sel (X86.lastAsked sel (if sel = 0 then .evex else .preAVX10v2) (cs.filterMap (SetEnc.inGroup sel))) = some h.space ∧
      ∀ tl, ∃ t, X86.head (concr fill w ++ tl) = some (h, t) := by
  obtain ⟨h, ha, hh⟩ := c80_space hn hc fill
  refine ⟨h, ?_, hh⟩
  have hs : sel ≤ 1 := by
    have := List.all_eq_true.mp (List.all_eq_true.mp enc_check e hc.mem) _ hn
    simp only [Nat.beq_refl, Bool.not_true, Bool.false_or, Bool.and_eq_true, decide_eq_true_eq] at this
    exact this.1
  rw [Args.choice, if_pos hg, hd, c80_default cs sel hs] at ha
  exact ha

/-- `vpdpbusd(xmm1, xmm2, xmm3)` (1420) is EVEX at first, VEX after `setDefaultEncoding(VexEncoding)`, and VEX still after `setDefaultEncodingAVX10(AVX10v2Encoding)`
and `reset()`. -/
example :
    callAt 1420 { ops := [.reg (.xmm 1), .reg (.xmm 2), .reg (.xmm 3)], dflt := initEncoding } =
      some (n!"vpdpbusd", [0x62, 0xF2, 0x6D, 0x08, 0x50, 0xCB].map .byte) ∧
    (let g : Args := { ops := [.reg (.xmm 1), .reg (.xmm 2), .reg (.xmm 3)], dflt := [.vnni .vex, .avx10 .avx10v2, .reset].foldl SetEnc.run initEncoding }
     callAt 1420 g = some (n!"vpdpbusd", [0xC4, 0xE2, 0x69, 0x50, 0xCB].map .byte) ∧ g.choice 0 = .vex) := by decide +kernel

/-- `vpdpbssd(xmm1, xmm2, xmm3, AVX10v2Encoding)` (2467) is EVEX; with `VexEncoding` it is refused. -/
example : callAt 2467 { ops := [.reg (.xmm 1), .reg (.xmm 2), .reg (.xmm 3)], enc := .avx10v2 } =
      some (n!"vpdpbssd", [0x62, 0xF2, 0x6F, 0x08, 0x50, 0xCB].map .byte) ∧
    callAt 2467 { ops := [.reg (.xmm 1), .reg (.xmm 2), .reg (.xmm 3)], enc := .vex } = none ∧
    X86.asked 1 .vex = none := by decide +kernel

end Mn
end Xbyak
