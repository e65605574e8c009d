import Verif.Props.VecLen
import Verif.Spec.Round
import Verif.Emit
/-!
# C81: rounding is accepted where the manual has it

An operand with `T_rn_sae` … `T_rz_sae` or `T_sae` is accepted by the instructions with `{er}` or `{sae}` only, with registers only, and the prefix then means
the vector length of the operands.
-/
namespace Xbyak
open E
namespace Mn
variable {g : Args}

/-- The flags that admit rounding, and those that admit suppression of exceptions (xbyak.h 1900-1913). -/
def erFlags (u : Ty) : Bool := u.has (T_ER_X ||| T_ER_Y ||| T_ER_Z ||| T_ER_R)
def saeFlags (u : Ty) : Bool := u.has (T_SAE_X ||| T_SAE_Y ||| T_SAE_Z)

/-- Functions that accept rounding without having it (`c81_refuted_er`); the last four have `{sae}` instead. -/
def erToo (name : Nat) : Bool := X86.among name [n!"vmovddup", n!"vmovdqa32", n!"vmovdqa64", n!"vmovdqu8", n!"vmovdqu16", n!"vmovdqu32", n!"vmovdqu64",
  n!"vcvttph2ibs", n!"vcvttph2iubs", n!"vcvttps2ibs", n!"vcvttps2iubs"]

/-- Functions that accept `T_sae` without having it (`c81_refuted_sae`). -/
def saeToo (name : Nat) : Bool := X86.among name [n!"vcvtneps2bf16", n!"vcvtne2ps2bf16", n!"vdpbf16ps", n!"vgf2p8affineinvqb", n!"vgf2p8affineqb", n!"vgf2p8mulb",
  n!"vpdpbusd", n!"vpdpbusds", n!"vpdpwssd", n!"vpdpwssds", n!"vpexpandb", n!"vpexpandw", n!"vpopcntb", n!"vpopcntd", n!"vpopcntq", n!"vpopcntw",
  n!"vpshldd", n!"vpshldq", n!"vpshldvd", n!"vpshldvq", n!"vpshldvw", n!"vpshldw", n!"vpshrdd", n!"vpshrdq", n!"vpshrdvd", n!"vpshrdvq", n!"vpshrdvw", n!"vpshrdw"]

/-- Scalar instructions with the flag of the vector ones (`c81_refuted_scalar`). -/
def wideSae (name : Nat) : Bool := (X86.among name X86.cmpScalar && !name.beq n!"vcmpsh") || name.beq n!"vfixupimmsd" || name.beq n!"vfixupimmss"

/-- The slot passed for ModRM.rm. -/
def Leaf.rmAt (n : Nat) : Leaf → Option Slot
  | .avx3 _ o1 o2 .. => if o2.given n then some o2 else some o1
  | .avx2 _ p .. | .avxK _ _ p .. | .vex _ _ p .. | .cvt _ p .. | .cvt2 _ p .. | .cvt5 _ p .. => some p
  | _ => none

theorem rmAt_made {l : Leaf} {r : Reg} {v : Option Reg} {o : Operand} {u : Ty} (h : l.Makes g r v o u) {p : Slot} (hp : l.rmAt g.ops.length = some p) :
    o = p.op g := by
  cases l with
  | avx3 x o1 o2 t c i =>
    simp only [Leaf.rmAt, Slot.given_opt] at hp
    obtain ⟨-, -, ⟨h1, -, rfl, -⟩ | ⟨h1, -, -⟩⟩ := h
    · rw [h1] at hp; cases hp; rfl
    · rw [h1] at hp; cases hp; exact (Slot.opt_is h1).symm
  | avx2 => cases hp; exact h.2.2.2.1
  | avxK => cases hp; exact h.2.2.2.1
  | vex => cases hp; exact h.2.2.2
  | cvt => cases hp; exact h.2.2.2
  | cvt2 => cases hp; exact h.2.2.2.1
  | cvt5 => cases hp; exact h.2.2.2.2.1
  | _ => cases hp

/-- Helpers that pass memory on as such. -/
def Leaf.ordinary : Leaf → Bool
  | .avx3 .. | .avx2 .. | .avxK .. | .vex .. | .cvt .. | .cvt2 .. | .cvt2Enc .. | .cvt3 .. | .cvt5 .. | .encoding .. => true
  | _ => false

theorem made3_mem (hg : g.Good) {x : Reg} {o1 : Slot} {p1 : Operand} {o2 : Slot} {t : Ty} {r : Reg} {v : Option Reg} {o : Operand} (e1 : (p1.isMEM = true → p1 = o1.op g))
    (h : Made3 x p1 (o2.opt g) t r v o) (hm : p1.isMEM = true ∨ (o2.op g).isMEM = true) : o.isMEM = true := by
  obtain ⟨-, ⟨h1, -, rfl, -⟩ | ⟨h1, -, h3⟩⟩ := h
  · rcases hm with hm | hm
    · exact hm
    · rw [Slot.opt_not h1] at hm; cases hm
  · rcases hm with hm | hm
    · exfalso
      have e := e1 hm
      cases hq : p1 with
      | reg q => rw [hq] at hm; cases hm
      | mem b =>
        have h := kind_SameVec h3
        rw [hq] at h e
        have hk := Slot.kind_mem hg _ _ e.symm
        unfold Operand.hd Reg.isSIMD Reg.isXMM Reg.isYMM Reg.isZMM at h
        dsimp only at h
        rw [hk] at h; cases h
    · rw [← Slot.opt_is h1]; exact hm

theorem made_mem (hg : g.Good) {l : Leaf} (hl : l.ordinary = true) {r : Reg} {v : Option Reg} {o : Operand} {u : Ty} (h : l.Makes g r v o u)
    (hy : ∀ s ∈ l.regSlots, (s.op g).isMEM = false) {s : Slot} (hs : s ∈ l.passed) (hm : (s.op g).isMEM = true) : o.isMEM = true := by
  have hs : s ∈ l.rmSlots := by
    rcases List.mem_append.mp hs with h | h
    · rw [hy s h] at hm; cases hm
    · exact h
  cases l with
  | avx3 x o1 o2 t c i =>
    refine made3_mem hg (fun _ => rfl) h.2 ?_
    simp only [Leaf.rmSlots, List.mem_cons, List.not_mem_nil, or_false] at hs
    rcases hs with rfl | rfl
    · exact .inl hm
    · exact .inr hm
  | encoding x y p t c i tv te sl =>
    simp only [Leaf.rmSlots, List.mem_cons, List.not_mem_nil, or_false] at hs
    subst hs
    exact made3_mem hg (o1 := y) (fun h => (by cases h)) h.2 (.inr hm)
  | cvt3 x y p t t6 t3 c =>
    simp only [Leaf.rmSlots, List.mem_cons, List.not_mem_nil, or_false] at hs
    subst hs
    obtain ⟨-, -, -, -, -, ⟨q, hq, -⟩ | ⟨-, h⟩⟩ := h
    · rw [hq] at hm; cases hm
    · exact h
  | avx2 => cases List.mem_singleton.mp hs; rw [h.2.2.2.1]; exact hm
  | avxK => cases List.mem_singleton.mp hs; rw [h.2.2.2.1]; exact hm
  | vex => cases List.mem_singleton.mp hs; rw [h.2.2.2]; exact hm
  | cvt => cases List.mem_singleton.mp hs; rw [h.2.2.2]; exact hm
  | cvt2 => cases List.mem_singleton.mp hs; rw [h.2.2.2.1]; exact hm
  | cvt2Enc => cases List.mem_singleton.mp hs; rw [h.2.2.2.1]; exact hm
  | cvt5 => cases List.mem_singleton.mp hs; rw [h.2.2.2.2.1]; exact hm
  | _ => cases hl

/-- The register passed for ModRM.reg is no ymm register. -/
def Leaf.narrow (ps : List Param) (u : Ty) : Leaf → Bool
  | .avx3 .. | .avx2 .. => !u.has T_YMM
  | .avxK (.a j) .. => ps[j]? == some .opmask
  | .vex (.a j) .. => ps[j]? == some .reg32e
  | .cvt3 .. => true
  | _ => false

theorem not_ymm_of_xmm {r : Reg} (h : r.isXMM = true) : r.isYMM = false := by
  unfold Reg.isXMM at h; unfold Reg.isYMM
  rw [eq_of_beq h]; rfl

theorem narrow_made {ps : List Param} (ht : g.Are ps) {l : Leaf} {r : Reg} {v : Option Reg} {o : Operand} {u : Ty} (h : l.Makes g r v o u) (hn : l.narrow ps u = true) :
    r.isYMM = false := by
  have sv : ∀ {t : Ty} {x y : Reg}, t.has T_YMM = false → SameVec t x y → x.isYMM = false := by
    intro t x y h0 h
    rcases h with ⟨h, -⟩ | ⟨h, -⟩
    · exact not_ymm_of_xmm h
    · rw [h0] at h; cases h
  cases l with
  | avx3 x o1 o2 t c i =>
    have h0 : u.has T_YMM = false := by simpa [Leaf.narrow] using hn
    obtain ⟨-, rfl, ⟨-, -, -, h⟩ | ⟨-, -, h⟩⟩ := h <;> exact sv h0 h
  | avx2 x p t c i =>
    have h0 : u.has T_YMM = false := by simpa [Leaf.narrow] using hn
    exact sv h0 h.2.2.2.2
  | avxK k x p t c i =>
    cases k with
    | a j =>
      have := ht j _ (eq_of_beq hn)
      obtain ⟨-, rfl, -⟩ := h
      simp only [Param.takes, Reg.isOPMASK, Bool.and_eq_true, beq_iff_eq] at this
      show (g.op j).hd.isYMM = false
      unfold Reg.isYMM; rw [this.2]; rfl
    | _ => cases hn
  | vex k x p t c i =>
    cases k with
    | a j =>
      have := ht j _ (eq_of_beq hn)
      obtain ⟨-, rfl, -⟩ := h
      simp only [Param.takes, Operand.isREG, Reg.isREG, Bool.and_eq_true, beq_iff_eq] at this
      show (g.op j).hd.isYMM = false
      unfold Reg.isYMM; rw [this.2.1]; rfl
    | _ => cases hn
  | cvt3 => exact not_ymm_of_xmm h.2.2.2.1
  | _ => cases hn

/-! ## The table -/

/-- The flags of a vector instruction: those of the lengths its source can have. -/
def sizesOk (name : Nat) (x y z : Bool) : Bool := if X86.isHalf name then y && !z else if X86.isQuarter name then x && !y else z

/-- ModRM.reg is the first of two operands. -/
def Leaf.first (n : Nat) : Leaf → Bool
  | .vex (.a 0) .. => Nat.beq n 2
  | _ => false

def Leaf.roundTy (e : Entry) (n : Nat) (l : Leaf) (u : Ty) : Bool := !Ty.evx u || !(erFlags u || saeFlags u) || (l.ordinary &&
  (!erFlags u || X86.hasEr e.name || erToo e.name) && (!saeFlags u || X86.hasSae e.name || saeToo e.name) && (!u.has T_ER_R || Nat.beq e.line 2238 || Nat.beq e.line 2282) &&
  (!wideSae e.name || (l.rmAt n == some (.a (n - 1)) && !u.has (T_ER_X ||| T_ER_Y ||| T_ER_R ||| T_SAE_X ||| T_SAE_Y))) &&
  (erToo e.name || saeToo e.name || wideSae e.name || (if X86.isScalar e.name then
    !u.has (T_ER_Y ||| T_ER_Z ||| T_SAE_Y ||| T_SAE_Z) && (!u.has (T_ER_X ||| T_SAE_X) || l.narrow (e.pars n) u)
  else
    l.rmAt n == some (.a (X86.measured e.name n)) && !u.has T_ER_R && (!X86.isQuarter e.name || l.first n) &&
    (!erFlags u || sizesOk e.name (u.has T_ER_X) (u.has T_ER_Y) (u.has T_ER_Z)) &&
    (!saeFlags u || sizesOk e.name (u.has T_SAE_X) (u.has T_SAE_Y) (u.has T_SAE_Z)))))

def Leaf.roundOk (e : Entry) (n : Nat) (l : Leaf) : Bool := l.types.all (Leaf.roundTy e n l)

def Entry.roundAt (e : Entry) (n : Nat) : Bool := e.body.leaves.all (Leaf.roundOk e n)

def Entry.roundOk (e : Entry) : Bool :=
  let n := (e.params.filter Param.isOperand).length
  decide (e.opt ≤ 1) && e.roundAt n && (e.opt == 0 || e.roundAt (n - 1))

set_option maxRecDepth 1000000 in
theorem round_check : (all.all fun e => !e.vexed || e.roundOk) = true := by decide +kernel

theorem roundAt_of {e : Entry} (he : e ∈ all) (hv : e.vexed = true) (hf : g.Fits e.params e.opt) : e.roundAt g.ops.length = true := by
  have h := List.all_eq_true.mp round_check e he
  simp only [hv, Bool.not_true, Bool.false_or] at h
  unfold Entry.roundOk at h
  simp only [Bool.and_eq_true, Bool.or_eq_true, decide_eq_true_eq, beq_iff_eq] at h
  obtain ⟨⟨h2, h3⟩, h4⟩ := h
  have a := hf.1
  have b := hf.2.1
  by_cases hn : g.ops.length = (e.params.filter Param.isOperand).length
  · rw [hn]; exact h3
  · have : e.opt = 1 := by omega
    rw [this] at h4
    rw [show g.ops.length = (e.params.filter Param.isOperand).length - 1 by omega]
    rcases h4 with h4 | h4
    · cases h4
    · exact h4

/-! ## Acceptance -/

/-- `verifySAE` and `verifyER` with the flags as parameters. -/
def verify (R x y z : Bool) (r b : Reg) : Except Err Bool :=
  if R && b.isREG 96 then .ok false
  else if (x && (r.isYMM && b.isXMM)) || (y && b.isXMM) || (z && b.isYMM) then .ok true
  else if (x && b.isXMM) || (y && b.isYMM) || (z && b.isZMM) then .ok false
  else .error .SAE_IS_INVALID

theorem verifySAE_eq (r b : Reg) (u : Ty) : verifySAE r b u = verify false (u.has T_SAE_X) (u.has T_SAE_Y) (u.has T_SAE_Z) r b := rfl
theorem verifyER_eq (r b : Reg) (u : Ty) : verifyER r b u = verify (u.has T_ER_R) (u.has T_ER_X) (u.has T_ER_Y) (u.has T_ER_Z) r b := rfl

/-- The flags looked at. -/
def flagsOf (rnd : BitVec 3) (u : Ty) : Bool × Bool × Bool × Bool :=
  if rnd = 5 then (false, u.has T_SAE_X, u.has T_SAE_Y, u.has T_SAE_Z) else (u.has T_ER_R, u.has T_ER_X, u.has T_ER_Y, u.has T_ER_Z)

/-- A call of `opVex` with rounding is accepted because of the flags. -/
theorem rounded {r : Reg} {v : Option Reg} {o : Operand} {u : Ty} {h : X86.Head} (H : VexHead r v o u h) {d : Deco} (hd : d ∈ seen r v o) (hr : d.rnd ≠ 0)
    (adr : ∀ a, o = .mem a → a.o.rnd = 0) :
    Ty.evx u = true ∧ h.space = .evex ∧ h.b = true ∧ ∃ U, (let f := flagsOf d.rnd u; verify f.1 f.2.1 f.2.2.1 f.2.2.2 r (rmReg o)) = .ok U ∧ ∀ q, o = .reg q → h.u = !U := by
  have sub : d = r.deco ∨ d = (v.getD .nil).deco ∨ d = o.deco := by simpa [seen] using hd
  have vr : (v.getD .nil).deco.rnd = vRnd v := by cases v <;> rfl
  cases H with
  | vex sp L b aaa z must hR hv hop =>
    exfalso
    have nE : ∀ q : Reg, q.hasEvex = false → q.rnd = 0 := by
      intro q hq
      unfold Reg.hasEvex at hq
      simp only [Bool.or_eq_false_iff, bne_eq_false_iff_eq] at hq
      exact hq.2
    apply hr
    rcases sub with rfl | rfl | rfl
    · exact nE r hR
    · cases hq : v with
      | none => rfl
      | some q => exact nE q (hv q hq)
    · cases hq : o with
      | reg q => rw [hq] at hop; exact nE q hop
      | mem a => exact adr a hq
  | evex sp ty ln k len mask mk bc L b aaa z hu =>
    obtain ⟨rnd, hsel, hc⟩ := evexLen_ok len
    have hrd : rnd = d.rnd := by
      have : d.rnd = 0 ∨ d.rnd = rnd := by
        rcases sub with rfl | rfl | rfl
        · exact hsel.1 _ (by simp [Reg.deco])
        · rw [vr]; exact hsel.1 _ (by simp)
        · cases hq : o with
          | reg q => rw [hq] at hsel; exact hsel.1 _ (by simp [Operand.deco, Operand.hd, Reg.deco, rmReg])
          | mem a => exact .inl (adr a hq)
      exact (this.resolve_left hr).symm
    subst hrd
    rcases hc with ⟨h0, -⟩ | ⟨h5, U, hU, hln⟩ | ⟨-, h5, U, hU, hln⟩
    · exact absurd h0 hr
    · refine ⟨ty, sp, by rw [b, hln], U, ?_, fun q hq => by rw [hu q hq, hln]⟩
      rw [verifySAE_eq] at hU
      simp only [flagsOf, h5, if_pos]
      exact hU
    · refine ⟨ty, sp, by rw [b, hln], U, ?_, fun q hq => by rw [hu q hq, hln]⟩
      rw [verifyER_eq] at hU
      simp only [flagsOf, if_neg h5]
      exact hU

theorem base_plain {a b : Addr} (hb : b.WF) (he : b.e = a.e) : a.getRegExp.base = .nil ∨ a.getRegExp.base.kind = .reg := by
  by_cases hm : b.mode = .modRM
  · rcases (getRegExp_wf (a := a) (he ▸ (hb.exp hm).1)).base with h | h
    · exact .inl h
    · exact .inr h.1
  · left
    have := hb.rip hm
    rw [he] at this
    rw [nil_getRegExp a this]
    exact this.1

/-- Vector registers do not pass as the base of an address. -/
theorem verify_base {R x y z : Bool} {r b : Reg} {U : Bool} (hb : b = .nil ∨ b.kind = .reg) (h : verify R x y z r b = .ok U) : R = true := by
  have hk : b.isXMM = false ∧ b.isYMM = false ∧ b.isZMM = false := by
    unfold Reg.isXMM Reg.isYMM Reg.isZMM
    rcases hb with rfl | hb
    · exact ⟨rfl, rfl, rfl⟩
    · rw [hb]; exact ⟨rfl, rfl, rfl⟩
  cases R
  · unfold verify at h
    simp [hk] at h
  · rfl

theorem verify_flags {R x y z : Bool} {r b : Reg} {U : Bool} (h : verify R x y z r b = .ok U) : (R || x || y || z) = true := by
  cases R <;> cases x <;> cases y <;> cases z <;> first | rfl | (simp [verify] at h)

theorem verify_scalar {R x : Bool} {r b : Reg} {U : Bool} (h : verify R x false false r b = .ok U) (hr : x = true → r.isYMM = false) : U = false := by
  unfold verify at h
  split at h
  · cases h; rfl
  · split at h
    · rename_i hc
      cases x
      · simp at hc
      · simp [hr rfl] at hc
    · split at h
      · cases h; rfl
      · cases h

/-- The widths a source can have, and what is answered. -/
theorem verify_full {x y z : Bool} {r b : Reg} {U : Bool} (h : verify false x y z r b = .ok U) (hf : Fit b) (hs : b.isSIMD = true) (hz : z = true) (hw : b.bit = 256 ∨ b.bit = 512) :
    (if U then 256 else 512) = b.bit := by
  subst hz
  unfold Reg.isSIMD Reg.isXMM Reg.isYMM Reg.isZMM at hs
  unfold verify at h
  unfold Fit at hf
  unfold Reg.isXMM Reg.isYMM Reg.isZMM at h hf
  cases hk : b.kind <;> simp [hk] at hs h hf
  · omega
  · subst h; rw [hf.1]; rfl
  · subst h; rw [hf.1]; rfl

theorem verify_half {x y z : Bool} {r b : Reg} {U : Bool} (h : verify false x y z r b = .ok U) (hf : Fit b) (hs : b.isSIMD = true) (hy : y = true) (hz : z = false) :
    (if U then 256 else 512) = 2 * b.bit := by
  subst hy hz
  unfold Reg.isSIMD Reg.isXMM Reg.isYMM Reg.isZMM at hs
  unfold verify at h
  unfold Fit at hf
  unfold Reg.isXMM Reg.isYMM Reg.isZMM at h hf
  cases hk : b.kind <;> simp [hk] at hs h hf
  · subst h; rw [hf.1]; rfl
  · subst h; rw [hf.1]; rfl

theorem verify_quarter {x y z : Bool} {r b : Reg} {U : Bool} (h : verify false x y z r b = .ok U) (hf : Fit b) (hs : b.isSIMD = true) (hx : x = true) (hy : y = false) (hw : b.bit = 128) :
    U = r.isYMM := by
  subst hx hy
  unfold Reg.isSIMD Reg.isXMM Reg.isYMM Reg.isZMM at hs
  unfold verify at h
  unfold Fit at hf
  unfold Reg.isXMM Reg.isYMM Reg.isZMM at h hf
  unfold Reg.isYMM
  cases hk : b.kind <;> simp [hk] at hs h hf
  · split at h
    · rename_i hr; cases h; rw [hr]; rfl
    · rename_i hr; cases h; exact (beq_eq_false_iff_ne.mpr hr).symm
  · omega
  · omega

/-- Conditions on the arguments. -/
structure Roundable (e : Entry) (g : Args) : Prop extends Decorated e g where
  wf : ∀ i a, g.op i = .mem a → a.WF
  fit : ∀ i q, g.op i = .reg q → Fit q
  /-- `vcvtsi2sh` and `vcvtusi2sh` accept rounding with memory (`c39_refuted_mem_rounding`) -/
  mem : e.line = 2238 ∨ e.line = 2282 → ∀ i, (g.op i).isMEM = false

/-- What an accepted call with rounding is. -/
theorem round_facts {e : Entry} (hv : e.vexed = true) {w : List Act} (hc : Calls e g w) (hp : Roundable e g) {i : Nat} (hi : (g.op i).deco.rnd ≠ 0) (fill : Act → BitVec 32) :
    ∃ l r v q u U h, l.Makes g r v (.reg q) u ∧ (∀ s ∈ l.regSlots, (s.op g).isMEM = false) ∧ Leaf.roundTy e g.ops.length l u = true ∧ Ty.evx u = true ∧ l.ordinary = true ∧
      (if (g.op i).deco.rnd = 5 then saeFlags u else erFlags u) = true ∧ (let f := flagsOf (g.op i).deco.rnd u; verify f.1 f.2.1 f.2.2.1 f.2.2.2 r q) = .ok U ∧
      h.space = .evex ∧ h.b = true ∧ h.u = !U ∧ (∀ j, (g.op j).isMEM = false) ∧ ∀ tl, ∃ t, X86.head (concr fill w ++ tl) = some (h, t) := by
  obtain ⟨c, l, r, v, o, u, code, imm, hl, hat, -, hmk, hw, C, hclean, hreg⟩ := called hv hc hp.toDecorated
  obtain ⟨h, H, hh⟩ := opVex_head hw fill
  have lost := lost hv hc hp.toDecorated hl hat
  have hin : (g.op i).deco ∈ seen r v o := by
    rcases lost i with h | h
    · rw [h.1] at hi; exact absurd rfl hi
    · rcases C.all _ h with h | h
      · rw [show (Slot.a i).op g = g.op i from rfl] at h
        rw [h] at hi; exact absurd rfl hi
      · exact h
  have amem : ∀ a, o = .mem a → ∃ j b, g.op j = .mem b ∧ b.o = a.o ∧ b.e = a.e := by
    intro a ha
    obtain ⟨s, hs, b, h1, -, h3, h4⟩ := C.memOnly a ha
    cases s <;> first | (cases h1; done) | exact ⟨_, b, h1, h3, h4⟩
  obtain ⟨evx, sp, hb, U, hU, hu⟩ := rounded H hin hi fun a ha => by
    obtain ⟨j, b, h1, h2, -⟩ := amem a ha
    rw [← h2]; exact (hp.addr j b h1).2.2.2
  -- what the table says
  have T := List.all_eq_true.mp (List.all_eq_true.mp (roundAt_of hc.mem hv hc.fits) l hl) u (Leaf.makes_type hmk)
  have fl : (if (g.op i).deco.rnd = 5 then saeFlags u else erFlags u) = true := by
    have := verify_flags hU
    unfold flagsOf at this
    unfold saeFlags erFlags
    simp only [has_mask_or]
    split
    · rename_i h5
      rw [if_pos h5] at this
      simpa using this
    · rename_i h5
      rw [if_neg h5] at this
      rw [← this]
      cases u.has T_ER_R <;> cases u.has T_ER_X <;> cases u.has T_ER_Y <;> cases u.has T_ER_Z <;> rfl
  have fo : (erFlags u || saeFlags u) = true := by
    split at fl <;> simp [fl]
  have T' := T
  simp only [Leaf.roundTy, evx, fo, Bool.not_true, Bool.false_or, Bool.and_eq_true] at T'
  obtain ⟨⟨⟨⟨⟨ord, -⟩, -⟩, t3⟩, -⟩, -⟩ := T'
  have reg : ∀ a, o ≠ .mem a := by
    intro a ha
    obtain ⟨j, b, h1, h2, h3⟩ := amem a ha
    have := verify_base (by rw [ha]; exact base_plain (hp.wf j b h1) h3) hU
    have tr : u.has T_ER_R = true := by
      unfold flagsOf at this
      split at this
      · cases this
      · exact this
    simp only [tr, Bool.not_true, Bool.false_or, Bool.or_eq_true, Nat.beq_eq] at t3
    have := hp.mem t3 j
    rw [h1] at this; cases this
  obtain ⟨q, hq⟩ : ∃ q, o = .reg q := by
    cases ho : o with
    | reg q => exact ⟨q, rfl⟩
    | mem a => exact absurd ho (reg a)
  subst hq
  refine ⟨l, r, v, q, u, U, h, hmk, hreg, T, evx, ord, fl, hU, sp, hb, hu q rfl, ?_, hh⟩
  intro j
  rcases lost j with h | h
  · exact h.2
  · cases hj : (g.op j).isMEM with
    | false => rfl
    | true =>
      have := made_mem hp.good ord hmk hreg h hj
      cases this

/-- C81: an accepted vector instruction with rounding or `T_sae` on an operand is one that has `{er}` or `{sae}`, has registers only, and is encoded with
EVEX.b and the length of the manual's form: a vector instruction that of its widest register.
Partial: not for the functions that accept it without having it (`erToo`, `saeToo`), nor for widths no form of the instruction has (`RoundForm`:
`c81_refuted_xmm`, `c81_refuted_mixed`). -/
theorem c81_partial {e : Entry} (hv : e.vexed = true) {w : List Act} (hc : Calls e g w) (hp : Roundable e g) (he : erToo e.name = false) (hs : saeToo e.name = false)
    {i : Nat} (hi : (g.op i).deco.rnd ≠ 0) (fill : Act → BitVec 32) :
    (if (g.op i).deco.rnd = 5 then X86.hasSae e.name else X86.hasEr e.name) = true ∧ (∀ j, (g.op j).isMEM = false) ∧
      ∃ h, (∀ tl, ∃ t, X86.head (concr fill w ++ tl) = some (h, t)) ∧ h.space = .evex ∧ h.b = true ∧
        (X86.isScalar e.name = true → wideSae e.name = false → h.u = true) ∧
        (X86.isScalar e.name = false → X86.RoundForm e.name (Operand.vw (g.op (X86.measured e.name g.ops.length))) (widest g) → X86.vectorBits h true = widest g) := by
  have ht := pars_are hc hp.good
  obtain ⟨l, r, v, q, u, U, h, hmk, hreg, T, evx, ord, fl, hU, sp, hb, hu, regs, hh⟩ := round_facts hv hc hp hi fill
  have fo : (erFlags u || saeFlags u) = true := by
    split at fl <;> simp [fl]
  simp only [Leaf.roundTy, evx, fo, he, hs, Bool.not_true, Bool.false_or, Bool.or_false, Bool.and_eq_true] at T
  obtain ⟨⟨⟨⟨⟨-, t1⟩, t2⟩, -⟩, -⟩, t4⟩ := T
  refine ⟨?_, regs, h, hh, sp, hb, ?_, ?_⟩
  · split
    · rename_i h5
      rw [if_pos h5] at fl
      simpa [fl] using t2
    · rename_i h5
      rw [if_neg h5] at fl
      simpa [fl] using t1
  · intro sc ws
    rw [ws, sc] at t4
    simp only [Bool.false_or, if_true, Bool.and_eq_true, Bool.not_eq_true', Bool.or_eq_true, has_mask_or, Bool.or_eq_false_iff] at t4
    obtain ⟨⟨⟨⟨y1, z1⟩, y2⟩, z2⟩, nx⟩ := t4
    have nx : (u.has T_ER_X = true ∨ u.has T_SAE_X = true) → r.isYMM = false := by
      intro hx
      rcases nx with ⟨a, b⟩ | nx
      · rw [a, b] at hx; rcases hx with h | h <;> cases h
      · exact narrow_made ht hmk nx
    rw [hu]
    rw [Bool.not_eq_true']
    unfold flagsOf at hU
    split at hU
    · rw [y2, z2] at hU
      exact verify_scalar hU fun h => nx (.inr h)
    · rw [y1, z1] at hU
      exact verify_scalar hU fun h => nx (.inl h)
  · intro sc hf
    have ws : wideSae e.name = false := by
      cases hw : wideSae e.name with
      | false => rfl
      | true =>
        rw [← sc]
        unfold wideSae at hw
        simp only [Bool.or_eq_true, Bool.and_eq_true, Nat.beq_eq] at hw
        rcases hw with (hw | hw) | hw
        · unfold X86.isScalar; rw [hw.1]; simp
        · rw [hw]; decide +kernel
        · rw [hw]; decide +kernel
    rw [ws, sc] at t4
    simp only [Bool.false_or, Bool.false_eq_true, if_false, Bool.and_eq_true, Bool.not_eq_true', Bool.or_eq_true, beq_iff_eq] at t4
    obtain ⟨⟨⟨⟨rm, nR⟩, fst⟩, sER⟩, sSAE⟩ := t4
    have ho : g.op (X86.measured e.name g.ops.length) = .reg q := (rmAt_made hmk rm).symm
    rw [ho] at hf
    have hfit := hp.fit _ q ho
    obtain ⟨hlen, hf⟩ := hf
    have hsz : ∃ x y z, verify false x y z r q = .ok U ∧ sizesOk e.name x y z = true := by
      unfold flagsOf at hU
      rw [nR] at hU
      split at hU
      · rename_i h5
        rw [if_pos h5] at fl
        rw [fl] at sSAE
        exact ⟨_, _, _, hU, sSAE.resolve_left (by simp)⟩
      · rename_i h5
        rw [if_neg h5] at fl
        rw [fl] at sER
        exact ⟨_, _, _, hU, sER.resolve_left (by simp)⟩
    obtain ⟨x, y, z, hU, hsz⟩ := hsz
    have hsimd : q.isSIMD = true := by
      cases hq' : q.isSIMD with
      | true => rfl
      | false =>
        unfold Operand.vw at hf
        dsimp only at hf
        rw [hq', if_neg (by simp)] at hf
        split at hf
        · omega
        · split at hf <;> omega
    have hvw : Operand.vw (.reg q) = q.bit := by unfold Operand.vw; dsimp only; rw [if_pos hsimd]
    rw [hvw] at hf
    have goal : X86.vectorBits h true = if U then 256 else 512 := by
      unfold X86.vectorBits
      rw [hb, hu]
      cases U <;> rfl
    rw [goal]
    unfold sizesOk at hsz
    by_cases h2 : X86.isHalf e.name = true
    · rw [if_pos h2] at hsz hf
      rw [Bool.and_eq_true, Bool.not_eq_true'] at hsz
      rw [verify_half hU hfit hsimd hsz.1 hsz.2]
      omega
    · rw [if_neg h2] at hsz hf
      by_cases h4 : X86.isQuarter e.name = true
      · rw [if_pos h4] at hsz hf
        rw [Bool.and_eq_true, Bool.not_eq_true'] at hsz
        rw [verify_quarter hU hfit hsimd hsz.1 hsz.2 hf]
        have hfirst : l.first g.ops.length = true := by simpa [h4] using fst
        have hr : r = g.reg 0 ∧ g.ops.length = 2 := by
          unfold Leaf.first at hfirst
          split at hfirst
          · exact ⟨hmk.2.1, Nat.beq_eq.mp hfirst⟩
          · cases hfirst
        obtain ⟨rfl, hn⟩ := hr
        have hm1 : X86.measured e.name g.ops.length = 1 := by
          unfold X86.measured
          rw [hn]
          split
          · rename_i hb
            rw [Nat.beq_eq] at hb
            rw [hb] at h4
            revert h4; decide +kernel
          · rfl
        rw [hm1] at ho
        have hw : widest g = max 128 (Operand.vw (g.op 0)) := by
          have : Operand.vw (g.op 1) = 128 := by rw [ho, hvw]; exact hf
          unfold widest
          rw [two hn]
          simp only [List.map_cons, List.map_nil, List.foldl_cons, List.foldl_nil, this]
          omega
        cases h0 : g.op 0 with
        | mem a =>
          exfalso
          cases l with
          | vex k x p t c i =>
            cases k with
            | a j =>
              cases j with
              | zero =>
                have := hreg (.a 0) (by simp [Leaf.regSlots])
                rw [show (Slot.a 0).op g = g.op 0 from rfl, h0] at this; cases this
              | succ j => cases hfirst
            | _ => cases hfirst
          | _ => cases hfirst
        | reg p =>
          have hp0 := hp.fit 0 p h0
          have e0 : g.reg 0 = p := by unfold Args.reg; rw [h0]; rfl
          rw [e0]
          rw [hw, h0] at hlen ⊢
          unfold Operand.vw at hlen ⊢
          dsimp only at hlen ⊢
          unfold Fit at hp0
          cases hy : p.isYMM with
          | true =>
            rw [hp0.2.1 hy]
            simp [Reg.isSIMD, hy]
          | false =>
            cases hz : p.isZMM with
            | true =>
              rw [hp0.2.2.1 hz]
              simp [Reg.isSIMD, hz]
            | false =>
              exfalso
              cases hx : p.isXMM with
              | true =>
                rw [hp0.1 hx] at hlen
                revert hlen; split <;> omega
              | false =>
                rw [if_neg (by simp [Reg.isSIMD, hx, hy, hz])] at hlen
                omega
      · rw [if_neg h4] at hsz hf
        rw [verify_full hU hfit hsimd hsz (by omega)]
        exact hf

/-! ## Documented forms -/

/-- The flags admit the documented forms. -/
def admits (name : Nat) (R x y z : Bool) : Bool :=
  if X86.isScalar name then (x || R) && !y && !z else if X86.isHalf name then y && !z else if X86.isQuarter name then x && !y else z

/-- `vcvtsi2sd` and `vcvtusi2sd` have `{er}` with 64-bit registers only. -/
def wideOnly (name : Nat) : Bool := name.beq n!"vcvtsi2sd" || name.beq n!"vcvtusi2sd"

def Entry.admitsOk (e : Entry) : Bool := e.body.leaves.all fun l => l.types.all fun u => !Ty.evx u ||
  ((!X86.hasEr e.name || (wideOnly e.name && !erFlags u) || admits e.name (u.has T_ER_R) (u.has T_ER_X) (u.has T_ER_Y) (u.has T_ER_Z)) &&
   (!X86.hasSae e.name || erToo e.name || wideSae e.name || admits e.name false (u.has T_SAE_X) (u.has T_SAE_Y) (u.has T_SAE_Z)))

set_option maxRecDepth 1000000 in
theorem admits_check : (all.all fun e => !e.vexed || e.admitsOk) = true := by decide +kernel

theorem verify_admits {name : Nat} {R x y z : Bool} (h : admits name R x y z = true) {r b : Reg}
    (hs : X86.isScalar name = true → (R = false → b.isXMM = true) ∧ (R = true → b.isREG 96 = true) ∧ r.isYMM = false)
    (hf : X86.isScalar name = false → Fit b ∧ b.isSIMD = true ∧ ∃ len, X86.RoundForm name b.bit len) : ∃ U, verify R x y z r b = .ok U := by
  unfold admits at h
  unfold verify
  by_cases h1 : R && b.isREG 96
  · exact ⟨_, if_pos h1⟩
  rw [if_neg h1]
  split
  · exact ⟨_, rfl⟩
  rename_i h2
  refine ⟨false, if_pos ?_⟩
  by_cases hsc : X86.isScalar name = true
  · rw [if_pos hsc] at h
    obtain ⟨a, b', c⟩ := hs hsc
    cases R
    · simp at h; simp [h, a]
    · simp [b'] at h1
  · rw [if_neg hsc] at h
    obtain ⟨hfit, hsimd, len, hlen, hsrc⟩ := hf (by simpa using hsc)
    unfold Fit at hfit
    unfold Reg.isSIMD at hsimd
    by_cases h3 : X86.isHalf name = true
    · rw [if_pos h3] at h hsrc
      simp only [Bool.and_eq_true, Bool.not_eq_true'] at h
      cases hz : b.isZMM with
      | true => have := hfit.2.2.1 hz; omega
      | false =>
        cases hx : b.isXMM with
        | true => simp [h, hx] at h2
        | false => simp [hx, hz] at hsimd; simp [h, hsimd]
    · rw [if_neg h3] at h hsrc
      by_cases h4 : X86.isQuarter name = true
      · rw [if_pos h4] at h hsrc
        simp only [Bool.and_eq_true, Bool.not_eq_true'] at h
        cases hz : b.isZMM with
        | true => have := hfit.2.2.1 hz; omega
        | false =>
          cases hy : b.isYMM with
          | true => have := hfit.2.1 hy; omega
          | false => simp [hy, hz] at hsimd; simp [h, hsimd]
      · rw [if_neg h4] at h hsrc
        cases hx : b.isXMM with
        | true => have := hfit.1 hx; omega
        | false =>
          cases hy : b.isYMM with
          | true => simp [h, hy] at h2
          | false => simp [hx, hy] at hsimd; simp [h, hsimd]

/-- The other direction: the lengths and rounding modes of the manual's forms are not refused.  `rnd` is on the operand in ModRM.rm; `b` is that operand, a
general register in case of `T_ER_R`. -/
theorem c81_admits {e : Entry} (he : e ∈ all) (hv : e.vexed = true) {l : Leaf} (hl : l ∈ e.body.leaves) {u : Ty} (hu : u ∈ l.types) (evx : Ty.evx u = true)
    {r b : Reg} {v : Option Reg} {bc : Bool} {VL : Nat} (h0 : r.rnd = 0) (hv0 : vRnd v = 0) (hb : b.rnd ≠ 0)
    (has : if b.rnd = 5 then X86.hasSae e.name = true ∧ erToo e.name = false ∧ wideSae e.name = false else X86.hasEr e.name = true ∧ (wideOnly e.name = true → erFlags u = true))
    (hs : X86.isScalar e.name = true → (if b.rnd ≠ 5 ∧ u.has T_ER_R = true then b.isREG 96 else b.isXMM) = true ∧ r.isYMM = false)
    (hf : X86.isScalar e.name = false → Fit b ∧ b.isSIMD = true ∧ ∃ len, X86.RoundForm e.name b.bit len) : ∃ ln, evexLen r b v u bc VL = .ok ln := by
  have T := List.all_eq_true.mp admits_check e he
  simp only [hv, Bool.not_true, Bool.false_or] at T
  have T := List.all_eq_true.mp (List.all_eq_true.mp T l hl) u hu
  simp only [evx, Bool.not_true, Bool.false_or, Bool.and_eq_true] at T
  have d : verifyDuplicate r.rnd b.rnd (vRnd v) .ROUNDING_IS_ALREADY_SET = .ok b.rnd := by
    unfold verifyDuplicate
    rw [h0, hv0]
    simp
  have key : ∃ U, (if b.rnd = 5 then verifySAE r b u else verifyER r b u) = .ok U := by
    by_cases h5 : b.rnd = 5
    · rw [if_pos h5] at has ⊢
      rw [verifySAE_eq]
      have T := T.2
      simp only [has, Bool.not_true, Bool.false_or] at T
      refine verify_admits T (fun h => ⟨fun _ => ?_, fun h => (by cases h), (hs h).2⟩) hf
      simpa [h5] using (hs h).1
    · rw [if_neg h5] at has ⊢
      rw [verifyER_eq]
      have T := T.1
      simp only [has, Bool.not_true, Bool.false_or] at T
      refine verify_admits ?_ (fun h => ⟨fun hR => ?_, fun hR => ?_, (hs h).2⟩) hf
      rotate_left
      · simpa [h5, hR] using (hs h).1
      · have := (hs h).1
        rw [if_pos ⟨h5, hR⟩] at this
        exact this
      cases hw : wideOnly e.name with
      | false => simpa [hw] using T
      | true => simpa [hw, has.2 hw] using T
  obtain ⟨U, hU⟩ := key
  have ev : evexLen r b v u bc VL = (verifyDuplicate r.rnd b.rnd (vRnd v) .ROUNDING_IS_ALREADY_SET >>= fun rnd =>
      if rnd ≠ 0 then
        if rnd = 5 then (do let u ← verifySAE r b u; return ⟨0, u, true, 1⟩ : Except Err EvexLen)
        else (do let u ← verifyER r b u; return ⟨rnd.setWidth 8 - 1, u, true, 1⟩)
      else Except.ok ⟨llOf (max (max r.bit b.bit) (vMax v VL)), false, bc, disp8Scale u bc (max (max r.bit b.bit) (vMax v VL))⟩) := rfl
  rw [ev, d]
  show ∃ ln, (if b.rnd ≠ 0 then _ else _) = _
  rw [if_pos hb]
  by_cases h5 : b.rnd = 5
  · rw [if_pos h5] at hU ⊢
    rw [hU]; exact ⟨_, rfl⟩
  · rw [if_neg h5] at hU ⊢
    rw [hU]; exact ⟨_, rfl⟩

/-! ## What is wrong -/

/-- The function at the line returns for these arguments, the last of which has a rounding mode; the manual has (`listed`) or does not have a form with it, and the
bytes mean the vector length `len` where the widest register has `width`. -/
def Rounds (line : Nat) (g : Args) (listed : Bool) (len width : Nat) : Prop :=
  ∃ e w h t, e.line = line ∧ Calls e g w ∧ X86.head (concr (fun _ => 0) w) = some (h, t) ∧ h.b = true ∧ (g.op (g.ops.length - 1)).deco.rnd ≠ 0 ∧
    (if (g.op (g.ops.length - 1)).deco.rnd = 5 then X86.hasSae e.name else X86.hasEr e.name) = listed ∧ X86.vectorBits h true = len ∧ widest g = width

def roundsAt (line : Nat) (g : Args) (listed : Bool) (len width : Nat) : Bool := match callAt line g with
  | some (n, w) => (match X86.head (concr (fun _ => 0) w) with
    | some (h, _) => h.b && Nat.beq (X86.vectorBits h true) len
    | none => false) && decide ((g.op (g.ops.length - 1)).deco.rnd ≠ 0) &&
      (if (g.op (g.ops.length - 1)).deco.rnd = 5 then X86.hasSae n else X86.hasEr n) == listed && Nat.beq (widest g) width
  | none => false

theorem rounds_of {line : Nat} {listed : Bool} {len width : Nat} (h : roundsAt line g listed len width = true) : Rounds line g listed len width := by
  unfold roundsAt at h
  split at h
  · rename_i n w hcall
    obtain ⟨e, h1, h2, h3⟩ := callAt_line hcall
    subst h2
    simp only [Bool.and_eq_true, Nat.beq_eq, decide_eq_true_eq, beq_iff_eq] at h
    obtain ⟨⟨⟨h, hr⟩, hli⟩, hw⟩ := h
    split at h
    · rename_i hd t hh
      rw [Bool.and_eq_true, Nat.beq_eq] at h
      exact ⟨e, w, hd, t, h1, h3, hh, h.1, hr, hli, h.2, hw⟩
    · cases h
  · cases h

/-- A register with a rounding mode. -/
def rd (q : Reg) (n : BitVec 3) : Operand := .reg { q with rnd := n }

/-- Bug: moves accept rounding: `vmovdqa32(zmm1, zmm2|T_rn_sae)`.  The processor raises #UD. -/
theorem c81_refuted_er : Rounds 2409 { ops := [.reg (.zmm 1), rd (.zmm 2) 1] } false 512 512 := rounds_of (by decide +kernel)

/-- Bug: a conversion with truncation accepts a rounding mode, and refuses `T_sae`, which it has: `vcvttps2ibs(zmm1, zmm2|T_ru_sae)`. -/
theorem c81_refuted_trunc : Rounds 2259 { ops := [.reg (.zmm 1), rd (.zmm 2) 3] } false 512 512 ∧ callAt 2259 { ops := [.reg (.zmm 1), rd (.zmm 2) 5] } = none ∧
    X86.hasSae n!"vcvttps2ibs" = true := ⟨rounds_of (by decide +kernel), by decide +kernel, by decide +kernel⟩

/-- Bug: integer instructions accept `T_sae`: `vpopcntd(zmm1, zmm2|T_sae)`. -/
theorem c81_refuted_sae : Rounds 2538 { ops := [.reg (.zmm 1), rd (.zmm 2) 5] } false 512 512 := rounds_of (by decide +kernel)

/-- Bug: `vcvtps2pd(xmm1, xmm2|T_sae)`, which does not exist, becomes `vcvtps2pd(ymm1, xmm2|T_sae)`: the upper half of ymm1 is overwritten. -/
theorem c81_refuted_xmm : Rounds 1220 { ops := [.reg (.xmm 1), rd (.xmm 2) 5] } true 256 128 := rounds_of (by decide +kernel)

/-- Bug: `vaddpd(zmm1, zmm2, ymm3|T_rn_sae)` becomes the instruction with 256 bits. -/
theorem c81_refuted_mixed : Rounds 1049 { ops := [.reg (.zmm 1), .reg (.zmm 2), rd (.ymm 3) 1] } true 256 512 := rounds_of (by decide +kernel)

/-- Bug: comparisons of scalars and `vfixupimmsd`/`ss` refuse `T_sae` with xmm registers, whatever they are, though the manual has it. -/
theorem c81_refuted_scalar {e : Entry} (hn : wideSae e.name = true) (hv : e.vexed = true) (hp : Roundable e g)
    {i : Nat} (hi : (g.op i).deco.rnd ≠ 0) (hx : ∀ q, g.op (g.ops.length - 1) = .reg q → q.isXMM = true) (w : List Act) : ¬ Calls e g w := by
  intro hc
  obtain ⟨l, r, v, q, u, U, h, hmk, hreg, T, evx, ord, fl, hU, -⟩ := round_facts hv hc hp hi fun _ => 0
  have fo : (erFlags u || saeFlags u) = true := by
    split at fl <;> simp [fl]
  simp only [Leaf.roundTy, evx, fo, hn, Bool.not_true, Bool.false_or, Bool.and_eq_true, has_mask_or, Bool.not_eq_true', Bool.or_eq_false_iff, beq_iff_eq] at T
  obtain ⟨⟨-, rm, ⟨⟨⟨x1, y1⟩, R⟩, x2⟩, y2⟩, -⟩ := T
  have hq := hx q (rmAt_made hmk rm).symm
  have hk : q.isYMM = false ∧ q.isZMM = false := by
    unfold Reg.isXMM at hq; unfold Reg.isYMM Reg.isZMM
    rw [eq_of_beq hq]; exact ⟨rfl, rfl⟩
  unfold flagsOf at hU
  split at hU <;> (unfold verify at hU; simp [x1, y1, R, x2, y2, hk] at hU)

/-! ## Examples -/

/-- `vaddpd(zmm1, zmm2, zmm3|T_ru_sae)` -/
example : Rounds 1049 { ops := [.reg (.zmm 1), .reg (.zmm 2), rd (.zmm 3) 3] } true 512 512 := rounds_of (by decide +kernel)

/-- `vcvtps2pd(zmm1, ymm2|T_sae)`, `vcvtps2pd(ymm1, xmm2|T_sae)` -/
example : Rounds 1220 { ops := [.reg (.zmm 1), rd (.ymm 2) 5] } true 512 512 ∧ Rounds 1220 { ops := [.reg (.ymm 1), rd (.xmm 2) 5] } true 256 256 :=
  ⟨rounds_of (by decide +kernel), rounds_of (by decide +kernel)⟩

/-- `vaddpd(xmm1, xmm2, xmm3|T_rn_sae)`, `vpaddd(zmm1, zmm2, zmm3|T_rn_sae)` and `vaddpd(zmm1, zmm2, zmm3|T_sae)` are refused. -/
example : callAt 1049 { ops := [.reg (.xmm 1), .reg (.xmm 2), rd (.xmm 3) 1] } = none ∧ callAt 1384 { ops := [.reg (.zmm 1), .reg (.zmm 2), rd (.zmm 3) 1] } = none ∧
    callAt 1049 { ops := [.reg (.zmm 1), .reg (.zmm 2), rd (.zmm 3) 5] } = none := by decide +kernel

end Mn
end Xbyak
