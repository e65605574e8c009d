import Verif.Lower
import Verif.Props.Evex
/-!
# What a call of `opVex` decodes to

Both encodings and both kinds of ModRM.rm operand in one statement, on top of C38 and C39.
-/
namespace Xbyak.Mn
open E

/-- The unit of an 8-bit displacement in an instruction written with these flags. -/
def vunit (t : Ty) (h : X86.Head) : Nat :=
  if h.space = .evex then (if h.b then bcastBytes t else (tupleOf t).unit (128 <<< h.L.toNat)) else 1

/-- The operand is read from ModRM.rm. -/
def RmIs (fill : Act → BitVec 32) (i : Option Byte) (h : X86.Head) (rm : X86.RM) : Operand → Prop
  | .reg q => ∃ n, rm = .reg n ∧ (q.isSIMD = true ∨ q.idx.toNat < 16 → X86.rmVec h n = q.idx) ∧ (q.isSIMD = false ∨ q.idx.toNat < 16 → X86.rmGpr h n = q.idx)
  | .mem a => ∃ m, rm = .mem m ∧ (a.withImm i).Means fill h m

structure VexReads (fill : Act → BitVec 32) (vs : Bool) (r : Reg) (v : Option Reg) (o : Operand) (t : Ty) (i : Option Byte) (w : List Act)
    (h : X86.Head) (reg : BitVec 3) (rm : X86.RM) : Prop where
  insn : ∀ u, (o.isMEM = true → u = vunit t h) → ∀ tl, X86.insn vs u (concr fill w ++ tl) = some (⟨h, reg, rm⟩, i.toList ++ tl)
  reg : X86.regNum h reg = r.idx
  vreg : vs = false ∨ h.space = .vex → h.vreg = vIdx v
  rm : RmIs fill i h rm o
  space : h.space = .vex ∨ h.space = .evex
  bcast : ∀ a, o = .mem a → h.space = .evex → h.b = true → t.has (T_B32 ||| T_B64) = true ∧ a.broadcast = true

theorem insn_head {vs : Bool} {n : Nat} {bs t : List Byte} {h : X86.Head} {reg : BitVec 3} {rm : X86.RM} (hi : X86.insn vs n bs = some (⟨h, reg, rm⟩, t)) :
    ∃ c t', X86.head bs = some (h, c :: t') ∧ c.extractLsb' 3 3 = reg := by
  unfold X86.insn at hi
  cases hh : X86.head bs with
  | none => rw [hh] at hi; cases hi
  | some p =>
    obtain ⟨h', l⟩ := p
    rw [hh] at hi
    dsimp only at hi
    cases l with
    | nil => cases hi
    | cons c t' =>
      cases hm : X86.modrm h' vs n (c :: t') with
      | none => rw [hm] at hi; cases hi
      | some q =>
        obtain ⟨x, y, z⟩ := q
        rw [hm] at hi
        cases hi
        refine ⟨c, t', rfl, ?_⟩
        unfold X86.modrm at hm
        dsimp only at hm
        grind

theorem modrm_reg_any {h : X86.Head} {vs vs' : Bool} {n n' : Nat} {l t : List Byte} {reg : BitVec 3} {q : BitVec 3}
    (hm : X86.modrm h vs n l = some (reg, .reg q, t)) : X86.modrm h vs' n' l = some (reg, .reg q, t) := by
  cases l with
  | nil => cases hm
  | cons c l =>
    unfold X86.modrm at hm ⊢
    dsimp only at hm ⊢
    grind

/-- A register in ModRM.rm leaves nothing to scale or index. -/
theorem insn_reg_any {vs vs' : Bool} {n n' : Nat} {bs t : List Byte} {h : X86.Head} {reg q : BitVec 3} (hi : X86.insn vs n bs = some (⟨h, reg, .reg q⟩, t)) :
    X86.insn vs' n' bs = some (⟨h, reg, .reg q⟩, t) := by
  unfold X86.insn at hi ⊢
  cases hh : X86.head bs with
  | none => rw [hh] at hi; cases hi
  | some p =>
    obtain ⟨h', l⟩ := p
    rw [hh] at hi
    dsimp only at hi ⊢
    cases hm : X86.modrm h' vs n l with
    | none => rw [hm] at hi; cases hi
    | some x =>
      obtain ⟨x, y, z⟩ := x
      rw [hm] at hi
      cases hi
      rw [modrm_reg_any hm]

/-- The flags are those of `vmovddup`. -/
def isDup (t : Ty) : Bool := t &&& T_NX_MASK == T_DUP

/-- The unit depends on the vector length as encoded. -/
theorem unit_ll (t : Ty) (b : Bool) (VL : Nat) (hV : isDup t = true → VL = 128 ∨ VL = 256 ∨ VL = 512) :
    disp8Scale t b VL = if b then bcastBytes t else (tupleOf t).unit (128 <<< ((llOf VL).setWidth 2 : BitVec 2).toNat) := by
  by_cases h5 : VL = 512
  · subst h5; exact c39_unit t b 512 (by simp)
  by_cases h2 : VL = 256
  · subst h2; exact c39_unit t b 256 (by simp)
  have : llOf VL = 0 := by unfold llOf; rw [if_neg h5, if_neg h2]
  rw [this]
  have e : disp8Scale t b VL = disp8Scale t b 128 := by
    by_cases h1 : VL = 128
    · rw [h1]
    · have hn : t &&& T_NX_MASK ≠ T_DUP := by
        intro h
        have := hV (by simpa [isDup] using h)
        omega
      unfold disp8Scale
      simp only [hn, h5, h2, if_false]
      rfl
  rw [e]
  exact c39_unit t b 128 (by simp)

/-- A broadcast that was accepted is allowed by the flags. -/
theorem opVex_bcast {r : Reg} {v : Option Reg} {a : Addr} {t : Ty} {c : Byte} {i : Option Byte} {w : List Act}
    (hw : (opVex r v (.mem a) t c i).Gives w ()) (hb : a.broadcast = true) : t.has (T_B32 ||| T_B64) = true := by
  unfold opVex at hw
  dsimp only at hw
  rw [Enc.dbIf_bind] at hw
  obtain ⟨w1, rfl, hw⟩ := hw
  rw [if_pos (by unfold memEvex; rw [hb]; simp)] at hw
  rw [Enc.throwIf_bind] at hw
  obtain ⟨h1, hw⟩ := hw
  rw [Enc.throwIf_bind] at hw
  obtain ⟨h2, hw⟩ := hw
  simp only [hb, Bool.true_and] at h1 h2
  simpa using h2

theorem isVsib_simd {a : Addr} (ha : a.WF) (ht : a.e.index.kind ≠ .tmm) : a.isVsib = a.e.index.isSIMD := by
  unfold Addr.isVsib RegExp.isVsib
  by_cases hmo : a.mode = .modRM
  · rcases (ha.exp hmo).1.index with h | h | h | h | h | h
    · rw [h]; rfl
    · have : a.e.index.isSIMD = false := by simp [Reg.isSIMD, Reg.isXMM, Reg.isYMM, Reg.isZMM, h.1]
      rw [this]
      unfold Reg.isBit
      rcases h.2.1 with h2 | h2 <;> rw [h2] <;> decide
    · simp [Reg.isSIMD, Reg.isXMM, h.1, Reg.isBit, h.2]
    · simp [Reg.isSIMD, Reg.isYMM, h.1, Reg.isBit, h.2]
    · simp [Reg.isSIMD, Reg.isZMM, h.1, Reg.isBit, h.2]
    · exact absurd h.1 ht
  · rw [(ha.rip hmo).2]; rfl

/-- What an accepted call of `opVex` decodes to. -/
theorem opVex_reads {r : Reg} {v : Option Reg} {o : Operand} {t : Ty} {c : Byte} {i : Option Byte} {w : List Act}
    (hw : (opVex r v o t c i).Gives w ()) (vs : Bool)
    (hr : ∀ q, o = .reg q → q.isSIMD = true ∨ q.kind = .reg ∨ q.idx.toNat < 16)
    (hm : ∀ a, o = .mem a → a.WF ∧ a.disp8N = 0 ∧ a.e.index.kind ≠ .tmm ∧ a.mode ≠ .disp64 ∧ a.e.index.isSIMD = vs)
    (hg : ∀ a, o = .mem a → vs = true → v = none ∨ t.has (T_EVEX ||| T_MUST_EVEX) = false)
    (hx : ∀ a, o = .mem a → vs = true → t.has T_MUST_EVEX = true ∨ a.e.index.idx.toNat < 16)
    (he : ∀ a, o = .mem a → t.has T_ER_R = false)
    (hV : ∀ a, o = .mem a → isDup t = true → vs = false ∧ (evexVL r a.getRegExp.base v 0 = 128 ∨ evexVL r a.getRegExp.base v 0 = 256 ∨ evexVL r a.getRegExp.base v 0 = 512))
    (fill : Act → BitVec 32) : ∃ h reg rm, VexReads fill vs r v o t i w h reg rm := by
  cases o with
  | reg q =>
    cases hE : regEvex r v q t with
    | true =>
      obtain ⟨bs, h, reg, rm, rfl, h1, h2, h3, h4, h5, _⟩ := c39_reg r v q (hr q rfl) t c i hE hw
      refine ⟨h, reg, .reg rm, fun u _ tl => ?_, h3, fun _ => h4, ⟨rm, rfl, h5.1, h5.2⟩, .inr h2.space, fun a ha => by cases ha⟩
      rw [concr_bytes]
      exact insn_reg_any (h1 tl)
    | false =>
      obtain ⟨bs, h, reg, rm, rfl, h1, h2, h3, h4, h5⟩ := c38_reg r v q t c i hE hw
      refine ⟨h, reg, .reg rm, fun u _ tl => ?_, h3, fun _ => h2.vreg, ⟨rm, rfl, fun _ => h4, fun _ => h5⟩, .inl h2.space, fun a ha => by cases ha⟩
      rw [concr_bytes]
      exact insn_reg_any (h1 tl)
  | mem a =>
    obtain ⟨hwf, hn, ht, hd, hs⟩ := hm a rfl
    cases hE : memEvex r v a t with
    | true =>
      have hvs : a.e.index.isSIMD = true → v = none := by
        intro h
        rcases hg a rfl (hs ▸ h) with h | h
        · exact h
        · unfold opVex at hw
          dsimp only at hw
          rw [if_pos (by rw [hE]), Enc.dbIf_bind] at hw
          obtain ⟨w1, rfl, hw⟩ := hw
          rw [Enc.throwIf_bind] at hw
          obtain ⟨_, hw⟩ := hw
          rw [Enc.throwIf_bind] at hw
          obtain ⟨_, hw⟩ := hw
          simp only [Enc.gives_bind, evex_gives] at hw
          obtain ⟨_, n, _, ⟨hty, _⟩, _⟩ := hw
          rw [h] at hty; cases hty
      obtain ⟨h, reg, m, VL, hVL, h1, h2, h3, h4, h5, _, _, _, hb, hL, _, _⟩ := c39_mem_partial r v a hwf ht hd hvs t (he a rfl) c i hE hw fill
      have hu : vunit t h = disp8Scale t a.broadcast VL := by
        unfold vunit
        rw [if_pos h2.space, hb, hL]
        refine (unit_ll t _ _ fun hD => ?_).symm
        obtain ⟨x, y⟩ := hV a rfl hD
        have : a.isVsib = false := by rw [isVsib_simd hwf ht, hs, x]
        rw [hVL, this]
        exact y
      refine ⟨h, reg, .mem m, fun u hu' tl => ?_, h3, fun hv => ?_, ⟨m, rfl, h4⟩, .inr h2.space, ?_⟩
      · rw [hu' rfl, hu, ← hs]
        exact h1 tl
      · rcases hv with hv | hv
        · exact h5 (hs.trans hv)
        · rw [h2.space] at hv; cases hv
      · intro b hb' _ hB
        cases hb'
        rw [hb] at hB
        exact ⟨opVex_bcast hw hB, hB⟩
    | false =>
      have hi : a.e.index.isSIMD = true → a.e.index.idx.toNat < 16 := by
        intro h
        rcases hx a rfl (hs ▸ h) with h | h
        · have : t.has (T_MUST_EVEX ||| T_MEM_EVEX) = true := by
            cases h' : t.has (T_MUST_EVEX ||| T_MEM_EVEX) with
            | true => rfl
            | false =>
              simp only [Ty.has, bne_eq_false_iff_eq] at h'
              have e : T_MUST_EVEX = (T_MUST_EVEX ||| T_MEM_EVEX) &&& T_MUST_EVEX := by decide
              rw [Ty.has, e, ← BitVec.and_assoc, h'] at h
              exact absurd h (by decide)
          unfold memEvex at hE
          rw [this] at hE
          simp at hE
        · exact h
      obtain ⟨h, reg, m, h1, h2, h3, h4⟩ := c38_mem_partial r v a hwf hn ht hd hi t c i hE hw fill
      refine ⟨h, reg, .mem m, fun u hu' tl => ?_, h3, fun _ => h2.vreg, ⟨m, rfl, h4⟩, .inl h2.space, ?_⟩
      · have : vunit t h = 1 := by
          unfold vunit
          rw [if_neg (by rw [h2.space]; decide)]
        rw [hu' rfl, this, ← hs]
        exact h1 tl
      · intro b _ h
        rw [h2.space] at h; cases h

end Xbyak.Mn
