import Verif.Props.Vex
/-!
# EVEX-encoded instructions (C39)
-/
namespace Xbyak
open E

/-- `k` is the value selected by modifiers of which at most one kind may be present. -/
def Selects (k : BitVec 3) (l : List (BitVec 3)) : Prop := (∀ a ∈ l, a = 0 ∨ a = k) ∧ (k = 0 ∨ k ∈ l)

theorem verifyDuplicate_ok {a b c k : BitVec 3} {e : Err} (h : verifyDuplicate a b c e = .ok k) : Selects k [a, b, c] := by
  unfold verifyDuplicate at h
  dsimp only at h
  split at h
  · cases h
  · rename_i hn
    cases h
    have key : ∀ a b c : BitVec 3, ¬ ((a ≠ 0 ∧ a ≠ a ||| b ||| c) ∨ (b ≠ 0 ∧ b ≠ a ||| b ||| c) ∨ (c ≠ 0 ∧ c ≠ a ||| b ||| c)) →
        ((a = 0 ∨ a = a ||| b ||| c) ∧ (b = 0 ∨ b = a ||| b ||| c) ∧ (c = 0 ∨ c = a ||| b ||| c)) ∧
        (a ||| b ||| c = 0 ∨ a ||| b ||| c = a ∨ a ||| b ||| c = b ∨ a ||| b ||| c = c) := by decide +kernel
    obtain ⟨⟨h1, h2, h3⟩, h4⟩ := key a b c hn
    refine ⟨?_, ?_⟩
    · intro x hx
      simp only [List.mem_cons, List.not_mem_nil, or_false] at hx
      rcases hx with rfl | rfl | rfl <;> assumption
    · simpa using h4

/-- Modifier of an optional operand. -/
def vMask (v : Option Reg) : BitVec 3 := match v with | some q => q.mask | none => 0
def vRnd (v : Option Reg) : BitVec 3 := match v with | some q => q.rnd | none => 0
def vBit (v : Option Reg) : Nat := match v with | some q => q.bit | none => 0

/-- Line 1944 -/
def vMax (v : Option Reg) (VL : Nat) : Nat := match v with | some q => max VL q.bit | none => VL

/-- The number of bits that decides the vector length -/
def evexVL (reg base : Reg) (v : Option Reg) (VL : Nat) : Nat := max (max reg.bit base.bit) (max VL (vBit v))

def llOf (VL : Nat) : BitVec 8 := if VL = 512 then 2 else if VL = 256 then 1 else 0

/-- The outcomes of the rounding/length part of `evex`. -/
theorem evexLen_ok {reg base : Reg} {v : Option Reg} {type : Ty} {b : Bool} {VL : Nat} {ln : EvexLen} (h : evexLen reg base v type b VL = .ok ln) :
    ∃ rnd, Selects rnd [reg.rnd, base.rnd, vRnd v] ∧
      ((rnd = 0 ∧ ln = ⟨llOf (evexVL reg base v VL), false, b, disp8Scale type b (evexVL reg base v VL)⟩) ∨
       (rnd = 5 ∧ ∃ u, verifySAE reg base type = .ok u ∧ ln = ⟨0, u, true, 1⟩) ∨
       (rnd ≠ 0 ∧ rnd ≠ 5 ∧ ∃ u, verifyER reg base type = .ok u ∧ ln = ⟨rnd.setWidth 8 - 1, u, true, 1⟩)) := by
  have h : (verifyDuplicate reg.rnd base.rnd (vRnd v) .ROUNDING_IS_ALREADY_SET >>= fun rnd =>
      if rnd ≠ 0 then
        if rnd = 5 then (do let u ← verifySAE reg base type; return ⟨0, u, true, 1⟩ : Except Err EvexLen)
        else (do let u ← verifyER reg base type; return ⟨rnd.setWidth 8 - 1, u, true, 1⟩)
      else Except.ok ⟨llOf (max (max reg.bit base.bit) (vMax v VL)), false, b,
        disp8Scale type b (max (max reg.bit base.bit) (vMax v VL))⟩) = .ok ln := h
  have e : max (max reg.bit base.bit) (vMax v VL) = evexVL reg base v VL := by
    unfold evexVL vBit vMax; cases v <;> simp
  rw [e] at h
  cases hr : verifyDuplicate reg.rnd base.rnd (vRnd v) .ROUNDING_IS_ALREADY_SET with
  | error e => rw [hr] at h; cases h
  | ok rnd =>
    rw [hr] at h
    refine ⟨rnd, verifyDuplicate_ok hr, ?_⟩
    have h : (if rnd ≠ 0 then
        if rnd = 5 then (do let u ← verifySAE reg base type; return ⟨0, u, true, 1⟩ : Except Err EvexLen)
        else (do let u ← verifyER reg base type; return ⟨rnd.setWidth 8 - 1, u, true, 1⟩)
      else Except.ok ⟨_, false, b, _⟩) = .ok ln := h
    by_cases h0 : rnd = 0
    · rw [if_neg (by simp [h0])] at h
      left
      refine ⟨h0, ?_⟩
      cases h; rfl
    · rw [if_pos h0] at h
      by_cases h5 : rnd = 5
      · rw [if_pos h5] at h
        cases hs : verifySAE reg base type with
        | error e => rw [hs] at h; cases h
        | ok u => rw [hs] at h; cases h; exact .inr (.inl ⟨h5, u, rfl, rfl⟩)
      · rw [if_neg h5] at h
        cases hs : verifyER reg base type with
        | error e => rw [hs] at h; cases h
        | ok u => rw [hs] at h; cases h; exact .inr (.inr ⟨h0, h5, u, rfl, rfl⟩)

/-- The opmask comes from the address, or from the registers. -/
theorem evexMask_ok {reg base : Reg} {v : Option Reg} {aaa k : BitVec 3} (h : evexMask reg base v aaa = .ok k) :
    (aaa ≠ 0 → k = aaa) ∧ (aaa = 0 → Selects k [base.mask, reg.mask, vMask v]) := by
  unfold evexMask at h
  split at h
  · rename_i h0
    exact ⟨fun hn => absurd h0 hn, fun _ => verifyDuplicate_ok h⟩
  · rename_i h0
    cases h
    exact ⟨fun _ => rfl, fun h => absurd h h0⟩

/-- The decoded head has no legacy prefix and the requested map, embedded prefix, W and opcode. -/
structure EvexOp (type : Ty) (code : Byte) (p67 : Bool) (h : X86.Head) : Prop where
  space : h.space = .evex
  map : h.map = (evexMap type).setWidth 5
  pp : h.pp = ppOf type
  w : h.w = type.has T_EW1
  opcode : h.opcode = code
  p66 : h.p66 = false
  pF2 : h.pF2 = false
  pF3 : h.pF3 = false
  p67 : h.p67 = p67
  seg : h.seg = none

/-- The map flags of EVEX instructions: 0F, 0F38, 0F3A, and maps 5 and 6 of AVX512-FP16. -/
theorem evexMap_cases (type : Ty) : (evexMap type).setWidth 5 =
    if type.has T_FP16 then mapOf type ||| 4 else mapOf type := by
  unfold evexMap
  obtain ⟨m, h1, h2⟩ := getMap_eq type
  rw [h1, h2]
  have : ∀ (m : BitVec 2) (c : Bool), ((m.setWidth 8 ||| sel c 4).setWidth 3).setWidth 5 = if c then m.setWidth 5 ||| (4 : BitVec 5) else m.setWidth 5 := by
    decide +kernel
  exact this m _

/-- A register as the r/m operand: vector registers use X as bit 4, general registers B4; below 16 there is no bit 4. -/
def RmRegIs (q : Reg) (h : X86.Head) (rm : BitVec 3) : Prop :=
  (q.isSIMD = true ∨ q.idx.toNat < 16 → X86.rmVec h rm = q.idx) ∧ (q.isSIMD = false ∨ q.idx.toNat < 16 → X86.rmGpr h rm = q.idx)

/-- The rounding requested by the registers: 0 none, 1-4 to nearest/down/up/zero, 5 only suppress exceptions (xbyak.h 839-845). -/
def RoundingIs (rnd : BitVec 3) (h : X86.Head) : Prop :=
  (rnd = 0 → X86.staticRounding h = none) ∧
  (rnd ≠ 0 → rnd ≠ 5 → X86.staticRounding h = some ((rnd - 1).setWidth 2)) ∧
  (rnd = 5 → X86.staticRounding h = some 0)

theorem vreg_eq : ∀ (i : BitVec 5), (if (i.getLsbD 4 || false) then 16 else 0) ||| i &&& 15 = i := by decide +kernel
theorem rnd_eq : ∀ r : BitVec 3, r ≠ 0 → ((r.setWidth 8 : BitVec 8) - 1).setWidth 2 = (r - 1).setWidth 2 := by decide +kernel

/-- C39, register operands: an accepted EVEX instruction decodes to the requested map, prefix, W, opcode, destination, second source,
register source (all 32 registers), opmask, zeroing and rounding.  The vector length is the subject of `c39_length` and `c39_length_rounding_partial`. -/
theorem c39_reg (r : Reg) (v : Option Reg) (base : Reg) (hb : base.isSIMD = true ∨ base.kind = .reg ∨ base.idx.toNat < 16)
    (type : Ty) (code : Byte) (imm8 : Option Byte)
    (he : regEvex r v base type = true) {w : List Act} (hw : (opVex r v (.reg base) type code imm8).Gives w ()) :
    ∃ (bs : List Byte) (h : X86.Head) (reg rm : BitVec 3), w = bs.map .byte ∧
      (∀ t, X86.insn false 1 (bs ++ t) = some (⟨h, reg, .reg rm⟩, imm8.toList ++ t)) ∧
      EvexOp type code false h ∧ X86.regNum h reg = r.idx ∧ h.vreg = vIdx v ∧ RmRegIs base h rm ∧
      Selects h.aaa [base.mask, r.mask, vMask v] ∧ h.z = (h.aaa != 0 && anyZero r base v) ∧
      ∃ rnd, Selects rnd [r.rnd, base.rnd, vRnd v] ∧ RoundingIs rnd h ∧
        (rnd = 0 → h.u = true ∧ h.L = (llOf (evexVL r base v 0)).setWidth 2) ∧
        (rnd = 5 → ∃ u, verifySAE r base type = .ok u ∧ h.u = !u) ∧
        (rnd ≠ 0 → rnd ≠ 5 → ∃ u, verifyER r base type = .ok u ∧ h.u = !u) := by
  unfold opVex at hw
  dsimp only at hw
  rw [if_pos (by rw [he])] at hw
  simp only [Enc.gives_bind, evex_gives, setModRM, Enc.gives_db, gives_dbOpt] at hw
  obtain ⟨_, _, _, ⟨hty, ln, k, hln, hk, rfl, rfl⟩, ⟨_, _, _, rfl, rfl, rfl⟩, rfl⟩ := hw
  have hln := evexLen_ok hln
  have hk := (evexMask_ok hk).2 rfl
  generalize hf : evexF r base v type none false ln k = f
  refine ⟨f.bytes code ++ ([modRM 3 r.idx base.idx] ++ imm8.toList), f.head code false,
    r.idx.extractLsb' 0 3, base.idx.extractLsb' 0 3, by simp, fun t => ?_, ?_, ?_, ?_, ?_, ?_, ?_, ?_⟩
  · unfold X86.insn
    have e := head_evex f code false (modRM 3 r.idx base.idx :: (imm8.toList ++ t))
    have eb : (f.bytes code ++ ([modRM 3 r.idx base.idx] ++ imm8.toList) ++ t) =
        X86.opt false 0x67 ++ (f.bytes code ++ (modRM 3 r.idx base.idx :: (imm8.toList ++ t))) := by
      simp [X86.opt]
    rw [eb, e]
    dsimp only
    rw [modrm_reg]
  · subst hf; exact ⟨rfl, rfl, rfl, rfl, rfl, rfl, rfl, rfl, rfl, rfl⟩
  · subst hf; exact mk5_idx _
  · subst hf; exact vreg_eq _
  · subst hf
    have h16 : ∀ i : BitVec 5, i.toNat < 16 → i.getLsbD 4 = false := by decide +kernel
    refine ⟨fun hs => ?_, fun hs => ?_⟩
    · unfold X86.rmVec EvexF.head evexF
      simp only [Bool.false_or]
      rcases hs with hs | hs
      · rw [hs, Bool.true_and]
        exact mk5_idx _
      · have h4 : base.isExtIdx2 = false := h16 _ hs
        rw [h4, Bool.and_false]
        exact mk5_small (h16 _ hs)
    · unfold X86.rmGpr EvexF.head evexF
      dsimp only
      have small : base.idx.toNat < 16 → X86.mk5 (base.isREG && base.isExtIdx2) (base.idx.getLsbD 3) (base.idx.extractLsb' 0 3) = base.idx := by
        intro hb
        have h4 : base.isExtIdx2 = false := h16 _ hb
        rw [h4, Bool.and_false]
        exact mk5_small (h16 _ hb)
      rcases hs with hs | hs
      · rcases hb with hb | hb | hb
        · rw [hs] at hb; cases hb
        · have : base.isREG = true := by simp [Reg.isREG, hb]
          rw [this, Bool.true_and]
          exact mk5_idx _
        · exact small hb
      · exact small hs
  · subst hf; exact hk
  · subst hf; rfl
  · obtain ⟨rnd, hs, hc⟩ := hln
    refine ⟨rnd, hs, ?_⟩
    unfold RoundingIs X86.staticRounding EvexF.head
    subst hf
    unfold evexF
    dsimp only
    rcases hc with ⟨h0, rfl⟩ | ⟨h5, u, hu, rfl⟩ | ⟨h0, h5, u, hu, rfl⟩
    · subst h0
      refine ⟨⟨fun _ => rfl, fun h => absurd rfl h, fun h => absurd h (by decide)⟩, fun _ => ⟨rfl, rfl⟩, fun h => absurd h (by decide), fun h => absurd rfl h⟩
    · subst h5
      refine ⟨⟨fun h => absurd h (by decide), fun _ h => absurd rfl h, fun _ => rfl⟩, fun h => absurd h (by decide), fun _ => ⟨u, hu, by simp⟩, fun _ h => absurd rfl h⟩
    · refine ⟨⟨fun h => absurd h h0, fun _ _ => ?_, fun h => absurd h h5⟩, fun h => absurd h h0, fun h => absurd h h5, fun _ _ => ⟨u, hu, by simp⟩⟩
      rw [if_pos rfl, rnd_eq _ h0]

/-! ### Memory operands -/

theorem v4_mem : ∀ (i : BitVec 5) (c : Bool), ((if (i.getLsbD 4 || c) then 16 else 0) ||| i &&& 15 : BitVec 5).getLsbD 4 = (i.getLsbD 4 || c) := by
  decide +kernel

/-- C39, memory operands: an accepted EVEX instruction decodes to the requested map, prefix, W, opcode, destination, second source, address,
opmask, zeroing and broadcast; the registers carry no rounding; the unit of an 8-bit displacement is `disp8Scale` (see `c39_unit`).
`hvs`: EVEX instructions with a vector index have no second source.
Partial: excluded are `T_ER_R` instructions (`c39_refuted_mem_rounding`), `ptr[uint64_t]` operands (as `c38_refuted_disp64`) and
tile index registers; rounding and zeroing attached to the address are ignored (`c39_refuted_addr_rounding`, `c39_refuted_addr_zero`). -/
theorem c39_mem_partial (r : Reg) (v : Option Reg) (a : Addr) (ha : a.WF) (ht : a.e.index.kind ≠ .tmm)
    (hd : a.mode ≠ .disp64) (hvs : a.e.index.isSIMD = true → v = none) (type : Ty) (htr : type.has T_ER_R = false) (code : Byte) (imm8 : Option Byte)
    (he : memEvex r v a type = true) {w : List Act} (hw : (opVex r v (.mem a) type code imm8).Gives w ()) (fill : Act → BitVec 32) :
    ∃ (h : X86.Head) (reg : BitVec 3) (m : X86.Mem) (VL : Nat), VL = evexVL r a.getRegExp.base v (if a.isVsib then a.e.index.bit else 0) ∧
      (∀ t, X86.insn a.e.index.isSIMD (disp8Scale type a.broadcast VL) (concr fill w ++ t) = some (⟨h, reg, .mem m⟩, imm8.toList ++ t)) ∧
      EvexOp type code a.is32bit h ∧ X86.regNum h reg = r.idx ∧ (a.withImm imm8).Means fill h m ∧
      (a.e.index.isSIMD = false → h.vreg = vIdx v) ∧
      (a.o.mask ≠ 0 → h.aaa = a.o.mask) ∧ (a.o.mask = 0 → Selects h.aaa [a.getRegExp.base.mask, r.mask, vMask v]) ∧
      h.z = (h.aaa != 0 && anyZero r a.getRegExp.base v) ∧ h.b = a.broadcast ∧ h.L = (llOf VL).setWidth 2 ∧ r.rnd = 0 ∧ vRnd v = 0 := by
  unfold opVex at hw
  dsimp only at hw
  rw [if_pos (by rw [he])] at hw
  rw [Enc.dbIf_bind] at hw
  obtain ⟨w1, rfl, hw⟩ := hw
  rw [Enc.throwIf_bind] at hw
  obtain ⟨_, hw⟩ := hw
  rw [Enc.throwIf_bind] at hw
  obtain ⟨_, hw⟩ := hw
  simp only [Enc.gives_bind, evex_gives, gives_dbOpt] at hw
  obtain ⟨_, n, _, ⟨hty, ln, k, hln, hk, rfl, rfl⟩, ⟨_, _, _, hw, rfl, rfl⟩, rfl⟩ := hw
  have hw : (opAddr (vexAddr a type ln.disp8N imm8) r.idx).Gives _ () := hw
  have hb := enc_base ha
  have ix := (getRegExp_index a).1
  have hvsib : a.getRegExp.isVsib = a.isVsib := by unfold Addr.isVsib RegExp.isVsib; rw [ix]
  rw [hvsib, ix] at hln
  obtain ⟨rnd, hsel, hc⟩ := evexLen_ok hln
  have hm := evexMask_ok hk
  have b1 : a.getRegExp.base.isXMM = false ∧ a.getRegExp.base.isYMM = false ∧ a.getRegExp.base.isZMM = false := by
    unfold Reg.isXMM Reg.isYMM Reg.isZMM
    rcases hb with h | h
    · rw [h]; exact ⟨rfl, rfl, rfl⟩
    · rw [h]; exact ⟨rfl, rfl, rfl⟩
  have h0 : rnd = 0 ∧ ln = ⟨llOf (evexVL r a.getRegExp.base v (if a.isVsib then a.e.index.bit else 0)), false, a.broadcast,
      disp8Scale type a.broadcast (evexVL r a.getRegExp.base v (if a.isVsib then a.e.index.bit else 0))⟩ := by
    rcases hc with hc | ⟨_, u, hu, _⟩ | ⟨_, _, u, hu, _⟩
    · exact hc
    · unfold verifySAE at hu; rw [b1.1, b1.2.1, b1.2.2] at hu; simp at hu
    · unfold verifyER at hu; rw [b1.1, b1.2.1, b1.2.2, htr] at hu; simp at hu
  obtain ⟨rfl, rfl⟩ := h0
  have hN := c30_factors type a.broadcast (evexVL r a.getRegExp.base v (if a.isVsib then a.e.index.bit else 0))
  generalize hVL : evexVL r a.getRegExp.base v (if a.isVsib then a.e.index.bit else 0) = VL at hw hN
  have hn0 : disp8Scale type a.broadcast VL ≠ 0 := by unfold IsN at hN; omega
  have hd8 : (vexAddr a type (disp8Scale type a.broadcast VL) imm8).disp8N = disp8Scale type a.broadcast VL := by
    unfold vexAddr; dsimp only; rw [if_pos hn0]
  have hrnd : r.rnd = 0 ∧ vRnd v = 0 := by
    have h1 := hsel.1 r.rnd (by simp)
    have h2 := hsel.1 (vRnd v) (by simp)
    simpa using And.intro h1 h2
  generalize hf : evexF r a.getRegExp.base v type (some a.getRegExp.index) (a.getRegExp.index.isSIMD && a.getRegExp.index.isExtIdx2)
    ⟨llOf VL, false, a.broadcast, disp8Scale type a.broadcast VL⟩ k = f
  have hbs : a.getRegExp.base.isSIMD = false := by unfold Reg.isSIMD; rw [b1.1, b1.2.1, b1.2.2]; rfl
  have hv4 : (f.head code a.is32bit).vreg.getLsbD 4 = ((vIdx v).getLsbD 4 || (a.getRegExp.index.isSIMD && a.getRegExp.index.isExtIdx2)) := by
    subst hf; exact v4_mem _ _
  have hh : HeadFor (f.head code a.is32bit) (vexAddr a type (disp8Scale type a.broadcast VL) imm8).getRegExp := by
    show HeadFor (f.head code a.is32bit) a.getRegExp
    refine ⟨fun _ => ⟨?_, ?_⟩, ?_, fun h => ?_, fun h => ?_, is32bit_getRegExp a⟩
    · subst hf; rfl
    · subst hf
      show (a.getRegExp.base.isREG && a.getRegExp.base.isExtIdx2) = _
      rcases hb with h | h
      · rw [h]; rfl
      · have : a.getRegExp.base.isREG = true := by simp [Reg.isREG, h]
        rw [this]; rfl
    · subst hf
      show (a.getRegExp.index.isExtIdx || (a.getRegExp.base.isSIMD && a.getRegExp.base.isExtIdx2)) = _
      rw [hbs, Bool.false_and, Bool.or_false]; rfl
    · subst hf
      show (!(!false && !(a.getRegExp.index.isREG && a.getRegExp.index.isExtIdx2))) = _
      rcases h with h | h
      · rw [h]; rfl
      · have : a.getRegExp.index.isREG = true := by simp [Reg.isREG, h]
        rw [this]; simp [Reg.isExtIdx2]
    · rw [hv4, h]
      rw [ix] at h
      rw [hvs h]; simp [vIdx, Reg.isExtIdx2]
  obtain ⟨m, hmm, hme⟩ := opAddr_decode (vexAddr a type (disp8Scale type a.broadcast VL) imm8) (vexAddr_wf ha _ _ _) ht hd r.idx
    (.inr (by rw [hd8]; exact hN)) hw _ hh fill
  refine ⟨f.head code a.is32bit, r.idx.extractLsb' 0 3, m, VL, rfl, fun t => ?_, ?_, ?_, hme, fun hs => ?_, ?_, ?_, ?_, ?_, ?_, hrnd⟩
  · have hmm := hmm (imm8.toList ++ t)
    rw [hd8, if_neg hn0] at hmm
    have hmm : X86.modrm _ a.e.index.isSIMD _ _ = _ := hmm
    unfold X86.insn
    have e := head_evex f code a.is32bit
    simp only [concr_append, concr_bytes, List.append_assoc]
    have eo : (if a.is32bit = true then [103#8] else []) = X86.opt a.is32bit 0x67 := rfl
    show (match X86.head ((if a.is32bit = true then [103#8] else []) ++ _) with | none => none | some (h, t) => _) = _
    rw [eo, e]
    dsimp only
    rw [hmm]
  · subst hf; exact ⟨rfl, rfl, rfl, rfl, rfl, rfl, rfl, rfl, rfl, rfl⟩
  · subst hf; exact mk5_idx _
  · subst hf
    unfold EvexF.head evexF
    dsimp only
    rw [ix, hs]
    exact vreg_eq _
  · subst hf; exact hm.1
  · subst hf; exact hm.2
  · subst hf; rfl
  · subst hf; rfl
  · subst hf; rfl

/-! ### Vector length and displacement unit -/

/-- The vector length requested by the operands: that of the widest vector register. -/
def reqVL (l : List Reg) : Nat := if l.any Reg.isZMM then 512 else if l.any Reg.isYMM then 256 else 128

/-- Operands of vector instructions: vector registers have their size, everything else (general, mask, absent) is at most 128 bits. -/
def SizeOK (q : Reg) : Prop := (q.isZMM = true → q.bit = 512) ∧ (q.isYMM = true → q.bit = 256) ∧ (q.isZMM = false → q.isYMM = false → q.bit ≤ 128)

theorem sizeOK_named {q : Reg} (h : q.Named) (ht : q.kind ≠ .tmm) : SizeOK q := by
  unfold SizeOK Reg.isZMM Reg.isYMM
  rcases h.shape with ⟨h, hb⟩ | ⟨h, hb⟩ | ⟨h, hb⟩ | ⟨h, hb⟩ | ⟨h, hb⟩ | ⟨h, hb⟩ | ⟨h, hb⟩ | ⟨h, hb⟩ | ⟨h, hb⟩ <;> simp_all <;> omega

theorem reqVL_max (l : List Reg) (hl : ∀ q ∈ l, SizeOK q) (VL : Nat) (hV : ∀ q ∈ l, q.bit ≤ VL) (hm : VL = 0 ∨ ∃ q ∈ l, q.bit = VL) :
    (VL = 512 ↔ reqVL l = 512) ∧ (VL = 256 ↔ reqVL l = 256) ∧ (VL ≤ 128 ↔ reqVL l = 128) := by
  unfold reqVL
  by_cases hz : l.any Reg.isZMM = true
  · obtain ⟨q, hq, hqz⟩ := List.any_eq_true.1 hz
    have h1 := (hl q hq).1 hqz
    have h2 := hV q hq
    have h3 : VL ≤ 512 := by
      rcases hm with h | ⟨p, hp, h⟩
      · omega
      · obtain ⟨a, b, c⟩ := hl p hp
        cases hpz : p.isZMM
        · cases hpy : p.isYMM
          · have := c hpz hpy; omega
          · have := b hpy; omega
        · have := a hpz; omega
    rw [if_pos hz]
    have : VL = 512 := by omega
    subst this; simp
  · rw [if_neg hz]
    have hz' : ∀ p ∈ l, p.isZMM = false := by
      intro p hp
      cases h : p.isZMM with
      | false => rfl
      | true => exact absurd (List.any_eq_true.2 ⟨p, hp, h⟩) hz
    by_cases hy : l.any Reg.isYMM = true
    · obtain ⟨q, hq, hqz⟩ := List.any_eq_true.1 hy
      have h1 := (hl q hq).2.1 hqz
      have h2 := hV q hq
      have h3 : VL ≤ 256 := by
        rcases hm with h | ⟨p, hp, h⟩
        · omega
        · obtain ⟨a, b, c⟩ := hl p hp
          cases hpy : p.isYMM
          · have := c (hz' p hp) hpy; omega
          · have := b hpy; omega
      rw [if_pos hy]
      have : VL = 256 := by omega
      subst this; simp
    · rw [if_neg hy]
      have h3 : VL ≤ 128 := by
        rcases hm with h | ⟨p, hp, h⟩
        · omega
        · obtain ⟨a, b, c⟩ := hl p hp
          have : p.isYMM = false := by
            cases h : p.isYMM with
            | false => rfl
            | true => exact absurd (List.any_eq_true.2 ⟨p, hp, h⟩) hy
          have := c (hz' p hp) this; omega
      refine ⟨⟨fun h => ?_, fun h => absurd h (by decide)⟩, ⟨fun h => ?_, fun h => absurd h (by decide)⟩, fun _ => rfl, fun _ => h3⟩ <;> omega

/-- C39, vector length: without rounding the decoded vector length is that of the widest vector operand (including a vector index). -/
theorem c39_length (r base : Reg) (v : Option Reg) (x : Option Reg) (hs : ∀ q ∈ r :: base :: (v.toList ++ x.toList), SizeOK q)
    (h : X86.Head) (regForm : Bool) (hb : regForm = true → h.b = false)
    (hL : h.L = (llOf (evexVL r base v (vBit x))).setWidth 2) :
    X86.vectorBits h regForm = reqVL (r :: base :: (v.toList ++ x.toList)) := by
  have hm : evexVL r base v (vBit x) = max (max r.bit base.bit) (max (vBit x) (vBit v)) := rfl
  have key := reqVL_max _ hs (evexVL r base v (vBit x)) (by
    intro q hq
    rw [hm]
    simp only [List.mem_cons, List.mem_append, Option.mem_toList] at hq
    rcases hq with rfl | rfl | hq | hq
    · omega
    · omega
    · cases hq; simp only [vBit]; omega
    · cases hq; simp only [vBit]; omega) (by
    by_cases h1 : evexVL r base v (vBit x) = r.bit
    · exact .inr ⟨r, by simp, h1.symm⟩
    by_cases h2 : evexVL r base v (vBit x) = base.bit
    · exact .inr ⟨base, by simp, h2.symm⟩
    by_cases h3 : evexVL r base v (vBit x) = vBit x
    · cases x with
      | none => left; rw [h3]; rfl
      | some q => exact .inr ⟨q, by simp, h3.symm⟩
    · have h4 : evexVL r base v (vBit x) = vBit v := by omega
      cases v with
      | none => left; rw [h4]; rfl
      | some q => exact .inr ⟨q, by simp, h4.symm⟩)
  have hreg : (regForm && h.b) = false := by
    cases regForm with
    | false => rfl
    | true => rw [hb rfl]; rfl
  unfold X86.vectorBits
  rw [hreg, if_neg (by decide), hL]
  have tri : reqVL (r :: base :: (v.toList ++ x.toList)) = 512 ∨ reqVL (r :: base :: (v.toList ++ x.toList)) = 256 ∨
      reqVL (r :: base :: (v.toList ++ x.toList)) = 128 := by
    generalize (r :: base :: (v.toList ++ x.toList)) = l
    unfold reqVL; split
    · simp
    · split <;> simp
  obtain ⟨k1, k2, k3⟩ := key
  rcases tri with t | t | t
  · rw [t, k1.2 t]; rfl
  · rw [t, k2.2 t]; rfl
  · have h1 := k3.2 t
    have : llOf (evexVL r base v (vBit x)) = 0 := by
      generalize evexVL r base v (vBit x) = n at h1
      unfold llOf; rw [if_neg (by omega), if_neg (by omega)]
    rw [t, this]; rfl

/-- C39, vector length with rounding: 512, or 256 by means of the U bit.
Partial: for 128-bit operands the length is wrong (`c39_refuted_xmm_sae`, `c39_refuted_xmm_cvt`). -/
theorem c39_length_rounding_partial (r base : Reg) (type : Ty) (h : X86.Head) (hb : h.b = true) (u : Bool)
    (hu : (verifyER r base type = .ok u ∧ type.has T_ER_R = false) ∨ verifySAE r base type = .ok u) (hh : h.u = !u)
    (hx : base.isXMM = false) :
    X86.vectorBits h true = (if base.isZMM ∨ (u = false ∧ base.isYMM) then 512 else 256) ∧ (base.isZMM = true ∨ base.isYMM = true) ∧
      (base.isYMM = true → (u = true ∨ (type.has T_ER_Y = true ∧ type.has T_ER_Z = false) ∨ (type.has T_SAE_Y = true ∧ type.has T_SAE_Z = false))) := by
  unfold X86.vectorBits
  rw [hb, hh]
  have ex : base.isZMM = true → base.isYMM = false := by
    unfold Reg.isZMM Reg.isYMM
    cases base.kind <;> decide
  unfold verifyER verifySAE at hu
  rw [hx] at hu
  revert hu ex
  cases base.isZMM <;> cases base.isYMM <;> cases type.has T_ER_R <;> cases type.has T_ER_Y <;> cases type.has T_ER_Z <;>
    cases type.has T_SAE_Y <;> cases type.has T_SAE_Z <;> cases u <;> simp

/-- How an instruction reads memory, from its type flags (xbyak.h 1828-1838). -/
def tupleOf (type : Ty) : X86.Tuple :=
  match (type &&& T_NX_MASK).toNat, type.has T_N_VL with
  | 7, _ => .dup
  | 0, false => .perVL 16
  | 0, true => .fixed 1
  | n + 1, true => .perVL (2 ^ n)
  | n + 1, false => .fixed (2 ^ n)

/-- The element size of an embedded broadcast. -/
def bcastBytes (type : Ty) : Nat := if type.has T_B32 && type.has T_B64 then 2 else if type.has T_B32 then 4 else 8

/-- C39: the unit of an 8-bit displacement is that of the memory operand. -/
theorem c39_unit (type : Ty) (bc : Bool) (VL : Nat) (hV : VL = 128 ∨ VL = 256 ∨ VL = 512) :
    disp8Scale type bc VL = if bc then bcastBytes type else (tupleOf type).unit VL := by
  unfold disp8Scale
  cases bc with
  | true =>
    rw [if_pos rfl, if_pos rfl]
    unfold bcastBytes
    have e : type &&& T_B16 = T_B16 ↔ (type.has T_B32 && type.has T_B64) = true := by
      unfold Ty.has T_B16
      have b26 : (type &&& T_B32 != 0) = type.getLsbD 26 := by
        rw [show T_B32 = BitVec.twoPow 64 26 by decide, BitVec.and_twoPow]
        cases type.getLsbD 26 <;> simp; decide
      have b27 : (type &&& T_B64 != 0) = type.getLsbD 27 := by
        rw [show T_B64 = BitVec.twoPow 64 27 by decide, BitVec.and_twoPow]
        cases type.getLsbD 27 <;> simp; decide
      rw [b26, b27, BitVec.and_or_distrib_left]
      rw [show T_B32 = BitVec.twoPow 64 26 by decide, show T_B64 = BitVec.twoPow 64 27 by decide, BitVec.and_twoPow, BitVec.and_twoPow]
      cases type.getLsbD 26 <;> cases type.getLsbD 27 <;> decide
    by_cases h : (type.has T_B32 && type.has T_B64) = true
    · rw [if_pos (e.2 h), if_pos h]
    · rw [if_neg (fun c => h (e.1 c)), if_neg h]
  | false =>
    rw [if_neg Bool.false_ne_true, if_neg Bool.false_ne_true]
    have low8 : (type &&& T_NX_MASK).toNat < 8 := by
      rw [BitVec.toNat_and]; exact Nat.lt_of_le_of_lt Nat.and_le_right (by decide)
    have dupE : type &&& T_NX_MASK = T_DUP ↔ (type &&& T_NX_MASK).toNat = 7 := by
      rw [← BitVec.toNat_inj]; rfl
    by_cases hdup : (type &&& T_NX_MASK).toNat = 7
    · rw [if_pos (dupE.2 hdup)]
      unfold tupleOf
      rw [hdup]
      rfl
    · rw [if_neg (fun c => hdup (dupE.1 c))]
      have or0 : ∀ a b : Ty, a ||| b = 0 ↔ a = 0 ∧ b = 0 := fun a b => BitVec.or_eq_zero_iff
      have z : type &&& (T_NX_MASK ||| T_N_VL) = 0 ↔ (type &&& T_NX_MASK).toNat = 0 ∧ type.has T_N_VL = false := by
        rw [BitVec.and_or_distrib_left, or0]
        unfold Ty.has
        rw [← BitVec.toNat_inj]
        simp
      have d16 : ∀ ty : Ty, ty &&& (T_NX_MASK ||| T_N_VL) = 0 → ((ty ||| (T_N16 ||| T_N_VL)) &&& T_NX_MASK).toNat = 5 ∧ (ty ||| (T_N16 ||| T_N_VL)).has T_N_VL = true := by
        intro ty h
        have h1 : ty &&& T_NX_MASK = 0 := by
          rw [BitVec.and_or_distrib_left, or0] at h; exact h.1
        have h2 : ty &&& T_N_VL = 0 := by
          rw [BitVec.and_or_distrib_left, or0] at h; exact h.2
        unfold Ty.has
        refine ⟨?_, ?_⟩
        · rw [BitVec.and_or_distrib_right, h1]; decide
        · rw [BitVec.and_or_distrib_right, h2]; decide
      have q : (if VL = 512 then 4 else if VL = 256 then 2 else 1 : Nat) = VL / 128 := by
        rcases hV with h | h | h <;> subst h <;> rfl
      by_cases hz : type &&& (T_NX_MASK ||| T_N_VL) = 0
      · obtain ⟨e1, e2⟩ := d16 type hz
        dsimp only
        rw [if_pos hz, e1, e2, q]
        unfold tupleOf
        rw [(z.1 hz).1, (z.1 hz).2]
        rfl
      · dsimp only
        rw [if_neg hz, q]
        unfold tupleOf
        generalize (type &&& T_NX_MASK).toNat = l at *
        cases hc : type.has T_N_VL with
        | false =>
          cases l with
          | zero => exact absurd (z.2 ⟨rfl, hc⟩) hz
          | succ l =>
            have : l = 0 ∨ l = 1 ∨ l = 2 ∨ l = 3 ∨ l = 4 ∨ l = 5 := by omega
            rcases this with h | h | h | h | h | h <;> subst h <;> rfl
        | true =>
          cases l with
          | zero => rfl
          | succ l =>
            have : l = 0 ∨ l = 1 ∨ l = 2 ∨ l = 3 ∨ l = 4 ∨ l = 5 := by omega
            rcases this with h | h | h | h | h | h <;> subst h <;> simp [X86.Tuple.unit]

/-! ### Examples and refutations -/

/-- `ptr[r]` -/
private def base0 (q : Reg) : Addr := { o := { idx := 0, ext8 := false, kind := .mem, bit := 0 }, e := { base := q, index := .nil, scale := 0, disp := 0 } }

theorem base0_wf {q : Reg} (h : q.kind = .reg) (hb : q.bit = 64) (h8 : q.ext8 = false) : (base0 q).WF :=
  ⟨fun _ => ⟨⟨.inr ⟨h, .inr hb, h8⟩, .inl rfl, fun h => absurd rfl h⟩, rfl⟩, fun h => absurd rfl h, rfl⟩

/-- `vaddps zmm17|k1|T_z, zmm30, zmm25|T_rd_sae` = 62 81 0C B1 58 C9 -/
example : (opVex { Reg.zmm 17 with mask := 1, zero := true } (some (.zmm 30)) (.reg { Reg.zmm 25 with rnd := 2 })
    (T_0F ||| T_EW0 ||| T_YMM ||| T_EVEX ||| T_ER_Z ||| T_B32) 0x58).acts = [0x62, 0x81, 0x0C, 0xB1, 0x58, 0xC9].map .byte := by decide +kernel
/-- the decoder on these bytes -/
example : ∃ i, X86.insn false 1 [0x62, 0x81, 0x0C, 0xB1, 0x58, 0xC9] = some (i, []) ∧ X86.regNum i.head i.reg = 17 ∧ i.head.vreg = 30 ∧
    i.head.aaa = 1 ∧ i.head.z = true ∧ X86.staticRounding i.head = some 1 ∧ X86.vectorBits i.head true = 512 := ⟨_, rfl, rfl, rfl, rfl, rfl, rfl, rfl⟩

/-- Bug: `vminmaxps(xmm1, xmm2, xmm3|T_sae, 0)` is accepted and encodes the 256-bit instruction: `verifySAE` treats every xmm operand of a
`T_SAE_Y` instruction as the source of a 256-bit operation. -/
theorem c39_refuted_xmm_sae : ∃ (w : List Act) (bs : List Byte) (i : X86.Insn) (t : List Byte),
    (opAVX_X_X_XM (.xmm 1) (.reg (.xmm 2)) (some (.reg { Reg.xmm 3 with rnd := 5 }))
      (T_66 ||| T_0F3A ||| T_EW0 ||| T_YMM ||| T_SAE_Y ||| T_SAE_Z ||| T_MUST_EVEX ||| T_B32) 0x52 (some 0)).Gives w () ∧ w = bs.map .byte ∧
    X86.insn false 1 bs = some (i, t) ∧ X86.vectorBits i.head true = 256 :=
  ⟨_, [0x62, 0xF3, 0x69, 0x18, 0x52, 0xCB, 0x00], _, _, ⟨rfl, rfl⟩, by decide +kernel, rfl, rfl⟩

/-- Bug: `vcvtph2pd(xmm1, xmm2|T_sae)` is accepted and encodes `vcvtph2pd zmm1, xmm2{sae}`. -/
theorem c39_refuted_xmm_cvt : ∃ (w : List Act) (bs : List Byte) (i : X86.Insn) (t : List Byte),
    (opVex (.xmm 1) none (.reg { Reg.xmm 2 with rnd := 5 })
      (T_N4 ||| T_N_VL ||| T_MAP5 ||| T_EW0 ||| T_YMM ||| T_SAE_X ||| T_MUST_EVEX ||| T_B16) 0x5A).Gives w () ∧ w = bs.map .byte ∧
    X86.insn false 1 bs = some (i, t) ∧ X86.vectorBits i.head true = 512 :=
  ⟨_, [0x62, 0xF5, 0x7C, 0x18, 0x5A, 0xCA], _, _, ⟨rfl, rfl⟩, by decide +kernel, rfl, rfl⟩

/-- Bug: `vcvtsi2sh(xmm1|T_rz_sae, xmm2, dword[rax])` is accepted: `verifyER` takes the base register of the address for a register operand.
EVEX.b is set, which with a memory operand means broadcast, not rounding. -/
theorem c39_refuted_mem_rounding : ∃ (w : List Act) (bs : List Byte) (i : X86.Insn) (m : X86.Mem), (base0 (.gp 0 64)).WF ∧
    (opVex { Reg.xmm 1 with rnd := 4 } (some (.xmm 2)) (.mem (base0 (.gp 0 64)))
      (T_F3 ||| T_MAP5 ||| T_ER_R ||| T_MUST_EVEX ||| T_M_K ||| T_EW0 ||| T_N4) 0x2A).Gives w () ∧ w = bs.map .byte ∧
    X86.insn false 4 bs = some (i, []) ∧ i.rm = .mem m ∧ i.head.b = true ∧ (base0 (.gp 0 64)).broadcast = false :=
  ⟨_, [0x62, 0xF5, 0x6E, 0x78, 0x2A, 0x08], _, _, base0_wf rfl rfl rfl, ⟨rfl, rfl⟩, by decide +kernel, rfl, rfl, rfl, rfl⟩

/-- Bug: rounding attached to an address is dropped: `vaddps(zmm1, zmm2, ptr[rax]|T_rz_sae)` is accepted and has no rounding. -/
theorem c39_refuted_addr_rounding : ∃ (w : List Act) (bs : List Byte) (i : X86.Insn) (a : Addr), a.WF ∧ a.o.rnd = 4 ∧
    (opAVX_X_X_XM (.zmm 1) (.reg (.zmm 2)) (some (.mem a))
      (T_0F ||| T_EW0 ||| T_YMM ||| T_EVEX ||| T_ER_Z ||| T_B32) 0x58).Gives w () ∧ w = bs.map .byte ∧
    X86.insn false 64 bs = some (i, []) ∧ X86.staticRounding i.head = none :=
  ⟨_, [0x62, 0xF1, 0x6C, 0x48, 0x58, 0x08], _, { base0 (.gp 0 64) with o := { (base0 (.gp 0 64)).o with rnd := 4 } },
    ⟨(base0_wf (q := .gp 0 64) rfl rfl rfl).exp, fun h => absurd rfl h, rfl⟩, rfl, ⟨rfl, rfl⟩, by decide +kernel, rfl, rfl⟩

/-- Bug: zeroing attached to an address is dropped, although the opmask is used: `vmovdqu32(ptr[rax]|k1|T_z, zmm1)`. -/
theorem c39_refuted_addr_zero : ∃ (w : List Act) (bs : List Byte) (i : X86.Insn) (a : Addr), a.WF ∧ a.o.mask = 1 ∧ a.o.zero = true ∧
    (opVex (.zmm 1) none (.mem a) (T_F3 ||| T_0F ||| T_EW0 ||| T_YMM ||| T_MUST_EVEX ||| T_M_K) 0x7F).Gives w () ∧ w = bs.map .byte ∧
    X86.insn false 64 bs = some (i, []) ∧ i.head.aaa = 1 ∧ i.head.z = false :=
  ⟨_, [0x62, 0xF1, 0x7E, 0x49, 0x7F, 0x08], _, { base0 (.gp 0 64) with o := { (base0 (.gp 0 64)).o with mask := 1, zero := true } },
    ⟨(base0_wf (q := .gp 0 64) rfl rfl rfl).exp, fun h => absurd rfl h, rfl⟩, rfl, rfl, ⟨rfl, rfl⟩, by decide +kernel, rfl, rfl, rfl⟩

/-- Bug: two different opmasks are accepted if one is attached to the address: `vmovdqu32(ptr[rax]|k1, zmm1|k2)` (two registers with
different opmasks are refused, `c39_reg`). -/
theorem c39_refuted_two_masks : ∃ (w : List Act) (a : Addr), a.WF ∧ a.o.mask = 1 ∧
    (opVex { Reg.zmm 1 with mask := 2 } none (.mem a) (T_F3 ||| T_0F ||| T_EW0 ||| T_YMM ||| T_MUST_EVEX ||| T_M_K) 0x7F).Gives w () :=
  ⟨_, { base0 (.gp 0 64) with o := { (base0 (.gp 0 64)).o with mask := 1 } },
    ⟨(base0_wf (q := .gp 0 64) rfl rfl rfl).exp, fun h => absurd rfl h, rfl⟩, rfl, rfl, rfl⟩

end Xbyak
