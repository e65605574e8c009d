import Verif.Sel
set_option linter.unusedSimpArgs false
/-!
# Registers 16-31 need EVEX

For every helper of the vector families: if a register operand has a number from 16, what is written (if anything) is an EVEX instruction.
-/
namespace Xbyak
open E

namespace Enc

/-- Everything the encoder writes, when it returns, is an EVEX instruction. -/
def Evex {α : Type} (m : Enc α) : Prop := ∀ w v, m.Gives w v → ∀ fill, ∃ h t, X86.head (concr fill w) = some (h, t) ∧ h.space = .evex

/-- The encoder does not return. -/
def Refused {α : Type} (m : Enc α) : Prop := ∀ w v, ¬ m.Gives w v

variable {α β : Type}

theorem Refused.evex {m : Enc α} (h : m.Refused) : m.Evex := fun w v g => (h w v g).elim

theorem Evex.throwIf {c : Bool} {e : Err} {f : Unit → Enc β} (h : c = false → (f ()).Evex) : (Enc.throwIf c e >>= f).Evex := by
  intro w v hw
  rw [Enc.throwIf_bind] at hw
  exact h hw.1 w v hw.2

theorem Refused.throwIf {c : Bool} {e : Err} {f : Unit → Enc β} (h : c = false → (f ()).Refused) : (Enc.throwIf c e >>= f).Refused := by
  intro w v hw
  rw [Enc.throwIf_bind] at hw
  exact h hw.1 w v hw.2

theorem Evex.lift {e : Except Err β} {f : β → Enc α} (h : ∀ x, e = .ok x → (f x).Evex) : (Enc.lift e >>= f).Evex := by
  intro w v hw
  rw [Enc.lift_bind] at hw
  obtain ⟨x, hx, hw⟩ := hw
  exact h x hx w v hw

theorem Refused.dbIf {c : Bool} {x : Byte} {f : Unit → Enc β} (h : (f ()).Refused) : (Enc.dbIf c x >>= f).Refused := by
  intro w v hw
  rw [Enc.dbIf_bind] at hw
  obtain ⟨w1, _, hw⟩ := hw
  exact h w1 v hw

end Enc

/-- `opVex` with a register from 16 on, or with `T_MUST_EVEX`, writes EVEX. -/
theorem opVex_evex (r : Reg) (v : Option Reg) (op : Operand) (type : Ty) (code : Byte) (imm : Option Byte)
    (h : r.isExtIdx2 = true ∨ (∃ q, v = some q ∧ q.isExtIdx2 = true) ∨ (∃ q, op = .reg q ∧ q.isExtIdx2 = true) ∨ type.has T_MUST_EVEX = true) :
    (opVex r v op type code imm).Evex := by
  have hE : ∀ q : Reg, q.isExtIdx2 = true → q.hasEvex = true := by
    intro q hq; unfold Reg.hasEvex; rw [hq]; simp
  have me : type.has T_MUST_EVEX = true → type.has (T_MUST_EVEX ||| T_MEM_EVEX) = true := by
    intro h
    simp only [Ty.has, bne_iff_ne, ne_eq] at h ⊢
    intro h'
    apply h
    have : T_MUST_EVEX = (T_MUST_EVEX ||| T_MEM_EVEX) &&& T_MUST_EVEX := by decide
    rw [this, ← BitVec.and_assoc, h']; decide
  intro w u hw fill
  unfold opVex at hw
  cases op with
  | mem a =>
    dsimp only at hw
    rw [Enc.dbIf_bind] at hw
    obtain ⟨w1, rfl, hw⟩ := hw
    have hx : memEvex r v a type = true := by
      unfold memEvex
      rcases h with h | ⟨q, rfl, h⟩ | ⟨q, h, _⟩ | h
      · rw [hE r h]; simp
      · simp only [hE q h]; simp
      · cases h
      · rw [me h]; simp
    rw [if_pos hx] at hw
    rw [Enc.throwIf_bind] at hw
    obtain ⟨_, hw⟩ := hw
    rw [Enc.throwIf_bind] at hw
    obtain ⟨_, hw⟩ := hw
    simp only [Enc.gives_bind, evex_gives, gives_dbOpt] at hw
    obtain ⟨_, n, _, ⟨hty, ln, k, hln, hk, rfl, rfl⟩, ⟨w2, _, _, hw, rfl, rfl⟩, rfl⟩ := hw
    refine ⟨(evexF r a.getRegExp.base v type (some a.getRegExp.index) (a.getRegExp.index.isSIMD && a.getRegExp.index.isExtIdx2) ln k).head code a.is32bit, concr fill w2 ++ imm.toList, ?_, rfl⟩
    have e := head_evex (evexF r a.getRegExp.base v type (some a.getRegExp.index) (a.getRegExp.index.isSIMD && a.getRegExp.index.isExtIdx2) ln k) code a.is32bit
    simp only [concr_append, concr_bytes]
    exact e _
  | reg b =>
    dsimp only at hw
    have hx : regEvex r v b type = true := by
      unfold regEvex
      rcases h with h | ⟨q, rfl, h⟩ | ⟨q, h', h⟩ | h
      · rw [hE r h]; simp
      · simp only [hE q h]; simp
      · cases h'; rw [hE _ h]; simp
      · rw [h]; simp
    rw [if_pos hx] at hw
    simp only [Enc.gives_bind, evex_gives, setModRM, Enc.gives_db, gives_dbOpt] at hw
    obtain ⟨_, _, _, ⟨hty, ln, k, hln, hk, rfl, rfl⟩, ⟨_, _, _, rfl, rfl, rfl⟩, rfl⟩ := hw
    refine ⟨(evexF r b v type none false ln k).head code false, concr fill [.byte (modRM 3 r.idx b.idx)] ++ imm.toList, ?_, rfl⟩
    have e := head_evex (evexF r b v type none false ln k) code false
    simp only [concr_append, concr_bytes]
    exact e _

/-- An address with a vector index is refused without `T_VSIB`. -/
theorem opVex_vsib (r : Reg) (v : Option Reg) (a : Addr) (type : Ty) (code : Byte) (imm : Option Byte) (hp : a.permitVsib = false) (hv : a.isVsib = true)
    (ht : type.has T_VSIB = false) : (opVex r v (.mem a) type code imm).Refused := by
  intro w u hw
  unfold opVex at hw
  dsimp only at hw
  rw [Enc.dbIf_bind] at hw
  obtain ⟨w1, rfl, hw⟩ := hw
  have key : ∀ (b : Addr) (q : BitVec 5) w u, b.permitVsib = false → b.isVsib = true → ¬ (opAddr b q).Gives w u := by
    intro b q w u h1 h2 h
    unfold opAddr at h
    rw [Enc.throwIf_bind, h1, h2] at h
    exact absurd h.1 (by decide)
  split at hw
  · rw [Enc.throwIf_bind] at hw
    obtain ⟨_, hw⟩ := hw
    rw [Enc.throwIf_bind] at hw
    obtain ⟨_, hw⟩ := hw
    simp only [Enc.gives_bind] at hw
    obtain ⟨_, n, _, _, ⟨w2, _, _, hw, _⟩, _⟩ := hw
    exact key _ _ _ _ (by show (a.permitVsib || _) = false; rw [hp, ht]; rfl) (by exact hv) hw
  · simp only [Enc.gives_bind] at hw
    obtain ⟨_, n, _, _, ⟨_, _, _, _, ⟨w2, _, _, hw, _⟩, _⟩, _⟩ := hw
    exact key _ _ _ _ (by show (a.permitVsib || _) = false; rw [hp, ht]; rfl) (by exact hv) hw

theorem hi5 : ∀ i : BitVec 5, i.getLsbD 4 = true ↔ i.toNat ≥ 16 := by decide +kernel

/-- `opSSE` refuses xmm16-31. -/
theorem opSSE_high (r : Reg) (op : Operand) (type : Ty) (code : Byte) (valid : Option (Operand → Operand → Bool)) (imm : Option Byte)
    (h : (r.isXMM = true ∧ r.isExtIdx2 = true) ∨ (op.hd.isXMM = true ∧ op.hd.isExtIdx2 = true)) : (opSSE r op type code valid imm).Refused := by
  unfold opSSE
  refine Enc.Refused.throwIf fun _ => Enc.Refused.throwIf fun hc => ?_
  exfalso
  rw [Bool.or_eq_false_iff, Bool.not_eq_false', Bool.not_eq_false'] at hc
  have hi : ∀ q : Reg, q.isExtIdx2 = true → q.idx.toNat ≥ 16 := by
    intro q hq
    unfold Reg.isExtIdx2 at hq
    exact (hi5 q.idx).mp hq
  rcases h with ⟨h1, h2⟩ | ⟨h1, h2⟩
  · have := hc.1
    simp [isValidSSE, Operand.hd, h1, hi r h2] at this
  · have := hc.2
    simp [isValidSSE, h1, hi _ h2] at this

theorem opAddr_novsib (a : Addr) (q : BitVec 5) (h1 : a.permitVsib = false) (h2 : a.isVsib = true) : (opAddr a q).Refused := by
  intro w u h
  unfold opAddr at h
  rw [Enc.throwIf_bind, h1, h2] at h
  exact absurd h.1 (by decide)

/-- `opROO` writes nothing for an address with a vector index. -/
theorem roo_vsib {d : Reg} {op1 op2 : Operand} {type : Ty} {code : Byte} {n : Nat} {a : Addr} (ha : rooRm op1 op2 = .mem a) (hp : a.permitVsib = false)
    (hv : a.isVsib = true) {w : List Act} {v : Bool} (hw : (opROO d op1 op2 type code n).Gives w v) : v = false ∧ w = [] := by
  cases hu : rooUsed d op1 op2 type with
  | false =>
    rw [roo_false _ _ _ _ _ _ _ hu, Enc.gives_pure] at hw
    exact ⟨hw.2, hw.1⟩
  | true =>
    obtain ⟨_, rfl, hok, w', hw', rfl⟩ := (roo_gives d op1 op2 type code n none hu w v).1 hw
    rw [ha] at hw'
    exact (opAddr_novsib _ _ (by exact hp) (by exact hv) _ _ hw').elim

theorem opMR_vsib (a : Addr) (r : Reg) (type : Ty) (code : Byte) (hp : a.permitVsib = false) (hv : a.isVsib = true) : (opMR a r type code).Refused := by
  intro w u hw
  unfold opMR at hw
  rw [if_neg (by decide)] at hw
  simp only [Enc.gives_bind, Enc.gives_pure] at hw
  obtain ⟨_, _, _, ⟨rfl, rfl⟩, hw, _⟩ := hw
  rw [if_neg (by decide), Enc.throwIf_bind, Enc.throwIf_bind] at hw
  obtain ⟨_, _, hw⟩ := hw
  simp only [Enc.gives_bind] at hw
  obtain ⟨_, _, _, _, ⟨_, _, _, _, hw, _⟩, _⟩ := hw
  exact opAddr_novsib _ _ hp hv _ _ hw

theorem opSSE_vsib (r : Reg) (a : Addr) (type : Ty) (code : Byte) (valid : Option (Operand → Operand → Bool)) (imm : Option Byte) (hp : a.permitVsib = false)
    (hv : a.isVsib = true) : (opSSE r (.mem a) type code valid imm).Refused := by
  unfold opSSE
  refine Enc.Refused.throwIf fun _ => Enc.Refused.throwIf fun _ => ?_
  intro w v hw
  simp only [Enc.gives_bind] at hw
  obtain ⟨w1, v1, _, hw, _⟩ := hw
  unfold opRO at hw
  refine opMR_vsib _ r type code ?_ ?_ w1 v1 hw
  · exact hp
  · exact hv

namespace Mn

theorem roo_evex {d : Reg} {op1 op2 : Operand} {type : Ty} {code : Byte} {n : Nat} (hT : rooT type = true) {w : List Act}
    (hw : (opROO d op1 op2 type code n).Gives w true) (fill : Act → BitVec 32) (z : List Act) : ∃ h t, X86.head (concr fill (w ++ z)) = some (h, t) ∧ h.space = .evex := by
  have hu : rooUsed d op1 op2 type = true := by
    cases hu : rooUsed d op1 op2 type with
    | true => rfl
    | false => rw [roo_false _ _ _ _ _ _ _ hu, Enc.gives_pure] at hw; cases hw.2
  obtain ⟨_, _, _, w', _, rfl⟩ := (roo_gives d op1 op2 type code n none hu w true).1 hw
  rw [roo_bytes _ _ _ (rooT_opc hT).1]
  refine ⟨(rooF d op1 op2 type none).head (opc type d (rooCode op1 op2 code)) false, concr fill w' ++ concr fill z, ?_, rfl⟩
  rw [concr_append, concr_append, concr_bytes, List.append_assoc]
  exact head_evex _ _ false _

/-- Registers whose number decides between VEX and EVEX: the slots of the AVX helpers. -/
def Leaf.vslots : Leaf → List Slot
  | avx3 a b c _ _ _ | avxK a b c _ _ _ | cvt3 a b c _ _ _ _ | cvt6 a b c _ _ | encoding a b c _ _ _ _ _ _ => [a, b, c]
  | avx2 a b _ _ _ | cvt a b _ _ | cvt2 a b _ _ | cvt5 a b _ _ | cvt2Enc a b _ _ _ _ _ | vmov a b _ _ _ => [a, b]
  | vex r v o _ _ _ => r :: o :: v.toList
  | vexCB _ o _ _ _ => [o]
  | gather a _ b _ _ _ => [a, b]
  | gather2 a _ _ _ _ | gatherFetch _ a _ _ _ => [a]
  | kmov _ o _ _ => [o]
  | rro _ _ o t _ _ => if rooT (t ||| T_W1) && rooT (t ||| T_W0) then [o] else []
  | _ => []

/-- Registers that must be below 16: the slots of the SSE helpers. -/
def Leaf.xslots : Leaf → List Slot
  | sse a b _ _ _ _ | sseApx a b _ _ _ _ _ | mmx a b _ _ _ _ | movXmm a b _ _ | ext a b _ _ _ => [a, b]
  | mmxImm a _ _ _ => [a]
  | _ => []

/-- The slot has the register number of argument `i`. -/
def Slot.of (i : Nat) : Slot → Bool
  | .a j | .xmmOf j | .ymmOf j => j == i
  | _ => false

theorem Slot.of_reg {g : Args} {i : Nat} {q : Reg} (h : g.op i = .reg q) (hq : q.isExtIdx2 = true) {s : Slot} (hs : s.of i = true) :
    ∃ q', s.op g = .reg q' ∧ q'.isExtIdx2 = true := by
  have e : (g.reg i).idx = q.idx := by unfold Args.reg; rw [h]; rfl
  unfold Reg.isExtIdx2 at hq ⊢
  cases s <;> simp only [Slot.of, beq_iff_eq, reduceCtorEq, Bool.false_eq_true] at hs
  case a j => subst hs; exact ⟨q, h, hq⟩
  case xmmOf j => subst hs; exact ⟨_, rfl, by rw [← hq, ← e]; rfl⟩
  case ymmOf j => subst hs; exact ⟨_, rfl, by rw [← hq, ← e]; rfl⟩

theorem avx3_evex {x1 : Reg} {op1 : Operand} {op2 : Option Operand} {type : Ty} {code : Byte} {imm : Option Byte}
    (h : x1.isExtIdx2 = true ∨ (∃ q, op1 = .reg q ∧ q.isExtIdx2 = true) ∨ (∃ q, op2 = some (.reg q) ∧ q.isExtIdx2 = true)) :
    (opAVX_X_X_XM x1 op1 op2 type code imm).Evex := by
  unfold opAVX_X_X_XM
  refine Enc.Evex.throwIf fun _ => ?_
  cases op2 with
  | none =>
    refine opVex_evex _ _ _ _ _ _ ?_
    rcases h with h | h | ⟨q, h, _⟩
    · exact .inl h
    · exact .inr (.inr (.inl h))
    · cases h
  | some o =>
    refine opVex_evex _ _ _ _ _ _ ?_
    rcases h with h | ⟨q, rfl, h⟩ | ⟨q, h, h'⟩
    · exact .inl h
    · exact .inr (.inl ⟨q, rfl, h⟩)
    · cases h; exact .inr (.inr (.inl ⟨q, rfl, h'⟩))

theorem setKind_ext (x : Reg) (k : Kind) : (x.setKind k).isExtIdx2 = x.isExtIdx2 := by cases k <;> rfl

theorem cvt_evex {x : Reg} {op : Operand} {type : Ty} {code : Byte} (h : x.isExtIdx2 = true ∨ (∃ q, op = .reg q ∧ q.isExtIdx2 = true)) :
    (opCvt x op type code).Evex := by
  unfold opCvt
  refine opVex_evex _ _ _ _ _ _ ?_
  rcases h with h | h
  · exact .inl (by rw [setKind_ext]; exact h)
  · exact .inr (.inr (.inl h))

theorem Slot.opt_some {g : Args} {s : Slot} {q : Reg} (h : s.op g = .reg q) (hq : q.isExtIdx2 = true) : s.opt g = some (.reg q) := by
  cases s with
  | a i =>
    show g.ops[i]? = _
    have h : (g.ops[i]?).getD (.reg .nil) = .reg q := h
    cases ho : g.ops[i]? with
    | none => rw [ho] at h; cases h; cases hq
    | some o => rw [ho] at h; exact congrArg some h
  | _ => exact congrArg some h

section
variable {g : Args} {i : Nat} {q : Reg} (h : g.op i = .reg q) (hs : q.isSIMD = true) (hq : q.isExtIdx2 = true)
include h hs hq

omit hs in
theorem Slot.of_kr {s : Slot} (hs : s.of i = true) : (s.reg g).isExtIdx2 = true := by
  obtain ⟨q', h1, h2⟩ := Slot.of_reg h hq hs; unfold Slot.reg; rw [h1]; exact h2

omit hs in
theorem Slot.of_ko {s : Slot} (hs : s.of i = true) : ∃ q', s.opt g = some (.reg q') ∧ q'.isExtIdx2 = true := by
  obtain ⟨q', h1, h2⟩ := Slot.of_reg h hq hs; exact ⟨q', Slot.opt_some h1 h2, h2⟩

omit hs in
theorem Leaf.evex_avx3 (x : Slot) (a : Slot) (b : Slot) (t : Ty) (c : Byte) (im : Imm) (hl : (Leaf.avx3 x a b t c im).vslots.any (·.of i) = true) : ((Leaf.avx3 x a b t c im).run g).Evex := by
  simp only [Leaf.vslots, List.any_cons, List.any_nil, Bool.or_false, Bool.or_eq_true] at hl
  simp only [Leaf.run]
  refine avx3_evex ?_
  rcases hl with hl | hl | hl
  · exact .inl (Slot.of_kr h hq hl)
  · exact .inr (.inl (Slot.of_reg h hq hl))
  · exact .inr (.inr (Slot.of_ko h hq hl))

omit hs in
theorem Leaf.evex_avx2 (x : Slot) (o : Slot) (t : Ty) (c : Byte) (im : Imm) (hl : (Leaf.avx2 x o t c im).vslots.any (·.of i) = true) : ((Leaf.avx2 x o t c im).run g).Evex := by
  simp only [Leaf.vslots, List.any_cons, List.any_nil, Bool.or_false, Bool.or_eq_true] at hl
  simp only [Leaf.run]
  unfold opAVX_X_XM_IMM
  refine avx3_evex ?_
  rcases hl with hl | hl
  · exact .inl (Slot.of_kr h hq hl)
  · obtain ⟨q', h1, h2⟩ := Slot.of_reg h hq hl
    exact .inr (.inr ⟨q', congrArg some h1, h2⟩)

omit hs in
theorem Leaf.evex_avxK (k : Slot) (x : Slot) (o : Slot) (t : Ty) (c : Byte) (im : Imm) (hl : (Leaf.avxK k x o t c im).vslots.any (·.of i) = true) : ((Leaf.avxK k x o t c im).run g).Evex := by
  simp only [Leaf.vslots, List.any_cons, List.any_nil, Bool.or_false, Bool.or_eq_true] at hl
  simp only [Leaf.run]
  unfold opAVX_K_X_XM
  refine Enc.Evex.throwIf fun _ => opVex_evex _ _ _ _ _ _ ?_
  rcases hl with hl | hl | hl
  · exact .inl (Slot.of_kr h hq hl)
  · exact .inr (.inl ⟨_, rfl, Slot.of_kr h hq hl⟩)
  · exact .inr (.inr (.inl (Slot.of_reg h hq hl)))

omit hs in
theorem Leaf.evex_vex (r : Slot) (v : Option Slot) (o : Slot) (t : Ty) (c : Byte) (im : Imm) (hl : (Leaf.vex r v o t c im).vslots.any (·.of i) = true) : ((Leaf.vex r v o t c im).run g).Evex := by
  simp only [Leaf.vslots, List.any_cons, List.any_nil, Bool.or_false, Bool.or_eq_true] at hl
  simp only [Leaf.run]
  refine opVex_evex _ _ _ _ _ _ ?_
  rcases hl with hl | hl | hl
  · exact .inl (Slot.of_kr h hq hl)
  · exact .inr (.inr (.inl (Slot.of_reg h hq hl)))
  · cases v with
    | none => cases hl
    | some v => exact .inr (.inl ⟨_, rfl, Slot.of_kr h hq (s := v) (by simpa using hl)⟩)

omit hs in
theorem Leaf.evex_vexCB (k : Slot) (o : Slot) (t : Ty) (c : Byte) (im : Imm) (hl : (Leaf.vexCB k o t c im).vslots.any (·.of i) = true) : ((Leaf.vexCB k o t c im).run g).Evex := by
  simp only [Leaf.vslots, List.any_cons, List.any_nil, Bool.or_false, Bool.or_eq_true] at hl
  simp only [Leaf.run]
  refine Enc.Evex.lift fun _ _ => opVex_evex _ _ _ _ _ _ (.inr (.inr (.inl (Slot.of_reg h hq hl))))

omit hs in
theorem Leaf.evex_cvt (x : Slot) (o : Slot) (t : Ty) (c : Byte) (hl : (Leaf.cvt x o t c).vslots.any (·.of i) = true) : ((Leaf.cvt x o t c).run g).Evex := by
  simp only [Leaf.vslots, List.any_cons, List.any_nil, Bool.or_false, Bool.or_eq_true] at hl
  simp only [Leaf.run]
  refine cvt_evex ?_
  rcases hl with hl | hl
  · exact .inl (Slot.of_kr h hq hl)
  · exact .inr (Slot.of_reg h hq hl)

omit hs in
theorem Leaf.evex_cvt2 (x : Slot) (o : Slot) (t : Ty) (c : Byte) (hl : (Leaf.cvt2 x o t c).vslots.any (·.of i) = true) : ((Leaf.cvt2 x o t c).run g).Evex := by
  simp only [Leaf.vslots, List.any_cons, List.any_nil, Bool.or_false, Bool.or_eq_true] at hl
  simp only [Leaf.run]
  unfold opCvt2 checkCvt2
  refine Enc.Evex.throwIf fun _ => cvt_evex ?_
  rcases hl with hl | hl
  · exact .inl (Slot.of_kr h hq hl)
  · exact .inr (Slot.of_reg h hq hl)

omit hs in
theorem Leaf.evex_cvt3 (x1 : Slot) (x2 : Slot) (o : Slot) (t : Ty) (t64 : Ty) (t32 : Ty) (c : Byte) (hl : (Leaf.cvt3 x1 x2 o t t64 t32 c).vslots.any (·.of i) = true) : ((Leaf.cvt3 x1 x2 o t t64 t32 c).run g).Evex := by
  simp only [Leaf.vslots, List.any_cons, List.any_nil, Bool.or_false, Bool.or_eq_true] at hl
  simp only [Leaf.run]
  unfold opCvt3
  refine Enc.Evex.throwIf fun _ => opVex_evex _ _ _ _ _ _ ?_
  rcases hl with hl | hl | hl
  · exact .inl (Slot.of_kr h hq hl)
  · exact .inr (.inl ⟨_, rfl, Slot.of_kr h hq hl⟩)
  · obtain ⟨q', h1, h2⟩ := Slot.of_reg h hq hl
    refine .inr (.inr (.inl ?_))
    rw [h1]
    split
    · exact ⟨_, rfl, h2⟩
    · exact ⟨_, rfl, h2⟩

omit hs in
theorem Leaf.evex_cvt5 (x : Slot) (o : Slot) (t : Ty) (c : Byte) (hl : (Leaf.cvt5 x o t c).vslots.any (·.of i) = true) : ((Leaf.cvt5 x o t c).run g).Evex := by
  simp only [Leaf.vslots, List.any_cons, List.any_nil, Bool.or_false, Bool.or_eq_true] at hl
  simp only [Leaf.run]
  unfold opCvt5
  refine Enc.Evex.throwIf fun _ => opVex_evex _ _ _ _ _ _ ?_
  rcases hl with hl | hl
  · exact .inl (by rw [setKind_ext]; exact Slot.of_kr h hq hl)
  · exact .inr (.inr (.inl (Slot.of_reg h hq hl)))

omit hs in
theorem Leaf.evex_cvt6 (x1 : Slot) (x2 : Slot) (o : Slot) (t : Ty) (c : Byte) (hl : (Leaf.cvt6 x1 x2 o t c).vslots.any (·.of i) = true) : ((Leaf.cvt6 x1 x2 o t c).run g).Evex := by
  simp only [Leaf.vslots, List.any_cons, List.any_nil, Bool.or_false, Bool.or_eq_true] at hl
  simp only [Leaf.run]
  unfold opCvt6
  dsimp only
  split
  · refine opVex_evex _ _ _ _ _ _ ?_
    rcases hl with hl | hl | hl
    · exact .inl (Slot.of_kr h hq hl)
    · exact .inr (.inl ⟨_, rfl, Slot.of_kr h hq hl⟩)
    · exact .inr (.inr (.inl (Slot.of_reg h hq hl)))
  · exact fun _ _ g => (Enc.gives_throw.mp g).elim

omit hs in
theorem Leaf.evex_encoding (x1 : Slot) (x2 : Slot) (o : Slot) (t : Ty) (c : Byte) (im : Imm) (tv : Ty) (te : Ty) (sl : Nat) (hl : (Leaf.encoding x1 x2 o t c im tv te sl).vslots.any (·.of i) = true) : ((Leaf.encoding x1 x2 o t c im tv te sl).run g).Evex := by
  simp only [Leaf.vslots, List.any_cons, List.any_nil, Bool.or_false, Bool.or_eq_true] at hl
  simp only [Leaf.run]
  unfold opEncoding
  refine Enc.Evex.lift fun _ _ => avx3_evex ?_
  rcases hl with hl | hl | hl
  · exact .inl (Slot.of_kr h hq hl)
  · exact .inr (.inl ⟨_, rfl, Slot.of_kr h hq hl⟩)
  · exact .inr (.inr (Slot.of_ko h hq hl))

omit hs in
theorem Leaf.evex_cvt2Enc (x : Slot) (o : Slot) (t : Ty) (c : Byte) (tv : Ty) (te : Ty) (sl : Nat) (hl : (Leaf.cvt2Enc x o t c tv te sl).vslots.any (·.of i) = true) : ((Leaf.cvt2Enc x o t c tv te sl).run g).Evex := by
  simp only [Leaf.vslots, List.any_cons, List.any_nil, Bool.or_false, Bool.or_eq_true] at hl
  simp only [Leaf.run]
  refine Enc.Evex.lift fun _ _ => ?_
  unfold opCvt2 checkCvt2
  refine Enc.Evex.throwIf fun _ => cvt_evex ?_
  rcases hl with hl | hl
  · exact .inl (Slot.of_kr h hq hl)
  · exact .inr (Slot.of_reg h hq hl)

omit hs in
theorem Leaf.evex_vmov (o : Slot) (x : Slot) (t : Ty) (c : Byte) (md : Bool) (hl : (Leaf.vmov o x t c md).vslots.any (·.of i) = true) : ((Leaf.vmov o x t c md).run g).Evex := by
  simp only [Leaf.vslots, List.any_cons, List.any_nil, Bool.or_false, Bool.or_eq_true] at hl
  simp only [Leaf.run]
  unfold opVmov
  refine Enc.Evex.throwIf fun _ => opVex_evex _ _ _ _ _ _ ?_
  rcases hl with hl | hl
  · exact .inr (.inr (.inl (Slot.of_reg h hq hl)))
  · exact .inl (Slot.of_kr h hq hl)

omit hs in
theorem Leaf.evex_gather (x1 : Slot) (m : Slot) (x2 : Slot) (t : Ty) (c : Byte) (md : Nat) (hl : (Leaf.gather x1 m x2 t c md).vslots.any (·.of i) = true) : ((Leaf.gather x1 m x2 t c md).run g).Evex := by
  simp only [Leaf.vslots, List.any_cons, List.any_nil, Bool.or_false, Bool.or_eq_true] at hl
  simp only [Leaf.run]
  unfold opGather
  refine Enc.Evex.throwIf fun _ => Enc.Evex.throwIf fun _ => Enc.Evex.throwIf fun _ => avx3_evex ?_
  rcases hl with hl | hl
  · refine .inl ?_
    have := Slot.of_kr h hq hl
    split
    · exact this
    · exact this
  · refine .inr (.inl ⟨_, rfl, ?_⟩)
    have := Slot.of_kr h hq hl
    split
    · exact this
    · exact this

omit hs in
theorem Leaf.evex_gather2 (x : Slot) (m : Slot) (t : Ty) (c : Byte) (md : Nat) (hl : (Leaf.gather2 x m t c md).vslots.any (·.of i) = true) : ((Leaf.gather2 x m t c md).run g).Evex := by
  simp only [Leaf.vslots, List.any_cons, List.any_nil, Bool.or_false, Bool.or_eq_true] at hl
  simp only [Leaf.run]
  unfold opGather2 checkGather2
  refine Enc.Evex.throwIf fun _ => Enc.Evex.throwIf fun _ => Enc.Evex.throwIf fun _ => Enc.Evex.throwIf fun _ => opVex_evex _ _ _ _ _ _ (.inl (Slot.of_kr h hq hl))

omit hs in
theorem Leaf.evex_gatherFetch (m : Slot) (x : Slot) (t : Ty) (c : Byte) (kd : Kind) (hl : (Leaf.gatherFetch m x t c kd).vslots.any (·.of i) = true) : ((Leaf.gatherFetch m x t c kd).run g).Evex := by
  simp only [Leaf.vslots, List.any_cons, List.any_nil, Bool.or_false, Bool.or_eq_true] at hl
  simp only [Leaf.run]
  unfold opGatherFetch
  refine Enc.Evex.throwIf fun _ => Enc.Evex.throwIf fun _ => opVex_evex _ _ _ _ _ _ (.inl (Slot.of_kr h hq hl))

omit hq in
theorem Leaf.evex_kmov (k : Slot) (o : Slot) (rv : Bool) (sz : Nat) (hl : (Leaf.kmov k o rv sz).vslots.any (·.of i) = true) : ((Leaf.kmov k o rv sz).run g).Evex := by
  simp only [Leaf.vslots, List.any_cons, List.any_nil, Bool.or_false, Bool.or_eq_true] at hl
  simp only [Leaf.run]
  cases o <;> simp only [Slot.of, beq_iff_eq, reduceCtorEq, Bool.false_eq_true] at hl
  case a j =>
    subst hl
    simp only [Slot.op, h]
    have h1 : ∀ m, q.isREG m = false := by
      intro m
      apply isREG_kind
      intro hk; simp [Reg.isSIMD, Reg.isXMM, Reg.isYMM, Reg.isZMM, hk] at hs
    have h2 : q.isOPMASK = false := by
      cases hk : q.kind <;> simp [Reg.isSIMD, Reg.isXMM, Reg.isYMM, Reg.isZMM, hk] at hs <;> simp [Reg.isOPMASK, hk]
    unfold opKmov
    dsimp only
    refine Enc.Refused.evex (Enc.Refused.throwIf fun hc => ?_)
    exfalso
    simp [Operand.isREG, Operand.hd, Operand.isMEM, h1, h2] at hc
  all_goals
    simp only [Slot.op]
    unfold opKmov
    dsimp only
    refine Enc.Refused.evex (Enc.Refused.throwIf fun hc => ?_)
    exfalso
    simp [Operand.isREG, Operand.hd, Operand.isMEM, Reg.isREG, Reg.isOPMASK, Reg.xmm, Reg.ymm] at hc

omit hs in
theorem Leaf.evex_rro (d r o : Slot) (t : Ty) (c : Byte) (im : Imm) (hl : (Leaf.rro d r o t c im).vslots.any (·.of i) = true) : ((Leaf.rro d r o t c im).run g).Evex := by
  simp only [Leaf.vslots] at hl
  split at hl
  · rename_i hT
    rw [Bool.and_eq_true] at hT
    simp only [List.any_cons, List.any_nil, Bool.or_false] at hl
    obtain ⟨q', ho, hq'⟩ := Slot.of_reg h hq hl
    simp only [Leaf.run]
    rw [ho]
    unfold opRRO
    refine Enc.Evex.throwIf fun _ => ?_
    dsimp only
    have hT : rooT (t ||| if (d.reg g).bit = 64 then T_W1 else T_W0) = true := by
      split
      · exact hT.1
      · exact hT.2
    generalize (t ||| if (d.reg g).bit = 64 then T_W1 else T_W0) = T at hT
    split
    · rename_i hc
      have hu : rooUsed (r.reg g) (.reg q') (.reg (d.reg g)) T = true := by
        unfold rooUsed Operand.hasRex2NFZU Operand.hasRex2
        simp only [Bool.or_eq_true] at hc
        rcases hc with ((h | h) | h) | h
        · simp [h]
        · simp [h]
        · unfold Operand.hasRex2 at h; simp [h]
        · simp [Operand.hd, h]
      intro w u hw fill
      rw [Enc.gives_bind] at hw
      obtain ⟨w1, v, w2, h1, h2, rfl⟩ := hw
      obtain ⟨_, rfl, _⟩ := (roo_gives _ _ _ T c 0 none hu w1 v).1 h1
      exact roo_evex hT h1 fill w2
    · exact opVex_evex _ _ _ _ _ _ (.inr (.inr (.inl ⟨q', rfl, hq'⟩)))
  · cases hl

theorem Leaf.evex (l : Leaf) (hl : l.vslots.any (·.of i) = true) : (l.run g).Evex := by
  cases l
  case avx3 => exact Leaf.evex_avx3 h hq _ _ _ _ _ _ hl
  case avx2 => exact Leaf.evex_avx2 h hq _ _ _ _ _ hl
  case avxK => exact Leaf.evex_avxK h hq _ _ _ _ _ _ hl
  case vex => exact Leaf.evex_vex h hq _ _ _ _ _ _ hl
  case vexCB => exact Leaf.evex_vexCB h hq _ _ _ _ _ hl
  case cvt => exact Leaf.evex_cvt h hq _ _ _ _ hl
  case cvt2 => exact Leaf.evex_cvt2 h hq _ _ _ _ hl
  case cvt3 => exact Leaf.evex_cvt3 h hq _ _ _ _ _ _ _ hl
  case cvt5 => exact Leaf.evex_cvt5 h hq _ _ _ _ hl
  case cvt6 => exact Leaf.evex_cvt6 h hq _ _ _ _ _ hl
  case encoding => exact Leaf.evex_encoding h hq _ _ _ _ _ _ _ _ _ hl
  case cvt2Enc => exact Leaf.evex_cvt2Enc h hq _ _ _ _ _ _ _ hl
  case vmov => exact Leaf.evex_vmov h hq _ _ _ _ _ hl
  case gather => exact Leaf.evex_gather h hq _ _ _ _ _ _ hl
  case gather2 => exact Leaf.evex_gather2 h hq _ _ _ _ _ hl
  case gatherFetch => exact Leaf.evex_gatherFetch h hq _ _ _ _ _ hl
  case kmov => exact Leaf.evex_kmov h hs _ _ _ _ hl
  case rro => exact Leaf.evex_rro h hq _ _ _ _ _ _ hl
  all_goals cases hl

end

theorem movXMM_high {op1 op2 : Operand} {type : Ty} {code : Byte}
    (h : (op1.hd.isXMM = true ∧ op1.hd.isExtIdx2 = true) ∨ (op2.hd.isXMM = true ∧ op2.hd.isExtIdx2 = true)) : (opMovXMM op1 op2 type code).Refused := by
  unfold opMovXMM
  refine Enc.Refused.throwIf fun hc => ?_
  exfalso
  rcases h with ⟨h1, h2⟩ | ⟨h1, h2⟩ <;> simp [isValidSSE, h1, (hi5 _).mp h2] at hc

theorem ext_high {op : Operand} {r : Reg} {code imm : Byte} {m : Bool}
    (h : (op.hd.isXMM = true ∧ op.hd.isExtIdx2 = true) ∨ (r.isXMM = true ∧ r.isExtIdx2 = true)) : (opExt op r code imm m).Refused := by
  unfold opExt
  refine Enc.Refused.throwIf fun hc => ?_
  exfalso
  rcases h with ⟨h1, h2⟩ | ⟨h1, h2⟩
  · simp [isValidSSE, h1, (hi5 _).mp h2] at hc
  · have : isValidSSE (.reg r) = false := by simp [isValidSSE, Operand.hd, h1, (hi5 _).mp h2]
    rw [this] at hc; simp at hc

theorem mmxImm_high {r : Reg} {imm code : Byte} {e : BitVec 5} (h1 : r.isXMM = true) (h2 : r.isExtIdx2 = true) : (opMMX_IMM r imm code e).Refused := by
  unfold opMMX_IMM
  refine Enc.Refused.throwIf fun hc => ?_
  exfalso
  have : isValidSSE (.reg r) = false := by simp [isValidSSE, Operand.hd, h1, (hi5 _).mp h2]
  rw [this] at hc; simp at hc

theorem xmm_hasRex2 {q : Reg} (h : q.isXMM = true) : (Operand.reg q).hasRex2 = false := by
  have hk : q.kind = .xmm := by simpa [Reg.isXMM] using h
  simp [Operand.hasRex2, Reg.hasRex2, Reg.isREG, hk]

theorem sseApx_high {x : Reg} {op : Operand} {t1 t2 : Ty} {c1 c2 : Byte} {imm : Option Byte}
    (h : (x.isXMM = true ∧ x.isExtIdx2 = true) ∨ ∃ q, op = .reg q ∧ q.isXMM = true ∧ q.isExtIdx2 = true) : (opSSE_APX x op t1 c1 t2 c2 imm).Refused := by
  intro w v hw
  have hc : (decide (x.idx.toNat ≤ 15) && op.hasRex2) = false := by
    rcases h with ⟨_, h⟩ | ⟨q, rfl, h, _⟩
    · have : x.idx.toNat ≥ 16 := (hi5 _).mp h
      rw [decide_eq_false (by omega)]; rfl
    · rw [xmm_hasRex2 h, Bool.and_false]
  unfold opSSE_APX at hw
  rw [hc] at hw
  simp only [Bool.false_eq_true, if_false] at hw
  rw [Enc.gives_bind] at hw
  obtain ⟨_, _, _, h1, h2, _⟩ := hw
  rw [Enc.gives_pure] at h1
  obtain ⟨_, rfl⟩ := h1
  rw [if_neg (by decide)] at h2
  refine opSSE_high _ _ _ _ _ _ ?_ _ _ h2
  rcases h with h | ⟨q, rfl, h⟩
  · exact .inl h
  · exact .inr h

/-- The slot is argument `i`, or the xmm register with its number. -/
def Slot.ofX (i : Nat) : Slot → Bool
  | .a j | .xmmOf j => j == i
  | _ => false

theorem Leaf.high {g : Args} {i : Nat} {q : Reg} (h : g.op i = .reg q) (hx : q.isXMM = true) (hq : q.isExtIdx2 = true) (l : Leaf)
    (hl : l.xslots.any (·.ofX i) = true) : (l.run g).Refused := by
  have key : ∀ s : Slot, s.ofX i = true → ∃ q', s.op g = .reg q' ∧ q'.isXMM = true ∧ q'.isExtIdx2 = true := by
    intro s hs
    cases s <;> simp only [Slot.ofX, beq_iff_eq, reduceCtorEq, Bool.false_eq_true] at hs
    case a j => subst hs; exact ⟨q, h, hx, hq⟩
    case xmmOf j =>
      subst hs
      refine ⟨_, rfl, rfl, ?_⟩
      show (g.reg j).idx.getLsbD 4 = true
      unfold Args.reg; rw [h]; exact hq
  have kh : ∀ s : Slot, s.ofX i = true → ((s.op g).hd.isXMM = true ∧ (s.op g).hd.isExtIdx2 = true) := by
    intro s hs; obtain ⟨q', h1, h2⟩ := key s hs; rw [h1]; exact h2
  have kk : ∀ s : Slot, s.ofX i = true → ((s.reg g).isXMM = true ∧ (s.reg g).isExtIdx2 = true) := kh
  cases l <;> simp only [Leaf.xslots, List.any_cons, List.any_nil, Bool.or_false, Bool.or_eq_true, Bool.false_eq_true] at hl <;>
    simp only [Leaf.run]
  case sse =>
    refine opSSE_high _ _ _ _ _ _ ?_
    rcases hl with hl | hl
    · exact .inl (kk _ hl)
    · exact .inr (kh _ hl)
  case sseApx =>
    refine sseApx_high ?_
    rcases hl with hl | hl
    · exact .inl (kk _ hl)
    · exact .inr (key _ hl)
  case mmx =>
    refine opSSE_high _ _ _ _ _ _ ?_
    rcases hl with hl | hl
    · exact .inl (kk _ hl)
    · exact .inr (kh _ hl)
  case mmxImm => exact mmxImm_high (kk _ hl).1 (kk _ hl).2
  case movXmm =>
    refine movXMM_high ?_
    rcases hl with hl | hl
    · exact .inl (kh _ hl)
    · exact .inr (kh _ hl)
  case ext =>
    refine ext_high ?_
    rcases hl with hl | hl
    · exact .inl (kh _ hl)
    · exact .inr (kk _ hl)

/-! ## Vector indices -/

/-- Without `T_VSIB`, or in EVEX. -/
def vsibOK (t : Ty) : Bool := !t.has T_VSIB || t.has T_MUST_EVEX

/-- Slots whose memory operand is written by `opAddr` without permission for a vector index, or in EVEX. -/
def Leaf.mslots : Leaf → List Slot
  | avx3 _ a b t _ _ => if vsibOK t then [a, b] else []
  | avx2 _ o t _ _ | avxK _ _ o t _ _ | vex _ _ o t _ _ | vexCB _ o t _ _ | cvt _ o t _ | cvt2 _ o t _ | cvt5 _ o t _ | cvt6 _ _ o t _ | vmov o _ t _ _
  | gather2 _ o t _ _ | gatherFetch o _ t _ _ => if vsibOK t then [o] else []
  | cvt3 _ _ o t u v _ => if vsibOK (t ||| u) && vsibOK (t ||| v) then [o] else []
  | encoding _ _ o t _ _ u v _ | cvt2Enc _ o t _ u v _ => if vsibOK (t ||| u) && vsibOK (t ||| (T_MUST_EVEX ||| v)) then [o] else []
  | kmov _ o _ _ => [o]
  | amx _ o t _ => if vsibOK t then [o] else []
  | rro _ _ o t _ _ => if vsibOK (t ||| T_W1) && vsibOK (t ||| T_W0) then [o] else []
  | sse _ b _ _ _ _ | sseApx _ b _ _ _ _ _ | mmx _ b _ _ _ _ => [b]
  | movXmm a b _ _ => [a, b]
  | ext a _ _ _ _ => [a]
  | _ => []

/-- The leaves among these that refuse every vector index. -/
def Leaf.isSse : Leaf → Bool
  | sse .. | mmx .. | movXmm .. | ext .. => true
  | _ => false

section
variable {a : Addr} (hp : a.permitVsib = false) (hv : a.isVsib = true)
include hp hv

theorem opVex_index {r : Reg} {v : Option Reg} {t : Ty} {c : Byte} {imm : Option Byte} (ht : vsibOK t = true) : (opVex r v (.mem a) t c imm).Evex := by
  unfold vsibOK at ht
  cases h : t.has T_MUST_EVEX with
  | true => exact opVex_evex _ _ _ _ _ _ (.inr (.inr (.inr h)))
  | false =>
    rw [h, Bool.or_false, Bool.not_eq_true'] at ht
    exact (opVex_vsib _ _ _ _ _ _ hp hv ht).evex

theorem avx3_index {x : Reg} {op1 : Operand} {op2 : Option Operand} {t : Ty} {c : Byte} {imm : Option Byte} (ht : vsibOK t = true)
    (h : op2 = some (.mem a) ∨ (op1 = .mem a ∧ a.o.kind = .mem)) : (opAVX_X_X_XM x op1 op2 t c imm).Evex := by
  unfold opAVX_X_X_XM
  refine Enc.Evex.throwIf fun hc => ?_
  rcases h with rfl | ⟨rfl, hk⟩
  · exact opVex_index hp hv ht
  · cases op2 with
    | none => exact opVex_index hp hv ht
    | some o =>
      exfalso
      have h1 : a.o.isXMM = false := by simp [Reg.isXMM, hk]
      have h2 : a.o.isYMM = false := by simp [Reg.isYMM, hk]
      have h3 : a.o.isZMM = false := by simp [Reg.isZMM, hk]
      simp [Operand.hd, h1, h2, h3] at hc

theorem cvt_index {x : Reg} {t : Ty} {c : Byte} (ht : vsibOK t = true) : (opCvt x (.mem a) t c).Evex := opVex_index hp hv ht

theorem kmov_index (hk : a.o.kind = .mem) {k : Reg} {rv : Bool} {sz : Nat} : (opKmov k (.mem a) rv sz).Evex := by
  have h1 : ∀ m, (Operand.mem a).isREG m = false := fun m => isREG_kind (by show a.o.kind ≠ _; rw [hk]; decide) m
  unfold opKmov
  simp only [h1, Operand.isMEM, Bool.or_true, Bool.false_eq_true, if_false, if_true]
  refine Enc.Evex.throwIf fun _ => ?_
  have hc : (if rv = true then (0x91 : Byte) else 0x90) ≠ 0x93 := by cases rv <;> decide
  simp only [if_neg hc]
  intro w u hw
  rw [Enc.gives_bind] at hw
  obtain ⟨w1, v, w2, h1, h2, rfl⟩ := hw
  obtain ⟨rfl, rfl⟩ := roo_vsib (a := a) rfl hp hv h1
  rw [if_neg (by decide)] at h2
  refine (opVex_vsib _ _ _ _ _ _ hp hv ?_ _ _ h2).elim
  split
  · decide
  · split
    · decide
    · split
      · decide
      · split <;> decide

theorem amx_index {x : Reg} {t : Ty} {c : Byte} (ht : vsibOK t = true) : (opAMX x a t c).Evex := by
  unfold opAMX
  dsimp only
  refine Enc.Evex.throwIf fun _ => ?_
  intro w u hw
  rw [Enc.gives_bind] at hw
  obtain ⟨w1, v, w2, h1, h2, rfl⟩ := hw
  obtain ⟨rfl, rfl⟩ := roo_vsib (a := { a with opt := false }) rfl hp hv h1
  rw [if_neg (by decide)] at h2
  exact opVex_index (a := { a with opt := false }) hp hv ht w2 u h2

theorem rro_index {d r : Reg} {t : Ty} {c : Byte} {imm : Option Byte} (h1 : vsibOK (t ||| T_W1) = true) (h0 : vsibOK (t ||| T_W0) = true) :
    (opRRO d r (.mem a) t c imm).Evex := by
  unfold opRRO
  refine Enc.Evex.throwIf fun _ => ?_
  dsimp only
  have hT : vsibOK (t ||| if d.bit = 64 then T_W1 else T_W0) = true := by split <;> assumption
  generalize (t ||| if d.bit = 64 then T_W1 else T_W0) = T at hT
  split
  · rename_i hc
    have hu : rooUsed r (.mem a) (.reg d) T = true := by
      unfold rooUsed Operand.hasRex2NFZU Operand.hasRex2
      simp only [Bool.or_eq_true] at hc
      rcases hc with ((h | h) | h) | h
      · simp [h]
      · simp [h]
      · unfold Operand.hasRex2 at h; simp [h]
      · simp [Operand.hd, h]
    intro w u hw
    rw [Enc.gives_bind] at hw
    obtain ⟨w1, v, w2, h1, h2, rfl⟩ := hw
    obtain ⟨_, h, _⟩ := (roo_gives r (.mem a) (.reg d) T c 0 none hu w1 v).1 h1
    exact absurd (h ▸ (roo_vsib (a := a) rfl hp hv h1).1) (by decide)
  · exact opVex_index hp hv hT

theorem movXMM_index {op1 op2 : Operand} {t : Ty} {c : Byte} (h : op1 = .mem a ∨ op2 = .mem a) : (opMovXMM op1 op2 t c).Refused := by
  unfold opMovXMM
  refine Enc.Refused.throwIf fun _ => ?_
  have thr : ∀ e : Err, (Enc.throw e : Enc Unit).Refused := fun e w v g => (Enc.gives_throw.mp g).elim
  split
  · rcases h with h | h
    · cases h
    · cases h
      split
      · exact opMR_vsib _ _ _ _ hp hv
      · exact thr _
  · rcases h with h | h
    · cases h
      split
      · exact opMR_vsib _ _ _ _ hp hv
      · exact thr _
    · cases h
  · exact thr _

theorem ext_index (hk : a.o.kind = .mem) {r : Reg} {c imm : Byte} {m : Bool} : (opExt (.mem a) r c imm m).Refused := by
  have h1 : (Operand.mem a).isREG 96 = false := isREG_kind (by show a.o.kind ≠ _; rw [hk]; decide) _
  unfold opExt
  refine Enc.Refused.throwIf fun _ => ?_
  rw [h1, Bool.and_false, if_neg (by decide)]
  exact opSSE_vsib _ _ _ _ _ _ hp hv

theorem sseApx_index {x : Reg} {t1 t2 : Ty} {c1 c2 : Byte} {imm : Option Byte} : (opSSE_APX x (.mem a) t1 c1 t2 c2 imm).Refused := by
  intro w u hw
  unfold opSSE_APX at hw
  dsimp only at hw
  split at hw
  · rw [Enc.gives_bind] at hw
    obtain ⟨w1, v, w2, h1, h2, rfl⟩ := hw
    obtain ⟨rfl, _⟩ := roo_vsib (a := a) rfl hp hv h1
    rw [if_neg (by decide)] at h2
    exact opSSE_vsib _ _ _ _ _ _ hp hv _ _ h2
  · rw [Enc.gives_bind] at hw
    obtain ⟨w1, v, w2, h1, h2, rfl⟩ := hw
    rw [Enc.gives_pure] at h1
    obtain ⟨_, rfl⟩ := h1
    rw [if_neg (by decide)] at h2
    exact opSSE_vsib _ _ _ _ _ _ hp hv _ _ h2

end

section
variable {g : Args} {i : Nat} {a : Addr} (h : g.op i = .mem a) (hk : a.o.kind = .mem) (hp : a.permitVsib = false) (hv : a.isVsib = true)
include h hk hp hv

omit hk hp hv in
theorem Args.mem_some : g.ops[i]? = some (.mem a) := by
  have h : (g.ops[i]?).getD (.reg .nil) = .mem a := h
  cases ho : g.ops[i]? with
  | none => rw [ho] at h; cases h
  | some o => rw [ho] at h; exact congrArg some h

/-- The SSE helpers refuse vector indices. -/
theorem Leaf.no_index (l : Leaf) (hl : l.mslots.contains (.a i) = true) (hs : l.isSse = true) : (l.run g).Refused := by
  have ko : Slot.op g (.a i) = .mem a := h
  cases l <;> simp only [Leaf.isSse, Bool.false_eq_true] at hs <;>
    simp only [Leaf.mslots, List.contains_cons, List.contains_nil, Bool.or_false, Bool.or_eq_true, beq_iff_eq] at hl <;> simp only [Leaf.run]
  case sse => subst hl; rw [ko]; exact opSSE_vsib _ _ _ _ _ _ hp hv
  case mmx => subst hl; rw [ko]; exact opSSE_vsib _ _ _ _ _ _ hp hv
  case movXmm =>
    refine movXMM_index hp hv ?_
    rcases hl with rfl | rfl
    · exact .inl ko
    · exact .inr ko
  case ext => subst hl; rw [ko]; exact ext_index hp hv hk

/-- A vector index is written in EVEX only. -/
theorem Leaf.index (l : Leaf) (hl : l.mslots.contains (.a i) = true) : (l.run g).Evex := by
  have ko : Slot.op g (.a i) = .mem a := h
  have km : Slot.mem g (.a i) = a := by show g.mem i = a; unfold Args.mem; rw [h]
  have kp : Slot.opt g (.a i) = some (.mem a) := Args.mem_some h
  have two : ∀ {c : Bool} {x y : Slot}, (if c = true then [x, y] else []).contains (.a i) = true → c = true ∧ (x = .a i ∨ y = .a i) := by
    intro c x y h
    cases c
    · cases h
    · simp only [if_true, List.contains_cons, List.contains_nil, Bool.or_false, Bool.or_eq_true, beq_iff_eq] at h
      exact ⟨rfl, h.imp Eq.symm Eq.symm⟩
  have one : ∀ {c : Bool} {x : Slot}, (if c = true then [x] else []).contains (.a i) = true → c = true ∧ x = .a i := by
    intro c x h
    cases c
    · cases h
    · simp only [if_true, List.contains_cons, List.contains_nil, Bool.or_false, beq_iff_eq] at h
      exact ⟨rfl, h.symm⟩
  cases hs : l.isSse with
  | true => exact (Leaf.no_index h hk hp hv l hl hs).evex
  | false =>
  cases l <;> simp only [Leaf.isSse, Bool.true_eq_false] at hs <;> simp only [Leaf.mslots] at hl <;> simp only [Leaf.run]
  case avx3 =>
    obtain ⟨ht, hl⟩ := two hl
    refine avx3_index hp hv ht ?_
    rcases hl with rfl | rfl
    · exact .inr ⟨ko, hk⟩
    · exact .inl kp
  case avx2 =>
    obtain ⟨ht, rfl⟩ := one hl
    rw [ko]; unfold opAVX_X_XM_IMM
    exact avx3_index hp hv ht (.inl rfl)
  case avxK =>
    obtain ⟨ht, rfl⟩ := one hl
    rw [ko]; unfold opAVX_K_X_XM
    exact Enc.Evex.throwIf fun _ => opVex_index hp hv ht
  case vex =>
    obtain ⟨ht, rfl⟩ := one hl
    rw [ko]; exact opVex_index hp hv ht
  case vexCB =>
    obtain ⟨ht, rfl⟩ := one hl
    rw [ko]; exact Enc.Evex.lift fun _ _ => opVex_index hp hv ht
  case cvt =>
    obtain ⟨ht, rfl⟩ := one hl
    rw [ko]; exact cvt_index hp hv ht
  case cvt2 =>
    obtain ⟨ht, rfl⟩ := one hl
    rw [ko]; unfold opCvt2 checkCvt2
    exact Enc.Evex.throwIf fun _ => cvt_index hp hv ht
  case cvt3 =>
    obtain ⟨ht, rfl⟩ := one hl
    rw [Bool.and_eq_true] at ht
    rw [ko]; unfold opCvt3
    refine Enc.Evex.throwIf fun _ => ?_
    have h1 : (Operand.mem a).isREG = false := isREG_kind (by show a.o.kind ≠ _; rw [hk]; decide) _
    dsimp only
    rw [h1, if_neg (by decide)]
    refine opVex_index hp hv ?_
    split
    · exact ht.1
    · exact ht.2
  case cvt5 =>
    obtain ⟨ht, rfl⟩ := one hl
    rw [ko]; unfold opCvt5
    exact Enc.Evex.throwIf fun _ => opVex_index hp hv ht
  case cvt6 =>
    obtain ⟨ht, rfl⟩ := one hl
    rw [ko]; unfold opCvt6
    dsimp only
    split
    · exact opVex_index hp hv ht
    · exact fun _ _ g => (Enc.gives_throw.mp g).elim
  case encoding =>
    obtain ⟨ht, rfl⟩ := one hl
    rw [Bool.and_eq_true] at ht
    rw [kp]; unfold opEncoding
    refine Enc.Evex.lift fun u hu => avx3_index hp hv ?_ (.inl rfl)
    rcases orEvexIf_cases hu with rfl | rfl
    · exact ht.1
    · exact ht.2
  case cvt2Enc =>
    obtain ⟨ht, rfl⟩ := one hl
    rw [Bool.and_eq_true] at ht
    rw [ko]; unfold opCvt2 checkCvt2
    refine Enc.Evex.lift fun u hu => Enc.Evex.throwIf fun _ => cvt_index hp hv ?_
    rcases orEvexIf_cases hu with rfl | rfl
    · exact ht.1
    · exact ht.2
  case vmov =>
    obtain ⟨ht, rfl⟩ := one hl
    rw [ko]; unfold opVmov
    exact Enc.Evex.throwIf fun _ => opVex_index hp hv ht
  case gather2 =>
    obtain ⟨ht, rfl⟩ := one hl
    rw [km]; unfold opGather2 checkGather2
    exact Enc.Evex.throwIf fun _ => Enc.Evex.throwIf fun _ => Enc.Evex.throwIf fun _ => Enc.Evex.throwIf fun _ => opVex_index hp hv ht
  case gatherFetch =>
    obtain ⟨ht, rfl⟩ := one hl
    rw [km]; unfold opGatherFetch
    exact Enc.Evex.throwIf fun _ => Enc.Evex.throwIf fun _ => opVex_index hp hv ht
  case kmov =>
    simp only [List.contains_cons, List.contains_nil, Bool.or_false, beq_iff_eq] at hl
    subst hl
    rw [ko]; exact kmov_index hp hv hk
  case amx =>
    obtain ⟨ht, rfl⟩ := one hl
    rw [km]; exact amx_index hp hv ht
  case rro =>
    obtain ⟨ht, rfl⟩ := one hl
    rw [Bool.and_eq_true] at ht
    rw [ko]; exact rro_index hp hv ht.1 ht.2
  case sseApx =>
    simp only [List.contains_cons, List.contains_nil, Bool.or_false, beq_iff_eq] at hl
    subst hl
    rw [ko]; exact (sseApx_index hp hv).evex
  all_goals cases hl

end

/-! ## Bodies -/

/-- Every call the body can make satisfies `rf`. -/
def Body.strict (rf : Leaf → Bool) : Body → Bool
  | .leaf l => rf l
  | .guard _ _ b | .check _ _ _ b | .pre _ _ b => b.strict rf
  | .ite _ t e => t.strict rf && e.strict rf
  | _ => false

/-- Every call the body can make satisfies `ev`; after a literal prefix byte, `rf`. -/
def Body.safe (rf ev : Leaf → Bool) : Body → Bool
  | .leaf l => ev l
  | .guard _ _ b | .check _ _ _ b => b.safe rf ev
  | .pre _ _ b => b.strict rf
  | .ite _ t e => t.safe rf ev && e.safe rf ev
  | .apx _ _ _ t _ b => rooT t && b.safe rf ev
  | _ => false

theorem Body.refused {g : Args} {rf : Leaf → Bool} (hr : ∀ l, rf l = true → (l.run g).Refused) (b : Body) (hb : b.strict rf = true) {m : Enc Unit}
    (hm : b.run g = some m) : m.Refused := by
  induction b generalizing m with
  | leaf l =>
    simp only [Body.run, Option.some.injEq] at hm
    subst hm
    exact hr l hb
  | guard p e b ih =>
    simp only [Body.run, Option.map_eq_some_iff] at hm
    obtain ⟨m, h, rfl⟩ := hm
    exact Enc.Refused.throwIf fun _ => ih hb h
  | check c x o b ih =>
    simp only [Body.run, Option.map_eq_some_iff] at hm
    obtain ⟨m, h, rfl⟩ := hm
    cases c with
    | cvt1 => exact Enc.Refused.throwIf fun _ => ih hb h
    | cvt4 => exact Enc.Refused.throwIf fun _ => ih hb h
  | pre c x b ih =>
    simp only [Body.run, Option.map_eq_some_iff] at hm
    obtain ⟨m, h, rfl⟩ := hm
    exact Enc.Refused.dbIf (ih hb h)
  | ite c t e iht ihe =>
    simp only [Body.strict, Bool.and_eq_true] at hb
    simp only [Body.run] at hm
    split at hm
    · exact iht hb.1 hm
    · exact ihe hb.2 hm
  | apx => cases hb
  | jmp => cases hb
  | jmpAbs => cases hb

theorem Body.evex {g : Args} {rf ev : Leaf → Bool} (hr : ∀ l, rf l = true → (l.run g).Refused) (he : ∀ l, ev l = true → (l.run g).Evex) (b : Body)
    (hb : b.safe rf ev = true) {m : Enc Unit} (hm : b.run g = some m) : m.Evex := by
  induction b generalizing m with
  | leaf l =>
    simp only [Body.run, Option.some.injEq] at hm
    subst hm
    exact he l hb
  | guard p e b ih =>
    simp only [Body.run, Option.map_eq_some_iff] at hm
    obtain ⟨m, h, rfl⟩ := hm
    exact Enc.Evex.throwIf fun _ => ih hb h
  | check c x o b ih =>
    simp only [Body.run, Option.map_eq_some_iff] at hm
    obtain ⟨m, h, rfl⟩ := hm
    cases c with
    | cvt1 => exact Enc.Evex.throwIf fun _ => ih hb h
    | cvt4 => exact Enc.Evex.throwIf fun _ => ih hb h
  | pre c x b ih => exact (Body.refused hr (.pre c x b) hb hm).evex
  | ite c t e iht ihe =>
    simp only [Body.safe, Bool.and_eq_true] at hb
    simp only [Body.run] at hm
    split at hm
    · exact iht hb.1 hm
    · exact ihe hb.2 hm
  | apx d a s t c b ih =>
    simp only [Body.run, Option.map_eq_some_iff] at hm
    obtain ⟨m, h, rfl⟩ := hm
    simp only [Body.safe, Bool.and_eq_true] at hb
    have ih := ih hb.2 h
    intro w u hw fill
    rw [Enc.gives_bind] at hw
    obtain ⟨w1, v, w2, h1, h2, rfl⟩ := hw
    cases v with
    | false =>
      rw [if_neg (by decide)] at h2
      have : w1 = [] := by
        cases hu : rooUsed (d.reg g) (a.op g) (s.op g) t with
        | false => rw [roo_false _ _ _ _ _ _ _ hu, Enc.gives_pure] at h1; exact h1.1
        | true =>
          obtain ⟨_, h, _⟩ := (roo_gives _ _ _ _ _ _ none hu _ _).1 h1
          cases h
      subst this
      exact ih w2 u h2 fill
    | true =>
      rw [if_pos rfl, Enc.gives_pure] at h2
      obtain ⟨rfl, _⟩ := h2
      exact roo_evex hb.1 h1 fill []
  | jmp => cases hb
  | jmpAbs => cases hb

/-! ## Lines -/

/-- xmm16-31 in operand `i` is refused or written in EVEX. -/
def Entry.heedsX (e : Entry) (i : Nat) : Bool :=
  e.body.safe (fun l => l.xslots.any (·.ofX i)) (fun l => l.xslots.any (·.ofX i) || l.vslots.any (·.of i))
/-- A vector register from 16 in operand `i` is written in EVEX. -/
def Entry.heeds (e : Entry) (i : Nat) : Bool := e.body.safe (fun _ => false) (fun l => l.vslots.any (·.of i))
/-- A vector index in operand `i` is written in EVEX. -/
def Entry.heedsI (e : Entry) (i : Nat) : Bool :=
  e.body.safe (fun l => l.mslots.contains (.a i) && l.isSse) (fun l => l.mslots.contains (.a i))

theorem Entry.evexX {e : Entry} {g : Args} {i : Nat} (he : e.heedsX i = true) {q : Reg} (h : g.op i = .reg q) (hx : q.isXMM = true)
    (hq : q.isExtIdx2 = true) {m : Enc Unit} (hm : e.body.run g = some m) : m.Evex := by
  refine Body.evex (fun l hl => Leaf.high h hx hq l hl) (fun l hl => ?_) e.body he hm
  rw [Bool.or_eq_true] at hl
  rcases hl with hl | hl
  · exact (Leaf.high h hx hq l hl).evex
  · exact Leaf.evex h (by unfold Reg.isSIMD; rw [hx]; rfl) hq l hl

theorem Entry.evexV {e : Entry} {g : Args} {i : Nat} (he : e.heeds i = true) {q : Reg} (h : g.op i = .reg q) (hx : q.isSIMD = true)
    (hq : q.isExtIdx2 = true) {m : Enc Unit} (hm : e.body.run g = some m) : m.Evex :=
  Body.evex (fun l hl => by cases hl) (fun l hl => Leaf.evex h hx hq l hl) e.body he hm

theorem Entry.evexI {e : Entry} {g : Args} {i : Nat} (he : e.heedsI i = true) {a : Addr} (h : g.op i = .mem a) (hk : a.o.kind = .mem)
    (hp : a.permitVsib = false) (hv : a.isVsib = true) {m : Enc Unit} (hm : e.body.run g = some m) : m.Evex := by
  refine Body.evex (fun l hl => ?_) (fun l hl => Leaf.index h hk hp hv l hl) e.body he hm
  rw [Bool.and_eq_true] at hl
  exact Leaf.no_index h hk hp hv l hl.1 hl.2

end Mn
end Xbyak
