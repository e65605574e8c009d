import Verif.Props.ApxForms
import Verif.Props.Imm
import Verif.AcceptGather
/-!
# Which calls with APX operands are accepted

`opROO` (xbyak.h 2253-2273) refuses only NF and ZU where the instruction has none, and addresses that cannot be encoded.  Whether a helper comes to that call depends on kinds
and sizes; `Body.okA` computes it.
-/
set_option linter.unusedSimpArgs false
namespace Xbyak
open E
open Enc
namespace Mn

/-- An address that has nothing special: general registers of 64 bits and a displacement of 32 bits. -/
structure AddrA (a : Addr) : Prop where
  o : ∃ b, a.o = Addr.memOp b
  base : a.e.base = .nil ∨ ∃ j, a.e.base = .gp j 64
  index : a.e.index = .nil ∨ ∃ j, a.e.index = .gp j 64
  disp : isInInt32 a.e.disp = true

/-- No operand has ZU; NF is allowed if `nf`. -/
def PlainOp (nf : Bool) : Operand → Prop
  | .reg q => q.zu = false ∧ (q.nf = true → nf = true)
  | .mem a => AddrA a

private theorem gpnf (i : BitVec 5) (b : Nat) : (Reg.gp i b).nf = false ∧ (Reg.gp i b).zu = false ∧ (Reg.gp i b).isBit 896 = (b &&& 896 != 0) := ⟨rfl, rfl, by simp [Reg.gp, Reg.isBit]⟩

theorem AddrA.notReg {a : Addr} (h : AddrA a) (m : Nat) : (Operand.mem a).isREG m = false := by
  obtain ⟨b, hb⟩ := h.o
  show a.o.isREG m = false
  rw [hb]; rfl

theorem AddrA.nf {a : Addr} (h : AddrA a) : a.getRegExp.base.nf = false ∧ a.getRegExp.index.nf = false := by
  have hb : a.e.base.nf = false := by rcases h.base with e | ⟨j, e⟩ <;> rw [e] <;> rfl
  have hi : a.e.index.nf = false := by rcases h.index with e | ⟨j, e⟩ <;> rw [e] <;> rfl
  unfold Addr.getRegExp RegExp.optimize
  split
  · split <;> simp [hb, hi]
  · exact ⟨hb, hi⟩

theorem AddrA.opAddr {a : Addr} (h : AddrA a) (n : Nat) (r : BitVec 5) : (opAddr { a with immSize := n } r).res = .ok () := by
  have hv : ({ a with immSize := n } : Addr).isVsib = false := by
    show a.e.index.isBit 896 = false
    rcases h.index with e | ⟨j, e⟩ <;> rw [e] <;> simp [Reg.gp, Reg.nil, Reg.isBit]
  have hd : ({ a with immSize := n } : Addr).getRegExp.disp = a.e.disp := (getRegExp_index _).2
  unfold E.opAddr
  encres
  rw [hv]
  simp only [Bool.and_false, cond_false, ok_bind]
  cases hm : a.mode
  case modRM => dsimp only; rw [setSIB_res, (getRegExp_index _).2, h.disp]; rfl
  case disp64 => rfl
  all_goals
    dsimp only
    encres
    rw [setModRM_res]
    cases a.label <;> simp [ok_bind, h.disp, res_bind, res_throwIf, res_act, res_dbN, res_ite]

theorem evexLeg_ok {r b x v : Reg} {t : Ty} (hn : (r.nf || b.nf || x.nf || v.nf) = true → t.has T_NF = true) (hz : r.zu = false) (sc : Option (BitVec 4)) :
    (evexLeg r b x v t sc).res = .ok () := by
  unfold evexLeg
  encres
  have h1 : (!t.has T_NF && (r.nf || b.nf || x.nf || v.nf)) = false := by
    cases h : (r.nf || b.nf || x.nf || v.nf) with
    | false => simp
    | true => rw [hn h]; rfl
  rw [h1, hz]
  cases sc <;> simp [ok_bind, res_db]

/-- `opROO` accepts. -/
theorem opROO_ok {d : Reg} {a b : Operand} {t : Ty} {nf : Bool} (hd : PlainOp nf (.reg d)) (ha : PlainOp nf a) (hb : PlainOp nf b) (ht : nf = true → t.has T_NF = true)
    (hm : (a.isMEM && b.isMEM) = false) (hu : rooUsed d a b t = true) (c : Byte) (n : Nat) (sc : Option (BitVec 4)) : (opROO d a b t c n sc).res = .ok true := by
  unfold opROO
  have h' : (!t.has T_MUST_EVEX && !d.isREG && !((Operand.reg d).hasRex2NFZU || a.hasRex2NFZU || b.hasRex2NFZU)) = false := by
    unfold rooUsed at hu; rw [← Bool.not_eq_true]; intro h2; revert hu; simp at h2; simp [h2]
  rw [if_neg (by rw [h']; decide)]
  have key : ∀ (p q : Bool), (p = true → nf = true) → (q = true → nf = true) → (p || q || false || d.nf) = true → t.has T_NF = true := by
    intro p q h1 h2 h
    apply ht
    simp only [Bool.or_false, Bool.or_eq_true] at h
    rcases h with (h | h) | h
    · exact h1 h
    · exact h2 h
    · exact hd.2 h
  cases a with
  | reg a =>
    cases b with
    | reg b =>
      enccases
      rw [evexLeg_ok (r := (Operand.reg b).hd) (b := (Operand.reg a).hd) (x := .nil) (v := d) (t := t) (key _ _ hb.2 ha.2) hb.1]
      simp only [ok_bind, writeCode_res, setModRM_res]
    | mem b =>
      enccases
      rw [evexLeg_ok (r := (Operand.reg a).hd) (b := b.getRegExp.base) (x := b.getRegExp.index) (v := d) (t := t) (by
        rw [hb.nf.1, hb.nf.2]; exact fun h => key _ false ha.2 (fun h => by cases h) h) ha.1]
      simp only [ok_bind, writeCode_res, AddrA.opAddr hb]
  | mem a =>
    cases b with
    | reg b =>
      enccases
      rw [evexLeg_ok (r := (Operand.reg b).hd) (b := a.getRegExp.base) (x := a.getRegExp.index) (v := d) (t := t) (by
        rw [ha.nf.1, ha.nf.2]; exact fun h => key _ false hb.2 (fun h => by cases h) h) hb.1]
      simp only [ok_bind, writeCode_res, AddrA.opAddr ha]
    | mem b => cases hm

/-! ## Slots -/

def Args.PlainA (nf : Bool) (g : Args) : Prop := ∀ o ∈ g.ops, PlainOp nf o

def Slot.okS : Slot → Bool
  | .a _ => true
  | .r q => !q.nf && !q.zu
  | .bitOf .. => true
  | _ => false

theorem Slot.okS_stable {s : Slot} (h : s.okS = true) : s.stable = true := by cases s <;> first | rfl | cases h

variable {g : Args} {nf : Bool}

theorem Args.PlainA.op (hg : g.PlainA nf) (i : Nat) : PlainOp nf (g.op i) := by
  unfold Args.op
  cases h : g.ops[i]? with
  | none => exact ⟨rfl, fun h => by cases h⟩
  | some o => exact hg o (List.mem_of_getElem? h)

theorem Slot.plain {s : Slot} (h : s.okS = true) (hg : g.PlainA nf) : PlainOp nf (s.op g) := by
  cases s with
  | a i => exact hg.op i
  | r q =>
    simp only [Slot.okS, Bool.and_eq_true, Bool.not_eq_true'] at h
    exact ⟨h.2, fun h' => by rw [h.1] at h'; cases h'⟩
  | bitOf i n => exact ⟨rfl, fun h => by cases h⟩
  | _ => cases h

theorem Slot.op_of {s : Slot} (h : (s.op g).isMEM = false) : s.op g = .reg (s.reg g) := by
  unfold Slot.reg
  cases ho : s.op g with
  | mem a => rw [ho] at h; cases h
  | reg q => rfl

/-! ## What the call asks for -/

/-- The call asks for the extended EVEX form: a new data destination; a register of 16 to 31; NF on the first operand. -/
def Asks (nd nfq : Bool) (g : Args) : Prop :=
  nd = true ∨ (∃ i, (g.op i).hasRex2 = true) ∨ (nfq = true ∧ (g.op 0).isMEM = false ∧ (g.reg 0).nf = true)

/-- `len` operands, all of which but `cl` are in one of the slots. -/
def coversA (len : Nat) (cl : Option Nat) (ss : List Slot) : Bool := (List.range len).all fun i => ss.contains (.a i) || cl == some i

theorem coversA_of {len : Nat} {cl : Option Nat} {ss : List Slot} (h : coversA len cl ss = true) (hl : g.ops.length ≤ len) {i : Nat} (hi : (g.op i).hasRex2 = true)
    (hc : ∀ i, cl = some i → (g.reg i).idx = 1 ∧ (g.op i).isMEM = false) : ∃ s ∈ ss, s.op g = g.op i := by
  have hlt : i < g.ops.length := by
    rcases Nat.lt_or_ge i g.ops.length with h | h
    · exact h
    · unfold Args.op at hi; rw [List.getElem?_eq_none h] at hi; cases hi
  have := List.all_eq_true.1 h i (List.mem_range.2 (by omega))
  rw [Bool.or_eq_true, beq_iff_eq] at this
  rcases this with h | h
  · exact ⟨.a i, List.contains_iff_mem.1 h, rfl⟩
  · obtain ⟨h1, h2⟩ := hc i h
    exfalso
    cases ho : g.op i with
    | mem a => rw [ho] at h2; cases h2
    | reg q =>
      have e : g.reg i = q := by unfold Args.reg; rw [ho]; rfl
      rw [ho] at hi
      rw [e] at h1
      have : q.hasRex2 = true := hi
      unfold Reg.hasRex2 Reg.isExtIdx2 at this
      rw [h1] at this
      revert this
      cases q.isREG <;> decide

theorem coversA_zero {len : Nat} {cl : Option Nat} {ss : List Slot} (h : coversA len cl ss = true) (h0 : 0 < len) (hc : cl ≠ some 0) : ∃ s ∈ ss, s.op g = g.op 0 := by
  have := List.all_eq_true.1 h 0 (List.mem_range.2 h0)
  rw [Bool.or_eq_true, beq_iff_eq] at this
  exact ⟨.a 0, List.contains_iff_mem.1 (this.resolve_right hc), rfl⟩

/-! ## Calls of `opROO` -/

/-- From kinds and sizes: the call is accepted if made with operands that ask for the extended EVEX form. -/
def rooOkA (G : Args) (nf nd : Bool) (len : Nat) (cl : Option Nat) (d a b : Slot) (t : Ty) : Bool :=
  d.okS && a.okS && b.okS && !((a.op G).isMEM && (b.op G).isMEM) && !(d.op G).isMEM && (!nf || t.has T_NF) &&
  (t.has T_MUST_EVEX || (!nd || (d.reg G).isREG) && coversA len cl [d, a, b] && cl != some 0)

theorem hasRex2NFZU_of {o : Operand} (h : o.hasRex2 = true) : o.hasRex2NFZU = true := by unfold Operand.hasRex2NFZU; rw [h]; rfl

theorem rooOkA_parts {nd nfq : Bool} {cl : Option Nat} {d a b : Slot} {t : Ty} (h : rooOkA g.rep nf nd g.ops.length cl d a b t = true) (hg : g.PlainA nf) (hq : Asks nd nfq g)
    (hc : ∀ i, cl = some i → (g.reg i).idx = 1 ∧ (g.op i).isMEM = false) :
    PlainOp nf (.reg (d.reg g)) ∧ PlainOp nf (a.op g) ∧ PlainOp nf (b.op g) ∧ (nf = true → t.has T_NF = true) ∧ ((a.op g).isMEM && (b.op g).isMEM) = false ∧
    rooUsed (d.reg g) (a.op g) (b.op g) t = true := by
  unfold rooOkA at h
  simp only [Bool.and_eq_true, Bool.or_eq_true, Bool.not_eq_true', bne_iff_ne, ne_eq] at h
  obtain ⟨⟨⟨⟨⟨⟨h1, h2⟩, h3⟩, h4⟩, h5⟩, h6⟩, h7⟩ := h
  have sd := Slot.stable_rep (Slot.okS_stable h1) g
  have sa := Slot.stable_rep (Slot.okS_stable h2) g
  have sb := Slot.stable_rep (Slot.okS_stable h3) g
  rw [sa.1, sb.1] at h4
  rw [sd.1] at h5
  have ed := Slot.op_of h5
  refine ⟨by rw [← ed]; exact Slot.plain h1 hg, Slot.plain h2 hg, Slot.plain h3 hg, fun h => h6.resolve_left (by simp [h]), h4, ?_⟩
  unfold rooUsed
  rw [← ed]
  rcases h7 with h7 | ⟨⟨h7, h8⟩, h9⟩
  · rw [h7]; rfl
  suffices hs : nd = true ∨ ∃ s ∈ [d, a, b], (s.op g).hasRex2NFZU = true by
    rcases hs with hs | ⟨s, hs, hr⟩
    · have hk : (d.reg g.rep).isREG = true := h7.resolve_left (by simp [hs])
      have : (d.reg g).isREG = true := by
        unfold Reg.isREG Reg.isBit at hk ⊢; rw [sd.2.1, sd.2.2] at hk; exact hk
      rw [this]; simp
    · simp only [List.mem_cons, List.not_mem_nil, or_false] at hs
      rcases hs with rfl | rfl | rfl <;> rw [hr] <;> simp
  rcases hq with hq | ⟨i, hq⟩ | ⟨_, hq, hn⟩
  · exact .inl hq
  · obtain ⟨s, hs, e⟩ := coversA_of h8 (Nat.le_refl _) hq hc
    exact .inr ⟨s, hs, by rw [e]; exact hasRex2NFZU_of hq⟩
  · have h0 : 0 < g.ops.length := by
      rcases Nat.lt_or_ge 0 g.ops.length with h | h
      · exact h
      · unfold Args.reg Args.op at hn; rw [List.getElem?_eq_none h] at hn; cases hn
    obtain ⟨s, hs, e⟩ := coversA_zero (g := g) h8 h0 h9
    refine .inr ⟨s, hs, ?_⟩
    rw [e]
    unfold Operand.hasRex2NFZU
    unfold Args.reg at hn
    rw [hn]; simp

theorem rooOkA_ok {nd nfq : Bool} {cl : Option Nat} {d a b : Slot} {t : Ty} (h : rooOkA g.rep nf nd g.ops.length cl d a b t = true) (hg : g.PlainA nf) (hq : Asks nd nfq g)
    (hc : ∀ i, cl = some i → (g.reg i).idx = 1 ∧ (g.op i).isMEM = false) (c : Byte) (n : Nat) (sc : Option (BitVec 4)) :
    (opROO (d.reg g) (a.op g) (b.op g) t c n sc).res = .ok true := by
  obtain ⟨h1, h2, h3, h4, h5, h6⟩ := rooOkA_parts h hg hq hc
  exact opROO_ok h1 h2 h3 h4 h5 h6 c n sc

/-! ## Leaves -/

/-- The immediate of `opROI` (xbyak.h 2345-2353) fits. -/
theorem getImmBit_ok {d : Reg} (hb : d.bit = 8 ∨ d.bit = 16 ∨ d.bit = 32 ∨ d.bit = 64) {imm : BitVec 32}
    (hi : d.bit = 16 → -(2 ^ 15 : Int) ≤ imm.toInt ∧ imm.toInt < 2 ^ 16) : ∃ k, (getImmBit (.reg d) imm).res = .ok k := by
  have h16 : d.bit = 16 → isInDisp16relaxed imm = true := by
    intro e
    obtain ⟨h1, h2⟩ := hi e
    unfold isInDisp16relaxed
    have hh := high16 imm
    rw [Bool.or_eq_true, beq_iff_eq, beq_iff_eq]
    rw [BitVec.toInt_eq_toNat_cond] at h1 h2
    have hl := imm.isLt
    split at h1
    · left; apply BitVec.eq_of_toNat_eq; rw [hh]; show _ = 0; omega
    · right; apply BitVec.eq_of_toNat_eq; rw [hh]; show _ = 0xffff0000; omega
  have hv : (verifyMemHasSize (.reg d)).res = .ok () := by
    unfold verifyMemHasSize; encres; rfl
  have b8 : (Operand.reg d).isBit 8 = (d.bit == 8) := by
    show (d.bit &&& 8 != 0) = _
    rcases hb with e | e | e | e <;> rw [e] <;> rfl
  unfold getImmBit
  encres
  rw [hv]
  simp only [ok_bind, b8]
  show ∃ k, ((cond (decide (d.bit < _)) _ _ : Except Err Unit).bind _) = _
  rcases hb with e | e | e | e
  · rw [e]; exact ⟨_, rfl⟩
  · have := h16 e
    rw [e, this]; cases isInDisp8 imm <;> exact ⟨_, rfl⟩
  · rw [e]; cases isInDisp8 imm <;> cases isInDisp16relaxed imm <;> exact ⟨_, rfl⟩
  · rw [e]; cases isInDisp8 imm <;> cases isInDisp16relaxed imm <;> exact ⟨_, rfl⟩

/-- What is known of the arguments besides kinds and sizes. -/
structure CtxA (nf nd nfq sib : Bool) (cls : List Nat) (g : Args) : Prop where
  plain : g.PlainA nf
  asks : Asks nd nfq g
  cl : ∀ i ∈ cls, (g.reg i).idx = 1
  xmm : ∀ i, (g.reg i).kind = .xmm → (g.reg i).idx.toNat ≤ 15
  bits : ∀ i, (g.reg i).kind = .reg → (g.reg i).bit = 8 ∨ (g.reg i).bit = 16 ∨ (g.reg i).bit = 32 ∨ (g.reg i).bit = 64
  imm : (g.reg 0).bit = 16 → -(2 ^ 15 : Int) ≤ (g.i32 0).toInt ∧ (g.i32 0).toInt < 2 ^ 16
  sib : sib = true → ∀ i a, g.op i = .mem a → a.e.base.bit ≠ 0 ∧ a.e.index.bit ≠ 0

/-- The type `opKmov` (xbyak.h 2806-2813) passes on. -/
def kmovTy (size : Nat) (isReg : Bool) : Ty := T_APX ||| (T_0F ||| (if size = 8 then T_W0 ||| T_66 else if size = 16 then T_W0
      else if size = 32 then (if isReg then T_W0 ||| T_F2 else T_W1 ||| T_66)
      else if size = 64 then (if isReg then T_W1 ||| T_F2 else T_W1) else 0))

/-- From kinds and sizes: the helper accepts operands that ask for the extended EVEX form. -/
def Leaf.okA (G : Args) (nf nd nfq sib : Bool) (cls : List Nat) (len : Nat) : Leaf → Bool
  | roo d a b t _ => rooOkA G nf nd len none d a b t
  | roi d op i t e => Nat.beq i 0 && d == .a 0 && (G.reg 0).kind == .reg && rooOkA G nf nd len none d op (.bitOf 0 e) t
  | mr m r _ _ t2 _ => (match m with | .a i => (G.op i).isMEM | _ => false) && t2 != 0 && !(r.op G).isMEM && rooOkA G nf nd len none (.r .nil) m r t2
  | shxd d op r _ _ _ => (r.reg G).isREG 112 && !(r.op G).isMEM && rooOkA G nf nd len none d op r (T_APX ||| T_NF ||| (if (d.reg G).isREG then T_ND1 else 0))
  | shxdCL d op r cl _ _ => match cl with
    | .a k => cls.contains k && !(G.op k).isMEM && (r.reg G).isREG 112 && !(r.op G).isMEM &&
        rooOkA G nf nd len (some k) d op r (T_APX ||| T_NF ||| (if (d.reg G).isREG then T_ND1 else 0))
    | _ => false
  | rro d r op t _ _ => !nd && (!nfq || d == .a 0) && Nat.beq (r.reg G).bit (d.reg G).bit && ((op.op G).isMEM || Nat.beq (op.reg G).bit (d.reg G).bit) && !(d.op G).isMEM && !(r.op G).isMEM &&
      coversA len none [r, op, d] && rooOkA G nf nd len none r op d (t ||| (if (d.reg G).bit = 64 then T_W1 else T_W0))
  | sseApx x op _ _ t2 _ _ => !nd && !nfq && !(x.op G).isMEM && (x.reg G).kind == .xmm && (match x with | .a _ => true | .r q => decide (q.idx.toNat ≤ 15) | _ => false) &&
      coversA len none [op, x] && rooOkA G nf nd len none (.r .nil) op x t2
  | kmov k op rev size => k.okS && !(k.op G).isMEM && op.okS &&
      let isReg := !(op.op G).isMEM && (op.reg G).isREG (if size < 64 then 32 else 64)
      bif rev then bif isReg then rooOkA G nf nd len none (.r .nil) k op (kmovTy size isReg) else (op.op G).isMEM && rooOkA G nf nd len none (.r .nil) op k (kmovTy size isReg)
      else ((op.op G).isMEM || isReg || (op.reg G).isOPMASK) && rooOkA G nf nd len none (.r .nil) op k (kmovTy size isReg)
  | encodeKey r1 r2 _ _ => !(r1.op G).isMEM && !(r2.op G).isMEM && rooOkA G nf nd len none (.r .nil) r2 r1 (T_MUST_EVEX ||| T_F3)
  | amx x m t _ => sib && !(x.op G).isMEM && (match m with | .a i => (G.op i).isMEM | _ => false) && rooOkA G nf nd len none (.r .nil) m x (T_APX ||| t)
  | _ => false

theorem Slot.isREG_rep {s : Slot} (h : s.stable = true) (g : Args) (m : Nat) : (s.reg g.rep).isREG m = (s.reg g).isREG m := by
  unfold Reg.isREG Reg.isBit; rw [(Slot.stable_rep h g).2.1, (Slot.stable_rep h g).2.2]

theorem rooOkA_slots {G : Args} {nd : Bool} {len : Nat} {cl : Option Nat} {d a b : Slot} {t : Ty} (h : rooOkA G nf nd len cl d a b t = true) :
    d.stable = true ∧ a.stable = true ∧ b.stable = true := by
  unfold rooOkA at h
  simp only [Bool.and_eq_true] at h
  exact ⟨Slot.okS_stable h.1.1.1.1.1.1, Slot.okS_stable h.1.1.1.1.1.2, Slot.okS_stable h.1.1.1.1.2⟩

theorem noCl {g : Args} : ∀ i, (none : Option Nat) = some i → (g.reg i).idx = 1 ∧ (g.op i).isMEM = false := fun _ h => by cases h

theorem Args.mem_of {i : Nat} (h : (g.op i).isMEM = true) : g.op i = .mem (g.mem i) := by
  unfold Args.mem
  cases ho : g.op i with
  | reg q => rw [ho] at h; cases h
  | mem a => rfl

theorem opKmov_ok {k : Reg} {op : Operand} {rev R : Bool} {size : Nat} (h : match rev, R with
      | true, true => ∀ c, (opROO .nil (.reg k) op (kmovTy size true) c).res = .ok true
      | true, false => op.isMEM = true ∧ ∀ c, (opROO .nil op (.reg k) (kmovTy size false) c).res = .ok true
      | false, R => (op.isMEM || R || op.hd.isOPMASK) = true ∧ ∀ c, (opROO .nil op (.reg k) (kmovTy size R) c).res = .ok true) (hR : R = op.isREG (if size < 64 then 32 else 64)) :
    (opKmov k op rev size).res = .ok () := by
  have ty : ∀ isReg : Bool, T_APX ||| (T_0F ||| (if size = 8 then T_W0 ||| T_66 else if size = 16 then T_W0
      else if size = 32 then (if isReg then T_W0 ||| T_F2 else T_W1 ||| T_66)
      else if size = 64 then (if isReg then T_W1 ||| T_F2 else T_W1) else 0)) = kmovTy size isReg := fun _ => rfl
  unfold opKmov
  simp only [ty, ← hR]
  clear hR ty
  cases rev <;> cases R
  · obtain ⟨h1, h2⟩ := h
    cases hm : op.isMEM <;> cases ho : op.hd.isOPMASK <;> rw [hm, ho] at h1 <;> first | exact absurd h1 (by decide) | (simp [res_bind, res_throwIf, ok_bind, h2, res_pure])
  · obtain ⟨h1, h2⟩ := h
    cases hm : op.isMEM <;> cases ho : op.hd.isOPMASK <;> simp [res_bind, res_throwIf, ok_bind, h2, res_pure]
  · obtain ⟨h1, h2⟩ := h
    simp [res_bind, res_throwIf, ok_bind, h1, h2, res_pure]
  · simp [res_bind, res_throwIf, ok_bind, h, res_pure]

theorem Leaf.okA_ok {nd nfq sib : Bool} {cls : List Nat} {l : Leaf} (h : l.okA g.rep nf nd nfq sib cls g.ops.length = true) (hg : CtxA nf nd nfq sib cls g) : (l.run g).res = .ok () := by
  have key := fun {cl : Option Nat} {d a b : Slot} {t : Ty} (h : rooOkA g.rep nf nd g.ops.length cl d a b t = true)
    (hc : ∀ i, cl = some i → (g.reg i).idx = 1 ∧ (g.op i).isMEM = false) => rooOkA_ok h hg.plain hg.asks hc
  have keyN := fun {a b : Slot} {t : Ty} (h : rooOkA g.rep nf nd g.ops.length none (.r .nil) a b t = true) (c : Byte) (n : Nat) =>
    show (opROO .nil (a.op g) (b.op g) t c n none).res = .ok true from key h noCl c n none
  cases l with
  | roo d a b t c =>
    unfold Leaf.run; encres
    rw [key h noCl]; rfl
  | roi d op i t e =>
    simp only [Leaf.okA, Bool.and_eq_true, beq_iff_eq] at h
    obtain ⟨⟨⟨h1, h2⟩, h3⟩, h4⟩ := h
    cases Nat.eq_of_beq_eq_true h1
    subst h2
    rw [Args.rep_kind] at h3
    obtain ⟨k, hk⟩ := getImmBit_ok (d := g.reg 0) (hg.bits 0 h3) (imm := g.i32 0) hg.imm
    show (opROI (g.reg 0) (op.op g) (g.i32 0) t e).res = _
    unfold opROI; encres
    rw [hk]
    simp only [ok_bind]
    rw [show (Operand.reg (.gp e (g.reg 0).bit)) = (Slot.bitOf 0 e).op g from rfl, show g.reg 0 = (Slot.a 0).reg g from rfl, key h4 noCl]; rfl
  | mr m r t c t2 c2 =>
    simp only [Leaf.okA, Bool.and_eq_true, bne_iff_ne, ne_eq, Bool.not_eq_true'] at h
    obtain ⟨⟨⟨h1, h2⟩, h3⟩, h4⟩ := h
    cases m with
    | a i =>
      simp only at h1
      rw [Args.rep_mem] at h1
      have hs := rooOkA_slots h4
      rw [(Slot.stable_rep hs.2.2 g).1] at h3
      have hk := keyN h4 (c2.getD c) 0
      rw [Slot.op_of h3, show (Slot.a i).op g = _ from Args.mem_of h1] at hk
      show (opMR (g.mem i) (r.reg g) t c t2 c2).res = _
      unfold opMR
      rw [if_pos h2]
      encres
      rw [hk]; rfl
    | _ => cases h1
  | shxd d op r i c c2 =>
    simp only [Leaf.okA, Bool.and_eq_true, Bool.not_eq_true'] at h
    obtain ⟨⟨h1, h2⟩, h3⟩ := h
    have hs := rooOkA_slots h3
    rw [Slot.isREG_rep hs.2.2] at h1
    rw [Slot.isREG_rep hs.1] at h3
    rw [(Slot.stable_rep hs.2.2 g).1] at h2
    show (opShxd (d.reg g) (op.op g) (r.reg g) (g.i8 i) c c2).res = _
    unfold opShxd; encres
    rw [h1, ← Slot.op_of h2]
    simp only [Option.isSome, Bool.false_eq_true, if_false, Bool.not_true, cond_false, ok_bind]
    rw [key h3 noCl]; rfl
  | shxdCL d op r cl c c2 =>
    cases cl with
    | a k =>
      simp only [Leaf.okA, Bool.and_eq_true, Bool.not_eq_true'] at h
      obtain ⟨⟨⟨⟨h4, h5⟩, h1⟩, h2⟩, h3⟩ := h
      have hs := rooOkA_slots h3
      have hc := hg.cl k (List.contains_iff_mem.1 h4)
      rw [Args.rep_mem] at h5
      rw [Slot.isREG_rep hs.2.2] at h1
      rw [Slot.isREG_rep hs.1] at h3
      rw [(Slot.stable_rep hs.2.2 g).1] at h2
      show (opShxd (d.reg g) (op.op g) (r.reg g) 0 c c2 (some (g.reg k))).res = _
      unfold opShxd; encres
      rw [h1, ← Slot.op_of h2, hc]
      simp only [Option.isSome, if_true, Bool.not_true, cond_false, ok_bind, bne_self_eq_false]
      rw [key h3 (by rintro _ ⟨⟩; exact ⟨hc, h5⟩)]; rfl
    | _ => cases h
  | rro d r op t c i =>
    simp only [Leaf.okA, Bool.and_eq_true, Bool.not_eq_true', Bool.or_eq_true, beq_iff_eq] at h
    obtain ⟨⟨⟨⟨⟨⟨⟨h1, h2⟩, h3⟩, h4⟩, h5⟩, h6⟩, h7⟩, h8⟩ := h
    obtain ⟨s1, s2, s3⟩ := rooOkA_slots h8
    have r1 := Slot.stable_rep s1 g
    have r2 := Slot.stable_rep s2 g
    have r3 := Slot.stable_rep s3 g
    have h3 : (r.reg g).bit = (d.reg g).bit := by rw [← r1.2.2, ← r3.2.2]; exact Nat.eq_of_beq_eq_true h3
    rw [r3.1] at h5
    rw [r1.1] at h6
    rw [r3.2.2] at h8
    have hb : ((op.op g).isREG && (op.op g).bit != (d.reg g).bit) = false := by
      rcases h4 with h4 | h4
      · rw [r2.1] at h4
        cases ho : op.op g with
        | reg q => rw [ho] at h4; cases h4
        | mem a =>
          have hp := (rooOkA_parts h8 hg.plain hg.asks noCl).2.1
          rw [ho] at hp
          rw [hp.notReg _]; rfl
      · have := Nat.eq_of_beq_eq_true h4
        rw [r2.2.2, r3.2.2] at this
        have e : (op.op g).bit = (d.reg g).bit := this
        rw [e]; simp
    have hu : ((d.reg g).hasRex2 || (r.reg g).hasRex2 || (op.op g).hasRex2 || (d.reg g).nf) = true := by
      rcases hg.asks with hq | ⟨i, hq⟩ | ⟨hq, hq0, hn⟩
      · rw [h1] at hq; cases hq
      · obtain ⟨s, hs, e⟩ := coversA_of h7 (Nat.le_refl _) hq noCl
        rw [← e] at hq
        simp only [List.mem_cons, List.not_mem_nil, or_false] at hs
        rcases hs with rfl | rfl | rfl
        · rw [Slot.op_of h6] at hq; rw [show (s.reg g).hasRex2 = true from hq]; simp
        · rw [hq]; simp
        · rw [Slot.op_of h5] at hq; rw [show (s.reg g).hasRex2 = true from hq]; simp
      · have : d = .a 0 := h2.resolve_left (by simp [hq])
        subst this
        rw [show ((Slot.a 0).reg g).nf = true from hn]; simp
    show (opRRO (d.reg g) (r.reg g) (op.op g) t c (i.val g)).res = _
    unfold opRRO; encres
    rw [h3, hb, hu, ← Slot.op_of h5]
    simp only [bne_self_eq_false, Bool.or_false, cond_false, cond_true, ok_bind]
    rw [key h8 noCl]; simp only [ok_bind, dbOpt_res]
  | sseApx x op t1 c1 t2 c2 i =>
    simp only [Leaf.okA, Bool.and_eq_true, Bool.not_eq_true', beq_iff_eq] at h
    obtain ⟨⟨⟨⟨⟨⟨h1, h2⟩, h3⟩, h4⟩, h5⟩, h6⟩, h7⟩ := h
    obtain ⟨s1, s2, s3⟩ := rooOkA_slots h7
    have r3 := Slot.stable_rep s3 g
    rw [r3.1] at h3
    rw [r3.2.1] at h4
    have hx : (x.reg g).idx.toNat ≤ 15 := by
      cases x with
      | a j => exact hg.xmm j h4
      | r q => exact of_decide_eq_true h5
      | _ => cases h5
    have hu : (op.op g).hasRex2 = true := by
      rcases hg.asks with hq | ⟨i, hq⟩ | ⟨hq, _⟩
      · rw [h1] at hq; cases hq
      · obtain ⟨s, hs, e⟩ := coversA_of h6 (Nat.le_refl _) hq noCl
        rw [← e] at hq
        simp only [List.mem_cons, List.not_mem_nil, or_false] at hs
        rcases hs with rfl | rfl
        · exact hq
        · rw [Slot.op_of h3] at hq
          have : (s.reg g).hasRex2 = true := hq
          unfold Reg.hasRex2 Reg.isREG at this
          rw [h4] at this
          cases this
      · rw [h2] at hq; cases hq
    show (opSSE_APX (x.reg g) (op.op g) t1 c1 t2 c2 (i.val g)).res = _
    unfold opSSE_APX
    rw [hu, decide_eq_true hx, Bool.and_self, if_pos rfl, ← Slot.op_of h3]
    encres
    rw [keyN h7]; simp [ok_bind, dbOpt_res]
  | kmov k op rev size =>
    simp only [Leaf.okA] at h
    rw [Bool.and_eq_true, Bool.and_eq_true, Bool.and_eq_true] at h
    obtain ⟨⟨⟨h0, h1⟩, h2⟩, h3⟩ := h
    have r1 := Slot.stable_rep (Slot.okS_stable h0) g
    have r2 := Slot.stable_rep (Slot.okS_stable h2) g
    have hopm : (op.reg g.rep).isOPMASK = (op.reg g).isOPMASK := by unfold Reg.isOPMASK; rw [r2.2.1]
    rw [r2.1, Slot.isREG_rep (Slot.okS_stable h2), hopm] at h3
    have hk : (k.op g).isMEM = false := by rw [r1.1] at h1; cases h : (k.op g).isMEM <;> simp_all
    have hp := Slot.plain h2 hg.plain
    have hreg : (op.op g).isREG (if size < 64 then 32 else 64) = (!(op.op g).isMEM && (op.reg g).isREG (if size < 64 then 32 else 64)) := by
      unfold Slot.reg
      cases ho : op.op g with
      | reg q => simp [Operand.isMEM, Operand.isREG, Operand.hd]
      | mem a => rw [ho] at hp; rw [AddrA.notReg hp _]; rfl
    refine opKmov_ok ?_ hreg.symm
    rw [← Slot.op_of hk]
    revert h3
    generalize (!(op.op g).isMEM && (op.reg g).isREG (if size < 64 then 32 else 64)) = R
    intro h3
    cases rev with
    | true =>
      cases R with
      | true => exact fun c => keyN h3 c 0
      | false => exact ⟨(Bool.and_eq_true _ _ ▸ h3).1, fun c => keyN (Bool.and_eq_true _ _ ▸ h3).2 c 0⟩
    | false => exact ⟨(Bool.and_eq_true _ _ ▸ h3).1, fun c => keyN (Bool.and_eq_true _ _ ▸ h3).2 c 0⟩
  | encodeKey r1 r2 c1 c2 =>
    simp only [Leaf.okA, Bool.and_eq_true, Bool.not_eq_true'] at h
    obtain ⟨⟨h1, h2⟩, h3⟩ := h
    obtain ⟨_, s2, s3⟩ := rooOkA_slots h3
    rw [(Slot.stable_rep s3 g).1] at h1
    rw [(Slot.stable_rep s2 g).1] at h2
    show (opEncodeKey (r1.reg g) (r2.reg g) c1 c2).res = _
    unfold opEncodeKey; encres
    rw [← Slot.op_of h1, ← Slot.op_of h2, keyN h3, setModRM_res]
    simp [ok_bind]
  | amx x m t c =>
    simp only [Leaf.okA, Bool.and_eq_true, Bool.not_eq_true'] at h
    obtain ⟨⟨⟨h1, h2⟩, h3⟩, h4⟩ := h
    cases m with
    | a i =>
      simp only at h3
      rw [Args.rep_mem] at h3
      have hm := Args.mem_of h3
      obtain ⟨_, _, s3⟩ := rooOkA_slots h4
      rw [(Slot.stable_rep s3 g).1] at h2
      obtain ⟨q1, q2, q3, q4, q5, q6⟩ := rooOkA_parts h4 hg.plain hg.asks noCl
      rw [show (Slot.a i).op g = _ from hm] at q2 q6
      have hb := hg.sib h1 i _ hm
      show (opAMX (x.reg g) (g.mem i) t c).res = _
      unfold opAMX; encres
      rw [show ({ g.mem i with opt := false } : Addr).getRegExp = (g.mem i).e from rfl, beq_false_of_ne hb.1, beq_false_of_ne hb.2]
      simp only [Bool.or_false, cond_false, ok_bind]
      rw [← Slot.op_of h2, opROO_ok (nf := nf) (d := .nil) (a := .mem { g.mem i with opt := false }) (b := x.op g) q1 ⟨q2.o, q2.base, q2.index, q2.disp⟩ q3 q4 (by rw [Slot.op_of h2]; rfl) q6]
      rfl
    | _ => cases h3
  | _ => cases h

/-! ## Functions -/

def Body.okA (G : Args) (nf nd nfq sib : Bool) (cls : List Nat) (len : Nat) : Body → Bool
  | leaf l => l.okA G nf nd nfq sib cls len
  | guard bad _ b => !bad G && b.okA G nf nd nfq sib cls len
  | ite c t e => bif c G then t.okA G nf nd nfq sib cls len else e.okA G nf nd nfq sib cls len
  | apx d a b t _ (.leaf _) => rooOkA G nf nd len none d a b t
  | _ => false

theorem Body.okA_ok {nd nfq sib : Bool} {cls : List Nat} (hg : CtxA nf nd nfq sib cls g) : ∀ {b : Body}, b.AbsA → b.okA g.rep nf nd nfq sib cls g.ops.length = true →
    ∃ m, b.run g = some m ∧ m.res = .ok () := by
  intro b
  induction b with
  | leaf l => intro _ h; exact ⟨_, rfl, Leaf.okA_ok h hg⟩
  | guard bad err b ih =>
    intro ha h
    rw [Body.okA, Bool.and_eq_true, ha.1 g] at h
    obtain ⟨m, h1, h2⟩ := ih ha.2 h.2
    refine ⟨_, by rw [Body.run, h1]; rfl, ?_⟩
    encres
    rw [(Bool.not_eq_true' _).mp h.1]
    exact h2
  | ite c t e iht ihe =>
    intro ha h
    rw [Body.okA, ha.1 g] at h
    rw [Body.run]
    cases hc : c g with
    | true => rw [hc] at h; exact iht ha.2.1 h
    | false => rw [hc] at h; exact ihe ha.2.2 h
  | apx d a b t c r ih =>
    intro _ h
    cases r with
    | leaf l =>
      refine ⟨_, rfl, ?_⟩
      encres
      rw [rooOkA_ok (cl := none) (d := d) (a := a) (b := b) (t := t) h hg.plain hg.asks noCl]
      rfl
    | _ => cases h
  | _ => intro _ h; cases h

/-- The positions of the operand CL. -/
def clsOf (ops : List X86.AOp) : List Nat := (List.range ops.length).filter fun i => ops[i]? == some .cl

/-- The function accepts operands of these kinds and sizes for the form. -/
def Entry.okA (e : Entry) (name : Nat) (f : X86.AForm) (cls : List Nat) (os : List Operand) : Bool :=
  Nat.beq e.opt 0 && pTakes (e.params.filter Param.isOperand) os && e.params.contains .int == (f.imm != .no) && (e.aped || e.body.simpleA) &&
  e.body.okA { ops := os } f.nf f.nd (f.nf && !blsNames.contains name) (Nat.beq name n!"tilestored") cls os.length

/-- Every form has a function, for all kinds and sizes of operands (CRC32 wants the size of a memory operand). -/
def apxAccepted (F : List (Nat × List X86.AForm)) : Bool := F.all fun p => let es := namedT p.1
  p.2.all fun f => let cls := clsOf f.ops
    aSizes.all fun n => (alists n f.ops).all fun os =>
      (Nat.beq p.1 n!"crc32" && os.any fun o => o.isMEM && Nat.beq o.hd.bit 0) || es.any fun e => e.okA p.1 f cls os

set_option maxRecDepth 1000000 in
theorem apxAccepted_ok : apxAccepted X86.aforms = true := by decide +kernel
