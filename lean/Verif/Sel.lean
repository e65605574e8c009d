import Verif.Mnemonic.All
import Verif.Props.Apx
set_option linter.unusedSimpArgs false
/-!
# Selectors

The part of an encoding that tells instructions apart, for every line of `xbyak_mnemonic.h` whose body calls the SSE, AVX, AVX-512, AMX
or BMI helpers.  `Leaf.sels` over-approximates what a line can emit; `Leaf.sees` proves it.
-/
namespace Xbyak.Mn
open E

/-- What distinguishes instructions: opcode space, map, prefixes, W, opcode, and, where an instruction fixes them, the extension in
ModRM.reg, register or memory in ModRM.rm, and the last immediate byte. -/
structure Sel where
  sp : X86.Space
  map : BitVec 5
  op : Byte
  p66 : Bool := false
  pF2 : Bool := false
  pF3 : Bool := false
  pp : BitVec 2 := 0
  w : Option Bool := none
  ext : Option (BitVec 3) := none
  mem : Option Bool := none
  imm : Option Byte := none
  deriving DecidableEq, Repr

def odiff {α : Type} [DecidableEq α] : Option α → Option α → Bool
  | some x, some y => decide (x ≠ y)
  | _, _ => false

/-- The selectors exclude each other. -/
def Sel.disj (a b : Sel) : Bool :=
  decide (a.sp ≠ b.sp) || decide (a.map ≠ b.map) || a.p66 != b.p66 || a.pF2 != b.pF2 || a.pF3 != b.pF3 || decide (a.pp ≠ b.pp) ||
  odiff a.w b.w || odiff a.ext b.ext || odiff a.mem b.mem || odiff a.imm b.imm

def lo3 (i : BitVec 5) : BitVec 3 := i.extractLsb' 0 3

/-- Type of the argument passed in a slot, if it cannot be left out. -/
def Slot.par (ps : List Param) : Slot → Option Param
  | .a i => ps[i]?
  | _ => none

/-- The register number, if it is fixed. -/
def Slot.num : Slot → Option (BitVec 3)
  | .r q => some (lo3 q.idx)
  | .kindOf _ n | .bitOf _ n => some (lo3 n)
  | .zeroOf _ => some 0
  | _ => none

/-- Whether the slot holds a 64-bit general register, if known. -/
def Slot.is64 (ps : List Param) : Slot → Option Bool
  | .a i => match ps[i]? with
    | some .reg64 => some true
    | some .mmx | some .xmm | some .ymm | some .zmm | some .reg32 | some .addr => some false
    | _ => none
  | .gp64Of _ => some true
  | .r q => some (q.isREG 64)
  | .xmmOf _ | .ymmOf _ | .gp16Of _ => some false
  | _ => none

/-- Whether the slot holds memory, if known. -/
def Slot.isMem (ps : List Param) : Slot → Option Bool
  | .a i => match ps[i]? with
    | some .op => none
    | some .addr => some true
    | some .int | some .label | some .absAddr | some .enc => none
    | some _ => some false
    | none => none
  | _ => some false

/-- The slot is a 16-bit general register made by the line. -/
def Slot.is16 : Slot → Bool
  | .gp16Of _ => true
  | _ => false

def Imm.num : Imm → Option Byte
  | .c b => some b
  | _ => Option.none

def vexSel (t : Ty) (c : Byte) (e : Option (BitVec 3)) (m : Option Bool) (i : Option Byte) : List Sel :=
  (if t.has T_MUST_EVEX then [] else [{ sp := .vex, map := mapOf t, op := c, pp := ppOf t, w := some (t.has T_W1), ext := e, mem := m, imm := i }]) ++
  (if t.has (T_EVEX ||| T_MUST_EVEX) then [{ sp := .evex, map := (evexMap t).setWidth 5, op := c, pp := ppOf t, w := some (t.has T_EW1), ext := e, mem := m, imm := i }] else [])
def legSel (t : Ty) (c : Byte) (p66 : Bool) (w : Option Bool) (e : Option (BitVec 3)) (m : Option Bool) (i : Option Byte) : Sel :=
  { sp := .legacy, map := mapOf t, op := c, p66 := p66, pF2 := t.has T_F2, pF3 := t.has T_F3, w := w, ext := e, mem := m, imm := i }
def apxSel (t : Ty) (c : Byte) (e : Option (BitVec 3)) (m : Option Bool) (i : Option Byte) : Sel :=
  { sp := .evex, map := (apxMap t).setWidth 5, op := c, pp := ppOf t, w := if t.has T_W0 then some false else if t.has T_W1 then some true else none, ext := e, mem := m, imm := i }

/-- W of an SSE instruction. -/
def sseW (ps : List Param) (r op : Slot) : Option Bool :=
  match r.is64 ps, op.is64 ps with
  | some true, _ => some true
  | some false, some x => some x
  | _, _ => none

def kmovType (isReg : Bool) (size : Nat) : Ty :=
  T_0F ||| (if size = 8 then T_W0 ||| T_66 else if size = 16 then T_W0
    else if size = 32 then (if isReg then T_W0 ||| T_F2 else T_W1 ||| T_66)
    else if size = 64 then (if isReg then T_W1 ||| T_F2 else T_W1) else 0)

def Leaf.sels (ps : List Param) : Leaf → List Sel
  | avx3 x _ _ t c i => vexSel t c x.num none i.num
  | avx2 x op t c i => vexSel t c x.num (op.isMem ps) i.num
  | avxK x _ op t c i => vexSel t c x.num (op.isMem ps) i.num
  | vex x _ op t c i => vexSel t c x.num (op.isMem ps) i.num
  | vexCB _ op t c i => vexSel t c none (op.isMem ps) i.num
  | cvt _ op t c | cvt2 _ op t c | cvt5 _ op t c | cvt6 _ _ op t c | vmov op _ t c _ => vexSel t c none (op.isMem ps) none
  | gather _ _ _ t c _ | gather2 _ _ t c _ => vexSel t c none (some true) none
  | gatherFetch _ x t c _ => vexSel t c x.num (some true) none
  | cvt3 _ _ _ t t6 t3 c => vexSel (t ||| t6) c none none none ++ vexSel (t ||| t3) c none none none
  | encoding _ _ _ t c i tv te _ => vexSel (t ||| tv) c none none i.num ++ vexSel (t ||| (T_MUST_EVEX ||| te)) c none none i.num
  | cvt2Enc _ _ t c tv te _ => vexSel (t ||| tv) c none none none ++ vexSel (t ||| (T_MUST_EVEX ||| te)) c none none none
  | kmov _ _ rv sz =>
    let T := fun r c m => vexSel (T_L0 ||| kmovType r sz) c none m none ++ [apxSel (T_APX ||| kmovType r sz) c none m none]
    if rv then T true 0x93 (some false) ++ T false 0x91 (some true)
    else T true 0x92 (some false) ++ T false 0x90 none
  | amx _ _ t c => vexSel t c none (some true) none ++ [apxSel (T_APX ||| t) c none (some true) none]
  | sse r op t c _ i => [legSel t c (t.has T_66 || r.is16) (sseW ps r op) r.num (op.isMem ps) i.num]
  | sseApx x op t c t2 c2 i => [legSel t c (t.has T_66) (some false) x.num (op.isMem ps) i.num, apxSel t2 c2 x.num (op.isMem ps) i.num]
  | mmx r op c t p i =>
    (if r.par ps = some .xmm then [] else [legSel t c (t.has T_66) (some false) r.num (op.isMem ps) i.num]) ++ [legSel (t ||| p) c ((t ||| p).has T_66) (some false) none (op.isMem ps) i.num]
  | mmxImm _ _ c e => [legSel T_0F c false (some false) (some (lo3 e)) (some false) none, legSel (T_0F ||| T_66) c true (some false) (some (lo3 e)) (some false) none]
  | movXmm _ _ t c => [legSel t c (t.has T_66) (some false) none (some true) none, legSel t (c ||| 1) (t.has T_66) (some false) none (some true) none]
  | ext _ _ c _ m => (if m then [legSel T_0F 0xC5 false none none (some false) none, legSel T_0F 0xC5 true none none (some false) none] else []) ++ [legSel (T_66 ||| T_0F3A) c true none none none none]
  | rro d _ op t c i => vexSel (t ||| T_W1) c d.num (op.isMem ps) i.num ++ vexSel (t ||| T_W0) c d.num (op.isMem ps) i.num ++ [apxSel (t ||| T_W1) c d.num (op.isMem ps) i.num, apxSel (t ||| T_W0) c d.num (op.isMem ps) i.num]
  | encodeKey _ _ c c2 => [legSel (T_F3 ||| T_0F38) c false (some false) none (some false) none, apxSel (T_MUST_EVEX ||| T_F3) c2 none (some false) none]
  | _ => []

def Sel.pre (x : Byte) (s : Sel) : Sel := if x = 0x66 then { s with p66 := true } else if x = 0xF3 then { s with pF3 := true } else s

def Body.sels (ps : List Param) : Body → List Sel
  | .leaf l => l.sels ps
  | .guard _ _ b | .check _ _ _ b => b.sels ps
  | .pre _ x b => b.sels ps ++ (b.sels ps).map (Sel.pre x)
  | .ite _ t e => t.sels ps ++ e.sels ps
  | .apx _ _ s t c b => b.sels ps ++ [apxSel t c s.num (some true) none]
  | _ => []

def Entry.ops (e : Entry) : List Param := if e.opt = 0 then e.params.filter Param.isOperand else []
def T0A : Ty := T_0F ||| T_ALLOW_DIFF_SIZE
def Entry.sels (e : Entry) : List Sel :=
  if e.line = 690 then [legSel T_0F 0x6E true (some false) none none none, legSel T_0F 0x6E false (some false) none none none]
  else if e.line = 691 then [legSel T_0F 0x7E true (some false) none none none, legSel T_0F 0x7E false (some false) none none none]
  else if e.line = 706 then [legSel T_0F 0x50 true none none (some false) none]
  else if e.line = 714 then [legSel T_0F 0xD6 true (some false) none none none, legSel T_0F 0x7F false (some false) none none none]
  else if e.line = 715 then [{legSel T_0F 0x7E false (some false) none none none with pF3 := true}, legSel T_0F 0x6F false (some false) none none none]
  else e.body.sels e.ops


/-! ## Reading a selector back from bytes -/

/-- `a` says nothing or says `b`. -/
def OLe {α : Type} (a b : Option α) : Prop := a = none ∨ a = b

/-- The head of an instruction agrees with the selector. -/
structure Sel.Of (s : Sel) (h : X86.Head) : Prop where
  sp : (if h.space = .rex2 then .legacy else h.space) = s.sp
  map : h.map = s.map
  op : h.opcode = s.op
  p66 : h.p66 = s.p66
  pF2 : h.pF2 = s.pF2
  pF3 : h.pF3 = s.pF3
  pp : h.pp = s.pp
  w : OLe s.w (some h.w)

/-- The bytes agree with the selector. -/
def Sel.Sees (s : Sel) (bs : List Byte) : Prop :=
  ∃ h c t, X86.head bs = some (h, c :: t) ∧ s.Of h ∧ OLe s.ext (some (c.extractLsb' 3 3)) ∧
    OLe s.mem (some (decide (c.extractLsb' 6 2 ≠ 3))) ∧ OLe s.imm (c :: t).getLast?

theorem odiff_le {α : Type} [DecidableEq α] {a b : Option α} {x : Option α} (h1 : OLe a x) (h2 : OLe b x) : odiff a b = false := by
  cases a with
  | none => rfl
  | some a =>
    cases b with
    | none => rfl
    | some b =>
      rcases h1 with h1 | rfl
      · cases h1
      rcases h2 with h2 | h2
      · cases h2
      · cases h2; simp [odiff]

/-- Bytes do not agree with two selectors that exclude each other. -/
theorem Sel.disj_sees {s t : Sel} {bs : List Byte} (h1 : s.Sees bs) (h2 : t.Sees bs) : s.disj t = false ∧ s.op = t.op := by
  obtain ⟨h, c, u, e1, o1, x1, m1, i1⟩ := h1
  obtain ⟨h', c', u', e2, o2, x2, m2, i2⟩ := h2
  rw [e1] at e2
  obtain ⟨rfl, rfl, rfl⟩ : h = h' ∧ c = c' ∧ u = u' := by
    have := Option.some.inj e2
    obtain ⟨a, b⟩ := Prod.mk.inj this
    exact ⟨a, List.cons.inj b⟩
  refine ⟨?_, o1.op.symm.trans o2.op⟩
  unfold Sel.disj
  rw [odiff_le o1.w o2.w, odiff_le x1 x2, odiff_le m1 m2, odiff_le i1 i2, ← o1.sp, ← o2.sp, ← o1.map, ← o2.map, ← o1.p66, ← o2.p66, ← o1.pF2,
    ← o2.pF2, ← o1.pF3, ← o2.pF3, ← o1.pp, ← o2.pp]
  simp

/-- The ModRM byte at the front: register field and kind of operand. -/
def Tails (r : BitVec 5) (m : Bool) (w : List Act) : Prop :=
  ∀ fill, ∃ c t, concr fill w = c :: t ∧ c.extractLsb' 3 3 = lo3 r ∧ decide (c.extractLsb' 6 2 ≠ 3) = m

theorem Sel.sees_of {s : Sel} {h : X86.Head} {w : List Act} {r : BitVec 5} {m : Bool} {fill : Act → BitVec 32} {bs : List Byte} (imm : Option Byte)
    (hb : X86.head bs = some (h, concr fill w ++ imm.toList)) (ht : Tails r m w) (hs : s.Of h) (he : OLe s.ext (some (lo3 r)))
    (hm : OLe s.mem (some m)) (hi : OLe s.imm imm) : s.Sees bs := by
  obtain ⟨c, t, e, e1, e2⟩ := ht fill
  rw [e] at hb
  refine ⟨h, c, t ++ imm.toList, by rw [hb]; rfl, hs, by rw [e1]; exact he, by rw [e2]; exact hm, ?_⟩
  rcases hi with hi | hi
  · exact .inl hi
  · cases imm with
    | none => exact .inl hi
    | some b =>
      refine .inr ?_
      rw [hi]
      show _ = (c :: t ++ [b]).getLast?
      rw [List.getLast?_append]; rfl

theorem tails_reg (r b : BitVec 5) : Tails r false [.byte (modRM 3 r b)] := by
  intro fill
  refine ⟨modRM 3 r b, [], rfl, modRM_reg _ _ _, ?_⟩
  rw [modRM_mod]; rfl

theorem dispForm_mod (base : Reg) (d : BitVec 32) (n : Nat) : (dispForm base d n).1 ≠ 3 := by
  have h0 : (0 : BitVec 2) ≠ 3 := by decide
  have h1 : (1 : BitVec 2) ≠ 3 := by decide
  have h2 : (2 : BitVec 2) ≠ 3 := by decide
  unfold dispForm
  dsimp only
  split
  · exact h0
  · split
    · split
      · exact h1
      · exact h2
    · split
      · exact h1
      · exact h2

theorem tails_cons {r : BitVec 5} {m : BitVec 2} (hm : m ≠ 3) (b : BitVec 5) (w : List Act) : Tails r true (.byte (modRM m r b) :: w) := by
  intro fill
  refine ⟨modRM m r b, concr fill w, rfl, modRM_reg _ _ _, ?_⟩
  rw [modRM_mod]; exact decide_eq_true hm

theorem tails_bind {r : BitVec 5} {m : BitVec 2} (hm : m ≠ 3) (b : BitVec 5) (f : Unit → Enc Unit) {w : List Act}
    (hw : (setModRM m r b >>= f).Gives w ()) : Tails r true w := by
  rw [setModRM, Enc.gives_bind] at hw
  obtain ⟨w1, _, w2, h1, _, rfl⟩ := hw
  rw [Enc.gives_db] at h1
  subst h1
  exact tails_cons hm _ _

theorem tails_setSIB {e : RegExp} {r : BitVec 5} {n : Nat} {w : List Act} (hw : (setSIB e r n).Gives w ()) : Tails r true w := by
  unfold setSIB at hw
  dsimp only at hw
  rw [Enc.throwIf_bind] at hw
  obtain ⟨_, hw⟩ := hw
  split at hw
  · exact tails_bind (dispForm_mod _ _ _) _ _ hw
  · exact tails_bind (dispForm_mod _ _ _) _ _ hw

theorem tails_opAddr {a : Addr} {r : BitVec 5} (hd : a.mode ≠ .disp64) {w : List Act} (hw : (opAddr a r).Gives w ()) : Tails r true w := by
  unfold opAddr at hw
  rw [Enc.throwIf_bind] at hw
  obtain ⟨_, hw⟩ := hw
  split at hw
  · exact tails_setSIB hw
  · exact tails_bind (by decide) _ _ hw
  · exact tails_bind (by decide) _ _ hw
  · rename_i h; exact absurd h hd

end Xbyak.Mn

namespace Xbyak.Enc
open Mn E
variable {α β : Type}

/-- Everything emitted agrees with one of the selectors. -/
def Shows (S : List Sel) (m : Enc α) : Prop := ∀ w v, m.Gives w v → ∀ fill, ∃ s ∈ S, s.Sees (concr fill w)

theorem Shows.mono {S T : List Sel} {m : Enc α} (h : m.Shows S) (hs : ∀ s ∈ S, s ∈ T) : m.Shows T := fun w v g fill =>
  let ⟨s, h1, h2⟩ := h w v g fill
  ⟨s, hs s h1, h2⟩
theorem Shows.throwIf {S : List Sel} {c : Bool} {e : Err} {f : Unit → Enc β} (h : c = false → (f ()).Shows S) : (Enc.throwIf c e >>= f).Shows S := by
  intro w v g
  rw [Enc.throwIf_bind] at g
  exact h g.1 w v g.2
theorem Shows.throw {S : List Sel} (e : Err) : (Enc.throw e : Enc α).Shows S := fun _ _ g => (gives_throw.mp g).elim
theorem Shows.lift {S : List Sel} {e : Except Err β} {f : β → Enc α} (h : ∀ x, e = .ok x → (f x).Shows S) : (Enc.lift e >>= f).Shows S := by
  intro w v g
  rw [Enc.lift_bind] at g
  obtain ⟨x, hx, g⟩ := g
  exact h x hx w v g

end Xbyak.Enc

namespace Xbyak.Mn
open E

/-! ## The helpers -/

theorem opVex_shows (r : Reg) (v : Option Reg) (op : Operand) (type : Ty) (code : Byte) (imm : Option Byte)
    (hd : ∀ a, op = .mem a → a.mode ≠ .disp64) {e : Option (BitVec 3)} {m : Option Bool} {i : Option Byte} (he : OLe e (some (lo3 r.idx)))
    (hm : OLe m (some op.isMEM)) (hi : OLe i imm) : (opVex r v op type code imm).Shows (vexSel type code e m i) := by
  intro w u hw fill
  have vx : type.has T_MUST_EVEX = false → (⟨.vex, mapOf type, code, false, false, false, ppOf type, some (type.has T_W1), e, m, i⟩ : Sel) ∈ vexSel type code e m i := by
    intro h; unfold vexSel; rw [h]; simp
  have ex : type.has (T_EVEX ||| T_MUST_EVEX) = true →
      (⟨.evex, (evexMap type).setWidth 5, code, false, false, false, ppOf type, some (type.has T_EW1), e, m, i⟩ : Sel) ∈ vexSel type code e m i := by
    intro h; unfold vexSel; rw [h]; simp
  have me : type.has (T_MUST_EVEX ||| T_MEM_EVEX) = false → type.has T_MUST_EVEX = false := by
    intro h
    simp only [Ty.has, bne_eq_false_iff_eq] at h ⊢
    have : T_MUST_EVEX = (T_MUST_EVEX ||| T_MEM_EVEX) &&& T_MUST_EVEX := by decide
    rw [this, ← BitVec.and_assoc, h]; decide
  unfold opVex at hw
  cases op with
  | mem a =>
    dsimp only at hw
    rw [Enc.dbIf_bind] at hw
    obtain ⟨w1, rfl, hw⟩ := hw
    by_cases hx : memEvex r v a type = true
    · rw [if_pos hx] at hw
      rw [Enc.throwIf_bind] at hw
      obtain ⟨_, hw⟩ := hw
      rw [Enc.throwIf_bind] at hw
      obtain ⟨_, hw⟩ := hw
      simp only [Enc.gives_bind, evex_gives, gives_dbOpt] at hw
      obtain ⟨_, n, _, ⟨hty, ln, k, hln, hk, rfl, rfl⟩, ⟨w2, _, _, hw, rfl, rfl⟩, rfl⟩ := hw
      refine ⟨_, ex hty, Sel.sees_of imm (h := (evexF r a.getRegExp.base v type (some a.getRegExp.index) (a.getRegExp.index.isSIMD && a.getRegExp.index.isExtIdx2) ln k).head code a.is32bit) (w := w2) (fill := fill) ?_
        (tails_opAddr (by exact hd a rfl) hw) ⟨rfl, rfl, rfl, rfl, rfl, rfl, rfl, .inr rfl⟩ he hm hi⟩
      have e := head_evex (evexF r a.getRegExp.base v type (some a.getRegExp.index) (a.getRegExp.index.isSIMD && a.getRegExp.index.isExtIdx2) ln k) code a.is32bit
      simp only [concr_append, concr_bytes]
      exact e _
    · rw [if_neg hx] at hw
      have hx' : type.has (T_MUST_EVEX ||| T_MEM_EVEX) = false := by
        unfold memEvex at hx
        simp only [Bool.or_eq_true, not_or, Bool.not_eq_true] at hx
        exact hx.1.1.1.1.1
      simp only [Enc.gives_bind, vex_gives, gives_dbOpt, Enc.gives_pure] at hw
      obtain ⟨_, _, _, ⟨⟨h1, h2, h3⟩, rfl⟩, ⟨_, _, _, ⟨rfl, rfl⟩, ⟨w2, _, _, hw, rfl, rfl⟩, rfl⟩, rfl⟩ := hw
      refine ⟨_, vx (me hx'), Sel.sees_of imm (h := vexHead r a.getRegExp.base v type code a.getRegExp.index.isExtIdx a.is32bit) (w := w2) (fill := fill) ?_
        (tails_opAddr (by exact hd a rfl) hw) ⟨rfl, rfl, rfl, rfl, rfl, rfl, rfl, .inr rfl⟩ he hm hi⟩
      have e := head_vex r a.getRegExp.base v type code a.getRegExp.index.isExtIdx a.is32bit h1
      simp only [concr_append, concr_bytes]
      exact e _
  | reg b =>
    dsimp only at hw
    by_cases hx : regEvex r v b type = true
    · rw [if_pos hx] at hw
      simp only [Enc.gives_bind, evex_gives, setModRM, Enc.gives_db, gives_dbOpt] at hw
      obtain ⟨_, _, _, ⟨hty, ln, k, hln, hk, rfl, rfl⟩, ⟨_, _, _, rfl, rfl, rfl⟩, rfl⟩ := hw
      refine ⟨_, ex hty, Sel.sees_of imm (h := (evexF r b v type none false ln k).head code false) (fill := fill) ?_
        (tails_reg r.idx b.idx) ⟨rfl, rfl, rfl, rfl, rfl, rfl, rfl, .inr rfl⟩ he hm hi⟩
      have e := head_evex (evexF r b v type none false ln k) code false
      simp only [concr_append, concr_bytes]
      exact e _
    · rw [if_neg hx] at hw
      have hx' : type.has T_MUST_EVEX = false := by
        unfold regEvex at hx
        simp only [Bool.or_eq_true, not_or, Bool.not_eq_true] at hx
        exact hx.1.1.1
      simp only [Enc.gives_bind, vex_gives, setModRM, Enc.gives_db, gives_dbOpt] at hw
      obtain ⟨_, _, _, ⟨⟨h1, h2, h3⟩, rfl⟩, ⟨_, _, _, rfl, rfl, rfl⟩, rfl⟩ := hw
      refine ⟨_, vx hx', Sel.sees_of imm (h := vexHead r b v type code false false) (fill := fill) ?_
        (tails_reg r.idx b.idx) ⟨rfl, rfl, rfl, rfl, rfl, rfl, rfl, .inr rfl⟩ he hm hi⟩
      have e := head_vex r b v type code false false h1
      simp only [concr_append, concr_bytes]
      exact e _

theorem concr_opt (fill : Act → BitVec 32) (w : List Act) (i : Option Byte) :
    concr fill (w ++ i.toList.map .byte) = concr fill w ++ i.toList := by rw [concr_append, concr_bytes]

theorem apxPP_wide {r d : Reg} {type : Ty} (h : type.has (T_F2 ||| T_F3 ||| T_66) = true ∨ (r.isBit 16 = false ∧ d.isBit 16 = false)) :
    apxPP r d type = ppOf type := by
  unfold apxPP
  by_cases hp : type.has (T_F2 ||| T_F3 ||| T_66) = true
  · rw [if_pos hp]
  · rw [if_neg hp]
    rcases h with h | ⟨h1, h2⟩
    · exact absurd h hp
    rw [h1, h2]
    have z : ∀ u : Ty, u &&& (T_F2 ||| T_F3 ||| T_66) = u → type.has u = false := by
      intro u hu
      simp only [Ty.has, Bool.not_eq_true, bne_eq_false_iff_eq] at hp ⊢
      rw [← hu, BitVec.and_comm u, ← BitVec.and_assoc, hp]; exact BitVec.zero_and
    unfold ppOf
    rw [z T_66 (by decide), z T_F3 (by decide), z T_F2 (by decide)]; rfl

theorem roo_sees {d : Reg} {op1 op2 : Operand} {type : Ty} {code c : Byte} {n : Nat} (hu : rooUsed d op1 op2 type = true)
    (ha : type.has T_APX = true ∨ mapOf type = 0) (hd : ∀ a, rooRm op1 op2 = .mem a → a.mode ≠ .disp64)
    (ho : opc type d (rooCode op1 op2 code) = c) (hp : apxPP (rooReg op1 op2) d type = ppOf type) {w : List Act} {v : Bool}
    (hw : (opROO d op1 op2 type code n).Gives w v) (imm : Option Byte) {e : Option (BitVec 3)} {m : Option Bool} {i : Option Byte}
    (he : OLe e (some (lo3 (rooReg op1 op2).idx))) (hm : OLe m (some (rooRm op1 op2).isMEM)) (hi : OLe i imm) (fill : Act → BitVec 32) :
    v = true ∧ (apxSel type c e m i).Sees (concr fill (w ++ imm.toList.map .byte)) := by
  obtain ⟨_, rfl, hok, w', hw', rfl⟩ := (roo_gives d op1 op2 type code n none hu w v).1 hw
  refine ⟨rfl, ?_⟩
  rw [roo_bytes _ _ _ ha, ho]
  refine Sel.sees_of (r := (rooReg op1 op2).idx) (m := (rooRm op1 op2).isMEM) (w := w') (fill := fill) imm
    (h := (rooF d op1 op2 type none).head c false) ?_ ?_ ⟨rfl, rfl, rfl, rfl, rfl, rfl, hp, ?_⟩ he hm hi
  · rw [concr_opt, concr_append, concr_bytes, List.append_assoc]
    exact head_evex _ c false _
  · cases hr : rooRm op1 op2 with
    | reg q =>
      rw [hr] at hw'
      have hw' : (setModRM 3 (rooReg op1 op2).idx q.idx).Gives w' () := hw'
      rw [setModRM, Enc.gives_db] at hw'
      subst hw'
      exact tails_reg _ _
    | mem a =>
      rw [hr] at hw'
      exact tails_opAddr (by exact hd a hr) hw'
  · show OLe (if type.has T_W0 = true then some false else if type.has T_W1 = true then some true else none) (some (apxW (rooReg op1 op2) d type))
    unfold apxW
    split
    · exact .inr rfl
    · split
      · rename_i h; rw [h, Bool.or_true]; exact .inr rfl
      · exact .inl rfl

/-- The flags and the opcode of a legacy instruction outside the one-byte map. -/
def legT (t : Ty) (c : Byte) : Bool :=
  !t.has T_APX && !t.has T_CODE1_IF1 && (t &&& T_SENTRY != 0) && decide (X86.OpcodeOK (mapOf t) c)

theorem legT_opc {t : Ty} {c : Byte} (h : legT t c = true) (q : Reg) : opc t q c = c ∧ t.has T_APX = false ∧ X86.OpcodeOK (mapOf t) c := by
  unfold legT at h
  simp only [Bool.and_eq_true, Bool.not_eq_true', decide_eq_true_eq, bne_iff_ne] at h
  obtain ⟨⟨⟨h1, h2⟩, h3⟩, h4⟩ := h
  refine ⟨?_, h1, h4⟩
  unfold opc
  rw [h2, beq_eq_false_iff_ne.mpr h3]
  simp [sel]

theorem rr_sees {r q : Reg} {type : Ty} {code : Byte} (ht : legT type code = true) {w : List Act} (hw : (opRR r q type code).Gives w ())
    {p : Bool} (hp : p66of type q r = p) (imm : Option Byte) {x : Option Bool} {e : Option (BitVec 3)} {m : Option Bool} {i : Option Byte}
    (hx : OLe x (some (q.isREG 64 || r.isREG 64))) (he : OLe e (some (lo3 r.idx))) (hm : OLe m (some false)) (hi : OLe i imm)
    (fill : Act → BitVec 32) : (legSel type code p x e m i).Sees (concr fill (w ++ imm.toList.map .byte)) := by
  obtain ⟨h1, h2, h3⟩ := legT_opc ht r
  obtain ⟨_, _, hr, rfl⟩ := (opRR_gives r q type code (fun h => by rw [h2] at h; cases h) w).1 hw
  rw [h1, hp]
  refine Sel.sees_of (r := r.idx) (m := false) (w := [.byte (modRM 3 r.idx q.idx)]) (fill := fill) imm ?_ (tails_reg _ _)
    (h := (extRR r q).head { p66 := p, pF2 := type.has T_F2, pF3 := type.has T_F3, p67 := false } (mapOf type) code) ⟨?_, rfl, rfl, rfl, rfl, rfl, rfl, hx⟩ he hm hi
  · rw [concr_opt, concr_bytes, List.append_assoc]
    exact head_legBytes _ _ _ _ _ h3 hr.2.2 _
  · show (if (if (extRR r q).rex2 = true then X86.Space.rex2 else .legacy) = .rex2 then X86.Space.legacy else if (extRR r q).rex2 = true then .rex2 else .legacy) = _
    cases (extRR r q).rex2 <;> rfl

theorem mr_sees {a : Addr} {r : Reg} {type : Ty} {code : Byte} (ht : legT type code = true) {w : List Act} (hw : (opMR a r type code).Gives w ())
    {p : Bool} (hp : (!type.has T_ALLOW_DIFF_SIZE && decide (r.bit ≤ 64) && decide (a.o.bit > 0) && a.o.bit != r.bit) = false → p66of type a.o r = p)
    (imm : Option Byte) {x : Option Bool} {e : Option (BitVec 3)} {m : Option Bool} {i : Option Byte}
    (hx : OLe x (some (r.isREG 64))) (he : OLe e (some (lo3 r.idx))) (hm : OLe m (some true)) (hi : OLe i imm)
    (fill : Act → BitVec 32) : (legSel type code p x e m i).Sees (concr fill (w ++ imm.toList.map .byte)) := by
  obtain ⟨h1, h2, h3⟩ := legT_opc ht r
  obtain ⟨h64, hs, hr, w', hw', rfl⟩ := (opMR_gives a r type code (fun h => by rw [h2] at h; cases h) w).1 hw
  rw [h1, hp hs]
  refine Sel.sees_of (r := r.idx) (m := true) (w := w') (fill := fill) imm ?_ (tails_opAddr ?_ hw')
    (h := (extMR r a).head { p66 := p, pF2 := type.has T_F2, pF3 := type.has T_F3, p67 := a.is32bit } (mapOf type) code) ⟨?_, rfl, rfl, rfl, rfl, rfl, rfl, hx⟩ he hm hi
  · rw [concr_opt, concr_append, concr_bytes, List.append_assoc]
    exact head_legBytes _ _ _ _ _ h3 hr.2.2 _
  · intro h; unfold Addr.is64bitDisp at h64; rw [h] at h64; cases h64
  · show (if (if (extMR r a).rex2 = true then X86.Space.rex2 else .legacy) = .rex2 then X86.Space.legacy else if (extMR r a).rex2 = true then .rex2 else .legacy) = _
    cases (extMR r a).rex2 <;> rfl

/-- Whether W is set: a 64-bit general register. -/
def has64 (r : Reg) (op : Operand) : Bool := r.isREG 64 || (!op.isMEM && op.hd.isREG 64)

theorem sse_shows (r : Reg) (op : Operand) (type : Ty) (code : Byte) (valid : Option (Operand → Operand → Bool)) (imm : Option Byte)
    (ht : legT type code = true) {p : Bool} {x : Option Bool} {e : Option (BitVec 3)} {m : Option Bool} {i : Option Byte}
    (hp : (∀ a, op = .mem a → (!type.has T_ALLOW_DIFF_SIZE && decide (r.bit ≤ 64) && decide (a.o.bit > 0) && a.o.bit != r.bit) = false) →
      p66of type op.hd r = p)
    (hx : (∀ f, valid = some f → f (.reg r) op = true) → OLe x (some (has64 r op)))
    (he : OLe e (some (lo3 r.idx))) (hm : OLe m (some op.isMEM)) (hi : OLe i imm) :
    (opSSE r op type code valid imm).Shows [legSel type code p x e m i] := by
  intro w v hw fill
  unfold opSSE at hw
  rw [Enc.throwIf_bind, Enc.throwIf_bind] at hw
  obtain ⟨hv, _, hw⟩ := hw
  have hx := hx (by rintro f rfl; simpa using hv)
  simp only [Enc.gives_bind, gives_dbOpt] at hw
  obtain ⟨w1, _, _, hw, rfl, rfl⟩ := hw
  refine ⟨_, List.mem_singleton.mpr rfl, ?_⟩
  unfold opRO at hw
  cases op with
  | mem a =>
    refine mr_sees ht hw (fun h => hp ?_) imm ?_ he hm hi fill
    · rintro _ ⟨⟩; exact h
    · simpa [has64, Operand.isMEM] using hx
  | reg q =>
    dsimp only at hw
    rw [Enc.throwIf_bind] at hw
    refine rr_sees ht hw.2 (hp ?_) imm ?_ he hm hi fill
    · rintro _ ⟨⟩
    · rw [Bool.or_comm]; simpa [has64, Operand.isMEM, Operand.hd] using hx

/-- The flags of an EVEX-promoted instruction whose opcode is written as given. -/
def rooT (t : Ty) : Bool := (t.has T_APX || decide (mapOf t = 0)) && !t.has T_CODE1_IF1 && (t &&& T_SENTRY != 0)

theorem rooT_opc {t : Ty} (h : rooT t = true) : (t.has T_APX = true ∨ mapOf t = 0) ∧ ∀ q c, opc t q c = c := by
  unfold rooT at h
  simp only [Bool.and_eq_true, Bool.or_eq_true, Bool.not_eq_true', decide_eq_true_eq, bne_iff_ne] at h
  refine ⟨h.1.1, fun q c => ?_⟩
  unfold opc
  rw [h.1.2, beq_eq_false_iff_ne.mpr h.2]
  simp [sel]

/-! ## The arguments -/

/-- Arguments as a caller can make them, without 64-bit absolute addresses: those are written by `opAddr` (xbyak.h 2124-2145) with no
ModRM byte (see C38). -/
structure Args.Good (g : Args) : Prop where
  disp : ∀ i a, g.op i = .mem a → a.mode ≠ .disp64
  kind : ∀ i a, g.op i = .mem a → a.o.kind = .mem
  size : ∀ i r, g.op i = .reg r → r.kind = .reg → r.bit = 8 ∨ r.bit = 16 ∨ r.bit = 32 ∨ r.bit = 64

/-- The operands have the types listed. -/
def Args.Are (g : Args) (ps : List Param) : Prop := ∀ (i : Nat) (p : Param), ps[i]? = some p → p.takes (g.op i) = true

theorem Slot.num_le (g : Args) (s : Slot) : OLe s.num (some (lo3 (s.reg g).idx)) := by
  cases s with
  | r q => exact .inr rfl
  | kindOf i n => exact .inr rfl
  | bitOf i n => exact .inr rfl
  | zeroOf i =>
    refine .inr ?_
    show some (0 : BitVec 3) = some (lo3 (cvtIdx0 (g.reg i)).idx)
    unfold cvtIdx0
    split
    · rfl
    · split <;> rfl
  | _ => exact .inl rfl

theorem Imm.num_le (g : Args) (i : Imm) : OLe i.num (i.val g) := by
  cases i with
  | c b => exact .inr rfl
  | _ => exact .inl rfl

theorem Param.takes_reg {p : Param} {o : Operand} (h : p.takes o = true) (h1 : p ≠ .op) (h2 : p ≠ .addr) : o.isMEM = false := by
  cases p <;> simp_all [Param.takes]

theorem Slot.mem_le {g : Args} {ps : List Param} (ht : g.Are ps) (s : Slot) : OLe (s.isMem ps) (some (s.op g).isMEM) := by
  cases s with
  | a i =>
    show OLe (Slot.isMem ps (.a i)) (some (g.op i).isMEM)
    simp only [Slot.isMem]
    cases hp : ps[i]? with
    | none => exact .inl rfl
    | some p =>
      have h := ht i p hp
      cases p
      case addr => refine .inr ?_; show some true = _; rw [show (g.op i).isMEM = true from h]
      case op => exact .inl rfl
      case int => exact .inl rfl
      case label => exact .inl rfl
      case absAddr => exact .inl rfl
      case enc => exact .inl rfl
      all_goals exact .inr (congrArg some (Param.takes_reg h (by decide) (by decide)).symm)
  | _ => exact .inr rfl

theorem isREG_kind {r : Reg} (h : r.kind ≠ .reg) (m : Nat) : r.isREG m = false := by
  unfold Reg.isREG; rw [beq_eq_false_iff_ne.mpr h]; rfl

theorem Slot.is64_eq {g : Args} (hg : g.Good) {ps : List Param} (ht : g.Are ps) (s : Slot) {b : Bool} (h : s.is64 ps = some b) :
    (s.reg g).isREG 64 = b := by
  cases s with
  | a i =>
    simp only [Slot.is64] at h
    show (g.op i).hd.isREG 64 = b
    cases hp : ps[i]? with
    | none => simp [hp] at h
    | some p =>
      have ht := ht i p hp
      rw [hp] at h
      have nk : ∀ m, (g.op i).hd.kind ≠ .reg → b = false → (g.op i).hd.isREG m = b := by
        intro m h hb; rw [isREG_kind h, hb]
      cases p <;> simp only [Option.some.injEq, reduceCtorEq] at h <;> subst h
      case reg64 => simp only [Param.takes, Bool.and_eq_true] at ht; exact ht.2
      case reg32 =>
        simp only [Param.takes, Bool.and_eq_true, Operand.isREG] at ht
        cases ho : g.op i with
        | mem a => rw [ho] at ht; cases ht.1
        | reg r =>
          rw [ho] at ht
          have hk : r.isREG 32 = true := ht.2
          show r.isREG 64 = false
          unfold Reg.isREG at hk ⊢
          simp only [Bool.and_eq_true, beq_iff_eq] at hk
          have := hg.size i r ho hk.1
          obtain ⟨h1, h2⟩ := hk
          unfold Reg.isBit at h2 ⊢
          rcases this with h | h | h | h <;> rw [h] at h2 ⊢ <;> simp_all
      case addr =>
        cases ho : g.op i with
        | mem a => exact isREG_kind (by show a.o.kind ≠ _; rw [hg.kind i a ho]; decide) _
        | reg r => simp [Param.takes, ho, Operand.isMEM] at ht
      all_goals
        refine nk _ ?_ rfl
        intro hk
        simp [Param.takes, Reg.isSIMD, Reg.isXMM, Reg.isYMM, Reg.isZMM, Reg.isMMX, hk] at ht
  | r q => exact Option.some.inj h
  | xmmOf i => rw [← Option.some.inj h]; simp [Slot.reg, Slot.op, Operand.hd, Reg.xmm, Reg.ymm, Reg.gp, Reg.isREG, Reg.isBit]
  | ymmOf i => rw [← Option.some.inj h]; simp [Slot.reg, Slot.op, Operand.hd, Reg.xmm, Reg.ymm, Reg.gp, Reg.isREG, Reg.isBit]
  | gp16Of i => rw [← Option.some.inj h]; simp [Slot.reg, Slot.op, Operand.hd, Reg.xmm, Reg.ymm, Reg.gp, Reg.isREG, Reg.isBit]
  | gp64Of i => rw [← Option.some.inj h]; simp [Slot.reg, Slot.op, Operand.hd, Reg.xmm, Reg.ymm, Reg.gp, Reg.isREG, Reg.isBit]
  | _ => cases h

theorem Slot.disp {g : Args} (hg : g.Good) (s : Slot) : ∀ a, s.op g = .mem a → a.mode ≠ .disp64 := by
  intro a h
  cases s with
  | a i => exact hg.disp i a h
  | _ => cases h

theorem Slot.opt_disp {g : Args} (hg : g.Good) {s : Slot} {o : Operand} (h : s.opt g = some o) : ∀ a, o = .mem a → a.mode ≠ .disp64 := by
  cases s with
  | a i =>
    intro a ha
    refine hg.disp i a ?_
    show (g.ops[i]?).getD _ = _
    rw [show g.ops[i]? = some o from h]; exact ha
  | _ => cases h; intro a ha; cases ha

theorem Slot.mem_disp {g : Args} (hg : g.Good) (s : Slot) : (s.mem g).mode ≠ .disp64 := by
  cases s with
  | a i =>
    show (g.mem i).mode ≠ _
    unfold Args.mem
    cases h : g.op i with
    | mem m => exact hg.disp i m h
    | reg r => intro h; cases h
  | _ => intro h; cases h

/-- The slot cannot be a 16-bit register unless an argument is. -/
def Slot.wide : Slot → Bool
  | .gp16Of _ => false
  | .r q => !q.isBit 16
  | _ => true

theorem Slot.no16 {g : Args} (hb : ∀ i, (g.op i).isBit 16 = false) {s : Slot} (hs : s.wide = true) : (s.reg g).isBit 16 = false := by
  cases s with
  | a i => exact hb i
  | r q => simpa [Slot.wide, Slot.reg, Slot.op, Operand.hd] using hs
  | xmmOf i => simp [Slot.reg, Slot.op, Operand.hd, Reg.xmm, Reg.ymm, Reg.gp, Reg.isBit]
  | ymmOf i => simp [Slot.reg, Slot.op, Operand.hd, Reg.xmm, Reg.ymm, Reg.gp, Reg.isBit]
  | gp16Of i => cases hs
  | gp64Of i => simp [Slot.reg, Slot.op, Operand.hd, Reg.xmm, Reg.ymm, Reg.gp, Reg.isBit]
  | kindOf i n =>
    show (vecOf (g.reg i).kind n).isBit 16 = false
    unfold vecOf Reg.isBit
    dsimp only
    split
    · rfl
    · split <;> rfl
  | zeroOf i =>
    show (cvtIdx0 (g.reg i)).isBit 16 = false
    unfold cvtIdx0
    split
    · rfl
    · split <;> rfl
  | bitOf i n => exact hb i
  | nfOf i => exact hb i

/-! ## The lines -/

theorem avx3_shows (x1 : Reg) (op1 : Operand) (op2 : Option Operand) (type : Ty) (code : Byte) (imm : Option Byte)
    (h1 : ∀ a, op1 = .mem a → a.mode ≠ .disp64) (h2 : ∀ o a, op2 = some o → o = .mem a → a.mode ≠ .disp64) {e : Option (BitVec 3)} {i : Option Byte}
    (he : OLe e (some (lo3 x1.idx))) {m : Option Bool} (hm : OLe m (some (op2.getD op1).isMEM)) (hi : OLe i imm) :
    (opAVX_X_X_XM x1 op1 op2 type code imm).Shows (vexSel type code e m i) := by
  unfold opAVX_X_X_XM
  refine Enc.Shows.throwIf fun _ => opVex_shows _ _ _ _ _ _ ?_ he ?_ hi
  · cases op2 with
    | none => exact h1
    | some o => exact fun a h => h2 o a rfl h
  · cases op2 <;> exact hm

theorem mem_append_left' {α : Type} {l1 l2 : List α} : ∀ s ∈ l1, s ∈ l1 ++ l2 := fun _ h => List.mem_append_left _ h
theorem mem_append_right' {α : Type} {l1 l2 : List α} : ∀ s ∈ l2, s ∈ l1 ++ l2 := fun _ h => List.mem_append_right _ h

theorem cvt_shows (x : Reg) (op : Operand) (type : Ty) (code : Byte) (h1 : ∀ a, op = .mem a → a.mode ≠ .disp64) {m : Option Bool}
    (hm : OLe m (some op.isMEM)) : (opCvt x op type code).Shows (vexSel type code none m none) :=
  opVex_shows _ _ _ _ _ _ h1 (.inl rfl) hm (.inl rfl)

/-- `orEvexIf` gives one of two sets of flags. -/
theorem orEvexIf_cases {d e : PrefEnc} {tv te t : Ty} {s : Nat} (h : orEvexIf d e tv te s = .ok t) : t = tv ∨ t = T_MUST_EVEX ||| te := by
  unfold orEvexIf at h
  cases hg : getEncoding d e s with
  | error x => rw [hg] at h; cases h
  | ok x =>
    rw [hg] at h
    cases h
    split
    · exact .inl rfl
    · exact .inr rfl


/-- What `Leaf.shows` needs to know about a line. -/
def Leaf.vec (ps : List Param) : Leaf → Bool
  | avx3 .. | avx2 .. | avxK .. | vex .. | vexCB .. | cvt .. | cvt2 .. | cvt3 .. | cvt5 .. | cvt6 .. | encoding .. | cvt2Enc .. | vmov .. | gather ..
  | gather2 .. | gatherFetch .. => true
  | kmov k _ _ sz => k.par ps == some .opmask && rooT (T_APX ||| kmovType true sz) && rooT (T_APX ||| kmovType false sz)
  | amx _ _ t _ => rooT (T_APX ||| t)
  | sse r op t c _ _ => legT t c && (!r.is16 || op.par ps == some .addr && !t.has T_ALLOW_DIFF_SIZE)
  | sseApx _ _ t c t2 _ _ => legT t c && rooT t2
  | mmx _ _ c t p _ => legT t c && legT (t ||| p) c
  | mmxImm r _ c _ => (r.par ps == some .mmx || r.par ps == some .xmm) && legT T_0F c && legT (T_0F ||| T_66) c
  | movXmm _ _ t c => legT t c && legT t (c ||| 1)
  | ext _ _ c _ _ => legT (T_66 ||| T_0F3A) c
  | rro _ _ _ t _ _ => rooT (t ||| T_W1) && rooT (t ||| T_W0)
  | encodeKey a b c _ => a.par ps == some .reg32 && b.par ps == some .reg32 && legT (T_F3 ||| T_0F38) c
  | _ => false

def tyPre : Ty := T_F2 ||| T_F3 ||| T_66

/-- The instruction has no prefix 66, F2, F3, and so changes if `rex` adds 66 for a 16-bit operand. -/
def Leaf.bare : Leaf → Bool
  | kmov .. => true
  | amx _ _ t _ => !t.has tyPre
  | sse r _ t _ _ _ => !t.has T_66 && !r.is16
  | sseApx _ _ t _ t2 _ _ => !t.has T_66 || !t2.has tyPre
  | mmx _ _ _ t p _ => !t.has T_66 || !(t ||| p).has T_66
  | movXmm _ _ t _ => !t.has T_66
  | ext _ _ _ _ m => m
  | rro _ _ _ t _ _ => !t.has tyPre
  | _ => false

def Leaf.slots : Leaf → List Slot
  | kmov a b _ _ | amx a b _ _ | sse a b _ _ _ _ | sseApx a b _ _ _ _ _ | mmx a b _ _ _ _ | movXmm a b _ _ | ext a b _ _ _ => [a, b]
  | rro a b c _ _ _ => [a, b, c]
  | _ => []

theorem has_or_left {t u v : Ty} (h : t.has v = true) : (t ||| u).has v = true := by
  simp only [Ty.has, bne_iff_ne] at h ⊢
  intro h'
  apply h
  have : t &&& v = (t ||| u) &&& v &&& t := by
    rw [BitVec.and_assoc, BitVec.and_comm v t, ← BitVec.and_assoc]
    congr 1
    ext i hi; simp; cases t[i] <;> simp
  rw [this, h']; exact BitVec.zero_and

theorem p66_bare {t : Ty} {a b : Reg} (h : t.has T_66 = true ∨ (a.isBit 16 = false ∧ b.isBit 16 = false)) : p66of t a b = t.has T_66 := by
  unfold p66of
  rcases h with h | ⟨h1, h2⟩
  · rw [h]; rfl
  · rw [h1, h2]; simp

section
variable {g : Args} (hg : g.Good) {ps : List Param} (ht : g.Are ps)
include hg ht

omit ht in
theorem Leaf.shows_avx3 (x a b : Slot) (t : Ty) (c : Byte) (i : Imm) : ((Leaf.avx3 x a b t c i).run g).Shows ((Leaf.avx3 x a b t c i).sels ps) := by
  have hn := Slot.num_le g
  have hi := Imm.num_le g
  have hd := fun s => Slot.disp hg s
  have ho := fun (s : Slot) o a (h : s.opt g = some o) => Slot.opt_disp hg (s := s) h a
  show (opAVX_X_X_XM (x.reg g) (a.op g) (b.opt g) t c (i.val g)).Shows (vexSel t c x.num none i.num)
  exact avx3_shows _ _ _ _ _ _ (hd a) (ho b) (hn x) (.inl rfl) (hi i)

theorem Leaf.shows_avx2 (x o : Slot) (t : Ty) (c : Byte) (i : Imm) : ((Leaf.avx2 x o t c i).run g).Shows ((Leaf.avx2 x o t c i).sels ps) := by
  have hn := Slot.num_le g
  have hi := Imm.num_le g
  have hm := fun s => Slot.mem_le ht s
  have hd := fun s => Slot.disp hg s
  show (opAVX_X_X_XM (x.reg g) (.reg (cvtIdx0 (x.reg g))) (some (o.op g)) t c (i.val g)).Shows (vexSel t c x.num (o.isMem ps) i.num)
  refine avx3_shows _ _ _ _ _ _ (fun a h => by cases h) ?_ (hn x) (hm o) (hi i)
  intro o' a h h'; cases h; exact hd o a h'

theorem Leaf.shows_avxK (k x o : Slot) (t : Ty) (c : Byte) (i : Imm) : ((Leaf.avxK k x o t c i).run g).Shows ((Leaf.avxK k x o t c i).sels ps) := by
  have hn := Slot.num_le g
  have hi := Imm.num_le g
  have hm := fun s => Slot.mem_le ht s
  have hd := fun s => Slot.disp hg s
  show (opAVX_K_X_XM (k.reg g) (x.reg g) (o.op g) t c (i.val g)).Shows (vexSel t c k.num (o.isMem ps) i.num)
  unfold opAVX_K_X_XM
  exact Enc.Shows.throwIf fun _ => opVex_shows _ _ _ _ _ _ (hd o) (hn k) (hm o) (hi i)

theorem Leaf.shows_vex (r : Slot) (v : Option Slot) (o : Slot) (t : Ty) (c : Byte) (i : Imm) : ((Leaf.vex r v o t c i).run g).Shows ((Leaf.vex r v o t c i).sels ps) := by
  have hn := Slot.num_le g
  have hi := Imm.num_le g
  have hm := fun s => Slot.mem_le ht s
  have hd := fun s => Slot.disp hg s
  simp only [Leaf.run, Leaf.sels]
  exact opVex_shows _ _ _ _ _ _ (hd o) (hn r) (hm o) (hi i)

theorem Leaf.shows_vexCB (k o : Slot) (t : Ty) (c : Byte) (i : Imm) : ((Leaf.vexCB k o t c i).run g).Shows ((Leaf.vexCB k o t c i).sels ps) := by
  have hi := Imm.num_le g
  have hm := fun s => Slot.mem_le ht s
  have hd := fun s => Slot.disp hg s
  exact Enc.Shows.lift fun _ _ => opVex_shows _ _ _ _ _ _ (hd o) (.inl rfl) (hm o) (hi i)

theorem Leaf.shows_cvt (x o : Slot) (t : Ty) (c : Byte) : ((Leaf.cvt x o t c).run g).Shows ((Leaf.cvt x o t c).sels ps) := by
  have hm := fun s => Slot.mem_le ht s
  have hd := fun s => Slot.disp hg s
  show (opCvt (x.reg g) (o.op g) t c).Shows (vexSel t c none (o.isMem ps) none)
  exact cvt_shows _ _ _ _ (hd o) (hm o)

theorem Leaf.shows_cvt2 (x o : Slot) (t : Ty) (c : Byte) : ((Leaf.cvt2 x o t c).run g).Shows ((Leaf.cvt2 x o t c).sels ps) := by
  have hm := fun s => Slot.mem_le ht s
  have hd := fun s => Slot.disp hg s
  show (opCvt2 (x.reg g) (o.op g) t c).Shows (vexSel t c none (o.isMem ps) none)
  unfold opCvt2
  exact Enc.Shows.throwIf fun _ => cvt_shows _ _ _ _ (hd o) (hm o)

omit ht in
theorem Leaf.shows_cvt3 (x y o : Slot) (t t6 t3 : Ty) (c : Byte) : ((Leaf.cvt3 x y o t t6 t3 c).run g).Shows ((Leaf.cvt3 x y o t t6 t3 c).sels ps) := by
  have hd := fun s => Slot.disp hg s
  refine Enc.Shows.throwIf fun _ => ?_
  have hd' : ∀ a, (if (o.op g).isREG = true then Operand.reg (.xmm (o.op g).hd.idx) else o.op g) = .mem a → a.mode ≠ .disp64 := by
    intro a h; split at h
    · cases h
    · exact hd o a h
  by_cases h64 : (o.op g).isBit 64 = true
  · rw [if_pos h64]
    exact (opVex_shows _ _ _ _ _ _ hd' (.inl rfl) (.inl rfl) (.inl rfl)).mono mem_append_left'
  · rw [if_neg h64]
    exact (opVex_shows _ _ _ _ _ _ hd' (.inl rfl) (.inl rfl) (.inl rfl)).mono mem_append_right'

theorem Leaf.shows_cvt5 (x o : Slot) (t : Ty) (c : Byte) : ((Leaf.cvt5 x o t c).run g).Shows ((Leaf.cvt5 x o t c).sels ps) := by
  have hm := fun s => Slot.mem_le ht s
  have hd := fun s => Slot.disp hg s
  show (opCvt5 (x.reg g) (o.op g) t c).Shows (vexSel t c none (o.isMem ps) none)
  unfold opCvt5
  exact Enc.Shows.throwIf fun _ => opVex_shows _ _ _ _ _ _ (hd o) (.inl rfl) (hm o) (.inl rfl)

theorem Leaf.shows_cvt6 (x y o : Slot) (t : Ty) (c : Byte) : ((Leaf.cvt6 x y o t c).run g).Shows ((Leaf.cvt6 x y o t c).sels ps) := by
  have hm := fun s => Slot.mem_le ht s
  have hd := fun s => Slot.disp hg s
  show (opCvt6 _ _ _ _ _).Shows _
  unfold opCvt6
  dsimp only
  split
  · exact opVex_shows _ _ _ _ _ _ (hd o) (.inl rfl) (hm o) (.inl rfl)
  · exact Enc.Shows.throw _

omit ht in
theorem Leaf.shows_encoding (x y o : Slot) (t : Ty) (c : Byte) (i : Imm) (tv te : Ty) (s : Nat) : ((Leaf.encoding x y o t c i tv te s).run g).Shows ((Leaf.encoding x y o t c i tv te s).sels ps) := by
  have hi := Imm.num_le g
  have ho := fun (s : Slot) o a (h : s.opt g = some o) => Slot.opt_disp hg (s := s) h a
  refine Enc.Shows.lift fun u hu => ?_
  have := fun t' => avx3_shows (x.reg g) (.reg (y.reg g)) (o.opt g) t' c (i.val g) (fun a h => by cases h) (ho o) (e := none) (.inl rfl) (m := none) (.inl rfl) (hi i)
  rcases orEvexIf_cases hu with rfl | rfl
  · exact (this _).mono mem_append_left'
  · exact (this _).mono mem_append_right'

omit ht in
theorem Leaf.shows_cvt2Enc (x o : Slot) (t : Ty) (c : Byte) (tv te : Ty) (s : Nat) : ((Leaf.cvt2Enc x o t c tv te s).run g).Shows ((Leaf.cvt2Enc x o t c tv te s).sels ps) := by
  have hd := fun s => Slot.disp hg s
  refine Enc.Shows.lift fun u hu => Enc.Shows.throwIf fun _ => ?_
  have := fun t' => cvt_shows (x.reg g) (o.op g) t' c (hd o) (m := none) (.inl rfl)
  rcases orEvexIf_cases hu with rfl | rfl
  · exact (this _).mono mem_append_left'
  · exact (this _).mono mem_append_right'

theorem Leaf.shows_vmov (o x : Slot) (t : Ty) (c : Byte) (md : Bool) : ((Leaf.vmov o x t c md).run g).Shows ((Leaf.vmov o x t c md).sels ps) := by
  have hm := fun s => Slot.mem_le ht s
  have hd := fun s => Slot.disp hg s
  show (opVmov (o.op g) (x.reg g) t c md).Shows (vexSel t c none (o.isMem ps) none)
  unfold opVmov
  exact Enc.Shows.throwIf fun _ => opVex_shows _ _ _ _ _ _ (hd o) (.inl rfl) (hm o) (.inl rfl)

omit ht in
theorem Leaf.shows_gather (x m y : Slot) (t : Ty) (c : Byte) (md : Nat) : ((Leaf.gather x m y t c md).run g).Shows ((Leaf.gather x m y t c md).sels ps) := by
  have hk := fun s => Slot.mem_disp hg s
  show (opGather (x.reg g) (m.mem g) (y.reg g) t c md).Shows (vexSel t c none (some true) none)
  unfold opGather
  refine Enc.Shows.throwIf fun _ => Enc.Shows.throwIf fun _ => Enc.Shows.throwIf fun _ => ?_
  refine avx3_shows _ _ _ _ _ _ (fun a h => by cases h) ?_ (.inl rfl) (.inr rfl) (.inl rfl)
  intro o' a h h'; cases h; cases h'; exact hk m

omit ht in
theorem Leaf.shows_gather2 (x m : Slot) (t : Ty) (c : Byte) (md : Nat) : ((Leaf.gather2 x m t c md).run g).Shows ((Leaf.gather2 x m t c md).sels ps) := by
  have hk := fun s => Slot.mem_disp hg s
  show (opGather2 (x.reg g) (m.mem g) t c md).Shows (vexSel t c none (some true) none)
  unfold opGather2
  refine Enc.Shows.throwIf fun _ => Enc.Shows.throwIf fun _ => Enc.Shows.throwIf fun _ => Enc.Shows.throwIf fun _ => ?_
  refine opVex_shows _ _ _ _ _ _ ?_ (.inl rfl) (.inr rfl) (.inl rfl)
  intro a h'; cases h'; exact hk m

omit ht in
theorem Leaf.shows_gatherFetch (m x : Slot) (t : Ty) (c : Byte) (k : Kind) : ((Leaf.gatherFetch m x t c k).run g).Shows ((Leaf.gatherFetch m x t c k).sels ps) := by
  have hn := Slot.num_le g
  have hk := fun s => Slot.mem_disp hg s
  show (opGatherFetch (m.mem g) (x.reg g) t c k).Shows (vexSel t c x.num (some true) none)
  unfold opGatherFetch
  refine Enc.Shows.throwIf fun _ => Enc.Shows.throwIf fun _ => ?_
  refine opVex_shows _ _ _ _ _ _ ?_ (hn x) (.inr rfl) (.inl rfl)
  intro a h'; cases h'; exact hk m

theorem Leaf.shows_sse (r o : Slot) (t : Ty) (c : Byte) (v : Valid) (i : Imm) (hv : (Leaf.sse r o t c v i).vec ps = true)
    (hb : (Leaf.sse r o t c v i).bare = true → ∀ s ∈ [r, o], (s.reg g).isBit 16 = false) :
    ((Leaf.sse r o t c v i).run g).Shows ((Leaf.sse r o t c v i).sels ps) := by
  simp only [Leaf.vec, Bool.and_eq_true] at hv
  obtain ⟨hv, h16⟩ := hv
  simp only [Leaf.run, Leaf.sels]
  refine sse_shows _ _ _ _ _ _ hv ?_ (fun _ => ?_) (Slot.num_le g r) (Slot.mem_le ht o) (Imm.num_le g i)
  · intro hs
    cases hr : r.is16 with
    | true =>
      obtain ⟨n, rfl⟩ : ∃ n, r = .gp16Of n := by cases r <;> first | exact ⟨_, rfl⟩ | cases hr
      rw [hr] at h16
      simp only [Bool.not_true, Bool.false_or, Bool.and_eq_true, beq_iff_eq, Bool.not_eq_true'] at h16
      obtain ⟨hp, hd⟩ := h16
      have ⟨a, ha⟩ : ∃ a, o.op g = .mem a := by
        cases o with
        | a j =>
          have := ht j _ hp
          cases h : g.op j with
          | mem a => exact ⟨a, h⟩
          | reg q => rw [h] at this; cases this
        | _ => cases hp
      have := hs a ha
      rw [ha]
      rw [hd] at this
      show p66of t a.o (.gp (g.reg n).idx 16) = _
      have this : (true && decide (16 ≤ 64) && decide (a.o.bit > 0) && a.o.bit != 16) = false := this
      have hz : a.o.bit = 0 ∨ a.o.bit = 16 := by
        simp at this
        rcases Nat.eq_zero_or_pos a.o.bit with h | h
        · exact .inl h
        · exact .inr (this h)
      unfold p66of Reg.isBit
      rw [show (Reg.gp (g.reg n).idx 16).bit = 16 from rfl]
      rcases hz with h | h <;> rw [h] <;> simp
    | false =>
      rw [Bool.or_false]
      apply p66_bare
      cases h6 : t.has T_66 with
      | true => exact .inl rfl
      | false =>
        have hb' : (Leaf.sse r o t c v i).bare = true := by
          simp only [Leaf.bare, h6, hr, Bool.not_false, Bool.true_and]
        exact .inr ⟨hb hb' o (by simp), hb hb' r (by simp)⟩
  · unfold sseW has64
    cases h1 : r.is64 ps with
    | none => exact .inl rfl
    | some b =>
      rw [Slot.is64_eq hg ht r h1]
      cases b with
      | true => exact .inr rfl
      | false =>
        cases h2 : o.is64 ps with
        | none => exact .inl rfl
        | some b2 =>
          have := Slot.is64_eq hg ht o h2
          refine .inr ?_
          show some b2 = some (false || (!(o.op g).isMEM && (o.op g).hd.isREG 64))
          rw [show (o.op g).hd.isREG 64 = b2 from this, Bool.false_or]
          cases hm : (o.op g).isMEM with
          | false => rfl
          | true =>
            rw [← this]
            cases o with
            | a j =>
              cases h : g.op j with
              | mem a =>
                show some ((g.op j).hd.isREG 64) = _
                rw [h, isREG_kind (by show a.o.kind ≠ _; rw [hg.kind j a h]; decide)]; rfl
              | reg q => rw [show (Slot.a j).op g = g.op j from rfl, h] at hm; cases hm
            | _ => cases hm

omit hg in
theorem Leaf.shows_mmx (r o : Slot) (c : Byte) (t p : Ty) (i : Imm) (hv : (Leaf.mmx r o c t p i).vec ps = true)
    (hb : (Leaf.mmx r o c t p i).bare = true → ∀ s ∈ [r, o], (s.reg g).isBit 16 = false) :
    ((Leaf.mmx r o c t p i).run g).Shows ((Leaf.mmx r o c t p i).sels ps) := by
  simp only [Leaf.vec, Bool.and_eq_true] at hv
  have hw : (∀ f, some isXMMorMMX_MEM = some f → f (.reg (r.reg g)) (o.op g) = true) → OLe (some false) (some (has64 (r.reg g) (o.op g))) := by
    intro h
    have h := h _ rfl
    unfold isXMMorMMX_MEM isXMM_XMMorMEM at h
    simp only [Bool.or_eq_true, Bool.and_eq_true, Operand.hd, Reg.isXMM, Reg.isMMX, beq_iff_eq] at h
    unfold has64
    refine .inr ?_
    have e1 : (r.reg g).isREG 64 = false := isREG_kind (by rcases h with h | h <;> rw [h.1] <;> decide) _
    rw [e1]
    cases hm : (o.op g).isMEM with
    | true => rfl
    | false =>
      rw [isREG_kind (r := (o.op g).hd) ?_]; rfl
      cases ho : o.op g with
      | mem a => rw [ho] at hm; cases hm
      | reg q =>
        rw [ho] at h
        simp only [Operand.hd, Operand.isMEM, Bool.false_eq_true, or_false] at h ⊢
        rcases h with h | h <;> rw [h.2] <;> decide
  have h66 : ∀ u : Ty, u = t ∨ u = t ||| p → p66of u (o.op g).hd (r.reg g) = u.has T_66 := by
    intro u hu
    apply p66_bare
    cases h6 : u.has T_66 with
    | true => exact .inl rfl
    | false =>
      have hb' : (Leaf.mmx r o c t p i).bare = true := by
        simp only [Leaf.bare]
        rcases hu with rfl | rfl <;> rw [h6] <;> simp
      exact .inr ⟨hb hb' o (by simp), hb hb' r (by simp)⟩
  simp only [Leaf.run, Leaf.sels, opMMX]
  by_cases hx : (r.reg g).isXMM = true
  · rw [if_pos hx]
    exact (sse_shows _ _ _ _ _ _ hv.2 (fun _ => h66 _ (.inr rfl)) hw (.inl rfl) (Slot.mem_le ht o) (Imm.num_le g i)).mono mem_append_right'
  · rw [if_neg hx]
    by_cases hp : r.par ps = some .xmm
    · intro w u hw
      unfold opSSE at hw
      rw [Enc.throwIf_bind] at hw
      exfalso
      have h := hw.1
      cases r with
      | a j =>
        have h2 := ht j _ hp
        have hx' : (g.op j).hd.isXMM = false := Bool.eq_false_iff.mpr hx
        have h3 : (g.op j).hd.isMMX = true := by
          have h : isXMMorMMX_MEM (.reg (g.op j).hd) (o.op g) = true := by
            simp only [Bool.not_eq_false'] at h; exact h
          simp only [isXMMorMMX_MEM, isXMM_XMMorMEM, Bool.or_eq_true, Bool.and_eq_true] at h
          rcases h with h | h
          · exact h.1
          · exact absurd h.1 hx
        simp only [Param.takes, Reg.isSIMD, hx', Bool.false_or, Bool.and_eq_true, Bool.or_eq_true] at h2
        simp only [Reg.isMMX, Reg.isYMM, Reg.isZMM, beq_iff_eq] at h3 h2
        rcases h2.2 with h4 | h4 <;> rw [h4] at h3 <;> cases h3
      | _ => cases hp
    · rw [if_neg hp]
      exact (sse_shows _ _ _ _ _ _ hv.1 (fun _ => h66 _ (.inl rfl)) hw (Slot.num_le g r) (Slot.mem_le ht o) (Imm.num_le g i)).mono mem_append_left'

omit hg in
theorem Leaf.shows_mmxImm (r : Slot) (n : Nat) (c : Byte) (e : BitVec 5) (hv : (Leaf.mmxImm r n c e).vec ps = true) :
    ((Leaf.mmxImm r n c e).run g).Shows ((Leaf.mmxImm r n c e).sels ps) := by
  simp only [Leaf.vec, Bool.and_eq_true, Bool.or_eq_true, beq_iff_eq] at hv
  obtain ⟨⟨hp, h1⟩, h2⟩ := hv
  have hk : (r.reg g).isREG 64 = false := by
    apply isREG_kind
    cases r with
    | a j =>
      intro h
      have h : (g.op j).hd.kind = .reg := h
      rcases hp with hp | hp
      · have := ht j _ hp; simp [Param.takes, Reg.isSIMD, Reg.isXMM, Reg.isYMM, Reg.isZMM, Reg.isMMX, h] at this
      · have := ht j _ hp; simp [Param.takes, Reg.isSIMD, Reg.isXMM, Reg.isYMM, Reg.isZMM, Reg.isMMX, h] at this
    | _ => rcases hp with hp | hp <;> cases hp
  have hg32 : (Reg.gp e 32).isREG 64 = false := by simp [Reg.gp, Reg.isREG, Reg.isBit]
  simp only [Leaf.run, Leaf.sels, opMMX_IMM]
  refine Enc.Shows.throwIf fun _ => ?_
  intro w u hw fill
  simp only [Enc.gives_bind, Enc.gives_db] at hw
  obtain ⟨w1, _, _, hw, rfl, rfl⟩ := hw
  have hb : ∀ t, p66of t (r.reg g) (.gp e 32) = t.has T_66 := by
    intro t; unfold p66of; simp [Reg.gp, Reg.isBit]
  split at hw
  · refine ⟨_, List.mem_cons_of_mem _ (List.mem_singleton.mpr rfl), ?_⟩
    exact rr_sees h2 hw (hb _) (some (g.i8 n)) (.inr (by rw [hk, hg32]; rfl)) (.inr rfl) (.inr rfl) (.inl rfl) fill
  · refine ⟨_, List.mem_cons_self, ?_⟩
    exact rr_sees h1 hw (hb _) (some (g.i8 n)) (.inr (by rw [hk, hg32]; rfl)) (.inr rfl) (.inr rfl) (.inl rfl) fill

omit hg ht in
theorem Leaf.shows_movXmm (a b : Slot) (t : Ty) (c : Byte) (hv : (Leaf.movXmm a b t c).vec ps = true)
    (hb : (Leaf.movXmm a b t c).bare = true → ∀ s ∈ [a, b], (s.reg g).isBit 16 = false) :
    ((Leaf.movXmm a b t c).run g).Shows ((Leaf.movXmm a b t c).sels ps) := by
  simp only [Leaf.vec, Bool.and_eq_true] at hv
  have h66 : p66of t (a.reg g) (b.reg g) = t.has T_66 ∧ p66of t (b.reg g) (a.reg g) = t.has T_66 := by
    cases h6 : t.has T_66 with
    | true => rw [← h6]; exact ⟨p66_bare (.inl h6), p66_bare (.inl h6)⟩
    | false =>
      have hb := hb (by simp only [Leaf.bare, h6]; rfl)
      rw [← h6]; exact ⟨p66_bare (.inr ⟨hb a (by simp), hb b (by simp)⟩), p66_bare (.inr ⟨hb b (by simp), hb a (by simp)⟩)⟩
  simp only [Leaf.run, Leaf.sels, opMovXMM]
  refine Enc.Shows.throwIf fun _ => ?_
  have nk : ∀ r : Reg, r.isXMM = true → r.isREG 64 = false := by
    intro r h; apply isREG_kind; simp only [Reg.isXMM, beq_iff_eq] at h; rw [h]; decide
  cases ha : a.op g with
  | reg r =>
    cases hb : b.op g with
    | reg q => exact Enc.Shows.throw _
    | mem m =>
      dsimp only
      split
      · rename_i hx
        intro w u hw fill
        refine ⟨_, List.mem_cons_self, ?_⟩
        have := mr_sees hv.1 hw (p := t.has T_66) (fun _ => ?_) none (x := some false) (.inr (by rw [nk r hx])) (e := none) (.inl rfl) (m := some true) (.inr rfl) (i := none) (.inl rfl) fill
        · rw [concr_opt] at this; simpa using this
        · have h := h66.2
          rw [show b.reg g = m.o by unfold Slot.reg; rw [hb]; rfl, show a.reg g = r by unfold Slot.reg; rw [ha]; rfl] at h; exact h
      · exact Enc.Shows.throw _
  | mem m =>
    cases hb : b.op g with
    | mem q => exact Enc.Shows.throw _
    | reg r =>
      dsimp only
      split
      · rename_i hx
        intro w u hw fill
        refine ⟨_, List.mem_cons_of_mem _ (List.mem_singleton.mpr rfl), ?_⟩
        have := mr_sees hv.2 hw (p := t.has T_66) (fun _ => ?_) none (x := some false) (.inr (by rw [nk r hx])) (e := none) (.inl rfl) (m := some true) (.inr rfl) (i := none) (.inl rfl) fill
        · rw [concr_opt] at this; simpa using this
        · have h := h66.1
          rw [show b.reg g = r by unfold Slot.reg; rw [hb]; rfl, show a.reg g = m.o by unfold Slot.reg; rw [ha]; rfl] at h; exact h
      · exact Enc.Shows.throw _

end

/-! ### Prefix bytes -/

theorem prefixes_p66 (h : X86.Head) (bs : List Byte) : X86.prefixes { h with p66 := true } bs =
    ({ (X86.prefixes h bs).1 with p66 := true }, (X86.prefixes h bs).2) := by
  induction bs generalizing h with
  | nil => rfl
  | cons c t ih =>
    simp only [X86.prefixes]
    split; · rw [ih { h with p66 := true }]
    split; · rw [← ih]
    split; · rw [← ih]
    split; · rw [← ih]
    split; · rw [← ih]
    rfl

theorem prefixes_pF3 (h : X86.Head) (bs : List Byte) : X86.prefixes { h with pF3 := true } bs =
    ({ (X86.prefixes h bs).1 with pF3 := true }, (X86.prefixes h bs).2) := by
  induction bs generalizing h with
  | nil => rfl
  | cons c t ih =>
    simp only [X86.prefixes]
    split; · rw [← ih]
    split; · rw [← ih]
    split; · rw [ih { h with pF3 := true }]
    split; · rw [← ih]
    split; · rw [← ih]
    rfl

theorem opcode_p66 (h : X86.Head) (bs : List Byte) : X86.opcode { h with p66 := true } bs =
    (X86.opcode h bs).map fun x => ({ x.1 with p66 := true }, x.2) := by
  unfold X86.opcode
  split
  · rfl
  · split
    · split
      · rfl
      · split
        · split <;> rfl
        · split
          · split <;> rfl
          · rfl
    · rfl

theorem opcode_pF3 (h : X86.Head) (bs : List Byte) : X86.opcode { h with pF3 := true } bs =
    (X86.opcode h bs).map fun x => ({ x.1 with pF3 := true }, x.2) := by
  unfold X86.opcode
  split
  · rfl
  · split
    · split
      · rfl
      · split
        · split <;> rfl
        · split
          · split <;> rfl
          · rfl
    · rfl

theorem after_p66 (h : X86.Head) (bs : List Byte) : X86.afterPrefixes { h with p66 := true } bs =
    (X86.afterPrefixes h bs).map fun x => ({ x.1 with p66 := true }, x.2) := by
  unfold X86.afterPrefixes
  split
  · rfl
  · split
    · split <;> rfl
    · split
      · split <;> rfl
      · split
        · split <;> rfl
        · split
          · split <;> rfl
          · split
            · exact opcode_p66 (X86.withRex h _) _
            · exact opcode_p66 _ _

theorem after_pF3 (h : X86.Head) (bs : List Byte) : X86.afterPrefixes { h with pF3 := true } bs =
    (X86.afterPrefixes h bs).map fun x => ({ x.1 with pF3 := true }, x.2) := by
  unfold X86.afterPrefixes
  split
  · rfl
  · split
    · split <;> rfl
    · split
      · split <;> rfl
      · split
        · split <;> rfl
        · split
          · split <;> rfl
          · split
            · exact opcode_pF3 (X86.withRex h _) _
            · exact opcode_pF3 _ _

/-- A prefix byte in front. -/
theorem Sel.Sees.pre {s : Sel} {bs : List Byte} (h : s.Sees bs) {x : Byte} (hx : x = 0x66 ∨ x = 0xF3) : (s.pre x).Sees (x :: bs) := by
  obtain ⟨h, c, t, e, o, h1, h2, h3⟩ := h
  rcases hx with rfl | rfl
  · refine ⟨{ h with p66 := true }, c, t, ?_, ⟨o.sp, o.map, o.op, rfl, o.pF2, o.pF3, o.pp, o.w⟩, h1, h2, h3⟩
    unfold X86.head at e ⊢
    have p := prefixes_p66 {} bs
    simp only [X86.prefixes, if_true]
    rw [show X86.prefixes { p66 := true } bs = _ from p]
    dsimp only at e ⊢
    rw [after_p66, e]; rfl
  · refine ⟨{ h with pF3 := true }, c, t, ?_, ⟨o.sp, o.map, o.op, o.p66, o.pF2, rfl, o.pp, o.w⟩, h1, h2, h3⟩
    unfold X86.head at e ⊢
    have p := prefixes_pF3 {} bs
    simp only [X86.prefixes, if_true]
    rw [if_neg (by decide), if_neg (by decide), show X86.prefixes { pF3 := true } bs = _ from p]
    dsimp only at e ⊢
    rw [after_pF3, e]; rfl

/-! ### Lines that choose between two encodings -/

section
variable {g : Args} (hg : g.Good) {ps : List Param} (ht : g.Are ps)
include hg ht

theorem Leaf.shows_sseApx (x o : Slot) (t : Ty) (c : Byte) (t2 : Ty) (c2 : Byte) (i : Imm) (hv : (Leaf.sseApx x o t c t2 c2 i).vec ps = true)
    (hb : (Leaf.sseApx x o t c t2 c2 i).bare = true → ∀ s ∈ [x, o], (s.reg g).isBit 16 = false) :
    ((Leaf.sseApx x o t c t2 c2 i).run g).Shows ((Leaf.sseApx x o t c t2 c2 i).sels ps) := by
  simp only [Leaf.vec, Bool.and_eq_true] at hv
  obtain ⟨hv, hr⟩ := hv
  obtain ⟨ha, ho⟩ := rooT_opc hr
  simp only [Leaf.run, Leaf.sels, opSSE_APX]
  intro w u hw fill
  have sse : ∀ {w : List Act}, (opSSE (x.reg g) (o.op g) t c (some isXMM_XMMorMEM) (i.val g)).Gives w u →
      (legSel t c (t.has T_66) (some false) x.num (o.isMem ps) i.num).Sees (concr fill w) := by
    intro w hw
    have hq : p66of t (o.op g).hd (x.reg g) = t.has T_66 := by
      apply p66_bare
      cases h6 : t.has T_66 with
      | true => exact .inl rfl
      | false =>
        have hb := hb (by simp only [Leaf.bare, h6]; rfl)
        exact .inr ⟨hb o (by simp), hb x (by simp)⟩
    have hw64 : (∀ f, some isXMM_XMMorMEM = some f → f (.reg (x.reg g)) (o.op g) = true) → OLe (some false) (some (has64 (x.reg g) (o.op g))) := by
      intro h
      have h := h _ rfl
      simp only [isXMM_XMMorMEM, Bool.or_eq_true, Bool.and_eq_true, Operand.hd, Reg.isXMM, beq_iff_eq] at h
      refine .inr ?_
      unfold has64
      rw [isREG_kind (r := x.reg g) (by rw [h.1]; decide)]
      cases hm : (o.op g).isMEM with
      | true => rfl
      | false =>
        cases ho : o.op g with
        | mem a => rw [ho] at hm; cases hm
        | reg q =>
          rw [ho] at h
          simp only [Operand.isMEM, Bool.false_eq_true, or_false] at h
          rw [isREG_kind (r := (Operand.reg q).hd) (by show q.kind ≠ _; rw [h.2]; decide)]; rfl
    obtain ⟨s, hs, h⟩ := sse_shows _ _ _ _ _ _ hv (p := t.has T_66) (x := some false) (fun _ => hq) hw64 (Slot.num_le g x) (Slot.mem_le ht o)
      (Imm.num_le g i) w u hw fill
    rw [List.mem_singleton] at hs; subst hs; exact h
  split at hw
  · rename_i hc
    rw [Enc.gives_bind] at hw
    obtain ⟨w1, done, w2, h1, h2, rfl⟩ := hw
    simp only [Bool.and_eq_true] at hc
    have hu : rooUsed .nil (o.op g) (.reg (x.reg g)) t2 = true := by
      unfold rooUsed
      have : (o.op g).hasRex2NFZU = true := by unfold Operand.hasRex2NFZU; rw [hc.2]; rfl
      rw [this]; simp
    have hrr : rooReg (o.op g) (.reg (x.reg g)) = x.reg g := by unfold rooReg; cases o.op g <;> rfl
    have hrm : rooRm (o.op g) (.reg (x.reg g)) = o.op g := by unfold rooRm; cases o.op g <;> rfl
    have hrc : rooCode (o.op g) (.reg (x.reg g)) c2 = c2 := by unfold rooCode; cases o.op g <;> rfl
    have hpp : apxPP (x.reg g) .nil t2 = ppOf t2 := by
      apply apxPP_wide
      cases h6 : t2.has tyPre with
      | true => exact .inl h6
      | false =>
        have hb := hb (by simp only [Leaf.bare, h6]; simp)
        exact .inr ⟨hb x (by simp), rfl⟩
    obtain ⟨rfl, hs⟩ := roo_sees hu ha (c := c2) (by rw [hrm]; exact Slot.disp hg o) (by rw [hrc, ho]) (by rw [hrr]; exact hpp) h1 (i.val g)
      (e := x.num) (m := o.isMem ps) (i := i.num) (by rw [hrr]; exact Slot.num_le g x) (by rw [hrm]; exact Slot.mem_le ht o) (Imm.num_le g i) fill
    rw [if_pos rfl, gives_dbOpt] at h2
    subst h2
    exact ⟨_, List.mem_cons_of_mem _ (List.mem_singleton.mpr rfl), hs⟩
  · rw [Enc.gives_bind] at hw
    obtain ⟨w1, done, w2, h1, h2, rfl⟩ := hw
    rw [Enc.gives_pure] at h1
    obtain ⟨rfl, rfl⟩ := h1
    rw [if_neg (by decide)] at h2
    exact ⟨_, List.mem_cons_self, sse h2⟩

theorem Leaf.shows_rro (d r o : Slot) (t : Ty) (c : Byte) (i : Imm) (hv : (Leaf.rro d r o t c i).vec ps = true)
    (hb : (Leaf.rro d r o t c i).bare = true → ∀ s ∈ [d, r, o], (s.reg g).isBit 16 = false) :
    ((Leaf.rro d r o t c i).run g).Shows ((Leaf.rro d r o t c i).sels ps) := by
  simp only [Leaf.vec, Bool.and_eq_true] at hv
  simp only [Leaf.run, Leaf.sels, opRRO]
  refine Enc.Shows.throwIf fun _ => ?_
  have key : ∀ W : Ty, (W = T_W1 ∨ W = T_W0) → (Enc.Shows (vexSel (t ||| W) c d.num (o.isMem ps) i.num ++ [apxSel (t ||| W) c d.num (o.isMem ps) i.num])
      (if ((d.reg g).hasRex2 || (r.reg g).hasRex2 || (o.op g).hasRex2 || (d.reg g).nf) = true then do
        let _ ← opROO (r.reg g) (o.op g) (.reg (d.reg g)) (t ||| W) c
        dbOpt (i.val g)
      else opVex (d.reg g) (some (r.reg g)) (o.op g) (t ||| W) c (i.val g))) := by
    intro W hW
    split
    · rename_i hc
      have hT : rooT (t ||| W) = true := by rcases hW with rfl | rfl; exact hv.1; exact hv.2
      obtain ⟨ha, ho⟩ := rooT_opc hT
      intro w u hw fill
      rw [Enc.gives_bind] at hw
      obtain ⟨w1, v, w2, h1, h2, rfl⟩ := hw
      have hu : rooUsed (r.reg g) (o.op g) (.reg (d.reg g)) (t ||| W) = true := by
        unfold rooUsed Operand.hasRex2NFZU Operand.hasRex2
        simp only [Bool.or_eq_true] at hc
        rcases hc with ((h | h) | h) | h
        · simp [h]
        · simp [h]
        · unfold Operand.hasRex2 at h; simp [h]
        · simp [Operand.hd, h]
      have hrr : rooReg (o.op g) (.reg (d.reg g)) = d.reg g := by unfold rooReg; cases o.op g <;> rfl
      have hrm : rooRm (o.op g) (.reg (d.reg g)) = o.op g := by unfold rooRm; cases o.op g <;> rfl
      have hrc : rooCode (o.op g) (.reg (d.reg g)) c = c := by unfold rooCode; cases o.op g <;> rfl
      have hpp : apxPP (d.reg g) (r.reg g) (t ||| W) = ppOf (t ||| W) := by
        apply apxPP_wide
        cases h6 : t.has tyPre with
        | true => exact .inl (has_or_left h6)
        | false =>
          have hb := hb (by simp only [Leaf.bare, h6]; rfl)
          exact .inr ⟨hb d (by simp), hb r (by simp)⟩
      obtain ⟨rfl, hs⟩ := roo_sees hu ha (c := c) (by rw [hrm]; exact Slot.disp hg o) (by rw [hrc, ho]) (by rw [hrr]; exact hpp) h1 (i.val g)
        (e := d.num) (m := o.isMem ps) (i := i.num) (by rw [hrr]; exact Slot.num_le g d) (by rw [hrm]; exact Slot.mem_le ht o) (Imm.num_le g i) fill
      rw [gives_dbOpt] at h2
      subst h2
      exact ⟨_, List.mem_append_right _ (List.mem_singleton.mpr rfl), hs⟩
    · exact (opVex_shows _ _ _ _ _ _ (Slot.disp hg o) (Slot.num_le g d) (Slot.mem_le ht o) (Imm.num_le g i)).mono mem_append_left'
  by_cases h64 : (d.reg g).bit = 64
  · rw [if_pos h64]
    refine (key T_W1 (.inl rfl)).mono fun s h => ?_
    simp only [List.mem_append, List.mem_cons, List.not_mem_nil, or_false] at h ⊢
    rcases h with h | h
    · exact .inl (.inl h)
    · exact .inr (.inl h)
  · rw [if_neg h64]
    refine (key T_W0 (.inr rfl)).mono fun s h => ?_
    simp only [List.mem_append, List.mem_cons, List.not_mem_nil, or_false] at h ⊢
    rcases h with h | h
    · exact .inl (.inr h)
    · exact .inr (.inr h)

omit ht in
theorem Leaf.shows_amx (x m : Slot) (t : Ty) (c : Byte) (hv : (Leaf.amx x m t c).vec ps = true)
    (hb : (Leaf.amx x m t c).bare = true → ∀ s ∈ [x, m], (s.reg g).isBit 16 = false) :
    ((Leaf.amx x m t c).run g).Shows ((Leaf.amx x m t c).sels ps) := by
  simp only [Leaf.vec] at hv
  obtain ⟨ha, ho⟩ := rooT_opc hv
  simp only [Leaf.run, Leaf.sels, opAMX]
  refine Enc.Shows.throwIf fun _ => ?_
  have hd : ∀ a, Operand.mem { m.mem g with opt := false } = .mem a → a.mode ≠ .disp64 := by
    rintro _ ⟨⟩; exact Slot.mem_disp hg m
  intro w u hw fill
  rw [Enc.gives_bind] at hw
  obtain ⟨w1, v, w2, h1, h2, rfl⟩ := hw
  cases hu : rooUsed .nil (.mem { m.mem g with opt := false }) (.reg (x.reg g)) (T_APX ||| t) with
  | false =>
    rw [roo_false _ _ _ _ _ _ _ hu, Enc.gives_pure] at h1
    obtain ⟨rfl, rfl⟩ := h1
    rw [if_neg (by decide)] at h2
    exact ((opVex_shows _ _ _ _ _ _ hd (.inl rfl) (.inr rfl) (.inl rfl)).mono mem_append_left') w2 u h2 fill
  | true =>
    have hpp : apxPP (x.reg g) .nil (T_APX ||| t) = ppOf (T_APX ||| t) := by
      apply apxPP_wide
      cases h6 : t.has tyPre with
      | true => rw [BitVec.or_comm]; exact .inl (has_or_left h6)
      | false =>
        have hb := hb (by simp only [Leaf.bare, h6]; rfl)
        exact .inr ⟨hb x (by simp), rfl⟩
    obtain ⟨rfl, hs⟩ := roo_sees hu ha (c := c) hd (ho _ _) hpp h1 none (e := none) (m := some true) (i := none) (.inl rfl) (.inr rfl) (.inl rfl) fill
    rw [if_pos rfl, Enc.gives_pure] at h2
    obtain ⟨rfl, rfl⟩ := h2
    exact ⟨_, List.mem_append_right _ (List.mem_singleton.mpr rfl), hs⟩

omit hg ht in
theorem kmov_shows (p1 : Reg) (p2 : Operand) (r : Bool) (sz : Nat) (c : Byte) (hT : rooT (T_APX ||| kmovType r sz) = true)
    (hd : ∀ a, p2 = .mem a → a.mode ≠ .disp64) (h16 : p1.isBit 16 = false) {m : Option Bool} (hm : OLe m (some p2.isMEM)) :
    (do let done ← opROO .nil p2 (.reg p1) (T_APX ||| kmovType r sz) c
        if done then pure () else opVex p1 none p2 (T_L0 ||| kmovType r sz) c : Enc Unit).Shows
      (vexSel (T_L0 ||| kmovType r sz) c none m none ++ [apxSel (T_APX ||| kmovType r sz) c none m none]) := by
  obtain ⟨ha, ho⟩ := rooT_opc hT
  intro w u hw fill
  rw [Enc.gives_bind] at hw
  obtain ⟨w1, v, w2, h1, h2, rfl⟩ := hw
  cases hu : rooUsed .nil p2 (.reg p1) (T_APX ||| kmovType r sz) with
  | false =>
    rw [roo_false _ _ _ _ _ _ _ hu, Enc.gives_pure] at h1
    obtain ⟨rfl, rfl⟩ := h1
    rw [if_neg (by decide)] at h2
    exact ((opVex_shows _ _ _ _ _ _ hd (.inl rfl) hm (.inl rfl)).mono mem_append_left') w2 u h2 fill
  | true =>
    have hrr : rooReg p2 (.reg p1) = p1 := by unfold rooReg; cases p2 <;> rfl
    have hrm : rooRm p2 (.reg p1) = p2 := by unfold rooRm; cases p2 <;> rfl
    have hrc : rooCode p2 (.reg p1) c = c := by unfold rooCode; cases p2 <;> rfl
    have hpp : apxPP p1 .nil (T_APX ||| kmovType r sz) = ppOf (T_APX ||| kmovType r sz) := apxPP_wide (.inr ⟨h16, rfl⟩)
    obtain ⟨rfl, hs⟩ := roo_sees hu ha (c := c) (by rw [hrm]; exact hd) (by rw [hrc]; exact ho _ _) (by rw [hrr]; exact hpp) h1 none
      (e := none) (m := m) (i := none) (.inl rfl) (by rw [hrm]; exact hm) (.inl rfl) fill
    rw [if_pos rfl, Enc.gives_pure] at h2
    obtain ⟨rfl, rfl⟩ := h2
    exact ⟨_, List.mem_append_right _ (List.mem_singleton.mpr rfl), hs⟩

omit ht in
theorem Leaf.shows_kmov (k o : Slot) (rv : Bool) (sz : Nat) (hv : (Leaf.kmov k o rv sz).vec ps = true)
    (hb : (Leaf.kmov k o rv sz).bare = true → ∀ s ∈ [k, o], (s.reg g).isBit 16 = false) :
    ((Leaf.kmov k o rv sz).run g).Shows ((Leaf.kmov k o rv sz).sels ps) := by
  simp only [Leaf.vec, Bool.and_eq_true, beq_iff_eq] at hv
  obtain ⟨⟨hp, hT1⟩, hT2⟩ := hv
  have hb := hb rfl
  have hk16 := hb k (by simp)
  have ho16 := hb o (by simp)
  have hd := Slot.disp hg o
  have hm : ∀ x, (o.op g).isREG x = true → (o.op g).isMEM = false := by
    intro x h
    cases ho : o.op g with
    | reg q => rfl
    | mem a =>
      exfalso
      rw [ho] at h
      cases o with
      | a j => rw [show (Operand.mem a).isREG x = a.o.isREG x from rfl, isREG_kind (by rw [hg.kind j a ho]; decide)] at h; cases h
      | _ => cases ho
  simp only [Leaf.run, Leaf.sels, opKmov]
  cases hr : (o.op g).isREG (if sz < 64 then 32 else 64) with
  | true =>
    have hmf := hm _ hr
    cases rv with
    | true =>
      simp only [if_true]
      refine Enc.Shows.throwIf fun _ => ?_
      have h := (kmov_shows (o.op g).hd (.reg (k.reg g)) true sz 0x93 hT1 (fun a h => by cases h) ho16 (m := some false) (.inr rfl)).mono
        (mem_append_left' (l2 := vexSel (T_L0 ||| kmovType false sz) 0x91 none (some true) none ++ [apxSel (T_APX ||| kmovType false sz) 0x91 none (some true) none]))
      have e : (o.op g) = .reg (o.op g).hd := by
        cases ho : o.op g with
        | reg q => rfl
        | mem a => rw [ho] at hmf; cases hmf
      rw [← e] at h
      exact h
    | false =>
      have hop : (o.op g).hd.isOPMASK = false := by
        simp only [Operand.isREG, Reg.isREG, Bool.and_eq_true, beq_iff_eq] at hr
        unfold Reg.isOPMASK; rw [hr.1]; rfl
      simp only [if_true, hop, hmf, Bool.or_self, Bool.false_eq_true, if_false]
      refine Enc.Shows.throwIf fun _ => ?_
      exact (kmov_shows (k.reg g) (o.op g) true sz 0x92 hT1 hd hk16 (m := some false) (.inr (by rw [hmf]))).mono mem_append_left'
  | false =>
    cases rv with
    | true =>
      cases hmm : (o.op g).isMEM with
      | true =>
        simp only [if_true, Bool.false_eq_true, if_false]
        refine Enc.Shows.throwIf fun _ => ?_
        exact (kmov_shows (k.reg g) (o.op g) false sz 0x91 hT2 hd hk16 (m := some true) (.inr (by rw [hmm]))).mono mem_append_right'
      | false =>
        simp only [if_true, Bool.false_eq_true, if_false]
        exact Enc.Shows.throwIf fun h => by cases h
    | false =>
      cases hc : ((o.op g).hd.isOPMASK || (o.op g).isMEM) with
      | true =>
        simp only [if_true, Bool.false_eq_true, if_false]
        refine Enc.Shows.throwIf fun _ => ?_
        exact (kmov_shows (k.reg g) (o.op g) false sz 0x90 hT2 hd hk16 (m := none) (.inl rfl)).mono mem_append_right'
      | false =>
        simp only [Bool.false_eq_true, if_false]
        exact Enc.Shows.throwIf fun h => by cases h

omit hg ht in
theorem Leaf.shows_ext (o r : Slot) (c : Byte) (n : Nat) (m : Bool) (hv : (Leaf.ext o r c n m).vec ps = true)
    (hb : (Leaf.ext o r c n m).bare = true → ∀ s ∈ [o, r], (s.reg g).isBit 16 = false) :
    ((Leaf.ext o r c n m).run g).Shows ((Leaf.ext o r c n m).sels ps) := by
  simp only [Leaf.vec] at hv
  simp only [Leaf.run, Leaf.sels, opExt]
  refine Enc.Shows.throwIf fun _ => ?_
  by_cases hc : (m && (o.op g).isREG 96) = true
  · rw [if_pos hc]
    simp only [Bool.and_eq_true] at hc
    obtain ⟨rfl, hc⟩ := hc
    rw [if_pos rfl]
    have hb := hb rfl
    have h66 : p66of T_0F (r.reg g) (o.op g).hd = false := by
      rw [p66_bare (b := (o.op g).hd) (.inr ⟨hb r (by simp), hb o (by simp)⟩)]; decide
    intro w u hw fill
    rw [Enc.dbIf_bind] at hw
    obtain ⟨w1, rfl, hw⟩ := hw
    simp only [Enc.gives_bind, Enc.gives_db] at hw
    obtain ⟨w1, _, _, hw, rfl, rfl⟩ := hw
    have hs := rr_sees (by decide) hw h66 (some (g.i8 n)) (x := none) (e := none) (m := some false) (i := none) (.inl rfl) (.inl rfl) (.inr rfl) (.inl rfl) fill
    cases hx : (r.reg g).isXMM with
    | false =>
      exact ⟨_, List.mem_append_left _ List.mem_cons_self, by rw [concr_append]; exact hs⟩
    | true =>
      refine ⟨_, List.mem_append_left _ (List.mem_cons_of_mem _ (List.mem_singleton.mpr rfl)), ?_⟩
      have := Sel.Sees.pre hs (x := 0x66) (.inl rfl)
      rw [concr_append]
      exact this
  · rw [if_neg hc]
    refine (sse_shows _ _ _ _ _ _ hv (p := true) (x := none) (fun _ => ?_) (fun _ => .inl rfl) (.inl rfl) (.inl rfl) (.inl rfl)).mono mem_append_right'
    unfold p66of
    rw [show (T_66 ||| T_0F3A).has T_66 = true by decide]; rfl

omit hg ht in
theorem Leaf.shows_encodeKey (a b : Slot) (c c2 : Byte) (hv : (Leaf.encodeKey a b c c2).vec ps = true) :
    ((Leaf.encodeKey a b c c2).run g).Shows ((Leaf.encodeKey a b c c2).sels ps) := by
  simp only [Leaf.vec, Bool.and_eq_true, beq_iff_eq] at hv
  obtain ⟨⟨hpa, hpb⟩, hT⟩ := hv
  obtain ⟨_, _, hok⟩ := legT_opc hT .nil
  simp only [Leaf.run, Leaf.sels, opEncodeKey]
  intro w u hw fill
  split at hw
  · refine ⟨_, List.mem_cons_self, ?_⟩
    simp only [Enc.gives_bind, Enc.gives_db, setModRM] at hw
    obtain ⟨_, _, _, rfl, ⟨_, _, _, rfl, ⟨_, _, _, rfl, ⟨_, _, _, rfl, rfl, rfl⟩, rfl⟩, rfl⟩, rfl⟩ := hw
    refine Sel.sees_of (r := (a.reg g).idx) (m := false) (w := [.byte (modRM 3 (a.reg g).idx (b.reg g).idx)]) (fill := fill) none ?_ (tails_reg _ _)
      (h := X86.Ext.head { w := false, r3 := false, x3 := false, b3 := false } { p66 := false, pF2 := false, pF3 := true, p67 := false } 2 c)
      ⟨rfl, rfl, rfl, rfl, rfl, rfl, rfl, .inr rfl⟩ (.inl rfl) (.inr rfl) (.inl rfl)
    exact head_legBytes (T_F3 ||| T_0F38) false false { w := false, r3 := false, x3 := false, b3 := false } c hok (fun h => by cases h) _
  · rw [Enc.gives_bind] at hw
    obtain ⟨w1, v, w2, h1, h2, rfl⟩ := hw
    rw [Enc.gives_pure] at h2
    obtain ⟨rfl, rfl⟩ := h2
    have hpp : apxPP (a.reg g) .nil (T_MUST_EVEX ||| T_F3) = ppOf (T_MUST_EVEX ||| T_F3) := apxPP_wide (.inl (by decide))
    obtain ⟨rfl, hs⟩ := roo_sees (c := c2) (op1 := .reg (b.reg g)) (op2 := .reg (a.reg g)) (by unfold rooUsed; rw [show (T_MUST_EVEX ||| T_F3).has T_MUST_EVEX = true by decide]; rfl) (.inr (by decide))
      (fun a h => by cases h) ((rooT_opc (t := T_MUST_EVEX ||| T_F3) (by decide)).2 _ _) hpp h1 none
      (e := none) (m := some false) (i := none) (.inl rfl) (.inr rfl) (.inl rfl) fill
    exact ⟨_, List.mem_cons_of_mem _ (List.mem_singleton.mpr rfl), by simpa using hs⟩

/-- Whatever a line emits agrees with one of its selectors. -/
theorem Leaf.shows (l : Leaf) (hv : l.vec ps = true) (hb : l.bare = true → ∀ s ∈ l.slots, (s.reg g).isBit 16 = false) :
    (l.run g).Shows (l.sels ps) := by
  cases l
  case avx3 => exact Leaf.shows_avx3 hg _ _ _ _ _ _
  case avx2 => exact Leaf.shows_avx2 hg ht _ _ _ _ _
  case avxK => exact Leaf.shows_avxK hg ht _ _ _ _ _ _
  case vex => exact Leaf.shows_vex hg ht _ _ _ _ _ _
  case vexCB => exact Leaf.shows_vexCB hg ht _ _ _ _ _
  case cvt => exact Leaf.shows_cvt hg ht _ _ _ _
  case cvt2 => exact Leaf.shows_cvt2 hg ht _ _ _ _
  case cvt3 => exact Leaf.shows_cvt3 hg _ _ _ _ _ _ _
  case cvt5 => exact Leaf.shows_cvt5 hg ht _ _ _ _
  case cvt6 => exact Leaf.shows_cvt6 hg ht _ _ _ _ _
  case encoding => exact Leaf.shows_encoding hg _ _ _ _ _ _ _ _ _
  case cvt2Enc => exact Leaf.shows_cvt2Enc hg _ _ _ _ _ _ _
  case vmov => exact Leaf.shows_vmov hg ht _ _ _ _ _
  case gather => exact Leaf.shows_gather hg _ _ _ _ _ _
  case gather2 => exact Leaf.shows_gather2 hg _ _ _ _ _
  case gatherFetch => exact Leaf.shows_gatherFetch hg _ _ _ _ _
  case kmov => exact Leaf.shows_kmov hg _ _ _ _ hv hb
  case amx => exact Leaf.shows_amx hg _ _ _ _ hv hb
  case sse => exact Leaf.shows_sse hg ht _ _ _ _ _ _ hv hb
  case sseApx => exact Leaf.shows_sseApx hg ht _ _ _ _ _ _ _ hv hb
  case mmx => exact Leaf.shows_mmx ht _ _ _ _ _ _ hv hb
  case mmxImm => exact Leaf.shows_mmxImm ht _ _ _ _ hv
  case movXmm => exact Leaf.shows_movXmm _ _ _ _ hv hb
  case ext => exact Leaf.shows_ext _ _ _ _ _ hv hb
  case rro => exact Leaf.shows_rro hg ht _ _ _ _ _ _ hv hb
  case encodeKey => exact Leaf.shows_encodeKey _ _ _ _ hv
  all_goals cases hv

end

/-! ## Bodies -/

def Body.vec (ps : List Param) : Body → Bool
  | .leaf l => l.vec ps && (!l.bare || l.slots.all Slot.wide)
  | .guard _ _ b | .check _ _ _ b => b.vec ps
  | .pre _ x b => (x == 0x66 || x == 0xF3) && b.vec ps
  | .ite _ t e => t.vec ps && e.vec ps
  | .apx d a s t _ b => d.wide && a.par ps == some .addr && s.wide && (s.par ps == some .tmm || s.par ps == some .xmm || s.num.isSome) && rooT t && b.vec ps
  | _ => false

def Body.bare : Body → Bool
  | .leaf l => l.bare
  | .guard _ _ b | .check _ _ _ b | .pre _ _ b => b.bare
  | .ite _ t e => t.bare || e.bare
  | .apx _ _ _ t _ b => !t.has tyPre || b.bare
  | _ => false

theorem Enc.Shows.dbIf {S : List Sel} {α : Type} {c : Bool} {x : Byte} (hx : x = 0x66 ∨ x = 0xF3) {f : Unit → Enc α} (h : (f ()).Shows S) :
    (Enc.dbIf c x >>= f).Shows (S ++ S.map (Sel.pre x)) := by
  intro w u hw fill
  rw [Enc.dbIf_bind] at hw
  obtain ⟨w1, rfl, hw⟩ := hw
  obtain ⟨s, hs, h⟩ := h _ _ hw fill
  cases c with
  | false => exact ⟨s, List.mem_append_left _ hs, by rw [concr_append]; exact h⟩
  | true =>
    refine ⟨s.pre x, List.mem_append_right _ (List.mem_map_of_mem hs), ?_⟩
    rw [concr_append]
    exact h.pre hx

theorem Body.shows {g : Args} (hg : g.Good) {ps : List Param} (ht : g.Are ps) (b : Body) (hv : b.vec ps = true)
    (hb : b.bare = true → ∀ i, (g.op i).isBit 16 = false) {m : Enc Unit} (hm : b.run g = some m) : m.Shows (b.sels ps) := by
  induction b generalizing m with
  | leaf l =>
    simp only [Body.run, Option.some.injEq] at hm
    subst hm
    simp only [Body.vec, Bool.and_eq_true, Bool.or_eq_true, Bool.not_eq_true', List.all_eq_true] at hv
    refine Leaf.shows hg ht l hv.1 fun h s hs => ?_
    rcases hv.2 with h2 | h2
    · rw [h] at h2; cases h2
    · exact Slot.no16 (hb h) (h2 s hs)
  | guard p e b ih =>
    simp only [Body.run, Option.map_eq_some_iff] at hm
    obtain ⟨m, h, rfl⟩ := hm
    exact Enc.Shows.throwIf fun _ => ih hv hb h
  | check c x o b ih =>
    simp only [Body.run, Option.map_eq_some_iff] at hm
    obtain ⟨m, h, rfl⟩ := hm
    cases c with
    | cvt1 => exact Enc.Shows.throwIf fun _ => ih hv hb h
    | cvt4 => exact Enc.Shows.throwIf fun _ => ih hv hb h
  | pre c x b ih =>
    simp only [Body.run, Option.map_eq_some_iff] at hm
    obtain ⟨m, h, rfl⟩ := hm
    simp only [Body.vec, Bool.and_eq_true, Bool.or_eq_true, beq_iff_eq] at hv
    exact Enc.Shows.dbIf hv.1 (ih hv.2 hb h)
  | ite c t e iht ihe =>
    simp only [Body.vec, Bool.and_eq_true] at hv
    simp only [Body.run] at hm
    simp only [Body.bare, Bool.or_eq_true] at hb
    split at hm
    · exact (iht hv.1 (fun h => hb (.inl h)) hm).mono mem_append_left'
    · exact (ihe hv.2 (fun h => hb (.inr h)) hm).mono mem_append_right'
  | apx d a s t c b ih =>
    simp only [Body.run, Option.map_eq_some_iff] at hm
    obtain ⟨m, h, rfl⟩ := hm
    simp only [Body.vec, Bool.and_eq_true, beq_iff_eq] at hv
    obtain ⟨⟨⟨⟨⟨hdw, hap⟩, hsw⟩, hs⟩, hT⟩, hv⟩ := hv
    simp only [Body.bare, Bool.or_eq_true] at hb
    have ih := ih hv (fun h => hb (.inr h)) h
    obtain ⟨ha, ho⟩ := rooT_opc hT
    have ⟨x, hx⟩ : ∃ x, a.op g = .mem x := by
      cases a with
      | a j =>
        have := ht j _ hap
        cases h : g.op j with
        | mem a => exact ⟨a, h⟩
        | reg q => rw [h] at this; cases this
      | _ => cases hap
    have ⟨y, hy⟩ : ∃ y, s.op g = .reg y := by
      cases s with
      | a j =>
        cases h : g.op j with
        | reg q => exact ⟨q, h⟩
        | mem q =>
          simp only [Bool.or_eq_true, beq_iff_eq] at hs
          rcases hs with (hs | hs) | hs
          · have := ht j _ hs; rw [h] at this; cases this
          · have := ht j _ hs; rw [h] at this; cases this
          · cases hs
      | _ => exact ⟨_, rfl⟩
    have hy' : s.reg g = y := by unfold Slot.reg; rw [hy]; rfl
    intro w u hw fill
    rw [Enc.gives_bind] at hw
    obtain ⟨w1, v, w2, h1, h2, rfl⟩ := hw
    rw [hx, hy] at h1
    cases hu : rooUsed (d.reg g) (.mem x) (.reg y) t with
    | false =>
      rw [roo_false _ _ _ _ _ _ _ hu, Enc.gives_pure] at h1
      obtain ⟨rfl, rfl⟩ := h1
      rw [if_neg (by decide)] at h2
      exact (ih.mono mem_append_left') w2 u h2 fill
    | true =>
      have hpp : apxPP y (d.reg g) t = ppOf t := by
        apply apxPP_wide
        cases h6 : t.has tyPre with
        | true => exact .inl h6
        | false =>
          have hb := hb (.inl (by rw [h6]; rfl))
          rw [← hy']
          exact .inr ⟨Slot.no16 hb hsw, Slot.no16 hb hdw⟩
      obtain ⟨rfl, hs⟩ := roo_sees hu ha (c := c) (fun a h => by cases h; exact Slot.disp hg _ x hx) (ho _ _) hpp h1 none (e := s.num) (m := some true) (i := none)
        (by rw [← hy']; exact Slot.num_le g s) (.inr rfl) (.inl rfl) fill
      rw [if_pos rfl, Enc.gives_pure] at h2
      obtain ⟨rfl, rfl⟩ := h2
      exact ⟨_, List.mem_append_right _ (List.mem_singleton.mpr rfl), by simpa using hs⟩
  | jmp => cases hv
  | jmpAbs => cases hv

def Entry.vec (e : Entry) : Bool := e.body.vec e.ops

/-- The body matches the arguments. -/
theorem Args.Fits.are {g : Args} {e : Entry} (h : g.Fits e.params e.opt) : g.Are e.ops := by
  intro i p hp
  unfold Entry.ops at hp
  split at hp
  · rename_i h0
    unfold Args.Fits at h
    rw [h0] at h
    obtain ⟨h1, h2, h3⟩ := h
    have hl : i < g.ops.length := by
      have := (List.getElem?_eq_some_iff.mp hp).1
      omega
    have := h3 i p g.ops[i] hp (List.getElem?_eq_getElem hl)
    unfold Args.op
    rw [List.getElem?_eq_getElem hl]
    exact this
  · simp at hp

/-! ## Lines whose prefix depends on an operand -/

theorem sse0_sees {r : Reg} {o : Operand} {t : Ty} {c : Byte} (ht : t = T_0F ∨ t = fl [T_0F, T_ALLOW_DIFF_SIZE]) (hc : c ≠ 0x38 ∧ c ≠ 0x3A) (h1 : r.isBit 16 = false)
    (h2 : o.isBit 16 = false) {x : Option Bool} (hx : OLe x (some (has64 r o))) {m : Option Bool} (hm : OLe m (some o.isMEM)) {w : List Act} {v : Unit}
    (hw : (opSSE r o t c none none).Gives w v) (fill : Act → BitVec 32) : (legSel T_0F c false x none m none).Sees (concr fill w) := by
  have hT : legT t c = true := by
    rcases ht with rfl | rfl
    · have : X86.OpcodeOK (mapOf T_0F) c := ⟨fun h => absurd h (by decide), fun _ => hc⟩
      unfold legT; rw [decide_eq_true this]; decide
    · have : X86.OpcodeOK (mapOf (fl [T_0F, T_ALLOW_DIFF_SIZE])) c := ⟨fun h => absurd h (by decide), fun _ => hc⟩
      unfold legT; rw [decide_eq_true this]; decide
  have hp : p66of t o.hd r = false := by
    rw [p66_bare (.inr ⟨h2, h1⟩)]; rcases ht with rfl | rfl <;> decide
  obtain ⟨s, hs, h⟩ := sse_shows r o t c none none hT (p := false) (x := x) (e := none) (m := m) (i := none) (fun _ => hp) (fun _ => hx) (.inl rfl) hm (.inl rfl) w v hw fill
  rw [List.mem_singleton] at hs
  subst hs
  have e : legSel t c false x none m none = legSel T_0F c false x none m none := by
    rcases ht with rfl | rfl
    · rfl
    · unfold legSel
      rw [show mapOf (fl [T_0F, T_ALLOW_DIFF_SIZE]) = mapOf T_0F by decide, show (fl [T_0F, T_ALLOW_DIFF_SIZE]).has T_F2 = T_0F.has T_F2 by decide,
        show (fl [T_0F, T_ALLOW_DIFF_SIZE]).has T_F3 = T_0F.has T_F3 by decide]
  rw [← e]; exact h

theorem notREG_mmx {o : Operand} (h : Param.mmx.takes o = true) (m : Nat) : o.hd.isREG m = false := by
  apply isREG_kind
  intro hk
  simp [Param.takes, Reg.isSIMD, Reg.isXMM, Reg.isYMM, Reg.isZMM, Reg.isMMX, hk] at h

theorem Args.Good.notREG_mem {g : Args} (hg : g.Good) {i : Nat} (h : (g.op i).isMEM = true) (m : Nat) : (g.op i).hd.isREG m = false := by
  cases ho : g.op i with
  | reg q => rw [ho] at h; cases h
  | mem a => exact isREG_kind (by show a.o.kind ≠ _; rw [hg.kind i a ho]; decide) _

theorem Args.Good.reg32 {g : Args} (hg : g.Good) {i : Nat} (h : (g.op i).hd.isREG 32 = true) : (g.op i).hd.isREG 64 = false := by
  cases ho : g.op i with
  | mem a =>
    exact isREG_kind (by show a.o.kind ≠ _; rw [hg.kind i a ho]; decide) _
  | reg r =>
    rw [ho] at h
    have hk : r.isREG 32 = true := h
    show r.isREG 64 = false
    unfold Reg.isREG at hk ⊢
    simp only [Bool.and_eq_true, beq_iff_eq] at hk
    have := hg.size i r ho hk.1
    obtain ⟨h1, h2⟩ := hk
    unfold Reg.isBit at h2 ⊢
    rcases this with h | h | h | h <;> rw [h] at h2 ⊢ <;> simp_all

theorem has64_false {g : Args} {i j : Nat} (h1 : Param.mmx.takes (g.op i) = true) (h2 : (g.op j).isMEM = true ∨ (g.op j).hd.isREG 64 = false) :
    has64 (g.reg i) (g.op j) = false := by
  unfold has64
  rw [show (g.reg i).isREG 64 = false from notREG_mmx h1 64]
  rcases h2 with h | h
  · rw [h]; rfl
  · rw [h]; simp

section
variable {g : Args} (hg : g.Good) (hb : ∀ i, (g.op i).isBit 16 = false)
include hg hb

/-- Lines 690 and 691 of xbyak_mnemonic.h: `movd`. -/
theorem movd_shows {i j : Nat} (hi : Param.mmx.takes (g.op i) = true) {c : Byte} (hc : c ≠ 0x38 ∧ c ≠ 0x3A) :
    (do Enc.throwIf (!((g.op j).isMEM || (g.reg j).isREG 32)) .BAD_COMBINATION
        Enc.dbIf (g.reg i).isXMM 0x66
        opSSE (g.reg i) (g.op j) (fl [T_0F, T_ALLOW_DIFF_SIZE]) c none none : Enc Unit).Shows
      [legSel T_0F c true (some false) none none none, legSel T_0F c false (some false) none none none] := by
  refine Enc.Shows.throwIf fun h => ?_
  intro w v hw fill
  rw [Enc.dbIf_bind] at hw
  obtain ⟨w1, rfl, hw⟩ := hw
  have h64 : has64 (g.reg i) (g.op j) = false := by
    refine has64_false hi ?_
    simp only [Bool.not_eq_false', Bool.or_eq_true] at h
    rcases h with h | h
    · exact .inl h
    · exact .inr (hg.reg32 h)
  have hs := sse0_sees (r := g.reg i) (.inr rfl) hc (hb i) (hb j) (x := some false) (.inr (by rw [h64])) (m := none) (.inl rfl) hw fill
  cases hx : (g.reg i).isXMM with
  | false => exact ⟨_, List.mem_cons_of_mem _ (List.mem_singleton.mpr rfl), by rw [concr_append]; exact hs⟩
  | true =>
    refine ⟨_, List.mem_cons_self, ?_⟩
    have := hs.pre (x := 0x66) (.inl rfl)
    rw [concr_append]; exact this

omit hg in
/-- Line 706: `movmskpd`. -/
theorem movmskpd_shows {i j : Nat} (h1 : Param.xmm.takes (g.op j) = true) :
    (do Enc.dbIf true 0x66
        opSSE (g.reg i) (g.op j) T_0F 0x50 none none : Enc Unit).Shows [legSel T_0F 0x50 true none none (some false) none] := by
  intro w v hw fill
  rw [Enc.dbIf_bind] at hw
  obtain ⟨w1, rfl, hw⟩ := hw
  have hm : (g.op j).isMEM = false := Param.takes_reg h1 (by decide) (by decide)
  have hs := sse0_sees (r := g.reg i) (.inl rfl) (by decide) (hb i) (hb j) (x := none) (.inl rfl) (m := some false) (.inr (by rw [hm])) hw fill
  refine ⟨_, List.mem_cons_self, ?_⟩
  have := hs.pre (x := 0x66) (.inl rfl)
  rw [concr_append]; exact this

omit hg in
/-- Lines 714 and 715: `movq`. -/
theorem movq_shows {i j : Nat} (hi : Param.mmx.takes (g.op i) = true) (hj : (g.op j).isMEM = true ∨ (g.op j).hd.isREG 64 = false) {x c d : Byte}
    (hx : x = 0x66 ∨ x = 0xF3) (hc : c ≠ 0x38 ∧ c ≠ 0x3A) (hd : d ≠ 0x38 ∧ d ≠ 0x3A) :
    (do Enc.dbIf (g.reg i).isXMM x
        if (g.reg i).isXMM then opSSE (g.reg i) (g.op j) (fl [T_0F, T_ALLOW_DIFF_SIZE]) c none none
        else opSSE (g.reg i) (g.op j) (fl [T_0F, T_ALLOW_DIFF_SIZE]) d none none : Enc Unit).Shows
      [(legSel T_0F c false (some false) none none none).pre x, legSel T_0F d false (some false) none none none] := by
  intro w v hw fill
  rw [Enc.dbIf_bind] at hw
  obtain ⟨w1, rfl, hw⟩ := hw
  have h64 : has64 (g.reg i) (g.op j) = false := has64_false hi hj
  cases hxx : (g.reg i).isXMM with
  | false =>
    rw [hxx, if_neg (by decide)] at hw
    have hs := sse0_sees (r := g.reg i) (.inr rfl) hd (hb i) (hb j) (x := some false) (.inr (by rw [h64])) (m := none) (.inl rfl) hw fill
    exact ⟨_, List.mem_cons_of_mem _ (List.mem_singleton.mpr rfl), by rw [concr_append]; exact hs⟩
  | true =>
    rw [hxx, if_pos rfl] at hw
    have hs := sse0_sees (r := g.reg i) (.inr rfl) hc (hb i) (hb j) (x := some false) (.inr (by rw [h64])) (m := none) (.inl rfl) hw fill
    refine ⟨_, List.mem_cons_self, ?_⟩
    have := hs.pre hx
    rw [concr_append]; exact this

end

theorem mem_line {n : Nat} {e x : Entry} (he : e ∈ all) (hl : e.line = n) (h : (all.filter fun e => e.line == n) = [x]) : e = x := by
  have : e ∈ all.filter fun e => e.line == n := List.mem_filter.mpr ⟨he, by rw [hl]; exact beq_self_eq_true n⟩
  rw [h] at this
  exact List.mem_singleton.mp this


set_option maxRecDepth 1000000 in
theorem line690 : (all.filter fun e => e.line == 690) = [⟨690, n!"movd", [.mmx, .op], 0, .guard (fun g => !((g.op 1).isMEM || (g.reg 1).isREG 32))
    .BAD_COMBINATION (.pre (fun g => (g.reg 0).isXMM) 0x66 (.leaf (.sse (.a 0) (.a 1) (fl [T_0F, T_ALLOW_DIFF_SIZE]) 0x6E .any .none)))⟩] := rfl

set_option maxRecDepth 1000000 in
theorem line691 : (all.filter fun e => e.line == 691) = [⟨691, n!"movd", [.op, .mmx], 0, .guard (fun g => !((g.op 0).isMEM || (g.reg 0).isREG 32))
    .BAD_COMBINATION (.pre (fun g => (g.reg 1).isXMM) 0x66 (.leaf (.sse (.a 1) (.a 0) (fl [T_0F, T_ALLOW_DIFF_SIZE]) 0x7E .any .none)))⟩] := rfl

set_option maxRecDepth 1000000 in
theorem line706 : (all.filter fun e => e.line == 706) = [⟨706, n!"movmskpd", [.reg32e, .xmm], 0, .pre (fun _ => true) 0x66
    (.leaf (.sse (.a 0) (.a 1) T_0F 0x50 .any .none))⟩] := rfl

set_option maxRecDepth 1000000 in
theorem line714 : (all.filter fun e => e.line == 714) = [⟨714, n!"movq", [.addr, .mmx], 0, .pre (fun g => (g.reg 1).isXMM) 0x66
    (.ite (fun g => (g.reg 1).isXMM) (.leaf (.sse (.a 1) (.a 0) (fl [T_0F, T_ALLOW_DIFF_SIZE]) 0xD6 .any .none))
      (.leaf (.sse (.a 1) (.a 0) (fl [T_0F, T_ALLOW_DIFF_SIZE]) 0x7F .any .none)))⟩] := rfl

set_option maxRecDepth 1000000 in
theorem line715 : (all.filter fun e => e.line == 715) = [⟨715, n!"movq", [.mmx, .op], 0,
    .guard (fun g => !((g.op 1).isMEM) && decide ((g.reg 0).kind ≠ (g.reg 1).kind)) .BAD_COMBINATION (.pre (fun g => (g.reg 0).isXMM) 0xF3
      (.ite (fun g => (g.reg 0).isXMM) (.leaf (.sse (.a 0) (.a 1) (fl [T_0F, T_ALLOW_DIFF_SIZE]) 0x7E .any .none))
        (.leaf (.sse (.a 0) (.a 1) (fl [T_0F, T_ALLOW_DIFF_SIZE]) 0x6F .any .none))))⟩] := rfl

/-- A function of the table writes bytes that agree with one of its selectors. -/
theorem Entry.shows {e : Entry} (he : e ∈ all) (hv : e.vec = true) {g : Args} (hf : g.Fits e.params e.opt) (hg : g.Good)
    (hb : e.body.bare = true → ∀ i, (g.op i).isBit 16 = false) {m : Enc Unit} (hm : e.body.run g = some m) : m.Shows e.sels := by
  have ha := hf.are
  unfold Entry.sels
  split
  · rename_i h
    obtain rfl := mem_line he h line690
    simp only [Body.run, Option.map_some, Option.some.injEq] at hm
    subst hm
    exact movd_shows hg (hb rfl) (i := 0) (j := 1) (ha 0 _ rfl) (by decide)
  split
  · rename_i h
    obtain rfl := mem_line he h line691
    simp only [Body.run, Option.map_some, Option.some.injEq] at hm
    subst hm
    exact movd_shows hg (hb rfl) (i := 1) (j := 0) (ha 1 _ rfl) (by decide)
  split
  · rename_i h
    obtain rfl := mem_line he h line706
    simp only [Body.run, Option.map_some, Option.some.injEq] at hm
    subst hm
    exact movmskpd_shows (hb rfl) (i := 0) (j := 1) (ha 1 _ rfl)
  split
  · rename_i h
    obtain rfl := mem_line he h line714
    simp only [Body.run, Option.map_eq_some_iff] at hm
    obtain ⟨m', hm', rfl⟩ := hm
    have h0 : (g.op 0).isMEM = true := by
      have := ha 0 _ rfl
      revert this
      cases g.op 0 <;> simp [Param.takes, Operand.isMEM]
    have := movq_shows (hb rfl) (i := 1) (j := 0) (ha 1 _ rfl) (.inl h0) (x := 0x66) (c := 0xD6) (d := 0x7F) (.inl rfl) (by decide) (by decide)
    split at hm' <;> cases hm' <;> rename_i hx
    · simp only [hx, if_true] at this ⊢; exact this
    · simp only [hx, if_false] at this ⊢; exact this
  split
  · rename_i h
    obtain rfl := mem_line he h line715
    simp only [Body.run, Option.map_eq_some_iff] at hm
    obtain ⟨_, ⟨m', hm', rfl⟩, rfl⟩ := hm
    refine Enc.Shows.throwIf fun hk => ?_
    have hj : (g.op 1).isMEM = true ∨ (g.op 1).hd.isREG 64 = false := by
      cases h1 : (g.op 1).isMEM with
      | true => exact .inl rfl
      | false =>
        refine .inr (isREG_kind ?_ _)
        intro hk2
        simp only [h1, Bool.not_false, Bool.true_and, decide_eq_false_iff_not, ne_eq, Decidable.not_not] at hk
        have h0 := ha 0 _ rfl
        have : (g.reg 0).kind = .reg := hk.trans hk2
        have e : (g.op 0).hd.kind = .reg := this
        simp [Param.takes, Reg.isSIMD, Reg.isXMM, Reg.isYMM, Reg.isZMM, Reg.isMMX, e] at h0
    have := movq_shows (hb rfl) (i := 0) (j := 1) (ha 0 _ rfl) hj (x := 0xF3) (c := 0x7E) (d := 0x6F) (.inr rfl) (by decide) (by decide)
    split at hm' <;> cases hm' <;> rename_i hx
    · simp only [hx, if_true] at this ⊢; exact this
    · simp only [hx, if_false] at this ⊢; exact this
  · exact Body.shows hg ha _ hv hb hm

end Xbyak.Mn
