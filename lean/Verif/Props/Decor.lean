import Verif.Called
import Verif.Props.Roles
/-!
# C78: opmask, zeroing, broadcast and rounding

What the operators `|` and the broadcast frames put on the operands of a vector instruction is what the prefix says, and nothing else is.
-/
namespace Xbyak
open E

/-- The modifiers of an operand: opmask, `T_z`, and rounding (0 none, 1-4 to nearest/down/up/zero, 5 `T_sae`; xbyak.h 839-845). -/
structure Deco where
  mask : BitVec 3 := 0
  zero : Bool := false
  rnd : BitVec 3 := 0
  deriving DecidableEq, Repr

def Reg.deco (r : Reg) : Deco := ⟨r.mask, r.zero, r.rnd⟩
def Operand.deco (o : Operand) : Deco := o.hd.deco

/-- No modifiers. -/
def Reg.Bare (r : Reg) : Prop := r.deco = {}

/-- Rounding control, the field L'L of an instruction with static rounding: 0 to nearest, 1 down, 2 up, 3 toward zero (SDM vol. 2A 2.7.8); `T_sae` alone has 0. -/
def rcOf (rnd : BitVec 3) : BitVec 2 := if rnd = 2 then 1 else if rnd = 3 then 2 else if rnd = 4 then 3 else 0

theorem setKind_deco (r : Reg) (k : Kind) : (r.setKind k).deco = r.deco := by cases k <;> rfl

theorem cvtIdx0_deco (r : Reg) : (cvtIdx0 r).deco = {} := by
  unfold cvtIdx0; split
  · rfl
  · split <;> rfl

theorem changeBit_deco {r q : Reg} {b : Nat} (hk : r.kind = .opmask) (h : r.changeBit b = .ok q) : q.deco = r.deco := by
  unfold Reg.changeBit Reg.setBit at h
  split at h
  · cases h
  · split at h
    · cases h; rfl
    · rw [if_pos (.inr hk)] at h; cases h; rfl

namespace Mn

/-! ## The slots that are passed on -/

/-- The slots passed on as registers. -/
def Leaf.regSlots : Leaf → List Slot
  | avx3 x .. | avx2 x .. | cvt x .. | cvt2 x .. | cvt2Enc x .. | cvt5 x .. | vmov _ x .. | gather2 x .. | gatherFetch _ x .. | amx x .. => [x]
  | avxK k x .. => [k, x]
  | vex r v .. => r :: v.toList
  | vexCB k .. | kmov k .. => [k]
  | cvt3 x y .. | cvt6 x y .. | encoding x y .. | gather x _ y .. | rro x y .. => [x, y]
  | _ => []

/-- The slots that may be memory. -/
def Leaf.rmSlots : Leaf → List Slot
  | avx3 _ o1 o2 .. => [o1, o2]
  | avx2 _ o .. | avxK _ _ o .. | vex _ _ o .. | vexCB _ o .. | cvt _ o .. | cvt2 _ o .. | cvt2Enc _ o .. | cvt3 _ _ o .. | cvt5 _ o .. | cvt6 _ _ o .. | encoding _ _ o ..
  | vmov o .. | gather _ o .. | gather2 _ o .. | gatherFetch o .. | rro _ _ o .. | kmov _ o .. | amx _ o .. => [o]
  | _ => []

def Leaf.passed (l : Leaf) : List Slot := l.regSlots ++ l.rmSlots

/-- The modifiers seen by `opVex`. -/
def seen (r : Reg) (v : Option Reg) (o : Operand) : List Deco := [r.deco, (v.getD .nil).deco, o.deco]

/-- What is seen is what the slots have. -/
structure Carries (g : Args) (l : Leaf) (r : Reg) (v : Option Reg) (o : Operand) : Prop where
  all : ∀ s ∈ l.passed, (s.op g).deco = {} ∨ (s.op g).deco ∈ seen r v o
  only : ∀ d ∈ seen r v o, d = {} ∨ ∃ s ∈ l.passed, (s.op g).deco = d
  mem : ∀ s ∈ l.passed, ∀ a, s.op g = .mem a → rmBcast o = a.broadcast ∧ o.deco = a.o.deco
  memOnly : ∀ a, o = .mem a → ∃ s ∈ l.passed, ∃ b, s.op g = .mem b ∧ b.broadcast = a.broadcast ∧ b.o = a.o ∧ b.e = a.e

/-- The conditions on the arguments that the proof of `carries` needs. -/
structure Few (g : Args) (l : Leaf) : Prop where
  gpr : ∀ s ∈ l.passed, ∀ q, s.op g = .reg q → q.kind = .reg → q.deco = {}
  gather : (match l with | .gather .. => true | _ => false) = true → ∀ s ∈ l.regSlots, (s.op g).deco = {}
  reg : ∀ s ∈ l.regSlots, (s.op g).isMEM = false
  cb : ∀ k o t c i, l = .vexCB k o t c i → (k.reg g).kind = .opmask
  adr : ∀ x m y t c d k, l = .gather x m y t c d ∨ l = .gather2 x m t c d ∨ l = .gatherFetch m x t c k ∨ l = .amx x m t c → m.op g = .mem (m.mem g)

variable {g : Args}

theorem Slot.opt_not {s : Slot} (h : s.opt g = none) : s.op g = .reg .nil := by
  cases s with
  | a i => show (g.ops[i]?).getD _ = _; rw [show g.ops[i]? = none from h]; rfl
  | _ => cases h

theorem Slot.opt_is {s : Slot} {o : Operand} (h : s.opt g = some o) : s.op g = o := by
  cases s with
  | a i => show (g.ops[i]?).getD _ = _; rw [show g.ops[i]? = some o from h]; rfl
  | _ => exact Option.some.inj h

theorem isMEM_reg {s : Slot} (h : (s.op g).isMEM = false) : s.op g = .reg (s.reg g) := by
  unfold Slot.reg
  cases hs : s.op g with
  | reg q => rfl
  | mem a => rw [hs] at h; cases h

/-- Helpers that pass two registers and an operand. -/
theorem carries_of {l : Leaf} {r : Reg} {v : Option Reg} {o : Operand} {rs : List Slot} {p : Slot} (hp : l.passed = rs ++ [p])
    (hrs : ∀ s ∈ rs, (s.op g).isMEM = false ∧ ((s.op g).deco = {} ∨ (s.op g).deco = r.deco ∨ (s.op g).deco = (v.getD .nil).deco))
    (hr : r.deco = {} ∨ ∃ s ∈ rs, (s.op g).deco = r.deco) (hv : (v.getD .nil).deco = {} ∨ ∃ s ∈ rs, (s.op g).deco = (v.getD .nil).deco)
    (ho : o = p.op g) : Carries g l r v o := by
  refine ⟨?_, ?_, ?_, ?_⟩
  · intro s hs
    rw [hp, List.mem_append, List.mem_singleton] at hs
    rcases hs with hs | rfl
    · rcases (hrs s hs).2 with h | h | h
      · exact .inl h
      · exact .inr (by simp [seen, h])
      · exact .inr (by simp [seen, h])
    · exact .inr (by simp [seen, ho])
  · intro d hd
    simp only [seen, List.mem_cons, List.not_mem_nil, or_false] at hd
    rw [hp]
    rcases hd with rfl | rfl | rfl
    · exact hr.imp id fun ⟨s, hs, h⟩ => ⟨s, List.mem_append_left _ hs, h⟩
    · exact hv.imp id fun ⟨s, hs, h⟩ => ⟨s, List.mem_append_left _ hs, h⟩
    · exact .inr ⟨p, List.mem_append_right _ (List.mem_singleton.mpr rfl), by rw [ho]⟩
  · intro s hs a ha
    rw [hp, List.mem_append, List.mem_singleton] at hs
    rcases hs with hs | rfl
    · have := (hrs s hs).1
      rw [ha] at this; cases this
    · rw [ho, ha]; exact ⟨rfl, rfl⟩
  · intro a ha
    refine ⟨p, ?_, a, ho ▸ ha, rfl, rfl, rfl⟩
    rw [hp]; exact List.mem_append_right _ (List.mem_singleton.mpr rfl)

theorem kind_SameVec {t : Ty} {x y : Reg} (h : SameVec t x y) : y.isSIMD = true := by
  unfold SameVec at h
  unfold Reg.isSIMD
  rcases h with ⟨_, h⟩ | ⟨_, ⟨_, h⟩ | ⟨_, h⟩⟩ <;> simp [h]

theorem carries_made3 {l : Leaf} {x o1 o2 : Slot} {t : Ty} {r : Reg} {v : Option Reg} {o : Operand} (hk : ∀ a, o1.op g = .mem a → a.o.kind = .mem)
    (hp : l.passed = [x, o1, o2]) (hx : (x.op g).isMEM = false) (h : Made3 (x.reg g) (o1.op g) (o2.opt g) t r v o) : Carries g l r v o := by
  obtain ⟨rfl, ⟨h1, rfl, rfl, -⟩ | ⟨h1, rfl, h2⟩⟩ := h
  · have e2 := Slot.opt_not h1
    refine ⟨?_, ?_, ?_, ?_⟩
    · intro s hs
      rw [hp] at hs
      simp only [List.mem_cons, List.not_mem_nil, or_false] at hs
      rcases hs with rfl | rfl | rfl
      · exact .inr (by simp [seen]; exact .inl rfl)
      · exact .inr (by simp [seen])
      · exact .inl (by rw [e2]; rfl)
    · intro d hd
      simp only [seen, List.mem_cons, List.not_mem_nil, or_false] at hd
      rw [hp]
      rcases hd with rfl | rfl | rfl
      · exact .inr ⟨x, by simp, rfl⟩
      · exact .inr ⟨x, by simp, rfl⟩
      · exact .inr ⟨o1, by simp, rfl⟩
    · intro s hs a ha
      rw [hp] at hs
      simp only [List.mem_cons, List.not_mem_nil, or_false] at hs
      rcases hs with rfl | rfl | rfl
      · rw [ha] at hx; cases hx
      · rw [ha]; exact ⟨rfl, rfl⟩
      · rw [e2] at ha; cases ha
    · intro a ha
      exact ⟨o1, by rw [hp]; simp, a, ha, rfl, rfl, rfl⟩
  · have e2 := Slot.opt_is h1
    have m1 : (o1.op g).isMEM = false := by
      cases hq : o1.op g with
      | reg q => rfl
      | mem a =>
        have := kind_SameVec h2
        rw [hq] at this
        simp [Operand.hd, Reg.isSIMD, Reg.isXMM, Reg.isYMM, Reg.isZMM, hk a hq] at this
    refine carries_of (rs := [x, o1]) (p := o2) hp ?_ (.inr ⟨x, by simp, rfl⟩) (.inr ⟨o1, by simp, rfl⟩) e2.symm
    intro s hs
    simp only [List.mem_cons, List.not_mem_nil, or_false] at hs
    rcases hs with rfl | rfl
    · exact ⟨hx, .inr (.inl rfl)⟩
    · exact ⟨m1, .inr (.inr rfl)⟩

theorem Leaf.carries {l : Leaf} {r : Reg} {v : Option Reg} {o : Operand} {u : Ty} (hg : g.Good) (hf : Few g l) (h : l.Makes g r v o u) : Carries g l r v o := by
  have kmem := fun s a (h : Slot.op g s = .mem a) => Slot.kind_mem hg s a h
  have one : ∀ {x p : Slot}, l.passed = [x, p] → (x.op g).isMEM = false → (x.op g).deco = r.deco → (v.getD .nil).deco = {} → o = p.op g → Carries g l r v o := by
    intro x p e m hr hv ho
    refine carries_of (rs := [x]) (p := p) e ?_ (.inr ⟨x, by simp, hr⟩) (.inl hv) ho
    intro s hs
    rw [List.mem_singleton] at hs
    subst hs
    exact ⟨m, .inr (.inl hr)⟩
  have two : ∀ {x y p : Slot}, l.passed = [x, y, p] → (x.op g).isMEM = false → (y.op g).isMEM = false → (x.op g).deco = r.deco → (y.op g).deco = (v.getD .nil).deco → o = p.op g →
      Carries g l r v o := by
    intro x y p e m m' hr hv ho
    refine carries_of (rs := [x, y]) (p := p) e ?_ (.inr ⟨x, by simp, hr⟩) (.inr ⟨y, by simp, hv⟩) ho
    intro s hs
    simp only [List.mem_cons, List.not_mem_nil, or_false] at hs
    rcases hs with rfl | rfl
    · exact ⟨m, .inr (.inl hr)⟩
    · exact ⟨m', .inr (.inr hv)⟩
  have hR := hf.reg
  cases l with
  | avx3 x o1 o2 t c i =>
    obtain ⟨rfl, h⟩ := h
    exact carries_made3 (kmem o1) rfl (hR x (by simp [Leaf.regSlots])) h
  | avx2 x p t c i =>
    obtain ⟨rfl, rfl, rfl, rfl, _⟩ := h
    exact one rfl (hR x (by simp [Leaf.regSlots])) rfl (cvtIdx0_deco _) rfl
  | avxK k x p t c i =>
    obtain ⟨rfl, rfl, rfl, rfl, _⟩ := h
    exact two rfl (hR k (by simp [Leaf.regSlots])) (hR x (by simp [Leaf.regSlots])) rfl rfl rfl
  | vex x y p t c i =>
    obtain ⟨rfl, rfl, rfl, rfl⟩ := h
    cases y with
    | none => exact one rfl (hR x (by simp [Leaf.regSlots])) rfl rfl rfl
    | some y => exact two rfl (hR x (by simp [Leaf.regSlots])) (hR y (by simp [Leaf.regSlots])) rfl rfl rfl
  | vexCB k p t c i =>
    obtain ⟨rfl, h, rfl, rfl⟩ := h
    exact one rfl (hR k (by simp [Leaf.regSlots])) (changeBit_deco (hf.cb _ _ _ _ _ rfl) h).symm rfl rfl
  | cvt x p t c =>
    obtain ⟨rfl, rfl, rfl, rfl⟩ := h
    exact one rfl (hR x (by simp [Leaf.regSlots])) (setKind_deco _ _).symm rfl rfl
  | cvt2 x p t c =>
    obtain ⟨rfl, rfl, rfl, rfl, _⟩ := h
    exact one rfl (hR x (by simp [Leaf.regSlots])) (setKind_deco _ _).symm rfl rfl
  | cvt2Enc x p t c tv te s =>
    obtain ⟨_, rfl, rfl, rfl, _⟩ := h
    exact one rfl (hR x (by simp [Leaf.regSlots])) (setKind_deco _ _).symm rfl rfl
  | cvt3 x y p t t6 t3 c =>
    obtain ⟨_, rfl, rfl, _, _, ⟨q, hq, hq', rfl⟩ | ⟨rfl, _⟩⟩ := h
    · have hk : q.kind = .reg := by
        unfold Reg.isREG at hq'
        simp only [Bool.and_eq_true, beq_iff_eq] at hq'
        exact hq'.1
      have hd := hf.gpr p (by simp [Leaf.passed, Leaf.rmSlots]) q hq hk
      have mx := hR x (by simp [Leaf.regSlots])
      have my := hR y (by simp [Leaf.regSlots])
      refine ⟨?_, ?_, ?_, ?_⟩
      · intro s hs
        simp only [Leaf.passed, Leaf.regSlots, Leaf.rmSlots, List.cons_append, List.nil_append, List.mem_cons, List.not_mem_nil, or_false] at hs
        rcases hs with rfl | rfl | rfl
        · exact .inr (List.mem_cons_self ..)
        · exact .inr (List.mem_cons_of_mem _ (List.mem_cons_self ..))
        · exact .inl (by rw [hq]; exact hd)
      · intro d hd
        simp only [seen, List.mem_cons, List.not_mem_nil, or_false] at hd
        rcases hd with rfl | rfl | rfl
        · exact .inr ⟨x, by simp [Leaf.passed, Leaf.regSlots], rfl⟩
        · exact .inr ⟨y, by simp [Leaf.passed, Leaf.regSlots], rfl⟩
        · exact .inl rfl
      · intro s hs a ha
        simp only [Leaf.passed, Leaf.regSlots, Leaf.rmSlots, List.cons_append, List.nil_append, List.mem_cons, List.not_mem_nil, or_false] at hs
        rcases hs with rfl | rfl | rfl
        · rw [ha] at mx; cases mx
        · rw [ha] at my; cases my
        · rw [ha] at hq; cases hq
      · intro a ha; cases ha
    · exact two rfl (hR x (by simp [Leaf.regSlots])) (hR y (by simp [Leaf.regSlots])) rfl rfl rfl
  | cvt5 x p t c =>
    obtain ⟨rfl, _, _, rfl, rfl, rfl⟩ := h
    exact one rfl (hR x (by simp [Leaf.regSlots])) (setKind_deco _ _).symm rfl rfl
  | cvt6 x y p t c =>
    obtain ⟨rfl, rfl, rfl, rfl, _⟩ := h
    exact two rfl (hR x (by simp [Leaf.regSlots])) (hR y (by simp [Leaf.regSlots])) rfl rfl rfl
  | encoding x y p t c i tv te s =>
    obtain ⟨_, h⟩ := h
    have my := isMEM_reg (hR y (by simp [Leaf.regSlots]))
    exact carries_made3 (o1 := y) (kmem y) rfl (hR x (by simp [Leaf.regSlots])) (my ▸ h)
  | vmov p x t c m =>
    obtain ⟨rfl, rfl, rfl, rfl, _⟩ := h
    exact one rfl (hR x (by simp [Leaf.regSlots])) rfl rfl rfl
  | gather x m y t c md =>
    obtain ⟨rfl, rfl, _, hr, hv, _⟩ := h
    have b := hf.gather rfl
    have bx := b x (by simp [Leaf.regSlots])
    have by' := b y (by simp [Leaf.regSlots])
    refine carries_of (rs := [x, y]) (p := m) ?_ ?_ ?_ ?_ (hf.adr x m y _ c md .mem (.inl rfl)).symm
    · rfl
    · intro s hs
      refine ⟨hR s hs, .inl (b s hs)⟩
    · left
      rw [hr]; split
      · rfl
      · exact bx
    · left
      rw [hv]
      show Reg.deco (if _ then _ else _) = _
      split
      · rfl
      · exact by'
  | gather2 x m t c md =>
    obtain ⟨rfl, rfl, rfl, rfl, _⟩ := h
    exact one rfl (hR x (by simp [Leaf.regSlots])) rfl rfl (hf.adr x m x _ c md .mem (.inr (.inl rfl))).symm
  | gatherFetch m x t c k =>
    obtain ⟨rfl, rfl, rfl, rfl, _⟩ := h
    exact one rfl (hR x (by simp [Leaf.regSlots])) rfl rfl (hf.adr x m x _ c 0 k (.inr (.inr (.inl rfl)))).symm
  | rro d q p t c i =>
    obtain ⟨_, rfl, rfl, rfl, _⟩ := h
    exact two rfl (hR d (by simp [Leaf.regSlots])) (hR q (by simp [Leaf.regSlots])) rfl rfl rfl
  | kmov k p rv sz =>
    obtain ⟨R, rfl, rfl, ⟨-, rfl, hi, rfl⟩ | ⟨rfl, rfl⟩⟩ := h
    · have mk := hR k (by simp [Leaf.regSlots])
      have mp : (p.op g).isMEM = false := by
        cases hq : p.op g with
        | reg q => rfl
        | mem a =>
          rw [hq] at hi
          unfold Operand.isREG Reg.isREG at hi
          simp only [Bool.and_eq_true, beq_iff_eq] at hi
          rw [show (Operand.mem a).hd.kind = .mem from kmem p a hq] at hi
          exact absurd hi.1 (by decide)
      refine ⟨?_, ?_, ?_, ?_⟩
      · intro s hs
        simp only [Leaf.passed, Leaf.regSlots, Leaf.rmSlots, List.cons_append, List.nil_append, List.mem_cons, List.not_mem_nil, or_false] at hs
        rcases hs with rfl | rfl
        · exact .inr (List.mem_cons_of_mem _ (List.mem_cons_of_mem _ (List.mem_singleton.mpr rfl)))
        · exact .inr (List.mem_cons_self ..)
      · intro d hd
        simp only [seen, List.mem_cons, List.not_mem_nil, or_false] at hd
        rcases hd with rfl | rfl | rfl
        · exact .inr ⟨p, by simp [Leaf.passed, Leaf.rmSlots], rfl⟩
        · exact .inl rfl
        · exact .inr ⟨k, by simp [Leaf.passed, Leaf.regSlots], rfl⟩
      · intro s hs a ha
        simp only [Leaf.passed, Leaf.regSlots, Leaf.rmSlots, List.cons_append, List.nil_append, List.mem_cons, List.not_mem_nil, or_false] at hs
        rcases hs with rfl | rfl
        · rw [ha] at mk; cases mk
        · rw [ha] at mp; cases mp
      · intro a ha; cases ha
    · exact one rfl (hR k (by simp [Leaf.regSlots])) rfl rfl rfl
  | amx x m t c =>
    obtain ⟨rfl, rfl, rfl, rfl⟩ := h
    have e := hf.adr x m x _ c 0 .mem (.inr (.inr (.inr rfl)))
    have mx := hR x (by simp [Leaf.regSlots])
    refine ⟨?_, ?_, ?_, ?_⟩
    · intro s hs
      simp only [Leaf.passed, Leaf.regSlots, Leaf.rmSlots, List.cons_append, List.nil_append, List.mem_cons, List.not_mem_nil, or_false] at hs
      rcases hs with rfl | rfl
      · exact .inr (List.mem_cons_self ..)
      · refine .inr (List.mem_cons_of_mem _ (List.mem_cons_of_mem _ (List.mem_singleton.mpr ?_)))
        rw [e]; rfl
    · intro d hd
      simp only [seen, List.mem_cons, List.not_mem_nil, or_false] at hd
      rcases hd with rfl | rfl | rfl
      · exact .inr ⟨x, by simp [Leaf.passed, Leaf.regSlots], rfl⟩
      · exact .inl rfl
      · exact .inr ⟨m, by simp [Leaf.passed, Leaf.rmSlots], by rw [e]; rfl⟩
    · intro s hs a ha
      simp only [Leaf.passed, Leaf.regSlots, Leaf.rmSlots, List.cons_append, List.nil_append, List.mem_cons, List.not_mem_nil, or_false] at hs
      rcases hs with rfl | rfl
      · rw [ha] at mx; cases mx
      · rw [e] at ha; cases ha; exact ⟨rfl, rfl⟩
    · intro a ha
      cases ha
      exact ⟨m, by simp [Leaf.passed, Leaf.rmSlots], _, e, rfl, rfl, rfl⟩
  | _ => exact h.elim

/-! ## The table -/

/-- Operands of which only the number is passed on: the registers in the immediate of `vblendvpd`, `vblendvps`, `vpblendvb`, and the destination of
`vmovmskpd`, `vmovmskps`. -/
def onlyNumber (line j : Nat) : Bool := [(1069, 3), (1070, 3), (1397, 3), (1602, 2), (1603, 2), (1762, 2), (1349, 0), (1350, 0)].any fun p => Nat.beq p.1 line && Nat.beq p.2 j

def Param.isGp : Param → Bool
  | .reg8 | .reg16 | .reg32 | .reg64 | .reg32e => true
  | _ => false

def Reg.plain (q : Reg) : Bool := q.mask == 0 && !q.zero && q.rnd == 0

/-- The slot is an argument or has no modifiers. -/
def Slot.clean : Slot → Bool
  | .a _ | .xmmOf _ | .ymmOf _ | .gp16Of _ | .gp64Of _ | .kindOf .. | .zeroOf _ | .bitOf .. => true
  | .r q => Mn.Reg.plain q
  | .nfOf _ => false

def Leaf.carriesOk (ps : List Param) : Leaf → Bool
  | .vexCB k .. => k.par ps == some .opmask
  | .gather _ m .. | .gather2 _ m .. | .gatherFetch m .. | .amx _ m .. => m.par ps == some .addr
  | _ => true

def Entry.passesAt (e : Entry) (n : Nat) : Bool :=
  e.body.sends (e.pars n) n && e.body.leaves.all fun l => l.carriesOk (e.pars n) && (l.passed.all Slot.clean) && (l.regSlots.all fun s => s.isMem (e.pars n) == some false) &&
    (List.range n).all fun j => l.passed.contains (.a j) || (onlyNumber e.line j && (Slot.a j).isMem (e.pars n) == some false) || (match (e.pars n)[j]? with | some p => p.isGp | none => false) || (Nat.beq e.line 1439 && Nat.beq j 0)

def Entry.passesOk (e : Entry) : Bool :=
  let n := (e.params.filter Param.isOperand).length
  decide (e.opt ≤ 1) && e.passesAt n && (e.opt == 0 || e.passesAt (n - 1))

set_option maxRecDepth 1000000 in
theorem passes_check : (all.all fun e => !e.vexed || e.passesOk) = true := by decide +kernel

theorem passesAt_of {e : Entry} (he : e ∈ all) (hv : e.vexed = true) (hf : g.Fits e.params e.opt) : e.passesAt g.ops.length = true := by
  have h := List.all_eq_true.mp passes_check e he
  simp only [hv, Bool.not_true, Bool.false_or] at h
  unfold Entry.passesOk at h
  simp only [Bool.and_eq_true, Bool.or_eq_true, decide_eq_true_eq, beq_iff_eq] at h
  obtain ⟨⟨h2, h3⟩, h4⟩ := h
  have a := hf.1
  have b := hf.2.1
  by_cases hn : g.ops.length = (e.params.filter Param.isOperand).length
  · rw [hn]; exact h3
  · have : e.opt = 1 := by omega
    rw [this] at h4
    rw [show g.ops.length = (e.params.filter Param.isOperand).length - 1 by omega]
    rcases h4 with h4 | h4
    · cases h4
    · exact h4

/-! ## The statement -/

/-- Conditions on the arguments. -/
structure Decorated (e : Entry) (g : Args) : Prop where
  good : g.Good
  /-- APX registers and modifiers select other encodings -/
  apx : e.body.viaRoo = true → g.NoApx
  /-- general registers have no modifiers (`c78_refuted_gpr`) -/
  gpr : ∀ i q, g.op i = .reg q → q.kind = .reg → q.Bare
  /-- nor do the registers of which only the number is passed on (`c78_refuted_is4`) -/
  num : ∀ i, onlyNumber e.line i = true → (g.op i).hd.Bare
  /-- nor the registers of the gathers with VEX (`c78_refuted_gather`) -/
  gather : e.gathers = true → ∀ i q, g.op i = .reg q → q.Bare
  /-- addresses are made of registers without modifiers, and have an opmask only (`c78_refuted_zero`) -/
  addr : ∀ i a, g.op i = .mem a → a.e.base.Bare ∧ a.e.index.Bare ∧ a.o.zero = false ∧ a.o.rnd = 0
  /-- an opmask of an address is not contradicted by a register (`c78_refuted_masks`) -/
  one : ∀ i a, g.op i = .mem a → a.o.mask ≠ 0 → ∀ j q, g.op j = .reg q → q.mask = 0 ∨ q.mask = a.o.mask

/-- The prefix says what the operands say. -/
structure Says (g : Args) (h : X86.Head) : Prop where
  mask : ∀ i, (g.op i).deco.mask ≠ 0 → h.aaa = (g.op i).deco.mask
  maskOnly : h.aaa ≠ 0 → ∃ i, (g.op i).deco.mask = h.aaa
  zero : h.z = true ↔ h.aaa ≠ 0 ∧ ∃ i, (g.op i).deco.zero = true
  b : h.b = true ↔ (∃ i a, g.op i = .mem a ∧ a.broadcast = true) ∨ ∃ i, (g.op i).deco.rnd ≠ 0
  rc : ∀ i, (g.op i).deco.rnd ≠ 0 → X86.staticRounding h = some (rcOf (g.op i).deco.rnd)

theorem getRegExp_base (a : Addr) : a.getRegExp.base = a.e.base ∨ a.getRegExp.base = a.e.index := by
  unfold Addr.getRegExp RegExp.optimize
  split
  · split
    · exact .inr rfl
    · exact .inl rfl
  · exact .inl rfl

theorem rc_eq : ∀ r : BitVec 3, r ≠ 0 → r ≠ 5 → r.toNat ≤ 5 → ((r.setWidth 8 : BitVec 8) - 1).setWidth 2 = rcOf r := by decide +kernel

theorem Slot.clean_deco {s : Slot} (h : s.clean = true) : (∃ i, s = .a i) ∨ (s.op g).deco = {} := by
  cases s with
  | a i => exact .inl ⟨i, rfl⟩
  | r q =>
    right
    simp only [Slot.clean, Mn.Reg.plain, Bool.and_eq_true, beq_iff_eq, Bool.not_eq_true'] at h
    simp [Slot.op, Operand.deco, Operand.hd, Xbyak.Reg.deco, h]
  | kindOf i n => right; rfl
  | zeroOf i => right; exact cvtIdx0_deco _
  | nfOf i => cases h
  | _ => right; rfl

theorem anyZero_eq (r b : Reg) (v : Option Reg) : anyZero r b v = (r.zero || b.zero || (v.getD .nil).deco.zero) := by cases v <;> rfl

/-- The whole of what `opVex` sees is what the arguments say. -/
theorem says_of {g : Args} {r : Reg} {v : Option Reg} {o : Operand} {u : Ty} {h : X86.Head} (H : VexHead r v o u h)
    (all : ∀ i, (g.op i).deco = {} ∨ (g.op i).deco ∈ seen r v o) (only : ∀ d ∈ seen r v o, d = {} ∨ ∃ i, (g.op i).deco = d)
    (mem : ∀ i a, g.op i = .mem a → rmBcast o = a.broadcast) (memOnly : rmBcast o = true → ∃ i a, g.op i = .mem a ∧ a.broadcast = true)
    (rnd : ∀ i, (g.op i).deco.rnd.toNat ≤ 5)
    (adr : ∀ a, o = .mem a → a.getRegExp.base.Bare ∧ a.o.zero = false ∧ a.o.rnd = 0 ∧ (a.o.mask ≠ 0 → ∀ d ∈ seen r v o, d.mask = 0 ∨ d.mask = a.o.mask)) : Says g h := by
  -- the modifiers of ModRM.rm
  have sub : ∀ d ∈ seen r v o, d = r.deco ∨ d = (v.getD .nil).deco ∨ d = o.deco := by
    intro d hd; simpa [seen] using hd
  have vm : (v.getD .nil).deco.mask = vMask v := by cases v <;> rfl
  have vr : (v.getD .nil).deco.rnd = vRnd v := by cases v <;> rfl
  have zs : (∃ i, (g.op i).deco.zero = true) ↔ ∃ d ∈ seen r v o, d.zero = true := by
    constructor
    · rintro ⟨i, hi⟩
      rcases all i with h | h
      · rw [h] at hi; cases hi
      · exact ⟨_, h, hi⟩
    · rintro ⟨d, hd, hz⟩
      rcases only d hd with rfl | ⟨i, rfl⟩
      · cases hz
      · exact ⟨i, hz⟩
  have bs : (∃ i a, g.op i = .mem a ∧ a.broadcast = true) ↔ rmBcast o = true :=
    ⟨fun ⟨i, a, h1, h2⟩ => (mem i a h1).trans h2, memOnly⟩
  have rs : (∃ i, (g.op i).deco.rnd ≠ 0) ↔ ∃ d ∈ seen r v o, d.rnd ≠ 0 := by
    constructor
    · rintro ⟨i, hi⟩
      rcases all i with h | h
      · rw [h] at hi; exact absurd rfl hi
      · exact ⟨_, h, hi⟩
    · rintro ⟨d, hd, hz⟩
      rcases only d hd with rfl | ⟨i, rfl⟩
      · exact absurd rfl hz
      · exact ⟨i, hz⟩
  cases H with
  | vex sp L b aaa z must hr hv hop =>
    have nE : ∀ q : Reg, q.hasEvex = false → q.mask = 0 ∧ q.rnd = 0 := by
      intro q hq
      unfold Reg.hasEvex at hq
      simp only [Bool.or_eq_false_iff, bne_eq_false_iff_eq] at hq
      exact ⟨hq.1.2, hq.2⟩
    have none : ∀ d ∈ seen r v o, d.mask = 0 ∧ d.rnd = 0 := by
      intro d hd
      rcases sub d hd with rfl | rfl | rfl
      · exact nE r hr
      · cases hq : v with
        | none => exact ⟨rfl, rfl⟩
        | some q => exact nE q (hv q hq)
      · cases hq : o with
        | reg q => rw [hq] at hop; exact nE q hop
        | mem a => rw [hq] at hop; exact ⟨hop.2, (adr a hq).2.2.1⟩
    have bc : rmBcast o = false := by
      cases hq : o with
      | reg q => rfl
      | mem a => rw [hq] at hop; exact hop.1
    have no : ∀ i, (g.op i).deco.mask = 0 ∧ (g.op i).deco.rnd = 0 := by
      intro i
      rcases all i with h | h
      · rw [h]; exact ⟨rfl, rfl⟩
      · exact none _ h
    refine ⟨fun i hi => absurd (no i).1 hi, fun h => absurd aaa h, ?_, ?_, fun i hi => absurd (no i).2 hi⟩
    · rw [z]
      exact ⟨fun h => (by cases h), fun h => absurd aaa h.1⟩
    · rw [b, bs, bc]
      refine ⟨fun h => (by cases h), fun h => ?_⟩
      rcases h with h | ⟨i, h⟩
      · cases h
      · exact absurd (no i).2 h
  | evex sp ty ln k len mask mk bc L b aaa z =>
    -- masks
    have km : (∀ d ∈ seen r v o, d.mask = 0 ∨ d.mask = k) ∧ (k = 0 ∨ ∃ d ∈ seen r v o, d.mask = k) := by
      have hm := evexMask_ok mask
      cases ho : o with
      | reg q =>
        rw [ho] at hm
        obtain ⟨s1, s2⟩ := hm.2 rfl
        refine ⟨fun d hd => ?_, ?_⟩
        · rw [← ho] at hd
          rcases sub d hd with rfl | rfl | rfl
          · exact s1 _ (by simp [Reg.deco])
          · rw [vm]; exact s1 _ (by simp)
          · rw [ho]; exact s1 _ (by simp [Operand.deco, Operand.hd, Reg.deco, rmReg])
        · rcases s2 with s2 | s2
          · exact .inl s2
          · right
            simp only [List.mem_cons, List.not_mem_nil, or_false] at s2
            rcases s2 with s2 | s2 | s2
            · exact ⟨(Operand.reg q).deco, by simp [seen], s2.symm⟩
            · exact ⟨r.deco, by simp [seen], s2.symm⟩
            · exact ⟨(v.getD .nil).deco, by simp [seen], by rw [vm]; exact s2.symm⟩
      | mem a =>
        rw [ho] at hm
        obtain ⟨a1, a2, a3, a4⟩ := adr a ho
        by_cases h0 : a.o.mask = 0
        · obtain ⟨s1, s2⟩ := hm.2 h0
          refine ⟨fun d hd => ?_, ?_⟩
          · rw [← ho] at hd
            rcases sub d hd with rfl | rfl | rfl
            · exact s1 _ (by simp [Reg.deco])
            · rw [vm]; exact s1 _ (by simp)
            · rw [ho]; exact .inl h0
          · rcases s2 with s2 | s2
            · exact .inl s2
            · simp only [List.mem_cons, List.not_mem_nil, or_false] at s2
              rcases s2 with s2 | s2 | s2
              · left; rw [s2]; exact congrArg Deco.mask a1
              · right; exact ⟨r.deco, by simp [seen], s2.symm⟩
              · right; exact ⟨(v.getD .nil).deco, by simp [seen], by rw [vm]; exact s2.symm⟩
        · have := hm.1 h0
          subst this
          exact ⟨fun d hd => a4 h0 d (ho ▸ hd), .inr ⟨(Operand.mem a).deco, by simp [seen], rfl⟩⟩
    -- zeroing
    have kz : anyZero r (rmReg o) v = true ↔ ∃ d ∈ seen r v o, d.zero = true := by
      have hz : (rmReg o).zero = o.deco.zero := by
        cases ho : o with
        | reg q => rfl
        | mem a =>
          obtain ⟨a1, a2, -⟩ := adr a ho
          exact (congrArg Deco.zero a1).trans a2.symm
      rw [anyZero_eq, hz]
      simp [seen, Reg.deco, or_assoc]
      constructor
      · rintro (h | h | h)
        · exact .inl h
        · exact .inr (.inr h)
        · exact .inr (.inl h)
      · rintro (h | h | h)
        · exact .inl h
        · exact .inr (.inr h)
        · exact .inr (.inl h)
    -- rounding
    obtain ⟨rd, ⟨s1, s2⟩, hl⟩ := evexLen_ok len
    have hrr : (rmReg o).rnd = o.deco.rnd := by
      cases ho : o with
      | reg q => rfl
      | mem a =>
        obtain ⟨a1, _, a3, -⟩ := adr a ho
        exact (congrArg Deco.rnd a1).trans a3.symm
    have kr : (∀ d ∈ seen r v o, d.rnd = 0 ∨ d.rnd = rd) ∧ (rd = 0 ∨ ∃ d ∈ seen r v o, d.rnd = rd) := by
      refine ⟨fun d hd => ?_, ?_⟩
      · rcases sub d hd with rfl | rfl | rfl
        · exact s1 _ (by simp [Reg.deco])
        · rw [vr]; exact s1 _ (by simp)
        · rw [← hrr]; exact s1 _ (by simp)
      · rcases s2 with s2 | s2
        · exact .inl s2
        · right
          simp only [List.mem_cons, List.not_mem_nil, or_false] at s2
          rcases s2 with s2 | s2 | s2
          · exact ⟨r.deco, by simp [seen], s2.symm⟩
          · exact ⟨o.deco, by simp [seen], by rw [← hrr]; exact s2.symm⟩
          · exact ⟨(v.getD .nil).deco, by simp [seen], by rw [vr]; exact s2.symm⟩
    have hb : h.b = true ↔ rmBcast o = true ∨ rd ≠ 0 := by
      rw [b]
      rcases hl with ⟨h0, rfl⟩ | ⟨h0, _, _, rfl⟩ | ⟨h0, _, _, _, rfl⟩
      · simp [h0]
      · simp [h0]
      · exact ⟨fun _ => .inr h0, fun _ => rfl⟩
    refine ⟨fun i hi => ?_, fun hk => ?_, ?_, ?_, fun i hi => ?_⟩
    · rcases all i with h | h
      · rw [h] at hi; exact absurd rfl hi
      · rw [aaa]; exact ((km.1 _ h).resolve_left hi).symm
    · rw [aaa] at hk ⊢
      obtain ⟨d, hd, hd'⟩ := km.2.resolve_left hk
      rcases only d hd with rfl | ⟨i, rfl⟩
      · exact absurd hd'.symm hk
      · exact ⟨i, hd'⟩
    · rw [z, aaa, zs, ← kz]; simp
    · rw [hb, bs, rs]
      constructor
      · rintro (h | h)
        · exact .inl h
        · obtain ⟨d, hd, rfl⟩ := kr.2.resolve_left h
          exact .inr ⟨d, hd, h⟩
      · rintro (h | ⟨d, hd, h⟩)
        · exact .inl h
        · exact .inr (by rw [← (kr.1 d hd).resolve_left h]; exact h)
    · rcases all i with h | h
      · rw [h] at hi; exact absurd rfl hi
      · have e := (kr.1 _ h).resolve_left hi
        have r5 := rnd i
        rw [e] at hi r5 ⊢
        unfold X86.staticRounding
        rw [if_pos (hb.mpr (.inr hi)), L]
        rcases hl with ⟨h0, rfl⟩ | ⟨h0, _, _, rfl⟩ | ⟨h0, h5, _, _, rfl⟩
        · exact absurd h0 hi
        · rw [h0]; rfl
        · exact congrArg some (rc_eq rd hi h5 r5)

/-- The call of `opVex` that an accepted call makes. -/
theorem called {e : Entry} (hv : e.vexed = true) {g : Args} {w : List Act} (hc : Calls e g w) (hp : Decorated e g) :
    ∃ c l r v o u code imm, l ∈ e.body.leaves ∧ e.body.leafAt g = some (c, l) ∧ Passes g c ∧ l.Makes g r v o u ∧ (opVex r v o u code imm).Gives w () ∧ Carries g l r v o ∧
      (∀ s ∈ l.passed, s.clean = true) ∧ (∀ s ∈ l.regSlots, (s.op g).isMEM = false) := by
  have hP := passesAt_of hc.mem hv hc.fits
  have ht := pars_are hc hp.good
  unfold Entry.passesAt at hP
  rw [Bool.and_eq_true] at hP
  obtain ⟨hs, hP⟩ := hP
  obtain ⟨m, hm, hw⟩ := hc.runs
  obtain ⟨c, l, hl, hat, hpass, r, v, o, u, code, imm, hmk, hw⟩ := Body.made hp.good ht hs hp.apx hm hw
  have hP := List.all_eq_true.mp hP l hl
  simp only [Bool.and_eq_true] at hP
  obtain ⟨⟨⟨hcar, hclean⟩, hreg⟩, hargs⟩ := hP
  have few : Few g l := by
    refine ⟨?_, ?_, ?_, ?_, ?_⟩
    · intro s hs q hq hk
      rcases Slot.clean_deco (g := g) (List.all_eq_true.mp hclean s hs) with ⟨i, rfl⟩ | h
      · exact hp.gpr i q hq hk
      · rw [hq] at h; exact h
    · intro hgt s hs
      have hs' : s ∈ l.passed := List.mem_append_left _ hs
      rcases Slot.clean_deco (g := g) (List.all_eq_true.mp hclean s hs') with ⟨i, rfl⟩ | h
      · have hm := Slot.not_mem ht (s := .a i) (eq_of_beq (List.all_eq_true.mp hreg _ hs))
        obtain ⟨q, hq, _⟩ := op_reg (j := i) hm
        have hG : e.gathers = true := by
          unfold Entry.gathers
          rw [List.any_eq_true]
          exact ⟨l, hl, by cases l <;> first | rfl | cases hgt⟩
        have := hp.gather hG i q hq
        show (g.op i).deco = _
        rw [hq]; exact this
      · exact h
    · intro s hs
      exact Slot.not_mem ht (eq_of_beq (List.all_eq_true.mp hreg _ hs))
    · intro k o t c i e'
      subst e'
      have h' : k.par (e.pars g.ops.length) = some .opmask := eq_of_beq hcar
      cases k with
      | a j =>
        have := ht j _ h'
        simp only [Param.takes, Bool.and_eq_true, Reg.isOPMASK, beq_iff_eq] at this
        exact this.2
      | _ => cases h'
    · intro x m y t c d k e'
      have h' : m.par (e.pars g.ops.length) = some .addr := by
        rcases e' with rfl | rfl | rfl | rfl <;> exact eq_of_beq hcar
      exact Slot.mem_op ht h'
  exact ⟨c, l, r, v, o, u, code, imm, hl, hat, hpass, hmk, hw, Leaf.carries hp.good few hmk, fun s hs => List.all_eq_true.mp hclean s hs, few.reg⟩

/-- Arguments that are not passed on have no modifiers. -/
theorem lost {e : Entry} (hv : e.vexed = true) {g : Args} {w : List Act} (hc : Calls e g w) (hp : Decorated e g) {c : Option (Check × Slot × Slot)} {l : Leaf}
    (hl : l ∈ e.body.leaves) (hat : e.body.leafAt g = some (c, l)) (i : Nat) : (g.op i).deco = {} ∧ (g.op i).isMEM = false ∨ .a i ∈ l.passed := by
  have ht := pars_are hc hp.good
  have hargs : ((List.range g.ops.length).all fun j => l.passed.contains (.a j) || (onlyNumber e.line j && (Slot.a j).isMem (e.pars g.ops.length) == some false) ||
      (match (e.pars g.ops.length)[j]? with | some p => p.isGp | none => false) || (Nat.beq e.line 1439 && Nat.beq j 0)) = true := by
    have hP := passesAt_of hc.mem hv hc.fits
    unfold Entry.passesAt at hP
    rw [Bool.and_eq_true] at hP
    have hP := List.all_eq_true.mp hP.2 l hl
    rw [Bool.and_eq_true] at hP
    exact hP.2
  by_cases hi : i < g.ops.length
  · have := List.all_eq_true.mp hargs i (List.mem_range.mpr hi)
    simp only [Bool.or_eq_true, List.contains_iff_mem] at this
    rcases this with ((h | h) | h) | h
    · exact .inr h
    · rw [Bool.and_eq_true, beq_iff_eq] at h
      exact .inl ⟨hp.num i h.1, Slot.not_mem ht (s := .a i) h.2⟩
    · left
      cases hq : (e.pars g.ops.length)[i]? with
      | none => rw [hq] at h; cases h
      | some p =>
        rw [hq] at h
        have hk := ht i p hq
        have : (g.op i).isMEM = false ∧ (g.op i).hd.kind = .reg := by
          cases p <;> first | (cases h; done) | (simp only [Param.takes, Operand.isREG, Reg.isREG, Bool.and_eq_true, Bool.not_eq_true', beq_iff_eq] at hk; exact ⟨hk.1, hk.2.1⟩)
        obtain ⟨q, hq, hq'⟩ := op_reg this.1
        refine ⟨?_, this.1⟩
        rw [Operand.deco, hq']
        exact hp.gpr i q hq (hq' ▸ this.2)
    · rw [Bool.and_eq_true, Nat.beq_eq, Nat.beq_eq] at h
      obtain ⟨h1, rfl⟩ := h
      obtain rfl := mem_line hc.mem h1 line1439
      simp only [Body.leafAt] at hat
      split at hat
      · rename_i hR
        left
        rw [Bool.and_eq_true] at hR
        have hk : (g.op 0).hd.kind = .reg := by
          have := hR.1
          simp only [Args.reg, Reg.isREG, Bool.and_eq_true, beq_iff_eq] at this
          exact this.1
        cases hq : g.op 0 with
        | reg q =>
          rw [hq] at hk
          exact ⟨hp.gpr 0 q hq hk, rfl⟩
        | mem a =>
          rw [hq] at hk
          rw [show (Operand.mem a).hd.kind = .mem from hp.good.kind 0 a hq] at hk
          cases hk
      · right
        cases hat
        simp [Leaf.passed, Leaf.rmSlots]
  · left
    have : g.op i = .reg .nil := by
      unfold Args.op
      rw [List.getElem?_eq_none (by omega)]; rfl
    rw [this]; exact ⟨rfl, rfl⟩

/-- C78: the prefix of an accepted vector instruction has the opmask, zeroing, broadcast and rounding given with its operands, and no other.
Partial: `Decorated` leaves out modifiers that the library drops, each with the theorem that shows it. -/
theorem c78_partial {e : Entry} (hv : e.vexed = true) {g : Args} {w : List Act} (hc : Calls e g w) (hp : Decorated e g)
    (rnd : ∀ i, (g.op i).deco.rnd.toNat ≤ 5) (fill : Act → BitVec 32) :
    ∃ h, Says g h ∧ ∀ tl, ∃ t, X86.head (concr fill w ++ tl) = some (h, t) := by
  obtain ⟨c, l, r, v, o, u, code, imm, hl, hat, -, -, hw, C, hclean, -⟩ := called hv hc hp
  obtain ⟨h, H, hh⟩ := opVex_head hw fill
  have lost := lost hv hc hp hl hat
  have arg : ∀ s ∈ l.passed, (s.op g).deco = {} ∨ ∃ i, s = .a i := fun s hs => (Slot.clean_deco (hclean s hs)).symm
  refine ⟨h, says_of H ?_ ?_ ?_ ?_ rnd ?_, hh⟩
  · intro i
    rcases lost i with h | h
    · exact .inl h.1
    · exact C.all _ h
  · intro d hd
    rcases C.only d hd with h | ⟨s, hs, h⟩
    · exact .inl h
    · rcases arg s hs with h' | ⟨i, rfl⟩
      · exact .inl (h.symm.trans h')
      · exact .inr ⟨i, h⟩
  · intro i a ha
    rcases lost i with h | h
    · have := h.2
      rw [ha] at this; cases this
    · exact (C.mem _ h a ha).1
  · intro hb
    cases ho : o with
    | reg q => rw [ho] at hb; cases hb
    | mem a =>
      obtain ⟨s, hs, b, h1, h2, -⟩ := C.memOnly a ho
      rw [ho] at hb
      rcases Slot.clean_deco (g := g) (hclean s hs) with ⟨i, rfl⟩ | h
      · exact ⟨i, b, h1, h2.trans hb⟩
      · cases s <;> first | (cases h1; done) | exact ⟨_, b, h1, h2.trans hb⟩
  · intro a ha
    obtain ⟨s, hs, b, h1, -, h3, h4⟩ := C.memOnly a ha
    have : ∃ i, g.op i = .mem b := by
      cases s <;> first | (cases h1; done) | exact ⟨_, h1⟩
    obtain ⟨i, hi⟩ := this
    obtain ⟨a1, a2, a3, a4⟩ := hp.addr i b hi
    rw [h4] at a1 a2
    rw [h3] at a3 a4
    refine ⟨?_, a3, a4, ?_⟩
    · rcases getRegExp_base a with h | h
      · rw [h]; exact a1
      · rw [h]; exact a2
    · intro hk d hd
      rcases C.only d hd with rfl | ⟨s, hs, rfl⟩
      · exact .inl rfl
      · rcases arg s hs with h' | ⟨j, rfl⟩
        · left; rw [h']
        · have := hp.one i b hi (h3 ▸ hk) j
          show (g.op j).deco.mask = _ ∨ (g.op j).deco.mask = _
          rw [h3] at this
          cases hj : g.op j with
          | reg q => exact this q hj
          | mem b' =>
            have e1 := (C.mem (.a j) hs b' hj).2
            rw [ha] at e1
            exact .inr (congrArg Deco.mask e1).symm

/-! ## What is wrong -/

/-- Bug: modifiers of a general register that is passed on as `Xmm(idx)` are dropped: `vcvtss2si(eax|k1, xmm2)`. -/
theorem c78_refuted_gpr : Reads 1227 { ops := [.reg { Reg.gp 0 32 with mask := 1 }, .reg (.xmm 2)] } fun _ h _ _ => h.aaa == 0 := reads_of (by decide +kernel)

/-- Bug: modifiers of the register in the immediate are dropped: `vblendvps(xmm1, xmm2, xmm3, xmm4|k1|T_z)`. -/
theorem c78_refuted_is4 : Reads 1070 { ops := [.reg (.xmm 1), .reg (.xmm 2), .reg (.xmm 3), .reg { Reg.xmm 4 with mask := 1, zero := true }] }
    fun f h _ _ => f.sp == .vex && h.aaa == 0 && h.z == false := reads_of (by decide +kernel)

/-- `[rax + ymm2]` -/
def vsibY : Addr := { o := { idx := 0, ext8 := false, kind := .mem, bit := 0 }, e := { base := .gp 0 64, index := .ymm 2, scale := 1, disp := 0 } }

/-- Bug: the opmask of `vgatherqps(xmm1|k1, [rax + ymm2], xmm3)` is dropped because the register is made anew; with an xmm index it is refused. -/
theorem c78_refuted_gather : Reads 1304 { ops := [.reg { Reg.xmm 1 with mask := 1 }, .mem vsibY, .reg (.xmm 3)] } fun f h _ _ => f.sp == .vex && h.aaa == 0 :=
  reads_of (by decide +kernel)

/-- Bug: `T_z` of an address is dropped: `vmovups([rax]|k1|T_z, xmm1)` merges. -/
theorem c78_refuted_zero : Reads 1368 { ops := [.mem { at64 0 0 with o := { idx := 0, ext8 := false, kind := .mem, bit := 0, mask := 1, zero := true } }, .reg (.xmm 1)] }
    fun _ h _ _ => h.aaa == 1 && !h.z := reads_of (by decide +kernel)

/-- Bug: of two different opmasks the one of the register is dropped: `vmovups([rax]|k1, xmm1|k2)` is not refused. -/
theorem c78_refuted_masks : Reads 1368 { ops := [.mem { at64 0 0 with o := { idx := 0, ext8 := false, kind := .mem, bit := 0, mask := 1 } }, .reg { Reg.xmm 1 with mask := 2 }] }
    fun _ h _ _ => h.aaa == 1 := reads_of (by decide +kernel)

/-! ## Examples -/

/-- `vaddps(zmm1|k3|T_z, zmm2, zmm3|T_rd_sae)` (1050) -/
example : Reads 1050 { ops := [.reg { Reg.zmm 1 with mask := 3, zero := true }, .reg (.zmm 2), .reg { Reg.zmm 3 with rnd := 2 }] }
    fun _ h _ _ => h.aaa == 3 && h.z && h.b && h.L == 1 := reads_of (by decide +kernel)

/-- `vaddps(zmm1|k3, zmm2, ptr_b[rax])` -/
example : Reads 1050 { ops := [.reg { Reg.zmm 1 with mask := 3 }, .reg (.zmm 2), .mem (at64 0 0 true)] }
    fun _ h _ _ => h.aaa == 3 && !h.z && h.b := reads_of (by decide +kernel)

/-- Calls that `c78_partial` speaks about: the first of the two. -/
example : ∃ e w, e.vexed = true ∧ Calls e { ops := [.reg { Reg.zmm 1 with mask := 3, zero := true }, .reg (.zmm 2), .reg { Reg.zmm 3 with rnd := 2 }] } w ∧
    Decorated e { ops := [.reg { Reg.zmm 1 with mask := 3, zero := true }, .reg (.zmm 2), .reg { Reg.zmm 3 with rnd := 2 }] } := by
  let g : Args := { ops := [.reg { Reg.zmm 1 with mask := 3, zero := true }, .reg (.zmm 2), .reg { Reg.zmm 3 with rnd := 2 }] }
  have key : ((all.filter fun e => Nat.beq e.line 1050).all fun e => e.vexed && !e.body.viaRoo && !e.gathers) = true := by decide +kernel
  have hop : ∀ i, ∃ q, g.op i = .reg q ∧ q.kind ≠ .reg := by
    intro i
    match i with
    | 0 => exact ⟨_, rfl, by decide⟩
    | 1 => exact ⟨_, rfl, by decide⟩
    | 2 => exact ⟨_, rfl, by decide⟩
    | i + 3 => exact ⟨.nil, rfl, by decide⟩
  have nomem : ∀ i a, g.op i ≠ .mem a := fun i a h => by obtain ⟨q, hq, -⟩ := hop i; rw [hq] at h; cases h
  have reg : ∀ i q, g.op i = .reg q → q.kind ≠ .reg := fun i q h => by
    obtain ⟨q', hq, h'⟩ := hop i; rw [hq] at h; cases h; exact h'
  obtain ⟨e, hl, hn, hc⟩ := callAt_line (show callAt 1050 g = some (n!"vaddps", [0x62, 0xF1, 0x6C, 0xBB, 0x58, 0xCB].map .byte) by decide +kernel)
  have hk := List.all_eq_true.mp key e (List.mem_filter.mpr ⟨hc.1, by rw [hl]; rfl⟩)
  simp only [Bool.and_eq_true, Bool.not_eq_true', and_assoc] at hk
  obtain ⟨k1, k2, k3⟩ := hk
  refine ⟨e, _, k1, hc, ⟨⟨fun i a h => absurd h (nomem i a), fun i a h => absurd h (nomem i a), fun i q h hk => absurd hk (reg i q h)⟩, fun h => ?_, fun i q h hk => absurd hk (reg i q h),
    fun i h => ?_, fun h => ?_, fun i a h => absurd h (nomem i a), fun i a h => absurd h (nomem i a)⟩⟩
  · rw [k2] at h; cases h
  · rw [hl] at h; simp [onlyNumber] at h
  · rw [k3] at h; cases h

end Mn
end Xbyak
