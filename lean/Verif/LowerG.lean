import Verif.LowerS
import Verif.Spec.Gp
/-!
# From integer instructions to `opRO`

The helpers for integer instructions with a ModRM byte end in `opRR` or `opMR`.  Which call that is depends on the arguments only through
their kinds and sizes; `Leaf.gshapes` and `Body.gshapes` compute it from representatives of the arguments (`Args.rep`), and `Body.gsent`
proves it.
-/
namespace Xbyak

/-- The register with the same kind and size and number 0. -/
def Reg.rep (q : Reg) : Reg := { idx := 0, ext8 := false, kind := q.kind, bit := q.bit }

/-- An operand of the same kind and size. -/
def Operand.rep : Operand → Operand
  | .reg q => .reg q.rep
  | .mem a => .mem { o := a.o.rep, e := .ofDisp 0 }

namespace Mn
open E

/-- Arguments of the same kinds and sizes. -/
def Args.rep (g : Args) : Args := { ops := g.ops.map Operand.rep }

theorem Args.rep_op (g : Args) (i : Nat) : g.rep.op i = (g.op i).rep ∨ (g.ops[i]? = none ∧ g.rep.op i = .reg .nil) := by
  unfold Args.op Args.rep
  dsimp only
  rw [List.getElem?_map]
  cases h : g.ops[i]? with
  | none => exact .inr ⟨rfl, rfl⟩
  | some o => exact .inl rfl

theorem Operand.rep_facts (o : Operand) : o.rep.isMEM = o.isMEM ∧ o.rep.hd.kind = o.hd.kind ∧ o.rep.hd.bit = o.hd.bit := by
  cases o <;> exact ⟨rfl, rfl, rfl⟩

theorem Args.rep_facts (g : Args) (i : Nat) : (g.rep.op i).isMEM = (g.op i).isMEM ∧ (g.rep.reg i).kind = (g.reg i).kind ∧ (g.rep.reg i).bit = (g.reg i).bit := by
  unfold Args.reg
  rcases Args.rep_op g i with h | ⟨h, h'⟩
  · rw [h]; exact Operand.rep_facts _
  · rw [h', show g.op i = .reg .nil by unfold Args.op; rw [h]; rfl]; exact ⟨rfl, rfl, rfl⟩

theorem Args.rep_mem (g : Args) (i : Nat) : (g.rep.op i).isMEM = (g.op i).isMEM := (Args.rep_facts g i).1
theorem Args.rep_kind (g : Args) (i : Nat) : (g.rep.reg i).kind = (g.reg i).kind := (Args.rep_facts g i).2.1
theorem Args.rep_bit (g : Args) (i : Nat) : (g.rep.reg i).bit = (g.reg i).bit := (Args.rep_facts g i).2.2

theorem Args.rep_isREG (g : Args) (i m : Nat) : (g.rep.reg i).isREG m = (g.reg i).isREG m := by
  unfold Reg.isREG Reg.isBit; rw [Args.rep_kind, Args.rep_bit]
theorem Args.rep_isBit (g : Args) (i m : Nat) : (g.rep.reg i).isBit m = (g.reg i).isBit m := by
  unfold Reg.isBit; rw [Args.rep_bit]

/-- A call of `opRO` whose register check passed: ModRM.reg, the argument in ModRM.rm, flags, opcode, the integer argument written as a byte
behind it, an argument known to be CL.  `nar`: ModRM.reg is the number of the slot, and a 64-bit register in ModRM.rm is passed as its 32-bit
view (`bndcl`, `bndcn`, `bndcu`). -/
structure GShape where
  r : Slot
  k : Nat
  t : Ty
  c : Byte
  nar : Bool := false
  imm : Option Nat := none
  cl : Option Nat := none
  deriving DecidableEq

/-- The 32-bit view of a 64-bit register. -/
def Reg.narrow (q : Reg) : Reg := if q.bit = 64 then { q with ext8 := false, bit := 32, mask := 0, rnd := 0 } else q

def GShape.opd (sh : GShape) (g : Args) : Operand :=
  match g.op sh.k with
  | .reg q => .reg (if sh.nar then Reg.narrow q else q)
  | .mem a => .mem a

def GShape.reg (sh : GShape) (g : Args) : Reg := if sh.nar then .gp (sh.r.reg g).idx (sh.opd g).bit else sh.r.reg g

/-- The immediate bytes. -/
def GShape.tail (sh : GShape) (g : Args) : List Byte := match sh.imm with | some n => [g.i8 n] | none => []

/-- What was written is a call of this shape. -/
structure GSent (g : Args) (sh : GShape) (w : List Act) : Prop where
  call : ∃ w', w = w' ++ (sh.tail g).map .byte ∧ (opRO (sh.reg g) (sh.opd g) sh.t sh.c true (sh.tail g).length).Gives w' ()
  cl : ∀ i, sh.cl = some i → (g.reg i).idx = 1

/-- The argument the slot is. -/
def Slot.arg : Slot → Option Nat
  | .a i => some i
  | _ => none

/-- The slots used by the functions considered here. -/
def Slot.gp : Slot → Bool
  | .a _ => true
  | .r q => q.kind == .reg && !(Operand.reg q).hasRex2NFZU
  | .bitOf _ n => decide (n.toNat < 16)
  | _ => false

/-- The calls made for arguments of these kinds and sizes. -/
def Leaf.gshapes (G : Args) : Leaf → List GShape
  | rr a b t c => match b with
    | .a k => [{ r := a, k, t, c }]
    | _ => []
  | ro r op t c cond => match op with
    | .a k => if (G.op k).isMEM || cond.fn G then [{ r, k, t, c }] else []
    | _ => []
  | mr m r t c _ _ => match m with
    | .a k => [{ r, k, t, c }]
    | _ => []
  | rextI op b e t c n => match op with
    | .a k => if (G.op k).isMEM || (G.reg k).isREG b then [{ r := .bitOf k e, k, t := t ||| T_ALLOW_ABCDH, c, imm := some n }] else []
    | _ => []
  | rextBnd op bnd t c => match op with
    | .a k => if (G.op k).isMEM || (G.reg k).isREG 96 then [{ r := bnd, k, t := t ||| T_ALLOW_ABCDH, c, nar := true }] else []
    | _ => []
  | roMr a b c => match a, b with
    | .a i, .a j =>
      if (G.op j).isMEM then if (G.op i).isREG then [{ r := .a i, k := j, t := 0, c := c ||| 2 }] else []
      else if (G.op i).isMEM || (G.reg i).kind == (G.reg j).kind then [{ r := .a j, k := i, t := 0, c }] else []
    | _, _ => []
  | shxd _ op r n c _ => match op, r with
    | .a k, .a j => if (G.reg j).isREG 112 then [{ r := .a j, k, t := T_0F, c, imm := some n }] else []
    | _, _ => []
  | shxdCL _ op r cl c _ => match op, r, cl with
    | .a k, .a j, .a l => if (G.reg j).isREG 112 then [{ r := .a j, k, t := T_0F, c := c ||| 1, cl := some l }] else []
    | _, _, _ => []
  | movxx r op c => match r, op with
    | .a i, .a k => if !(G.reg k).isBit 32 && ((G.reg i).isREG && decide ((G.reg i).bit > (G.reg k).bit)) then
        [{ r := .a i, k, t := T_0F ||| T_ALLOW_DIFF_SIZE, c := c ||| sel ((G.reg k).isBit 16) 1 }] else []
    | _, _ => []
  | cnt r op c => match r, op with
    | .a i, .a k => if !(G.reg i).isBit 8 && ((G.reg i).isREG 16 && ((G.reg k).isREG 16 || (G.op k).isMEM) ||
        (G.reg i).isREG 96 && ((G.reg k).isREG (G.reg i).bit || (G.op k).isMEM)) then [{ r := .a i, k, t := T_F3 ||| T_0F, c }] else []
    | _, _ => []
  | _ => []

/-- The leaves `Leaf.gsent` speaks about. -/
def Leaf.gped (ps : List Param) : Leaf → Bool
  | rr a b _ _ => a.gp && b.arg.isSome && b.isMem ps == some false
  | ro r b _ _ _ => r.gp && b.arg.isSome
  | mr m r _ _ t2 _ => r.gp && m.arg.isSome && m.isMem ps == some true && (t2 == 0 || (r.isMem ps == some false && !t2.has T_MUST_EVEX))
  | rextI m _ e t _ _ => m.arg.isSome && decide (e.toNat < 16) && !t.has T_APX
  | rextBnd m b t _ => m.arg.isSome && b.isMem ps == some false && b.arg.isSome && !t.has T_APX
  | roMr a b _ => a.arg.isSome && b.arg.isSome
  | shxd d a b _ _ _ => d == .r .nil && a.arg.isSome && b.arg.isSome && b.isMem ps == some false
  | shxdCL d a b c _ _ => d == .r .nil && a.arg.isSome && b.arg.isSome && c.arg.isSome && b.isMem ps == some false
  | movxx a b _ => a.arg.isSome && b.arg.isSome
  | cnt a b _ => a.arg.isSome && b.arg.isSome
  | _ => false

/-- The leaf writes something else for APX operands. -/
def Leaf.apxed : Leaf → Bool
  | mr _ _ _ _ t2 _ => t2 != 0
  | shxd .. | shxdCL .. => true
  | _ => false

def Body.gshapes (G : Args) : Body → List GShape
  | leaf l => l.gshapes G
  | guard bad _ b => if bad G then [] else b.gshapes G
  | apx _ _ _ _ _ b => b.gshapes G
  | ite c t e => if c G then t.gshapes G else e.gshapes G
  | _ => []

def Body.apxed : Body → Bool
  | leaf l => l.apxed
  | guard _ _ b => b.apxed
  | apx .. => true
  | ite _ t e => t.apxed || e.apxed
  | _ => false

/-- A function considered here. -/
def Body.gped (ps : List Param) : Body → Bool
  | leaf l => l.gped ps
  | guard _ _ b => b.gped ps
  | apx d a b' t _ b => d == .r .nil && a.arg.isSome && b'.arg.isSome && !t.has T_MUST_EVEX && b.gped ps
  | ite _ t e => t.gped ps && e.gped ps
  | _ => false

/-- The conditions of the body depend on kinds and sizes only. -/
def Body.Abs : Body → Prop
  | guard bad _ b => (∀ g : Args, bad g.rep = bad g) ∧ b.Abs
  | apx _ _ _ _ _ b => b.Abs
  | ite c t e => (∀ g : Args, c g.rep = c g) ∧ t.Abs ∧ e.Abs
  | _ => True

variable {g : Args} {ps : List Param} {w : List Act}

theorem Slot.arg_eq {s : Slot} (h : s.arg.isSome = true) : ∃ i, s = .a i := by
  cases s with
  | a i => exact ⟨i, rfl⟩
  | _ => cases h

theorem Chk.rep (g : Args) (c : Chk) : c.fn g.rep = c.fn g := by
  cases c <;> simp only [Chk.fn, Args.rep_isREG, Args.rep_bit, Args.rep_kind, Reg.isBNDREG]

theorem mem_ite {α : Type} {c : Bool} {x : α} (h : c = true) : x ∈ (if c then [x] else []) := by simp [h]

theorem isMEM_iff {o : Operand} (h : o.isMEM = true) : ∃ a, o = .mem a := by
  cases o with
  | mem a => exact ⟨a, rfl⟩
  | reg q => cases h

theorem GShape.opd_plain {r : Slot} {k : Nat} {t : Ty} {c : Byte} {imm cl : Option Nat} : GShape.opd { r, k, t, c, imm, cl } g = g.op k := by
  unfold GShape.opd
  dsimp only
  cases g.op k <;> rfl

/-- A shape without immediate. -/
theorem GSent.plain {r : Slot} {k : Nat} {t : Ty} {c : Byte} (h : (opRO (r.reg g) (g.op k) t c true 0).Gives w ()) : GSent g { r, k, t, c } w :=
  ⟨⟨w, by simp [GShape.tail], by rw [GShape.opd_plain]; exact h⟩, fun _ h => by cases h⟩

theorem opRO_true {r : Reg} {o : Operand} {t : Ty} {c : Byte} {b : Bool} {n : Nat} (h : (opRO r o t c b n).Gives w ()) :
    (o.isMEM || b) = true ∧ (opRO r o t c true n).Gives w () := by
  cases o with
  | mem a => exact ⟨rfl, h⟩
  | reg q =>
    have h : (Enc.throwIf (!b) .BAD_COMBINATION >>= fun _ => opRR r q t c).Gives w () := h
    rw [Enc.throwIf_bind] at h
    exact ⟨by have := h.1; revert this; cases b <;> simp, opRO_reg h.2⟩

theorem immSize_zero {a : Addr} (h : a.immSize = 0) : ({ a with immSize := 0 } : Addr) = a := by cases a; simp_all

theorem opMR_abcdh {a : Addr} {r : Reg} {t : Ty} {c : Byte} (hA : t.has T_APX = false) (h : (opMR a r t c).Gives w ()) :
    (opMR a r (t ||| T_ALLOW_ABCDH) c).Gives w () := by
  obtain ⟨e1, e2, e3, e4, e5, e6⟩ := abcdh_type t
  have hdiff : (t ||| T_ALLOW_ABCDH).has T_ALLOW_DIFF_SIZE = t.has T_ALLOW_DIFF_SIZE := by
    unfold Ty.has; rw [BitVec.and_or_distrib_right, show T_ALLOW_ABCDH &&& T_ALLOW_DIFF_SIZE = 0 from by decide]; simp
  have h38 : (t ||| T_ALLOW_ABCDH).has (T_0F38 ||| T_0F3A) = t.has (T_0F38 ||| T_0F3A) := by
    unfold Ty.has; rw [BitVec.and_or_distrib_right, show T_ALLOW_ABCDH &&& (T_0F38 ||| T_0F3A) = 0 from by decide]; simp
  rw [opMR_gives _ _ _ _ (fun h' => by rw [hA] at h'; cases h')] at h
  rw [opMR_gives _ _ _ _ (fun h' => by rw [e2, hA] at h'; cases h')]
  obtain ⟨h1, h2, h3, w', h4, rfl⟩ := h
  refine ⟨h1, by rw [hdiff]; exact h2, ?_, w', h4, ?_⟩
  · unfold RexOK at h3 ⊢; rw [h38]; exact h3
  · unfold legBytes p66of
    rw [e1, e3, e4, e5, e6]

theorem opROO_no' {op1 op2 : Operand} {type : Ty} {code : Byte} {n : Nat} (hm : type.has T_MUST_EVEX = false) (h1 : op1.hasRex2NFZU = false) (h2 : op2.hasRex2NFZU = false) :
    opROO .nil op1 op2 type code n = pure false := by
  unfold opROO
  rw [if_pos]
  rw [hm, h1, h2]; decide

theorem Slot.gp_rex {s : Slot} (hs : s.gp = true) (hm : s.isMem ps = some false) (ht : g.Are ps) (hn : g.NoApx) : (Operand.reg (s.reg g)).hasRex2NFZU = false := by
  cases s with
  | a i =>
    have hm' := Slot.mem_le ht (.a i)
    rw [hm] at hm'
    rcases hm' with h | h
    · cases h
    · have h : (g.op i).isMEM = false := (Option.some.inj h).symm
      obtain ⟨q, hq, hq'⟩ := op_reg h
      have := hn i
      show (Operand.reg (g.op i).hd).hasRex2NFZU = false
      rw [hq] at this ⊢
      exact this
  | r q =>
    unfold Slot.gp at hs
    simp only [Bool.and_eq_true, Bool.not_eq_true'] at hs
    exact hs.2
  | bitOf i n =>
    have : ∀ n : BitVec 5, n.toNat < 16 → n.getLsbD 4 = false := by decide +kernel
    have := this n (by simpa [Slot.gp] using hs)
    show (Operand.reg (.gp n (g.reg i).bit)).hasRex2NFZU = false
    have : (Reg.gp n (g.reg i).bit).hasRex2 = false := by
      unfold Reg.hasRex2 Reg.isExtIdx2
      rw [show (Reg.gp n (g.reg i).bit).idx = n from rfl, this, Bool.and_false]
    simp [Operand.hasRex2NFZU, Operand.hd, Operand.hasRex2, this]
    exact ⟨rfl, rfl⟩
  | _ => cases hs

/-- `opMR` without its APX alternative. -/
theorem opMR_plain {a : Addr} {r : Reg} {t t2 : Ty} {c : Byte} {c2 : Option Byte} (ha : (Operand.mem a).hasRex2NFZU = false) (hr : (Operand.reg r).hasRex2NFZU = false)
    (h2 : t2.has T_MUST_EVEX = false) (h : (opMR a r t c t2 c2).Gives w ()) : (opMR a r t c).Gives w () := by
  unfold opMR at h
  by_cases h0 : t2 = 0
  · subst h0
    unfold opMR
    exact h
  · rw [if_pos h0, opROO_no h2 ha hr, Enc.pure_bind] at h
    unfold opMR
    rw [if_neg (by simp), Enc.pure_bind]
    exact h

theorem Slot.isMem_op {s : Slot} {b : Bool} (ht : g.Are ps) (h : s.isMem ps = some b) : (s.op g).isMEM = b := by
  have := Slot.mem_le ht s
  rw [h] at this
  rcases this with h | h
  · cases h
  · exact (Option.some.inj h).symm

/-- The arguments, as far as the shapes of calls are concerned. -/
structure GArgs (g : Args) : Prop where
  imm : ∀ i a, g.op i = .mem a → a.immSize = 0
  named : ∀ i q, g.op i = .reg q → q = .nil ∨ q.Named

theorem changeBit_32 {q : Reg} (hk : q.kind = .reg) (hb : q.bit = 64) : q.changeBit 32 = .ok (Reg.narrow q) := by
  unfold Reg.changeBit Reg.setBit Reg.isBit Reg.narrow Reg.isREG
  rw [hk, hb]
  simp [Reg.isBit, hb]

/-- A call of a helper is a call of `opRO` of one of the shapes. -/
theorem Leaf.gsent (ht : g.Are ps) {l : Leaf} (hn : l.apxed = true → g.NoApx) (hg : GArgs g) (hl : l.gped ps = true) (hw : (l.run g).Gives w ()) :
    ∃ sh ∈ l.gshapes g.rep, GSent g sh w := by
  cases l with
  | rr a b t c =>
    simp only [Leaf.gped, Bool.and_eq_true, beq_iff_eq] at hl
    obtain ⟨k, rfl⟩ := Slot.arg_eq hl.1.2
    have hk : (g.op k).isMEM = false := Slot.isMem_op ht hl.2
    obtain ⟨q, hq, hq'⟩ := op_reg hk
    refine ⟨_, List.mem_singleton.mpr rfl, GSent.plain ?_⟩
    have hw : (opRR (a.reg g) (g.op k).hd t c).Gives w () := hw
    rw [hq] at hw ⊢
    exact opRO_reg hw
  | ro r op t c cond =>
    simp only [Leaf.gped, Bool.and_eq_true] at hl
    obtain ⟨k, rfl⟩ := Slot.arg_eq hl.2
    have hw : (opRO (r.reg g) (g.op k) t c (cond.fn g)).Gives w () := hw
    obtain ⟨h1, h2⟩ := opRO_true hw
    exact ⟨_, mem_ite (by rw [Args.rep_mem, Chk.rep]; exact h1), GSent.plain h2⟩
  | mr m r t c t2 c2 =>
    simp only [Leaf.gped, Bool.and_eq_true, beq_iff_eq, Bool.or_eq_true, Bool.not_eq_true'] at hl
    obtain ⟨⟨⟨hr, hm⟩, hmm⟩, h2⟩ := hl
    obtain ⟨k, rfl⟩ := Slot.arg_eq hm
    have hk : (g.op k).isMEM = true := Slot.isMem_op ht hmm
    obtain ⟨a, ha⟩ := isMEM_iff hk
    refine ⟨_, List.mem_singleton.mpr rfl, GSent.plain ?_⟩
    have hw : (opMR (g.mem k) (r.reg g) t c t2 c2).Gives w () := hw
    have e : g.mem k = a := by unfold Args.mem; rw [ha]
    rw [e] at hw
    rw [ha]
    show (opMR { a with immSize := 0 } (r.reg g) t c).Gives w ()
    rw [immSize_zero (hg.imm k a ha)]
    by_cases h0 : t2 = 0
    · subst h0; unfold opMR at hw ⊢; exact hw
    · have hn := hn (by unfold Leaf.apxed; exact bne_iff_ne.mpr h0)
      obtain ⟨h2, h3⟩ := h2.resolve_left h0
      exact opMR_plain (by have := hn k; rw [ha] at this; exact this) (Slot.gp_rex hr h2 ht hn) h3 hw
  | rextI op b e t c n =>
    simp only [Leaf.gped, Bool.and_eq_true, Bool.not_eq_true'] at hl
    obtain ⟨⟨ho, he⟩, hA⟩ := hl
    obtain ⟨k, rfl⟩ := Slot.arg_eq ho
    have hw : (opRext (g.op k) b e t c false 1 >>= fun _ => Enc.db (g.i8 n)).Gives w () := hw
    rw [Enc.gives_bind] at hw
    obtain ⟨w1, _, w2, h1, h2, rfl⟩ := hw
    rw [Enc.gives_db] at h2
    subst h2
    unfold opRext at h1
    rw [show (t.has T_APX && ((none : Option Reg).isSome || (g.op k).hasRex2NFZU)) = false by rw [hA]; rfl, if_neg Bool.false_ne_true, Enc.pure_bind] at h1
    dsimp only at h1
    rw [if_neg Bool.false_ne_true] at h1
    cases ho : g.op k with
    | mem a =>
      rw [ho] at h1
      refine ⟨_, mem_ite (by rw [Args.rep_mem, ho]; rfl), ⟨w1, rfl, ?_⟩, fun _ h => by cases h⟩
      rw [GShape.opd_plain, ho]
      show (opMR { a with immSize := 1 } (.gp e (g.reg k).bit) (t ||| T_ALLOW_ABCDH) c).Gives w1 ()
      rw [show (g.reg k).bit = (Operand.mem a).bit by unfold Args.reg; rw [ho]; rfl]
      exact opMR_abcdh hA h1
    | reg q =>
      rw [ho] at h1
      have h1 : (Enc.throwIf (!q.isREG b) .BAD_COMBINATION >>= fun _ => Enc.lift (q.changeBit q.bit) >>= fun q' =>
        opRR (.gp e q.bit) q' (t ||| T_ALLOW_ABCDH) c).Gives w1 () := h1
      rw [Enc.throwIf_bind, Enc.lift_bind] at h1
      obtain ⟨hb, q', hq', h1⟩ := h1
      have hb : q.isREG b = true := by simpa using hb
      have hk : q.kind = .reg := by
        unfold Reg.isREG at hb
        simp only [Bool.and_eq_true, beq_iff_eq] at hb
        exact hb.1
      have hqn : q.Named := (hg.named k q ho).resolve_left (by rintro rfl; cases hk)
      rw [changeBit_self hqn hk] at hq'
      cases hq'
      have hr : g.reg k = q := by unfold Args.reg; rw [ho]; rfl
      refine ⟨_, mem_ite (by rw [Args.rep_isREG, hr, hb, Bool.or_true]), ⟨w1, rfl, ?_⟩, fun _ h => by cases h⟩
      rw [GShape.opd_plain, ho]
      show (opRO (.gp e (g.reg k).bit) (.reg q) (t ||| T_ALLOW_ABCDH) c true 1).Gives w1 ()
      rw [hr]
      exact opRO_reg h1
  | rextBnd op b t c =>
    simp only [Leaf.gped, Bool.and_eq_true, Bool.not_eq_true', beq_iff_eq] at hl
    obtain ⟨⟨⟨ho, hbm⟩, hba⟩, hA⟩ := hl
    obtain ⟨k, rfl⟩ := Slot.arg_eq ho
    have hw : (opRext (g.op k) 96 (b.reg g).idx t c (!(g.op k).isMEM)).Gives w () := hw
    unfold opRext at hw
    rw [show (t.has T_APX && ((none : Option Reg).isSome || (g.op k).hasRex2NFZU)) = false by rw [hA]; rfl, if_neg Bool.false_ne_true, Enc.pure_bind] at hw
    dsimp only at hw
    rw [if_neg Bool.false_ne_true] at hw
    cases ho : g.op k with
    | mem a =>
      rw [ho] at hw
      refine ⟨_, mem_ite (by rw [Args.rep_mem, ho]; rfl), ⟨w, by simp [GShape.tail], ?_⟩, fun _ h => by cases h⟩
      have hw : (opMR { a with immSize := 0 } (.gp (b.reg g).idx a.o.bit) t c).Gives w () := hw
      have := opMR_abcdh hA hw
      unfold GShape.reg GShape.opd
      dsimp only
      rw [ho]
      exact this
    | reg q =>
      rw [ho] at hw
      have hw : (Enc.throwIf (!q.isREG 96) .BAD_COMBINATION >>= fun _ => Enc.lift (q.changeBit (if (true && q.bit == 64) = true then 32 else q.bit)) >>= fun q' =>
        opRR (.gp (b.reg g).idx (if (true && q.bit == 64) = true then 32 else q.bit)) q' (t ||| T_ALLOW_ABCDH) c).Gives w () := hw
      rw [Enc.throwIf_bind, Enc.lift_bind] at hw
      obtain ⟨hb, q', hq', h1⟩ := hw
      have hb : q.isREG 96 = true := by simpa using hb
      have hk : q.kind = .reg := by
        unfold Reg.isREG at hb
        simp only [Bool.and_eq_true, beq_iff_eq] at hb
        exact hb.1
      have hqn : q.Named := (hg.named k q ho).resolve_left (by rintro rfl; cases hk)
      have hr : g.reg k = q := by unfold Args.reg; rw [ho]; rfl
      have e : q' = Reg.narrow q ∧ (if (true && q.bit == 64) = true then 32 else q.bit) = (Reg.narrow q).bit := by
        by_cases h64 : q.bit = 64
        · rw [if_pos (by simp [h64]), changeBit_32 hk h64] at hq'
          cases hq'
          exact ⟨rfl, by simp [h64, Reg.narrow]⟩
        · rw [if_neg (by simp [h64]), changeBit_self hqn hk] at hq'
          cases hq'
          exact ⟨by simp [h64, Reg.narrow], by simp [h64, Reg.narrow]⟩
      rw [e.1, e.2] at h1
      refine ⟨_, mem_ite (by rw [Args.rep_isREG, hr, hb, Bool.or_true]), ⟨w, by simp [GShape.tail], ?_⟩, fun _ h => by cases h⟩
      unfold GShape.reg GShape.opd
      dsimp only
      rw [ho]
      exact opRO_reg h1
  | roMr a b c =>
    simp only [Leaf.gped, Bool.and_eq_true] at hl
    obtain ⟨i, rfl⟩ := Slot.arg_eq hl.1
    obtain ⟨j, rfl⟩ := Slot.arg_eq hl.2
    have hw : (opRO_MR (g.op i) (g.op j) c).Gives w () := hw
    simp only [Leaf.gshapes, Args.rep_mem, Args.rep_kind]
    have hI : (g.rep.op i).isREG = (g.op i).isREG := Args.rep_isREG g i 0
    rw [hI]
    cases hj : g.op j with
    | mem a =>
      rw [hj] at hw
      have hw : (Enc.throwIf (!(g.op i).isREG) .BAD_COMBINATION >>= fun _ => opMR a (g.op i).hd 0 (c ||| 2)).Gives w () := hw
      rw [Enc.throwIf_bind] at hw
      rw [if_pos (show (Operand.mem a).isMEM = true from rfl)]
      refine ⟨_, mem_ite (by simpa using hw.1), GSent.plain ?_⟩
      rw [hj]
      show (opMR { a with immSize := 0 } (g.op i).hd 0 (c ||| 2)).Gives w ()
      rw [immSize_zero (hg.imm j a hj)]
      exact hw.2
    | reg r =>
      rw [hj] at hw
      have hr : g.reg j = r := by unfold Args.reg; rw [hj]; rfl
      have hw : (opRO r (g.op i) 0 c ((g.op i).hd.kind == r.kind)).Gives w () := hw
      obtain ⟨h1, h2⟩ := opRO_true hw
      rw [if_neg (show ¬ (Operand.reg r).isMEM = true from Bool.false_ne_true)]
      refine ⟨_, mem_ite (by rw [hr]; exact h1), GSent.plain ?_⟩
      show (opRO (g.reg j) (g.op i) 0 c true 0).Gives w ()
      rw [hr]; exact h2
  | shxd d op r n c c2 =>
    have hN := hn rfl
    simp only [Leaf.gped, Bool.and_eq_true, beq_iff_eq] at hl
    obtain ⟨⟨⟨rfl, ho⟩, hr⟩, hm⟩ := hl
    obtain ⟨k, rfl⟩ := Slot.arg_eq ho
    obtain ⟨j, rfl⟩ := Slot.arg_eq hr
    have hw : (opShxd .nil (g.op k) (g.reg j) (g.i8 n) c c2).Gives w () := hw
    unfold opShxd at hw
    rw [Enc.throwIf_bind, Enc.throwIf_bind] at hw
    obtain ⟨_, h1, hw⟩ := hw
    dsimp only at hw
    rw [opROO_no' (type := T_APX ||| T_NF ||| (if Reg.nil.isREG then T_ND1 else 0)) (by decide) (hN k) (show (Operand.reg (g.reg j)).hasRex2NFZU = false from Slot.gp_rex (s := .a j) rfl hm ht hN), Enc.pure_bind, if_neg Bool.false_ne_true, Enc.gives_bind] at hw
    obtain ⟨w1, _, w2, h2, h3, rfl⟩ := hw
    have h3 : (Enc.db (g.i8 n)).Gives w2 () := h3
    rw [Enc.gives_db] at h3
    subst h3
    refine ⟨_, mem_ite (by rw [Args.rep_isREG]; simpa using h1), ⟨w1, rfl, ?_⟩, fun _ h => by cases h⟩
    rw [GShape.opd_plain]
    exact h2
  | shxdCL d op r cl c c2 =>
    have hN := hn rfl
    simp only [Leaf.gped, Bool.and_eq_true, beq_iff_eq] at hl
    obtain ⟨⟨⟨⟨rfl, ho⟩, hr⟩, hc⟩, hm⟩ := hl
    obtain ⟨k, rfl⟩ := Slot.arg_eq ho
    obtain ⟨j, rfl⟩ := Slot.arg_eq hr
    obtain ⟨l, rfl⟩ := Slot.arg_eq hc
    have hw : (opShxd .nil (g.op k) (g.reg j) 0 c c2 (some (g.reg l))).Gives w () := hw
    unfold opShxd at hw
    rw [Enc.throwIf_bind, Enc.throwIf_bind] at hw
    obtain ⟨h0, h1, hw⟩ := hw
    dsimp only at hw h0
    rw [opROO_no' (type := T_APX ||| T_NF ||| (if Reg.nil.isREG then T_ND1 else 0)) (by decide) (hN k) (show (Operand.reg (g.reg j)).hasRex2NFZU = false from Slot.gp_rex (s := .a j) rfl hm ht hN), Enc.pure_bind, if_neg Bool.false_ne_true, Enc.gives_bind] at hw
    obtain ⟨w1, _, w2, h2, h3, rfl⟩ := hw
    have h3 : (pure () : Enc Unit).Gives w2 () := h3
    rw [Enc.gives_pure] at h3
    refine ⟨_, mem_ite (by rw [Args.rep_isREG]; simpa using h1), ⟨w1, by simp [GShape.tail, h3], ?_⟩, fun i h => ?_⟩
    · rw [GShape.opd_plain]
      exact h2
    · cases h; simpa using h0
  | movxx r op c =>
    simp only [Leaf.gped, Bool.and_eq_true] at hl
    obtain ⟨i, rfl⟩ := Slot.arg_eq hl.1
    obtain ⟨k, rfl⟩ := Slot.arg_eq hl.2
    have hw : (opMovxx (g.reg i) (g.op k) c).Gives w () := hw
    unfold opMovxx at hw
    rw [Enc.throwIf_bind, Enc.throwIf_bind] at hw
    obtain ⟨h1, h2, hw⟩ := hw
    have h1 : (g.reg k).isBit 32 = false := h1
    have h2 : ((g.reg i).isREG && decide ((g.reg i).bit > (g.reg k).bit)) = true := by
      have : (!((g.reg i).isREG && decide ((g.reg i).bit > (g.reg k).bit))) = false := h2
      simpa using this
    simp only [Leaf.gshapes, Args.rep_isBit, Args.rep_isREG, Args.rep_bit]
    exact ⟨_, mem_ite (by rw [h1, h2]; rfl), GSent.plain hw⟩
  | cnt r op c =>
    simp only [Leaf.gped, Bool.and_eq_true] at hl
    obtain ⟨i, rfl⟩ := Slot.arg_eq hl.1
    obtain ⟨k, rfl⟩ := Slot.arg_eq hl.2
    have hw : (opCnt (g.reg i) (g.op k) c).Gives w () := hw
    unfold opCnt at hw
    rw [Enc.throwIf_bind] at hw
    obtain ⟨h1, hw⟩ := hw
    dsimp only at hw
    rw [Enc.throwIf_bind] at hw
    obtain ⟨h2, hw⟩ := hw
    simp only [Leaf.gshapes, Args.rep_isBit, Args.rep_isREG, Args.rep_bit, Args.rep_mem]
    refine ⟨_, mem_ite ?_, GSent.plain hw⟩
    have h2 : (!((g.reg i).isREG 16 && ((g.reg k).isREG 16 || (g.op k).isMEM)) && !((g.reg i).isREG 96 && ((g.reg k).isREG (g.reg i).bit || (g.op k).isMEM))) = false := h2
    rw [h1]
    revert h2
    generalize ((g.reg i).isREG 16 && ((g.reg k).isREG 16 || (g.op k).isMEM)) = x
    generalize ((g.reg i).isREG 96 && ((g.reg k).isREG (g.reg i).bit || (g.op k).isMEM)) = y
    cases x <;> cases y <;> simp
  | _ => cases hl

theorem Body.gsent (ht : g.Are ps) (hg : GArgs g) {b : Body} (hn : b.apxed = true → g.NoApx) (hl : b.gped ps = true) (ha : b.Abs) {m : Enc Unit}
    (hr : b.run g = some m) (hw : m.Gives w ()) : ∃ sh ∈ b.gshapes g.rep, GSent g sh w := by
  induction b generalizing m w with
  | leaf l => cases hr; exact Leaf.gsent ht hn hg hl hw
  | guard bad err b ih =>
    simp only [Body.run, Option.map_eq_some_iff] at hr
    obtain ⟨m', hr, rfl⟩ := hr
    rw [Enc.throwIf_bind] at hw
    unfold Body.gshapes
    rw [ha.1 g, hw.1, if_neg Bool.false_ne_true]
    exact ih hn hl ha.2 hr hw.2
  | apx d a b' t c b ih =>
    simp only [Body.run, Option.map_eq_some_iff] at hr
    obtain ⟨m', hr, rfl⟩ := hr
    have hN := hn rfl
    simp only [Body.gped, Bool.and_eq_true, beq_iff_eq, Bool.not_eq_true'] at hl
    obtain ⟨⟨⟨⟨rfl, h1⟩, h2⟩, h3⟩, h4⟩ := hl
    obtain ⟨i, rfl⟩ := Slot.arg_eq h1
    obtain ⟨j, rfl⟩ := Slot.arg_eq h2
    rw [show (Slot.r Reg.nil).reg g = .nil from rfl, show (Slot.a i).op g = g.op i from rfl, show (Slot.a j).op g = g.op j from rfl,
      opROO_no h3 (hN i) (hN j), Enc.pure_bind, if_neg Bool.false_ne_true] at hw
    exact ih (fun _ => hN) h4 ha hr hw
  | ite c t e iht ihe =>
    simp only [Body.gped, Bool.and_eq_true] at hl
    unfold Body.run at hr
    unfold Body.gshapes
    rw [ha.1 g]
    by_cases hc : c g = true
    · rw [if_pos hc] at hr ⊢
      exact iht (fun h => hn (by simp [Body.apxed, h])) hl.1 ha.2.1 hr hw
    · rw [if_neg hc] at hr ⊢
      exact ihe (fun h => hn (by simp [Body.apxed, h])) hl.2 ha.2.2 hr hw
  | _ => cases hl

end Mn
end Xbyak
