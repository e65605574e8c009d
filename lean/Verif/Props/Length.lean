import Verif.Emit
import Verif.Mnemonic.All
import Verif.Props.LabelMore
/-! # C43: no instruction exceeds 15 bytes -/
namespace Xbyak
open E

namespace Enc

/-- At most `N` bytes are emitted. -/
def Size {α : Type} (N : Nat) (m : Enc α) : Prop := ∀ w v, m.Gives w v → asize w ≤ N

variable {α β : Type}

theorem Out.size {S : Addr → Prop} {n N : Nat} {m : Enc α} (h : m.Out S n N) : m.Size N := fun w v g => (h w v g).2
theorem Size.mono {N M : Nat} {m : Enc α} (h : m.Size N) (hn : N ≤ M) : m.Size M := fun w v g => Nat.le_trans (h w v g) hn
theorem Size.bind {N M : Nat} {m : Enc α} {f : α → Enc β} (h1 : m.Size N) (h2 : ∀ a, (f a).Size M) : (m >>= f).Size (N + M) := by
  intro w v g
  obtain ⟨w1, a, w2, g1, g2, rfl⟩ := gives_bind.mp g
  have a1 := h1 _ _ g1; have a2 := h2 _ _ _ g2
  rw [asize_append]; omega
theorem Size.bind0 {M : Nat} {m : Enc α} {f : α → Enc β} (h1 : m.Len 0) (h2 : ∀ a, (f a).Size M) : (m >>= f).Size M := by
  intro w v g
  obtain ⟨w1, a, w2, g1, g2, rfl⟩ := gives_bind.mp g
  have a1 := (h1 _ _ g1).2; have a2 := h2 _ _ _ g2
  rw [asize_append]; omega
theorem Len.size {k : Nat} {m : Enc α} (h : m.Len k) : m.Size k := fun w v g => Nat.le_of_eq (h w v g).2
theorem Size.bindDone {N M : Nat} {m : Enc Bool} {f : Enc Unit} (h1 : m.Size N) (h0 : ∀ w, m.Gives w false → w = [])
    (h2 : f.Size M) : (m >>= fun b => if b = true then Pure.pure () else f).Size (max N M) := by
  intro w v g
  obtain ⟨w1, a, w2, g1, g2, rfl⟩ := gives_bind.mp g
  cases a with
  | true =>
    obtain ⟨rfl, _⟩ := gives_pure.mp g2
    have := h1 _ _ g1
    rw [List.append_nil]; omega
  | false =>
    cases h0 _ g1
    have := h2 _ _ g2
    show asize w2 ≤ _; omega

end Enc

open Enc

namespace E
variable {S : Addr → Prop}

theorem opRext_size {op : Operand} (bit : Nat) (e : BitVec 5) (t : Ty) (c : Byte) (dis : Bool) (k : Nat)
    (d : Option Reg) (hs : Sub S op) : (opRext op bit e t c dis k d).Size (bothN t) := by
  unfold opRext bothN
  dsimp only
  have last := (rext_last op bit e t c k (if (dis && op.bit == 64) = true then 32 else op.bit) hs fun _ => rfl).size
  split
  · rename_i hc
    rw [Bool.and_eq_true, Bool.or_eq_true] at hc
    rw [hc.1]
    refine (Size.bindDone (N := 11 + escE t) ?_ (fun _ h => opROO_false h) last).mono (by simp [escE, hc.1])
    exact (opROO_out _ _ _ _ _ hs (Sub.reg _) fun _ => rfl).size
  · exact (Size.bindDone (N := 0) (Len.pure _).size (fun _ h => (Enc.gives_pure.mp h).1) last).mono (by omega)

theorem opShiftI_size {op : Operand} (m : BitVec 32) (e : BitVec 4) (d : Option Reg) (hs : Sub S op) : (opShiftI op m e d).Size 12 := by
  have key : (do
      opRext op 0 ((e &&& 7).setWidth 5) (shiftType e d) (if m = 1 then 0xD0 else 0xC0) false (if m ≠ 1 then 1 else 0) d
      Enc.dbIf (m ≠ 1) (m.setWidth 8) : Enc Unit).Size 12 := by
    refine Size.bind (N := 11) (M := 1) ?_ fun _ => (dbIf_plain _ _).out.size (S := fun _ => True) (n := 0)
    rw [← shiftType_both e d]
    exact opRext_size _ _ _ _ _ _ _ hs
  unfold opShiftI
  dsimp only
  split
  · exact Size.bind0 (Len.throwIf _ _) fun _ => Size.bind0 (Len.throwIf _ _) fun _ => key
  · exact Size.bind0 (Len.throwIf _ _) fun _ => key

theorem opRRO_size (d r1 : Reg) {op : Operand} (t : Ty) (c : Byte) (i : Option Byte) (hs : Src S op) : (opRRO d r1 op t c i).Size 14 := by
  have hi := Mn.optSize_le i
  unfold opRRO
  refine Size.bind0 (Len.throwIf _ _) fun _ => ?_
  dsimp only
  split
  · refine (Size.bind (N := 13) ?_ fun _ => (Len.dbOpt i).size).mono (by omega)
    exact ((opROO_out _ _ _ _ _ hs.sub (Sub.reg _) fun _ => rfl).mono (Nat.add_le_add_left (escE_le _) 11)).size
  · exact ((opVex_out _ _ _ _ _ hs).mono (by omega)).size

end E

namespace Mn

theorem Leaf.size {g : Args} (hf : g.Fresh) (l : Leaf) : (l.run g).Size l.maxLen := by
  have so := fun s => Slot.op_src hf s
  cases l with
  | rextI a b e t c i => exact Size.bind (opRext_size _ _ _ _ _ _ _ (so a).sub) fun _ => (Len.db _).size
  | rro a b c t d i => exact opRRO_size _ _ _ _ _ (so c)
  | shiftI a i e d => exact (opShiftI_size _ _ _ (so a).sub).mono (show 12 ≤ 13 by decide)
  | _ => exact (Leaf.out hf _ id).size

theorem Body.size {g : Args} (hf : g.Fresh) (b : Body) {m : Enc Unit} (hm : b.run g = some m) : m.Size b.maxLen := by
  induction b generalizing m with
  | leaf l => cases hm; exact Leaf.size hf l
  | guard bad err b ih =>
    obtain ⟨m', h', rfl⟩ := Option.map_eq_some_iff.mp hm
    exact Size.bind0 (Len.throwIf _ _) fun _ => ih h'
  | check c x o b ih =>
    obtain ⟨m', h', rfl⟩ := Option.map_eq_some_iff.mp hm
    exact Size.bind0 (Check.len _ _ _) fun _ => ih h'
  | pre c x b ih =>
    obtain ⟨m', h', rfl⟩ := Option.map_eq_some_iff.mp hm
    exact Size.bind (dbIf_plain _ _ |>.out (S := fun _ => True) (n := 0) |>.size) fun _ => ih h'
  | ite c t e iht ihe =>
    unfold Body.run at hm
    cases hc : c g with
    | true => rw [hc, if_pos rfl] at hm; exact (iht hm).mono (Nat.le_max_left _ _)
    | false => rw [hc, if_neg Bool.false_ne_true] at hm; exact (ihe hm).mono (Nat.le_max_right _ _)
  | apx d a b' t c b ih =>
    obtain ⟨m', h', rfl⟩ := Option.map_eq_some_iff.mp hm
    exact Size.bindDone (opROO_out _ _ _ _ _ (Slot.op_src hf _).sub (Slot.op_src hf _).sub fun _ => rfl).size (fun _ h => opROO_false h) (ih h')
  | jmp | jmpAbs => cases hm

/-- The bounds of all functions of the header. -/
theorem maxLen_all : all.all (fun e => decide (e.body.maxLen ≤ 15)) = true := by decide +kernel

end Mn

open Mn

/-- **C43.** Whatever function of xbyak_mnemonic.h is called with whatever operands, if it does not refuse them it emits at most 15 bytes.
`fill` are the values of the displacement fields, which the label manager writes. -/
theorem c43_table (e : Entry) (he : e ∈ all) (g : Args) (hf : g.Fresh) {m : Enc Unit} (hm : e.body.run g = some m) {w : List Act}
    (hw : m.Gives w ()) (fill : Act → BitVec 32) : (concr fill w).length ≤ 15 := by
  rw [concr_length]
  have := List.all_eq_true.mp maxLen_all e he
  exact Nat.le_trans (Body.size hf e.body hm _ _ hw) (of_decide_eq_true this)

/-- The instructions defined in xbyak.h that take operands. -/
inductive Direct
  | test (op : Operand) (r : Reg) | testI (op : Operand) (imm : BitVec 32) | imulI (r : Reg) (op : Operand) (imm : BitVec 32)
  | push (op : Operand) | pop (op : Operand) | pushAF (bit : Nat) (imm : BitVec 32) | pushI (imm : BitVec 32)
  | mov (op1 op2 : Operand) | movI (op : Operand) (imm : Word) | xchg (op1 op2 : Operand)
  | pushSeg (s : Nat) | popSeg (s : Nat) | putSeg (s : Nat) | movFromSeg (op : Operand) (s : BitVec 5) | movToSeg (s : BitVec 5) (op : Operand)
  | jmpOp (op : Operand) (far : Bool) (ext : BitVec 5)

namespace Direct

/-- What they emit. -/
def run : Direct → Enc Unit
  | test op r => E.test op r
  | testI op i => E.testI op i
  | imulI r op i => E.imulI r op i
  | push op => E.push op
  | pop op => E.pop op
  | pushAF b i => E.pushAF b i
  | pushI i => E.pushI i
  | mov a b => E.mov a b
  | movI op i => E.movI op i
  | xchg a b => E.xchg a b
  | pushSeg s => E.pushSeg s
  | popSeg s => E.popSeg s
  | putSeg s => E.putSeg s
  | movFromSeg op s => E.movFromSeg op s
  | movToSeg s op => E.movToSeg s op
  | jmpOp op f e => E.opJmpOp op f e

/-- Their operands. -/
def ops : Direct → List Operand
  | test op r => [op, .reg r]
  | testI op _ | push op | pop op | movI op _ | movFromSeg op _ | movToSeg _ op | jmpOp op _ _ => [op]
  | imulI r op _ => [.reg r, op]
  | mov a b | xchg a b => [a, b]
  | _ => []

/-- Addresses as constructed by the user, registers of at most 512 bits whose general-purpose ones have at most 64. -/
def Ok (d : Direct) : Prop := (∀ a, .mem a ∈ d.ops → a.immSize = 0) ∧ ∀ r, .reg r ∈ d.ops → r.isREG = true → r.bit ≤ 64

/-- The `[rip + …]` operands of the call. -/
def Rip (d : Direct) (a : Addr) : Prop := a.mode ≠ .modRM → .mem a ∈ d.ops

theorem src {d : Direct} (h : d.Ok) {o : Operand} (ho : o ∈ d.ops) : Src d.Rip o := by
  cases o with
  | reg r => exact Src.reg _
  | mem a => exact Src.mem (fun _ => ho) ⟨rfl, rfl, rfl⟩ (h.1 a ho)

theorem out (d : Direct) (h : d.Ok) : d.run.Out d.Rip 0 15 := by
  have e : ∀ {N : Nat} {m : Enc Unit}, m.Out d.Rip 0 N → N ≤ 15 → m.Out d.Rip 0 15 := fun a b => a.mono b
  cases d with
  | test op r => exact e (test_out r (src h (by simp [ops])).sub) (by decide)
  | testI op i => exact e (testI_out i (src h (by simp [ops])).sub) (by decide)
  | imulI r op i => exact e (imulI_out r i (src h (by simp [ops])).sub) (by decide)
  | push op => exact e (push_out (src h (by simp [ops]))) (by decide)
  | pop op => exact e (pop_out (src h (by simp [ops]))) (by decide)
  | pushAF b i => exact e (pushAF_out b i) (by decide)
  | pushI i => exact e (pushI_out i) (by decide)
  | mov a b => exact e (mov_out (src h (by simp [ops])) (src h (by simp [ops]))) (by decide)
  | movI op i =>
    cases op with
    | mem a => exact e (movI_out i (src h (by simp [ops])).sub (.inr rfl)) (by decide)
    | reg r =>
      by_cases hr : r.isREG = true
      · exact e (movI_out i (Sub.reg _) (.inl (h.2 r (by simp [ops]) hr))) (by decide)
      · show (E.movI (.reg r) i).Out _ _ _
        unfold E.movI
        dsimp only
        rw [if_neg hr]
        exact (Len.throw (k := 0) _).plain.out.mono (by omega)
  | xchg a b => exact e (xchg_out (src h (by simp [ops])).sub (src h (by simp [ops])).sub) (by decide)
  | pushSeg s =>
    refine e (N := 2) (Plain.out ?_) (by decide)
    show (E.pushSeg s).Plain 2
    unfold E.pushSeg
    split <;> first | exact (Len.db _).plain.mono (by decide) | exact .bind (k := 1) (l := 1) (Len.db _).plain fun _ => (Len.db _).plain
  | popSeg s =>
    refine e (N := 2) (Plain.out ?_) (by decide)
    show (E.popSeg s).Plain 2
    unfold E.popSeg
    split <;> first | exact (Len.db _).plain.mono (by decide) | exact (Len.throw (k := 2) _).plain | exact .bind (k := 1) (l := 1) (Len.db _).plain fun _ => (Len.db _).plain
  | putSeg s => exact e (Len.db _).plain.out (by decide)
  | movFromSeg op s => exact e (movFromSeg_out s (src h (by simp [ops])).sub) (by decide)
  | movToSeg s op => exact e (movToSeg_out s (src h (by simp [ops])).sub) (by decide)
  | jmpOp op f x => exact e (opJmpOp_out f x (src h (by simp [ops])).sub) (by decide)

end Direct

/-- **C43.** The same for the instructions defined in xbyak.h itself. -/
theorem c43_direct (d : Direct) (h : d.Ok) {w : List Act} (hw : d.run.Gives w ()) (fill : Act → BitVec 32) : (concr fill w).length ≤ 15 := by
  rw [concr_length]
  exact (d.out h _ _ hw).2

/-- `ccmpb(qword [r16 + r17*8 + 0x12345678], 0x12345678, 0)` takes exactly 15 bytes: the bound cannot be improved. -/
example : (match Term.addr (.add (.add (.reg (.gp 16 64)) (.scaled (.gp 17 64) 8)) (.const 0x12345678)) 64 false with
    | .ok a => (match (named n!"ccmpb").map (fun e => e.body.run { ops := [.mem a], ints := [0x12345678, 0] }) with
      | [some m, _] => decide (asize m.acts = 15) && (match m.res with | .ok _ => true | _ => false)
      | _ => false)
    | .error _ => false) = true := by decide +kernel

open G Asm in
/-- **C43.** Jumps to labels and addresses, at any point of any program, take at most 6 bytes. -/
theorem c43_jump (env : Env) (he : env.Sane) (c : CA) (hc : NewCode c) (a : List Op) (op : Op)
    (hop : (∃ l ty s lo p, op = .jmp l ty s lo p) ∨ ∃ x ty s lo p, op = .jmpAbs x ty s lo p) (g1 g2 : G)
    (hh : Hist (CallOk (cxOf c) env) env (a ++ [op]) (G.init c))
    (h1 : G.run env a (G.init c) = .ok g1) (h2 : G.step env op g1 = .ok () g2) : g2.ca.size ≤ g1.ca.size + 6 := by
  obtain ⟨ha, hh⟩ := hist_append hh h1
  obtain ⟨hp, _⟩ := hist_cons_ok hh h2
  obtain ⟨sp1, r1, s1⟩ := (St.mk hc.inv hc.safe (init_life c)).run he ha h1
  obtain ⟨sp2, r2, s2⟩ := s1.step he hp h2
  rw [s1.inv.buf.size, s2.inv.buf.size]
  have hl : ∀ sh s lo p t, len (jmpCells sh s lo p t) ≤ 6 := by
    intro sh s lo p t
    unfold jmpCells
    cases sh <;> simp [len, Cell.len, Width.len]
    split <;> simp [len, Cell.len, Width.len]
  rcases hop with ⟨l, ty, s, lo, p, rfl⟩ | ⟨x, ty, s, lo, p, rfl⟩
  · obtain ⟨k, _, rfl⟩ := r2
    unfold Spec.emit
    rw [sp_touch_cells, len_append]
    have := hl (sp1.shortForm k ty) s lo p (.label k 0)
    omega
  · cases r2
    unfold Spec.emit
    rw [len_append]
    have := hl (sp1.shortAbs (cxOf c) x ty) s lo p (.addr x)
    omega

end Xbyak
