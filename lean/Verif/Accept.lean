import Verif.Props.Shape
import Verif.Spec.Gp
import Verif.Spec.Kinds
/-!
# Representatives of operands

Every operand of a kind is alike one of finitely many; whether a function accepts the kind is decided on these.
-/
namespace Xbyak
namespace Mn
open E

/-- An address as programs write it, `[base + index * scale + disp]` or `[rip + disp]`: base and index are general registers of 32 or 64 bits below r16 or
absent, and the displacement fits into 32 bits; the stated size is `n` bits (0: none). -/
structure Written (n : Nat) (a : Addr) : Prop where
  o : a.o = Addr.memOp n
  base : a.e.base = .nil ∨ ∃ i, i.toNat < 16 ∧ (a.e.base = .gp i 32 ∨ a.e.base = .gp i 64)
  index : a.e.index = .nil ∨ ∃ i, i.toNat < 16 ∧ (a.e.index = .gp i 32 ∨ a.e.index = .gp i 64)
  disp : isInInt32 a.e.disp = true
  same : a.e.base = .nil ∨ a.e.index = .nil ∨ a.e.base.bit = a.e.index.bit
  mode : a.mode = .modRM ∨ (a.mode = .rip ∧ a.e.base = .nil ∧ a.e.index = .nil)
  vsib : a.permitVsib = false
  bcast : a.broadcast = false
  opt : a.opt = true
  label : a.mode = .modRM → a.label = none

/-- The kinds of operands in the instruction column of the manual. -/
inductive OpKind
  /-- general register of 8, 16, 32 or 64 bits -/
  | gp (n : Nat)
  | mm | bnd | cl
  /-- vector registers, below 16 or 32 -/
  | xmm (ext : Bool) | ymm (ext : Bool) | zmm
  | k
  | st
  /-- memory of `n` bits; 0: no size is stated -/
  | mem (n : Nat)
  deriving DecidableEq, Repr

namespace OpKind

/-- What the operands are. -/
def Is : OpKind → Operand → Prop
  | gp n, o => (∃ i : BitVec 5, i.toNat < 16 ∧ o = .reg (.gp i n)) ∨ (n = 8 ∧ ∃ i : BitVec 5, 4 ≤ i.toNat ∧ i.toNat < 8 ∧ o = .reg (.r8 i true))
  | mm, o => ∃ i : BitVec 5, i.toNat < 8 ∧ o = .reg (.mm i)
  | bnd, o => ∃ i : BitVec 5, i.toNat < 4 ∧ o = .reg (.bnd i)
  | cl, o => o = .reg (.r8 1)
  | xmm x, o => ∃ i : BitVec 5, (x = false → i.toNat < 16) ∧ o = .reg (.xmm i)
  | ymm x, o => ∃ i : BitVec 5, (x = false → i.toNat < 16) ∧ o = .reg (.ymm i)
  | zmm, o => ∃ i : BitVec 5, o = .reg (.zmm i)
  | k, o => ∃ i : BitVec 5, i.toNat < 8 ∧ o = .reg (.opmask i)
  | st, o => ∃ i : BitVec 5, i.toNat < 8 ∧ o = .reg (.st i)
  | mem n, o => ∃ a, o = .mem a ∧ Written n a

/-- Numbers of vector registers. -/
def vregs (fine x : Bool) : List (BitVec 5) := (if fine then [0, 1, 2, 3, 4, 8] else [0, 8]) ++ if x then [16] else []

/-- An address of the given registers and scale. -/
def at' (n : Nat) (b i : Reg) (s : Int) : Addr := { o := Addr.memOp n, e := { base := b, index := i, scale := s, disp := 0 } }

/-- The shapes of addresses. -/
def addrs (n : Nat) : List Addr :=
  [at' n .nil .nil 1, at' n (.gp 0 32) .nil 1, at' n (.gp 0 64) .nil 1, at' n .nil (.gp 0 32) 1, at' n .nil (.gp 0 32) 2, at' n .nil (.gp 0 64) 1, at' n .nil (.gp 0 64) 2,
   at' n (.gp 0 32) (.gp 0 32) 1, at' n (.gp 0 64) (.gp 0 64) 1, { at' n .nil .nil 1 with mode := .rip }, { at' n .nil .nil 1 with mode := .rip, label := some 0 }]

/-- The representatives; with `fine` also in the sense of `Args.Fine`. -/
def reps (fine : Bool) : OpKind → List Operand
  | gp n => ([0, 1, 2, 3, 4, 8].map fun i => .reg (.gp i n)) ++ if n = 8 then [.reg (.r8 4 true)] else []
  | mm => (if fine then [0, 1, 2, 3, 4] else [0]).map fun i => .reg (.mm i)
  | bnd => [0, 1, 2, 3].map fun i => .reg (.bnd i)
  | cl => [.reg (.r8 1)]
  | xmm x => (vregs fine x).map fun i => .reg (.xmm i)
  | ymm x => (vregs fine x).map fun i => .reg (.ymm i)
  | zmm => (vregs fine true).map fun i => .reg (.zmm i)
  | k => [0, 1, 2, 3, 4].map fun i => .reg (.opmask i)
  | st => [0, 1, 2, 3, 4].map fun i => .reg (.st i)
  | mem n => (addrs n).map .mem

end OpKind

/-- All ways to choose one of each. -/
def prod : List (List Operand) → List (List Operand)
  | [] => [[]]
  | l :: ls => l.flatMap fun x => (prod ls).map (x :: ·)

/-- AH, CH, DH or BH, and a register that needs a REX prefix: not encodable together. -/
def clash (os : List Operand) : Bool :=
  os.any fun o => o.hd.isHigh8bit && !o.isMEM && os.any fun p => !p.isMEM && (p.hd.ext8 || decide (p.hd.idx.toNat ≥ 8))

/-- The function takes the operands, and returns. -/
def Entry.accepts (e : Entry) (g : Args) : Bool :=
  decide (g.ops.length ≤ (e.params.filter Param.isOperand).length ∧ (e.params.filter Param.isOperand).length ≤ g.ops.length + e.opt) &&
  (((e.params.filter Param.isOperand).zip g.ops).all fun p => p.1.takes p.2) && match e.body.run g with
    | some m => match m.res with | .ok _ => true | .error _ => false
    | none => false

/-- Number of integer parameters. -/
def Entry.nInts (e : Entry) : Nat := (e.params.filter fun p => match p with | .int => true | _ => false).length

/-- Some function of the list accepts the representatives, whatever the integers. -/
def oneOf (es : List Entry) (n : Nat) (fine : Bool) (os : List Operand) : Bool :=
  es.any fun e => Nat.beq e.nInts n && e.free && !e.looks && (fine || !e.exact) && e.accepts { ops := os, ints := List.replicate n 0 }

def covers (es : List Entry) (n : Nat) (fine : Bool) (ss : List OpKind) : Bool :=
  (prod (ss.map (OpKind.reps fine))).all fun os => clash os || oneOf es n fine os

/-! ## Every operand of a kind is alike a representative -/

theorem below_4 : ∀ i : BitVec 5, i.toNat < 4 → i ∈ [0, 1, 2, 3] := by decide +kernel
theorem below_8 : ∀ i : BitVec 5, i.toNat < 8 → ∃ j ∈ [(0 : BitVec 5), 1, 2, 3, 4], repIdx j = repIdx i := by decide +kernel
theorem below_16 : ∀ i : BitVec 5, i.toNat < 16 → ∃ j ∈ [(0 : BitVec 5), 1, 2, 3, 4, 8], repIdx j = repIdx i := by decide +kernel
theorem below_32 : ∀ i : BitVec 5, ∃ j ∈ [(0 : BitVec 5), 1, 2, 3, 4, 8, 16], repIdx j = repIdx i := by decide +kernel
theorem high_4 : ∀ i : BitVec 5, 4 ≤ i.toNat → i.toNat < 8 → repIdx 4 = repIdx i := by decide +kernel
theorem coarse_8 : ∀ i : BitVec 5, i.toNat < 8 → coarseIdx 0 = coarseIdx i := by decide +kernel
theorem coarse_16 : ∀ i : BitVec 5, i.toNat < 16 → ∃ j ∈ [(0 : BitVec 5), 8], coarseIdx j = coarseIdx i := by decide +kernel
theorem coarse_32 : ∀ i : BitVec 5, ∃ j ∈ [(0 : BitVec 5), 8, 16], coarseIdx j = coarseIdx i := by decide +kernel

theorem vregs_of (fine x : Bool) (i : BitVec 5) (h : x = false → i.toNat < 16) :
    ∃ j ∈ OpKind.vregs fine x, coarseIdx j = coarseIdx i ∧ (fine = true → repIdx j = repIdx i) := by
  cases fine <;> cases x
  · obtain ⟨j, h1, h2⟩ := coarse_16 i (h rfl)
    exact ⟨j, by simpa [OpKind.vregs] using h1, h2, fun h => by cases h⟩
  · obtain ⟨j, h1, h2⟩ := coarse_32 i
    exact ⟨j, by simpa [OpKind.vregs] using h1, h2, fun h => by cases h⟩
  · obtain ⟨j, h1, h2⟩ := below_16 i (h rfl)
    exact ⟨j, by simpa [OpKind.vregs] using h1, Reg.Like.rep_coarse _ _ h2, fun _ => h2⟩
  · obtain ⟨j, h1, h2⟩ := below_32 i
    exact ⟨j, by simpa [OpKind.vregs] using h1, Reg.Like.rep_coarse _ _ h2, fun _ => h2⟩

/-- Registers that differ in the number. -/
theorem Reg.Like.of_coarse {i j : BitVec 5} {k : Kind} {b : Nat} (hv : Reg.vec { idx := i, ext8 := false, kind := k, bit := b } = true) (h : coarseIdx j = coarseIdx i) :
    Reg.Like { idx := j, ext8 := false, kind := k, bit := b } { idx := i, ext8 := false, kind := k, bit := b } := by
  have hv' : Reg.vec { idx := j, ext8 := false, kind := k, bit := b } = true := hv
  refine ⟨rfl, rfl, rfl, rfl, rfl, rfl, rfl, rfl, ?_⟩
  unfold Reg.numClass
  rw [hv, hv']; exact h

private theorem base_of {r : Reg} (h : r = .nil ∨ ∃ i, i.toNat < 16 ∧ (r = .gp i 32 ∨ r = .gp i 64)) :
    ∃ q ∈ [Reg.nil, .gp 0 32, .gp 0 64], q.Base r := by
  have ext : ∀ i : BitVec 5, i.toNat < 16 → (0 : BitVec 5).getLsbD 4 = i.getLsbD 4 := by decide +kernel
  rcases h with rfl | ⟨i, hi, rfl | rfl⟩
  · exact ⟨.nil, by simp, .refl _⟩
  · exact ⟨.gp 0 32, by simp, rfl, rfl, rfl, rfl, rfl, rfl, ext i hi⟩
  · exact ⟨.gp 0 64, by simp, rfl, rfl, rfl, rfl, rfl, rfl, ext i hi⟩

theorem addrs_of {n : Nat} {a : Addr} (h : Written n a) : ∃ b ∈ OpKind.addrs n, b.Like a := by
  have hd : isInInt32 0 = isInInt32 a.e.disp := by rw [h.disp]; decide
  rcases h.mode with hm | ⟨hm, h1, h2⟩
  · obtain ⟨b, hb, kb⟩ := base_of h.base
    obtain ⟨i, hi, ki⟩ := base_of h.index
    have hsame : b.bit = 0 ∨ i.bit = 0 ∨ b.bit = i.bit := by
      rw [kb.bit, ki.bit]
      rcases h.same with h | h | h
      · exact .inl (by rw [h]; rfl)
      · exact .inr (.inl (by rw [h]; rfl))
      · exact .inr (.inr h)
    obtain ⟨s, hs, ks⟩ : ∃ s : Int, (if i.bit ≠ 0 ∧ b.bit = 0 then s = 1 ∨ s = 2 else s = 1) ∧ (i.isBit 96 = true → b.bit = 0 → (s = 2 ↔ a.e.scale = 2)) := by
      by_cases hc : i.bit ≠ 0 ∧ b.bit = 0
      · by_cases hs : a.e.scale = 2
        · exact ⟨2, by simp [hc], by simp [hs]⟩
        · exact ⟨1, by simp [hc], by simp [hs]⟩
      · refine ⟨1, by simp [hc], fun h1 h2 => absurd ⟨fun h => ?_, h2⟩ hc⟩
        unfold Reg.isBit at h1; rw [h] at h1; exact absurd h1 (by decide)
    refine ⟨OpKind.at' n b i s, ?_, by rw [h.o]; exact .refl _, kb, ki, ks, hd, by rw [h.label hm]; rfl, hm.symm, h.vsib.symm, h.bcast.symm, h.opt.symm⟩
    simp only [List.mem_cons, List.not_mem_nil, or_false] at hb hi
    rcases hb with rfl | rfl | rfl <;> rcases hi with rfl | rfl | rfl <;> simp [Reg.nil, Reg.gp] at hs hsame
    all_goals first
      | (subst hs; simp [OpKind.addrs, Reg.nil, Reg.gp]; done)
      | (rcases hs with rfl | rfl <;> simp [OpKind.addrs, Reg.nil, Reg.gp])
  · have hs : Reg.nil.isBit 96 = true → Reg.nil.bit = 0 → ((1 : Int) = 2 ↔ a.e.scale = 2) := fun h => by simp [Reg.isBit, Reg.nil] at h
    cases hl : a.label with
    | none =>
      exact ⟨{ OpKind.at' n .nil .nil 1 with mode := .rip }, by simp [OpKind.addrs], by rw [h.o]; exact .refl _, by rw [h1]; exact .refl _, by rw [h2]; exact .refl _, hs, hd,
        by rw [hl]; rfl, hm.symm, h.vsib.symm, h.bcast.symm, h.opt.symm⟩
    | some l =>
      exact ⟨{ OpKind.at' n .nil .nil 1 with mode := .rip, label := some 0 }, by simp [OpKind.addrs], by rw [h.o]; exact .refl _, by rw [h1]; exact .refl _, by rw [h2]; exact .refl _, hs, hd,
        by rw [hl]; rfl, hm.symm, h.vsib.symm, h.bcast.symm, h.opt.symm⟩

/-- An operand of a kind is alike one of the representatives; in the fine sense if asked for. -/
theorem OpKind.Is.rep {c : OpKind} {o : Operand} (h : c.Is o) (fine : Bool) :
    ∃ p ∈ c.reps fine, p.Like o ∧ (fine = true → repIdx p.hd.idx = repIdx o.hd.idx) := by
  cases c with
  | gp n =>
    rcases h with ⟨i, hi, rfl⟩ | ⟨rfl, i, h1, h2, rfl⟩
    · obtain ⟨j, hj, hr⟩ := below_16 i hi
      exact ⟨.reg (.gp j n), List.mem_append_left _ (List.mem_map_of_mem hj), Reg.Like.made hr _ _ _, fun _ => hr⟩
    · exact ⟨.reg (.r8 4 true), List.mem_append_right _ (List.mem_singleton.2 rfl), Reg.Like.made (high_4 i h1 h2) _ _ _, fun _ => high_4 i h1 h2⟩
  | mm =>
    obtain ⟨i, hi, rfl⟩ := h
    cases fine
    · exact ⟨.reg (.mm 0), List.mem_singleton.2 rfl, Reg.Like.of_coarse (by simp [Reg.vec, Reg.isBit]) (coarse_8 i hi), fun h => by cases h⟩
    · obtain ⟨j, hj, hr⟩ := below_8 i hi
      exact ⟨.reg (.mm j), List.mem_map_of_mem hj, Reg.Like.made hr _ _ _, fun _ => hr⟩
  | bnd =>
    obtain ⟨i, hi, rfl⟩ := h
    exact ⟨.reg (.bnd i), List.mem_map_of_mem (below_4 i hi), Reg.Like.refl _, fun _ => rfl⟩
  | cl => obtain rfl := h; exact ⟨_, List.mem_singleton.2 rfl, Reg.Like.refl _, fun _ => rfl⟩
  | xmm x =>
    obtain ⟨i, hi, rfl⟩ := h
    obtain ⟨j, hj, hc, hf⟩ := vregs_of fine x i hi
    exact ⟨.reg (.xmm j), List.mem_map_of_mem hj, Reg.Like.of_coarse (by simp [Reg.vec, Reg.isBit]) hc, hf⟩
  | ymm x =>
    obtain ⟨i, hi, rfl⟩ := h
    obtain ⟨j, hj, hc, hf⟩ := vregs_of fine x i hi
    exact ⟨.reg (.ymm j), List.mem_map_of_mem hj, Reg.Like.of_coarse (by simp [Reg.vec, Reg.isBit]) hc, hf⟩
  | zmm =>
    obtain ⟨i, rfl⟩ := h
    obtain ⟨j, hj, hc, hf⟩ := vregs_of fine true i (fun h => by cases h)
    exact ⟨.reg (.zmm j), List.mem_map_of_mem hj, Reg.Like.of_coarse (by simp [Reg.vec, Reg.isBit]) hc, hf⟩
  | k =>
    obtain ⟨i, hi, rfl⟩ := h
    obtain ⟨j, hj, hr⟩ := below_8 i hi
    exact ⟨.reg (.opmask j), List.mem_map_of_mem hj, Reg.Like.made hr _ _ _, fun _ => hr⟩
  | st =>
    obtain ⟨i, hi, rfl⟩ := h
    obtain ⟨j, hj, hr⟩ := below_8 i hi
    exact ⟨.reg (.st j), List.mem_map_of_mem hj, Reg.Like.made hr _ _ _, fun _ => hr⟩
  | mem n =>
    obtain ⟨a, rfl, ha⟩ := h
    obtain ⟨b, hb, hl⟩ := addrs_of ha
    exact ⟨.mem b, List.mem_map_of_mem hb, hl, fun _ => by
      have h1 : b.o = Addr.memOp n := by
        simp only [OpKind.addrs, List.mem_cons, List.not_mem_nil, or_false] at hb
        rcases hb with rfl | rfl | rfl | rfl | rfl | rfl | rfl | rfl | rfl | rfl | rfl <;> rfl
      show repIdx b.o.idx = repIdx a.o.idx
      rw [h1, ha.o]⟩

/-- Lists of operands, one of each kind. -/
def OpKind.AllAre : List OpKind → List Operand → Prop
  | [], [] => True
  | c :: cs, o :: os => c.Is o ∧ AllAre cs os
  | _, _ => False

private def LikeAll (fine : Bool) : List Operand → List Operand → Prop
  | [], [] => True
  | p :: ps, o :: os => (p.Like o ∧ (fine = true → repIdx p.hd.idx = repIdx o.hd.idx)) ∧ LikeAll fine ps os
  | _, _ => False

private theorem prod_of (fine : Bool) : ∀ (ks : List OpKind) (os : List Operand), OpKind.AllAre ks os →
    ∃ ps ∈ prod (ks.map (OpKind.reps fine)), LikeAll fine ps os
  | [], [], _ => ⟨[], List.mem_singleton.2 rfl, trivial⟩
  | [], _ :: _, h => h.elim
  | _ :: _, [], h => h.elim
  | k :: ks, o :: os, ⟨h, hs⟩ => by
    obtain ⟨p, hp, hl⟩ := h.rep fine
    obtain ⟨ps, hps, hls⟩ := prod_of fine ks os hs
    exact ⟨p :: ps, List.mem_flatMap.2 ⟨p, hp, List.mem_map_of_mem hps⟩, hl, hls⟩

private theorem LikeAll.get {fine : Bool} : ∀ {ps os : List Operand}, LikeAll fine ps os →
    ps.length = os.length ∧ ∀ (i : Nat) (o o' : Operand), ps[i]? = some o → os[i]? = some o' → o.Like o' ∧ (fine = true → repIdx o.hd.idx = repIdx o'.hd.idx)
  | [], [], _ => ⟨rfl, fun i o o' h => by cases h⟩
  | [], _ :: _, h => h.elim
  | _ :: _, [], h => h.elim
  | p :: ps, o :: os, ⟨h, hs⟩ => by
    have ih := LikeAll.get hs
    refine ⟨by simp [ih.1], fun i q q' h1 h2 => ?_⟩
    cases i with
    | zero => cases h1; cases h2; exact h
    | succ i => exact ih.2 i q q' (by simpa using h1) (by simpa using h2)

private theorem LikeAll.like {fine : Bool} {ps os : List Operand} (h : LikeAll fine ps os) (xs ys : List Word) : Args.Like { ops := ps, ints := xs } { ops := os, ints := ys } :=
  ⟨h.get.1, fun i o o' h1 h2 => (h.get.2 i o o' h1 h2).1, rfl, rfl⟩

private theorem LikeAll.fine {ps os : List Operand} (h : LikeAll true ps os) (xs ys : List Word) : Args.Fine { ops := ps, ints := xs } { ops := os, ints := ys } := by
  intro i
  unfold Args.reg Args.op
  cases h1 : ps[i]? with
  | none => rw [show os[i]? = none from List.getElem?_eq_none (by rw [← h.get.1]; exact List.getElem?_eq_none_iff.1 h1)]
  | some o =>
    have : i < os.length := by rw [← h.get.1]; exact (List.getElem?_eq_some_iff.1 h1).1
    rw [List.getElem?_eq_getElem this]
    exact (h.get.2 i o _ h1 (List.getElem?_eq_getElem this)).2 rfl

private theorem LikeAll.any {fine : Bool} {f : Operand → Bool} (hf : ∀ p o : Operand, p.Like o → f p = f o) :
    ∀ {ps os : List Operand}, LikeAll fine ps os → ps.any f = os.any f
  | [], [], _ => rfl
  | [], _ :: _, h => h.elim
  | _ :: _, [], h => h.elim
  | p :: ps, o :: os, ⟨h, hs⟩ => by simp only [List.any_cons]; rw [hf p o h.1, LikeAll.any hf hs]

private theorem LikeAll.clash {fine : Bool} {ps os : List Operand} (h : LikeAll fine ps os) : clash ps = clash os := by
  unfold Mn.clash
  refine (congrArg (fun f => ps.any f) (funext fun o => ?_)).trans (h.any (f := fun o => o.hd.isHigh8bit && !o.isMEM && os.any fun p => !p.isMEM && (p.hd.ext8 || decide (p.hd.idx.toNat ≥ 8))) fun p o k => ?_)
  · rw [h.any (f := fun p => !p.isMEM && (p.hd.ext8 || decide (p.hd.idx.toNat ≥ 8))) fun p o k => by rw [k.isMEM, k.hd.ext8, k.hd.ge8]]
  · rw [k.hd.isHigh8bit, k.isMEM]

theorem Entry.accepts_calls {e : Entry} {g : Args} (he : e ∈ all) (h : e.accepts g = true) : ∃ w, Calls e g w := by
  unfold Entry.accepts at h
  rw [Bool.and_eq_true, Bool.and_eq_true, decide_eq_true_eq] at h
  obtain ⟨⟨h1, h2⟩, h3⟩ := h
  split at h3
  · rename_i m hm
    split at h3
    · rename_i hr
      refine ⟨m.acts, he, ⟨h1.1, h1.2, fun i p o hp ho => List.all_eq_true.mp h2 (p, o) ?_⟩, m, hm, rfl, hr⟩
      rw [List.mem_iff_getElem?]
      exact ⟨i, by rw [List.getElem?_zip_eq_some]; exact ⟨hp, ho⟩⟩
    · cases h3
  · cases h3

/-- Whether some function accepts operands of these kinds is decided on the representatives. -/
theorem covers_calls {es : List Entry} (hes : ∀ e ∈ es, e ∈ all) {n : Nat} {fine : Bool} {ks : List OpKind} (h : covers es n fine ks = true)
    {os : List Operand} (hk : OpKind.AllAre ks os) (hc : clash os = false) (ints : List Word) : ∃ e ∈ es, ∃ w, e.nInts = n ∧ Calls e { ops := os, ints := ints } w := by
  obtain ⟨ps, hp, hl⟩ := prod_of fine ks os hk
  have := List.all_eq_true.1 h ps hp
  rw [hl.clash, hc, Bool.false_or] at this
  obtain ⟨e, he, h⟩ := List.any_eq_true.1 this
  simp only [Bool.and_eq_true, Bool.not_eq_true', Bool.or_eq_true] at h
  obtain ⟨⟨⟨⟨h1, h2⟩, h3⟩, h4⟩, h5⟩ := h
  obtain ⟨w, hw⟩ := Entry.accepts_calls (hes e he) h5
  obtain ⟨w', hw'⟩ := c85_accepted hw h2 (g' := { ops := os, ints := ints }) ⟨hl.like _ _, (fun hx => by
    rcases h4 with rfl | h4
    · exact hl.fine _ _
    · rw [hx] at h4; cases h4), fun hx => by rw [hx] at h3; cases h3⟩
  exact ⟨e, he, w', Nat.eq_of_beq_eq_true h1, hw'⟩

/-- All ways to choose one of each. -/
def choose {α : Type} : List (List α) → List (List α)
  | [] => [[]]
  | l :: ls => l.flatMap fun x => (choose ls).map (x :: ·)

/-- The operands are one of each of the kinds. -/
def OneEach : List (List OpKind) → List Operand → Prop
  | [], [] => True
  | l :: ls, o :: os => (∃ c ∈ l, c.Is o) ∧ OneEach ls os
  | _, _ => False

theorem OneEach.choose : ∀ {ls : List (List OpKind)} {os : List Operand}, OneEach ls os → ∃ ks ∈ choose ls, OpKind.AllAre ks os
  | [], [], _ => ⟨[], List.mem_singleton.2 rfl, trivial⟩
  | [], _ :: _, h => h.elim
  | _ :: _, [], h => h.elim
  | l :: ls, o :: os, ⟨⟨c, hc, h⟩, hs⟩ => by
    obtain ⟨ks, hk, ih⟩ := OneEach.choose hs
    exact ⟨c :: ks, List.mem_flatMap.2 ⟨c, hc, List.mem_map_of_mem hk⟩, h, ih⟩

/-! ## Looking up functions -/

/-- The parts of the table. -/
def tabs : List (List Entry) := [t01, t02, t03, t04, t05, t06, t07, t08]

theorem mem_tabs {e : Entry} {t : List Entry} (ht : t ∈ tabs) (h : e ∈ t) : e ∈ all := by
  unfold all
  simp only [tabs, List.mem_cons, List.not_mem_nil, or_false] at ht
  simp only [List.mem_append]
  rcases ht with rfl | rfl | rfl | rfl | rfl | rfl | rfl | rfl <;> simp [h]

theorem tabs_mem {e : Entry} (h : e ∈ all) : ∃ t ∈ tabs, e ∈ t := by
  unfold all at h
  simp only [List.mem_append] at h
  rcases h with ((((((h | h) | h) | h) | h) | h) | h) | h <;> exact ⟨_, by simp [tabs], h⟩

/-- The functions with a name in the first part that has any (fast in the kernel). -/
def fewNamed (n : Nat) : List Entry := ((tabs.find? fun t => t.any fun e => Nat.beq e.name n).getD []).filter fun e => Nat.beq e.name n

/-- The functions with a name in a part of the table. -/
def namedIn (t : List Entry) (n : Nat) : List Entry := t.filter fun e => Nat.beq e.name n

theorem of_namedIn {t : List Entry} (ht : t ∈ tabs) {n : Nat} : ∀ e ∈ namedIn t n, e ∈ all ∧ e.name = n :=
  fun _ h => ⟨mem_tabs ht (List.mem_filter.1 h).1, Nat.eq_of_beq_eq_true (List.mem_filter.1 h).2⟩

theorem of_fewNamed {n : Nat} : ∀ e ∈ fewNamed n, e ∈ all ∧ e.name = n := by
  intro e h
  obtain ⟨h1, h2⟩ := List.mem_filter.1 h
  refine ⟨?_, Nat.eq_of_beq_eq_true h2⟩
  cases hf : tabs.find? fun t => t.any fun e => Nat.beq e.name n with
  | none => rw [hf] at h1; cases h1
  | some t => rw [hf] at h1; exact mem_tabs (List.mem_of_find?_eq_some hf) h1

end Mn
end Xbyak
