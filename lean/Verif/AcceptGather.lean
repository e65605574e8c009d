import Verif.AcceptMaskChk
import Verif.Spec.Gather
/-!
# Representatives of the operands of gathers and scatters

`opGather` and `opGather2` compare the numbers of their registers, so the representatives of different operands are different registers.
-/
namespace Xbyak
open E
open Enc
namespace Mn

/-- The vector register `i` of `w` bits. -/
def vregW (w : Nat) (i : BitVec 5) : Reg := if w = 128 then .xmm i else if w = 256 then .ymm i else .zmm i

/-- An address `[base + index * scale + disp]` of a gather or scatter as programs write it: `index` is the vector register `i` of `w` bits, `m` the opmask of the
address; the base is a general register of 32 or 64 bits (below r16 unless `x`) or absent. -/
structure VsibAt (x : Bool) (w : Nat) (i : BitVec 5) (m : BitVec 3) (a : Addr) : Prop where
  o : a.o = { Addr.memOp 0 with mask := m }
  base : a.e.base = .nil ∨ ∃ j, (x = false → j.toNat < 16) ∧ (a.e.base = .gp j 32 ∨ a.e.base = .gp j 64)
  index : a.e.index = vregW w i
  disp : isInInt32 a.e.disp = true
  mode : a.mode = .modRM
  label : a.label = none
  vsib : a.permitVsib = false
  bcast : a.broadcast = false
  opt : a.opt = true

def vsibReps (x : Bool) (w : Nat) (m : BitVec 3) : List Addr :=
  ([Reg.nil, Reg.gp 0 32, Reg.gp 0 64] ++ if x then [Reg.gp 16 32, Reg.gp 16 64] else []).flatMap fun b =>
    ([(2 : BitVec 5)] ++ if x then [18] else []).map fun i => { o := { Addr.memOp 0 with mask := m }, e := { base := b, index := vregW w i, scale := 1, disp := 0 } }

theorem vregW_ext (w : Nat) {i j : BitVec 5} (h : i.getLsbD 4 = j.getLsbD 4) : (vregW w i).Base (vregW w j) := by
  unfold vregW; split
  · exact ⟨rfl, rfl, rfl, rfl, rfl, rfl, h⟩
  · split <;> exact ⟨rfl, rfl, rfl, rfl, rfl, rfl, h⟩

private theorem low : ∀ i : BitVec 5, (i.toNat < 16 → i.getLsbD 4 = false) ∧ (¬ i.toNat < 16 → i.getLsbD 4 = true) := by decide +kernel

theorem vsibReps_of {x : Bool} {w : Nat} {i : BitVec 5} {m : BitVec 3} {a : Addr} (h : VsibAt x w i m a) (hi : x = false → i.toNat < 16) :
    ∃ b ∈ vsibReps x w m, b.Like a ∧ (b.e.index.idx = 2 ∨ b.e.index.idx = 18) := by
  obtain ⟨q, hq, kq⟩ : ∃ q ∈ [Reg.nil, Reg.gp 0 32, Reg.gp 0 64] ++ (if x then [Reg.gp 16 32, .gp 16 64] else []), q.Base a.e.base := by
    rcases h.base with hb | ⟨j, hj, hb⟩
    · exact ⟨.nil, by simp, by rw [hb]; exact .refl _⟩
    · by_cases hl : j.toNat < 16
      · rcases hb with hb | hb <;> rw [hb]
        · exact ⟨.gp 0 32, by simp, rfl, rfl, rfl, rfl, rfl, rfl, ((low j).1 hl).symm⟩
        · exact ⟨.gp 0 64, by simp, rfl, rfl, rfl, rfl, rfl, rfl, ((low j).1 hl).symm⟩
      · have hx : x = true := by cases x <;> simp_all
        rcases hb with hb | hb <;> rw [hb]
        · exact ⟨.gp 16 32, by simp [hx], rfl, rfl, rfl, rfl, rfl, rfl, ((low j).2 hl).symm⟩
        · exact ⟨.gp 16 64, by simp [hx], rfl, rfl, rfl, rfl, rfl, rfl, ((low j).2 hl).symm⟩
  obtain ⟨n, hn, kn, en⟩ : ∃ n ∈ [(2 : BitVec 5)] ++ (if x then [18] else []), n.getLsbD 4 = i.getLsbD 4 ∧ (n = 2 ∨ n = 18) := by
    by_cases hl : i.toNat < 16
    · exact ⟨2, by simp, ((low i).1 hl).symm, .inl rfl⟩
    · have hx : x = true := by cases x <;> simp_all
      exact ⟨18, by simp [hx], ((low i).2 hl).symm, .inr rfl⟩
  refine ⟨_, List.mem_flatMap.2 ⟨q, hq, List.mem_map.2 ⟨n, hn, rfl⟩⟩, ⟨by rw [h.o]; exact .refl _, kq, by rw [h.index]; exact vregW_ext w kn, ?_, ?_, ?_, h.mode.symm, h.vsib.symm,
    h.bcast.symm, h.opt.symm⟩, ?_⟩
  · intro h1; exfalso; revert h1; unfold vregW; split
    · simp [Reg.isBit, Reg.xmm]
    · split <;> simp [Reg.isBit, Reg.ymm, Reg.zmm]
  · show isInInt32 0 = _; rw [h.disp]; decide
  · rw [h.label]
  · have : (vregW w n).idx = n := by unfold vregW; split; rfl; split <;> rfl
    show (vregW w n).idx = 2 ∨ (vregW w n).idx = 18
    rw [this]; exact en

theorem vregW_like (w : Nat) {i j : BitVec 5} (h : coarseIdx i = coarseIdx j) (m : BitVec 3) : Reg.Like { vregW w i with mask := m } { vregW w j with mask := m } := by
  unfold vregW; split
  · exact ⟨rfl, rfl, rfl, rfl, rfl, rfl, rfl, rfl, by simp [Reg.numClass, Reg.vec, Reg.isBit, Reg.xmm]; exact h⟩
  · split
    · exact ⟨rfl, rfl, rfl, rfl, rfl, rfl, rfl, rfl, by simp [Reg.numClass, Reg.vec, Reg.isBit, Reg.ymm]; exact h⟩
    · exact ⟨rfl, rfl, rfl, rfl, rfl, rfl, rfl, rfl, by simp [Reg.numClass, Reg.vec, Reg.isBit, Reg.zmm]; exact h⟩

theorem vregW_idx (w : Nat) (i : BitVec 5) : (vregW w i).idx = i := by unfold vregW; split; rfl; split <;> rfl

theorem opGather_like {x1 y1 x2 y2 : Reg} {a b : Addr} (h1 : x1.Like y1) (h2 : x2.Like y2) (k : a.Like b) (c1 : coarseIdx x1.idx = coarseIdx y1.idx)
    (c2 : coarseIdx x2.idx = coarseIdx y2.idx) (d : (x1.idx == a.getRegExp.index.idx || x1.idx == x2.idx || a.getRegExp.index.idx == x2.idx) = false)
    (d' : (y1.idx == b.getRegExp.index.idx || y1.idx == y2.idx || b.getRegExp.index.idx == y2.idx) = false) (t : Ty) (c : Byte) (md : Nat) :
    (opGather x1 a x2 t c md).res = (opGather y1 b y2 t c md).res := by
  have hv : a.getRegExp.isVsib 384 = b.getRegExp.isVsib 384 := by
    unfold RegExp.isVsib Reg.isBit; rw [k.getRegExp.index.bit]
  have key : ∀ s : Bool, (opAVX_X_X_XM (if s then .ymm x1.idx else x1) (.reg (if s then .ymm x2.idx else x2)) (some (.mem a)) t c none).res =
      (opAVX_X_X_XM (if s then .ymm y1.idx else y1) (.reg (if s then .ymm y2.idx else y2)) (some (.mem b)) t c none).res := by
    have hy : ∀ {i j : BitVec 5}, coarseIdx i = coarseIdx j → (Reg.ymm i).Like (.ymm j) := fun h =>
      ⟨rfl, rfl, rfl, rfl, rfl, rfl, rfl, rfl, by simp [Reg.numClass, Reg.vec, Reg.isBit, Reg.ymm]; exact h⟩
    intro s; cases s
    · exact opAVX_X_X_XM_like (p := some (.mem a)) (q := some (.mem b)) h1 (likeReg h2) (likeMem k) t c none none
    · exact opAVX_X_X_XM_like (p := some (.mem a)) (q := some (.mem b)) (hy c1) (likeReg (hy c2)) (likeMem k) t c none none
  unfold opGather; encres
  rw [d, d', hv, k.getRegExp.index.bit, h1.isYMM, h1.isXMM, h2.isYMM, h2.isXMM, key]

theorem opGather2_like {x y : Reg} {a b : Addr} (h : x.Like y) (k : a.Like b) (hi : a.getRegExp.index.kind = b.getRegExp.index.kind)
    {t : Ty} (d : (!t.has T_M_K && x.idx == a.getRegExp.index.idx) = false)
    (d' : (!t.has T_M_K && y.idx == b.getRegExp.index.idx) = false) (c : Byte) (md : Nat) :
    (opGather2 x a t c md).res = (opGather2 y b t c md).res := by
  unfold opGather2 checkGather2; encres
  have e1 : ∀ r s : Reg, r.kind = s.kind → r.isXMM = s.isXMM ∧ r.isYMM = s.isYMM ∧ r.isZMM = s.isZMM := by
    intro r s h; unfold Reg.isXMM Reg.isYMM Reg.isZMM; rw [h]; exact ⟨rfl, rfl, rfl⟩
  obtain ⟨i1, i2, i3⟩ := e1 _ _ hi
  rw [d, d', h.zero, h.isXMM, h.isYMM, h.isZMM, i1, i2, i3, h.mask, k.o.mask, opVex_like h (OLike.refl none) (likeMem k) t c none none]

theorem Param.takes_like {p : Param} {o q : Operand} (h : o.Like q) : p.takes o = p.takes q := by
  cases p <;> simp only [Param.takes, h.isMEM, h.isREG, h.hd.isMMX, h.hd.isSIMD, h.hd.isYMM, h.hd.isZMM, h.hd.isTMM, h.hd.isOPMASK, h.hd.isBNDREG, h.hd.kind]

inductive AllLike : List Operand → List Operand → Prop
  | nil : AllLike [] []
  | cons {p o ps os} : p.Like o → AllLike ps os → AllLike (p :: ps) (o :: os)

theorem AllLike.length {ps os} (h : AllLike ps os) : ps.length = os.length := by induction h with | nil => rfl | cons _ _ ih => simp [ih]

theorem AllLike.takes {ps os} (h : AllLike ps os) (qs : List Param) : ((qs.zip ps).all fun p => p.1.takes p.2) = (qs.zip os).all fun p => p.1.takes p.2 := by
  induction h generalizing qs with
  | nil => rfl
  | cons h _ ih =>
    cases qs with
    | nil => rfl
    | cons q qs => simp only [List.zip_cons_cons, List.all_cons, ih qs, Param.takes_like h]

/-- Acceptance carries over to alike operands for which the function takes the same course. -/
theorem accepts_of_like {e : Entry} {g g' : Args} {l : Leaf} (hb : e.body = .leaf l) (h : AllLike g.ops g'.ops) (hr : (l.run g).res = (l.run g').res) (ha : e.accepts g = true) :
    e.accepts g' = true := by
  unfold Entry.accepts at ha ⊢
  rw [hb] at ha ⊢
  rw [← h.length, ← h.takes]
  simp only [Body.run] at ha ⊢
  rw [← hr]; exact ha

/-! ## The checks -/

def Entry.isVexGather (e : Entry) : Bool := match e.body with | .leaf (.gather (.a 0) (.a 1) (.a 2) _ _ _) => true | _ => false
def Entry.isGather2 (e : Entry) : Bool := match e.body with | .leaf (.gather2 (.a 0) (.a 1) t _ _) => !t.has T_M_K | _ => false
def Entry.isScatter (e : Entry) : Bool := match e.body with | .leaf (.gather2 (.a 1) (.a 0) t _ _) => t.has T_M_K | _ => false
def Entry.isFetch (e : Entry) : Bool := match e.body with | .leaf (.gatherFetch (.a 0) (.r _) _ _ _) => true | _ => false

def masks7 : List (BitVec 3) := [1, 2, 3, 4, 5, 6, 7]

def vexGathers : Bool := X86.vsibOps.all fun (n, k, I, D) => k != .gather || [128, 256].all fun VL => (namedT n).any fun e => e.isVexGather &&
  (vsibReps false (X86.vsibWidth VL I D I) 0).all fun a => [0, 8].all fun x => [1, 9].all fun y =>
    e.accepts { ops := [.reg (vregW (X86.vsibWidth VL I D D) x), .mem a, .reg (vregW (X86.vsibWidth VL I D D) y)] }

def evexGathers (VL : Nat) : Bool := X86.vsibOps.all fun (n, k, I, D) => k != .gather || (namedT n).any fun e => e.isGather2 &&
  (vsibReps true (X86.vsibWidth VL I D I) 0).all fun a => [0, 8, 16].all fun x => masks7.all fun m =>
    e.accepts { ops := [.reg { vregW (X86.vsibWidth VL I D D) x with mask := m }, .mem a] }

def scatters (VL : Nat) : Bool := X86.vsibOps.all fun (n, k, I, D) => k != .scatter || (namedT n).any fun e => e.isScatter && masks7.all fun m =>
  (vsibReps true (X86.vsibWidth VL I D I) m).all fun a => [0, 8, 16].all fun x =>
    e.accepts { ops := [.mem a, .reg (vregW (X86.vsibWidth VL I D D) x)] }

def prefetches : Bool := X86.vsibOps.all fun (n, k, I, D) => k != .prefetch || (namedT n).any fun e => e.isFetch && masks7.all fun m =>
  (vsibReps true (X86.vsibWidth 512 I D I) m).all fun a => e.accepts { ops := [.mem a] }

set_option maxRecDepth 100000 in
theorem vexGathers_ok : vexGathers = true := by decide +kernel
set_option maxRecDepth 100000 in
theorem prefetches_ok : prefetches = true := by decide +kernel
set_option maxRecDepth 100000 in
theorem evexGathers_ok : ∀ VL ∈ [128, 256, 512], evexGathers VL = true := by decide +kernel
set_option maxRecDepth 100000 in
theorem scatters_ok : ∀ VL ∈ [128, 256, 512], scatters VL = true := by decide +kernel

end Mn
end Xbyak
