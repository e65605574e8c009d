import Verif.AcceptVec
import Verif.Props.Gp
/-!
# Which kinds of operands the vector functions accept, against the manual

For the five most frequent kinds of functions the condition for acceptance is inverted; the others are evaluated on representatives of all kinds of operands.
-/
set_option linter.unusedSimpArgs false
namespace Xbyak
open E
open Enc
namespace Mn
open X86

/-- All kinds of operands: general registers below 16, the other registers, memory. -/
def anyKind : List OpKind := [.gp 8, .gp 16, .gp 32, .gp 64, .mm, .bnd, .xmm true, .ymm true, .zmm, .k, .st] ++ memBits.map .mem

/-- The operand is of the kind, but for the size of memory. -/
def fits : OpKind → Operand → Bool
  | .gp n, o => !o.isMEM && decide (o.hd.kind = .reg) && Nat.beq o.hd.bit n
  | .mm, o => !o.isMEM && o.hd.isMMX
  | .bnd, o => !o.isMEM && o.hd.isBNDREG
  | .cl, _ => false
  | .xmm x, o => !o.isMEM && o.hd.isXMM && (x || !o.hd.isExtIdx2)
  | .ymm x, o => !o.isMEM && o.hd.isYMM && (x || !o.hd.isExtIdx2)
  | .zmm, o => !o.isMEM && o.hd.isZMM
  | .k, o => !o.isMEM && o.hd.isOPMASK
  | .st, o => !o.isMEM && decide (o.hd.kind = .fpu)
  | .mem _, o => o.isMEM

/-- The operands fit; where the flag is set, any register does. -/
def near : List Bool → List (List OpKind) → List Operand → Bool
  | l :: ls, ks :: kss, o :: os => (ks.any (fits · o) || (l && !o.isMEM)) && near ls kss os
  | _, [], [] => true
  | _, _, _ => false

def isOp : Param → Bool
  | .op => true
  | _ => false

/-- The position of the last parameter of type `Operand`. -/
def lastOp : List Param → List Bool
  | [] => []
  | p :: ps => (isOp p && !ps.any isOp) :: lastOp ps

/-- The operands are those of one of the lines, or become so by repeating the first one; if `lax`, but for a register passed for the last parameter of type `Operand`. -/
def docOK (fs : List VForm) (ps : List Param) (ints : Nat) (lax : Bool) (os : List Operand) : Bool :=
  fs.any fun f => Nat.beq f.ints ints && f.lens.any fun vl =>
    near ((lastOp (ps.take os.length)).map (· && lax)) (f.ops.map (vkinds f.evex vl)) os ||
    match os with
    | x :: r => near (false :: (lastOp (ps.take os.length)).map (· && lax)) (f.ops.map (vkinds f.evex vl)) (x :: x :: r)
    | [] => false

/-- Functions that do not check a register in the last parameter of type `Operand`: those without check of their own, and some whose check lets other kinds pass. -/
def Leaf.lax : Leaf → Bool
  | .avx3 .. | .avx2 .. | .encoding .. | .vex .. => true
  | _ => false

def laxLines : List Nat := [1341, 1343, 1346, 1348, 1436, 1439, 2192, 2193, 2194, 2195, 2209, 2230, 2233, 2235, 2237, 2238, 2240, 2267, 2268, 2269, 2270, 2271, 2272, 2273,
  2274, 2279, 2282, 2354, 2355, 2356, 2357]

def Entry.lax (e : Entry) : Bool := (match e.body with | .leaf l => Leaf.lax l | _ => false) || Manual.isIn e.line laxLines

/-- Functions that accept more. -/
def looseLines : List Nat :=
  -- `vblendvpd`, `vblendvps`, `vpblendvb`: the fourth operand may be any vector register
  [1069, 1070, 1397, 1602, 1603, 1762,
  -- `vmaskmovdqu`, `vmovhlps`, `vmovlhps`, `vmovq`, `vmovsd`, `vmovss`, `vmovsh`: the last may be any vector register
   1317, 1339, 1344, 1357, 1360, 1365, 2422,
  -- `vmovmskpd`, `vmovmskps`: the first may be any register of 64 bits or more
   1349, 1350,
  -- `vsm3msg1`, `vsm3msg2`, `vsm3rnds2` have no EVEX form
   1556, 1557, 1558,
  -- scalar compares to a mask take ymm and zmm
   2051, 2052, 2055, 2056, 2059, 2060, 2063, 2064, 2067, 2068, 2071, 2072, 2075, 2076, 2079, 2080, 2083, 2084, 2087, 2088, 2091, 2092, 2095, 2096, 2099, 2100, 2103, 2104,
   2107, 2108, 2111, 2112, 2115, 2116, 2119, 2120, 2123, 2124, 2127, 2128, 2131, 2132, 2135, 2136, 2139, 2140, 2143, 2144, 2147, 2148, 2151, 2152, 2155, 2156, 2159, 2160,
   2165, 2166, 2167, 2170, 2171, 2174, 2175, 2178, 2179, 2182, 2183,
  -- `vrsqrt14sd`, `vrsqrt14ss` take ymm and zmm
   2617, 2618]

/-! ## Monotony -/

/-- Whatever kind the first is, the second is too. -/
structure Dom (r o : Operand) : Prop where
  mem : r.isMEM = o.isMEM
  fits : ∀ c, fits c r = true → Mn.fits c o = true

theorem Dom.any {r o : Operand} (h : Dom r o) {ks : List OpKind} (hk : ks.any (Mn.fits · r) = true) : ks.any (Mn.fits · o) = true := by
  obtain ⟨c, hc, h1⟩ := List.any_eq_true.1 hk
  exact List.any_eq_true.2 ⟨c, hc, h.fits c h1⟩

/-- Position by position: the kind, or the second is a register and the flag is set. -/
inductive DomAll : List Bool → List Operand → List Operand → Prop
  | nil (l) : DomAll l [] []
  | cons {b l r o rs os} : (Dom r o ∨ (b = true ∧ o.isMEM = false)) → DomAll l rs os → DomAll (b :: l) (r :: rs) (o :: os)

theorem near_dom : ∀ {ls : List Bool} {rs os : List Operand}, DomAll ls rs os → ∀ kss, near ls kss rs = true → near ls kss os = true := by
  intro ls rs os h
  induction h with
  | nil l =>
    intro kss hk
    cases kss with
    | nil => cases l <;> rfl
    | cons => cases l <;> cases hk
  | @cons b l r o rs os h hs ih =>
    intro kss hk
    cases kss with
    | nil => cases hk
    | cons ks kss =>
      simp only [near, Bool.and_eq_true, Bool.or_eq_true, Bool.not_eq_true'] at hk ⊢
      refine ⟨?_, ih kss hk.2⟩
      rcases h with h | h
      · rcases hk.1 with h1 | h1
        · exact .inl (h.any h1)
        · exact .inr ⟨h1.1, h.mem ▸ h1.2⟩
      · exact .inr h

theorem DomAll.length {l : List Bool} {rs os : List Operand} (h : DomAll l rs os) : rs.length = os.length := by
  induction h with
  | nil => rfl
  | cons _ _ ih => simp [ih]

theorem docOK_dom {fs : List VForm} {ps : List Param} {n : Nat} {lax : Bool} {r o : Operand} {rs os : List Operand} (h0 : Dom r o)
    (h : DomAll ((lastOp (ps.take (o :: os).length)).map (· && lax)) (r :: rs) (o :: os)) (hd : docOK fs ps n lax (r :: rs) = true) : docOK fs ps n lax (o :: os) = true := by
  unfold docOK at hd ⊢
  rw [h.length] at hd
  obtain ⟨f, hf, h1⟩ := List.any_eq_true.1 hd
  refine List.any_eq_true.2 ⟨f, hf, ?_⟩
  rw [Bool.and_eq_true] at h1 ⊢
  refine ⟨h1.1, ?_⟩
  obtain ⟨vl, hv, h2⟩ := List.any_eq_true.1 h1.2
  refine List.any_eq_true.2 ⟨vl, hv, ?_⟩
  dsimp only at h2 ⊢
  rw [Bool.or_eq_true] at h2 ⊢
  rcases h2 with h2 | h2
  · exact .inl (near_dom h _ h2)
  · exact .inr (near_dom (.cons (.inl h0) h) _ h2)

theorem OpWeak.dom {r o : Operand} (h : OpWeak r o) : Dom r o := by
  refine ⟨h.isMEM, fun c hc => ?_⟩
  rw [← hc]
  cases c <;> unfold Mn.fits <;> simp only [h.isMEM, h.hd.kind, h.hd.bit, h.hd.isMMX, h.hd.isBNDREG, h.hd.isXMM, h.hd.isYMM, h.hd.isZMM, h.hd.isOPMASK, h.hd.isExtIdx2]

/-! ## Classes of registers -/

/-- The flags allow EVEX. -/
def evexT (t : Ty) : Bool := t.has (T_EVEX ||| T_MUST_EVEX)

def rx (x : Bool) : Operand := .reg (.xmm (bif x then 16 else 0))
def ry (x : Bool) : Operand := .reg (.ymm (bif x then 16 else 0))
def rz : Operand := .reg (.zmm 16)
def rk : Operand := .reg (.opmask 0)
def rb : Operand := .reg (.bnd 0)
def rm : Operand := .mem (OpKind.at' 0 .nil .nil 1)

theorem isMEM_ofReg (r : Reg) : (Operand.reg r).isMEM = false := rfl

theorem dom_rx {r : Reg} (h : r.isXMM = true) {x : Bool} (hx : x = false → r.isExtIdx2 = false) : Dom (rx x) (.reg r) := by
  refine ⟨rfl, fun c hc => ?_⟩
  cases c with
  | xmm y =>
    cases y
    · cases x
      · simp [Mn.fits, isMEM_ofReg, Operand.hd, h, hx rfl]
      · exact absurd hc (by decide)
    · simp [Mn.fits, isMEM_ofReg, Operand.hd, h]
  | gp n => cases x <;> cases hc
  | ymm y => cases x <;> cases hc
  | _ => cases x <;> cases hc

theorem dom_ry {r : Reg} (h : r.isYMM = true) {x : Bool} (hx : x = false → r.isExtIdx2 = false) : Dom (ry x) (.reg r) := by
  refine ⟨rfl, fun c hc => ?_⟩
  cases c with
  | ymm y =>
    cases y
    · cases x
      · simp [Mn.fits, isMEM_ofReg, Operand.hd, h, hx rfl]
      · exact absurd hc (by decide)
    · simp [Mn.fits, isMEM_ofReg, Operand.hd, h]
  | gp n => cases x <;> cases hc
  | xmm y => cases x <;> cases hc
  | _ => cases x <;> cases hc

theorem dom_rz {r : Reg} (h : r.isZMM = true) : Dom rz (.reg r) := by
  refine ⟨rfl, fun c hc => ?_⟩
  cases c with
  | zmm => simp [Mn.fits, isMEM_ofReg, Operand.hd, h]
  | _ => cases hc

theorem dom_rk {r : Reg} (h : r.isOPMASK = true) : Dom rk (.reg r) := by
  refine ⟨rfl, fun c hc => ?_⟩
  cases c with
  | k => simp [Mn.fits, isMEM_ofReg, Operand.hd, h]
  | _ => cases hc

theorem dom_rm (a : Addr) : Dom rm (.mem a) := by
  refine ⟨rfl, fun c hc => ?_⟩
  cases c with
  | mem n => rfl
  | _ => cases hc

/-- Which registers the flags allow. -/
def vclasses (t : Ty) : List Operand :=
  rx (evexT t) :: bif t.has T_YMM then ry (evexT t) :: (bif evexT t then [rz] else []) else []

def vclassesK (t : Ty) : List Operand := rx (evexT t) :: ry (evexT t) :: bif evexT t then [rz] else []

theorem okVex_wide {r : Reg} {p : Option Reg} {o : Operand} {t : Ty} (h : okVex r p o t = true) (ht : evexT t = false) : wide r = false ∧ wideO p = false ∧
    ∀ b, o = .reg b → wide b = false := by
  unfold okVex at h
  unfold evexT at ht
  rw [ht] at h
  cases o with
  | reg q =>
    dsimp only at h
    rw [Bool.false_or, Bool.not_eq_true'] at h
    simp only [Bool.or_eq_false_iff] at h
    exact ⟨h.1.1, h.1.2, fun b hb => by cases hb; exact h.2.2⟩
  | mem a =>
    dsimp only at h
    rw [Bool.false_and, Bool.false_and, Bool.false_or, Bool.not_eq_true'] at h
    simp only [Bool.or_eq_false_iff] at h
    exact ⟨h.1.1, h.1.2, fun b hb => by cases hb⟩

theorem wide_ext {r : Reg} (h : wide r = false) : r.isExtIdx2 = false := wide_ext2 h
theorem wide_zmm {r : Reg} (h : wide r = false) : r.isZMM = false := by
  unfold wide at h
  simp only [Bool.or_eq_false_iff] at h
  exact h.1.1

theorem vclasses_of {x y : Reg} {o : Operand} {t : Ty}
    (h : ((x.isXMM && y.isXMM) || (t.has T_YMM && ((x.isYMM && y.isYMM) || (x.isZMM && y.isZMM)))) = true) (hv : okVex x (some y) o t = true) :
    ∃ c ∈ vclasses t, Dom c (.reg x) ∧ Dom c (.reg y) := by
  have hx : evexT t = false → x.isExtIdx2 = false := fun ht => wide_ext (okVex_wide hv ht).1
  have hy : evexT t = false → y.isExtIdx2 = false := fun ht => wide_ext (okVex_wide hv ht).2.1
  simp only [Bool.or_eq_true, Bool.and_eq_true] at h
  unfold vclasses
  rcases h with h | ⟨ht, h | h⟩
  · exact ⟨_, List.mem_cons_self, dom_rx h.1 hx, dom_rx h.2 hy⟩
  · rw [ht]
    exact ⟨_, List.mem_cons_of_mem _ List.mem_cons_self, dom_ry h.1 hx, dom_ry h.2 hy⟩
  · rw [ht]
    have he : evexT t = true := by
      cases he : evexT t
      · exact absurd h.1 (by rw [wide_zmm (okVex_wide hv he).1]; decide)
      · rfl
    rw [he]
    exact ⟨rz, by simp, dom_rz h.1, dom_rz h.2⟩

theorem isSIMD_cases {r : Reg} (h : r.isSIMD = true) : r.isXMM = true ∨ r.isYMM = true ∨ r.isZMM = true := by
  unfold Reg.isSIMD at h; simpa [or_assoc] using h

theorem classesK_of {k x : Reg} {o : Operand} {t : Ty} (hs : x.isSIMD = true) (ho : (o.isMEM || decide (x.kind = o.hd.kind)) = true) (hv : okVex k (some x) o t = true) :
    ∃ c ∈ vclassesK t, Dom c (.reg x) ∧ (o.isMEM = false → Dom c o) := by
  have hx : evexT t = false → x.isExtIdx2 = false := fun ht => wide_ext (okVex_wide hv ht).2.1
  have hk : ∀ q, o = .reg q → x.kind = q.kind := fun q hq => by subst hq; rw [isMEM_ofReg, Bool.false_or] at ho; exact of_decide_eq_true ho
  have hy : ∀ q, o = .reg q → evexT t = false → q.isExtIdx2 = false := fun q hq ht => wide_ext ((okVex_wide hv ht).2.2 q hq)
  unfold vclassesK
  rcases isSIMD_cases hs with h | h | h
  · refine ⟨_, List.mem_cons_self, dom_rx h hx, fun hm => ?_⟩
    cases o with
    | mem a => cases hm
    | reg q => exact dom_rx (by unfold Reg.isXMM at h ⊢; rw [← hk q rfl]; exact h) (hy q rfl)
  · refine ⟨_, List.mem_cons_of_mem _ List.mem_cons_self, dom_ry h hx, fun hm => ?_⟩
    cases o with
    | mem a => cases hm
    | reg q => exact dom_ry (by unfold Reg.isYMM at h ⊢; rw [← hk q rfl]; exact h) (hy q rfl)
  · have he : evexT t = true := by
      cases he : evexT t
      · exact absurd h (by have := wide_zmm (okVex_wide hv he).2.1; rw [this]; decide)
      · rfl
    rw [he]
    refine ⟨rz, by simp, dom_rz h, fun hm => ?_⟩
    cases o with
    | mem a => cases hm
    | reg q => exact dom_rz (by unfold Reg.isZMM at h ⊢; rw [← hk q rfl]; exact h)

/-! ## The frequent kinds of functions -/

/-- `x, x, op`, `x, op`, `k, x, op` and `x, op, [op]` with `opAVX_X_X_XM` and the like; `other`: any other function. -/
inductive VShape
  | three (t : Ty)
  | dup (t : Ty)
  | two (t : Ty)
  | mask (t : Ty)
  | opt3 (t : Ty)
  | enc (t tv te : Ty) (s : Nat)
  | other

def slotIs (i : Nat) : Slot → Bool
  | .a j => Nat.beq i j
  | _ => false

theorem slotIs_eq {i : Nat} {s : Slot} (h : slotIs i s = true) : s = .a i := by
  cases s with
  | a j => rw [Nat.eq_of_beq_eq_true h]
  | _ => cases h

def Body.vshape (b : Body) (ps : List Param) (opt : Nat) : VShape :=
  match b with
  | .leaf (.avx3 x y z t _ _) =>
    bif slotIs 0 x && slotIs 1 y && slotIs 2 z && decide (ps = [.xmm, .xmm, .op]) && Nat.beq opt 0 then .three t else
    bif slotIs 0 x && slotIs 0 y && slotIs 1 z && decide (ps = [.xmm, .op]) && Nat.beq opt 0 then .dup t else
    bif slotIs 0 x && slotIs 1 y && slotIs 2 z && decide (ps = [.xmm, .op, .op]) && Nat.beq opt 1 then .opt3 t else .other
  | .leaf (.avx2 x y t _ _) => bif slotIs 0 x && slotIs 1 y && decide (ps = [.xmm, .op]) && Nat.beq opt 0 then .two t else .other
  | .leaf (.avxK x y z t _ _) => bif slotIs 0 x && slotIs 1 y && slotIs 2 z && decide (ps = [.opmask, .xmm, .op]) && Nat.beq opt 0 then .mask t else .other
  | .leaf (.encoding x y z t _ _ tv te s) => bif slotIs 0 x && slotIs 1 y && slotIs 2 z && decide (ps = [.xmm, .xmm, .op]) && Nat.beq opt 0 then .enc t tv te s else .other
  | _ => .other

/-- What a shape says about the function. -/
def VShape.Of (b : Body) (ps : List Param) (opt : Nat) : VShape → Prop
  | .three t => (∃ c i, b = .leaf (.avx3 (.a 0) (.a 1) (.a 2) t c i)) ∧ ps = [.xmm, .xmm, .op] ∧ opt = 0
  | .dup t => (∃ c i, b = .leaf (.avx3 (.a 0) (.a 0) (.a 1) t c i)) ∧ ps = [.xmm, .op] ∧ opt = 0
  | .opt3 t => (∃ c i, b = .leaf (.avx3 (.a 0) (.a 1) (.a 2) t c i)) ∧ ps = [.xmm, .op, .op] ∧ opt = 1
  | .two t => (∃ c i, b = .leaf (.avx2 (.a 0) (.a 1) t c i)) ∧ ps = [.xmm, .op] ∧ opt = 0
  | .mask t => (∃ c i, b = .leaf (.avxK (.a 0) (.a 1) (.a 2) t c i)) ∧ ps = [.opmask, .xmm, .op] ∧ opt = 0
  | .enc t tv te s => (∃ c i, b = .leaf (.encoding (.a 0) (.a 1) (.a 2) t c i tv te s)) ∧ ps = [.xmm, .xmm, .op] ∧ opt = 0
  | .other => True

theorem Body.vshape_of (b : Body) (ps : List Param) (opt : Nat) : (b.vshape ps opt).Of b ps opt := by
  unfold vshape
  split
  · rename_i x y z t c i
    cases h1 : (slotIs 0 x && slotIs 1 y && slotIs 2 z && decide (ps = [.xmm, .xmm, .op]) && Nat.beq opt 0)
    · cases h2 : (slotIs 0 x && slotIs 0 y && slotIs 1 z && decide (ps = [.xmm, .op]) && Nat.beq opt 0)
      · cases h3 : (slotIs 0 x && slotIs 1 y && slotIs 2 z && decide (ps = [.xmm, .op, .op]) && Nat.beq opt 1)
        · trivial
        · simp only [Bool.and_eq_true, decide_eq_true_eq] at h3
          obtain ⟨⟨⟨⟨h1, h2⟩, h3⟩, h4⟩, h5⟩ := h3
          rw [slotIs_eq h1, slotIs_eq h2, slotIs_eq h3]
          exact ⟨⟨c, i, rfl⟩, h4, Nat.eq_of_beq_eq_true h5⟩
      · simp only [Bool.and_eq_true, decide_eq_true_eq] at h2
        obtain ⟨⟨⟨⟨h1, h2⟩, h3⟩, h4⟩, h5⟩ := h2
        rw [slotIs_eq h1, slotIs_eq h2, slotIs_eq h3]
        exact ⟨⟨c, i, rfl⟩, h4, Nat.eq_of_beq_eq_true h5⟩
    · simp only [Bool.and_eq_true, decide_eq_true_eq] at h1
      obtain ⟨⟨⟨⟨h1, h2⟩, h3⟩, h4⟩, h5⟩ := h1
      rw [slotIs_eq h1, slotIs_eq h2, slotIs_eq h3]
      exact ⟨⟨c, i, rfl⟩, h4, Nat.eq_of_beq_eq_true h5⟩
  · rename_i x y t c i
    cases h1 : (slotIs 0 x && slotIs 1 y && decide (ps = [.xmm, .op]) && Nat.beq opt 0)
    · trivial
    · simp only [Bool.and_eq_true, decide_eq_true_eq] at h1
      obtain ⟨⟨⟨h1, h2⟩, h4⟩, h5⟩ := h1
      rw [slotIs_eq h1, slotIs_eq h2]
      exact ⟨⟨c, i, rfl⟩, h4, Nat.eq_of_beq_eq_true h5⟩
  · rename_i x y z t c i
    cases h1 : (slotIs 0 x && slotIs 1 y && slotIs 2 z && decide (ps = [.opmask, .xmm, .op]) && Nat.beq opt 0)
    · trivial
    · simp only [Bool.and_eq_true, decide_eq_true_eq] at h1
      obtain ⟨⟨⟨⟨h1, h2⟩, h3⟩, h4⟩, h5⟩ := h1
      rw [slotIs_eq h1, slotIs_eq h2, slotIs_eq h3]
      exact ⟨⟨c, i, rfl⟩, h4, Nat.eq_of_beq_eq_true h5⟩
  · rename_i x y z t c i tv te s
    cases h1 : (slotIs 0 x && slotIs 1 y && slotIs 2 z && decide (ps = [.xmm, .xmm, .op]) && Nat.beq opt 0)
    · trivial
    · simp only [Bool.and_eq_true, decide_eq_true_eq] at h1
      obtain ⟨⟨⟨⟨h1, h2⟩, h3⟩, h4⟩, h5⟩ := h1
      rw [slotIs_eq h1, slotIs_eq h2, slotIs_eq h3]
      exact ⟨⟨c, i, rfl⟩, h4, Nat.eq_of_beq_eq_true h5⟩
  · trivial

/-- The checks on classes. -/
def chk3 (fs : List VForm) (n : Nat) (t : Ty) : Bool :=
  (vclasses t).all fun c => docOK fs [.xmm, .xmm, .op] n true [c, c, rb] && docOK fs [.xmm, .xmm, .op] n true [c, c, rm]
def chk2 (fs : List VForm) (n : Nat) (t : Ty) : Bool :=
  (vclasses t).all fun c => docOK fs [.xmm, .op] n true [c, rb] && docOK fs [.xmm, .op] n true [c, rm]
def chkO (fs : List VForm) (n : Nat) (t : Ty) : Bool :=
  (vclasses t).all fun c => docOK fs [.xmm, .op, .op] n true [c, rb] && docOK fs [.xmm, .op, .op] n true [c, rm] &&
    docOK fs [.xmm, .op, .op] n true [c, c, rb] && docOK fs [.xmm, .op, .op] n true [c, c, rm]
def chkK (fs : List VForm) (n : Nat) (lax : Bool) (t : Ty) : Bool :=
  (vclassesK t).all fun c => docOK fs [.opmask, .xmm, .op] n lax [rk, c, c] && docOK fs [.opmask, .xmm, .op] n lax [rk, c, rm]

theorem okAvx3_some {x : Reg} {p o : Operand} {t : Ty} (h : okAvx3 x p (some o) t = true) {m : BitVec 3} (hp : p.Plain m) : p.isMEM = false ∧ ∃ c ∈ vclasses t, Dom c (.reg x) ∧ Dom c p := by
  unfold okAvx3 at h
  dsimp only at h
  rw [Bool.and_eq_true] at h
  cases p with
  | mem a =>
    obtain ⟨⟨n, hp⟩, -⟩ := hp
    have h1 := h.1
    have hk : a.o.kind = .mem := congrArg Reg.kind hp.o
    simp [Operand.hd, hk, Addr.memOp, Reg.isXMM, Reg.isYMM, Reg.isZMM] at h1
  | reg y => exact ⟨rfl, vclasses_of h.1 h.2⟩

theorem okAvx3_none {x : Reg} {o : Operand} {t : Ty} (h : okAvx3 x o none t = true) : ∃ c ∈ vclasses t, Dom c (.reg x) := by
  unfold okAvx3 at h
  dsimp only at h
  rw [Bool.and_eq_true] at h
  obtain ⟨c, h1, h2, -⟩ := vclasses_of h.1 h.2
  exact ⟨c, h1, h2⟩

theorem sound3 {fs : List VForm} {n : Nat} {t : Ty} (hc : chk3 fs n t = true) {x : Reg} {p o : Operand} {m : BitVec 3} (hp : p.Plain m) (h : okAvx3 x p (some o) t = true) :
    docOK fs [.xmm, .xmm, .op] n true [.reg x, p, o] = true := by
  obtain ⟨-, c, h1, h2, h3⟩ := okAvx3_some h hp
  have h4 := List.all_eq_true.1 hc c h1
  rw [Bool.and_eq_true] at h4
  cases o with
  | reg q => exact docOK_dom h2 (.cons (.inl h2) (.cons (.inl h3) (.cons (.inr ⟨rfl, rfl⟩) (.nil _)))) h4.1
  | mem a => exact docOK_dom h2 (.cons (.inl h2) (.cons (.inl h3) (.cons (.inl (dom_rm a)) (.nil _)))) h4.2

theorem sound2 {fs : List VForm} {n : Nat} {t : Ty} (hc : chk2 fs n t = true) {x : Reg} {p o : Operand} {m : BitVec 3} (hp : p.Plain m) (h : okAvx3 x p (some o) t = true) :
    docOK fs [.xmm, .op] n true [.reg x, o] = true := by
  obtain ⟨-, c, h1, h2, -⟩ := okAvx3_some h hp
  have h4 := List.all_eq_true.1 hc c h1
  rw [Bool.and_eq_true] at h4
  cases o with
  | reg q => exact docOK_dom h2 (.cons (.inl h2) (.cons (.inr ⟨rfl, rfl⟩) (.nil _))) h4.1
  | mem a => exact docOK_dom h2 (.cons (.inl h2) (.cons (.inl (dom_rm a)) (.nil _))) h4.2

theorem soundO2 {fs : List VForm} {n : Nat} {t : Ty} (hc : chkO fs n t = true) {x : Reg} {o : Operand} (h : okAvx3 x o none t = true) :
    docOK fs [.xmm, .op, .op] n true [.reg x, o] = true := by
  obtain ⟨c, h1, h2⟩ := okAvx3_none h
  have h4 := List.all_eq_true.1 hc c h1
  simp only [Bool.and_eq_true] at h4
  cases o with
  | reg q => exact docOK_dom h2 (.cons (.inl h2) (.cons (.inr ⟨rfl, rfl⟩) (.nil _))) h4.1.1.1
  | mem a => exact docOK_dom h2 (.cons (.inl h2) (.cons (.inl (dom_rm a)) (.nil _))) h4.1.1.2

theorem soundO3 {fs : List VForm} {n : Nat} {t : Ty} (hc : chkO fs n t = true) {x : Reg} {p o : Operand} {m : BitVec 3} (hp : p.Plain m) (h : okAvx3 x p (some o) t = true) :
    docOK fs [.xmm, .op, .op] n true [.reg x, p, o] = true := by
  obtain ⟨-, c, h1, h2, h3⟩ := okAvx3_some h hp
  have h4 := List.all_eq_true.1 hc c h1
  simp only [Bool.and_eq_true] at h4
  cases o with
  | reg q => exact docOK_dom h2 (.cons (.inl h2) (.cons (.inl h3) (.cons (.inr ⟨rfl, rfl⟩) (.nil _)))) h4.1.2
  | mem a => exact docOK_dom h2 (.cons (.inl h2) (.cons (.inl h3) (.cons (.inl (dom_rm a)) (.nil _)))) h4.2

theorem soundK {fs : List VForm} {n : Nat} {lax : Bool} {t : Ty} (hc : chkK fs n lax t = true) {k x : Reg} {o : Operand} (hk : k.isOPMASK = true) (hs : x.isSIMD = true)
    (ho : (o.isMEM || decide (x.kind = o.hd.kind)) = true) (hv : okVex k (some x) o t = true) :
    docOK fs [.opmask, .xmm, .op] n lax [.reg k, .reg x, o] = true := by
  obtain ⟨c, h1, h2, h3⟩ := classesK_of hs ho hv
  have h4 := List.all_eq_true.1 hc c h1
  simp only [Bool.and_eq_true] at h4
  have hk := dom_rk hk
  cases o with
  | reg q => exact docOK_dom hk (.cons (.inl hk) (.cons (.inl h2) (.cons (.inl (h3 rfl)) (.nil _)))) h4.1
  | mem a => exact docOK_dom hk (.cons (.inl hk) (.cons (.inl h2) (.cons (.inl (dom_rm a)) (.nil _)))) h4.2

/-! ## All functions -/

/-- Representatives of all kinds. -/
def univ : List Operand := anyKind.flatMap OpKind.wreps

/-- Evaluation on all representatives. -/
def chkAny (fs : List VForm) (e : Entry) (ps : List Param) : Bool :=
  !e.zeroTest && (List.range (e.opt + 1)).all fun k => (prod ((ps.take (ps.length - k)).map fun p => univ.filter p.takes)).all fun os => e.encs.all fun c =>
    match e.body.quick { ops := os, ints := [], enc := c } with
    | some false => true
    | some true => docOK fs ps e.nInts e.lax os
    | none => false

def chkEnc (fs : List VForm) (n : Nat) (t tv te : Ty) (s : Nat) (c : PrefEnc) : Bool :=
  match orEvexIf (if s = 0 then .evex else .preAVX10v2) c tv te s with
  | .ok u => chk3 fs n (t ||| u)
  | .error _ => true

def soundE (fs : List VForm) (e : Entry) : Bool :=
  let ps := e.params.filter Param.isOperand
  match e.body.vshape ps e.opt with
  | .three t => chk3 fs e.nInts t
  | .dup t => chk2 fs e.nInts t
  | .two t => chk2 fs e.nInts t
  | .opt3 t => chkO fs e.nInts t
  | .mask t => chkK fs e.nInts e.lax t
  | .enc t tv te s => e.encs.all (chkEnc fs e.nInts t tv te s)
  | .other => chkAny fs e ps

theorem quick_true {e : Entry} {g : Args} {w : List Act} (hc : Calls e g w) {k : BitVec 3} (hp : g.Plain k) {b : Bool} (h : e.body.quick g = some b) : b = true := by
  obtain ⟨m, h1, h2⟩ := Body.quick_ok hp h
  obtain ⟨m', h3, h4⟩ := hc.runs
  rw [h1] at h3
  cases h3
  rw [← h2, h4.2]; rfl

/-- Every operand is of one of the kinds. -/
def Args.Usual (g : Args) : Prop := ∀ o ∈ g.ops, ∃ c ∈ anyKind, c.Is o

theorem Args.Usual.plain {g : Args} (h : g.Usual) : g.Plain 0 := by
  intro i
  unfold Args.op
  cases ho : g.ops[i]? with
  | none => exact ⟨.inl rfl, rfl⟩
  | some o =>
    obtain ⟨c, -, hc⟩ := h o (List.mem_of_getElem? ho)
    exact hc.plain 0

theorem encs_mem {e : Entry} {c : PrefEnc} (h : c = .default ∨ .enc ∈ e.params) : c ∈ e.encs := by
  unfold Entry.encs
  split
  · cases c <;> simp
  · rename_i hx
    rcases h with rfl | h
    · exact List.mem_singleton.2 rfl
    · exact absurd (List.any_eq_true.2 ⟨_, h, rfl⟩) hx

/-- Representatives of the operands. -/
theorem tuples_of : ∀ (os : List Operand) (ps : List Param), (∀ o ∈ os, ∃ c ∈ anyKind, c.Is o) → os.length ≤ ps.length →
    (∀ (i : Nat) p o, ps[i]? = some p → os[i]? = some o → p.takes o = true) →
    ∃ rs ∈ prod ((ps.take os.length).map fun p => univ.filter p.takes), rs.length = os.length ∧ (∀ i : Nat, OptWeak rs[i]? os[i]?) ∧ ∀ l : List Bool, os.length ≤ l.length → DomAll l rs os
  | [], ps, _, _, _ => ⟨[], by simp [prod], rfl, fun i => by simp [OptWeak], fun l _ => .nil l⟩
  | o :: os, [], _, h, _ => absurd h (by simp)
  | o :: os, p :: ps, hk, hl, ht => by
    obtain ⟨c, hc, ho⟩ := hk o List.mem_cons_self
    obtain ⟨r, hr, hw⟩ := ho.wrep
    obtain ⟨rs, h1, h2, h3, h4⟩ := tuples_of os ps (fun o ho => hk o (List.mem_cons_of_mem _ ho)) (by simpa using hl)
      (fun i p o hp ho => ht (i + 1) p o (by simpa using hp) (by simpa using ho))
    refine ⟨r :: rs, ?_, by simp [h2], fun i => ?_, fun l hl => ?_⟩
    · refine List.mem_flatMap.2 ⟨r, List.mem_filter.2 ⟨List.mem_flatMap.2 ⟨c, hc, hr⟩, ?_⟩, List.mem_map_of_mem h1⟩
      rw [Param.takes_weak hw]; exact ht 0 p o rfl rfl
    · cases i with
      | zero => simpa [OptWeak] using hw
      | succ i => simpa using h3 i
    · cases l with
      | nil => exact absurd hl (by simp)
      | cons b l => exact .cons (.inl (OpWeak.dom hw)) (h4 l (by simpa using hl))

theorem lastOp_length : ∀ ps, (lastOp ps).length = ps.length
  | [] => rfl
  | p :: ps => by simp [lastOp, lastOp_length ps]

theorem len2 {α : Type} : ∀ {l : List α}, l.length = 2 → ∃ a b, l = [a, b]
  | [a, b], _ => ⟨a, b, rfl⟩
theorem len3 {α : Type} : ∀ {l : List α}, l.length = 3 → ∃ a b c, l = [a, b, c]
  | [a, b, c], _ => ⟨a, b, c, rfl⟩

theorem xmm_reg {o : Operand} (h : Param.xmm.takes o = true) : ∃ r, o = .reg r ∧ r.isSIMD = true := by
  cases o with
  | mem a => cases h
  | reg r => exact ⟨r, rfl, h⟩
theorem opmask_reg {o : Operand} (h : Param.opmask.takes o = true) : ∃ r, o = .reg r ∧ r.isOPMASK = true := by
  cases o with
  | mem a => cases h
  | reg r => exact ⟨r, rfl, h⟩

theorem and3 (a b c : Bool) (ha : a = true) (hb : b = true) (hc : c = true) : (a && b && c) = true := by rw [ha, hb, hc]; rfl

theorem soundE_calls {fs : List VForm} {e : Entry} {g : Args} {w : List Act} (hs : soundE fs e = true) (hc : Calls e g w) (hk : g.Usual)
    (hd : g.dflt = fun sel => if sel = 0 then .evex else .preAVX10v2) (he : g.enc = .default ∨ .enc ∈ e.params) :
    docOK fs (e.params.filter Param.isOperand) e.nInts e.lax g.ops = true := by
  have hp := hk.plain
  obtain ⟨f1, f2, f3⟩ := hc.fits
  have hsh := Body.vshape_of e.body (e.params.filter Param.isOperand) e.opt
  have hlx : ∀ l, e.body = .leaf l → l.lax = true → e.lax = true := fun l h1 h2 => by unfold Entry.lax; rw [h1]; dsimp only; rw [h2]; rfl
  unfold soundE at hs
  dsimp only at hs
  cases hv : e.body.vshape (e.params.filter Param.isOperand) e.opt with
  | three t =>
    rw [hv] at hs hsh
    obtain ⟨⟨c, i, hb⟩, hps, ho⟩ := hsh
    rw [hlx _ hb rfl]
    rw [hps] at f1 f2
    rw [ho] at f2
    rw [hps] at f3 ⊢
    obtain ⟨x, y, o, hg⟩ := len3 (l := g.ops) (by simp at f1 f2; omega)
    rw [hg] at f3 ⊢
    obtain ⟨x, rfl, hx⟩ := xmm_reg (f3 0 _ _ rfl rfl)
    obtain ⟨y, rfl, hy⟩ := xmm_reg (f3 1 _ _ rfl rfl)
    have hq : e.body.quick g = some (okAvx3 x (.reg y) (some o) t) := by
      rw [hb]; simp [Body.quick, Leaf.quick, Slot.bare, Slot.reg, Slot.op, Slot.opt, Args.op, hg, Operand.hd]
    exact sound3 hs (by have := hp 1; rwa [Args.op, hg] at this) (quick_true hc hp hq)
  | dup t =>
    rw [hv] at hs hsh
    obtain ⟨⟨c, i, hb⟩, hps, ho⟩ := hsh
    rw [hlx _ hb rfl]
    rw [hps] at f1 f2
    rw [ho] at f2
    rw [hps] at f3 ⊢
    obtain ⟨x, o, hg⟩ := len2 (l := g.ops) (by simp at f1 f2; omega)
    rw [hg] at f3 ⊢
    obtain ⟨x, rfl, hx⟩ := xmm_reg (f3 0 _ _ rfl rfl)
    have hq : e.body.quick g = some (okAvx3 x (.reg x) (some o) t) := by
      rw [hb]; simp [Body.quick, Leaf.quick, Slot.bare, Slot.reg, Slot.op, Slot.opt, Args.op, hg, Operand.hd]
    exact sound2 hs (by have := hp 0; rwa [Args.op, hg] at this) (quick_true hc hp hq)
  | two t =>
    rw [hv] at hs hsh
    obtain ⟨⟨c, i, hb⟩, hps, ho⟩ := hsh
    rw [hlx _ hb rfl]
    rw [hps] at f1 f2
    rw [ho] at f2
    rw [hps] at f3 ⊢
    obtain ⟨x, o, hg⟩ := len2 (l := g.ops) (by simp at f1 f2; omega)
    rw [hg] at f3 ⊢
    obtain ⟨x, rfl, hx⟩ := xmm_reg (f3 0 _ _ rfl rfl)
    have hq : e.body.quick g = some (okAvx3 x (.reg (cvtIdx0 x)) (some o) t) := by
      rw [hb]; simp [Body.quick, Leaf.quick, Slot.bare, Slot.reg, Slot.op, Slot.opt, Args.op, hg, Operand.hd]
    refine sound2 hs (p := .reg (cvtIdx0 x)) (m := 0) ?_ (quick_true hc hp hq)
    unfold cvtIdx0
    split
    · exact ⟨.inl rfl, rfl⟩
    · split <;> exact ⟨.inl rfl, rfl⟩
  | opt3 t =>
    rw [hv] at hs hsh
    obtain ⟨⟨c, i, hb⟩, hps, ho⟩ := hsh
    rw [hlx _ hb rfl]
    rw [hps] at f1 f2
    rw [ho] at f2
    rw [hps] at f3 ⊢
    have hl : g.ops.length = 2 ∨ g.ops.length = 3 := by simp at f1 f2; omega
    rcases hl with hl | hl
    · obtain ⟨x, o, hg⟩ := len2 hl
      rw [hg] at f3 ⊢
      obtain ⟨x, rfl, hx⟩ := xmm_reg (f3 0 _ _ rfl rfl)
      have hq : e.body.quick g = some (okAvx3 x o none t) := by
        rw [hb]; simp [Body.quick, Leaf.quick, Slot.bare, Slot.reg, Slot.op, Slot.opt, Args.op, hg, Operand.hd]
      exact soundO2 hs (quick_true hc hp hq)
    · obtain ⟨x, p, o, hg⟩ := len3 hl
      rw [hg] at f3 ⊢
      obtain ⟨x, rfl, hx⟩ := xmm_reg (f3 0 _ _ rfl rfl)
      have hq : e.body.quick g = some (okAvx3 x p (some o) t) := by
        rw [hb]; simp [Body.quick, Leaf.quick, Slot.bare, Slot.reg, Slot.op, Slot.opt, Args.op, hg, Operand.hd]
      exact soundO3 hs (by have := hp 1; rwa [Args.op, hg] at this) (quick_true hc hp hq)
  | mask t =>
    rw [hv] at hs hsh
    obtain ⟨⟨c, i, hb⟩, hps, ho⟩ := hsh
    rw [hps] at f1 f2
    rw [ho] at f2
    rw [hps] at f3 ⊢
    obtain ⟨x, y, o, hg⟩ := len3 (l := g.ops) (by simp at f1 f2; omega)
    rw [hg] at f3 ⊢
    obtain ⟨x, rfl, hx⟩ := opmask_reg (f3 0 _ _ rfl rfl)
    obtain ⟨y, rfl, hy⟩ := xmm_reg (f3 1 _ _ rfl rfl)
    have hq : e.body.quick g = some ((o.isMEM || decide (y.kind = o.hd.kind)) && okVex x (some y) o t) := by
      rw [hb]; simp [Body.quick, Leaf.quick, Slot.bare, Slot.reg, Slot.op, Slot.opt, Args.op, hg, Operand.hd]; rfl
    have h1 := quick_true hc hp hq
    rw [Bool.and_eq_true] at h1
    exact soundK hs hx hy h1.1 h1.2
  | enc t tv te s =>
    rw [hv] at hs hsh
    obtain ⟨⟨c, i, hb⟩, hps, ho⟩ := hsh
    rw [hlx _ hb rfl]
    rw [hps] at f1 f2
    rw [ho] at f2
    rw [hps] at f3 ⊢
    obtain ⟨x, y, o, hg⟩ := len3 (l := g.ops) (by simp at f1 f2; omega)
    rw [hg] at f3 ⊢
    obtain ⟨x, rfl, hx⟩ := xmm_reg (f3 0 _ _ rfl rfl)
    obtain ⟨y, rfl, hy⟩ := xmm_reg (f3 1 _ _ rfl rfl)
    have h1 := List.all_eq_true.1 hs g.enc (encs_mem he)
    unfold chkEnc at h1
    have hq : e.body.quick g = some (match orEvexIf (if s = 0 then .evex else .preAVX10v2) g.enc tv te s with
        | .ok u => okAvx3 x (.reg y) (some o) (t ||| u)
        | .error _ => false) := by
      rw [hb]; simp [Body.quick, Leaf.quick, Slot.bare, Slot.reg, Slot.op, Slot.opt, Args.op, hg, Operand.hd, hd]; rfl
    have h2 := quick_true hc hp hq
    cases hu : orEvexIf (if s = 0 then .evex else .preAVX10v2) g.enc tv te s with
    | error _ => rw [hu] at h2; cases h2
    | ok u =>
      rw [hu] at h1 h2
      exact sound3 h1 (by have := hp 1; rwa [Args.op, hg] at this) h2
  | other =>
    rw [hv] at hs
    dsimp only at hs
    unfold chkAny at hs
    rw [Bool.and_eq_true, Bool.not_eq_true'] at hs
    obtain ⟨hz, hs⟩ := hs
    obtain ⟨rs, h1, h2, h3, h4⟩ := tuples_of g.ops _ hk f1 f3
    have hk' := List.all_eq_true.1 hs ((e.params.filter Param.isOperand).length - g.ops.length) (List.mem_range.2 (by omega))
    rw [Nat.sub_sub_self f1] at hk'
    have h5 := List.all_eq_true.1 (List.all_eq_true.1 hk' rs h1) g.enc (encs_mem he)
    have hw : Args.Weak { ops := rs, ints := [], enc := g.enc } g := ⟨h3, rfl, hd.symm⟩
    rw [Body.quick_weak hw e.body (all_wresp hc.mem hz)] at h5
    cases hq : e.body.quick g with
    | none => rw [hq] at h5; cases h5
    | some b =>
      obtain rfl := quick_true hc hp hq
      rw [hq] at h5
      dsimp only at h5
      have h6 := h4 ((lastOp ((e.params.filter Param.isOperand).take g.ops.length)).map (· && e.lax)) (by simp [lastOp_length]; omega)
      cases hg : g.ops with
      | nil =>
        rw [hg] at h2
        obtain rfl : rs = [] := by simpa using h2
        exact h5
      | cons o os =>
        rw [hg] at h2 h6 h3
        cases rs with
        | nil => cases h2
        | cons r rs => exact docOK_dom (OpWeak.dom (h3 0)) h6 h5

/-- The functions of the names of a group. -/
def gsound (n : Nat) (fs : List VForm) : Bool := vslow n || (namedT n).all fun e => Manual.isIn e.line looseLines || soundE fs e

end Mn
end Xbyak
