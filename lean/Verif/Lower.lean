import Verif.High
/-!
# From the helpers to `opVex`

Every helper of the VEX and EVEX families ends in one call of `opVex`.  `Leaf.shapes` says which operands that call puts where, and
`Leaf.sent` proves it.
-/
namespace Xbyak.Mn
open E

/-- A call of `opVex`: what is passed for ModRM.reg, VEX.vvvv and ModRM.rm, the possible flags, the opcode and the immediate. -/
structure Shape where
  r : Slot
  v : Option Slot
  op : Slot
  /-- a general register is passed as `Xmm(idx)` -/
  conv : Bool := false
  tys : List Ty
  c : Byte
  imm : Imm := .none
  /-- the helper asks for a vector index -/
  vsib : Bool := false
  /-- the helper makes sure that the operand is a register -/
  rchk : Bool := false
  vchk : Bool := false
  /-- the first register is passed as it is, and the second is register 0 of its kind -/
  wide : Bool := false

/-- The argument is one of the trailing ones that were left out (`n` operands are given). -/
def Slot.missing (n : Nat) : Slot → Bool
  | .a i => decide (n ≤ i)
  | _ => false

/-- The ModRM.rm operand of `opAVX_X_X_XM`. -/
def rmSlot (ps : List Param) (o : Slot) : Option (Slot × Bool) :=
  match o with
  | .a i => some (.a i, false)
  | .xmmOf i => if (Slot.a i).isMem ps = some false then some (.a i, true) else none
  | _ => none

/-- The calls of `opVex` a helper can make, `n` operands being given. -/
def Leaf.shapes (ps : List Param) (n : Nat) : Leaf → List Shape
  | avx3 x o1 o2 t c i =>
    if o2.missing n then [{ r := x, v := some x, op := o1, tys := [t], c := c, imm := i }]
    else match rmSlot ps o2 with
      | some (o, cv) => [{ r := x, v := some o1, op := o, conv := cv, tys := [t], c := c, imm := i, vchk := true }]
      | none => []
  | avx2 x o t c i => [{ r := x, v := some (.r (.xmm 0)), op := o, tys := [t], c := c, imm := i, wide := true }]
  | avxK k x o t c i => [{ r := k, v := some x, op := o, tys := [t], c := c, imm := i }]
  | vex r v o t c i => [{ r := r, v := v, op := o, tys := [t], c := c, imm := i }]
  | vexCB k o t c i => [{ r := k, v := none, op := o, tys := [t], c := c, imm := i }]
  | cvt x o t c | cvt2 x o t c | cvt5 x o t c => [{ r := x, v := some (.r (.xmm 0)), op := o, tys := [t], c := c }]
  | cvt3 x y o t t6 t3 c => [{ r := x, v := some y, op := o, conv := true, tys := [t ||| t6, t ||| t3], c := c }]
  | cvt6 x y o t c => [{ r := x, v := some y, op := o, tys := [t], c := c }]
  | encoding x y o t c i tv te _ =>
    if o.missing n then [] else [{ r := x, v := some y, op := o, tys := [t ||| tv, t ||| (T_MUST_EVEX ||| te)], c := c, imm := i }]
  | cvt2Enc x o t c tv te _ => [{ r := x, v := some (.r (.xmm 0)), op := o, tys := [t ||| tv, t ||| (T_MUST_EVEX ||| te)], c := c }]
  | vmov o x t c _ => [{ r := x, v := none, op := o, tys := [t], c := c }]
  | gather x m y t c _ => [{ r := x, v := some y, op := m, tys := [t], c := c, vsib := true }]
  | gather2 x m t c _ => [{ r := x, v := none, op := m, tys := [t], c := c, vsib := true }]
  | gatherFetch m x t c k => if k = .xmm ∨ k = .ymm ∨ k = .zmm then [{ r := x, v := none, op := m, tys := [t], c := c, vsib := true }] else []
  | rro d r o t c i => [{ r := d, v := some r, op := o, tys := [t ||| T_W1, t ||| T_W0], c := c, imm := i }]
  | kmov k o rv sz =>
    if rv then [{ r := o, v := none, op := k, tys := [T_L0 ||| kmovType true sz], c := 0x93, rchk := true },
      { r := k, v := none, op := o, tys := [T_L0 ||| kmovType false sz], c := 0x91 }]
    else [{ r := k, v := none, op := o, tys := [T_L0 ||| kmovType false sz], c := 0x90 },
      { r := k, v := none, op := o, tys := [T_L0 ||| kmovType true sz], c := 0x92 }]
  | amx x m t c => [{ r := x, v := some (.r (.tmm 0)), op := m, tys := [t], c := c }]
  | _ => []

/-- What is passed for ModRM.rm: the operand, an address that is not rewritten, or a register as `Xmm(idx)`. -/
inductive Passed (conv : Bool) (o : Operand) : Operand → Prop
  | same : Passed conv o o
  | noOpt {a : Addr} (h : o = .mem a) : Passed conv o (.mem { a with opt := false })
  | conv {q : Reg} (h : o = .reg q) (hc : conv = true) : Passed conv o (.reg (.xmm q.idx))

/-- What was written is a call of `opVex` of this shape. -/
structure Sent (g : Args) (sh : Shape) (w : List Act) : Prop where
  call : ∃ r v o t, r.idx = (sh.r.reg g).idx ∧ v.map Reg.idx = sh.v.map (fun s => (s.reg g).idx) ∧ Passed sh.conv (sh.op.op g) o ∧ t ∈ sh.tys ∧
    (opVex r v o t sh.c (sh.imm.val g)).Gives w () ∧ (sh.vsib = true → ∀ a, o = .mem a → a.WF → a.e.index.isSIMD = true) ∧
    (sh.wide = true → r = sh.r.reg g ∧ v = some (cvtIdx0 r))
  rchk : sh.rchk = true → (sh.r.op g).isMEM = false := by intro h; cases h
  vchk : sh.vchk = true → ∀ s, sh.v = some s → (s.op g).isMEM = false := by intro h; cases h

variable {g : Args} {ps : List Param} {w : List Act}

theorem Slot.opt_op {s : Slot} {o : Operand} (h : s.opt g = some o) : s.op g = o := by
  cases s with
  | a i => show (g.ops[i]?).getD _ = o; rw [show g.ops[i]? = some o from h]; rfl
  | _ => exact Option.some.inj h

theorem Slot.opt_missing (s : Slot) : s.missing g.ops.length = (s.opt g).isNone := by
  cases s with
  | a i =>
    show decide (g.ops.length ≤ i) = (g.ops[i]?).isNone
    by_cases h : g.ops.length ≤ i
    · rw [List.getElem?_eq_none h]; simpa using h
    · rw [List.getElem?_eq_getElem (by omega)]; simpa using h
  | _ => rfl

theorem sent_none {x1 : Reg} {op1 : Operand} {t : Ty} {c : Byte} {i : Option Byte} (hw : (opAVX_X_X_XM x1 op1 none t c i).Gives w ()) :
    (opVex x1 (some x1) op1 t c i).Gives w () := by
  unfold opAVX_X_X_XM at hw
  dsimp only at hw
  rw [Enc.throwIf_bind] at hw
  exact hw.2

theorem sent_some {x1 : Reg} {op1 o : Operand} {t : Ty} {c : Byte} {i : Option Byte} (hw : (opAVX_X_X_XM x1 op1 (some o) t c i).Gives w ()) :
    (opVex x1 (some op1.hd) o t c i).Gives w () := by
  unfold opAVX_X_X_XM at hw
  dsimp only at hw
  rw [Enc.throwIf_bind] at hw
  exact hw.2

theorem sent_reg {x1 : Reg} {op1 o : Operand} {t : Ty} {c : Byte} {i : Option Byte} (hw : (opAVX_X_X_XM x1 op1 (some o) t c i).Gives w ())
    (hk : ∀ a, op1 = .mem a → a.o.kind = .mem) : op1.isMEM = false := by
  unfold opAVX_X_X_XM at hw
  dsimp only at hw
  rw [Enc.throwIf_bind] at hw
  cases op1 with
  | reg q => rfl
  | mem a =>
    have h := hw.1
    simp [Operand.hd, Reg.isXMM, Reg.isYMM, Reg.isZMM, hk a rfl] at h

theorem cvtIdx0_idx (x : Reg) : (cvtIdx0 x).idx = 0 := by
  unfold cvtIdx0; split
  · rfl
  · split <;> rfl

theorem setKind_idx (x : Reg) (k : Kind) : (x.setKind k).idx = x.idx := by cases k <;> rfl

theorem setBit_idx' {r q : Reg} {b : Nat} (h : r.changeBit b = .ok q) : q.idx = r.idx := by
  unfold Reg.changeBit Reg.setBit at h
  grind

theorem Leaf.sent_avx3 (hk : ∀ (s : Slot) a, s.op g = .mem a → a.o.kind = .mem) (ht : g.Are ps) {x o1 o2 : Slot} {t : Ty} {c : Byte} {i : Imm} (hw : ((Leaf.avx3 x o1 o2 t c i).run g).Gives w ())
    (hs : Leaf.shapes ps g.ops.length (.avx3 x o1 o2 t c i) ≠ []) : ∃ sh ∈ Leaf.shapes ps g.ops.length (.avx3 x o1 o2 t c i), Sent g sh w := by
  replace hw : (opAVX_X_X_XM (x.reg g) (o1.op g) (o2.opt g) t c (i.val g)).Gives w () := hw
  simp only [Leaf.shapes, Slot.opt_missing] at hs ⊢
  cases ho : o2.opt g with
  | none =>
    rw [ho] at hw
    replace hw := sent_none hw
    refine ⟨_, List.mem_singleton.mpr rfl, { call := ⟨_, _, _, t, rfl, rfl, .same, List.mem_singleton.mpr rfl, hw, (fun h => by cases h), fun h => by cases h⟩ }⟩
  | some o =>
    rw [ho] at hw hs
    have hr := sent_reg hw (hk o1)
    replace hw := sent_some hw
    have e := Slot.opt_op ho
    simp only [Option.isNone_some, Bool.false_eq_true, if_false] at hs ⊢
    cases o2 with
    | a j =>
      refine ⟨_, List.mem_singleton.mpr rfl, { vchk := fun _ s h => by cases h; exact hr, call := ⟨_, _, _, t, rfl, rfl, ?_, List.mem_singleton.mpr rfl, hw, (fun h => by cases h), fun h => by cases h⟩ }⟩
      dsimp only
      rw [e]; exact .same
    | xmmOf j =>
      unfold rmSlot at hs ⊢
      dsimp only at hs ⊢
      split at hs
      · rename_i hj
        split at hj
        · rename_i hm
          cases hj
          refine ⟨_, List.mem_singleton.mpr rfl, { vchk := fun _ s h => by cases h; exact hr, call := ⟨_, _, _, t, rfl, rfl, ?_, List.mem_singleton.mpr rfl, hw, (fun h => by cases h), fun h => by cases h⟩ }⟩
          dsimp only
          have := Slot.mem_le ht (.a j)
          rw [hm] at this
          rcases this with h | h
          · cases h
          · have h : false = (g.op j).isMEM := Option.some.inj h
            cases hq : g.op j with
            | mem a => rw [hq] at h; cases h
            | reg q =>
              cases ho
              show Passed true (g.op j) (.reg (.xmm (g.op j).hd.idx))
              rw [hq]
              exact .conv rfl rfl
        · cases hj
      · exact absurd rfl hs
    | _ => exact absurd rfl hs

theorem Leaf.sent_cvt {x : Reg} {o : Operand} {t : Ty} {c : Byte} (hw : (opCvt x o t c).Gives w ()) : ∃ r v, r.idx = x.idx ∧ v.idx = 0 ∧ (opVex r (some v) o t c none).Gives w () :=
  ⟨_, .xmm 0, setKind_idx _ _, rfl, hw⟩

theorem vsib_simd {a : Addr} (ha : a.WF) {m : Nat} (hm : m = 384) (h : a.getRegExp.isVsib m = true) : a.e.index.isSIMD = true := by
  have h' : a.e.index.isBit m = true := by
    have : a.getRegExp.index = a.e.index := (getRegExp_index a).1
    unfold RegExp.isVsib at h
    rwa [this] at h
  subst hm
  by_cases hmo : a.mode = .modRM
  · rcases (ha.exp hmo).1.index with h | h | h | h | h | h
    · rw [h] at h'; exact absurd h' (by decide)
    · unfold Reg.isBit at h'
      rcases h.2.1 with h2 | h2 <;> (rw [h2] at h'; exact absurd h' (by decide))
    · simp [Reg.isSIMD, Reg.isXMM, h.1]
    · simp [Reg.isSIMD, Reg.isYMM, h.1]
    · simp [Reg.isSIMD, Reg.isZMM, h.1]
    · unfold Reg.isBit at h'
      rw [h.2] at h'; exact absurd h' (by decide)
  · rw [(ha.rip hmo).2] at h'; exact absurd h' (by decide)

theorem Leaf.sent_simple {l : Leaf} {sh : Shape} {r : Reg} {v : Option Reg} {o : Operand} {t : Ty} (hl : l.shapes ps g.ops.length = [sh])
    (h1 : r.idx = (sh.r.reg g).idx) (h2 : v.map Reg.idx = sh.v.map (fun s => (s.reg g).idx)) (h3 : Passed sh.conv (sh.op.op g) o) (h4 : t ∈ sh.tys)
    (hw : (opVex r v o t sh.c (sh.imm.val g)).Gives w ()) (h5 : sh.vsib = true → ∀ a, o = .mem a → a.WF → a.e.index.isSIMD = true)
    (h8 : sh.wide = true → r = sh.r.reg g ∧ v = some (cvtIdx0 r) := by intro h; cases h)
    (h6 : sh.rchk = false := by rfl) (h7 : sh.vchk = false := by rfl) :
    ∃ sh ∈ l.shapes ps g.ops.length, Sent g sh w := by
  rw [hl]
  exact ⟨sh, List.mem_singleton.mpr rfl, ⟨⟨r, v, o, t, h1, h2, h3, h4, hw, h5, h8⟩, (fun h => by rw [h6] at h; cases h), (fun h => by rw [h7] at h; cases h)⟩⟩

theorem Leaf.sent_avx2 {x o : Slot} {t : Ty} {c : Byte} {i : Imm} (hw : ((Leaf.avx2 x o t c i).run g).Gives w ()) :
    ∃ sh ∈ Leaf.shapes ps g.ops.length (.avx2 x o t c i), Sent g sh w := by
  have hw := sent_some (show (opAVX_X_X_XM (x.reg g) (.reg (cvtIdx0 (x.reg g))) (some (o.op g)) t c (i.val g)).Gives w () from hw)
  exact Leaf.sent_simple (v := some (cvtIdx0 (x.reg g))) rfl rfl (congrArg some (cvtIdx0_idx _)) .same (List.mem_singleton.mpr rfl) hw (fun h => by cases h) (fun _ => ⟨rfl, rfl⟩)

theorem Leaf.sent_avxK {k x o : Slot} {t : Ty} {c : Byte} {i : Imm} (hw : ((Leaf.avxK k x o t c i).run g).Gives w ()) :
    ∃ sh ∈ Leaf.shapes ps g.ops.length (.avxK k x o t c i), Sent g sh w := by
  replace hw : (opAVX_K_X_XM (k.reg g) (x.reg g) (o.op g) t c (i.val g)).Gives w () := hw
  unfold opAVX_K_X_XM at hw
  rw [Enc.throwIf_bind] at hw
  exact Leaf.sent_simple rfl rfl rfl .same (List.mem_singleton.mpr rfl) hw.2 (fun h => by cases h)

theorem Leaf.sent_vex {r : Slot} {v : Option Slot} {o : Slot} {t : Ty} {c : Byte} {i : Imm} (hw : ((Leaf.vex r v o t c i).run g).Gives w ()) :
    ∃ sh ∈ Leaf.shapes ps g.ops.length (.vex r v o t c i), Sent g sh w := by
  refine Leaf.sent_simple rfl rfl ?_ .same (List.mem_singleton.mpr rfl) hw (fun h => by cases h)
  cases v <;> rfl

theorem Leaf.sent_vexCB {k o : Slot} {t : Ty} {c : Byte} {i : Imm} (hw : ((Leaf.vexCB k o t c i).run g).Gives w ()) :
    ∃ sh ∈ Leaf.shapes ps g.ops.length (.vexCB k o t c i), Sent g sh w := by
  replace hw : (Enc.lift ((k.reg g).changeBit (o.op g).bit) >>= fun r => opVex r none (o.op g) t c (i.val g)).Gives w () := hw
  rw [Enc.lift_bind] at hw
  obtain ⟨q, hq, hw⟩ := hw
  exact Leaf.sent_simple rfl (setBit_idx' hq) rfl .same (List.mem_singleton.mpr rfl) hw (fun h => by cases h)

theorem Leaf.sent_cvt1 {x o : Slot} {t : Ty} {c : Byte} (hw : ((Leaf.cvt x o t c).run g).Gives w ()) :
    ∃ sh ∈ Leaf.shapes ps g.ops.length (.cvt x o t c), Sent g sh w := by
  obtain ⟨r, v, h1, h2, hw⟩ := Leaf.sent_cvt (show (opCvt (x.reg g) (o.op g) t c).Gives w () from hw)
  exact Leaf.sent_simple (v := some v) rfl h1 (congrArg some h2) .same (List.mem_singleton.mpr rfl) hw (fun h => by cases h)

theorem Leaf.sent_cvt2 {x o : Slot} {t : Ty} {c : Byte} (hw : ((Leaf.cvt2 x o t c).run g).Gives w ()) :
    ∃ sh ∈ Leaf.shapes ps g.ops.length (.cvt2 x o t c), Sent g sh w := by
  replace hw : (opCvt2 (x.reg g) (o.op g) t c).Gives w () := hw
  unfold opCvt2 checkCvt2 at hw
  rw [Enc.throwIf_bind] at hw
  obtain ⟨r, v, h1, h2, hw⟩ := Leaf.sent_cvt hw.2
  exact Leaf.sent_simple (v := some v) rfl h1 (congrArg some h2) .same (List.mem_singleton.mpr rfl) hw (fun h => by cases h)

theorem Leaf.sent_cvt5 {x o : Slot} {t : Ty} {c : Byte} (hw : ((Leaf.cvt5 x o t c).run g).Gives w ()) :
    ∃ sh ∈ Leaf.shapes ps g.ops.length (.cvt5 x o t c), Sent g sh w := by
  replace hw : (opCvt5 (x.reg g) (o.op g) t c).Gives w () := hw
  unfold opCvt5 at hw
  rw [Enc.throwIf_bind] at hw
  exact Leaf.sent_simple rfl (setKind_idx _ _) rfl .same (List.mem_singleton.mpr rfl) hw.2 (fun h => by cases h)

theorem Leaf.sent_cvt3 (hk : ∀ a, (o : Slot).op g = .mem a → a.o.kind = .mem) {x y : Slot} {t t6 t3 : Ty} {c : Byte} (hw : ((Leaf.cvt3 x y o t t6 t3 c).run g).Gives w ()) :
    ∃ sh ∈ Leaf.shapes ps g.ops.length (.cvt3 x y o t t6 t3 c), Sent g sh w := by
  replace hw : (opCvt3 (x.reg g) (y.reg g) (o.op g) t t6 t3 c).Gives w () := hw
  unfold opCvt3 at hw
  dsimp only at hw
  rw [Enc.throwIf_bind] at hw
  refine Leaf.sent_simple rfl rfl rfl ?_ ?_ hw.2 (fun h => by cases h)
  · dsimp only
    cases ho : o.op g with
    | mem a =>
      have := hk a ho
      rw [if_neg (by show ¬ (a.o.isREG = true); simp [Reg.isREG, this])]
      exact .same
    | reg q =>
      split
      · exact .conv rfl rfl
      · exact .same
  · dsimp only
    split <;> simp

theorem Leaf.sent_cvt6 {x y o : Slot} {t : Ty} {c : Byte} (hw : ((Leaf.cvt6 x y o t c).run g).Gives w ()) :
    ∃ sh ∈ Leaf.shapes ps g.ops.length (.cvt6 x y o t c), Sent g sh w := by
  replace hw : (opCvt6 (x.reg g) (y.reg g) (o.op g) t c).Gives w () := hw
  unfold opCvt6 at hw
  dsimp only at hw
  split at hw
  · exact Leaf.sent_simple rfl rfl rfl .same (List.mem_singleton.mpr rfl) hw (fun h => by cases h)
  · exact (Enc.gives_throw.mp hw).elim

theorem Leaf.sent_encoding {x y o : Slot} {t : Ty} {c : Byte} {i : Imm} {tv te : Ty} {s : Nat} (hw : ((Leaf.encoding x y o t c i tv te s).run g).Gives w ())
    (hs : Leaf.shapes ps g.ops.length (.encoding x y o t c i tv te s) ≠ []) :
    ∃ sh ∈ Leaf.shapes ps g.ops.length (.encoding x y o t c i tv te s), Sent g sh w := by
  replace hw : (opEncoding (g.dflt s) (x.reg g) (y.reg g) (o.opt g) t c g.enc (i.val g) tv te s).Gives w () := hw
  unfold opEncoding at hw
  rw [Enc.lift_bind] at hw
  obtain ⟨u, hu, hw⟩ := hw
  have hu : t ||| u ∈ [t ||| tv, t ||| (T_MUST_EVEX ||| te)] := by
    rcases orEvexIf_cases hu with rfl | rfl <;> simp
  simp only [Leaf.shapes, Slot.opt_missing]
  cases ho : o.opt g with
  | none =>
    rw [ho] at hw
    exact absurd (by simp only [Leaf.shapes, Slot.opt_missing, ho]; rfl) hs
  | some o' =>
    rw [ho] at hw
    refine ⟨_, List.mem_singleton.mpr rfl, { call := ⟨_, _, _, t ||| u, rfl, rfl, ?_, hu, sent_some hw, (fun h => by cases h), fun h => by cases h⟩ }⟩
    dsimp only
    rw [Slot.opt_op ho]
    exact .same

theorem Leaf.sent_cvt2Enc {x o : Slot} {t : Ty} {c : Byte} {tv te : Ty} {s : Nat} (hw : ((Leaf.cvt2Enc x o t c tv te s).run g).Gives w ()) :
    ∃ sh ∈ Leaf.shapes ps g.ops.length (.cvt2Enc x o t c tv te s), Sent g sh w := by
  replace hw : (Enc.lift (orEvexIf (g.dflt s) g.enc tv te s) >>= fun u => opCvt2 (x.reg g) (o.op g) (t ||| u) c).Gives w () := hw
  rw [Enc.lift_bind] at hw
  obtain ⟨u, hu, hw⟩ := hw
  unfold opCvt2 checkCvt2 at hw
  rw [Enc.throwIf_bind] at hw
  obtain ⟨r, v, h1, h2, hw⟩ := Leaf.sent_cvt hw.2
  refine Leaf.sent_simple (v := some v) rfl h1 (congrArg some h2) .same ?_ hw (fun h => by cases h)
  rcases orEvexIf_cases hu with rfl | rfl <;> simp

theorem Leaf.sent_vmov {o x : Slot} {t : Ty} {c : Byte} {m : Bool} (hw : ((Leaf.vmov o x t c m).run g).Gives w ()) :
    ∃ sh ∈ Leaf.shapes ps g.ops.length (.vmov o x t c m), Sent g sh w := by
  replace hw : (opVmov (o.op g) (x.reg g) t c m).Gives w () := hw
  unfold opVmov at hw
  rw [Enc.throwIf_bind] at hw
  exact Leaf.sent_simple rfl rfl rfl .same (List.mem_singleton.mpr rfl) hw.2 (fun h => by cases h)

/-- The slot holds the address itself. -/
theorem Slot.mem_op {s : Slot} {ps : List Param} (ht : g.Are ps) (h : s.par ps = some .addr) : s.op g = .mem (s.mem g) := by
  cases s with
  | a i =>
    have := ht i _ h
    show g.op i = .mem (g.mem i)
    unfold Args.mem
    cases ho : g.op i with
    | mem a => rfl
    | reg q => rw [ho] at this; cases this
  | _ => cases h

theorem Leaf.sent_gather (ht : g.Are ps) {x m y : Slot} (hm : m.par ps = some .addr) {t : Ty} {c : Byte} {md : Nat} (hw : ((Leaf.gather x m y t c md).run g).Gives w ()) :
    ∃ sh ∈ Leaf.shapes ps g.ops.length (.gather x m y t c md), Sent g sh w := by
  replace hw : (opGather (x.reg g) (m.mem g) (y.reg g) t c md).Gives w () := hw
  unfold opGather at hw
  dsimp only at hw
  rw [Enc.throwIf_bind] at hw
  obtain ⟨hv, hw⟩ := hw
  rw [Enc.throwIf_bind] at hw
  obtain ⟨_, hw⟩ := hw
  rw [Enc.throwIf_bind] at hw
  have hw := sent_some hw.2
  refine Leaf.sent_simple rfl ?_ ?_ ?_ (List.mem_singleton.mpr rfl) hw ?_
  · split <;> rfl
  · dsimp only [Option.map, Operand.hd]
    split <;> rfl
  · dsimp only
    rw [Slot.mem_op ht hm]; exact .same
  · intro _ a ha hwf
    cases ha
    exact vsib_simd hwf rfl (by simpa using hv)

theorem Leaf.sent_gather2 (ht : g.Are ps) {x m : Slot} (hm : m.par ps = some .addr) {t : Ty} {c : Byte} {md : Nat} (hw : ((Leaf.gather2 x m t c md).run g).Gives w ()) :
    ∃ sh ∈ Leaf.shapes ps g.ops.length (.gather2 x m t c md), Sent g sh w := by
  replace hw : (opGather2 (x.reg g) (m.mem g) t c md).Gives w () := hw
  unfold opGather2 checkGather2 at hw
  dsimp only at hw
  rw [Enc.throwIf_bind] at hw
  obtain ⟨_, hw⟩ := hw
  rw [Enc.throwIf_bind] at hw
  obtain ⟨hv, hw⟩ := hw
  rw [Enc.throwIf_bind] at hw
  obtain ⟨_, hw⟩ := hw
  rw [Enc.throwIf_bind] at hw
  refine Leaf.sent_simple rfl rfl rfl ?_ (List.mem_singleton.mpr rfl) hw.2 ?_
  · dsimp only
    rw [Slot.mem_op ht hm]; exact .same
  · intro _ a ha hwf
    cases ha
    rw [← (getRegExp_index (m.mem g)).1]
    unfold Reg.isSIMD
    revert hv
    generalize (m.mem g).getRegExp.index = q
    cases q.isXMM <;> cases q.isYMM <;> cases q.isZMM <;> simp

theorem Leaf.sent_gatherFetch (ht : g.Are ps) {m x : Slot} (hm : m.par ps = some .addr) {t : Ty} {c : Byte} {k : Kind} (hw : ((Leaf.gatherFetch m x t c k).run g).Gives w ())
    (hs : Leaf.shapes ps g.ops.length (.gatherFetch m x t c k) ≠ []) : ∃ sh ∈ Leaf.shapes ps g.ops.length (.gatherFetch m x t c k), Sent g sh w := by
  replace hw : (opGatherFetch (m.mem g) (x.reg g) t c k).Gives w () := hw
  unfold opGatherFetch at hw
  rw [Enc.throwIf_bind] at hw
  obtain ⟨_, hw⟩ := hw
  rw [Enc.throwIf_bind] at hw
  obtain ⟨hv, hw⟩ := hw
  simp only [Leaf.shapes] at hs ⊢
  split at hs
  · rename_i hk
    rw [if_pos hk]
    refine ⟨_, List.mem_singleton.mpr rfl, { call := ⟨_, none, _, t, rfl, rfl, ?_, List.mem_singleton.mpr rfl, hw, ?_, fun h => by cases h⟩ }⟩
    · dsimp only
      rw [Slot.mem_op ht hm]; exact .same
    · intro _ a ha hwf
      cases ha
      rw [← (getRegExp_index (m.mem g)).1]
      have hv : (m.mem g).getRegExp.index.kind = k := by simpa using hv
      unfold Reg.isSIMD Reg.isXMM Reg.isYMM Reg.isZMM
      rw [hv]
      rcases hk with rfl | rfl | rfl <;> rfl
  · exact absurd rfl hs

/-- No operand needs REX2 or carries an APX modifier. -/
def Args.NoApx (g : Args) : Prop := ∀ i, (g.op i).hasRex2NFZU = false

/-- The slot needs no REX2 if the arguments do not. -/
def Slot.low : Slot → Bool
  | .a _ => true
  | .r q => !(Operand.reg q).hasRex2NFZU
  | .bitOf _ n => decide (n.toNat < 16)
  | _ => false

theorem Slot.low_op (hn : g.NoApx) {s : Slot} (h : s.low = true) : (s.op g).hasRex2NFZU = false := by
  cases s with
  | a i => exact hn i
  | r q => have h : (Operand.reg q).hasRex2NFZU = false := by simpa [Slot.low] using h
           exact h
  | bitOf i n =>
    have h : n.toNat < 16 := by simpa [Slot.low] using h
    have h16 : ∀ i : BitVec 5, i.toNat < 16 → i.getLsbD 4 = false := by decide +kernel
    show (((Reg.gp n (g.reg i).bit).isREG && (n.getLsbD 4)) || false || false) = false
    rw [h16 _ h]; simp
  | _ => cases h

theorem opROO_no {op1 op2 : Operand} {type : Ty} {code : Byte} (hm : type.has T_MUST_EVEX = false) (h1 : op1.hasRex2NFZU = false) (h2 : op2.hasRex2NFZU = false) :
    opROO .nil op1 op2 type code = pure false := by
  unfold opROO
  rw [if_pos]
  rw [hm, h1, h2]; decide

theorem Slot.low_reg (hn : g.NoApx) {s : Slot} (h : s.low = true) : (s.reg g).hasRex2 = false ∨ ∃ a, s.op g = .mem a := by
  have := Slot.low_op hn h
  unfold Slot.reg
  cases hs : s.op g with
  | mem a => exact .inr ⟨a, rfl⟩
  | reg q =>
    rw [hs] at this
    unfold Operand.hasRex2NFZU at this
    simp only [Bool.or_eq_false_iff] at this
    exact .inl this.1.1

theorem Leaf.sent_rro (hn : g.NoApx) (hk : ∀ i a, g.op i = .mem a → a.o.kind = .mem) {d r o : Slot} {t : Ty} {c : Byte} {i : Imm}
    (hl : d.low = true ∧ r.low = true ∧ o.low = true) (hw : ((Leaf.rro d r o t c i).run g).Gives w ()) :
    ∃ sh ∈ Leaf.shapes ps g.ops.length (.rro d r o t c i), Sent g sh w := by
  replace hw : (opRRO (d.reg g) (r.reg g) (o.op g) t c (i.val g)).Gives w () := hw
  unfold opRRO at hw
  dsimp only at hw
  rw [Enc.throwIf_bind] at hw
  have hr : ∀ s : Slot, s.low = true → (s.reg g).hasRex2 = false := by
    intro s h
    rcases Slot.low_reg hn h with h' | ⟨a, h'⟩
    · exact h'
    · cases s with
      | a j =>
        have := hk j a h'
        unfold Slot.reg
        rw [h']
        show a.o.hasRex2 = false
        unfold Reg.hasRex2 Reg.isREG
        rw [this]; rfl
      | _ => cases h'
  have hn' : (d.reg g).nf = false := by
    have := Slot.low_op hn hl.1
    unfold Operand.hasRex2NFZU at this
    simp only [Bool.or_eq_false_iff] at this
    exact this.1.2
  have ho : (o.op g).hasRex2 = false := by
    have := Slot.low_op hn hl.2.2
    unfold Operand.hasRex2NFZU at this
    simp only [Bool.or_eq_false_iff] at this
    exact this.1.1
  rw [hr d hl.1, hr r hl.2.1, ho, hn'] at hw
  refine Leaf.sent_simple rfl rfl rfl .same ?_ hw.2 (fun h => by cases h)
  dsimp only
  split <;> simp

theorem Leaf.sent_amx (ht : g.Are ps) (hn : g.NoApx) {x m : Slot} (hx : x.low = true) (hl : m.low = true) (hm : m.par ps = some .addr) {t : Ty} {c : Byte}
    (hT : (T_APX ||| t).has T_MUST_EVEX = false) (hr : (x.op g).isMEM = false)
    (hw : ((Leaf.amx x m t c).run g).Gives w ()) : ∃ sh ∈ Leaf.shapes ps g.ops.length (.amx x m t c), Sent g sh w := by
  replace hw : (opAMX (x.reg g) (m.mem g) t c).Gives w () := hw
  unfold opAMX at hw
  dsimp only at hw
  rw [Enc.throwIf_bind] at hw
  have e := Slot.mem_op ht hm
  have h1 : (Operand.mem { m.mem g with opt := false }).hasRex2NFZU = false := by
    have := Slot.low_op hn hl
    rw [e] at this
    exact this
  have h2 : (Operand.reg (x.reg g)).hasRex2NFZU = false := by
    have := Slot.low_op hn hx
    unfold Slot.reg
    cases ho : x.op g with
    | reg q => rw [ho] at this; exact this
    | mem a => rw [ho] at hr; cases hr
  rw [opROO_no hT h1 h2] at hw
  have hw := hw.2
  rw [Enc.gives_bind] at hw
  obtain ⟨w1, b, w2, hb, hw, rfl⟩ := hw
  obtain ⟨rfl, rfl⟩ := Enc.gives_pure.mp hb
  rw [if_neg Bool.false_ne_true] at hw
  refine Leaf.sent_simple rfl rfl rfl (.noOpt e) (List.mem_singleton.mpr rfl) hw (fun h => by cases h)

theorem Leaf.sent_kmov (hn : g.NoApx) {k o : Slot} (hk : k.low = true) (ho : o.low = true) {rv : Bool} {sz : Nat}
    (hT : (T_APX ||| kmovType true sz).has T_MUST_EVEX = false ∧ (T_APX ||| kmovType false sz).has T_MUST_EVEX = false)
    (hr : (k.op g).isMEM = false) (hkind : ∀ a, o.op g = .mem a → a.o.kind = .mem)
    (hw : ((Leaf.kmov k o rv sz).run g).Gives w ()) : ∃ sh ∈ Leaf.shapes ps g.ops.length (.kmov k o rv sz), Sent g sh w := by
  replace hw : (opKmov (k.reg g) (o.op g) rv sz).Gives w () := hw
  have kr : k.op g = .reg (k.reg g) := by
    unfold Slot.reg
    cases hq : k.op g with
    | reg q => rfl
    | mem a => rw [hq] at hr; cases hr
  have k2 : (Operand.reg (k.reg g)).hasRex2NFZU = false := by
    have := Slot.low_op hn hk
    rwa [kr] at this
  have o2 := Slot.low_op hn ho
  have T : ∀ b, (T_APX ||| kmovType b sz).has T_MUST_EVEX = false := by intro b; cases b; exact hT.2; exact hT.1
  unfold opKmov at hw
  dsimp only at hw
  rw [Enc.throwIf_bind] at hw
  obtain ⟨hc, hw⟩ := hw
  generalize hR : (o.op g).isREG (if sz < 64 then 32 else 64) = R at hc hw
  change (opROO .nil _ _ (T_APX ||| kmovType R sz) _ >>= fun done => if done = true then pure () else opVex _ none _ (T_L0 ||| kmovType R sz) _).Gives w () at hw
  have go : ∀ {p1 p2 : Operand} {code : Byte} , p1.hasRex2NFZU = false → p2.hasRex2NFZU = false →
      (opROO .nil p2 p1 (T_APX ||| kmovType R sz) code >>= fun done => if done = true then pure () else opVex p1.hd none p2 (T_L0 ||| kmovType R sz) code).Gives w () →
      (opVex p1.hd none p2 (T_L0 ||| kmovType R sz) code).Gives w () := by
    intro p1 p2 code h1 h2 hw
    rw [opROO_no (T R) h2 h1, Enc.gives_bind] at hw
    obtain ⟨w1, b, w2, hb, hw, rfl⟩ := hw
    obtain ⟨rfl, rfl⟩ := Enc.gives_pure.mp hb
    rwa [if_neg Bool.false_ne_true] at hw
  simp only [Leaf.shapes]
  cases rv with
  | true =>
    simp only [if_true] at hw hc ⊢
    cases R with
    | true =>
      simp only [if_true] at hw
      have hw := go (p1 := o.op g) (p2 := .reg (k.reg g)) o2 k2 hw
      have hmem : (o.op g).isMEM = false := by
        cases hq : o.op g with
        | reg q => rfl
        | mem a =>
          rw [hq] at hR
          simp [Operand.isREG, Operand.hd, Reg.isREG, hkind a hq] at hR
      refine ⟨_, List.mem_cons_self .., { rchk := fun _ => hmem, call := ⟨_, none, _, _, rfl, rfl, .same, List.mem_singleton.mpr rfl, ?_, (fun h => by cases h), fun h => by cases h⟩ }⟩
      dsimp only
      rw [kr]; exact hw
    | false =>
      simp only [Bool.false_eq_true, if_false] at hw hc
      split at hc
      · rename_i hm
        simp only [hm, if_true] at hw
        have hw := go (p1 := .reg (k.reg g)) (p2 := o.op g) k2 o2 (by simpa using hw)
        exact ⟨_, List.mem_cons_of_mem _ (List.mem_singleton.mpr rfl), { call := ⟨_, none, _, _, rfl, rfl, .same, List.mem_singleton.mpr rfl, hw, (fun h => by cases h), fun h => by cases h⟩ }⟩
      · cases hc
  | false =>
    simp only [Bool.false_eq_true, if_false] at hw hc ⊢
    by_cases hm : ((o.op g).hd.isOPMASK || (o.op g).isMEM) = true
    · simp only [hm, if_true] at hw
      have hRf : R = false := by
        rw [← hR]
        cases hq : o.op g with
        | mem a =>
          show a.o.isREG _ = false
          exact isREG_kind (by rw [hkind a hq]; decide) _
        | reg q =>
          rw [hq] at hm
          have hm : q.isOPMASK = true := by simpa [Operand.isMEM, Operand.hd] using hm
          show q.isREG _ = false
          exact isREG_kind (by unfold Reg.isOPMASK at hm; simp only [beq_iff_eq] at hm; rw [hm]; decide) _
      subst hRf
      have hw := go (p1 := .reg (k.reg g)) (p2 := o.op g) k2 o2 (by simpa using hw)
      exact ⟨_, List.mem_cons_self .., { call := ⟨_, none, _, _, rfl, rfl, .same, List.mem_singleton.mpr rfl, hw, (fun h => by cases h), fun h => by cases h⟩ }⟩
    · simp only [hm] at hw hc
      cases R with
      | false => exact absurd hc (by decide)
      | true =>
        have hw := go (p1 := .reg (k.reg g)) (p2 := o.op g) k2 o2 (by simpa using hw)
        exact ⟨_, List.mem_cons_of_mem _ (List.mem_singleton.mpr rfl), { call := ⟨_, none, _, _, rfl, rfl, .same, List.mem_singleton.mpr rfl, hw, (fun h => by cases h), fun h => by cases h⟩ }⟩

/-- The helper goes through `opROO` first. -/
def Leaf.viaRoo : Leaf → Bool
  | rro .. | amx .. | kmov .. => true
  | _ => false

/-- `Leaf.shapes` is complete for this call. -/
def Leaf.sends (ps : List Param) (n : Nat) (l : Leaf) : Bool :=
  !(l.shapes ps n).isEmpty && match l with
  | gather _ m _ _ _ _ | gather2 _ m _ _ _ | gatherFetch m _ _ _ _ => m.par ps == some .addr
  | rro d r o _ _ _ => d.low && r.low && o.low
  | amx x m t _ => x.low && m.low && m.par ps == some .addr && !(T_APX ||| t).has T_MUST_EVEX && x.isMem ps == some false
  | kmov k o _ sz => k.low && o.low && !(T_APX ||| kmovType true sz).has T_MUST_EVEX && !(T_APX ||| kmovType false sz).has T_MUST_EVEX &&
    k.isMem ps == some false
  | _ => true

theorem Slot.kind_mem (hg : g.Good) (s : Slot) : ∀ a, s.op g = .mem a → a.o.kind = .mem := by
  intro a h
  cases s with
  | a i => exact hg.kind i a h
  | _ => cases h

theorem Slot.not_mem (ht : g.Are ps) {s : Slot} (h : s.isMem ps = some false) : (s.op g).isMEM = false := by
  have := Slot.mem_le ht s
  rw [h] at this
  rcases this with h | h
  · cases h
  · exact (Option.some.inj h).symm

theorem Leaf.sent (hg : g.Good) (ht : g.Are ps) {l : Leaf} (hs : l.sends ps g.ops.length = true) (hn : l.viaRoo = true → g.NoApx) (hw : (l.run g).Gives w ()) :
    ∃ sh ∈ l.shapes ps g.ops.length, Sent g sh w := by
  unfold Leaf.sends at hs
  rw [Bool.and_eq_true, Bool.not_eq_true', List.isEmpty_eq_false_iff] at hs
  obtain ⟨hne, hs⟩ := hs
  cases l with
  | avx3 => exact Leaf.sent_avx3 (Slot.kind_mem hg) ht hw hne
  | avx2 => exact Leaf.sent_avx2 hw
  | avxK => exact Leaf.sent_avxK hw
  | vex => exact Leaf.sent_vex hw
  | vexCB => exact Leaf.sent_vexCB hw
  | cvt => exact Leaf.sent_cvt1 hw
  | cvt2 => exact Leaf.sent_cvt2 hw
  | cvt3 => exact Leaf.sent_cvt3 (Slot.kind_mem hg _) hw
  | cvt5 => exact Leaf.sent_cvt5 hw
  | cvt6 => exact Leaf.sent_cvt6 hw
  | encoding => exact Leaf.sent_encoding hw hne
  | cvt2Enc => exact Leaf.sent_cvt2Enc hw
  | vmov => exact Leaf.sent_vmov hw
  | gather => exact Leaf.sent_gather ht (by simpa using hs) hw
  | gather2 => exact Leaf.sent_gather2 ht (by simpa using hs) hw
  | gatherFetch => exact Leaf.sent_gatherFetch ht (by simpa using hs) hw hne
  | rro =>
    simp only [Bool.and_eq_true] at hs
    exact Leaf.sent_rro (hn rfl) hg.kind ⟨hs.1.1, hs.1.2, hs.2⟩ hw
  | amx =>
    simp only [Bool.and_eq_true, beq_iff_eq, Bool.not_eq_true'] at hs
    obtain ⟨⟨⟨⟨h1, h2⟩, h3⟩, h4⟩, h5⟩ := hs
    exact Leaf.sent_amx ht (hn rfl) h1 h2 h3 h4 (Slot.not_mem ht h5) hw
  | kmov =>
    simp only [Bool.and_eq_true, beq_iff_eq, Bool.not_eq_true'] at hs
    obtain ⟨⟨⟨⟨h1, h2⟩, h3⟩, h4⟩, h5⟩ := hs
    exact Leaf.sent_kmov (hn rfl) h1 h2 ⟨h3, h4⟩ (Slot.not_mem ht h5) (Slot.kind_mem hg _) hw
  | _ => exact absurd rfl hne

/-- Some call of the body goes through `opROO` first. -/
def Body.viaRoo : Body → Bool
  | leaf l => l.viaRoo
  | guard _ _ b | check _ _ _ b | pre _ _ b => b.viaRoo
  | ite _ t e => t.viaRoo || e.viaRoo
  | apx .. => true
  | _ => false

/-- Every call of the body ends in `opVex`. -/
def Body.sends (ps : List Param) (n : Nat) : Body → Bool
  | leaf l => l.sends ps n
  | guard _ _ b | check _ _ _ b => b.sends ps n
  | ite _ t e => t.sends ps n && e.sends ps n
  | apx d a b t _ e => (d == .r .nil) && a.low && b.low && !t.has T_MUST_EVEX && e.sends ps n
  | _ => false

theorem Body.sent (hg : g.Good) (ht : g.Are ps) {b : Body} (hs : b.sends ps g.ops.length = true) (hn : b.viaRoo = true → g.NoApx) {m : Enc Unit}
    (hm : b.run g = some m) (hw : m.Gives w ()) : ∃ l ∈ b.leaves, ∃ sh ∈ l.shapes ps g.ops.length, Sent g sh w := by
  induction b generalizing m w with
  | leaf l =>
    cases hm
    exact ⟨l, List.mem_singleton.mpr rfl, Leaf.sent hg ht hs hn hw⟩
  | guard bad err b ih =>
    obtain ⟨m', hm', rfl⟩ := Option.map_eq_some_iff.mp hm
    rw [Enc.throwIf_bind] at hw
    exact ih hs hn hm' hw.2
  | check c x op b ih =>
    obtain ⟨m', hm', rfl⟩ := Option.map_eq_some_iff.mp hm
    have hw : ((c.run (x.reg g) (op.op g)) >>= fun _ => m').Gives w () := hw
    have : (m').Gives w () := by
      cases c
      · change (checkCvt1 _ _ >>= _).Gives w () at hw
        unfold checkCvt1 at hw
        rw [Enc.throwIf_bind] at hw
        exact hw.2
      · change (checkCvt4 _ _ >>= _).Gives w () at hw
        unfold checkCvt4 at hw
        rw [Enc.throwIf_bind] at hw
        exact hw.2
    exact ih hs hn hm' this
  | ite c t e iht ihe =>
    unfold Body.sends at hs
    rw [Bool.and_eq_true] at hs
    unfold Body.viaRoo at hn
    unfold Body.run at hm
    split at hm
    · obtain ⟨l, hl, h⟩ := iht hs.1 (fun h => hn (by rw [h]; rfl)) hm hw
      exact ⟨l, List.mem_append_left _ hl, h⟩
    · obtain ⟨l, hl, h⟩ := ihe hs.2 (fun h => hn (by rw [h, Bool.or_true])) hm hw
      exact ⟨l, List.mem_append_right _ hl, h⟩
  | apx d a b' t c e ih =>
    unfold Body.sends at hs
    simp only [Bool.and_eq_true, beq_iff_eq, Bool.not_eq_true'] at hs
    obtain ⟨⟨⟨⟨rfl, h2⟩, h3⟩, h4⟩, h5⟩ := hs
    obtain ⟨m', hm', rfl⟩ := Option.map_eq_some_iff.mp hm
    have hN := hn rfl
    change (opROO .nil _ _ t c >>= _).Gives w () at hw
    rw [opROO_no h4 (Slot.low_op hN h2) (Slot.low_op hN h3), Enc.gives_bind] at hw
    obtain ⟨w1, x, w2, hb, hw, rfl⟩ := hw
    obtain ⟨rfl, rfl⟩ := Enc.gives_pure.mp hb
    rw [if_neg Bool.false_ne_true] at hw
    exact ih h5 (fun _ => hN) hm' hw
  | _ => cases hs

end Xbyak.Mn
