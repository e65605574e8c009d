import Verif.Spec.Gather
import Verif.Props.VecLen
set_option linter.unusedSimpArgs false
/-!
# C79: gathers and scatters

An accepted gather, scatter or prefetch is defined for the registers given, and these have the widths that the mnemonic has at the vector length encoded.
-/
namespace Xbyak

/-- The index register of the decoded operand. -/
theorem means_index {fill : Act → BitVec 32} {a : Addr} {h : X86.Head} {m : X86.Mem} (ha : a.WF) (hs : a.e.index.isSIMD = true) (hM : a.Means fill h m) :
    m.index = some a.e.index.idx := by
  have hm : a.mode = .modRM := by
    apply Decidable.of_not_not
    intro hn
    rw [(ha.rip hn).2] at hs
    cases hs
  unfold Addr.Means at hM
  rw [hm] at hM
  have hne : a.e.index ≠ .nil := fun h => by rw [h] at hs; cases hs
  rcases hM.2.2 with e | e
  · have e := e.2.1
    rw [(getRegExp_index a).1, if_neg hne] at e
    exact e
  · have e := e.2.1
    rw [if_neg hne] at e
    exact e

namespace Mn
open E

variable {g : Args}

/-- Operand widths that go with an index of `I` and data of `D` bits, as the mode of the helpers. -/
def vsibMode (I D : Nat) : Nat := if I = D then 0 else if I < D then 1 else 2

/-- The function is the one expected for a mnemonic of `vsibOps`. -/
def Entry.vsibOk (e : Entry) (k : X86.VsibKind) (I D : Nat) : Bool :=
  e.vexed && !unlisted.any (Nat.beq e.name) && !Nat.beq e.line 2626 && !noLength e.line && Nat.beq e.opt 0 && X86.Manual.vsib e.name &&
  !X86.among e.name X86.bySource && !X86.among e.name X86.maskOps && (X86.among e.name X86.prefetches == (k == .prefetch)) &&
  match k, e.body with
  | .gather, .leaf (.gather (.a 0) (.a 1) (.a 2) t _ md) => decide (e.params.filter Param.isOperand = [.xmm, .addr, .xmm]) && !t.has (T_EVEX ||| T_MUST_EVEX) && e.gathers &&
      Nat.beq md (if I = D then 1 else if I < D then 0 else 2) && (X86.Manual.forms e.name ++ odd e.line).all fun f => (f.sp == .evex) || f.en == .rmv
  | .gather, .leaf (.gather2 (.a 0) (.a 1) t _ md) => decide (e.params.filter Param.isOperand = [.xmm, .addr]) && t.has T_MUST_EVEX && !t.has T_M_K && !t.has (T_B32 ||| T_B64) &&
      Nat.beq md (vsibMode I D) && (X86.Manual.forms e.name ++ odd e.line).all fun f => !(f.sp == .evex) || f.en == .rm
  | .scatter, .leaf (.gather2 (.a 1) (.a 0) t _ md) => decide (e.params.filter Param.isOperand = [.addr, .xmm]) && t.has T_MUST_EVEX && t.has T_M_K && !t.has (T_B32 ||| T_B64) &&
      Nat.beq md (vsibMode I D) && (X86.Manual.forms e.name ++ odd e.line).all fun f => !(f.sp == .evex) || f.en == .mr
  | .prefetch, .leaf (.gatherFetch (.a 0) (.r q) t _ kd) => decide (e.params.filter Param.isOperand = [.addr]) && t.has T_MUST_EVEX && t.has T_M_K && !t.has (T_B32 ||| T_B64) &&
      (!q.zero && q.rnd == 0) && (kd == if I < D then .ymm else .zmm) && (X86.Manual.forms e.name ++ odd e.line).all fun f => !(f.sp == .evex) || f.en == .m
  | _, _ => false

set_option maxRecDepth 1000000 in
theorem vsib_check : (all.all fun e => X86.vsibOps.all fun p => !Nat.beq e.name p.1 || e.vsibOk p.2.1 p.2.2.1 p.2.2.2) = true := by decide +kernel

theorem vsibOk_of {e : Entry} {k : X86.VsibKind} {I D : Nat} (he : e ∈ all) (hn : (e.name, k, I, D) ∈ X86.vsibOps) : e.vsibOk k I D = true := by
  have h := List.all_eq_true.mp (List.all_eq_true.mp vsib_check e he) _ hn
  simpa using h

theorem vsib_bits : ∀ p ∈ X86.vsibOps, (p.2.2.1 = 32 ∨ p.2.2.1 = 64) ∧ (p.2.2.2 = 32 ∨ p.2.2.2 = 64) := by decide +kernel

theorem op_nil {i : Nat} (h : g.ops.length ≤ i) : g.op i = .reg .nil := by
  unfold Args.op
  rw [List.getElem?_eq_none h]; rfl

theorem takes_xmm {o : Operand} (h : Param.xmm.takes o = true) : ∃ q, o = .reg q ∧ q.isSIMD = true := by
  cases o with
  | reg q => exact ⟨q, rfl, by simpa [Param.takes, Operand.isMEM, Operand.hd] using h⟩
  | mem a => cases h

theorem takes_addr {o : Operand} (h : Param.addr.takes o = true) : ∃ a, o = .mem a := by
  cases o with
  | reg q => cases h
  | mem a => exact ⟨a, rfl⟩

theorem ops_len {ps l : List Param} (h : g.Fits ps 0) (hl : ps.filter Param.isOperand = l) : g.ops.length = l.length := by
  unfold Args.Fits at h
  rw [hl] at h
  exact Nat.le_antisymm h.1 h.2.1

theorem ops3 {ps : List Param} (h : g.Fits ps 0) (hl : ps.filter Param.isOperand = [.xmm, .addr, .xmm]) :
    ∃ x a y, g.ops = [.reg x, .mem a, .reg y] ∧ x.isSIMD = true ∧ y.isSIMD = true := by
  have hlen := ops_len h hl
  unfold Args.Fits at h
  rw [hl] at h
  have h3 := h.2.2
  generalize g.ops = l at *
  rcases l with _ | ⟨p, _ | ⟨q, _ | ⟨r, _ | ⟨s, l⟩⟩⟩⟩ <;> first | (simp at hlen; done) | skip
  obtain ⟨x, rfl, hx⟩ := takes_xmm (h3 0 _ _ rfl rfl)
  obtain ⟨a, rfl⟩ := takes_addr (h3 1 _ _ rfl rfl)
  obtain ⟨y, rfl, hy⟩ := takes_xmm (h3 2 _ _ rfl rfl)
  exact ⟨x, a, y, rfl, hx, hy⟩

theorem ops2 {ps : List Param} (h : g.Fits ps 0) (hl : ps.filter Param.isOperand = [.xmm, .addr]) :
    ∃ x a, g.ops = [.reg x, .mem a] ∧ x.isSIMD = true := by
  have hlen := ops_len h hl
  unfold Args.Fits at h
  rw [hl] at h
  have h3 := h.2.2
  generalize g.ops = l at *
  rcases l with _ | ⟨p, _ | ⟨q, _ | ⟨s, l⟩⟩⟩ <;> first | (simp at hlen; done) | skip
  obtain ⟨x, rfl, hx⟩ := takes_xmm (h3 0 _ _ rfl rfl)
  obtain ⟨a, rfl⟩ := takes_addr (h3 1 _ _ rfl rfl)
  exact ⟨x, a, rfl, hx⟩

theorem ops2' {ps : List Param} (h : g.Fits ps 0) (hl : ps.filter Param.isOperand = [.addr, .xmm]) :
    ∃ x a, g.ops = [.mem a, .reg x] ∧ x.isSIMD = true := by
  have hlen := ops_len h hl
  unfold Args.Fits at h
  rw [hl] at h
  have h3 := h.2.2
  generalize g.ops = l at *
  rcases l with _ | ⟨p, _ | ⟨q, _ | ⟨s, l⟩⟩⟩ <;> first | (simp at hlen; done) | skip
  obtain ⟨a, rfl⟩ := takes_addr (h3 0 _ _ rfl rfl)
  obtain ⟨x, rfl, hx⟩ := takes_xmm (h3 1 _ _ rfl rfl)
  exact ⟨x, a, rfl, hx⟩

theorem ops1 {ps : List Param} (h : g.Fits ps 0) (hl : ps.filter Param.isOperand = [.addr]) : ∃ a, g.ops = [.mem a] := by
  have hlen := ops_len h hl
  unfold Args.Fits at h
  rw [hl] at h
  have h3 := h.2.2
  generalize g.ops = l at *
  rcases l with _ | ⟨p, _ | ⟨s, l⟩⟩ <;> first | (simp at hlen; done) | skip
  obtain ⟨a, rfl⟩ := takes_addr (h3 0 _ _ rfl rfl)
  exact ⟨a, rfl⟩

theorem simd_cases {q : Reg} (h : q.isSIMD = true) (f : Fit q) :
    (q.isXMM = true ∧ q.isYMM = false ∧ q.isZMM = false ∧ q.bit = 128) ∨ (q.isXMM = false ∧ q.isYMM = true ∧ q.isZMM = false ∧ q.bit = 256) ∨
      (q.isXMM = false ∧ q.isYMM = false ∧ q.isZMM = true ∧ q.bit = 512) := by
  obtain ⟨f1, f2, f3, -⟩ := f
  unfold Reg.isSIMD at h
  unfold Reg.isXMM Reg.isYMM Reg.isZMM at *
  cases hk : q.kind <;> rw [hk] at h f1 f2 f3 <;> first | (cases h; done) | skip
  · exact .inl ⟨rfl, rfl, rfl, f1 rfl⟩
  · exact .inr (.inl ⟨rfl, rfl, rfl, f2 rfl⟩)
  · exact .inr (.inr ⟨rfl, rfl, rfl, f3 rfl⟩)

theorem lengthBits_len {h : X86.Head} {n : Nat} (hL : h.L = X86.lengthBits n) (hn : n = 128 ∨ n = 256 ∨ n = 512) : X86.vlen h = n := by
  unfold X86.vlen
  rw [hL]
  rcases hn with rfl | rfl | rfl <;> rfl

theorem withImm_wf {a : Addr} {i : Option Byte} (h : a.WF) : (a.withImm i).WF := ⟨h.exp, h.rip, h.kind⟩

theorem evex_defined {r : Reg} {a : Addr} {u : Ty} {h : X86.Head} (hV : VexHead r none (.mem a) u h) (must : u.has T_MUST_EVEX = true)
    (hB : u.has (T_B32 ||| T_B64) = false) (rz : r.zero = false) (rr : r.rnd = 0) (bb : a.getRegExp.base.Bare) (hm : a.o.mask ≠ 0 ∨ r.mask ≠ 0) :
    h.space = .evex ∧ h.aaa ≠ 0 ∧ h.z = false ∧ h.b = false := by
  cases hV with
  | vex _ _ _ _ _ m => rw [must] at m; cases m
  | evex sp ty ln k len mask mk bc L b aaa z =>
    have b0 : a.broadcast = false := by
      cases hb : a.broadcast
      · rfl
      · have := bc hb
        rw [hB] at this; cases this
    have bz : a.getRegExp.base.zero = false := congrArg Deco.zero bb
    have br : a.getRegExp.base.rnd = 0 := congrArg Deco.rnd bb
    have hk := evexMask_ok mask
    refine ⟨sp, ?_, ?_, ?_⟩
    · rw [aaa]
      by_cases h0 : a.o.mask = 0
      · have hr := hm.resolve_left (fun h => h h0)
        rcases (hk.2 h0).1 r.mask (by simp) with h | h
        · exact absurd h hr
        · rw [← h]; exact hr
      · rw [hk.1 h0]; exact h0
    · rw [z]
      unfold anyZero rmReg
      dsimp only
      rw [rz, bz]; simp
    · rw [b]
      obtain ⟨rnd, hs, hc⟩ := evexLen_ok len
      have h0 : rnd = 0 := by
        rcases hs.2 with h | h
        · exact h
        · simp only [List.mem_cons, List.not_mem_nil, or_false, vRnd] at h
          rcases h with h | h | h
          · exact h.trans rr
          · exact h.trans br
          · exact h
      rcases hc with ⟨-, rfl⟩ | ⟨h, -⟩ | ⟨h, -⟩
      · exact b0
      · rw [h0] at h; cases h
      · exact absurd h0 h

theorem base_bare {a : Addr} (h1 : a.e.base.Bare) (h2 : a.e.index.Bare) : a.getRegExp.base.Bare := by
  rcases getRegExp_base a with h | h <;> rw [h] <;> assumption

/-- The registers of an EVEX gather or scatter. -/
theorem vsib_widths {x i : Reg} {I D md W : Nat} (hb : (I = 32 ∨ I = 64) ∧ (D = 32 ∨ D = 64)) (fx : Fit x) (fi : Fit i)
    (hk : (x.isXMM = true ∧ i.isXMM = true) ∨
        (if md = 0 then (x.isYMM = true ∧ i.isYMM = true) ∨ (x.isZMM = true ∧ i.isZMM = true)
         else if md = 1 then (x.isYMM = true ∧ i.isXMM = true) ∨ (x.isZMM = true ∧ i.isYMM = true)
         else md = 2 ∧ ((x.isXMM = true ∧ i.isYMM = true) ∨ (x.isYMM = true ∧ i.isZMM = true)))) (hm : md = vsibMode I D)
    (hW : W = max x.bit i.bit) :
    i.isSIMD = true ∧ (W = 128 ∨ W = 256 ∨ W = 512) ∧ x.bit = X86.vsibWidth W I D D ∧ i.bit = X86.vsibWidth W I D I := by
  obtain ⟨f1, f2, f3, -⟩ := fx
  obtain ⟨e1, e2, e3, -⟩ := fi
  have s1 : i.isXMM = true → i.isSIMD = true := fun h => by unfold Reg.isSIMD; rw [h]; rfl
  have s2 : i.isYMM = true → i.isSIMD = true := fun h => by unfold Reg.isSIMD; rw [h]; simp
  have s3 : i.isZMM = true → i.isSIMD = true := fun h => by unfold Reg.isSIMD; rw [h]; simp
  subst hm hW
  rcases hb with ⟨rfl | rfl, rfl | rfl⟩ <;> simp only [vsibMode] at hk <;> simp at hk <;>
    (rcases hk with ⟨h1, h2⟩ | ⟨h1, h2⟩ | ⟨h1, h2⟩) <;>
    simp only [f1, f2, f3, e1, e2, e3, h1, h2] <;>
    simp [s1, s2, s3, h2, X86.vsibWidth]

/-- C79: an accepted gather, scatter or prefetch is read as an instruction that the manual defines for its registers, and the registers have the widths
that the mnemonic has at the vector length encoded.
Partial: `Usual` leaves out VEX gathers with an index register above 15 (`c79_refuted_high`), `Sized` zmm registers in VEX gathers (`c79_refuted_zmm`),
the last hypothesis prefetches without opmask (`c79_refuted_prefetch`). -/
theorem c79_partial {e : Entry} {k : X86.VsibKind} {I D : Nat} (hn : (e.name, k, I, D) ∈ X86.vsibOps) {w : List Act} (hc : Calls e g w) (hu : Usual e g) (hp : Sized e g)
    (hk : k = .prefetch → ∀ a, g.op 0 = .mem a → a.o.mask ≠ 0) (fill : Act → BitVec 32) :
    ∃ n h reg m x, (∀ t, ∃ t', X86.insn true n (concr fill w ++ t) = some (⟨h, reg, .mem m⟩, t')) ∧ m.index = some x ∧ X86.VsibDefined k h reg x ∧
      (∀ q, .reg q ∈ g.ops → q.bit = X86.vsibWidth (X86.vlen h) I D D) ∧ ∀ a, .mem a ∈ g.ops → a.e.index.bit = X86.vsibWidth (X86.vlen h) I D I := by
  have hok := vsibOk_of hc.mem hn
  have hbits := vsib_bits _ hn
  dsimp only at hbits
  unfold Entry.vsibOk at hok
  simp only [Bool.and_eq_true, Bool.not_eq_true', Nat.beq_eq] at hok
  obtain ⟨⟨⟨⟨⟨⟨⟨⟨⟨hv, hun⟩, h2626⟩, hno⟩, hopt⟩, hvs⟩, n1⟩, n2⟩, n3⟩, hok⟩ := hok
  have hun' : e.name ∉ unlisted := by
    intro hm
    have : unlisted.any (Nat.beq e.name) = true := List.any_eq_true.mpr ⟨_, hm, Nat.beq_refl _⟩
    rw [this] at hun; cases hun
  have h2626' : e.line ≠ 2626 := by
    intro hm
    rw [hm] at h2626; cases h2626
  obtain ⟨f, h, reg, rm, imm, ops, H, hin⟩ := c67_partial hv hun' h2626' hc hu fill
  rw [hvs] at hin
  have hhead : ∀ tl h' t', X86.head (concr fill w ++ tl) = some (h', t') → h' = h := by
    intro tl h' t' hh
    have := hin tl
    unfold X86.insn at this
    rw [hh] at this
    dsimp only at this
    split at this
    · cases this
    · cases this; rfl
  obtain ⟨h', hL, hh⟩ := c77_partial hv hno hc hp fill
  obtain ⟨t', hh⟩ := hh []
  cases hhead _ _ _ hh
  obtain ⟨c, l, r, v, o, u, code, im, hl, -, -, hmk, hw, -, -, -⟩ := called hv hc hp.toDecorated
  obtain ⟨h', hV, hh⟩ := opVex_head hw fill
  obtain ⟨t', hh⟩ := hh []
  cases hhead _ _ _ hh
  have hfs : f ∈ X86.Manual.forms e.name ++ odd e.line := List.mem_append.mpr H.form
  have hfit := hc.fits
  rw [hopt] at hfit
  refine ⟨f.unit h, h, reg, ?_⟩
  split at hok
  · -- VEX
    rename_i B t c' md heq
    simp only [Bool.and_eq_true, Bool.not_eq_true', Nat.beq_eq, decide_eq_true_eq] at hok
    obtain ⟨⟨⟨⟨hps, ht⟩, hG⟩, hmd⟩, hfo⟩ := hok
    obtain ⟨x, a, y, hg, hx, hy⟩ := ops3 hfit hps
    have g0 : g.op 0 = .reg x := by unfold Args.op; rw [hg]; rfl
    have g1 : g.op 1 = .mem a := by unfold Args.op; rw [hg]; rfl
    have g2 : g.op 2 = .reg y := by unfold Args.op; rw [hg]; rfl
    rw [heq] at hl
    simp only [Body.leaves, List.mem_singleton] at hl
    subst hl
    obtain ⟨rfl, rfl, hvb, rfl, rfl, -, hkd, d1, d2, d3⟩ := hmk
    have sx : Slot.reg g (.a 0) = x := by show (g.op 0).hd = x; rw [g0]; rfl
    have sy : Slot.reg g (.a 2) = y := by show (g.op 2).hd = y; rw [g2]; rfl
    have sa : Slot.mem g (.a 1) = a := by show g.mem 1 = a; unfold Args.mem; rw [g1]
    rw [sx, sy, sa, (getRegExp_index a).1] at hkd
    rw [sx, sa, (getRegExp_index a).1] at d1
    rw [sx, sy] at d2
    rw [sy, sa, (getRegExp_index a).1] at d3
    rw [sa] at hvb
    have B := hp.adr 1 a g1
    have fi := index_bits B.1 B.2.1
    have si := vsib_simd B.1 rfl hvb
    have zx := hp.zmm hG 0 x g0
    have zy := hp.zmm hG 2 y g2
    have zi : a.e.index.isZMM = false := by
      cases h5 : a.e.index.isZMM
      · rfl
      · have := fi.2.2.1 h5
        unfold RegExp.isVsib Reg.isBit at hvb
        rw [(getRegExp_index a).1, this] at hvb
        exact absurd hvb (by decide)
    have hsp : h.space = .vex := by
      cases hV with
      | vex sp => exact sp
      | evex _ ty => rw [ht] at ty; cases ty
    have cx := simd_cases hx (hp.regs 0 x g0)
    have cy := simd_cases hy (hp.regs 2 y g2)
    have ci := simd_cases si fi
    rw [zx] at cx; rw [zy] at cy; rw [zi] at ci
    simp only [Bool.false_eq_true, false_and, and_false, or_false, true_and] at cx cy ci
    have key : (max (max x.bit a.e.index.bit) y.bit = 128 ∨ max (max x.bit a.e.index.bit) y.bit = 256 ∨ max (max x.bit a.e.index.bit) y.bit = 512) ∧
        x.bit = X86.vsibWidth (max (max x.bit a.e.index.bit) y.bit) I D D ∧ y.bit = X86.vsibWidth (max (max x.bit a.e.index.bit) y.bit) I D D ∧
        a.e.index.bit = X86.vsibWidth (max (max x.bit a.e.index.bit) y.bit) I D I := by
      rcases cx with ⟨x1, x2, x3⟩ | ⟨x1, x2, x3⟩ <;> rcases cy with ⟨y1, y2, y3⟩ | ⟨y1, y2, y3⟩ <;> rcases ci with ⟨i1, i2, i3⟩ | ⟨i1, i2, i3⟩ <;>
        rw [x1, x2, y1, y2, i3] at hkd <;> rw [x3, y3, i3] <;> subst hmd <;> rcases hbits with ⟨rfl | rfl, rfl | rfl⟩ <;> revert hkd <;> simp [X86.vsibWidth]
    obtain ⟨hWs, wx, wy, wi⟩ := key
    have hW : widest g = max (max x.bit a.e.index.bit) y.bit := by
      unfold widest
      rw [hg]
      simp only [List.map_cons, List.map_nil, List.foldl_cons, List.foldl_nil, Operand.vw, hx, hy, si, if_true]
      omega
    rw [length_normal n1 n2 (eq_of_beq n3), hW] at hL
    have hvl := lengthBits_len hL hWs
    rw [← hvl] at wx wy wi
    have hsp' : f.sp = .vex := by rw [← H.is.sp, hsp]; rfl
    have hen := List.all_eq_true.mp hfo f hfs
    rw [hsp'] at hen
    have hen : f.en = .rmv := by simpa using hen
    have hops : ops = [.reg x, .mem a, .reg y] := by
      have hlen := H.length
      rw [hen] at hlen
      rcases H.args with h | ⟨h, -⟩
      · rw [h, hg]
      · rw [h, hg] at hlen; simp [X86.En.roles] at hlen
    have r0 := H.at_ 0 .reg (.reg x) (by rw [hen]; rfl) (by rw [hops]; rfl)
    have r2 := H.at_ 2 .vvvv (.reg y) (by rw [hen]; rfl) (by rw [hops]; rfl)
    obtain ⟨m, hrm, hM⟩ := H.at_ 1 .rm (.mem a) (by rw [hen]; rfl) (by rw [hops]; rfl)
    subst hrm
    refine ⟨m, a.e.index.idx, fun t => ⟨_, hin t⟩, means_index (a := a.withImm imm) (withImm_wf B.1) si hM, .inl ⟨hsp, rfl, ?_⟩, ?_, ?_⟩
    · rw [show X86.regNum h reg = x.idx from r0, show h.vreg = y.idx from r2]
      exact ⟨d1, d2, d3⟩
    · intro q hq
      rw [hg] at hq
      simp at hq
      rcases hq with rfl | rfl
      · exact wx
      · exact wy
    · intro b hb
      rw [hg] at hb
      simp at hb
      rw [hb]; exact wi
  · -- EVEX gather
    rename_i B t c' md heq
    simp only [Bool.and_eq_true, Bool.not_eq_true', Nat.beq_eq, decide_eq_true_eq] at hok
    obtain ⟨⟨⟨⟨⟨hps, ht⟩, hK⟩, hB⟩, hmd⟩, hfo⟩ := hok
    obtain ⟨x, a, hg, hx⟩ := ops2 hfit hps
    have g0 : g.op 0 = .reg x := by unfold Args.op; rw [hg]; rfl
    have g1 : g.op 1 = .mem a := by unfold Args.op; rw [hg]; rfl
    rw [heq] at hl
    simp only [Body.leaves, List.mem_singleton] at hl
    subst hl
    obtain ⟨rfl, rfl, rfl, rfl, rz, hkd, hmask, hne⟩ := hmk
    have sx : Slot.reg g (.a 0) = x := by show (g.op 0).hd = x; rw [g0]; rfl
    have sa : Slot.mem g (.a 1) = a := by show g.mem 1 = a; unfold Args.mem; rw [g1]
    rw [sx, sa, (getRegExp_index a).1] at hkd
    rw [sx, sa, hK] at hmask
    rw [sx, sa, (getRegExp_index a).1] at hne
    rw [sx] at rz
    rw [sx, sa] at hV
    have A := hp.addr 1 a g1
    have B := hp.adr 1 a g1
    have D1 := evex_defined hV ht hB rz (by have := hp.rnd 0; rw [g0] at this; exact this) (base_bare A.1 A.2.1) (.inr (by simpa using hmask))
    have fx := hp.regs 0 x g0
    have fi := index_bits B.1 B.2.1
    obtain ⟨si, hWs, wx, wi⟩ := vsib_widths hbits fx fi hkd hmd rfl
    have hW : widest g = max x.bit a.e.index.bit := by
      unfold widest
      rw [hg]
      simp only [List.map_cons, List.map_nil, List.foldl_cons, List.foldl_nil, Operand.vw, hx, si, if_true]
      omega
    rw [length_normal n1 n2 (eq_of_beq n3), hW] at hL
    have hvl := lengthBits_len hL hWs
    rw [← hvl] at wx wi
    have hsp : f.sp = .evex := by rw [← H.is.sp, D1.1]; rfl
    have hen := List.all_eq_true.mp hfo f hfs
    rw [hsp] at hen
    have hen : f.en = .rm := by simpa using hen
    have hops : ops = [.reg x, .mem a] := by
      have hlen := H.length
      rw [hen] at hlen
      rcases H.args with h | ⟨h, -⟩
      · rw [h, hg]
      · rw [h, hg] at hlen; simp [X86.En.roles] at hlen
    have r0 := H.at_ 0 .reg (.reg x) (by rw [hen]; rfl) (by rw [hops]; rfl)
    obtain ⟨m, hrm, hM⟩ := H.at_ 1 .rm (.mem a) (by rw [hen]; rfl) (by rw [hops]; rfl)
    subst hrm
    refine ⟨m, a.e.index.idx, fun t => ⟨_, hin t⟩, means_index (a := a.withImm imm) (withImm_wf B.1) si hM, .inr ⟨D1.1, D1.2.1, D1.2.2.1, D1.2.2.2, ?_⟩, ?_, ?_⟩
    · intro _
      rw [show X86.regNum h reg = x.idx from r0]
      exact hne hK
    · intro q hq
      rw [hg] at hq
      simp at hq
      rw [hq]; exact wx
    · intro b hb
      rw [hg] at hb
      simp at hb
      rw [hb]; exact wi
  · -- scatter
    rename_i B t c' md heq
    simp only [Bool.and_eq_true, Bool.not_eq_true', Nat.beq_eq, decide_eq_true_eq] at hok
    obtain ⟨⟨⟨⟨⟨hps, ht⟩, hK⟩, hB⟩, hmd⟩, hfo⟩ := hok
    obtain ⟨x, a, hg, hx⟩ := ops2' hfit hps
    have G0 : g.op 1 = .reg x := by unfold Args.op; rw [hg]; rfl
    have G1 : g.op 0 = .mem a := by unfold Args.op; rw [hg]; rfl
    rw [heq] at hl
    simp only [Body.leaves, List.mem_singleton] at hl
    subst hl
    obtain ⟨rfl, rfl, rfl, rfl, rz, hkd, hmask, hne⟩ := hmk
    have sx : Slot.reg g (.a 1) = x := by show (g.op 1).hd = x; rw [G0]; rfl
    have sa : Slot.mem g (.a 0) = a := by show g.mem 0 = a; unfold Args.mem; rw [G1]
    rw [sx, sa, (getRegExp_index a).1] at hkd
    rw [sx, sa, hK] at hmask
    rw [sx, sa, (getRegExp_index a).1] at hne
    rw [sx] at rz
    rw [sx, sa] at hV
    have A := hp.addr 0 a G1
    have B := hp.adr 0 a G1
    have D1 := evex_defined hV ht hB rz (by have := hp.rnd 1; rw [G0] at this; exact this) (base_bare A.1 A.2.1) (by
      by_cases h0 : a.o.mask = 0
      · right; rw [h0] at hmask; simpa using hmask
      · exact .inl h0)
    have fx := hp.regs 1 x G0
    have fi := index_bits B.1 B.2.1
    obtain ⟨si, hWs, wx, wi⟩ := vsib_widths hbits fx fi hkd hmd rfl
    have hW : widest g = max x.bit a.e.index.bit := by
      unfold widest
      rw [hg]
      simp only [List.map_cons, List.map_nil, List.foldl_cons, List.foldl_nil, Operand.vw, hx, si, if_true]
      omega
    rw [length_normal n1 n2 (eq_of_beq n3), hW] at hL
    have hvl := lengthBits_len hL hWs
    rw [← hvl] at wx wi
    have hsp : f.sp = .evex := by rw [← H.is.sp, D1.1]; rfl
    have hen := List.all_eq_true.mp hfo f hfs
    rw [hsp] at hen
    have hen : f.en = .mr := by simpa using hen
    have hops : ops = [.mem a, .reg x] := by
      have hlen := H.length
      rw [hen] at hlen
      rcases H.args with h | ⟨h, -⟩
      · rw [h, hg]
      · rw [h, hg] at hlen; simp [X86.En.roles] at hlen
    obtain ⟨m, hrm, hM⟩ := H.at_ 0 .rm (.mem a) (by rw [hen]; rfl) (by rw [hops]; rfl)
    subst hrm
    refine ⟨m, a.e.index.idx, fun t => ⟨_, hin t⟩, means_index (a := a.withImm imm) (withImm_wf B.1) si hM, .inr ⟨D1.1, D1.2.1, D1.2.2.1, D1.2.2.2, ?_⟩, ?_, ?_⟩
    · intro h; cases h
    · intro q hq
      rw [hg] at hq
      simp at hq
      rw [hq]; exact wx
    · intro b hb
      rw [hg] at hb
      simp at hb
      rw [hb]; exact wi
  · -- prefetch
    rename_i B q t c' kd heq
    simp only [Bool.and_eq_true, Bool.not_eq_true', Nat.beq_eq, decide_eq_true_eq, beq_iff_eq] at hok
    obtain ⟨⟨⟨⟨⟨⟨hps, ht⟩, hK⟩, hB⟩, hz⟩, hkd⟩, hfo⟩ := hok
    obtain ⟨a, hg⟩ := ops1 hfit hps
    have g0 : g.op 0 = .mem a := by unfold Args.op; rw [hg]; rfl
    rw [heq] at hl
    simp only [Body.leaves, List.mem_singleton] at hl
    subst hl
    obtain ⟨rfl, rfl, rfl, rfl, az, hkd'⟩ := hmk
    have sa : Slot.mem g (.a 0) = a := by show g.mem 0 = a; unfold Args.mem; rw [g0]
    rw [sa, (getRegExp_index a).1] at hkd'
    rw [sa] at hV
    have A := hp.addr 0 a g0
    have B := hp.adr 0 a g0
    have D1 := evex_defined hV ht hB hz.1 hz.2 (base_bare A.1 A.2.1) (.inl (hk rfl a g0))
    have fi := index_bits B.1 B.2.1
    have hvl : X86.vlen h = 512 := by
      unfold X86.vectorLength at hL
      rw [n2, show X86.among e.name X86.prefetches = true from eq_of_beq n3] at hL
      exact lengthBits_len (n := 512) hL (.inr (.inr rfl))
    have hkd : a.e.index.kind = if I < D then .ymm else .zmm := by rw [hkd']; simpa using hkd
    have si : a.e.index.isSIMD = true := by
      unfold Reg.isSIMD Reg.isXMM Reg.isYMM Reg.isZMM
      rw [hkd]; split <;> rfl
    have wi : a.e.index.bit = X86.vsibWidth (X86.vlen h) I D I := by
      rw [hvl]
      obtain ⟨-, e2, e3, -⟩ := fi
      unfold Reg.isYMM Reg.isZMM at *
      rw [hkd] at e2 e3
      rcases hbits with ⟨rfl | rfl, rfl | rfl⟩
      · exact e3 rfl
      · exact e2 rfl
      · exact e3 rfl
      · exact e3 rfl
    have hsp : f.sp = .evex := by rw [← H.is.sp, D1.1]; rfl
    have hen := List.all_eq_true.mp hfo f hfs
    rw [hsp] at hen
    have hen : f.en = .m := by simpa using hen
    have hops : ops = [.mem a] := by
      have hlen := H.length
      rw [hen] at hlen
      rcases H.args with h | ⟨h, -⟩
      · rw [h, hg]
      · rw [h, hg] at hlen; simp [X86.En.roles] at hlen
    obtain ⟨m, hrm, hM⟩ := H.at_ 0 .rm (.mem a) (by rw [hen]; rfl) (by rw [hops]; rfl)
    subst hrm
    refine ⟨m, a.e.index.idx, fun t => ⟨_, hin t⟩, means_index (a := a.withImm imm) (withImm_wf B.1) si hM, .inr ⟨D1.1, D1.2.1, D1.2.2.1, D1.2.2.2, ?_⟩, ?_, ?_⟩
    · intro h; cases h
    · intro q hq
      rw [hg] at hq
      simp at hq
    · intro b hb
      rw [hg] at hb
      simp at hb
      rw [hb]; exact wi
  · cases hok

/-! ## What is wrong -/

/-- The function at the line returns for these arguments, and the bytes are an instruction with these parts. -/
def Decodes (line : Nat) (g : Args) (p : X86.Head → BitVec 3 → X86.Mem → Bool) : Prop :=
  ∃ e w h reg m t, e.line = line ∧ Calls e g w ∧ X86.insn true 1 (concr (fun _ => 0) w) = some (⟨h, reg, .mem m⟩, t) ∧ p h reg m = true

def decodesAt (line : Nat) (g : Args) (p : X86.Head → BitVec 3 → X86.Mem → Bool) : Bool := match callAt line g with
  | some (_, w) => match X86.insn true 1 (concr (fun _ => 0) w) with
    | some (⟨h, reg, .mem m⟩, _) => p h reg m
    | _ => false
  | none => false

theorem decodes_of {line : Nat} {p : X86.Head → BitVec 3 → X86.Mem → Bool} (h : decodesAt line g p = true) : Decodes line g p := by
  unfold decodesAt at h
  split at h
  · rename_i n w hcall
    obtain ⟨e, h1, -, h3⟩ := callAt_line hcall
    split at h
    · rename_i hd reg m t hi
      exact ⟨e, w, hd, reg, m, t, h1, h3, hi, h⟩
    · cases h
  · cases h

/-- `[rax + x]` -/
def vsibAt (x : Reg) (k : BitVec 3 := 0) : Addr :=
  { o := { idx := 0, ext8 := false, kind := .mem, bit := 0, mask := k }, e := { base := .gp 0 64, index := x, scale := 1, disp := 0 } }

/-- Bug: in a gather with VEX an index register above 15 loses its bit 4, after the check for distinct registers: `vgatherdps(xmm1, [rax + xmm17], xmm2)`
has destination and index xmm1, which is undefined. -/
theorem c79_refuted_high : Decodes 1302 { ops := [.reg (.xmm 1), .mem (vsibAt (.xmm 17)), .reg (.xmm 2)] }
    fun h reg m => h.space == .vex && X86.regNum h reg == 1 && m.index == some 1 := decodes_of (by decide +kernel)

/-- Bug: a gather with VEX takes zmm registers: `vgatherqps(zmm1, [rax + ymm2], zmm3)` is `vgatherqps(xmm1, [rax + ymm2], xmm3)`. -/
theorem c79_refuted_zmm : Decodes 1304 { ops := [.reg (.zmm 1), .mem (vsibAt (.ymm 2)), .reg (.zmm 3)] } fun h reg m =>
    h.space == .vex && h.L == 1 && X86.regNum h reg == 1 && h.vreg == 3 && m.index == some 2 := decodes_of (by decide +kernel)

/-- Bug: a prefetch without an opmask is not refused: `vgatherpf0dps([rax + zmm1])` has opmask k0, which is undefined. -/
theorem c79_refuted_prefetch : Decodes 2364 { ops := [.mem (vsibAt (.zmm 1))] } fun h _ m => h.space == .evex && h.aaa == 0 && m.index == some 1 := decodes_of (by decide +kernel)

/-! ## Examples -/

/-- `vgatherqps(ymm1|k2, [rax + zmm3])` -/
example : Decodes 2372 { ops := [.reg { Reg.ymm 1 with mask := 2 }, .mem (vsibAt (.zmm 3))] } fun h reg m =>
    h.space == .evex && h.L == 2 && h.aaa == 2 && X86.regNum h reg == 1 && m.index == some 3 := decodes_of (by decide +kernel)

/-- `vscatterdpd([rax + xmm1]|k2, ymm3)` -/
example : Decodes 2634 { ops := [.mem (vsibAt (.xmm 1) 2), .reg (.ymm 3)] } fun h reg m =>
    h.space == .evex && h.L == 1 && h.aaa == 2 && X86.regNum h reg == 3 && m.index == some 1 := decodes_of (by decide +kernel)

/-- Refused: a mask register that is the index, no opmask, an index of the wrong width. -/
example : callAt 1302 { ops := [.reg (.xmm 1), .mem (vsibAt (.xmm 2)), .reg (.xmm 2)] } = none ∧ callAt 2372 { ops := [.reg (.ymm 1), .mem (vsibAt (.zmm 3))] } = none ∧
    callAt 2372 { ops := [.reg { Reg.ymm 1 with mask := 2 }, .mem (vsibAt (.ymm 3))] } = none := by decide +kernel

/-- A call that `c79_partial` speaks about: `vgatherqps(ymm1|k2, [rax + zmm3])`. -/
example : ∃ e w, (e.name, X86.VsibKind.gather, 64, 32) ∈ X86.vsibOps ∧ Calls e { ops := [.reg { Reg.ymm 1 with mask := 2 }, .mem (vsibAt (.zmm 3))] } w ∧
    Usual e { ops := [.reg { Reg.ymm 1 with mask := 2 }, .mem (vsibAt (.zmm 3))] } ∧ Sized e { ops := [.reg { Reg.ymm 1 with mask := 2 }, .mem (vsibAt (.zmm 3))] } := by
  let g : Args := { ops := [.reg { Reg.ymm 1 with mask := 2 }, .mem (vsibAt (.zmm 3))] }
  have key : ((all.filter fun e => Nat.beq e.line 2372).all fun e => !e.body.viaRoo && !e.gathers && !X86.among e.name X86.bySource && e.resizes && !e.conv) = true := by decide +kernel
  have hcase : ∀ i, i = 0 ∨ i = 1 ∨ g.op i = .reg .nil := by
    intro i
    match i with
    | 0 => exact .inl rfl
    | 1 => exact .inr (.inl rfl)
    | i + 2 => exact .inr (.inr rfl)
  have hreg : ∀ i q, g.op i = .reg q → q = { Reg.ymm 1 with mask := 2 } ∨ q = .nil := by
    intro i q h
    rcases hcase i with rfl | rfl | h'
    · cases h; exact .inl rfl
    · cases h
    · rw [h'] at h; cases h; exact .inr rfl
  have hmem : ∀ i a, g.op i = .mem a → a = vsibAt (.zmm 3) := by
    intro i a h
    rcases hcase i with rfl | rfl | h'
    · cases h
    · cases h; rfl
    · rw [h'] at h; cases h
  have hwf : (vsibAt (.zmm 3)).WF := ⟨fun _ => ⟨⟨by decide, by decide, by decide⟩, rfl⟩, fun h => absurd rfl h, rfl⟩
  obtain ⟨e, hl, hn, hc⟩ := callAt_line (show callAt 2372 g = some (n!"vgatherqps", [0x62, 0xF2, 0x7D, 0x4A, 0x93, 0x0C, 0x18].map .byte) by decide +kernel)
  have hk := List.all_eq_true.mp key e (List.mem_filter.mpr ⟨hc.1, by rw [hl]; rfl⟩)
  simp only [Bool.and_eq_true, Bool.not_eq_true', and_assoc] at hk
  obtain ⟨k2, k3, k4, k5, k6⟩ := hk
  have good : g.Good := ⟨fun i a h => by rw [hmem i a h]; decide, fun i a h => by rw [hmem i a h]; rfl,
    fun i q h hk => by rcases hreg i q h with rfl | rfl <;> cases hk⟩
  refine ⟨e, _, by rw [hn]; decide, hc, ⟨good, ?_, ?_, fun h => ?_, fun h => ?_, fun h => ?_, ?_, fun h => ?_, fun h => ?_⟩,
    ⟨⟨good, fun h => ?_, ?_, ?_, fun h => ?_, ?_, ?_⟩, ?_, ?_, ?_, ?_, fun h => ?_, fun h => ?_, fun h => ?_⟩⟩
  · intro i a h; rw [hmem i a h]; exact ⟨hwf, rfl, rfl, by decide⟩
  · intro i q h
    rcases hreg i q h with rfl | rfl
    · exact ⟨fun _ => by unfold SizeOK; decide, .inl rfl⟩
    · exact ⟨fun h => (by cases h), .inr (.inr (by decide))⟩
  · rw [k2] at h; cases h
  · rw [k6] at h; cases h
  · rw [k3] at h; cases h
  · intro i q _ h
    rcases hreg i q h with rfl | rfl <;> decide
  · rw [hl] at h; cases h
  · rw [hl] at h; cases h
  · rw [k2] at h; cases h
  · intro i q h hk
    rcases hreg i q h with rfl | rfl <;> cases hk
  · intro i h; rw [hl] at h; simp [onlyNumber] at h
  · rw [k3] at h; cases h
  · intro i a h; rw [hmem i a h]; exact ⟨rfl, rfl, rfl, rfl⟩
  · intro i a h hm; rw [hmem i a h] at hm; exact absurd rfl hm
  · intro i
    rcases hcase i with rfl | rfl | h
    · rfl
    · rfl
    · rw [show g.op i = _ from h]; rfl
  · intro i q h
    rcases hreg i q h with rfl | rfl <;> (unfold Fit; decide)
  · intro i q h hk
    rcases hreg i q h with rfl | rfl <;> cases hk
  · intro i a h; rw [hmem i a h]; exact ⟨hwf, by decide, rfl⟩
  · rw [k5] at h; cases h
  · rw [k3] at h; cases h
  · rw [k4] at h; cases h

end Mn
end Xbyak
