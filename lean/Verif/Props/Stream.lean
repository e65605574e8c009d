import Verif.Skip
import Verif.Props.Sse
import Verif.Props.ApxForms
import Verif.Props.Fpu
import Verif.Props.Misc
import Verif.Props.CondTable
import Verif.Props.Shift
import Verif.Props.Imm
import Verif.Props.TestImul
import Verif.Props.Seg
import Verif.Props.Stack
import Verif.Props.Branch
import Verif.Props.Direct
/-!
# C97: instructions end where the processor ends them

`X86.skip` (`Spec/Skip`) finds the end of an instruction from the opcode maps alone.  Every call appends bytes that it takes for exactly one
instruction, so the instructions of a sequence of calls are found again one by one, and no other division of the bytes is possible.
-/
namespace Xbyak
namespace Mn

/-- The bytes are one instruction, whatever follows. -/
def One (fill : Act → BitVec 32) (w : List Act) : Prop := ∀ t, X86.skip (concr fill w ++ t) = some t

/-! ## Tables: the opcode has a ModRM byte and the immediate of the form -/

/-- The immediate of a form as the opcode maps have it. -/
def formStd (f : X86.Form) : Bool :=
  X86.withModrm f.sp f.map f.op && decide (f.sp ≠ .rex2) && (decide (f.sp ≠ .legacy) || X86.withModrm .rex2 f.map f.op) &&
    [0, 1, 2, 3, 4, 5, 6, 7].all fun r : BitVec 3 => decide (X86.immKind f.sp f.map f.op r = .n f.ib.toNat) &&
      (decide (f.sp ≠ .legacy) || decide (X86.immKind .rex2 f.map f.op r = .n f.ib.toNat))

def gformStd (f : X86.GForm) : Bool :=
  X86.withModrm .legacy f.map f.op && X86.withModrm .rex2 f.map f.op && [0, 1, 2, 3, 4, 5, 6, 7].all fun r : BitVec 3 =>
    (match f.ext with | some x => decide (x ≠ r) | none => false) ||
      decide (X86.immKind .legacy f.map f.op r = .n f.ib.toNat) && decide (X86.immKind .rex2 f.map f.op r = .n f.ib.toNat)

def aimmKind : X86.AImm → X86.ImmKind
  | .no => .n 0
  | .ib => .n 1
  | .iz => .z

def aformStd (f : X86.AForm) : Bool :=
  X86.withModrm .evex f.map f.op && [0, 1, 2, 3, 4, 5, 6, 7].all fun r : BitVec 3 =>
    (match f.ext with | some x => decide (x ≠ r) | none => false) || decide (X86.immKind .evex f.map f.op r = aimmKind f.imm) && (decide (f.imm ≠ .iz) || decide (f.map = 4))

set_option maxRecDepth 1000000 in
theorem formStd_check : (all.all fun e => (X86.Manual.forms e.name ++ odd e.line).all formStd) = true := by decide +kernel

set_option maxRecDepth 1000000 in
theorem gformStd_check : (X86.gforms.all fun p => p.2.all gformStd) = true := by decide +kernel

set_option maxRecDepth 1000000 in
theorem aformStd_check : (X86.aforms.all fun p => p.2.all aformStd) = true := by decide +kernel

theorem all8 (r : BitVec 3) : r ∈ ([0, 1, 2, 3, 4, 5, 6, 7] : List (BitVec 3)) := by revert r; decide

/-! ## One function at a time -/

theorem form_one {fill : Act → BitVec 32} {f : X86.Form} (hf : formStd f = true) {h : X86.Head} {reg : BitVec 3} {rm : X86.RM} {imm : Option Byte} (hi : f.Is h reg)
    (hib : imm.isSome = f.ib) {v : Bool} {n : Nat} {w : List Act} (hd : ∀ t, X86.insn v n (concr fill w ++ t) = some (⟨h, reg, rm⟩, imm.toList ++ t)) : One fill w := by
  intro t
  unfold formStd at hf
  simp only [Bool.and_eq_true, List.all_eq_true, Bool.or_eq_true, decide_eq_true_eq] at hf
  obtain ⟨⟨⟨h1, h2⟩, h3⟩, h4⟩ := hf
  obtain ⟨h4, h5⟩ := h4 reg (all8 reg)
  have hsp := hi.sp
  have hlen : imm.toList.length = f.ib.toNat := by rw [← hib]; cases imm <;> rfl
  have key : X86.withModrm h.space h.map h.opcode = true ∧ X86.immKind h.space h.map h.opcode reg = .n f.ib.toNat := by
    rw [hi.map, hi.op]
    by_cases hx : h.space = .rex2
    · rw [if_pos hx] at hsp
      rw [hx]
      exact ⟨h3.resolve_left fun h => h hsp.symm, h5.resolve_left fun h => h hsp.symm⟩
    · rw [if_neg hx] at hsp
      rw [hsp]
      exact ⟨h1, h4⟩
  refine X86.skip_insn (hd t) key.1 ?_
  unfold X86.immBytes
  rw [key.2, hlen]
  rfl

/-- C97: functions that build VEX and EVEX instructions (C67). -/
theorem c97_vec_partial {e : Entry} (hv : e.vexed = true) (hu : e.name ∉ unlisted) (hl : e.line ≠ 2626) {g : Args} {w : List Act} (hc : Calls e g w)
    (hp : Usual e g) (fill : Act → BitVec 32) : One fill w := by
  obtain ⟨f, h, reg, rm, imm, ops, hh, hd⟩ := c67_partial hv hu hl hc hp fill
  have hk := List.all_eq_true.mp (List.all_eq_true.mp formStd_check e hc.mem) f (List.mem_append.mpr hh.form)
  exact form_one hk hh.is hh.ib hd

/-- C97: MMX and SSE functions (C68). -/
theorem c97_sse_partial {e : Entry} (hv : e.ssed = true) {g : Args} {w : List Act} (hc : Calls e g w) (hp : Proper e g) (fill : Act → BitVec 32) : One fill w := by
  obtain ⟨f, h, reg, rm, imm, hh, hd⟩ := c68_partial hv hc hp fill
  have hk := List.all_eq_true.mp (List.all_eq_true.mp formStd_check e hc.mem) f (List.mem_append.mpr (Or.inl hh.form))
  exact form_one hk hh.is hh.ib hd

/-- C97: functions on general registers (C69). -/
theorem c97_gp_partial {e : Entry} (hv : e.gped = true) {g : Args} {w : List Act} (hc : Calls e g w) (hp : ProperG e g) (fill : Act → BitVec 32) : One fill w := by
  obtain ⟨f, h, reg, rm, hh, hd⟩ := c69_partial hv hc hp fill
  have hf := hh.form
  unfold X86.gformsOf at hf
  obtain ⟨p, hp, hf⟩ := List.mem_flatMap.mp hf
  have hk := List.all_eq_true.mp (List.all_eq_true.mp gformStd_check p (List.mem_filter.mp hp).1) f hf
  unfold gformStd at hk
  simp only [Bool.and_eq_true, List.all_eq_true, Bool.or_eq_true, decide_eq_true_eq] at hk
  obtain ⟨⟨h1, h2⟩, h3⟩ := hk
  have h3 : X86.immKind .legacy f.map f.op reg = .n f.ib.toNat ∧ X86.immKind .rex2 f.map f.op reg = .n f.ib.toNat := by
    rcases h3 reg (all8 reg) with h | h
    · have hx := hh.is.ext
      cases he : f.ext with
      | none => rw [he] at h; cases h
      | some x => rw [he] at h; exact absurd (hx x he).symm (of_decide_eq_true h)
    · exact h
  intro t
  have key : X86.withModrm h.space h.map h.opcode = true ∧ X86.immKind h.space h.map h.opcode reg = .n f.ib.toNat := by
    rw [hh.is.map, hh.is.op]
    rcases hh.is.space with hs | hs <;> rw [hs]
    · exact ⟨h1, h3.1⟩
    · exact ⟨h2, h3.2⟩
  refine X86.skip_insn (hd t) key.1 ?_
  unfold X86.immBytes
  rw [key.2]
  cases f.ib <;> rfl

theorem leBytes_len (n : Nat) (v : Word) : (leBytes n v).length = n := by
  unfold leBytes; simp

/-- C97: the extended EVEX encodings of APX (C82). -/
theorem c97_apx_partial {e : Entry} (hv : e.aped = true) {g : Args} {w : List Act} (hc : Calls e g w) (hp : ProperA e g) (hu : Uses e g) (fill : Act → BitVec 32) :
    One fill w := by
  obtain ⟨f, h, reg, rm, hh, hd⟩ := c82_partial hv hc hp hu fill
  have hf := hh.form
  unfold X86.aformsOf at hf
  obtain ⟨p, hp, hf⟩ := List.mem_flatMap.mp hf
  have hk := List.all_eq_true.mp (List.all_eq_true.mp aformStd_check p (List.mem_filter.mp hp).1) f hf
  unfold aformStd at hk
  simp only [Bool.and_eq_true, List.all_eq_true, Bool.or_eq_true, decide_eq_true_eq] at hk
  obtain ⟨h1, h3⟩ := hk
  have h3 : X86.immKind .evex f.map f.op reg = aimmKind f.imm ∧ (f.imm ≠ .iz ∨ f.map = 4) := by
    rcases h3 reg (all8 reg) with h | h
    · have hx := hh.is.ext
      cases he : f.ext with
      | none => rw [he] at h; cases h
      | some x => rw [he] at h; exact absurd (hx x he).symm (of_decide_eq_true h)
    · exact h
  intro t
  have key : X86.withModrm h.space h.map h.opcode = true ∧ X86.immKind h.space h.map h.opcode reg = aimmKind f.imm := by
    rw [hh.is.map, hh.is.op, hh.is.space]
    exact ⟨h1, h3.1⟩
  refine X86.skip_insn (hd t) key.1 ?_
  unfold X86.immBytes
  rw [key.2, leBytes_len]
  cases hf : f.imm with
  | no => rfl
  | ib => rfl
  | iz =>
    have hm : h.map = 4 := hh.is.map.trans (h3.2.resolve_left fun h => h hf)
    unfold aimmKind X86.ImmKind.bytes X86.AImm.bytes X86.apxBits
    rw [if_pos hm]
    cases h.w
    · by_cases hp : h.pp = 1 <;> simp [hp]
    · simp

theorem esc_std : ∀ o ∈ ([0xD8, 0xD9, 0xDA, 0xDB, 0xDC, 0xDD, 0xDE, 0xDF] : List Byte), X86.modrm0 o = true ∧ ∀ r, X86.kind0 o r = .n 0 := by decide +kernel

set_option maxRecDepth 1000000 in
theorem esc_check : (X86.fregs.all fun p => p.2.all fun f => f.esc ∈ ([0xD8, 0xD9, 0xDA, 0xDB, 0xDC, 0xDD, 0xDE, 0xDF] : List Byte)) = true ∧
    (X86.fmems.all fun p => p.2.all fun f => f.esc ∈ ([0xD8, 0xD9, 0xDA, 0xDB, 0xDC, 0xDD, 0xDE, 0xDF] : List Byte)) = true := by decide +kernel

/-- C97: x87 functions with registers (C71). -/
theorem c97_fpu_reg_partial {e : Entry} {g : Args} {w : List Act} (hf : e.fpued = true) (hc : Calls e g w)
    (hn : ∀ (i : Nat) q, g.ops[i]? = some (.reg q) → q.Named) (h0 : e.first0 = true → (g.reg 0).idx = 0) (fill : Act → BitVec 32) : One fill w := by
  obtain ⟨f, hf, i, -, -, hd⟩ := c71_reg_partial hf hc hn h0 fill
  obtain ⟨p, hp, hf⟩ := List.mem_flatMap.mp hf
  obtain ⟨k1, k2⟩ := esc_std f.esc (of_decide_eq_true (List.all_eq_true.mp (List.all_eq_true.mp esc_check.1 p (List.mem_filter.mp hp).1) f hf))
  intro t
  refine X86.skip_insn0 (hd t) (X86.with0 rfl _ k1) ?_
  exact X86.bytes0 rfl (k := .n 0) (k2 _)

/-- C97: x87 functions with memory (C71). -/
theorem c97_fpu_mem {e : Entry} {g : Args} {w : List Act} (hf : e.fpuMemd = true) (hc : Calls e g w)
    {a : Addr} (hg : g.ops[0]? = some (.mem a)) (ha : a.WF) (hp : a.permitVsib = false) (hn : a.disp8N = 0) (ht : a.e.index.kind ≠ .tmm)
    (hb : a.o.bit ∈ memBits) (fill : Act → BitVec 32) : One fill w := by
  obtain ⟨f, hf, -, h, m, he, -, -, hd⟩ := c71_mem hf hc hg ha hp hn ht hb fill
  obtain ⟨p, hp, hf⟩ := List.mem_flatMap.mp hf
  obtain ⟨k1, k2⟩ := esc_std f.esc (of_decide_eq_true (List.all_eq_true.mp (List.all_eq_true.mp esc_check.2 p (List.mem_filter.mp hp).1) f hf))
  intro t
  refine X86.skip_insn0 (hd t) (X86.with0 he.map _ (by rw [he.op]; exact k1)) ?_
  exact X86.bytes0 he.map (k := .n 0) (by rw [he.op]; exact k2 _)

/-- C97: functions without operands (C70).  The prefixes (`lock`, `rep`, ...) are not instructions, and the six functions with WAIT before the
instruction emit two. -/
theorem c97_fixed_partial {e : Entry} {g : Args} {w : List Act} (hc : Calls e g w) (hf : e.fixed.isSome = true) (hp : ∀ b, (e.name, b) ∉ X86.prefixBytes)
    (fill : Act → BitVec 32) : One fill w ∨ ∃ bs, concr fill w = 0x9B :: bs ∧ ∀ t, X86.skip (bs ++ t) = some t := by
  rcases c70_fixed hc hf fill with ⟨b, hb, -⟩ | ⟨f, hm, hd⟩
  · exact absurd hb (hp b)
  · have hs := List.all_eq_true.mp X86.fixed_std _ hm
    cases hw : f.wait with
    | false =>
      left
      intro t
      obtain ⟨bs', h1, h2⟩ := X86.skip_fixed hs (hd t)
      rw [hw] at h1
      rw [h1]; exact h2
    | true =>
      right
      obtain ⟨bs, h1, h2⟩ := X86.skip_fixed hs (hd [])
      rw [hw, List.append_nil, if_pos rfl] at h1
      refine ⟨bs, h1, fun t => ?_⟩
      obtain ⟨bs', h3, h4⟩ := X86.skip_fixed hs (hd t)
      rw [hw, if_pos rfl, h1, List.cons_append] at h3
      cases h3
      exact h4

/-- C97: instructions of their own shape (C83). -/
theorem c97_misc_partial {e : Entry} (hv : X86.among e.name miscNames = true) {g : Args} {w : List Act} (hc : Calls e g w) (hp : ProperM e g) (fill : Act → BitVec 32) :
    One fill w := by
  obtain ⟨m, -, hd⟩ := c83_partial hv hc hp fill
  exact fun t => X86.skip_misc (hd t)

theorem ran {m m' : Enc Unit} {w : List Act} {e : Entry} {g : Args} (hr : e.body.run g = some m') (hm : e.body.run g = some m) (hw : m.Gives w ()) : m'.Gives w () := by
  rw [hr] at hm; cases hm; exact hw

/-- C97: shifts and rotates (C46). -/
theorem c97_shift_partial {p : Nat × BitVec 3} (hp : p ∈ shiftNames) {e : Entry} (he : e ∈ named p.1) {g : Args} {n : Nat}
    (h1 : e.params.head? = some .op → GrpOK (g.op 0) none n) (h2 : e.params.head? = some .reg → GrpOK (g.op 1) (some (g.reg 0)) n)
    {w : List Act} (hc : Calls e g w) (fill : Act → BitVec 32) : One fill w := by
  obtain ⟨m, hm, hw⟩ := hc.runs
  have key : ∀ {o : BitVec 3} {d : Option Reg} {op : Operand} {k : Nat} {c : X86.Count}, ShiftIs fill o n d op k c w → One fill w := by
    rintro o d op k c ⟨i, hi, -⟩ t
    exact X86.skip_shift (hi t)
  have h := (c46_names_partial p hp).2 e he
  cases ho : shiftOf e with
  | none => rw [ho] at h; exact h.elim
  | some q =>
    obtain ⟨x, y⟩ := q
    rw [ho] at h
    cases x with
    | imm =>
      obtain ⟨hps, h⟩ := h
      obtain ⟨m', hr, h⟩ := h g n (h1 (by rw [hps]; rfl))
      exact key (h w (ran hr hm hw) fill)
    | cl =>
      obtain ⟨hps, h⟩ := h
      obtain ⟨m', hr, h⟩ := h g n (h1 (by rw [hps]; rfl))
      exact key ((h w (ran hr hm hw)).2 fill)
    | ndImm =>
      obtain ⟨hps, h⟩ := h
      obtain ⟨m', hr, h⟩ := h g n (h2 (by rw [hps]; rfl))
      exact key (h w (ran hr hm hw) fill)
    | ndCl =>
      obtain ⟨hps, h⟩ := h
      obtain ⟨m', hr, h⟩ := h g n (h2 (by rw [hps]; rfl))
      exact key ((h w (ran hr hm hw)).2 fill)

/-- C97: NOT, NEG, MUL, IMUL, DIV, IDIV, INC, DEC (C64). -/
theorem c97_unary_partial {p : Nat × X86.UnaryOp} (hp : p ∈ unaryNames) {e : Entry} (he : e ∈ named p.1) {g : Args} {n : Nat}
    (h1 : e.params = [.op] → GrpOK (g.op 0) none n) (h2 : e.params = [.reg, .op] → GrpOK (g.op 1) (some (g.reg 0)) n)
    {w : List Act} (hc : Calls e g w) (fill : Act → BitVec 32) : One fill w := by
  obtain ⟨m, hm, hw⟩ := hc.runs
  have key : ∀ {u : X86.UnaryOp} {d : Option Reg} {nf : Bool} {op : Operand}, UnaryIs fill u n d nf op w → One fill w := by
    rintro u d nf op ⟨i, hi, -⟩ t
    exact X86.skip_unary (hi t)
  rcases (c64_names_partial p hp).2 e he with ⟨hps, h⟩ | ⟨hps, h⟩
  · obtain ⟨m', hr, h⟩ := h g n (h1 hps)
    obtain ⟨nf, h, -⟩ := h w (ran hr hm hw) fill
    exact key h
  · obtain ⟨m', hr, h⟩ := h g n (h2 hps)
    exact key (h w (ran hr hm hw) fill)

/-- C97: SETcc (C44). -/
theorem c97_set_partial {x : Nat × (X86.Flags → Bool)} (hx : x ∈ X86.suffixes) {e : Entry} (he : e ∈ named (X86.cat n!"set" x.1)) {g : Args}
    (ho : SetOK (g.op 0)) {w : List Act} (hc : Calls e g w) (fill : Act → BitVec 32) : One fill w := by
  obtain ⟨m, hm, hw⟩ := hc.runs
  obtain ⟨-, h⟩ := (c44_set_names_partial x hx).2 e he
  obtain ⟨m', hr, h⟩ := h g ho
  obtain ⟨i, hi, -⟩ := h w (ran hr hm hw) fill
  exact fun t => X86.skip_setcc (hi t)

/-- C97: CMOVcc (C44). -/
theorem c97_cmov_partial {x : Nat × (X86.Flags → Bool)} (hx : x ∈ X86.suffixes) {e : Entry} (he : e ∈ named (X86.cat n!"cmov" x.1)) {g : Args}
    (h0 : Gpr (g.reg 0)) (h2 : e.params = [.reg, .op] → OpOK (g.op 1))
    (h3 : e.params = [.reg, .reg, .op] → g.op 1 = .reg (g.reg 1) ∧ ((g.reg 1).kind = .reg ∧ (g.reg 1).bit = (g.reg 0).bit) ∧ ApxOK (g.op 2))
    {w : List Act} (hc : Calls e g w) (fill : Act → BitVec 32) : One fill w := by
  obtain ⟨m, hm, hw⟩ := hc.runs
  rcases (c44_cmov_names_partial x hx).2 e he with ⟨hps, h⟩ | ⟨hps, h⟩
  · obtain ⟨m', hr, h⟩ := h g h0 (h2 hps)
    obtain ⟨i, hi, -⟩ := h w (ran hr hm hw) fill
    exact fun t => X86.skip_cmov (hi t)
  · obtain ⟨a, b, c⟩ := h3 hps
    obtain ⟨m', hr, h⟩ := h g h0 a b c
    obtain ⟨i, hi, -⟩ := h w (ran hr hm hw) fill
    exact fun t => X86.skip_cmov (hi t)

/-- C97: CFCMOVcc (C44). -/
theorem c97_cfcmov_partial {x : Nat × (X86.Flags → Bool)} (hx : x ∈ cfSuffixes) {e : Entry} (he : e ∈ named (X86.cat n!"cfcmov" x.1)) {g : Args} {n : Nat}
    (h2 : e.params = [.op, .op] → (n = 16 ∨ n = 32 ∨ n = 64) ∧ ApxOK (g.op 0) ∧ ApxOK (g.op 1) ∧ WidthIs n (g.op 0) ∧ WidthIs n (g.op 1))
    (h3 : e.params = [.reg, .reg, .op] → Gpr (g.reg 0) ∧ g.op 1 = .reg (g.reg 1) ∧ (g.reg 1).bit ≠ 0 ∧ ApxOK (g.op 2))
    {w : List Act} (hc : Calls e g w) (fill : Act → BitVec 32) : One fill w := by
  obtain ⟨m, hm, hw⟩ := hc.runs
  rcases (c44_cfcmov_names_partial x hx).2 e he with ⟨hps, h⟩ | ⟨hps, h⟩
  · obtain ⟨hn, a, b, c, d⟩ := h2 hps
    obtain ⟨m', hr, h⟩ := h g n hn a b c d
    obtain ⟨i, hi, -⟩ := h w (ran hr hm hw) fill
    exact fun t => X86.skip_cmov (hi t)
  · obtain ⟨a, b, c, d⟩ := h3 hps
    obtain ⟨m', hr, h⟩ := h g a b c d
    obtain ⟨i, hi, -⟩ := h w (ran hr hm hw) fill
    exact fun t => X86.skip_cmov (hi t)

/-- C97: CCMPcc (C44). -/
theorem c97_ccmp_partial {x : Nat × (X86.Flags → Bool)} (hx : x ∈ X86.scSuffixes) {e : Entry} (he : e ∈ named (X86.cat n!"ccmp" x.1)) {g : Args} {n : Nat}
    (h0 : ApxOK (g.op 0)) (hn : n = 8 ∨ n = 16 ∨ n = 32 ∨ n = 64) (h1 : e.params = [.op, .op, .int] → ApxOK (g.op 1) ∧ WidthIs n (g.op 0) ∧ WidthIs n (g.op 1))
    (h2 : e.params = [.op, .int, .int] → (g.op 0).bit = n) {w : List Act} (hc : Calls e g w) (fill : Act → BitVec 32) : One fill w := by
  obtain ⟨m, hm, hw⟩ := hc.runs
  rcases (c44_ccmp_names_partial x hx).2 e he with ⟨hps, h⟩ | ⟨hps, h⟩
  · obtain ⟨a, b, c⟩ := h1 hps
    obtain ⟨m', hr, h⟩ := h g n hn h0 a b c
    obtain ⟨i, hi, -⟩ := h w (ran hr hm hw) fill
    exact fun t => X86.skip_ccmp (hi t)
  · obtain ⟨m', hr, h⟩ := h g h0 (by rw [h2 hps]; exact hn)
    obtain ⟨i, k, v, hi, -⟩ := h w (ran hr hm hw) fill
    exact fun t => X86.skip_ccmp (hi t)

/-- C97: CTESTcc (C44). -/
theorem c97_ctest_partial {x : Nat × (X86.Flags → Bool)} (hx : x ∈ X86.scSuffixes) {e : Entry} (he : e ∈ named (X86.cat n!"ctest" x.1)) {g : Args} {n : Nat}
    (h0 : ApxOK (g.op 0)) (hn : n = 8 ∨ n = 16 ∨ n = 32 ∨ n = 64)
    (h1 : e.params = [.op, .reg, .int] → g.op 1 = .reg (g.reg 1) ∧ WidthIs n (g.op 0) ∧ WidthIs n (g.op 1))
    (h2 : e.params = [.op, .int, .int] → (g.op 0).bit = n) {w : List Act} (hc : Calls e g w) (fill : Act → BitVec 32) : One fill w := by
  obtain ⟨m, hm, hw⟩ := hc.runs
  rcases (c44_ctest_names_partial x hx).2 e he with ⟨hps, h⟩ | ⟨hps, h⟩
  · obtain ⟨a, b, c⟩ := h1 hps
    obtain ⟨m', hr, h⟩ := h g n hn h0 a b c
    obtain ⟨i, hi, -⟩ := h w (ran hr hm hw) fill
    exact fun t => X86.skip_ccmp (hi t)
  · obtain ⟨m', hr, h⟩ := h g h0 (by rw [h2 hps]; exact hn)
    obtain ⟨i, k, v, hi, -⟩ := h w (ran hr hm hw) fill
    exact fun t => X86.skip_ccmp (hi t)

/-! ## Functions of `xbyak.h` -/

/-- C97: ALU operations with an immediate (C36). -/
theorem c97_alu (n : BitVec 3) (op : Operand) (hop : OpOK op) (hq : ∀ q, op = .reg q → q.Named)
    (hb : op.bit = 8 ∨ op.bit = 16 ∨ op.bit = 32 ∨ op.bit = 64) (imm : BitVec 32)
    {w : List Act} (hw : (E.opOI op imm (n.setWidth 8 <<< 3) (n.setWidth 5)).Gives w ()) (fill : Act → BitVec 32) : One fill w := by
  obtain ⟨i, k, hi, -⟩ := c36_alu n op hop hq hb imm hw fill
  exact fun t => X86.skip_aluI (hi t)

/-- C97: MOV of an immediate to a register (C37). -/
theorem c97_mov (r : Reg) (hr : r.Named) (imm : Word) {w : List Act} (hw : (E.movI (.reg r) imm).Gives w ()) (fill : Act → BitVec 32) : One fill w := by
  obtain ⟨bs, i, rfl, hi, -⟩ := c37_mov r hr imm hw
  intro t
  rw [concr_bytes]
  exact X86.skip_movI (hi t)

/-- C97: MOV of an immediate to memory (C37). -/
theorem c97_mov_mem (a : Addr) (ha : OpOK (.mem a)) (hb : a.o.bit = 8 ∨ a.o.bit = 16 ∨ a.o.bit = 32 ∨ a.o.bit = 64) (imm : Word)
    {w : List Act} (hw : (E.movI (.mem a) imm).Gives w ()) (fill : Act → BitVec 32) : One fill w := by
  obtain ⟨i, k, hi, -⟩ := c37_mem a ha hb imm hw fill
  exact fun t => X86.skip_movI (hi t)

/-- C97: PUSH and POP of a register (C47). -/
theorem c97_push (pop : Bool) (r : Reg) {w : List Act} (hw : (pp pop (.reg r)).Gives w ()) (fill : Act → BitVec 32) : One fill w := by
  obtain ⟨bs, i, rfl, hi, -⟩ := c47_reg_partial pop r hw
  intro t
  rw [concr_bytes]
  exact X86.skip_pushPop (hi t)

/-- C97: PUSH and POP of memory (C47). -/
theorem c97_push_mem (pop : Bool) (a : Addr) (ha : OpOK (.mem a)) {w : List Act} (hw : (pp pop (.mem a)).Gives w ()) (fill : Act → BitVec 32) : One fill w := by
  obtain ⟨i, hi, -⟩ := c47_mem pop a ha hw fill
  exact fun t => X86.skip_pushPop (hi t)

/-- C97: PUSH of an immediate (C47). -/
theorem c97_push_imm (imm : BitVec 32) {w : List Act} (hw : (E.pushI imm).Gives w ()) (fill : Act → BitVec 32) : One fill w := by
  obtain ⟨bs, rfl, hi⟩ := c47_imm imm hw
  intro t
  rw [concr_bytes]
  exact X86.skip_pushI (hi t)

/-- C97: XCHG (C48). -/
theorem c97_xchg_partial (op1 op2 : Operand) (h1 : OpOK op1) (h2 : OpOK op2) (hq : ∀ q, op1 = .reg q ∨ op2 = .reg q → q.Named ∧ q.kind = .reg)
    (hs : ∀ q1 q2, op1 = .reg q1 → op2 = .reg q2 → q1.bit = q2.bit)
    {w : List Act} (hw : (E.xchg op1 op2).Gives w ()) (fill : Act → BitVec 32) : One fill w := by
  obtain ⟨i, hi, -⟩ := c48_partial op1 op2 h1 h2 hq hs hw fill
  exact fun t => X86.skip_xchg (hi t)

/-- C97: TEST with an immediate (C72). -/
theorem c97_test (op : Operand) (hop : OpOK op) (hq : ∀ q, op = .reg q → q.Named)
    (hb : op.bit = 8 ∨ op.bit = 16 ∨ op.bit = 32 ∨ op.bit = 64) (imm : BitVec 32)
    {w : List Act} (hw : (E.testI op imm).Gives w ()) (fill : Act → BitVec 32) : One fill w := by
  obtain ⟨i, k, hi, h0, -⟩ := c72_test op hop hq hb imm hw fill
  exact fun t => X86.skip_testI (hi t) h0

/-- C97: IMUL with an immediate (C72). -/
theorem c97_imul_partial (r : Reg) (hk : r.kind = .reg) (hb : r.bit = 16 ∨ r.bit = 32 ∨ r.bit = 64) (op : Operand) (hop : OpOK op) (hop' : ApxOK op) (imm : BitVec 32)
    {w : List Act} (hw : (E.imulI r op imm).Gives w ()) (fill : Act → BitVec 32) : One fill w := by
  by_cases ha : (Operand.reg r).hasRex2NFZU = true ∨ op.hasRex2NFZU = true
  · obtain ⟨h, k, reg, rm, hd, hs, hm, ho, hk, hpp, hw, -⟩ := c72_imul_apx_partial r hk hb op hop' ha imm hw fill
    intro t
    refine X86.skip_insn (hd t) (X86.with4 hm) ?_
    rw [leBytes_len]
    by_cases h1 : k = 1
    · rw [if_pos h1] at ho
      rw [X86.bytes4 hm (k := .n 1) (by rw [ho]; rfl), h1]
      rfl
    · rw [if_neg h1] at ho
      rw [X86.bytes4 hm (k := .z) (by rw [ho]; rfl), hk h1]
      unfold X86.ImmKind.bytes X86.apxBits
      rw [if_pos hm, hw, hpp]
      rcases hb with h | h | h <;> rw [h] <;> rfl
  · obtain ⟨i, k, reg, hi, -⟩ := c72_imul_partial r hk hb op hop (by simpa using fun h => ha (Or.inl h)) (by simpa using fun h => ha (Or.inr h)) imm hw fill
    exact fun t => X86.skip_imulI (hi t)

/-- C97: indirect JMP and CALL (C61). -/
theorem c97_branch_partial (call far : Bool) (op : Operand) (hop : OpOK op) (hq : ∀ q, op = .reg q → q.Named)
    (hs : op.bit = 0 ∨ op.bit ∈ Reg.sizes) (hb : far = false → op.bit ≠ 16) {w : List Act}
    (hw : (jmpOp call op far).Gives w ()) (fill : Act → BitVec 32) : One fill w := by
  cases far
  · obtain ⟨i, hi, -⟩ := c61_near_partial call op hop hq hs (hb rfl) hw fill
    exact fun t => X86.skip_branch (hi t)
  · obtain ⟨a, i, -, hi, -⟩ := c61_far call op hop hs hw fill
    exact fun t => X86.skip_branch (hi t)

/-- C97: MOV from and to segment registers (C74). -/
theorem c97_mov_seg (op : Operand) (hop : OpOK op) (hq : ∀ q, op = .reg q → q.Named) (seg : BitVec 5) (hs : seg.toNat < 6)
    {w : List Act} (hw : (E.movFromSeg op seg).Gives w () ∨ seg ≠ 1 ∧ (E.movToSeg seg op).Gives w ()) (fill : Act → BitVec 32) : One fill w := by
  rcases hw with hw | ⟨h1, hw⟩
  · obtain ⟨i, hi, -⟩ := c74_from op hop hq seg hs hw fill
    exact fun t => X86.skip_movSeg (hi t)
  · obtain ⟨i, hi, -⟩ := c74_to_partial op hop seg hs h1 hw fill
    exact fun t => X86.skip_movSeg (hi t)

/-- C97: BSWAP (C73). -/
theorem c97_bswap (r : Reg) (hk : r.kind = .reg) (hb : r.bit = 32 ∨ r.bit = 64) {w : List Act} (hw : (E.bswap r).Gives w ()) (fill : Act → BitVec 32) : One fill w := by
  obtain ⟨w', hg, hi⟩ := c73_bswap r hk hb fill
  have : w' = w := by
    have h1 := hg.1
    rw [hw.1] at h1
    exact h1.symm
  subst this
  exact fun t => X86.skip_bswap (hi t)

/-- C97: PUSH and POP of fs and gs (C74). -/
theorem c97_stack_seg_partial (seg : Nat) (hs : seg = 4 ∨ seg = 5) {w : List Act} (hw : (E.pushSeg seg).Gives w () ∨ (E.popSeg seg).Gives w ()) (fill : Act → BitVec 32) :
    One fill w := by
  obtain ⟨⟨w1, g1, h1⟩, w2, g2, h2⟩ := c74_stack_partial seg hs fill
  rcases hw with hw | hw
  · have := g1.1.symm.trans hw.1
    subst this
    exact fun t => X86.skip_stackSeg (h1 t)
  · have := g2.1.symm.trans hw.1
    subst this
    exact fun t => X86.skip_stackSeg (h2 t)

/-! ## Sequences of calls -/

/-- A call of a function of `xbyak_mnemonic.h` with arguments for which the family of the function is known to be encoded correctly. -/
inductive Regular (e : Entry) (g : Args) : Prop
  | vec (hv : e.vexed = true) (hu : e.name ∉ unlisted) (hl : e.line ≠ 2626) (hp : Usual e g)
  | sse (hv : e.ssed = true) (hp : Proper e g)
  | gp (hv : e.gped = true) (hp : ProperG e g)
  | apx (hv : e.aped = true) (hp : ProperA e g) (hu : Uses e g)
  | fpuReg (hf : e.fpued = true) (hn : ∀ (i : Nat) q, g.ops[i]? = some (.reg q) → q.Named) (h0 : e.first0 = true → (g.reg 0).idx = 0)
  | fpuMem (hf : e.fpuMemd = true) (a : Addr) (hg : g.ops[0]? = some (.mem a)) (ha : a.WF) (hp : a.permitVsib = false) (hn : a.disp8N = 0)
      (ht : a.e.index.kind ≠ .tmm) (hb : a.o.bit ∈ memBits)
  | fixed (hf : e.fixed.isSome = true) (hp : ∀ b, (e.name, b) ∉ X86.prefixBytes) (hw : ∀ l, e.fixed ≠ some (0x9B :: l))
  | misc (hv : X86.among e.name miscNames = true) (hp : ProperM e g)
  | shift (p : Nat × BitVec 3) (n : Nat) (hp : p ∈ shiftNames) (he : e ∈ named p.1) (h1 : e.params.head? = some .op → GrpOK (g.op 0) none n)
      (h2 : e.params.head? = some .reg → GrpOK (g.op 1) (some (g.reg 0)) n)
  | unary (p : Nat × X86.UnaryOp) (n : Nat) (hp : p ∈ unaryNames) (he : e ∈ named p.1) (h1 : e.params = [.op] → GrpOK (g.op 0) none n)
      (h2 : e.params = [.reg, .op] → GrpOK (g.op 1) (some (g.reg 0)) n)
  | set (x : Nat × (X86.Flags → Bool)) (hx : x ∈ X86.suffixes) (he : e ∈ named (X86.cat n!"set" x.1)) (ho : SetOK (g.op 0))
  | cmov (x : Nat × (X86.Flags → Bool)) (hx : x ∈ X86.suffixes) (he : e ∈ named (X86.cat n!"cmov" x.1)) (h0 : Gpr (g.reg 0))
      (h2 : e.params = [.reg, .op] → OpOK (g.op 1))
      (h3 : e.params = [.reg, .reg, .op] → g.op 1 = .reg (g.reg 1) ∧ ((g.reg 1).kind = .reg ∧ (g.reg 1).bit = (g.reg 0).bit) ∧ ApxOK (g.op 2))

/-- C97: every call appends exactly one instruction. -/
theorem c97_call_partial {e : Entry} {g : Args} {w : List Act} (hc : Calls e g w) (hr : Regular e g) (fill : Act → BitVec 32) : One fill w := by
  cases hr with
  | vec hv hu hl hp => exact c97_vec_partial hv hu hl hc hp fill
  | sse hv hp => exact c97_sse_partial hv hc hp fill
  | gp hv hp => exact c97_gp_partial hv hc hp fill
  | apx hv hp hu => exact c97_apx_partial hv hc hp hu fill
  | fpuReg hf hn h0 => exact c97_fpu_reg_partial hf hc hn h0 fill
  | fpuMem hf a hg ha hp hn ht hb => exact c97_fpu_mem hf hc hg ha hp hn ht hb fill
  | fixed hf hp hw =>
    rcases c97_fixed_partial hc hf hp fill with h | ⟨bs, h, -⟩
    · exact h
    · obtain ⟨l, hl⟩ := Option.isSome_iff_exists.mp hf
      have hb : e.body = .leaf (.bytes l) := by
        unfold Entry.fixed at hl
        split at hl
        · rename_i l' h; cases hl; exact h
        · cases hl
      obtain ⟨m, hm, hg⟩ := hc.runs
      rw [hb] at hm
      cases hm
      have hg : l.map Act.byte = w := hg.1
      rw [← hg, concr_bytes] at h
      exact absurd (h ▸ hl) (hw bs)
  | misc hv hp => exact c97_misc_partial hv hc hp fill
  | shift p n hp he h1 h2 => exact c97_shift_partial hp he h1 h2 hc fill
  | unary p n hp he h1 h2 => exact c97_unary_partial hp he h1 h2 hc fill
  | set x hx he ho => exact c97_set_partial hx he ho hc fill
  | cmov x hx he h0 h2 h3 => exact c97_cmov_partial hx he h0 h2 h3 hc fill

/-- C97: the instructions of a sequence are found one after the other. -/
theorem c97_stream {fill : Act → BitVec 32} : ∀ {ws : List (List Act)}, (∀ w ∈ ws, One fill w) → ∀ t,
    X86.Stream (ws.map (concr fill)) ((ws.map (concr fill)).flatten ++ t) t
  | [], _, t => .nil t
  | w :: ws, h, t => by
    rw [List.map_cons, List.flatten_cons, List.append_assoc]
    exact .cons (h w (List.mem_cons_self ..) _) (c97_stream (fun v hv => h v (List.mem_cons_of_mem _ hv)) t)

/-- C97: a sequence of calls of functions of `xbyak_mnemonic.h`. -/
theorem c97_calls_partial {fill : Act → BitVec 32} (cs : List (Entry × Args × List Act)) (hc : ∀ c ∈ cs, Calls c.1 c.2.1 c.2.2 ∧ Regular c.1 c.2.1) (t : List Byte) :
    X86.Stream (cs.map fun c => concr fill c.2.2) ((cs.map fun c => concr fill c.2.2).flatten ++ t) t := by
  have h := c97_stream (fill := fill) (ws := cs.map fun c => c.2.2) (by
    intro w hw
    obtain ⟨c, hm, rfl⟩ := List.mem_map.mp hw
    exact c97_call_partial (hc c hm).1 (hc c hm).2 fill) t
  rw [List.map_map] at h
  exact h

theorem skip_nil : X86.skip [] = none := rfl

/-- C97: the division into instructions is unique. -/
theorem c97_unique {ws ws' : List (List Byte)} {bs : List Byte} (h : X86.Stream ws bs []) (h' : X86.Stream ws' bs []) : ws = ws' := by
  have gen : ∀ {ws : List (List Byte)} {bs t : List Byte}, X86.Stream ws bs t → t = [] → ∀ {ws'}, X86.Stream ws' bs [] → ws = ws' := by
    intro ws bs t h
    induction h with
    | nil t =>
      rintro rfl ws' h'
      generalize hb : ([] : List Byte) = b at h'
      cases h' with
      | nil => rfl
      | cons hs _ => rw [← hb] at hs; cases hs
    | cons hs _ ih =>
      rename_i w ws u t _
      rintro rfl ws' h'
      generalize hb : w ++ u = b at h'
      cases h' with
      | nil => rw [hb] at hs; cases hs
      | cons hs' h' =>
        rename_i w' ws' u'
        rw [← hb, hs] at hs'
        cases hs'
        rw [ih rfl h']
        congr 1
        exact List.append_cancel_right hb
  exact gen h rfl h'

/-- C97: calls that leave the same bytes behind left the same bytes one by one. -/
theorem c97_same {fill : Act → BitVec 32} {ws ws' : List (List Act)} (h : ∀ w ∈ ws, One fill w) (h' : ∀ w ∈ ws', One fill w)
    (he : (ws.map (concr fill)).flatten = (ws'.map (concr fill)).flatten) : ws.map (concr fill) = ws'.map (concr fill) := by
  have a := c97_stream h []
  have b := c97_stream h' []
  rw [List.append_nil] at a b
  rw [← he] at b
  exact c97_unique a b

/-- C97 does not hold in full: `neg(xmm1, rax)` is accepted and appends nothing (`c64_refuted_empty`); `fclex` appends two instructions. -/
theorem c97_refuted : (∀ fill, ¬ One fill (E.opROO (.xmm 1) (.reg (.gp 0 64)) (.reg (.gp 3 128)) (unaryTy .neg true) 0xF6).acts) ∧
    X86.skip [0x9B, 0xDB, 0xE2] = some [0xDB, 0xE2] ∧ X86.skip [0xDB, 0xE2] = some [] := by
  refine ⟨fun fill h => ?_, by decide +kernel, by decide +kernel⟩
  have := h []
  rw [c64_refuted_empty] at this
  cases this

end Mn

namespace Asm
open CA G

/-- C97: jumps and calls to a label are one instruction in the finished code (C98). -/
theorem c97_label (env : Env) (he : env.Sane) (c : CA) (hc : NewCode c) (a d : List Op) (l : LRef) (ty : LabelType) (f : BranchFn) (hf : f ∈ branchFns)
    (g1 g2 g3 g4 : G) (hh : Hist (CallOk (cxOf c) env) env (a ++ (f.calls l ty ++ d)) (G.init c))
    (h1 : run env a (G.init c) = .ok g1) (h2 : Done env (f.calls l ty) g1 g2)
    (h3 : run env d g2 = .ok g3) (h4 : Final env g3 g4) (hr : .reset ∉ d) :
    X86.skip (g4.ca.code.drop g1.ca.size) = some (g4.ca.code.drop g2.ca.size) := by
  obtain ⟨v, h, -⟩ := c98_label env he c hc a d l ty f hf g1 g2 g3 g4 hh h1 h2 h3 h4 hr
  exact X86.skip_direct h

/-- C97: conditional jumps to a label are one instruction in the finished code (C44). -/
theorem c97_jcc (env : Env) (he : env.Sane) (c : CA) (hc : NewCode c) (a d : List Op) (l : LRef) (ty : LabelType) (cc : BitVec 4)
    (g1 g2 g3 g4 : G) (hh : Hist (CallOk (cxOf c) env) env (a ++ .jmp l ty (jccS cc) (jccL cc) 0x0F :: d) (G.init c))
    (h1 : run env a (G.init c) = .ok g1) (h2 : step env (.jmp l ty (jccS cc) (jccL cc) 0x0F) g1 = .ok () g2)
    (h3 : run env d g2 = .ok g3) (h4 : Final env g3 g4) (hr : .reset ∉ d) :
    X86.skip (g4.ca.code.drop g1.ca.size) = some (g4.ca.code.drop g2.ca.size) := by
  obtain ⟨v, h, -⟩ := c44_jcc env he c hc a d l ty cc g1 g2 g3 g4 hh h1 h2 h3 h4 hr
  exact X86.skip_jcc h

end Asm

namespace Mn

/-! ## Examples -/

/-- `imul(ax, [rip + 0x10], 0x1234)`, `vpshufd(zmm1, [rax + 64], 3)`, `mov(rax, 0x123456789abcdef)`, `ret` -/
example : X86.Stream [[0x66, 0x69, 0x05, 0x10, 0, 0, 0, 0x34, 0x12], [0x62, 0xF1, 0x7D, 0x48, 0x70, 0x48, 0x01, 0x03],
    [0x48, 0xB8, 0xEF, 0xCD, 0xAB, 0x89, 0x67, 0x45, 0x23, 0x01], [0xC3]]
    ([0x66, 0x69, 0x05, 0x10, 0, 0, 0, 0x34, 0x12] ++ ([0x62, 0xF1, 0x7D, 0x48, 0x70, 0x48, 0x01, 0x03] ++
      ([0x48, 0xB8, 0xEF, 0xCD, 0xAB, 0x89, 0x67, 0x45, 0x23, 0x01] ++ ([0xC3] ++ [])))) [] :=
  .cons (by decide +kernel) (.cons (by decide +kernel) (.cons (by decide +kernel) (.cons (by decide +kernel) (.nil []))))

/-- The reg field of the group decides about the immediate: `test(ecx, 5)`, `not_(ecx)`; the operand size about its length: `add(cx, 0x1234)` -/
example : X86.skip [0xF7, 0xC1, 5, 0, 0, 0, 0x90] = some [0x90] ∧ X86.skip [0xF7, 0xD1, 0x90] = some [0x90] ∧
    X86.skip [0x66, 0x81, 0xC1, 0x34, 0x12, 0x90] = some [0x90] ∧ X86.skip [0x81, 0xC1, 0x34, 0x12] = none := by decide +kernel

/-- `push(r12)`, `mov(eax, 5)` -/
example (fill : Act → BitVec 32) : X86.Stream [[0x41, 0x54], [0xB8, 5, 0, 0, 0]] [0x41, 0x54, 0xB8, 5, 0, 0, 0, 0xCC] [0xCC] :=
  c97_stream (fill := fill) (ws := [[.byte 0x41, .byte 0x54], [.byte 0xB8, .byte 5, .byte 0, .byte 0, .byte 0]])
    (fun w hw => by
      rcases List.mem_cons.mp hw with rfl | hw
      · exact c97_push false (.gp 12 64) ⟨rfl, rfl⟩ fill
      · obtain rfl := List.mem_singleton.mp hw
        exact c97_mov (.gp 0 32) ⟨by decide, by decide, by decide, by decide⟩ 5 ⟨by decide +kernel, rfl⟩ fill) [0xCC]

end Mn
end Xbyak
