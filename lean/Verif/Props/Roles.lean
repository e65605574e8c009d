import Verif.Reads
import Verif.Spec.Skip
import Verif.Props.Manual
/-!
# C67: every operand is where the manual puts it

An accepted call of a VEX or EVEX function is decoded by the manual's rules: the operands are found in ModRM.reg, vvvv, ModRM.rm and the
immediate as the Op/En column says, memory operands mean the address that was given, with displacements in the manual's unit.
-/
namespace Xbyak
namespace Mn
open E

/-! ## The functions -/

/-- The helper ends in `opVex`. -/
def Leaf.vexed : Leaf → Bool
  | avx3 .. | avx2 .. | avxK .. | vex .. | vexCB .. | cvt .. | cvt2 .. | cvt3 .. | cvt5 .. | cvt6 .. | encoding .. | cvt2Enc .. | vmov .. | gather ..
  | gather2 .. | gatherFetch .. | rro .. | kmov .. | amx .. => true
  | _ => false

/-- The function writes VEX and EVEX instructions. -/
def Entry.vexed (e : Entry) : Bool := e.body.leaves.any Leaf.vexed

/-- The function passes general registers on as `Xmm(idx)`. -/
def Entry.conv (e : Entry) : Bool := e.body.leaves.any fun
  | .cvt3 .. => true
  | .avx3 _ _ (.xmmOf _) .. => true
  | _ => false

/-- The types of the operands when `n` of them are given.  `vmovhlps` and `vmovlhps` (1339, 1344) refuse a third operand that is not xmm. -/
def Entry.pars (e : Entry) (n : Nat) : List Param :=
  if e.line = 1339 ∨ e.line = 1344 then [Param.xmm, .xmm, .xmm].take n else (e.params.filter Param.isOperand).take n

/-- Functions whose EVEX memory operands have the wrong displacement unit (`c67_refuted_unit`), or take a rounding mode that
is then written as broadcast (2238, 2282: `c39_refuted_mem_rounding`), or have no EVEX form (1556-1558: `c66_refuted_vsm3`). -/
def noMem (line : Nat) : Bool := [1222, 1227, 1230, 1231, 1885, 1886, 1887, 1888, 2197, 2198, 2199, 2200, 2201, 2238, 2282, 1556, 1557, 1558].any (Nat.beq line)

/-- Functions that accept a broadcast the manual does not have (`c67_refuted_bcast`). -/
def noBcast (line : Nat) : Bool := [1743, 2423].any (Nat.beq line)

/-! ## The check of the table -/

/-- The argument whose number the slot carries. -/
def Slot.src : Slot → Option Nat
  | .a i | .xmmOf i | .ymmOf i | .gp16Of i | .gp64Of i | .nfOf i => some i
  | _ => none

/-- The slot is register 0. -/
def Slot.zero : Slot → Bool
  | .r q => q.idx == 0
  | .kindOf _ n | .bitOf _ n => n == 0
  | .zeroOf _ => true
  | _ => false

/-- Argument `j` is put there. -/
def Shape.puts (sh : Shape) (j : Nat) : X86.Role → Bool
  | .reg => sh.r.src == some j
  | .vvvv => sh.v.bind Slot.src == some j
  | .rm => sh.op == .a j
  | .is4 => sh.imm == .is4 j

def Shape.putsAll (sh : Shape) (d : Nat) : Nat → List X86.Role → Bool
  | _, [] => true
  | k, r :: l => sh.puts (k - d) r && sh.putsAll d (k + 1) l

/-- `n` arguments fill the roles, if `d = 1` the first of them twice. -/
def Shape.fills (sh : Shape) (n d : Nat) (f : X86.Form) : Bool := Nat.beq f.en.roles.length (n + d) && sh.putsAll d 0 f.en.roles

/-- A form of `n` operands whose last is ModRM.rm; those with an opcode extension shift by an immediate. -/
def takesRm (n : Nat) (f : X86.Form) : Bool := Nat.beq f.en.roles.length n && f.en.roles.getLast? == some .rm && f.ext.isNone

/-- The first of `n` operands may stand for two: the manual has no form with `n` operands, or the last one is a register. -/
def double (e : Entry) (ps : List Param) (n : Nat) : Bool :=
  ((X86.Manual.forms e.name).all fun f => !takesRm n f) || (Slot.a (n - 1)).isMem ps == some false

def Shape.lays (e : Entry) (ps : List Param) (n : Nat) (sh : Shape) (f : X86.Form) : Bool :=
  (sh.fills n 0 f || (sh.fills n 1 f && double e ps n)) &&
  (f.en.roles.contains .vvvv || match sh.v with | none => true | some s => s.zero) &&
  (f.en.roles.contains .rm || sh.op.zero)

def Shape.unit (e : Entry) (ps : List Param) (sh : Shape) (t : Ty) (f : X86.Form) : Bool :=
  f.sp != .evex || sh.op.isMem ps == some false || noMem e.line ||
    (f.tup == some (tupleOf t) && (!t.has (T_B32 ||| T_B64) || noBcast e.line || f.bc == bcastBytes t))

def Slot.isReg (ps : List Param) (s : Slot) : Bool := match s.src with | some j => (Slot.a j).isMem ps == some false | none => true

def Slot.isArg : Slot → Bool
  | .a _ => true
  | _ => false

/-- A byte is written behind the operands. -/
def Imm.any : Imm → Bool
  | .none => false
  | _ => true

theorem Imm.any_val (i : Imm) (g : Args) : (i.val g).isSome = i.any := by cases i <;> rfl

/-- What has to hold of the flags. -/
def Shape.flags (e : Entry) (ps : List Param) (sh : Shape) (t : Ty) : Bool :=
  (sh.vsib || !t.has T_VSIB) && (!t.has T_ER_R || noMem e.line) &&
  (!sh.vsib || ((sh.v.isNone || !t.has (T_EVEX ||| T_MUST_EVEX)) && (t.has T_MUST_EVEX || e.gathers))) &&
  (!isDup t || (sh.wide && !sh.vsib && sh.r == .a 0 && ps[0]? == some .xmm))

def Shape.ok (e : Entry) (ps : List Param) (n : Nat) (sh : Shape) : Bool :=
  (sh.op.isArg || sh.op.zero) && (sh.vsib == X86.Manual.vsib e.name) && (!sh.conv || e.conv) && ((sh.rchk && sh.r.isArg) || e.line == 1439 || sh.r.isReg ps) &&
  (match sh.v with | some s => (sh.vchk && s.isArg) || s.isReg ps | none => true) &&
  (match sh.imm with | .is4 j => e.is4 j && (Slot.a j).isMem ps == some false && !e.params.contains .int | .i k => k == 0 | _ => !e.params.contains .int) &&
  sh.tys.all fun t => sh.flags e ps t && (vexSel t sh.c sh.r.num none none).all fun s =>
    vmovqSel e.line s || (X86.Manual.forms e.name ++ odd e.line).any fun f => s.meets f && sh.lays e ps n f && sh.unit e ps t f && sh.imm.any == f.ib

def Entry.rolesAt (e : Entry) (n : Nat) : Bool :=
  e.body.sends (e.pars n) n && e.body.leaves.all fun l => (l.shapes (e.pars n) n).all fun sh => sh.ok e (e.pars n) n

def Entry.rolesOk (e : Entry) : Bool :=
  let n := (e.params.filter Param.isOperand).length
  e.vec && decide (e.opt ≤ 1) && e.rolesAt n && (e.opt == 0 || (!e.body.bare && e.rolesAt (n - 1)))

set_option maxRecDepth 1000000 in
theorem roles_check : (all.all fun e => !e.vexed || unlisted.any (Nat.beq e.name) || Nat.beq e.line 2626 || e.rolesOk) = true := by decide +kernel

/-! ## The statement -/

/-- Conditions on the arguments.  `mem` and `size` hold for all operands a program can make; the others leave out what the library gets
wrong, each with the theorem that shows it. -/
structure Usual (e : Entry) (g : Args) : Prop where
  good : g.Good
  mem : ∀ i a, g.op i = .mem a → a.WF ∧ a.disp8N = 0 ∧ a.permitVsib = false ∧ a.e.index.kind ≠ .tmm
  size : ∀ i q, g.op i = .reg q → (q.isSIMD = true → SizeOK q) ∧ (q.isSIMD = true ∨ q.kind = .reg ∨ q.idx.toNat < 16)
  /-- APX registers and modifiers select other encodings -/
  apx : e.body.viaRoo = true → g.NoApx
  /-- `c67_refuted_gpr` -/
  conv : e.conv = true → ∀ i q, g.op i = .reg q → q.isSIMD = true ∨ q.idx.toNat < 16
  /-- `c38_refuted_vsib` -/
  index : e.gathers = true → ∀ i a, g.op i = .mem a → a.e.index.idx.toNat < 16
  /-- `c42_refuted_is4` -/
  is4 : ∀ i q, e.is4 i = true → g.op i = .reg q → q.idx.toNat < 16
  /-- `c67_refuted_unit` -/
  unit : noMem e.line = true → ∀ i a, g.op i ≠ .mem a
  /-- `c67_refuted_bcast` -/
  bcast : noBcast e.line = true → ∀ i a, g.op i = .mem a → a.broadcast = false

/-- The operand is found where the role says. -/
def At (fill : Act → BitVec 32) (h : X86.Head) (reg : BitVec 3) (rm : X86.RM) (imm : Option Byte) : X86.Role → Operand → Prop
  | .reg, .reg q => X86.regNum h reg = q.idx
  | .vvvv, .reg q => h.vreg = q.idx
  | .rm, .reg q => ∃ n, rm = .reg n ∧ (if q.isSIMD then X86.rmVec h n else X86.rmGpr h n) = q.idx
  | .rm, .mem a => ∃ m, rm = .mem m ∧ (a.withImm imm).Means fill h m
  | .is4, .reg q => q.idx.toNat < 16 ∧ ∃ b, imm = some b ∧ b.extractLsb' 4 4 = q.idx.setWidth 4
  | _, _ => False

/-- The instruction with these decoded parts is the form with the operands. -/
structure Holds (e : Entry) (g : Args) (fill : Act → BitVec 32) (f : X86.Form) (h : X86.Head) (reg : BitVec 3) (rm : X86.RM) (imm : Option Byte)
    (ops : List Operand) : Prop where
  form : f ∈ X86.Manual.forms e.name ∨ f ∈ odd e.line
  is : f.Is h reg
  /-- the operands are the arguments, or the first argument stands for two of them -/
  args : ops = g.ops ∨ (ops = g.op 0 :: g.ops ∧ ((∀ f' ∈ X86.Manual.forms e.name, takesRm g.ops.length f' = false) ∨ (g.op (g.ops.length - 1)).isMEM = false))
  length : f.en.roles.length = ops.length
  at_ : ∀ (i : Nat) ρ o, f.en.roles[i]? = some ρ → ops[i]? = some o → At fill h reg rm imm ρ o
  /-- fields that no operand uses are zero -/
  vvvv : .vvvv ∉ f.en.roles → X86.Manual.vsib e.name = false → h.vreg = 0
  noRm : .rm ∉ f.en.roles → rm = .reg 0
  int : .int ∈ e.params → imm = some (g.i8 0)
  /-- there is an immediate byte if the opcode has one -/
  ib : imm.isSome = f.ib

theorem Slot.src_idx {g : Args} {s : Slot} {j : Nat} (h : s.src = some j) : (s.reg g).idx = (g.op j).hd.idx := by
  cases s <;> cases h <;> rfl

theorem Slot.zero_idx {g : Args} {s : Slot} (h : s.zero = true) : (s.reg g).idx = 0 := by
  cases s <;> first | cases h | skip
  · exact eq_of_beq h
  · rename_i i n
    have : n = 0 := by simpa [Slot.zero] using h
    subst this
    show (vecOf (g.reg i).kind 0).idx = 0
    unfold vecOf; split <;> rfl
  · exact cvtIdx0_idx _
  · rename_i i n
    have : n = 0 := by simpa [Slot.zero] using h
    subst this; rfl

theorem Shape.putsAll_at {sh : Shape} {d : Nat} : ∀ {k : Nat} {l : List X86.Role}, sh.putsAll d k l = true → ∀ i ρ, l[i]? = some ρ → sh.puts (k + i - d) ρ = true := by
  intro k l
  induction l generalizing k with
  | nil => intro _ i ρ h; cases h
  | cons r l ih =>
    intro h i ρ hi
    unfold Shape.putsAll at h
    rw [Bool.and_eq_true] at h
    cases i with
    | zero => cases hi; exact h.1
    | succ i =>
      have := ih h.2 i ρ hi
      rwa [show k + 1 + i = k + (i + 1) by omega] at this

theorem Args.Fits.are' {g : Args} {e : Entry} (h : g.Fits e.params e.opt) : g.Are ((e.params.filter Param.isOperand).take g.ops.length) := by
  intro i p hp
  rw [List.getElem?_take] at hp
  split at hp
  · rename_i hl
    have := h.2.2 i p g.ops[i] hp (List.getElem?_eq_getElem hl)
    unfold Args.op
    rw [List.getElem?_eq_getElem hl]
    exact this
  · cases hp

set_option maxRecDepth 1000000 in
theorem line1339 : (all.filter fun e => e.line == 1339) = [⟨1339, n!"vmovhlps", [.xmm, .xmm, .op], 1, .guard (fun g => !(g.ops[2]?).isNone && !((g.reg 2).isXMM)) .BAD_COMBINATION
    (.leaf (.avx3 (.a 0) (.a 1) (.a 2) (fl [T_0F, T_EVEX, T_EW0]) 0x12 .none))⟩] := rfl
set_option maxRecDepth 1000000 in
theorem line1344 : (all.filter fun e => e.line == 1344) = [⟨1344, n!"vmovlhps", [.xmm, .xmm, .op], 1, .guard (fun g => !(g.ops[2]?).isNone && !((g.reg 2).isXMM)) .BAD_COMBINATION
    (.leaf (.avx3 (.a 0) (.a 1) (.a 2) (fl [T_0F, T_EVEX, T_EW0]) 0x16 .none))⟩] := rfl
theorem isXMM_op {g : Args} (hg : g.Good) {i : Nat} (h : (g.reg i).isXMM = true) : Param.takes .xmm (g.op i) = true := by
  unfold Args.reg at h
  cases hq : g.op i with
  | reg q => rw [hq] at h; simp [Param.takes, Operand.isMEM, Operand.hd, Reg.isSIMD, show q.isXMM = true from h]
  | mem a => rw [hq] at h; simp [Operand.hd, Reg.isXMM, hg.kind i a hq] at h

/-- The arguments have the types listed. -/
theorem pars_are {e : Entry} {g : Args} {w : List Act} (hc : Calls e g w) (hg : g.Good) : g.Are (e.pars g.ops.length) := by
  unfold Entry.pars
  split
  · rename_i hl
    have key : ∀ l : Leaf, e.params = [.xmm, .xmm, .op] → e.body = .guard (fun g => !(g.ops[2]?).isNone && !((g.reg 2).isXMM)) .BAD_COMBINATION (.leaf l) →
        g.Are ([Param.xmm, .xmm, .xmm].take g.ops.length) := by
      intro l hp hb
      obtain ⟨m, hm, hw⟩ := hc.runs
      rw [hb] at hm
      obtain ⟨m', hm', rfl⟩ := Option.map_eq_some_iff.mp hm
      rw [Enc.throwIf_bind] at hw
      have ht := Args.Fits.are' hc.fits
      rw [hp] at ht
      intro i p hi
      rw [List.getElem?_take] at hi
      split at hi
      · rename_i hlt
        have ht := ht i
        rw [List.getElem?_take, if_pos hlt] at ht
        match i, hi with
        | 0, hi => cases hi; exact ht .xmm rfl
        | 1, hi => cases hi; exact ht .xmm rfl
        | 2, hi =>
          cases hi
          refine isXMM_op hg ?_
          have := hw.1
          dsimp only at this
          rw [List.getElem?_eq_getElem hlt] at this
          simpa using this
        | n + 3, hi => cases hi
      · cases hi
    rcases hl with hl | hl
    · obtain rfl := mem_line hc.mem hl line1339
      exact key _ rfl rfl
    · obtain rfl := mem_line hc.mem hl line1344
      exact key _ rfl rfl
  · exact Args.Fits.are' hc.fits

theorem op_reg {g : Args} {j : Nat} (h : (g.op j).isMEM = false) : ∃ q, g.op j = .reg q ∧ (g.op j).hd = q := by
  cases hq : g.op j with
  | reg q => exact ⟨q, rfl, rfl⟩
  | mem a => rw [hq] at h; cases h

theorem is4_nibble : ∀ q : BitVec 5, ((q.setWidth 8 <<< 4 : BitVec 8)).extractLsb' 4 4 = q.setWidth 4 := by decide +kernel

/-- A slot of a register operand. -/
theorem Slot.isReg_op {g : Args} {ps : List Param} (ht : g.Are ps) {s : Slot} (h : s.isReg ps = true) {j : Nat} (hj : s.src = some j) : (g.op j).isMEM = false := by
  unfold Slot.isReg at h
  rw [hj] at h
  exact Slot.not_mem ht (s := .a j) (by simpa using h)

theorem Slot.isArg_op {g : Args} {s : Slot} (h : s.isArg = true) {j : Nat} (hj : s.src = some j) (hm : (s.op g).isMEM = false) : (g.op j).isMEM = false := by
  cases s <;> cases h
  cases hj
  exact hm

theorem rolesAt_of {e : Entry} (he : e ∈ all) (hv : e.vexed = true) (hu : e.name ∉ unlisted) (hl : e.line ≠ 2626) {g : Args} (hf : g.Fits e.params e.opt) :
    e.vec = true ∧ e.rolesAt g.ops.length = true := by
  have h := List.all_eq_true.mp roles_check e he
  simp only [hv, Bool.not_true, Bool.false_or, Bool.or_eq_true] at h
  rcases h with (h | h) | h
  · obtain ⟨n, hn, hn'⟩ := List.any_eq_true.mp h
    rw [Nat.beq_eq] at hn'
    exact absurd (hn' ▸ hn) hu
  · exact absurd (Nat.eq_of_beq_eq_true h) hl
  · unfold Entry.rolesOk at h
    simp only [Bool.and_eq_true, Bool.or_eq_true, decide_eq_true_eq, beq_iff_eq] at h
    obtain ⟨⟨⟨h1, h2⟩, h3⟩, h4⟩ := h
    refine ⟨h1, ?_⟩
    have a := hf.1
    have b := hf.2.1
    by_cases hn : g.ops.length = (e.params.filter Param.isOperand).length
    · rw [hn]; exact h3
    · have : e.opt = 1 := by omega
      rw [this] at h4
      rw [show g.ops.length = (e.params.filter Param.isOperand).length - 1 by omega]
      rcases h4 with h4 | h4
      · cases h4
      · exact h4.2

/-- The call ends in one of the shapes, with a register for ModRM.reg. -/
theorem sent_shape {e : Entry} {g : Args} {w : List Act} (hc : Calls e g w) (hp : Usual e g) (hr : e.rolesAt g.ops.length = true) :
    ∃ l ∈ e.body.leaves, ∃ sh ∈ l.shapes (e.pars g.ops.length) g.ops.length, Sent g sh w ∧ ∀ j, sh.r.src = some j → (g.op j).isMEM = false := by
  have ht := pars_are hc hp.good
  unfold Entry.rolesAt at hr
  rw [Bool.and_eq_true] at hr
  obtain ⟨m, hm, hw⟩ := hc.runs
  by_cases hl : e.line = 1439
  · obtain rfl := mem_line hc.mem hl line1439
    obtain ⟨m', hm', rfl⟩ := Option.map_eq_some_iff.mp hm
    rw [Enc.throwIf_bind] at hw
    obtain ⟨_, hw⟩ := hw
    have hs := hr.1
    unfold Body.sends at hs
    unfold Body.sends at hs
    rw [Bool.and_eq_true] at hs
    unfold Body.run at hm'
    split at hm'
    · rename_i hR
      cases hm'
      obtain ⟨sh, hsh, h⟩ := Leaf.sent hp.good ht hs.1 (fun h => by cases h) hw
      refine ⟨_, List.mem_cons_self .., sh, hsh, h, ?_⟩
      intro j hj
      rw [Bool.and_eq_true] at hR
      have : sh.r = .xmmOf 0 := by
        rw [show Leaf.shapes _ _ _ = _ from rfl] at hsh
        simp only [Leaf.shapes, rmSlot] at hsh
        split at hsh
        · rw [List.mem_singleton] at hsh; subst hsh; rfl
        · rw [List.mem_singleton] at hsh; subst hsh; rfl
      rw [this] at hj
      cases hj
      cases hq : g.op 0 with
      | reg q => rfl
      | mem a =>
        have := hR.1
        simp [Args.reg, hq, Operand.hd, Reg.isREG, hp.good.kind 0 a hq] at this
    · cases hm'
      obtain ⟨sh, hsh, h⟩ := Leaf.sent hp.good ht hs.2 (fun h => by cases h) hw
      refine ⟨_, List.mem_cons_of_mem _ (List.mem_cons_self ..), sh, hsh, h, ?_⟩
      intro j hj
      rw [List.mem_singleton.mp hsh] at hj
      cases hj
      have := hc.fits.are (e := ⟨1439, _, _, _, _⟩) 1 .xmm rfl
      simp only [Param.takes, Bool.and_eq_true, Bool.not_eq_true'] at this
      exact this.1
  · obtain ⟨l, hl', sh, hsh, h⟩ := Body.sent hp.good ht hr.1 hp.apx hm hw
    refine ⟨l, hl', sh, hsh, h, fun j hj => ?_⟩
    have hok := List.all_eq_true.mp (List.all_eq_true.mp hr.2 l hl') sh hsh
    unfold Shape.ok at hok
    simp only [Bool.and_eq_true, Bool.or_eq_true, beq_iff_eq] at hok
    rcases hok.1.1.1.2 with (h1 | h1) | h1
    · have := h.rchk h1.1
      exact Slot.isArg_op h1.2 hj this
    · exact absurd h1 hl
    · exact Slot.isReg_op ht h1 hj

theorem vexSel_none {t : Ty} {c : Byte} {x : Option (BitVec 3)} {s : Sel} (h : s ∈ vexSel t c x none none) : s.mem = none ∧ s.imm = none := by
  unfold vexSel at h
  rw [List.mem_append] at h
  rcases h with h | h <;> split at h
  · cases h
  · rw [List.mem_singleton] at h; subst h; exact ⟨rfl, rfl⟩
  · rw [List.mem_singleton] at h; subst h; exact ⟨rfl, rfl⟩
  · cases h

theorem vIdx_map {v : Option Reg} {l : Option (BitVec 5)} (h : v.map Reg.idx = l) : vIdx v = l.getD 0 := by
  subst h
  cases v <;> rfl

theorem vexSel_evex {t : Ty} {c : Byte} {x : Option (BitVec 3)} {m : Option Bool} {i : Option Byte} {s : Sel} (h : s ∈ vexSel t c x m i)
    (ht : t.has (T_EVEX ||| T_MUST_EVEX) = false) : s.sp ≠ .evex := by
  unfold vexSel at h
  rw [ht, List.mem_append] at h
  rcases h with h | h
  · split at h
    · cases h
    · rw [List.mem_singleton] at h; subst h; exact fun h => by cases h
  · cases h

theorem mk5_zero : ∀ a b (n : BitVec 3), X86.mk5 a b n = 0 → n = 0 := by decide +kernel

theorem dup_vl {r base : Reg} (hr : SizeOK r) (hb : base = .nil ∨ base.kind = .reg ∧ (base.bit = 32 ∨ base.bit = 64)) :
    evexVL r base (some (cvtIdx0 r)) 0 = 128 ∨ evexVL r base (some (cvtIdx0 r)) 0 = 256 ∨ evexVL r base (some (cvtIdx0 r)) 0 = 512 := by
  have hb : base.bit ≤ 64 := by
    rcases hb with rfl | ⟨_, h | h⟩
    · decide
    · omega
    · omega
  obtain ⟨h1, h2, h3⟩ := hr
  unfold evexVL cvtIdx0 vBit
  cases hz : r.isZMM with
  | true =>
    have := h1 hz
    simp [Reg.zmm, this]; omega
  | false =>
    cases hy : r.isYMM with
    | true =>
      have := h2 hy
      simp [Reg.ymm, this]; omega
    | false =>
      have := h3 hz hy
      simp [Reg.xmm]; omega

theorem base_bit {a : Addr} (ha : a.WF) : a.getRegExp.base = .nil ∨ a.getRegExp.base.kind = .reg ∧ (a.getRegExp.base.bit = 32 ∨ a.getRegExp.base.bit = 64) := by
  by_cases hm : a.mode = .modRM
  · rcases (getRegExp_wf (ha.exp hm).1).base with h | h
    · exact .inl h
    · exact .inr ⟨h.1, h.2.1⟩
  · rw [nil_getRegExp a (ha.rip hm)]; exact .inl (ha.rip hm).1

/-- C67: an accepted call of a VEX or EVEX function writes an instruction that the manual's rules decode to one of the forms of the mnemonic,
with every argument in its place, memory operands meaning the address given, and the integer argument as immediate.
Partial: `Usual` leaves out operands for which this fails; `vscalefpbf16` with two operands is wrong (`c67_refuted_vscalef`); forms may be those
of `odd` (`c66_refuted_*`); the mnemonics in `unlisted` are not compared.  The vector length is not part of the statement. -/
theorem c67_partial {e : Entry} (hv : e.vexed = true) (hu : e.name ∉ unlisted) (hl : e.line ≠ 2626) {g : Args} {w : List Act} (hc : Calls e g w)
    (hp : Usual e g) (fill : Act → BitVec 32) : ∃ f h reg rm imm ops, Holds e g fill f h reg rm imm ops ∧
      ∀ t, X86.insn (X86.Manual.vsib e.name) (f.unit h) (concr fill w ++ t) = some (⟨h, reg, rm⟩, imm.toList ++ t) := by
  obtain ⟨hvec, hr⟩ := rolesAt_of hc.mem hv hu hl hc.fits
  have ht := pars_are hc hp.good
  obtain ⟨l, hl', sh, hsh, hS, hreg⟩ := sent_shape hc hp hr
  unfold Entry.rolesAt at hr
  rw [Bool.and_eq_true] at hr
  have hok := List.all_eq_true.mp (List.all_eq_true.mp hr.2 l hl') sh hsh
  unfold Shape.ok at hok
  simp only [Bool.and_eq_true, Bool.or_eq_true, beq_iff_eq, Bool.not_eq_true'] at hok
  obtain ⟨⟨⟨⟨⟨⟨hop, hvs⟩, hcv⟩, _⟩, hvr⟩, him⟩, htys⟩ := hok
  obtain ⟨r, v, o, t, hri, hvi, hpo, htm, hw, hvsib, hwide⟩ := hS.call
  have hT := List.all_eq_true.mp htys t htm
  rw [Bool.and_eq_true] at hT
  obtain ⟨hfl, hsel⟩ := hT
  unfold Shape.flags at hfl
  simp only [Bool.and_eq_true, Bool.or_eq_true, beq_iff_eq, Bool.not_eq_true'] at hfl
  obtain ⟨⟨⟨f1, f2⟩, f3⟩, f4⟩ := hfl
  -- the operand passed for ModRM.rm
  have memo : ∀ a, o = .mem a → ∃ i b, g.op i = .mem b ∧ sh.op = .a i ∧ (a = b ∨ a = { b with opt := false }) := by
    intro a ha
    have slot : ∀ b, sh.op.op g = .mem b → ∃ i, g.op i = .mem b ∧ sh.op = .a i := by
      intro b hb
      cases hs : sh.op with
      | a i => rw [hs] at hb; exact ⟨i, hb, rfl⟩
      | _ => rw [hs] at hb; cases hb
    cases hpo with
    | same => obtain ⟨i, h, h'⟩ := slot a ha; exact ⟨i, a, h, h', .inl rfl⟩
    | @noOpt b h => obtain ⟨i, h, h'⟩ := slot b h; cases ha; exact ⟨i, b, h, h', .inr rfl⟩
    | conv h => cases ha
  have usual : ∀ a, o = .mem a → a.WF ∧ a.disp8N = 0 ∧ a.permitVsib = false ∧ a.e.index.kind ≠ .tmm ∧ a.mode ≠ .disp64 ∧ noMem e.line = false ∧
      (noBcast e.line = true → a.broadcast = false) ∧ (e.gathers = true → a.e.index.idx.toNat < 16) := by
    intro a ha
    obtain ⟨i, b, hi, _, hb⟩ := memo a ha
    obtain ⟨m1, m2, m3, m4⟩ := hp.mem i b hi
    have m5 := hp.good.disp i b hi
    have m6 : noMem e.line = false := by
      cases hn : noMem e.line with
      | false => rfl
      | true => exact absurd hi (hp.unit hn i b)
    have m7 := fun h => hp.bcast h i b hi
    have m8 := fun h => hp.index h i b hi
    rcases hb with rfl | rfl
    · exact ⟨m1, m2, m3, m4, m5, m6, m7, m8⟩
    · exact ⟨⟨m1.exp, m1.rip, m1.kind⟩, m2, m3, m4, m5, m6, m7, m8⟩
  have simd : ∀ a, o = .mem a → a.e.index.isSIMD = sh.vsib := by
    intro a ha
    obtain ⟨u1, u2, u3, u4, _⟩ := usual a ha
    cases hs : sh.vsib with
    | true => exact hvsib hs a ha u1
    | false =>
      cases hx : a.e.index.isSIMD with
      | false => rfl
      | true =>
        subst ha
        refine (opVex_vsib r v a t sh.c _ u3 ((isVsib_simd u1 u4).trans hx) ?_ _ _ hw).elim
        rcases f1 with f1 | f1
        · rw [hs] at f1; cases f1
        · exact f1
  obtain ⟨h, reg, rm, R⟩ := opVex_reads hw (X86.Manual.vsib e.name)
    (by
      intro q hq
      cases hpo with
      | same =>
        cases hs : sh.op with
        | a i => rw [hs] at hq; exact (hp.size i q hq).2
        | _ =>
          rcases hop with h | h
          · rw [hs] at h; cases h
          · right; right
            have := Slot.zero_idx (g := g) h
            unfold Slot.reg at this
            rw [hq] at this
            rw [show q.idx = 0 from this]
            decide
      | noOpt h => cases hq
      | conv h => cases hq; exact .inl rfl)
    (fun a ha => by
      obtain ⟨u1, u2, u3, u4, u5, _⟩ := usual a ha
      exact ⟨u1, u2, u4, u5, (simd a ha).trans hvs⟩)
    (fun a ha h => by
      rcases f3 with f3 | f3
      · rw [hvs, h] at f3; cases f3
      · rcases f3.1 with f | f
        · left
          rw [Option.isNone_iff_eq_none] at f
          rw [f] at hvi
          exact Option.map_eq_none_iff.mp hvi
        · exact .inr f)
    (fun a ha h => by
      rcases f3 with f3 | f3
      · rw [hvs, h] at f3; cases f3
      · exact f3.2.imp id (usual a ha).2.2.2.2.2.2.2)
    (fun a ha => by
      rcases f2 with f2 | f2
      · exact f2
      · rw [(usual a ha).2.2.2.2.2.1] at f2; cases f2)
    (fun a ha hd => by
      rcases f4 with f4 | f4
      · rw [hd] at f4; cases f4
      · obtain ⟨⟨⟨g1, g2⟩, g3⟩, g4⟩ := f4
        obtain ⟨w1, w2⟩ := hwide g1
        subst w2
        have hx : Param.takes .xmm (g.op 0) = true := ht 0 _ g4
        simp only [Param.takes, Bool.and_eq_true, Bool.not_eq_true'] at hx
        obtain ⟨q, hq, hq'⟩ := op_reg hx.1
        have w1 : r = q := by rw [w1, g3]; exact hq'
        subst w1
        have hS : r.isSIMD = true := hq' ▸ hx.2
        exact ⟨hvs ▸ g2, dup_vl ((hp.size 0 r hq).1 hS) (base_bit (usual a ha).1)⟩)
    fill
  -- the form
  obtain ⟨s, hs, hh, c, t', hhd, hof, hext, -⟩ := opVex_shows r v o t sh.c (sh.imm.val g) (fun a ha => (usual a ha).2.2.2.2.1)
    (show OLe sh.r.num (some (lo3 r.idx)) by rw [hri]; exact Slot.num_le g sh.r) (.inl rfl) (.inl rfl) w () hw fill
  obtain ⟨c', t'', hhd', hc'⟩ := insn_head (R.insn (vunit t h) (fun _ => rfl) [])
  rw [List.append_nil, hhd] at hhd'
  cases hhd'
  rw [hc'] at hext
  have hF := List.all_eq_true.mp hsel s hs
  simp only [Bool.or_eq_true] at hF
  rcases hF with hF | hF
  · obtain ⟨n1, n2⟩ := vexSel_none hs
    refine (vmovq_never hvec hc ⟨hp.good, fun hb => ?_⟩ fill ⟨h, c, t', hhd, hof, hc' ▸ hext, .inl n1, .inl n2⟩ hF).elim
    simp only [vmovqSel, Bool.and_eq_true, Bool.or_eq_true, Nat.beq_eq] at hF
    rcases hF.1.1.1 with hl | hl
    · obtain rfl := mem_line hc.mem hl line1355
      exact absurd hb (by decide +kernel)
    · obtain rfl := mem_line hc.mem hl line1356
      exact absurd hb (by decide +kernel)
  obtain ⟨f, hfm, hF⟩ := List.any_eq_true.mp hF
  simp only [Bool.and_eq_true] at hF
  obtain ⟨⟨⟨hmeets, hlay⟩, hunit⟩, hib⟩ := hF
  have hIs := Sel.meets_is hmeets hof hext
  unfold Shape.lays at hlay
  simp only [Bool.and_eq_true, Bool.or_eq_true] at hlay
  obtain ⟨⟨hfill, hnv⟩, hnr⟩ := hlay
  have spread : ∃ d ops, sh.fills g.ops.length d f = true ∧ ops.length = g.ops.length + d ∧ (∀ (i : Nat) o, ops[i]? = some o → o = g.op (i - d)) ∧
      (ops = g.ops ∨ (ops = g.op 0 :: g.ops ∧ ((∀ f' ∈ X86.Manual.forms e.name, takesRm g.ops.length f' = false) ∨ (g.op (g.ops.length - 1)).isMEM = false))) := by
    rcases hfill with hf | hf
    · refine ⟨0, g.ops, hf, rfl, fun i o h => ?_, .inl rfl⟩
      show o = (g.ops[i]?).getD _
      rw [h]; rfl
    · refine ⟨1, g.op 0 :: g.ops, hf.1, rfl, fun i o h => ?_, .inr ⟨rfl, ?_⟩⟩
      · cases i with
        | zero => cases h; rfl
        | succ i =>
          show o = (g.ops[i]?).getD _
          rw [show g.ops[i]? = some o from h]; rfl
      · have := hf.2
        unfold double at this
        rw [Bool.or_eq_true] at this
        refine this.imp (fun h f' hf' => ?_) (fun h => ?_)
        · simpa using List.all_eq_true.mp h f' hf'
        · exact Slot.not_mem ht (s := .a _) (by simpa using h)
  obtain ⟨d, ops, hfl, hlen, hops, hargs⟩ := spread
  unfold Shape.fills at hfl
  rw [Bool.and_eq_true, Nat.beq_eq] at hfl
  have hput := Shape.putsAll_at hfl.2
  simp only [Nat.zero_add] at hput
  refine ⟨f, h, reg, rm, sh.imm.val g, ops, ⟨?_, hIs, hargs, hfl.1.trans hlen.symm, ?_, ?_, ?_, ?_, (Imm.any_val _ g).trans (eq_of_beq hib)⟩, R.insn _ ?_⟩
  · simpa using hfm
  · intro i ρ o' hρ ho'
    have hP := hput i ρ hρ
    rw [hops i o' ho']
    generalize i - d = j at hP
    cases ρ with
    | reg =>
      have hP : sh.r.src = some j := by simpa [Shape.puts] using hP
      obtain ⟨q, hq, hq'⟩ := op_reg (hreg j hP)
      rw [hq]
      show X86.regNum h reg = q.idx
      rw [R.reg, hri, Slot.src_idx hP, hq']
    | vvvv =>
      have hP : sh.v.bind Slot.src = some j := by simpa [Shape.puts] using hP
      obtain ⟨x, hx, hP⟩ := Option.bind_eq_some_iff.mp hP
      have hm : (g.op j).isMEM = false := by
        rw [hx] at hvr
        simp only [Bool.or_eq_true, Bool.and_eq_true] at hvr
        rcases hvr with hv' | hv'
        · exact Slot.isArg_op hv'.2 hP (hS.vchk hv'.1 x hx)
        · exact Slot.isReg_op ht hv' hP
      obtain ⟨q, hq, hq'⟩ := op_reg hm
      rw [hq]
      show h.vreg = q.idx
      rw [hx] at hvi
      rw [R.vreg ?_, vIdx_map hvi]
      · show (Slot.reg g x).idx = q.idx
        rw [Slot.src_idx hP, hq']
      · cases hvs' : X86.Manual.vsib e.name with
        | false => exact .inl rfl
        | true =>
          rcases f3 with f3 | f3
          · rw [hvs, hvs'] at f3; cases f3
          · rcases f3.1 with f | f
            · rw [hx] at f; cases f
            · refine .inr (R.space.resolve_right fun hsp => ?_)
              exact vexSel_evex hs f (hof.sp.symm.trans (by rw [hsp]; rfl))
    | rm =>
      have hP : sh.op = .a j := by simpa [Shape.puts] using hP
      rw [hP] at hpo
      have hRm := R.rm
      change Passed sh.conv (g.op j) o at hpo
      cases hpo with
      | same =>
        cases hq : g.op j with
        | mem a =>
          rw [hq] at hRm
          exact hRm
        | reg q =>
          rw [hq] at hRm
          obtain ⟨n, hn, h1, h2⟩ := hRm
          refine ⟨n, hn, ?_⟩
          split
          · rename_i hs'; exact h1 (.inl hs')
          · rename_i hs'; exact h2 (.inl (by simpa using hs'))
      | @noOpt a hq =>
        rw [hq]
        obtain ⟨m, hm, hM⟩ := hRm
        refine ⟨m, hm, ?_⟩
        unfold Addr.Means at hM ⊢
        revert hM
        cases Imm.val g sh.imm <;> dsimp only [Addr.withImm] <;> split
        any_goals exact id
        all_goals exact fun hM => ⟨hM.1, hM.2.1, .inr (hM.2.2.elim id id)⟩
      | @conv q hq hcon =>
        rw [hq]
        obtain ⟨n, hn, h1, h2⟩ := hRm
        refine ⟨n, hn, ?_⟩
        have hcon' : e.conv = true := by
          rcases hcv with h | h
          · rw [hcon] at h; cases h
          · exact h
        split
        · exact h1 (.inl rfl)
        · rename_i hs'
          exact h2 (.inr ((hp.conv hcon' j q hq).resolve_left hs'))
    | is4 =>
      have hP : sh.imm = .is4 j := by simpa [Shape.puts] using hP
      rw [hP] at him ⊢
      simp only [Bool.and_eq_true, beq_iff_eq] at him
      obtain ⟨q, hq, hq'⟩ := op_reg (Slot.not_mem ht him.1.2)
      rw [hq]
      refine ⟨hp.is4 j q him.1.1 hq, _, rfl, ?_⟩
      rw [show (g.reg j).idx = q.idx by rw [← hq']; rfl]
      exact is4_nibble _
  · intro hn hvs'
    rw [R.vreg (.inl hvs'), vIdx_map hvi]
    rcases hnv with hnv | hnv
    · exact absurd (by simpa using hnv) hn
    · cases hx : sh.v with
      | none => rfl
      | some x =>
        rw [hx] at hnv
        exact Slot.zero_idx hnv
  · intro hn
    rcases hnr with hnr | hnr
    · exact absurd (by simpa using hnr) hn
    · have hz := Slot.zero_idx (g := g) hnr
      have hRm := R.rm
      have : ∃ q, o = .reg q ∧ q.idx = 0 := by
        unfold Slot.reg at hz
        cases hpo with
        | same =>
          cases hq : sh.op.op g with
          | reg q => rw [hq] at hz; exact ⟨q, rfl, hz⟩
          | mem a =>
            cases hs : sh.op with
            | a i => rw [hs] at hnr; cases hnr
            | _ => rw [hs] at hq; cases hq
        | noOpt hq =>
          cases hs : sh.op with
          | a i => rw [hs] at hnr; cases hnr
          | _ => rw [hs] at hq; cases hq
        | @conv q hq _ => rw [hq] at hz; exact ⟨_, rfl, hz⟩
      obtain ⟨q, rfl, hq⟩ := this
      obtain ⟨n, hn, -, h2⟩ := hRm
      rw [hn, mk5_zero _ _ n ((h2 (.inr (by rw [hq]; decide))).trans hq)]
  · intro hi
    have hi : e.params.contains .int = true := by simpa using hi
    rw [hi] at him
    cases hI : sh.imm with
    | i k =>
      rw [hI] at him
      have : k = 0 := by simpa using him
      subst this; rfl
    | _ => rw [hI] at him; simp at him
  · intro hm
    cases o with
    | reg q => cases hm
    | mem a =>
    obtain ⟨u1, u2, u3, u4, u5, u6, u7, u8⟩ := usual a rfl
    obtain ⟨i, b, hi, ho, hb⟩ := memo a rfl
    have hsp := hIs.sp
    unfold vunit X86.Form.unit
    rcases R.space with hx | hx
    · rw [hx] at hsp
      rw [if_neg (by rw [← hsp]; decide), if_neg (by rw [hx]; decide)]
    · rw [hx] at hsp
      rw [if_pos (by rw [← hsp]; rfl), if_pos hx]
      unfold Shape.unit at hunit
      simp only [Bool.or_eq_true, Bool.and_eq_true, beq_iff_eq, bne_iff_ne, Bool.not_eq_true'] at hunit
      rcases hunit with ((hU | hU) | hU) | hU
      · exact absurd (by rw [← hsp]; rfl) hU
      · have := Slot.not_mem ht hU
        rw [ho] at this
        change (g.op i).isMEM = false at this
        rw [hi] at this; cases this
      · rw [u6] at hU; cases hU
      · rw [hU.1]
        cases hB : h.b with
        | false => rfl
        | true =>
          obtain ⟨b1, b2⟩ := R.bcast a rfl hx hB
          rcases hU.2 with (hU | hU) | hU
          · rw [b1] at hU; cases hU
          · rw [u7 hU] at b2; cases b2
          · simpa using hU

/-! ## What is wrong -/

/-- The function at the line returns for these arguments, and the manual's rules read the bytes as a form of the mnemonic with these parts. -/
def Reads (line : Nat) (g : Args) (p : X86.Form → X86.Head → BitVec 3 → X86.RM → Bool) : Prop :=
  ∃ e w f h reg rm t, e.line = line ∧ Calls e g w ∧ f ∈ X86.Manual.forms e.name ∧ f.Is h reg ∧
    X86.insn (X86.Manual.vsib e.name) (f.unit h) (concr (fun _ => 0) w) = some (⟨h, reg, rm⟩, t) ∧ p f h reg rm = true

def readsAt (line : Nat) (g : Args) (p : X86.Form → X86.Head → BitVec 3 → X86.RM → Bool) : Bool := match callAt line g with
  | some (n, w) => match X86.head (concr (fun _ => 0) w) with
    | some (h, c :: _) => (X86.Manual.forms n).any fun f => decide (f.Is h (c.extractLsb' 3 3)) &&
      match X86.insn (X86.Manual.vsib n) (f.unit h) (concr (fun _ => 0) w) with
      | some (⟨h', reg, rm⟩, _) => p f h' reg rm
      | none => false
    | _ => false
  | none => false

theorem reads_of {line : Nat} {g : Args} {p : X86.Form → X86.Head → BitVec 3 → X86.RM → Bool} (h : readsAt line g p = true) : Reads line g p := by
  unfold readsAt at h
  split at h
  · rename_i n w hw
    obtain ⟨e, hl, hn, hc⟩ := callAt_line hw
    split at h
    · rename_i x c t hx
      obtain ⟨f, hf, h⟩ := List.any_eq_true.mp h
      rw [Bool.and_eq_true, decide_eq_true_eq] at h
      obtain ⟨h1, h2⟩ := h
      split at h2
      · rename_i x' reg rm t' hi
        obtain ⟨c', t'', hhd, hc'⟩ := insn_head hi
        rw [hx] at hhd
        cases hhd
        subst hc' hn
        exact ⟨e, w, f, _, _, rm, t', hl, hc, hf, h1, hi, h2⟩
      · cases h2
    · cases h
  · cases h

/-- `[q + d]` -/
def at64 (q : BitVec 5) (d : Word) (b := false) : Addr :=
  { o := { idx := 0, ext8 := false, kind := .mem, bit := 0 }, e := { base := .gp q 64, index := .nil, scale := 0, disp := d }, broadcast := b }

/-- The address read is base plus `d`. -/
def isDisp (d : Word) : X86.Form → X86.Head → BitVec 3 → X86.RM → Bool
  | _, _, _, .mem m => m.disp == d
  | _, _, _, _ => false

/-- Bug: the displacement unit of these EVEX memory operands is not the manual's.  `vcvtsd2si(eax, [r16 + 8])` is read as `[r16 + 16]` (as are
its three sisters), `vcvtss2si(eax, [r16 + 8])` as `[r16 + 4]`; `vcvthf82ph(xmm1, [rax + 8])` as `[rax + 64]`;
`vcvtne2ph2bf8(xmm1, xmm2, [rax + 16])` as `[rax + 256]`, and so for `vcvtne2ph2bf8s`, `vcvtne2ph2hf8`, `vcvtne2ph2hf8s`. -/
theorem c67_refuted_unit :
    (∀ l ∈ [1222, 1230], Reads l { ops := [.reg (.gp 0 32), .mem (at64 16 8)] } (isDisp 16)) ∧
    (∀ l ∈ [1887, 1888], Reads l { ops := [.reg (.gp 0 64), .mem (at64 16 8)] } (isDisp 16)) ∧
    (∀ l ∈ [1227, 1231], Reads l { ops := [.reg (.gp 0 32), .mem (at64 16 8)] } (isDisp 4)) ∧
    (∀ l ∈ [1885, 1886], Reads l { ops := [.reg (.gp 0 64), .mem (at64 16 8)] } (isDisp 4)) ∧
    Reads 2197 { ops := [.reg (.xmm 1), .mem (at64 0 8)] } (isDisp 64) ∧
    (∀ l ∈ [2198, 2199, 2200, 2201], Reads l { ops := [.reg (.xmm 1), .reg (.xmm 2), .mem (at64 0 16)] } (isDisp 256)) := by
  refine ⟨fun l h => ?_, fun l h => ?_, fun l h => ?_, fun l h => ?_, reads_of (by decide +kernel), fun l h => ?_⟩ <;>
    (revert l; simp only [List.forall_mem_cons, List.not_mem_nil, false_implies, implies_true, and_true]
     repeat' apply And.intro
     all_goals exact reads_of (by decide +kernel))

/-- Bug: `vmpsadbw` with EVEX accepts a broadcast of dwords; the manual has none (`bc = 0`). -/
theorem c67_refuted_bcast : Reads 2423 { ops := [.reg (.xmm 1), .reg (.xmm 2), .mem (at64 0 0 true)], ints := [1], enc := .avx10v2 }
    fun f h _ _ => f.sp == .evex && h.b && f.bc == 0 := reads_of (by decide +kernel)

/-- Bug: `vscalefpbf16(zmm1, zmm2)` (2626) is accepted; the instruction has three operands, and the second is read from zmm0. -/
theorem c67_refuted_vscalef : Reads 2626 { ops := [.reg (.zmm 1), .reg (.zmm 2)] }
    (fun f h reg rm => f.en.roles == [.reg, .vvvv, .rm] && X86.regNum h reg == 1 && h.vreg == 0 && rm == .reg 2) ∧
    ∀ f ∈ X86.Manual.forms n!"vscalefpbf16", f.en.roles.length = 3 := ⟨reads_of (by decide +kernel), by decide +kernel⟩

/-- Bug: general registers from 16 on that are passed on as `Xmm(idx)` become registers 0-15: `vmovq(xmm1, r16)` moves rax. -/
theorem c67_refuted_gpr : Reads 1889 { ops := [.reg (.xmm 1), .reg (.gp 16 64)] }
    fun f h _ rm => f.en.roles == [.reg, .rm] && match rm with | .reg n => X86.rmGpr h n == 0 | _ => false := reads_of (by decide +kernel)

/-! ## Examples -/

/-- `vfmadd231ps(zmm17, zmm30, [r24 + 64])` (1250) is read as the form reg, vvvv, rm of `vfmadd231ps` with these operands; the displacement
byte 1 counts 64 bytes. -/
example : Reads 1250 { ops := [.reg (.zmm 17), .reg (.zmm 30), .mem (at64 24 64)] } fun f h reg rm =>
    f.en.roles == [.reg, .vvvv, .rm] && X86.regNum h reg == 17 && h.vreg == 30 && isDisp 64 f h reg rm := reads_of (by decide +kernel)

/-- A call that `c67_partial` speaks about: `vpmulld(xmm1, xmm2, xmm3)` (1490). -/
example : ∃ e w, e.name = n!"vpmulld" ∧ e.vexed = true ∧ e.name ∉ unlisted ∧ e.line ≠ 2626 ∧
    Calls e { ops := [.reg (.xmm 1), .reg (.xmm 2), .reg (.xmm 3)] } w ∧ Usual e { ops := [.reg (.xmm 1), .reg (.xmm 2), .reg (.xmm 3)] } := by
  let g : Args := { ops := [.reg (.xmm 1), .reg (.xmm 2), .reg (.xmm 3)] }
  have key : ((all.filter fun e => Nat.beq e.line 1490).all fun e => Nat.beq e.name n!"vpmulld" && e.vexed && !unlisted.any (Nat.beq e.name) &&
    !e.body.viaRoo) = true := by decide +kernel
  have hop : ∀ i, ∃ q, g.op i = .reg q ∧ q.kind ≠ .reg ∧ q.idx.toNat < 16 ∧ SizeOK q := by
    intro i
    match i with
    | 0 => exact ⟨_, rfl, by decide, by decide, by unfold SizeOK; decide⟩
    | 1 => exact ⟨_, rfl, by decide, by decide, by unfold SizeOK; decide⟩
    | 2 => exact ⟨_, rfl, by decide, by decide, by unfold SizeOK; decide⟩
    | i + 3 => exact ⟨.nil, rfl, by decide, by decide, by unfold SizeOK; decide⟩
  obtain ⟨e, hl, hn, hc⟩ := callAt_line (show callAt 1490 g = some (n!"vpmulld", [0xC4, 0xE2, 0x69, 0x40, 0xCB].map .byte) by decide +kernel)
  have hk := List.all_eq_true.mp key e (List.mem_filter.mpr ⟨hc.1, by rw [hl]; rfl⟩)
  simp only [Bool.and_eq_true, Bool.not_eq_true', and_assoc] at hk
  obtain ⟨-, k1, k2, k3⟩ := hk
  have nomem : ∀ i a, g.op i ≠ .mem a := fun i a h => by obtain ⟨q, hq, -⟩ := hop i; rw [hq] at h; cases h
  have reg : ∀ i q, g.op i = .reg q → q.kind ≠ .reg ∧ q.idx.toNat < 16 ∧ SizeOK q := fun i q h => by
    obtain ⟨q', hq, h'⟩ := hop i; rw [hq] at h; cases h; exact h'
  refine ⟨e, _, hn, k1, fun h => ?_, by omega, hc, ⟨⟨fun i a h => absurd h (nomem i a), fun i a h => absurd h (nomem i a), fun i q h hk => absurd hk (reg i q h).1⟩,
    fun i a h => absurd h (nomem i a), fun i q h => ⟨fun _ => (reg i q h).2.2, .inr (.inr (reg i q h).2.1)⟩, fun h => ?_, fun _ i q h => .inr (reg i q h).2.1,
    fun _ i a h => absurd h (nomem i a), fun i q _ h => (reg i q h).2.1, fun _ => nomem, fun _ i a h => absurd h (nomem i a)⟩⟩
  · rw [List.any_eq_false] at k2
    exact k2 _ h (Nat.beq_refl _)
  · rw [k3] at h; cases h

end Mn
end Xbyak
