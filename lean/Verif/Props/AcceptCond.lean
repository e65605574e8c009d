import Verif.AcceptCond
import Verif.Props.Shift
/-!
# C96: APX shifts, one-operand arithmetic and conditional instructions are accepted

The converse of C44, C46 and C64 for APX operands: whatever the manual allows there can be written with the function of that name.
-/
namespace Xbyak
namespace Mn
open E

theorem any_named {name : Nat} {f : Entry → Bool} (h : (namedT name).any f = true) : ∃ e ∈ all, e.name = name ∧ f e = true := by
  obtain ⟨e, he, h⟩ := List.any_eq_true.1 h
  exact ⟨e, (of_namedT e he).1, (of_namedT e he).2, h⟩

/-! ## Shifts and rotates -/

def isShiftI (nf : Bool) (e : Entry) : Bool :=
  match e.body with
  | .leaf (.shiftI (.a 0) 0 x none) => e.params == [.op, .int] && (!nf || x.getLsbD 3)
  | _ => false
def isShiftI3 (nf : Bool) (e : Entry) : Bool :=
  match e.body with
  | .leaf (.shiftI (.a 1) 0 x (some (.a 0))) => e.params == [.reg, .op, .int] && (!nf || x.getLsbD 3)
  | _ => false
def isShiftCL (nf : Bool) (e : Entry) : Bool :=
  match e.body with
  | .leaf (.shiftCL (.a 0) (.a 1) x none) => e.params == [.op, .reg8] && (!nf || x.getLsbD 3)
  | _ => false
def isShiftCL3 (nf : Bool) (e : Entry) : Bool :=
  match e.body with
  | .leaf (.shiftCL (.a 1) (.a 2) x (some (.a 0))) => e.params == [.reg, .op, .reg8] && (!nf || x.getLsbD 3)
  | _ => false

theorem shift_forms : (shiftNames.all fun p => (namedT p.1).any (isShiftI (shiftNF p.2)) && (namedT p.1).any (isShiftI3 (shiftNF p.2)) &&
    (namedT p.1).any (isShiftCL (shiftNF p.2)) && (namedT p.1).any (isShiftCL3 (shiftNF p.2))) = true := by decide +kernel

/-- C96: every shift and rotate takes an immediate count in its APX forms: with a new destination; and without, on an operand that has a register 16-31 or NF.
NF is not taken by the rotates through carry (the manual has none there). -/
theorem c96_shift_imm (p : Nat × BitVec 3) (hp : p ∈ shiftNames) (nf : Bool) (hnf : nf = true → shiftNF p.2 = true) (n : Nat) (hn : n = 8 ∨ n = 16 ∨ n = 32 ∨ n = 64)
    (d : Option Reg) (op : Operand) (h : ShiftAsk nf n d op) (imm : Word) :
    ∃ e w, e.name = p.1 ∧ e.params.contains .int = true ∧ Calls e { ops := d.toList.map .reg ++ [op], ints := [imm] } w := by
  have hT := List.all_eq_true.1 shift_forms p hp
  simp only [Bool.and_eq_true] at hT
  obtain ⟨⟨⟨h1, h2⟩, -⟩, -⟩ := hT
  have hn0 : n ≠ 0 := by omega
  cases d with
  | none =>
    obtain ⟨e, he, hname, hf⟩ := any_named h1
    unfold isShiftI at hf
    split at hf
    · rename_i x hb
      simp only [Bool.and_eq_true, beq_iff_eq, Bool.or_eq_true, Bool.not_eq_true'] at hf
      obtain ⟨w, hw⟩ := leaf_calls he hb (g := { ops := [op], ints := [imm] }) (by rw [hf.1]; rfl) (by rw [hf.1]; rfl)
        (opShiftI_ok h hn0 (fun e => hf.2.resolve_left (by rw [hnf e]; simp)) _)
      exact ⟨e, w, hname, by rw [hf.1]; decide, hw⟩
    · cases hf
  | some q =>
    obtain ⟨e, he, hname, hf⟩ := any_named h2
    unfold isShiftI3 at hf
    split at hf
    · rename_i x hb
      simp only [Bool.and_eq_true, beq_iff_eq, Bool.or_eq_true, Bool.not_eq_true'] at hf
      obtain ⟨w, hw⟩ := leaf_calls he hb (g := { ops := [.reg q, op], ints := [imm] }) (by rw [hf.1]; rfl) (by rw [hf.1]; rfl)
        (opShiftI_ok h hn0 (fun e => hf.2.resolve_left (by rw [hnf e]; simp)) _)
      exact ⟨e, w, hname, by rw [hf.1]; decide, hw⟩
    · cases hf

/-- C96: the same with the count in CL. -/
theorem c96_shift_cl (p : Nat × BitVec 3) (hp : p ∈ shiftNames) (nf : Bool) (hnf : nf = true → shiftNF p.2 = true) (n : Nat)
    (d : Option Reg) (op : Operand) (h : ShiftAsk nf n d op) : ∃ e w, e.name = p.1 ∧ Calls e { ops := d.toList.map .reg ++ [op, .reg (.gp 1 8)] } w := by
  have hT := List.all_eq_true.1 shift_forms p hp
  simp only [Bool.and_eq_true] at hT
  obtain ⟨⟨⟨-, -⟩, h1⟩, h2⟩ := hT
  cases d with
  | none =>
    obtain ⟨e, he, hname, hf⟩ := any_named h1
    unfold isShiftCL at hf
    split at hf
    · rename_i x hb
      simp only [Bool.and_eq_true, beq_iff_eq, Bool.or_eq_true, Bool.not_eq_true'] at hf
      obtain ⟨w, hw⟩ := leaf_calls he hb (g := { ops := [op, .reg (.gp 1 8)] }) (by rw [hf.1]; rfl) (by rw [hf.1]; rfl)
        (opShiftCL_ok h (fun e => hf.2.resolve_left (by rw [hnf e]; simp)) rfl)
      exact ⟨e, w, hname, hw⟩
    · cases hf
  | some q =>
    obtain ⟨e, he, hname, hf⟩ := any_named h2
    unfold isShiftCL3 at hf
    split at hf
    · rename_i x hb
      simp only [Bool.and_eq_true, beq_iff_eq, Bool.or_eq_true, Bool.not_eq_true'] at hf
      obtain ⟨w, hw⟩ := leaf_calls he hb (g := { ops := [.reg q, op, .reg (.gp 1 8)] }) (by rw [hf.1]; rfl) (by rw [hf.1]; rfl)
        (opShiftCL_ok h (fun e => hf.2.resolve_left (by rw [hnf e]; simp)) rfl)
      exact ⟨e, w, hname, hw⟩
    · cases hf

/-- `sar(r17d, [rbx + 8], 3)` with `T_nf` -/
example : ∃ e w, e.name = n!"sar" ∧ e.params.contains .int = true ∧
    Calls e { ops := [.reg { Reg.gp 17 32 with nf := true }, .mem { o := Addr.memOp 0, e := { base := .gp 3 64, index := .nil, scale := 0, disp := 8 } }], ints := [3] } w :=
  c96_shift_imm (n!"sar", 7) (by decide) true (by decide) 32 (by decide) (some { Reg.gp 17 32 with nf := true })
    (.mem { o := Addr.memOp 0, e := { base := .gp 3 64, index := .nil, scale := 0, disp := 8 } })
    ⟨⟨⟨⟨0, rfl⟩, .inr ⟨3, rfl⟩, .inl rfl, by decide⟩, .inr rfl⟩, fun q e => by cases e; exact ⟨rfl, rfl, rfl, fun _ => rfl⟩, fun h => by cases h⟩ 3

/-! ## NOT, NEG, MUL, IMUL, DIV, IDIV, INC, DEC -/

/-- The functions with one operand, and whether the manual has an NF form. -/
def unaryA : List (Nat × Bool) := [(n!"not_", false), (n!"not", false), (n!"neg", true), (n!"mul", true), (n!"imul", true), (n!"div", true), (n!"idiv", true)]

def isUnary (nf : Bool) (e : Entry) : Bool :=
  match e.body with
  | .leaf (.rext (.a 0) _ _ t _) => e.params == [.op] && t.has T_APX && (!nf || t.has T_NF)
  | _ => false
def isUnary3 (nf : Bool) (e : Entry) : Bool :=
  match e.body with
  | .leaf (.roo (.a 0) (.a 1) (.bitOf 0 _) t _) => e.params == [.reg, .op] && (!nf || t.has T_NF)
  | _ => false
def isIncDec (e : Entry) : Bool :=
  match e.body with
  | .leaf (.incDec (.a 0) (.a 1) _) => e.params == [.reg, .op]
  | _ => false

theorem unary_forms : (unaryA.all fun p => (namedT p.1).any (isUnary p.2)) = true := by decide +kernel
/-- Those with a new destination. -/
def unaryNd : List (Nat × Bool) := [(n!"not_", false), (n!"neg", true)]

theorem unary3_forms : (unaryNd.all fun p => (namedT p.1).any (isUnary3 p.2)) = true := by decide +kernel
theorem incdec_forms : ([n!"inc", n!"dec"].all fun p => (namedT p).any isIncDec) = true := by decide +kernel

/-- C96: NOT, NEG, MUL, IMUL, DIV and IDIV take an operand that has a register 16-31 or NF (where the manual has it). -/
theorem c96_unary (p : Nat × Bool) (hp : p ∈ unaryA) (n : Nat) (op : Operand) (h : GpIs p.2 n op) (_hs : op.bit = n) (ha : op.hasRex2NFZU = true) :
    ∃ e w, e.name = p.1 ∧ Calls e { ops := [op] } w := by
  obtain ⟨e, he, hname, hf⟩ := any_named (List.all_eq_true.1 unary_forms p hp)
  unfold isUnary at hf
  split at hf
  · rename_i b x t c hb
    simp only [Bool.and_eq_true, beq_iff_eq, Bool.or_eq_true, Bool.not_eq_true'] at hf
    obtain ⟨w, hw⟩ := leaf_calls he hb (g := { ops := [op] }) (by rw [hf.1.1]; rfl) (by rw [hf.1.1]; rfl)
      (opRext_apx hf.1.2 (.inr ha) (fun q e => by cases e) h.plain (fun e => hf.2.resolve_left (by rw [e]; simp)) _ _ _ _ _)
    exact ⟨e, w, hname, hw⟩
  · cases hf

/-- C96: NOT and NEG take a new destination. -/
theorem c96_unary_nd (p : Nat × Bool) (hp : p ∈ unaryNd) (n : Nat) (d : Reg) (op : Operand) (hd : GpIs p.2 n (.reg d)) (h : GpIs p.2 n op) :
    ∃ e w, e.name = p.1 ∧ Calls e { ops := [.reg d, op] } w := by
  obtain ⟨e, he, hname, hf⟩ := any_named (List.all_eq_true.1 unary3_forms p hp)
  unfold isUnary3 at hf
  split at hf
  · rename_i x t c hb
    simp only [Bool.and_eq_true, beq_iff_eq, Bool.or_eq_true, Bool.not_eq_true'] at hf
    refine ⟨e, ?_⟩
    obtain ⟨w, hw⟩ := leaf_calls he hb (g := { ops := [.reg d, op] }) (by rw [hf.1]; rfl) (by rw [hf.1]; rfl) (by
      show ((opROO d op (.reg (.gp x d.bit)) t c).bind fun _ => pure ()).res = _
      rw [show ((opROO d op (.reg (.gp x d.bit)) t c).bind fun _ => (pure () : Enc Unit)).res = _ from Enc.res_bind _ _,
        opROO_ok hd.plain h.plain (plain_gp _ _) (fun e => hf.2.resolve_left (by rw [e]; simp)) (by simp [Operand.isMEM]) (rooUsed_d (isREG_of hd.1) _ _ _)]
      rfl)
    exact ⟨w, hname, hw⟩
  · cases hf

/-- C96: INC and DEC take a new destination, and then NF.  Partial: with one operand NF is refused, `c96_refuted_inc`. -/
theorem c96_incdec_partial (name : Nat) (hp : name ∈ [n!"inc", n!"dec"]) (n : Nat) (d : Reg) (op : Operand) (hd : GpIs true n (.reg d)) (h : GpIs true n op) :
    ∃ e w, e.name = name ∧ Calls e { ops := [.reg d, op] } w := by
  obtain ⟨e, he, hname, hf⟩ := any_named (List.all_eq_true.1 incdec_forms name hp)
  unfold isIncDec at hf
  split at hf
  · rename_i x hb
    rw [beq_iff_eq] at hf
    obtain ⟨w, hw⟩ := leaf_calls he hb (g := { ops := [.reg d, op] }) (by rw [hf]; rfl) (by rw [hf]; rfl) (opIncDec_ok hd h _)
    exact ⟨e, w, hname, hw⟩
  · cases hf

/-- The manual has NF forms of INC and DEC with one operand; no function writes them: `inc(eax)` with `T_nf`. -/
theorem c96_refuted_inc : ∀ name ∈ [n!"inc", n!"dec"], ∀ e ∈ named name, e.accepts { ops := [.reg { Reg.gp 0 32 with nf := true }] } = false := by decide +kernel

/-! ## SETcc, CMOVcc, CFCMOVcc -/

def isSet (e : Entry) : Bool :=
  match e.body with
  | .leaf (.setcc (.a 0) _) => e.params == [.op]
  | _ => false
def isCmov3 (e : Entry) : Bool :=
  match e.body with
  | .leaf (.roo (.a 0) (.a 2) (.a 1) _ _) => e.params == [.reg, .reg, .op]
  | _ => false
def isCf2 (e : Entry) : Bool :=
  match e.body with
  | .leaf (.cfcmov (.r q) (.a 0) (.a 1) _) => e.params == [.op, .op] && q == .nil
  | _ => false
def isCf3 (e : Entry) : Bool :=
  match e.body with
  | .leaf (.cfcmov (.nfOf 0) (.a 2) (.a 1) _) => e.params == [.reg, .reg, .op]
  | _ => false

theorem set_forms : (X86.suffixes.all fun x => (namedT (X86.cat n!"set" x.1)).any isSet && (namedT (X86.cat n!"cmov" x.1)).any isCmov3) = true := by decide +kernel
theorem cf_forms : (cfSuffixes.all fun x => (namedT (X86.cat n!"cfcmov" x.1)).any isCf2 && (namedT (X86.cat n!"cfcmov" x.1)).any isCf3) = true := by decide +kernel

/-- C96: every SETcc takes an operand that has a register 16-31 or ZU. -/
theorem c96_set (x : Nat × (X86.Flags → Bool)) (hx : x ∈ X86.suffixes) (op : Operand) (h : SetAsk op) :
    ∃ e w, e.name = X86.cat n!"set" x.1 ∧ Calls e { ops := [op] } w := by
  have hT := List.all_eq_true.1 set_forms x hx
  rw [Bool.and_eq_true] at hT
  obtain ⟨e, he, hname, hf⟩ := any_named hT.1
  unfold isSet at hf
  split at hf
  · rename_i c hb
    rw [beq_iff_eq] at hf
    obtain ⟨w, hw⟩ := leaf_calls he hb (g := { ops := [op] }) (by rw [hf]; rfl) (by rw [hf]; rfl) (opSetCC_ok h _)
    exact ⟨e, w, hname, hw⟩
  · cases hf

/-- C96: every CMOVcc takes a new destination. -/
theorem c96_cmov (x : Nat × (X86.Flags → Bool)) (hx : x ∈ X86.suffixes) (n : Nat) (d r : Reg) (op : Operand)
    (hd : GpIs false n (.reg d)) (hr : GpIs false n (.reg r)) (h : GpIs false n op) : ∃ e w, e.name = X86.cat n!"cmov" x.1 ∧ Calls e { ops := [.reg d, .reg r, op] } w := by
  have hT := List.all_eq_true.1 set_forms x hx
  rw [Bool.and_eq_true] at hT
  obtain ⟨e, he, hname, hf⟩ := any_named hT.2
  unfold isCmov3 at hf
  split at hf
  · rename_i t c hb
    rw [beq_iff_eq] at hf
    obtain ⟨w, hw⟩ := leaf_calls he hb (g := { ops := [.reg d, .reg r, op] }) (by rw [hf]; rfl) (by rw [hf]; rfl) (by
      show ((opROO d op (.reg r) t c).bind fun _ => pure ()).res = _
      rw [show ((opROO d op (.reg r) t c).bind fun _ => (pure () : Enc Unit)).res = _ from Enc.res_bind _ _,
        opROO_ok hd.plain h.plain hr.plain (fun e => by cases e) (by simp [Operand.isMEM]) (rooUsed_d (isREG_of hd.1) _ _ _)]
      rfl)
    exact ⟨e, w, hname, hw⟩
  · cases hf

/-- C96: every CFCMOVcc takes two operands of which one may be memory. -/
theorem c96_cfcmov2 (x : Nat × (X86.Flags → Bool)) (hx : x ∈ cfSuffixes) (n : Nat) (hn : n = 16 ∨ n = 32 ∨ n = 64) (a b : Operand)
    (ha : GpIs false n a) (hb : GpIs false n b) (hm : (a.isMEM && b.isMEM) = false) : ∃ e w, e.name = X86.cat n!"cfcmov" x.1 ∧ Calls e { ops := [a, b] } w := by
  have hT := List.all_eq_true.1 cf_forms x hx
  rw [Bool.and_eq_true] at hT
  obtain ⟨e, he, hname, hf⟩ := any_named hT.1
  unfold isCf2 at hf
  split at hf
  · rename_i q c hb'
    simp only [Bool.and_eq_true, beq_iff_eq] at hf
    obtain ⟨h1, rfl⟩ := hf
    obtain ⟨w, hw⟩ := leaf_calls he hb' (g := { ops := [a, b] }) (by rw [h1]; rfl) (by rw [h1]; rfl) (opCfcmov2_ok hn ha hb hm c)
    exact ⟨e, w, hname, hw⟩
  · cases hf

/-- C96: every CFCMOVcc takes a new destination. -/
theorem c96_cfcmov3 (x : Nat × (X86.Flags → Bool)) (hx : x ∈ cfSuffixes) (n : Nat) (hn : n = 16 ∨ n = 32 ∨ n = 64) (d r : Reg) (op : Operand)
    (hd : GpIs false n (.reg d)) (hr : GpIs false n (.reg r)) (h : GpIs false n op) : ∃ e w, e.name = X86.cat n!"cfcmov" x.1 ∧ Calls e { ops := [.reg d, .reg r, op] } w := by
  have hT := List.all_eq_true.1 cf_forms x hx
  rw [Bool.and_eq_true] at hT
  obtain ⟨e, he, hname, hf⟩ := any_named hT.2
  unfold isCf3 at hf
  split at hf
  · rename_i c hb
    rw [beq_iff_eq] at hf
    obtain ⟨w, hw⟩ := leaf_calls he hb (g := { ops := [.reg d, .reg r, op] }) (by rw [hf]; rfl) (by rw [hf]; rfl) (opCfcmov3_ok hn hd hr h c)
    exact ⟨e, w, hname, hw⟩
  · cases hf

/-- `setz(r9b)` with `T_zu` -/
example : ∃ e w, e.name = n!"setz" ∧ Calls e { ops := [.reg { Reg.gp 9 8 with zu := true }] } w :=
  c96_set (n!"z", fun f => f.zf) (by simp [X86.suffixes]) _ ⟨⟨rfl, rfl, rfl⟩, rfl⟩

/-! ## CCMPcc, CTESTcc -/

def isCcmp (test : Bool) (e : Entry) : Bool :=
  match e.body with
  | .leaf (.ccmp (.a 0) (.a 1) 0 _ _) => e.params == [.op, if test then .reg else .op, .int]
  | _ => false
def isCcmpi (e : Entry) : Bool :=
  match e.body with
  | .leaf (.ccmpi (.a 0) 0 1 _) => e.params == [.op, .int, .int]
  | _ => false
def isTesti (e : Entry) : Bool :=
  match e.body with
  | .leaf (.testi (.a 0) 0 1 _) => e.params == [.op, .int, .int]
  | _ => false

theorem ccmp_forms : (X86.scSuffixes.all fun x => (namedT (X86.cat n!"ccmp" x.1)).any (isCcmp false) && (namedT (X86.cat n!"ccmp" x.1)).any isCcmpi &&
    (namedT (X86.cat n!"ctest" x.1)).any (isCcmp true) && (namedT (X86.cat n!"ctest" x.1)).any isTesti) = true := by decide +kernel

/-- The flags for a false condition: 0 to 15. -/
def IsDfv (v : Word) : Prop := 0 ≤ ((v.setWidth 32).toInt) ∧ ((v.setWidth 32).toInt) ≤ 15

/-- C96: every CCMPcc takes two operands of which one may be memory, and default flags. -/
theorem c96_ccmp (x : Nat × (X86.Flags → Bool)) (hx : x ∈ X86.scSuffixes) (n : Nat) (a b : Operand)
    (ha : GpIs false n a) (hb : GpIs false n b) (hm : (a.isMEM && b.isMEM) = false) (v : Word) (hv : IsDfv v) :
    ∃ e w, e.name = X86.cat n!"ccmp" x.1 ∧ e.nInts = 1 ∧ Calls e { ops := [a, b], ints := [v] } w := by
  have hT := List.all_eq_true.1 ccmp_forms x hx
  simp only [Bool.and_eq_true] at hT
  obtain ⟨e, he, hname, hf⟩ := any_named hT.1.1.1
  unfold isCcmp at hf
  split at hf
  · rename_i c sc hb'
    rw [beq_iff_eq] at hf
    obtain ⟨w, hw⟩ := leaf_calls he hb' (g := { ops := [a, b], ints := [v] }) (by rw [hf]; rfl) (by rw [hf]; rfl) (opCcmp_ok ha hb hm hv c sc)
    exact ⟨e, w, hname, by unfold Entry.nInts; rw [hf]; rfl, hw⟩
  · cases hf

/-- C96: every CCMPcc takes an immediate that fits the operand. -/
theorem c96_ccmpi (x : Nat × (X86.Flags → Bool)) (hx : x ∈ X86.scSuffixes) (n : Nat) (hn : n = 8 ∨ n = 16 ∨ n = 32 ∨ n = 64) (op : Operand)
    (h : GpIs false n op) (hs : op.bit = n) (imm v : Word) (hi : n = 16 → -(2 ^ 15 : Int) ≤ (imm.setWidth 32).toInt ∧ (imm.setWidth 32).toInt < 2 ^ 16) (hv : IsDfv v) :
    ∃ e w, e.name = X86.cat n!"ccmp" x.1 ∧ e.nInts = 2 ∧ Calls e { ops := [op], ints := [imm, v] } w := by
  have hT := List.all_eq_true.1 ccmp_forms x hx
  simp only [Bool.and_eq_true] at hT
  obtain ⟨e, he, hname, hf⟩ := any_named hT.1.1.2
  unfold isCcmpi at hf
  split at hf
  · rename_i sc hb
    rw [beq_iff_eq] at hf
    obtain ⟨w, hw⟩ := leaf_calls he hb (g := { ops := [op], ints := [imm, v] }) (by rw [hf]; rfl) (by rw [hf]; rfl) (opCcmpi_ok hn h hs hi hv sc)
    exact ⟨e, w, hname, by unfold Entry.nInts; rw [hf]; rfl, hw⟩
  · cases hf

/-- C96: every CTESTcc takes a register or memory, and a register. -/
theorem c96_ctest (x : Nat × (X86.Flags → Bool)) (hx : x ∈ X86.scSuffixes) (n : Nat) (a : Operand) (r : Reg)
    (ha : GpIs false n a) (hr : GpIs false n (.reg r)) (v : Word) (hv : IsDfv v) :
    ∃ e w, e.name = X86.cat n!"ctest" x.1 ∧ e.nInts = 1 ∧ Calls e { ops := [a, .reg r], ints := [v] } w := by
  have hT := List.all_eq_true.1 ccmp_forms x hx
  simp only [Bool.and_eq_true] at hT
  obtain ⟨e, he, hname, hf⟩ := any_named hT.1.2
  unfold isCcmp at hf
  split at hf
  · rename_i c sc hb'
    rw [beq_iff_eq] at hf
    obtain ⟨w, hw⟩ := leaf_calls he hb' (g := { ops := [a, .reg r], ints := [v] }) (by rw [hf]; rfl) (by rw [hf]; rfl) (opCcmp_ok ha hr (by simp [Operand.isMEM]) hv c sc)
    exact ⟨e, w, hname, by unfold Entry.nInts; rw [hf]; rfl, hw⟩
  · cases hf

/-- C96: every CTESTcc takes an immediate. -/
theorem c96_ctesti (x : Nat × (X86.Flags → Bool)) (hx : x ∈ X86.scSuffixes) (n : Nat) (hn : n = 8 ∨ n = 16 ∨ n = 32 ∨ n = 64) (op : Operand)
    (h : GpIs false n op) (hs : op.bit = n) (imm v : Word) (hv : IsDfv v) :
    ∃ e w, e.name = X86.cat n!"ctest" x.1 ∧ e.nInts = 2 ∧ Calls e { ops := [op], ints := [imm, v] } w := by
  have hT := List.all_eq_true.1 ccmp_forms x hx
  simp only [Bool.and_eq_true] at hT
  obtain ⟨e, he, hname, hf⟩ := any_named hT.2
  unfold isTesti at hf
  split at hf
  · rename_i sc hb
    rw [beq_iff_eq] at hf
    obtain ⟨w, hw⟩ := leaf_calls he hb (g := { ops := [op], ints := [imm, v] }) (by rw [hf]; rfl) (by rw [hf]; rfl) (opTesti_ok hn h hs _ hv sc)
    exact ⟨e, w, hname, by unfold Entry.nInts; rw [hf]; rfl, hw⟩
  · cases hf

/-- `ccmpt(r20w, 40000, 15)` -/
example : ∃ e w, e.name = n!"ccmpt" ∧ e.nInts = 2 ∧ Calls e { ops := [.reg (.gp 20 16)], ints := [40000, 15] } w :=
  c96_ccmpi (n!"t", fun _ => true) (by simp [X86.scSuffixes]) 16 (by decide) (.reg (.gp 20 16)) ⟨rfl, rfl, rfl, fun h => by cases h⟩ rfl 40000 15 (fun _ => by decide) (by unfold IsDfv; decide)

end Mn
end Xbyak
