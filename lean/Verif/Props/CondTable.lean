import Verif.Props.Jcc
import Verif.Mnemonic.All
/-!
# C44: the condition mnemonics

Every function `jcc`, `setcc`, `cmovcc`, `ccmpcc`, `ctestcc`, `cfcmovcc` of the mnemonic table (30, 28 or 16 suffixes) produces the
instruction with the condition its suffix stands for.
-/
namespace Xbyak
open E Mn

/-- The code tests what the suffix says. -/
def Tests (c : BitVec 4) (m : X86.Flags → Bool) : Prop := ∀ f, X86.cond c f = m f
/-- The same for source conditions. -/
def STests (c : BitVec 4) (m : X86.Flags → Bool) : Prop := ∀ f, X86.scond c f = m f

def bools : List Bool := [false, true]
def allFlags : List X86.Flags :=
  bools.flatMap fun a => bools.flatMap fun b => bools.flatMap fun c => bools.flatMap fun d => bools.map fun e => ⟨a, b, c, d, e⟩

theorem mem_allFlags (f : X86.Flags) : f ∈ allFlags := by
  have : ∀ a b c d e, (⟨a, b, c, d, e⟩ : X86.Flags) ∈ allFlags := by decide +kernel
  exact this f.cf f.zf f.sf f.of f.pf

/-- All functions named `pre` + suffix have a code (`of`) that tests what the suffix says, and there is at least one. -/
def tableOK (cnd : BitVec 4 → X86.Flags → Bool) (pre : Nat) (of : Entry → Option (BitVec 4)) (l : List (Nat × (X86.Flags → Bool))) : Bool :=
  l.all fun x => let es := named (X86.cat pre x.1)
    !es.isEmpty && es.all fun e => match of e with | some cc => allFlags.all (fun f => cnd cc f == x.2 f) | none => false

theorem tableOK_iff {cnd : BitVec 4 → X86.Flags → Bool} {pre : Nat} {of : Entry → Option (BitVec 4)} {l : List (Nat × (X86.Flags → Bool))}
    (h : tableOK cnd pre of l = true) {x : Nat × (X86.Flags → Bool)} (hx : x ∈ l) :
    named (X86.cat pre x.1) ≠ [] ∧ ∀ e ∈ named (X86.cat pre x.1), ∃ cc, of e = some cc ∧ ∀ f, cnd cc f = x.2 f := by
  unfold tableOK at h
  have h := List.all_eq_true.1 h x hx
  dsimp only at h
  rw [Bool.and_eq_true] at h
  obtain ⟨h1, h2⟩ := h
  refine ⟨fun e => (by rw [e] at h1; cases h1), fun e he => ?_⟩
  have h3 := List.all_eq_true.1 h2 e he
  cases ho : of e with
  | none => rw [ho] at h3; cases h3
  | some cc =>
    rw [ho] at h3
    exact ⟨cc, rfl, fun f => by simpa using List.all_eq_true.1 h3 f (mem_allFlags f)⟩

/-- The code in a byte. -/
def ccByte (base b : Byte) : Option (BitVec 4) := if b = base ||| (b.setWidth 4).setWidth 8 then some (b.setWidth 4) else none

theorem ccByte_some {base b : Byte} {cc : BitVec 4} (h : ccByte base b = some cc) : b = base ||| cc.setWidth 8 := by
  unfold ccByte at h
  by_cases hb : b = base ||| (b.setWidth 4).setWidth 8
  · rw [if_pos hb] at h; cases h; exact hb
  · rw [if_neg hb] at h; cases h

/-! ## Jumps -/

theorem low_70 : ∀ cc : BitVec 4, (0x70 ||| cc.setWidth 8 : Byte).setWidth 4 = cc := by decide +kernel

def jccOf (e : Entry) : Option (BitVec 4) :=
  match e.body with
  | .jmp [] .param s l 0x0F => if e.params = [.label] ∧ l = Asm.jccL (s.setWidth 4) then ccByte 0x70 s else none
  | .jmpAbs s l 0x0F => if e.params = [.absAddr] ∧ l = Asm.jccL (s.setWidth 4) then ccByte 0x70 s else none
  | _ => none

theorem jcc_table : tableOK X86.cond n!"j" jccOf X86.suffixes = true := by decide +kernel

/-- C44: for each of the 30 suffixes, every function `jcc` is `opJmp` or `opJmpAbs` with the two opcodes of one code, and the code tests what
the suffix says.  With `c44_jcc` and `c44_jcc_addr`: the jump decodes to Jcc with that condition. -/
theorem c44_jcc_names (x : Nat × (X86.Flags → Bool)) (hx : x ∈ X86.suffixes) :
    named (X86.cat n!"j" x.1) ≠ [] ∧ ∀ e ∈ named (X86.cat n!"j" x.1), ∃ cc, Tests cc x.2 ∧
      (e.params = [.label] ∧ e.body = .jmp [] .param (Asm.jccS cc) (Asm.jccL cc) 0x0F ∨
       e.params = [.absAddr] ∧ e.body = .jmpAbs (Asm.jccS cc) (Asm.jccL cc) 0x0F) := by
  obtain ⟨h1, h2⟩ := tableOK_iff jcc_table hx
  refine ⟨h1, fun e he => ?_⟩
  obtain ⟨cc, ho, ht⟩ := h2 e he
  refine ⟨cc, ht, ?_⟩
  unfold jccOf at ho
  split at ho
  · rename_i s l hb
    by_cases hc : e.params = [.label] ∧ l = Asm.jccL (s.setWidth 4)
    · rw [if_pos hc] at ho
      have e1 := ccByte_some ho
      have e2 : s.setWidth 4 = cc := by
        rw [e1]; exact low_70 cc
      left
      refine ⟨hc.1, ?_⟩
      rw [hb, hc.2, e2, e1]; rfl
    · rw [if_neg hc] at ho; cases ho
  · rename_i s l hb
    by_cases hc : e.params = [.absAddr] ∧ l = Asm.jccL (s.setWidth 4)
    · rw [if_pos hc] at ho
      have e1 := ccByte_some ho
      have e2 : s.setWidth 4 = cc := by
        rw [e1]; exact low_70 cc
      right
      refine ⟨hc.1, ?_⟩
      rw [hb, hc.2, e2, e1]; rfl
    · rw [if_neg hc] at ho; cases ho
  · cases ho
/-- C44: suffixes with the same meaning have the same code, suffixes with opposite meanings differ exactly in bit 0. -/
theorem c44_alias {c d : BitVec 4} {m m' : X86.Flags → Bool} (hc : Tests c m) (hd : Tests d m') :
    ((∀ f, m f = m' f) → c = d) ∧ ((∀ f, m f = !m' f) → c = d ^^^ 1) := by
  constructor
  · intro h; apply c44_unique; intro f; rw [hc, hd, h]
  · intro h; apply c44_unique; intro f; rw [hc, c44_negate, hd, h]

/-! ## Set byte on condition -/

def setOf (e : Entry) : Option (BitVec 4) :=
  match e.body with
  | .leaf (.setcc (.a 0) c) => if e.params = [.op] then ccByte 0 c else none
  | _ => none

theorem set_table : tableOK X86.cond n!"set" setOf X86.suffixes = true := by decide +kernel

/-- C44: every function `setcc` emits SETcc of its operand with the condition the suffix stands for (`SetOK`: see `c44_setcc_partial`). -/
theorem c44_set_names_partial (x : Nat × (X86.Flags → Bool)) (hx : x ∈ X86.suffixes) :
    named (X86.cat n!"set" x.1) ≠ [] ∧ ∀ e ∈ named (X86.cat n!"set" x.1), e.params = [.op] ∧
      ∀ g : Args, SetOK (g.op 0) → ∃ m, e.body.run g = some m ∧ ∀ w, m.Gives w () → ∀ fill,
        ∃ i : X86.Setcc, (∀ t, X86.setcc (concr fill w ++ t) = some (i, t)) ∧ Tests i.cc x.2 ∧ RmIs fill i.head i.rm ((g.op 0).withImm 0) ∧
          i.zu = ((g.op 0).hasRex2NFZU && (rmBase (g.op 0)).zu) ∧ ByteIs i.head (g.op 0) := by
  obtain ⟨h1, h2⟩ := tableOK_iff set_table hx
  refine ⟨h1, fun e he => ?_⟩
  obtain ⟨cc, ho, ht⟩ := h2 e he
  unfold setOf at ho
  split at ho
  · rename_i c hb
    by_cases hc : e.params = [.op]
    · rw [if_pos hc] at ho
      have e1 := ccByte_some ho
      rw [show (0 ||| cc.setWidth 8 : Byte) = cc.setWidth 8 from BitVec.zero_or] at e1
      subst e1
      refine ⟨hc, fun g hg => ⟨_, by rw [hb]; rfl, fun w hw fill => ?_⟩⟩
      obtain ⟨i, h3, h4, h5⟩ := c44_setcc_partial (g.op 0) hg cc hw fill
      exact ⟨i, h3, by rw [h4]; exact ht, h5⟩
    · rw [if_neg hc] at ho; cases ho
  · cases ho

/-! ## Conditional moves -/

def cmovOf (e : Entry) : Option (BitVec 4) :=
  match e.body with
  | .leaf (.ro (.a 0) (.a 1) t c (.isREG 1 112)) => if e.params = [.reg, .op] ∧ t = T_0F then ccByte 0x40 c else none
  | .leaf (.roo (.a 0) (.a 2) (.a 1) t c) => if e.params = [.reg, .reg, .op] ∧ t = T_APX ||| T_ND1 then ccByte 0x40 c else none
  | _ => none

theorem cmov_table : tableOK X86.cond n!"cmov" cmovOf X86.suffixes = true := by decide +kernel

/-- A general register of 16, 32 or 64 bits. -/
def Gpr (r : Reg) : Prop := r.kind = .reg ∧ (r.bit = 16 ∨ r.bit = 32 ∨ r.bit = 64)

/-- C44: every function `cmovcc` emits CMOVcc of its operands with the condition the suffix stands for.
Partial: see `c44_cmov_partial`, `c44_cmov3_partial`. -/
theorem c44_cmov_names_partial (x : Nat × (X86.Flags → Bool)) (hx : x ∈ X86.suffixes) :
    named (X86.cat n!"cmov" x.1) ≠ [] ∧ ∀ e ∈ named (X86.cat n!"cmov" x.1),
      (e.params = [.reg, .op] ∧ ∀ g : Args, Gpr (g.reg 0) → OpOK (g.op 1) → ∃ m, e.body.run g = some m ∧ ∀ w, m.Gives w () → ∀ fill,
        ∃ i : X86.Cmov, (∀ t, X86.cmov (concr fill w ++ t) = some (i, t)) ∧ Tests i.cc x.2 ∧ i.bits = (g.reg 0).bit ∧ i.cf = false ∧
          i.dst = .gpr (g.reg 0).idx ∧ SrcIs fill i.head ((g.op 1).withImm 0) i.yes ∧ i.no = some (.gpr (g.reg 0).idx)) ∨
      (e.params = [.reg, .reg, .op] ∧ ∀ g : Args, Gpr (g.reg 0) → g.op 1 = .reg (g.reg 1) → (g.reg 1).kind = .reg ∧ (g.reg 1).bit = (g.reg 0).bit →
        ApxOK (g.op 2) → ∃ m, e.body.run g = some m ∧ ∀ w, m.Gives w () → ∀ fill,
        ∃ i : X86.Cmov, (∀ t, X86.cmov (concr fill w ++ t) = some (i, t)) ∧ Tests i.cc x.2 ∧ i.bits = (g.reg 0).bit ∧ i.cf = false ∧
          i.dst = .gpr (g.reg 0).idx ∧ SrcIs fill i.head ((g.op 2).withImm 0) i.yes ∧ i.no = some (.gpr (g.reg 1).idx)) := by
  obtain ⟨h1, h2⟩ := tableOK_iff cmov_table hx
  refine ⟨h1, fun e he => ?_⟩
  obtain ⟨cc, ho, ht⟩ := h2 e he
  unfold cmovOf at ho
  split at ho
  · rename_i t c hb
    by_cases hc : e.params = [.reg, .op] ∧ t = T_0F
    · rw [if_pos hc] at ho
      have e1 := ccByte_some ho
      obtain ⟨hc, rfl⟩ := hc
      subst e1
      refine .inl ⟨hc, fun g hg h1 => ⟨_, by rw [hb]; rfl, fun w hw fill => ?_⟩⟩
      obtain ⟨i, h3, h4, h5, h6, h7, h8, h9, _⟩ := c44_cmov_partial (g.reg 0) hg.1 hg.2 (g.op 1) h1 cc hw fill
      exact ⟨i, h3, by rw [h4]; exact ht, h5, h6, h7, h8, h9⟩
    · rw [if_neg hc] at ho; cases ho
  · rename_i t c hb
    by_cases hc : e.params = [.reg, .reg, .op] ∧ t = T_APX ||| T_ND1
    · rw [if_pos hc] at ho
      have e1 := ccByte_some ho
      obtain ⟨hc, rfl⟩ := hc
      subst e1
      refine .inr ⟨hc, fun g hg h1 h2 h3 => ⟨_, by rw [hb]; rfl, fun w hw fill => ?_⟩⟩
      have hw : (opROO (g.reg 0) (g.op 2) (g.op 1) (T_APX ||| T_ND1) (0x40 ||| cc.setWidth 8) >>= fun _ => pure ()).Gives w () := hw
      rw [Enc.gives_bind] at hw
      obtain ⟨w1, v, w2, hw1, hp, rfl⟩ := hw
      obtain ⟨rfl, _⟩ := (Enc.gives_pure ..).1 hp
      rw [List.append_nil]
      rw [h1] at hw1
      have hw := hw1
      obtain ⟨i, h3, h4, h5⟩ := c44_cmov3_partial (g.reg 0) (g.reg 1) hg.1 hg.2 h2 (g.op 2) h3 cc hw fill
      exact ⟨i, h3, by rw [h4]; exact ht, h5⟩
    · rw [if_neg hc] at ho; cases ho
  · cases ho

/-- The suffixes for which `cfcmovcc` exists. -/
def cfSuffixes : List (Nat × (X86.Flags → Bool)) :=
  X86.suffixes.filter fun x => [n!"b", n!"be", n!"l", n!"le", n!"nb", n!"nbe", n!"nl", n!"nle", n!"no", n!"np", n!"ns", n!"nz", n!"o", n!"p", n!"s", n!"z"].contains x.1

def cfcmovOf (e : Entry) : Option (BitVec 4) :=
  match e.body with
  | .leaf (.cfcmov (.r q) (.a 0) (.a 1) c) => if e.params = [.op, .op] ∧ q = .nil then ccByte 0x40 c else none
  | .leaf (.cfcmov (.nfOf 0) (.a 2) (.a 1) c) => if e.params = [.reg, .reg, .op] then ccByte 0x40 c else none
  | _ => none

theorem cfcmov_table : tableOK X86.cond n!"cfcmov" cfcmovOf cfSuffixes = true := by decide +kernel

/-- C44: every function `cfcmovcc` emits CFCMOVcc of its operands with the condition the suffix stands for; the 16 suffixes stand for 16
conditions.  Partial: see `c44_cfcmov2_partial`, `c44_cfcmov3_partial`. -/
theorem c44_cfcmov_names_partial (x : Nat × (X86.Flags → Bool)) (hx : x ∈ cfSuffixes) :
    named (X86.cat n!"cfcmov" x.1) ≠ [] ∧ ∀ e ∈ named (X86.cat n!"cfcmov" x.1),
      (e.params = [.op, .op] ∧ ∀ (g : Args) (n : Nat), (n = 16 ∨ n = 32 ∨ n = 64) → ApxOK (g.op 0) → ApxOK (g.op 1) → WidthIs n (g.op 0) →
        WidthIs n (g.op 1) → ∃ m, e.body.run g = some m ∧ ∀ w, m.Gives w () → ∀ fill,
        ∃ i : X86.Cmov, (∀ t, X86.cmov (concr fill w ++ t) = some (i, t)) ∧ Tests i.cc x.2 ∧ i.bits = n ∧ i.cf = true ∧
          SrcIs fill i.head ((g.op 0).withImm 0) i.dst ∧ SrcIs fill i.head ((g.op 1).withImm 0) i.yes ∧ i.no = none) ∨
      (e.params = [.reg, .reg, .op] ∧ ∀ g : Args, Gpr (g.reg 0) → g.op 1 = .reg (g.reg 1) → (g.reg 1).bit ≠ 0 → ApxOK (g.op 2) →
        ∃ m, e.body.run g = some m ∧ ∀ w, m.Gives w () → ∀ fill,
        ∃ i : X86.Cmov, (∀ t, X86.cmov (concr fill w ++ t) = some (i, t)) ∧ Tests i.cc x.2 ∧ i.bits = (g.reg 0).bit ∧ i.cf = true ∧
          i.dst = .gpr (g.reg 0).idx ∧ SrcIs fill i.head ((g.op 2).withImm 0) i.yes ∧ i.no = some (.gpr (g.reg 1).idx) ∧
          (g.reg 1).bit = (g.reg 0).bit) := by
  obtain ⟨h1, h2⟩ := tableOK_iff cfcmov_table hx
  refine ⟨h1, fun e he => ?_⟩
  obtain ⟨cc, ho, ht⟩ := h2 e he
  unfold cfcmovOf at ho
  split at ho
  · rename_i q c hb
    by_cases hc : e.params = [.op, .op] ∧ q = .nil
    · rw [if_pos hc] at ho
      have e1 := ccByte_some ho
      obtain ⟨hc, rfl⟩ := hc
      subst e1
      refine .inl ⟨hc, fun g n hn h1 h2 h3 h4 => ⟨_, by rw [hb]; rfl, fun w hw fill => ?_⟩⟩
      obtain ⟨i, h5, h6, h7⟩ := c44_cfcmov2_partial n hn (g.op 0) (g.op 1) h1 h2 h3 h4 cc hw fill
      exact ⟨i, h5, by rw [h6]; exact ht, h7⟩
    · rw [if_neg hc] at ho; cases ho
  · rename_i c hb
    by_cases hc : e.params = [.reg, .reg, .op]
    · rw [if_pos hc] at ho
      have e1 := ccByte_some ho
      subst e1
      refine .inr ⟨hc, fun g hg h1 h2 h3 => ⟨_, by rw [hb]; rfl, fun w hw fill => ?_⟩⟩
      have hw : (opCfcmov (g.reg 0).setNF (g.op 2) (g.op 1) (0x40 ||| cc.setWidth 8)).Gives w () := hw
      rw [h1] at hw
      obtain ⟨i, h5, h6, h7⟩ := c44_cfcmov3_partial (g.reg 0) (g.reg 1) hg.1 hg.2 (g.op 2) h3 h2 cc hw fill
      exact ⟨i, h5, by rw [h6]; exact ht, h7⟩
    · rw [if_neg hc] at ho; cases ho
  · cases ho

/-! ## Conditional comparisons -/

def ccmpOf (e : Entry) : Option (BitVec 4) :=
  match e.body with
  | .leaf (.ccmp (.a 0) (.a 1) 0 c sc) => if e.params = [.op, .op, .int] ∧ c = 0x38 then some sc else none
  | .leaf (.ccmpi (.a 0) 0 1 sc) => if e.params = [.op, .int, .int] then some sc else none
  | _ => none
def ctestOf (e : Entry) : Option (BitVec 4) :=
  match e.body with
  | .leaf (.ccmp (.a 0) (.a 1) 0 c sc) => if e.params = [.op, .reg, .int] ∧ c = 0x84 then some sc else none
  | .leaf (.testi (.a 0) 0 1 sc) => if e.params = [.op, .int, .int] then some sc else none
  | _ => none

theorem ccmp_table : tableOK X86.scond n!"ccmp" ccmpOf X86.scSuffixes = true := by decide +kernel
theorem ctest_table : tableOK X86.scond n!"ctest" ctestOf X86.scSuffixes = true := by decide +kernel

/-- The decoded instruction compares (tests) the first operand with the second; a false condition gives the default flags. -/
def CcmpIs (fill : Act → BitVec 32) (test : Bool) (m : X86.Flags → Bool) (n : Nat) (op1 op2 : Operand) (dfv : Int) (w : List Act) : Prop :=
  ∃ i : X86.Ccmp, (∀ t, X86.ccmp (concr fill w ++ t) = some (i, t)) ∧ i.test = test ∧ STests i.sc m ∧ i.dfv = BitVec.ofInt 4 dfv ∧ i.bits = n ∧
    SrcIs fill i.head (op1.withImm 0) i.src1 ∧ SrcIs fill i.head (op2.withImm 0) i.src2 ∧ 0 ≤ dfv ∧ dfv ≤ 15

/-- The same with an immediate. -/
def CcmpiIs (fill : Act → BitVec 32) (test : Bool) (m : X86.Flags → Bool) (op : Operand) (imm : BitVec 32) (dfv : Int) (w : List Act) : Prop :=
  ∃ (i : X86.Ccmp) (k : Nat) (v : Word), (∀ t, X86.ccmp (concr fill w ++ t) = some (i, t)) ∧ i.test = test ∧ STests i.sc m ∧
    i.dfv = BitVec.ofInt 4 dfv ∧ i.bits = op.bit ∧ SrcIs fill i.head (op.withImm k) i.src1 ∧ i.src2 = .imm v ∧
    v.setWidth op.bit = (imm.signExtend 64).setWidth op.bit ∧ 0 ≤ dfv ∧ dfv ≤ 15

/-- C44: every function `ccmpcc` emits CCMPcc of its operands with the source condition the suffix stands for.
Partial: see `c44_ccmp_partial`, `c44_ccmpi_partial`. -/
theorem c44_ccmp_names_partial (x : Nat × (X86.Flags → Bool)) (hx : x ∈ X86.scSuffixes) :
    named (X86.cat n!"ccmp" x.1) ≠ [] ∧ ∀ e ∈ named (X86.cat n!"ccmp" x.1),
      (e.params = [.op, .op, .int] ∧ ∀ (g : Args) (n : Nat), (n = 8 ∨ n = 16 ∨ n = 32 ∨ n = 64) → ApxOK (g.op 0) → ApxOK (g.op 1) →
        WidthIs n (g.op 0) → WidthIs n (g.op 1) → ∃ m, e.body.run g = some m ∧ ∀ w, m.Gives w () → ∀ fill,
        CcmpIs fill false x.2 n (g.op 0) (g.op 1) (g.i32 0).toInt w) ∨
      (e.params = [.op, .int, .int] ∧ ∀ g : Args, ApxOK (g.op 0) → ((g.op 0).bit = 8 ∨ (g.op 0).bit = 16 ∨ (g.op 0).bit = 32 ∨ (g.op 0).bit = 64) →
        ∃ m, e.body.run g = some m ∧ ∀ w, m.Gives w () → ∀ fill, CcmpiIs fill false x.2 (g.op 0) (g.i32 0) (g.i32 1).toInt w) := by
  obtain ⟨h1, h2⟩ := tableOK_iff ccmp_table hx
  refine ⟨h1, fun e he => ?_⟩
  obtain ⟨cc, ho, ht⟩ := h2 e he
  unfold ccmpOf at ho
  split at ho
  · rename_i c sc hb
    by_cases hc : e.params = [.op, .op, .int] ∧ c = 0x38
    · rw [if_pos hc] at ho
      cases ho
      obtain ⟨hc, rfl⟩ := hc
      refine .inl ⟨hc, fun g n hn h1 h2 h3 h4 => ⟨_, by rw [hb]; rfl, fun w hw fill => ?_⟩⟩
      obtain ⟨i, h5, h6, h7, h8⟩ := c44_ccmp_partial n hn (g.op 0) (g.op 1) h1 h2 h3 h4 false (by simp) (g.i32 0).toInt cc hw fill
      exact ⟨i, h5, h6, by rw [h7]; exact ht, h8⟩
    · rw [if_neg hc] at ho; cases ho
  · rename_i sc hb
    by_cases hc : e.params = [.op, .int, .int]
    · rw [if_pos hc] at ho
      cases ho
      refine .inr ⟨hc, fun g h1 h2 => ⟨_, by rw [hb]; rfl, fun w hw fill => ?_⟩⟩
      obtain ⟨i, k, v, h5, h6, h7, h8, h9, h10, h11, h12, h13, h14, _⟩ := c44_ccmpi_partial (g.op 0) h1 h2 (g.i32 0) (g.i32 1).toInt cc hw fill
      exact ⟨i, k, v, h5, h6, by rw [h7]; exact ht, h8, h9, h10, h11, h12, h13, h14⟩
    · rw [if_neg hc] at ho; cases ho
  · cases ho

/-- C44: every function `ctestcc` emits CTESTcc of its operands with the source condition the suffix stands for.
Partial: see `c44_ccmp_partial`, `c44_testi_partial`. -/
theorem c44_ctest_names_partial (x : Nat × (X86.Flags → Bool)) (hx : x ∈ X86.scSuffixes) :
    named (X86.cat n!"ctest" x.1) ≠ [] ∧ ∀ e ∈ named (X86.cat n!"ctest" x.1),
      (e.params = [.op, .reg, .int] ∧ ∀ (g : Args) (n : Nat), (n = 8 ∨ n = 16 ∨ n = 32 ∨ n = 64) → ApxOK (g.op 0) → g.op 1 = .reg (g.reg 1) →
        WidthIs n (g.op 0) → WidthIs n (g.op 1) → ∃ m, e.body.run g = some m ∧ ∀ w, m.Gives w () → ∀ fill,
        CcmpIs fill true x.2 n (g.op 0) (g.op 1) (g.i32 0).toInt w) ∨
      (e.params = [.op, .int, .int] ∧ ∀ g : Args, ApxOK (g.op 0) → ((g.op 0).bit = 8 ∨ (g.op 0).bit = 16 ∨ (g.op 0).bit = 32 ∨ (g.op 0).bit = 64) →
        ∃ m, e.body.run g = some m ∧ ∀ w, m.Gives w () → ∀ fill, CcmpiIs fill true x.2 (g.op 0) (g.i32 0) (g.i32 1).toInt w) := by
  obtain ⟨h1, h2⟩ := tableOK_iff ctest_table hx
  refine ⟨h1, fun e he => ?_⟩
  obtain ⟨cc, ho, ht⟩ := h2 e he
  unfold ctestOf at ho
  split at ho
  · rename_i c sc hb
    by_cases hc : e.params = [.op, .reg, .int] ∧ c = 0x84
    · rw [if_pos hc] at ho
      cases ho
      obtain ⟨hc, rfl⟩ := hc
      refine .inl ⟨hc, fun g n hn h1 h2 h3 h4 => ⟨_, by rw [hb]; rfl, fun w hw fill => ?_⟩⟩
      obtain ⟨i, h5, h6, h7, h8⟩ := c44_ccmp_partial n hn (g.op 0) (g.op 1) h1 (by rw [h2]; trivial) h3 h4 true (by rw [h2]; intro _; rfl) (g.i32 0).toInt cc hw fill
      exact ⟨i, h5, h6, by rw [h7]; exact ht, h8⟩
    · rw [if_neg hc] at ho; cases ho
  · rename_i sc hb
    by_cases hc : e.params = [.op, .int, .int]
    · rw [if_pos hc] at ho
      cases ho
      refine .inr ⟨hc, fun g h1 h2 => ⟨_, by rw [hb]; rfl, fun w hw fill => ?_⟩⟩
      obtain ⟨i, v, h5, h6, h7, h8, h9, h10, h11, h12, h13, h14⟩ := c44_testi_partial (g.op 0) h1 h2 (g.i32 0) (g.i32 1).toInt cc hw fill
      exact ⟨i, _, v, h5, h6, by rw [h7]; exact ht, h8, h9, h10, h11, h12, h13, h14⟩
    · rw [if_neg hc] at ho; cases ho
  · cases ho

/-! ### Examples and counterexamples -/

/-- `setbe(r9b)`: 41 0F 96 C1 -/
example : (opSetCC (.reg (.r8 9)) 6).acts = [.byte 0x41, .byte 0x0F, .byte 0x96, .byte 0xC1] := by decide +kernel
/-- `cmovl(r10d, ecx)`: 44 0F 4C D1 -/
example : (opRO (.gp 10 32) (.reg (.gp 1 32)) T_0F 0x4C).acts = [.byte 0x44, .byte 0x0F, .byte 0x4C, .byte 0xD1] := by decide +kernel
/-- `ccmpl(rax, rcx, 5)`: 62 F4 AC 0C 39 C8 -/
example : (opCcmp (.reg (.gp 0 64)) (.reg (.gp 1 64)) 5 0x38 0xC).acts =
    [.byte 0x62, .byte 0xF4, .byte 0xAC, .byte 0x0C, .byte 0x39, .byte 0xC8] := by decide +kernel

/-- C44 does not hold in full: `setb(r16)` with the 64-bit register is accepted (while `setb(rax)` is refused) and encodes `setb r16b`. -/
theorem c44_refuted_setcc : (opSetCC (.reg (.gp 16 64)) 2).res = .ok () ∧ (opSetCC (.reg (.gp 16 64)) 2).acts = (opSetCC (.reg (.r8 16)) 2).acts ∧
    (opSetCC (.reg (.gp 0 64)) 2).res = .error .BAD_COMBINATION := ⟨rfl, by decide +kernel, rfl⟩

/-- C44 does not hold in full: `cmovb(al, ptr [rax])` and `cmovb(xmm1, ptr [rax])` are accepted; they encode `cmovb eax, [rax]` and
`cmovb ecx, [rax]`. -/
theorem c44_refuted_cmov : ∃ a, Term.addr (.reg (.gp 0 64)) 0 false = .ok a ∧
    (opRO (.r8 0) (.mem a) T_0F 0x42 false).res = .ok () ∧ (opRO (.r8 0) (.mem a) T_0F 0x42 false).acts = (opRO (.gp 0 32) (.mem a) T_0F 0x42 false).acts ∧
    (opRO (.xmm 1) (.mem a) T_0F 0x42 false).res = .ok () ∧ (opRO (.xmm 1) (.mem a) T_0F 0x42 false).acts = (opRO (.gp 1 32) (.mem a) T_0F 0x42 false).acts :=
  ⟨_, rfl, rfl, by decide +kernel, rfl, by decide +kernel⟩

/-- C44 does not hold in full: sizes are not compared; `ccmpb(eax, cl, 0)` is accepted and encodes `ccmpb al, cl`. -/
theorem c44_refuted_ccmp : (opCcmp (.reg (.gp 0 32)) (.reg (.r8 1)) 0 0x38 2).res = .ok () ∧
    (opCcmp (.reg (.gp 0 32)) (.reg (.r8 1)) 0 0x38 2).acts = (opCcmp (.reg (.r8 0)) (.reg (.r8 1)) 0 0x38 2).acts := ⟨rfl, by decide +kernel⟩

end Xbyak
