import Verif.LowerA
import Verif.Props.Gp
/-!
# Extended EVEX integer instructions are those of the APX specification (C82)

For every function of mnemonic.h that can write an extended EVEX form of an integer instruction, an accepted call with APX operands (`Uses`)
writes an instruction that the decoder of `Spec/X86` reads as a form listed for that mnemonic in `Spec/ApxForms`: opcode, map, prefix, W, ND,
ModRM.reg extension, and every operand of the right kind and size at its place, NF, and the immediate.  What is written depends on kinds and
sizes (`Body.asent`); the kernel checks all of them (`apxOk_check`).
-/
namespace Xbyak
open X86 (AForm AOp AImm Sz)
namespace Mn
open E

/-! ## Statement -/

/-- The operand can be given as `x`. -/
def takesA (n : Nat) (o : AOp) (x : Operand) : Bool :=
  o.takes n x.isMEM (x.hd.kind == .reg) (x.hd.kind == .xmm) (x.hd.kind == .tmm) (x.hd.kind == .opmask) x.hd.bit

def takesAll (n : Nat) : List AOp → List Operand → Bool
  | [], [] => true
  | o :: os, x :: xs => takesA n o x && takesAll n os xs
  | _, _ => false

/-- The operand sizes that prefix and W choose from. -/
def aSizes : List Nat := [16, 32, 64]

/-- Register number `n` in the decoded instruction is `q`, which has the size `s`. -/
structure ARegIs (h : X86.Head) (n : BitVec 5) (s : Sz) (q : Reg) : Prop where
  kind : q.kind = .reg
  size : q.bit = s.bits (h.pp == 1) h.w
  num : n = q.idx
  byte : q.bit = 8 → X86.reg8 h n = q.view8

/-- The decoded r/m operand is the address `a`, with `n` immediate bytes behind it; a stated size is `s`. -/
structure AMemIs (fill : Act → BitVec 32) (h : X86.Head) (rm : X86.RM) (n : Nat) (s : Sz) (a : Addr) : Prop where
  size : s = .any ∨ a.o.bit = 0 ∨ a.o.bit = s.bits (h.pp == 1) h.w
  means : ∃ m, rm = .mem m ∧ ({ a with immSize := n } : Addr).Means fill h m

/-- The operand of the form is the argument. -/
def AAt (fill : Act → BitVec 32) (h : X86.Head) (reg : BitVec 3) (rm : X86.RM) (n : Nat) : AOp → Operand → Prop
  | .r s, .reg q => ARegIs h (X86.regNum h reg) s q
  | .v s, .reg q => ARegIs h h.vreg s q
  | .rm s, .reg q | .rr s, .reg q => ∃ lo, rm = .reg lo ∧ ARegIs h (X86.rmGpr h lo) s q
  | .rm s, .mem a | .m s, .mem a => AMemIs fill h rm n s a
  | .x, .reg q => q.kind = .xmm ∧ X86.regNum h reg = q.idx
  | .xm, .reg q => q.kind = .xmm ∧ ∃ lo, rm = .reg lo ∧ X86.rmGpr h lo = q.idx
  | .xm, .mem a => AMemIs fill h rm n .x a
  | .t, .reg q => q.kind = .tmm ∧ X86.regNum h reg = q.idx
  | .k, .reg q => q.kind = .opmask ∧ X86.regNum h reg = q.idx
  | .krm, .reg q => q.kind = .opmask ∧ ∃ lo, rm = .reg lo ∧ X86.rmGpr h lo = q.idx
  | .cl, .reg q => q.kind = .reg ∧ q.bit = 8 ∧ q.idx = 1
  | _, _ => False

/-- The decoded instruction is the form with the arguments. -/
structure HoldsA (e : Entry) (g : Args) (fill : Act → BitVec 32) (f : AForm) (h : X86.Head) (reg : BitVec 3) (rm : X86.RM) : Prop where
  form : f ∈ X86.aformsOf e.name
  is : f.Is h reg
  length : f.ops.length = g.ops.length
  at_ : ∀ (i : Nat) o x, f.ops[i]? = some o → g.ops[i]? = some x → AAt fill h reg rm (f.imm.bytes (h.pp == 1) h.w) o x
  /-- the flags are left alone iff `T_nf` is given -/
  nf : h.nf = true ↔ ∃ (i : Nat) (o : AOp) (x : Operand), f.ops[i]? = some o ∧ g.ops[i]? = some x ∧ o ≠ .cl ∧ opNF x = true

/-- BLSI, BLSMSK, BLSR -/
def blsNames : List Nat := [n!"blsi", n!"blsmsk", n!"blsr"]

/-- The mnemonic has the form and the arguments are of the kinds and sizes it wants. -/
structure Taken (e : Entry) (g : Args) (f : AForm) : Prop where
  form : f ∈ X86.aformsOf e.name
  imm : (f.imm == .no) = !e.params.contains .int
  takes : ∃ n ∈ aSizes, takesAll n f.ops g.ops = true

/-- The call asks for APX: the instruction has a new data destination; or an operand is or has one of the registers 16 to 31; or `T_nf` is given on
the first operand (not for BLSI, BLSMSK and BLSR: `c82_refuted_nf`). -/
def Uses (e : Entry) (g : Args) : Prop :=
  (∃ f, Taken e g f ∧ f.nd = true) ∨ (∃ o ∈ g.ops, o.hasRex2 = true) ∨
  ((∃ f, Taken e g f ∧ f.nf = true) ∧ (g.op 0).isMEM = false ∧ (g.reg 0).nf = true ∧ e.name ∉ blsNames)

/-- Conditions on the arguments.  `named` and the first part of `mem` hold for all operands a program can make (index tile registers:
`c32_refuted_tile`).  32-bit and 64-bit absolute addresses, high bytes, and `[rip]` for RORX: see `c41_refuted_addr32`, `c41_refuted_disp64`,
`c41_refuted_high`, `c31_refuted_rorx`.  Operands of other kinds and sizes: `c41_refuted_size`, `c82_refuted_sha`. -/
structure ProperA (e : Entry) (g : Args) : Prop where
  named : ∀ (i : Nat) q, g.ops[i]? = some (.reg q) → q.Named ∧ q.isHigh8bit = false
  mem : ∀ (i : Nat) a, g.ops[i]? = some (.mem a) → (a.WF ∧ a.permitVsib = false ∧ a.disp8N = 0 ∧ a.e.index.kind ≠ .tmm ∧ a.o.bit ∈ memBits) ∧
    a.is32bit = false ∧ a.mode ≠ .disp64 ∧ (e.name = n!"rorx" → a.mode = .modRM)
  taken : ∃ f, Taken e g f

/-! ## The finite check -/

/-- One operand of every kind and size considered. -/
def areps : List Operand :=
  [(Kind.reg, 8), (.reg, 16), (.reg, 32), (.reg, 64), (.xmm, 128), (.tmm, 8192), (.opmask, 64)].map (fun p => .reg { idx := 0, ext8 := false, kind := p.1, bit := p.2 }) ++
  memBits.map fun b => .mem { o := { idx := 0, ext8 := false, kind := .mem, bit := b }, e := .ofDisp 0 }

/-- The representatives of all operands the form takes. -/
def alists (n : Nat) : List AOp → List (List Operand)
  | [] => [[]]
  | o :: os => (areps.filter (takesA n o)).flatMap fun x => (alists n os).map fun l => x :: l

def pTakes : List Param → List Operand → Bool
  | [], [] => true
  | p :: ps, x :: xs => p.takes x && pTakes ps xs
  | _, _ => false

namespace AShape

/-- The second source is memory and the first is not: ModRM.rm is the second. -/
def swap (sh : AShape) (G : Args) : Bool := !(sh.a.op G).isMEM && (sh.b.op G).isMEM
def regS (sh : AShape) (G : Args) : Slot := if sh.swap G then sh.a else sh.b
def rmS (sh : AShape) (G : Args) : Slot := if sh.swap G then sh.b else sh.a
def pp (sh : AShape) (G : Args) : BitVec 2 := apxPP ((sh.regS G).reg G) (sh.d.reg G) sh.t
def w (sh : AShape) (G : Args) : Bool := apxW ((sh.regS G).reg G) (sh.d.reg G) sh.t
def nd (sh : AShape) (G : Args) : Bool := if sh.t.has T_ND1 then true else if sh.t.has T_APX then false else (sh.d.reg G).isREG
def code (sh : AShape) (G : Args) : Byte := opc sh.t (sh.d.reg G) (if sh.swap G then sh.c ||| 2 else sh.c)

/-- The operand is what the form wants at this place. -/
def fitsOp (sh : AShape) (G : Args) (i : Nat) (o : AOp) : Bool :=
  let n := fun s : Sz => s.bits (sh.pp G == 1) (sh.w G)
  let isReg := fun s : Sz => !(G.op i).isMEM && (G.reg i).kind == .reg && Nat.beq (G.reg i).bit (n s)
  match o with
  | .r s => sh.regS G == .a i && isReg s
  | .v s => sh.d == .a i && isReg s
  | .rm s => sh.rmS G == .a i && if (G.op i).isMEM then fitsSz (G.reg i).bit (n s) s else isReg s
  | .rr s => sh.rmS G == .a i && isReg s
  | .m s => sh.rmS G == .a i && (G.op i).isMEM && fitsSz (G.reg i).bit (n s) s
  | .x => sh.regS G == .a i && !(G.op i).isMEM && (G.reg i).kind == .xmm
  | .xm => sh.rmS G == .a i && if (G.op i).isMEM then fitsSz (G.reg i).bit 128 .x else (G.reg i).kind == .xmm
  | .t => sh.regS G == .a i && !(G.op i).isMEM && (G.reg i).kind == .tmm
  | .k => sh.regS G == .a i && !(G.op i).isMEM && (G.reg i).kind == .opmask
  | .krm => sh.rmS G == .a i && !(G.op i).isMEM && (G.reg i).kind == .opmask
  | .cl => sh.cl == some i && !(G.op i).isMEM && (G.reg i).kind == .reg && Nat.beq (G.reg i).bit 8

def fitsAll (sh : AShape) (G : Args) : Nat → List AOp → Bool
  | _, [] => true
  | i, o :: os => sh.fitsOp G i o && fitsAll sh G (i + 1) os

/-- The slot is an operand of the form, other than CL, or a register of the line without modifiers. -/
def slotOk (ops : List AOp) : Slot → Bool
  | .a i => match ops[i]? with | some o => o != .cl | none => false
  | .r q => !q.nf
  | .bitOf .. => true
  | _ => false

/-- The slot is register 0. -/
def zero : Slot → Bool
  | .r q => q.idx == 0
  | .bitOf _ n => n == 0
  | _ => false

/-- The first integer argument is written with `k` bytes, and the address is told so (`opRRO` does not). -/
def immOk (sh : AShape) (k : Nat) : Bool :=
  match sh.imm with
  | some (i, l) => Nat.beq i 0 && Nat.beq k l && Nat.beq (if sh.how == .rro then 1 else sh.n) k
  | none => Nat.beq k 0 && Nat.beq sh.n 0

def fits (sh : AShape) (G : Args) (n : Nat) (f : AForm) : Bool :=
  sh.code G == f.op && (apxMap sh.t).setWidth 5 == f.map && f.prefixes (sh.pp G) (sh.w G) &&
  (match f.ext with | some x => (sh.regS G).num == some x | none => true) && sh.nd G == f.nd && (f.nf || !sh.t.has T_NF) &&
  (f.ops.any (fun o => match o with | .v _ => true | _ => false) || zero sh.d) &&
  sh.immOk (f.imm.bytes (sh.pp G == 1) (sh.w G)) &&
  Nat.beq f.ops.length n && slotOk f.ops sh.d && slotOk f.ops sh.a && slotOk f.ops sh.b && sh.fitsAll G 0 f.ops

/-- The call can be decoded. -/
def legal (sh : AShape) (G : Args) : Bool :=
  sh.d.stable && sh.a.stable && sh.b.stable && (sh.t.has T_APX || mapOf sh.t == 0) && !sh.t.has T_ZU &&
  !(sh.how == .roi && !((sh.d.reg G).kind == .reg)) && !(sh.d.op G).isMEM &&
  (match sh.how with
   | .rro => !(sh.b.op G).isMEM
   | .sse => !(sh.b.op G).isMEM && (sh.b.reg G).kind == .xmm && sh.d == .r .nil
   | .key => !(sh.b.op G).isMEM && !(sh.a.op G).isMEM && sh.d == .r .nil
   | _ => true)

end AShape

/-- A form with ND or NF leads to the extended EVEX instruction. -/
def AShape.used? (sh : AShape) (e : Entry) (G : Args) (f : AForm) : Bool :=
  sh.cl != some 0 && (!(sh.how == .rro && sh.imm.isSome) || e.name == n!"rorx") && (!f.nd || (sh.how == .roo || sh.how == .roi) && (sh.d.reg G).isREG) &&
  (!f.nf || (match sh.how with | .roo | .roi => true | .rro => sh.b == .a 0 || (G.op 0).isMEM || blsNames.contains e.name | _ => false))

def Entry.aped (e : Entry) : Bool := e.body.aped e.ops && !(X86.aformsOf e.name).isEmpty

def Entry.apxOk (e : Entry) (F : List AForm) : Bool :=
  Nat.beq e.opt 0 && F.all fun f => (f.imm == .no) == e.params.contains .int || aSizes.all fun n => (alists n f.ops).all fun os => !pTakes e.ops os ||
    (e.body.ashapes { ops := os }).all fun sh => sh.legal { ops := os } && sh.used? e { ops := os } f && F.any (sh.fits { ops := os } os.length)

set_option maxRecDepth 1000000 in
theorem apxOk_check : (all.all fun e => !e.aped || e.apxOk (X86.aformsOf e.name)) = true := by decide +kernel

/-! ## Lifting -/

variable {g : Args}

def Body.simpleA : Body → Bool
  | .guard .. | .ite .. => false
  | _ => true

theorem Body.simpleA_abs {b : Body} (h : b.simpleA = true) : b.AbsA := by
  cases b <;> first | trivial | cases h

set_option maxRecDepth 1000000 in
theorem simpleA_check : (all.all fun e => !e.aped || [9, 21, 272].contains e.line || e.body.simpleA) = true := by decide +kernel

theorem Entry.absA {e : Entry} (he : e ∈ all) (hg : e.aped = true) : e.body.AbsA := by
  have h := List.all_eq_true.mp simpleA_check e he
  rw [hg, Bool.not_true, Bool.false_or, Bool.or_eq_true] at h
  rcases h with h | h
  · have h : e.line ∈ [9, 21, 272] := List.contains_iff_mem.mp h
    simp only [List.mem_cons, List.not_mem_nil, or_false] at h
    rcases h with h | h | h
    · rw [mem_line he h gpLine9]; simp only [Body.AbsA, Args.rep_isREG, Args.rep_bit, implies_true, and_self]
    · rw [mem_line he h gpLine21]; simp only [Body.AbsA, Args.rep_isREG, Args.rep_bit, implies_true, and_self]
    · rw [mem_line he h gpLine272]; simp only [Body.AbsA, Args.rep_isBit, implies_true, and_self]
  · exact Body.simpleA_abs h

theorem takesA_rep (n : Nat) (o : AOp) (x : Operand) : takesA n o x.rep = takesA n o x := by
  obtain ⟨h1, h2, h3⟩ := Operand.rep_facts x
  unfold takesA
  rw [h1, h2, h3]

/-- A register of a kind that some form takes. -/
theorem takesA_kind {n : Nat} {o : AOp} {q : Reg} (h : takesA n o (.reg q) = true) : q.kind = .reg ∨ q.kind = .xmm ∨ q.kind = .tmm ∨ q.kind = .opmask := by
  have h : o.takes n false (q.kind == .reg) (q.kind == .xmm) (q.kind == .tmm) (q.kind == .opmask) q.bit = true := h
  cases o <;> simp [AOp.takes] at h <;> simp [h]

theorem areps_mem {x : Operand} {n : Nat} {o : AOp} (hr : ∀ q, x = .reg q → q.Named) (hm : ∀ a, x = .mem a → a.o.kind = .mem ∧ a.o.bit ∈ memBits) (ht : takesA n o x = true) :
    x.rep ∈ areps := by
  cases x with
  | reg q =>
    have hs := (hr q rfl).shape
    show Operand.reg { idx := 0, ext8 := false, kind := q.kind, bit := q.bit } ∈ areps
    rcases takesA_kind ht with h | h | h | h <;> rw [h] at hs ⊢ <;> simp at hs
    · rcases hs with hs | hs | hs | hs <;> rw [hs] <;> decide
    · rw [hs]; decide
    · rw [hs]; decide
    · rw [hs]; decide
  | mem a =>
    obtain ⟨h1, h2⟩ := hm a rfl
    show Operand.mem { o := { idx := 0, ext8 := false, kind := a.o.kind, bit := a.o.bit }, e := .ofDisp 0 } ∈ areps
    rw [h1]
    exact List.mem_append_right _ (List.mem_map.mpr ⟨_, h2, rfl⟩)

theorem alists_mem {n : Nat} : ∀ {os : List AOp} {xs : List Operand}, takesAll n os xs = true →
    (∀ x ∈ xs, (∀ q, x = .reg q → q.Named) ∧ (∀ a, x = .mem a → a.o.kind = .mem ∧ a.o.bit ∈ memBits)) → xs.map Operand.rep ∈ alists n os := by
  intro os
  induction os with
  | nil =>
    intro xs h _
    cases xs with
    | nil => exact List.mem_singleton.mpr rfl
    | cons x xs => exact Bool.noConfusion h
  | cons o os ih =>
    intro xs h hx
    cases xs with
    | nil => exact Bool.noConfusion h
    | cons x xs =>
    have h : (takesA n o x && takesAll n os xs) = true := h
    rw [Bool.and_eq_true] at h
    have h1 := hx x List.mem_cons_self
    refine List.mem_flatMap.mpr ⟨x.rep, List.mem_filter.mpr ⟨areps_mem h1.1 h1.2 h.1, by rw [takesA_rep]; exact h.1⟩, List.mem_map.mpr ⟨_, ih h.2 ?_, rfl⟩⟩
    exact fun y hy => hx y (List.mem_cons_of_mem _ hy)

theorem pTakes_of : ∀ {ps : List Param} {xs : List Operand}, ps.length = xs.length → (∀ (i : Nat) p x, ps[i]? = some p → xs[i]? = some x → p.takes x = true) →
    pTakes ps (xs.map Operand.rep) = true := by
  intro ps
  induction ps with
  | nil =>
    intro xs hl _
    cases xs with
    | nil => rfl
    | cons x xs => cases hl
  | cons p ps ih =>
    intro xs hl h
    cases xs with
    | nil => cases hl
    | cons x xs =>
    show (p.takes x.rep && pTakes ps (xs.map Operand.rep)) = true
    rw [takes_rep, h 0 p x rfl rfl, ih (Nat.succ.inj hl) fun i p' x' h1 h2 => h (i + 1) p' x' h1 h2]
    rfl

/-- What the finite check says about the arguments. -/
theorem taken_check {e : Entry} {w : List Act} (hv : e.aped = true) (hc : Calls e g w) (hp : ProperA e g) {f : AForm} (ht : Taken e g f) :
    ∀ sh ∈ e.body.ashapes g.rep, sh.legal g.rep = true ∧ sh.used? e g.rep f = true ∧ ∃ f' ∈ X86.aformsOf e.name, sh.fits g.rep g.ops.length f' = true := by
  have hok := List.all_eq_true.mp apxOk_check e hc.mem
  rw [hv, Bool.not_true, Bool.false_or] at hok
  unfold Entry.apxOk at hok
  rw [Bool.and_eq_true] at hok
  have h0 : e.opt = 0 := Nat.eq_of_beq_eq_true hok.1
  obtain ⟨n, hn, hta⟩ := ht.takes
  have hok := List.all_eq_true.mp hok.2 f ht.form
  rw [ht.imm, show ((!e.params.contains .int) == e.params.contains .int) = false by cases e.params.contains .int <;> rfl, Bool.false_or] at hok
  have hall : ∀ x ∈ g.ops, (∀ q, x = .reg q → q.Named) ∧ (∀ a, x = .mem a → a.o.kind = .mem ∧ a.o.bit ∈ memBits) := by
    intro x hx
    obtain ⟨i, hi⟩ := List.mem_iff_getElem?.mp hx
    exact ⟨fun q h => (hp.named i q (h ▸ hi)).1, fun a h => ⟨(hp.mem i a (h ▸ hi)).1.1.kind, (hp.mem i a (h ▸ hi)).1.2.2.2.2⟩⟩
  have hok := List.all_eq_true.mp (List.all_eq_true.mp hok n hn) _ (alists_mem hta hall)
  have hf := hc.fits
  have hops : e.ops = e.params.filter Param.isOperand := by unfold Entry.ops; rw [if_pos h0]
  rw [pTakes_of (by rw [hops]; have a := hf.1; have b := hf.2.1; rw [h0] at b; omega) (by rw [hops]; exact hf.2.2), Bool.not_true, Bool.false_or] at hok
  intro sh hsh
  have := List.all_eq_true.mp hok sh hsh
  rw [Bool.and_eq_true, Bool.and_eq_true] at this
  obtain ⟨⟨h1, h2⟩, h3⟩ := this
  obtain ⟨f', hf', h3⟩ := List.any_eq_true.mp h3
  rw [List.length_map] at h3
  exact ⟨h1, h2, f', hf', h3⟩

namespace AShape
variable {sh : AShape}

structure Legal (sh : AShape) (g : Args) : Prop where
  d : sh.d.stable = true
  a : sh.a.stable = true
  b : sh.b.stable = true
  map : sh.t.has T_APX = true ∨ mapOf sh.t = 0
  zu : sh.t.has T_ZU = false
  roi : sh.how = .roi → (sh.d.reg g).kind = .reg
  dr : (sh.d.op g).isMEM = false
  rro : sh.how = .rro → (sh.b.op g).isMEM = false
  sse : sh.how = .sse → (sh.b.op g).isMEM = false ∧ (sh.b.reg g).kind = .xmm ∧ sh.d = .r .nil
  key : sh.how = .key → (sh.b.op g).isMEM = false ∧ (sh.a.op g).isMEM = false ∧ sh.d = .r .nil

theorem legal_of (h : sh.legal g.rep = true) : Legal sh g := by
  unfold legal at h
  simp only [Bool.and_eq_true, Bool.or_eq_true, Bool.not_eq_true', beq_iff_eq] at h
  obtain ⟨⟨⟨⟨⟨⟨⟨h1, h2⟩, h3⟩, h4⟩, h5⟩, h6⟩, h7⟩, h8⟩ := h
  have ed := Slot.stable_rep h1 g
  have ea := Slot.stable_rep h2 g
  have eb := Slot.stable_rep h3 g
  rw [ed.1] at h7
  rw [ea.1, eb.1, eb.2.1] at h8
  rw [ed.2.1] at h6
  refine ⟨h1, h2, h3, h4, h5, ?_, h7, ?_, ?_, ?_⟩ <;> intro hh <;> rw [hh] at h8 h6
  · simpa using h6
  · simpa using h8
  · simp only [Bool.and_eq_true, Bool.not_eq_true', beq_iff_eq] at h8
    exact ⟨h8.1.1, h8.1.2, h8.2⟩
  · simp only [Bool.and_eq_true, Bool.not_eq_true', beq_iff_eq] at h8
    exact ⟨h8.1.1, h8.1.2, h8.2⟩

theorem swap_rep (h : Legal sh g) : sh.swap g.rep = sh.swap g := by
  unfold swap; rw [(Slot.stable_rep h.a g).1, (Slot.stable_rep h.b g).1]
theorem regS_rep (h : Legal sh g) : sh.regS g.rep = sh.regS g := by unfold regS; rw [swap_rep h]
theorem rmS_rep (h : Legal sh g) : sh.rmS g.rep = sh.rmS g := by unfold rmS; rw [swap_rep h]
theorem regS_stable (h : Legal sh g) : (sh.regS g).stable = true := by unfold regS; split; exact h.a; exact h.b
theorem reg_same (h : Legal sh g) : Same ((sh.regS g.rep).reg g.rep) ((sh.regS g).reg g) := by
  rw [regS_rep h]; exact (Slot.stable_rep (regS_stable h) g).2
theorem d_same (h : Legal sh g) : Same (sh.d.reg g.rep) (sh.d.reg g) := (Slot.stable_rep h.d g).2

theorem pp_rep (h : Legal sh g) : sh.pp g.rep = apxPP ((sh.regS g).reg g) (sh.d.reg g) sh.t := by
  unfold pp apxPP; rw [(reg_same h).isBit, (d_same h).isBit]
theorem w_rep (h : Legal sh g) : sh.w g.rep = apxW ((sh.regS g).reg g) (sh.d.reg g) sh.t := by
  unfold w apxW; rw [(reg_same h).isBit, (d_same h).isBit]
theorem code_rep (h : Legal sh g) : sh.code g.rep = opc sh.t (sh.d.reg g) (if sh.swap g then sh.c ||| 2 else sh.c) := by
  unfold code; rw [opc_same (d_same h), swap_rep h]
theorem nd_rep (h : Legal sh g) (r b : Reg) : apxND r b (sh.d.reg g) sh.t = sh.nd g.rep := by
  unfold nd apxND; rw [h.zu, (d_same h).isREG]; rfl

theorem rooReg_eq (sh : AShape) (g : Args) : rooReg (sh.a.op g) (sh.b.op g) = (sh.regS g).reg g := by
  unfold regS swap
  cases ha : sh.a.op g <;> cases hb : sh.b.op g <;> simp [Operand.isMEM, rooReg, Slot.reg, ha, hb, Operand.hd]
theorem rooRm_eq (sh : AShape) (g : Args) : rooRm (sh.a.op g) (sh.b.op g) = (sh.rmS g).op g := by
  unfold rmS swap
  cases ha : sh.a.op g <;> cases hb : sh.b.op g <;> simp [Operand.isMEM, rooRm, ha, hb]
theorem rooCode_eq (sh : AShape) (g : Args) : rooCode (sh.a.op g) (sh.b.op g) sh.c = if sh.swap g then sh.c ||| 2 else sh.c := by
  unfold swap
  cases ha : sh.a.op g <;> cases hb : sh.b.op g <;> simp [Operand.isMEM, rooCode]

theorem fitsAll_at {G : Args} : ∀ {l : List AOp} {n : Nat}, sh.fitsAll G n l = true → ∀ (i : Nat) o, l[i]? = some o → sh.fitsOp G (n + i) o = true
  | [], _, _, i, o, h => by cases h
  | _ :: l, n, hf, 0, o, h => by
    cases h
    unfold fitsAll at hf
    exact (Bool.and_eq_true _ _ ▸ hf).1
  | _ :: l, n, hf, i + 1, o, h => by
    unfold fitsAll at hf
    have := fitsAll_at (Bool.and_eq_true _ _ ▸ hf).2 i o h
    rwa [show n + (i + 1) = n + 1 + i by omega]

/-- Where an operand that fits goes. -/
theorem place {i : Nat} {o : AOp} (hL : Legal sh g) (h : sh.fitsOp g.rep i o = true) :
    (o = .cl ∧ sh.cl = some i) ∨ (o ≠ .cl ∧ ((sh.regS g = .a i ∧ (g.op i).isMEM = false) ∨ (sh.d = .a i ∧ (g.op i).isMEM = false) ∨ sh.rmS g = .a i)) := by
  unfold fitsOp at h
  rw [regS_rep hL, rmS_rep hL, Args.rep_mem] at h
  cases o <;> simp only [Bool.and_eq_true, beq_iff_eq, Bool.not_eq_true'] at h
  case cl => exact .inl ⟨rfl, h.1.1.1⟩
  all_goals refine .inr ⟨(by intro h; cases h), ?_⟩
  case r => exact .inl ⟨h.1, h.2.1.1⟩
  case rm => exact .inr (.inr h.1)
  case m => exact .inr (.inr h.1.1)
  case rr => exact .inr (.inr h.1)
  case v => exact .inr (.inl ⟨h.1, h.2.1.1⟩)
  case x => exact .inl ⟨h.1.1, h.1.2⟩
  case xm => exact .inr (.inr h.1)
  case t => exact .inl ⟨h.1.1, h.1.2⟩
  case k => exact .inl ⟨h.1.1, h.1.2⟩
  case krm => exact .inr (.inr h.1.1)

end AShape

theorem hasRex2_reg {o : Operand} (h : o.isMEM = false) : o.hasRex2 = o.hd.hasRex2 := by
  cases o with
  | reg q => rfl
  | mem a => cases h

/-- The call goes to `opROO`. -/
theorem used_of {e : Entry} {w : List Act} (hv : e.aped = true) (hc : Calls e g w) (hp : ProperA e g) (hu : Uses e g) :
    ∀ sh ∈ e.body.ashapes g.rep, (∀ i, sh.cl = some i → (g.reg i).idx = 1) → sh.used g = true := by
  intro sh hsh hcl
  rcases hu with ⟨f, ht, hnd⟩ | ⟨o, ho, hrex⟩ | ⟨⟨f, ht, hnf⟩, hm, hn, hb⟩
  · obtain ⟨hl, hu, _⟩ := taken_check hv hc hp ht sh hsh
    have hL := AShape.legal_of hl
    unfold AShape.used? at hu
    rw [hnd] at hu
    simp only [Bool.and_eq_true, Bool.or_eq_true, Bool.not_true, Bool.false_eq_true, false_or, beq_iff_eq] at hu
    have hd : (sh.d.reg g).isREG = true := by rw [← (AShape.d_same hL).isREG]; exact hu.1.2.2
    unfold AShape.used
    rcases hu.1.2.1 with h | h <;> rw [h] <;> simp [rooUsed, hd]
  · obtain ⟨f, ht⟩ := hp.taken
    obtain ⟨hl, hu, f', hf', hfit⟩ := taken_check hv hc hp ht sh hsh
    have hL := AShape.legal_of hl
    obtain ⟨i, hi⟩ := List.mem_iff_getElem?.mp ho
    unfold AShape.fits at hfit
    simp only [Bool.and_eq_true, Nat.beq_eq] at hfit
    have hlen : f'.ops.length = g.ops.length := hfit.1.1.1.1.2
    obtain ⟨o', ho'⟩ : ∃ o', f'.ops[i]? = some o' := by
      have : i < f'.ops.length := by rw [hlen]; exact (List.getElem?_eq_some_iff.mp hi).1
      exact ⟨_, List.getElem?_eq_getElem this⟩
    have hfo := AShape.fitsAll_at hfit.2 i o' ho'
    rw [Nat.zero_add] at hfo
    have hgi : g.op i = o := op_at hi
    have hr : ∀ s : Slot, s = .a i → (s.op g).hasRex2 = true := by rintro s rfl; show (g.op i).hasRex2 = true; rw [hgi]; exact hrex
    have hq : ∀ s : Slot, (s.op g).isMEM = false → (s.reg g).hasRex2 = (s.op g).hasRex2 := fun s h => (hasRex2_reg h).symm
    have hdab : sh.d = .a i ∨ sh.a = .a i ∨ sh.b = .a i := by
      rcases AShape.place hL hfo with ⟨rfl, hci⟩ | ⟨_, ⟨h, _⟩ | ⟨h, _⟩ | h⟩
      · exfalso
        unfold AShape.fitsOp at hfo
        simp only [Bool.and_eq_true, Bool.not_eq_true', Args.rep_mem] at hfo
        rw [hgi] at hfo
        rw [hasRex2_reg hfo.1.1.2] at hrex
        have h1 := hcl i hci
        unfold Args.reg at h1
        rw [hgi] at h1
        unfold Reg.hasRex2 Reg.isExtIdx2 at hrex
        rw [h1] at hrex
        simp at hrex
      · unfold AShape.regS at h; split at h
        · exact .inr (.inl h)
        · exact .inr (.inr h)
      · exact .inl h
      · unfold AShape.rmS at h; split at h
        · exact .inr (.inr h)
        · exact .inr (.inl h)
    have hidx : ∀ r : Reg, r.hasRex2 = true → ¬ r.idx.toNat < 8 := by
      intro r h
      unfold Reg.hasRex2 Reg.isExtIdx2 at h
      rw [Bool.and_eq_true] at h
      obtain ⟨_, h⟩ := h
      revert h
      generalize r.idx = i
      revert i; decide
    unfold AShape.used
    cases hhow : sh.how
    case roo | roi =>
      dsimp only
      unfold rooUsed
      rcases hdab with h | h | h
      · have := hr _ h; rw [← hq _ hL.dr] at this; simp [Operand.hasRex2NFZU, Operand.hasRex2, this]
      · have := hr _ h; simp [Operand.hasRex2NFZU, this]
      · have := hr _ h; simp [Operand.hasRex2NFZU, this]
    case rro =>
      dsimp only
      rcases hdab with h | h | h
      · have := hr _ h; rw [← hq _ hL.dr] at this; simp [this]
      · have := hr _ h; simp [this]
      · have := hr _ h; rw [← hq _ (hL.rro hhow)] at this; simp [this]
    case sse =>
      dsimp only
      obtain ⟨h1, h2, h3⟩ := hL.sse hhow
      rcases hdab with h | h | h
      · rw [h3] at h; cases h
      · exact hr _ h
      · have := hr _ h; rw [← hq _ h1] at this; unfold Reg.hasRex2 Reg.isREG at this; rw [h2] at this; exact absurd this (by simp)
    case key =>
      dsimp only
      obtain ⟨h1, h2, h3⟩ := hL.key hhow
      rcases hdab with h | h | h
      · rw [h3] at h; cases h
      · have := hr _ h; rw [← hq _ h2] at this; simp [hidx _ this]
      · have := hr _ h; rw [← hq _ h1] at this; simp [hidx _ this]
  · obtain ⟨hl, hu, f', hf', hfit⟩ := taken_check hv hc hp ht sh hsh
    have hL := AShape.legal_of hl
    unfold AShape.fits at hfit
    simp only [Bool.and_eq_true, Nat.beq_eq] at hfit
    have hlen : f'.ops.length = g.ops.length := hfit.1.1.1.1.2
    unfold AShape.used? at hu
    rw [hnf] at hu
    simp only [Bool.and_eq_true, Bool.or_eq_true, Bool.not_true, Bool.false_eq_true, false_or, bne_iff_ne] at hu
    obtain ⟨⟨⟨hc0, _⟩, _⟩, hu⟩ := hu
    obtain ⟨q, hq⟩ : ∃ q, g.op 0 = .reg q := by
      cases ho : g.op 0 with
      | reg q => exact ⟨q, rfl⟩
      | mem a => rw [ho] at hm; cases hm
    have hn' : (g.op 0).hd.nf = true := hn
    have hne : 0 < g.ops.length := by
      rcases Nat.eq_zero_or_pos g.ops.length with h | h
      · unfold Args.op at hn'
        rw [List.getElem?_eq_none (by omega)] at hn'
        cases hn'
      · exact h
    have hro : ∀ s : Slot, s = .a 0 → (s.op g).hasRex2NFZU = true := by
      rintro s rfl; show (g.op 0).hasRex2NFZU = true; unfold Operand.hasRex2NFZU; rw [hn']; simp
    obtain ⟨o', ho'⟩ : ∃ o', f'.ops[0]? = some o' := ⟨_, List.getElem?_eq_getElem (by omega)⟩
    have hfo := AShape.fitsAll_at hfit.2 0 o' ho'
    have hdab : sh.d = .a 0 ∨ sh.a = .a 0 ∨ sh.b = .a 0 := by
      rcases AShape.place hL hfo with ⟨rfl, hci⟩ | ⟨_, ⟨h, _⟩ | ⟨h, _⟩ | h⟩
      · exact absurd hci hc0
      · unfold AShape.regS at h; split at h
        · exact .inr (.inl h)
        · exact .inr (.inr h)
      · exact .inl h
      · unfold AShape.rmS at h; split at h
        · exact .inr (.inr h)
        · exact .inr (.inl h)
    unfold AShape.used
    cases hhow : sh.how <;> rw [hhow] at hu
    case roo | roi =>
      dsimp only
      unfold rooUsed
      rcases hdab with h | h | h
      · have : (sh.d.reg g).nf = true := by rw [h]; exact hn
        simp [Operand.hasRex2NFZU, Operand.hd, this]
      · simp [hro _ h]
      · simp [hro _ h]
    case rro =>
      dsimp only at hu ⊢
      rw [Args.rep_mem, hm] at hu
      simp only [Bool.or_false, Bool.or_eq_true, beq_iff_eq] at hu
      rcases hu with h | h
      · have : (sh.b.reg g).nf = true := by rw [h]; exact hn
        simp [this]
      · exact absurd (List.contains_iff_mem.mp h) hb
    case sse => cases hu
    case key => cases hu

theorem nf_reg {o : Operand} (h : o.isMEM = false) : opNF o = o.hd.nf := by
  cases o with
  | reg q => unfold opNF rmBase rmIndex; exact Bool.or_false _
  | mem a => cases h

/-- Only `[rip]` addresses depend on the number of immediate bytes. -/
theorem means_imm {fill : Act → BitVec 32} {h : X86.Head} {m : X86.Mem} {a : Addr} {n k : Nat} (hm : n = k ∨ a.mode = .modRM)
    (hs : ({ a with immSize := n } : Addr).Means fill h m) : ({ a with immSize := k } : Addr).Means fill h m := by
  rcases hm with rfl | hm
  · exact hs
  · unfold Addr.Means at hs ⊢
    dsimp only at hs ⊢
    rw [hm] at hs ⊢
    exact hs

/-- **C82** (partial): an accepted call with APX operands writes an extended EVEX instruction of the specification, with the operands given.
What is missing: calls outside `ProperA` and `Uses`. -/
theorem c82_partial {e : Entry} (hv : e.aped = true) {w : List Act} (hc : Calls e g w) (hp : ProperA e g) (hu : Uses e g) (fill : Act → BitVec 32) :
    ∃ f h reg rm, HoldsA e g fill f h reg rm ∧
      ∀ t, X86.insn false 1 (concr fill w ++ t) = some (⟨h, reg, rm⟩, leBytes (f.imm.bytes (h.pp == 1) h.w) (g.int 0) ++ t) := by
  obtain ⟨f0, ht⟩ := hp.taken
  have hck := taken_check hv hc hp ht
  have hbits : ∀ j, (g.reg j).kind = .reg → (g.reg j).bit = 8 ∨ (g.reg j).bit = 16 ∨ (g.reg j).bit = 32 ∨ (g.reg j).bit = 64 := by
    intro j hk
    unfold Args.reg Args.op at hk ⊢
    cases hj : g.ops[j]? with
    | none => rw [hj] at hk; cases hk
    | some x =>
      rw [hj] at hk
      cases x with
      | reg q =>
        have hk : q.kind = .reg := hk
        have hs := (hp.named j q hj).1.shape
        rw [hk] at hs
        have hs : q.bit = 8 ∨ q.bit = 16 ∨ q.bit = 32 ∨ q.bit = 64 := by simpa using hs
        exact hs
      | mem a =>
        have hk : a.o.kind = .reg := hk
        rw [(hp.mem j a hj).1.1.kind] at hk
        cases hk
  have hgp : e.body.aped e.ops = true := by
    unfold Entry.aped at hv
    exact (Bool.and_eq_true _ _ ▸ hv).1
  obtain ⟨m, hm, hw⟩ := hc.runs
  obtain ⟨sh, hsh, ⟨w', v, rfl, hcall⟩, hroo, hcl⟩ := Body.asent hc.fits.are (used_of hv hc hp hu)
    (fun sh hs => by
      have hL := AShape.legal_of (hck sh hs).1
      exact ⟨fun h => by unfold Reg.isXMM; rw [(hL.sse h).2.1]; rfl, hL.roi⟩)
    hbits hgp (Entry.absA hc.mem hv) hm hw
  obtain ⟨hleg, hused, f, hf, hfit⟩ := hck sh hsh
  have hL := AShape.legal_of hleg
  unfold AShape.fits at hfit
  simp only [Bool.and_eq_true, beq_iff_eq, Nat.beq_eq] at hfit
  obtain ⟨⟨⟨⟨⟨⟨⟨⟨⟨⟨⟨⟨f1, f2⟩, f3⟩, f4⟩, f5⟩, f6⟩, f7⟩, f8⟩, f9⟩, f10⟩, f11⟩, f12⟩, f13⟩ := hfit
  have hnm := ((roo_gives _ _ _ _ _ _ _ hroo _ _).1 hcall).1
  have hO : ApxOK (rooRm (sh.a.op g) (sh.b.op g)) := by
    rw [AShape.rooRm_eq]
    have hok : AShape.slotOk f.ops (sh.rmS g) = true := by unfold AShape.rmS; split; exact f12; exact f11
    cases hs : (sh.rmS g).op g with
    | reg q => trivial
    | mem a =>
      cases hs' : sh.rmS g with
      | a i =>
        rw [hs'] at hs
        have hs : g.op i = .mem a := hs
        unfold Args.op at hs
        cases hi : g.ops[i]? with
        | none => rw [hi] at hs; cases hs
        | some x =>
          rw [hi] at hs; cases hs
          obtain ⟨⟨a1, a2, a3, a4, _⟩, a5, a6, _⟩ := hp.mem i a hi
          exact ⟨⟨a1, a2, a3, a4⟩, a5, a6⟩
      | r q => rw [hs'] at hs; cases hs
      | bitOf i n => rw [hs'] at hs; cases hs
      | _ => rw [hs'] at hok; cases hok
  obtain ⟨_, h, reg, rm, hdec, hh, hreg, hrm, hsc, _, hok⟩ := c41_roo _ _ _ _ _ _ _ hroo hL.map hO hcall fill
  obtain ⟨hvr, hnf⟩ := hsc rfl
  rw [AShape.rooReg_eq, AShape.rooRm_eq] at hnf hok
  rw [AShape.rooReg_eq, AShape.rooRm_eq, AShape.rooCode_eq] at hh
  rw [AShape.rooReg_eq] at hreg
  rw [AShape.rooRm_eq] at hrm
  have hpp : h.pp = sh.pp g.rep := by rw [AShape.pp_rep hL]; exact hh.pp
  have hww : h.w = sh.w g.rep := by rw [AShape.w_rep hL]; exact hh.w
  rw [← hpp, ← hww] at f3 f8
  have htail : sh.tail g = leBytes (f.imm.bytes (h.pp == 1) h.w) (g.int 0) := by
    unfold AShape.tail
    unfold AShape.immOk at f8
    cases hi : sh.imm with
    | none =>
      rw [hi] at f8
      simp only [Bool.and_eq_true, Nat.beq_eq] at f8
      rw [f8.1]; rfl
    | some p =>
      obtain ⟨i, l⟩ := p
      rw [hi] at f8
      simp only [Bool.and_eq_true, Nat.beq_eq] at f8
      dsimp only
      rw [f8.1.2, f8.1.1]
  have himm : ∀ (i : Nat) a, g.ops[i]? = some (.mem a) → sh.n = f.imm.bytes (h.pp == 1) h.w ∨ a.mode = .modRM := by
    intro i a ha
    unfold AShape.immOk at f8
    cases hi : sh.imm with
    | none =>
      rw [hi] at f8
      simp only [Bool.and_eq_true, Nat.beq_eq] at f8
      exact .inl (by rw [f8.1, f8.2])
    | some p =>
      obtain ⟨j, l⟩ := p
      rw [hi] at f8
      simp only [Bool.and_eq_true, Nat.beq_eq] at f8
      by_cases hr : sh.how = .rro
      · unfold AShape.used? at hused
        simp only [Bool.and_eq_true] at hused
        have hn := hused.1.1.2
        rw [hr, hi] at hn
        have hn : e.name = n!"rorx" := by simpa using hn
        exact .inr ((hp.mem i a ha).2.2.2 hn)
      · have h2 := f8.2
        rw [if_neg (by simpa using hr)] at h2
        exact .inl h2
  -- operands
  have hop : ∀ {i : Nat} {x : Operand}, g.ops[i]? = some x → g.op i = x ∧ g.reg i = x.hd := fun h => ⟨op_at h, by unfold Args.reg; rw [op_at h]⟩
  have hat : ∀ (i : Nat) o x, f.ops[i]? = some o → g.ops[i]? = some x → AAt fill h reg rm (f.imm.bytes (h.pp == 1) h.w) o x := by
    intro i o x ho hx
    have hfo := AShape.fitsAll_at f13 i o ho
    rw [Nat.zero_add] at hfo
    obtain ⟨e1, e2⟩ := hop hx
    have hsm : g.rep.op i = x.rep := by unfold Args.op; rw [show g.rep.ops[i]? = some x.rep by show (g.ops.map Operand.rep)[i]? = _; rw [List.getElem?_map, hx]; rfl]; rfl
    have hsr : g.rep.reg i = x.rep.hd := by unfold Args.reg; rw [hsm]
    unfold AShape.fitsOp at hfo
    obtain ⟨r1, r2, r3⟩ := Operand.rep_facts x
    dsimp only at hfo
    rw [hsm, hsr, r1, r2, r3, AShape.regS_rep hL, AShape.rmS_rep hL, ← hpp, ← hww] at hfo
    have isReg : ∀ q n s, x = .reg q → n = q.idx → (q.kind == .reg) = true → Nat.beq q.bit (s.bits (h.pp == 1) h.w) = true → ARegIs h n s q := by
      intro q n s hq hn hk hb
      refine ⟨by simpa using hk, Nat.eq_of_beq_eq_true hb, hn, fun _ => ?_⟩
      rw [X86.apx_byte h hh.space, hn]
      unfold Reg.view8
      rw [(hp.named i q (hq ▸ hx)).2]
      rfl
    have atReg : ∀ q, x = .reg q → sh.regS g = .a i → X86.regNum h reg = q.idx := by
      intro q hq hs
      rw [hreg, hs]
      show (g.reg i).idx = _
      rw [e2, hq]; rfl
    have atV : ∀ q, x = .reg q → sh.d = .a i → h.vreg = q.idx := by
      intro q hq hs
      rw [hvr, hs]
      show (g.reg i).idx = _
      rw [e2, hq]; rfl
    have atRm : ∀ q, x = .reg q → sh.rmS g = .a i → ∃ lo, rm = .reg lo ∧ X86.rmGpr h lo = q.idx := by
      intro q hq hs
      rw [hs] at hrm
      have : Xbyak.RmIs fill h rm ((g.op i).withImm sh.n) := hrm
      rw [e1, hq] at this
      exact this
    have atMem : ∀ a s, x = .mem a → sh.rmS g = .a i → fitsSz a.o.bit (s.bits (h.pp == 1) h.w) s = true → AMemIs fill h rm (f.imm.bytes (h.pp == 1) h.w) s a := by
      intro a s hq hs hz
      rw [hs] at hrm
      have : Xbyak.RmIs fill h rm ((g.op i).withImm sh.n) := hrm
      rw [e1, hq] at this
      obtain ⟨m, rfl, hm⟩ := this
      exact ⟨fitsSz_of hz, m, rfl, means_imm (himm i a (hq ▸ hx)) hm⟩
    cases x with
    | reg q =>
      dsimp only [Operand.isMEM, Operand.hd] at hfo
      cases o with
      | r s =>
        simp only [Bool.not_false, Bool.true_and, Bool.and_eq_true, beq_iff_eq] at hfo
        exact isReg q _ s rfl (atReg q rfl hfo.1) (by simpa using hfo.2.1) hfo.2.2
      | v s =>
        simp only [Bool.not_false, Bool.true_and, Bool.and_eq_true, beq_iff_eq] at hfo
        exact isReg q _ s rfl (atV q rfl hfo.1) (by simpa using hfo.2.1) hfo.2.2
      | rm s =>
        simp only [Bool.not_false, Bool.true_and, Bool.and_eq_true, beq_iff_eq, Bool.false_eq_true, if_false] at hfo
        obtain ⟨lo, h1, h2⟩ := atRm q rfl hfo.1
        exact ⟨lo, h1, isReg q _ s rfl h2 (by simpa using hfo.2.1) hfo.2.2⟩
      | rr s =>
        simp only [Bool.not_false, Bool.true_and, Bool.and_eq_true, beq_iff_eq] at hfo
        obtain ⟨lo, h1, h2⟩ := atRm q rfl hfo.1
        exact ⟨lo, h1, isReg q _ s rfl h2 (by simpa using hfo.2.1) hfo.2.2⟩
      | m s => simp at hfo
      | x =>
        simp only [Bool.not_false, Bool.and_true, Bool.and_eq_true, beq_iff_eq] at hfo
        exact ⟨hfo.2, atReg q rfl hfo.1⟩
      | xm =>
        simp only [Bool.and_eq_true, beq_iff_eq, Bool.false_eq_true, if_false] at hfo
        exact ⟨hfo.2, atRm q rfl hfo.1⟩
      | t =>
        simp only [Bool.not_false, Bool.and_true, Bool.and_eq_true, beq_iff_eq] at hfo
        exact ⟨hfo.2, atReg q rfl hfo.1⟩
      | k =>
        simp only [Bool.not_false, Bool.and_true, Bool.and_eq_true, beq_iff_eq] at hfo
        exact ⟨hfo.2, atReg q rfl hfo.1⟩
      | krm =>
        simp only [Bool.not_false, Bool.and_true, Bool.and_eq_true, beq_iff_eq] at hfo
        exact ⟨hfo.2, atRm q rfl hfo.1⟩
      | cl =>
        simp only [Bool.not_false, Bool.and_true, Bool.and_eq_true, beq_iff_eq, Nat.beq_eq] at hfo
        refine ⟨hfo.1.2, hfo.2, ?_⟩
        have := hcl i hfo.1.1
        rw [e2] at this
        exact this
    | mem a =>
      dsimp only [Operand.isMEM, Operand.hd] at hfo
      cases o with
      | rm s =>
        simp only [Bool.and_eq_true, beq_iff_eq, if_true] at hfo
        exact atMem a s rfl hfo.1 hfo.2
      | m s =>
        simp only [Bool.and_eq_true, beq_iff_eq, and_true] at hfo
        exact atMem a s rfl hfo.1 hfo.2
      | xm =>
        simp only [Bool.and_eq_true, beq_iff_eq, if_true] at hfo
        exact atMem a .x rfl hfo.1 hfo.2
      | _ => simp at hfo
  -- NF
  have hregM : ((sh.regS g).op g).isMEM = false := by
    unfold AShape.regS AShape.swap
    cases ha : (sh.a.op g).isMEM <;> cases hb : (sh.b.op g).isMEM <;> simp [ha, hb]
    rw [ha, hb] at hnm; cases hnm
  have hnf' : h.nf = (opNF ((sh.regS g).op g) || opNF ((sh.rmS g).op g) || opNF (sh.d.op g)) := by
    rw [hnf, nf_reg hregM, nf_reg hL.dr]
    unfold apxNF opNF Slot.reg
    simp only [Bool.or_assoc]
  have hslot : ∀ s : Slot, AShape.slotOk f.ops s = true → opNF (s.op g) = true →
      ∃ (i : Nat) (o : AOp) (x : Operand), f.ops[i]? = some o ∧ g.ops[i]? = some x ∧ o ≠ .cl ∧ opNF x = true := by
    intro s hs hn
    cases s with
    | a i =>
      unfold AShape.slotOk at hs
      dsimp only at hs
      cases ho : f.ops[i]? with
      | none => rw [ho] at hs; cases hs
      | some o =>
        rw [ho] at hs
        have hlt : i < g.ops.length := by rw [← f9]; exact (List.getElem?_eq_some_iff.mp ho).1
        have hx := List.getElem?_eq_getElem hlt
        refine ⟨i, o, _, ho, hx, by simpa using hs, ?_⟩
        have : opNF (g.op i) = true := hn
        rwa [op_at hx] at this
    | r q =>
      have hs : (!q.nf) = true := hs
      have : opNF (.reg q) = true := hn
      rw [nf_reg rfl] at this
      have : q.nf = true := this
      rw [this] at hs; cases hs
    | bitOf i n => cases hn
    | _ => cases hs
  have hsl : AShape.slotOk f.ops (sh.regS g) = true ∧ AShape.slotOk f.ops (sh.rmS g) = true := by
    unfold AShape.regS AShape.rmS
    split
    · exact ⟨f11, f12⟩
    · exact ⟨f12, f11⟩
  refine ⟨f, h, reg, rm, ⟨hf, ⟨hh.space, ?_, ?_, f3, ?_, ?_, ?_, hh.L, hh.z, ⟨hh.p66, hh.pF2, hh.pF3, hh.seg⟩, ?_⟩, f9, hat, ?_⟩, ?_⟩
  · rw [hh.map]; exact f2
  · rw [hh.opcode, ← AShape.code_rep hL]; exact f1
  · intro x hx
    rw [hx] at f4
    have hn := Slot.num_le g (sh.regS g)
    rw [AShape.regS_rep hL] at f4
    have f4 : (sh.regS g).num = some x := by simpa using f4
    rw [f4] at hn
    rcases hn with hn | hn
    · cases hn
    · rw [lo3_of hreg]; exact (Option.some.inj hn).symm
  · rw [hh.nd, AShape.nd_rep hL]; exact f5
  · intro hn
    rw [hnf] at hn
    rcases hok.1 with h1 | h1
    · rw [h1] at f6; simpa using f6
    · rw [hn] at h1; cases h1
  · intro hno
    rw [Bool.or_eq_true] at f7
    rcases f7 with f7 | f7
    · obtain ⟨o, ho, h1⟩ := List.any_eq_true.mp f7
      cases o with
      | v s => exact absurd ho (hno s)
      | _ => cases h1
    · rw [hvr]
      cases hd : sh.d with
      | r q => rw [hd] at f7; have : (q.idx == 0) = true := f7; exact eq_of_beq this
      | bitOf i n => rw [hd] at f7; have : (n == 0) = true := f7; exact eq_of_beq this
      | _ => rw [hd] at f7; cases f7
  · rw [hnf']
    constructor
    · intro hn
      rw [Bool.or_eq_true, Bool.or_eq_true] at hn
      rcases hn with (hn | hn) | hn
      · exact hslot _ hsl.1 hn
      · exact hslot _ hsl.2 hn
      · exact hslot _ f10 hn
    · rintro ⟨i, o, x, ho, hx, hne, hn⟩
      have hfo := AShape.fitsAll_at f13 i o ho
      rw [Nat.zero_add] at hfo
      have hs : ∀ s : Slot, s = .a i → opNF (s.op g) = true := by rintro s rfl; show opNF (g.op i) = true; rw [(hop hx).1]; exact hn
      rcases AShape.place hL hfo with ⟨h1, _⟩ | ⟨_, ⟨h1, _⟩ | ⟨h1, _⟩ | h1⟩
      · exact absurd h1 hne
      · rw [hs _ h1]; rfl
      · rw [hs _ h1]; simp
      · rw [hs _ h1]; simp
  · intro t
    rw [concr_append, concr_bytes, List.append_assoc, hdec, htail]

/-! ## Which functions -/

set_option maxRecDepth 1000000 in
private theorem cover_check : (X86.aforms.all fun p => all.any fun e => e.aped && Nat.beq e.name p.1) = true := by decide +kernel

/-- Every mnemonic of `Spec/ApxForms` has a function that C82 speaks about. -/
theorem c82_cover (p : Nat × List AForm) (hp : p ∈ X86.aforms) : ∃ e ∈ all, e.name = p.1 ∧ e.aped = true := by
  obtain ⟨e, he, h⟩ := List.any_eq_true.mp (List.all_eq_true.mp cover_check p hp)
  rw [Bool.and_eq_true] at h
  exact ⟨e, he, Nat.eq_of_beq_eq_true h.2, h.1⟩

/-! ## What goes wrong -/

/-- A general register with `T_nf`. -/
private def nf (i : BitVec 5) (b : Nat) : Operand := .reg { Reg.gp i b with nf := true }

/-- Bug: `blsi(eax|T_nf, ecx)` (mnemonic.h 44) and likewise BLSMSK (45) and BLSR (46) drop `T_nf` without an error: `opRRO` (xbyak.h 2541) looks at
its first argument, which for them is the opcode extension.  With one of the registers 16 to 31 `T_nf` is heeded; `andn(eax|T_nf, ecx, edx)` (32) heeds
it, `andn(eax, ecx|T_nf, edx)` drops it. -/
theorem c82_refuted_nf :
    Confused n!"blsi" n!"blsi" { ops := [nf 0 32, .reg (.gp 1 32)] } { ops := [.reg (.gp 0 32), .reg (.gp 1 32)] } ∧
    Confused n!"blsmsk" n!"blsmsk" { ops := [nf 0 32, .reg (.gp 1 32)] } { ops := [.reg (.gp 0 32), .reg (.gp 1 32)] } ∧
    Confused n!"blsr" n!"blsr" { ops := [nf 0 32, .reg (.gp 1 32)] } { ops := [.reg (.gp 0 32), .reg (.gp 1 32)] } ∧
    callAt 44 { ops := [nf 0 32, .reg (.gp 16 32)] } = some (n!"blsi", [0x62, 0xFA, 0x7C, 0x0C, 0xF3, 0xD8].map .byte) ∧
    callAt 32 { ops := [nf 0 32, .reg (.gp 1 32), .reg (.gp 2 32)] } = some (n!"andn", [0x62, 0xF2, 0x74, 0x0C, 0xF2, 0xC2].map .byte) ∧
    Confused n!"andn" n!"andn" { ops := [.reg (.gp 0 32), nf 1 32, .reg (.gp 2 32)] } { ops := [.reg (.gp 0 32), .reg (.gp 1 32), .reg (.gp 2 32)] } :=
  ⟨confused_of (l := 44) (l' := 44) (w := [0xC4, 0xE2, 0x78, 0xF3, 0xD9].map .byte) (by decide +kernel) (by decide +kernel),
   confused_of (l := 45) (l' := 45) (w := [0xC4, 0xE2, 0x78, 0xF3, 0xD1].map .byte) (by decide +kernel) (by decide +kernel),
   confused_of (l := 46) (l' := 46) (w := [0xC4, 0xE2, 0x78, 0xF3, 0xC9].map .byte) (by decide +kernel) (by decide +kernel),
   by decide +kernel, by decide +kernel,
   confused_of (l := 32) (l' := 32) (w := [0xC4, 0xE2, 0x70, 0xF2, 0xC2].map .byte) (by decide +kernel) (by decide +kernel)⟩

/-- Bug: `sha1msg1(xmm1, r16)` (989) is accepted and written as if there were a vector register 16, while `sha1msg1(xmm1, rax)` is refused: `opSSE_APX`
(xbyak.h 2828) does not ask whether the operand is memory. -/
theorem c82_refuted_sha :
    callAt 989 { ops := [.reg (.xmm 1), .reg (.gp 16 64)] } = some (n!"sha1msg1", [0x62, 0xFC, 0x7C, 0x08, 0xD9, 0xC8].map .byte) ∧
    Throws 989 n!"sha1msg1" { ops := [.reg (.xmm 1), .reg (.gp 0 64)] } .BAD_COMBINATION :=
  ⟨by decide +kernel, throws_of (by decide +kernel)⟩

/-! ## Examples -/

/-- `shrd(rcx|T_nf, [r16 + rax * 4 + 5], r10, 3)` (1012) is read as EVEX map 4, 2C, with ND and NF, rcx in EVEX.vvvv, r10 in ModRM.reg. -/
example : callAt 1012 { ops := [nf 1 64, .mem { o := { idx := 0, ext8 := false, kind := .mem, bit := 64 }, e := { base := .gp 16 64, index := .gp 0 64, scale := 4, disp := 5 } },
      .reg (.gp 10 64)], ints := [3] } = some (n!"shrd", [0x62, 0x7C, 0xF4, 0x1C, 0x2C, 0x54, 0x80, 5, 3].map .byte) := by decide +kernel

example : (X86.insn false 1 [0x62, 0x7C, 0xF4, 0x1C, 0x2C, 0x54, 0x80, 5, 3]).map (fun p => (p.1.head.opcode, X86.regNum p.1.head p.1.reg, p.1.head.vreg, p.2)) = some (0x2C, 10, 1, [3]) ∧
    (X86.insn false 1 [0x62, 0x7C, 0xF4, 0x1C, 0x2C, 0x54, 0x80, 5, 3]).map (fun p => (p.1.head.nd, p.1.head.nf)) = some (true, true) ∧
    { op := 0x2C, pp := none, nd := true, nf := true, ops := [.v .v, .rm .v, .r .v], imm := .ib } ∈ X86.aformsOf n!"shrd" := by decide +kernel

/-- The hypotheses of `c82_partial` can be met: `andn(r16, r9, rdx)` (32). -/
example : ∃ e w, e.name = n!"andn" ∧ e.aped = true ∧ Calls e { ops := [.reg (.gp 16 64), .reg (.gp 9 64), .reg (.gp 2 64)] } w ∧
    ProperA e { ops := [.reg (.gp 16 64), .reg (.gp 9 64), .reg (.gp 2 64)] } ∧ Uses e { ops := [.reg (.gp 16 64), .reg (.gp 9 64), .reg (.gp 2 64)] } := by
  have key : ((all.filter fun e => Nat.beq e.line 32).all fun e => e.aped && !e.params.contains .int) = true := by decide +kernel
  obtain ⟨e, hl, hn, hc⟩ := callAt_line (show callAt 32 { ops := [.reg (.gp 16 64), .reg (.gp 9 64), .reg (.gp 2 64)] } =
    some (n!"andn", [0x62, 0xE2, 0xB4, 0x08, 0xF2, 0xC2].map .byte) by decide +kernel)
  have hk := List.all_eq_true.mp key e (List.mem_filter.mpr ⟨hc.mem, by rw [hl]; rfl⟩)
  rw [Bool.and_eq_true] at hk
  refine ⟨e, _, hn, hk.1, hc, ⟨?_, ?_, ⟨{ op := 0xF2, map := 2, nf := true, ops := [.r .y, .v .y, .rm .y] }, ?_, ?_, 64, by decide, ?_⟩⟩, .inr (.inl ⟨_, List.mem_cons_self, rfl⟩)⟩
  · intro i q h
    have named : ∀ i : BitVec 5, (Reg.gp i 64).Named ∧ (Reg.gp i 64).isHigh8bit = false := fun i =>
      ⟨⟨.inl ⟨rfl, .inr (.inr (.inr rfl))⟩, (fun h => by cases h), (fun h => by rcases h with h | h | h | h <;> cases h), fun h => by cases h⟩, by simp [Reg.isHigh8bit, Reg.isBit, Reg.gp]⟩
    match i, h with
    | 0, h => cases h; exact named _
    | 1, h => cases h; exact named _
    | 2, h => cases h; exact named _
    | _ + 3, h => cases h
  · intro i a h
    match i, h with
    | 0, h => cases h
    | 1, h => cases h
    | 2, h => cases h
    | _ + 3, h => cases h
  · rw [hn]; decide +kernel
  · rw [hk.2]; rfl
  · decide

end Mn
end Xbyak
