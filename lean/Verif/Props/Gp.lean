import Verif.LowerG
import Verif.Props.Manual
/-!
# Integer instructions with a ModRM byte are the manual's (C69)

For every function of mnemonic.h that ends in one of the helpers for integer instructions, an accepted call writes an instruction that the
decoder of `Spec/X86` reads as a form listed for that mnemonic in `Spec/Gp`: opcode, map, prefixes, ModRM.reg extension, and every operand of
the right kind, of the size chosen by the prefixes and at its place.  What is written depends on kinds and sizes of the arguments
(`Body.gsent`), of which there are finitely many (`lists`); the kernel checks all of them (`gpOk_check`), `Fits.rep_mem` lifts the result to
all arguments.  `Entry.usual` leaves out the operands the library accepts although the instruction has no such form (`c69_refuted_*`).
-/
namespace Xbyak
open X86 (GForm GOp Sz)
namespace Mn
open E

/-! ## Statement -/

/-- Register number `n` in the decoded instruction is `q`, which has the size `s`.  Bytes: provided the instruction has no REX if `q` is ah, bh, ch
or dh (see C35). -/
structure RegIs (h : X86.Head) (n : BitVec 5) (s : Sz) (q : Reg) : Prop where
  kind : q.kind = .reg
  size : q.bit = s.bits h.p66 h.w
  num : n = q.idx
  byte : q.bit = 8 → (q.isHigh8bit = true → h.rex = false) → X86.reg8 h n = q.view8

/-- The decoded r/m operand is the address `a`, with `n` immediate bytes behind it; a stated size is `s`. -/
structure MemIs (fill : Act → BitVec 32) (h : X86.Head) (rm : X86.RM) (n : Nat) (s : Sz) (a : Addr) : Prop where
  size : s = .any ∨ a.o.bit = 0 ∨ a.o.bit = s.bits h.p66 h.w
  means : ∃ m, rm = .mem m ∧ ({ a with immSize := n } : Addr).Means fill h m

/-- The operand of the form is the argument. -/
def GAt (fill : Act → BitVec 32) (h : X86.Head) (reg : BitVec 3) (rm : X86.RM) (n : Nat) : GOp → Operand → Prop
  | .r s, .reg q => RegIs h (X86.regNum h reg) s q
  | .rm s, .reg q | .rr s, .reg q => ∃ lo, rm = .reg lo ∧ RegIs h (X86.rmGpr h lo) s q
  | .rm s, .mem a | .m s, .mem a => MemIs fill h rm n s a
  | .bnd, .reg q => q.kind = .bndreg ∧ X86.regNum h reg = q.idx
  | .bndm, .reg q => q.kind = .bndreg ∧ ∃ lo, rm = .reg lo ∧ X86.rmGpr h lo = q.idx
  | .bndm, .mem a => MemIs fill h rm n .x a
  | .cl, .reg q => q.kind = .reg ∧ q.bit = 8 ∧ q.idx = 1
  | _, _ => False

/-- The decoded instruction is the form with the arguments. -/
structure HoldsG (e : Entry) (g : Args) (fill : Act → BitVec 32) (f : GForm) (h : X86.Head) (reg : BitVec 3) (rm : X86.RM) : Prop where
  form : f ∈ X86.gformsOf e.name
  is : f.Is h reg
  length : f.ops.length = g.ops.length
  at_ : ∀ (i : Nat) o x, f.ops[i]? = some o → g.ops[i]? = some x → GAt fill h reg rm f.ib.toNat o x

/-- The functions considered: those whose helper is analysed in `LowerG` and whose mnemonic is in `Spec/Gp`. -/
def Entry.gped (e : Entry) : Bool := e.body.gped e.ops && !(X86.gformsOf e.name).isEmpty

/-- The sizes a memory operand can be given (xbyak.h 2872). -/
def memBits : List Nat := [0, 8, 16, 32, 64, 128, 256, 512]

def bitScan : List Nat := [n!"bsf", n!"bsr", n!"bt", n!"btc", n!"btr", n!"bts", n!"imul", n!"movbe"]
def boundChk : List Nat := [n!"bndcl", n!"bndcn", n!"bndcu"]

/-- The operand is not one that is accepted by mistake. -/
def Entry.usualOp (e : Entry) (mem : Bool) (kind : Kind) (bit : Nat) : Bool :=
  if mem then
    !(boundChk.contains e.name && !Nat.beq bit 0) &&
    !(Nat.beq e.name n!"bndmk" && Nat.beq bit 16) &&
    !(Nat.beq e.name n!"bndmov" && !(Nat.beq bit 0 || Nat.beq bit 128)) &&
    !(bitScan.contains e.name && (Nat.beq bit 8 || Nat.ble 128 bit)) &&
    !(Nat.beq e.name n!"cmpxchg8b" && Nat.beq bit 32) &&
    !(Nat.beq e.name n!"cmpxchg16b" && Nat.beq bit 64) &&
    !([n!"fbld", n!"fbstp", n!"fldcw", n!"fnstcw", n!"fnstsw"].contains e.name && !Nat.beq bit 0)
  else
    (kind == .reg || (kind == .bndreg && e.params.contains .bnd)) &&
    !(boundChk.contains e.name && Nat.beq bit 32) &&
    !(bitScan.contains e.name && Nat.beq bit 8)

/-- The operands are not of a kind or size that is accepted by mistake: `c69_refuted_kind`, `c69_refuted_byte`, `c69_refuted_size`. -/
def Entry.usual (e : Entry) (g : Args) : Bool :=
  g.ops.all (fun o => e.usualOp o.isMEM o.hd.kind o.hd.bit) && !([n!"movsx", n!"movzx"].contains e.name && Nat.beq (g.reg 0).bit 8)

/-- Conditions on the arguments.  `named` and `mem` hold for all operands a program can make (index tile registers: `c32_refuted_tile`). -/
structure ProperG (e : Entry) (g : Args) : Prop where
  named : ∀ (i : Nat) q, g.ops[i]? = some (.reg q) → q.Named
  mem : ∀ (i : Nat) a, g.ops[i]? = some (.mem a) → a.WF ∧ a.permitVsib = false ∧ a.disp8N = 0 ∧ a.e.index.kind ≠ .tmm ∧ a.immSize = 0 ∧ a.o.bit ∈ memBits
  /-- APX registers and modifiers select other encodings -/
  apx : e.body.apxed = true → g.NoApx
  usual : e.usual g = true

/-! ## The finite check -/

/-- One operand of every kind and size considered. -/
def reps : List Operand :=
  [(Kind.reg, 8), (.reg, 16), (.reg, 32), (.reg, 64), (.bndreg, 128)].map (fun p => .reg { idx := 0, ext8 := false, kind := p.1, bit := p.2 }) ++
  memBits.map fun b => .mem { o := { idx := 0, ext8 := false, kind := .mem, bit := b }, e := .ofDisp 0 }

def lists : List Param → List (List Operand)
  | [] => [[]]
  | p :: ps => (reps.filter p.takes).flatMap fun o => (lists ps).map fun l => o :: l

/-- The size checks of `opRR` and `opMR` pass. -/
def GShape.accept (sh : GShape) (G : Args) : Bool :=
  if (sh.opd G).isMEM then !(!sh.t.has T_ALLOW_DIFF_SIZE && decide ((sh.reg G).bit ≤ 64) && decide ((sh.opd G).hd.bit > 0) && (sh.opd G).hd.bit != (sh.reg G).bit)
  else !(!sh.t.has T_ALLOW_DIFF_SIZE && (sh.reg G).isREG && (sh.opd G).hd.isREG && (sh.reg G).bit != (sh.opd G).hd.bit)

def GShape.p66 (sh : GShape) (G : Args) : Bool := p66of sh.t (sh.opd G).hd (sh.reg G)
def GShape.w (sh : GShape) (G : Args) : Bool := (sh.opd G).isREG 64 || (sh.reg G).isREG 64

def fitsSz (b n : Nat) (s : Sz) : Bool := s == .any || Nat.beq b 0 || Nat.beq b n

/-- The operand is what the form wants at this place. -/
def GShape.fitsOp (G : Args) (sh : GShape) (i : Nat) (o : GOp) : Bool :=
  let n := fun s : Sz => s.bits (sh.p66 G) (sh.w G)
  let isReg := fun s : Sz => (G.reg i).kind == .reg && Nat.beq (G.reg i).bit (n s)
  match o with
  | .r s => sh.r == .a i && !sh.nar && !(G.op i).isMEM && isReg s
  | .rm s => Nat.beq sh.k i && if (G.op i).isMEM then fitsSz (G.reg i).bit (n s) s else isReg s
  | .m s => Nat.beq sh.k i && (G.op i).isMEM && fitsSz (G.reg i).bit (n s) s
  | .rr s => Nat.beq sh.k i && !(G.op i).isMEM && isReg s
  | .bnd => sh.r == .a i && !(G.op i).isMEM && (G.reg i).kind == .bndreg
  | .bndm => Nat.beq sh.k i && if (G.op i).isMEM then fitsSz (G.reg i).bit 128 .x else (G.reg i).kind == .bndreg
  | .cl => sh.cl == some i && !(G.op i).isMEM && (G.reg i).kind == .reg && Nat.beq (G.reg i).bit 8

def GShape.fitsAll (G : Args) (sh : GShape) : Nat → List GOp → Bool
  | _, [] => true
  | i, o :: os => sh.fitsOp G i o && fitsAll G sh (i + 1) os

def GShape.fits (sh : GShape) (G : Args) (n : Nat) (f : GForm) : Bool :=
  opc sh.t (sh.reg G) sh.c == f.op && mapOf sh.t == f.map && f.prefixes (sh.p66 G) (sh.t.has T_F2) (sh.t.has T_F3) (sh.w G) &&
  (match f.ext with | some x => sh.r.num == some x | none => true) && (sh.imm == if f.ib then some 0 else none) && Nat.beq f.ops.length n && sh.fitsAll G 0 f.ops

/-- The call can be decoded. -/
def GShape.legal (sh : GShape) (G : Args) : Bool :=
  sh.r.gp && (!sh.t.has T_APX || mapOf sh.t == 0) && decide (X86.OpcodeOK (mapOf sh.t) (opc sh.t (sh.reg G) sh.c)) &&
  ((sh.reg G).kind == .reg || match sh.r with | .a i => !(G.op i).isMEM | _ => false)

def Entry.gpOk (e : Entry) (F : List GForm) : Bool :=
  Nat.beq e.opt 0 && (lists e.ops).all fun os =>
    !e.usual { ops := os } || (e.body.gshapes { ops := os }).all fun sh => sh.legal { ops := os } && (!sh.accept { ops := os } || F.any (sh.fits { ops := os } os.length))

set_option maxRecDepth 1000000 in
theorem gpOk_check : (all.all fun e => !e.gped || e.gpOk (X86.gformsOf e.name)) = true := by decide +kernel

/-! ## Lifting -/

variable {g : Args}

/-- Conditions of functions with a guard or an alternative. -/
def absLines : List Nat := [9, 21, 267, 272, 651, 914, 915, 1586, 1881]

/-- There is no guard and no alternative. -/
def Body.simple : Body → Bool
  | .guard .. | .ite .. => false
  | .apx _ _ _ _ _ b => b.simple
  | _ => true

theorem Body.simple_abs : ∀ b : Body, b.simple = true → b.Abs
  | .apx _ _ _ _ _ b, h => Body.simple_abs b h
  | .leaf _, _ | .check .., _ | .pre .., _ | .jmp .., _ | .jmpAbs .., _ => trivial

set_option maxRecDepth 1000000 in
theorem gpLine9 : (all.filter fun e => e.line == 9) = [⟨9, n!"adcx", [.reg32e, .op], 0, .guard (fun g => !((g.reg 0).isREG 112) && decide ((g.reg 0).bit = (g.reg 1).bit)) .BAD_SIZE_OF_REGISTER (.apx (.r .nil) (.a 1) (.a 0) T_66 0x66 (.leaf (.ro (.a 0) (.a 1) (fl [T_66, T_0F38]) 0xF6 .any)))⟩] := rfl
set_option maxRecDepth 1000000 in
theorem gpLine21 : (all.filter fun e => e.line == 21) = [⟨21, n!"adox", [.reg32e, .op], 0, .guard (fun g => !((g.reg 0).isREG 112) && decide ((g.reg 0).bit = (g.reg 1).bit)) .BAD_SIZE_OF_REGISTER (.apx (.r .nil) (.a 1) (.a 0) T_F3 0x66 (.leaf (.ro (.a 0) (.a 1) (fl [T_F3, T_0F38]) 0xF6 .any)))⟩] := rfl
set_option maxRecDepth 1000000 in
theorem gpLine267 : (all.filter fun e => e.line == 267) = [⟨267, n!"cmpxchg", [.op, .reg], 0, .ite (fun g => (g.reg 1).isBit 8) (.leaf (.ro (.a 1) (.a 0) T_0F 0xB0 (.bits 0 1))) (.leaf (.ro (.a 1) (.a 0) T_0F 0xB1 (.bits 0 1)))⟩] := rfl
set_option maxRecDepth 1000000 in
theorem gpLine272 : (all.filter fun e => e.line == 272) = [⟨272, n!"crc32", [.reg32e, .op], 0, .guard (fun g => !(((g.reg 0).isBit 32 && (g.reg 1).isBit 56) || ((g.reg 0).isBit 64 && (g.reg 1).isBit 72))) .BAD_SIZE_OF_REGISTER
    (.ite (fun g => (g.reg 1).isBit 8)
      (.apx (.r .nil) (.a 1) (.a 0) (fl [T_APX, T_ALLOW_DIFF_SIZE]) 0xF0 (.leaf (.ro (.a 0) (.a 1) (fl [T_F2, T_0F38, T_ALLOW_DIFF_SIZE]) 0xF0 .any)))
      (.ite (fun g => (g.reg 1).isBit 16)
        (.apx (.r .nil) (.a 1) (.a 0) (fl [T_APX, T_66, T_ALLOW_DIFF_SIZE]) 0xF1
          (.leaf (.ro (.a 0) (.a 1) (fl [T_F2, T_0F38, T_66, T_ALLOW_DIFF_SIZE]) 0xF1 .any)))
        (.apx (.r .nil) (.a 1) (.a 0) (fl [T_APX, T_ALLOW_DIFF_SIZE]) 0xF1
          (.leaf (.ro (.a 0) (.a 1) (fl [T_F2, T_0F38, T_ALLOW_DIFF_SIZE]) 0xF1 .any)))))⟩] := rfl
set_option maxRecDepth 1000000 in
theorem gpLine651 : (all.filter fun e => e.line == 651) = [⟨651, n!"lea", [.reg, .addr], 0, .guard (fun g => !((g.reg 0).isBit 112)) .BAD_SIZE_OF_REGISTER (.leaf (.mr (.a 1) (.a 0) 0 0x8D 0 none))⟩] := rfl
set_option maxRecDepth 1000000 in
theorem gpLine914 : (all.filter fun e => e.line == 914) = [⟨914, n!"rdrand", [.reg], 0, .guard (fun g => (g.reg 0).isBit 8) .BAD_SIZE_OF_REGISTER (.leaf (.rr (.bitOf 0 6) (.a 0) T_0F 0xC7))⟩] := rfl
set_option maxRecDepth 1000000 in
theorem gpLine915 : (all.filter fun e => e.line == 915) = [⟨915, n!"rdseed", [.reg], 0, .guard (fun g => (g.reg 0).isBit 8) .BAD_SIZE_OF_REGISTER (.leaf (.rr (.bitOf 0 7) (.a 0) T_0F 0xC7))⟩] := rfl
set_option maxRecDepth 1000000 in
theorem gpLine1586 : (all.filter fun e => e.line == 1586) = [⟨1586, n!"xadd", [.op, .reg], 0, .ite (fun g => (g.reg 1).isBit 8) (.leaf (.ro (.a 1) (.a 0) T_0F 0xC0 (.bits 0 1))) (.leaf (.ro (.a 1) (.a 0) T_0F 0xC1 (.bits 0 1)))⟩] := rfl
set_option maxRecDepth 1000000 in
theorem gpLine1881 : (all.filter fun e => e.line == 1881) = [⟨1881, n!"movsxd", [.reg64, .op], 0, .guard (fun g => !((g.reg 1).isBit 32)) .BAD_COMBINATION (.leaf (.ro (.a 0) (.a 1) T_ALLOW_DIFF_SIZE 0x63 .any))⟩] := rfl

set_option maxRecDepth 1000000 in
theorem simple_check : (all.all fun e => !e.gped || absLines.contains e.line || e.body.simple) = true := by decide +kernel

set_option linter.unusedSimpArgs false in
theorem Entry.abs {e : Entry} (he : e ∈ all) (hg : e.gped = true) : e.body.Abs := by
  have h := List.all_eq_true.mp simple_check e he
  rw [hg, Bool.not_true, Bool.false_or, Bool.or_eq_true] at h
  rcases h with h | h
  · have h : e.line ∈ absLines := List.contains_iff_mem.mp h
    simp only [absLines, List.mem_cons, List.not_mem_nil, or_false] at h
    rcases h with h | h | h | h | h | h | h | h | h
    · rw [mem_line he h gpLine9]; simp only [Body.Abs, Args.rep_isREG, Args.rep_isBit, Args.rep_bit, implies_true, and_self]
    · rw [mem_line he h gpLine21]; simp only [Body.Abs, Args.rep_isREG, Args.rep_isBit, Args.rep_bit, implies_true, and_self]
    · rw [mem_line he h gpLine267]; simp only [Body.Abs, Args.rep_isREG, Args.rep_isBit, Args.rep_bit, implies_true, and_self]
    · rw [mem_line he h gpLine272]; simp only [Body.Abs, Args.rep_isREG, Args.rep_isBit, Args.rep_bit, implies_true, and_self]
    · rw [mem_line he h gpLine651]; simp only [Body.Abs, Args.rep_isREG, Args.rep_isBit, Args.rep_bit, implies_true, and_self]
    · rw [mem_line he h gpLine914]; simp only [Body.Abs, Args.rep_isREG, Args.rep_isBit, Args.rep_bit, implies_true, and_self]
    · rw [mem_line he h gpLine915]; simp only [Body.Abs, Args.rep_isREG, Args.rep_isBit, Args.rep_bit, implies_true, and_self]
    · rw [mem_line he h gpLine1586]; simp only [Body.Abs, Args.rep_isREG, Args.rep_isBit, Args.rep_bit, implies_true, and_self]
    · rw [mem_line he h gpLine1881]; simp only [Body.Abs, Args.rep_isREG, Args.rep_isBit, Args.rep_bit, implies_true, and_self]
  · exact Body.simple_abs _ h

/-! ### Representatives -/

theorem reps_mem : ∀ m k b, (m = false ∧ ((k = .reg ∧ (b = 8 ∨ b = 16 ∨ b = 32 ∨ b = 64)) ∨ (k = .bndreg ∧ b = 128))) → (Operand.reg { idx := 0, ext8 := false, kind := k, bit := b }) ∈ reps := by
  rintro m k b ⟨_, ⟨rfl, rfl | rfl | rfl | rfl⟩ | ⟨rfl, rfl⟩⟩ <;> decide

theorem reps_mem' (b : Nat) (h : b ∈ memBits) : Operand.mem { o := { idx := 0, ext8 := false, kind := .mem, bit := b }, e := .ofDisp 0 } ∈ reps :=
  List.mem_append_right _ (List.mem_map.mpr ⟨b, h, rfl⟩)

theorem takes_rep (p : Param) (o : Operand) : p.takes o.rep = p.takes o := by
  cases o <;> cases p <;> rfl

theorem lists_mem : ∀ (ps : List Param) (os : List Operand), os.length = ps.length → (∀ (i : Nat) p o, ps[i]? = some p → os[i]? = some o → p.takes o = true) →
    (∀ o ∈ os, o ∈ reps) → os ∈ lists ps
  | [], [], _, _, _ => List.mem_singleton.mpr rfl
  | [], _ :: _, hl, _, _ => nomatch hl
  | _ :: _, [], hl, _, _ => nomatch hl
  | p :: ps, o :: os, hl, ht, hr => by
    refine List.mem_flatMap.mpr ⟨o, List.mem_filter.mpr ⟨hr o List.mem_cons_self, ht 0 p o rfl rfl⟩, List.mem_map.mpr ⟨os, ?_, rfl⟩⟩
    exact lists_mem ps os (Nat.succ.inj hl) (fun i p' o' h1 h2 => ht (i + 1) p' o' h1 h2) fun o ho => hr o (List.mem_cons_of_mem _ ho)

theorem usual_rep (e : Entry) (g : Args) : e.usual g.rep = e.usual g := by
  unfold Entry.usual
  rw [Args.rep_bit]
  congr 1
  show (g.ops.map Operand.rep).all _ = _
  rw [List.all_map]
  congr 1
  funext o
  obtain ⟨h1, h2, h3⟩ := Operand.rep_facts o
  show e.usualOp o.rep.isMEM o.rep.hd.kind o.rep.hd.bit = _
  rw [h1, h2, h3]

/-- The representatives of the arguments have been checked. -/
theorem rep_lists {e : Entry} {w : List Act} (hc : Calls e g w) (hp : ProperG e g) (h0 : e.opt = 0) : g.rep.ops ∈ lists e.ops := by
  have hf := hc.fits
  have hops : e.ops = e.params.filter Param.isOperand := by unfold Entry.ops; rw [if_pos h0]
  rw [hops]
  have hu := hp.usual
  unfold Entry.usual at hu
  rw [Bool.and_eq_true] at hu
  refine lists_mem _ _ ?_ ?_ ?_
  · have a := hf.1; have b := hf.2.1; rw [h0] at b
    show (g.ops.map Operand.rep).length = _
    rw [List.length_map]; omega
  · intro i p o h1 h2
    have h2 : (g.ops.map Operand.rep)[i]? = some o := h2
    rw [List.getElem?_map] at h2
    obtain ⟨o', h3, rfl⟩ := Option.map_eq_some_iff.mp h2
    rw [takes_rep]
    exact hf.2.2 i p o' h1 h3
  · intro o ho
    obtain ⟨o', ho', rfl⟩ := List.mem_map.mp ho
    have hu := List.all_eq_true.mp hu.1 o' ho'
    obtain ⟨i, hi⟩ := List.mem_iff_getElem?.mp ho'
    cases o' with
    | mem a =>
      obtain ⟨hw, _, _, _, _, hb⟩ := hp.mem i a hi
      have := reps_mem' a.o.bit hb
      have e : Operand.rep (.mem a) = .mem { o := { idx := 0, ext8 := false, kind := a.o.kind, bit := a.o.bit }, e := .ofDisp 0 } := rfl
      rw [e, hw.kind]; exact this
    | reg q =>
      have hq := hp.named i q hi
      refine reps_mem false q.kind q.bit ⟨rfl, ?_⟩
      have hu : (if false = true then _ else (q.kind == .reg || (q.kind == .bndreg && e.params.contains .bnd)) && _ && _) = true := hu
      rw [if_neg Bool.false_ne_true] at hu
      simp only [Bool.and_eq_true, Bool.or_eq_true, beq_iff_eq] at hu
      have hs := hq.shape
      rcases hu.1.1 with h | ⟨h, _⟩ <;> rw [h] at hs ⊢ <;> simp at hs ⊢ <;> exact hs

/-- Kind and size. -/
def Same (a b : Reg) : Prop := a.kind = b.kind ∧ a.bit = b.bit

theorem Same.isREG {a b : Reg} (h : Same a b) (m : Nat) : a.isREG m = b.isREG m := by unfold Reg.isREG Reg.isBit; rw [h.1, h.2]
theorem Same.isBit {a b : Reg} (h : Same a b) (m : Nat) : a.isBit m = b.isBit m := by unfold Reg.isBit; rw [h.2]

theorem opd_rep (sh : GShape) (g : Args) : (sh.opd g.rep).isMEM = (sh.opd g).isMEM ∧ Same (sh.opd g.rep).hd (sh.opd g).hd := by
  have h := Args.rep_facts g sh.k
  unfold Args.reg at h
  unfold GShape.opd
  cases h1 : g.rep.op sh.k <;> cases h2 : g.op sh.k <;> rw [h1, h2] at h <;> obtain ⟨h3, h4, h5⟩ := h
  · refine ⟨rfl, ?_⟩
    have h4 : _ = _ := h4
    have h5 : _ = _ := h5
    dsimp only [Operand.hd] at h4 h5 ⊢
    cases sh.nar
    · exact ⟨h4, h5⟩
    · show Same (Reg.narrow _) (Reg.narrow _)
      unfold Reg.narrow
      rw [h5]
      split
      · exact ⟨h4, rfl⟩
      · exact ⟨h4, h5⟩
  · cases h3
  · cases h3
  · exact ⟨rfl, h4, h5⟩

theorem reg_rep (sh : GShape) (hg : sh.r.gp = true) (g : Args) : Same (sh.reg g.rep) (sh.reg g) := by
  unfold GShape.reg
  split
  · exact ⟨rfl, (opd_rep sh g).2.2⟩
  · cases h : sh.r with
    | a i => exact ⟨Args.rep_kind g i, Args.rep_bit g i⟩
    | r q => exact ⟨rfl, rfl⟩
    | bitOf i n => exact ⟨rfl, Args.rep_bit g i⟩
    | _ => rw [h] at hg; cases hg

theorem opc_same {a b : Reg} (h : Same a b) (t : Ty) (c : Byte) : opc t a c = opc t b c := by unfold opc; rw [h.isBit]

theorem p66_rep (sh : GShape) (hg : sh.r.gp = true) (g : Args) : sh.p66 g.rep = p66of sh.t (sh.opd g).hd (sh.reg g) := by
  unfold GShape.p66 p66of
  simp only [(opd_rep sh g).2.isBit, (reg_rep sh hg g).isBit]

theorem w_rep (sh : GShape) (hg : sh.r.gp = true) (g : Args) : sh.w g.rep = ((sh.opd g).isREG 64 || (sh.reg g).isREG 64) := by
  unfold GShape.w
  rw [(reg_rep sh hg g).isREG]
  congr 1
  exact (opd_rep sh g).2.isREG 64

theorem accept_of (sh : GShape) (hg : sh.r.gp = true) (ha : sh.t.has T_APX = true → mapOf sh.t = 0) {n : Nat} {w : List Act}
    (h : (opRO (sh.reg g) (sh.opd g) sh.t sh.c true n).Gives w ()) : sh.accept g.rep = true := by
  obtain ⟨e1, e2⟩ := opd_rep sh g
  have e3 := reg_rep sh hg g
  unfold GShape.accept
  rw [e1, e3.isREG, e3.2, e2.isREG, e2.2]
  cases ho : sh.opd g with
  | mem a =>
    rw [ho] at h
    have h : (opMR { a with immSize := n } (sh.reg g) sh.t sh.c).Gives w () := h
    rw [opMR_gives _ _ _ _ ha] at h
    rw [if_pos (show (Operand.mem a).isMEM = true from rfl), Bool.not_eq_true']
    exact h.2.1
  | reg q =>
    rw [ho] at h
    have h : (Enc.throwIf (!true) .BAD_COMBINATION >>= fun _ => opRR (sh.reg g) q sh.t sh.c).Gives w () := h
    rw [Enc.throwIf_bind, opRR_gives _ _ _ _ ha] at h
    rw [if_neg (show ¬ (Operand.reg q).isMEM = true from Bool.false_ne_true), Bool.not_eq_true']
    exact h.2.1

theorem fitsAll_at {G : Args} {sh : GShape} : ∀ {l : List GOp} {n : Nat}, sh.fitsAll G n l = true → ∀ (i : Nat) o, l[i]? = some o → sh.fitsOp G (n + i) o = true
  | [], _, _, i, o, h => by cases h
  | x :: l, n, hf, 0, o, h => by
    cases h
    unfold GShape.fitsAll at hf
    exact (Bool.and_eq_true _ _ ▸ hf).1
  | x :: l, n, hf, i + 1, o, h => by
    unfold GShape.fitsAll at hf
    have := fitsAll_at (Bool.and_eq_true _ _ ▸ hf).2 i o h
    rwa [show n + (i + 1) = n + 1 + i by omega]

theorem op_at {i : Nat} {x : Operand} (h : g.ops[i]? = some x) : g.op i = x := by unfold Args.op; rw [h]; rfl

theorem fitsSz_of {b n : Nat} {s : Sz} (h : fitsSz b n s = true) : s = .any ∨ b = 0 ∨ b = n := by
  unfold fitsSz at h
  simp only [Bool.or_eq_true, beq_iff_eq, Nat.beq_eq] at h
  rcases h with (h | h) | h
  · exact .inl h
  · exact .inr (.inl h)
  · exact .inr (.inr h)

/-- A register operand uses REX if its number is that of spl, bpl, sil or dil. -/
theorem rexUsed_reg {r : Reg} {o : Operand} (h : r.ext8 = true) : rexUsed r o = true := by
  cases o <;> simp [rexUsed, extRR, extMR, X86.Ext.present, h]
theorem rexUsed_rm {r q : Reg} (h : q.ext8 = true) : rexUsed r (.reg q) = true := by
  simp [rexUsed, extRR, X86.Ext.present, h]

theorem legacyReg_of {q : Reg} (hn : q = .nil ∨ q.Named) (hk : q.kind = .reg ∨ q.kind = .bndreg) : LegacyReg q := by
  intro h
  rcases hn with rfl | hn
  · rcases hk with hk | hk <;> cases hk
  · have := hn.bnd (hk.resolve_left h); omega

theorem lo3_of {h : X86.Head} {reg : BitVec 3} {i : BitVec 5} (e : X86.regNum h reg = i) : reg = lo3 i := by
  subst e
  unfold X86.regNum X86.mk5 lo3
  generalize h.r4 = a
  generalize h.r3 = b
  revert reg
  cases a <;> cases b <;> decide

theorem GShape.opd_idx (sh : GShape) {q : Reg} (h : g.op sh.k = .reg q) : ∃ q', sh.opd g = .reg q' ∧ q'.idx = q.idx ∧ q'.kind = q.kind := by
  unfold GShape.opd
  rw [h]
  refine ⟨_, rfl, ?_⟩
  cases sh.nar
  · exact ⟨rfl, rfl⟩
  · show (Reg.narrow q).idx = q.idx ∧ (Reg.narrow q).kind = q.kind
    unfold Reg.narrow
    split <;> exact ⟨rfl, rfl⟩

theorem GShape.reg_idx (sh : GShape) : (sh.reg g).idx = (sh.r.reg g).idx := by
  unfold GShape.reg
  split <;> rfl

theorem GShape.opd_mem (sh : GShape) {a : Addr} (h : g.op sh.k = .mem a) : sh.opd g = .mem a := by
  unfold GShape.opd; rw [h]

/-- C69, for all functions of mnemonic.h that end in a helper for integer instructions with a ModRM byte (`Entry.gped`; which those are:
`c69_cover`): what an accepted call writes is read as a form that the manual gives for this mnemonic, with every operand of the right kind and
size at its place, the immediate and nothing else behind it.  Left out are the operands of `c69_refuted_*`, and APX. -/
theorem c69_partial {e : Entry} (hv : e.gped = true) {w : List Act} (hc : Calls e g w) (hp : ProperG e g) (fill : Act → BitVec 32) :
    ∃ f h reg rm, HoldsG e g fill f h reg rm ∧
      ∀ t, X86.insn false 1 (concr fill w ++ t) = some (⟨h, reg, rm⟩, (if f.ib then [g.i8 0] else []) ++ t) := by
  have hok := List.all_eq_true.mp gpOk_check e hc.mem
  rw [hv, Bool.not_true, Bool.false_or] at hok
  unfold Entry.gpOk at hok
  rw [Bool.and_eq_true] at hok
  have h0 : e.opt = 0 := Nat.eq_of_beq_eq_true hok.1
  have hok := List.all_eq_true.mp hok.2 g.rep.ops (rep_lists hc hp h0)
  rw [show ({ ops := g.rep.ops } : Args) = g.rep from rfl, usual_rep, hp.usual, Bool.not_true, Bool.false_or] at hok
  have hga : GArgs g := by
    constructor
    · intro i a h
      unfold Args.op at h
      cases hi : g.ops[i]? with
      | none => rw [hi] at h; cases h
      | some x => rw [hi] at h; cases h; exact (hp.mem i a hi).2.2.2.2.1
    · intro i q h
      unfold Args.op at h
      cases hi : g.ops[i]? with
      | none => rw [hi] at h; cases h; exact .inl rfl
      | some x => rw [hi] at h; cases h; exact .inr (hp.named i q hi)
  have hkind : ∀ i q, g.op i = .reg q → LegacyReg q := by
    intro i q h
    unfold Args.op at h
    cases hi : g.ops[i]? with
    | none => rw [hi] at h; cases h; intro _; decide
    | some x =>
      rw [hi] at h; cases h
      refine legacyReg_of (.inr (hp.named i q hi)) ?_
      have hu := hp.usual
      unfold Entry.usual at hu
      rw [Bool.and_eq_true] at hu
      have hu := List.all_eq_true.mp hu.1 (.reg q) (List.mem_iff_getElem?.mpr ⟨i, hi⟩)
      have hu : (if false = true then _ else (q.kind == .reg || (q.kind == .bndreg && e.params.contains .bnd)) && _ && _) = true := hu
      rw [if_neg Bool.false_ne_true] at hu
      simp only [Bool.and_eq_true, Bool.or_eq_true, beq_iff_eq] at hu
      exact hu.1.1.imp id fun h => h.1
  have hgp : e.body.gped e.ops = true := by
    unfold Entry.gped at hv
    exact (Bool.and_eq_true _ _ ▸ hv).1
  obtain ⟨m, hm, hw⟩ := hc.runs
  obtain ⟨sh, hsh, ⟨w', rfl, hcall⟩, hcl⟩ := Body.gsent hc.fits.are hga hp.apx hgp (Entry.abs hc.mem hv) hm hw
  have hok := List.all_eq_true.mp hok sh hsh
  rw [Bool.and_eq_true] at hok
  obtain ⟨hleg, hok⟩ := hok
  unfold GShape.legal at hleg
  simp only [Bool.and_eq_true, Bool.or_eq_true, Bool.not_eq_true', beq_iff_eq, decide_eq_true_eq] at hleg
  obtain ⟨⟨⟨hr, hapx⟩, hopc⟩, hk⟩ := hleg
  have hapx : sh.t.has T_APX = true → mapOf sh.t = 0 := fun h => hapx.resolve_left (by rw [h]; simp)
  rw [accept_of sh hr hapx hcall, Bool.not_true, Bool.false_or] at hok
  obtain ⟨f, hf, hfit⟩ := List.any_eq_true.mp hok
  unfold GShape.fits at hfit
  simp only [Bool.and_eq_true, beq_iff_eq, Nat.beq_eq] at hfit
  obtain ⟨⟨⟨⟨⟨⟨f1, f2⟩, f3⟩, f4⟩, f5⟩, f6⟩, f7⟩ := hfit
  have hsame := reg_rep sh hr g
  rw [opc_same hsame] at hopc f1
  rw [p66_rep sh hr, w_rep sh hr] at f3
  -- the register operand
  have hR : LegacyReg (sh.reg g) := by
    rcases hk with hk | hk
    · rw [hsame.1] at hk
      intro h; exact absurd hk h
    · unfold LegacyReg
      unfold GShape.reg
      split
      · intro h; exact absurd rfl h
      · cases h : sh.r with
        | a i =>
          rw [h] at hk
          have hk : (g.rep.op i).isMEM = false := by simpa using hk
          rw [Args.rep_mem] at hk
          obtain ⟨q, hq, hq'⟩ := op_reg hk
          show LegacyReg (g.op i).hd
          rw [hq']
          exact hkind i q hq
        | _ => rw [h] at hk; simp at hk
  have hO : OpOK (sh.opd g) := by
    cases ho : g.op sh.k with
    | reg q =>
      obtain ⟨q', h1, h2, h3⟩ := sh.opd_idx ho
      rw [h1]
      intro hk
      rw [h2]
      exact hkind _ q ho (h3 ▸ hk)
    | mem a =>
      rw [sh.opd_mem ho]
      unfold Args.op at ho
      cases hi : g.ops[sh.k]? with
      | none => rw [hi] at ho; cases ho
      | some x =>
        rw [hi] at ho; cases ho
        obtain ⟨a1, a2, a3, a4, _⟩ := hp.mem _ a hi
        exact ⟨a1, a2, a3, a4⟩
  obtain ⟨h, reg, rm, hdec, hL, hrex⟩ := c34_ro (sh.reg g) hR (sh.opd g) hO sh.t sh.c true _ hapx hopc hcall fill
  have htail : sh.tail g = if f.ib then [g.i8 0] else [] := by
    unfold GShape.tail
    rw [f5]
    cases f.ib <;> rfl
  have hlen : (sh.tail g).length = f.ib.toNat := by rw [htail]; cases f.ib <;> rfl
  rw [hlen] at hL
  refine ⟨f, h, reg, rm, ⟨hf, ⟨hL.head.space, by rw [hL.head.map, f2], by rw [hL.head.opcode, f1], ?_, ?_⟩, ?_, ?_⟩, ?_⟩
  · rw [hL.head.p66, hL.head.pF2, hL.head.pF3, hL.head.w]; exact f3
  · intro x hx
    rw [hx] at f4
    have f4 : sh.r.num = some x := by simpa using f4
    have hn := Slot.num_le g sh.r
    rw [f4, ← sh.reg_idx, ← lo3_of hL.reg] at hn
    rcases hn with hn | hn
    · cases hn
    · exact (Option.some.inj hn).symm
  · rw [f6]; show (g.ops.map Operand.rep).length = _; exact List.length_map _
  · intro i o x ho hx
    have hfo := fitsAll_at f7 i o ho
    rw [Nat.zero_add] at hfo
    have hgi := op_at hx
    unfold GShape.fitsOp at hfo
    rw [p66_rep sh hr, w_rep sh hr, Args.rep_mem, Args.rep_kind, Args.rep_bit, ← hL.head.p66, ← hL.head.w] at hfo
    dsimp only at hfo
    have hgr : g.reg i = x.hd := by unfold Args.reg; rw [hgi]
    rw [hgi, hgr] at hfo
    -- a register in ModRM.reg
    have regCase : ∀ s q, x = .reg q → sh.r = .a i → sh.nar = false → q.kind = .reg → q.bit = s.bits h.p66 h.w → RegIs h (X86.regNum h reg) s q := by
      intro s q hxq hri hnar hk hb
      have hrq : sh.reg g = q := by
        unfold GShape.reg; rw [hnar, hri, if_neg Bool.false_ne_true]; show (g.op i).hd = q; rw [hgi, hxq]; rfl
      have e := hL.reg
      rw [hrq] at e
      refine ⟨hk, hb, e, fun h8 hh => ?_⟩
      rw [e]
      exact reg8_view h q h8 hL.head.rexp hh fun hx8 => by rw [hrex, hrq]; exact rexUsed_reg hx8
    have rmCase : ∀ s q, x = .reg q → sh.k = i → q.kind = .reg → q.bit = s.bits h.p66 h.w → ∃ lo, rm = .reg lo ∧ RegIs h (X86.rmGpr h lo) s q := by
      intro s q hxq hki hk hb
      obtain ⟨q', h1, h2, _⟩ := sh.opd_idx (hki ▸ hxq ▸ hgi : g.op sh.k = .reg q)
      have hrm := hL.rm
      rw [h1] at hrm
      obtain ⟨lo, e1, e2⟩ := hrm
      rw [h2] at e2
      refine ⟨lo, e1, hk, hb, e2, fun h8 hh => ?_⟩
      rw [e2]
      refine reg8_view h q h8 hL.head.rexp hh fun hx8 => ?_
      have : q' = q := by
        unfold GShape.opd at h1
        rw [(hki ▸ hxq ▸ hgi : g.op sh.k = .reg q)] at h1
        have h1 : Operand.reg (if sh.nar = true then Reg.narrow q else q) = .reg q' := h1
        cases h1
        unfold Reg.narrow
        rw [if_neg (by omega : ¬ q.bit = 64)]
        split <;> rfl
      rw [hrex, h1, this]
      exact rexUsed_rm hx8
    have memCase : ∀ s a, x = .mem a → sh.k = i → (s = .any ∨ a.o.bit = 0 ∨ a.o.bit = s.bits h.p66 h.w) → MemIs fill h rm f.ib.toNat s a := by
      intro s a hxa hki hb
      have hrm := hL.rm
      rw [sh.opd_mem (hki ▸ hxa ▸ hgi : g.op sh.k = .mem a)] at hrm
      exact ⟨hb, hrm⟩
    cases x with
    | reg q =>
      have hm : (Operand.reg q).isMEM = false := rfl
      rw [hm] at hfo
      cases o with
      | r s =>
        simp only [Bool.and_eq_true, beq_iff_eq, Nat.beq_eq, Bool.not_eq_true'] at hfo
        exact regCase s q rfl hfo.1.1.1 hfo.1.1.2 hfo.2.1 hfo.2.2
      | rm s =>
        simp only [Bool.and_eq_true, beq_iff_eq, Nat.beq_eq, Bool.false_eq_true, if_false] at hfo
        exact rmCase s q rfl hfo.1 hfo.2.1 hfo.2.2
      | rr s =>
        simp only [Bool.and_eq_true, beq_iff_eq, Nat.beq_eq, Bool.not_eq_true'] at hfo
        exact rmCase s q rfl hfo.1.1 hfo.2.1 hfo.2.2
      | m s => simp at hfo
      | bnd =>
        simp only [Bool.and_eq_true, beq_iff_eq, Bool.not_eq_true'] at hfo
        refine ⟨hfo.2, ?_⟩
        rw [hL.reg]
        unfold GShape.reg
        rw [hfo.1.1]
        have : (Slot.reg g (.a i)).idx = q.idx := by show (g.op i).hd.idx = _; rw [hgi]; rfl
        split <;> exact this
      | bndm =>
        simp only [Bool.and_eq_true, beq_iff_eq, Nat.beq_eq, Bool.false_eq_true, if_false] at hfo
        refine ⟨hfo.2, ?_⟩
        obtain ⟨q', h1, h2, _⟩ := sh.opd_idx (hfo.1 ▸ hgi : g.op sh.k = .reg q)
        have hrm := hL.rm
        rw [h1] at hrm
        obtain ⟨lo, e1, e2⟩ := hrm
        exact ⟨lo, e1, e2.trans h2⟩
      | cl =>
        simp only [Bool.and_eq_true, beq_iff_eq, Nat.beq_eq, Bool.not_eq_true'] at hfo
        refine ⟨hfo.1.2, hfo.2, ?_⟩
        have := hcl i hfo.1.1.1
        rw [hgr] at this
        exact this
    | mem a =>
      have hm : (Operand.mem a).isMEM = true := rfl
      rw [hm] at hfo
      cases o with
      | rm s =>
        simp only [Bool.and_eq_true, Nat.beq_eq, if_true] at hfo
        exact memCase s a rfl hfo.1 (fitsSz_of hfo.2)
      | m s =>
        simp only [Bool.and_eq_true, Nat.beq_eq, and_true] at hfo
        exact memCase s a rfl hfo.1 (fitsSz_of hfo.2)
      | bndm =>
        simp only [Bool.and_eq_true, Nat.beq_eq, if_true] at hfo
        exact memCase .x a rfl hfo.1 (fitsSz_of hfo.2)
      | _ => simp at hfo
  · intro t
    rw [concr_append, concr_bytes, List.append_assoc, hdec, htail]

/-! ## Which functions -/

set_option maxRecDepth 1000000 in
private theorem cover_check : (X86.gforms.all fun p => all.any fun e => e.gped && Nat.beq e.name p.1) = true := by decide +kernel

/-- Every mnemonic of `Spec/Gp` has a function that C69 speaks about. -/
theorem c69_cover (p : Nat × List GForm) (hp : p ∈ X86.gforms) : ∃ e ∈ all, e.name = p.1 ∧ e.gped = true := by
  obtain ⟨e, he, h⟩ := List.any_eq_true.mp (List.all_eq_true.mp cover_check p hp)
  rw [Bool.and_eq_true] at h
  exact ⟨e, he, Nat.eq_of_beq_eq_true h.2, h.1⟩

/-! ## What is accepted although there is no such instruction -/

private def at0 (b : Nat) : Operand := .mem { o := { idx := 0, ext8 := false, kind := .mem, bit := b }, e := { base := .gp 0 64, index := .nil, scale := 0, disp := 0 } }

/-- Bug: the kind of registers is not checked.  `add(xmm1, xmm2)` (mnemonic.h 11; xbyak.h 2333-2342 compares the kinds with each other only) writes
`add ecx, edx`; `lea(mm1, [rax])` (651) writes `lea ecx, [rax]`; `rdrand(xmm1)` (914) writes `rdrand ecx`; `shld(xmm1, edx, 3)` (1001) writes
`shld ecx, edx, 3`. -/
theorem c69_refuted_kind :
    Confused n!"add" n!"add" { ops := [.reg (.xmm 1), .reg (.xmm 2)] } { ops := [.reg (.gp 1 32), .reg (.gp 2 32)] } ∧
    Confused n!"lea" n!"lea" { ops := [.reg (.mm 1), at0 0] } { ops := [.reg (.gp 1 32), at0 0] } ∧
    Confused n!"rdrand" n!"rdrand" { ops := [.reg (.xmm 1)] } { ops := [.reg (.gp 1 32)] } ∧
    Confused n!"shld" n!"shld" { ops := [.reg (.xmm 1), .reg (.gp 2 32)], ints := [3] } { ops := [.reg (.gp 1 32), .reg (.gp 2 32)], ints := [3] } :=
  ⟨confused_of (l := 11) (l' := 11) (w := [0x01, 0xD1].map .byte) (by decide +kernel) (by decide +kernel),
   confused_of (l := 651) (l' := 651) (w := [0x8D, 0x08].map .byte) (by decide +kernel) (by decide +kernel),
   confused_of (l := 914) (l' := 914) (w := [0x0F, 0xC7, 0xF1].map .byte) (by decide +kernel) (by decide +kernel),
   confused_of (l := 1001) (l' := 1001) (w := [0x0F, 0xA4, 0xD1, 3].map .byte) (by decide +kernel) (by decide +kernel)⟩

/-- Bug: byte registers are accepted where the instruction has no byte form, and written as 32-bit registers: `bsf(al, [rax])` (56),
`imul(al, cl)` (520), `movzx(al, [rax])` (731). -/
theorem c69_refuted_byte :
    Confused n!"bsf" n!"bsf" { ops := [.reg (.gp 0 8), at0 0] } { ops := [.reg (.gp 0 32), at0 0] } ∧
    Confused n!"imul" n!"imul" { ops := [.reg (.gp 0 8), .reg (.gp 1 8)] } { ops := [.reg (.gp 0 32), .reg (.gp 1 32)] } ∧
    Confused n!"movzx" n!"movzx" { ops := [.reg (.gp 0 8), at0 0] } { ops := [.reg (.gp 0 32), at0 0] } :=
  ⟨confused_of (l := 56) (l' := 56) (w := [0x0F, 0xBC, 0x00].map .byte) (by decide +kernel) (by decide +kernel),
   confused_of (l := 520) (l' := 520) (w := [0x0F, 0xAF, 0xC1].map .byte) (by decide +kernel) (by decide +kernel),
   confused_of (l := 731) (l' := 731) (w := [0x0F, 0xB6, 0x00].map .byte) (by decide +kernel) (by decide +kernel)⟩

/-- The function at this line of mnemonic.h takes the arguments, and throws. -/
def Throws (line name : Nat) (g : Args) (err : Err) : Prop :=
  ∃ e m, e ∈ all ∧ e.line = line ∧ e.name = name ∧ g.Fits e.params e.opt ∧ e.body.run g = some m ∧ m.res = .error err

def throwsAt (line name : Nat) (g : Args) (err : Err) : Bool := match all.find? fun e => Nat.beq e.line line with
  | none => false
  | some e => Nat.beq e.name name && decide (g.ops.length ≤ (e.params.filter Param.isOperand).length ∧ (e.params.filter Param.isOperand).length ≤ g.ops.length + e.opt) &&
      (((e.params.filter Param.isOperand).zip g.ops).all fun p => p.1.takes p.2) && match e.body.run g with
        | some m => match m.res with | .error x => x == err | .ok _ => false
        | none => false

theorem throws_of {line name : Nat} {g : Args} {err : Err} (h : throwsAt line name g err = true) : Throws line name g err := by
  unfold throwsAt at h
  split at h
  · cases h
  · rename_i e he
    simp only [Bool.and_eq_true, decide_eq_true_eq, Nat.beq_eq] at h
    obtain ⟨⟨⟨h1, h2⟩, h3⟩, h4⟩ := h
    split at h4
    · rename_i m hm
      split at h4
      · rename_i x hx
        have h4 : x = err := by simpa using h4
        have hl := List.find?_some he
        refine ⟨e, m, List.mem_of_find?_eq_some he, Nat.eq_of_beq_eq_true hl, h1, ⟨h2.1, h2.2, ?_⟩, hm, h4 ▸ hx⟩
        intro i p o hp ho
        refine List.all_eq_true.mp h3 (p, o) ?_
        rw [List.mem_iff_getElem?]
        exact ⟨i, by rw [List.getElem?_zip_eq_some]; exact ⟨hp, ho⟩⟩
      · cases h4
    · cases h4

/-- Bug: the size of the memory operand is compared with that of the register that stands for the ModRM.reg extension.  `cmpxchg8b` (268) accepts
a dword and refuses the qword it is for, `cmpxchg16b` (1877) accepts a qword and refuses 128 bits, `fldcw` (438) accepts a dword and refuses
the word it is for. -/
theorem c69_refuted_size :
    Confused n!"cmpxchg8b" n!"cmpxchg8b" { ops := [at0 32] } { ops := [at0 0] } ∧ Throws 268 n!"cmpxchg8b" { ops := [at0 64] } .BAD_MEM_SIZE ∧
    Confused n!"cmpxchg16b" n!"cmpxchg16b" { ops := [at0 64] } { ops := [at0 0] } ∧ Throws 1877 n!"cmpxchg16b" { ops := [at0 128] } .BAD_MEM_SIZE ∧
    Confused n!"fldcw" n!"fldcw" { ops := [at0 32] } { ops := [at0 0] } ∧ Throws 438 n!"fldcw" { ops := [at0 16] } .BAD_MEM_SIZE :=
  ⟨confused_of (l := 268) (l' := 268) (w := [0x0F, 0xC7, 0x08].map .byte) (by decide +kernel) (by decide +kernel), throws_of (by decide +kernel),
   confused_of (l := 1877) (l' := 1877) (w := [0x48, 0x0F, 0xC7, 0x08].map .byte) (by decide +kernel) (by decide +kernel), throws_of (by decide +kernel),
   confused_of (l := 438) (l' := 438) (w := [0xD9, 0x28].map .byte) (by decide +kernel) (by decide +kernel), throws_of (by decide +kernel)⟩

/-- Bug: `bndcl(bnd1, ecx)` (48), an instruction that takes 64-bit registers only in 64-bit mode, is written as `bndcl(bnd1, rcx)`; and
`bndcl(bnd1, word [rax])`, `bndmk(bnd1, word [rax])` (52) get the prefix 66 in front of the mandatory one. -/
theorem c69_refuted_bound :
    Confused n!"bndcl" n!"bndcl" { ops := [.reg (.bnd 1), .reg (.gp 1 32)] } { ops := [.reg (.bnd 1), .reg (.gp 1 64)] } ∧
    callAt 48 { ops := [.reg (.bnd 1), at0 16] } = some (n!"bndcl", [0x66, 0xF3, 0x0F, 0x1A, 0x08].map .byte) ∧
    callAt 52 { ops := [.reg (.bnd 1), at0 16] } = some (n!"bndmk", [0x66, 0xF3, 0x0F, 0x1B, 0x08].map .byte) :=
  ⟨confused_of (l := 48) (l' := 48) (w := [0xF3, 0x0F, 0x1A, 0xC9].map .byte) (by decide +kernel) (by decide +kernel), by decide +kernel, by decide +kernel⟩

/-! ## Examples -/

/-- `shrd([r9 + rax * 4 + 5] qword, r10, 3)` (1010): 4D 0F AC 54 81 05 03 is read as 0F AC with a quadword in ModRM.rm and r10 in ModRM.reg. -/
example : callAt 1010 { ops := [.mem { o := { idx := 0, ext8 := false, kind := .mem, bit := 64 }, e := { base := .gp 9 64, index := .gp 0 64, scale := 4, disp := 5 } },
      .reg (.gp 10 64)], ints := [3] } = some (n!"shrd", [0x4D, 0x0F, 0xAC, 0x54, 0x81, 5, 3].map .byte) := by decide +kernel

example : (X86.insn false 1 [0x4D, 0x0F, 0xAC, 0x54, 0x81, 5, 3]).map (fun p => (p.1.head.opcode, X86.regNum p.1.head p.1.reg, p.1.head.w, p.2)) = some (0xAC, 10, true, [3]) ∧
    { op := 0xAC, ops := [.rm .v, .r .v], ib := true } ∈ X86.gformsOf n!"shrd" := by decide +kernel

/-- The hypotheses of `c69_partial` can be met: `movzx(r10d, byte [rax])` (731). -/
example : ∃ e w, e.name = n!"movzx" ∧ e.gped = true ∧ Calls e { ops := [.reg (.gp 10 32), at0 8] } w ∧ ProperG e { ops := [.reg (.gp 10 32), at0 8] } := by
  have key : ((all.filter fun e => Nat.beq e.line 731).all fun e => e.gped && e.usual { ops := [.reg (.gp 10 32), at0 8] } && !e.body.apxed) = true := by decide +kernel
  obtain ⟨e, hl, hn, hc⟩ := callAt_line (show callAt 731 { ops := [.reg (.gp 10 32), at0 8] } = some (n!"movzx", [0x44, 0x0F, 0xB6, 0x10].map .byte) by decide +kernel)
  have hk := List.all_eq_true.mp key e (List.mem_filter.mpr ⟨hc.mem, by rw [hl]; rfl⟩)
  simp only [Bool.and_eq_true, Bool.not_eq_true'] at hk
  refine ⟨e, _, hn, hk.1.1, hc, ⟨?_, ?_, fun h => absurd h (by rw [hk.2]; exact Bool.false_ne_true), hk.1.2⟩⟩
  · intro i q h
    match i, h with
    | 0, h => cases h; exact ⟨.inl ⟨rfl, .inr (.inr (.inl rfl))⟩, (fun h => by cases h), (fun h => by rcases h with h | h | h | h <;> cases h), fun h => by cases h⟩
    | 1, h => cases h
    | _ + 2, h => cases h
  · intro i a h
    match i, h with
    | 0, h => cases h
    | 1, h => cases h; exact ⟨⟨fun _ => ⟨⟨.inr ⟨rfl, .inr rfl, rfl⟩, .inl rfl, fun h => absurd rfl h⟩, rfl⟩, fun h => absurd rfl h, rfl⟩, rfl, rfl, by decide, rfl, by decide⟩
    | _ + 2, h => cases h

end Mn
end Xbyak
