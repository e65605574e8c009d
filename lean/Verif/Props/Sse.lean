import Verif.LowerS
import Verif.Props.Pseudo
import Verif.Props.High
/-!
# C68: SSE and MMX instructions have their operands where the manual puts them, and of the right kind

An accepted call of an SSE or MMX function is decoded by the manual's rules to a form of the mnemonic: operands are found in ModRM.reg and
ModRM.rm, memory operands mean the address that was given, and every operand is of a class the form takes.
-/
namespace Xbyak
open X86 (Cls)
namespace Mn
open E

/-! ## The functions -/

def Leaf.ssed : Leaf → Bool
  | sse .. | sseApx .. | mmx .. | mmxImm .. | movXmm .. | ext .. => true
  | _ => false

/-- The function writes SSE or MMX instructions. -/
def Entry.ssed (e : Entry) : Bool := e.body.leaves.any Leaf.ssed

/-- What has to be assumed of register arguments, because the function accepts others (`c66_refuted_*`, `c68_refuted_*`). -/
def Entry.hyp (e : Entry) : List (Nat × List Cls) :=
  if e.line = 672 then [(0, [.mm]), (1, [.mm])] else if e.line = 858 ∨ e.line = 859 ∨ e.line = 860 then [(0, [.xmm])]
  else if e.line = 695 ∨ e.line = 861 then [(0, [.mm])] else if e.line = 716 then [(1, [.mm])] else if e.line = 799 then [(0, [.r32])] else if e.line = 809 then [(1, [.r32])] else []

def Param.k (loose : Bool) : Param → Option (List Cls)
  | .reg32e => some [.r32, .r64]
  | .reg32 => some [.r32]
  | .reg64 => some [.r64]
  | .mmx => some (if loose then [.mm, .xmm] else [.mm, .xmm, .ymm, .zmm])
  | .xmm => some (if loose then [.xmm] else [.xmm, .ymm, .zmm])
  | _ => none

def parK (loose : Bool) (l : List (Nat × List Cls)) : Nat → List Param → List (Nat × List Cls)
  | _, [] => l
  | i, p :: ps => match p.k loose with
    | some c => (i, c) :: parK loose l (i + 1) ps
    | none => parK loose l (i + 1) ps

/-! ## The check of the table -/

def about (K : List (Nat × List Cls)) (j : Nat) : Bool := K.any fun p => Nat.beq p.1 j

/-- The classes a register argument can have. -/
def poss (K : List (Nat × List Cls)) (j : Nat) : List Cls :=
  [Cls.mm, .xmm, .ymm, .zmm, .r32, .r64].filter fun c => K.all fun p => !Nat.beq p.1 j || p.2.contains c

/-- W contributed by a slot. -/
def Slot.w (K : List (Nat × List Cls)) (ps : List Param) (s : Slot) : Option Bool :=
  match s.is64 ps with
  | some b => some b
  | none => match s with
    | .a i => if about K i && !(poss K i).contains .r64 then some false else none
    | _ => none

def SShape.w (K : List (Nat × List Cls)) (ps : List Param) (sh : SShape) : Option Bool :=
  match sh.r.w K ps, sh.op.w K ps with
  | some true, _ => some true
  | some false, some x => some x
  | _, _ => none

def SShape.sel (K : List (Nat × List Cls)) (ps : List Param) (sh : SShape) : Sel :=
  let s := legSel sh.t sh.c (sh.t.has T_66 || sh.r.is16) (sh.w K ps) sh.r.num none none
  match sh.pre with
  | some x => s.pre x
  | none => s

def SShape.isReg (ps : List Param) (sh : SShape) (j : Nat) : Bool := (Slot.a j).isMem ps == some false || sh.reg == some j

def SShape.puts (ps : List Param) (sh : SShape) (j : Nat) : X86.Role → Bool
  | .reg => sh.r.src == some j && sh.isReg ps j
  | .rm => sh.op == .a j
  | _ => false

def SShape.takes (K : List (Nat × List Cls)) (ps : List Param) (sh : SShape) (j : Nat) (l : List Cls) : Bool :=
  (sh.isReg ps j || l.contains .mem) && ((Slot.a j).isMem ps == some true || (about K j && (poss K j).all l.contains))

def SShape.fits (K : List (Nat × List Cls)) (ps : List Param) (sh : SShape) : Nat → List X86.Role → List (List Cls) → Bool
  | _, [], [] => true
  | i, r :: rs, l :: ls => sh.puts ps i r && sh.takes K ps i l && sh.fits K ps (i + 1) rs ls
  | _, _, _ => false

/-- Facts about a register contradict each other. -/
def SShape.never (K : List (Nat × List Cls)) (ps : List Param) (sh : SShape) : Bool :=
  (List.range ps.length).any fun j => sh.isReg ps j && about K j && (poss K j).isEmpty

/-- A 32-bit or 64-bit register made by the function. -/
def Slot.is96 : Slot → Bool
  | .r q => q.isBit 96 && !q.isBit 16
  | _ => false

/-- A register of one of the classes legacy encodings have. -/
def small (K : List (Nat × List Cls)) (j : Nat) : Bool := about K j && (poss K j).all [Cls.mm, .xmm, .r32, .r64].contains

/-- ModRM.reg and ModRM.rm are such registers, or memory for the latter. -/
def SShape.leg (K : List (Nat × List Cls)) (ps : List Param) (sh : SShape) : Bool :=
  (match sh.r with
    | .a i => sh.isReg ps i && small K i
    | .gp16Of _ | .gp64Of _ | .xmmOf _ => true
    | .r q => (q.kind == .reg || decide (q.idx.toNat < 16)) && !q.isBit 16
    | _ => false) &&
  match sh.op with
  | .a i => (Slot.a i).isMem ps == some true || small K i
  | _ => false

/-- What is known about the arguments. -/
def SShape.K (e : Entry) (sh : SShape) : List (Nat × List Cls) := sh.known ++ (e.hyp ++ parK e.loose [] 0 e.ops)

/-- 66 is written only if it is part of the flags. -/
def SShape.clean (e : Entry) (sh : SShape) : Bool :=
  if sh.r.is16 then sh.op.par e.ops == some .addr && !sh.t.has T_ALLOW_DIFF_SIZE else sh.t.has T_66 || e.body.bare || sh.r.is96

def SShape.immOk (e : Entry) (sh : SShape) : Bool :=
  if e.params.contains .int then sh.imm == .i 0 else sh.imm == .none || (X86.pseudos.any (Nat.beq e.name) && sh.imm.num.isSome)

def SShape.laid (e : Entry) (sh : SShape) (f : X86.Form) : Bool :=
  (sh.sel (sh.K e) e.ops).meets f && Nat.beq f.en.roles.length e.ops.length && sh.fits (sh.K e) e.ops 0 f.en.roles (X86.Manual.classes e.name f) &&
    sh.imm.any == f.ib

def SShape.ok (e : Entry) (sh : SShape) : Bool :=
  sh.never (sh.K e) e.ops ||
  (legT sh.t sh.c && sh.leg (sh.K e) e.ops && sh.clean e && (sh.pre == none || sh.pre == some 0x66 || sh.pre == some 0xF3) && sh.immOk e &&
    (X86.Manual.forms e.name).any fun f => sh.laid e f)

def Entry.sseOk (e : Entry) : Bool := e.vec && e.opt == 0 && e.body.leaves.all Leaf.ssed && (Entry.special e.line || e.body.sends' e.ops) && e.sshapes.all fun sh => sh.ok e

set_option maxRecDepth 1000000 in
theorem sseOk_check : (all.all fun e => !e.ssed || e.sseOk) = true := by decide +kernel

/-! ## Knowledge about the arguments -/

section
variable {g : Args} {ps : List Param} {K : List (Nat × List Cls)}

theorem parK_of (ht : ∀ (i : Nat) p, ps[i]? = some p → p.takes (g.op (i + n)) = true) {loose : Bool} (hn : loose = true → Narrow g) (hg : g.Good) :
    ∀ p ∈ parK loose [] n ps, Known g p := by
  induction ps generalizing n with
  | nil => intro p hp; cases hp
  | cons a ps ih =>
    have ih := ih (n := n + 1) (fun i p h => by
      have := ht (i + 1) p (by simpa using h)
      rwa [show i + 1 + n = i + (n + 1) by omega] at this)
    have h0 := ht 0 a rfl
    rw [Nat.zero_add] at h0
    unfold parK
    cases hk : a.k loose with
    | none => exact ih
    | some c =>
      intro p hp
      rcases List.mem_cons.mp hp with rfl | hp
      · intro q hq
        rw [hq] at h0
        dsimp only at hq ⊢
        have simd : q.isSIMD = true → ∃ c ∈ (if loose then [Cls.xmm] else [.xmm, .ymm, .zmm]), q.cls = some c := by
          intro h
          cases hl : loose with
          | true =>
            obtain ⟨y, z⟩ := hn hl n q hq
            simp only [Reg.isSIMD, y, z, Bool.or_false] at h
            exact cls_xmm h
          | false =>
            simp only [Reg.isSIMD, Reg.isXMM, Reg.isYMM, Reg.isZMM, Bool.or_eq_true, beq_iff_eq] at h
            rcases h with (h | h) | h <;> simp [Reg.cls, h]
        cases a <;> cases hk
        · exact cls_r32 hg hq (by simpa [Param.takes, Operand.isMEM, Operand.isREG, Operand.hd] using h0)
        · exact cls_r64 hg hq (by simpa [Param.takes, Operand.isMEM, Operand.isREG, Operand.hd] using h0)
        · exact cls_r hg hq (by simpa [Param.takes, Operand.isMEM, Operand.isREG, Operand.hd] using h0)
        · have h0 : q.isMMX = true ∨ q.isSIMD = true := by simpa [Param.takes, Operand.isMEM, Operand.isREG, Operand.hd] using h0
          rcases h0 with h0 | h0
          · obtain ⟨c, hc, h⟩ := cls_mm h0
            rw [List.mem_singleton] at hc
            exact ⟨c, by subst hc; split <;> simp, h⟩
          · obtain ⟨c, hc, h⟩ := simd h0
            refine ⟨c, ?_, h⟩
            revert hc
            split <;> simp <;> intro h <;> simp [h]
        · exact simd (by simpa [Param.takes, Operand.isMEM, Operand.isREG, Operand.hd] using h0)
      · exact ih p hp

theorem poss_of (hK : ∀ p ∈ K, Known g p) {j : Nat} (ha : about K j = true) {q : Reg} (hq : g.op j = .reg q) :
    ∃ c ∈ poss K j, q.cls = some c := by
  obtain ⟨p, hp, hj⟩ := List.any_eq_true.mp ha
  have hj := Nat.eq_of_beq_eq_true hj
  subst hj
  obtain ⟨c, hc, hcl⟩ := hK p hp q hq
  refine ⟨c, List.mem_filter.mpr ⟨?_, ?_⟩, hcl⟩
  · have : c ≠ .mem := by
      rintro rfl
      unfold Reg.cls at hcl
      split at hcl <;> first | cases hcl | skip
      split at hcl
      · cases hcl
      · split at hcl <;> cases hcl
    cases c <;> simp at this ⊢
  · rw [List.all_eq_true]
    intro p' hp'
    by_cases he : p'.1 = p.1
    · obtain ⟨c', hc', hcl'⟩ := hK p' hp' q (by rw [he]; exact hq)
      rw [hcl] at hcl'
      cases hcl'
      simp [hc']
    · have : Nat.beq p'.1 p.1 = false := by
        cases h : Nat.beq p'.1 p.1 with
        | false => rfl
        | true => exact absurd (Nat.eq_of_beq_eq_true h) he
      simp [this]

theorem cls_64 {q : Reg} {c : Cls} (h : q.cls = some c) (hc : c ≠ .r64) : q.isREG 64 = false := by
  unfold Reg.cls at h
  unfold Reg.isREG
  split at h
  case h_6 => cases h
  all_goals rename_i hk; rw [hk]
  any_goals rfl
  split at h
  · rename_i h32; rw [Reg.isBit, h32]; rfl
  · split at h
    · cases h; exact absurd rfl hc
    · cases h

theorem Slot.w_eq (hg : g.Good) (ht : g.Are ps) (hK : ∀ p ∈ K, Known g p) {s : Slot} {b : Bool} (h : s.w K ps = some b) : (s.reg g).isREG 64 = b := by
  unfold Slot.w at h
  split at h
  · rename_i b' hb
    cases h
    exact Slot.is64_eq hg ht s hb
  · split at h
    · rename_i i _
      split at h
      · rename_i hc
        cases h
        rw [Bool.and_eq_true] at hc
        show (g.op i).hd.isREG 64 = false
        cases hq : g.op i with
        | mem a => exact isREG_kind (by show a.o.kind ≠ _; rw [hg.kind i a hq]; decide) _
        | reg q =>
          obtain ⟨c, hcm, hcl⟩ := poss_of hK hc.1 hq
          refine cls_64 hcl ?_
          rintro rfl
          simp [hcm] at hc
      · cases h
    · cases h

theorem SShape.w_le (hg : g.Good) (ht : g.Are ps) (hK : ∀ p ∈ K, Known g p) (sh : SShape) : OLe (sh.w K ps) (some (has64 (sh.r.reg g) (sh.op.op g))) := by
  unfold SShape.w has64
  split
  · rename_i h
    rw [Slot.w_eq hg ht hK h]; exact .inr rfl
  · rename_i x h1 h2
    rw [Slot.w_eq hg ht hK h1]
    have := Slot.w_eq hg ht hK h2
    refine .inr ?_
    rw [show (sh.op.op g).hd.isREG 64 = x from this, Bool.false_or]
    cases hm : (sh.op.op g).isMEM with
    | false => rfl
    | true =>
      rw [← this]
      cases ho : sh.op with
      | a j =>
        cases h : g.op j with
        | mem a =>
          show some ((g.op j).hd.isREG 64) = _
          rw [h, isREG_kind (by show a.o.kind ≠ _; rw [hg.kind j a h]; decide)]; rfl
        | reg q => rw [ho, show (Slot.a j).op g = g.op j from rfl, h] at hm; cases hm
      | _ => rw [ho] at hm; cases hm
  · exact .inl rfl

end

/-! ## A prefix byte in front of an instruction -/

theorem insn_pre {vs : Bool} {n : Nat} {bs t : List Byte} {h : X86.Head} {reg : BitVec 3} {rm : X86.RM} (hi : X86.insn vs n bs = some (⟨h, reg, rm⟩, t)) :
    X86.insn vs n (0x66 :: bs) = some (⟨{ h with p66 := true }, reg, rm⟩, t) ∧ X86.insn vs n (0xF3 :: bs) = some (⟨{ h with pF3 := true }, reg, rm⟩, t) := by
  have modrm66 : ∀ (h : X86.Head) l, X86.modrm { h with p66 := true } vs n l = X86.modrm h vs n l := fun _ _ => rfl
  have modrmF3 : ∀ (h : X86.Head) l, X86.modrm { h with pF3 := true } vs n l = X86.modrm h vs n l := fun _ _ => rfl
  unfold X86.insn at hi ⊢
  unfold X86.head at hi ⊢
  have p := prefixes_p66 {} bs
  have q := prefixes_pF3 {} bs
  constructor
  · simp only [X86.prefixes, if_true]
    rw [show X86.prefixes { p66 := true } bs = _ from p]
    dsimp only at hi ⊢
    rw [after_p66]
    cases hh : X86.afterPrefixes (X86.prefixes {} bs).1 (X86.prefixes {} bs).2 with
    | none => rw [hh] at hi; cases hi
    | some x =>
      rw [hh] at hi
      show (match X86.modrm { x.1 with p66 := true } vs n x.2 with | none => none | some (r, m, t) => some (X86.Insn.mk { x.1 with p66 := true } r m, t)) = _
      rw [modrm66]
      dsimp only at hi
      cases hm : X86.modrm x.1 vs n x.2 with
      | none => rw [hm] at hi; cases hi
      | some y => rw [hm] at hi; cases hi; rfl
  · simp only [X86.prefixes, if_true]
    rw [if_neg (by decide), if_neg (by decide), show X86.prefixes { pF3 := true } bs = _ from q]
    dsimp only at hi ⊢
    rw [after_pF3]
    cases hh : X86.afterPrefixes (X86.prefixes {} bs).1 (X86.prefixes {} bs).2 with
    | none => rw [hh] at hi; cases hi
    | some x =>
      rw [hh] at hi
      show (match X86.modrm { x.1 with pF3 := true } vs n x.2 with | none => none | some (r, m, t) => some (X86.Insn.mk { x.1 with pF3 := true } r m, t)) = _
      rw [modrmF3]
      dsimp only at hi
      cases hm : X86.modrm x.1 vs n x.2 with
      | none => rw [hm] at hi; cases hi
      | some y => rw [hm] at hi; cases hi; rfl

/-! ## The statement -/

/-- Conditions on the arguments.  `mem` and `mm` hold for all operands a program can make; the others leave out what the library gets wrong,
each with the theorem that shows it. -/
structure Proper (e : Entry) (g : Args) : Prop where
  /-- `c45_refuted_word` -/
  plain : Plain e g
  mem : ∀ i a, g.op i = .mem a → a.WF ∧ a.permitVsib = false ∧ a.disp8N = 0 ∧ a.e.index.kind ≠ .tmm ∧ a.immSize = 0
  mm : ∀ i q, g.op i = .reg q → q.isMMX = true → q.idx.toNat < 8
  /-- `c68_refuted_ymm` -/
  narrow : e.loose = true → Narrow g
  /-- APX registers and modifiers select other encodings -/
  apx : e.body.sseApx = true → g.NoApx
  /-- `c66_refuted_sse`, `c68_refuted_mm` -/
  hyp : ∀ p ∈ e.hyp, Known g p

/-- The instruction with these decoded parts is the form with the arguments. -/
structure HoldsS (e : Entry) (g : Args) (fill : Act → BitVec 32) (f : X86.Form) (h : X86.Head) (reg : BitVec 3) (rm : X86.RM) (imm : Option Byte) : Prop where
  form : f ∈ X86.Manual.forms e.name
  is : f.Is h reg
  length : f.en.roles.length = g.ops.length
  at_ : ∀ (i : Nat) ρ o, f.en.roles[i]? = some ρ → g.ops[i]? = some o → At fill h reg rm imm ρ o
  /-- every operand is of a class the form takes -/
  cls : ∀ (i : Nat) o, g.ops[i]? = some o → ∃ l, (X86.Manual.classes e.name f)[i]? = some l ∧ ∃ c ∈ l, o.cls = some c
  low : ∀ i q, g.op i = .reg q → q.isXMM = true → q.idx.toNat < 16
  int : .int ∈ e.params → imm = some (g.i8 0)
  noInt : .int ∉ e.params → imm = none ∨ e.name ∈ X86.pseudos
  /-- there is an immediate byte if the opcode has one -/
  ib : imm.isSome = f.ib

section
variable {g : Args} {ps : List Param} {K : List (Nat × List Cls)}

theorem SShape.isReg_op (ht : g.Are ps) {sh : SShape} (hr : ∀ j, sh.reg = some j → (g.op j).isMEM = false) {j : Nat} (h : sh.isReg ps j = true) :
    (g.op j).isMEM = false := by
  unfold SShape.isReg at h
  simp only [Bool.or_eq_true, beq_iff_eq] at h
  rcases h with h | h
  · exact Slot.not_mem ht (s := .a j) h
  · exact hr j h

theorem SShape.fits_at {sh : SShape} : ∀ {k : Nat} {rs : List X86.Role} {ls : List (List Cls)}, sh.fits K ps k rs ls = true →
    rs.length = ls.length ∧ ∀ (i : Nat) ρ l, rs[i]? = some ρ → ls[i]? = some l → sh.puts ps (k + i) ρ = true ∧ sh.takes K ps (k + i) l = true := by
  intro k rs
  induction rs generalizing k with
  | nil =>
    intro ls h
    cases ls with
    | nil => exact ⟨rfl, fun i ρ l h => by cases h⟩
    | cons a l => cases h
  | cons r rs ih =>
    intro ls h
    cases ls with
    | nil => cases h
    | cons l ls =>
      unfold SShape.fits at h
      simp only [Bool.and_eq_true] at h
      obtain ⟨h1, h2⟩ := ih h.2
      refine ⟨by rw [List.length_cons, List.length_cons, h1], fun i ρ l' hr hl => ?_⟩
      cases i with
      | zero => cases hr; cases hl; exact h.1
      | succ i =>
        have := h2 i ρ l' hr hl
        rwa [show k + 1 + i = k + (i + 1) by omega] at this

theorem SShape.takes_cls (ht : g.Are ps) (hK : ∀ p ∈ K, Known g p) {sh : SShape} (hr : ∀ j, sh.reg = some j → (g.op j).isMEM = false) {j : Nat} {l : List Cls}
    (h : sh.takes K ps j l = true) : ∃ c ∈ l, (g.op j).cls = some c := by
  unfold SShape.takes at h
  simp only [Bool.and_eq_true, Bool.or_eq_true, beq_iff_eq] at h
  cases ho : g.op j with
  | mem a =>
    rcases h.1 with h1 | h1
    · have := SShape.isReg_op ht hr h1; rw [ho] at this; cases this
    · exact ⟨.mem, by simpa using h1, rfl⟩
  | reg q =>
    rcases h.2 with h2 | h2
    · have := Slot.mem_le ht (.a j)
      rw [h2] at this
      rcases this with h | h
      · cases h
      · rw [show (Slot.a j).op g = g.op j from rfl, ho] at h; cases h
    · obtain ⟨c, hc, hcl⟩ := poss_of hK h2.1 ho
      exact ⟨c, by simpa using List.all_eq_true.mp h2.2 c hc, hcl⟩

theorem legacy_of_cls {q : Reg} {c : Cls} (hc : c ∈ [Cls.mm, .xmm, .r32, .r64]) (h : q.cls = some c) (hm : q.isMMX = true → q.idx.toNat < 8)
    (hv : isValidSSE (.reg q) = true) : LegacyReg q := by
  intro hk
  by_cases hx : q.isXMM = true
  · unfold isValidSSE Operand.hd at hv
    rw [hx] at hv
    simpa using hv
  · by_cases hmm : q.isMMX = true
    · have := hm hmm; omega
    · exfalso
      unfold Reg.cls at h
      simp only [Reg.isXMM, Reg.isMMX, beq_iff_eq] at hx hmm
      split at h <;> rename_i hk'
      · exact hmm hk'
      · exact hx hk'
      · cases h; simp at hc
      · cases h; simp at hc
      · exact hk hk'
      · cases h

end

theorem mk5_lt : ∀ a b (n : BitVec 3), (X86.mk5 a b n).toNat < 16 → X86.mk5 false b n = X86.mk5 a b n := by decide +kernel

theorem low_idx : ∀ n : BitVec 5, n.toNat < 8 → n.toNat < 16 := by intro n h; omega

section
variable {g : Args} {ps : List Param} {K : List (Nat × List Cls)}

theorem small_leg (hK : ∀ p ∈ K, Known g p) (hm : ∀ i q, g.op i = .reg q → q.isMMX = true → q.idx.toNat < 8) {i : Nat} (h : small K i = true) {q : Reg}
    (hq : g.op i = .reg q) (hv : isValidSSE (.reg q) = true) : LegacyReg q := by
  unfold small at h
  rw [Bool.and_eq_true] at h
  obtain ⟨c, hc, hcl⟩ := poss_of hK h.1 hq
  exact legacy_of_cls (by simpa using List.all_eq_true.mp h.2 c hc) hcl (hm i q hq) hv

theorem SShape.leg_reg (ht : g.Are ps) (hK : ∀ p ∈ K, Known g p) (hm : ∀ i q, g.op i = .reg q → q.isMMX = true → q.idx.toNat < 8) {sh : SShape}
    (hr : ∀ j, sh.reg = some j → (g.op j).isMEM = false) (h : sh.leg K ps = true) (hv : isValidSSE (.reg (sh.r.reg g)) = true) : LegacyReg (sh.r.reg g) := by
  unfold SShape.leg at h
  rw [Bool.and_eq_true] at h
  have h := h.1
  split at h
  · rename_i i hi
    rw [Bool.and_eq_true] at h
    obtain ⟨q, hq, hq'⟩ := op_reg (SShape.isReg_op ht hr h.1)
    have e : sh.r.reg g = q := by rw [hi]; exact hq'
    rw [e] at hv ⊢
    exact small_leg hK hm h.2 hq hv
  · rename_i hi; rw [hi]; exact fun h => absurd rfl h
  · rename_i hi; rw [hi]; exact fun h => absurd rfl h
  · rename_i i hi
    rw [hi] at hv ⊢
    intro _
    have : isValidSSE (.reg (.xmm (g.reg i).idx)) = true := hv
    show (g.reg i).idx.toNat < 16
    simpa [isValidSSE, Operand.hd, Reg.xmm, Reg.isXMM] using this
  · rename_i q hi
    rw [hi]
    simp only [Bool.or_eq_true, Bool.and_eq_true, beq_iff_eq, decide_eq_true_eq] at h
    intro hk
    rcases h.1 with h | h
    · exact absurd h hk
    · exact h
  · cases h

theorem SShape.leg_op (ht : g.Are ps) (hK : ∀ p ∈ K, Known g p) (hm : ∀ i q, g.op i = .reg q → q.isMMX = true → q.idx.toNat < 8) {sh : SShape}
    (h : sh.leg K ps = true) (hv : isValidSSE (sh.op.op g) = true) : ∃ i, sh.op = .a i ∧ ∀ q, g.op i = .reg q → LegacyReg q := by
  unfold SShape.leg at h
  rw [Bool.and_eq_true] at h
  have h := h.2
  split at h
  · rename_i i hi
    refine ⟨i, hi, fun q hq => ?_⟩
    simp only [Bool.or_eq_true, beq_iff_eq] at h
    rcases h with h | h
    · have := Slot.mem_le ht (.a i)
      rw [h] at this
      rcases this with h | h
      · cases h
      · rw [show (Slot.a i).op g = g.op i from rfl, hq] at h; cases h
    · rw [hi, show (Slot.a i).op g = g.op i from rfl, hq] at hv
      exact small_leg hK hm h hq hv
  · cases h

/-- 66 is written as the flags say. -/
theorem SShape.clean_p66 {e : Entry} (ht : g.Are e.ops) (hp : Plain e g) {sh : SShape} (h : sh.clean e = true) (hl : sh.leg K e.ops = true)
    (hs : ∀ a, sh.op.op g = .mem a → (!sh.t.has T_ALLOW_DIFF_SIZE && decide ((sh.r.reg g).bit ≤ 64) && decide (a.o.bit > 0) && a.o.bit != (sh.r.reg g).bit) = false) :
    p66of sh.t (sh.op.op g).hd (sh.r.reg g) = (sh.t.has T_66 || sh.r.is16) := by
  unfold SShape.clean at h
  split at h
  · rename_i hr
    obtain ⟨n, hn⟩ : ∃ n, sh.r = .gp16Of n := by
      cases hr' : sh.r <;> rw [hr'] at hr <;> first | exact ⟨_, rfl⟩ | cases hr
    simp only [Bool.and_eq_true, beq_iff_eq, Bool.not_eq_true'] at h
    obtain ⟨hpar, hd⟩ := h
    obtain ⟨a, ha⟩ : ∃ a, sh.op.op g = .mem a := by
      cases ho : sh.op with
      | a j =>
        rw [ho] at hpar
        have := ht j _ hpar
        cases h : g.op j with
        | mem a => exact ⟨a, h⟩
        | reg q => rw [h] at this; cases this
      | _ => rw [ho] at hpar; cases hpar
    have := hs a ha
    rw [ha]
    rw [hd, hn] at this
    rw [hn]
    show p66of sh.t a.o (.gp (g.reg n).idx 16) = _
    have this : (true && decide (16 ≤ 64) && decide (a.o.bit > 0) && a.o.bit != 16) = false := this
    have hz : a.o.bit = 0 ∨ a.o.bit = 16 := by
      simp at this
      rcases Nat.eq_zero_or_pos a.o.bit with h | h
      · exact .inl h
      · exact .inr (this h)
    unfold p66of Reg.isBit
    rw [show (Reg.gp (g.reg n).idx 16).bit = 16 from rfl]
    rcases hz with h | h <;> rw [h] <;> simp [Slot.is16]
  · rename_i hr
    rw [Bool.eq_false_iff.mpr hr, Bool.or_false]
    simp only [Bool.or_eq_true] at h
    rcases h with (h | h) | h
    · exact p66_bare (.inl h)
    · have no := hp.no16 h
      refine p66_bare (.inr ⟨?_, ?_⟩)
      · unfold SShape.leg at hl
        rw [Bool.and_eq_true] at hl
        have hl := hl.2
        split at hl
        · rename_i i hi; rw [hi]; exact no i
        · cases hl
      · unfold SShape.leg at hl
        rw [Bool.and_eq_true] at hl
        have hl := hl.1
        split at hl
        · rename_i i hi; rw [hi]; exact no i
        · rename_i hi; rw [hi] at hr; exact absurd rfl hr
        · rename_i i hi; rw [hi]; simp [Slot.reg, Slot.op, Operand.hd, Reg.gp, Reg.isBit]
        · rename_i i hi; rw [hi]; simp [Slot.reg, Slot.op, Operand.hd, Reg.xmm, Reg.isBit]
        · rename_i q hi
          rw [hi]
          rw [Bool.and_eq_true] at hl
          show q.isBit 16 = false
          simpa using hl.2
        · cases hl
    · cases hq : sh.r with
      | r q =>
        rw [hq] at h
        simp only [Slot.is96, Bool.and_eq_true, Bool.not_eq_true'] at h
        show p66of sh.t _ q = _
        unfold p66of
        rw [h.1, h.2]; simp
      | _ => rw [hq] at h; cases h

theorem withImm_means {a : Addr} {n : Option Byte} (h : a.immSize = 0) : a.withImm n = { a with immSize := optSize n } := by
  unfold Addr.withImm
  cases n with
  | none => cases a; cases h; rfl
  | some b => rfl

end

/-- A call of `opSSE` with good operands is decoded to the selector and the operands. -/
theorem opSSE_reads {r : Reg} {o : Operand} {t : Ty} {c : Byte} {imm : Option Byte} {w : List Act} (hw : (opSSE r o t c none imm).Gives w ())
    (hT : legT t c = true) (hr : LegacyReg r) (ho : OpOK o) {p : Bool} {x : Option Bool} {e : Option (BitVec 3)}
    (hp : (∀ a, o = .mem a → (!t.has T_ALLOW_DIFF_SIZE && decide (r.bit ≤ 64) && decide (a.o.bit > 0) && a.o.bit != r.bit) = false) → p66of t o.hd r = p)
    (hx : OLe x (some (has64 r o))) (he : OLe e (some (lo3 r.idx))) (fill : Act → BitVec 32) :
    ∃ h reg rm, (∀ l, X86.insn false 1 (concr fill w ++ l) = some (⟨h, reg, rm⟩, imm.toList ++ l)) ∧ (legSel t c p x e none none).Of h ∧
      OLe e (some reg) ∧ X86.regNum h reg = r.idx ∧ _root_.Xbyak.RmIs fill h rm (o.withImm (optSize imm)) ∧ (h.space = .legacy ∨ h.space = .rex2) := by
  obtain ⟨s, hs, hh, cc, t', hhd, hof, hext, -⟩ := sse_shows r o t c none imm hT hp (fun _ => hx) he (.inl rfl) (.inl rfl) w () hw fill
  rw [List.mem_singleton] at hs
  subst hs
  obtain ⟨_, w1, hw1, rfl⟩ := opSSE_iff.mp hw
  obtain ⟨h1, h2, h3⟩ := legT_opc hT r
  obtain ⟨h, reg, rm, hdec, hL, -⟩ := c34_ro r hr o ho t c true (optSize imm) (fun h => by rw [h2] at h; cases h) (by rw [h1]; exact h3) hw1 fill
  have hdec' : ∀ l, X86.insn false 1 (concr fill (w1 ++ imm.toList.map .byte) ++ l) = some (⟨h, reg, rm⟩, imm.toList ++ l) := by
    intro l
    rw [concr_opt, List.append_assoc]
    exact hdec _
  obtain ⟨c', t'', hhd', hc'⟩ := insn_head (hdec' [])
  rw [List.append_nil, hhd] at hhd'
  cases hhd'
  exact ⟨_, reg, rm, hdec', hof, hc' ▸ hext, hL.reg, hL.rm, hL.head.space⟩

/-- The same behind a prefix byte. -/
theorem SSent.reads {sh : SShape} {w : List Act} {fill : Act → BitVec 32} {imm : Option Byte} {s : Sel} {r : Reg} {o : Operand} {w' : List Act} {h : X86.Head} {reg : BitVec 3} {rm : X86.RM}
    (hpre : sh.pre = none ∨ sh.pre = some 0x66 ∨ sh.pre = some 0xF3) (hw : w = sh.pre.toList.map .byte ++ w')
    (hd : ∀ l, X86.insn false 1 (concr fill w' ++ l) = some (⟨h, reg, rm⟩, imm.toList ++ l)) (hof : s.Of h) (hn : X86.regNum h reg = r.idx)
    (hrm : _root_.Xbyak.RmIs fill h rm o) (hsp : h.space = .legacy ∨ h.space = .rex2) :
    ∃ h', (∀ l, X86.insn false 1 (concr fill w ++ l) = some (⟨h', reg, rm⟩, imm.toList ++ l)) ∧
      (match sh.pre with | some x => s.pre x | none => s).Of h' ∧ X86.regNum h' reg = r.idx ∧ _root_.Xbyak.RmIs fill h' rm o ∧ (h'.space = .legacy ∨ h'.space = .rex2) := by
  subst hw
  rcases hpre with hp | hp | hp <;> rw [hp]
  · exact ⟨h, hd, hof, hn, hrm, hsp⟩
  · refine ⟨{ h with p66 := true }, fun l => ?_, ⟨hof.sp, hof.map, hof.op, rfl, hof.pF2, hof.pF3, hof.pp, hof.w⟩, hn, ?_, hsp⟩
    · rw [concr_append, List.append_assoc]
      exact (insn_pre (hd l)).1
    · cases o <;> exact hrm
  · refine ⟨{ h with pF3 := true }, fun l => ?_, ⟨hof.sp, hof.map, hof.op, hof.p66, hof.pF2, rfl, hof.pp, hof.w⟩, hn, ?_, hsp⟩
    · rw [concr_append, List.append_assoc]
      exact (insn_pre (hd l)).2
    · cases o <;> exact hrm

/-- C68: an accepted call of an SSE or MMX function writes an instruction that the manual's rules decode to one of the forms of the mnemonic,
with every argument in its place and of a class the form takes, memory operands meaning the address given, and the integer argument as
immediate.  Partial: `Proper` leaves out operands for which this fails. -/
theorem c68_partial {e : Entry} (hv : e.ssed = true) {g : Args} {w : List Act} (hc : Calls e g w) (hp : Proper e g) (fill : Act → BitVec 32) :
    ∃ f h reg rm imm, HoldsS e g fill f h reg rm imm ∧ ∀ t, X86.insn false 1 (concr fill w ++ t) = some (⟨h, reg, rm⟩, imm.toList ++ t) := by
  have hok := List.all_eq_true.mp sseOk_check e hc.mem
  rw [hv, Bool.not_true, Bool.false_or] at hok
  unfold Entry.sseOk at hok
  simp only [Bool.and_eq_true, beq_iff_eq, Bool.or_eq_true] at hok
  obtain ⟨⟨⟨⟨hvec, hopt⟩, hall⟩, hsend⟩, hshapes⟩ := hok
  have ht := hc.fits.are
  obtain ⟨sh, hsh, hS⟩ := Entry.ssent hc ⟨hp.plain.good, fun i a h => (hp.mem i a h).2.2.2.2, hp.narrow, hp.apx⟩ hsend
  have hok := List.all_eq_true.mp hshapes sh hsh
  have hK : ∀ p ∈ sh.K e, Known g p := known_append hS.known (known_append hp.hyp (parK_of (n := 0) ht hp.narrow hp.plain.good))
  have hlen : g.ops.length = e.ops.length := by
    have a := hc.fits.1
    have b := hc.fits.2.1
    unfold Entry.ops
    rw [if_pos hopt]
    omega
  unfold SShape.ok at hok
  rw [Bool.or_eq_true] at hok
  rcases hok with hok | hok
  · obtain ⟨j, _, h⟩ := List.any_eq_true.mp hok
    simp only [Bool.and_eq_true, List.isEmpty_iff] at h
    obtain ⟨q, hq, _⟩ := op_reg (SShape.isReg_op ht hS.reg h.1.1)
    obtain ⟨c, hc, _⟩ := poss_of hK h.1.2 hq
    rw [h.2] at hc
    cases hc
  simp only [Bool.and_eq_true, Bool.or_eq_true, beq_iff_eq] at hok
  obtain ⟨⟨⟨⟨⟨hT, hleg⟩, hclean⟩, hpre⟩, himm⟩, hf⟩ := hok
  obtain ⟨f, hfm, hlaid⟩ := List.any_eq_true.mp hf
  unfold SShape.laid at hlaid
  simp only [Bool.and_eq_true, Nat.beq_eq] at hlaid
  obtain ⟨⟨⟨hmeets, hrl⟩, hfits⟩, hib⟩ := hlaid
  obtain ⟨w', hw, hcall⟩ := hS.call
  obtain ⟨⟨v1, v2⟩, -⟩ := opSSE_iff.mp hcall
  have hr := SShape.leg_reg ht hK hp.mm hS.reg hleg v1
  obtain ⟨k, hk, hkl⟩ := SShape.leg_op ht hK hp.mm hleg v2
  have hop : sh.op.op g = g.op k := by rw [hk]; rfl
  have ho : OpOK (sh.op.op g) := by
    rw [hop]
    cases h : g.op k with
    | reg q => exact hkl q h
    | mem a => obtain ⟨m1, m2, m3, m4, _⟩ := hp.mem k a h; exact ⟨m1, m2, m3, m4⟩
  obtain ⟨h, reg, rm, hd, hof, hext, hn, hrm, hsp⟩ := opSSE_reads hcall hT hr ho (SShape.clean_p66 ht hp.plain hclean hleg)
    (SShape.w_le hp.plain.good ht hK sh) (Slot.num_le g sh.r) fill
  obtain ⟨h', hd', hof', hn', hrm', hsp'⟩ := SSent.reads (by rcases hpre with (h | h) | h <;> simp [h]) hw hd hof hn hrm hsp
  have hext' : OLe (sh.sel (sh.K e) e.ops).ext (some reg) := by
    unfold SShape.sel
    rcases hpre with (h | h) | h <;> rw [h] <;> exact hext
  have hIs := Sel.meets_is hmeets hof' hext'
  obtain ⟨hl1, hl2⟩ := SShape.fits_at hfits
  simp only [Nat.zero_add] at hl2
  have low : ∀ i q, g.op i = .reg q → q.isXMM = true → q.idx.toNat < 16 := by
    intro i q hq hx
    apply Nat.lt_of_not_ge
    intro hge
    have h4 : e.is4 i = false := by
      cases h : e.is4 i with
      | false => rfl
      | true =>
        obtain ⟨l, hl, h⟩ := List.any_eq_true.mp h
        have := List.all_eq_true.mp hall l hl
        revert h this
        cases l <;> first | (intro h; cases h) | (intro _ h; cases h)
    obtain ⟨x, t, hh, hsp⟩ := c42_xmm_partial hvec hc hq hx hge h4 fill
    obtain ⟨c', t'', hhd', hc'⟩ := insn_head (hd' [])
    rw [List.append_nil, hh] at hhd'
    cases hhd'
    rcases hsp' with h | h <;> rw [hsp] at h <;> cases h
  have argAt : ∀ (i : Nat) o, g.ops[i]? = some o → o = g.op i := by
    intro i o h
    show o = (g.ops[i]?).getD _
    rw [h]; rfl
  refine ⟨f, h', reg, rm, sh.imm.val g, ⟨hfm, hIs, hrl.trans hlen.symm, ?_, ?_, low, ?_, ?_, (Imm.any_val _ g).trans (eq_of_beq hib)⟩, hd'⟩
  · intro i ρ o hρ ho
    have hi : i < (X86.Manual.classes e.name f).length := by
      rw [← hl1]; exact (List.getElem?_eq_some_iff.mp hρ).1
    have hP := (hl2 i ρ _ hρ (List.getElem?_eq_getElem hi)).1
    rw [argAt i o ho]
    cases ρ with
    | reg =>
      simp only [SShape.puts, Bool.and_eq_true, beq_iff_eq] at hP
      obtain ⟨q, hq, hq'⟩ := op_reg (SShape.isReg_op ht hS.reg hP.2)
      rw [hq]
      show X86.regNum h' reg = q.idx
      rw [hn', Slot.src_idx hP.1, hq']
    | rm =>
      have hP : sh.op = .a i := by simpa [SShape.puts] using hP
      rw [hP] at hrm'
      have hrm' : _root_.Xbyak.RmIs fill h' rm ((g.op i).withImm (optSize (sh.imm.val g))) := hrm'
      cases hq : g.op i with
      | reg q =>
        rw [hq] at hrm'
        obtain ⟨lo, h1, h2⟩ := hrm'
        refine ⟨lo, h1, ?_⟩
        split
        · rename_i hsimd
          have hlt : q.idx.toNat < 16 := by
            rw [hk] at hP
            cases hP
            refine hkl q hq ?_
            intro hk'
            simp [Reg.isSIMD, Reg.isXMM, Reg.isYMM, Reg.isZMM, hk'] at hsimd
          rw [← h2]
          rw [← h2] at hlt
          have : (h'.space == .evex && h'.x3) = false := by
            rcases hsp' with h | h <;> rw [h] <;> rfl
          unfold X86.rmVec X86.rmGpr
          rw [this]
          exact mk5_lt _ _ _ hlt
        · exact h2
      | mem a =>
        rw [hq] at hrm'
        obtain ⟨m, h1, h2⟩ := hrm'
        refine ⟨m, h1, ?_⟩
        rw [withImm_means (hp.mem i a hq).2.2.2.2]
        exact h2
    | vvvv => cases hP
    | is4 => cases hP
  · intro i o ho
    have hi : i < f.en.roles.length := by
      rw [hrl, ← hlen]; exact (List.getElem?_eq_some_iff.mp ho).1
    have hi' : i < (X86.Manual.classes e.name f).length := by rw [← hl1]; exact hi
    have hP := (hl2 i _ _ (List.getElem?_eq_getElem hi) (List.getElem?_eq_getElem hi')).2
    rw [argAt i o ho]
    exact ⟨_, List.getElem?_eq_getElem hi', SShape.takes_cls ht hK hS.reg hP⟩
  · intro h
    unfold SShape.immOk at himm
    rw [if_pos (by simpa using h)] at himm
    rw [show sh.imm = .i 0 by simpa using himm]; rfl
  · intro h
    unfold SShape.immOk at himm
    rw [if_neg (by simpa using h)] at himm
    simp only [Bool.or_eq_true, beq_iff_eq, Bool.and_eq_true] at himm
    rcases himm with h | h
    · rw [h]; exact .inl rfl
    · right
      obtain ⟨n, hn, he⟩ := List.any_eq_true.mp h.1
      rw [Nat.beq_eq] at he
      exact he ▸ hn

/-! ## Accepted calls that no form of the manual describes -/

private def rax0 : Operand := .mem { o := { idx := 0, ext8 := false, kind := .mem, bit := 0 }, e := { base := .gp 0 64, index := .nil, scale := 0, disp := 0 } }

/-- Bug: functions that do not check the kind of an `Xmm` or `Mmx` argument accept ymm and zmm registers.  `movapd([rax], ymm1)` (684) and
`movntps([rax], ymm1)` (712) store xmm1, `movapd([rax], ymm17)` does too; `psllw(ymm1, 3)` (871) shifts mm1 and `movq(ymm1, ymm2)` (715) moves mm2. -/
theorem c68_refuted_ymm :
    Confused n!"movapd" n!"movapd" { ops := [rax0, .reg (.ymm 1)] } { ops := [rax0, .reg (.xmm 1)] } ∧
    Confused n!"movapd" n!"movapd" { ops := [rax0, .reg (.ymm 17)] } { ops := [rax0, .reg (.xmm 1)] } ∧
    Confused n!"movntps" n!"movntps" { ops := [rax0, .reg (.ymm 1)] } { ops := [rax0, .reg (.xmm 1)] } ∧
    Confused n!"psllw" n!"psllw" { ops := [.reg (.ymm 1)], ints := [3] } { ops := [.reg (.mm 1)], ints := [3] } ∧
    Confused n!"movq" n!"movq" { ops := [.reg (.ymm 1), .reg (.ymm 2)] } { ops := [.reg (.mm 1), .reg (.mm 2)] } :=
  ⟨confused_of (l := 684) (l' := 684) (w := [0x66, 0x0F, 0x29, 0x08].map .byte) (by decide +kernel) (by decide +kernel),
   confused_of (l := 684) (l' := 684) (w := [0x66, 0x0F, 0x29, 0x08].map .byte) (by decide +kernel) (by decide +kernel),
   confused_of (l := 712) (l' := 712) (w := [0x0F, 0x2B, 0x08].map .byte) (by decide +kernel) (by decide +kernel),
   confused_of (l := 871) (l' := 871) (w := [0x0F, 0x71, 0xF1, 3].map .byte) (by decide +kernel) (by decide +kernel),
   confused_of (l := 715) (l' := 715) (w := [0x0F, 0x6F, 0xCA].map .byte) (by decide +kernel) (by decide +kernel)⟩

/-- Bug: `Xmm` is derived from `Mmx`, and instructions that exist for mm registers only accept xmm registers: `maskmovq` (672), `movdq2q` (695),
`movq2dq` (716) and `pshufw` (861) write the same for xmm1 and mm1. -/
theorem c68_refuted_mm :
    Confused n!"maskmovq" n!"maskmovq" { ops := [.reg (.xmm 1), .reg (.xmm 2)] } { ops := [.reg (.mm 1), .reg (.mm 2)] } ∧
    Confused n!"movdq2q" n!"movdq2q" { ops := [.reg (.xmm 1), .reg (.xmm 2)] } { ops := [.reg (.mm 1), .reg (.xmm 2)] } ∧
    Confused n!"movq2dq" n!"movq2dq" { ops := [.reg (.xmm 1), .reg (.xmm 2)] } { ops := [.reg (.xmm 1), .reg (.mm 2)] } ∧
    Confused n!"pshufw" n!"pshufw" { ops := [.reg (.xmm 1), .reg (.xmm 2)], ints := [3] } { ops := [.reg (.mm 1), .reg (.mm 2)], ints := [3] } :=
  ⟨confused_of (l := 672) (l' := 672) (w := [0x0F, 0xF7, 0xCA].map .byte) (by decide +kernel) (by decide +kernel),
   confused_of (l := 695) (l' := 695) (w := [0xF2, 0x0F, 0xD6, 0xCA].map .byte) (by decide +kernel) (by decide +kernel),
   confused_of (l := 716) (l' := 716) (w := [0xF3, 0x0F, 0xD6, 0xCA].map .byte) (by decide +kernel) (by decide +kernel),
   confused_of (l := 861) (l' := 861) (w := [0x0F, 0x70, 0xCA, 3].map .byte) (by decide +kernel) (by decide +kernel)⟩

/-! ## Examples -/

/-- `pextrw(r10d, xmm9, 5)` (800) is read as the form with the general register in ModRM.reg and the xmm register in ModRM.rm. -/
example : Reads 800 { ops := [.reg (.gp 10 32), .reg (.xmm 9)], ints := [5] } fun f h reg rm =>
    f.en.roles == [.reg, .rm] && X86.regNum h reg == 10 && rm == .reg 1 && h.b3 && X86.Manual.classes n!"pextrw" f == [[.r32, .r64], [.xmm]] := reads_of (by decide +kernel)

/-- A call that `c68_partial` speaks about: `palignr(xmm9, xmm2, 5)` (771). -/
example : ∃ e w, e.name = n!"palignr" ∧ e.ssed = true ∧ Calls e { ops := [.reg (.xmm 9), .reg (.xmm 2)], ints := [5] } w ∧
    Proper e { ops := [.reg (.xmm 9), .reg (.xmm 2)], ints := [5] } := by
  let g : Args := { ops := [.reg (.xmm 9), .reg (.xmm 2)], ints := [5] }
  have key : ((all.filter fun e => Nat.beq e.line 771).all fun e => e.ssed && !e.loose && !e.body.sseApx) = true := by decide +kernel
  have hop : ∀ i, ∃ q, g.op i = .reg q ∧ q.kind ≠ .reg ∧ q.isMMX = false ∧ q.isBit 16 = false := by
    intro i
    match i with
    | 0 => exact ⟨_, rfl, by decide, by decide, by decide⟩
    | 1 => exact ⟨_, rfl, by decide, by decide, by decide⟩
    | i + 2 => exact ⟨.nil, rfl, by decide, by decide, by decide⟩
  obtain ⟨e, hl, hn, hc⟩ := callAt_line (show callAt 771 g = some (n!"palignr", [0x66, 0x44, 0x0F, 0x3A, 0x0F, 0xCA, 5].map .byte) by decide +kernel)
  have hk := List.all_eq_true.mp key e (List.mem_filter.mpr ⟨hc.1, by rw [hl]; rfl⟩)
  simp only [Bool.and_eq_true, Bool.not_eq_true', and_assoc] at hk
  obtain ⟨k1, k2, k3⟩ := hk
  have noMem : ∀ i a, g.op i ≠ .mem a := by intro i a h; obtain ⟨q, hq, _⟩ := hop i; rw [hq] at h; cases h
  refine ⟨e, _, hn, k1, hc, ⟨⟨fun i a h => absurd h (noMem i a), fun i a h => absurd h (noMem i a), ?_⟩, ?_⟩, fun i a h => absurd h (noMem i a), ?_, ?_, ?_, ?_⟩
  · intro i r h hk'; obtain ⟨q, hq, h1, _⟩ := hop i; rw [show g.op i = .reg r from h] at hq; cases hq; exact absurd hk' h1
  · intro _ i; obtain ⟨q, hq, _, _, h1⟩ := hop i; show (g.op i).isBit 16 = false; rw [hq]; exact h1
  · intro i r h hk'; obtain ⟨q, hq, _, h1, _⟩ := hop i; rw [show g.op i = .reg r from h] at hq; cases hq; rw [h1] at hk'; cases hk'
  · intro h; rw [k2] at h; cases h
  · intro h; rw [k3] at h; cases h
  · intro p hp
    unfold Entry.hyp at hp
    rw [hl] at hp
    cases hp

end Mn
end Xbyak
