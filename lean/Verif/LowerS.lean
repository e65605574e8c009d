import Verif.Props.Roles
import Verif.Spec.Kinds
/-!
# From the SSE helpers to `opSSE`

Every call of the SSE and MMX helpers ends in what `opSSE` writes, perhaps after a prefix byte.  `Entry.sshapes` says which operands that
call gets and what is known about their kinds; `Entry.ssent` proves it.
-/
namespace Xbyak
open X86 (Cls)

/-- The class of a register. -/
def Reg.cls (q : Reg) : Option Cls :=
  match q.kind with
  | .mmx => some .mm
  | .xmm => some .xmm
  | .ymm => some .ymm
  | .zmm => some .zmm
  | .reg => if q.bit = 32 then some .r32 else if q.bit = 64 then some .r64 else none
  | _ => none

/-- The class of an operand. -/
def Operand.cls : Operand → Option Cls
  | .reg q => q.cls
  | .mem _ => some .mem

namespace Mn
open E

/-- A call of `opSSE` without operand check: ModRM.reg, ModRM.rm, flags, opcode, immediate, the prefix byte written before it, and the
possible classes of the arguments that are registers, and arguments that are registers. -/
structure SShape where
  r : Slot
  op : Slot
  t : Ty
  c : Byte
  imm : Imm := .none
  pre : Option Byte := none
  known : List (Nat × List Cls) := []
  reg : Option Nat := none

/-- If the argument is a register, it is of one of the classes. -/
def Known (g : Args) (p : Nat × List Cls) : Prop := ∀ q, g.op p.1 = .reg q → ∃ c ∈ p.2, q.cls = some c

/-- What was written is a call of this shape. -/
structure SSent (g : Args) (sh : SShape) (w : List Act) : Prop where
  call : ∃ w', w = sh.pre.toList.map .byte ++ w' ∧ (opSSE (sh.r.reg g) (sh.op.op g) sh.t sh.c none (sh.imm.val g)).Gives w' ()
  known : ∀ p ∈ sh.known, Known g p
  reg : ∀ j, sh.reg = some j → (g.op j).isMEM = false

def Slot.k (s : Slot) (l : List Cls) : List (Nat × List Cls) :=
  match s with
  | .a i => [(i, l)]
  | _ => []

/-- What a passed check says about the operands. -/
def Valid.known (v : Valid) (r op : Slot) : List (Nat × List Cls) :=
  match v with
  | .any => []
  | .xmm_xmm => r.k [.xmm] ++ op.k [.xmm]
  | .mmx_xmm => r.k [.mm] ++ op.k [.xmm]
  | .xmm_mmx => r.k [.xmm] ++ op.k [.mm]
  | .xmm_r32 => r.k [.xmm] ++ op.k [.r32, .r64]
  | .r32_xmm => r.k [.r32, .r64] ++ op.k [.xmm]
  | .r32_r32 => r.k [.r32, .r64] ++ op.k [.r32, .r64]

def Leaf.sshapes : Leaf → List SShape
  | sse r op t c v i => [{ r := r, op := op, t := t, c := c, imm := i, known := v.known r op }]
  | sseApx r op t c _ _ i => [{ r := r, op := op, t := t, c := c, imm := i, known := Valid.known .xmm_xmm r op }]
  | mmx r op c t p i => [{ r := r, op := op, t := t, c := c, imm := i, known := r.k [.mm] ++ op.k [.mm] },
      { r := r, op := op, t := t ||| p, c := c, imm := i, known := r.k [.xmm] ++ op.k [.xmm] }]
  | mmxImm r n c e => [{ r := .r (.gp e 32), op := r, t := T_0F, c := c, imm := .i n, known := r.k [.mm] },
      { r := .r (.gp e 32), op := r, t := T_0F ||| T_66, c := c, imm := .i n, known := r.k [.xmm] }]
  | movXmm a b t c => [{ r := a, op := b, t := t, c := c, known := a.k [.xmm] ++ b.k [], reg := a.src },
      { r := b, op := a, t := t, c := c ||| 1, known := b.k [.xmm] ++ a.k [], reg := b.src }]
  | ext o r c n m => (if m then [{ r := o, op := r, t := T_0F, c := 0xC5, imm := .i n, known := o.k [.r32, .r64] ++ r.k [.mm], reg := o.src },
      { r := o, op := r, t := T_0F, c := 0xC5, imm := .i n, pre := some 0x66, known := o.k [.r32, .r64] ++ r.k [.xmm], reg := o.src }] else []) ++
      [{ r := r, op := o, t := T_66 ||| T_0F3A, c := c, imm := .i n, known := Valid.known .xmm_r32 r o ++ if m then o.k [] else [] }]
  | _ => []

/-- The helper lets ymm and zmm registers pass. -/
def Leaf.loose : Leaf → Bool
  | sse _ _ _ _ v _ => v == .any
  | mmxImm .. => true
  | ext _ _ _ _ m => m
  | _ => false

def Entry.loose (e : Entry) : Bool := e.body.leaves.any Leaf.loose

/-- The calls of an SSE function. -/
def Entry.sshapes (e : Entry) : List SShape :=
  if e.line = 690 then [{ r := .a 0, op := .a 1, t := fl [T_0F, T_ALLOW_DIFF_SIZE], c := 0x6E, pre := some 0x66, known := [(0, [.xmm]), (1, [.r32])] },
    { r := .a 0, op := .a 1, t := fl [T_0F, T_ALLOW_DIFF_SIZE], c := 0x6E, known := [(0, [.mm]), (1, [.r32])] }]
  else if e.line = 691 then [{ r := .a 1, op := .a 0, t := fl [T_0F, T_ALLOW_DIFF_SIZE], c := 0x7E, pre := some 0x66, known := [(1, [.xmm]), (0, [.r32])] },
    { r := .a 1, op := .a 0, t := fl [T_0F, T_ALLOW_DIFF_SIZE], c := 0x7E, known := [(1, [.mm]), (0, [.r32])] }]
  else if e.line = 706 then [{ r := .a 0, op := .a 1, t := T_0F, c := 0x50, pre := some 0x66 }]
  else if e.line = 713 then [{ r := .a 1, op := .a 0, t := T_0F, c := 0xE7, known := [(1, [.mm])] }]
  else if e.line = 714 then [{ r := .a 1, op := .a 0, t := fl [T_0F, T_ALLOW_DIFF_SIZE], c := 0xD6, pre := some 0x66, known := [(1, [.xmm])] },
    { r := .a 1, op := .a 0, t := fl [T_0F, T_ALLOW_DIFF_SIZE], c := 0x7F, known := [(1, [.mm])] }]
  else if e.line = 715 then [{ r := .a 0, op := .a 1, t := fl [T_0F, T_ALLOW_DIFF_SIZE], c := 0x7E, pre := some 0xF3, known := [(0, [.xmm]), (1, [.xmm])] },
    { r := .a 0, op := .a 1, t := fl [T_0F, T_ALLOW_DIFF_SIZE], c := 0x6F, known := [(0, [.mm]), (1, [.mm])] }]
  else if e.line = 810 then [{ r := .a 0, op := .a 1, t := fl [T_0F, T_66], c := 0xC4, imm := .i 0, known := [(0, [.xmm]), (1, [.r32])] },
    { r := .a 0, op := .a 1, t := T_0F, c := 0xC4, imm := .i 0, known := [(0, [.mm]), (1, [.r32])] }]
  else if e.line = 825 then [{ r := .a 0, op := .a 1, t := T_0F, c := 0xD7, pre := some 0x66, known := [(1, [.xmm])] },
    { r := .a 0, op := .a 1, t := T_0F, c := 0xD7, known := [(1, [.mm])] }]
  else if e.line = 1879 then [{ r := .a 1, op := .a 0, t := T_0F, c := 0x7E, pre := some 0x66, known := [(1, [.xmm])] },
    { r := .a 1, op := .a 0, t := T_0F, c := 0x7E, known := [(1, [.mm])] }]
  else if e.line = 1880 then [{ r := .a 0, op := .a 1, t := T_0F, c := 0x6E, pre := some 0x66, known := [(0, [.xmm])] },
    { r := .a 0, op := .a 1, t := T_0F, c := 0x6E, known := [(0, [.mm])] }]
  else if e.line = 1882 then [{ r := .gp64Of 1, op := .a 0, t := fl [T_66, T_0F3A], c := 0x16, imm := .i 0, known := [(0, [.r64])] }]
  else if e.line = 1883 then [{ r := .gp64Of 0, op := .a 1, t := fl [T_66, T_0F3A], c := 0x22, imm := .i 0, known := [(1, [.r64])] }]
  else e.body.leaves.flatMap Leaf.sshapes

variable {g : Args} {ps : List Param} {w : List Act}

/-! ## Classes -/

theorem cls_xmm {q : Reg} (h : q.isXMM = true) : ∃ c ∈ [Cls.xmm], q.cls = some c := by
  refine ⟨_, List.mem_singleton.mpr rfl, ?_⟩
  simp only [Reg.isXMM, beq_iff_eq] at h
  simp [Reg.cls, h]

theorem cls_mm {q : Reg} (h : q.isMMX = true) : ∃ c ∈ [Cls.mm], q.cls = some c := by
  refine ⟨_, List.mem_singleton.mpr rfl, ?_⟩
  simp only [Reg.isMMX, beq_iff_eq] at h
  simp [Reg.cls, h]

theorem cls_r (hg : g.Good) {i : Nat} {q : Reg} (hq : g.op i = .reg q) (h : q.isREG 96 = true) : ∃ c ∈ [Cls.r32, .r64], q.cls = some c := by
  simp only [Reg.isREG, Bool.and_eq_true, beq_iff_eq, Bool.or_eq_true] at h
  obtain ⟨hk, hb⟩ := h
  rcases hg.size i q hq hk with hs | hs | hs | hs
  · exfalso; revert hb; simp [Reg.isBit, hs]
  · exfalso; revert hb; simp [Reg.isBit, hs]
  · exact ⟨.r32, by simp, by simp [Reg.cls, hk, hs]⟩
  · exact ⟨.r64, by simp, by simp [Reg.cls, hk, hs]⟩

theorem cls_r32 (hg : g.Good) {i : Nat} {q : Reg} (hq : g.op i = .reg q) (h : q.isREG 32 = true) : ∃ c ∈ [Cls.r32], q.cls = some c := by
  simp only [Reg.isREG, Bool.and_eq_true, beq_iff_eq, Bool.or_eq_true] at h
  obtain ⟨hk, hb⟩ := h
  rcases hg.size i q hq hk with hs | hs | hs | hs
  · exfalso; revert hb; simp [Reg.isBit, hs]
  · exfalso; revert hb; simp [Reg.isBit, hs]
  · exact ⟨.r32, by simp, by simp [Reg.cls, hk, hs]⟩
  · exfalso; revert hb; simp [Reg.isBit, hs]

theorem cls_r64 (hg : g.Good) {i : Nat} {q : Reg} (hq : g.op i = .reg q) (h : q.isREG 64 = true) : ∃ c ∈ [Cls.r64], q.cls = some c := by
  simp only [Reg.isREG, Bool.and_eq_true, beq_iff_eq, Bool.or_eq_true] at h
  obtain ⟨hk, hb⟩ := h
  rcases hg.size i q hq hk with hs | hs | hs | hs
  · exfalso; revert hb; simp [Reg.isBit, hs]
  · exfalso; revert hb; simp [Reg.isBit, hs]
  · exfalso; revert hb; simp [Reg.isBit, hs]
  · exact ⟨.r64, by simp, by simp [Reg.cls, hk, hs]⟩

theorem known_nil {p : Nat × List Cls} (h : p ∈ ([] : List (Nat × List Cls))) : Known g p := by cases h

theorem known_k {s : Slot} {l : List Cls} (h : ∀ i q, s = .a i → g.op i = .reg q → ∃ c ∈ l, q.cls = some c) : ∀ p ∈ s.k l, Known g p := by
  intro p hp q hq
  cases s with
  | a i => rw [show Slot.k (.a i) l = [(i, l)] from rfl, List.mem_singleton] at hp; subst hp; exact h i q rfl hq
  | _ => cases hp

theorem known_append {l l' : List (Nat × List Cls)} (h : ∀ p ∈ l, Known g p) (h' : ∀ p ∈ l', Known g p) : ∀ p ∈ l ++ l', Known g p := by
  intro p hp
  rcases List.mem_append.mp hp with hp | hp
  · exact h p hp
  · exact h' p hp

/-- The operand in a slot that is an argument. -/
theorem slot_reg {s : Slot} {i : Nat} {q : Reg} (hs : s = .a i) (hq : g.op i = .reg q) : s.reg g = q ∧ s.op g = .reg q := by
  subst hs
  exact ⟨by show (g.op i).hd = q; rw [hq]; rfl, hq⟩

theorem Valid.known_of (hg : g.Good) {v : Valid} {r op : Slot} (h : ∀ f, v.fn = some f → f (.reg (r.reg g)) (op.op g) = true) :
    ∀ p ∈ v.known r op, Known g p := by
  cases v with
  | any => intro p hp; cases hp
  | xmm_xmm =>
    have h := h _ rfl
    simp only [isXMM_XMMorMEM, Operand.hd, Bool.and_eq_true, Bool.or_eq_true] at h
    refine known_append (known_k fun i q hs hq => ?_) (known_k fun i q hs hq => ?_)
    · obtain ⟨h1, h2⟩ := slot_reg hs hq; rw [h1] at h; exact cls_xmm h.1
    · obtain ⟨h1, h2⟩ := slot_reg hs hq; rw [h2] at h; simp only [Operand.isMEM, Bool.false_eq_true, or_false] at h; exact cls_xmm h.2
  | mmx_xmm =>
    have h := h _ rfl
    simp only [isMMX_XMMorMEM, Operand.hd, Bool.and_eq_true, Bool.or_eq_true] at h
    refine known_append (known_k fun i q hs hq => ?_) (known_k fun i q hs hq => ?_)
    · obtain ⟨h1, h2⟩ := slot_reg hs hq; rw [h1] at h; exact cls_mm h.1
    · obtain ⟨h1, h2⟩ := slot_reg hs hq; rw [h2] at h; simp only [Operand.isMEM, Bool.false_eq_true, or_false] at h; exact cls_xmm h.2
  | xmm_mmx =>
    have h := h _ rfl
    simp only [isXMM_MMXorMEM, Operand.hd, Bool.and_eq_true, Bool.or_eq_true] at h
    refine known_append (known_k fun i q hs hq => ?_) (known_k fun i q hs hq => ?_)
    · obtain ⟨h1, h2⟩ := slot_reg hs hq; rw [h1] at h; exact cls_xmm h.1
    · obtain ⟨h1, h2⟩ := slot_reg hs hq; rw [h2] at h; simp only [Operand.isMEM, Bool.false_eq_true, or_false] at h; exact cls_mm h.2
  | xmm_r32 =>
    have h := h _ rfl
    simp only [isXMM_REG32orMEM, Operand.hd, Bool.and_eq_true, Bool.or_eq_true] at h
    refine known_append (known_k fun i q hs hq => ?_) (known_k fun i q hs hq => ?_)
    · obtain ⟨h1, h2⟩ := slot_reg hs hq; rw [h1] at h; exact cls_xmm h.1
    · obtain ⟨h1, h2⟩ := slot_reg hs hq; rw [h2] at h; simp only [Operand.isMEM, Bool.false_eq_true, or_false] at h; exact cls_r hg hq h.2
  | r32_xmm =>
    have h := h _ rfl
    simp only [isREG32_XMMorMEM, Operand.hd, Bool.and_eq_true, Bool.or_eq_true] at h
    refine known_append (known_k fun i q hs hq => ?_) (known_k fun i q hs hq => ?_)
    · obtain ⟨h1, h2⟩ := slot_reg hs hq; rw [h1] at h; exact cls_r hg hq h.1
    · obtain ⟨h1, h2⟩ := slot_reg hs hq; rw [h2] at h; simp only [Operand.isMEM, Bool.false_eq_true, or_false] at h; exact cls_xmm h.2
  | r32_r32 =>
    have h := h _ rfl
    simp only [isREG32_REG32orMEM, Bool.and_eq_true, Bool.or_eq_true] at h
    refine known_append (known_k fun i q hs hq => ?_) (known_k fun i q hs hq => ?_)
    · obtain ⟨h1, h2⟩ := slot_reg hs hq; rw [h1] at h; exact cls_r hg hq h.1
    · obtain ⟨h1, h2⟩ := slot_reg hs hq; rw [h2] at h; simp only [Operand.isMEM, Bool.false_eq_true, or_false] at h; exact cls_r hg hq h.2.1

/-! ## The helpers -/

theorem opSSE_none {r : Reg} {o : Operand} {t : Ty} {c : Byte} {v : Option (Operand → Operand → Bool)} {i : Option Byte}
    (hw : (opSSE r o t c v i).Gives w ()) : (∀ f, v = some f → f (.reg r) o = true) ∧ (opSSE r o t c none i).Gives w () := by
  unfold opSSE at hw ⊢
  rw [Enc.throwIf_bind] at hw ⊢
  refine ⟨?_, rfl, hw.2⟩
  rintro f rfl
  simpa using hw.1

theorem opSSE_iff {r : Reg} {o : Operand} {t : Ty} {c : Byte} {i : Option Byte} : (opSSE r o t c none i).Gives w () ↔
    (isValidSSE (.reg r) = true ∧ isValidSSE o = true) ∧ ∃ w1, (opRO r o t c true (optSize i)).Gives w1 () ∧ w = w1 ++ i.toList.map .byte := by
  unfold opSSE
  rw [Enc.throwIf_bind, Enc.throwIf_bind]
  simp only [Enc.gives_bind, gives_dbOpt, Bool.or_eq_false_iff, Bool.not_eq_false', true_and]
  refine and_congr_right fun _ => ⟨?_, ?_⟩
  · rintro ⟨w1, _, w2, h1, h2, h3⟩; subst h2; exact ⟨w1, h1, h3⟩
  · rintro ⟨w1, h1, h2⟩; exact ⟨w1, (), _, h1, rfl, h2⟩

theorem opRO_reg {r q : Reg} {t : Ty} {c : Byte} {n : Nat} (h : (opRR r q t c).Gives w ()) : (opRO r (.reg q) t c true n).Gives w () := by
  show (Enc.throwIf (!true) .BAD_COMBINATION >>= fun _ => opRR r q t c).Gives w ()
  rw [Enc.throwIf_bind]; exact ⟨rfl, h⟩

theorem opRO_mem {r : Reg} {a : Addr} {t : Ty} {c : Byte} (hi : a.immSize = 0) (h : (opMR a r t c).Gives w ()) :
    (opRO r (.mem a) t c true (optSize none)).Gives w () := by
  have : ({ a with immSize := 0 } : Addr) = a := by cases a; simp_all
  show (opMR { a with immSize := 0 } r t c).Gives w ()
  rw [this]; exact h

/-- No ymm or zmm register. -/
def Narrow (g : Args) : Prop := ∀ i q, g.op i = .reg q → q.isYMM = false ∧ q.isZMM = false

/-- What `Leaf.ssent` needs to know about a call. -/
def Leaf.sends' (ps : List Param) : Leaf → Bool
  | sse .. | mmx .. => true
  | sseApx _ o .. => o.isArg
  | mmxImm r .. => r.par ps == some .mmx || r.par ps == some .xmm
  | movXmm a b _ _ => a.isArg && b.isArg
  | ext o r _ _ m => !m || (o.isArg && r.par ps == some .mmx)
  | _ => false

theorem Slot.isArg_eq {s : Slot} (h : s.isArg = true) : ∃ i, s = .a i := by
  cases s <;> first | exact ⟨_, rfl⟩ | cases h

theorem mmx_cls (hn : Narrow g) {i : Nat} {q : Reg} (hq : g.op i = .reg q) {p : Param} (hp : p = .mmx ∨ p = .xmm) (ht : p.takes (g.op i) = true)
    (hx : q.isXMM = false) : ∃ c ∈ [Cls.mm], q.cls = some c := by
  apply cls_mm
  obtain ⟨h1, h2⟩ := hn i q hq
  rw [hq] at ht
  rcases hp with rfl | rfl
  · simpa [Param.takes, Operand.isMEM, Operand.hd, Reg.isSIMD, h1, h2, hx] using ht
  · simp [Param.takes, Operand.isMEM, Operand.hd, Reg.isSIMD, h1, h2, hx] at ht

theorem Slot.par_reg (ht : g.Are ps) {s : Slot} (h : s.par ps = some .mmx ∨ s.par ps = some .xmm) :
    ∃ i q, s = .a i ∧ g.op i = .reg q ∧ s.reg g = q ∧ s.op g = .reg q ∧ (Param.mmx.takes (g.op i) = true ∨ Param.xmm.takes (g.op i) = true) := by
  cases s with
  | a i =>
    have : (g.op i).isMEM = false ∧ (Param.mmx.takes (g.op i) = true ∨ Param.xmm.takes (g.op i) = true) := by
      rcases h with h | h
      · have := ht i _ h; exact ⟨Param.takes_reg this (by decide) (by decide), .inl this⟩
      · have := ht i _ h; exact ⟨Param.takes_reg this (by decide) (by decide), .inr this⟩
    obtain ⟨q, hq, hq'⟩ := op_reg this.1
    exact ⟨i, q, rfl, hq, hq', hq, this.2⟩
  | _ => rcases h with h | h <;> cases h

/-- A call of a helper is a call of `opSSE`. -/
theorem Leaf.ssent (hg : g.Good) (hi : ∀ i a, g.op i = .mem a → a.immSize = 0) (ht : g.Are ps) {l : Leaf} (hs : l.sends' ps = true) (hl : l.loose = true → Narrow g)
    (ha : (∃ x o t c t2 c2 i, l = .sseApx x o t c t2 c2 i) → g.NoApx) (hw : (l.run g).Gives w ()) : ∃ sh ∈ l.sshapes, SSent g sh w := by
  cases l with
  | sse r op t c v i =>
    obtain ⟨h1, h2⟩ := opSSE_none hw
    exact ⟨_, List.mem_singleton.mpr rfl, ⟨w, rfl, h2⟩, Valid.known_of hg h1, fun _ h => by cases h⟩
  | sseApx x op t c t2 c2 i =>
    replace hw : (opSSE_APX (x.reg g) (op.op g) t c t2 c2 (i.val g)).Gives w () := hw
    unfold opSSE_APX at hw
    have : (decide ((x.reg g).idx.toNat ≤ 15) && (op.op g).hasRex2) = false := by
      have hn := ha ⟨_, _, _, _, _, _, _, rfl⟩
      rw [Bool.and_eq_false_iff]
      right
      obtain ⟨j, rfl⟩ := Slot.isArg_eq (show op.isArg = true from hs)
      have := hn j
      unfold Operand.hasRex2NFZU at this
      simp only [Bool.or_eq_false_iff] at this
      exact this.1.1
    rw [this, if_neg (by decide), Enc.pure_bind] at hw
    dsimp only at hw
    rw [if_neg (by decide)] at hw
    obtain ⟨h1, h2⟩ := opSSE_none hw
    exact ⟨_, List.mem_singleton.mpr rfl, ⟨w, rfl, h2⟩, Valid.known_of hg (v := .xmm_xmm) h1, fun _ h => by cases h⟩
  | mmx r op c t p i =>
    obtain ⟨h1, h2⟩ := opSSE_none hw
    have h1 := h1 _ rfl
    simp only [isXMMorMMX_MEM, Operand.hd, Bool.and_eq_true, Bool.or_eq_true] at h1
    by_cases hx : (r.reg g).isXMM = true
    · rw [if_pos hx] at h2
      refine ⟨_, List.mem_cons_of_mem _ (List.mem_singleton.mpr rfl), ⟨w, rfl, h2⟩, Valid.known_of hg (v := .xmm_xmm) ?_, fun _ h => by cases h⟩
      rintro f ⟨⟩
      rcases h1 with h1 | h1
      · have h := h1.1; simp only [Reg.isXMM, Reg.isMMX, beq_iff_eq] at h hx; rw [hx] at h; cases h
      · exact h1
    · rw [if_neg hx] at h2
      refine ⟨_, List.mem_cons_self .., ⟨w, rfl, h2⟩, ?_, fun _ h => by cases h⟩
      rcases h1 with h | h
      · refine known_append (known_k fun i q hs hq => ?_) (known_k fun i q hs hq => ?_)
        · obtain ⟨h1, h2⟩ := slot_reg hs hq; rw [h1] at h; exact cls_mm h.1
        · obtain ⟨h1, h2⟩ := slot_reg hs hq; rw [h2] at h; simp only [Operand.isMEM, Bool.false_eq_true, or_false] at h; exact cls_mm h.2
      · simp only [isXMM_XMMorMEM, Operand.hd, Bool.and_eq_true] at h
        exact absurd h.1 hx
  | mmxImm r n c e =>
    simp only [Leaf.sends', Bool.or_eq_true, beq_iff_eq] at hs
    obtain ⟨j, q, rfl, hq, hq', hq'', ht⟩ := Slot.par_reg ht hs
    replace hw : (opMMX_IMM ((Slot.a j).reg g) (g.i8 n) c e).Gives w () := hw
    unfold opMMX_IMM at hw
    rw [hq', Enc.throwIf_bind] at hw
    obtain ⟨hv, hw⟩ := hw
    rw [Bool.not_eq_false'] at hv
    simp only [Enc.gives_bind, Enc.gives_db] at hw
    obtain ⟨w1, _, w2, hw, rfl, rfl⟩ := hw
    have key : ∀ t, (opRR (.gp e 32) q t c).Gives w1 () →
        (opSSE (Slot.reg g (.r (.gp e 32))) (Slot.op g (.a j)) t c none ((Imm.i n).val g)).Gives (w1 ++ [.byte (g.i8 n)]) () := by
      intro t h
      rw [opSSE_iff, hq'']
      exact ⟨⟨rfl, hv⟩, w1, opRO_reg h, rfl⟩
    by_cases hx : q.isXMM = true
    · rw [if_pos hx] at hw
      refine ⟨_, List.mem_cons_of_mem _ (List.mem_singleton.mpr rfl), ⟨_, rfl, key _ hw⟩, known_k (s := .a j) fun i q' hs hq0 => ?_, fun _ h => by cases h⟩
      obtain ⟨h1, h2⟩ := slot_reg hs hq0
      rw [hq'] at h1; subst h1
      exact cls_xmm hx
    · rw [if_neg hx] at hw
      refine ⟨_, List.mem_cons_self .., ⟨_, rfl, key _ hw⟩, known_k (s := .a j) fun i q' hs hq0 => ?_, fun _ h => by cases h⟩
      cases hs
      rw [hq] at hq0; cases hq0
      rcases ht with ht | ht
      · exact mmx_cls (hl rfl) hq (.inl rfl) ht (by simpa using hx)
      · exact mmx_cls (hl rfl) hq (.inr rfl) ht (by simpa using hx)
  | movXmm a b t c =>
    simp only [Leaf.sends', Bool.and_eq_true] at hs
    obtain ⟨⟨i, rfl⟩, ⟨j, rfl⟩⟩ := And.intro (Slot.isArg_eq hs.1) (Slot.isArg_eq hs.2)
    replace hw : (opMovXMM (g.op i) (g.op j) t c).Gives w () := hw
    unfold opMovXMM at hw
    rw [Enc.throwIf_bind] at hw
    obtain ⟨hv, hw⟩ := hw
    simp only [Bool.or_eq_false_iff, Bool.not_eq_false'] at hv
    have key : ∀ i j r a (c : Byte), g.op i = .reg r → g.op j = .mem a → isValidSSE (g.op i) = true ∧ isValidSSE (g.op j) = true →
        (if r.isXMM = true then opMR a r t c else Enc.throw .BAD_COMBINATION : Enc Unit).Gives w () →
        SSent g { r := .a i, op := .a j, t := t, c := c, known := Slot.k (.a i) [.xmm] ++ Slot.k (.a j) [], reg := some i } w := by
      intro i j r a c h1 h2 hv hw
      split at hw
      · rename_i hx
        refine ⟨⟨w, rfl, ?_⟩, known_append (known_k fun i' q hs hq => ?_) (known_k fun i' q hs hq => ?_),
          fun _ h => by cases h; rw [h1]; rfl⟩
        · have e : Slot.reg g (.a i) = r := by show (g.op i).hd = r; rw [h1]; rfl
          show (opSSE (Slot.reg g (.a i)) (g.op j) t c none none).Gives w ()
          rw [opSSE_iff, e, h2]
          rw [h1, h2] at hv
          exact ⟨hv, w, opRO_mem (hi j a h2) hw, (List.append_nil _).symm⟩
        · cases hs; rw [h1] at hq; cases hq; exact cls_xmm hx
        · cases hs; rw [h2] at hq; cases hq
      · exact (Enc.gives_throw.mp hw).elim
    cases h1 : g.op i with
    | reg r =>
      cases h2 : g.op j with
      | reg q => rw [h1, h2] at hw; exact (Enc.gives_throw.mp hw).elim
      | mem m =>
        rw [h1, h2] at hw
        exact ⟨_, List.mem_cons_self .., key i j r m c h1 h2 hv hw⟩
    | mem m =>
      cases h2 : g.op j with
      | mem q => rw [h1, h2] at hw; exact (Enc.gives_throw.mp hw).elim
      | reg r =>
        rw [h1, h2] at hw
        exact ⟨_, List.mem_cons_of_mem _ (List.mem_singleton.mpr rfl), key j i r m _ h2 h1 hv.symm hw⟩
  | ext o r c n m =>
    replace hw : (opExt (o.op g) (r.reg g) c (g.i8 n) m).Gives w () := hw
    unfold opExt at hw
    rw [Enc.throwIf_bind] at hw
    obtain ⟨hv, hw⟩ := hw
    simp only [Bool.or_eq_false_iff, Bool.not_eq_false'] at hv
    split at hw
    · rename_i hm
      rw [Bool.and_eq_true] at hm
      obtain ⟨rfl, hR⟩ := hm
      simp only [Leaf.sends', Bool.not_true, Bool.false_or, Bool.and_eq_true, beq_iff_eq] at hs
      obtain ⟨i, rfl⟩ := Slot.isArg_eq hs.1
      obtain ⟨j, q, rfl, hq, hq', hq'', ht'⟩ := Slot.par_reg ht (.inl hs.2)
      have hR' : (g.op i).hd.isREG 96 = true := hR
      rw [hq'] at hw hv
      rw [Enc.dbIf_bind] at hw
      obtain ⟨w1, rfl, hw⟩ := hw
      simp only [Enc.gives_bind, Enc.gives_db] at hw
      obtain ⟨w1, _, w2, hw, rfl, rfl⟩ := hw
      have key : (opSSE (Slot.reg g (.a i)) (Slot.op g (.a j)) T_0F 0xC5 none ((Imm.i n).val g)).Gives (w1 ++ [.byte (g.i8 n)]) () := by
        rw [opSSE_iff, hq'']
        refine ⟨⟨?_, hv.2⟩, w1, opRO_reg hw, rfl⟩
        have := hv.1
        unfold isValidSSE at this ⊢
        exact this
      have kn : ∀ cl, (∃ c ∈ [cl], q.cls = some c) → ∀ p ∈ Slot.k (.a i) [Cls.r32, .r64] ++ Slot.k (.a j) [cl], Known g p := by
        intro cl hc
        refine known_append (known_k fun i' q' hs hq0 => ?_) (known_k fun i' q' hs hq0 => ?_)
        · cases hs; rw [hq0] at hR'; exact cls_r hg hq0 hR'
        · cases hs; rw [hq] at hq0; cases hq0; exact hc
      have nm : ∀ j, Slot.src (.a i) = some j → (g.op j).isMEM = false := by
        rintro _ ⟨⟩
        cases h : g.op i with
        | reg q => rfl
        | mem a => rw [h] at hR'; simp [Operand.hd, Reg.isREG, hg.kind i a h] at hR'
      cases hx : q.isXMM with
      | true =>
        exact ⟨_, List.mem_append_left _ (List.mem_cons_of_mem _ (List.mem_singleton.mpr rfl)), ⟨_, rfl, key⟩, kn _ (cls_xmm hx), nm⟩
      | false =>
        refine ⟨_, List.mem_append_left _ (List.mem_cons_self ..), ⟨_, rfl, key⟩, kn _ ?_, nm⟩
        rcases ht' with ht' | ht'
        · exact mmx_cls (hl rfl) hq (.inl rfl) ht' hx
        · exact mmx_cls (hl rfl) hq (.inr rfl) ht' hx
    · rename_i hm
      obtain ⟨h1, h2⟩ := opSSE_none hw
      refine ⟨_, List.mem_append_right _ (List.mem_singleton.mpr rfl), ⟨w, rfl, h2⟩, known_append (Valid.known_of hg (v := .xmm_r32) h1) ?_, fun _ h => by cases h⟩
      split
      · rename_i hm'
        subst hm'
        refine known_k fun i q hs hq => ?_
        have h1 := h1 _ rfl
        obtain ⟨h3, h4⟩ := slot_reg hs hq
        simp only [isXMM_REG32orMEM, h4, Operand.isMEM, Bool.or_false, Bool.and_eq_true] at h1
        exact absurd (by rw [h4]; exact h1.2) hm
      · intro p hp; cases hp
  | _ => cases hs

/-! ## The lines -/

def Body.sends' (ps : List Param) : Body → Bool
  | .leaf l => l.sends' ps
  | .guard _ _ b => b.sends' ps
  | _ => false

def Body.sseApx (b : Body) : Bool := b.leaves.any fun | .sseApx .. => true | _ => false

theorem Body.ssent (hg : g.Good) (hi : ∀ i a, g.op i = .mem a → a.immSize = 0) (ht : g.Are ps) {b : Body} (hs : b.sends' ps = true)
    (hl : b.leaves.any Leaf.loose = true → Narrow g) (ha : b.sseApx = true → g.NoApx) {m : Enc Unit} (hm : b.run g = some m) (hw : m.Gives w ()) :
    ∃ sh ∈ b.leaves.flatMap Leaf.sshapes, SSent g sh w := by
  induction b generalizing m with
  | leaf l =>
    cases hm
    obtain ⟨sh, h1, h2⟩ := Leaf.ssent hg hi ht hs (fun h => hl (by simpa [Body.leaves] using h)) (fun h => ha (by obtain ⟨_, _, _, _, _, _, _, rfl⟩ := h; rfl)) hw
    exact ⟨sh, by simpa [Body.leaves] using h1, h2⟩
  | guard bad err b ih =>
    obtain ⟨m', hm', rfl⟩ := Option.map_eq_some_iff.mp hm
    rw [Enc.throwIf_bind] at hw
    exact ih hs hl ha hm' hw.2
  | _ => cases hs

set_option maxRecDepth 1000000 in
theorem line713 : (all.filter fun e => e.line == 713) = [⟨713, n!"movntq", [.addr, .mmx], 0, .guard (fun g => !((g.reg 1).isMMX)) .BAD_COMBINATION
    (.leaf (.sse (.a 1) (.a 0) T_0F 0xE7 .any .none))⟩] := rfl
set_option maxRecDepth 1000000 in
theorem line810 : (all.filter fun e => e.line == 810) = [⟨810, n!"pinsrw", [.mmx, .op, .int], 0, .guard (fun g => !((g.reg 1).isREG 32) && !((g.op 1).isMEM)) .BAD_COMBINATION
    (.ite (fun g => (g.reg 0).isXMM) (.leaf (.sse (.a 0) (.a 1) (fl [T_0F, T_66]) 0xC4 .any (.i 0))) (.leaf (.sse (.a 0) (.a 1) T_0F 0xC4 .any (.i 0))))⟩] := rfl
set_option maxRecDepth 1000000 in
theorem line825 : (all.filter fun e => e.line == 825) = [⟨825, n!"pmovmskb", [.reg32e, .mmx], 0, .pre (fun g => (g.reg 1).isXMM) 0x66
    (.leaf (.sse (.a 0) (.a 1) T_0F 0xD7 .any .none))⟩] := rfl
set_option maxRecDepth 1000000 in
theorem line1879 : (all.filter fun e => e.line == 1879) = [⟨1879, n!"movq", [.reg64, .mmx], 0, .pre (fun g => (g.reg 1).isXMM) 0x66
    (.leaf (.sse (.a 1) (.a 0) T_0F 0x7E .any .none))⟩] := rfl
set_option maxRecDepth 1000000 in
theorem line1880 : (all.filter fun e => e.line == 1880) = [⟨1880, n!"movq", [.mmx, .reg64], 0, .pre (fun g => (g.reg 0).isXMM) 0x66
    (.leaf (.sse (.a 0) (.a 1) T_0F 0x6E .any .none))⟩] := rfl

/-- The two cases of a call with an mm or xmm argument. -/
theorem xmm_cases (hn : Narrow g) {i : Nat} (ht : Param.mmx.takes (g.op i) = true) :
    ((g.reg i).isXMM = true ∧ Known g (i, [.xmm])) ∨ ((g.reg i).isXMM = false ∧ Known g (i, [.mm])) := by
  cases hx : (g.reg i).isXMM with
  | true => left; exact ⟨rfl, fun q hq => by rw [Args.reg, hq] at hx; exact cls_xmm hx⟩
  | false => right; exact ⟨rfl, fun q hq => by rw [Args.reg, hq] at hx; exact mmx_cls hn hq (.inl rfl) ht hx⟩

/-- The argument is memory or a 32-bit register. -/
theorem gp32_known (hg : g.Good) {i : Nat} (h : (g.op i).isMEM = true ∨ (g.reg i).isREG 32 = true) : Known g (i, [.r32]) := by
  intro q hq
  rw [Args.reg, hq] at h
  exact cls_r32 hg hq (h.resolve_left (fun h => by cases h))
theorem gp64_known (hg : g.Good) {i : Nat} (h : (g.op i).isMEM = true ∨ (g.reg i).isREG 64 = true) : Known g (i, [.r64]) := by
  intro q hq
  rw [Args.reg, hq] at h
  exact cls_r64 hg hq (h.resolve_left (fun h => by cases h))

theorem sse_known {r op : Slot} {t : Ty} {c : Byte} {i : Imm} {pre : Option Byte} {k : List (Nat × List Cls)} (hk : ∀ p ∈ k, Known g p)
    {w' : List Act} (hw : w = pre.toList.map .byte ++ w') (h : ((Leaf.sse r op t c .any i).run g).Gives w' ()) :
    SSent g { r := r, op := op, t := t, c := c, imm := i, pre := pre, known := k } w := ⟨⟨w', hw, (opSSE_none h).2⟩, hk, fun _ h => by cases h⟩

theorem ne_true {b : Bool} (h : b = false) : ¬ b = true := by rw [h]; decide
theorem pre_eq {b v : Bool} {x : Byte} {w' : List Act} (h : b = v) :
    (if b = true then [x] else []).map Act.byte ++ w' = (if v = true then some x else none).toList.map Act.byte ++ w' := by
  subst h; cases b <;> rfl

/-- Conditions on a call for `Entry.ssent`. -/
structure SCond (e : Entry) (g : Args) : Prop where
  good : g.Good
  imm : ∀ i a, g.op i = .mem a → a.immSize = 0
  loose : e.loose = true → Narrow g
  apx : e.body.sseApx = true → g.NoApx

theorem known2 {p q : Nat × List Cls} (hp : Known g p) (hq : Known g q) : ∀ x ∈ [p, q], Known g x := by
  intro x hx
  rcases List.mem_cons.mp hx with rfl | hx
  · exact hp
  · rw [List.mem_singleton.mp hx]; exact hq
theorem known1 {p : Nat × List Cls} (hp : Known g p) : ∀ x ∈ [p], Known g x := by
  intro x hx; rw [List.mem_singleton.mp hx]; exact hp

def Entry.special (n : Nat) : Bool := [690, 691, 706, 713, 714, 715, 810, 825, 1879, 1880, 1882, 1883].any (Nat.beq n)

theorem Entry.ssent {e : Entry} (hc : Calls e g w) (hp : SCond e g) (hs : Entry.special e.line = true ∨ e.body.sends' e.ops = true) :
    ∃ sh ∈ e.sshapes, SSent g sh w := by
  have ha := hc.fits.are
  have hg := hp.good
  unfold Entry.sshapes
  by_cases h690 : e.line = 690
  · rw [if_pos h690]
    obtain rfl := mem_line hc.mem h690 line690
    obtain ⟨m, hm, hw⟩ := hc.runs
    cases hm
    rw [Enc.throwIf_bind, Enc.dbIf_bind] at hw
    obtain ⟨h1, w', rfl, hw⟩ := hw
    have h1 := gp32_known (i := 1) hg (by dsimp only at h1; rw [Bool.not_eq_false', Bool.or_eq_true] at h1; exact h1)
    rcases xmm_cases (hp.loose rfl) (i := 0) (ha 0 _ rfl) with ⟨hx, hk⟩ | ⟨hx, hk⟩
    · exact ⟨_, List.mem_cons_self .., sse_known (known2 hk h1) (pre_eq hx) hw⟩
    · exact ⟨_, List.mem_cons_of_mem _ (List.mem_singleton.mpr rfl), sse_known (known2 hk h1) (pre_eq hx) hw⟩
  rw [if_neg h690]
  by_cases h691 : e.line = 691
  · rw [if_pos h691]
    obtain rfl := mem_line hc.mem h691 line691
    obtain ⟨m, hm, hw⟩ := hc.runs
    cases hm
    rw [Enc.throwIf_bind, Enc.dbIf_bind] at hw
    obtain ⟨h1, w', rfl, hw⟩ := hw
    have h1 := gp32_known (i := 0) hg (by dsimp only at h1; rw [Bool.not_eq_false', Bool.or_eq_true] at h1; exact h1)
    rcases xmm_cases (hp.loose rfl) (i := 1) (ha 1 _ rfl) with ⟨hx, hk⟩ | ⟨hx, hk⟩
    · exact ⟨_, List.mem_cons_self .., sse_known (known2 hk h1) (pre_eq hx) hw⟩
    · exact ⟨_, List.mem_cons_of_mem _ (List.mem_singleton.mpr rfl), sse_known (known2 hk h1) (pre_eq hx) hw⟩
  rw [if_neg h691]
  by_cases h706 : e.line = 706
  · rw [if_pos h706]
    obtain rfl := mem_line hc.mem h706 line706
    obtain ⟨m, hm, hw⟩ := hc.runs
    cases hm
    rw [Enc.dbIf_bind] at hw
    obtain ⟨w', rfl, hw⟩ := hw
    exact ⟨_, List.mem_singleton.mpr rfl, sse_known (fun _ h => by cases h) rfl hw⟩
  rw [if_neg h706]
  by_cases h713 : e.line = 713
  · rw [if_pos h713]
    obtain rfl := mem_line hc.mem h713 line713
    obtain ⟨m, hm, hw⟩ := hc.runs
    cases hm
    rw [Enc.throwIf_bind] at hw
    obtain ⟨h1, hw⟩ := hw
    refine ⟨_, List.mem_singleton.mpr rfl, sse_known (known1 fun q hq => ?_) rfl hw⟩
    dsimp only at h1
    rw [Args.reg, hq] at h1
    exact cls_mm (by rw [Bool.not_eq_false'] at h1; exact h1)
  rw [if_neg h713]
  by_cases h714 : e.line = 714
  · rw [if_pos h714]
    obtain rfl := mem_line hc.mem h714 line714
    obtain ⟨m, hm, hw⟩ := hc.runs
    obtain ⟨m', hm', rfl⟩ := Option.map_eq_some_iff.mp hm
    rw [Enc.dbIf_bind] at hw
    obtain ⟨w', rfl, hw⟩ := hw
    rcases xmm_cases (hp.loose rfl) (i := 1) (ha 1 _ rfl) with ⟨hx, hk⟩ | ⟨hx, hk⟩
    · unfold Body.run at hm'
      rw [if_pos hx] at hm'
      cases hm'
      exact ⟨_, List.mem_cons_self .., sse_known (known1 hk) (pre_eq hx) hw⟩
    · unfold Body.run at hm'
      rw [if_neg (ne_true hx)] at hm'
      cases hm'
      exact ⟨_, List.mem_cons_of_mem _ (List.mem_singleton.mpr rfl), sse_known (known1 hk) (pre_eq hx) hw⟩
  rw [if_neg h714]
  by_cases h715 : e.line = 715
  · rw [if_pos h715]
    obtain rfl := mem_line hc.mem h715 line715
    obtain ⟨m, hm, hw⟩ := hc.runs
    obtain ⟨m1, hm1, rfl⟩ := Option.map_eq_some_iff.mp hm
    obtain ⟨m', hm', rfl⟩ := Option.map_eq_some_iff.mp hm1
    rw [Enc.throwIf_bind, Enc.dbIf_bind] at hw
    obtain ⟨h1, w', rfl, hw⟩ := hw
    have kk : ∀ c, Known g (0, [c]) → Known g (1, [c]) := by
      intro c hk q hq
      have h0 := ha 0 _ rfl
      obtain ⟨q0, hq0, hq0'⟩ := op_reg (Param.takes_reg h0 (by decide) (by decide))
      dsimp only at h1
      rw [Args.reg, Args.reg, hq, hq0] at h1
      have hkk : q0.kind = q.kind := by
        have h1 : (true && decide (q0.kind ≠ q.kind)) = false := h1
        rw [Bool.true_and, decide_eq_false_iff_not] at h1
        exact Decidable.not_not.mp h1
      obtain ⟨c', hc', hcl⟩ := hk q0 hq0
      refine ⟨c', hc', ?_⟩
      have : q0.kind ≠ .reg := by
        intro h; rw [hq0] at h0
        simp [Param.takes, Operand.hd, Reg.isSIMD, Reg.isXMM, Reg.isYMM, Reg.isZMM, Reg.isMMX, h] at h0
      unfold Reg.cls at hcl ⊢
      rw [← hkk]
      revert hcl this
      cases q0.kind <;> simp
    rcases xmm_cases (hp.loose rfl) (i := 0) (ha 0 _ rfl) with ⟨hx, hk⟩ | ⟨hx, hk⟩
    · unfold Body.run at hm'
      rw [if_pos hx] at hm'
      cases hm'
      exact ⟨_, List.mem_cons_self .., sse_known (known2 hk (kk _ hk)) (pre_eq hx) hw⟩
    · unfold Body.run at hm'
      rw [if_neg (ne_true hx)] at hm'
      cases hm'
      exact ⟨_, List.mem_cons_of_mem _ (List.mem_singleton.mpr rfl), sse_known (known2 hk (kk _ hk)) (pre_eq hx) hw⟩
  rw [if_neg h715]
  by_cases h810 : e.line = 810
  · rw [if_pos h810]
    obtain rfl := mem_line hc.mem h810 line810
    obtain ⟨m, hm, hw⟩ := hc.runs
    obtain ⟨m', hm', rfl⟩ := Option.map_eq_some_iff.mp hm
    rw [Enc.throwIf_bind] at hw
    obtain ⟨h1, hw⟩ := hw
    have h1 := gp32_known (i := 1) hg (by
      simp only [Bool.and_eq_false_iff, Bool.not_eq_false'] at h1; exact h1.symm)
    rcases xmm_cases (hp.loose rfl) (i := 0) (ha 0 _ rfl) with ⟨hx, hk⟩ | ⟨hx, hk⟩
    · unfold Body.run at hm'
      rw [if_pos hx] at hm'
      cases hm'
      exact ⟨_, List.mem_cons_self .., sse_known (known2 hk h1) rfl hw⟩
    · unfold Body.run at hm'
      rw [if_neg (ne_true hx)] at hm'
      cases hm'
      exact ⟨_, List.mem_cons_of_mem _ (List.mem_singleton.mpr rfl), sse_known (known2 hk h1) rfl hw⟩
  rw [if_neg h810]
  by_cases h825 : e.line = 825
  · rw [if_pos h825]
    obtain rfl := mem_line hc.mem h825 line825
    obtain ⟨m, hm, hw⟩ := hc.runs
    cases hm
    rw [Enc.dbIf_bind] at hw
    obtain ⟨w', rfl, hw⟩ := hw
    rcases xmm_cases (hp.loose rfl) (i := 1) (ha 1 _ rfl) with ⟨hx, hk⟩ | ⟨hx, hk⟩
    · exact ⟨_, List.mem_cons_self .., sse_known (known1 hk) (pre_eq hx) hw⟩
    · exact ⟨_, List.mem_cons_of_mem _ (List.mem_singleton.mpr rfl), sse_known (known1 hk) (pre_eq hx) hw⟩
  rw [if_neg h825]
  by_cases h1879 : e.line = 1879
  · rw [if_pos h1879]
    obtain rfl := mem_line hc.mem h1879 line1879
    obtain ⟨m, hm, hw⟩ := hc.runs
    cases hm
    rw [Enc.dbIf_bind] at hw
    obtain ⟨w', rfl, hw⟩ := hw
    rcases xmm_cases (hp.loose rfl) (i := 1) (ha 1 _ rfl) with ⟨hx, hk⟩ | ⟨hx, hk⟩
    · exact ⟨_, List.mem_cons_self .., sse_known (known1 hk) (pre_eq hx) hw⟩
    · exact ⟨_, List.mem_cons_of_mem _ (List.mem_singleton.mpr rfl), sse_known (known1 hk) (pre_eq hx) hw⟩
  rw [if_neg h1879]
  by_cases h1880 : e.line = 1880
  · rw [if_pos h1880]
    obtain rfl := mem_line hc.mem h1880 line1880
    obtain ⟨m, hm, hw⟩ := hc.runs
    cases hm
    rw [Enc.dbIf_bind] at hw
    obtain ⟨w', rfl, hw⟩ := hw
    rcases xmm_cases (hp.loose rfl) (i := 0) (ha 0 _ rfl) with ⟨hx, hk⟩ | ⟨hx, hk⟩
    · exact ⟨_, List.mem_cons_self .., sse_known (known1 hk) (pre_eq hx) hw⟩
    · exact ⟨_, List.mem_cons_of_mem _ (List.mem_singleton.mpr rfl), sse_known (known1 hk) (pre_eq hx) hw⟩
  rw [if_neg h1880]
  by_cases h1882 : e.line = 1882
  · rw [if_pos h1882]
    obtain rfl := mem_line hc.mem h1882 line1882
    obtain ⟨m, hm, hw⟩ := hc.runs
    cases hm
    rw [Enc.throwIf_bind] at hw
    obtain ⟨h1, hw⟩ := hw
    have h1 := gp64_known (i := 0) hg (by
      simp only [Bool.and_eq_false_iff, Bool.not_eq_false'] at h1; exact h1.symm)
    exact ⟨_, List.mem_singleton.mpr rfl, sse_known (known1 h1) rfl hw⟩
  rw [if_neg h1882]
  by_cases h1883 : e.line = 1883
  · rw [if_pos h1883]
    obtain rfl := mem_line hc.mem h1883 line1883
    obtain ⟨m, hm, hw⟩ := hc.runs
    cases hm
    rw [Enc.throwIf_bind] at hw
    obtain ⟨h1, hw⟩ := hw
    have h1 := gp64_known (i := 1) hg (by
      simp only [Bool.and_eq_false_iff, Bool.not_eq_false'] at h1; exact h1.symm)
    exact ⟨_, List.mem_singleton.mpr rfl, sse_known (known1 h1) rfl hw⟩
  rw [if_neg h1883]
  obtain ⟨m, hm, hw⟩ := hc.runs
  refine Body.ssent hg hp.imm ha ?_ hp.loose hp.apx hm hw
  rcases hs with hs | hs
  · obtain ⟨n, hn, h⟩ := List.any_eq_true.mp hs
    have h := Nat.eq_of_beq_eq_true h
    simp only [List.mem_cons, List.not_mem_nil, or_false] at hn
    omega
  · exact hs

end Mn
end Xbyak
