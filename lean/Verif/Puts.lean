import Verif.Emit
/-!
# Every `[rip + …]` operand gets a field

`Verif/Emit.lean` shows that the fields found in an instruction belong to its operands; here: an operand that needs a field has one, that is,
no path through the encoder drops it.
-/
namespace Xbyak

/-- The operand is addressed through a field that depends on the position of the instruction. -/
def Addr.Needs (a : Addr) : Prop := a.o.kind = .mem ∧ ((a.mode = .rip ∧ a.label.isSome = true) ∨ a.mode = .ripAddr)

/-- The act is a field for this label or address. -/
def FieldOf (label : Option Nat) (disp : Word) : Act → Prop
  | .byte _ => False
  | .rel l _ => label = some l
  | .ripAddr t _ => label = none ∧ t = disp

/-- The act is a field for this operand. -/
abbrev Addr.IsField (a : Addr) : Act → Prop := FieldOf a.label a.e.disp

namespace Enc

/-- Whenever `m` returns, it has emitted an act of `F`. -/
structure Puts (F : Act → Prop) (m : Enc α) : Prop where
  of : ∀ w v, m.Gives w v → ∃ x ∈ w, F x
/-- Whenever `m` returns true, it has emitted an act of `F`. -/
structure PutsT (F : Act → Prop) (m : Enc Bool) : Prop where
  of : ∀ w, m.Gives w true → ∃ x ∈ w, F x

variable {F : Act → Prop} {α β : Type}

theorem Puts.bindL {m : Enc α} {f : α → Enc β} (h : Puts F m) : Puts F (m >>= f) := by
  refine ⟨fun w v hw => ?_⟩
  obtain ⟨w1, a, w2, h1, h2, rfl⟩ := gives_bind.mp hw
  obtain ⟨x, hx, hf⟩ := h.of _ _ h1
  exact ⟨x, List.mem_append_left _ hx, hf⟩

theorem Puts.bindR {m : Enc α} {f : α → Enc β} (h : ∀ a, Puts F (f a)) : Puts F (m >>= f) := by
  refine ⟨fun w v hw => ?_⟩
  obtain ⟨w1, a, w2, h1, h2, rfl⟩ := gives_bind.mp hw
  obtain ⟨x, hx, hf⟩ := (h _).of _ _ h2
  exact ⟨x, List.mem_append_right _ hx, hf⟩

theorem Puts.bindG {m : Enc α} {f : α → Enc β} (h : ∀ w a, m.Gives w a → Puts F (f a)) : Puts F (m >>= f) := by
  refine ⟨fun w v hw => ?_⟩
  obtain ⟨w1, a, w2, h1, h2, rfl⟩ := gives_bind.mp hw
  obtain ⟨x, hx, hf⟩ := (h _ _ h1).of _ _ h2
  exact ⟨x, List.mem_append_right _ hx, hf⟩

theorem Puts.bindT {m : Enc Bool} {f : Bool → Enc β} (h : PutsT F m) (h' : Puts F (f false)) : Puts F (m >>= f) := by
  refine ⟨fun w v hw => ?_⟩
  obtain ⟨w1, a, w2, h1, h2, rfl⟩ := gives_bind.mp hw
  cases a with
  | true => obtain ⟨x, hx, hf⟩ := h.of _ h1; exact ⟨x, List.mem_append_left _ hx, hf⟩
  | false => obtain ⟨x, hx, hf⟩ := h'.of _ _ h2; exact ⟨x, List.mem_append_right _ hx, hf⟩

theorem Puts.bindD {m : Enc Bool} {x y : Enc β} (h : PutsT F m) (h' : Puts F y) : Puts F (m >>= fun done => if done = true then x else y) := by
  refine .bindT h ?_
  rw [if_neg Bool.false_ne_true]
  exact h'

theorem Puts.throw (e : Err) : Puts F (Enc.throw e : Enc α) := by
  refine ⟨fun w v hw => ?_⟩; exact nomatch hw.2

theorem PutsT.bindR {m : Enc α} {f : α → Enc Bool} (h : ∀ a, PutsT F (f a)) : PutsT F (m >>= f) := by
  refine ⟨fun w hw => ?_⟩
  obtain ⟨w1, a, w2, h1, h2, rfl⟩ := gives_bind.mp hw
  obtain ⟨x, hx, hf⟩ := (h _).of _ h2
  exact ⟨x, List.mem_append_right _ hx, hf⟩

theorem PutsT.bindL {m : Enc α} {f : α → Enc Bool} (h : Puts F m) : PutsT F (m >>= f) := by
  refine ⟨fun w hw => ?_⟩
  obtain ⟨w1, a, w2, h1, h2, rfl⟩ := gives_bind.mp hw
  obtain ⟨x, hx, hf⟩ := h.of _ _ h1
  exact ⟨x, List.mem_append_left _ hx, hf⟩

theorem PutsT.false : PutsT F (pure false : Enc Bool) := by
  refine ⟨fun w hw => ?_⟩; exact nomatch (gives_pure.mp hw).2

theorem Puts.pureT {m : Enc Bool} (h : PutsT F m) (h' : ∀ w, ¬ m.Gives w false) : Puts F m := by
  refine ⟨fun w v hw => ?_⟩
  cases v with
  | true => exact h.of _ hw
  | false => exact absurd hw (h' w)

end Enc

namespace E
open Enc (Puts PutsT)
open Enc (throwIf db dbIf dbN act lift)

variable {a : Addr}

theorem opAddr_puts (h : a.Needs) (r : BitVec 5) : (opAddr a r).Puts a.IsField := by
  unfold opAddr
  refine .bindR fun _ => ?_
  have key : ∀ m : Mode, m = a.mode → m = .rip ∨ m = .ripAddr → Puts a.IsField (match a.label with
      | some l => act (.rel l (a.e.disp - BitVec.ofNat 64 a.immSize))
      | none =>
        if a.mode = .ripAddr then act (.ripAddr a.e.disp a.immSize)
        else do
          throwIf (!isInInt32 a.e.disp) .OFFSET_IS_TOO_BIG
          dbN ((lo32 a.e.disp).setWidth 64) 4) := by
    intro m hm _
    cases hl : a.label with
    | some l => refine ⟨fun w v hw => ?_⟩; cases hw.1; exact ⟨_, List.mem_singleton.mpr rfl, hl⟩
    | none =>
      have hr : a.mode = .ripAddr := by
        rcases h.2 with ⟨_, h⟩ | h
        · rw [hl] at h; cases h
        · exact h
      simp only
      rw [if_pos hr]
      refine ⟨fun w v hw => ?_⟩; cases hw.1; exact ⟨_, List.mem_singleton.mpr rfl, hl, rfl⟩
  split
  · rename_i hm; rcases h.2 with ⟨h, _⟩ | h <;> rw [hm] at h <;> cases h
  · rename_i hm; exact .bindR fun _ => key _ hm.symm (.inl rfl)
  · rename_i hm; exact .bindR fun _ => key _ hm.symm (.inr rfl)
  · rename_i hm; rcases h.2 with ⟨h, _⟩ | h <;> rw [hm] at h <;> cases h

theorem Addr.Needs.imm (h : a.Needs) (k : Nat) : Addr.Needs { a with immSize := k } := h

theorem mem_notREG (h : a.Needs) (b : Nat) : (Operand.mem a).isREG b = false := by
  simp [Operand.isREG, Operand.hd, Reg.isREG, h.1]

theorem opROO_puts1 (h : a.Needs) (d : Reg) (op2 : Operand) (t : Ty) (c : Byte) (n : Nat) (sc : Option (BitVec 4)) :
    (opROO d (.mem a) op2 t c n sc).PutsT a.IsField := by
  unfold opROO
  split
  · exact PutsT.false
  · refine PutsT.bindR fun _ => ?_
    simp only [Operand.isMEM, if_true]
    exact .bindR fun _ => .bindR fun _ => .bindL (opAddr_puts (a := { a with immSize := n }) h _)

theorem opROO_puts2 (h : a.Needs) (d : Reg) (op1 : Operand) (t : Ty) (c : Byte) (n : Nat) (sc : Option (BitVec 4)) :
    (opROO d op1 (.mem a) t c n sc).PutsT a.IsField := by
  unfold opROO
  split
  · exact PutsT.false
  · cases op1 with
    | mem b =>
      refine ⟨fun w hw => ?_⟩
      rw [Enc.throwIf_bind] at hw
      exact nomatch hw.1
    | reg q =>
      refine PutsT.bindR fun _ => ?_
      simp only [Operand.isMEM, Bool.false_eq_true, if_false]
      exact .bindR fun _ => .bindR fun _ => .bindL (opAddr_puts (a := { a with immSize := n }) h _)

theorem opMR_puts (h : a.Needs) (r : Reg) (t : Ty) (c : Byte) (t2 : Ty) (c2 : Option Byte) : (opMR a r t c t2 c2).Puts a.IsField := by
  unfold opMR
  dsimp only
  split
  · refine .bindD (opROO_puts1 h ..) ?_
    exact .bindR fun _ => .bindR fun _ => .bindR fun _ => .bindR fun _ => opAddr_puts h _
  · refine .bindD .false ?_
    exact .bindR fun _ => .bindR fun _ => .bindR fun _ => .bindR fun _ => opAddr_puts h _

theorem opLoadSeg_puts (h : a.Needs) (r : Reg) (t : Ty) (c : Byte) : (opLoadSeg a r t c).Puts a.IsField :=
  .bindR fun _ => .bindR fun _ => .bindR fun _ => .bindR fun _ => .bindR fun _ => opAddr_puts h _

theorem opMIB_puts (h : a.Needs) (r : Reg) (t : Ty) (c : Byte) : (opMIB a r t c).Puts a.IsField :=
  .bindR fun _ => opMR_puts (a := { a with opt := false }) h _ _ _ _ _

theorem opRO_puts (h : a.Needs) (r : Reg) (t : Ty) (c : Byte) (k : Bool) (n : Nat) : (opRO r (.mem a) t c k n).Puts a.IsField := by
  unfold opRO
  exact opMR_puts (a := { a with immSize := n }) h ..

theorem opRext_puts (h : a.Needs) (bit : Nat) (e : BitVec 5) (t : Ty) (c : Byte) (dr : Bool) (n : Nat) (d : Option Reg) :
    (opRext (.mem a) bit e t c dr n d).Puts a.IsField := by
  unfold opRext
  dsimp only
  split
  · exact .bindD (opROO_puts1 h ..) (opMR_puts (a := { a with immSize := n }) h ..)
  · exact .bindD .false (opMR_puts (a := { a with immSize := n }) h ..)

theorem opJmpOp_puts (h : a.Needs) (f : Bool) (e : BitVec 5) : (opJmpOp (.mem a) f e).Puts a.IsField := by
  unfold opJmpOp
  split
  · exact .bindR fun _ => opRext_puts h ..
  · exact opRext_puts h ..

theorem opSSE_puts (h : a.Needs) (r : Reg) (t : Ty) (c : Byte) (v : Option (Operand → Operand → Bool)) (i : Option Byte) :
    (opSSE r (.mem a) t c v i).Puts a.IsField :=
  .bindR fun _ => .bindR fun _ => .bindL (opRO_puts h ..)

theorem opMMX_puts (h : a.Needs) (r : Reg) (c : Byte) (t p : Ty) (i : Option Byte) : (opMMX r (.mem a) c t p i).Puts a.IsField :=
  opSSE_puts h ..

theorem opMovXMM_puts1 (h : a.Needs) (op2 : Operand) (t : Ty) (c : Byte) : (opMovXMM (.mem a) op2 t c).Puts a.IsField := by
  refine .bindR fun _ => ?_
  cases op2 with
  | mem b => exact .throw _
  | reg r => dsimp only; split <;> first | exact opMR_puts h .. | exact .throw _

theorem opMovXMM_puts2 (h : a.Needs) (op1 : Operand) (t : Ty) (c : Byte) : (opMovXMM op1 (.mem a) t c).Puts a.IsField := by
  refine .bindR fun _ => ?_
  cases op1 with
  | mem b => exact .throw _
  | reg r => dsimp only; split <;> first | exact opMR_puts h .. | exact .throw _

theorem opExt_puts (h : a.Needs) (r : Reg) (c i : Byte) (m : Bool) : (opExt (.mem a) r c i m).Puts a.IsField := by
  refine .bindR fun _ => ?_
  rw [if_neg (by simp [mem_notREG h])]
  exact opSSE_puts h ..

theorem opSetCC_puts (h : a.Needs) (e : Byte) : (opSetCC (.mem a) e).Puts a.IsField :=
  .bindD (opROO_puts1 h ..) (opRext_puts h ..)

theorem opShiftI_puts (h : a.Needs) (i : BitVec 32) (e : BitVec 4) (d : Option Reg) : (opShiftI (.mem a) i e d).Puts a.IsField := by
  unfold opShiftI
  dsimp only
  cases d
  · exact .bindR fun _ => .bindR fun _ => .bindL (opRext_puts h ..)
  · exact .bindR fun _ => .bindL (opRext_puts h ..)

theorem opShiftCL_puts (h : a.Needs) (q : Reg) (e : BitVec 4) (d : Option Reg) : (opShiftCL (.mem a) q e d).Puts a.IsField :=
  .bindR fun _ => .bindR fun _ => opRext_puts h ..

theorem opShxd_puts (h : a.Needs) (d r : Reg) (i c c2 : Byte) (cl : Option Reg) : (opShxd d (.mem a) r i c c2 cl).Puts a.IsField := by
  unfold opShxd
  refine .bindR fun _ => .bindR fun _ => .bindT (opROO_puts1 h ..) ?_
  rw [if_neg Bool.false_ne_true]
  exact .bindL (opRO_puts h ..)

theorem opRO_MR_puts1 (h : a.Needs) (op2 : Operand) (c : Byte) : (opRO_MR (.mem a) op2 c).Puts a.IsField := by
  cases op2 with
  | mem b => refine ⟨fun w v hw => ?_⟩; rw [opRO_MR, Enc.throwIf_bind, mem_notREG h] at hw; exact nomatch hw.1
  | reg r => unfold opRO_MR; exact opRO_puts h ..

theorem opRO_MR_puts2 (h : a.Needs) (op1 : Operand) (c : Byte) : (opRO_MR op1 (.mem a) c).Puts a.IsField :=
  .bindR fun _ => opMR_puts h ..

theorem opOI_puts (h : a.Needs) (i : BitVec 32) (c : Byte) (e : BitVec 5) : (opOI (.mem a) i c e).Puts a.IsField := by
  unfold opOI
  refine .bindR fun n => ?_
  rw [if_neg (by simp [mem_notREG h])]
  exact .bindL (opRext_puts h ..)

/-- `opROO` declines only in these cases. -/
theorem opROO_takes {d : Reg} {op1 op2 : Operand} {t : Ty} {c : Byte} {n : Nat} {sc : Option (BitVec 4)}
    (h : t.has T_MUST_EVEX = true ∨ d.isREG = true ∨ ((Operand.reg d).hasRex2NFZU || op1.hasRex2NFZU || op2.hasRex2NFZU) = true) (w : List Act) :
    ¬ (opROO d op1 op2 t c n sc).Gives w false := by
  intro hg
  unfold opROO at hg
  split at hg
  · rename_i hc
    rw [Bool.and_eq_true, Bool.and_eq_true] at hc
    obtain ⟨⟨h1, h2⟩, h3⟩ := hc
    rcases h with h | h | h
    · rw [h] at h1; cases h1
    · rw [h] at h2; cases h2
    · rw [h] at h3; cases h3
  · dsimp only at hg
    obtain ⟨w1, _, w2, g1, hg, rfl⟩ := Enc.gives_bind.mp hg
    generalize (if op1.isMEM = true then op1 else op2) = p at hg
    cases p
    all_goals
      obtain ⟨_, _, _, _, hg, _⟩ := Enc.gives_bind.mp hg
      obtain ⟨_, _, _, _, hg, _⟩ := Enc.gives_bind.mp hg
      obtain ⟨_, _, _, _, hg, _⟩ := Enc.gives_bind.mp hg
      obtain ⟨_, _, _, _, hg, _⟩ := Enc.gives_bind.mp hg
      exact absurd (Enc.gives_pure.mp hg).2 (by decide)

theorem opROI_puts (h : a.Needs) (d : Reg) (hd : d.isREG = true) (i : BitVec 32) (t : Ty) (e : BitVec 5) : (opROI d (.mem a) i t e).Puts a.IsField :=
  .bindR fun _ => .bindL (.pureT (opROO_puts1 h ..) (opROO_takes (.inr (.inl hd))))

theorem opIncDec_puts (h : a.Needs) (d : Reg) (e : BitVec 5) : (opIncDec d (.mem a) e).Puts a.IsField := by
  unfold opIncDec
  split
  · rename_i hd
    exact .bindL (.pureT (opROO_puts1 h ..) (opROO_takes (.inr (.inl hd))))
  · exact .bindR fun _ => opRext_puts h ..

theorem opPushPop_puts (h : a.Needs) (c : Byte) (e : BitVec 5) (al : Byte) : (opPushPop (.mem a) c e al).Puts a.IsField := by
  unfold opPushPop
  rw [if_neg (by simp [mem_notREG h])]
  dsimp only
  split
  · exact .bindR fun _ => opMR_puts h ..
  · exact .throw _

theorem opMovxx_puts (h : a.Needs) (r : Reg) (c : Byte) : (opMovxx r (.mem a) c).Puts a.IsField :=
  .bindR fun _ => .bindR fun _ => opRO_puts h ..

theorem opFpuMem_puts (h : a.Needs) (m16 m32 m64 e m64e : Byte) : (opFpuMem a m16 m32 m64 e m64e).Puts a.IsField :=
  .bindR fun _ => .bindR fun _ => .bindR fun _ => .bindR fun _ => opAddr_puts h ..

theorem opVex_puts (h : a.Needs) (r : Reg) (p : Option Reg) (t : Ty) (c : Byte) (i : Option Byte) : (opVex r p (.mem a) t c i).Puts a.IsField := by
  unfold opVex
  dsimp only
  have key : ∀ (p : Bool) (n k : Nat) (r : BitVec 5), (opAddr { a with permitVsib := p, disp8N := n, immSize := k } r).Puts a.IsField :=
    fun p n k r => opAddr_puts (a := { a with permitVsib := p, disp8N := n, immSize := k }) h r
  refine .bindR fun _ => ?_
  split
  · exact .bindR fun _ => .bindR fun _ => .bindR fun n => .bindL (key ..)
  · exact .bindR fun _ => .bindR fun n => .bindL (key ..)

theorem opRRO_puts (h : a.Needs) (d r : Reg) (t : Ty) (c : Byte) (i : Option Byte) (hd : r.isREG = true ∨ (d.hasRex2 || r.hasRex2 || a.hasRex2 || d.nf) = false) : (opRRO d r (.mem a) t c i).Puts a.IsField := by
  unfold opRRO
  refine .bindR fun _ => ?_
  extract_lets t'
  split
  · rename_i hx
    refine .bindL (.pureT (opROO_puts1 h ..) (opROO_takes (.inr (.inl (hd.resolve_right ?_)))))
    rw [show (d.hasRex2 || r.hasRex2 || a.hasRex2 || d.nf) = true from hx]
    decide
  · exact opVex_puts h ..

theorem opAVX_X_X_XM_puts1 (h : a.Needs) (x : Reg) (t : Ty) (c : Byte) (i : Option Byte) : (opAVX_X_X_XM x (.mem a) none t c i).Puts a.IsField :=
  .bindR fun _ => opVex_puts h ..
theorem opAVX_X_X_XM_puts2 (h : a.Needs) (x : Reg) (op1 : Operand) (t : Ty) (c : Byte) (i : Option Byte) :
    (opAVX_X_X_XM x op1 (some (.mem a)) t c i).Puts a.IsField :=
  .bindR fun _ => opVex_puts h ..
theorem opAVX_K_X_XM_puts (h : a.Needs) (k x : Reg) (t : Ty) (c : Byte) (i : Option Byte) : (opAVX_K_X_XM k x (.mem a) t c i).Puts a.IsField :=
  .bindR fun _ => opVex_puts h ..
theorem opCvt_puts (h : a.Needs) (x : Reg) (t : Ty) (c : Byte) : (opCvt x (.mem a) t c).Puts a.IsField := opVex_puts h ..
theorem opCvt2_puts (h : a.Needs) (x : Reg) (t : Ty) (c : Byte) : (opCvt2 x (.mem a) t c).Puts a.IsField := .bindR fun _ => opCvt_puts h ..
theorem opCvt3_puts (h : a.Needs) (x y : Reg) (t t6 t3 : Ty) (c : Byte) : (opCvt3 x y (.mem a) t t6 t3 c).Puts a.IsField := by
  refine .bindR fun _ => ?_
  dsimp only
  rw [if_neg (by simp [mem_notREG h])]
  exact opVex_puts h ..
theorem opCvt5_puts (h : a.Needs) (x : Reg) (t : Ty) (c : Byte) : (opCvt5 x (.mem a) t c).Puts a.IsField := .bindR fun _ => opVex_puts h ..
theorem opCvt6_puts (h : a.Needs) (x y : Reg) (t : Ty) (c : Byte) : (opCvt6 x y (.mem a) t c).Puts a.IsField := by
  unfold opCvt6
  dsimp only
  split
  · exact opVex_puts h ..
  · exact .throw _
theorem opAVX_X_XM_IMM_puts (h : a.Needs) (x : Reg) (t : Ty) (c : Byte) (i : Option Byte) : (opAVX_X_XM_IMM x (.mem a) t c i).Puts a.IsField :=
  opAVX_X_X_XM_puts2 h ..
theorem opCnt_puts (h : a.Needs) (r : Reg) (c : Byte) : (opCnt r (.mem a) c).Puts a.IsField := .bindR fun _ => .bindR fun _ => opRO_puts h ..
theorem opGather_puts (h : a.Needs) (x y : Reg) (t : Ty) (c : Byte) (m : Nat) : (opGather x a y t c m).Puts a.IsField :=
  .bindR fun _ => .bindR fun _ => .bindR fun _ => opAVX_X_X_XM_puts2 h ..
theorem opGather2_puts (h : a.Needs) (x : Reg) (t : Ty) (c : Byte) (m : Nat) : (opGather2 x a t c m).Puts a.IsField :=
  .bindR fun _ => .bindR fun _ => .bindR fun _ => .bindR fun _ => opVex_puts h ..
theorem opVmov_puts (h : a.Needs) (x : Reg) (t : Ty) (c : Byte) (m : Bool) : (opVmov (.mem a) x t c m).Puts a.IsField := .bindR fun _ => opVex_puts h ..
theorem opGatherFetch_puts (h : a.Needs) (x : Reg) (t : Ty) (c : Byte) (k : Kind) : (opGatherFetch a x t c k).Puts a.IsField :=
  .bindR fun _ => .bindR fun _ => opVex_puts h ..
theorem opEncoding_puts (h : a.Needs) (df : PrefEnc) (x y : Reg) (t : Ty) (c : Byte) (e : PrefEnc) (i : Option Byte) (tv te : Ty) (s : Nat) :
    (opEncoding df x y (some (.mem a)) t c e i tv te s).Puts a.IsField := .bindR fun _ => opAVX_X_X_XM_puts2 h ..
theorem dfvReg_reg (v : Int) (n : Nat) : (dfvReg v n).isREG = true := by simp [dfvReg, Reg.gp, Reg.isREG]
theorem opCcmp_puts1 (h : a.Needs) (op2 : Operand) (v : Int) (c : Byte) (sc : BitVec 4) : (opCcmp (.mem a) op2 v c sc).Puts a.IsField :=
  .bindR fun _ => .bindL (.pureT (opROO_puts1 h ..) (opROO_takes (.inr (.inl (dfvReg_reg ..)))))
theorem opCcmp_puts2 (h : a.Needs) (op1 : Operand) (v : Int) (c : Byte) (sc : BitVec 4) : (opCcmp op1 (.mem a) v c sc).Puts a.IsField :=
  .bindR fun _ => .bindL (.pureT (opROO_puts2 h ..) (opROO_takes (.inr (.inl (dfvReg_reg ..)))))
theorem opCcmpi_puts (h : a.Needs) (i : BitVec 32) (v : Int) (sc : BitVec 4) : (opCcmpi (.mem a) i v sc).Puts a.IsField :=
  .bindR fun _ => .bindR fun _ => .bindL (.pureT (opROO_puts1 h ..) (opROO_takes (.inr (.inl (dfvReg_reg ..)))))
theorem opTesti_puts (h : a.Needs) (i : BitVec 32) (v : Int) (sc : BitVec 4) : (opTesti (.mem a) i v sc).Puts a.IsField :=
  .bindR fun _ => .bindR fun _ => .bindL (.pureT (opROO_puts1 h ..) (opROO_takes (.inr (.inl (dfvReg_reg ..)))))
theorem must_nf : (T_MUST_EVEX ||| T_NF).has T_MUST_EVEX = true ∧ T_MUST_EVEX.has T_MUST_EVEX = true := by decide
theorem opCfcmov_puts1 (h : a.Needs) (d : Reg) (op2 : Operand) (c : Byte) : (opCfcmov d (.mem a) op2 c).Puts a.IsField := by
  refine .bindR fun _ => .bindR fun _ => ?_
  cases op2 with
  | mem b => refine ⟨fun w v hw => ?_⟩; dsimp only at hw; rw [Enc.throwIf_bind] at hw; exact nomatch hw.1
  | reg r => exact .bindL (.pureT (opROO_puts1 h ..) (opROO_takes (.inl must_nf.1)))
theorem opCfcmov_puts2 (h : a.Needs) (d : Reg) (op1 : Operand) (c : Byte) : (opCfcmov d op1 (.mem a) c).Puts a.IsField := by
  refine .bindR fun _ => .bindR fun _ => .bindR fun _ => .bindL (.pureT (opROO_puts1 h ..) (opROO_takes (.inl ?_)))
  split
  · exact must_nf.1
  · exact must_nf.2
theorem opAMX_puts (h : a.Needs) (r : Reg) (t : Ty) (c : Byte) : (opAMX r a t c).Puts a.IsField :=
  .bindR fun _ => .bindD (opROO_puts1 (a := { a with opt := false }) h ..) (opVex_puts (a := { a with opt := false }) h ..)
theorem opKmov_puts (h : a.Needs) (k : Reg) (rv : Bool) (n : Nat) : (opKmov k (.mem a) rv n).Puts a.IsField := by
  unfold opKmov
  extract_lets isReg code type p1 p2
  have hp : p2 = .mem a := by
    have : code ≠ 0x93 := by
      simp only [code, isReg, mem_notREG h, Operand.isMEM]
      cases rv <;> simp
    exact if_neg this
  clear_value p1 p2
  subst hp
  exact .bindR fun _ => .bindD (opROO_puts1 h ..) (opVex_puts h ..)
theorem opSSE_APX_puts (h : a.Needs) (x : Reg) (t1 : Ty) (c1 : Byte) (t2 : Ty) (c2 : Byte) (i : Option Byte) :
    (opSSE_APX x (.mem a) t1 c1 t2 c2 i).Puts a.IsField := by
  unfold opSSE_APX
  dsimp only
  split
  · exact .bindD (opROO_puts1 h ..) (opSSE_puts h ..)
  · exact .bindD .false (opSSE_puts h ..)

theorem test_puts (h : a.Needs) (r : Reg) : (test (.mem a) r).Puts a.IsField := opRO_puts h ..
theorem testI_puts (h : a.Needs) (i : BitVec 32) : (testI (.mem a) i).Puts a.IsField := by
  refine .bindR fun _ => ?_
  dsimp only
  rw [if_neg (by simp [mem_notREG h])]
  exact .bindL (opRext_puts h ..)
theorem imulI_puts (h : a.Needs) (r : Reg) (i : BitVec 32) : (imulI r (.mem a) i).Puts a.IsField := by
  unfold imulI
  refine .bindT (opROO_puts1 h ..) ?_
  rw [if_neg Bool.false_ne_true]
  exact .bindL (opRO_puts h ..)
theorem mov_puts1 (h : a.Needs) (op2 : Operand) : (mov (.mem a) op2).Puts a.IsField := by
  have h64 : a.is64bitDisp = false := by
    unfold Addr.is64bitDisp
    rcases h.2 with ⟨h, _⟩ | h <;> rw [h] <;> rfl
  cases op2 with
  | mem b => unfold mov; exact opRO_MR_puts1 h ..
  | reg r =>
    unfold mov
    dsimp only
    rw [if_neg (by simp [h64])]
    exact opRO_MR_puts1 h ..
theorem mov_puts2 (h : a.Needs) (op1 : Operand) : (mov op1 (.mem a)).Puts a.IsField := by
  have h64 : a.is64bitDisp = false := by
    unfold Addr.is64bitDisp
    rcases h.2 with ⟨h, _⟩ | h <;> rw [h] <;> rfl
  cases op1 with
  | mem b => unfold mov; exact opRO_MR_puts2 h ..
  | reg r =>
    unfold mov
    dsimp only
    rw [if_neg (by simp [h64])]
    exact opRO_MR_puts2 h ..
theorem movI_puts (h : a.Needs) (i : Word) : (movI (.mem a) i).Puts a.IsField := by
  have key : ∀ (k : Nat) (r : Reg) (t : Ty) (c : Byte), (opMR { a with immSize := k } r t c).Puts a.IsField :=
    fun k r t c => opMR_puts (a := { a with immSize := k }) h r t c 0 none
  refine .bindR fun _ => ?_
  dsimp only
  split
  · exact .bindR fun _ => .bindL (key ..)
  · exact .bindR fun _ => .bindL (key ..)
theorem xchg_puts1 (h : a.Needs) (op2 : Operand) : (xchg (.mem a) op2).Puts a.IsField := by
  unfold xchg
  simp only [Operand.isMEM, Bool.true_or, if_true, mem_notREG h, Bool.false_and, Bool.false_eq_true, if_false, Bool.and_false]
  exact .bindR fun _ => opRO_puts h ..
theorem xchg_puts2 (h : a.Needs) (op1 : Operand) : (xchg op1 (.mem a)).Puts a.IsField := by
  cases op1 with
  | mem b =>
    refine ⟨fun w v hw => ?_⟩
    unfold xchg at hw
    dsimp only at hw
    rw [Enc.throwIf_bind] at hw
    simp [Operand.isMEM] at hw
  | reg r =>
    unfold xchg
    simp only [mem_notREG h, Operand.isMEM, Bool.false_and, Bool.or_false, Bool.false_eq_true, if_false, Bool.and_false]
    exact .bindR fun _ => opRO_puts h ..
theorem movFromSeg_puts (h : a.Needs) (s : BitVec 5) : (movFromSeg (.mem a) s).Puts a.IsField := opRO_puts h ..
theorem movToSeg_puts (h : a.Needs) (s : BitVec 5) : (movToSeg s (.mem a)).Puts a.IsField := by
  unfold movToSeg
  dsimp only
  rw [if_neg (by simp [mem_notREG h])]
  exact .bindG fun w v hv => by
    rw [Enc.gives_pure] at hv
    rw [hv.2]
    exact opRO_puts h ..

end E

/-! ## The mnemonic table -/

namespace Mn
open E
open Enc (Puts PutsT)

/-- The arguments of a helper that may be memory. -/
def Leaf.mems : Leaf → List Slot
  | avx3 _ a b .. | movXmm a b .. | roo _ a b .. | roMr a b _ | ccmp a b .. | cfcmov _ a b _ => [a, b]
  | avx2 _ a .. | avxK _ _ a .. | vex _ _ a .. | vexCB _ a .. | cvt _ a .. | cvt2 _ a .. | cvt3 _ _ a .. | cvt5 _ a .. | cvt6 _ _ a ..
  | encoding _ _ a .. | cvt2Enc _ a .. | vmov a .. | gather _ a .. | gather2 _ a .. | gatherFetch a .. | kmov _ a .. | amx _ a .. | sse _ a ..
  | sseApx _ a .. | mmx _ a .. | ext a .. | ro _ a .. | mr a .. | mib a .. | loadSeg a .. | rext a .. | rextI a .. | rextBnd a .. | rro _ _ a ..
  | oi a .. | roi _ a .. | incDec _ a _ | shiftI a .. | shiftCL a .. | shxd _ a .. | shxdCL _ a .. | setcc a _ | ccmpi a .. | testi a ..
  | movxx _ a _ | cnt _ a _ | fpuMem a .. => [a]
  | raw .movdir64b => [.a 1]
  | _ => []

/-- Calls that ignore that `opROO` has declined, and then emit nothing for their operands (`c41_refuted_empty`): the destination is no
general register although the C++ parameter type `Reg` allows it. -/
def Leaf.Silent (g : Args) : Leaf → Prop
  | roo d a b t _ => t.has T_MUST_EVEX = false ∧ (d.reg g).isREG = false ∧
      ((Operand.reg (d.reg g)).hasRex2NFZU || (a.op g).hasRex2NFZU || (b.op g).hasRex2NFZU) = false
  | roi d .. => (d.reg g).isREG = false
  | rro _ r .. => (r.reg g).isREG = false
  | _ => False

theorem Slot.mem_of {g : Args} {s : Slot} {a : Addr} (h : s.op g = .mem a) : s.mem g = a := by
  cases s with
  | a i =>
    show (match g.op i with | .mem m => m | .reg _ => default) = a
    rw [show g.op i = .mem a from h]
  | _ => cases h

theorem Slot.opt_of {g : Args} {s : Slot} {a : Addr} (h : s.op g = .mem a) : s.opt g = some (.mem a) := by
  cases s with
  | a i =>
    show g.ops[i]? = _
    have h : (g.ops[i]?).getD (.reg .nil) = .mem a := h
    cases ho : g.ops[i]? with
    | none => rw [ho] at h; cases h
    | some o => rw [ho] at h; exact congrArg some h
  | _ => cases h

theorem Leaf.puts {g : Args} (l : Leaf) (hs : ¬ l.Silent g) {s : Slot} (hm : s ∈ l.mems) {a : Addr} (h : a.Needs) (ho : s.op g = .mem a) :
    (l.run g).Puts a.IsField := by
  cases l with
  | avx3 x p q t c i =>
    simp only [mems, List.mem_cons, List.not_mem_nil, or_false] at hm
    rcases hm with rfl | rfl
    · simp only [run]
      rw [ho]
      cases hq : q.opt g with
      | none => exact opAVX_X_X_XM_puts1 h ..
      | some o =>
        refine ⟨fun w v hw => ?_⟩
        unfold opAVX_X_X_XM at hw
        dsimp only at hw
        rw [Enc.throwIf_bind] at hw
        have hk : (Operand.mem a).hd.kind = .mem := h.1
        have h1 := hw.1
        simp [Reg.isXMM, Reg.isYMM, Reg.isZMM, hk] at h1
    · simp only [run]
      rw [Slot.opt_of ho]
      exact opAVX_X_X_XM_puts2 h ..
  | movXmm p q t c =>
    simp only [mems, List.mem_cons, List.not_mem_nil, or_false] at hm
    rcases hm with rfl | rfl <;> simp only [run] <;> rw [ho]
    · exact opMovXMM_puts1 h ..
    · exact opMovXMM_puts2 h ..
  | roo d p q t c =>
    simp only [mems, List.mem_cons, List.not_mem_nil, or_false] at hm
    have ht : t.has T_MUST_EVEX = true ∨ (d.reg g).isREG = true ∨
        ((Operand.reg (d.reg g)).hasRex2NFZU || (p.op g).hasRex2NFZU || (q.op g).hasRex2NFZU) = true := by
      cases h1 : t.has T_MUST_EVEX with
      | true => exact .inl rfl
      | false =>
        cases h2 : (d.reg g).isREG with
        | true => exact .inr (.inl rfl)
        | false =>
          refine .inr (.inr ?_)
          cases h3 : ((Operand.reg (d.reg g)).hasRex2NFZU || (p.op g).hasRex2NFZU || (q.op g).hasRex2NFZU) with
          | true => rfl
          | false => exact absurd ⟨h1, h2, h3⟩ hs
    rcases hm with rfl | rfl <;> simp only [run] <;> rw [ho] at ht ⊢
    · exact .bindL (.pureT (opROO_puts1 h ..) (opROO_takes ht))
    · exact .bindL (.pureT (opROO_puts2 h ..) (opROO_takes ht))
  | roMr p q c =>
    simp only [mems, List.mem_cons, List.not_mem_nil, or_false] at hm
    rcases hm with rfl | rfl <;> simp only [run] <;> rw [ho]
    · exact opRO_MR_puts1 h ..
    · exact opRO_MR_puts2 h ..
  | ccmp p q v c sc =>
    simp only [mems, List.mem_cons, List.not_mem_nil, or_false] at hm
    rcases hm with rfl | rfl <;> simp only [run] <;> rw [ho]
    · exact opCcmp_puts1 h ..
    · exact opCcmp_puts2 h ..
  | cfcmov d p q c =>
    simp only [mems, List.mem_cons, List.not_mem_nil, or_false] at hm
    rcases hm with rfl | rfl <;> simp only [run] <;> rw [ho]
    · exact opCfcmov_puts1 h ..
    · exact opCfcmov_puts2 h ..
  | roi d p i t e =>
    cases List.mem_singleton.mp hm
    simp only [run]
    rw [ho]
    exact opROI_puts h _ (by cases hr : (d.reg g).isREG with | true => rfl | false => exact absurd hr hs) ..
  | rro d r p t c i =>
    cases List.mem_singleton.mp hm
    simp only [run]
    rw [ho]
    exact opRRO_puts h _ _ _ _ _ (.inl (by cases hr : (r.reg g).isREG with | true => rfl | false => exact absurd hr hs))
  | raw r =>
    cases r with
    | movdir64b =>
      cases List.mem_singleton.mp hm
      refine .bindR fun q => ?_
      rw [show g.mem 1 = a from Slot.mem_of ho]
      exact opMR_puts h ..
    | _ => cases hm
  | vexCB k p t c i => cases List.mem_singleton.mp hm; simp only [run]; rw [ho]; exact .bindR fun _ => opVex_puts h ..
  | cvt2Enc x p t c tv te s => cases List.mem_singleton.mp hm; simp only [run]; rw [ho]; exact .bindR fun _ => opCvt2_puts h ..
  | encoding x y p t c i tv te s => cases List.mem_singleton.mp hm; simp only [run]; rw [Slot.opt_of ho]; exact opEncoding_puts h ..
  | rextI p b e t c i => cases List.mem_singleton.mp hm; simp only [run]; rw [ho]; exact .bindL (opRext_puts h ..)
  | gather x p y t c m => cases List.mem_singleton.mp hm; simp only [run]; rw [Slot.mem_of ho]; exact opGather_puts h ..
  | gather2 x p t c m => cases List.mem_singleton.mp hm; simp only [run]; rw [Slot.mem_of ho]; exact opGather2_puts h ..
  | gatherFetch p x t c k => cases List.mem_singleton.mp hm; simp only [run]; rw [Slot.mem_of ho]; exact opGatherFetch_puts h ..
  | amx x p t c => cases List.mem_singleton.mp hm; simp only [run]; rw [Slot.mem_of ho]; exact opAMX_puts h ..
  | mr p r t c t2 c2 => cases List.mem_singleton.mp hm; simp only [run]; rw [Slot.mem_of ho]; exact opMR_puts h ..
  | mib p r t c => cases List.mem_singleton.mp hm; simp only [run]; rw [Slot.mem_of ho]; exact opMIB_puts h ..
  | loadSeg p r t c => cases List.mem_singleton.mp hm; simp only [run]; rw [Slot.mem_of ho]; exact opLoadSeg_puts h ..
  | fpuMem p b c d e f => cases List.mem_singleton.mp hm; simp only [run]; rw [Slot.mem_of ho]; exact opFpuMem_puts h ..
  | avx2 => cases List.mem_singleton.mp hm; simp only [run]; rw [ho]; exact opAVX_X_XM_IMM_puts h ..
  | avxK => cases List.mem_singleton.mp hm; simp only [run]; rw [ho]; exact opAVX_K_X_XM_puts h ..
  | vex => cases List.mem_singleton.mp hm; simp only [run]; rw [ho]; exact opVex_puts h ..
  | cvt => cases List.mem_singleton.mp hm; simp only [run]; rw [ho]; exact opCvt_puts h ..
  | cvt2 => cases List.mem_singleton.mp hm; simp only [run]; rw [ho]; exact opCvt2_puts h ..
  | cvt3 => cases List.mem_singleton.mp hm; simp only [run]; rw [ho]; exact opCvt3_puts h ..
  | cvt5 => cases List.mem_singleton.mp hm; simp only [run]; rw [ho]; exact opCvt5_puts h ..
  | cvt6 => cases List.mem_singleton.mp hm; simp only [run]; rw [ho]; exact opCvt6_puts h ..
  | vmov => cases List.mem_singleton.mp hm; simp only [run]; rw [ho]; exact opVmov_puts h ..
  | kmov => cases List.mem_singleton.mp hm; simp only [run]; rw [ho]; exact opKmov_puts h ..
  | sse => cases List.mem_singleton.mp hm; simp only [run]; rw [ho]; exact opSSE_puts h ..
  | sseApx => cases List.mem_singleton.mp hm; simp only [run]; rw [ho]; exact opSSE_APX_puts h ..
  | mmx => cases List.mem_singleton.mp hm; simp only [run]; rw [ho]; exact opMMX_puts h ..
  | ext => cases List.mem_singleton.mp hm; simp only [run]; rw [ho]; exact opExt_puts h ..
  | ro => cases List.mem_singleton.mp hm; simp only [run]; rw [ho]; exact opRO_puts h ..
  | rext => cases List.mem_singleton.mp hm; simp only [run]; rw [ho]; exact opRext_puts h ..
  | rextBnd => cases List.mem_singleton.mp hm; simp only [run]; rw [ho]; exact opRext_puts h ..
  | oi => cases List.mem_singleton.mp hm; simp only [run]; rw [ho]; exact opOI_puts h ..
  | incDec => cases List.mem_singleton.mp hm; simp only [run]; rw [ho]; exact opIncDec_puts h ..
  | shiftI => cases List.mem_singleton.mp hm; simp only [run]; rw [ho]; exact opShiftI_puts h ..
  | shiftCL => cases List.mem_singleton.mp hm; simp only [run]; rw [ho]; exact opShiftCL_puts h ..
  | shxd => cases List.mem_singleton.mp hm; simp only [run]; rw [ho]; exact opShxd_puts h ..
  | shxdCL => cases List.mem_singleton.mp hm; simp only [run]; rw [ho]; exact opShxd_puts h ..
  | setcc => cases List.mem_singleton.mp hm; simp only [run]; rw [ho]; exact opSetCC_puts h ..
  | ccmpi => cases List.mem_singleton.mp hm; simp only [run]; rw [ho]; exact opCcmpi_puts h ..
  | testi => cases List.mem_singleton.mp hm; simp only [run]; rw [ho]; exact opTesti_puts h ..
  | movxx => cases List.mem_singleton.mp hm; simp only [run]; rw [ho]; exact opMovxx_puts h ..
  | cnt => cases List.mem_singleton.mp hm; simp only [run]; rw [ho]; exact opCnt_puts h ..
  | bytes | mmxImm | encodeKey | rr | inOutDX | inOutImm | fpuFpu | fpu => cases hm

/-- The argument is used as register-or-memory operand in every case. -/
def Body.Uses (s : Slot) : Body → Bool
  | leaf l => l.mems.contains s
  | guard _ _ b | check _ _ _ b | pre _ _ b => b.Uses s
  | ite _ t e => t.Uses s && e.Uses s
  | apx _ a b' _ _ b => (s == a || s == b') && b.Uses s
  | jmp .. | jmpAbs .. => false

/-- The call made with these arguments is one of those of `Leaf.Silent`. -/
def Body.Silent (g : Args) : Body → Prop
  | leaf l => l.Silent g
  | guard _ _ b | check _ _ _ b | pre _ _ b | apx _ _ _ _ _ b => b.Silent g
  | ite c t e => if c g then t.Silent g else e.Silent g
  | jmp .. | jmpAbs .. => False

theorem Body.puts {g : Args} (b : Body) (hs : ¬ b.Silent g) {s : Slot} (hu : b.Uses s = true) {a : Addr} (h : a.Needs) (ho : s.op g = .mem a)
    {m : Enc Unit} (hm : b.run g = some m) : m.Puts a.IsField := by
  induction b generalizing m with
  | leaf l => cases hm; exact l.puts hs (List.contains_iff_mem.mp hu) h ho
  | guard bad err b ih =>
    obtain ⟨m', h', rfl⟩ := Option.map_eq_some_iff.mp hm
    exact .bindR fun _ => ih hs hu h'
  | check c x o b ih =>
    obtain ⟨m', h', rfl⟩ := Option.map_eq_some_iff.mp hm
    exact .bindR fun _ => ih hs hu h'
  | pre c x b ih =>
    obtain ⟨m', h', rfl⟩ := Option.map_eq_some_iff.mp hm
    exact .bindR fun _ => ih hs hu h'
  | ite c t e iht ihe =>
    unfold Body.run at hm
    unfold Body.Silent at hs
    have hu := Bool.and_eq_true_iff.mp hu
    cases hc : c g with
    | true =>
      rw [hc, if_pos rfl] at hm hs
      exact iht hs hu.1 hm
    | false =>
      rw [hc, if_neg Bool.false_ne_true] at hm hs
      exact ihe hs hu.2 hm
  | apx d p q t c b ih =>
    obtain ⟨m', h', rfl⟩ := Option.map_eq_some_iff.mp hm
    have hu := Bool.and_eq_true_iff.mp hu
    refine .bindD ?_ (ih hs hu.2 h')
    rcases Bool.or_eq_true_iff.mp hu.1 with he | he <;> cases eq_of_beq he <;> rw [ho]
    · exact opROO_puts1 h ..
    · exact opROO_puts2 h ..
  | jmp | jmpAbs => cases hm

end Mn
end Xbyak
