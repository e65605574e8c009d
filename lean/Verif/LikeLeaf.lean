import Verif.LikeOps
/-!
# The functions of the header treat alike operands alike
-/
set_option linter.unusedSimpArgs false
namespace Xbyak
namespace Mn
open E
open Enc

/-- Argument lists of the same length whose operands are alike one by one, with the same encoding preference; integers need not agree. -/
structure Args.Like (g g' : Args) : Prop where
  len : g.ops.length = g'.ops.length
  ops : ∀ (i : Nat) (o o' : Operand), g.ops[i]? = some o → g'.ops[i]? = some o' → o.Like o'
  enc : g.enc = g'.enc
  dflt : g.dflt = g'.dflt

/-- The numbers of the registers are in the same classes 0, 1, 2, 3, 4-7, 8-15, 16-31, whatever their kind. -/
def Args.Fine (g g' : Args) : Prop := ∀ i, repIdx (g.reg i).idx = repIdx (g'.reg i).idx

/-- The argument is a general register with the number of an operand of another kind. -/
def Slot.casts : Slot → Bool
  | gp16Of _ | gp64Of _ => true
  | _ => false

namespace Args.Like
variable {g g' : Args} (h : g.Like g')
include h

theorem opt (i : Nat) : OpLike g.ops[i]? g'.ops[i]? := by
  cases h1 : g.ops[i]? <;> cases h2 : g'.ops[i]?
  · exact trivial
  · rw [List.getElem?_eq_none_iff, h.len, ← List.getElem?_eq_none_iff, h2] at h1; cases h1
  · rw [List.getElem?_eq_none_iff, ← h.len, ← List.getElem?_eq_none_iff, h1] at h2; cases h2
  · exact h.ops i _ _ h1 h2
theorem op (i : Nat) : (g.op i).Like (g'.op i) := by
  unfold Args.op
  rcases (h.opt i).or with ⟨h1, h2⟩ | ⟨r, s, h1, h2, h3⟩ <;> rw [h1, h2]
  · exact Operand.Like.refl _
  · exact h3
theorem reg (i : Nat) : (g.reg i).Like (g'.reg i) := (h.op i).hd
theorem isMEM (i : Nat) : (g.op i).isMEM = (g'.op i).isMEM := (h.op i).isMEM
theorem isNone (i : Nat) : (g.ops[i]?).isNone = (g'.ops[i]?).isNone := by
  rcases (h.opt i).or with ⟨h1, h2⟩ | ⟨r, s, h1, h2, h3⟩ <;> rw [h1, h2] <;> rfl
theorem mem (i : Nat) : (g.mem i).Like (g'.mem i) := by
  unfold Args.mem
  rcases (h.op i).or with ⟨r, s, h1, h2, h3⟩ | ⟨r, s, h1, h2, h3⟩ <;> rw [h1, h2]
  · exact Addr.Like.refl _
  · exact h3

theorem slot (s : Slot) (hs : s.casts = true → g.Fine g') : (s.op g).Like (s.op g') := by
  cases s with
  | a i => exact h.op i
  | r q => exact Operand.Like.refl _
  | xmmOf i => exact xmm_like (h.reg i).cidx
  | ymmOf i => exact ymm_like (h.reg i).cidx
  | gp16Of i => exact gp_like (hs rfl i) 16
  | gp64Of i => exact gp_like (hs rfl i) 64
  | kindOf i n => unfold Slot.op; dsimp only; rw [(h.reg i).kind]; exact Operand.Like.refl _
  | zeroOf i => unfold Slot.op; dsimp only; rw [cvtIdx0_like (h.reg i)]; exact Operand.Like.refl _
  | bitOf i n => unfold Slot.op; dsimp only; rw [(h.reg i).bit]; exact Operand.Like.refl _
  | nfOf i => exact (h.reg i).setNF
theorem slotReg (s : Slot) (hs : s.casts = true → g.Fine g') : (s.reg g).Like (s.reg g') := (h.slot s hs).hd
theorem slotOpt (s : Slot) (hs : s.casts = true → g.Fine g') : OpLike (s.opt g) (s.opt g') := by
  have k := h.slot s hs
  cases s with
  | a i => exact h.opt i
  | _ => exact k
omit h in
theorem slotFine (hf : g.Fine g') (s : Slot) : repIdx (s.reg g).idx = repIdx (s.reg g').idx := by
  cases s with
  | a i => exact hf i
  | nfOf i => exact hf i
  | xmmOf i => exact hf i
  | ymmOf i => exact hf i
  | gp16Of i => exact hf i
  | gp64Of i => exact hf i
  | zeroOf i =>
    have h0 : ∀ r : Reg, (cvtIdx0 r).idx = 0 := fun r => by unfold cvtIdx0; split; rfl; split <;> rfl
    show repIdx (cvtIdx0 _).idx = repIdx (cvtIdx0 _).idx
    rw [h0, h0]
  | _ => rfl
theorem slotMem (s : Slot) : (s.mem g).Like (s.mem g') := by
  cases s with
  | a i => exact h.mem i
  | _ => exact Addr.Like.refl _
theorem slotO (s : Option Slot) (hs : ∀ x, s = some x → x.casts = true → g.Fine g') : OLike (s.map (·.reg g)) (s.map (·.reg g')) := by
  cases s with
  | none => trivial
  | some s => exact h.slotReg s (hs s rfl)

theorem chk (c : Chk) : c.fn g = c.fn g' := by
  cases c with
  | any => rfl
  | isREG i m => exact (h.reg i).isREG m
  | isREGbits i m j => unfold Chk.fn; dsimp only; rw [(h.reg i).isREG, (h.reg i).bit, (h.reg j).bit]
  | bits i j => unfold Chk.fn; dsimp only; rw [(h.reg i).bit, (h.reg j).bit]
  | kinds i j => unfold Chk.fn; dsimp only; rw [(h.reg i).kind, (h.reg j).kind]
  | isBND i => exact (h.reg i).isBNDREG

theorem check (c : Check) (x o : Slot) (hx : x.casts = true → g.Fine g') (ho : o.casts = true → g.Fine g') : (c.run (x.reg g) (o.op g)).res = (c.run (x.reg g') (o.op g')).res := by
  cases c
  · exact checkCvt1_like (h.slotReg x hx) (h.slot o ho)
  · exact checkCvt4_like (h.slotReg x hx) (h.slot o ho)

end Args.Like

theorem Valid.like (v : Valid) : VLike v.fn := by
  cases v
  · trivial
  · exact .some xx_like
  · exact .some mx_like
  · exact .some xm_like
  · exact .some xr_like
  · exact .some rx_like
  · exact .some rr_like

/-- The call compares register numbers with each other (`opGather`, `opGather2`). -/
def Leaf.compares : Leaf → Bool
  | gather .. | gather2 .. => true
  | _ => false

/-- The call looks at the value of an integer argument. -/
def Leaf.looks : Leaf → Bool
  | oi .. | roi .. | ccmp .. | ccmpi .. | testi .. => true
  | _ => false

/-- The arguments that are operands. -/
def Leaf.args : Leaf → List Slot
  | bytes _ | raw _ => []
  | avx3 a b c _ _ _ | avxK a b c _ _ _ | cvt3 a b c _ _ _ _ | cvt6 a b c _ _ | encoding a b c _ _ _ _ _ _ | gather a b c _ _ _ | roo a b c _ _ | rro a b c _ _ _
  | shxd a b c _ _ _ | cfcmov a b c _ => [a, b, c]
  | avx2 a b _ _ _ | vexCB a b _ _ _ | cvt a b _ _ | cvt2 a b _ _ | cvt5 a b _ _ | cvt2Enc a b _ _ _ _ _ | vmov a b _ _ _ | gather2 a b _ _ _ | gatherFetch a b _ _ _
  | kmov a b _ _ | amx a b _ _ | sse a b _ _ _ _ | sseApx a b _ _ _ _ _ | mmx a b _ _ _ _ | movXmm a b _ _ | ext a b _ _ _ | encodeKey a b _ _ | rr a b _ _
  | ro a b _ _ _ | mr a b _ _ _ _ | mib a b _ _ | loadSeg a b _ _ | rextBnd a b _ _ | roMr a b _ | roi a b _ _ _ | incDec a b _ | ccmp a b _ _ _ | movxx a b _ | cnt a b _
  | inOutDX a b _ | fpuFpu a b _ _ => [a, b]
  | mmxImm a _ _ _ | rext a _ _ _ _ | rextI a _ _ _ _ _ | oi a _ _ _ | setcc a _ | ccmpi a _ _ _ | testi a _ _ _ | inOutImm a _ _ | fpuMem a _ _ _ _ _ | fpu a _ _ => [a]
  | vex a v b _ _ _ => a :: b :: v.toList
  | shiftI a _ _ d => a :: d.toList
  | shiftCL a b _ d => a :: b :: d.toList
  | shxdCL a b c d _ _ => [a, b, c, d]

/-- The call compares a register number with 0, 1 or 2 whatever the kind of the register, or makes a general register of an operand. -/
def Leaf.exact (l : Leaf) : Bool := l.args.any Slot.casts || match l with
  | vexCB .. | raw _ | shiftCL .. | shxdCL .. | fpuFpu .. | inOutDX .. | inOutImm .. | rextBnd .. => true
  | _ => false

theorem Leaf.exact_casts {l : Leaf} {s : Slot} (h : s ∈ l.args) (hs : s.casts = true) : l.exact = true := by
  unfold Leaf.exact
  rw [Bool.or_eq_true]
  exact .inl (List.any_eq_true.2 ⟨s, h, hs⟩)

theorem Raw.run_like {g g' : Args} (h : g.Like g') (hf : g.Fine g') (r : Raw) : (r.run g).res = (r.run g').res := by
  cases r <;> unfold Raw.run <;> dsimp only <;> encres
  · exact bind_likeRes ((h.reg 0).cvtGp (hf 0) 32) fun a b k => opMR_like (h.mem 1) k _ _ _ _ _ _
  · simp only [Bool.cond_self]
  · simp only [Bool.cond_self]
  · simp only [(h.reg 0).gt7, setModRM_res]
  · simp only [(h.reg 0).gt7, (h.reg 0).bit, setModRM_res]
  · simp only [(h.reg 0).gt7, setModRM_res]
  · exact bind_likeRes ((h.reg 0).cvtGp (hf 0) 32) fun a b k => opRR_like (.refl _) k _ _ _

theorem Leaf.run_like {g g' : Args} (h : g.Like g') (l : Leaf) (hc : l.compares = false) (hi : l.looks = true → g.ints = g'.ints)
    (hx : l.exact = true → g.Fine g') : (l.run g).res = (l.run g').res := by
  have h32 : l.looks = true → ∀ i, g.i32 i = g'.i32 i := fun k i => by unfold Args.i32 Args.int; rw [hi k]
  have hs : ∀ s ∈ l.args, s.casts = true → g.Fine g' := fun s k m => hx (l.exact_casts k m)
  cases l <;> unfold Leaf.run
  case bytes => rfl
  case avx3 => exact opAVX_X_X_XM_like (h.slotReg _ (hs _ (by simp [Leaf.args]))) (h.slot _ (hs _ (by simp [Leaf.args]))) (h.slotOpt _ (hs _ (by simp [Leaf.args]))) _ _ _ _
  case avx2 => exact opAVX_X_XM_IMM_like (h.slotReg _ (hs _ (by simp [Leaf.args]))) (h.slot _ (hs _ (by simp [Leaf.args]))) _ _ _ _
  case avxK => exact opAVX_K_X_XM_like (h.slotReg _ (hs _ (by simp [Leaf.args]))) (h.slot _ (hs _ (by simp [Leaf.args]))) (h.slotReg _ (hs _ (by simp [Leaf.args]))) _ _ _ _
  case vex => exact opVex_like (h.slotReg _ (hs _ (by simp [Leaf.args]))) (h.slotO _ (fun _ e => hs _ (by simp [Leaf.args, e]))) (h.slot _ (hs _ (by simp [Leaf.args]))) _ _ _ _
  case vexCB k op t c i =>
    dsimp only; encres; rw [(h.slot op (hs _ (by simp [Leaf.args]))).bit]
    exact bind_likeRes ((h.slotReg k (hs _ (by simp [Leaf.args]))).setBit (Args.Like.slotFine (hx (by simp [Leaf.exact])) k) _) fun a b k => opVex_like k (OLike.refl none) (h.slot _ (hs _ (by simp [Leaf.args]))) _ _ _ _
  case cvt => exact opCvt_like (h.slotReg _ (hs _ (by simp [Leaf.args]))) (h.slot _ (hs _ (by simp [Leaf.args]))) _ _
  case cvt2 => exact opCvt2_like (h.slotReg _ (hs _ (by simp [Leaf.args]))) (h.slot _ (hs _ (by simp [Leaf.args]))) _ _
  case cvt3 => exact opCvt3_like (h.slotReg _ (hs _ (by simp [Leaf.args]))) (h.slot _ (hs _ (by simp [Leaf.args]))) (h.slotReg _ (hs _ (by simp [Leaf.args]))) _ _ _ _
  case cvt5 => exact opCvt5_like (h.slotReg _ (hs _ (by simp [Leaf.args]))) (h.slot _ (hs _ (by simp [Leaf.args]))) _ _
  case cvt6 => exact opCvt6_like (h.slotReg _ (hs _ (by simp [Leaf.args]))) (h.slot _ (hs _ (by simp [Leaf.args]))) (h.slotReg _ (hs _ (by simp [Leaf.args]))) _ _
  case encoding => dsimp only; rw [h.enc, h.dflt]; exact opEncoding_like _ (h.slotReg _ (hs _ (by simp [Leaf.args]))) (h.slotReg _ (hs _ (by simp [Leaf.args]))) (h.slotOpt _ (hs _ (by simp [Leaf.args]))) _ _ _ _ _ _ _ _
  case cvt2Enc =>
    dsimp only; rw [h.enc, h.dflt]; encres
    exact bind_congr' rfl fun _ => opCvt2_like (h.slotReg _ (hs _ (by simp [Leaf.args]))) (h.slot _ (hs _ (by simp [Leaf.args]))) _ _
  case vmov => exact opVmov_like (h.slotReg _ (hs _ (by simp [Leaf.args]))) (h.slot _ (hs _ (by simp [Leaf.args]))) _ _ _
  case gather => cases hc
  case gather2 => cases hc
  case gatherFetch => exact opGatherFetch_like (h.slotMem _) (h.slotReg _ (hs _ (by simp [Leaf.args]))) _ _ _
  case kmov => exact opKmov_like (h.slotReg _ (hs _ (by simp [Leaf.args]))) (h.slot _ (hs _ (by simp [Leaf.args]))) _ _
  case amx => exact opAMX_like (h.slotReg _ (hs _ (by simp [Leaf.args]))) (h.slotMem _) _ _
  case sse => exact opSSE_like (h.slotReg _ (hs _ (by simp [Leaf.args]))) (h.slot _ (hs _ (by simp [Leaf.args]))) _ _ _ (Valid.like _) _ _
  case sseApx => exact opSSE_APX_like (h.slotReg _ (hs _ (by simp [Leaf.args]))) (h.slot _ (hs _ (by simp [Leaf.args]))) _ _ _ _ _ _
  case mmx => exact opMMX_like (h.slotReg _ (hs _ (by simp [Leaf.args]))) (h.slot _ (hs _ (by simp [Leaf.args]))) _ _ _ _ _
  case mmxImm => exact opMMX_IMM_like (h.slotReg _ (hs _ (by simp [Leaf.args]))) _ _ _ _
  case movXmm => exact opMovXMM_like (h.slot _ (hs _ (by simp [Leaf.args]))) (h.slot _ (hs _ (by simp [Leaf.args]))) _ _
  case ext => exact opExt_like (h.slotReg _ (hs _ (by simp [Leaf.args]))) (h.slot _ (hs _ (by simp [Leaf.args]))) _ _ _ _
  case encodeKey => exact opEncodeKey_like (h.slotReg _ (hs _ (by simp [Leaf.args]))) (h.slotReg _ (hs _ (by simp [Leaf.args]))) _ _
  case rr => exact opRR_like (h.slotReg _ (hs _ (by simp [Leaf.args]))) (h.slotReg _ (hs _ (by simp [Leaf.args]))) _ _ _
  case ro => dsimp only; rw [h.chk]; exact opRO_like (h.slotReg _ (hs _ (by simp [Leaf.args]))) (h.slot _ (hs _ (by simp [Leaf.args]))) _ _ _ _ _ _
  case mr => exact opMR_like (h.slotMem _) (h.slotReg _ (hs _ (by simp [Leaf.args]))) _ _ _ _ _ _
  case mib => exact opMIB_like (h.slotMem _) (h.slotReg _ (hs _ (by simp [Leaf.args]))) _ _
  case loadSeg => exact opLoadSeg_like (h.slotMem _) (h.slotReg _ (hs _ (by simp [Leaf.args]))) _ _
  case rext => exact opRext_like (h.slot _ (hs _ (by simp [Leaf.args]))) _ rfl _ _ _ _ _ _ (OLike.refl none)
  case rextI op b e t c i => dsimp only; encres; rw [opRext_like (h.slot op (hs _ (by simp [Leaf.args]))) b (e := e) rfl t c c false 1 1 (OLike.refl none)]
  case rextBnd op b t c => dsimp only; rw [(h.slot op (hs _ (by simp [Leaf.args]))).isMEM]; exact opRext_like (h.slot op (hs _ (by simp [Leaf.args]))) _ (Args.Like.slotFine (hx (by simp [Leaf.exact])) b) _ _ _ _ _ _ (OLike.refl none)
  case roo d a b t c => dsimp only; encres; rw [opROO_like (h.slotReg d (hs _ (by simp [Leaf.args]))) (h.slot a (hs _ (by simp [Leaf.args]))) (h.slot b (hs _ (by simp [Leaf.args]))) t c c 0 0 none none]
  case rro => exact opRRO_like (h.slotReg _ (hs _ (by simp [Leaf.args]))) (h.slotReg _ (hs _ (by simp [Leaf.args]))) (h.slot _ (hs _ (by simp [Leaf.args]))) _ _ _ _
  case roMr => exact opRO_MR_like (h.slot _ (hs _ (by simp [Leaf.args]))) (h.slot _ (hs _ (by simp [Leaf.args]))) _
  case oi => dsimp only; rw [h32 rfl]; exact opOI_like (h.slot _ (hs _ (by simp [Leaf.args]))) _ _ _
  case roi => dsimp only; rw [h32 rfl]; exact opROI_like (h.slotReg _ (hs _ (by simp [Leaf.args]))) (h.slot _ (hs _ (by simp [Leaf.args]))) _ _ _
  case incDec => exact opIncDec_like (h.slotReg _ (hs _ (by simp [Leaf.args]))) (h.slot _ (hs _ (by simp [Leaf.args]))) _
  case shiftI => exact opShiftI_like (h.slot _ (hs _ (by simp [Leaf.args]))) _ _ _ (h.slotO _ (fun _ e => hs _ (by simp [Leaf.args, e])))
  case shiftCL op cl e d => exact opShiftCL_like (h.slot op (hs _ (by simp [Leaf.args]))) (Args.Like.slotFine (hx (by simp [Leaf.exact])) cl) _ (h.slotO _ (fun _ e => hs _ (by simp [Leaf.args, e])))
  case shxd d op r i c c2 => exact opShxd_like (h.slotReg d (hs _ (by simp [Leaf.args]))) (h.slot op (hs _ (by simp [Leaf.args]))) (h.slotReg r (hs _ (by simp [Leaf.args]))) _ _ _ _ (OLike.refl none) (fun _ _ e => by cases e)
  case shxdCL d op r cl c c2 =>
    exact opShxd_like (h.slotReg d (hs _ (by simp [Leaf.args]))) (h.slot op (hs _ (by simp [Leaf.args]))) (h.slotReg r (hs _ (by simp [Leaf.args]))) _ _ _ _ (cl := some (cl.reg g)) (cl' := some (cl.reg g'))
      (h.slotReg cl (hs _ (by simp [Leaf.args]))) (fun _ _ e e' => by cases e; cases e'; exact Args.Like.slotFine (hx (by simp [Leaf.exact])) cl)
  case setcc => exact opSetCC_like (h.slot _ (hs _ (by simp [Leaf.args]))) _
  case ccmp => dsimp only; rw [h32 rfl]; exact opCcmp_like (h.slot _ (hs _ (by simp [Leaf.args]))) (h.slot _ (hs _ (by simp [Leaf.args]))) _ _ _
  case ccmpi => dsimp only; rw [h32 rfl, h32 rfl]; exact opCcmpi_like (h.slot _ (hs _ (by simp [Leaf.args]))) _ _ _
  case testi => dsimp only; rw [h32 rfl, h32 rfl]; exact opTesti_like (h.slot _ (hs _ (by simp [Leaf.args]))) _ _ _
  case cfcmov => exact opCfcmov_like (h.slotReg _ (hs _ (by simp [Leaf.args]))) (h.slot _ (hs _ (by simp [Leaf.args]))) (h.slot _ (hs _ (by simp [Leaf.args]))) _
  case movxx => exact opMovxx_like (h.slotReg _ (hs _ (by simp [Leaf.args]))) (h.slot _ (hs _ (by simp [Leaf.args]))) _
  case cnt => exact opCnt_like (h.slotReg _ (hs _ (by simp [Leaf.args]))) (h.slot _ (hs _ (by simp [Leaf.args]))) _
  case inOutDX a d c => exact opInOutDX_like (h.slotReg a (hs _ (by simp [Leaf.args]))) (h.slotReg d (hs _ (by simp [Leaf.args]))) (Args.Like.slotFine (hx (by simp [Leaf.exact])) a) (Args.Like.slotFine (hx (by simp [Leaf.exact])) d) _
  case inOutImm a c i => exact opInOutImm_like (h.slotReg a (hs _ (by simp [Leaf.args]))) (Args.Like.slotFine (hx (by simp [Leaf.exact])) a) _ _ _
  case fpuMem => exact opFpuMem_like (h.slotMem _) _ _ _ _ _
  case fpuFpu => exact opFpuFpu_like (Args.Like.slotFine (hx (by simp [Leaf.exact])) _) (Args.Like.slotFine (hx (by simp [Leaf.exact])) _) _ _
  case fpu => exact opFpu_like _ _ _ _
  case raw => exact Raw.run_like h (hx rfl) _

/-- The tests written in the line give the same answer for alike arguments; with `fine`, if the classes of the numbers are those of general
registers. -/
def Body.Resp (fine : Bool) : Body → Prop
  | leaf _ => True
  | guard bad _ b => (∀ g g' : Args, g.Like g' → (fine = true → g.Fine g') → bad g = bad g') ∧ b.Resp fine
  | check _ _ _ b => b.Resp fine
  | pre _ _ b => b.Resp fine
  | ite c t e => (∀ g g' : Args, g.Like g' → (fine = true → g.Fine g') → c g = c g') ∧ t.Resp fine ∧ e.Resp fine
  | apx _ _ _ _ _ b => b.Resp fine
  | jmp .. => True
  | jmpAbs .. => True

/-- Some call of the line is `Leaf.exact`. -/
def Body.exact : Body → Bool
  | leaf l => l.exact
  | guard _ _ b => b.exact
  | check _ x o b => x.casts || o.casts || b.exact
  | pre _ _ b => b.exact
  | ite _ t e => t.exact || e.exact
  | apx d x o _ _ b => d.casts || x.casts || o.casts || b.exact
  | jmp .. => false
  | jmpAbs .. => false

theorem Body.run_like {g g' : Args} (h : g.Like g') {fine : Bool} (hf : fine = true → g.Fine g') : ∀ (b : Body), b.Resp fine → (∀ l ∈ b.leaves, l.compares = false) →
    ((∃ l ∈ b.leaves, l.looks = true) → g.ints = g'.ints) → (b.exact = true → g.Fine g') → (b.run g).map (·.res) = (b.run g').map (·.res)
  | leaf l, _, hc, hi, hx => congrArg some (Leaf.run_like h l (hc l (List.mem_singleton.2 rfl)) (fun k => hi ⟨l, List.mem_singleton.2 rfl, k⟩) hx)
  | guard bad e b, hr, hc, hi, hx => by
    have ih := run_like h hf b hr.2 hc hi hx
    unfold run
    cases h1 : b.run g <;> cases h2 : b.run g' <;> rw [h1, h2] at ih <;> first | cases ih; done | skip
    · rfl
    · replace ih := Option.some.inj ih
      dsimp only at ih
      refine congrArg some ?_
      show (throwIf (bad g) e >>= fun _ => _).res = (throwIf (bad g') e >>= fun _ => _).res
      encres; rw [hr.1 g g' h hf, ih]
  | check c x o b, hr, hc, hi, hx => by
    have ih := run_like h hf b hr hc hi fun k => hx (by unfold exact; rw [k]; simp)
    unfold run
    cases h1 : b.run g <;> cases h2 : b.run g' <;> rw [h1, h2] at ih <;> first | cases ih; done | skip
    · rfl
    · replace ih := Option.some.inj ih
      dsimp only at ih
      refine congrArg some ?_
      show (c.run (x.reg g) (o.op g) >>= fun _ => _).res = (c.run (x.reg g') (o.op g') >>= fun _ => _).res
      encres; rw [h.check c x o (fun k => hx (by unfold exact; rw [k]; simp)) (fun k => hx (by unfold exact; rw [k]; simp)), ih]
  | pre c x b, hr, hc, hi, hx => by
    have ih := run_like h hf b hr hc hi hx
    unfold run
    cases h1 : b.run g <;> cases h2 : b.run g' <;> rw [h1, h2] at ih <;> first | cases ih; done | skip
    · rfl
    · replace ih := Option.some.inj ih
      dsimp only at ih
      refine congrArg some ?_
      show (dbIf (c g) x >>= fun _ => _).res = (dbIf (c g') x >>= fun _ => _).res
      encres; rw [ih]
  | ite c t e, hr, hc, hi, hx => by
    unfold run
    rw [← hr.1 g g' h hf]
    split
    · exact run_like h hf t hr.2.1 (fun l k => hc l (List.mem_append_left _ k)) (fun ⟨l, k, m⟩ => hi ⟨l, List.mem_append_left _ k, m⟩) fun k => hx (by unfold exact; rw [k]; simp)
    · exact run_like h hf e hr.2.2 (fun l k => hc l (List.mem_append_right _ k)) (fun ⟨l, k, m⟩ => hi ⟨l, List.mem_append_right _ k, m⟩) fun k => hx (by unfold exact; rw [k]; simp)
  | apx d a o t c b, hr, hc, hi, hx => by
    have ih := run_like h hf b hr hc hi fun k => hx (by unfold exact; rw [k]; simp)
    unfold run
    cases h1 : b.run g <;> cases h2 : b.run g' <;> rw [h1, h2] at ih <;> first | cases ih; done | skip
    · rfl
    · replace ih := Option.some.inj ih
      dsimp only at ih
      refine congrArg some ?_
      show (opROO (d.reg g) (a.op g) (o.op g) t c >>= fun _ => _).res = (opROO (d.reg g') (a.op g') (o.op g') t c >>= fun _ => _).res
      encres; rw [opROO_like (h.slotReg d fun k => hx (by unfold exact; rw [k]; simp)) (h.slot a fun k => hx (by unfold exact; rw [k]; simp)) (h.slot o fun k => hx (by unfold exact; rw [k]; simp)) t c c 0 0 none none, ih]
  | jmp .., _, _, _, _ => rfl
  | jmpAbs .., _, _, _, _ => rfl

end Mn
end Xbyak
