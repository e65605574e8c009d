import Verif.High
import Verif.Props.Distinct
/-!
# C42: registers 16-31 in instructions that cannot name them

A call of a function of the vector families with a register or vector index from 16 on writes an EVEX instruction or throws, with the
exceptions refuted at the end.
-/
namespace Xbyak
namespace Mn
open E

/-- The bytes are an instruction with an EVEX prefix, the only encoding with five bits for a vector register. -/
def IsEvex (l : List Byte) : Prop := ∃ h t, X86.head l = some (h, t) ∧ h.space = .evex

/-- Operand `i` goes into the upper half of the immediate byte (four bits). -/
def Entry.is4 (e : Entry) (i : Nat) : Bool := e.body.leaves.any fun
  | .avx3 _ _ _ _ _ (.is4 j) => j == i
  | _ => false

/-- The function calls one of the SSE helpers, which check the number of xmm registers only. -/
def Entry.sse (e : Entry) : Bool := e.body.leaves.any fun l => !l.xslots.isEmpty

/-- The function is one of the AVX2 gathers. -/
def Entry.gathers (e : Entry) : Bool := e.body.leaves.any fun
  | .gather .. => true
  | _ => false

def Param.simd : Param → Bool | .op | .reg | .mmx | .xmm | .ymm | .zmm => true | _ => false
def Param.memory : Param → Bool | .op | .addr => true | _ => false

/-- The operand parameters. -/
def Entry.ps (e : Entry) : List Param := e.params.filter Param.isOperand

/-- Lines whose own checks refuse the register (708, 711) or that pass it as a general register (1882, 1883); 1439 tests for a register. -/
def special (n : Nat) : Bool := Nat.beq n 708 || Nat.beq n 711 || Nat.beq n 1882 || Nat.beq n 1883

def upto : Nat → (Nat → Bool) → Bool
  | 0, _ => true
  | n + 1, f => f n && upto n f
theorem upto_at {f : Nat → Bool} : ∀ {n i : Nat}, upto n f = true → i < n → f i = true
  | n + 1, i, h, hi => by
    simp only [upto, Bool.and_eq_true] at h
    rcases Nat.lt_or_eq_of_le (Nat.le_of_lt_succ hi) with h' | rfl
    · exact upto_at h.2 h'
    · exact h.1

set_option maxRecDepth 1000000 in
theorem high_check : (all.all fun e => !e.vec || upto e.ps.length fun i =>
    (!((e.ps[i]?).getD .int).simd || ((e.heedsX i || e.is4 i || special e.line) && (e.sse || e.heeds i || e.is4 i))) &&
    (!((e.ps[i]?).getD .int).memory || e.heedsI i || e.gathers || Nat.beq e.line 1439)) = true := by decide +kernel

set_option maxRecDepth 1000000 in
theorem line708 : (all.filter fun e => e.line == 708) = [⟨708, n!"movntdq", [.addr, .xmm], 0, .guard (fun g => decide ((g.reg 1).idx.toNat ≥ 16)) .BAD_PARAMETER
    (.leaf (.sse (.gp16Of 1) (.a 0) T_0F 0xE7 .any .none))⟩] := rfl
set_option maxRecDepth 1000000 in
theorem line711 : (all.filter fun e => e.line == 711) = [⟨711, n!"movntpd", [.addr, .xmm], 0, .guard (fun g => decide ((g.reg 1).idx.toNat ≥ 16)) .BAD_PARAMETER
    (.leaf (.sse (.gp16Of 1) (.a 0) T_0F 0x2B .any .none))⟩] := rfl
set_option maxRecDepth 1000000 in
theorem line1882 : (all.filter fun e => e.line == 1882) = [⟨1882, n!"pextrq", [.op, .xmm, .int], 0, .guard (fun g => !((g.reg 0).isREG 64) && !((g.op 0).isMEM))
    .BAD_COMBINATION (.leaf (.sse (.gp64Of 1) (.a 0) (fl [T_66, T_0F3A]) 0x16 .any (.i 0)))⟩] := rfl
set_option maxRecDepth 1000000 in
theorem line1883 : (all.filter fun e => e.line == 1883) = [⟨1883, n!"pinsrq", [.xmm, .op, .int], 0, .guard (fun g => !((g.reg 1).isREG 64) && !((g.op 1).isMEM))
    .BAD_COMBINATION (.leaf (.sse (.gp64Of 0) (.a 1) (fl [T_66, T_0F3A]) 0x22 .any (.i 0)))⟩] := rfl
set_option maxRecDepth 1000000 in
theorem line1439 : (all.filter fun e => e.line == 1439) = [⟨1439, n!"vpextrw", [.op, .xmm, .int], 0,
    .guard (fun g => !(((g.reg 0).isREG 112 || (g.op 0).isMEM) && (g.reg 1).isXMM)) .BAD_COMBINATION
    (.ite (fun g => (g.reg 0).isREG && decide ((g.reg 1).idx.toNat < 16)) (.leaf (.avx3 (.xmmOf 0) (.r (.xmm 0)) (.a 1) (fl [T_0F, T_66]) 0xC5 (.i 0)))
    (.leaf (.vex (.a 1) none (.a 0) (fl [T_0F3A, T_66, T_EVEX, T_N2]) 0x15 (.i 0))))⟩] := rfl

/-- A general register from 16 on cannot be written in the maps 0F38 and 0F3A. -/
theorem opSSE_rex2 {r : Reg} {op : Operand} {c : Byte} {imm : Option Byte} (h : r.hasRex2 = true) : (opSSE r op (fl [T_66, T_0F3A]) c none imm).Refused := by
  unfold opSSE
  refine Enc.Refused.throwIf fun _ => Enc.Refused.throwIf fun _ => ?_
  intro w v hw
  simp only [Enc.gives_bind] at hw
  obtain ⟨w1, v1, _, hw, _⟩ := hw
  unfold opRO at hw
  cases op with
  | mem a =>
    obtain ⟨_, _, hr, _⟩ := (opMR_gives _ r _ c (fun h => absurd h (by decide)) w1).1 hw
    have := hr.2.2 (by show (r.hasRex2 || _) = true; rw [h]; rfl)
    exact absurd this (by decide)
  | reg q =>
    dsimp only at hw
    rw [Enc.throwIf_bind] at hw
    obtain ⟨_, _, hr, _⟩ := (opRR_gives r q _ c (fun h => absurd h (by decide)) w1).1 hw.2
    have := hr.2.2 (by show (_ || r.hasRex2) = true; rw [h, Bool.or_true])
    exact absurd this (by decide)

/-- The parameter of an operand that is not the empty default. -/
theorem Args.Fits.at {g : Args} {e : Entry} (h : g.Fits e.params e.opt) {i : Nat} (hi : g.op i ≠ .reg .nil) :
    ∃ p, e.ps[i]? = some p ∧ p.takes (g.op i) = true ∧ i < e.ps.length := by
  unfold Args.op at hi ⊢
  cases ho : g.ops[i]? with
  | none => rw [ho] at hi; exact absurd rfl hi
  | some o =>
    have hl : i < g.ops.length := (List.getElem?_eq_some_iff.mp ho).1
    have hp : i < e.ps.length := Nat.lt_of_lt_of_le hl h.1
    refine ⟨e.ps[i], List.getElem?_eq_getElem hp, ?_, hp⟩
    exact h.2.2 i _ o (List.getElem?_eq_getElem hp) ho

theorem Param.simd_of {p : Param} {q : Reg} (h : p.takes (.reg q) = true) (hs : q.isSIMD = true) : p.simd = true := by
  have hk : q.kind = .xmm ∨ q.kind = .ymm ∨ q.kind = .zmm := by
    cases hk : q.kind <;> simp [Reg.isSIMD, Reg.isXMM, Reg.isYMM, Reg.isZMM, hk] at hs <;> simp
  cases p <;> simp only [Param.takes, Operand.isMEM, Operand.isREG, Operand.hd, Reg.isREG, Reg.isTMM, Reg.isOPMASK, Reg.isBNDREG, Bool.and_eq_true, Bool.not_false,
    true_and, beq_iff_eq, Bool.false_eq_true] at h
  all_goals first
    | rfl
    | (rcases hk with hk | hk | hk <;> simp [hk] at h)

theorem Param.memory_of {p : Param} {a : Addr} (h : p.takes (.mem a) = true) : p.memory = true := by
  cases p <;> first | rfl | simp [Param.takes, Operand.isMEM] at h

theorem notNil {g : Args} {i : Nat} {q : Reg} (h : g.op i = .reg q) (hq : 16 ≤ q.idx.toNat) : g.op i ≠ .reg .nil := by
  rw [h]; rintro ⟨⟩; exact absurd hq (by decide)

/-- C42, first part: a call with one of xmm16-31 writes an EVEX instruction or throws; if the instruction has no EVEX form it throws
(`c42_refuses`).  Partial: not for the operand of vblendvps, vblendvpd and vpblendvb that is written into the immediate
(`c42_refuted_is4`). -/
theorem c42_xmm_partial {e : Entry} (ve : e.vec = true) {g : Args} {w : List Act} (hc : Calls e g w) {i : Nat} {q : Reg} (h : g.op i = .reg q)
    (hx : q.isXMM = true) (hq : 16 ≤ q.idx.toNat) (h4 : e.is4 i = false) (fill : Act → BitVec 32) : IsEvex (concr fill w) := by
  have hE : q.isExtIdx2 = true := (hi5 _).mpr hq
  have hS : q.isSIMD = true := by unfold Reg.isSIMD; rw [hx]; rfl
  obtain ⟨p, hp, ht, hl⟩ := hc.fits.at (notNil h hq)
  have hp' := Param.simd_of (h ▸ ht) hS
  have := List.all_eq_true.mp high_check e hc.mem
  rw [ve, Bool.not_true, Bool.false_or] at this
  have := upto_at this hl
  rw [hp, Option.getD_some, hp', h4, Bool.not_true, Bool.false_or] at this
  simp only [Bool.and_eq_true, Bool.or_eq_true, Bool.false_eq_true, or_false] at this
  obtain ⟨m, hm, hw⟩ := hc.runs
  rcases this.1.1 with h1 | h1
  · exact Entry.evexX h1 h hx hE hm w () hw fill
  · exfalso
    unfold special at h1
    simp only [Bool.or_eq_true, Nat.beq_eq] at h1
    rcases h1 with ((h1 | h1) | h1) | h1
    · obtain rfl := mem_line hc.mem h1 line708
      have h2 : i = 1 := by
        have : i < 2 := hl
        rcases (by omega : i = 0 ∨ i = 1) with rfl | rfl
        · cases hp; rw [h] at ht; cases ht
        · rfl
      subst h2
      simp only [Body.run, Option.map_some, Option.some.injEq] at hm
      subst hm
      rw [Enc.throwIf_bind] at hw
      have := hw.1
      unfold Args.reg at this
      rw [h] at this
      simp [Operand.hd] at this
      omega
    · obtain rfl := mem_line hc.mem h1 line711
      have h2 : i = 1 := by
        have : i < 2 := hl
        rcases (by omega : i = 0 ∨ i = 1) with rfl | rfl
        · cases hp; rw [h] at ht; cases ht
        · rfl
      subst h2
      simp only [Body.run, Option.map_some, Option.some.injEq] at hm
      subst hm
      rw [Enc.throwIf_bind] at hw
      have := hw.1
      unfold Args.reg at this
      rw [h] at this
      simp [Operand.hd] at this
      omega
    · obtain rfl := mem_line hc.mem h1 line1882
      simp only [Body.run, Option.map_some, Option.some.injEq] at hm
      subst hm
      rw [Enc.throwIf_bind] at hw
      have h0 : i < 2 := hl
      rcases (by omega : i = 0 ∨ i = 1) with rfl | rfl
      · have := hw.1
        unfold Args.reg at this
        rw [h] at this
        have hk : q.kind = .xmm := by simpa [Reg.isXMM] using hx
        simp [Operand.hd, Operand.isMEM, Reg.isREG, hk] at this
      · refine opSSE_rex2 ?_ w () hw.2
        show (Reg.gp (g.reg 1).idx 64).hasRex2 = true
        unfold Args.reg
        rw [h]
        exact hE
    · obtain rfl := mem_line hc.mem h1 line1883
      simp only [Body.run, Option.map_some, Option.some.injEq] at hm
      subst hm
      rw [Enc.throwIf_bind] at hw
      have h0 : i < 2 := hl
      rcases (by omega : i = 0 ∨ i = 1) with rfl | rfl
      · refine opSSE_rex2 ?_ w () hw.2
        show (Reg.gp (g.reg 0).idx 64).hasRex2 = true
        unfold Args.reg
        rw [h]
        exact hE
      · have := hw.1
        unfold Args.reg at this
        rw [h] at this
        have hk : q.kind = .xmm := by simpa [Reg.isXMM] using hx
        simp [Operand.hd, Operand.isMEM, Reg.isREG, hk] at this

/-- C42, second part: the same for ymm and zmm registers.  Partial: not for the SSE functions, some of which take ymm registers for xmm
registers without looking at the number (`c42_refuted_ymm`). -/
theorem c42_ymm_partial {e : Entry} (ve : e.vec = true) {g : Args} {w : List Act} (hc : Calls e g w) {i : Nat} {q : Reg} (h : g.op i = .reg q)
    (hx : q.isSIMD = true) (hq : 16 ≤ q.idx.toNat) (h4 : e.is4 i = false) (hs : e.sse = false) (fill : Act → BitVec 32) : IsEvex (concr fill w) := by
  obtain ⟨p, hp, ht, hl⟩ := hc.fits.at (notNil h hq)
  have hp' := Param.simd_of (h ▸ ht) hx
  have := List.all_eq_true.mp high_check e hc.mem
  rw [ve, Bool.not_true, Bool.false_or] at this
  have := upto_at this hl
  rw [hp, Option.getD_some, hp', h4, hs, Bool.not_true, Bool.false_or] at this
  simp only [Bool.and_eq_true, Bool.or_eq_true, Bool.false_eq_true, or_false, false_or] at this
  obtain ⟨m, hm, hw⟩ := hc.runs
  exact Entry.evexV this.1.2 h hx ((hi5 _).mpr hq) hm w () hw fill

/-- C42, third part: a memory operand with a vector index, whatever its number, is written in EVEX or refused.  Partial: not for the
eight AVX2 gathers, which take index registers from 16 on (`c42_refuted_index`). -/
theorem c42_index_partial {e : Entry} (ve : e.vec = true) {g : Args} {w : List Act} (hc : Calls e g w) {i : Nat} {a : Addr} (h : g.op i = .mem a)
    (hk : a.o.kind = .mem) (hp : a.permitVsib = false) (hv : a.isVsib = true) (hg : e.gathers = false) (fill : Act → BitVec 32) :
    IsEvex (concr fill w) := by
  obtain ⟨p, hpi, ht, hl⟩ := hc.fits.at (i := i) (by rw [h]; intro h; cases h)
  have hp' := Param.memory_of (h ▸ ht)
  have := List.all_eq_true.mp high_check e hc.mem
  rw [ve, Bool.not_true, Bool.false_or] at this
  have := upto_at this hl
  rw [hpi, Option.getD_some, hp', hg, Bool.not_true, Bool.false_or] at this
  simp only [Bool.and_eq_true, Bool.or_eq_true, Bool.false_eq_true, or_false, Nat.beq_eq] at this
  obtain ⟨m, hm, hw⟩ := hc.runs
  rcases this.2 with h1 | h1
  · exact Entry.evexI h1 h hk hp hv hm w () hw fill
  · obtain rfl := mem_line hc.mem h1 line1439
    simp only [Body.run, Option.map_eq_some_iff] at hm
    obtain ⟨m', hm', rfl⟩ := hm
    rw [Enc.throwIf_bind] at hw
    obtain ⟨hb, hw⟩ := hw
    have h0 : i < 2 := hl
    have h0 : i = 0 := by
      rcases (by omega : i = 0 ∨ i = 1) with rfl | rfl
      · rfl
      · cases hpi; rw [h] at ht; cases ht
    subst h0
    have hr : (g.reg 0).isREG = false := by
      unfold Args.reg; rw [h]; exact isREG_kind (by show a.o.kind ≠ _; rw [hk]; decide) _
    split at hm'
    · rename_i hc'; simp [hr] at hc'
    cases hm'
    exact Leaf.index h hk hp hv _ rfl w () hw fill

/-- No call of the function writes EVEX: the instruction is legacy or VEX only. -/
def NoEvex (e : Entry) : Prop := ∀ g w, Calls e g w → Plain e g → ∀ fill, ¬ IsEvex (concr fill w)

/-- Such are the functions none of whose selectors is EVEX. -/
theorem c42_noEvex {e : Entry} (ve : e.vec = true) (h : e.sels.all (fun s => decide (s.sp ≠ .evex)) = true) : NoEvex e := by
  rintro g w hc hp fill ⟨x, t, hx, hs⟩
  obtain ⟨s, hm, hS⟩ := c45_reads ve hc hp fill
  obtain ⟨x', c, t', hx', ho, _⟩ := hS
  rw [hx] at hx'
  obtain ⟨rfl, -⟩ := Prod.mk.inj (Option.some.inj hx')
  refine decide_eq_true_eq.mp (List.all_eq_true.mp h s hm) ?_
  rw [← ho.sp, hs]; rfl

/-- C42 for instructions without an EVEX form: registers and indices from 16 on are refused. -/
theorem c42_refuses {e : Entry} (ve : e.vec = true) (hn : NoEvex e) {g : Args} (hp : Plain e g) {i : Nat} :
    (∀ q, g.op i = .reg q → 16 ≤ q.idx.toNat → e.is4 i = false → (q.isXMM = true ∨ (q.isSIMD = true ∧ e.sse = false)) → ∀ w, ¬ Calls e g w) ∧
    (∀ a, g.op i = .mem a → a.permitVsib = false → a.isVsib = true → e.gathers = false → ∀ w, ¬ Calls e g w) := by
  constructor
  · rintro q h hq h4 (hx | ⟨hx, hs⟩) w hc
    · exact hn g w hc hp (fun _ => 0) (c42_xmm_partial ve hc h hx hq h4 _)
    · exact hn g w hc hp (fun _ => 0) (c42_ymm_partial ve hc h hx hq h4 hs _)
  · intro a h hpv hv hg w hc
    exact hn g w hc hp (fun _ => 0) (c42_index_partial ve hc h (hp.good.kind i a h) hpv hv hg _)

/-! ## Where numbers are truncated -/

private def mem1 (b ix : Reg) : Operand :=
  .mem { o := { idx := 0, ext8 := false, kind := .mem, bit := 0 }, e := { base := b, index := ix, scale := 1, disp := 0 } }

/-- `movhlps(xmm1, ymm18)` (700) returns and writes `movhlps xmm1, xmm2`; the same holds for `psllw` with an immediate (871), `movd` (690)
and `pmovmskb` (825). -/
theorem c42_refuted_ymm :
    Confused n!"movhlps" n!"movhlps" { ops := [.reg (.xmm 1), .reg (.ymm 18)] } { ops := [.reg (.xmm 1), .reg (.xmm 2)] } ∧
    Confused n!"psllw" n!"psllw" { ops := [.reg (.ymm 18)], ints := [3] } { ops := [.reg (.mm 2)], ints := [3] } ∧
    Confused n!"movd" n!"movd" { ops := [.reg (.ymm 18), .reg (.gp 1 32)] } { ops := [.reg (.mm 2), .reg (.gp 1 32)] } ∧
    Confused n!"pmovmskb" n!"pmovmskb" { ops := [.reg (.gp 1 32), .reg (.ymm 18)] } { ops := [.reg (.gp 1 32), .reg (.mm 2)] } :=
  ⟨confused_of (l := 700) (l' := 700) (w := [0x0F, 0x12, 0xCA].map .byte) (by decide +kernel) (by decide +kernel),
   confused_of (l := 871) (l' := 871) (w := [0x0F, 0x71, 0xF2, 3].map .byte) (by decide +kernel) (by decide +kernel),
   confused_of (l := 690) (l' := 690) (w := [0x0F, 0x6E, 0xD1].map .byte) (by decide +kernel) (by decide +kernel),
   confused_of (l := 825) (l' := 825) (w := [0x0F, 0xD7, 0xCA].map .byte) (by decide +kernel) (by decide +kernel)⟩

/-- `vblendvps(xmm1, xmm2, xmm3, xmm17)` (1070) returns and writes `vblendvps xmm1, xmm2, xmm3, xmm1`. -/
theorem c42_refuted_is4 : Confused n!"vblendvps" n!"vblendvps" { ops := [.reg (.xmm 1), .reg (.xmm 2), .reg (.xmm 3), .reg (.xmm 17)] }
    { ops := [.reg (.xmm 1), .reg (.xmm 2), .reg (.xmm 3), .reg (.xmm 1)] } :=
  confused_of (l := 1070) (l' := 1070) (w := [0xC4, 0xE3, 0x69, 0x4A, 0xCB, 0x10].map .byte) (by decide +kernel) (by decide +kernel)

/-- `vgatherdps(xmm1, ptr[rax+xmm18], xmm3)` (1302) returns and writes the index xmm2. -/
theorem c42_refuted_index : Confused n!"vgatherdps" n!"vgatherdps" { ops := [.reg (.xmm 1), mem1 (.gp 0 64) (.xmm 18), .reg (.xmm 3)] }
    { ops := [.reg (.xmm 1), mem1 (.gp 0 64) (.xmm 2), .reg (.xmm 3)] } :=
  confused_of (l := 1302) (l' := 1302) (w := [0xC4, 0xE2, 0x61, 0x92, 0x0C, 0x10].map .byte) (by decide +kernel) (by decide +kernel)

/-! ## Examples -/

/-- A call that `c42_xmm_partial` speaks about: `vaddps xmm17, xmm2, xmm3` (1050) is EVEX. -/
example : ∃ e w, e.name = n!"vaddps" ∧ Calls e { ops := [.reg (.xmm 17), .reg (.xmm 2), .reg (.xmm 3)] } w ∧ ∀ fill, IsEvex (concr fill w) := by
  obtain ⟨e, h1, h2⟩ := callAt_calls (show callAt 1050 { ops := [.reg (.xmm 17), .reg (.xmm 2), .reg (.xmm 3)] } =
    some (n!"vaddps", [0x62, 0xE1, 0x6C, 0x08, 0x58, 0xCB].map .byte) by decide +kernel)
  exact ⟨e, _, h1, h2, fun fill => ⟨_, _, rfl, rfl⟩⟩

/-- `c42_noEvex` and `c42_refuses` apply to `addps` and `vhaddps`, which have no EVEX form. -/
example : (all.filter fun e => Nat.beq e.name n!"vhaddps" || Nat.beq e.name n!"addps").all (fun e => e.vec && e.sels.all (fun s => decide (s.sp ≠ .evex))) = true := by
  decide +kernel

end Mn
end Xbyak
