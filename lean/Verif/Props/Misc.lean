import Verif.Spec.Misc
import Verif.Spec.VecLen
import Verif.Props.Gp
import Verif.Props.Branch
import Verif.Props.Apx
import Verif.Props.Manual
/-!
# C83: instructions of their own shape

Ports, interrupts, return, ENTER, transactions, user-level waiting, absolute jump, key locker: the bytes are the instruction asked for, with the
operands given.
-/
namespace Xbyak

namespace Mn
open E

variable {g : Args}

/-- What a call of the function `name` asks for. -/
inductive Asked (g : Args) : Nat → X86.Misc → Prop
  | inDX {a d : Reg} (ho : g.ops = [.reg a, .reg d]) (ha : a.kind = .reg ∧ a.idx = 0) (hd : d.isREG 16 = true ∧ d.idx = 2) : Asked g n!"in_" (.inp a.bit none)
  | inImm {a : Reg} (ho : g.ops = [.reg a]) (ha : a.kind = .reg ∧ a.idx = 0) : Asked g n!"in_" (.inp a.bit (some (g.i8 0)))
  | outDX {a d : Reg} (ho : g.ops = [.reg d, .reg a]) (ha : a.kind = .reg ∧ a.idx = 0) (hd : d.isREG 16 = true ∧ d.idx = 2) : Asked g n!"out_" (.out a.bit none)
  | outImm {a : Reg} (ho : g.ops = [.reg a]) (ha : a.kind = .reg ∧ a.idx = 0) : Asked g n!"out_" (.out a.bit (some (g.i8 0)))
  | int : Asked g n!"int_" (.int (g.i8 0))
  | ret {p : BitVec 16} (hp : (p.toNat : Int) = (g.i32 0).toInt) : Asked g n!"ret" (.ret false p)
  | retf {p : BitVec 16} (hp : (p.toNat : Int) = (g.i32 0).toInt) : Asked g n!"retf" (.ret true p)
  | enter : Asked g n!"enter" (.enter ((g.int 0).setWidth 16) (g.i8 1))
  | xabort : Asked g n!"xabort" (.xabort (g.i8 0))
  | xbegin : Asked g n!"xbegin" (.xbegin (g.i32 0))
  | jmpabs : Asked g n!"jmpabs" (.jmpabs (g.int 0))
  | tpause {r : Reg} (ho : g.ops = [.reg r]) (hr : r.isREG 32 = true) : Asked g n!"tpause" (.tpause r.idx)
  | umwait {r : Reg} (ho : g.ops = [.reg r]) (hr : r.isREG 32 = true) : Asked g n!"umwait" (.umwait r.idx)
  | umonitor {r : Reg} (ho : g.ops = [.reg r]) (hr : r.kind = .reg) : Asked g n!"umonitor" (.umonitor r.idx r.bit)
  | senduipi {r : Reg} (ho : g.ops = [.reg r]) (hr : r.isREG 64 = true) : Asked g n!"senduipi" (.senduipi r.idx)
  | key128 {d s : Reg} (ho : g.ops = [.reg d, .reg s]) (hd : d.isREG 32 = true) (hs : s.isREG 32 = true) : Asked g n!"encodekey128" (.encodekey 128 d.idx s.idx)
  | key256 {d s : Reg} (ho : g.ops = [.reg d, .reg s]) (hd : d.isREG 32 = true) (hs : s.isREG 32 = true) : Asked g n!"encodekey256" (.encodekey 256 d.idx s.idx)

/-- The functions this is about. -/
def miscNames : List Nat := [n!"in_", n!"out_", n!"int_", n!"ret", n!"retf", n!"enter", n!"xabort", n!"xbegin", n!"jmpabs", n!"tpause", n!"umwait",
  n!"umonitor", n!"senduipi", n!"encodekey128", n!"encodekey256"]

def Raw.named : Raw → Nat
  | .enter => n!"enter" | .int_ => n!"int_" | .movdir64b => n!"movdir64b" | .ret => n!"ret" | .retf => n!"retf" | .tpause => n!"tpause"
  | .umonitor => n!"umonitor" | .umwait => n!"umwait" | .xabort => n!"xabort" | .xbegin => n!"xbegin" | .senduipi => n!"senduipi" | .jmpabs => n!"jmpabs"

def Raw.pars : Raw → List Param
  | .movdir64b => [.reg, .addr] | .tpause | .umwait => [.reg32] | .umonitor => [.reg] | .senduipi => [.reg64] | _ => []

/-- The function is one of the calls `Asked` speaks about. -/
def miscBody (e : Entry) : Bool := Nat.beq e.opt 0 && match e.body with
  | .leaf (.raw r) => Nat.beq e.name r.named && decide (e.params.filter Param.isOperand = r.pars) && decide (r ≠ .movdir64b)
  | .leaf (.inOutDX x d c) => decide (e.params.filter Param.isOperand = [.reg, .reg]) &&
      ((Nat.beq e.name n!"in_" && decide (x = .a 0 ∧ d = .a 1 ∧ c = 0xEC)) || (Nat.beq e.name n!"out_" && decide (x = .a 1 ∧ d = .a 0 ∧ c = 0xEE)))
  | .leaf (.inOutImm x c i) => decide (e.params.filter Param.isOperand = [.reg] ∧ x = .a 0 ∧ i = 0) &&
      ((Nat.beq e.name n!"in_" && decide (c = 0xE4)) || (Nat.beq e.name n!"out_" && decide (c = 0xE6)))
  | .leaf (.encodeKey x y c _) => decide (e.params.filter Param.isOperand = [.reg32, .reg32] ∧ x = .a 0 ∧ y = .a 1) &&
      ((Nat.beq e.name n!"encodekey128" && decide (c = 0xFA)) || (Nat.beq e.name n!"encodekey256" && decide (c = 0xFB)))
  | _ => false

set_option maxRecDepth 1000000 in
theorem misc_check : (all.all fun e => !X86.among e.name miscNames || miscBody e) = true := by decide +kernel

theorem fits1 {ps : List Param} {p : Param} (h : g.Fits ps 0) (hp : ps.filter Param.isOperand = [p]) : ∃ x, g.ops = [x] ∧ p.takes x = true := by
  obtain ⟨h1, h2, h3⟩ := h
  rw [hp] at h1 h2 h3
  match hg : g.ops, h1, h2 with
  | [x], _, _ => exact ⟨x, rfl, h3 0 p x rfl (by rw [hg]; rfl)⟩
  | [], _, h2 => cases h2
  | _ :: _ :: _, h1, _ => exact absurd h1 (by simp)

theorem fits2 {ps : List Param} {p q : Param} (h : g.Fits ps 0) (hp : ps.filter Param.isOperand = [p, q]) :
    ∃ x y, g.ops = [x, y] ∧ p.takes x = true ∧ q.takes y = true := by
  obtain ⟨h1, h2, h3⟩ := h
  rw [hp] at h1 h2 h3
  match hg : g.ops, h1, h2 with
  | [x, y], _, _ => exact ⟨x, y, rfl, h3 0 p x rfl (by rw [hg]; rfl), h3 1 q y rfl (by rw [hg]; rfl)⟩
  | [], _, h2 => exact absurd h2 (by simp)
  | [_], _, h2 => exact absurd h2 (by simp)
  | _ :: _ :: _ :: _, h1, _ => exact absurd h1 (by simp)

theorem takes_isREG {p : Param} {x : Operand} {n : Nat} (hp : (p = .reg32 ∧ n = 32) ∨ (p = .reg64 ∧ n = 64)) (h : p.takes x = true) : ∃ r, x = .reg r ∧ r.isREG n = true := by
  rcases hp with ⟨rfl, rfl⟩ | ⟨rfl, rfl⟩ <;> cases x with
  | mem a => cases h
  | reg r => exact ⟨r, rfl, h⟩

theorem takes_reg {x : Operand} (h : Param.reg.takes x = true) : ∃ r, x = .reg r := by
  cases x with
  | mem a => cases h
  | reg r => exact ⟨r, rfl⟩

theorem le_join (v : Word) (k m : Nat) : ((v >>> (k + 8)).setWidth m ++ (v >>> k).setWidth 8 : BitVec (m + 8)) = (v >>> k).setWidth (m + 8) := by
  apply BitVec.eq_of_getLsbD_eq
  intro i hi
  simp only [BitVec.getLsbD_append, BitVec.getLsbD_setWidth, BitVec.getLsbD_ushiftRight, hi, decide_true, Bool.true_and]
  by_cases h : i < 8
  · simp [h]
  · have h1 : i - 8 < m := by omega
    have h2 : k + 8 + (i - 8) = k + i := by omega
    simp [h, h1, h2]

theorem le_join2 (v : Word) : ((v >>> 8).setWidth 8 ++ (v >>> 0).setWidth 8 : BitVec 16) = v.setWidth 16 := by
  have h1 := le_join v 0 8
  refine h1.trans ?_
  simp

theorem le_join4 (v : Word) : ((v >>> 24).setWidth 8 ++ (v >>> 16).setWidth 8 ++ (v >>> 8).setWidth 8 ++ (v >>> 0).setWidth 8 : BitVec 32) = v.setWidth 32 := by
  have h1 := le_join v 16 8
  have h2 := le_join v 8 16
  have h3 := le_join v 0 24
  rw [h1, h2, h3]; simp

theorem le_join8 (v : Word) : ((v >>> 56).setWidth 8 ++ (v >>> 48).setWidth 8 ++ (v >>> 40).setWidth 8 ++ (v >>> 32).setWidth 8 ++ (v >>> 24).setWidth 8 ++
    (v >>> 16).setWidth 8 ++ (v >>> 8).setWidth 8 ++ (v >>> 0).setWidth 8 : BitVec 64) = v := by
  have h1 := le_join v 48 8
  have h2 := le_join v 40 16
  have h3 := le_join v 32 24
  have h4 := le_join v 24 32
  have h5 := le_join v 16 40
  have h6 := le_join v 8 48
  have h7 := le_join v 0 56
  rw [h1, h2, h3, h4, h5, h6, h7]; simp

/-- A register in ModRM. -/
theorem modrm_reg (h : X86.Head) (i j : BitVec 5) (t : List Byte) :
    X86.modrm h false 1 (modRM 3 i j :: t) = some (i.extractLsb' 0 3, .reg (j.extractLsb' 0 3), t) := by
  unfold X86.modrm
  dsimp only
  rw [modRM_mod, modRM_reg, modRM_rm, if_pos rfl]

theorem mk5_low : ∀ i : BitVec 5, i.toNat ≤ 7 → X86.mk5 false false (i.extractLsb' 0 3) = i := by decide +kernel

/-- Conditions of `c83_partial`: registers are general-purpose ones, the operand of RET fits the field, and ENCODEKEY has a form without EVEX. -/
structure ProperM (e : Entry) (g : Args) : Prop where
  named : ∀ (i : Nat) q, g.ops[i]? = some (.reg q) → q.Named ∧ q.kind = .reg
  ret : e.name = n!"ret" ∨ e.name = n!"retf" → 0 ≤ (g.i32 0).toInt ∧ (g.i32 0).toInt < 65536
  key : e.name = n!"encodekey128" ∨ e.name = n!"encodekey256" → ∀ q, Operand.reg q ∈ g.ops → q.idx.toNat ≤ 7

theorem ret_low {v : Word} (h0 : 0 ≤ (v.setWidth 32).toInt) (h1 : (v.setWidth 32).toInt < 65536) : ((v.setWidth 16).toNat : Int) = (v.setWidth 32).toInt := by
  rw [BitVec.toInt_eq_toNat_cond] at h0 h1 ⊢
  simp only [BitVec.toNat_setWidth] at h0 h1 ⊢
  split at h1 <;> split at h0 <;> omega

theorem raw_asked {r : Raw} (hm : r ≠ .movdir64b) {ps : List Param} (hf : g.Fits ps 0) (hps : ps.filter Param.isOperand = r.pars) {w : List Act} (hw : (r.run g).Gives w ())
    (hn : ∀ (i : Nat) q, g.ops[i]? = some (.reg q) → q.Named ∧ q.kind = .reg)
    (hr : r = .ret ∨ r = .retf → 0 ≤ (g.i32 0).toInt ∧ (g.i32 0).toInt < 65536) (fill : Act → BitVec 32) :
    ∃ m, Asked g r.named m ∧ ∀ t, X86.misc (concr fill w ++ t) = some (m, t) := by
  cases r with
  | movdir64b => exact absurd rfl hm
  | enter =>
    obtain rfl := hw.1
    refine ⟨_, .enter, fun t => ?_⟩
    rw [← le_join2]; rfl
  | int_ => obtain rfl := hw.1; exact ⟨_, .int, fun t => rfl⟩
  | ret =>
    obtain ⟨h0, h1⟩ := hr (.inl rfl)
    refine ⟨_, .ret (p := (g.int 0).setWidth 16) (ret_low h0 h1), fun t => ?_⟩
    change (if g.i32 0 ≠ 0 then _ else _ : Enc Unit).Gives w () at hw
    by_cases hz : g.i32 0 ≠ 0
    · rw [if_pos hz] at hw
      obtain rfl := hw.1
      rw [← le_join2]; rfl
    · rw [if_neg hz] at hw
      obtain rfl := hw.1
      have hz : g.i32 0 = 0 := Decidable.of_not_not hz
      have := ret_low h0 h1
      have hz' : (g.int 0).setWidth 32 = 0 := hz
      rw [hz'] at this
      have : (g.int 0).setWidth 16 = 0 := BitVec.eq_of_toNat_eq (by simp at this ⊢; omega)
      rw [this]; rfl
  | retf =>
    obtain ⟨h0, h1⟩ := hr (.inr rfl)
    refine ⟨_, .retf (p := (g.int 0).setWidth 16) (ret_low h0 h1), fun t => ?_⟩
    change (if g.i32 0 ≠ 0 then _ else _ : Enc Unit).Gives w () at hw
    by_cases hz : g.i32 0 ≠ 0
    · rw [if_pos hz] at hw
      obtain rfl := hw.1
      rw [← le_join2]; rfl
    · rw [if_neg hz] at hw
      obtain rfl := hw.1
      have hz : g.i32 0 = 0 := Decidable.of_not_not hz
      have := ret_low h0 h1
      have hz' : (g.int 0).setWidth 32 = 0 := hz
      rw [hz'] at this
      have : (g.int 0).setWidth 16 = 0 := BitVec.eq_of_toNat_eq (by simp at this ⊢; omega)
      rw [this]; rfl
  | tpause =>
    obtain ⟨x, ho, hx⟩ := fits1 hf hps
    obtain ⟨r, rfl, hr⟩ := takes_isREG (.inl ⟨rfl, rfl⟩) hx
    have hg : g.reg 0 = r := by unfold Args.reg Args.op; rw [ho]; rfl
    obtain ⟨hi, hw⟩ := Enc.throwIf_bind.1 hw
    rw [hg] at hi
    have hi : r.idx.toNat ≤ 7 := Nat.le_of_not_lt (of_decide_eq_false hi)
    obtain rfl := hw.1
    refine ⟨_, .tpause ho hr, fun t => ?_⟩
    have := mk5_low _ hi
    rw [hg]
    show X86.misc ([0x66, 0x0F, 0xAE, modRM 3 6 r.idx] ++ t) = _
    show X86.misc1 { p66 := true, map := 1, opcode := 0xAE } (modRM 3 6 r.idx :: t) = _
    unfold X86.misc1
    rw [modrm_reg]
    show some (X86.Misc.tpause (X86.mk5 false false _), t) = _
    rw [this]
  | umwait =>
    obtain ⟨x, ho, hx⟩ := fits1 hf hps
    obtain ⟨r, rfl, hr⟩ := takes_isREG (.inl ⟨rfl, rfl⟩) hx
    have hg : g.reg 0 = r := by unfold Args.reg Args.op; rw [ho]; rfl
    obtain ⟨hi, hw⟩ := Enc.throwIf_bind.1 hw
    rw [hg] at hi
    have hi : r.idx.toNat ≤ 7 := Nat.le_of_not_lt (of_decide_eq_false hi)
    obtain rfl := hw.1
    refine ⟨_, .umwait ho hr, fun t => ?_⟩
    have := mk5_low _ hi
    rw [hg]
    show X86.misc1 { pF2 := true, map := 1, opcode := 0xAE } (modRM 3 6 r.idx :: t) = _
    unfold X86.misc1
    rw [modrm_reg]
    show some (X86.Misc.umwait (X86.mk5 false false _), t) = _
    rw [this]
  | umonitor =>
    obtain ⟨x, ho, hx⟩ := fits1 hf hps
    obtain ⟨r, rfl⟩ := takes_reg hx
    have hg : g.reg 0 = r := by unfold Args.reg Args.op; rw [ho]; rfl
    have hk := (hn 0 r (by rw [ho]; rfl)).2
    obtain ⟨hi, hw⟩ := Enc.throwIf_bind.1 hw
    obtain ⟨hb, hw⟩ := Enc.throwIf_bind.1 hw
    obtain ⟨w', rfl, hw2⟩ := Enc.dbIf_bind.1 hw
    clear hw
    rw [hg] at hi hb hw2 ⊢
    have hi : r.idx.toNat ≤ 7 := Nat.le_of_not_lt (of_decide_eq_false hi)
    have hb := of_decide_eq_false hb
    obtain rfl := hw2.1
    refine ⟨_, .umonitor ho hk, fun t => ?_⟩
    have := mk5_low _ hi
    by_cases h32 : r.bit = 32
    · rw [h32]
      show X86.misc1 { p67 := true, pF3 := true, map := 1, opcode := 0xAE } (modRM 3 6 r.idx :: t) = _
      unfold X86.misc1
      rw [modrm_reg]
      show some (X86.Misc.umonitor (X86.mk5 false false _) 32, t) = _
      rw [this]
    · have h64 : r.bit = 64 := Decidable.of_not_not fun h => hb ⟨h, h32⟩
      rw [h64]
      show X86.misc1 { pF3 := true, map := 1, opcode := 0xAE } (modRM 3 6 r.idx :: t) = _
      unfold X86.misc1
      rw [modrm_reg]
      show some (X86.Misc.umonitor (X86.mk5 false false _) 64, t) = _
      rw [this]
  | xabort => obtain rfl := hw.1; exact ⟨_, .xabort, fun t => rfl⟩
  | xbegin =>
    obtain rfl := hw.1
    refine ⟨_, .xbegin, fun t => ?_⟩
    show _ = some (X86.Misc.xbegin ((g.int 0).setWidth 32), t)
    rw [← le_join4]; rfl
  | jmpabs =>
    obtain rfl := hw.1
    refine ⟨_, .jmpabs, fun t => ?_⟩
    have := le_join8 (g.int 0)
    refine Eq.trans ?_ (congrArg (fun x => some (X86.Misc.jmpabs x, t)) this)
    rfl
  | senduipi =>
    obtain ⟨x, ho, hx⟩ := fits1 hf hps
    obtain ⟨r, rfl, hr⟩ := takes_isREG (.inr ⟨rfl, rfl⟩) hx
    have hg : g.reg 0 = r := by unfold Args.reg Args.op; rw [ho]; rfl
    have hk := hn 0 r (by rw [ho]; rfl)
    obtain ⟨q, hq, hw⟩ := Enc.lift_bind.1 hw
    rw [hg] at hq
    have hrb : r.bit = 32 ∨ r.bit = 64 := by
      have hb : r.isBit 64 = true := by
        unfold Reg.isREG at hr
        simp at hr
        exact hr.2
      rcases hk.1.shape with h | h | h | h | h | h | h | h | h
      · rcases h.2 with h | h | h | h
        · rw [Reg.isBit, h] at hb; cases hb
        · rw [Reg.isBit, h] at hb; cases hb
        · exact .inl h
        · exact .inr h
      all_goals (rw [hk.2] at h; cases h.1)
    obtain ⟨q', hq', _, _, hq4⟩ := changeBit32 hk.1 hk.2 hrb
    have hq : q = .gp r.idx 32 := by
      unfold Reg.cvtGp at hq
      rw [hq'] at hq
      cases hq
      rw [hq4]
    subst hq
    obtain ⟨bs, h, reg, rm, rfl, hi, hh, h1, h2, h3⟩ := c33_rr (.gp 6 32) (.gp r.idx 32) (fun h => absurd rfl h) (fun h => absurd rfl h) (fl [T_F3, T_0F]) 0xC7 (by decide) (by decide) hw
    refine ⟨_, .senduipi ho hr, fun t => ?_⟩
    rw [concr_bytes]
    have hi := hi t
    unfold X86.insn at hi
    unfold X86.misc
    cases hd : X86.head (bs ++ t) with
    | none => rw [hd] at hi; cases hi
    | some p =>
      obtain ⟨h', t'⟩ := p
      rw [hd] at hi
      dsimp only at hi ⊢
      cases hm : X86.modrm h' false 1 t' with
      | none => rw [hm] at hi; cases hi
      | some p =>
        obtain ⟨x, y, z⟩ := p
        rw [hm] at hi
        cases hi
        have hmap : h.map = 1 := hh.map
        rw [if_neg (by rw [hmap]; exact fun h => absurd h.2 (by decide)), if_pos hh.space, if_neg (by rw [hmap]; decide), if_pos hmap]
        unfold X86.misc1
        rw [hm]
        have h6 : ∀ (a b : Bool) (r : BitVec 3), X86.mk5 a b r = 6 → r = 6 := by decide +kernel
        obtain rfl := h6 _ _ _ h1
        have e66 : h.p66 = false := hh.p66.trans (by simp [p66of, Reg.isBit, Reg.gp]; decide)
        have e67 : h.p67 = false := hh.p67
        have eF2 : h.pF2 = false := hh.pF2
        have eF3 : h.pF3 = true := hh.pF3
        have eop : h.opcode = 0xC7 := hh.opcode
        have h2 : X86.rmGpr h rm = r.idx := h2
        rw [hh.seg, e66, e67, eF2, eF3, eop, ← h2]
        rfl

theorem inOutDX_gives {a d : Reg} {c : Byte} {w : List Act} (h : (opInOutDX a d c).Gives w ()) : a.idx = 0 ∧ d.idx = 2 ∧ d.bit = 16 ∧
    ((a.bit = 8 ∧ w = [c].map .byte) ∨ (a.bit = 16 ∧ w = [0x66, c + 1].map .byte) ∨ (a.bit = 32 ∧ w = [c + 1].map .byte)) := by
  unfold opInOutDX at h
  split at h
  · rename_i h0
    refine ⟨h0.1, h0.2.1, h0.2.2, ?_⟩
    split at h
    · rename_i hb; exact .inl ⟨hb, h.1.symm⟩
    · split at h
      · rename_i hb; exact .inr (.inl ⟨hb, h.1.symm⟩)
      · split at h
        · rename_i hb; exact .inr (.inr ⟨hb, h.1.symm⟩)
        · cases h.2
  · cases h.2

theorem inOutImm_gives {a : Reg} {c v : Byte} {w : List Act} (h : (opInOutImm a c v).Gives w ()) : a.idx = 0 ∧
    ((a.bit = 8 ∧ w = [c, v].map .byte) ∨ (a.bit = 16 ∧ w = [0x66, c + 1, v].map .byte) ∨ (a.bit = 32 ∧ w = [c + 1, v].map .byte)) := by
  unfold opInOutImm at h
  split at h
  · rename_i h0
    refine ⟨h0, ?_⟩
    split at h
    · rename_i hb; exact .inl ⟨hb, h.1.symm⟩
    · split at h
      · rename_i hb; exact .inr (.inl ⟨hb, h.1.symm⟩)
      · split at h
        · rename_i hb; exact .inr (.inr ⟨hb, h.1.symm⟩)
        · cases h.2
  · cases h.2

theorem key_reads (c : Byte) (bits : Nat) (hc : (c = 0xFA ∧ bits = 128) ∨ (c = 0xFB ∧ bits = 256)) (d s : Reg) (hd : d.idx.toNat ≤ 7) (hs : s.idx.toNat ≤ 7) (t : List Byte) :
    X86.misc ([0xF3, 0x0F, 0x38, c, modRM 3 d.idx s.idx] ++ t) = some (.encodekey bits d.idx s.idx, t) := by
  have h1 := mk5_low _ hd
  have h2 := mk5_low _ hs
  have e : X86.misc ([0xF3, 0x0F, 0x38, c, modRM 3 d.idx s.idx] ++ t) = X86.misc2 { pF3 := true, map := 2, opcode := c } (modRM 3 d.idx s.idx :: t) := rfl
  rw [e]
  unfold X86.misc2
  rw [modrm_reg]
  rcases hc with ⟨rfl, rfl⟩ | ⟨rfl, rfl⟩
  · show some (X86.Misc.encodekey 128 (X86.mk5 false false _) (X86.mk5 false false _), t) = _
    rw [h1, h2]
  · show some (X86.Misc.encodekey 256 (X86.mk5 false false _) (X86.mk5 false false _), t) = _
    rw [h1, h2]

theorem inDX_reads (t : List Byte) : X86.misc ([0xEC] ++ t) = some (.inp 8 none, t) ∧ X86.misc ([0x66, 0xEC + 1] ++ t) = some (.inp 16 none, t) ∧
    X86.misc ([0xEC + 1] ++ t) = some (.inp 32 none, t) := by
  rw [show (0xEC + 1 : Byte) = 0xED from rfl]
  exact ⟨by
    show X86.misc0 { opcode := 0xEC } (t) = _
    simp [X86.misc0, X86.Head.bare, X86.ioBits], by
    show X86.misc0 { p66 := true, opcode := 0xED } (t) = _
    simp [X86.misc0, X86.Head.bare, X86.ioBits], by
    show X86.misc0 { opcode := 0xED } (t) = _
    simp [X86.misc0, X86.Head.bare, X86.ioBits]⟩

theorem outDX_reads (t : List Byte) : X86.misc ([0xEE] ++ t) = some (.out 8 none, t) ∧ X86.misc ([0x66, 0xEE + 1] ++ t) = some (.out 16 none, t) ∧
    X86.misc ([0xEE + 1] ++ t) = some (.out 32 none, t) := by
  rw [show (0xEE + 1 : Byte) = 0xEF from rfl]
  exact ⟨by
    show X86.misc0 { opcode := 0xEE } (t) = _
    simp [X86.misc0, X86.Head.bare, X86.ioBits], by
    show X86.misc0 { p66 := true, opcode := 0xEF } (t) = _
    simp [X86.misc0, X86.Head.bare, X86.ioBits], by
    show X86.misc0 { opcode := 0xEF } (t) = _
    simp [X86.misc0, X86.Head.bare, X86.ioBits]⟩

theorem inImm_reads (p : Byte) (t : List Byte) : X86.misc ([0xE4, p] ++ t) = some (.inp 8 (some p), t) ∧ X86.misc ([0x66, 0xE4 + 1, p] ++ t) = some (.inp 16 (some p), t) ∧
    X86.misc ([0xE4 + 1, p] ++ t) = some (.inp 32 (some p), t) := by
  rw [show (0xE4 + 1 : Byte) = 0xE5 from rfl]
  exact ⟨by
    show X86.misc0 { opcode := 0xE4 } (p :: t) = _
    simp [X86.misc0, X86.Head.bare, X86.ioBits], by
    show X86.misc0 { p66 := true, opcode := 0xE5 } (p :: t) = _
    simp [X86.misc0, X86.Head.bare, X86.ioBits], by
    show X86.misc0 { opcode := 0xE5 } (p :: t) = _
    simp [X86.misc0, X86.Head.bare, X86.ioBits]⟩

theorem outImm_reads (p : Byte) (t : List Byte) : X86.misc ([0xE6, p] ++ t) = some (.out 8 (some p), t) ∧ X86.misc ([0x66, 0xE6 + 1, p] ++ t) = some (.out 16 (some p), t) ∧
    X86.misc ([0xE6 + 1, p] ++ t) = some (.out 32 (some p), t) := by
  rw [show (0xE6 + 1 : Byte) = 0xE7 from rfl]
  exact ⟨by
    show X86.misc0 { opcode := 0xE6 } (p :: t) = _
    simp [X86.misc0, X86.Head.bare, X86.ioBits], by
    show X86.misc0 { p66 := true, opcode := 0xE7 } (p :: t) = _
    simp [X86.misc0, X86.Head.bare, X86.ioBits], by
    show X86.misc0 { opcode := 0xE7 } (p :: t) = _
    simp [X86.misc0, X86.Head.bare, X86.ioBits]⟩

/-- C83: an accepted call is the instruction asked for, with the operands given, and nothing else is written. -/
theorem c83_partial {e : Entry} (hv : X86.among e.name miscNames = true) {w : List Act} (hc : Calls e g w) (hp : ProperM e g) (fill : Act → BitVec 32) :
    ∃ m, Asked g e.name m ∧ ∀ t, X86.misc (concr fill w ++ t) = some (m, t) := by
  have hb := List.all_eq_true.mp misc_check e hc.mem
  rw [hv] at hb
  replace hb : miscBody e = true := hb
  unfold miscBody at hb
  rw [Bool.and_eq_true] at hb
  obtain ⟨h0, hb⟩ := hb
  have hf := hc.fits
  rw [Nat.eq_of_beq_eq_true h0] at hf
  obtain ⟨m, hm, hw⟩ := hc.runs
  split at hb
  · rename_i r he
    rw [Bool.and_eq_true, Bool.and_eq_true, decide_eq_true_eq, decide_eq_true_eq] at hb
    have hne := Nat.eq_of_beq_eq_true hb.1.1
    rw [he] at hm
    cases hm
    have := raw_asked hb.2 hf hb.1.2 hw hp.named (fun h => hp.ret (by rw [hne]; rcases h with rfl | rfl <;> decide)) fill
    rwa [← hne] at this
  · rename_i x d c he
    rw [Bool.and_eq_true, decide_eq_true_eq] at hb
    obtain ⟨x', y', ho, h1, h2⟩ := fits2 hf hb.1
    obtain ⟨r, rfl⟩ := takes_reg h1
    obtain ⟨q, rfl⟩ := takes_reg h2
    have hr := hp.named 0 r (by rw [ho]; rfl)
    have hq := hp.named 1 q (by rw [ho]; rfl)
    have g0 : g.reg 0 = r := by unfold Args.reg Args.op; rw [ho]; rfl
    have g1 : g.reg 1 = q := by unfold Args.reg Args.op; rw [ho]; rfl
    rw [he] at hm
    cases hm
    have hb := hb.2
    rw [Bool.or_eq_true, Bool.and_eq_true, Bool.and_eq_true, decide_eq_true_eq, decide_eq_true_eq] at hb
    rcases hb with ⟨hne, rfl, rfl, rfl⟩ | ⟨hne, rfl, rfl, rfl⟩
    · rw [Nat.eq_of_beq_eq_true hne]
      replace hw : (opInOutDX (g.reg 0) (g.reg 1) 0xEC).Gives w () := hw
      rw [g0, g1] at hw
      obtain ⟨i1, i2, i3, hw⟩ := inOutDX_gives hw
      refine ⟨_, .inDX ho ⟨hr.2, i1⟩ ⟨by simp [Reg.isREG, Reg.isBit, hq.2, i3], i2⟩, fun t => ?_⟩
      rcases hw with ⟨hb, rfl⟩ | ⟨hb, rfl⟩ | ⟨hb, rfl⟩ <;> rw [hb, concr_bytes] <;> simp only [inDX_reads]
    · rw [Nat.eq_of_beq_eq_true hne]
      replace hw : (opInOutDX (g.reg 1) (g.reg 0) 0xEE).Gives w () := hw
      rw [g0, g1] at hw
      obtain ⟨i1, i2, i3, hw⟩ := inOutDX_gives hw
      refine ⟨_, .outDX ho ⟨hq.2, i1⟩ ⟨by simp [Reg.isREG, Reg.isBit, hr.2, i3], i2⟩, fun t => ?_⟩
      rcases hw with ⟨hb, rfl⟩ | ⟨hb, rfl⟩ | ⟨hb, rfl⟩ <;> rw [hb, concr_bytes] <;> simp only [outDX_reads]
  · rename_i x c i he
    rw [Bool.and_eq_true, decide_eq_true_eq] at hb
    obtain ⟨⟨hps, rfl, rfl⟩, hb⟩ := hb
    obtain ⟨x', ho, h1⟩ := fits1 hf hps
    obtain ⟨r, rfl⟩ := takes_reg h1
    have hr := hp.named 0 r (by rw [ho]; rfl)
    have g0 : g.reg 0 = r := by unfold Args.reg Args.op; rw [ho]; rfl
    rw [he] at hm
    cases hm
    replace hw : (opInOutImm (g.reg 0) c (g.i8 0)).Gives w () := hw
    rw [g0] at hw
    obtain ⟨i1, hw⟩ := inOutImm_gives hw
    rw [Bool.or_eq_true, Bool.and_eq_true, Bool.and_eq_true, decide_eq_true_eq, decide_eq_true_eq] at hb
    rcases hb with ⟨hne, rfl⟩ | ⟨hne, rfl⟩
    · rw [Nat.eq_of_beq_eq_true hne]
      refine ⟨_, .inImm ho ⟨hr.2, i1⟩, fun t => ?_⟩
      rcases hw with ⟨hb, rfl⟩ | ⟨hb, rfl⟩ | ⟨hb, rfl⟩ <;> rw [hb, concr_bytes] <;> simp only [inImm_reads]
    · rw [Nat.eq_of_beq_eq_true hne]
      refine ⟨_, .outImm ho ⟨hr.2, i1⟩, fun t => ?_⟩
      rcases hw with ⟨hb, rfl⟩ | ⟨hb, rfl⟩ | ⟨hb, rfl⟩ <;> rw [hb, concr_bytes] <;> simp only [outImm_reads]
  · rename_i x y c c' he
    rw [Bool.and_eq_true, decide_eq_true_eq] at hb
    obtain ⟨⟨hps, rfl, rfl⟩, hb⟩ := hb
    obtain ⟨x', y', ho, h1, h2⟩ := fits2 hf hps
    obtain ⟨d, rfl, hd⟩ := takes_isREG (.inl ⟨rfl, rfl⟩) h1
    obtain ⟨q, rfl, hq⟩ := takes_isREG (.inl ⟨rfl, rfl⟩) h2
    have g0 : g.reg 0 = d := by unfold Args.reg Args.op; rw [ho]; rfl
    have g1 : g.reg 1 = q := by unfold Args.reg Args.op; rw [ho]; rfl
    rw [he] at hm
    cases hm
    replace hw : (opEncodeKey (g.reg 0) (g.reg 1) c c').Gives w () := hw
    rw [g0, g1] at hw
    rw [Bool.or_eq_true, Bool.and_eq_true, Bool.and_eq_true, decide_eq_true_eq, decide_eq_true_eq] at hb
    have low := hp.key (by
      rcases hb with ⟨hne, _⟩ | ⟨hne, _⟩
      · exact .inl (Nat.eq_of_beq_eq_true hne)
      · exact .inr (Nat.eq_of_beq_eq_true hne))
    have l1 := low d (by rw [ho]; simp)
    have l2 := low q (by rw [ho]; simp)
    unfold opEncodeKey at hw
    rw [if_pos ⟨by omega, by omega⟩] at hw
    obtain rfl := hw.1
    rcases hb with ⟨hne, rfl⟩ | ⟨hne, rfl⟩
    · rw [Nat.eq_of_beq_eq_true hne]
      exact ⟨_, .key128 ho hd hq, fun t => key_reads _ _ (.inl ⟨rfl, rfl⟩) d q l1 l2 t⟩
    · rw [Nat.eq_of_beq_eq_true hne]
      exact ⟨_, .key256 ho hd hq, fun t => key_reads _ _ (.inr ⟨rfl, rfl⟩) d q l1 l2 t⟩
  · cases hb

theorem ext2_ge : ∀ i : BitVec 5, (Reg.gp i 32).isExtIdx2 = true → i.toNat ≥ 16 := by decide +kernel

theorem movdir_opc : ∀ i : BitVec 5, opc (fl [T_66, T_0F38]) (Reg.gp i 32) 0xF8 = 0xF8 := by decide +kernel

theorem movdir_body : (all.all fun e => !Nat.beq e.name n!"movdir64b" || (Nat.beq e.opt 0 && decide (e.params = [.reg, .addr]) &&
    match e.body with | .leaf (.raw r) => decide (r = .movdir64b) | _ => false)) = true := by decide +kernel

/-- C83, MOVDIR64B: an accepted call with a general-purpose register is the instruction (legacy form, or the form in map 4 if registers 16-31 occur) with the register and
the address given.  The width of the register is not part of the encoding: it is that of the address (`c83_refuted_movdir`). -/
theorem c83_movdir_partial {e : Entry} (hn : e.name = n!"movdir64b") {w : List Act} (hc : Calls e g w)
    (hr : (g.reg 0).Named ∧ (g.reg 0).kind = .reg ∧ ((g.reg 0).bit = 32 ∨ (g.reg 0).bit = 64))
    (ha : OpOK (.mem (g.mem 1)) ∧ (g.mem 1).o.nf = false ∧ (g.mem 1).o.zu = false) (hi : (g.mem 1).immSize = 0)
    (hnf : (g.mem 1).getRegExp.base.nf = false ∧ (g.mem 1).getRegExp.index.nf = false)
    (hw32 : (g.reg 0).idx.toNat ≥ 16 ∨ (g.mem 1).hasRex2 = true → (g.mem 1).is32bit = false ∧ (g.mem 1).mode ≠ .disp64)
    (fill : Act → BitVec 32) :
    ∃ r a, g.ops = [.reg r, .mem a] ∧ ∃ h reg m, (∀ t, X86.insn false 1 (concr fill w ++ t) = some (⟨h, reg, .mem m⟩, t)) ∧
      (((h.space = .legacy ∨ h.space = .rex2) ∧ h.map = 2 ∧ h.p66 = true ∧ h.pF2 = false ∧ h.pF3 = false) ∨ (h.space = .evex ∧ h.map = 4 ∧ h.pp = 1 ∧ h.nd = false ∧ h.nf = false ∧ h.L = 0)) ∧
      h.opcode = 0xF8 ∧ h.p67 = a.is32bit ∧ X86.regNum h reg = r.idx ∧ a.Means fill h m := by
  have hb := List.all_eq_true.mp movdir_body e hc.mem
  rw [hn] at hb
  replace hb : (Nat.beq e.opt 0 && decide (e.params = [.reg, .addr]) && match e.body with | .leaf (.raw r) => decide (r = .movdir64b) | _ => false) = true := hb
  rw [Bool.and_eq_true, Bool.and_eq_true, decide_eq_true_eq] at hb
  obtain ⟨⟨h0, hps⟩, hb⟩ := hb
  have hf := hc.fits
  rw [Nat.eq_of_beq_eq_true h0] at hf
  obtain ⟨x', y', ho, h1, h2⟩ := fits2 hf (p := .reg) (q := .addr) (by rw [hps]; rfl)
  obtain ⟨r, rfl⟩ := takes_reg h1
  cases y' with
  | reg q => cases h2
  | mem a =>
  have g0 : g.reg 0 = r := by unfold Args.reg Args.op; rw [ho]; rfl
  have g1 : g.mem 1 = a := by unfold Args.mem Args.op; rw [ho]; rfl
  rw [g0] at hr hw32
  rw [g1] at ha hw32 hi hnf
  obtain ⟨m, hm, hw⟩ := hc.runs
  split at hb
  · rename_i he
    obtain rfl := of_decide_eq_true hb
    rw [he] at hm
    cases hm
    replace hw : (do let q ← Enc.lift ((g.reg 0).cvtGp 32); opMR (g.mem 1) q (fl [T_66, T_0F38]) 0xF8 (fl [T_APX, T_66]) : Enc Unit).Gives w () := hw
    rw [g0, g1] at hw
    obtain ⟨q, hq, hw⟩ := Enc.lift_bind.1 hw
    obtain ⟨q', hq', _, _, hq4⟩ := changeBit32 hr.1 hr.2.1 hr.2.2
    have hq : q = .gp r.idx 32 := by
      unfold Reg.cvtGp at hq
      rw [hq'] at hq
      cases hq
      rw [hq4]
    subst hq
    refine ⟨r, a, ho, ?_⟩
    unfold opMR at hw
    rw [if_pos (by decide)] at hw
    rw [Enc.gives_bind] at hw
    obtain ⟨w1, b, w2, hb, hw, rfl⟩ := hw
    cases hu : rooUsed .nil (.mem a) (.reg (.gp r.idx 32)) (fl [T_APX, T_66]) with
    | false =>
      rw [roo_false _ _ _ _ _ _ _ hu] at hb
      obtain ⟨rfl, rfl⟩ := Enc.gives_pure.mp hb
      replace hw : (opMR a (.gp r.idx 32) (fl [T_66, T_0F38]) 0xF8).Gives w2 () := hw
      obtain ⟨h, reg, m, hh, e1, e2, e3, e4⟩ := c34_mr a ha.1.1 ha.1.2.1 ha.1.2.2.1 ha.1.2.2.2 (.gp r.idx 32) (fun h => absurd rfl h) (fl [T_66, T_0F38]) 0xF8 (by decide) (by rw [movdir_opc]; decide) hw fill
      exact ⟨h, reg, m, e3, .inl ⟨hh.space, hh.map, hh.p66.trans (by unfold p66of; rfl), hh.pF2, hh.pF3⟩, hh.opcode.trans (movdir_opc _), hh.p67, e1, e4⟩
    | true =>
      have hx : r.idx.toNat ≥ 16 ∨ a.hasRex2 = true := by
        have h1 : ((false || false) || (false || ((a.hasRex2 || a.o.nf) || a.o.zu) || (((true && (Reg.gp r.idx 32).isExtIdx2) || false) || false))) = true := hu
        rw [ha.2.1, ha.2.2] at h1
        simp only [Bool.false_or, Bool.or_false, Bool.true_and, Bool.or_eq_true] at h1
        rcases h1 with h1 | h1
        · exact .inr h1
        · exact .inl (ext2_ge r.idx h1)
      obtain ⟨h32, hd⟩ := hw32 hx
      obtain ⟨rfl, h, reg, rm, e1, e2, e3, e4, e5, _⟩ := c41_roo .nil (.mem a) (.reg (.gp r.idx 32)) (fl [T_APX, T_66]) 0xF8 0 none hu (.inl (by decide)) ⟨ha.1, h32, hd⟩ hb fill
      replace hw : (pure () : Enc Unit).Gives w2 () := hw
      obtain ⟨rfl, _⟩ := Enc.gives_pure.mp hw
      obtain ⟨m, rfl, hM⟩ := e4
      refine ⟨h, reg, m, fun s => ?_, .inr ⟨e2.space, e2.map, e2.pp.trans ?_, e2.nd.trans ?_, (e5 rfl).2.trans ?_, e2.L⟩, e2.opcode.trans (by show opc (fl [T_APX, T_66]) Reg.nil 0xF8 = 0xF8; decide +kernel), e2.p67.trans h32.symm, e3, ?_⟩
      · rw [List.append_nil]; exact e1 s
      · rfl
      · rfl
      · show (false || a.getRegExp.base.nf || a.getRegExp.index.nf || false) = false
        rw [hnf.1, hnf.2]; rfl
      · have : ({ a with immSize := 0 } : Addr) = a := by rw [← hi]
        rwa [this] at hM
  · cases hb

private def at0 (bits : Nat) : Operand := .mem { o := { idx := 0, ext8 := false, kind := .mem, bit := bits }, e := { base := .gp 1 64, index := .gp 0 64, scale := 1, disp := 0 } }

/-- Bug: the number of bytes `ret` and `retf` (923, 924) release is cut to 16 bits without an error: `ret(65536)` releases nothing, `ret(-1)` 65535 bytes. -/
theorem c83_refuted_ret :
    callAt 923 { ops := [], ints := [65536] } = some (n!"ret", [0xC2, 0, 0].map .byte) ∧ callAt 924 { ops := [], ints := [65536] } = some (n!"retf", [0xCA, 0, 0].map .byte) ∧
    Confused n!"ret" n!"ret" { ops := [], ints := [-1] } { ops := [], ints := [65535] } ∧ X86.misc [0xC2, 0, 0] = some (.ret false 0, []) :=
  ⟨by decide +kernel, by decide +kernel, confused_of (l := 923) (l' := 923) (w := [0xC2, 0xFF, 0xFF].map .byte) (by decide +kernel) (by decide +kernel), by decide +kernel⟩

/-- Bug: only number and width of the accumulator are checked, not its kind (xbyak.h `opInOut`): `in_(st0, dx)` (521) is written as `in eax, dx`. -/
theorem c83_refuted_in : Confused n!"in_" n!"in_" { ops := [.reg (.st 0), .reg (.gp 2 16)] } { ops := [.reg (.gp 0 32), .reg (.gp 2 16)] } :=
  confused_of (l := 521) (l' := 521) (w := [0xED].map .byte) (by decide +kernel) (by decide +kernel)

/-- Bug: `umonitor` (1043) takes any register: `umonitor(mm1)` and `umonitor(k1)` are written as `umonitor(rcx)`. -/
theorem c83_refuted_umonitor :
    Confused n!"umonitor" n!"umonitor" { ops := [.reg (.mm 1)] } { ops := [.reg (.gp 1 64)] } ∧ Confused n!"umonitor" n!"umonitor" { ops := [.reg (.opmask 1)] } { ops := [.reg (.gp 1 64)] } :=
  ⟨confused_of (l := 1043) (l' := 1043) (w := [0xF3, 0x0F, 0xAE, 0xF1].map .byte) (by decide +kernel) (by decide +kernel),
   confused_of (l := 1043) (l' := 1043) (w := [0xF3, 0x0F, 0xAE, 0xF1].map .byte) (by decide +kernel) (by decide +kernel)⟩

/-- Bug: `movdir64b` (693) checks neither the kind nor the width of the register: with xmm1 and cx it is written as with rcx.  And it refuses `zword [rcx + rax]`, the size of
its memory operand, while it takes `dword`. -/
theorem c83_refuted_movdir :
    Confused n!"movdir64b" n!"movdir64b" { ops := [.reg (.xmm 1), at0 0] } { ops := [.reg (.gp 1 64), at0 0] } ∧
    Confused n!"movdir64b" n!"movdir64b" { ops := [.reg (.gp 1 16), at0 0] } { ops := [.reg (.gp 1 64), at0 0] } ∧
    Confused n!"movdir64b" n!"movdir64b" { ops := [.reg (.gp 1 64), at0 32] } { ops := [.reg (.gp 1 64), at0 0] } ∧
    Throws 693 n!"movdir64b" { ops := [.reg (.gp 1 64), at0 512] } .BAD_MEM_SIZE :=
  ⟨confused_of (l := 693) (l' := 693) (w := [0x66, 0x0F, 0x38, 0xF8, 0x0C, 0x01].map .byte) (by decide +kernel) (by decide +kernel),
   confused_of (l := 693) (l' := 693) (w := [0x66, 0x0F, 0x38, 0xF8, 0x0C, 0x01].map .byte) (by decide +kernel) (by decide +kernel),
   confused_of (l := 693) (l' := 693) (w := [0x66, 0x0F, 0x38, 0xF8, 0x0C, 0x01].map .byte) (by decide +kernel) (by decide +kernel), throws_of (by decide +kernel)⟩

/-! ## Examples -/

/-- `enter(0x1234, 5)`, `jmpabs(0x1122334455667788)`. -/
example : X86.misc [0xC8, 0x34, 0x12, 5, 0x90] = some (.enter 0x1234 5, [0x90]) ∧
    X86.misc [0xD5, 0, 0xA1, 0x88, 0x77, 0x66, 0x55, 0x44, 0x33, 0x22, 0x11] = some (.jmpabs 0x1122334455667788, []) := by decide +kernel

/-- The hypotheses of `c83_partial` can be met: `in_(ax, dx)` (521), and the bytes are read as IN from DX with 16 bits. -/
example : (∃ e w, e.name = n!"in_" ∧ X86.among e.name miscNames = true ∧ Calls e { ops := [.reg (.gp 0 16), .reg (.gp 2 16)] } w ∧ ProperM e { ops := [.reg (.gp 0 16), .reg (.gp 2 16)] }) ∧
    X86.misc [0x66, 0xED] = some (.inp 16 none, []) := by
  refine ⟨?_, by decide +kernel⟩
  obtain ⟨e, _, hn, hc⟩ := callAt_line (show callAt 521 { ops := [.reg (.gp 0 16), .reg (.gp 2 16)] } = some (n!"in_", [0x66, 0xED].map .byte) by decide +kernel)
  have named : ∀ i : BitVec 5, (Reg.gp i 16).Named := fun i =>
    ⟨.inl ⟨rfl, .inr (.inl rfl)⟩, (fun h => by cases h), (fun h => by rcases h with h | h | h | h <;> cases h), fun h => by cases h⟩
  refine ⟨e, _, hn, by rw [hn]; decide, hc, ?_, ?_, ?_⟩
  · intro i q h
    match i, h with
    | 0, h => cases h; exact ⟨named 0, rfl⟩
    | 1, h => cases h; exact ⟨named 2, rfl⟩
    | (i + 2), h => cases h
  · rw [hn]; intro h; rcases h with h | h <;> cases h
  · rw [hn]; intro h; rcases h with h | h <;> cases h

end Mn
end Xbyak
