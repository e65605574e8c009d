import Verif.Props.Misc
import Verif.Props.Vex
import Verif.Props.Apx
import Verif.High
import Verif.Reads
set_option linter.unusedSimpArgs false
/-!
# C84: base and index keep their roles

In most instructions only the sum of base and scaled index matters.  For BNDLDX and BNDSTX the index register is an operand of its own (SDM, volume 2,
BNDLDX: "the address of the pointer is in the index register"), and for tile loads and stores the index is the distance of the rows (SDM, volume 2,
TILELOADD: the index register holds the row stride, "sibmem").  There `[reg * 2]` must not become `[reg + reg]`.
-/
namespace Xbyak

/-- Without the optimization, base and index of the decoded operand are those given. -/
theorem means_parts {fill : Act → BitVec 32} {a : Addr} {h : X86.Head} {m : X86.Mem} (hm : a.mode = .modRM) (he : a.getRegExp = a.e) (hM : a.Means fill h m) :
    m.rip = false ∧ a.e.Parts m := by
  unfold Addr.Means at hM
  rw [hm, he] at hM
  exact ⟨hM.1, hM.2.2.elim id id⟩

theorem noOpt_means {fill : Act → BitVec 32} {a : Addr} {h : X86.Head} {m : X86.Mem} (hm : a.mode = .modRM) (hM : ({ a with opt := false } : Addr).Means fill h m) :
    m.rip = false ∧ a.e.Parts m := means_parts (a := { a with opt := false }) hm rfl hM

namespace Mn
open E

variable {g : Args}

/-- `opVex` with a tile register and a memory operand that has no modifiers. -/
theorem tile_vex {t : Reg} {a : Addr} (ha : OpOK (.mem a)) (hm : a.mode = .modRM) (hb : a.broadcast = false) (hk : a.o.mask = 0) (hx : a.hasRex2 = false)
    (ht : t.hasEvex = false) {type : Ty} {code : Byte} (h1 : type.has (T_MUST_EVEX ||| T_MEM_EVEX) = false) (h2 : type.has T_VSIB = false) {w : List Act}
    (hw : (opVex t (some (.tmm 0)) (.mem a) type code).Gives w ()) (fill : Act → BitVec 32) :
    ∃ h reg m, (∀ s, X86.insn false 1 (concr fill w ++ s) = some (⟨h, reg, .mem m⟩, s)) ∧ X86.regNum h reg = t.idx ∧ a.Means fill h m := by
  obtain ⟨hwf, hp, hn, hi⟩ := ha
  have he : memEvex t (some (.tmm 0)) a type = false := by
    unfold memEvex
    rw [h1, ht, hb, hk, hx]; rfl
  have hs : a.e.index.isSIMD = false := by
    rw [← isVsib_simd hwf hi]
    cases hv : a.isVsib with
    | false => rfl
    | true => exact (opVex_vsib _ _ a type code none hp hv h2 _ _ hw).elim
  obtain ⟨h, reg, m, e1, e2, e3, e4⟩ := c38_mem_partial t (some (.tmm 0)) a hwf hn hi (by rw [hm]; decide) (by rw [hs]; exact fun h => by cases h) type code none he hw fill
  rw [hs] at e1
  exact ⟨h, reg, m, e1, e3, e4⟩

/-- The operands of a tile load or store: a tile register and an address as a program can make them, both without modifiers; and not 32-bit addressing with
registers 16-31, which `opROO` gets wrong (`c41_refuted_addr32`). -/
structure ProperT (t : Reg) (a : Addr) : Prop where
  addr : OpOK (.mem a)
  tile : t.hasEvex = false ∧ (Operand.reg t).hasRex2NFZU = false
  plain : a.broadcast = false ∧ a.o.mask = 0 ∧ (Operand.mem a).hasRex2NFZU = a.hasRex2
  wide : a.hasRex2 = true → a.is32bit = false

/-- The common part of tile loads and stores. -/
theorem tile_reads {t : Reg} {a : Addr} (hp : ProperT t a) (hm : a.mode = .modRM) {type : Ty} {code : Byte} (h1 : type.has (T_MUST_EVEX ||| T_MEM_EVEX) = false)
    (h2 : type.has T_VSIB = false) (h3 : (T_APX ||| type).has T_APX = true) (h4 : (T_APX ||| type).has T_MUST_EVEX = false) {w : List Act}
    (hw : (do let done ← opROO .nil (.mem a) (.reg t) (T_APX ||| type) code
              if done then pure () else opVex t (some (.tmm 0)) (.mem a) type code : Enc Unit).Gives w ()) (fill : Act → BitVec 32) :
    ∃ h reg m, (∀ s, X86.insn false 1 (concr fill w ++ s) = some (⟨h, reg, .mem m⟩, s)) ∧ X86.regNum h reg = t.idx ∧ a.Means fill h m := by
  rw [Enc.gives_bind] at hw
  obtain ⟨w1, b, w2, hb, hw, rfl⟩ := hw
  cases hu : rooUsed .nil (.mem a) (.reg t) (T_APX ||| type) with
  | false =>
    rw [roo_false _ _ _ _ _ _ _ hu] at hb
    obtain ⟨rfl, rfl⟩ := Enc.gives_pure.mp hb
    rw [if_neg Bool.false_ne_true] at hw
    have hx : a.hasRex2 = false := by
      unfold rooUsed at hu
      simp only [Bool.or_eq_false_iff] at hu
      rw [← hp.plain.2.2]
      exact hu.2.1.2
    exact tile_vex hp.addr hm hp.plain.1 hp.plain.2.1 hx hp.tile.1 h1 h2 hw fill
  | true =>
    have hx : a.hasRex2 = true := by
      unfold rooUsed at hu
      rw [h4, hp.tile.2, hp.plain.2.2] at hu
      simpa [Reg.isREG, Reg.nil, Operand.hasRex2NFZU, Operand.hasRex2, Reg.hasRex2, Operand.hd] using hu
    obtain ⟨rfl, h, reg, rm, e1, e2, e3, e4, _⟩ := c41_roo .nil (.mem a) (.reg t) (T_APX ||| type) code 0 none hu (.inl h3) ⟨hp.addr, hp.wide hx, by rw [hm]; decide⟩ hb fill
    rw [if_pos rfl] at hw
    obtain ⟨rfl, _⟩ := Enc.gives_pure.mp hw
    obtain ⟨m, rfl, hM⟩ := e4
    refine ⟨h, reg, m, fun s => ?_, e3, ?_⟩
    · rw [List.append_nil]; exact e1 s
    · unfold Addr.Means at hM ⊢
      dsimp only at hM
      rw [hm] at hM ⊢
      exact hM

/-- The function is one of the calls C84 speaks about. -/
def sibBody (e : Entry) : Bool := Nat.beq e.opt 0 && match e.body with
  | .leaf (.amx x m t _) => decide (e.params.filter Param.isOperand = [.tmm, .addr] ∧ x = .a 0 ∧ m = .a 1) &&
      ((Nat.beq e.name n!"tileloadd" && decide (t = fl [T_F2, T_0F38, T_W0])) || (Nat.beq e.name n!"tileloaddt1" && decide (t = fl [T_66, T_0F38, T_W0])))
  | .apx d x y t c (.leaf (.vex r v o t' c' i)) => Nat.beq e.name n!"tilestored" && decide (e.params.filter Param.isOperand = [.addr, .tmm]) &&
      decide (d = .r .nil ∧ x = .a 0 ∧ y = .a 1 ∧ r = .a 1 ∧ v = some (.r (.tmm 0)) ∧ o = .a 0) &&
      decide (t = T_APX ||| fl [T_F3, T_0F38, T_W0] ∧ t' = fl [T_F3, T_0F38, T_W0] ∧ c = c' ∧ i = .none)
  | .leaf (.mib m r t c) => decide (t = T_0F) &&
      ((Nat.beq e.name n!"bndldx" && decide (e.params.filter Param.isOperand = [.bnd, .addr] ∧ m = .a 1 ∧ r = .a 0 ∧ c = 0x1A)) ||
       (Nat.beq e.name n!"bndstx" && decide (e.params.filter Param.isOperand = [.addr, .bnd] ∧ m = .a 0 ∧ r = .a 1 ∧ c = 0x1B)))
  | _ => false

def sibNames : List Nat := [n!"tileloadd", n!"tileloaddt1", n!"tilestored", n!"bndldx", n!"bndstx"]

set_option maxRecDepth 1000000 in
theorem sib_check : (all.all fun e => !X86.among e.name sibNames || sibBody e) = true := by decide +kernel

theorem sibBody_of {e : Entry} (he : e ∈ all) (hn : X86.among e.name sibNames = true) : sibBody e = true := by
  have hb := List.all_eq_true.mp sib_check e he
  rw [hn] at hb
  exact hb

theorem takes_tmm {x : Operand} (h : Param.tmm.takes x = true) : ∃ r, x = .reg r := by
  cases x with
  | mem a => cases h
  | reg r => exact ⟨r, rfl⟩

theorem takes_bnd {x : Operand} (h : Param.bnd.takes x = true) : ∃ r, x = .reg r ∧ r.kind = .bndreg := by
  cases x with
  | mem a => cases h
  | reg r => exact ⟨r, rfl, by simpa [Param.takes, Operand.isMEM, Operand.hd, Reg.isBNDREG] using h⟩

theorem takes_addr {x : Operand} (h : Param.addr.takes x = true) : ∃ a, x = .mem a := by
  cases x with
  | mem a => exact ⟨a, rfl⟩
  | reg r => cases h

/-- C84, tile loads: an accepted load has the base and the index given, in these roles, and both are there. -/
theorem c84_load {e : Entry} (hn : e.name = n!"tileloadd" ∨ e.name = n!"tileloaddt1") {w : List Act} (hc : Calls e g w) (hp : ProperT (g.reg 0) (g.mem 1)) (fill : Act → BitVec 32) :
    ∃ t a, g.ops = [.reg t, .mem a] ∧ a.e.base ≠ .nil ∧ a.e.index ≠ .nil ∧ ∃ h reg m, (∀ s, X86.insn false 1 (concr fill w ++ s) = some (⟨h, reg, .mem m⟩, s)) ∧
      X86.regNum h reg = t.idx ∧ m.rip = false ∧ a.e.Parts m := by
  have hb := sibBody_of hc.mem (by rcases hn with h | h <;> rw [h] <;> decide)
  unfold sibBody at hb
  rw [Bool.and_eq_true] at hb
  obtain ⟨h0, hb⟩ := hb
  have hf := hc.fits
  rw [Nat.eq_of_beq_eq_true h0] at hf
  obtain ⟨m, hm, hw⟩ := hc.runs
  split at hb
  · rename_i x y t c he
    rw [Bool.and_eq_true, decide_eq_true_eq] at hb
    obtain ⟨⟨hps, rfl, rfl⟩, hb⟩ := hb
    obtain ⟨x', y', ho, h1, h2⟩ := fits2 hf hps
    obtain ⟨r, rfl⟩ := takes_tmm h1
    obtain ⟨a, rfl⟩ := takes_addr h2
    have g0 : g.reg 0 = r := by unfold Args.reg Args.op; rw [ho]; rfl
    have g1 : g.mem 1 = a := by unfold Args.mem Args.op; rw [ho]; rfl
    rw [he] at hm
    cases hm
    replace hw : (opAMX (g.reg 0) (g.mem 1) t c).Gives w () := hw
    rw [g0, g1] at hw hp
    unfold opAMX at hw
    dsimp only at hw
    obtain ⟨hx, hw⟩ := Enc.throwIf_bind.1 hw
    have hx : a.e.base.bit ≠ 0 ∧ a.e.index.bit ≠ 0 := by
      rw [Bool.or_eq_false_iff, beq_eq_false_iff_ne, beq_eq_false_iff_ne] at hx
      exact hx
    have hm : a.mode = .modRM := by
      apply Decidable.of_not_not
      intro h
      exact hx.1 (by rw [(hp.addr.1.rip h).1]; rfl)
    have hp' : ProperT r { a with opt := false } := ⟨⟨⟨hp.addr.1.exp, hp.addr.1.rip, hp.addr.1.kind⟩, hp.addr.2⟩, hp.tile, hp.plain, hp.wide⟩
    have ht : t = fl [T_F2, T_0F38, T_W0] ∨ t = fl [T_66, T_0F38, T_W0] := by
      rw [Bool.or_eq_true, Bool.and_eq_true, Bool.and_eq_true, decide_eq_true_eq, decide_eq_true_eq] at hb
      exact hb.elim (fun h => .inl h.2) fun h => .inr h.2
    obtain ⟨h, reg, m, e1, e2, e3⟩ := tile_reads hp' hm (by rcases ht with rfl | rfl <;> decide) (by rcases ht with rfl | rfl <;> decide)
      (by rcases ht with rfl | rfl <;> decide) (by rcases ht with rfl | rfl <;> decide) hw fill
    have := noOpt_means hm e3
    exact ⟨r, a, ho, fun h => hx.1 (by rw [h]; rfl), fun h => hx.2 (by rw [h]; rfl), h, reg, m, e1, e2, this⟩
  · rw [Bool.and_eq_true, Bool.and_eq_true, Bool.and_eq_true] at hb
    have := Nat.eq_of_beq_eq_true hb.1.1.1
    rw [this] at hn
    rcases hn with h | h <;> cases h
  · rw [Bool.and_eq_true, Bool.or_eq_true, Bool.and_eq_true, Bool.and_eq_true] at hb
    rcases hb.2 with h | h <;> (rw [Nat.eq_of_beq_eq_true h.1] at hn; rcases hn with h | h <;> cases h)
  · cases hb

/-- C84, tile stores, given base and index: they keep their roles.  Without base or index `tilestored` is wrong (`c84_refuted_store`). -/
theorem c84_store_partial {e : Entry} (hn : e.name = n!"tilestored") {w : List Act} (hc : Calls e g w) (hp : ProperT (g.reg 1) (g.mem 0))
    (hx : (g.mem 0).e.base ≠ .nil ∧ (g.mem 0).e.index ≠ .nil) (hm : (g.mem 0).mode = .modRM) (fill : Act → BitVec 32) :
    ∃ t a, g.ops = [.mem a, .reg t] ∧ ∃ h reg m, (∀ s, X86.insn false 1 (concr fill w ++ s) = some (⟨h, reg, .mem m⟩, s)) ∧
      X86.regNum h reg = t.idx ∧ m.rip = false ∧ a.e.Parts m := by
  have hb := sibBody_of hc.mem (by rw [hn]; decide)
  unfold sibBody at hb
  rw [Bool.and_eq_true] at hb
  obtain ⟨h0, hb⟩ := hb
  have hf := hc.fits
  rw [Nat.eq_of_beq_eq_true h0] at hf
  obtain ⟨m, hr, hw⟩ := hc.runs
  split at hb
  · rw [Bool.and_eq_true, Bool.or_eq_true, Bool.and_eq_true, Bool.and_eq_true] at hb
    rcases hb.2 with h | h <;> (rw [Nat.eq_of_beq_eq_true h.1] at hn; cases hn)
  · rename_i he
    simp only [Bool.and_eq_true, decide_eq_true_eq] at hb
    obtain ⟨⟨⟨_, hps⟩, rfl, rfl, rfl, rfl, rfl, rfl⟩, rfl, rfl, rfl, rfl⟩ := hb
    obtain ⟨x', y', ho, h1, h2⟩ := fits2 hf hps
    obtain ⟨r, rfl⟩ := takes_tmm h2
    obtain ⟨a, rfl⟩ := takes_addr h1
    have g0 : g.reg 1 = r := by unfold Args.reg Args.op; rw [ho]; rfl
    have g1 : g.mem 0 = a := by unfold Args.mem Args.op; rw [ho]; rfl
    have o0 : g.op 0 = .mem a := by unfold Args.op; rw [ho]; rfl
    have o1 : g.op 1 = .reg r := by unfold Args.op; rw [ho]; rfl
    rw [he] at hr
    cases hr
    rw [g0, g1] at hp
    rw [g1] at hx hm
    have hb0 : a.e.base.bit ≠ 0 := by
      rcases (hp.addr.1.exp hm).1.base with h | h
      · exact absurd h hx.1
      · rcases h.2.1 with h | h <;> rw [h] <;> decide
    have hge : a.getRegExp = a.e := by
      unfold Addr.getRegExp RegExp.optimize
      rw [show (a.e.base.bit == 0) = false from beq_eq_false_iff_ne.mpr hb0]
      simp
    replace hw : (do let done ← opROO .nil (g.op 0) (g.op 1) (T_APX ||| fl [T_F3, T_0F38, T_W0]) _
                     if done then pure () else opVex (g.reg 1) (some (.tmm 0)) (g.op 0) (fl [T_F3, T_0F38, T_W0]) _ : Enc Unit).Gives w () := hw
    rw [o0, o1, g0] at hw
    obtain ⟨h, reg, m, e1, e2, e3⟩ := tile_reads hp hm (by decide) (by decide) (by decide) (by decide) hw fill
    exact ⟨r, a, ho, h, reg, m, e1, e2, means_parts hm hge e3⟩
  · rw [Bool.and_eq_true, Bool.or_eq_true, Bool.and_eq_true, Bool.and_eq_true] at hb
    rcases hb.2 with h | h <;> (rw [Nat.eq_of_beq_eq_true h.1] at hn; cases hn)
  · cases hb

theorem mib_reads {r : Reg} {a : Addr} (ha : OpOK (.mem a) ∧ a.o.isBit 16 = false) (hr : r.Named) (hk : r.kind = .bndreg) {c : Byte} (hc : c = 0x1A ∨ c = 0x1B) {w : List Act}
    (hw : (opMIB a r T_0F c).Gives w ()) (fill : Act → BitVec 32) :
    ∃ h reg m, (∀ s, X86.insn false 1 (concr fill w ++ s) = some (⟨h, reg, .mem m⟩, s)) ∧
      (h.space = .legacy ∨ h.space = .rex2) ∧ h.map = 1 ∧ h.opcode = c ∧ h.p66 = false ∧ h.pF2 = false ∧ h.pF3 = false ∧
      X86.regNum h reg = r.idx ∧ m.rip = false ∧ a.e.Parts m := by
  unfold opMIB at hw
  obtain ⟨hm, hw⟩ := Enc.throwIf_bind.1 hw
  have hm : a.mode = .modRM := by simpa using hm
  obtain ⟨⟨hwf, h1, h2, h3⟩, h16⟩ := ha
  have hb : r.isBit 16 = false := by
    rcases hr.shape with h | h | h | h | h | h | h | h | h
    all_goals first | (rw [hk] at h; cases h.1; done) | (rw [Reg.isBit, h.2]; rfl)
  have ho : opc T_0F r c = c := by
    unfold opc
    rw [show (T_0F &&& T_SENTRY == 0 || T_0F.has T_CODE1_IF1) = false from by decide]
    simp [sel]
  obtain ⟨h, reg, m, hh, e1, e2, e3, e4⟩ := c34_mr { a with opt := false } ⟨hwf.exp, hwf.rip, hwf.kind⟩ h1 h2 h3 r (fun _ => by have := hr.bnd hk; omega) T_0F c (by decide)
    (by rw [ho]; rcases hc with rfl | rfl <;> decide) hw fill
  refine ⟨h, reg, m, e3, hh.space, hh.map, hh.opcode.trans ho, hh.p66.trans ?_, hh.pF2, hh.pF3, e1, noOpt_means hm e4⟩
  have h16' : ({ a with opt := false } : Addr).o.isBit 16 = false := h16
  unfold p66of
  rw [h16', hb, show T_0F.has T_66 = false from by decide]; rfl

/-- C84, bound tables: an accepted `bndldx`/`bndstx` (with an address that is not declared 16-bit, see `c45_refuted_word`) is this instruction with the bound register, base and
index given. -/
theorem c84_mib_partial {e : Entry} (hn : e.name = n!"bndldx" ∨ e.name = n!"bndstx") {w : List Act} (hc : Calls e g w)
    (hr : ∀ q, Operand.reg q ∈ g.ops → q.Named) (ha : ∀ a, Operand.mem a ∈ g.ops → OpOK (.mem a) ∧ a.o.isBit 16 = false) (fill : Act → BitVec 32) :
    ∃ b a, (if e.name = n!"bndldx" then g.ops = [.reg b, .mem a] else g.ops = [.mem a, .reg b]) ∧
      ∃ h reg m, (∀ s, X86.insn false 1 (concr fill w ++ s) = some (⟨h, reg, .mem m⟩, s)) ∧
        (h.space = .legacy ∨ h.space = .rex2) ∧ h.map = 1 ∧ h.opcode = (if e.name = n!"bndldx" then 0x1A else 0x1B) ∧ h.p66 = false ∧ h.pF2 = false ∧ h.pF3 = false ∧
        X86.regNum h reg = b.idx ∧ m.rip = false ∧ a.e.Parts m := by
  have hb := sibBody_of hc.mem (by rcases hn with h | h <;> rw [h] <;> decide)
  unfold sibBody at hb
  rw [Bool.and_eq_true] at hb
  obtain ⟨h0, hb⟩ := hb
  have hf := hc.fits
  rw [Nat.eq_of_beq_eq_true h0] at hf
  obtain ⟨m, hm, hw⟩ := hc.runs
  split at hb
  · rw [Bool.and_eq_true, Bool.or_eq_true, Bool.and_eq_true, Bool.and_eq_true] at hb
    rcases hb.2 with h | h <;> (rw [Nat.eq_of_beq_eq_true h.1] at hn; rcases hn with h | h <;> cases h)
  · rw [Bool.and_eq_true, Bool.and_eq_true, Bool.and_eq_true] at hb
    rw [Nat.eq_of_beq_eq_true hb.1.1.1] at hn
    rcases hn with h | h <;> cases h
  · rename_i he
    simp only [Bool.and_eq_true, Bool.or_eq_true, decide_eq_true_eq] at hb
    obtain ⟨rfl, hb⟩ := hb
    rw [he] at hm
    cases hm
    rcases hb with ⟨hne, hps, rfl, rfl, rfl⟩ | ⟨hne, hps, rfl, rfl, rfl⟩
    · have hne := Nat.eq_of_beq_eq_true hne
      obtain ⟨x', y', ho, h1, h2⟩ := fits2 hf hps
      obtain ⟨r, rfl, hk⟩ := takes_bnd h1
      obtain ⟨a, rfl⟩ := takes_addr h2
      have g0 : g.reg 0 = r := by unfold Args.reg Args.op; rw [ho]; rfl
      have g1 : g.mem 1 = a := by unfold Args.mem Args.op; rw [ho]; rfl
      replace hw : (opMIB (g.mem 1) (g.reg 0) T_0F 0x1A).Gives w () := hw
      rw [g0, g1] at hw
      simp only [if_pos hne]
      exact ⟨r, a, ho, mib_reads (ha a (by rw [ho]; simp)) (hr r (by rw [ho]; simp)) hk (.inl rfl) hw fill⟩
    · have hne := Nat.eq_of_beq_eq_true hne
      have hn' : ¬ e.name = n!"bndldx" := by rw [hne]; decide
      obtain ⟨x', y', ho, h1, h2⟩ := fits2 hf hps
      obtain ⟨r, rfl, hk⟩ := takes_bnd h2
      obtain ⟨a, rfl⟩ := takes_addr h1
      have g0 : g.reg 1 = r := by unfold Args.reg Args.op; rw [ho]; rfl
      have g1 : g.mem 0 = a := by unfold Args.mem Args.op; rw [ho]; rfl
      replace hw : (opMIB (g.mem 0) (g.reg 1) T_0F 0x1B).Gives w () := hw
      rw [g0, g1] at hw
      simp only [if_neg hn']
      exact ⟨r, a, ho, mib_reads (ha a (by rw [ho]; simp)) (hr r (by rw [ho]; simp)) hk (.inr rfl) hw fill⟩
  · cases hb

private def mem2 (s : Nat) (x i : Reg) (k : Int) : Operand :=
  .mem { o := { idx := 0, ext8 := false, kind := .mem, bit := s }, e := { base := x, index := i, scale := k, disp := 0 } }

/-- Bug: `tilestored` (mnemonic.h 1931) does not use `opAMX` (xbyak.h 2784-2793).  `tilestored([rax * 2], tmm1)`, which stores rows at 0, 2 * rax, 4 * rax, …, is written as
`tilestored([rax + rax], tmm1)`, which stores them at rax, 2 * rax, …; and `tilestored([rax], tmm1)`, which `tileloadd` refuses, is written without SIB byte,
an invalid instruction. -/
theorem c84_refuted_store :
    Confused n!"tilestored" n!"tilestored" { ops := [mem2 0 .nil (.gp 0 64) 2, .reg (.tmm 1)] } { ops := [mem2 0 (.gp 0 64) (.gp 0 64) 1, .reg (.tmm 1)] } ∧
    callAt 1931 { ops := [mem2 0 (.gp 0 64) .nil 0, .reg (.tmm 1)] } = some (n!"tilestored", [0xC4, 0xE2, 0x7A, 0x4B, 0x08].map .byte) ∧
    Throws 1928 n!"tileloadd" { ops := [.reg (.tmm 1), mem2 0 (.gp 0 64) .nil 0] } .NOT_SUPPORTED ∧
    Throws 1928 n!"tileloadd" { ops := [.reg (.tmm 1), mem2 0 .nil (.gp 0 64) 2] } .NOT_SUPPORTED :=
  ⟨confused_of (l := 1931) (l' := 1931) (w := [0xC4, 0xE2, 0x7A, 0x4B, 0x0C, 0x00].map .byte) (by decide +kernel) (by decide +kernel), by decide +kernel,
   throws_of (by decide +kernel), throws_of (by decide +kernel)⟩

/-- Bug: `bndldx(bnd1, word [rcx + rax])` (51) is written as `bndmov bnd1, [rcx + rax]` (54): the prefix for 16-bit operands selects another instruction. -/
theorem c84_refuted_word :
    Confused n!"bndldx" n!"bndmov" { ops := [.reg (.bnd 1), mem2 16 (.gp 1 64) (.gp 0 64) 1] } { ops := [.reg (.bnd 1), mem2 0 (.gp 1 64) (.gp 0 64) 1] } :=
  confused_of (l := 51) (l' := 54) (w := [0x66, 0x0F, 0x1A, 0x0C, 0x01].map .byte) (by decide +kernel) (by decide +kernel)

/-! ## Examples -/

private def memA (k : Int) : Addr := { o := { idx := 0, ext8 := false, kind := .mem, bit := 0 }, e := { base := .gp 8 64, index := .gp 1 64, scale := k, disp := 0x40 } }

private theorem memA_ok (k : Int) (hk : k = 1 ∨ k = 2) : OpOK (.mem (memA k)) := by
  rcases hk with rfl | rfl <;> exact ⟨⟨fun _ => ⟨⟨by decide, by decide, by decide⟩, rfl⟩, fun h => absurd rfl h, rfl⟩, rfl, rfl, by decide⟩

/-- The hypotheses of `c84_load` can be met: `tileloadd(tmm1, [r8 + rcx * 2 + 0x40])` (1928); the decoded operand has base 8 and index 1 with scale 2. -/
example : (∃ e w, e.name = n!"tileloadd" ∧ Calls e { ops := [.reg (.tmm 1), .mem (memA 2)] } w ∧ ProperT (.tmm 1) (memA 2)) ∧
    (X86.insn false 1 [0xC4, 0xC2, 0x7B, 0x4B, 0x4C, 0x48, 0x40]).map (fun p => X86.regNum p.1.head p.1.reg) = some 1 := by
  refine ⟨?_, by decide +kernel⟩
  obtain ⟨e, hn, hc⟩ := callAt_calls (show callAt 1928 { ops := [.reg (.tmm 1), .mem (memA 2)] } = some (n!"tileloadd", [0xC4, 0xC2, 0x7B, 0x4B, 0x4C, 0x48, 0x40].map .byte) by decide +kernel)
  exact ⟨e, _, hn, hc, memA_ok 2 (.inr rfl), by decide, by decide, fun _ => by decide⟩

/-- `c84_store_partial`: `tilestored([r8 + rcx * 2 + 0x40], tmm1)` (1931). -/
example : ∃ e w, e.name = n!"tilestored" ∧ Calls e { ops := [.mem (memA 2), .reg (.tmm 1)] } w ∧ ProperT (.tmm 1) (memA 2) ∧
    (memA 2).e.base ≠ .nil ∧ (memA 2).e.index ≠ .nil ∧ (memA 2).mode = .modRM := by
  obtain ⟨e, hn, hc⟩ := callAt_calls (show callAt 1931 { ops := [.mem (memA 2), .reg (.tmm 1)] } = some (n!"tilestored", [0xC4, 0xC2, 0x7A, 0x4B, 0x4C, 0x48, 0x40].map .byte) by decide +kernel)
  exact ⟨e, _, hn, hc, ⟨memA_ok 2 (.inr rfl), by decide, by decide, fun _ => by decide⟩, by decide, by decide, rfl⟩

/-- `c84_mib_partial`: `bndldx(bnd1, [r8 + rcx + 0x40])` (51). -/
example : ∃ e w, e.name = n!"bndldx" ∧ Calls e { ops := [.reg (.bnd 1), .mem (memA 1)] } w ∧ (Reg.bnd 1).Named ∧ OpOK (.mem (memA 1)) ∧ (memA 1).o.isBit 16 = false := by
  obtain ⟨e, hn, hc⟩ := callAt_calls (show callAt 51 { ops := [.reg (.bnd 1), .mem (memA 1)] } = some (n!"bndldx", [0x41, 0x0F, 0x1A, 0x4C, 0x08, 0x40].map .byte) by decide +kernel)
  exact ⟨e, _, hn, hc, ⟨by decide, by decide, by decide, by decide⟩, memA_ok 1 (.inl rfl), rfl⟩

end Mn
end Xbyak
