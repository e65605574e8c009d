import Verif.Spec.Mov
import Verif.Props.Stack
/-!
# mov between registers and memory (C101)
-/
namespace Xbyak
open E

/-- Register number `n` of the decoded instruction is `q`. -/
structure IsGpr (h : X86.Head) (n : BitVec 5) (q : Reg) : Prop where
  num : n = q.idx
  byte : q.bit = 8 → X86.reg8 h n = q.view8

/-- The register of the decoded instruction is the operand. -/
def MovReg (i : X86.Mov) : Operand → Prop
  | .reg q => IsGpr i.head (match i.reg with | none => 0 | some lo => X86.regNum i.head lo) q ∧ i.bits = q.bit
  | .mem _ => False

/-- The other operand of the decoded instruction is the operand.  Addresses made from 64 bits (`disp64`) have no size of their own. -/
def MovPlace (fill : Act → BitVec 32) (i : X86.Mov) : Operand → Prop
  | .reg q => (∃ lo, i.place = .rm (.reg lo) ∧ IsGpr i.head (X86.rmGpr i.head lo) q) ∧ i.bits = q.bit
  | .mem a => if a.mode = .disp64 then i.place = .at_ a.e.disp ∧ i.head.seg = none
    else (∃ m, i.place = .rm (.mem m) ∧ a.Means fill i.head m) ∧ i.head.seg = none ∧ (a.o.bit = 0 ∨ a.o.bit = i.bits)

/-- Both operands. -/
def Moves (fill : Act → BitVec 32) (i : X86.Mov) (dst src : Operand) : Prop :=
  if i.load then MovReg i dst ∧ MovPlace fill i src else MovReg i src ∧ MovPlace fill i dst

theorem mov_at {bs : List Byte} {h : X86.Head} {d : Word} {t : List Byte} (hd : X86.head bs = some (h, leBytes 8 d ++ t)) (hm : h.map = 0)
    (hs : h.space = .legacy) (h67 : h.p67 = false) (ho : h.opcode &&& 0xFC = 0xA0) :
    X86.mov bs = some (⟨h, decide (h.opcode < 0xA2), if h.opcode &&& 1 = 0 then 8 else X86.opBits h, none, .at_ d⟩, t) := by
  have l8 : (leBytes 8 d).length = 8 := by unfold leBytes; simp
  unfold X86.mov
  rw [hd]
  dsimp only
  have c : ¬(h.space = .rex2 ∨ (leBytes 8 d ++ t).length < 8) := by
    rw [hs, List.length_append, l8]
    rintro (h | h)
    · cases h
    · omega
  rw [if_neg (by rw [hm, hs]; simp), if_pos ho, h67]
  simp only [Bool.false_eq_true, if_false]
  rw [if_neg c]
  rw [List.take_left' l8, List.drop_left' l8, fromLE_leBytes]
  have e : BitVec.ofNat 64 (d.toNat % 256 ^ 8) = d := by
    apply BitVec.eq_of_toNat_eq
    have := d.isLt
    simp only [BitVec.toNat_ofNat]
    omega
  rw [e]

/-- The bytes in front of the opcode for the accumulator. -/
theorem acc_rex (q : Reg) (hk : q.kind = .reg) (hx : q.ext8 = false) (h0 : q.idx = 0) :
    (q.bit = 8 → rexBytes 0 (p66of 0 q .nil) false (extRR .nil q) = []) ∧ (q.bit = 16 → rexBytes 0 (p66of 0 q .nil) false (extRR .nil q) = [0x66]) ∧
      (q.bit = 32 → rexBytes 0 (p66of 0 q .nil) false (extRR .nil q) = []) ∧ (q.bit = 64 → rexBytes 0 (p66of 0 q .nil) false (extRR .nil q) = [0x48]) := by
  obtain ⟨i, x, k, b, z, m, r, nf, zu⟩ := q
  simp only at hk hx h0
  subst hk hx h0
  refine ⟨fun h => ?_, fun h => ?_, fun h => ?_, fun h => ?_⟩ <;> simp only at h <;> subst h <;> revert z m r nf zu <;> decide +kernel

theorem mov_abs (q : Reg) (hk : q.kind = .reg) (np : q.Named) (h0 : q.idx = 0) (d : Word) (load : Bool) {w : List Act}
    (hw : (rex (.reg q) (.reg .nil) 0 >>= fun _ => Enc.db (if q.isREG 8 then (if load then 0xA0 else 0xA2) else (if load then 0xA1 else 0xA3)) >>= fun _ =>
      Enc.dbN d 8).Gives w ()) (fill : Act → BitVec 32) :
    ∃ i : X86.Mov, (∀ t, X86.mov (concr fill w ++ t) = some (i, t)) ∧ i.load = load ∧ MovReg i (.reg q) ∧ i.place = .at_ d ∧ i.head.seg = none := by
  simp only [Enc.gives_bind, rex_reg, Enc.gives_db, Enc.gives_dbN] at hw
  obtain ⟨_, _, _, ⟨_, _, rfl⟩, ⟨_, _, _, rfl, rfl, rfl⟩, rfl⟩ := hw
  have hx : q.ext8 = false := by
    cases h : q.ext8
    · rfl
    · have := (np.ext8 h).2.2.1; rw [h0] at this; exact absurd this (by decide)
  obtain ⟨a1, a2, a3, a4⟩ := acc_rex q hk hx h0
  have hc : ∀ (p : List Byte) (o : Byte) (t : List Byte), concr fill (p.map Act.byte ++ ([Act.byte o] ++ (leBytes 8 d).map .byte)) ++ t = p ++ o :: (leBytes 8 d ++ t) := by
    intro p o t
    have : p.map Act.byte ++ ([Act.byte o] ++ (leBytes 8 d).map .byte) = (p ++ o :: leBytes 8 d).map .byte := by simp
    rw [this, concr_bytes, List.append_assoc]
    rfl
  have hr : q.isREG 8 = (q.bit == 8) := by
    unfold Reg.isREG Reg.isBit
    rw [hk]
    rcases gp_bits np hk with h | h | h | h <;> rw [h] <;> rfl
  have fin : ∀ (h : X86.Head) (o : Byte) (p : List Byte), o = h.opcode → decide (o < 0xA2) = load → (if o &&& 1 = 0 then 8 else X86.opBits h) = q.bit →
      h.rex = false ∨ q.bit ≠ 8 → h.space = .legacy → h.map = 0 → h.p67 = false → h.seg = none → h.r3 = false → h.r4 = false → o &&& 0xFC = 0xA0 →
      (∀ t, X86.head (p ++ o :: t) = some (h, t)) →
      ∃ i : X86.Mov, (∀ t, X86.mov (concr fill (p.map Act.byte ++ ([Act.byte o] ++ (leBytes 8 d).map .byte)) ++ t) = some (i, t)) ∧ i.load = load ∧
        MovReg i (.reg q) ∧ i.place = .at_ d ∧ i.head.seg = none := by
    rintro h o p rfl e1 e2 e3 e4 e5 e6 e7 _ _ e8 e9
    refine ⟨⟨h, decide (h.opcode < 0xA2), if h.opcode &&& 1 = 0 then 8 else X86.opBits h, none, .at_ d⟩, fun t => ?_, e1, ⟨⟨h0.symm, fun hb => ?_⟩, e2⟩, rfl, e7⟩
    · rw [hc]
      exact mov_at (e9 _) e5 e4 e6 e8
    · have := e3.resolve_right (fun h => h hb)
      have := reg8_view h q hb (fun _ => e4) (fun _ => this) (fun he => by rw [hx] at he; cases he)
      rw [h0] at this
      exact this
  rcases gp_bits np hk with hb | hb | hb | hb
  · rw [a1 hb, hr, hb]
    cases load
    · exact fin { opcode := 0xA2 } 0xA2 [] rfl rfl hb.symm (.inl rfl) rfl rfl rfl rfl rfl rfl rfl (fun _ => rfl)
    · exact fin { opcode := 0xA0 } 0xA0 [] rfl rfl hb.symm (.inl rfl) rfl rfl rfl rfl rfl rfl rfl (fun _ => rfl)
  · rw [a2 hb, hr, hb]
    cases load
    · exact fin { p66 := true, opcode := 0xA3 } 0xA3 [0x66] rfl rfl hb.symm (.inl rfl) rfl rfl rfl rfl rfl rfl rfl (fun _ => rfl)
    · exact fin { p66 := true, opcode := 0xA1 } 0xA1 [0x66] rfl rfl hb.symm (.inl rfl) rfl rfl rfl rfl rfl rfl rfl (fun _ => rfl)
  · rw [a3 hb, hr, hb]
    cases load
    · exact fin { opcode := 0xA3 } 0xA3 [] rfl rfl hb.symm (.inl rfl) rfl rfl rfl rfl rfl rfl rfl (fun _ => rfl)
    · exact fin { opcode := 0xA1 } 0xA1 [] rfl rfl hb.symm (.inl rfl) rfl rfl rfl rfl rfl rfl rfl (fun _ => rfl)
  · rw [a4 hb, hr, hb]
    have n8 : q.bit ≠ 8 := by rw [hb]; decide
    cases load
    · exact fin { rex := true, w := true, opcode := 0xA3 } 0xA3 [0x48] rfl rfl hb.symm (.inr n8) rfl rfl rfl rfl rfl rfl rfl (fun _ => rfl)
    · exact fin { rex := true, w := true, opcode := 0xA1 } 0xA1 [0x48] rfl rfl hb.symm (.inr n8) rfl rfl rfl rfl rfl rfl rfl (fun _ => rfl)

theorem opc_mov (r : Reg) (hb : r.bit = 8 ∨ r.bit = 16 ∨ r.bit = 32 ∨ r.bit = 64) :
    opc 0 r 0x88 = (if r.bit = 8 then 0x88 else 0x89) ∧ opc 0 r 0x8A = (if r.bit = 8 then 0x8A else 0x8B) := by
  unfold opc Reg.isBit
  rcases hb with h | h | h | h <;> rw [h] <;> decide

theorem mov_of_insn {bs t : List Byte} {h : X86.Head} {reg : BitVec 3} {rm : X86.RM} (hi : X86.insn false 1 bs = some (⟨h, reg, rm⟩, t)) (hm : h.map = 0)
    (hs : h.space = .legacy ∨ h.space = .rex2) (load : Bool) (n : Nat)
    (ho : h.opcode = if load then (if n = 8 then 0x8A else 0x8B) else (if n = 8 then 0x88 else 0x89)) (hb : n ≠ 8 → X86.opBits h = n) :
    X86.mov bs = some (⟨h, load, n, some reg, .rm rm⟩, t) := by
  obtain ⟨t', e1, e2⟩ := insn_head hi
  unfold X86.mov
  rw [e1]
  dsimp only
  rw [if_neg (fun c => c.elim (fun c => c hm) (fun c => c hs)), e2, ho]
  by_cases h8 : n = 8
  · subst h8
    cases load <;> rfl
  · rw [if_neg h8, if_neg h8]
    cases load <;> simp [hb h8]

theorem mov_rr (q1 q2 : Reg) (k1 : q1.kind = .reg) (k2 : q2.kind = .reg) (n1 : q1.Named) (n2 : q2.Named) {w : List Act}
    (hw : (opRO q2 (.reg q1) 0 0x88 (q1.kind == q2.kind)).Gives w ()) (fill : Act → BitVec 32) :
    ∃ i : X86.Mov, (∀ t, X86.mov (concr fill w ++ t) = some (i, t)) ∧ Moves fill i (.reg q1) (.reg q2) := by
  have b1 := gp_bits n1 k1
  have b2 := gp_bits n2 k2
  have hw : (Enc.throwIf (!(q1.kind == q2.kind)) .BAD_COMBINATION >>= fun _ => opRR q2 q1 0 0x88).Gives w () := hw
  rw [Enc.throwIf_bind] at hw
  replace hw := hw.2
  have m0 : mapOf 0 = 0 := by decide
  have na : Ty.has 0 T_APX = true → mapOf 0 = 0 := fun h => absurd h (by decide)
  have oc := (opc_mov q2 b2).1
  have ho : X86.OpcodeOK (mapOf 0) (opc 0 q2 0x88) := by rw [m0, oc]; split <;> decide
  obtain ⟨bs, h, reg, rm, rfl, hdec, hh, g1, g2, hx⟩ := c33_rr q2 q1 (fun h => absurd k2 h) (fun h => absurd k1 h) 0 0x88 na ho hw
  obtain ⟨hs, hbad, _⟩ := (opRR_gives q2 q1 0 0x88 na _).1 hw
  have i1 : q1.isREG = true := by unfold Reg.isREG; rw [k1]; rfl
  have i2 : q2.isREG = true := by unfold Reg.isREG; rw [k2]; rfl
  have e : q2.bit = q1.bit := by
    rw [has0, i1, i2] at hs
    simpa using hs
  have hz : q2.bit ≠ 8 → X86.opBits h = q2.bit := by
    intro h8
    unfold X86.opBits
    rw [hh.w, hh.p66]
    unfold p66of Reg.isREG Reg.isBit
    rw [has0, k1, k2, ← e]
    rcases b2 with h | h | h | h
    · omega
    all_goals rw [h]; rfl
  simp only [has0, Bool.not_false, Bool.true_and, Bool.or_eq_false_iff] at hbad
  have w1 : q1.bit = 8 → q1.isREG 64 = false := fun h => by unfold Reg.isREG Reg.isBit; rw [k1, h]; rfl
  have w2 : q2.bit = 8 → q2.isREG 64 = false := fun h => by unfold Reg.isREG Reg.isBit; rw [k2, h]; rfl
  refine ⟨⟨h, false, q2.bit, some reg, .rm (.reg rm)⟩, fun t => ?_, ?_⟩
  · rw [concr_bytes]
    exact mov_of_insn (hdec t) (hh.map.trans m0) hh.space false _ (hh.opcode.trans oc) hz
  · refine ⟨⟨⟨g1, fun hb => ?_⟩, rfl⟩, ⟨rm, rfl, ⟨g2, fun hb => ?_⟩⟩, e⟩
    · dsimp only
      rw [g1]
      exact reg8_view h q2 hb hh.rexp (fun hi => by rw [hx]; exact (high_no_rex q2 q1 hi hbad.1 (w2 hb) (w1 (e ▸ hb))).1)
        (fun hi => by rw [hx]; simp [X86.Ext.present, extRR, hi])
    · dsimp only
      rw [g2]
      exact reg8_view h q1 hb hh.rexp (fun hi => by rw [hx]; exact (high_no_rex q1 q2 hi hbad.2 (w1 hb) (w2 (e ▸ hb))).2)
        (fun hi => by rw [hx]; simp [X86.Ext.present, extRR, hi])

theorem mov_mr (q : Reg) (k : q.kind = .reg) (n : q.Named) (a : Addr) (ha : OpOK (.mem a)) (load : Bool)
    (hno : q.isHigh8bit = true → (extMR q a).present = false) {w : List Act}
    (hw : (opMR a q 0 (if load then 0x8A else 0x88)).Gives w ()) (fill : Act → BitVec 32) :
    ∃ i : X86.Mov, (∀ t, X86.mov (concr fill w ++ t) = some (i, t)) ∧ i.load = load ∧ MovReg i (.reg q) ∧ MovPlace fill i (.mem a) := by
  have hb := gp_bits n k
  have m0 : mapOf 0 = 0 := by decide
  have na : Ty.has 0 T_APX = true → mapOf 0 = 0 := fun h => absurd h (by decide)
  have oc : opc 0 q (if load then 0x8A else 0x88) = if load then (if q.bit = 8 then 0x8A else 0x8B) else (if q.bit = 8 then 0x88 else 0x89) := by
    cases load
    · exact (opc_mov q hb).1
    · exact (opc_mov q hb).2
  have ho : X86.OpcodeOK (mapOf 0) (opc 0 q (if load then 0x8A else 0x88)) := by rw [m0, oc]; split <;> split <;> decide
  obtain ⟨h, reg, m, hh, g1, hx, hdec, hm⟩ := c34_mr a ha.1 ha.2.1 ha.2.2.1 ha.2.2.2 q (fun h => absurd k h) 0 _ na ho hw fill
  obtain ⟨hd, hs, _⟩ := (opMR_gives a q 0 _ na w).1 hw
  have hbit : a.o.bit = 0 ∨ a.o.bit = q.bit := by
    by_cases h0 : a.o.bit = 0
    · exact .inl h0
    · right
      have : q.bit ≤ 64 := by omega
      rw [has0] at hs
      simp [this] at hs
      exact hs (by omega)
  have hz : q.bit ≠ 8 → X86.opBits h = q.bit := by
    intro h8
    refine (c34_size a q k ?_ 0 (has0 _) (has0 _) _ na hw h _ hh).1
    rcases hb with h | h
    · exact absurd h h8
    · exact h
  refine ⟨⟨h, load, q.bit, some reg, .rm (.mem m)⟩, fun t => mov_of_insn (hdec t) (hh.map.trans m0) hh.space load _ (hh.opcode.trans oc) hz, rfl,
    ⟨⟨g1, fun hb => ?_⟩, rfl⟩, ?_⟩
  · dsimp only
    rw [g1]
    exact c35_mr_partial a q hb h 0 _ _ _ _ hh hx hno
  · unfold MovPlace
    dsimp only
    unfold Addr.is64bitDisp at hd
    rw [if_neg (fun e => by rw [e] at hd; cases hd)]
    exact ⟨⟨m, rfl, hm⟩, hh.seg, hbit⟩

/-- C101: `mov` between general registers, or between a general register and memory, decodes to a MOV whose destination and source are exactly
the two operands, with the size of the register.  The 64-bit absolute addresses of the accumulator are included.
`_partial`: with ah, ch, dh or bh the address must need no REX prefix (C35 has the counterexample `mov(ah, ptr[r8])`), and registers must be
general (`c101_refuted_xmm`). -/
theorem c101_partial (op1 op2 : Operand) (h1 : OpOK op1) (h2 : OpOK op2) (hq : ∀ q, op1 = .reg q ∨ op2 = .reg q → q.Named ∧ q.kind = .reg)
    (hi : ∀ a, op1 = .mem a → a.immSize = 0)
    (hno : ∀ q a, op1 = .reg q ∧ op2 = .mem a ∨ op1 = .mem a ∧ op2 = .reg q → q.isHigh8bit = true → (extMR q a).present = false)
    {w : List Act} (hw : (E.mov op1 op2).Gives w ()) (fill : Act → BitVec 32) :
    ∃ i : X86.Mov, (∀ t, X86.mov (concr fill w ++ t) = some (i, t)) ∧ Moves fill i op1 op2 := by
  cases op1 with
  | reg q1 =>
    obtain ⟨n1, k1⟩ := hq q1 (.inl rfl)
    cases op2 with
    | reg q2 =>
      obtain ⟨n2, k2⟩ := hq q2 (.inr rfl)
      exact mov_rr q1 q2 k1 k2 n1 n2 hw fill
    | mem a =>
      unfold E.mov at hw
      dsimp only at hw
      split at hw
      · rename_i hc
        simp only [Bool.and_eq_true, beq_iff_eq] at hc
        obtain ⟨i, hd, e, hr, hp, hs⟩ := mov_abs q1 k1 n1 hc.1.2 a.e.disp true hw fill
        refine ⟨i, hd, ?_⟩
        unfold Moves MovPlace
        have : a.mode = .disp64 := by simpa [Addr.is64bitDisp] using hc.2
        rw [e, if_pos rfl]
        dsimp only
        rw [if_pos this]
        exact ⟨hr, hp, hs⟩
      · have hw : (Enc.throwIf (!q1.isREG) .BAD_COMBINATION >>= fun _ => opMR a q1 0 0x8A).Gives w () := hw
        rw [Enc.throwIf_bind] at hw
        obtain ⟨i, hd, e, hr, hp⟩ := mov_mr q1 k1 n1 a h2 true (hno q1 a (.inl ⟨rfl, rfl⟩)) hw.2 fill
        refine ⟨i, hd, ?_⟩
        unfold Moves
        rw [e, if_pos rfl]
        exact ⟨hr, hp⟩
  | mem a =>
    cases op2 with
    | mem b =>
      have hw : (Enc.throwIf (!(Operand.mem a).isREG) .BAD_COMBINATION >>= fun _ => opMR b (Operand.mem a).hd 0 (0x88 ||| 2)).Gives w () := hw
      rw [Enc.throwIf_bind, isREG_mem h1.1] at hw
      exact absurd hw.1 (by decide)
    | reg q =>
      obtain ⟨n, k⟩ := hq q (.inr rfl)
      unfold E.mov at hw
      dsimp only at hw
      split at hw
      · rename_i hc
        simp only [Bool.and_eq_true, beq_iff_eq] at hc
        obtain ⟨i, hd, e, hr, hp, hs⟩ := mov_abs q k n hc.1.2 a.e.disp false hw fill
        refine ⟨i, hd, ?_⟩
        unfold Moves MovPlace
        have : a.mode = .disp64 := by simpa [Addr.is64bitDisp] using hc.2
        rw [e, if_neg (by decide)]
        dsimp only
        rw [if_pos this]
        exact ⟨hr, hp, hs⟩
      · have ei : ({ a with immSize := 0 } : Addr) = a := by
          have := hi a rfl
          cases a
          simp only at this
          rw [this]
        have hw : (opMR { a with immSize := 0 } q 0 0x88).Gives w () := hw
        rw [ei] at hw
        obtain ⟨i, hd, e, hr, hp⟩ := mov_mr q k n a h1 false (hno q a (.inr ⟨rfl, rfl⟩)) hw fill
        refine ⟨i, hd, ?_⟩
        unfold Moves
        rw [e, if_neg (by decide)]
        exact ⟨hr, hp⟩

/-- C101 does not hold for other registers: `mov(xmm1, xmm2)` is accepted and is `mov ecx, edx`; `mov(ptr[rax], xmm1)` is accepted and is
`mov [rax], ecx`. -/
theorem c101_refuted_xmm : (E.mov (.reg (.xmm 1)) (.reg (.xmm 2))).Gives ([0x89, 0xD1].map .byte) () ∧
    X86.mov [0x89, 0xD1] = some (⟨{ opcode := 0x89 }, false, 32, some 2, .rm (.reg 1)⟩, []) ∧
    ∃ a, Term.addr (.reg (.gp 0 64)) 0 false = .ok a ∧ (E.mov (.mem a) (.reg (.xmm 1))).Gives ([0x89, 0x08].map .byte) () :=
  ⟨⟨by decide +kernel, rfl⟩, by decide +kernel, _, rfl, by decide +kernel, rfl⟩

/-- `mov(rax, ptr[0x1122334455667788])` is 48 A1 and the eight bytes, `mov(bl, ptr[r9])` is 41 8A 19. -/
example : (E.mov (.reg (.gp 0 64)) (.mem (Addr.ofDisp64 0x1122334455667788))).Gives
    ([0x48, 0xA1, 0x88, 0x77, 0x66, 0x55, 0x44, 0x33, 0x22, 0x11].map .byte) () := ⟨by decide +kernel, rfl⟩
example : ∃ a, Term.addr (.reg (.gp 9 64)) 0 false = .ok a ∧ (E.mov (.reg (.r8 3)) (.mem a)).Gives ([0x41, 0x8A, 0x19].map .byte) () :=
  ⟨_, rfl, by decide +kernel, rfl⟩

end Xbyak
