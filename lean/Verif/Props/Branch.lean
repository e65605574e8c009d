import Verif.Props.Stack
import Verif.Props.Views
/-!
# Indirect jumps and calls (C61)
-/
namespace Xbyak
open E

/-- xbyak.h 2940, 2946: `jmp(op, type)`, `call(op, type)` -/
def jmpOp (call : Bool) (op : Operand) (far : Bool) : Enc Unit := E.opJmpOp op far (if call then 2 else 4)

/-- From a decoded FF instruction to `X86.branch`. -/
theorem branch_near {bs t : List Byte} {h : X86.Head} {reg : BitVec 3} {rm : X86.RM} (hi : X86.insn false 1 bs = some (⟨h, reg, rm⟩, t))
    (hm : h.map = 0) (ho : h.opcode = 0xFF) (h66 : h.p66 = false) (call : Bool) (hr : reg = if call then 2 else 4) :
    X86.branch bs = some (⟨h, call, false, 64, rm⟩, t) := by
  obtain ⟨t', e1, e2⟩ := insn_head hi
  unfold X86.branch
  rw [e1]
  dsimp only
  rw [if_neg (by simp [hm, ho]), e2, h66]
  subst hr
  cases call <;> simp

theorem branch_far {bs t : List Byte} {h : X86.Head} {reg : BitVec 3} {m : X86.Mem} (hi : X86.insn false 1 bs = some (⟨h, reg, .mem m⟩, t))
    (hm : h.map = 0) (ho : h.opcode = 0xFF) (call : Bool) (hr : reg = if call then 3 else 5) :
    X86.branch bs = some (⟨h, call, true, X86.opBits h, .mem m⟩, t) := by
  obtain ⟨t', e1, e2⟩ := insn_head hi
  unfold X86.branch
  rw [e1]
  dsimp only
  rw [if_neg (by simp [hm, ho]), e2]
  subst hr
  cases call <;> simp

theorem changeBit32 {q : Reg} (h : q.Named) (hk : q.kind = .reg) (hb : q.bit = 32 ∨ q.bit = 64) :
    ∃ q', q.changeBit 32 = .ok q' ∧ q'.kind = .reg ∧ q'.bit = 32 ∧ q'.idx = q.idx := by
  unfold Reg.changeBit
  rw [Reg.setBit_eq (Reg.bit_sizes h), if_neg (by decide)]
  rcases hb with hb | hb
  · rw [if_pos hb]; exact ⟨q, rfl, hk, hb, rfl⟩
  · rw [if_neg (by rw [hb]; decide), if_neg (by rw [hk]; decide), if_pos (.inl hk), if_neg (by rw [hb]; simp)]
    exact ⟨_, rfl, by simp, rfl, rfl⟩

/-- C61: an accepted near indirect jump or call that is not 16-bit goes through the register with the requested number or the requested
address, without redundant prefixes. -/
theorem c61_near_partial (call : Bool) (op : Operand) (hop : OpOK op) (hq : ∀ q, op = .reg q → q.Named)
    (hs : op.bit = 0 ∨ op.bit ∈ Reg.sizes) (hb : op.bit ≠ 16) {w : List Act}
    (hw : (jmpOp call op false).Gives w ()) (fill : Act → BitVec 32) :
    ∃ i : X86.Branch, (∀ t, X86.branch (concr fill w ++ t) = some (i, t)) ∧ i.call = call ∧ i.far = false ∧ i.bits = 64 ∧
      RmIs fill i.head i.rm (op.withImm 0) ∧ i.head.w = false := by
  have hext : ∀ {h : X86.Head} {reg : BitVec 3}, X86.regNum h reg = (if call then 2 else 4 : BitVec 5) → reg = if call then 2 else 4 := by
    intro h reg hr
    apply mk5_digit
    rw [show X86.mk5 _ _ _ = _ from hr]
    cases call <;> rfl
  unfold jmpOp opJmpOp at hw
  rw [if_neg (by decide)] at hw
  unfold opRext at hw
  rw [has0, Bool.false_and, if_neg (by decide), Enc.pure_bind] at hw
  dsimp only at hw
  rw [if_neg (by decide)] at hw
  cases op with
  | reg q =>
    have hqn := hq q rfl
    have hb : q.bit ≠ 16 := hb
    dsimp only at hw
    rw [Enc.throwIf_bind, Enc.lift_bind] at hw
    obtain ⟨h1, q', hq', hw⟩ := hw
    have h1 : q.isREG 112 = true := by simpa using h1
    unfold Reg.isREG at h1
    simp only [Bool.and_eq_true, beq_iff_eq] at h1
    obtain ⟨hk, h1⟩ := h1
    have hbit : q.bit = 32 ∨ q.bit = 64 := by
      rcases hqn.shape with ⟨_, h | h | h | h⟩ | ⟨h, _⟩ | ⟨h, _⟩ | ⟨h, _⟩ | ⟨h, _⟩ | ⟨h, _⟩ | ⟨h, _⟩ | ⟨h, _⟩ | ⟨h, _⟩
      · simp [Reg.isBit, h] at h1
      · exact absurd h hb
      · exact .inl h
      · exact .inr h
      all_goals rw [hk] at h; cases h
    have e32 : (if (true && (Operand.reg q).bit == 64) = true then 32 else (Operand.reg q).bit) = 32 := by
      show (if (true && q.bit == 64) = true then 32 else q.bit) = 32
      rcases hbit with h | h <;> rw [h] <;> rfl
    rw [e32] at hw hq'
    obtain ⟨q'', hc, k1, k2, k3⟩ := changeBit32 hqn hk hbit
    rw [hc] at hq'
    cases hq'
    have hopc : opc (0 ||| T_ALLOW_ABCDH) (.gp (if call then 2 else 4) 32) 0xFF = 0xFF := by cases call <;> decide
    obtain ⟨bs, h, reg, rm, rfl, hdec, hh, g1, g2, -⟩ := c33_rr (.gp (if call then 2 else 4) 32) q' (fun h => absurd rfl h) (fun h => absurd k1 h)
      (0 ||| T_ALLOW_ABCDH) 0xFF (fun h => absurd h (by decide)) (by rw [hopc]; decide) hw
    refine ⟨⟨h, call, false, 64, .reg rm⟩, fun t => ?_, rfl, rfl, rfl, ⟨rm, rfl, by rw [g2, k3]⟩, ?_⟩
    · rw [concr_bytes]
      refine branch_near (hdec t) (by rw [hh.map]; decide) (by rw [hh.opcode, hopc]) ?_ call (hext g1)
      rw [hh.p66]
      unfold p66of Reg.isBit Reg.gp
      rw [k2]
      cases call <;> decide
    · show h.w = false
      rw [hh.w]
      simp [Reg.isREG, Reg.isBit, Reg.gp, k2]
  | mem a =>
    have hs : a.o.bit = 0 ∨ a.o.bit ∈ Reg.sizes := hs
    have hb : a.o.bit ≠ 16 := hb
    obtain ⟨haw, hap, han, hat⟩ := hop
    have h64 : a.o.bit ≠ 64 := by
      intro h
      have hw : (opMR { a with immSize := 0 } (.gp (if call then 2 else 4) (if (true && a.o.bit == 64) = true then 32 else a.o.bit)) 0 0xFF).Gives w () := hw
      rw [h] at hw
      obtain ⟨_, hx, -⟩ := (opMR_gives _ _ _ _ (fun h => absurd h (by decide)) w).1 hw
      simp [h, Reg.gp] at hx
      exact absurd hx (by decide)
    have hw : (opRO (.gp (if call then 2 else 4) (if (true && a.o.bit == 64) = true then 32 else a.o.bit)) (.mem a) 0 0xFF true 0).Gives w () := hw
    have e : (if (true && a.o.bit == 64) = true then 32 else a.o.bit) = a.o.bit := by simp [h64]
    rw [e] at hw
    have hopc : opc 0 (.gp (if call then 2 else 4) a.o.bit) 0xFF = 0xFF := by
      unfold opc Reg.gp Reg.isBit
      rw [Reg.mem_sizes] at hs
      cases call <;> rcases hs with h | h | h | h | h | h | h | h | h <;> rw [h] <;> decide
    obtain ⟨h, reg, rm, hdec, hl, -⟩ := c34_ro _ (fun h => absurd rfl h) (.mem a) ⟨haw, hap, han, hat⟩ 0 0xFF true 0
      (fun h => absurd h (by decide)) (by rw [hopc]; decide) hw fill
    refine ⟨⟨h, call, false, 64, rm⟩, fun t => ?_, rfl, rfl, rfl, hl.rm, ?_⟩
    · refine branch_near (hdec t) (by rw [hl.head.map]; decide) (by rw [hl.head.opcode, hopc]) ?_ call (hext hl.reg)
      rw [hl.head.p66]
      unfold p66of Operand.hd Reg.isBit Reg.gp
      rw [has0]
      rw [Reg.mem_sizes] at hs
      rcases hs with h | h | h | h | h | h | h | h | h <;> simp [h] at hb h64 ⊢
    · show h.w = false
      rw [hl.head.w, isREG_mem haw]
      rw [Reg.mem_sizes] at hs
      rcases hs with h | h | h | h | h | h | h | h | h <;> simp [Reg.isREG, Reg.isBit, Reg.gp, h] at hb h64 ⊢

/-- C61: an accepted far jump or call reads a selector and an offset of the size of the memory operand from the requested address. -/
theorem c61_far (call : Bool) (op : Operand) (hop : OpOK op) (hs : op.bit = 0 ∨ op.bit ∈ Reg.sizes) {w : List Act}
    (hw : (jmpOp call op true).Gives w ()) (fill : Act → BitVec 32) :
    ∃ (a : Addr) (i : X86.Branch), op = .mem a ∧ (∀ t, X86.branch (concr fill w ++ t) = some (i, t)) ∧ i.call = call ∧ i.far = true ∧
      i.bits = op.bit ∧ RmIs fill i.head i.rm (op.withImm 0) := by
  unfold jmpOp opJmpOp at hw
  rw [if_pos rfl, Enc.throwIf_bind] at hw
  obtain ⟨h1, hw⟩ := hw
  cases op with
  | reg q => simp [Operand.isMEM] at h1
  | mem a =>
    have hs : a.o.bit = 0 ∨ a.o.bit ∈ Reg.sizes := hs
    have h1 : a.o.isBit 112 = true := by simpa [Operand.isMEM, Operand.isBit, Operand.hd] using h1
    have hbit : a.o.bit = 16 ∨ a.o.bit = 32 ∨ a.o.bit = 64 := by
      rw [Reg.mem_sizes] at hs
      unfold Reg.isBit at h1
      rcases hs with h | h | h | h | h | h | h | h | h <;> simp [h] at h1 ⊢
    have hopc : opc 0 (.gp ((if call then 2 else 4) + 1) (Operand.mem a).bit) 0xFF = 0xFF := by
      unfold opc Reg.gp Reg.isBit Operand.bit Operand.hd
      cases call <;> rcases hbit with h | h | h <;> simp only [h] <;> decide
    obtain ⟨h, reg, rm, hdec, hl, -⟩ := c34_rext (.mem a) hop (fun q h => by cases h) 112 ((if call then 2 else 4) + 1) 0 0xFF 0
      (fun h => absurd h (by decide)) (fun h => absurd h (by decide)) (by rw [hopc]; decide) hw fill
    obtain ⟨m, rfl, hm⟩ := hl.rm
    have hr : reg = if call then 3 else 5 := by
      apply mk5_digit
      rw [show X86.mk5 _ _ _ = _ from hl.reg]
      cases call <;> rfl
    refine ⟨a, ⟨h, call, true, X86.opBits h, .mem m⟩, rfl, fun t => branch_far (hdec t) (by rw [hl.head.map]; decide) (by rw [hl.head.opcode, hopc]) call hr,
      rfl, rfl, ?_, hl.rm⟩
    show X86.opBits h = a.o.bit
    unfold X86.opBits
    rw [hl.head.p66, hl.head.w, isREG_mem hop.1]
    unfold p66of Operand.hd Reg.isBit Reg.gp Reg.isREG Operand.bit Operand.hd Reg.isBit
    rw [has0]
    rcases hbit with h | h | h <;> simp [h]

/-- C61 fails for the size of the operand: `jmp(qword[rax])`, the form that exists, is refused, while `jmp(dword[rax])` and `jmp(eax)`
are accepted and encode jumps through 64-bit operands; `jmp(ax)` produces the unsupported form with a 66 prefix. -/
theorem c61_refuted_size (call : Bool) :
    (∃ a, Term.addr (.reg (.gp 0 64)) 64 false = .ok a ∧ (jmpOp call (.mem a) false).res = .error .BAD_MEM_SIZE) ∧
    (∃ a, Term.addr (.reg (.gp 0 64)) 32 false = .ok a ∧ (jmpOp call (.mem a) false).res = .ok ()) ∧
    (jmpOp call (.reg (.gp 0 32)) false).res = .ok () ∧
      (jmpOp call (.reg (.gp 0 32)) false).acts = (jmpOp call (.reg (.gp 0 64)) false).acts ∧
    (jmpOp call (.reg (.gp 0 16)) false).res = .ok () ∧ X86.branch (concr (fun _ => 0) (jmpOp call (.reg (.gp 0 16)) false).acts) = none := by
  cases call
  · exact ⟨⟨_, rfl, rfl⟩, ⟨_, rfl, rfl⟩, rfl, by decide +kernel, rfl, by decide +kernel⟩
  · exact ⟨⟨_, rfl, rfl⟩, ⟨_, rfl, rfl⟩, rfl, by decide +kernel, rfl, by decide +kernel⟩

/-- `call r12` and `jmp far [rax]` with a 64-bit offset. -/
example : (jmpOp true (.reg (.gp 12 64)) false).acts = [.byte 0x41, .byte 0xFF, .byte 0xD4] ∧
    ∃ a, Term.addr (.reg (.gp 0 64)) 64 false = .ok a ∧ (jmpOp false (.mem a) true).acts = [.byte 0x48, .byte 0xFF, .byte 0x28] :=
  ⟨by decide +kernel, _, rfl, by decide +kernel⟩

end Xbyak
