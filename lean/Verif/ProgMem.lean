import Verif.Spec.Prog
import Verif.Props.Legacy
import Verif.AcceptApx
import Verif.Emit
/-!
# Memory operands of the programs of C102
-/
namespace Xbyak
namespace Prog
open X86 E

/-- The 64-bit register with this number. -/
def q64 (r : Gpr) : Reg := .gp (r.setWidth 5) 64

/-- The expression written for a memory operand. -/
def term (m : MemOp) : Term :=
  match m.base, m.index with
  | none, none => .const (m.disp.signExtend 64)
  | some b, none => .add (.reg (q64 b)) (.const (m.disp.signExtend 64))
  | none, some i => .add (.scaled (q64 i.1) (2 ^ i.2.toNat)) (.const (m.disp.signExtend 64))
  | some b, some i => .add (.add (.reg (q64 b)) (.scaled (q64 i.1) (2 ^ i.2.toNat))) (.const (m.disp.signExtend 64))

theorem idx_rsp : ∀ i : Gpr, i ≠ rsp → i.setWidth 5 ≠ (4 : BitVec 5) := by decide +kernel

theorem q64_is : ∀ r : Gpr, (q64 r).isREG 96 = true := by decide +kernel

theorem q64_reg (r : Gpr) : RegExp.ofReg (q64 r) = .ok ⟨q64 r, .nil, 1, 0⟩ := by
  unfold RegExp.ofReg
  rw [q64_is]
  rfl

theorem q64_scaled (r : Gpr) (s : BitVec 2) (h : s ≠ 0) : RegExp.ofReg (q64 r) (2 ^ s.toNat) = .ok ⟨.nil, q64 r, 2 ^ s.toNat, 0⟩ := by
  have : ∀ s : BitVec 2, s ≠ 0 → (2 ^ s.toNat : Int) ≠ 0 ∧ (2 ^ s.toNat : Int) ≠ 1 ∧ ((2 ^ s.toNat : Int) = 2 ∨ (2 ^ s.toNat : Int) = 4 ∨ (2 ^ s.toNat : Int) = 8) := by decide
  obtain ⟨h1, h2, h3⟩ := this s h
  unfold RegExp.ofReg
  rw [q64_is, if_neg (by simp), if_neg h1, if_neg (by omega), if_pos (.inr h2)]

theorem ok_bind {α β : Type} (a : α) (f : α → Except Err β) : (Except.ok a >>= f) = f a := rfl

/-- What is built for it. -/
def exp (m : MemOp) : RegExp :=
  match m.base, m.index with
  | none, none => ⟨.nil, .nil, 0, m.disp.signExtend 64⟩
  | some b, none => ⟨q64 b, .nil, 0, m.disp.signExtend 64⟩
  | none, some i => if i.2 = 0 then ⟨q64 i.1, .nil, 0, m.disp.signExtend 64⟩ else ⟨.nil, q64 i.1, 2 ^ i.2.toNat, m.disp.signExtend 64⟩
  | some b, some i => ⟨q64 b, q64 i.1, 2 ^ i.2.toNat, m.disp.signExtend 64⟩

theorem add_disp (e : RegExp) (d : Word) : RegExp.add e (.ofDisp d) = .ok { e with scale := if e.index.bit = 0 then 0 else e.scale, index := if e.index.bit = 0 then .nil else e.index, disp := e.disp + d } := by
  unfold RegExp.add RegExp.ofDisp
  by_cases h : e.index.bit = 0 <;> simp [h, Reg.nil]

theorem term_build (m : MemOp) : (term m).build = .ok (exp m) := by
  obtain ⟨b, i, d⟩ := m
  have hn : Reg.nil.bit = 0 := rfl
  have hq : ∀ r, (q64 r).bit = 64 := fun _ => rfl
  cases b with
  | none =>
    cases i with
    | none => rfl
    | some i =>
      obtain ⟨⟨r, hr⟩, s⟩ := i
      unfold term
      dsimp only [Term.build]
      by_cases h : s = 0
      · subst h
        rw [show RegExp.ofReg (q64 r) (2 ^ (0 : BitVec 2).toNat) = _ from q64_reg r, ok_bind, ok_bind, add_disp]
        simp [exp, hn]
      · rw [q64_scaled r s h, ok_bind, ok_bind, add_disp]
        have h : ¬ s = 0#2 := h
        simp [exp, hq, h]
  | some b =>
    cases i with
    | none =>
      unfold term
      dsimp only [Term.build]
      rw [q64_reg, ok_bind, ok_bind, add_disp]
      simp [exp, hn]
    | some i =>
      obtain ⟨⟨r, hr⟩, s⟩ := i
      unfold term
      dsimp only [Term.build]
      rw [q64_reg, ok_bind]
      by_cases h : s = 0
      · subst h
        have : RegExp.add ⟨q64 b, .nil, 1, 0⟩ ⟨q64 r, .nil, 1, 0⟩ = .ok ⟨q64 b, q64 r, 1, 0⟩ := by
          have h4 : ¬ (q64 r).idx = 4#5 := idx_rsp r hr
          unfold RegExp.add
          simp [hn, hq, h4]
        rw [show RegExp.ofReg (q64 r) (2 ^ (0 : BitVec 2).toNat) = _ from q64_reg r, ok_bind, this, ok_bind, ok_bind, add_disp]
        simp [exp, hq]
      · have : RegExp.add ⟨q64 b, .nil, 1, 0⟩ ⟨.nil, q64 r, 2 ^ s.toNat, 0⟩ = .ok ⟨q64 b, q64 r, 2 ^ s.toNat, 0⟩ := by
          unfold RegExp.add
          simp [hn, hq]
        rw [q64_scaled r s h, ok_bind, this, ok_bind, ok_bind, add_disp]
        simp [exp, hq]

theorem exp_verify (m : MemOp) : (exp m).verify = .ok () := by
  obtain ⟨b, i, d⟩ := m
  have hn : Reg.nil.bit = 0 := rfl
  have hq : ∀ r, (q64 r).bit = 64 := fun _ => rfl
  have h4 : ∀ r, r ≠ rsp → ¬ (q64 r).idx = 4#5 := fun r h => idx_rsp r h
  cases b <;> cases i <;> unfold exp RegExp.verify <;> dsimp only
  · simp [hn]
  · rename_i i
    have := h4 _ i.1.2
    split <;> simp [hn, hq, this]
  · simp [hn, hq]
  · rename_i b i
    have := h4 _ i.1.2
    simp [hq, this]

/-- The operand. -/
def addr (m : MemOp) : Addr := { o := Addr.memOp 0, e := exp m }

theorem term_addr (m : MemOp) : (term m).addr 0 false = .ok (addr m) := by
  unfold Term.addr
  rw [term_build]
  show Addr.ofExp 0 false (exp m) = _
  unfold Addr.ofExp
  rw [exp_verify]
  rfl

theorem term_named (m : MemOp) : (term m).Named := by
  have hq : ∀ r, (q64 r).Named := fun r => ⟨.inl ⟨rfl, .inr (.inr (.inr rfl))⟩, fun h => (by cases h), fun h => (by rcases h with h | h | h | h <;> cases h), fun h => (by cases h)⟩
  obtain ⟨b, i, d⟩ := m
  cases b <;> cases i <;> intro p hp <;> simp [term, Term.regs] at hp
  · subst hp; exact hq _
  · subst hp; exact hq _
  · rcases hp with rfl | rfl <;> exact hq _

theorem addr_wf (m : MemOp) : (addr m).WF := Addr.ofExp_wf (term_named m) (term_addr m)

theorem exp_regs (m : MemOp) : ((exp m).base = .nil ∨ ∃ r, (exp m).base = q64 r) ∧ ((exp m).index = .nil ∨ ∃ r, (exp m).index = q64 r) ∧ (exp m).disp = m.disp.signExtend 64 := by
  obtain ⟨b, i, d⟩ := m
  cases b <;> cases i <;> unfold exp <;> dsimp only
  · exact ⟨.inl rfl, .inl rfl, rfl⟩
  · split
    · exact ⟨.inr ⟨_, rfl⟩, .inl rfl, rfl⟩
    · exact ⟨.inl rfl, .inr ⟨_, rfl⟩, rfl⟩
  · exact ⟨.inr ⟨_, rfl⟩, .inl rfl, rfl⟩
  · exact ⟨.inr ⟨_, rfl⟩, .inr ⟨_, rfl⟩, rfl⟩

theorem shl_mul (x : Word) (s : BitVec 2) : x <<< s.toNat = x * BitVec.ofInt 64 (2 ^ s.toNat) := by
  rw [BitVec.shiftLeft_eq_mul_twoPow]
  congr 1
  revert s; decide +kernel

theorem exp_ea (m : MemOp) (g : Gpr → Word) (v : BitVec 5 → Word) : (exp m).ea (fun r => g (r.setWidth 4)) v = m.ea g := by
  have hn : Reg.nil.bit = 0 := rfl
  have hq : ∀ r, (q64 r).bit = 64 := fun _ => rfl
  have hw : ∀ r : Gpr, (r.setWidth 5).setWidth 4 = r := by decide +kernel
  have hv : ∀ r, regVal (fun r => g (r.setWidth 4)) v (q64 r) = g r := by
    intro r
    show g ((r.setWidth 5).setWidth 4) = _
    rw [hw]
  obtain ⟨b, i, d⟩ := m
  unfold MemOp.ea RegExp.ea RegExp.val exp
  cases b <;> cases i <;> dsimp only
  · simp [hn]
  · rename_i i
    split
    · rename_i h; simp [hn, hq, hv, h]
    · simp [hn, hq, hv, shl_mul]
  · simp [hn, hq, hv]
  · simp [hq, hv, shl_mul]

theorem sext32 (d : BitVec 32) : isInInt32 (d.signExtend 64) = true := by
  rw [isInInt32_iff]
  have h : (d.signExtend 64).toInt = d.toInt := BitVec.toInt_signExtend_of_le (by decide)
  have h1 := BitVec.le_toInt d
  have h2 := BitVec.toInt_lt (x := d)
  omega

theorem addr_accept (m : MemOp) : Mn.AddrA (addr m) := by
  obtain ⟨h1, h2, h3⟩ := exp_regs m
  refine ⟨⟨0, rfl⟩, h1.imp id fun ⟨r, h⟩ => ⟨_, h⟩, h2.imp id fun ⟨r, h⟩ => ⟨_, h⟩, ?_⟩
  show isInInt32 (exp m).disp = true
  rw [h3]; exact sext32 _

/-- A register-memory instruction. -/
theorem mr_gen (m : MemOp) (q : Reg) (c : Byte) (ho : OpcodeOK 0 (c ||| 1)) (hr2 : q.hasRex2 = false) (h8 : q.isBit 8 = false) (h66 : p66of 0 (Addr.memOp 0) q = false)
    (hz : q.nf = false ∧ q.zu = false) :
    ∃ bs : List Byte, (opMR (addr m) q 0 c).Gives (bs.map .byte) () ∧ bs.length ≤ 15 ∧
      ∃ h reg mm, (∀ t, ∃ t', head (bs ++ t) = some (h, t') ∧ modrm h false 1 t' = some (reg, .mem mm, t)) ∧
        h.space = .legacy ∧ h.p66 = false ∧ h.pF2 = false ∧ h.pF3 = false ∧ h.p67 = false ∧ h.seg = none ∧ h.w = q.isREG 64 ∧ h.map = 0 ∧ h.opcode = c ||| 1 ∧
        regNum h reg = mk5 false (q.idx.getLsbD 3) (q.idx.extractLsb' 0 3) ∧ ∀ u : Cpu, u.ea mm = m.ea u.core.reg := by
  have h66 : p66of 0 (addr m).o q = false := h66
  obtain ⟨h1, h2, h3⟩ := exp_regs m
  have hr3 : ∀ r : Gpr, (q64 r).hasRex2 = false := by decide +kernel
  have hx : (extMR q (addr m)).rex2 = false := by
    show (q.hasRex2 || ((exp m).base.hasRex2 || (exp m).index.hasRex2)) = false
    rw [hr2]
    rcases h1 with h1 | ⟨b, h1⟩ <;> rcases h2 with h2 | ⟨i, h2⟩ <;> rw [h1, h2] <;> (try rw [hr3]) <;> (try rw [hr3]) <;> rfl
  have h32 : (addr m).is32bit = false := by
    show ((exp m).base.bit == 32 || (exp m).index.bit == 32) = false
    rcases h1 with h1 | ⟨b, h1⟩ <;> rcases h2 with h2 | ⟨i, h2⟩ <;> rw [h1, h2] <;> rfl
  have ht : (addr m).e.index.kind ≠ .tmm := by
    show (exp m).index.kind ≠ .tmm
    rcases h2 with h2 | ⟨i, h2⟩ <;> rw [h2] <;> (intro e; cases e)
  have hc : opc 0 q c = c ||| 1 := by
    unfold opc
    rw [h8]; rfl
  have hok := (addr_accept m).opAddr 0 q.idx
  obtain ⟨w', hw'⟩ : ∃ w', (opAddr (addr m) q.idx).Gives w' () := ⟨_, rfl, hok⟩
  have hg := (opMR_gives (addr m) q 0 c (fun h => by cases h) _).2 ⟨rfl, (by
    show (!_ && _ && decide ((0 : Nat) > 0) && _) = false
    simp), ⟨⟨rfl, hz.1⟩, ⟨rfl, hz.2⟩, fun h => (by rw [hx] at h; cases h)⟩, w', hw', rfl⟩
  have hv := opAddr_vsib hw' rfl
  have hh := headFor_legacy q (addr m) (addr_wf m) ht hv 0 (opc 0 q c) (p66of 0 (addr m).o q)
  obtain ⟨mm, hm, hme⟩ := opAddr_decode (addr m) (addr_wf m) ht (by intro h; cases h) q.idx (.inl rfl) hw' _ hh (fun _ => 0)
  have hsimd : (addr m).e.index.isSIMD = false := by
    show (exp m).index.isSIMD = false
    rcases h2 with h2 | ⟨i, h2⟩ <;> rw [h2] <;> rfl
  rw [hsimd, if_pos (show (addr m).disp8N = 0 from rfl)] at hm
  obtain ⟨hp, hl⟩ := opMR_out (S := fun a => a = addr m) rfl ⟨rfl, rfl, rfl⟩ (n := 0) (fun _ => rfl) q 0 c _ _ hg
  have hb : ∀ w : List Act, Tail (fun a => a = addr m) 0 w → ∃ bs : List Byte, w = bs.map .byte ∧ asize w = bs.length := by
    intro w
    induction w with
    | nil => exact fun _ => ⟨[], rfl, rfl⟩
    | cons x w ih =>
      intro h
      obtain ⟨bs, e1, e2⟩ := ih fun p y q e => h (x :: p) y q (by rw [e]; rfl)
      rcases h [] x w rfl with ⟨b, rfl⟩ | ⟨a, rfl, f⟩
      · refine ⟨b :: bs, by rw [e1]; rfl, ?_⟩
        show 1 + asize w = bs.length + 1
        omega
      · cases x with
        | byte b => cases f
        | rel l d => cases f.1
        | ripAddr d i => cases f.2.1
  obtain ⟨bs, e1, e2⟩ := hb _ hp
  have hf : concr (fun _ => 0) (bs.map .byte) = bs := concr_bytes _ _
  refine ⟨bs, e1 ▸ hg, ?_, (extMR q (addr m)).head { p66 := p66of 0 (addr m).o q, pF2 := Ty.has 0 T_F2, pF3 := Ty.has 0 T_F3, p67 := (addr m).is32bit } (mapOf 0) (opc 0 q c), _, mm, fun t => ⟨concr (fun _ => 0) w' ++ t, ?_, hm t⟩, ?_, h66, rfl, rfl, h32, rfl, rfl, rfl, hc, ?_, ?_⟩
  · rw [← e2]; exact Nat.le_trans hl (by decide)
  · rw [← hf, ← e1, concr_append, concr_bytes, List.append_assoc]
    exact head_legBytes _ _ _ _ _ (by rw [hc]; exact ho) (fun h => by rw [hx] at h; cases h) _
  · unfold Ext.head; dsimp only; rw [hx]; rfl
  · unfold regNum Ext.head
    dsimp only
    rw [hx]
    rfl
  · intro u
    have := hme.2.1 (fun r => u.core.reg (r.setWidth 4)) (fun _ => 0) u.rip
    rw [hsimd, show (addr m).e = exp m from rfl, exp_ea] at this
    rw [← this]
    unfold Cpu.ea X86.ea
    dsimp only
    rw [show (Ext.head _ _ _ _).p67 = (addr m).is32bit from rfl, h32]

/-- A register-memory instruction with a 64-bit register. -/
theorem mr_all (m : MemOp) (r : Gpr) (c : Byte) (ho : OpcodeOK 0 (c ||| 1)) :
    ∃ bs : List Byte, (opMR (addr m) (q64 r) 0 c).Gives (bs.map .byte) () ∧ bs.length ≤ 15 ∧
      ∃ h reg mm, (∀ t, ∃ t', head (bs ++ t) = some (h, t') ∧ modrm h false 1 t' = some (reg, .mem mm, t)) ∧
        h.space = .legacy ∧ h.p66 = false ∧ h.pF2 = false ∧ h.pF3 = false ∧ h.p67 = false ∧ h.seg = none ∧ h.w = true ∧ h.map = 0 ∧ h.opcode = c ||| 1 ∧
        (regNum h reg).setWidth 4 = r ∧ ∀ u : Cpu, u.ea mm = m.ea u.core.reg := by
  have : ∀ r : Gpr, (q64 r).hasRex2 = false ∧ (q64 r).isBit 8 = false ∧ p66of 0 (Addr.memOp 0) (q64 r) = false ∧ (q64 r).isREG 64 = true ∧
    (mk5 false ((q64 r).idx.getLsbD 3) ((q64 r).idx.extractLsb' 0 3)).setWidth 4 = r := by decide +kernel
  obtain ⟨a1, a2, a3, a4, a5⟩ := this r
  obtain ⟨bs, hg, hl, h, reg, mm, hd, d1, d2, d3, d4, d5, d6, d7, d8, d9, d10, he⟩ := mr_gen m (q64 r) c ho a1 a2 a3 ⟨rfl, rfl⟩
  exact ⟨bs, hg, hl, h, reg, mm, hd, d1, d2, d3, d4, d5, d6, d7.trans a4, d8, d9, by rw [d10]; exact a5, he⟩

end Prog
end Xbyak
