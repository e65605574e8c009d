import Verif.Spec.Prog
import Verif.ProgMem
import Verif.Spec.Run
import Verif.Props.Refinement
import Verif.Props.Direct
import Verif.Props.Frame
/-!
# C102: programs with labels, generated and executed
-/
namespace Xbyak
namespace Prog
open X86 G CA

/-- REX.W with the two high bits of the register numbers. -/
def rexB (r b : Bool) : Byte := 0x48 ||| (if r then 4 else 0) ||| (if b then 1 else 0)
def mrm (r : BitVec 3) (m : Gpr) : Byte := 0xC0 ||| r.setWidth 8 <<< 3 ||| (m &&& 7).setWidth 8
def hi (r : Gpr) : Bool := decide (8 ≤ r)

def okOf (m : Enc Unit) (w : List Byte) : Bool := (match m.res with | .ok _ => true | .error _ => false) && m.acts == w.map .byte

theorem okOf_gives {m : Enc Unit} {w : List Byte} (h : okOf m w = true) : m.Gives (w.map .byte) () := by
  unfold okOf at h
  rw [Bool.and_eq_true, beq_iff_eq] at h
  refine ⟨h.2, ?_⟩
  have := h.1
  split at this
  · rename_i e; rw [e]
  · cases this

def codes : List Byte := [0x88, 0, 8, 0x10, 0x18, 0x20, 0x28, 0x30, 0x38]

theorem rr_all : ∀ c ∈ codes, ∀ d s : Gpr, okOf (E.opRR (q64 s) (q64 d) 0 c) [rexB (hi s) (hi d), c ||| 1, mrm (s.setWidth 3) d] = true := by
  decide +kernel

def preI (k : Nat) (n : BitVec 3) (r : Gpr) : Enc Unit :=
  if (Operand.reg (q64 r)).isREG && (Operand.reg (q64 r)).hd.idx == 0 && ((Operand.reg (q64 r)).bit == k || ((Operand.reg (q64 r)).isBit 64 && k == 32)) then do
    let _ ← E.rex (.reg (q64 r)) (.reg .nil) 0
    Enc.db (n.setWidth 8 <<< 3 ||| 4 ||| (if k = 8 then 0 else 1))
  else do
    let tmp : Byte := if k < min (Operand.reg (q64 r)).bit 32 then 2 else 0
    E.opRext (.reg (q64 r)) 0 (n.setWidth 5) 0 (0x80 ||| tmp) false (k / 8)

def hdI (k : Nat) (n : BitVec 3) (r : Gpr) : List Byte :=
  if k = 32 ∧ r = 0 then [rexB false false, n.setWidth 8 <<< 3 ||| 5] else [rexB false (hi r), if k = 8 then 0x83 else 0x81, mrm n r]

theorem pre_all : ∀ k ∈ [8, 32], ∀ (n : BitVec 3) (r : Gpr), okOf (preI k n r) (hdI k n r) = true := by decide +kernel

/-! ## What the library is called with -/

/-- The bytes of an accepted instruction as calls of `db`, and of `putL_inner` for `[rip + label]`. -/
def bytesOf (m : Enc Unit) : Option (List Op) :=
  match m.res with
  | .ok _ => m.acts.mapM fun | .byte b => some (.db b) | .rel l d => some (.ripL (.obj l) d) | _ => none
  | .error _ => none

/-- A call with the operand `ptr[exp]`. -/
def withPtr (m : MemOp) (f : Addr → Enc Unit) : Option (List Op) :=
  match (term m).addr 0 false with
  | .ok a => bytesOf (f a)
  | .error _ => none

/-- `ptr[rip + label]` (xbyak.h 899-924, 1409). -/
def ripPtr (h : Nat) : Addr := Addr.ofRip 0 false { label := some h }

/-- `shl`, `shr`, `sar` (xbyak_mnemonic.h 997, 1006, 946). -/
def shExt : Sh → BitVec 4
  | .shl => 12
  | .shr => 13
  | .sar => 15

/-- The calls for one statement: `L(label)`; `mov(reg, reg)` (xbyak.h 3005-3042); `add(op, op)`, `add(op, imm)` and the like
(xbyak_mnemonic.h 3-11 and so on: `opRO_MR(op1, op2, 8 * n)`, `opOI(op, imm, 8 * n, n)`); `jmp(label, type)` (xbyak.h 2941-2944);
`jcc(label, type)` (xbyak_mnemonic.h 528-660); `loop(label)`, `jrcxz(label)` (xbyak_mnemonic.h 660-668, 1858-1861).  `inLocalLabel()`, `outLocalLabel()` (xbyak.h 2922-2923); `push(reg)`, `pop(reg)` (xbyak.h 2984-2985); `call(label)` (xbyak.h 2948-2950);
`ret()` (xbyak_mnemonic.h 923); `mov(reg, imm)` (xbyak.h 3041-3061), `mov(reg, ptr[exp])`, `mov(ptr[exp], reg)`; `lea(reg, ptr[exp])` (xbyak_mnemonic.h 651); `add(reg, ptr[exp])`, `add(ptr[exp], reg)`
and the like; `mov(reg, label)` (xbyak.h 3068-3072, 3340-3346: `mov_imm(reg, dummyAddr); putL(label);`, `dummyAddr` xbyak.h 1718); `lea(reg, ptr[rip + label])`, `mov(reg, ptr[rip + label])`; `putL(label)`, `db(byte)` as data; `test(reg, reg)` (xbyak.h 2958-2961); `xchg(reg, reg)` (xbyak.h 3073-3089); `nop()` (xbyak.h 3289-3321); `shl(reg, imm)`, `shr(reg, imm)`, `sar(reg, imm)`; `inc(reg)`, `dec(reg)`, `not_(reg)`, `neg(reg)` (xbyak_mnemonic.h 353, 523, 741, 743); `cmovcc(reg, reg)` (xbyak_mnemonic.h 166-225); `jmp(reg)`, `call(reg)`, `jmp(ptr[exp])`, `call(ptr[exp])` (xbyak.h 2940, 2946).  Labels are `Label` objects or strings. -/
def ops : Stmt → Option (List Op)
  | .label n => some [.defL n]
  | .mov d s => bytesOf (E.mov (.reg (q64 d)) (.reg (q64 s)))
  | .alu n d s => bytesOf (E.opRO_MR (.reg (q64 d)) (.reg (q64 s)) (n.setWidth 8 <<< 3))
  | .aluI n d i => bytesOf (E.opOI (.reg (q64 d)) i (n.setWidth 8 <<< 3) (n.setWidth 5))
  | .jmp n ty => some [.jmp n ty 0xEB 0xE9 0]
  | .jcc cc n ty => some [.jmp n ty (Asm.jccS cc) (Asm.jccL cc) 0x0F]
  | .loop n => some [.jmp n .short 0xE2 0 0]
  | .jrcxz n => some [.jmp n .short 0xE3 0 0]
  | .enter => some [.inLocal]
  | .leave => some [.outLocal]
  | .push r => bytesOf (E.opPushPop (.reg (q64 r)) 0xFF 6 0x50)
  | .pop r => bytesOf (E.opPushPop (.reg (q64 r)) 0x8F 0 0x58)
  | .call n => some [.jmp n .near 0 0xE8 0]
  | .ret => some [.db 0xC3]
  | .movI d v => bytesOf (E.movI (.reg (q64 d)) v)
  | .load d m => withPtr m fun a => E.mov (.reg (q64 d)) (.mem a)
  | .store m s => withPtr m fun a => E.mov (.mem a) (.reg (q64 s))
  | .lea d m => withPtr m fun a => do
    Enc.throwIf (!(q64 d).isBit 112) .BAD_SIZE_OF_REGISTER
    E.opMR a (q64 d) 0 0x8D
  | .aluL n d m => withPtr m fun a => E.opRO_MR (.reg (q64 d)) (.mem a) (n.setWidth 8 <<< 3)
  | .aluS n m s => withPtr m fun a => E.opRO_MR (.mem a) (.reg (q64 s)) (n.setWidth 8 <<< 3)
  | .movL d n => (bytesOf (E.mov_imm (q64 d) 0x1122334455667788 >>= fun _ => pure ())).map (· ++ [.putL n])
  | .jmpR r => bytesOf (E.opJmpOp (.reg (q64 r)) false 4)
  | .callR r => bytesOf (E.opJmpOp (.reg (q64 r)) false 2)
  | .jmpM m => withPtr m fun a => E.opJmpOp (.mem a) false 4
  | .callM m => withPtr m fun a => E.opJmpOp (.mem a) false 2
  | .leaL d h => bytesOf (do
    Enc.throwIf (!(q64 d).isBit 112) .BAD_SIZE_OF_REGISTER
    E.opMR (ripPtr h) (q64 d) 0 0x8D)
  | .loadL d h => bytesOf (E.mov (.reg (q64 d)) (.mem (ripPtr h)))
  | .addrOf n => some [.putL n]
  | .db b => some [.db b]
  | .sh op d i => bytesOf (E.opShiftI (.reg (q64 d)) i (shExt op))
  | .nop => some ((nopBytes 1 true).map .db)
  | .xchg a b => bytesOf (E.xchg (.reg (q64 a)) (.reg (q64 b)))
  | .test d s => bytesOf (E.test (.reg (q64 d)) (q64 s))
  | .un .inc d => bytesOf (E.opIncDec .nil (.reg (q64 d)) 0)
  | .un .dec d => bytesOf (E.opIncDec .nil (.reg (q64 d)) 1)
  | .un .not d => bytesOf (E.opRext (.reg (q64 d)) 0 2 (T_APX ||| T_CODE1_IF1) 0xF6)
  | .un .neg d => bytesOf (E.opRext (.reg (q64 d)) 0 3 (T_APX ||| T_NF ||| T_CODE1_IF1) 0xF6)
  | .cmov cc d s => bytesOf (E.opRO (q64 d) (.reg (q64 s)) T_0F (0x40 ||| cc.setWidth 8) ((q64 s).isREG 112))

theorem bytesOf_gives {m : Enc Unit} {w : List Byte} (h : m.Gives (w.map .byte) ()) : bytesOf m = some (w.map .db) := by
  unfold bytesOf
  obtain ⟨h1, h2⟩ := h
  rw [h1, h2]
  dsimp only
  clear h1 h2
  induction w with
  | nil => rfl
  | cons b w ih => rw [List.map_cons, List.mapM_cons, ih]; rfl

/-! ## The instructions without labels -/

theorem head_w (r b : Bool) (o : Byte) (ho : OpcodeOK 0 o) (t : List Byte) :
    head (rexB r b :: o :: t) = some ({ rex := true, w := true, r3 := r, b3 := b, opcode := o }, t) := by
  have := head_legacy false false false false { w := true, r3 := r, x3 := false, b3 := b } 0 (by decide) (fun h => by cases h) o ho t
  cases r <;> cases b <;> exact this

theorem modrm_reg (h : Head) (r : BitVec 3) (m : Gpr) (t : List Byte) : modrm h false 1 (mrm r m :: t) = some (r, .reg (m.setWidth 3), t) := by
  have : ∀ (r : BitVec 3) (m : Gpr), (mrm r m).extractLsb' 6 2 = 3 ∧ (mrm r m).extractLsb' 3 3 = r ∧ (mrm r m).extractLsb' 0 3 = m.setWidth 3 := by
    decide +kernel
  obtain ⟨h1, h2, h3⟩ := this r m
  unfold modrm
  dsimp only
  rw [if_pos h1, h2, h3]

theorem rm_num (r b : Bool) (o : Byte) (m : Gpr) (hb : b = hi m) : (rmGpr { rex := true, w := true, r3 := r, b3 := b, opcode := o } (m.setWidth 3)).setWidth 4 = m := by
  subst hb
  have : ∀ m : Gpr, (mk5 false (hi m) (m.setWidth 3)).setWidth 4 = m := by decide +kernel
  exact this m

theorem reg_num (r b : Bool) (o : Byte) (m : Gpr) (hr : r = hi m) : (regNum { rex := true, w := true, r3 := r, b3 := b, opcode := o } (m.setWidth 3)).setWidth 4 = m := by
  subst hr
  have : ∀ m : Gpr, (mk5 false (hi m) (m.setWidth 3)).setWidth 4 = m := by decide +kernel
  exact this m

theorem inst_w (r b : Bool) (o : Byte) (ho : OpcodeOK 0 o) (t : List Byte) (hB : o &&& 0xF8 ≠ 0xB8 ∧ o &&& 0xF8 ≠ 0x90 := by decide) :
    inst (rexB r b :: o :: t) = instW { rex := true, w := true, r3 := r, b3 := b, opcode := o } t := by
  unfold inst
  rw [head_w r b o ho]
  dsimp only
  rw [if_neg (by decide), if_pos rfl, if_neg hB.1, if_pos rfl, if_neg hB.2]

/-- The bytes of a statement without label are the instruction. -/
structure Straight (s : Stmt) (i : Inst) (bs : List Byte) : Prop where
  calls : ops s = some (bs.map .db)
  dec : ∀ t, inst (bs ++ t) = some (i, t)
  len : bs.length ≤ 15

theorem codes_ok : ∀ c ∈ codes, OpcodeOK 0 (c ||| 1) := by decide +kernel

theorem straight_mov (d s : Gpr) : ∃ bs, Straight (.mov d s) (.mov d s) bs := by
  refine ⟨[rexB (hi s) (hi d), 0x89, mrm (s.setWidth 3) d], bytesOf_gives ?_, fun t => ?_, (by decide : 3 ≤ 15)⟩
  · exact okOf_gives (rr_all 0x88 (by decide) d s)
  · show inst (rexB (hi s) (hi d) :: 0x89 :: (mrm (s.setWidth 3) d :: t)) = _
    rw [inst_w _ _ _ (by decide)]
    unfold instW
    dsimp only
    rw [if_neg (by decide), modrm_reg]
    dsimp only
    rw [if_pos rfl, rm_num _ _ _ _ rfl, reg_num _ _ _ _ rfl]

theorem straight_alu (n : BitVec 3) (d s : Gpr) : ∃ bs, Straight (.alu n d s) (.alu n d s) bs := by
  have hc : (n.setWidth 8 <<< 3 : Byte) ∈ codes := by revert n; decide +kernel
  have ho : (n.setWidth 8 <<< 3 ||| 1 : Byte) &&& 0xC7 ≠ 5 ∧ (n.setWidth 8 <<< 3 ||| 1 : Byte) ≠ 0x89 ∧ (n.setWidth 8 <<< 3 ||| 1 : Byte) &&& 0xC7 = 1 ∧
      (n.setWidth 8 <<< 3 ||| 1 : Byte).extractLsb' 3 3 = n := by revert n; decide +kernel
  refine ⟨[rexB (hi s) (hi d), n.setWidth 8 <<< 3 ||| 1, mrm (s.setWidth 3) d], bytesOf_gives ?_, fun t => ?_, (by decide : 3 ≤ 15)⟩
  · exact okOf_gives (rr_all _ hc d s)
  · show inst (rexB (hi s) (hi d) :: (n.setWidth 8 <<< 3 ||| 1) :: (mrm (s.setWidth 3) d :: t)) = _
    rw [inst_w _ _ _ (codes_ok _ hc) _ (by revert n; decide +kernel)]
    unfold instW
    dsimp only
    rw [if_neg ho.1, modrm_reg]
    dsimp only
    rw [if_neg ho.2.1, if_pos ho.2.2.1, ho.2.2.2, rm_num _ _ _ _ rfl, reg_num _ _ _ _ rfl]

theorem test_all : ∀ d s : Gpr, okOf (E.test (.reg (q64 d)) (q64 s)) [rexB (hi s) (hi d), 0x85, mrm (s.setWidth 3) d] = true := by decide +kernel

theorem straight_test (d s : Gpr) : ∃ bs, Straight (.test d s) (.test d s) bs := by
  refine ⟨[rexB (hi s) (hi d), 0x85, mrm (s.setWidth 3) d], bytesOf_gives (okOf_gives (test_all d s)), fun t => ?_, (by decide : 3 ≤ 15)⟩
  show inst (rexB (hi s) (hi d) :: 0x85 :: (mrm (s.setWidth 3) d :: t)) = _
  rw [inst_w _ _ _ (by decide)]
  unfold instW
  dsimp only
  rw [if_neg (by decide), modrm_reg]
  dsimp only
  rw [if_neg (by decide), if_neg (by decide), if_neg (by decide), if_neg (by decide), if_neg (fun h => absurd h.1 (by decide)), if_pos rfl, rm_num _ _ _ _ rfl, reg_num _ _ _ _ rfl]

def unB : Un → Byte × BitVec 3
  | .inc => (0xFF, 0)
  | .dec => (0xFF, 1)
  | .not => (0xF7, 2)
  | .neg => (0xF7, 3)

theorem un_all : ∀ d : Gpr, okOf (E.opIncDec .nil (.reg (q64 d)) 0) [rexB false (hi d), 0xFF, mrm 0 d] = true ∧
    okOf (E.opIncDec .nil (.reg (q64 d)) 1) [rexB false (hi d), 0xFF, mrm 1 d] = true ∧
    okOf (E.opRext (.reg (q64 d)) 0 2 (T_APX ||| T_CODE1_IF1) 0xF6) [rexB false (hi d), 0xF7, mrm 2 d] = true ∧
    okOf (E.opRext (.reg (q64 d)) 0 3 (T_APX ||| T_NF ||| T_CODE1_IF1) 0xF6) [rexB false (hi d), 0xF7, mrm 3 d] = true := by decide +kernel

theorem straight_un (op : Un) (d : Gpr) : ∃ bs, Straight (.un op d) (.un op d) bs := by
  obtain ⟨h1, h2, h3, h4⟩ := un_all d
  refine ⟨[rexB false (hi d), (unB op).1, mrm (unB op).2 d], ?_, fun t => ?_, (by cases op <;> decide : 3 ≤ 15)⟩
  · cases op
    · exact bytesOf_gives (okOf_gives h1)
    · exact bytesOf_gives (okOf_gives h2)
    · exact bytesOf_gives (okOf_gives h3)
    · exact bytesOf_gives (okOf_gives h4)
  · show inst (rexB false (hi d) :: (unB op).1 :: (mrm (unB op).2 d :: t)) = _
    rw [inst_w _ _ _ (by cases op <;> decide) _ (by cases op <;> decide)]
    unfold instW
    dsimp only
    rw [if_neg (by cases op <;> decide), modrm_reg]
    dsimp only
    rw [if_neg (by cases op <;> decide), if_neg (by cases op <;> decide), if_neg (by cases op <;> decide), if_neg (by cases op <;> decide), if_neg (by cases op <;> decide),
      if_neg (by cases op <;> decide), rm_num _ _ _ _ rfl]
    cases op <;> rfl

theorem head_w1 (r b : Bool) (o : Byte) (ho : OpcodeOK 1 o) (t : List Byte) :
    head (rexB r b :: 0x0F :: o :: t) = some ({ rex := true, w := true, r3 := r, b3 := b, map := 1, opcode := o }, t) := by
  have := head_legacy false false false false { w := true, r3 := r, x3 := false, b3 := b } 1 (by decide) (fun h => by cases h) o ho t
  cases r <;> cases b <;> exact this

theorem cmov_all : ∀ (cc : BitVec 4) (d s : Gpr), okOf (E.opRO (q64 d) (.reg (q64 s)) T_0F (0x40 ||| cc.setWidth 8) ((q64 s).isREG 112))
    [rexB (hi d) (hi s), 0x0F, 0x40 ||| cc.setWidth 8, mrm (d.setWidth 3) s] = true := by decide +kernel

theorem straight_cmov (cc : BitVec 4) (d s : Gpr) : ∃ bs, Straight (.cmov cc d s) (.cmov cc d s) bs := by
  refine ⟨[rexB (hi d) (hi s), 0x0F, 0x40 ||| cc.setWidth 8, mrm (d.setWidth 3) s], bytesOf_gives (okOf_gives (cmov_all cc d s)), fun t => ?_, (by decide : 4 ≤ 15)⟩
  have ho : ∀ cc : BitVec 4, OpcodeOK 1 (0x40 ||| cc.setWidth 8) ∧ (0x40 ||| cc.setWidth 8 : Byte) &&& 0xF8 ≠ 0xB8 ∧ (0x40 ||| cc.setWidth 8 : Byte) &&& 0xF0 = 0x40 ∧
      (0x40 ||| cc.setWidth 8 : Byte).extractLsb' 0 4 = cc := by decide +kernel
  obtain ⟨o1, o2, o3, o4⟩ := ho cc
  have hn : ∀ m : Gpr, (mk5 false (hi m) (m.setWidth 3)).setWidth 4 = m := by decide +kernel
  show inst (rexB (hi d) (hi s) :: 0x0F :: (0x40 ||| cc.setWidth 8) :: (mrm (d.setWidth 3) s :: t)) = _
  unfold inst
  rw [head_w1 _ _ _ o1]
  dsimp only
  rw [if_neg (by decide), if_pos rfl, if_neg o2, if_neg (by decide), if_pos rfl]
  unfold cmovW
  rw [modrm_reg]
  dsimp only
  rw [if_pos o3, o4]
  unfold regNum rmGpr
  dsimp only
  rw [hn, hn]

theorem sh_all : ∀ e ∈ [(12 : BitVec 4), 13, 15], ∀ d : Gpr,
    okOf (E.opRext (.reg (q64 d)) 0 ((e &&& 7).setWidth 5) (E.shiftType e none) 0xD0 false 0 none) [rexB false (hi d), 0xD1, mrm (e.setWidth 3) d] = true ∧
    okOf (E.opRext (.reg (q64 d)) 0 ((e &&& 7).setWidth 5) (E.shiftType e none) 0xC0 false 1 none) [rexB false (hi d), 0xC1, mrm (e.setWidth 3) d] = true := by decide +kernel

theorem sh_ok (op : Sh) : shExt op ∈ [(12 : BitVec 4), 13, 15] ∧ shOf ((shExt op).setWidth 3) = some op := by cases op <;> decide

theorem sh_gives (d : Gpr) (i : BitVec 32) (e : BitVec 4) {w x : List Byte}
    (h : (E.opRext (.reg (q64 d)) 0 ((e &&& 7).setWidth 5) (E.shiftType e none) (if i = 1 then 0xD0 else 0xC0) false (if i ≠ 1 then 1 else 0) none).Gives (w.map .byte) ())
    (hx : x = if i ≠ 1 then [i.setWidth 8] else []) : (E.opShiftI (.reg (q64 d)) i e).Gives ((w ++ x).map .byte) () := by
  unfold E.opShiftI E.verifyMemHasSize
  dsimp only
  rw [if_pos (show (none : Option Reg).isNone = true from rfl), Enc.throwIf_bind]
  refine ⟨rfl, ?_⟩
  rw [Enc.throwIf_bind]
  refine ⟨rfl, ?_⟩
  rw [Enc.gives_bind, List.map_append]
  refine ⟨_, (), _, h, ?_, rfl⟩
  subst hx
  unfold Enc.dbIf
  by_cases h1 : i = 1
  · rw [if_neg (by simp [h1]), if_neg (by simp [h1])]; exact ⟨rfl, rfl⟩
  · rw [if_pos (decide_eq_true h1), if_pos h1]; exact ⟨rfl, rfl⟩

theorem straight_sh (op : Sh) (d : Gpr) (i : BitVec 32) : ∃ bs, Straight (.sh op d i) (.sh op d (i.toNat % 64)) bs := by
  obtain ⟨h1, h2⟩ := sh_all _ (sh_ok op).1 d
  by_cases h : i = 1
  · subst h
    refine ⟨[rexB false (hi d), 0xD1, mrm ((shExt op).setWidth 3) d], ?_, fun t => ?_, (by decide : 3 ≤ 15)⟩
    · refine bytesOf_gives ?_
      have := sh_gives d 1 (shExt op) (okOf_gives h1) rfl
      exact this
    · show inst (rexB false (hi d) :: 0xD1 :: (mrm ((shExt op).setWidth 3) d :: t)) = _
      rw [inst_w _ _ _ (by decide)]
      unfold instW
      dsimp only
      rw [if_neg (by decide), modrm_reg]
      dsimp only
      rw [if_neg (by decide), if_neg (by decide), if_neg (by decide), if_neg (by decide), if_neg (fun h => absurd h.1 (by decide)), if_neg (by decide),
        if_neg (fun h => absurd h.1 (by decide)), if_neg (fun h => absurd h.1 (by decide)), if_neg (fun h => absurd h.1 (by decide)), if_neg (fun h => absurd h.1 (by decide)),
        if_neg (by decide), if_pos rfl, (sh_ok op).2, rm_num _ _ _ _ rfl]
      rfl
  · refine ⟨[rexB false (hi d), 0xC1, mrm ((shExt op).setWidth 3) d] ++ [i.setWidth 8], ?_, fun t => ?_, (by decide : 4 ≤ 15)⟩
    · refine bytesOf_gives ?_
      refine sh_gives d i (shExt op) ?_ (if_pos h).symm
      rw [if_neg h, if_pos h]
      exact okOf_gives h2
    · show inst (rexB false (hi d) :: 0xC1 :: (mrm ((shExt op).setWidth 3) d :: ([i.setWidth 8] ++ t))) = _
      have e : imm 1 ([i.setWidth 8] ++ t) = some (sextLE [i.setWidth 8], t) := rfl
      have m : ∀ b : Byte, (sextLE [b]).toNat % 64 = b.toNat % 64 := by decide +kernel
      have m' : (sextLE [i.setWidth 8]).toNat % 64 = i.toNat % 64 := by rw [m, BitVec.toNat_setWidth]; omega
      rw [inst_w _ _ _ (by decide)]
      unfold instW
      dsimp only
      rw [if_neg (by decide), modrm_reg]
      dsimp only
      rw [if_neg (by decide), if_neg (by decide), if_neg (by decide), if_neg (by decide), if_neg (fun h => absurd h.1 (by decide)), if_neg (by decide),
        if_neg (fun h => absurd h.1 (by decide)), if_neg (fun h => absurd h.1 (by decide)), if_neg (fun h => absurd h.1 (by decide)), if_neg (fun h => absurd h.1 (by decide)),
        if_neg (by decide), if_neg (by decide), if_pos rfl, (sh_ok op).2, rm_num _ _ _ _ rfl, e]
      show some (Inst.sh op d ((sextLE [i.setWidth 8]).toNat % 64), t) = _
      rw [m']

/-- With `rax` the short form, otherwise the second register in the field of the source. -/
def xchgB (a b : Gpr) : List Byte :=
  if b = 0 then [rexB false (hi a), 0x90 ||| (a &&& 7).setWidth 8]
  else if a = 0 then [rexB false (hi b), 0x90 ||| (b &&& 7).setWidth 8]
  else [rexB (hi b) (hi a), 0x87, mrm (b.setWidth 3) a]

theorem xchg_all : ∀ a b : Gpr, okOf (E.xchg (.reg (q64 a)) (.reg (q64 b))) (xchgB a b) = true := by decide +kernel

theorem inst_x (r : Gpr) (t : List Byte) : inst (rexB false (hi r) :: (0x90 ||| (r &&& 7).setWidth 8) :: t) = some (.xchg rax r, t) := by
  have ho : ∀ r : Gpr, OpcodeOK 0 (0x90 ||| (r &&& 7).setWidth 8) ∧ (0x90 ||| (r &&& 7).setWidth 8 : Byte) &&& 0xF8 ≠ 0xB8 ∧ (0x90 ||| (r &&& 7).setWidth 8 : Byte) &&& 0xF8 = 0x90 ∧
      (0x90 ||| (r &&& 7).setWidth 8 : Byte).extractLsb' 0 3 = r.setWidth 3 := by decide +kernel
  obtain ⟨o1, o2, o3, o4⟩ := ho r
  unfold inst
  rw [head_w _ _ _ o1]
  dsimp only
  rw [if_neg (by decide), if_pos rfl, if_neg o2, if_pos rfl, if_pos o3, o4, rm_num _ _ _ _ rfl]

theorem straight_xchg (a b : Gpr) : ∃ bs x y, Straight (.xchg a b) (.xchg x y) bs ∧ (x = a ∧ y = b ∨ x = b ∧ y = a) := by
  have hg := bytesOf_gives (okOf_gives (xchg_all a b))
  by_cases hb : b = 0
  · refine ⟨xchgB a b, rax, a, ⟨hg, fun t => ?_, ?_⟩, .inr ⟨hb.symm, rfl⟩⟩
    · unfold xchgB; rw [if_pos hb]; exact inst_x a t
    · unfold xchgB; rw [if_pos hb]; exact (by decide : 2 ≤ 15)
  by_cases ha : a = 0
  · refine ⟨xchgB a b, rax, b, ⟨hg, fun t => ?_, ?_⟩, .inl ⟨ha.symm, rfl⟩⟩
    · unfold xchgB; rw [if_neg hb, if_pos ha]; exact inst_x b t
    · unfold xchgB; rw [if_neg hb, if_pos ha]; exact (by decide : 2 ≤ 15)
  refine ⟨xchgB a b, b, a, ⟨hg, fun t => ?_, ?_⟩, .inr ⟨rfl, rfl⟩⟩
  · unfold xchgB
    rw [if_neg hb, if_neg ha]
    show inst (rexB (hi b) (hi a) :: 0x87 :: (mrm (b.setWidth 3) a :: t)) = _
    rw [inst_w _ _ _ (by decide)]
    unfold instW
    dsimp only
    rw [if_neg (by decide), modrm_reg]
    dsimp only
    rw [if_neg (by decide), if_neg (by decide), if_neg (by decide), if_neg (by decide), if_neg (fun h => absurd h.1 (by decide)), if_neg (by decide),
      if_neg (fun h => absurd h.1 (by decide)), if_neg (fun h => absurd h.1 (by decide)), if_neg (fun h => absurd h.1 (by decide)), if_neg (fun h => absurd h.1 (by decide)),
      if_pos rfl, rm_num _ _ _ _ rfl, reg_num _ _ _ _ rfl]
  · unfold xchgB
    rw [if_neg hb, if_neg ha]
    exact (by decide : 3 ≤ 15)

theorem xchg_comm (c : Core) (a b : Gpr) : c.xchg a b = c.xchg b a := by
  unfold Core.xchg Core.set
  congr 1
  funext q
  dsimp only
  by_cases h1 : q = a <;> by_cases h2 : q = b <;> simp_all

theorem withPtr_eq (m : MemOp) (f : Addr → Enc Unit) : withPtr m f = bytesOf (f (addr m)) := by
  unfold withPtr
  rw [term_addr]

theorem inst_mem {bs t t' : List Byte} {h : Head} (e : head (bs ++ t) = some (h, t')) (h1 : h.space = .legacy) (h2 : h.p66 = false) (h3 : h.pF2 = false)
    (h4 : h.pF3 = false) (h5 : h.p67 = false) (h6 : h.seg = none) (h7 : h.w = true) (h8 : h.map = 0)
    (h9 : h.opcode &&& 0xF8 ≠ 0xB8 ∧ h.opcode &&& 0xF8 ≠ 0x90) : inst (bs ++ t) = instW h t' := by
  unfold inst
  rw [e]
  dsimp only
  rw [if_neg (by simp [h1, h2, h3, h4, h5, h6]), if_pos h7, if_neg h9.1, if_pos h8, if_neg h9.2]

/-- A statement with a memory operand. -/
theorem straight_mem (s : Stmt) (m : MemOp) (f : Addr → Enc Unit) (r : Gpr) (c : Byte) (i : Mem → Inst) (hs : ops s = withPtr m f) (ho : OpcodeOK 0 (c ||| 1))
    (hB : (c ||| 1) &&& 0xF8 ≠ 0xB8 ∧ (c ||| 1) &&& 0xF8 ≠ 0x90) (hf : ∀ w, (E.opMR (addr m) (q64 r) 0 c).Gives w () → (f (addr m)).Gives w ())
    (hi : ∀ (h : Head) (reg : BitVec 3) (mm : Mem) (t t' : List Byte), h.opcode = c ||| 1 → (regNum h reg).setWidth 4 = r →
      modrm h false 1 t' = some (reg, .mem mm, t) → instW h t' = some (i mm, t)) :
    ∃ bs mm, Straight s (i mm) bs ∧ ∀ u : Cpu, u.ea mm = m.ea u.core.reg := by
  obtain ⟨bs, hg, hl, h, reg, mm, hd, d1, d2, d3, d4, d5, d6, d7, d8, d9, d10, he⟩ := mr_all m r c ho
  refine ⟨bs, mm, ⟨?_, fun t => ?_, hl⟩, he⟩
  · rw [hs, withPtr_eq]; exact bytesOf_gives (hf _ hg)
  · obtain ⟨t', e1, e2⟩ := hd t
    rw [inst_mem e1 d1 d2 d3 d4 d5 d6 d7 d8 (by rw [d9]; exact hB)]
    exact hi h reg mm t t' d9 d10 e2

theorem ro_load (d : Gpr) (m : MemOp) (c : Byte) {w : List Act} (hg : (E.opMR (addr m) (q64 d) 0 (c ||| 2)).Gives w ()) :
    (E.opRO_MR (.reg (q64 d)) (.mem (addr m)) c).Gives w () := by
  unfold E.opRO_MR
  dsimp only
  rw [Enc.throwIf_bind]
  have : ∀ r : Gpr, (!(Operand.reg (q64 r)).isREG) = false := by decide +kernel
  exact ⟨this d, hg⟩

theorem mov_ptr (m : MemOp) (r : Gpr) : E.mov (.reg (q64 r)) (.mem (addr m)) = E.opRO_MR (.reg (q64 r)) (.mem (addr m)) 0x88 ∧
    E.mov (.mem (addr m)) (.reg (q64 r)) = E.opRO_MR (.mem (addr m)) (.reg (q64 r)) 0x88 := by
  have : ((q64 r).isREG && (q64 r).idx == 0 && (addr m).is64bitDisp) = false := by
    rw [show (addr m).is64bitDisp = false from rfl, Bool.and_false]
  unfold E.mov
  dsimp only
  rw [this]
  exact ⟨rfl, rfl⟩

theorem straight_load (d : Gpr) (m : MemOp) : ∃ bs mm, Straight (.load d m) (.load d mm) bs ∧ ∀ u : Cpu, u.ea mm = m.ea u.core.reg := by
  refine straight_mem _ m _ d (0x88 ||| 2) (.load d) rfl (by decide) (by decide) (fun w hg => ?_) (fun h reg mm t t' ho hr hm => ?_)
  · rw [(mov_ptr m d).1]; exact ro_load d m _ hg
  · unfold instW
    rw [ho, if_neg (by decide), hm]
    dsimp only
    rw [if_neg (by decide), if_pos (by decide), hr]

theorem straight_store (m : MemOp) (s : Gpr) : ∃ bs mm, Straight (.store m s) (.store mm s) bs ∧ ∀ u : Cpu, u.ea mm = m.ea u.core.reg := by
  refine straight_mem _ m _ s 0x88 (fun mm => .store mm s) rfl (by decide) (by decide) (fun w hg => ?_) (fun h reg mm t t' ho hr hm => ?_)
  · rw [(mov_ptr m s).2]; exact hg
  · unfold instW
    rw [ho, if_neg (by decide), hm]
    dsimp only
    rw [if_pos (by decide), hr]

theorem straight_lea (d : Gpr) (m : MemOp) : ∃ bs mm, Straight (.lea d m) (.lea d mm) bs ∧ ∀ u : Cpu, u.ea mm = m.ea u.core.reg := by
  refine straight_mem _ m _ d 0x8D (.lea d) rfl (by decide) (by decide) (fun w hg => ?_) (fun h reg mm t t' ho hr hm => ?_)
  · show (Enc.throwIf _ _ >>= fun _ => _).Gives w ()
    rw [Enc.throwIf_bind]
    have : ∀ r : Gpr, (!(q64 r).isBit 112) = false := by decide +kernel
    exact ⟨this d, hg⟩
  · unfold instW
    rw [ho, if_neg (by decide), hm]
    dsimp only
    rw [if_neg (by decide), if_neg (by decide), if_pos (by decide), hr]

theorem straight_aluL (n : BitVec 3) (d : Gpr) (m : MemOp) : ∃ bs mm, Straight (.aluL n d m) (.aluL n d mm) bs ∧ ∀ u : Cpu, u.ea mm = m.ea u.core.reg := by
  have ho : ∀ n : BitVec 3, OpcodeOK 0 (n.setWidth 8 <<< 3 ||| 2 ||| 1) ∧ ((n.setWidth 8 <<< 3 ||| 2 ||| 1 : Byte) &&& 0xF8 ≠ 0xB8 ∧ (n.setWidth 8 <<< 3 ||| 2 ||| 1 : Byte) &&& 0xF8 ≠ 0x90) ∧ (n.setWidth 8 <<< 3 ||| 2 ||| 1 : Byte) &&& 0xC7 ≠ 5 ∧ (n.setWidth 8 <<< 3 ||| 2 ||| 1 : Byte) ≠ 0x89 ∧
      (n.setWidth 8 <<< 3 ||| 2 ||| 1 : Byte) ≠ 0x8B ∧ (n.setWidth 8 <<< 3 ||| 2 ||| 1 : Byte) ≠ 0x8D ∧ (n.setWidth 8 <<< 3 ||| 2 ||| 1 : Byte) &&& 0xC7 ≠ 1 ∧
      (n.setWidth 8 <<< 3 ||| 2 ||| 1 : Byte) &&& 0xC7 = 3 ∧ (n.setWidth 8 <<< 3 ||| 2 ||| 1 : Byte).extractLsb' 3 3 = n := by decide +kernel
  obtain ⟨o0, oB, o1, o2, o3, o4, o5, o6, o7⟩ := ho n
  refine straight_mem _ m _ d (n.setWidth 8 <<< 3 ||| 2) (.aluL n d) rfl o0 oB (fun w hg => ?_) (fun h reg mm t t' ho hr hm => ?_)
  · exact ro_load d m _ hg
  · unfold instW
    rw [ho, if_neg o1, hm]
    dsimp only
    rw [if_neg o2, if_neg o3, if_neg o4, if_neg o5, if_pos o6, o7, hr]

theorem straight_aluS (n : BitVec 3) (m : MemOp) (s : Gpr) : ∃ bs mm, Straight (.aluS n m s) (.aluS n mm s) bs ∧ ∀ u : Cpu, u.ea mm = m.ea u.core.reg := by
  have ho : ∀ n : BitVec 3, OpcodeOK 0 (n.setWidth 8 <<< 3 ||| 1) ∧ ((n.setWidth 8 <<< 3 ||| 1 : Byte) &&& 0xF8 ≠ 0xB8 ∧ (n.setWidth 8 <<< 3 ||| 1 : Byte) &&& 0xF8 ≠ 0x90) ∧ (n.setWidth 8 <<< 3 ||| 1 : Byte) &&& 0xC7 ≠ 5 ∧ (n.setWidth 8 <<< 3 ||| 1 : Byte) ≠ 0x89 ∧
      (n.setWidth 8 <<< 3 ||| 1 : Byte) ≠ 0x8B ∧ (n.setWidth 8 <<< 3 ||| 1 : Byte) ≠ 0x8D ∧ (n.setWidth 8 <<< 3 ||| 1 : Byte) &&& 0xC7 = 1 ∧
      (n.setWidth 8 <<< 3 ||| 1 : Byte).extractLsb' 3 3 = n := by decide +kernel
  obtain ⟨o0, oB, o1, o2, o3, o4, o5, o7⟩ := ho n
  refine straight_mem _ m _ s (n.setWidth 8 <<< 3) (fun mm => .aluS n mm s) rfl o0 oB (fun w hg => ?_) (fun h reg mm t t' ho hr hm => ?_)
  · exact hg
  · unfold instW
    rw [ho, if_neg o1, hm]
    dsimp only
    rw [if_neg o2, if_neg o3, if_neg o4, if_pos o5, o7, hr]

theorem immBit (r : Gpr) (i : BitVec 32) : E.getImmBit (.reg (q64 r)) i = ⟨[], .ok (if isInDisp8 i then 8 else 32)⟩ := by
  unfold E.getImmBit
  cases h : isInDisp8 i
  · cases h' : E.isInDisp16relaxed i <;>
    rcases SF.gprs r with rfl | rfl | rfl | rfl | rfl | rfl | rfl | rfl | rfl | rfl | rfl | rfl | rfl | rfl | rfl | rfl <;> rfl
  · rcases SF.gprs r with rfl | rfl | rfl | rfl | rfl | rfl | rfl | rfl | rfl | rfl | rfl | rfl | rfl | rfl | rfl | rfl <;> rfl

theorem gives_I (n : BitVec 3) (d : Gpr) (i : BitVec 32) :
    let k := if isInDisp8 i then 8 else 32
    (E.opOI (.reg (q64 d)) i (n.setWidth 8 <<< 3) (n.setWidth 5)).Gives ((hdI k n d ++ leBytes (k / 8) (i.setWidth 64)).map .byte) () := by
  intro k
  have e : E.opOI (.reg (q64 d)) i (n.setWidth 8 <<< 3) (n.setWidth 5) =
      E.getImmBit (.reg (q64 d)) i >>= fun k => preI k n d >>= fun _ => Enc.dbN (i.setWidth 64) (k / 8) := by
    unfold E.opOI preI
    congr 1
    funext k
    split
    · rw [Enc.bind_assoc]
    · rfl
  rw [e, immBit]
  show (preI k n d >>= fun _ => Enc.dbN (i.setWidth 64) (k / 8)).Gives _ _
  have hk : k ∈ [8, 32] := by show (if isInDisp8 i then 8 else 32) ∈ _; split <;> decide
  have h1 := okOf_gives (pre_all k hk n d)
  rw [Enc.gives_bind]
  exact ⟨_, (), _, h1, Enc.gives_dbN.2 rfl, by rw [List.map_append]⟩

theorem straight_aluI (n : BitVec 3) (d : Gpr) (i : BitVec 32) : ∃ bs, Straight (.aluI n d i) (.aluI n d (i.signExtend 64)) bs := by
  refine ⟨_, bytesOf_gives (gives_I n d i), fun t => ?_, ?_⟩
  · cases h : isInDisp8 i
    · have e := Xbyak.imm_append 4 (i.setWidth 64) t
      rw [sext_field] at e
      by_cases h0 : d = 0
      · subst h0
        have ho : OpcodeOK 0 (n.setWidth 8 <<< 3 ||| 5 : Byte) ∧ (n.setWidth 8 <<< 3 ||| 5 : Byte) &&& 0xC7 = 5 ∧ (n.setWidth 8 <<< 3 ||| 5 : Byte).extractLsb' 3 3 = n := by
          revert n; decide +kernel
        show inst (rexB false false :: (n.setWidth 8 <<< 3 ||| 5) :: (leBytes 4 (i.setWidth 64) ++ t)) = _
        rw [inst_w _ _ _ ho.1 _ (by clear ho e h; revert n; decide +kernel)]
        unfold instW
        dsimp only
        rw [if_pos ho.2.1, e, ho.2.2]
        rfl
      · have e0 : hdI 32 n d = [rexB false (hi d), 0x81, mrm n d] := by unfold hdI; rw [if_neg (fun h => h0 h.2)]; rfl
        show inst (hdI 32 n d ++ leBytes 4 (i.setWidth 64) ++ t) = _
        rw [e0]
        show inst (rexB false (hi d) :: 0x81 :: (mrm n d :: (leBytes 4 (i.setWidth 64) ++ t))) = _
        rw [inst_w _ _ _ (by decide)]
        unfold instW
        dsimp only
        rw [if_neg (by decide), modrm_reg]
        dsimp only
        rw [if_neg (by decide), if_neg (by decide), if_pos rfl, e, rm_num _ _ _ _ rfl]
        rfl
    · have e := Xbyak.imm_append 1 (i.setWidth 64) t
      rw [SF.one_byte, E.sext_byte i h] at e
      have e0 : hdI 8 n d = [rexB false (hi d), 0x83, mrm n d] := by unfold hdI; rw [if_neg (fun h => absurd h.1 (by decide))]; rfl
      show inst (hdI 8 n d ++ leBytes 1 (i.setWidth 64) ++ t) = _
      rw [e0, SF.one_byte]
      show inst (rexB false (hi d) :: 0x83 :: (mrm n d :: ([i.setWidth 8] ++ t))) = _
      rw [inst_w _ _ _ (by decide)]
      unfold instW
      dsimp only
      rw [if_neg (by decide), modrm_reg]
      dsimp only
      rw [if_neg (by decide), if_neg (by decide), if_neg (by decide), if_pos rfl, e, rm_num _ _ _ _ rfl]
      rfl
  · rw [List.length_append, leBytes_length]
    have : ∀ k, (hdI k n d).length ≤ 3 := by
      intro k
      unfold hdI
      split
      · exact (by decide : 2 ≤ 3)
      · exact (by decide : 3 ≤ 3)
    have := this (if isInDisp8 i then 8 else 32)
    have : (if isInDisp8 i then 8 else 32) / 8 ≤ 4 := by split <;> decide
    omega

def pushB (o : Byte) (r : Gpr) : List Byte := (if hi r then [0x41] else []) ++ [o ||| (r &&& 7).setWidth 8]

theorem push_all : ∀ r : Gpr, okOf (E.opPushPop (.reg (q64 r)) 0xFF 6 0x50) (pushB 0x50 r) = true ∧ okOf (E.opPushPop (.reg (q64 r)) 0x8F 0 0x58) (pushB 0x58 r) = true := by
  decide +kernel

theorem inst_stack (r : Gpr) (o : Byte) (ho : OpcodeOK 0 (o ||| (r &&& 7).setWidth 8)) {i : Inst}
    (h1 : hi r = true → stackOp { rex := true, b3 := true, opcode := o ||| (r &&& 7).setWidth 8 } = some i)
    (h2 : hi r = false → stackOp { opcode := o ||| (r &&& 7).setWidth 8 } = some i) (t : List Byte) : inst (pushB o r ++ t) = some (i, t) := by
  unfold pushB
  cases h : hi r
  · have hh := head_legacy false false false false { w := false, r3 := false, x3 := false, b3 := false } 0 (by decide) (fun h => by cases h) _ ho t
    show inst ((o ||| (r &&& 7).setWidth 8) :: t) = _
    have hh : head ((o ||| (r &&& 7).setWidth 8) :: t) = some ({ opcode := o ||| (r &&& 7).setWidth 8 }, t) := hh
    unfold inst
    rw [hh]
    dsimp only
    rw [h2 h]
    rfl
  · have hh := head_legacy false false false false { w := false, r3 := false, x3 := false, b3 := true } 0 (by decide) (fun h => by cases h) _ ho t
    show inst (0x41 :: (o ||| (r &&& 7).setWidth 8) :: t) = _
    have hh : head (0x41 :: (o ||| (r &&& 7).setWidth 8) :: t) = some ({ rex := true, b3 := true, opcode := o ||| (r &&& 7).setWidth 8 }, t) := hh
    unfold inst
    rw [hh]
    dsimp only
    rw [h1 h]
    rfl

theorem pushB_len (o : Byte) (r : Gpr) : (pushB o r).length ≤ 15 := by
  unfold pushB
  split
  · exact (by decide : 2 ≤ 15)
  · exact (by decide : 1 ≤ 15)

theorem straight_push (r : Gpr) : ∃ bs, Straight (.push r) (.push r) bs :=
  ⟨pushB 0x50 r, bytesOf_gives (okOf_gives (push_all r).1),
    fun t => inst_stack r 0x50 (by revert r; decide +kernel) (by revert r; decide +kernel) (by revert r; decide +kernel) t, pushB_len _ r⟩

theorem straight_pop (r : Gpr) : ∃ bs, Straight (.pop r) (.pop r) bs :=
  ⟨pushB 0x58 r, bytesOf_gives (okOf_gives (push_all r).2),
    fun t => inst_stack r 0x58 (by revert r; decide +kernel) (by revert r; decide +kernel) (by revert r; decide +kernel) t, pushB_len _ r⟩

/-- `mov(reg, imm)` with 32 bits: the operation on the 32-bit register. -/
theorem movA_all : ∀ r : Gpr, okOf (do
    let _ ← E.rex (.reg (.gp (q64 r).idx 32)) (.reg .nil) 0
    Enc.db ((0xB0 ||| (if (q64 r).bit = 8 then 0 else 8)) ||| ((q64 r).idx &&& 7).setWidth 8)) (pushB 0xB8 r) = true := by decide +kernel

theorem movB_all : ∀ r : Gpr, okOf (do
    let _ ← E.rex (.reg (q64 r)) (.reg .nil) 0
    Enc.db 0xC7
    Enc.db (0xC0 ||| ((q64 r).idx &&& 7).setWidth 8)) [rexB false (hi r), 0xC7, mrm 0 r] = true := by decide +kernel

theorem movC_all : ∀ r : Gpr, okOf (do
    let _ ← E.rex (.reg (q64 r)) (.reg .nil) 0
    Enc.db ((0xB0 ||| (if (q64 r).bit = 8 then 0 else 8)) ||| ((q64 r).idx &&& 7).setWidth 8)) [rexB false (hi r), 0xB8 ||| (r &&& 7).setWidth 8] = true := by decide +kernel

theorem movI_pre (r : Gpr) (v : Word) (n : Nat) (w : List Byte) (pre : Enc Unit) (hp : okOf pre w = true) (e : E.mov_imm (q64 r) v = pre >>= fun _ => pure n) :
    (E.movI (.reg (q64 r)) v).Gives ((w ++ leBytes n v).map .byte) () := by
  have hq : ∀ r : Gpr, (q64 r).isREG = true := by decide +kernel
  unfold E.movI
  dsimp only
  rw [if_pos (hq r), e, Enc.gives_bind]
  refine ⟨w.map .byte, n, _, ?_, Enc.gives_dbN.2 rfl, List.map_append⟩
  rw [Enc.gives_bind]
  exact ⟨_, (), [], okOf_gives hp, ⟨rfl, rfl⟩, (List.append_nil _).symm⟩

/-- MOV B8+r decoded without REX.W. -/
theorem inst_movA (r : Gpr) (x : BitVec 32) (t : List Byte) : inst (pushB 0xB8 r ++ (leBytes 4 (x.setWidth 64) ++ t)) = some (.movI r (x.setWidth 64), t) := by
  have e := Xbyak.imm_append 4 (x.setWidth 64) t
  rw [sext_field] at e
  have hx : (x.signExtend 64).setWidth 32 = x := by
    ext i hi
    have : i < 64 := by omega
    simp [BitVec.getElem_signExtend, hi, this]
  have ho : ∀ r : Gpr, OpcodeOK 0 (0xB8 ||| (r &&& 7).setWidth 8) := by decide +kernel
  have key : ∀ (h : Head) (bs : List Byte), head bs = some (h, leBytes 4 (x.setWidth 64) ++ t) → h.space = .legacy → h.p66 = false → h.pF2 = false → h.pF3 = false → h.p67 = false →
      h.seg = none → h.w = false → h.map = 0 → h.opcode = 0xB8 ||| (r &&& 7).setWidth 8 → (rmGpr h (h.opcode.extractLsb' 0 3)).setWidth 4 = r →
      inst bs = some (.movI r (x.setWidth 64), t) := by
    intro h bs hh h1 h2 h3 h4 h5 h6 h7 h8 h9 h10
    have hj : jcc bs = none := by
      unfold jcc
      rw [hh]
      dsimp only
      have : ∀ r : Gpr, (0xB8 ||| (r &&& 7).setWidth 8 : Byte) &&& 0xF0 ≠ 0x70 := by decide +kernel
      rw [if_neg (by rw [h1]; decide), if_neg (fun h => this r (h9 ▸ h.2)), if_neg (by rw [h8]; intro h; exact absurd h.1 (by decide))]
    have hd : direct bs = none := by
      unfold direct
      rw [hh]
      dsimp only
      have : ∀ r : Gpr, (0xB8 ||| (r &&& 7).setWidth 8 : Byte) ∉ [0xEB, 0xE9, 0xE8, 0xE0, 0xE1, 0xE2, 0xE3] := by decide +kernel
      have := this r
      rw [← h9] at this
      simp only [List.mem_cons, List.not_mem_nil, or_false, not_or] at this
      obtain ⟨a1, a2, a3, a4, a5, a6, a7⟩ := this
      rw [if_neg (by rw [h1, h2, h8]; decide), if_neg a1, if_neg a2, if_neg a3, if_neg a4, if_neg a5, if_neg a6, if_neg a7]
    have hs : stackOp h = none := by
      have : ∀ r : Gpr, (0xB8 ||| (r &&& 7).setWidth 8 : Byte) &&& 0xF8 ≠ 0x50 ∧ (0xB8 ||| (r &&& 7).setWidth 8 : Byte) &&& 0xF8 ≠ 0x58 ∧ (0xB8 ||| (r &&& 7).setWidth 8 : Byte) ≠ 0xC3 ∧
          (0xB8 ||| (r &&& 7).setWidth 8 : Byte) ≠ 0x90 := by decide +kernel
      have := this r
      rw [← h9] at this
      unfold stackOp
      rw [if_neg (fun h => h h8), if_neg this.1, if_neg this.2.1, if_neg this.2.2.1, if_neg (fun h => this.2.2.2 h.1)]
    have hB : ∀ r : Gpr, (0xB8 ||| (r &&& 7).setWidth 8 : Byte) &&& 0xF8 = 0xB8 := by decide +kernel
    unfold inst
    rw [hh]
    dsimp only
    rw [if_neg (by simp [h1, h2, h3, h4, h5, h6]), if_neg (by rw [h7]; decide), hs]
    dsimp only
    rw [hj, hd]
    dsimp only
    unfold movOpc
    rw [if_pos ⟨h8, h9 ▸ hB r⟩, e, h10]
    show some (Inst.movI r (((x.signExtend 64).setWidth 32).setWidth 64), t) = _
    rw [hx]
  unfold pushB
  cases h : hi r
  · have hh := head_legacy false false false false { w := false, r3 := false, x3 := false, b3 := false } 0 (by decide) (fun h => by cases h) _ (ho r) (leBytes 4 (x.setWidth 64) ++ t)
    refine key { opcode := 0xB8 ||| (r &&& 7).setWidth 8 } _ hh rfl rfl rfl rfl rfl rfl rfl rfl rfl ?_
    have : ∀ r : Gpr, hi r = false → (rmGpr { opcode := 0xB8 ||| (r &&& 7).setWidth 8 } ((0xB8 ||| (r &&& 7).setWidth 8 : Byte).extractLsb' 0 3)).setWidth 4 = r := by decide +kernel
    exact this r h
  · have hh := head_legacy false false false false { w := false, r3 := false, x3 := false, b3 := true } 0 (by decide) (fun h => by cases h) _ (ho r) (leBytes 4 (x.setWidth 64) ++ t)
    refine key { rex := true, b3 := true, opcode := 0xB8 ||| (r &&& 7).setWidth 8 } _ hh rfl rfl rfl rfl rfl rfl rfl rfl rfl ?_
    have : ∀ r : Gpr, hi r = true → (rmGpr { rex := true, b3 := true, opcode := 0xB8 ||| (r &&& 7).setWidth 8 } ((0xB8 ||| (r &&& 7).setWidth 8 : Byte).extractLsb' 0 3)).setWidth 4 = r := by decide +kernel
    exact this r h

theorem straight_movI (d : Gpr) (v : Word) : ∃ bs, Straight (.movI d v) (.movI d v) bs := by
  have hbit : ∀ r : Gpr, (q64 r).bit = 64 := fun _ => rfl
  by_cases h1 : v &&& ~~~(0xffffffff : Word) = 0
  · have hv : (v.setWidth 32).setWidth 64 = v := by
      rw [← BitVec.toNat_inj]
      have hm : v &&& 0xffffffff = v := by
        have : v = (v &&& 0xffffffff) ||| (v &&& ~~~(0xffffffff : Word)) := by rw [← BitVec.and_or_distrib_left, BitVec.or_not_self, BitVec.and_allOnes]
        rw [h1, show (0 : Word) = 0#64 from rfl, BitVec.or_zero] at this
        exact this.symm
      have := congrArg BitVec.toNat hm
      rw [BitVec.toNat_and, show (0xffffffff : Word).toNat = 2 ^ 32 - 1 from rfl, Nat.and_two_pow_sub_one_eq_mod] at this
      simp only [BitVec.toNat_setWidth]
      omega
    refine ⟨_, bytesOf_gives (movI_pre d v 4 _ _ (movA_all d) ?_), fun t => ?_, ?_⟩
    · unfold E.mov_imm
      dsimp only
      rw [if_pos ⟨hbit d, h1⟩, Enc.bind_assoc]
    · rw [List.append_assoc]
      have := inst_movA d (v.setWidth 32) t
      rw [hv] at this
      exact this
    · rw [List.length_append, leBytes_length]
      have : ∀ r : Gpr, (pushB 0xB8 r).length ≤ 2 := by decide +kernel
      have := this d
      omega
  · by_cases h2 : isInInt32 v = true
    · refine ⟨_, bytesOf_gives (movI_pre d v 4 _ _ (movB_all d) ?_), fun t => ?_, (by rw [List.length_append, leBytes_length]; exact (by decide : 3 + 4 ≤ 15))⟩
      · unfold E.mov_imm
        dsimp only
        rw [if_neg (fun h => h1 h.2), if_pos ⟨hbit d, h2⟩]
        simp only [Enc.bind_assoc]
      · have e := Xbyak.imm_append 4 v t
        rw [show sextLE (leBytes 4 v) = v from sextLE_leBytes 4 v (by decide) ((isInInt32_iff v).1 h2)] at e
        show inst (rexB false (hi d) :: 0xC7 :: (mrm 0 d :: (leBytes 4 v ++ t))) = _
        rw [inst_w _ _ _ (by decide)]
        unfold instW
        dsimp only
        rw [if_neg (by decide), modrm_reg]
        dsimp only
        rw [if_neg (by decide), if_neg (by decide), if_neg (by decide), if_neg (by decide), if_pos ⟨rfl, rfl⟩, e, rm_num _ _ _ _ rfl]
        rfl
    · refine ⟨_, bytesOf_gives (movI_pre d v 8 _ _ (movC_all d) ?_), fun t => ?_, (by rw [List.length_append, leBytes_length]; exact (by decide : 2 + 8 ≤ 15))⟩
      · unfold E.mov_imm
        dsimp only
        rw [if_neg (fun h => h1 h.2), if_neg (fun h => h2 h.2), Enc.bind_assoc, hbit]
      · have e := Xbyak.imm_append 8 v t
        rw [show sextLE (leBytes 8 v) = v from (Xbyak.sextLE_eq 8 v).trans (by simp)] at e
        have ho : ∀ r : Gpr, OpcodeOK 0 (0xB8 ||| (r &&& 7).setWidth 8) ∧ (0xB8 ||| (r &&& 7).setWidth 8 : Byte) &&& 0xF8 = 0xB8 := by decide +kernel
        have hn : ∀ r : Gpr, (mk5 false (hi r) ((0xB8 ||| (r &&& 7).setWidth 8 : Byte).extractLsb' 0 3)).setWidth 4 = r := by decide +kernel
        show inst (rexB false (hi d) :: (0xB8 ||| (d &&& 7).setWidth 8) :: (leBytes 8 v ++ t)) = _
        unfold inst
        rw [head_w _ _ _ (ho d).1]
        dsimp only
        rw [if_neg (by decide), if_pos rfl, if_pos (ho d).2]
        unfold movOpc
        rw [if_pos ⟨rfl, (ho d).2⟩, e]
        show some (Inst.movI ((mk5 false (hi d) _).setWidth 4) v, t) = _
        rw [hn]

/-- FF /n decoded without REX.W. -/
theorem inst_ind (r : Gpr) (n : BitVec 3) {x : Inst} (hn : n = 2 ∧ x = .callR r ∨ n = 4 ∧ x = .jmpR r) (t : List Byte) :
    inst ((if hi r then [0x41] else []) ++ [0xFF, mrm n r] ++ t) = some (x, t) := by
  have key : ∀ (h : Head) (bs : List Byte), head bs = some (h, mrm n r :: t) → h.space = .legacy → h.p66 = false → h.pF2 = false → h.pF3 = false → h.p67 = false →
      h.seg = none → h.w = false → h.map = 0 → h.opcode = 0xFF → (rmGpr h (r.setWidth 3)).setWidth 4 = r → inst bs = some (x, t) := by
    intro h bs hh h1 h2 h3 h4 h5 h6 h7 h8 h9 h10
    have hj : jcc bs = none := by
      unfold jcc
      rw [hh]
      dsimp only
      rw [if_neg (by rw [h1]; decide), if_neg (fun h => absurd (h9 ▸ h.2) (by decide)), if_neg (by rw [h8]; intro h; exact absurd h.1 (by decide))]
    have hd : direct bs = none := by
      unfold direct
      rw [hh]
      dsimp only
      rw [h9, if_neg (by rw [h1, h2, h8]; decide), if_neg (by decide), if_neg (by decide), if_neg (by decide), if_neg (by decide), if_neg (by decide), if_neg (by decide),
        if_neg (by decide)]
    have hs : stackOp h = none := by
      unfold stackOp
      rw [h9, if_neg (fun h => h h8), if_neg (by decide), if_neg (by decide), if_neg (by decide), if_neg (fun h => absurd h.1 (by decide))]
    have hm : movOpc 4 h (mrm n r :: t) = none := by
      unfold movOpc
      rw [h9, if_neg (fun h => absurd h.2 (by decide))]
    unfold inst
    rw [hh]
    dsimp only
    rw [if_neg (by simp [h1, h2, h3, h4, h5, h6]), if_neg (by rw [h7]; decide), hs]
    dsimp only
    rw [hj, hd]
    dsimp only
    rw [hm]
    show indirect h (mrm n r :: t) = _
    unfold indirect
    rw [if_pos ⟨h8, h9⟩, modrm_reg]
    dsimp only
    rw [h10]
    rcases hn with ⟨rfl, rfl⟩ | ⟨rfl, rfl⟩ <;> rfl
  cases h : hi r
  · have hh := head_legacy false false false false { w := false, r3 := false, x3 := false, b3 := false } 0 (by decide) (fun h => by cases h) 0xFF (by decide) (mrm n r :: t)
    refine key { opcode := 0xFF } _ hh rfl rfl rfl rfl rfl rfl rfl rfl rfl ?_
    have : ∀ r : Gpr, hi r = false → (rmGpr { opcode := 0xFF } (r.setWidth 3)).setWidth 4 = r := by decide +kernel
    exact this r h
  · have hh := head_legacy false false false false { w := false, r3 := false, x3 := false, b3 := true } 0 (by decide) (fun h => by cases h) 0xFF (by decide) (mrm n r :: t)
    refine key { rex := true, b3 := true, opcode := 0xFF } _ hh rfl rfl rfl rfl rfl rfl rfl rfl rfl ?_
    have : ∀ r : Gpr, hi r = true → (rmGpr { rex := true, b3 := true, opcode := 0xFF } (r.setWidth 3)).setWidth 4 = r := by decide +kernel
    exact this r h

theorem ind_all : ∀ r : Gpr, okOf (E.opJmpOp (.reg (q64 r)) false 4) ((if hi r then [0x41] else []) ++ [0xFF, mrm 4 r]) = true ∧
    okOf (E.opJmpOp (.reg (q64 r)) false 2) ((if hi r then [0x41] else []) ++ [0xFF, mrm 2 r]) = true := by decide +kernel

theorem ind_len (r : Gpr) (b : Byte) : ((if hi r then [0x41] else []) ++ [0xFF, b] : List Byte).length ≤ 15 := by
  split
  · exact (by decide : 3 ≤ 15)
  · exact (by decide : 2 ≤ 15)

theorem straight_jmpR (r : Gpr) : ∃ bs, Straight (.jmpR r) (.jmpR r) bs :=
  ⟨_, bytesOf_gives (okOf_gives (ind_all r).1), fun t => inst_ind r 4 (.inr ⟨rfl, rfl⟩) t, ind_len r _⟩

theorem straight_callR (r : Gpr) : ∃ bs, Straight (.callR r) (.callR r) bs :=
  ⟨_, bytesOf_gives (okOf_gives (ind_all r).2), fun t => inst_ind r 2 (.inl ⟨rfl, rfl⟩) t, ind_len r _⟩

/-- FF /n with a memory operand. -/
theorem straight_ind (s : Stmt) (m : MemOp) (n : BitVec 5) (x : Mem → Inst) (hs : ops s = withPtr m fun a => E.opJmpOp (.mem a) false n)
    (hn : n = 2 ∧ x = .callM ∨ n = 4 ∧ x = .jmpM) : ∃ bs mm, Straight s (x mm) bs ∧ ∀ u : Cpu, u.ea mm = m.ea u.core.reg := by
  have hq : n ∈ [2, 4] := by rcases hn with ⟨rfl, -⟩ | ⟨rfl, -⟩ <;> decide
  have : ∀ n ∈ [(2 : BitVec 5), 4], (Reg.gp n 0).hasRex2 = false ∧ (Reg.gp n 0).isBit 8 = false ∧ E.p66of 0 (Addr.memOp 0) (Reg.gp n 0) = false ∧ (Reg.gp n 0).isREG 64 = false ∧
      n.getLsbD 3 = false := by decide +kernel
  obtain ⟨a1, a2, a3, a4, a5⟩ := this n hq
  obtain ⟨bs, hg, hl, h, reg, mm, hd, d1, d2, d3, d4, d5, d6, d7, d8, d9, d10, he⟩ := mr_gen m (Reg.gp n 0) 0xFF (by decide) a1 a2 a3 ⟨rfl, rfl⟩
  rw [a4] at d7
  have d9 : h.opcode = 0xFF := d9
  refine ⟨bs, mm, ⟨?_, fun t => ?_, hl⟩, he⟩
  · rw [hs, withPtr_eq]; exact bytesOf_gives hg
  · obtain ⟨t', hh, hm⟩ := hd t
    have hj : jcc (bs ++ t) = none := by
      unfold jcc
      rw [hh]
      dsimp only
      rw [if_neg (by rw [d1]; decide), if_neg (fun h => absurd (d9 ▸ h.2) (by decide)), if_neg (by rw [d8]; intro h; exact absurd h.1 (by decide))]
    have hd : direct (bs ++ t) = none := by
      unfold direct
      rw [hh]
      dsimp only
      rw [d9, if_neg (by rw [d1, d2, d8]; decide), if_neg (by decide), if_neg (by decide), if_neg (by decide), if_neg (by decide), if_neg (by decide), if_neg (by decide),
        if_neg (by decide)]
    have hs : stackOp h = none := by
      unfold stackOp
      rw [d9, if_neg (fun h => h d8), if_neg (by decide), if_neg (by decide), if_neg (by decide), if_neg (fun h => absurd h.1 (by decide))]
    have hmo : movOpc 4 h t' = none := by
      unfold movOpc
      rw [d9, if_neg (fun h => absurd h.2 (by decide))]
    have hr : reg = n.extractLsb' 0 3 := by
      have e : regNum h reg = mk5 h.r4 h.r3 reg := rfl
      rw [e] at d10
      have := congrArg (fun x : BitVec 5 => x.extractLsb' 0 3) d10
      have k : ∀ (a b : Bool) (c : BitVec 3), (mk5 a b c).extractLsb' 0 3 = c := by decide +kernel
      simp only [k] at this
      exact this
    unfold inst
    rw [hh]
    dsimp only
    rw [if_neg (by simp [d1, d2, d3, d4, d5, d6]), if_neg (by rw [d7]; decide), hs]
    dsimp only
    rw [hj, hd]
    dsimp only
    rw [hmo]
    show indirect h t' = _
    unfold indirect
    rw [if_pos ⟨d8, d9⟩, hm]
    dsimp only
    rw [hr]
    rcases hn with ⟨rfl, rfl⟩ | ⟨rfl, rfl⟩ <;> rfl

theorem straight_jmpM (m : MemOp) : ∃ bs mm, Straight (.jmpM m) (.jmpM mm) bs ∧ ∀ u : Cpu, u.ea mm = m.ea u.core.reg :=
  straight_ind _ m 4 .jmpM rfl (.inr ⟨rfl, rfl⟩)

theorem straight_callM (m : MemOp) : ∃ bs mm, Straight (.callM m) (.callM mm) bs ∧ ∀ u : Cpu, u.ea mm = m.ea u.core.reg :=
  straight_ind _ m 2 .callM rfl (.inl ⟨rfl, rfl⟩)

/-- The bytes of `mov(reg, label)` in front of the address. -/
def movLB (d : Gpr) : List Byte := [rexB false (hi d), 0xB8 ||| (d &&& 7).setWidth 8]

theorem movL_all : ∀ d : Gpr, okOf (E.mov_imm (q64 d) 0x1122334455667788 >>= fun _ => pure ()) (movLB d) = true := by decide +kernel

/-- The bytes of an instruction with `[rip + label]` in front of the displacement. -/
def ripB (o : Byte) (d : Gpr) : List Byte := [rexB (hi d) false, o, (d &&& 7).setWidth 8 <<< 3 ||| 5]

/-- The statements that end with a field for the address of a label: what is in front, the label, absolute or not. -/
def lab : Stmt → Option (List Byte × LRef × Bool)
  | .movL d n => some (movLB d, n, true)
  | .leaL d h => some (ripB 0x8D d, .obj h, false)
  | .loadL d h => some (ripB 0x8B d, .obj h, false)
  | .addrOf n => some ([], n, true)
  | _ => none

def labOp (abs : Bool) (n : LRef) : Op := if abs then .putL n else .ripL n 0
def labW (abs : Bool) : Asm.Width := if abs then .w8 else .w4

open E in
theorem ripAddr (x : Nat) (d : Gpr) : (opAddr (ripPtr x) (q64 d).idx).Gives [.byte ((d &&& 7).setWidth 8 <<< 3 ||| 5), .rel x 0] () := by
  have e : ∀ r : Gpr, (setModRM 0 (q64 r).idx 5).acts = [.byte ((r &&& 7).setWidth 8 <<< 3 ||| 5)] := by decide +kernel
  unfold opAddr
  rw [Enc.throwIf_bind]
  refine ⟨?_, ?_, rfl⟩
  · rw [show (ripPtr x).isVsib = (RegExp.ofDisp 0).isVsib from rfl, show (RegExp.ofDisp 0).isVsib = false by decide +kernel, Bool.and_false]
  show (setModRM 0 (q64 d).idx 5).acts ++ [Act.rel x (0 - BitVec.ofNat 64 0)] = _
  rw [e]; rfl

open E in
/-- The bytes of a 64-bit instruction on `[rip + label]`. -/
theorem ripMR (x : Nat) (d : Gpr) (c o : Byte) (hc : c ||| 1 = o)
    (hl : ∀ r : Gpr, legBytes 0 (p66of 0 (ripPtr 0).o (q64 r)) false (extMR (q64 r) (ripPtr 0)) o = [rexB (hi r) false, o]) :
    (opMR (ripPtr x) (q64 d) 0 c).Gives ((ripB o d).map .byte ++ [.rel x 0]) () := by
  have h8 : (q64 d).isBit 8 = false := by revert d; decide +kernel
  have e : opc 0 (q64 d) c = o := by
    unfold opc
    rw [h8]; exact hc
  have hx : extMR (q64 d) (ripPtr x) = extMR (q64 d) (ripPtr 0) := by
    unfold extMR
    rw [show (ripPtr x).getRegExp = (ripPtr 0).getRegExp from rfl]
    rfl
  have hz : RexOK 0 (ripPtr 0).o (q64 d) (extMR (q64 d) (ripPtr 0)).rex2 := by
    have : ∀ r : Gpr, (q64 r).nf = false ∧ (q64 r).zu = false ∧ (extMR (q64 r) (ripPtr 0)).rex2 = false := by decide +kernel
    obtain ⟨h1, h2, h3⟩ := this d
    exact ⟨⟨rfl, h1⟩, ⟨rfl, h2⟩, fun h => by rw [h3] at h; cases h⟩
  exact (opMR_gives (ripPtr x) (q64 d) 0 c (fun h => by cases h) _).2 ⟨rfl, (by
    show (!_ && _ && decide ((0 : Nat) > 0) && _) = false
    simp), by rw [hx]; exact hz, _, ripAddr x d, by
      rw [e, hx, show p66of 0 (ripPtr x).o (q64 d) = p66of 0 (ripPtr 0).o (q64 d) from rfl, show (ripPtr x).is32bit = false from rfl, hl]
      rfl⟩

theorem bytesOf_rip {m : Enc Unit} {o : Byte} {d : Gpr} {x : Nat} (h : m.Gives ((ripB o d).map .byte ++ [.rel x 0]) ()) :
    bytesOf m = some ((ripB o d).map .db ++ [.ripL (.obj x) 0]) := by
  unfold bytesOf
  rw [h.1, h.2]
  rfl

theorem lab_ops {s : Stmt} {bs : List Byte} {n : LRef} {abs : Bool} (h : lab s = some (bs, n, abs)) : ops s = some (bs.map .db ++ [labOp abs n]) := by
  cases s with
  | movL d n =>
    cases h
    show (bytesOf _).map _ = _
    rw [bytesOf_gives (okOf_gives (movL_all d))]
    rfl
  | leaL d x =>
    cases h
    have hb : ∀ r : Gpr, (!(q64 r).isBit 112) = false := by decide +kernel
    exact bytesOf_rip (Enc.throwIf_bind.2 ⟨hb d, ripMR x d 0x8D 0x8D (by decide) (by decide +kernel)⟩)
  | loadL d x =>
    cases h
    refine bytesOf_rip ?_
    have e : E.mov (.reg (q64 d)) (.mem (ripPtr x)) = E.opRO_MR (.reg (q64 d)) (.mem (ripPtr x)) 0x88 := by
      unfold E.mov
      dsimp only
      rw [show ((q64 d).isREG && (q64 d).idx == 0 && (ripPtr x).is64bitDisp) = false by
        rw [show (ripPtr x).is64bitDisp = false from rfl, Bool.and_false]]
      rfl
    have hb : ∀ r : Gpr, (!(Operand.reg (q64 r)).isREG) = false := by decide +kernel
    rw [e]
    unfold E.opRO_MR
    dsimp only
    rw [Enc.throwIf_bind]
    exact ⟨hb d, ripMR x d (0x88 ||| 2) 0x8B (by decide) (by decide +kernel)⟩
  | addrOf n => cases h; rfl
  | _ => cases h

/-- MOV of a 64-bit constant decoded. -/
theorem inst_movC (d : Gpr) (x t : List Byte) (hx : x.length = 8) : inst (movLB d ++ x ++ t) = some (.movI d (BitVec.ofNat 64 (fromLE x)), t) := by
  have e : imm 8 (x ++ t) = some (sextLE x, t) := by
    unfold imm
    rw [if_pos (by rw [List.length_append, hx]; omega), List.take_left' hx, List.drop_left' hx]
  have hs : sextLE x = BitVec.ofNat 64 (fromLE x) := by
    unfold sextLE
    rw [hx]
    exact BitVec.signExtend_eq _
  have ho : ∀ r : Gpr, OpcodeOK 0 (0xB8 ||| (r &&& 7).setWidth 8) ∧ (0xB8 ||| (r &&& 7).setWidth 8 : Byte) &&& 0xF8 = 0xB8 := by decide +kernel
  have hn : ∀ r : Gpr, (mk5 false (hi r) ((0xB8 ||| (r &&& 7).setWidth 8 : Byte).extractLsb' 0 3)).setWidth 4 = r := by decide +kernel
  show inst (rexB false (hi d) :: (0xB8 ||| (d &&& 7).setWidth 8) :: (x ++ t)) = _
  unfold inst
  rw [head_w _ _ _ (ho d).1]
  dsimp only
  rw [if_neg (by decide), if_pos rfl, if_pos (ho d).2]
  unfold movOpc
  rw [if_pos ⟨rfl, (ho d).2⟩, e, hs]
  show some (Inst.movI ((mk5 false (hi d) _).setWidth 4) _, t) = _
  rw [hn]
  rfl

/-- `[rip + disp32]` decoded. -/
theorem inst_rip (o : Byte) (d : Gpr) (x t : List Byte) (hx : x.length = 4) {i : Mem → Inst} (ho : o = 0x8D ∧ i = .lea d ∨ o = 0x8B ∧ i = .load d) :
    inst (ripB o d ++ x ++ t) = some (i { base := none, index := none, scale := 1, disp := sextLE x, rip := true }, t) := by
  have hd : disp32 (x ++ t) = some (sextLE x, t) := by
    match x, hx with
    | [a, b, c, e], _ => rfl
  have hm : ∀ d : Gpr, ((d &&& 7).setWidth 8 <<< 3 ||| 5 : Byte).extractLsb' 6 2 = 0 ∧ ((d &&& 7).setWidth 8 <<< 3 ||| 5 : Byte).extractLsb' 3 3 = d.setWidth 3 ∧
      ((d &&& 7).setWidth 8 <<< 3 ||| 5 : Byte).extractLsb' 0 3 = 5 := by decide +kernel
  obtain ⟨m1, m2, m3⟩ := hm d
  have hmod : ∀ h : Head, modrm h false 1 (((d &&& 7).setWidth 8 <<< 3 ||| 5) :: (x ++ t)) =
      some (d.setWidth 3, .mem { base := none, index := none, scale := 1, disp := sextLE x, rip := true }, t) := by
    intro h
    unfold modrm
    dsimp only
    rw [m1, m2, m3, if_neg (by decide), if_neg (by decide), if_pos ⟨rfl, rfl⟩, hd]
  have hok : OpcodeOK 0 o ∧ o &&& 0xF8 ≠ 0xB8 ∧ o &&& 0xF8 ≠ 0x90 := by rcases ho with ⟨rfl, -⟩ | ⟨rfl, -⟩ <;> decide
  show inst (rexB (hi d) false :: o :: (((d &&& 7).setWidth 8 <<< 3 ||| 5) :: (x ++ t))) = _
  rw [inst_w _ _ _ hok.1 _ hok.2]
  unfold instW
  dsimp only
  rw [hmod]
  rcases ho with ⟨rfl, rfl⟩ | ⟨rfl, rfl⟩
  · rw [if_neg (by decide)]
    dsimp only
    rw [if_neg (by decide), if_neg (by decide), if_pos rfl, reg_num _ _ _ _ rfl]
  · rw [if_neg (by decide)]
    dsimp only
    rw [if_neg (by decide), if_pos rfl, reg_num _ _ _ _ rfl]

theorem straight_ret : ∃ bs, Straight .ret .ret bs :=
  ⟨[0xC3], rfl, fun t => by
    have hh := head_legacy false false false false { w := false, r3 := false, x3 := false, b3 := false } 0 (by decide) (fun h => by cases h) 0xC3 (by decide) t
    have hh : head (0xC3 :: t) = some ({ opcode := 0xC3 }, t) := hh
    show inst (0xC3 :: t) = _
    unfold inst
    rw [hh]
    rfl, (by decide : 1 ≤ 15)⟩

theorem straight_nop : ∃ bs, Straight .nop .nop bs :=
  ⟨[0x90], by
    show some ((nopBytes 1 true).map Op.db) = _
    simp [nopBytes, nopBytesMulti, nopTbl], fun t => by
    have hh := head_legacy false false false false { w := false, r3 := false, x3 := false, b3 := false } 0 (by decide) (fun h => by cases h) 0x90 (by decide) t
    have hh : head (0x90 :: t) = some ({ opcode := 0x90 }, t) := hh
    show inst (0x90 :: t) = _
    unfold inst
    rw [hh]
    rfl, (by decide : 1 ≤ 15)⟩

/-! ## Jumps -/

theorem inst_jcc {bs : List Byte} {cc : BitVec 4} {v : Word} {t u : List Byte} {h : Head} (hh : head bs = some (h, u)) (h1 : h.space = .legacy) (h2 : h.p66 = false)
    (h3 : h.pF2 = false) (h4 : h.pF3 = false) (h5 : h.p67 = false) (h6 : h.seg = none) (h7 : h.w = false) (h8 : stackOp h = none) (hj : jcc bs = some (cc, v, t)) : inst bs = some (.jcc cc v, t) := by
  unfold inst
  rw [hh]
  dsimp only
  rw [if_neg (by rw [h1, h2, h3, h4, h5, h6]; decide), if_neg (by rw [h7]; decide), h8]
  dsimp only
  rw [hj]

/-- The opcodes of a jump: short, long, the byte in front of the long one. -/
def jops : Stmt → Option (Byte × Byte × Byte × LabelType × LRef)
  | .jmp n ty => some (0xEB, 0xE9, 0, ty, n)
  | .jcc cc n ty => some (Asm.jccS cc, Asm.jccL cc, 0x0F, ty, n)
  | .loop n => some (0xE2, 0, 0, .short, n)
  | .jrcxz n => some (0xE3, 0, 0, .short, n)
  | .call n => some (0, 0xE8, 0, .near, n)
  | _ => none

/-- The instruction of a jump statement with this displacement. -/
def jinst (v : Word) : Stmt → Inst
  | .jmp _ _ => .jmp v
  | .jcc cc _ _ => .jcc cc v
  | .loop _ => .loop v
  | .jrcxz _ => .jrcxz v
  | .call _ => .call v
  | _ => .jmp v

theorem inst_direct {bs : List Byte} {x : Inst} {v : Word} {t u : List Byte} {h : Head} {D : Direct} (hh : head bs = some (h, u)) (h1 : h.space = .legacy) (h2 : h.p66 = false)
    (h3 : h.pF2 = false) (h4 : h.pF3 = false) (h5 : h.p67 = false) (h6 : h.seg = none) (h7 : h.w = false) (hm : h.map = 0) (h8 : stackOp h = none) (ho : h.opcode &&& 0xF0 ≠ 0x70)
    (hj : direct bs = some (D, v, t)) (hx : (D = .jmp ∧ x = .jmp v) ∨ (D = .loop 64 ∧ x = .loop v) ∨ (D = .jcxz 64 ∧ x = .jrcxz v) ∨ (D = .call ∧ x = .call v)) :
    inst bs = some (x, t) := by
  have hn : jcc bs = none := by
    unfold jcc
    rw [hh]
    dsimp only
    rw [if_neg (by rw [h1]; decide), if_neg (fun h => ho h.2), if_neg (by rw [hm]; intro h; exact absurd h.1 (by decide))]
  unfold inst
  rw [hh]
  dsimp only
  rw [if_neg (by rw [h1, h2, h3, h4, h5, h6]; decide), if_neg (by rw [h7]; decide), h8]
  dsimp only
  rw [hn, hj]
  rcases hx with ⟨rfl, rfl⟩ | ⟨rfl, rfl⟩ | ⟨rfl, rfl⟩ | ⟨rfl, rfl⟩ <;> rfl

/-- The bytes of a jump in front of the displacement. -/
def jstart (b lo p : Byte) (short : Bool) : List Byte := if short then [b] else (if p ≠ 0 then [p] else []) ++ [lo]

theorem stack_jcc : ∀ cc : BitVec 4, stackOp { opcode := Asm.jccS cc } = none := by decide +kernel

theorem jump_dec {s : Stmt} {b lo p : Byte} {ty : LabelType} {n : LRef} (hs : jops s = some (b, lo, p, ty, n)) {short : Bool} (hty : ty = .short → short = true) (hty' : ty = .near → short = false)
    {rel : List Byte} (hl : rel.length = if short then 1 else 4) (t : List Byte) :
    inst (jstart b lo p short ++ rel ++ t) = some (jinst (sextLE rel) s, t) := by
  have one : ∀ (o : Byte) (f : Asm.BranchFn), f ∈ Asm.branchFns → f.pre = none → f.short = o → f.ty ≠ some .near → short = true → direct (o :: (rel ++ t)) = some (f.op, sextLE rel, t) := by
    intro o f hf hp ho hn he
    subst he
    have := Asm.direct_fn hf (short := true) (fun h => absurd h hn) (fun _ => rfl) (rel := rel) hl t
    unfold Asm.BranchFn.start at this
    rw [hp] at this
    rw [← ho]
    exact this
  have legal : ∀ o : Byte, OpcodeOK 0 o → head (o :: (rel ++ t)) = some ({ opcode := o }, rel ++ t) := by
    intro o ho
    exact head_legacy false false false false Asm.noExt 0 (by decide) (by decide) o ho (rel ++ t)
  cases s with
  | label | mov | alu | aluI | enter | leave | push | pop | ret | movI | load | store | lea | aluL | aluS | movL | jmpR | callR | jmpM | callM | leaL | loadL | addrOf | db | test | un | cmov | sh | xchg | nop => cases hs
  | jmp n' ty' =>
    cases hs
    cases short with
    | true =>
      exact inst_direct (legal 0xEB (by decide)) rfl rfl rfl rfl rfl rfl rfl rfl rfl (by decide)
        (one 0xEB { name := "jmp", short := 0xEB, long := 0xE9, op := .jmp } List.mem_cons_self rfl rfl (by decide) rfl) (.inl ⟨rfl, rfl⟩)
    | false =>
      have := Asm.direct_fn (f := { name := "jmp", short := 0xEB, long := 0xE9, op := .jmp }) List.mem_cons_self (short := false) (fun _ => rfl) (fun h => by cases h) (rel := rel) hl t
      exact inst_direct (legal 0xE9 (by decide)) rfl rfl rfl rfl rfl rfl rfl rfl rfl (by decide) this (.inl ⟨rfl, rfl⟩)
  | jcc cc n' ty' =>
    cases hs
    obtain ⟨k1, -, -, k4, -, -⟩ := Asm.jcc_codes cc
    have hx := List.take_left' (l₂ := t) hl
    have hy := List.drop_left' (l₂ := t) hl
    cases short with
    | true =>
      have := Asm.jcc_short cc (rel ++ t) (by rw [List.length_append, hl]; exact Nat.le_add_right 1 _)
      rw [if_pos rfl] at hx hy
      rw [hx, hy] at this
      exact inst_jcc (legal _ k1) rfl rfl rfl rfl rfl rfl rfl (stack_jcc cc) this
    | false =>
      have := Asm.jcc_long cc (rel ++ t) (by rw [List.length_append, hl]; exact Nat.le_add_right 4 _)
      rw [if_neg (by decide)] at hx hy
      rw [hx, hy] at this
      have hd := head_legacy false false false false Asm.noExt 1 (by decide) (by decide) (Asm.jccL cc) k4 (rel ++ t)
      exact inst_jcc hd rfl rfl rfl rfl rfl rfl rfl rfl this
  | call n' =>
    cases hs
    cases hty' rfl
    have := Asm.direct_fn (f := { name := "call", ty := some .near, short := 0, long := 0xE8, op := .call }) (by simp [Asm.branchFns]) (short := false) (fun _ => rfl)
      (fun h => by cases h) (rel := rel) hl t
    exact inst_direct (legal 0xE8 (by decide)) rfl rfl rfl rfl rfl rfl rfl rfl rfl (by decide) this (.inr (.inr (.inr ⟨rfl, rfl⟩)))
  | loop n' =>
    cases hs
    cases hty rfl
    exact inst_direct (legal 0xE2 (by decide)) rfl rfl rfl rfl rfl rfl rfl rfl rfl (by decide)
      (one 0xE2 { name := "loop", ty := some .short, short := 0xE2, long := 0, op := .loop 64 } (by simp [Asm.branchFns]) rfl rfl (by decide) rfl) (.inr (.inl ⟨rfl, rfl⟩))
  | jrcxz n' =>
    cases hs
    cases hty rfl
    exact inst_direct (legal 0xE3 (by decide)) rfl rfl rfl rfl rfl rfl rfl rfl rfl (by decide)
      (one 0xE3 { name := "jrcxz", ty := some .short, short := 0xE3, long := 0, op := .jcxz 64 } (by simp [Asm.branchFns]) rfl rfl (by decide) rfl) (.inr (.inr (.inl ⟨rfl, rfl⟩)))

theorem straight_ops {s : Stmt} {i : Inst} {bs : List Byte} (h : Straight s i bs) : (ops s).getD [] = bs.map .db := by rw [h.calls]; rfl

/-- The calls for a program. -/
def calls (p : List Stmt) : List Op := p.flatMap fun s => (ops s).getD []

def names : Stmt → List LRef
  | .label n | .jmp n _ | .jcc _ n _ | .loop n | .jrcxz n | .call n | .movL _ n | .addrOf n => [n]
  | .leaL _ h | .loadL _ h => [.obj h]
  | _ => []

/-! ## The layout -/

open Asm

theorem done_append {env : Env} {a b : List Op} {g g' : G} : Done env (a ++ b) g g' ↔ ∃ m, Done env a g m ∧ Done env b m g' := by
  induction a generalizing g with
  | nil => exact ⟨fun h => ⟨g, rfl, h⟩, fun ⟨m, h, h'⟩ => by cases h; exact h'⟩
  | cons op t ih =>
    constructor
    · rintro ⟨g1, h1, h2⟩
      obtain ⟨m, h3, h4⟩ := ih.1 h2
      exact ⟨m, ⟨g1, h1, h3⟩, h4⟩
    · rintro ⟨m, ⟨g1, h1, h3⟩, h4⟩
      exact ⟨g1, h1, ih.2 ⟨m, h3, h4⟩⟩

theorem done_fun {env : Env} {a : List Op} {g g1 g2 : G} (h1 : Done env a g g1) (h2 : Done env a g g2) : g1 = g2 := by
  induction a generalizing g with
  | nil => rw [h1, h2]
  | cons op t ih =>
    obtain ⟨m, e, h1⟩ := h1
    obtain ⟨m', e', h2⟩ := h2
    rw [e] at e'
    cases e'
    exact ih h1 h2

def Steps (cx : Cx) : List Op → Spec → Spec → Prop
  | [], s, s' => s' = s
  | op :: t, s, s'' => ∃ s', Step cx op s s' ∧ Steps cx t s' s''

theorem done_steps {cx : Cx} {env : Env} (he : env.Sane) {a : List Op} {g g' : G} {sp : Spec} (st : St cx g sp) (h : Hist (CallOk cx env) env a g)
    (hd : Done env a g g') : ∃ sp', Steps cx a sp sp' ∧ St cx g' sp' := by
  induction a generalizing g sp with
  | nil => cases hd; exact ⟨sp, rfl, st⟩
  | cons op t ih =>
    obtain ⟨g1, e, hd⟩ := hd
    obtain ⟨hc, h⟩ := hist_cons_ok h e
    obtain ⟨sp1, h1, s1⟩ := st.step he hc e
    obtain ⟨sp2, h2, s2⟩ := ih s1 h hd
    exact ⟨sp2, ⟨sp1, h1, h2⟩, s2⟩

theorem steps_grow {cx : Cx} {a : List Op} {s s' : Spec} (h : Steps cx a s s') (hr : .reset ∉ a) : ∃ n, Grow s s' n := by
  induction a generalizing s with
  | nil => cases h; exact ⟨0, .refl _⟩
  | cons op t ih =>
    obtain ⟨s1, h1, h2⟩ := h
    obtain ⟨n, g⟩ := ih h2 fun h => hr (List.mem_cons_of_mem _ h)
    exact ⟨_, (h1.grow fun e => hr (e ▸ List.mem_cons_self)).trans g⟩

theorem steps_bytes {cx : Cx} {bs : List Byte} {s s' : Spec} (h : Steps cx (bs.map .db) s s') : s' = s.emit (bs.map .byte) := by
  induction bs generalizing s with
  | nil => cases h; unfold Spec.emit; simp
  | cons b bs ih =>
    obtain ⟨s1, h1, h2⟩ := h
    have h1 : s1 = s.emit [.byte b] := h1
    subst h1
    rw [ih h2]
    unfold Spec.emit
    simp

theorem steps_append {cx : Cx} {a b : List Op} {s s' : Spec} : Steps cx (a ++ b) s s' ↔ ∃ m, Steps cx a s m ∧ Steps cx b m s' := by
  induction a generalizing s with
  | nil => exact ⟨fun h => ⟨s, rfl, h⟩, fun ⟨m, h, h'⟩ => by cases h; exact h'⟩
  | cons op t ih =>
    constructor
    · rintro ⟨s1, h1, h2⟩
      obtain ⟨m, h3, h4⟩ := ih.1 h2
      exact ⟨m, ⟨s1, h1, h3⟩, h4⟩
    · rintro ⟨m, ⟨s1, h1, h3⟩, h4⟩
      exact ⟨s1, h1, ih.2 ⟨m, h3, h4⟩⟩

theorem touch_emit (s : Spec) (cs : List Cell) (l : LRef) : (s.emit cs).touch l = (s.touch l).emit cs := by
  unfold Spec.touch Spec.emit
  cases l with
  | str _ => rfl
  | obj h => dsimp only; split <;> rfl

theorem lab_steps {cx : Cx} {s : Stmt} {bs : List Byte} {n : LRef} {abs : Bool} (hl : lab s = some (bs, n, abs)) {a b : Spec} (h : Steps cx ((ops s).getD []) a b) :
    ∃ k, (a.touch n).keyRef n = some k ∧ b = (a.touch n).emit (bs.map .byte ++ [.field ⟨labW abs, abs, .label k 0⟩]) := by
  rw [lab_ops hl] at h
  obtain ⟨m, h1, s1, h2, h3⟩ := steps_append.1 (show Steps cx (bs.map Op.db ++ [labOp abs n]) a b from h)
  cases h3
  have h2 : ∃ k, (m.touch n).keyRef n = some k ∧ b = (m.touch n).emit [.field ⟨labW abs, abs, .label k 0⟩] := by
    cases abs <;> exact h2
  obtain ⟨k, hk, h2⟩ := h2
  rw [steps_bytes h1, touch_emit] at hk h2
  refine ⟨k, ?_, ?_⟩
  · rw [← hk]; cases n <;> rfl
  · rw [h2]; unfold Spec.emit; simp

/-- One state of the generator and of the specification before each statement and one behind the last. -/
structure Trace (cx : Cx) (env : Env) (p : List Stmt) (g g' : G) (sp : Spec) (γ : Nat → G) (σ : Nat → Spec) : Prop where
  first : γ 0 = g
  last : γ p.length = g'
  zero : σ 0 = sp
  done : ∀ i s, p[i]? = some s → Done env ((ops s).getD []) (γ i) (γ (i + 1))
  steps : ∀ i s, p[i]? = some s → Steps cx ((ops s).getD []) (σ i) (σ (i + 1))
  st : ∀ i, i ≤ p.length → St cx (γ i) (σ i)
  pre : ∀ i, i ≤ p.length → Done env (calls (p.take i)) g (γ i)

theorem db_heap {env : Env} {b : Byte} {g g' : G} (h : step env (.db b) g = .ok () g') : g'.heap = g.heap := by
  unfold step liftCA at h
  dsimp only at h
  split at h <;> first | (cases h; rfl) | cases h

theorem live_db {env : Env} {b : Byte} {g g' : G} (h : step env (.db b) g = .ok () g') {n : LRef} (hn : LiveRef g n) : LiveRef g' n := by
  cases n with
  | str _ => trivial
  | obj x =>
    show g'.heap x ≠ none
    rw [db_heap h]
    exact hn

theorem hist_put {env : Env} {cx : Cx} (bs : List Byte) (n : LRef) (abs : Bool) {g g' : G} (hd : Done env (bs.map .db ++ [labOp abs n]) g g') (hn : LiveRef g n) :
    Hist (CallOk cx env) env (bs.map .db ++ [labOp abs n]) g := by
  induction bs generalizing g with
  | nil =>
    obtain ⟨g1, e1, -⟩ := hd
    refine ⟨?_, ?_⟩
    · cases abs <;> exact ⟨hn, trivial, trivial⟩
    · rw [e1]
      trivial
  | cons x bs ih =>
    obtain ⟨g1, e1, e2⟩ := hd
    refine ⟨⟨trivial, trivial, trivial⟩, ?_⟩
    rw [e1]
    exact ih e2 (live_db e1 hn)

/-- The calls of a statement keep the obligations of the caller if its label is alive and it does not start beyond 2 GiB. -/
theorem hist_ops {env : Env} {cx : Cx} (s : Stmt) {g g' : G} (hd : Done env ((ops s).getD []) g g') (hs : g.ca.size + 6 ≤ 2 ^ 31) (hl : ∀ n ∈ names s, LiveRef g n) :
    Hist (CallOk cx env) env ((ops s).getD []) g := by
  have one : ∀ op, (ops s).getD [] = [op] → CallOk cx env g op → Hist (CallOk cx env) env ((ops s).getD []) g := by
    intro op e hc
    rw [e] at hd ⊢
    obtain ⟨g1, e1, e2⟩ := hd
    cases e2
    refine ⟨hc, ?_⟩
    rw [e1]
    trivial
  have str : ∀ {i : Inst} {bs : List Byte}, Straight s i bs → Hist (CallOk cx env) env ((ops s).getD []) g := by
    intro i bs h
    rw [straight_ops h] at hd ⊢
    clear h hs one hl
    induction bs generalizing g with
    | nil => trivial
    | cons x bs ih =>
      obtain ⟨g1, e1, e2⟩ := hd
      refine ⟨⟨trivial, trivial, trivial⟩, ?_⟩
      rw [e1]
      exact ih e2
  have put : ∀ {bs : List Byte} {n : LRef} {abs : Bool}, lab s = some (bs, n, abs) → LiveRef g n → Hist (CallOk cx env) env ((ops s).getD []) g := by
    intro bs n abs h hn
    rw [lab_ops h] at hd ⊢
    exact hist_put bs n abs hd hn
  cases s with
  | mov d s => exact (straight_mov d s).elim fun _ h => str h
  | alu n d s => exact (straight_alu n d s).elim fun _ h => str h
  | aluI n d i => exact (straight_aluI n d i).elim fun _ h => str h
  | push r => exact (straight_push r).elim fun _ h => str h
  | pop r => exact (straight_pop r).elim fun _ h => str h
  | ret => exact straight_ret.elim fun _ h => str h
  | test d s => exact (straight_test d s).elim fun _ h => str h
  | un op d => exact (straight_un op d).elim fun _ h => str h
  | cmov cc d s => exact (straight_cmov cc d s).elim fun _ h => str h
  | sh op d i => exact (straight_sh op d i).elim fun _ h => str h
  | xchg a b => obtain ⟨_, _, _, h, -⟩ := straight_xchg a b; exact str h
  | nop => exact straight_nop.elim fun _ h => str h
  | jmpR r => exact (straight_jmpR r).elim fun _ h => str h
  | callR r => exact (straight_callR r).elim fun _ h => str h
  | jmpM m => exact (straight_jmpM m).elim fun _ h => h.elim fun _ h => str h.1
  | callM m => exact (straight_callM m).elim fun _ h => h.elim fun _ h => str h.1
  | movI d v => exact (straight_movI d v).elim fun _ h => str h
  | load d m => exact (straight_load d m).elim fun _ h => h.elim fun _ h => str h.1
  | store m s => exact (straight_store m s).elim fun _ h => h.elim fun _ h => str h.1
  | lea d m => exact (straight_lea d m).elim fun _ h => h.elim fun _ h => str h.1
  | aluL n d m => exact (straight_aluL n d m).elim fun _ h => h.elim fun _ h => str h.1
  | aluS n m s => exact (straight_aluS n m s).elim fun _ h => h.elim fun _ h => str h.1
  | label n =>
    refine one _ rfl ⟨hl n List.mem_cons_self, trivial, ?_⟩
    obtain ⟨g1, e1, -⟩ := hd
    unfold Whole
    dsimp only
    rw [e1]
    trivial
  | movL d n => exact put rfl (hl n List.mem_cons_self)
  | addrOf n => exact put rfl (hl n List.mem_cons_self)
  | leaL d h => exact put rfl (hl (.obj h) List.mem_cons_self)
  | loadL d h => exact put rfl (hl (.obj h) List.mem_cons_self)
  | db b => exact one _ rfl ⟨trivial, trivial, trivial⟩
  | jmp n ty | jcc cc n ty | loop n | jrcxz n | call n => exact one _ rfl ⟨hl n List.mem_cons_self, hs, trivial⟩
  | enter | leave => exact one _ rfl ⟨trivial, trivial, trivial⟩

/-- A statement can give an identity to a `Label` object, no more. -/
theorem stmt_objs {cx : Cx} (s : Stmt) {a b : Spec} (h : Steps cx ((ops s).getD []) a b) : b.objs = a.objs ∨ ∃ l, b.objs = (a.touch l).objs := by
  have str : ∀ {i : Inst} {bs : List Byte}, Straight s i bs → b.objs = a.objs ∨ ∃ l, b.objs = (a.touch l).objs := by
    intro i bs hs
    rw [straight_ops hs] at h
    rw [steps_bytes h]
    exact .inl rfl
  have put : ∀ {bs : List Byte} {n : LRef} {abs : Bool}, lab s = some (bs, n, abs) → b.objs = a.objs ∨ ∃ l, b.objs = (a.touch l).objs := by
    intro bs n abs hs
    obtain ⟨k, -, h1⟩ := lab_steps hs h
    exact .inr ⟨n, by rw [h1]; rfl⟩
  cases s with
  | mov d s => exact (straight_mov d s).elim fun _ h => str h
  | alu n d s => exact (straight_alu n d s).elim fun _ h => str h
  | aluI n d i => exact (straight_aluI n d i).elim fun _ h => str h
  | push r => exact (straight_push r).elim fun _ h => str h
  | pop r => exact (straight_pop r).elim fun _ h => str h
  | ret => exact straight_ret.elim fun _ h => str h
  | test d s => exact (straight_test d s).elim fun _ h => str h
  | un op d => exact (straight_un op d).elim fun _ h => str h
  | cmov cc d s => exact (straight_cmov cc d s).elim fun _ h => str h
  | sh op d i => exact (straight_sh op d i).elim fun _ h => str h
  | xchg a b => obtain ⟨_, _, _, h, -⟩ := straight_xchg a b; exact str h
  | nop => exact straight_nop.elim fun _ h => str h
  | jmpR r => exact (straight_jmpR r).elim fun _ h => str h
  | callR r => exact (straight_callR r).elim fun _ h => str h
  | jmpM m => exact (straight_jmpM m).elim fun _ h => h.elim fun _ h => str h.1
  | callM m => exact (straight_callM m).elim fun _ h => h.elim fun _ h => str h.1
  | movI d v => exact (straight_movI d v).elim fun _ h => str h
  | load d m => exact (straight_load d m).elim fun _ h => h.elim fun _ h => str h.1
  | store m s => exact (straight_store m s).elim fun _ h => h.elim fun _ h => str h.1
  | lea d m => exact (straight_lea d m).elim fun _ h => h.elim fun _ h => str h.1
  | aluL n d m => exact (straight_aluL n d m).elim fun _ h => h.elim fun _ h => str h.1
  | aluS n m s => exact (straight_aluS n m s).elim fun _ h => h.elim fun _ h => str h.1
  | label n =>
    obtain ⟨s1, ⟨k, hk, -, h1⟩, h2⟩ := h
    cases h2
    exact .inr ⟨n, by rw [h1]; rfl⟩
  | movL d n => exact put rfl
  | addrOf n => exact put rfl
  | leaL d h => exact put rfl
  | loadL d h => exact put rfl
  | db x =>
    obtain ⟨s1, h1, h2⟩ := h
    cases h2
    exact .inl (by rw [show b = _ from h1]; rfl)
  | jmp n ty | jcc cc n ty | loop n | jrcxz n | call n =>
    obtain ⟨s1, ⟨k, hk, h1⟩, h2⟩ := h
    cases h2
    exact .inr ⟨n, by rw [h1]; rfl⟩
  | enter =>
    obtain ⟨s1, h1, h2⟩ := h
    cases h2
    exact .inl (by rw [h1])
  | leave =>
    obtain ⟨s1, ⟨_, _, _, _, _, h1⟩, h2⟩ := h
    cases h2
    exact .inl (by rw [h1])

theorem live_iff {cx : Cx} {g : G} {sp : Spec} (st : St cx g sp) (h : Nat) : LiveRef g (.obj h) ↔ sp.objs h ≠ none := by
  rw [st.inv.tab.objs]
  show g.heap h ≠ none ↔ _
  cases g.heap h <;> simp

theorem touch_keeps (s : Spec) (l : LRef) (x : Nat) (h : s.objs x ≠ none) : (s.touch l).objs x ≠ none := by
  unfold Spec.touch
  cases l with
  | str _ => exact h
  | obj y =>
    dsimp only
    split
    · simp only [upd]; split
      · simp
      · exact h
    · exact h

theorem stmt_live {cx : Cx} (s : Stmt) {g g' : G} {a b : Spec} (sa : St cx g a) (sb : St cx g' b) (h : Steps cx ((ops s).getD []) a b) {l : LRef} (hl : LiveRef g l) : LiveRef g' l := by
  cases l with
  | str n => trivial
  | obj x =>
    rw [live_iff sa] at hl
    rw [live_iff sb]
    rcases stmt_objs s h with e | ⟨l, e⟩
    · rw [e]; exact hl
    · rw [e]; exact touch_keeps a l x hl

theorem trace {cx : Cx} {env : Env} (he : env.Sane) (p : List Stmt) : ∀ {g g' : G} {sp : Spec}, St cx g sp → (∀ s ∈ p, ∀ n ∈ names s, LiveRef g n) →
    (∀ i gi, i < p.length → Done env (calls (p.take i)) g gi → gi.ca.size + 6 ≤ 2 ^ 31) → Done env (calls p) g g' → ∃ γ σ, Trace cx env p g g' sp γ σ := by
  induction p with
  | nil =>
    intro g g' sp st _ _ hd
    cases hd
    exact ⟨fun _ => g, fun _ => sp, rfl, rfl, rfl, fun i s h => by simp at h, fun i s h => by simp at h, fun _ _ => st, fun i _ => by rw [List.take_nil]; rfl⟩
  | cons s p ih =>
    intro g g' sp st hl hz hd
    have e : calls (s :: p) = (ops s).getD [] ++ calls p := rfl
    rw [e] at hd
    obtain ⟨m, d1, d2⟩ := done_append.1 hd
    obtain ⟨sp1, k1, s1⟩ := done_steps he st (hist_ops s d1 (hz 0 g (Nat.succ_pos _) rfl) (hl s List.mem_cons_self)) d1
    obtain ⟨γ, σ, T⟩ := ih s1 (fun x hx n hn => stmt_live s st s1 k1 (hl x (List.mem_cons_of_mem _ hx) n hn))
      (fun i gi hi hg => hz (i + 1) gi (by rw [List.length_cons]; omega) (done_append.2 ⟨m, d1, hg⟩)) d2
    refine ⟨fun | 0 => g | i + 1 => γ i, fun | 0 => sp | i + 1 => σ i, rfl, T.last, rfl, ?_, ?_, ?_, ?_⟩
    · intro i x hx
      cases i with
      | zero => cases hx; dsimp only; rw [T.first]; exact d1
      | succ i => exact T.done i x hx
    · intro i x hx
      cases i with
      | zero => cases hx; dsimp only; rw [T.zero]; exact k1
      | succ i => exact T.steps i x hx
    · intro i hi
      cases i with
      | zero => exact st
      | succ i => exact T.st i (by simpa using hi)
    · intro i hi
      cases i with
      | zero => rfl
      | succ i => exact done_append.2 ⟨m, d1, T.pre i (by simpa using hi)⟩

theorem ops_noreset (s : Stmt) : Op.reset ∉ (ops s).getD [] := by
  have hb : ∀ bs : List Byte, Op.reset ∉ bs.map Op.db := by
    intro bs h
    obtain ⟨b, -, e⟩ := List.mem_map.mp h
    cases e
  have put : ∀ {bs : List Byte} {n : LRef} {abs : Bool}, lab s = some (bs, n, abs) → Op.reset ∉ (ops s).getD [] := by
    intro bs n abs h hr
    rw [lab_ops h] at hr
    rcases List.mem_append.1 (show _ ∈ bs.map Op.db ++ [labOp abs n] from hr) with h | h
    · exact hb _ h
    · cases abs <;> simp [labOp] at h
  cases s with
  | mov d s => obtain ⟨bs, h⟩ := straight_mov d s; rw [straight_ops h]; exact hb bs
  | alu n d s => obtain ⟨bs, h⟩ := straight_alu n d s; rw [straight_ops h]; exact hb bs
  | aluI n d i => obtain ⟨bs, h⟩ := straight_aluI n d i; rw [straight_ops h]; exact hb bs
  | push r => obtain ⟨bs, h⟩ := straight_push r; rw [straight_ops h]; exact hb bs
  | pop r => obtain ⟨bs, h⟩ := straight_pop r; rw [straight_ops h]; exact hb bs
  | ret => obtain ⟨bs, h⟩ := straight_ret; rw [straight_ops h]; exact hb bs
  | test d s => obtain ⟨bs, h⟩ := straight_test d s; rw [straight_ops h]; exact hb bs
  | un op d => obtain ⟨bs, h⟩ := straight_un op d; rw [straight_ops h]; exact hb bs
  | cmov cc d s => obtain ⟨bs, h⟩ := straight_cmov cc d s; rw [straight_ops h]; exact hb bs
  | sh op d i => obtain ⟨bs, h⟩ := straight_sh op d i; rw [straight_ops h]; exact hb bs
  | xchg a b => obtain ⟨bs, _, _, h, -⟩ := straight_xchg a b; rw [straight_ops h]; exact hb bs
  | nop => obtain ⟨bs, h⟩ := straight_nop; rw [straight_ops h]; exact hb bs
  | jmpR r => obtain ⟨bs, h⟩ := straight_jmpR r; rw [straight_ops h]; exact hb bs
  | callR r => obtain ⟨bs, h⟩ := straight_callR r; rw [straight_ops h]; exact hb bs
  | jmpM m => obtain ⟨bs, _, h, -⟩ := straight_jmpM m; rw [straight_ops h]; exact hb bs
  | callM m => obtain ⟨bs, _, h, -⟩ := straight_callM m; rw [straight_ops h]; exact hb bs
  | movL d n => exact put rfl
  | addrOf n => exact put rfl
  | leaL d h => exact put rfl
  | loadL d h => exact put rfl
  | movI d v => obtain ⟨bs, h⟩ := straight_movI d v; rw [straight_ops h]; exact hb bs
  | load d m => obtain ⟨bs, _, h, -⟩ := straight_load d m; rw [straight_ops h]; exact hb bs
  | store m s => obtain ⟨bs, _, h, -⟩ := straight_store m s; rw [straight_ops h]; exact hb bs
  | lea d m => obtain ⟨bs, _, h, -⟩ := straight_lea d m; rw [straight_ops h]; exact hb bs
  | aluL n d m => obtain ⟨bs, _, h, -⟩ := straight_aluL n d m; rw [straight_ops h]; exact hb bs
  | aluS n m s => obtain ⟨bs, _, h, -⟩ := straight_aluS n m s; rw [straight_ops h]; exact hb bs
  | label n | jmp n ty | jcc cc n ty | loop n | jrcxz n | call n | enter | leave | db b =>
    intro h
    simp [ops] at h

theorem Trace.grow {cx : Cx} {env : Env} {p : List Stmt} {g g' : G} {sp : Spec} {γ : Nat → G} {σ : Nat → Spec} (T : Trace cx env p g g' sp γ σ) (k : Nat) :
    ∀ i, i + k = p.length → ∃ n, Grow (σ i) (σ p.length) n := by
  induction k with
  | zero => intro i hi; rw [← hi]; exact ⟨0, .refl _⟩
  | succ k ih =>
    intro i hi
    obtain ⟨n, h⟩ := ih (i + 1) (by omega)
    obtain ⟨m, h'⟩ := steps_grow (T.steps i _ (List.getElem?_eq_getElem (by omega : i < p.length))) (ops_noreset _)
    exact ⟨_, h'.trans h⟩

/-- A `Label` object that has an identity keeps it. -/
theorem Trace.objs {cx : Cx} {env : Env} {p : List Stmt} {g g' : G} {sp : Spec} {γ : Nat → G} {σ : Nat → Spec} (T : Trace cx env p g g' sp γ σ) {x n : Nat} (h0 : n ≠ 0) (k : Nat) :
    ∀ i, i + k = p.length → (σ i).objs x = some n → (σ p.length).objs x = some n := by
  induction k with
  | zero => intro i hi h; rw [← hi]; exact h
  | succ k ih =>
    intro i hi h
    refine ih (i + 1) (by omega) ?_
    rcases stmt_objs _ (T.steps i _ (List.getElem?_eq_getElem (by omega : i < p.length))) with e | ⟨l, e⟩
    · rw [e]; exact h
    · rw [e]; exact touch_objs h h0 l

theorem bytes_in {code : List Byte} {top : Word} {s : Spec} (hi : Implements code top s) (bs : List Byte) : ∀ {pre post : List Cell}, s.cells = pre ++ (bs.map .byte ++ post) →
    code.drop (len pre) = bs ++ code.drop (len pre + bs.length) := by
  induction bs with
  | nil => intro pre post _; rfl
  | cons b bs ih =>
    intro pre post h
    have hb := hi.bytes pre b (bs.map .byte ++ post) (by rw [h]; rfl)
    have := ih (pre := pre ++ [.byte b]) (post := post) (by rw [h]; simp)
    rw [len_append] at this
    have e : len pre + len [Cell.byte b] = len pre + 1 := rfl
    rw [e] at this
    rw [drop_cons hb, this, List.length_cons]
    show b :: (bs ++ code.drop (len pre + 1 + bs.length)) = _
    rw [show len pre + 1 + bs.length = len pre + (bs.length + 1) by omega]
    rfl

theorem len_bytes (bs : List Byte) : len (bs.map .byte) = bs.length := by
  induction bs with
  | nil => rfl
  | cons b bs ih => show 1 + len (bs.map .byte) = _; rw [ih, List.length_cons]; omega

theorem jmpCells_eq (short : Bool) (b lo p : Byte) (t : Tgt) :
    jmpCells short b lo p t = (jstart b lo p short).map .byte ++ [.field ⟨if short then .w1 else .w4, false, t⟩] := by
  unfold jmpCells jstart
  cases short
  · by_cases hp : p = 0
    · subst hp; rfl
    · rw [if_pos hp, if_pos hp]; rfl
  · rfl

/-- A jump in finished code. -/
theorem jump_in {code : List Byte} {top : Word} {s : Spec} (hi : Implements code top s) (short : Bool) (b lo p : Byte) (k : Key) {pre post : List Cell}
    (h : s.cells = pre ++ (jmpCells short b lo p (.label k 0) ++ post)) :
    ∃ rel : List Byte, rel.length = (if short then 1 else 4) ∧
      code.drop (len pre) = (jstart b lo p short ++ rel) ++ code.drop (len pre + (jstart b lo p short ++ rel).length) ∧
      len (jmpCells short b lo p (.label k 0)) = (jstart b lo p short ++ rel).length ∧
      ∀ o, s.defs k = some o → BitVec.ofNat 64 (len pre + (jstart b lo p short ++ rel).length) + sextLE rel = BitVec.ofNat 64 o := by
  rw [jmpCells_eq] at h ⊢
  generalize jstart b lo p short = st at h ⊢
  have hb := bytes_in hi st (pre := pre) (post := .field ⟨if short then .w1 else .w4, false, .label k 0⟩ :: post) (by rw [h]; simp)
  have hf := hi.fields (pre ++ st.map .byte) ⟨if short then .w1 else .w4, false, .label k 0⟩ post (by rw [h]; simp)
  have hl := hi.length
  unfold Spec.size at hl
  rw [h] at hl
  simp only [len_append, len_bytes, len, Cell.len] at hl
  rw [len_append, len_bytes] at hf
  have hw : (if short then Width.w1 else .w4).len = if short then 1 else 4 := by cases short <;> rfl
  rw [hw] at hl
  generalize (if short then 1 else 4) = w at hw hl ⊢
  have hr : (bytesAt code (len pre + st.length) w).length = w := by
    unfold bytesAt
    rw [List.length_take, List.length_drop]
    omega
  refine ⟨bytesAt code (len pre + st.length) w, hr, ?_, ?_, ?_⟩
  · rw [hb, List.append_assoc, List.length_append, hr]
    congr 1
    unfold bytesAt
    rw [← Nat.add_assoc, show code.drop (len pre + st.length + w) = (code.drop (len pre + st.length)).drop w from List.drop_drop.symm, List.take_append_drop]
  · rw [len_append, len_bytes, List.length_append, hr]
    simp only [len, Cell.len, hw]
    omega
  · intro o ho
    have := hf o ho
    dsimp only at this
    rw [if_neg (by decide), hw] at this
    rw [List.length_append, hr, ← Nat.add_assoc, this]
    exact BitVec.add_zero _

/-! ## Execution -/

theorem step_at {s : Cpu} {i : Inst} {bs : List Byte} (hc : CodeAt s.core.mem s.rip bs) (hd : ∀ t, inst (bs ++ t) = some (i, t)) (hl : bs.length ≤ 15) :
    s.step = some (i.exec { s with rip := s.rip + BitVec.ofNat 64 bs.length }) := by
  have hf : s.fetch = bs ++ s.fetch.drop bs.length := by
    have : s.fetch.take bs.length = bs := by
      apply List.ext_getElem
      · unfold Cpu.fetch
        rw [List.length_take, List.length_map, List.length_range]
        omega
      · intro i h1 h2
        rw [List.getElem_take, ← hc i h2]
        unfold Cpu.fetch
        rw [List.getElem_map, List.getElem_range]
    conv => lhs; rw [← List.take_append_drop bs.length s.fetch, this]
  have hn : 15 - (s.fetch.drop bs.length).length = bs.length := by
    rw [List.length_drop]
    unfold Cpu.fetch
    rw [List.length_map, List.length_range]
    omega
  have hi : inst s.fetch = some (i, s.fetch.drop bs.length) := by
    conv => lhs; rw [hf]
    exact hd _
  unfold Cpu.step
  rw [hi]
  dsimp only
  rw [hn]

theorem codeAt_drop {m : Word → Byte} {top : Word} {code bs r : List Byte} {p : Nat} (h : CodeAt m top code) (e : code.drop p = bs ++ r) :
    CodeAt m (top + BitVec.ofNat 64 p) bs := by
  intro i hi
  have hlen : p + i < code.length := by
    have := congrArg List.length e
    rw [List.length_drop, List.length_append] at this
    omega
  rw [BitVec.add_assoc, ← BitVec.ofNat_add, h (p + i) hlen]
  have : (code.drop p)[i]'(by rw [List.length_drop]; omega) = (bs ++ r)[i]'(by rw [List.length_append]; omega) := by simp only [e]
  rw [List.getElem_drop, List.getElem_append_left hi] at this
  exact this

section
variable {cx : Cx} {env : Env} {p : List Stmt} {g g3 g4 : G} {sp : Spec} {γ : Nat → G} {σ : Nat → Spec}

theorem Trace.size (T : Trace cx env p g g3 sp γ σ) {i : Nat} (hi : i ≤ p.length) : (γ i).ca.size = len (σ i).cells := (T.st i hi).inv.buf.size

theorem touch_cells (s : Spec) (l : LRef) : (s.touch l).cells = s.cells := by
  unfold Spec.touch
  cases l with
  | str _ => rfl
  | obj h => dsimp only; split <;> rfl

theorem lt_of_get {i : Nat} {s : Stmt} (h : p[i]? = some s) : i < p.length := (List.getElem?_eq_some_iff.1 h).1

/-- A `Label` object means at the end what it meant when it was used. -/
theorem Trace.key (T : Trace cx env p g g3 sp γ σ) {i : Nat} (hi : i < p.length) {x : Nat} {k : Key} (hk : ((σ i).touch (.obj x)).keyRef (.obj x) = some k)
    (ho : (σ (i + 1)).objs = ((σ i).touch (.obj x)).objs) : (σ p.length).keyRef (.obj x) = some k := by
  obtain ⟨m, hm, rfl⟩ := Option.map_eq_some_iff.1 (show (((σ i).touch (.obj x)).objs x).map Key.obj = some k from hk)
  have h0 : m ≠ 0 := by
    rintro rfl
    unfold Spec.touch at hm
    dsimp only at hm
    split at hm
    · rename_i h
      have e : upd (σ i).objs x (some (σ i).nextId) x = some 0 := hm
      rw [upd_same] at e
      have := (T.st i (Nat.le_of_lt hi)).inv.tab.idPos
      have e' := Option.some.inj e
      omega
    · rename_i h
      exact h hm
  show ((σ p.length).objs x).map Key.obj = _
  rw [T.objs h0 (p.length - (i + 1)) (i + 1) (by omega) (by rw [ho]; exact hm)]
  rfl

theorem touch_scopes (s : Spec) (l : LRef) : (s.touch l).scopes = s.scopes ∧ (s.touch l).anons = s.anons ∧ (s.touch l).nextScope = s.nextScope := by
  unfold Spec.touch
  cases l with
  | str _ => exact ⟨rfl, rfl, rfl⟩
  | obj h => dsimp only; split <;> exact ⟨rfl, rfl, rfl⟩

def ScopesOf (a b : Spec) : Stmt → Prop
  | .enter => b.scopes = a.nextScope :: a.scopes
  | .leave => ∃ σ σ' rest, a.scopes = σ :: σ' :: rest ∧ b.scopes = σ' :: rest
  | _ => b.scopes = a.scopes

/-- What a statement does to the scopes and to the number of anonymous labels. -/
theorem stmt_scopes {cx : Cx} (s : Stmt) {a b : Spec} (h : Steps cx ((ops s).getD []) a b) :
    b.anons = a.anons + (if s = .label (.str "@@") then 1 else 0) ∧ ScopesOf a b s := by
  have str : ∀ {i : Inst} {bs : List Byte}, Straight s i bs → b.anons = a.anons ∧ b.scopes = a.scopes := by
    intro i bs hs
    rw [straight_ops hs] at h
    rw [steps_bytes h]
    exact ⟨rfl, rfl⟩
  have put : ∀ {bs : List Byte} {n : LRef} {abs : Bool}, lab s = some (bs, n, abs) → b.anons = a.anons ∧ b.scopes = a.scopes := by
    intro bs n abs hs
    obtain ⟨k, -, h1⟩ := lab_steps hs h
    exact ⟨by rw [h1]; exact (touch_scopes a n).2.1, by rw [h1]; exact (touch_scopes a n).1⟩
  cases s with
  | mov d s => exact (straight_mov d s).elim fun _ h => str h
  | alu n d s => exact (straight_alu n d s).elim fun _ h => str h
  | aluI n d i => exact (straight_aluI n d i).elim fun _ h => str h
  | push r => exact (straight_push r).elim fun _ h => str h
  | pop r => exact (straight_pop r).elim fun _ h => str h
  | ret => exact straight_ret.elim fun _ h => str h
  | test d s => exact (straight_test d s).elim fun _ h => str h
  | un op d => exact (straight_un op d).elim fun _ h => str h
  | cmov cc d s => exact (straight_cmov cc d s).elim fun _ h => str h
  | sh op d i => exact (straight_sh op d i).elim fun _ h => str h
  | xchg a b => obtain ⟨_, _, _, h, -⟩ := straight_xchg a b; exact str h
  | nop => exact straight_nop.elim fun _ h => str h
  | jmpR r => exact (straight_jmpR r).elim fun _ h => str h
  | callR r => exact (straight_callR r).elim fun _ h => str h
  | jmpM m => exact (straight_jmpM m).elim fun _ h => h.elim fun _ h => str h.1
  | callM m => exact (straight_callM m).elim fun _ h => h.elim fun _ h => str h.1
  | movI d v => exact (straight_movI d v).elim fun _ h => str h
  | load d m => exact (straight_load d m).elim fun _ h => h.elim fun _ h => str h.1
  | store m s => exact (straight_store m s).elim fun _ h => h.elim fun _ h => str h.1
  | lea d m => exact (straight_lea d m).elim fun _ h => h.elim fun _ h => str h.1
  | aluL n d m => exact (straight_aluL n d m).elim fun _ h => h.elim fun _ h => str h.1
  | aluS n m s => exact (straight_aluS n m s).elim fun _ h => h.elim fun _ h => str h.1
  | label n =>
    obtain ⟨s1, ⟨k, hk, -, h1⟩, h2⟩ := h
    cases h2
    refine ⟨?_, ?_⟩
    · rw [h1]
      dsimp only
      by_cases hn : n = .str "@@"
      · subst hn; rfl
      · rw [if_neg hn, if_neg (fun e => hn (by cases e; rfl))]; rfl
    · show b.scopes = a.scopes
      rw [h1]; exact (touch_scopes a n).1
  | movL d n => exact put rfl
  | addrOf n => exact put rfl
  | leaL d h => exact put rfl
  | loadL d h => exact put rfl
  | db x =>
    obtain ⟨s1, h1, h2⟩ := h
    cases h2
    have h1 : b = a.emit [.byte x] := h1
    subst h1
    exact ⟨rfl, rfl⟩
  | jmp n ty | jcc cc n ty | loop n | jrcxz n | call n =>
    obtain ⟨s1, ⟨k, hk, h1⟩, h2⟩ := h
    cases h2
    exact ⟨by rw [h1]; exact (touch_scopes a n).2.1, by show b.scopes = a.scopes; rw [h1]; exact (touch_scopes a n).1⟩
  | enter =>
    obtain ⟨s1, h1, h2⟩ := h
    cases h2
    exact ⟨by rw [h1]; rfl, by show b.scopes = _; rw [h1]⟩
  | leave =>
    obtain ⟨s1, ⟨x, y, r, e, -, h1⟩, h2⟩ := h
    cases h2
    exact ⟨by rw [h1]; rfl, x, y, r, e, by rw [h1]⟩

/-- The scope of the assembler that a scope of the program is. -/
def scopeNo (σ : Nat → Spec) : Nat → Nat
  | 0 => (σ 0).scopes.headD 0
  | k + 1 => (σ k).nextScope

theorem Trace.scopes (T : Trace cx env p g g3 sp γ σ) : ∀ i, i ≤ p.length → ∃ rest, (σ i).scopes = (scopesAt p i).map (scopeNo σ) ++ rest := by
  intro i
  induction i with
  | zero =>
    intro hi
    have hl := (T.st 0 hi).safe.loc
    have hn := (T.st 0 hi).inv.tab.locLen
    cases hs : (σ 0).scopes with
    | nil =>
      rw [hs] at hn
      exact absurd (List.length_eq_zero_iff.1 hn.symm) hl
    | cons x r => exact ⟨r, by show _ = scopeNo σ 0 :: r; unfold scopeNo; rw [hs]; rfl⟩
  | succ i ih =>
    intro hi
    obtain ⟨r, hr⟩ := ih (by omega)
    have hs : p[i]? = some p[i] := List.getElem?_eq_getElem hi
    have := (stmt_scopes _ (T.steps i _ hs)).2
    unfold scopesAt
    rw [hs]
    generalize p[i] = s at this
    cases s with
    | enter => exact ⟨r, by rw [show (σ (i + 1)).scopes = _ from this, hr]; rfl⟩
    | leave =>
      obtain ⟨x, y, t, e, e'⟩ := this
      rw [e'] 
      rw [hr] at e
      dsimp only
      cases h : scopesAt p i with
      | nil => exact ⟨y :: t, rfl⟩
      | cons z w =>
        rw [h] at e
        exact ⟨r, (List.cons.inj e).2.symm⟩
    | _ => exact ⟨r, by rw [show (σ (i + 1)).scopes = _ from this, hr]⟩

theorem Trace.scope (T : Trace cx env p g g3 sp γ σ) {i s : Nat} (hi : i ≤ p.length) (h : (scopesAt p i).head? = some s) : (σ i).scopes.head? = some (scopeNo σ s) := by
  obtain ⟨r, hr⟩ := T.scopes i hi
  rw [hr]
  cases hs : scopesAt p i with
  | nil => rw [hs] at h; cases h
  | cons x t => rw [hs] at h; cases h; rfl

/-- No anonymous label between two statements. -/
theorem Trace.anons (T : Trace cx env p g g3 sp γ σ) (d : Nat) : ∀ i, i + d ≤ p.length → (∀ j, i ≤ j → j < i + d → p[j]? ≠ some (.label (.str "@@"))) →
    (σ (i + d)).anons = (σ i).anons := by
  induction d with
  | zero => intro i _ _; rfl
  | succ d ih =>
    intro i hi h
    have hs : p[i + d]? = some p[i + d] := List.getElem?_eq_getElem (by omega)
    have e := (stmt_scopes _ (T.steps (i + d) _ hs)).1
    rw [if_neg (fun e => h (i + d) (by omega) (by omega) (by rw [hs, e]))] at e
    rw [show i + (d + 1) = i + d + 1 by omega, e, Nat.add_zero]
    exact ih i (by omega) fun j h1 h2 => h j h1 (by omega)

theorem anonBefore_spec (p : List Stmt) : ∀ i j, anonBefore p i = some j → j < i ∧ p[j]? = some (.label (.str "@@")) ∧
    ∀ k, j < k → k < i → p[k]? ≠ some (.label (.str "@@")) := by
  intro i
  induction i with
  | zero => intro j h; cases h
  | succ i ih =>
    intro j h
    unfold anonBefore at h
    split at h
    · rename_i e
      cases h
      exact ⟨by omega, e, fun k h1 h2 => by omega⟩
    · rename_i e
      obtain ⟨h1, h2, h3⟩ := ih j h
      refine ⟨by omega, h2, fun k k1 k2 => ?_⟩
      by_cases hk : k = i
      · rw [hk]; exact e
      · exact h3 k k1 (by omega)

/-- The finished code around the program. -/
def Inside (σ : Nat → Spec) (p : List Stmt) (g4 : G) : Prop := ∃ s m, Grow (σ p.length) s m ∧ Implements g4.ca.code g4.ca.top s

/-- The cells of a statement in the finished program. -/
theorem Trace.cells (T : Trace cx env p g g3 sp γ σ) {i : Nat} {s : Stmt} (h : p[i]? = some s) {cs : List Cell} (e : (σ (i + 1)).cells = (σ i).cells ++ cs) :
    ∃ post, (σ p.length).cells = (σ i).cells ++ (cs ++ post) := by
  obtain ⟨n, hg⟩ := T.grow (p.length - (i + 1)) (i + 1) (by have := lt_of_get h; omega)
  obtain ⟨post, hp⟩ := hg.cells
  exact ⟨post, by rw [hp, e, List.append_assoc]⟩

/-- A label statement defines what it names at the place where it stands. -/
theorem Trace.defined (T : Trace cx env p g g3 sp γ σ) {n : LRef} {j : Nat} (hs : p[j]? = some (.label n)) :
    ∃ k, ((σ j).touch n).keyDef n = some k ∧ (σ p.length).defs k = some (γ j).ca.size ∧ (σ (j + 1)).objs = ((σ j).touch n).objs := by
  have hlt := lt_of_get hs
  obtain ⟨s1, ⟨k, hk, -, h1⟩, h2⟩ := T.steps j _ hs
  cases h2
  refine ⟨k, hk, ?_, by rw [h1]; rfl⟩
  obtain ⟨m, hg⟩ := T.grow (p.length - (j + 1)) (j + 1) (by omega)
  apply hg.defs
  rw [h1, T.size (Nat.le_of_lt hlt)]
  show upd _ _ _ _ = _
  exact upd_same _ _ _

theorem idx_label {n : LRef} {j : Nat} (h : (p.findIdx? fun s => s == .label n) = some j) : p[j]? = some (.label n) := by
  obtain ⟨hlt, hj, -⟩ := List.findIdx?_eq_some_iff_getElem.1 h
  rw [List.getElem?_eq_getElem hlt, eq_of_beq hj]

/-- The label used in a statement is defined where the program as written says. -/
theorem Trace.place (T : Trace cx env p g g3 sp γ σ) {i : Nat} (hi : i < p.length) {n : LRef} {k : Key} (hk : ((σ i).touch n).keyRef n = some k)
    (ho : (σ (i + 1)).objs = ((σ i).touch n).objs) {j : Nat} (hj : place p i n = some j) : j ≤ p.length ∧ (σ p.length).defs k = some (γ j).ca.size := by
  have fin : ∀ {m : LRef}, p[j]? = some (.label m) → (∀ k', ((σ j).touch m).keyDef m = some k' → (σ (j + 1)).objs = ((σ j).touch m).objs → k' = k) →
      j ≤ p.length ∧ (σ p.length).defs k = some (γ j).ca.size := by
    intro m hm hk'
    obtain ⟨k', h1, h2, h3⟩ := T.defined hm
    cases hk' k' h1 h3
    exact ⟨Nat.le_of_lt (lt_of_get hm), h2⟩
  cases n with
  | obj x =>
    have hm := idx_label (show (p.findIdx? fun s => s == .label (.obj x)) = some j from hj)
    refine fin hm fun k' h1 h3 => ?_
    have e1 := T.key hi hk ho
    have e2 := T.key (lt_of_get hm) (show _ from h1) h3
    rw [e1] at e2
    exact (Option.some.inj e2).symm
  | str n =>
    have hk : (σ i).keyRef (.str n) = some k := hk
    unfold X86.place at hj
    unfold Spec.keyRef at hk
    dsimp only at hj hk
    by_cases h0 : n = "@@"
    · rw [if_pos h0] at hj; cases hj
    rw [if_neg h0] at hj
    by_cases h1 : n = "@b"
    · rw [if_pos h1] at hj hk
      obtain ⟨a1, a2, a3⟩ := anonBefore_spec p i j hj
      refine fin a2 fun k' hk' _ => ?_
      have hk' : some (Key.anon (σ j).anons) = some k' := hk'
      have e1 := (stmt_scopes _ (T.steps j _ a2)).1
      rw [if_pos rfl] at e1
      have e2 := T.anons (i - (j + 1)) (j + 1) (by omega) fun q q1 q2 => a3 q (by omega) (by omega)
      rw [show j + 1 + (i - (j + 1)) = i by omega, e1] at e2
      rw [e2, if_neg (by omega), Nat.add_sub_cancel, hk'] at hk
      exact Option.some.inj hk
    rw [if_neg h1] at hj hk
    by_cases h2 : n = "@f"
    · rw [if_pos h2] at hj hk
      rw [List.find?_range_eq_some] at hj
      obtain ⟨b1, -, b3⟩ := hj
      rw [Bool.and_eq_true, decide_eq_true_iff, beq_iff_eq] at b1
      refine fin b1.2 fun k' hk' _ => ?_
      have hk' : some (Key.anon (σ j).anons) = some k' := hk'
      have e2 := T.anons (j - i) i (by have := lt_of_get b1.2; omega) fun q q1 q2 e => by
        have := b3 q (by omega)
        rw [e, decide_eq_true q1] at this
        exact absurd this (by simp)
      rw [show i + (j - i) = j by omega] at e2
      rw [e2, hk] at hk'
      exact (Option.some.inj hk').symm
    rw [if_neg h2] at hj hk
    by_cases h3 : n.toList.head? = some '.'
    · have hd : isDot n = true := by unfold isDot; rw [h3]; rfl
      rw [if_pos h3] at hj
      rw [if_pos hd] at hk
      split at hj
      · cases hj
      · rename_i s hs
        rw [List.find?_range_eq_some] at hj
        obtain ⟨b1, -, b3⟩ := hj
        rw [Bool.and_eq_true, beq_iff_eq, beq_iff_eq] at b1
        refine fin b1.1 fun k' hk' _ => ?_
        have hk' : (σ j).keyDef (.str n) = some k' := hk'
        unfold Spec.keyDef at hk'
        dsimp only at hk'
        rw [if_neg (fun h => h.elim h1 h2), if_neg h0, if_pos hd, T.scope (Nat.le_of_lt (lt_of_get b1.1)) b1.2] at hk'
        rw [T.scope (Nat.le_of_lt hi) hs] at hk
        rw [hk] at hk'
        exact (Option.some.inj hk').symm
    · have hd : ¬ isDot n = true := by unfold isDot; rw [beq_iff_eq]; exact h3
      rw [if_neg h3] at hj
      rw [if_neg hd] at hk
      refine fin (idx_label hj) fun k' hk' _ => ?_
      have hk' : (σ j).keyDef (.str n) = some k' := hk'
      unfold Spec.keyDef at hk'
      dsimp only at hk'
      rw [if_neg (fun h => h.elim h1 h2), if_neg h0, if_neg hd, hk] at hk'
      exact (Option.some.inj hk').symm

/-- A straight instruction in the finished code. -/
theorem Trace.straight (T : Trace cx env p g g3 sp γ σ) (hF : Inside σ p g4) {i : Nat} {s : Stmt} (h : p[i]? = some s) {x : Inst} {bs : List Byte} (hs : Straight s x bs) :
    g4.ca.code.drop (γ i).ca.size = bs ++ g4.ca.code.drop ((γ i).ca.size + bs.length) ∧ (γ (i + 1)).ca.size = (γ i).ca.size + bs.length := by
  have hlt := lt_of_get h
  have st := T.steps i s h
  rw [straight_ops hs] at st
  have e := steps_bytes st
  have e' : (σ (i + 1)).cells = (σ i).cells ++ bs.map .byte := by rw [e]; rfl
  obtain ⟨post, hp⟩ := T.cells h e'
  obtain ⟨sF, m, hG, hi⟩ := hF
  obtain ⟨post', hp'⟩ := hG.cells
  rw [hp, List.append_assoc, List.append_assoc] at hp'
  rw [T.size (Nat.le_of_lt hlt), T.size hlt, e', len_append, len_bytes]
  exact ⟨bytes_in hi bs hp', rfl⟩

/-- A jump in the finished code. -/
theorem Trace.jump (T : Trace cx env p g g3 sp γ σ) (he : env.Sane) (hF : Inside σ p g4) {i : Nat} {s : Stmt} (h : p[i]? = some s) {b lo q : Byte} {ty : LabelType} {n : LRef}
    (hs : jops s = some (b, lo, q, ty, n)) :
    ∃ (bs : List Byte) (v : Word), (∀ t, inst (bs ++ t) = some (jinst v s, t)) ∧ bs.length ≤ 15 ∧
      g4.ca.code.drop (γ i).ca.size = bs ++ g4.ca.code.drop ((γ i).ca.size + bs.length) ∧ (γ (i + 1)).ca.size = (γ i).ca.size + bs.length ∧
      ∀ j, X86.place p i n = some j → j ≤ p.length ∧ BitVec.ofNat 64 ((γ i).ca.size + bs.length) + v = BitVec.ofNat 64 (γ j).ca.size := by
  have hlt := lt_of_get h
  have ho : (ops s).getD [] = [.jmp n ty b lo q] := by
    cases s <;> first | cases hs; done | (cases hs; rfl)
  have st := T.steps i s h
  have dn := T.done i s h
  rw [ho] at st dn
  obtain ⟨s1, ⟨k, hk, h1⟩, h2⟩ := st
  cases h2
  obtain ⟨g1, d1, d2⟩ := dn
  have hform := jmp_form he (T.st i (Nat.le_of_lt hlt)) d1 hk
  have e' : (σ (i + 1)).cells = (σ i).cells ++ jmpCells ((σ i).shortForm k ty) b lo q (.label k 0) := by
    rw [h1]
    show ((σ i).touch n).cells ++ _ = _
    rw [touch_cells]
  obtain ⟨post, hp⟩ := T.cells h e'
  obtain ⟨sF, m, hG, hi⟩ := hF
  obtain ⟨post', hp'⟩ := hG.cells
  rw [hp, List.append_assoc, List.append_assoc] at hp'
  obtain ⟨rel, r1, r2, r3, r4⟩ := jump_in hi _ b lo q k hp'
  refine ⟨_, sextLE rel, fun t => jump_dec hs hform.2 hform.1 r1 t, ?_, ?_, ?_, ?_⟩
  · rw [List.length_append, r1]
    have : (jstart b lo q ((σ i).shortForm k ty)).length ≤ 2 := by
      unfold jstart
      split
      · exact (by decide : 1 ≤ 2)
      · split
        · exact (by decide : 2 ≤ 2)
        · exact (by decide : 1 ≤ 2)
    split <;> omega
  · rw [T.size (Nat.le_of_lt hlt)]; exact r2
  · rw [T.size hlt, T.size (Nat.le_of_lt hlt), e', len_append, r3]
  · intro j hj
    rw [T.size (Nat.le_of_lt hlt)]
    obtain ⟨e1, e2⟩ := T.place hlt hk (by rw [h1]; rfl) hj
    exact ⟨e1, r4 _ (hG.defs _ _ e2)⟩

/-- A field for the address of a label in the finished code. -/
theorem Trace.lab (T : Trace cx env p g g3 sp γ σ) (hF : Inside σ p g4) {i : Nat} {s : Stmt} (h : p[i]? = some s) {bs : List Byte} {n : LRef} {abs : Bool}
    (hs : lab s = some (bs, n, abs)) :
    ∃ x : List Byte, x.length = (labW abs).len ∧
      g4.ca.code.drop (γ i).ca.size = (bs ++ x) ++ g4.ca.code.drop ((γ i).ca.size + (bs ++ x).length) ∧ (γ (i + 1)).ca.size = (γ i).ca.size + (bs ++ x).length ∧
      ∀ j, X86.place p i n = some j → j ≤ p.length ∧ if abs then BitVec.ofNat 64 (fromLE x) = g4.ca.top + BitVec.ofNat 64 (γ j).ca.size
        else BitVec.ofNat 64 ((γ i).ca.size + (bs ++ x).length) + sextLE x = BitVec.ofNat 64 (γ j).ca.size := by
  have hlt := lt_of_get h
  obtain ⟨k, hk, h1⟩ := lab_steps hs (T.steps i _ h)
  have e' : (σ (i + 1)).cells = (σ i).cells ++ (bs.map .byte ++ [.field ⟨labW abs, abs, .label k 0⟩]) := by
    rw [h1]
    show ((σ i).touch n).cells ++ _ = _
    rw [touch_cells]
  obtain ⟨post, hp⟩ := T.cells h e'
  obtain ⟨sF, m, hG, hi⟩ := hF
  obtain ⟨post', hp'⟩ := hG.cells
  have hc : sF.cells = (σ i).cells ++ (bs.map .byte ++ (.field ⟨labW abs, abs, .label k 0⟩ :: (post ++ post'))) := by rw [hp', hp]; simp
  have hb := bytes_in hi bs hc
  have hf := hi.fields ((σ i).cells ++ bs.map .byte) ⟨labW abs, abs, .label k 0⟩ (post ++ post') (by rw [hc]; simp)
  have hl := hi.length
  unfold Spec.size at hl
  rw [hc] at hl
  simp only [len_append, len_bytes, len, Cell.len] at hl
  rw [len_append, len_bytes] at hf
  have hr : (bytesAt g4.ca.code (len (σ i).cells + bs.length) (labW abs).len).length = (labW abs).len := by
    unfold bytesAt
    rw [List.length_take, List.length_drop]
    omega
  refine ⟨bytesAt g4.ca.code (len (σ i).cells + bs.length) (labW abs).len, hr, ?_, ?_, ?_⟩
  · rw [T.size (Nat.le_of_lt hlt), hb, List.append_assoc, List.length_append, hr]
    congr 1
    unfold bytesAt
    rw [← Nat.add_assoc, show g4.ca.code.drop (len (σ i).cells + bs.length + (labW abs).len) = (g4.ca.code.drop (len (σ i).cells + bs.length)).drop (labW abs).len from
      List.drop_drop.symm, List.take_append_drop]
  · rw [T.size hlt, T.size (Nat.le_of_lt hlt), e', len_append, len_append, len_bytes, List.length_append, hr]
    simp only [len, Cell.len]
    omega
  · intro j hj
    obtain ⟨e1, e2⟩ := T.place hlt hk (by rw [h1]; rfl) hj
    refine ⟨e1, ?_⟩
    have := hf _ (hG.defs _ _ e2)
    dsimp only at this
    cases abs with
    | true => exact this
    | false =>
      rw [if_neg (by decide)] at this ⊢
      rw [T.size (Nat.le_of_lt hlt), List.length_append, hr, ← Nat.add_assoc, this]
      exact BitVec.add_zero _

end

/-- The generator after the first `i` statements of a program that begins at `g1`. -/
def At (env : Env) (g1 : G) (p : List Stmt) (i : Nat) (g : G) : Prop := Done env (calls (p.take i)) g1 g

/-- Where the program is in the finished code. -/
structure Laid (env : Env) (g1 g4 : G) (p : List Stmt) (L : Layout) : Prop where
  addr : ∀ i g, i ≤ p.length → At env g1 p i g → L.addr i = g4.ca.top + BitVec.ofNat 64 g.ca.size
  code : ∀ a, L.code a ↔ ∃ k, k < g4.ca.code.length ∧ a = g4.ca.top + BitVec.ofNat 64 k

/-- The return and the indirect jumps. -/
theorem dest_step {s : Stmt} {u : Cpu} {next a : Word} {c : Core} (str : ∀ {z : Inst} {bs : List Byte}, Straight s z bs → u.step = some (z.exec { u with rip := next }))
    (hs : s.dest next u.core = some (a, c)) : ∃ v, u.step = some v ∧ v.core = c ∧ v.rip = a := by
  cases s with
  | ret =>
    obtain ⟨bs, hz⟩ := straight_ret
    obtain ⟨h2, h3⟩ := Prod.mk.inj (Option.some.inj hs)
    exact ⟨_, str hz, h3, h2⟩
  | jmpR r =>
    obtain ⟨bs, hz⟩ := straight_jmpR r
    obtain ⟨h2, h3⟩ := Prod.mk.inj (Option.some.inj hs)
    exact ⟨_, str hz, h3, h2⟩
  | callR r =>
    obtain ⟨bs, hz⟩ := straight_callR r
    obtain ⟨h2, h3⟩ := Prod.mk.inj (Option.some.inj hs)
    exact ⟨_, str hz, h3, h2⟩
  | jmpM m =>
    obtain ⟨bs, mm, hz, hea⟩ := straight_jmpM m
    unfold Stmt.dest at hs
    simp only [Option.some.injEq, Prod.mk.injEq] at hs
    have e := str hz
    unfold Inst.exec at e
    dsimp only at e
    rw [hea] at e
    exact ⟨_, e, hs.2, hs.1⟩
  | callM m =>
    obtain ⟨bs, mm, hz, hea⟩ := straight_callM m
    unfold Stmt.dest at hs
    simp only [Option.some.injEq, Prod.mk.injEq] at hs
    have e := str hz
    unfold Inst.exec at e
    dsimp only at e
    rw [hea] at e
    exact ⟨_, e, hs.2, hs.1⟩
  | _ => cases hs

theorem rip_ea (u : Cpu) (v : Word) : u.ea { base := none, index := none, scale := 1, disp := v, rip := true } = u.rip + v := by
  show (0#64 + 0#64 + v + u.rip : Word) = _
  rw [BitVec.add_zero, BitVec.zero_add, BitVec.add_comm]

theorem one_step (env : Env) (he : env.Sane) {cx : Cx} (p : List Stmt) {g1 g3 g4 : G} {sp : Spec} {γ : Nat → G} {σ : Nat → Spec}
    (T : Trace cx env p g1 g3 sp γ σ) (h4 : Inside σ p g4) {L : Layout} (hL : Laid env g1 g4 p L) {x y : Nat × Core} (hs : SrcStep p L x y) {u : Cpu} (hx : u.core = x.2)
    (hr : u.rip = L.addr x.1) (hm : CodeAt u.core.mem g4.ca.top g4.ca.code) :
    ∃ v, (u.step = some v ∨ v = u ∧ y.1 = x.1 + 1) ∧ v.core = y.2 ∧ v.rip = L.addr y.1 ∧ y.1 ≤ p.length := by
  have at_ : ∀ i, i ≤ p.length → L.addr i = g4.ca.top + BitVec.ofNat 64 (γ i).ca.size := fun i hi => hL.addr i _ hi (T.pre i hi)
  obtain ⟨i, c0⟩ := x
  dsimp only at hx hr
  obtain ⟨⟨s, h, hs⟩, -⟩ := hs
  dsimp only at h hs
  have hlt := lt_of_get h
  rw [at_ i (Nat.le_of_lt hlt)] at hr
  have fall : ∀ c, some (i + 1, c) = some y → y.1 ≤ p.length := fun c e => by cases e; exact hlt
  -- an instruction without label
  have str : ∀ {z : Inst} {bs : List Byte}, Straight s z bs → u.step = some (z.exec { u with rip := L.addr (i + 1) }) := by
    intro z bs hz
    obtain ⟨e1, e2⟩ := T.straight h4 h hz
    have := step_at (s := u) (by rw [hr]; exact codeAt_drop hm e1) hz.dec hz.len
    rw [hr, BitVec.add_assoc, ← BitVec.ofNat_add, ← e2, ← at_ (i + 1) hlt] at this
    exact this
  -- a jump
  have jmp : ∀ {b lo q : Byte} {ty : LabelType} {n : LRef}, jops s = some (b, lo, q, ty, n) →
      ∃ v, u.step = some ((jinst v s).exec { u with rip := L.addr (i + 1) }) ∧ ∀ j, X86.place p i n = some j → L.addr (i + 1) + v = L.addr j ∧ j ≤ p.length := by
    intro b lo q ty n hj
    obtain ⟨bs, v, d1, d2, d3, d4, d5⟩ := T.jump he h4 h hj
    have := step_at (s := u) (by rw [hr]; exact codeAt_drop hm d3) d1 d2
    rw [hr, BitVec.add_assoc, ← BitVec.ofNat_add, ← d4, ← at_ (i + 1) hlt] at this
    refine ⟨v, this, fun j hp => ⟨?_, (d5 j hp).1⟩⟩
    rw [at_ (i + 1) hlt, at_ j (d5 j hp).1, BitVec.add_assoc, d4, (d5 j hp).2]
  -- the return and the indirect jumps
  rcases hs with hs | ⟨hs, hy⟩
  case inr =>
    subst hx
    obtain ⟨v, v1, v2, v3⟩ := dest_step str hs
    exact ⟨v, .inl v1, v2, v3, hy⟩
  cases s with
  | label n =>
    cases hs
    refine ⟨u, .inr ⟨rfl, rfl⟩, hx, ?_, hlt⟩
    obtain ⟨s1, ⟨k, hk, -, h1⟩, h2⟩ := T.steps i _ h
    cases h2
    have : (σ (i + 1)).cells = (σ i).cells := by rw [h1]; exact touch_cells _ _
    rw [hr]; show _ = L.addr (i + 1); rw [at_ _ hlt, T.size (Nat.le_of_lt hlt), T.size hlt, this]
  | enter =>
    cases hs
    refine ⟨u, .inr ⟨rfl, rfl⟩, hx, ?_, hlt⟩
    obtain ⟨s1, h1, h2⟩ := T.steps i _ h
    cases h2
    have : (σ (i + 1)).cells = (σ i).cells := by rw [h1]
    rw [hr]; show _ = L.addr (i + 1); rw [at_ _ hlt, T.size (Nat.le_of_lt hlt), T.size hlt, this]
  | leave =>
    cases hs
    refine ⟨u, .inr ⟨rfl, rfl⟩, hx, ?_, hlt⟩
    obtain ⟨s1, ⟨_, _, _, _, _, h1⟩, h2⟩ := T.steps i _ h
    cases h2
    have : (σ (i + 1)).cells = (σ i).cells := by rw [h1]
    rw [hr]; show _ = L.addr (i + 1); rw [at_ _ hlt, T.size (Nat.le_of_lt hlt), T.size hlt, this]
  | mov d s =>
    obtain ⟨bs, hz⟩ := straight_mov d s
    cases hs
    refine ⟨_, .inl (str hz), ?_, rfl, hlt⟩
    rw [← hx]; rfl
  | alu n d s =>
    obtain ⟨bs, hz⟩ := straight_alu n d s
    cases hs
    refine ⟨_, .inl (str hz), ?_, rfl, hlt⟩
    rw [← hx]; rfl
  | aluI n d k =>
    obtain ⟨bs, hz⟩ := straight_aluI n d k
    cases hs
    refine ⟨_, .inl (str hz), ?_, rfl, hlt⟩
    rw [← hx]; rfl
  | push r =>
    obtain ⟨bs, hz⟩ := straight_push r
    cases hs
    refine ⟨_, .inl (str hz), ?_, rfl, hlt⟩
    rw [← hx]; rfl
  | pop r =>
    obtain ⟨bs, hz⟩ := straight_pop r
    cases hs
    refine ⟨_, .inl (str hz), ?_, rfl, hlt⟩
    rw [← hx]; rfl
  | ret => cases hs
  | test d s =>
    obtain ⟨bs, hz⟩ := straight_test d s
    cases hs
    refine ⟨_, .inl (str hz), ?_, rfl, hlt⟩
    rw [← hx]; rfl
  | un op d =>
    obtain ⟨bs, hz⟩ := straight_un op d
    cases hs
    refine ⟨_, .inl (str hz), ?_, rfl, hlt⟩
    rw [← hx]; rfl
  | cmov cc d s =>
    obtain ⟨bs, hz⟩ := straight_cmov cc d s
    cases hs
    refine ⟨_, .inl (str hz), ?_, rfl, hlt⟩
    rw [← hx]; rfl
  | sh op d i =>
    obtain ⟨bs, hz⟩ := straight_sh op d i
    cases hs
    refine ⟨_, .inl (str hz), ?_, rfl, hlt⟩
    rw [← hx]; rfl
  | xchg a b =>
    obtain ⟨bs, x, y, hz, he⟩ := straight_xchg a b
    cases hs
    refine ⟨_, .inl (str hz), ?_, rfl, hlt⟩
    rw [← hx]
    rcases he with ⟨rfl, rfl⟩ | ⟨rfl, rfl⟩
    · rfl
    · exact xchg_comm _ _ _
  | nop =>
    obtain ⟨bs, hz⟩ := straight_nop
    cases hs
    refine ⟨_, .inl (str hz), ?_, rfl, hlt⟩
    rw [← hx]; rfl
  | jmpR r => cases hs
  | callR r => cases hs
  | jmpM m => cases hs
  | callM m => cases hs
  | addrOf n => cases hs
  | db b => cases hs
  | movL d n =>
    obtain ⟨x, d1, d2, d3, d4⟩ := T.lab h4 h rfl
    obtain ⟨j, hp, rfl⟩ := Option.map_eq_some_iff.1 (show (X86.place p i n).map _ = some y from hs)
    have e := step_at (s := u) (by rw [hr]; exact codeAt_drop hm d2) (fun t => inst_movC d x t d1) (by rw [List.length_append, d1]; exact (by decide : 2 + 8 ≤ 15))
    rw [hr, BitVec.add_assoc, ← BitVec.ofNat_add, ← d3, ← at_ (i + 1) hlt] at e
    refine ⟨_, .inl e, ?_, rfl, hlt⟩
    have d5 := (d4 j hp).2
    rw [if_pos rfl] at d5
    rw [← hx, at_ j (d4 j hp).1, ← d5]
    rfl
  | leaL d q =>
    obtain ⟨x, d1, d2, d3, d4⟩ := T.lab h4 h rfl
    obtain ⟨j, hp, rfl⟩ := Option.map_eq_some_iff.1 (show (X86.place p i (.obj q)).map _ = some y from hs)
    have e := step_at (s := u) (by rw [hr]; exact codeAt_drop hm d2) (fun t => inst_rip 0x8D d x t d1 (.inl ⟨rfl, rfl⟩))
      (by rw [List.length_append, d1]; exact (by decide : 3 + 4 ≤ 15))
    rw [hr, BitVec.add_assoc, ← BitVec.ofNat_add, ← d3, ← at_ (i + 1) hlt] at e
    refine ⟨_, .inl e, ?_, rfl, hlt⟩
    have d5 := (d4 j hp).2
    rw [if_neg (by decide), ← d3] at d5
    unfold Inst.exec
    dsimp only
    rw [← hx, rip_ea, at_ (i + 1) hlt, BitVec.add_assoc, d5, at_ j (d4 j hp).1]
  | loadL d q =>
    obtain ⟨x, d1, d2, d3, d4⟩ := T.lab h4 h rfl
    obtain ⟨j, hp, rfl⟩ := Option.map_eq_some_iff.1 (show (X86.place p i (.obj q)).map _ = some y from hs)
    have e := step_at (s := u) (by rw [hr]; exact codeAt_drop hm d2) (fun t => inst_rip 0x8B d x t d1 (.inr ⟨rfl, rfl⟩))
      (by rw [List.length_append, d1]; exact (by decide : 3 + 4 ≤ 15))
    rw [hr, BitVec.add_assoc, ← BitVec.ofNat_add, ← d3, ← at_ (i + 1) hlt] at e
    refine ⟨_, .inl e, ?_, rfl, hlt⟩
    have d5 := (d4 j hp).2
    rw [if_neg (by decide), ← d3] at d5
    unfold Inst.exec
    dsimp only
    rw [← hx, rip_ea, at_ (i + 1) hlt, BitVec.add_assoc, d5, at_ j (d4 j hp).1]
  | movI d v =>
    obtain ⟨bs, hz⟩ := straight_movI d v
    cases hs
    refine ⟨_, .inl (str hz), ?_, rfl, hlt⟩
    rw [← hx]; rfl
  | load d m =>
    obtain ⟨bs, mm, hz, hea⟩ := straight_load d m
    cases hs
    refine ⟨_, .inl (str hz), ?_, rfl, hlt⟩
    rw [← hx]
    unfold Inst.exec
    dsimp only
    rw [hea]
  | store m s =>
    obtain ⟨bs, mm, hz, hea⟩ := straight_store m s
    cases hs
    refine ⟨_, .inl (str hz), ?_, rfl, hlt⟩
    rw [← hx]
    unfold Inst.exec
    dsimp only
    rw [hea]
  | lea d m =>
    obtain ⟨bs, mm, hz, hea⟩ := straight_lea d m
    cases hs
    refine ⟨_, .inl (str hz), ?_, rfl, hlt⟩
    rw [← hx]
    unfold Inst.exec
    dsimp only
    rw [hea]
  | aluL n d m =>
    obtain ⟨bs, mm, hz, hea⟩ := straight_aluL n d m
    cases hs
    refine ⟨_, .inl (str hz), ?_, rfl, hlt⟩
    rw [← hx]
    unfold Inst.exec
    dsimp only
    rw [hea]
  | aluS n m s =>
    obtain ⟨bs, mm, hz, hea⟩ := straight_aluS n m s
    cases hs
    refine ⟨_, .inl (str hz), ?_, rfl, hlt⟩
    rw [← hx]
    unfold Inst.exec
    dsimp only
    rw [hea]
  | call n =>
    obtain ⟨v, e, hj⟩ := jmp rfl
    obtain ⟨j, hp, rfl⟩ := Option.map_eq_some_iff.1 (show (X86.place p i n).map _ = some y from hs)
    exact ⟨_, .inl e, by rw [← hx]; rfl, (hj j hp).1, (hj j hp).2⟩
  | jmp n ty =>
    obtain ⟨v, e, hj⟩ := jmp rfl
    obtain ⟨j, hp, rfl⟩ := Option.map_eq_some_iff.1 (show (X86.place p i n).map _ = some y from hs)
    exact ⟨_, .inl e, hx, (hj j hp).1, (hj j hp).2⟩
  | jcc cc n ty =>
    obtain ⟨v, e, hj⟩ := jmp rfl
    subst hx
    unfold Stmt.exec at hs
    unfold jinst Inst.exec at e
    dsimp only at hs e
    by_cases hc : cond cc u.core.fl = true
    · rw [if_pos hc] at hs e
      obtain ⟨j, hp, rfl⟩ := Option.map_eq_some_iff.1 hs
      exact ⟨_, .inl e, rfl, (hj j hp).1, (hj j hp).2⟩
    · rw [if_neg hc] at hs e
      cases hs
      exact ⟨_, .inl e, rfl, rfl, hlt⟩
  | loop n =>
    obtain ⟨v, e, hj⟩ := jmp rfl
    subst hx
    unfold Stmt.exec at hs
    unfold jinst Inst.exec at e
    dsimp only at hs e
    by_cases hc : (u.core.set rcx (u.core.reg rcx - 1)).reg rcx = 0
    · rw [if_pos hc] at hs e
      cases hs
      exact ⟨_, .inl e, rfl, rfl, hlt⟩
    · rw [if_neg hc] at hs e
      obtain ⟨j, hp, rfl⟩ := Option.map_eq_some_iff.1 hs
      exact ⟨_, .inl e, rfl, (hj j hp).1, (hj j hp).2⟩
  | jrcxz n =>
    obtain ⟨v, e, hj⟩ := jmp rfl
    subst hx
    unfold Stmt.exec at hs
    unfold jinst Inst.exec at e
    dsimp only at hs e
    by_cases hc : u.core.reg rcx = 0
    · rw [if_pos hc] at hs e
      obtain ⟨j, hp, rfl⟩ := Option.map_eq_some_iff.1 hs
      exact ⟨_, .inl e, rfl, (hj j hp).1, (hj j hp).2⟩
    · rw [if_neg hc] at hs e
      cases hs
      exact ⟨_, .inl e, rfl, rfl, hlt⟩

/-- The situation: `a` are the calls in front of the program, `b` those behind it, then the code is finished. -/
structure Built (env : Env) (c : CA) (a : List Op) (p : List Stmt) (b : List Op) (g1 g2 g3 g4 : G) : Prop where
  new : NewCode c
  front : Hist (CallOk (cxOf c) env) env a (G.init c)
  first : Done env a (G.init c) g1
  /-- the `Label` objects exist -/
  labels : ∀ s ∈ p, ∀ n ∈ names s, LiveRef g1 n
  /-- no statement starts beyond 2 GiB -/
  room : ∀ i g, i < p.length → At env g1 p i g → g.ca.size + 6 ≤ 2 ^ 31
  body : Done env (calls p) g1 g2
  back : Hist (CallOk (cxOf c) env) env b g2
  noreset : .reset ∉ b
  rest : Done env b g2 g3
  final : Final env g3 g4

theorem Built.trace {env : Env} (he : env.Sane) {c : CA} {a b : List Op} {p : List Stmt} {g1 g2 g3 g4 : G} (h : Built env c a p b g1 g2 g3 g4) :
    ∃ sp γ σ, Trace (cxOf c) env p g1 g2 sp γ σ ∧ Inside σ p g4 := by
  obtain ⟨sp, -, st⟩ := done_steps he (St.mk h.new.inv h.new.safe (init_life c)) h.front h.first
  obtain ⟨γ, σ, T⟩ := Prog.trace he p st h.labels h.room h.body
  have L := T.st p.length (Nat.le_refl _)
  rw [T.last] at L
  obtain ⟨sF, k, LF⟩ := done_steps he L h.back h.rest
  obtain ⟨m, hG⟩ := steps_grow k h.noreset
  exact ⟨sp, γ, σ, T, sF, m, hG, (final_implements LF.inv LF.safe h.final).1⟩

/-- **C102.** A program of labels, moves, arithmetic, stack operations, direct and indirect jumps, calls and returns, generated by calls of the library among any others in a
fixed or a growing buffer and finished, then executed from its bytes: whatever the program as written does from any of its statements to any other, the
processor does from the address of the statement to the address of the other, with the same registers, flags and memory. -/
theorem c102_simulation (env : Env) (he : env.Sane) (c : CA) (a : List Op) (p : List Stmt) (b : List Op) (g1 g2 g3 g4 : G) (hb : Built env c a p b g1 g2 g3 g4)
    (L : Layout) (hL : Laid env g1 g4 p L) {x y : Nat × Core} (hx : x.1 ≤ p.length) (hs : SrcRuns p L x y) (u : Cpu) (hu : u.core = x.2) (hr : u.rip = L.addr x.1)
    (hm : CodeAt u.core.mem g4.ca.top g4.ca.code) : Cpu.Runs u { core := y.2, rip := L.addr y.1 } ∧ y.1 ≤ p.length := by
  obtain ⟨sp, γ, σ, T, hI⟩ := hb.trace he
  induction hs generalizing u with
  | refl x => rw [← hu, ← hr]; exact ⟨.refl u, hx⟩
  | step a _ ih =>
    obtain ⟨v, v1, v2, v3, v4⟩ := one_step env he p T hI hL a hu hr hm
    have hm' : CodeAt v.core.mem g4.ca.top g4.ca.code := by
      intro k hk
      rw [v2, a.2 _ ((hL.code _).2 ⟨k, hk, rfl⟩), ← hu]
      exact hm k hk
    obtain ⟨w1, w2⟩ := ih v4 v v2 v3 hm'
    rcases v1 with v1 | ⟨rfl, -⟩
    · exact ⟨.step v1 w1, w2⟩
    · exact ⟨w1, w2⟩

theorem runs_linear {u v w : Cpu} (h : Cpu.Runs u v) (h' : Cpu.Runs u w) : Cpu.Runs w v ∨ Cpu.Runs v w := by
  induction h with
  | refl => exact .inr h'
  | step e _ ih =>
    cases h' with
    | refl => exact .inl (.step e ‹_›)
    | step e' r =>
      rw [e] at e'
      cases e'
      exact ih r

/-- **C102.** The processor does nothing else: every state it comes to is on the way to where the program as written is, or behind it. -/
theorem c102_only (env : Env) (he : env.Sane) (c : CA) (a : List Op) (p : List Stmt) (b : List Op) (g1 g2 g3 g4 : G) (hb : Built env c a p b g1 g2 g3 g4)
    (L : Layout) (hL : Laid env g1 g4 p L) {x y : Nat × Core} (hx : x.1 ≤ p.length) (hs : SrcRuns p L x y) (u w : Cpu) (hu : u.core = x.2) (hr : u.rip = L.addr x.1)
    (hm : CodeAt u.core.mem g4.ca.top g4.ca.code) (hw : Cpu.Runs u w) : Cpu.Runs w { core := y.2, rip := L.addr y.1 } ∨ Cpu.Runs { core := y.2, rip := L.addr y.1 } w :=
  runs_linear (c102_simulation env he c a p b g1 g2 g3 g4 hb L hL hx hs u hu hr hm).1 hw

theorem Runs_trans {u v w : Cpu} (h : Cpu.Runs u v) (h' : Cpu.Runs v w) : Cpu.Runs u w := by
  induction h with
  | refl => exact h'
  | step e _ ih => exact .step e (ih h')

/-- **C102.** Leaving the program: where the program as written returns, or jumps or calls through a register or memory, the processor goes to that address, wherever it is. -/
theorem c102_exit (env : Env) (he : env.Sane) (c : CA) (a : List Op) (p : List Stmt) (b : List Op) (g1 g2 g3 g4 : G) (hb : Built env c a p b g1 g2 g3 g4)
    (L : Layout) (hL : Laid env g1 g4 p L) {x : Nat × Core} (hx : x.1 ≤ p.length) {i : Nat} {c2 c3 : Core} {to : Word} {s : Stmt} (hs : SrcRuns p L x (i, c2))
    (h : p[i]? = some s) (hd : s.dest (L.addr (i + 1)) c2 = some (to, c3)) (u : Cpu) (hu : u.core = x.2) (hr : u.rip = L.addr x.1)
    (hm : CodeAt u.core.mem g4.ca.top g4.ca.code) : Cpu.Runs u { core := c3, rip := to } := by
  refine Runs_trans (c102_simulation env he c a p b g1 g2 g3 g4 hb L hL hx hs u hu hr hm).1 ?_
  have same : ∀ {x y : Nat × Core}, SrcRuns p L x y → ∀ a, L.code a → y.2.mem a = x.2.mem a := by
    intro x y h
    induction h with
    | refl => exact fun _ _ => rfl
    | step e _ ih => exact fun a ha => (ih a ha).trans (e.2 a ha)
  have hm2 : CodeAt c2.mem g4.ca.top g4.ca.code := by
    intro k hk
    rw [same hs _ ((hL.code _).2 ⟨k, hk, rfl⟩), ← hu]
    exact hm k hk
  obtain ⟨sp, γ, σ, T, h4⟩ := hb.trace he
  have at_ : ∀ i, i ≤ p.length → L.addr i = g4.ca.top + BitVec.ofNat 64 (γ i).ca.size := fun i hi => hL.addr i _ hi (T.pre i hi)
  have hlt := lt_of_get h
  obtain ⟨v, v1, rfl, rfl⟩ := dest_step (s := s) (u := { core := c2, rip := L.addr i }) (next := L.addr (i + 1)) (fun {z bs} hz => by
    obtain ⟨e1, e2⟩ := T.straight h4 h hz
    have := step_at (s := { core := c2, rip := L.addr i }) (by rw [at_ i (Nat.le_of_lt hlt)]; exact codeAt_drop hm2 e1) hz.dec hz.len
    rw [show ({ core := c2, rip := L.addr i } : Cpu).rip = L.addr i from rfl, at_ i (Nat.le_of_lt hlt), BitVec.add_assoc, ← BitVec.ofNat_add, ← e2, ← at_ (i + 1) hlt] at this
    rw [at_ i (Nat.le_of_lt hlt)]
    exact this) hd
  exact .step v1 (.refl _)

/-- **C102.** A generated function: called with the return address on the stack, it comes back to the caller with the registers and the memory the program as written has at its
`ret`, if it leaves the stack pointer and the return address as they were. -/
theorem c102_function (env : Env) (he : env.Sane) (c : CA) (a : List Op) (p : List Stmt) (b : List Op) (g1 g2 g3 g4 : G) (hb : Built env c a p b g1 g2 g3 g4)
    (L : Layout) (hL : Laid env g1 g4 p L) {i : Nat} {c2 : Core} (u : Cpu) (hr : u.rip = g4.ca.top + BitVec.ofNat 64 g1.ca.size)
    (hm : CodeAt u.core.mem g4.ca.top g4.ca.code) (hs : SrcRuns p L (0, u.core) (i, c2)) (h : p[i]? = some .ret) (hsp : c2.reg rsp = u.core.reg rsp)
    (hret : read64 c2.mem (u.core.reg rsp) = read64 u.core.mem (u.core.reg rsp)) :
    Cpu.Runs u { core := c2.set rsp (u.core.reg rsp + 8), rip := read64 u.core.mem (u.core.reg rsp) } := by
  refine c102_exit env he c a p b g1 g2 g3 g4 hb L hL (Nat.zero_le _) hs h ?_ u rfl ?_ hm
  · unfold Stmt.dest
    dsimp only
    rw [hsp, hret]
  · rw [hr]
    exact (hL.addr 0 g1 (Nat.zero_le _) rfl).symm

/-- **C102.** A program that does not come to an end keeps the processor busy for ever: it is never stuck. -/
theorem c102_forever (env : Env) (he : env.Sane) (c : CA) (a : List Op) (p : List Stmt) (b : List Op) (g1 g2 g3 g4 : G) (hb : Built env c a p b g1 g2 g3 g4)
    (L : Layout) (hL : Laid env g1 g4 p L) (f : Nat → Nat × Core) (hf : ∀ n, SrcStep p L (f n) (f (n + 1))) (u : Cpu) (hu : u.core = (f 0).2) (hr : u.rip = L.addr (f 0).1)
    (hm : CodeAt u.core.mem g4.ca.top g4.ca.code) (n : Nat) : ∃ v, Cpu.steps n u = some v := by
  obtain ⟨sp, γ, σ, T, hI⟩ := hb.trace he
  have lt : ∀ k, (f k).1 < p.length := fun k => by
    obtain ⟨⟨s, hs, -⟩, -⟩ := hf k
    exact lt_of_get hs
  have key : ∀ n d k (u : Cpu), p.length - (f k).1 ≤ d → u.core = (f k).2 → u.rip = L.addr (f k).1 → CodeAt u.core.mem g4.ca.top g4.ca.code → ∃ v, Cpu.steps n u = some v := by
    intro n
    induction n with
    | zero => intro _ _ u _ _ _ _; exact ⟨u, rfl⟩
    | succ n ihn =>
      intro d
      induction d with
      | zero => intro k u hd _ _ _; have := lt k; omega
      | succ d ihd =>
        intro k u hd hu hr hm
        obtain ⟨v, v1, v2, v3, v4⟩ := one_step env he p T hI hL (hf k) hu hr hm
        have hm' : CodeAt v.core.mem g4.ca.top g4.ca.code := by
          intro q hq
          rw [v2, (hf k).2 _ ((hL.code _).2 ⟨q, hq, rfl⟩), ← hu]
          exact hm q hq
        rcases v1 with v1 | ⟨rfl, e⟩
        · obtain ⟨w, hw⟩ := ihn _ (k + 1) v (Nat.le_refl _) v2 v3 hm'
          exact ⟨w, by unfold Cpu.steps; rw [v1]; exact hw⟩
        · exact ihd (k + 1) v (by have := lt k; omega) v2 v3 hm'
  exact key n _ 0 u (Nat.le_refl _) hu hr hm

/-- **C102.** There is exactly one layout as far as the statements of the program go, given by the sizes of the generator. -/
theorem c102_layout (env : Env) (he : env.Sane) (c : CA) (a : List Op) (p : List Stmt) (b : List Op) (g1 g2 g3 g4 : G) (hb : Built env c a p b g1 g2 g3 g4) :
    ∃ L, Laid env g1 g4 p L ∧ L.addr 0 = g4.ca.top + BitVec.ofNat 64 g1.ca.size ∧ L.addr p.length = g4.ca.top + BitVec.ofNat 64 g2.ca.size ∧
      ∀ L', Laid env g1 g4 p L' → (∀ i, i ≤ p.length → L'.addr i = L.addr i) ∧ ∀ a, L'.code a ↔ L.code a := by
  obtain ⟨sp, γ, σ, T, hI⟩ := hb.trace he
  refine ⟨⟨fun i => g4.ca.top + BitVec.ofNat 64 (γ i).ca.size, fun a => ∃ k, k < g4.ca.code.length ∧ a = g4.ca.top + BitVec.ofNat 64 k⟩,
    ⟨fun i g hi hg => by cases done_fun hg (T.pre i hi); rfl, fun a => Iff.rfl⟩, by dsimp only; rw [T.first], by dsimp only; rw [T.last], fun L' h => ⟨fun i hi => ?_, fun a => h.code a⟩⟩
  exact h.addr i _ hi (T.pre i hi)

/-- **C102.** From beginning to end: if the program as written comes to its end, so does the processor, behind the last byte of the program. -/
theorem c102_run (env : Env) (he : env.Sane) (c : CA) (a : List Op) (p : List Stmt) (b : List Op) (g1 g2 g3 g4 : G) (hb : Built env c a p b g1 g2 g3 g4)
    (L : Layout) (hL : Laid env g1 g4 p L) {c1 c2 : Core} (hs : SrcRuns p L (0, c1) (p.length, c2)) (u : Cpu) (hu : u.core = c1)
    (hr : u.rip = g4.ca.top + BitVec.ofNat 64 g1.ca.size) (hm : CodeAt u.core.mem g4.ca.top g4.ca.code) :
    Cpu.Runs u { core := c2, rip := g4.ca.top + BitVec.ofNat 64 g2.ca.size } := by
  obtain ⟨L', -, e1, e2, h⟩ := c102_layout env he c a p b g1 g2 g3 g4 hb
  have h := (h L hL).1
  have := (c102_simulation env he c a p b g1 g2 g3 g4 hb L hL (Nat.zero_le _) hs u hu (by rw [hr, ← e1, h 0 (Nat.zero_le _)]) hm).1
  rw [← e2, ← h _ (Nat.le_refl _)]
  exact this

/-- **C102.** The bytes between the two places are those of the program: the code is as long as the generator says. -/
theorem c102_length (env : Env) (he : env.Sane) (c : CA) (a : List Op) (p : List Stmt) (b : List Op) (g1 g2 g3 g4 : G) (hb : Built env c a p b g1 g2 g3 g4) :
    g1.ca.size ≤ g2.ca.size ∧ g2.ca.size ≤ g4.ca.code.length := by
  obtain ⟨sp, γ, σ, T, sF, m, hG, hi⟩ := hb.trace he
  obtain ⟨cs, hc⟩ := hG.cells
  obtain ⟨n, hG'⟩ := T.grow p.length 0 (Nat.zero_add _)
  obtain ⟨cs', hc'⟩ := hG'.cells
  have s1 := T.size (Nat.zero_le p.length)
  have s2 := T.size (Nat.le_refl p.length)
  have hl := hi.length
  unfold Spec.size at hl
  rw [T.first] at s1
  rw [T.last] at s2
  rw [hc, len_append] at hl
  rw [hc', len_append] at s2 hl
  omega

theorem read_code {m : Word → Byte} {a : Word} {x : List Byte} (h : CodeAt m a x) (hx : x.length = 8) : read64 m a = BitVec.ofNat 64 (fromLE x) := by
  unfold read64
  congr 2
  apply List.ext_getElem
  · simp [hx]
  · intro i h1 h2
    rw [List.getElem_map, List.getElem_range]
    exact h i h2

/-- **C102.** Data among the code: `db(byte)` is that byte at the address of the statement, `putL(label)` is the eight bytes of the address of the statement that defines
the label, a label and the borders of a scope take no room. -/
theorem c102_data (env : Env) (he : env.Sane) (c : CA) (a : List Op) (p : List Stmt) (b : List Op) (g1 g2 g3 g4 : G) (hb : Built env c a p b g1 g2 g3 g4)
    (L : Layout) (hL : Laid env g1 g4 p L) (m : Word → Byte) (hm : CodeAt m g4.ca.top g4.ca.code) (i : Nat) :
    (∀ n, p[i]? = some (.addrOf n) → L.addr (i + 1) = L.addr i + 8 ∧ ∀ j, place p i n = some j → read64 m (L.addr i) = L.addr j) ∧
    (∀ v, p[i]? = some (.db v) → L.addr (i + 1) = L.addr i + 1 ∧ m (L.addr i) = v) ∧
    (∀ n, p[i]? = some (.label n) → L.addr (i + 1) = L.addr i) ∧
    (p[i]? = some .enter ∨ p[i]? = some .leave → L.addr (i + 1) = L.addr i) := by
  obtain ⟨sp, γ, σ, T, h4⟩ := hb.trace he
  have at_ : ∀ i, i ≤ p.length → L.addr i = g4.ca.top + BitVec.ofNat 64 (γ i).ca.size := fun i hi => hL.addr i _ hi (T.pre i hi)
  have same : i < p.length → (σ (i + 1)).cells = (σ i).cells → L.addr (i + 1) = L.addr i := by
    intro hlt e
    rw [at_ _ hlt, at_ _ (Nat.le_of_lt hlt), T.size (Nat.le_of_lt hlt), T.size hlt, e]
  refine ⟨fun n h => ?_, fun v h => ?_, fun n h => ?_, fun h => ?_⟩
  · have hlt := lt_of_get h
    obtain ⟨x, hx, e1, e2, e3⟩ := T.lab h4 h (bs := []) (n := n) (abs := true) rfl
    rw [List.nil_append] at e1 e2
    have hx : x.length = 8 := hx
    rw [hx] at e2
    refine ⟨?_, fun j hj => ?_⟩
    · rw [at_ _ hlt, at_ _ (Nat.le_of_lt hlt), e2, BitVec.ofNat_add, BitVec.add_assoc]; rfl
    · obtain ⟨k1, k2⟩ := e3 j hj
      rw [if_pos rfl] at k2
      rw [at_ _ (Nat.le_of_lt hlt), at_ _ k1, ← k2]
      exact read_code (codeAt_drop hm e1) hx
  · have hlt := lt_of_get h
    have e := steps_bytes (bs := [v]) (T.steps i _ h)
    have e' : (σ (i + 1)).cells = (σ i).cells ++ [v].map .byte := by rw [e]; rfl
    obtain ⟨post, hp⟩ := T.cells h e'
    obtain ⟨sF, k, hG, hi⟩ := h4
    obtain ⟨post', hp'⟩ := hG.cells
    rw [hp, List.append_assoc, List.append_assoc] at hp'
    have hd := codeAt_drop hm (bytes_in hi [v] hp')
    rw [at_ _ hlt, at_ _ (Nat.le_of_lt hlt), T.size (Nat.le_of_lt hlt), T.size hlt, e', len_append, len_bytes]
    refine ⟨?_, ?_⟩
    · rw [BitVec.ofNat_add, BitVec.add_assoc]; rfl
    · have := hd 0 Nat.one_pos
      rw [BitVec.add_zero] at this
      exact this
  · obtain ⟨s1, ⟨k, hk, -, h1⟩, h2⟩ := T.steps i _ h
    cases h2
    exact same (lt_of_get h) (by rw [h1]; exact touch_cells _ _)
  · rcases h with h | h
    · obtain ⟨s1, h1, h2⟩ := T.steps i _ h
      cases h2
      exact same (lt_of_get h) (by rw [h1])
    · obtain ⟨s1, ⟨_, _, _, _, _, h1⟩, h2⟩ := T.steps i _ h
      cases h2
      exact same (lt_of_get h) (by rw [h1])

/-- **C102.** A jump table: entry `k` of a table of label addresses behind a label is at eight times `k` behind the address of the label, and is the address of the
statement that defines its label. -/
theorem c102_table (env : Env) (he : env.Sane) (c : CA) (a : List Op) (p : List Stmt) (b : List Op) (g1 g2 g3 g4 : G) (hb : Built env c a p b g1 g2 g3 g4)
    (L : Layout) (hL : Laid env g1 g4 p L) (m : Word → Byte) (hm : CodeAt m g4.ca.top g4.ca.code) {t : Nat} {l : LRef} (ht : p[t]? = some (.label l))
    (f : Nat → LRef) {k : Nat} (hf : ∀ i, i ≤ k → p[t + 1 + i]? = some (.addrOf (f i))) {j : Nat} (hj : place p (t + 1 + k) (f k) = some j) :
    read64 m (L.addr t + BitVec.ofNat 64 (8 * k)) = L.addr j := by
  have d := c102_data env he c a p b g1 g2 g3 g4 hb L hL m hm
  have e : ∀ i, i ≤ k → L.addr (t + 1 + i) = L.addr t + BitVec.ofNat 64 (8 * i) := by
    intro i
    induction i with
    | zero => intro _; rw [Nat.add_zero, (d t).2.2.1 l ht]; exact (BitVec.add_zero _).symm
    | succ i ih =>
      intro h
      rw [← Nat.add_assoc, ((d _).1 _ (hf i (by omega))).1, ih (by omega), BitVec.add_assoc, Nat.mul_add, BitVec.ofNat_add]
      rfl
  rw [← e k (Nat.le_refl _)]
  exact ((d _).1 _ (hf k (Nat.le_refl _))).2 j hj

/-- **C102.** Every statement is accepted. -/
theorem c102_accepts (s : Stmt) : ∃ os, ops s = some os ∧ os ≠ [] := by
  have ne : ∀ {i : Inst} {bs : List Byte}, Straight s i bs → ∃ os, ops s = some os ∧ os ≠ [] := by
    intro i bs h
    refine ⟨_, h.calls, fun e => ?_⟩
    have : bs = [] := by simpa using e
    subst this
    exact absurd (h.dec []) (by intro h; cases h)
  cases s with
  | mov d s => exact (straight_mov d s).elim fun _ h => ne h
  | alu n d s => exact (straight_alu n d s).elim fun _ h => ne h
  | aluI n d i => exact (straight_aluI n d i).elim fun _ h => ne h
  | push r => exact (straight_push r).elim fun _ h => ne h
  | pop r => exact (straight_pop r).elim fun _ h => ne h
  | ret => exact straight_ret.elim fun _ h => ne h
  | test d s => exact (straight_test d s).elim fun _ h => ne h
  | un op d => exact (straight_un op d).elim fun _ h => ne h
  | cmov cc d s => exact (straight_cmov cc d s).elim fun _ h => ne h
  | sh op d i => exact (straight_sh op d i).elim fun _ h => ne h
  | xchg a b => obtain ⟨_, _, _, h, -⟩ := straight_xchg a b; exact ne h
  | nop => exact straight_nop.elim fun _ h => ne h
  | jmpR r => exact (straight_jmpR r).elim fun _ h => ne h
  | callR r => exact (straight_callR r).elim fun _ h => ne h
  | jmpM m => exact (straight_jmpM m).elim fun _ h => h.elim fun _ h => ne h.1
  | callM m => exact (straight_callM m).elim fun _ h => h.elim fun _ h => ne h.1
  | movI d v => exact (straight_movI d v).elim fun _ h => ne h
  | load d m => exact (straight_load d m).elim fun _ h => h.elim fun _ h => ne h.1
  | store m s => exact (straight_store m s).elim fun _ h => h.elim fun _ h => ne h.1
  | lea d m => exact (straight_lea d m).elim fun _ h => h.elim fun _ h => ne h.1
  | aluL n d m => exact (straight_aluL n d m).elim fun _ h => h.elim fun _ h => ne h.1
  | aluS n m s => exact (straight_aluS n m s).elim fun _ h => h.elim fun _ h => ne h.1
  | movL d n => exact ⟨_, lab_ops rfl, fun e => by cases e⟩
  | leaL d n => exact ⟨_, lab_ops rfl, fun e => by cases e⟩
  | loadL d n => exact ⟨_, lab_ops rfl, fun e => by cases e⟩
  | addrOf n => exact ⟨_, rfl, fun e => by cases e⟩
  | db b => exact ⟨_, rfl, fun e => by cases e⟩
  | label n | jmp n ty | jcc cc n ty | loop n | jrcxz n | call n | enter | leave => exact ⟨_, rfl, fun e => by cases e⟩


/-! ## An example: `Label l; xor(rax, rax); L(l); add(rax, rcx); loop(l);` and the end of the life of `l` -/

def demo : List Stmt := [.alu 6 rax rax, .label (.obj 0), .alu 0 rax rcx, .loop (.obj 0)]

def tri : Nat → Word
  | 0 => 0
  | k + 1 => BitVec.ofNat 64 (k + 1) + tri k

theorem demo_place : X86.place demo 3 (.obj 0) = some 1 := by decide

/-- A statement that is no return and does not write to memory. -/
theorem src1 {p : List Stmt} {L : Layout} {x y : Nat × Core} {s : Stmt} (h : p[x.1]? = some s) (e : s.exec p L x.1 x.2 = some y) (hm : y.2.mem = x.2.mem) : SrcStep p L x y :=
  ⟨⟨s, h, .inl e⟩, fun _ _ => by rw [hm]⟩

theorem demo_loop (L : Layout) (k : Nat) : ∀ c : Core, (c.reg rcx).toNat = k + 1 → ∃ c', SrcRuns demo L (1, c) (4, c') ∧ c'.reg rax = c.reg rax + tri (k + 1) := by
  induction k with
  | zero =>
    intro c hc
    have h1 : c.reg rcx = 1 := BitVec.eq_of_toNat_eq hc
    refine ⟨_, .step (y := (2, c)) (src1 rfl rfl rfl) (.step (y := (3, c.alu 0 rax (c.reg rcx))) (src1 rfl rfl rfl)
      (.step (y := (4, (c.alu 0 rax (c.reg rcx)).set rcx 0)) (src1 rfl ?_ rfl) (.refl _))), ?_⟩
    · show (let d := (c.alu 0 rax (c.reg rcx)).set rcx (c.reg rcx - 1); if d.reg rcx = 0 then some (4, d) else _) = _
      rw [h1]
      rfl
    · show c.reg rax + c.reg rcx + 0#64 = _
      rw [BitVec.add_zero, h1]
      rfl
  | succ k ih =>
    intro c hc
    have h1 : c.reg rcx - 1 ≠ 0 := by
      intro h
      have := congrArg BitVec.toNat h
      rw [BitVec.toNat_sub_of_le (by rw [BitVec.le_def, hc]; exact Nat.le_add_left 1 _), hc] at this
      exact absurd this (by exact Nat.succ_ne_zero k)
    have h2 : (c.reg rcx - 1).toNat = k + 1 := by
      rw [BitVec.toNat_sub_of_le (by rw [BitVec.le_def, hc]; exact Nat.le_add_left 1 _), hc]
      rfl
    obtain ⟨c', r, e⟩ := ih ((c.alu 0 rax (c.reg rcx)).set rcx (c.reg rcx - 1)) h2
    refine ⟨c', .step (y := (2, c)) (src1 rfl rfl rfl) (.step (y := (3, c.alu 0 rax (c.reg rcx))) (src1 rfl rfl rfl)
      (.step (y := (1, (c.alu 0 rax (c.reg rcx)).set rcx (c.reg rcx - 1))) (src1 rfl ?_ rfl) r)), ?_⟩
    · show (let d := (c.alu 0 rax (c.reg rcx)).set rcx (c.reg rcx - 1); if d.reg rcx = 0 then some (4, d) else (X86.place demo 3 (.obj 0)).map fun j => (j, d)) = _
      have h3 : ((c.alu 0 rax (c.reg rcx)).set rcx (c.reg rcx - 1)).reg rcx = c.reg rcx - 1 := rfl
      dsimp only
      rw [h3, if_neg h1, demo_place]
      rfl
    · rw [e]
      show c.reg rax + c.reg rcx + 0#64 + _ = _
      have : c.reg rcx = BitVec.ofNat 64 (k + 1 + 1) := by rw [← hc, BitVec.ofNat_toNat, BitVec.setWidth_eq]
      rw [BitVec.add_zero, BitVec.add_assoc, this]
      rfl

/-- The calls, as long as they succeed. -/
def go (env : Env) : List Op → G → Option G
  | [], g => some g
  | op :: t, g => match step env op g with
    | .ok _ g1 => go env t g1
    | _ => none

theorem go_done {env : Env} (l : List Op) : ∀ {g g' : G}, go env l g = some g' ↔ Done env l g g' := by
  induction l with
  | nil => intro g g'; exact ⟨fun h => by cases h; rfl, fun h => by cases h; rfl⟩
  | cons op t ih =>
    intro g g'
    unfold go Done
    cases h : step env op g with
    | ok a g1 => exact ⟨fun e => ⟨g1, rfl, ih.1 e⟩, fun ⟨g2, e1, e2⟩ => by cases e1; exact ih.2 e2⟩
    | err e g1 => exact ⟨fun e => (by cases e), fun ⟨g2, e1, _⟩ => (by cases e1)⟩
    | ub w => exact ⟨fun e => (by cases e), fun ⟨g2, e1, _⟩ => (by cases e1)⟩

def demoA : List Op := [.newLabel 0]
def demoB : List Op := [.dtorLabel 0]

theorem demo_1 : ((go demoEnv demoA (G.init demoCA)).map fun g => (g.ca.size, (g.heap 0).isSome)) = some (0, true) := by decide +kernel

theorem demo_2 : ((go demoEnv (demoA ++ calls demo) (G.init demoCA)).map fun g => (g.ca.size, (g.heap 0).isSome)) = some (8, true) := by decide +kernel

theorem demo_3 : ((go demoEnv (demoA ++ (calls demo ++ demoB)) (G.init demoCA)).map fun g => (g.ca.isAutoGrow, g.ca.top, g.ca.code)) =
    some (false, 0x1000, [0x48, 0x31, 0xC0, 0x48, 0x01, 0xC8, 0xE2, 0xFB]) := by decide +kernel

theorem demo_sizes : ∀ i, i < 4 → ((go demoEnv (demoA ++ calls (demo.take i)) (G.init demoCA)).map fun g => decide (g.ca.size + 6 ≤ 2 ^ 31)) = some true := by decide +kernel

theorem hist_one {cx : Cx} {env : Env} {op : Op} {g g' : G} (hc : CallOk cx env g op) (hd : Done env [op] g g') : Hist (CallOk cx env) env [op] g := by
  obtain ⟨g1, e1, -⟩ := hd
  refine ⟨hc, ?_⟩
  rw [e1]
  trivial

theorem demo_built : ∃ g1 g2 g3, Built demoEnv demoCA demoA demo demoB g1 g2 g3 g3 ∧ g1.ca.size = 0 ∧ g2.ca.size = 8 ∧ g3.ca.top = 0x1000 ∧
    g3.ca.code = [0x48, 0x31, 0xC0, 0x48, 0x01, 0xC8, 0xE2, 0xFB] := by
  obtain ⟨g3, h3, e3⟩ := Option.map_eq_some_iff.1 demo_3
  simp only [Prod.mk.injEq] at e3
  obtain ⟨g1, d1, d2⟩ := done_append.1 ((go_done _).1 h3)
  obtain ⟨g2, d2, d3⟩ := done_append.1 d2
  have f1 := demo_1
  rw [(go_done _).2 d1] at f1
  simp only [Option.map_some, Option.some.injEq, Prod.mk.injEq] at f1
  have f2 := demo_2
  rw [(go_done _).2 (done_append.2 ⟨g1, d1, d2⟩)] at f2
  simp only [Option.map_some, Option.some.injEq, Prod.mk.injEq] at f2
  have live : ∀ {o : Option LabelObj}, o.isSome = true → o ≠ none := fun h e => by rw [e] at h; cases h
  refine ⟨g1, g2, g3, ⟨demo_new, hist_one ⟨rfl, trivial, trivial⟩ d1, d1, ?_, ?_, d2, hist_one ⟨live f2.2, trivial, trivial⟩ d3, (by decide), d3, ?_⟩, f1.1, f2.1, e3.2.1, e3.2.2⟩
  · intro s hs n hn
    have : n = .obj 0 := by revert s n; decide
    subst this
    exact live f1.2
  · intro i g hi hg
    have := demo_sizes i hi
    rw [(go_done _).2 (done_append.2 ⟨g1, d1, hg⟩)] at this
    exact of_decide_eq_true (Option.some.inj this)
  · unfold Final
    rw [e3.1]
    rfl

/-- The processor, given these eight bytes at address 0x1000 and any count but 0 in rcx, computes the sum of the numbers up to the count. -/
example (u : Cpu) (hr : u.rip = 0x1000) (hm : CodeAt u.core.mem 0x1000 [0x48, 0x31, 0xC0, 0x48, 0x01, 0xC8, 0xE2, 0xFB]) (k : Nat) (hk : (u.core.reg rcx).toNat = k + 1) :
    ∃ v, Cpu.Runs u v ∧ v.rip = 0x1008 ∧ v.core.reg rax = tri (k + 1) := by
  obtain ⟨g1, g2, g3, hb, e1, e2, e3, e4⟩ := demo_built
  obtain ⟨L, hL, -⟩ := c102_layout demoEnv demoEnv_sane demoCA demoA demo demoB g1 g2 g3 g3 hb
  obtain ⟨c', r, hc⟩ := demo_loop L k (u.core.alu 6 rax (u.core.reg rax)) hk
  have := c102_run demoEnv demoEnv_sane demoCA demoA demo demoB g1 g2 g3 g3 hb L hL (.step (y := (1, _)) (src1 rfl rfl rfl) r) u rfl (by rw [hr, e1, e3]; rfl)
    (by rw [e3, e4]; exact hm)
  refine ⟨_, this, by rw [e2, e3]; rfl, ?_⟩
  rw [hc]
  show (u.core.reg rax ^^^ u.core.reg rax) + _ = _
  rw [BitVec.xor_self]
  exact BitVec.zero_add _

/-! A subroutine: `call("f"); jmp("end"); L("f"); push(rcx); pop(rax); ret(); L("end")` moves rcx to rax, whatever the stack, if it is not where the code is. -/

def demo3 : List Stmt := [.call (.str "f"), .jmp (.str "end") .auto, .label (.str "f"), .push rcx, .pop rax, .ret, .label (.str "end")]

example : ((go demoEnv (calls demo3) (G.init demoCA)).map fun g => g.ca.code) = some [0xE8, 0x02, 0, 0, 0, 0xEB, 0x03, 0x51, 0x58, 0xC3] := by decide +kernel

theorem write64_apart (m : Word → Byte) (a v x : Word) (h : 8 ≤ (x - a).toNat) : write64 m a v x = m x := by
  unfold write64
  rw [if_neg (by omega)]

example (L : Layout) (c : Core) (hs : ∀ x, L.code x → 8 ≤ (x - (c.reg rsp - 8)).toNat ∧ 8 ≤ (x - (c.reg rsp - 8 - 8)).toNat) :
    ∃ c', SrcRuns demo3 L (0, c) (7, c') ∧ c'.reg rax = c.reg rcx ∧ c'.reg rsp = c.reg rsp := by
  let c1 := c.push (L.addr 1)
  let c2 := c1.push (c1.reg rcx)
  let c3 := c2.pop rax
  have e3 : c3.reg rsp = c.reg rsp - 8 := by
    show c.reg rsp - 8 - 8 + 8 = _
    exact BitVec.sub_add_cancel _ _
  have hr : read64 c3.mem (c3.reg rsp) = L.addr 1 := by
    rw [e3]
    show read64 (write64 (write64 c.mem (c.reg rsp - 8) (L.addr 1)) (c.reg rsp - 8 - 8) _) (c.reg rsp - 8) = _
    rw [read_congr (m' := write64 c.mem (c.reg rsp - 8) (L.addr 1)) (fun i hi => write64_apart _ _ _ _ ?_), read_write]
    generalize c.reg rsp - 8 = z
    rw [show z + BitVec.ofNat 64 i - (z - 8) = BitVec.ofNat 64 i + 8 by
      apply BitVec.eq_of_toNat_eq
      simp only [BitVec.toNat_sub, BitVec.toNat_add, BitVec.toNat_ofNat, n8]
      omega]
    simp only [BitVec.toNat_add, BitVec.toNat_ofNat, n8]
    omega
  have hp : place demo3 0 (.str "f") = some 2 := by decide
  have hp' : place demo3 1 (.str "end") = some 6 := by decide
  refine ⟨c3.set rsp (c3.reg rsp + 8), .step (y := (2, c1)) ⟨⟨.call (.str "f"), rfl, .inl ?_⟩, fun x hx => write64_apart _ _ _ _ (hs x hx).1⟩
    (.step (y := (3, c1)) (src1 rfl rfl rfl) (.step (y := (4, c2)) ⟨⟨.push rcx, rfl, .inl rfl⟩, fun x hx => write64_apart _ _ _ _ (hs x hx).2⟩
    (.step (y := (5, c3)) (src1 rfl rfl rfl) (.step (y := (1, c3.set rsp (c3.reg rsp + 8))) ⟨⟨.ret, rfl, .inr ⟨by unfold Stmt.dest; rw [hr], (by decide : 1 ≤ 7)⟩⟩, fun _ _ => rfl⟩
    (.step (y := (6, c3.set rsp (c3.reg rsp + 8))) (src1 rfl ?_ rfl) (.step (y := (7, c3.set rsp (c3.reg rsp + 8))) (src1 rfl rfl rfl) (.refl _))))))), ?_, ?_⟩
  · unfold Stmt.exec
    dsimp only
    rw [hp]; rfl
  · unfold Stmt.exec
    dsimp only
    rw [hp']; rfl
  · show read64 (write64 _ (c.reg rsp - 8 - 8) (c.reg rcx)) (c.reg rsp - 8 - 8) = _
    exact read_write _ _ _
  · show c3.reg rsp + 8 = _
    rw [e3]
    exact BitVec.sub_add_cancel _ _

/-! Anonymous labels and a dot label in a scope: where the statements say they are, and the bytes.  The second scope has a `.x` of its own. -/

def demo2 : List Stmt :=
  [.label (.str "@@"), .jmp (.str "@f") .auto, .enter, .label (.str ".x"), .jmp (.str ".x") .auto, .leave, .enter, .label (.str ".x"),
   .jcc 4 (.str ".x") .near, .leave, .label (.str "@@"), .jmp (.str "@b") .auto]

example : place demo2 1 (.str "@f") = some 10 ∧ place demo2 4 (.str ".x") = some 3 ∧ place demo2 8 (.str ".x") = some 7 ∧ place demo2 11 (.str "@b") = some 10 := by
  decide

example : ((go demoEnv (calls demo2) (G.init demoCA)).map fun g => g.ca.code) = some [0xEB, 0x08, 0xEB, 0xFE, 0x0F, 0x84, 0xFA, 0xFF, 0xFF, 0xFF, 0xEB, 0xFE] := by
  decide +kernel

/-! The sum of an array: `mov(rax, 0); L("next"); add(rax, ptr[rsi + rcx * 8 - 8]); loop("next")`. -/

def item : MemOp := { base := some rsi, index := some (⟨rcx, by decide⟩, 3), disp := -8 }
def demo4 : List Stmt := [.movI rax 0, .label (.str "next"), .aluL 0 rax item, .loop (.str "next")]

example : ((go demoEnv (calls demo4) (G.init demoCA)).map fun g => g.ca.code) = some [0xB8, 0, 0, 0, 0, 0x48, 0x03, 0x44, 0xCE, 0xF8, 0xE2, 0xF9] := by decide +kernel

def total (m : Word → Byte) (a : Word) : Nat → Word
  | 0 => 0
  | k + 1 => read64 m (a + BitVec.ofNat 64 (8 * k)) + total m a k

theorem item_ea (g : Gpr → Word) (k : Nat) (h : (g rcx).toNat = k + 1) : item.ea g = g rsi + BitVec.ofNat 64 (8 * k) := by
  have hlt := (g rcx).isLt
  have e : item.ea g = g rsi + g rcx <<< 3 + (-8 : BitVec 32).signExtend 64 := rfl
  have e8 : ((-8 : BitVec 32).signExtend 64).toNat = 2 ^ 64 - 8 := by decide
  rw [e, BitVec.add_assoc]
  have : g rcx <<< 3 + (-8 : BitVec 32).signExtend 64 = BitVec.ofNat 64 (8 * k) := by
    apply BitVec.eq_of_toNat_eq
    rw [BitVec.toNat_add, BitVec.toNat_shiftLeft, h, Nat.shiftLeft_eq, BitVec.toNat_ofNat, e8]
    omega
  rw [this]

theorem demo4_loop (L : Layout) (k : Nat) : ∀ c : Core, (c.reg rcx).toNat = k + 1 →
    ∃ c', SrcRuns demo4 L (1, c) (4, c') ∧ c'.reg rax = c.reg rax + total c.mem (c.reg rsi) (k + 1) ∧ c'.mem = c.mem := by
  induction k with
  | zero =>
    intro c hc
    have h1 : c.reg rcx = 1 := BitVec.eq_of_toNat_eq hc
    refine ⟨_, .step (y := (2, c)) (src1 rfl rfl rfl) (.step (y := (3, c.alu 0 rax (read64 c.mem (item.ea c.reg)))) (src1 rfl rfl rfl)
      (.step (y := (4, (c.alu 0 rax (read64 c.mem (item.ea c.reg))).set rcx 0)) (src1 rfl ?_ rfl) (.refl _))), ?_, rfl⟩
    · show (let d := (c.alu 0 rax (read64 c.mem (item.ea c.reg))).set rcx (c.reg rcx - 1); if d.reg rcx = 0 then some (4, d) else _) = _
      rw [h1]
      rfl
    · show c.reg rax + read64 c.mem (item.ea c.reg) + 0#64 = _
      rw [BitVec.add_zero, item_ea _ 0 hc]
      unfold total total
      rw [show (0 : Word) = 0#64 from rfl, BitVec.add_zero (x := read64 _ _)]
  | succ k ih =>
    intro c hc
    have hle : (1 : Word) ≤ c.reg rcx := by rw [BitVec.le_def, hc]; exact Nat.le_add_left 1 _
    have h2 : (c.reg rcx - 1).toNat = k + 1 := by rw [BitVec.toNat_sub_of_le hle, hc]; rfl
    have h1 : c.reg rcx - 1 ≠ 0 := fun h => (by rw [h] at h2; exact absurd h2.symm (Nat.succ_ne_zero k))
    obtain ⟨c', r, e, em⟩ := ih ((c.alu 0 rax (read64 c.mem (item.ea c.reg))).set rcx (c.reg rcx - 1)) h2
    refine ⟨c', .step (y := (2, c)) (src1 rfl rfl rfl) (.step (y := (3, c.alu 0 rax (read64 c.mem (item.ea c.reg)))) (src1 rfl rfl rfl)
      (.step (y := (1, (c.alu 0 rax (read64 c.mem (item.ea c.reg))).set rcx (c.reg rcx - 1))) (src1 rfl ?_ rfl) r)), ?_, em⟩
    · show (let d := (c.alu 0 rax (read64 c.mem (item.ea c.reg))).set rcx (c.reg rcx - 1); if d.reg rcx = 0 then some (4, d) else (X86.place demo4 3 (.str "next")).map fun j => (j, d)) = _
      have h3 : ((c.alu 0 rax (read64 c.mem (item.ea c.reg))).set rcx (c.reg rcx - 1)).reg rcx = c.reg rcx - 1 := rfl
      dsimp only
      rw [h3, if_neg h1, show X86.place demo4 3 (.str "next") = some 1 by decide]
      rfl
    · rw [e]
      show c.reg rax + read64 c.mem (item.ea c.reg) + 0#64 + total c.mem (c.reg rsi) (k + 1) = _
      rw [BitVec.add_zero, item_ea _ (k + 1) hc, BitVec.add_assoc]
      rfl

/-! `L("@@"); jmp("@b")` does not come to an end. -/

example (L : Layout) (c : Core) : ∃ f : Nat → Nat × Core, f 0 = (0, c) ∧ ∀ n, SrcStep [.label (.str "@@"), .jmp (.str "@b") .auto] L (f n) (f (n + 1)) := by
  refine ⟨fun n => (n % 2, c), rfl, fun n => ?_⟩
  rcases Nat.mod_two_eq_zero_or_one n with h | h
  · refine src1 (s := .label (.str "@@")) (by dsimp only; rw [h]; rfl) ?_ rfl
    dsimp only
    rw [h, show (n + 1) % 2 = 1 by omega]
    rfl
  · refine src1 (s := .jmp (.str "@b") .auto) (by dsimp only; rw [h]; rfl) ?_ rfl
    dsimp only
    rw [h, show (n + 1) % 2 = 0 by omega]
    unfold Stmt.exec
    dsimp only
    rw [show place [.label (.str "@@"), .jmp (.str "@b") .auto] 1 (.str "@b") = some 0 by decide]
    rfl

/-! A call through a register: `mov(rax, "f"); call(rax); jmp("end"); L("f"); mov(rcx, 7); ret(); L("end")`, and a jump through one. -/

def demo5 : List Stmt := [.movL rax (.str "f"), .callR rax, .jmp (.str "end") .auto, .label (.str "f"), .movI rcx 7, .ret, .label (.str "end")]

example : ((go demoEnv (calls demo5) (G.init demoCA)).map fun g => g.ca.code) =
    some [0x48, 0xB8, 0x0E, 0x10, 0, 0, 0, 0, 0, 0, 0xFF, 0xD0, 0xEB, 0x06, 0xB9, 7, 0, 0, 0, 0xC3] := by decide +kernel

example : ops (.jmpR 11) = some ([0x41, 0xFF, 0xE3].map .db) ∧ ops (.jmpM { base := some rax, index := some (⟨rcx, by decide⟩, 3) }) = some ([0xFF, 0x24, 0xC8].map .db) ∧
    ops (.callM { base := some 12, disp := 8 }) = some ([0x41, 0xFF, 0x54, 0x24, 8].map .db) := by decide +kernel

example (L : Layout) (c : Core) (hs : ∀ x, L.code x → 8 ≤ (x - (c.reg rsp - 8)).toNat) :
    ∃ c', SrcRuns demo5 L (0, c) (7, c') ∧ c'.reg rcx = 7 ∧ c'.reg rax = L.addr 3 ∧ c'.reg rsp = c.reg rsp := by
  have hp : place demo5 0 (.str "f") = some 3 := by decide
  have hp' : place demo5 2 (.str "end") = some 6 := by decide
  let c1 := c.set rax (L.addr 3)
  let c2 := c1.push (L.addr 2)
  let c3 := c2.set rcx 7
  let c4 := c3.set rsp (c3.reg rsp + 8)
  have hr : read64 c3.mem (c3.reg rsp) = L.addr 2 := by
    show read64 (write64 c.mem (c.reg rsp - 8) (L.addr 2)) (c.reg rsp - 8) = _
    exact read_write _ _ _
  refine ⟨c4, .step (y := (1, c1)) (src1 rfl ?_ rfl) (.step (y := (3, c2)) ⟨⟨.callR rax, rfl, .inr ⟨rfl, (by decide : 3 ≤ 7)⟩⟩, fun x hx => write64_apart _ _ _ _ (hs x hx)⟩
    (.step (y := (4, c2)) (src1 rfl rfl rfl) (.step (y := (5, c3)) (src1 rfl rfl rfl)
    (.step (y := (2, c4)) ⟨⟨.ret, rfl, .inr ⟨by unfold Stmt.dest; rw [hr], (by decide : 2 ≤ 7)⟩⟩, fun _ _ => rfl⟩
    (.step (y := (6, c4)) (src1 rfl ?_ rfl) (.step (y := (7, c4)) (src1 rfl rfl rfl) (.refl _))))))), rfl, rfl, ?_⟩
  · unfold Stmt.exec
    dsimp only
    rw [hp]; rfl
  · unfold Stmt.exec
    dsimp only
    rw [hp']; rfl
  · show c.reg rsp - 8 + 8 = _
    exact BitVec.sub_add_cancel _ _

/-! A jump table: `Label t; lea(rax, ptr[rip + t]); jmp(ptr[rax + rcx * 8]); L(t); putL("a"); putL("b"); L("a"); mov(rdx, 1); jmp("end"); L("b"); mov(rdx, 2); L("end")`. -/

def demo6 : List Stmt := [.leaL rax 1, .jmpM { base := some rax, index := some (⟨rcx, by decide⟩, 3) }, .label (.obj 1), .addrOf (.str "a"), .addrOf (.str "b"),
  .label (.str "a"), .movI rdx 1, .jmp (.str "end") .auto, .label (.str "b"), .movI rdx 2, .label (.str "end")]

example : ((go demoEnv (.newLabel 1 :: calls demo6) (G.init demoCA)).map fun g => g.ca.code) =
    some [0x48, 0x8D, 0x05, 3, 0, 0, 0, 0xFF, 0x24, 0xC8, 0x1A, 0x10, 0, 0, 0, 0, 0, 0, 0x21, 0x10, 0, 0, 0, 0, 0, 0, 0xBA, 1, 0, 0, 0, 0xEB, 5, 0xBA, 2, 0, 0, 0] := by
  decide +kernel

example : place demo6 0 (.obj 1) = some 2 ∧ place demo6 3 (.str "a") = some 5 ∧ place demo6 4 (.str "b") = some 8 ∧ place demo6 7 (.str "end") = some 10 := by decide

/-- `rcx` selects the entry; the addresses read are those `c102_table` gives. -/
example (L : Layout) (c : Core) (k : Nat) (hk : k < 2) (hc : c.reg rcx = BitVec.ofNat 64 k)
    (ht : read64 c.mem (L.addr 2 + BitVec.ofNat 64 (8 * k)) = L.addr (if k = 0 then 5 else 8)) :
    ∃ c', SrcRuns demo6 L (0, c) (11, c') ∧ c'.reg rdx = BitVec.ofNat 64 (k + 1) := by
  have h1 : ∀ {z}, SrcRuns demo6 L (1, c.set rax (L.addr 2)) z → SrcRuns demo6 L (0, c) z :=
    fun h => .step (y := (1, c.set rax (L.addr 2))) (src1 (s := .leaL rax 1) rfl (by unfold Stmt.exec; dsimp only; rw [show place demo6 0 (.obj 1) = some 2 by decide]; rfl) rfl) h
  have ha : MemOp.ea { base := some rax, index := some (⟨rcx, by decide⟩, 3) } (c.set rax (L.addr 2)).reg = L.addr 2 + BitVec.ofNat 64 (8 * k) := by
    unfold MemOp.ea Core.set
    dsimp only [Option.map_some, Option.getD_some]
    rw [if_pos rfl, if_neg (by decide), hc]
    have : k = 0 ∨ k = 1 := by omega
    rcases this with rfl | rfl <;> exact BitVec.add_zero _
  have h2 : SrcStep demo6 L (1, c.set rax (L.addr 2)) (if k = 0 then 5 else 8, c.set rax (L.addr 2)) := by
    refine ⟨⟨.jmpM { base := some rax, index := some (⟨rcx, by decide⟩, 3) }, rfl, .inr ⟨?_, ?_⟩⟩, fun _ _ => rfl⟩
    · unfold Stmt.dest
      dsimp only
      rw [ha, ← ht]
      rfl
    · show (if k = 0 then 5 else 8) ≤ 11
      split <;> omega
  have : k = 0 ∨ k = 1 := by omega
  refine this.elim (fun e => ?_) (fun e => ?_) <;> subst e
  · refine ⟨(c.set rax (L.addr 2)).set rdx 1, h1 (.step h2 (.step (y := (6, _)) (src1 rfl rfl rfl) (.step (y := (7, _)) (src1 rfl rfl rfl)
      (.step (y := (10, _)) (src1 rfl ?_ rfl) (.step (y := (11, _)) (src1 rfl rfl rfl) (.refl _)))))), rfl⟩
    unfold Stmt.exec
    dsimp only
    rw [show place demo6 7 (.str "end") = some 10 by decide]; rfl
  · exact ⟨(c.set rax (L.addr 2)).set rdx 2, h1 (.step h2 (.step (y := (9, _)) (src1 rfl rfl rfl) (.step (y := (10, _)) (src1 rfl rfl rfl)
      (.step (y := (11, _)) (src1 rfl rfl rfl) (.refl _))))), rfl⟩

/-! Without a jump: `mov(rcx, rax); neg(rcx); cmovns(rax, rcx)` leaves the absolute value of `rax` in `rax`. -/

def demo7 : List Stmt := [.mov rcx rax, .un .neg rcx, .cmov 9 rax rcx]

example : ((go demoEnv (calls demo7) (G.init demoCA)).map fun g => g.ca.code) = some [0x48, 0x89, 0xC1, 0x48, 0xF7, 0xD9, 0x48, 0x0F, 0x49, 0xC1] := by decide +kernel

theorem abs_eq (v : Word) (h : v ≠ BitVec.intMin 64) : (if (!(0 - v - 0#64).msb) = true then 0 - v - 0#64 else v).toNat = v.toInt.natAbs := by
  have h' : v.toNat ≠ 2 ^ 63 := fun e => h (BitVec.eq_of_toNat_eq e)
  have hv := v.isLt
  rw [BitVec.sub_zero, show (0 : Word) - v = -v from BitVec.zero_sub v, BitVec.msb_eq_decide, BitVec.toInt_eq_toNat_cond]
  by_cases h0 : 2 ^ 63 ≤ (-v).toNat
  · rw [if_neg (by simpa using h0)]
    rw [BitVec.toNat_neg] at h0
    split <;> omega
  · rw [if_pos (by simpa using h0)]
    rw [BitVec.toNat_neg] at h0 ⊢
    split <;> omega

example (L : Layout) (c : Core) (h : c.reg rax ≠ BitVec.intMin 64) : ∃ c', SrcRuns demo7 L (0, c) (3, c') ∧ (c'.reg rax).toNat = (c.reg rax).toInt.natAbs := by
  refine ⟨_, .step (y := (1, _)) (src1 rfl rfl rfl) (.step (y := (2, _)) (src1 rfl rfl rfl) (.step (y := (3, _)) (src1 rfl rfl ?_) (.refl _))), ?_⟩
  · split <;> rfl
  · rw [← abs_eq _ h]
    have e : ∀ f : Flags, X86.cond 9 f = !f.sf := by
      rintro ⟨a, b, c, d, e⟩
      revert a b c d e
      decide +kernel
    rw [e]
    show ((if (!(0 - c.reg rax - 0#64).msb) = true then _ else _ : Core).reg rax).toNat = _
    split <;> rfl

/-! `mov(rax, rcx); shl(rax, 2); add(rax, rcx)` is five times `rcx`. -/

def demo8 : List Stmt := [.mov rax rcx, .sh .shl rax 2, .alu 0 rax rcx]

example : ((go demoEnv (calls demo8) (G.init demoCA)).map fun g => g.ca.code) = some [0x48, 0x89, 0xC8, 0x48, 0xC1, 0xE0, 2, 0x48, 0x01, 0xC8] := by decide +kernel

example : ops (.sh .sar 13 1) = some ([0x49, 0xD1, 0xFD].map .db) ∧ ops (.sh .shr rdx 63) = some ([0x48, 0xC1, 0xEA, 63].map .db) := by decide +kernel

example (L : Layout) (c : Core) : ∃ c', SrcRuns demo8 L (0, c) (3, c') ∧ c'.reg rax = 5 * c.reg rcx := by
  refine ⟨_, .step (y := (1, _)) (src1 rfl rfl rfl) (.step (y := (2, _)) (src1 rfl rfl rfl) (.step (y := (3, _)) (src1 rfl rfl rfl) (.refl _))), ?_⟩
  show c.reg rcx <<< 2 + c.reg rcx + 0 = _
  apply BitVec.eq_of_toNat_eq
  simp [BitVec.toNat_add, BitVec.toNat_shiftLeft, BitVec.toNat_mul, Nat.shiftLeft_eq]
  omega

/-! A function: `mov(rax, rdi); add(rax, rsi); ret()`. -/

def demo9 : List Stmt := [.mov rax rdi, .alu 0 rax rsi, .ret]

theorem demo9_code : ((go demoEnv (calls demo9) (G.init demoCA)).map fun g => (g.ca.isAutoGrow, g.ca.top, g.ca.code)) =
    some (false, 0x1000, [0x48, 0x89, 0xF8, 0x48, 0x01, 0xF0, 0xC3]) := by decide +kernel

theorem demo9_sizes : ∀ i, i < 3 → ((go demoEnv (calls (demo9.take i)) (G.init demoCA)).map fun g => decide (g.ca.size + 6 ≤ 2 ^ 31)) = some true := by decide +kernel

/-- Called with the return address on the stack, these seven bytes return to the caller with the sum of `rdi` and `rsi` in `rax` and the stack pointer behind the return
address; the other registers and the memory are as they were. -/
example (u : Cpu) (hr : u.rip = 0x1000) (hm : CodeAt u.core.mem 0x1000 [0x48, 0x89, 0xF8, 0x48, 0x01, 0xF0, 0xC3]) :
    ∃ v, Cpu.Runs u v ∧ v.rip = read64 u.core.mem (u.core.reg rsp) ∧ v.core.reg rax = u.core.reg rdi + u.core.reg rsi ∧ v.core.reg rsp = u.core.reg rsp + 8 ∧
      (∀ r, r ≠ rax → r ≠ rsp → v.core.reg r = u.core.reg r) ∧ v.core.mem = u.core.mem := by
  obtain ⟨g, h, e⟩ := Option.map_eq_some_iff.1 demo9_code
  simp only [Prod.mk.injEq] at e
  have hb : Built demoEnv demoCA [] demo9 [] (G.init demoCA) g g g := by
    refine ⟨demo_new, trivial, rfl, ?_, ?_, (go_done _).1 h, trivial, (by decide), rfl, ?_⟩
    · intro s hs n hn
      exfalso
      revert s n
      decide
    · intro i g hi hg
      have := demo9_sizes i hi
      rw [(go_done _).2 hg] at this
      exact of_decide_eq_true (Option.some.inj this)
    · unfold Final
      rw [e.1]
      rfl
  obtain ⟨L, hL, -⟩ := c102_layout demoEnv demoEnv_sane demoCA [] demo9 [] _ g g g hb
  refine ⟨_, c102_function demoEnv demoEnv_sane demoCA [] demo9 [] _ g g g hb L hL (i := 2) u (by rw [hr, e.2.1]; rfl) (by rw [e.2.1, e.2.2]; exact hm)
    (.step (y := (1, _)) (src1 rfl rfl rfl) (.step (y := (2, _)) (src1 rfl rfl rfl) (.refl _))) rfl rfl rfl, rfl, ?_, rfl, ?_, rfl⟩
  · exact BitVec.add_zero _
  · intro r h1 h2
    show (if r = rsp then _ else if r = rax then _ else if r = rax then _ else u.core.reg r) = _
    rw [if_neg h2, if_neg h1, if_neg h1]

example : ops (.xchg rax rdx) = some ([0x48, 0x92].map .db) ∧ ops (.xchg 9 rax) = some ([0x49, 0x91].map .db) ∧ ops (.xchg rcx 10) = some ([0x4C, 0x87, 0xD1].map .db) := by decide +kernel

/-- Every `lea`, `add` to memory and 64-bit constant has a code: three of them. -/
example : ops (.lea rdi { base := some rsp, disp := 0x100 }) = some ([0x48, 0x8D, 0xBC, 0x24, 0, 1, 0, 0].map .db) ∧
    ops (.aluS 5 { index := some (⟨rbp, by decide⟩, 2), disp := 5 } rdx) = some ([0x48, 0x29, 0x14, 0xAD, 5, 0, 0, 0].map .db) ∧
    ops (.movI 12 0x123456789ABCDEF0) = some ([0x49, 0xBC, 0xF0, 0xDE, 0xBC, 0x9A, 0x78, 0x56, 0x34, 0x12].map .db) := by decide +kernel

end Prog
end Xbyak
