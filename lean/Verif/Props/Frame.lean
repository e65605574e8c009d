import Verif.StackCode
import Verif.Spec.Run
import Verif.Props.StackFrame
import Verif.Props.Stack
/-!
# The bytes of StackFrame executed (C100)
-/
namespace Xbyak
namespace SF
open X86

theorem gprs (r : Gpr) : r = 0 ∨ r = 1 ∨ r = 2 ∨ r = 3 ∨ r = 4 ∨ r = 5 ∨ r = 6 ∨ r = 7 ∨ r = 8 ∨ r = 9 ∨ r = 10 ∨ r = 11 ∨ r = 12 ∨ r = 13 ∨ r = 14 ∨ r = 15 := by
  revert r; decide

def Call.bytes : Call → List Byte
  | .push r => (if r < 8 then [] else [0x41]) ++ [0x50 ||| (r &&& 7).setWidth 8]
  | .pop r => (if r < 8 then [] else [0x41]) ++ [0x58 ||| (r &&& 7).setWidth 8]
  | .sub i => if isInDisp8 i then [0x48, 0x83, 0xEC] ++ leBytes 1 (i.setWidth 64) else [0x48, 0x81, 0xEC] ++ leBytes 4 (i.setWidth 64)
  | .add i => if isInDisp8 i then [0x48, 0x83, 0xC4] ++ leBytes 1 (i.setWidth 64) else [0x48, 0x81, 0xC4] ++ leBytes 4 (i.setWidth 64)
  | .mov d s => [0x48 ||| (if s < 8 then 0 else 4) ||| (if d < 8 then 0 else 1), 0x89, 0xC0 ||| (s &&& 7).setWidth 8 <<< 3 ||| (d &&& 7).setWidth 8]
  | .ret => [0xC3]

/-- What is in front of the operands. -/
def Call.hd : Call → Head
  | .push r => if r < 8 then { opcode := 0x50 ||| (r &&& 7).setWidth 8 } else { rex := true, b3 := true, opcode := 0x50 ||| (r &&& 7).setWidth 8 }
  | .pop r => if r < 8 then { opcode := 0x58 ||| (r &&& 7).setWidth 8 } else { rex := true, b3 := true, opcode := 0x58 ||| (r &&& 7).setWidth 8 }
  | .sub i | .add i => { rex := true, w := true, opcode := if isInDisp8 i then 0x83 else 0x81 }
  | .mov d s => { rex := true, w := true, r3 := decide (8 ≤ s), b3 := decide (8 ≤ d), opcode := 0x89 }
  | .ret => { opcode := 0xC3 }

/-- The call is accepted, and the bytes are decoded to the instruction. -/
structure Good (c : Call) : Prop where
  gives : c.enc.Gives (c.bytes.map .byte) ()
  dec : ∀ t, ins (c.bytes ++ t) = some (c.ins, t)
  pos : 0 < c.bytes.length ∧ c.bytes.length ≤ 15

theorem ins_of {bs t : List Byte} {h : Head} {u : Ins × List Byte} (h1 : head bs = some (h, t)) (h2 : insOf h t = some u) : ins bs = some u := by
  unfold ins
  rw [h1]
  exact h2

theorem dec_of {c : Call} {t u : List Byte} (h1 : head (c.bytes ++ t) = some (c.hd, u)) (h2 : insOf c.hd u = some (c.ins, t)) :
    ins (c.bytes ++ t) = some (c.ins, t) := ins_of h1 h2

theorem good_push (r : Gpr) : Good (.push r) := by
  rcases gprs r with rfl | rfl | rfl | rfl | rfl | rfl | rfl | rfl | rfl | rfl | rfl | rfl | rfl | rfl | rfl | rfl
  all_goals exact ⟨⟨rfl, rfl⟩, fun t => dec_of (u := t) rfl rfl, by decide⟩

theorem good_pop (r : Gpr) : Good (.pop r) := by
  rcases gprs r with rfl | rfl | rfl | rfl | rfl | rfl | rfl | rfl | rfl | rfl | rfl | rfl | rfl | rfl | rfl | rfl
  all_goals exact ⟨⟨rfl, rfl⟩, fun t => dec_of (u := t) rfl rfl, by decide⟩

theorem good_ret : Good .ret := ⟨⟨rfl, rfl⟩, fun t => dec_of (u := t) rfl rfl, by decide⟩

theorem good_mov1 : Good (.mov 10 1) := ⟨⟨rfl, rfl⟩, fun t => dec_of (u := 0xCA :: t) rfl rfl, by decide⟩
theorem good_mov2 : Good (.mov 11 2) := ⟨⟨rfl, rfl⟩, fun t => dec_of (u := 0xD3 :: t) rfl rfl, by decide⟩

theorem immBit64 (i : BitVec 32) : E.getImmBit (r64 4) i = ⟨[], .ok (if isInDisp8 i then 8 else 32)⟩ := by
  unfold E.getImmBit
  cases h : isInDisp8 i
  · cases h' : E.isInDisp16relaxed i <;> rfl
  · rfl

theorem one_byte (i : BitVec 32) : leBytes 1 (i.setWidth 64) = [i.setWidth 8] := by
  show [((i.setWidth 64 : Word) >>> 0).setWidth 8] = _
  simp

theorem bytes_sub (i : BitVec 32) : Call.bytes (.sub i) = if isInDisp8 i then [0x48, 0x83, 0xEC] ++ leBytes 1 (i.setWidth 64) else [0x48, 0x81, 0xEC] ++ leBytes 4 (i.setWidth 64) := rfl

theorem good_sub (i : BitVec 32) : Good (.sub i) := by
  refine ⟨?_, fun t => ?_, ?_⟩
  · have e : Call.enc (.sub i) = (E.getImmBit (r64 4) i).bind _ := rfl
    rw [e, immBit64, bytes_sub]
    cases isInDisp8 i
    · exact ⟨rfl, rfl⟩
    · exact ⟨rfl, rfl⟩
  · rw [bytes_sub]
    cases h : isInDisp8 i
    · refine ins_of (h := { rex := true, w := true, opcode := 0x81 }) (t := 0xEC :: (leBytes 4 (i.setWidth 64) ++ t)) rfl ?_
      have e := imm_append 4 (i.setWidth 64) t
      rw [sext_field] at e
      show (match imm 4 (leBytes 4 (i.setWidth 64) ++ t) with
        | none => none
        | some (i, t) => if (5 : BitVec 3) = 0 then some (Ins.add 4 i, t) else if (5 : BitVec 3) = 5 then some (.sub 4 i, t) else none) = _
      rw [e]; rfl
    · refine ins_of (h := { rex := true, w := true, opcode := 0x83 }) (t := 0xEC :: (leBytes 1 (i.setWidth 64) ++ t)) rfl ?_
      have e := imm_append 1 (i.setWidth 64) t
      rw [one_byte, E.sext_byte i h] at e
      show (match imm 1 (leBytes 1 (i.setWidth 64) ++ t) with
        | none => none
        | some (i, t) => if (5 : BitVec 3) = 0 then some (Ins.add 4 i, t) else if (5 : BitVec 3) = 5 then some (.sub 4 i, t) else none) = _
      rw [one_byte, e]; rfl
  · rw [bytes_sub]
    cases isInDisp8 i
    · exact ⟨Nat.succ_pos _, (by decide : 7 ≤ 15)⟩
    · exact ⟨Nat.succ_pos _, (by decide : 4 ≤ 15)⟩

theorem bytes_add (i : BitVec 32) : Call.bytes (.add i) = if isInDisp8 i then [0x48, 0x83, 0xC4] ++ leBytes 1 (i.setWidth 64) else [0x48, 0x81, 0xC4] ++ leBytes 4 (i.setWidth 64) := rfl

theorem good_add (i : BitVec 32) : Good (.add i) := by
  refine ⟨?_, fun t => ?_, ?_⟩
  · have e : Call.enc (.add i) = (E.getImmBit (r64 4) i).bind _ := rfl
    rw [e, immBit64, bytes_add]
    cases isInDisp8 i
    · exact ⟨rfl, rfl⟩
    · exact ⟨rfl, rfl⟩
  · rw [bytes_add]
    cases h : isInDisp8 i
    · refine ins_of (h := { rex := true, w := true, opcode := 0x81 }) (t := 0xC4 :: (leBytes 4 (i.setWidth 64) ++ t)) rfl ?_
      have e := imm_append 4 (i.setWidth 64) t
      rw [sext_field] at e
      show (match imm 4 (leBytes 4 (i.setWidth 64) ++ t) with
        | none => none
        | some (i, t) => if (0 : BitVec 3) = 0 then some (Ins.add 4 i, t) else if (0 : BitVec 3) = 5 then some (.sub 4 i, t) else none) = _
      rw [e]; rfl
    · refine ins_of (h := { rex := true, w := true, opcode := 0x83 }) (t := 0xC4 :: (leBytes 1 (i.setWidth 64) ++ t)) rfl ?_
      have e := imm_append 1 (i.setWidth 64) t
      rw [one_byte, E.sext_byte i h] at e
      show (match imm 1 (leBytes 1 (i.setWidth 64) ++ t) with
        | none => none
        | some (i, t) => if (0 : BitVec 3) = 0 then some (Ins.add 4 i, t) else if (0 : BitVec 3) = 5 then some (.sub 4 i, t) else none) = _
      rw [one_byte, e]; rfl
  · rw [bytes_add]
    cases isInDisp8 i
    · exact ⟨Nat.succ_pos _, (by decide : 7 ≤ 15)⟩
    · exact ⟨Nat.succ_pos _, (by decide : 4 ≤ 15)⟩

/-- The calls StackFrame makes. -/
def Call.ok : Call → Bool
  | .mov d s => (d == 10 && s == 1) || (d == 11 && s == 2)
  | _ => true

theorem good {c : Call} (h : c.ok = true) : Good c := by
  cases c with
  | push r => exact good_push r
  | pop r => exact good_pop r
  | sub i => exact good_sub i
  | add i => exact good_add i
  | ret => exact good_ret
  | mov d s =>
    simp only [Call.ok, Bool.or_eq_true, Bool.and_eq_true, beq_iff_eq] at h
    rcases h with ⟨rfl, rfl⟩ | ⟨rfl, rfl⟩
    · exact good_mov1
    · exact good_mov2

/-- The bytes of the calls. -/
def bytesL (cs : List Call) : List Byte := (cs.map Call.bytes).flatten

theorem bytesL_cons (c : Call) (cs : List Call) : bytesL (c :: cs) = c.bytes ++ bytesL cs := rfl

theorem bytesL_append (cs ds : List Call) : bytesL (cs ++ ds) = bytesL cs ++ bytesL ds := by
  unfold bytesL; rw [List.map_append, List.flatten_append]

theorem encode_gives {cs : List Call} (h : ∀ c ∈ cs, c.ok = true) : (encode cs).Gives ((bytesL cs).map .byte) () := by
  induction cs with
  | nil => exact ⟨rfl, rfl⟩
  | cons c cs ih =>
    obtain ⟨a1, a2⟩ := (good (h c List.mem_cons_self)).gives
    obtain ⟨b1, b2⟩ := ih fun c hc => h c (List.mem_cons_of_mem _ hc)
    show (c.enc.bind fun _ => encode cs).Gives _ _
    rw [bytesL_cons, List.map_append]
    unfold Enc.bind
    rw [a2]
    exact ⟨by show c.enc.acts ++ (encode cs).acts = _; rw [a1, b1], b2⟩

theorem codeAt_left {m : Word → Byte} {a : Word} {bs cs : List Byte} (h : CodeAt m a (bs ++ cs)) : CodeAt m a bs := by
  intro i hi
  rw [h i (by rw [List.length_append]; omega), List.getElem_append_left hi]

theorem codeAt_right {m : Word → Byte} {a : Word} {bs cs : List Byte} (h : CodeAt m a (bs ++ cs)) : CodeAt m (a + BitVec.ofNat 64 bs.length) cs := by
  intro i hi
  have := h (bs.length + i) (by rw [List.length_append]; omega)
  rw [List.getElem_append_right (by omega)] at this
  rw [BitVec.add_assoc, ← BitVec.ofNat_add, this]
  congr 1
  omega

/-- The processor executes the instruction whose bytes are at the instruction pointer. -/
theorem step_of {c : Call} (h : c.ok = true) {s : Mach} (hc : CodeAt s.mem s.rip c.bytes) :
    s.step = some (c.ins.exec { s with rip := s.rip + BitVec.ofNat 64 c.bytes.length }) := by
  obtain ⟨-, hd, hp, hl⟩ := good h
  have hf : s.fetch = c.bytes ++ s.fetch.drop c.bytes.length := by
    have : s.fetch.take c.bytes.length = c.bytes := by
      apply List.ext_getElem
      · unfold Mach.fetch
        rw [List.length_take, List.length_map, List.length_range]
        omega
      · intro i h1 h2
        rw [List.getElem_take, ← hc i h2]
        unfold Mach.fetch
        rw [List.getElem_map, List.getElem_range]
    conv => lhs; rw [← List.take_append_drop c.bytes.length s.fetch, this]
  have hn : 15 - (s.fetch.drop c.bytes.length).length = c.bytes.length := by
    rw [List.length_drop]
    unfold Mach.fetch
    rw [List.length_map, List.length_range]
    omega
  have hi : ins s.fetch = some (c.ins, s.fetch.drop c.bytes.length) := by
    conv => lhs; rw [hf]
    exact hd _
  unfold Mach.step
  rw [hi]
  dsimp only
  rw [hn]

theorem Runs.trans {s u v : Mach} (h : Mach.Runs s u) (h' : Mach.Runs u v) : Mach.Runs s v := by
  induction h with
  | refl => exact h'
  | step a _ ih => exact .step a (ih h')

theorem exec_at {c : Call} (h : c ≠ .ret) (s : Mach) (a : Word) : c.ins.exec { s with rip := a } = { c.ins.exec s with rip := a } := by
  cases c with
  | ret => exact absurd rfl h
  | _ => rfl

theorem execs_at {cs : List Call} (h : Call.ret ∉ cs) (s : Mach) (a : Word) : exec cs { s with rip := a } = { exec cs s with rip := a } := by
  induction cs generalizing s with
  | nil => rfl
  | cons c cs ih =>
    show exec cs (c.ins.exec _) = { exec cs (c.ins.exec s) with rip := a }
    rw [exec_at (fun e => h (e ▸ List.mem_cons_self)), ih fun e => h (List.mem_cons_of_mem _ e)]

/-- Straight-line code is executed from its first to its last byte, as long as it does not overwrite itself. -/
theorem run_of {cs : List Call} (hr : Call.ret ∉ cs) (hok : ∀ c ∈ cs, c.ok = true) (s : Mach) (hc : CodeAt s.mem s.rip (bytesL cs))
    (safe : ∀ k i, i < (bytesL cs).length → (exec (cs.take k) s).mem (s.rip + BitVec.ofNat 64 i) = s.mem (s.rip + BitVec.ofNat 64 i)) :
    Mach.Runs s { exec cs s with rip := s.rip + BitVec.ofNat 64 (bytesL cs).length } := by
  induction cs generalizing s with
  | nil =>
    have : ({ exec [] s with rip := s.rip + BitVec.ofNat 64 (bytesL []).length } : Mach) = s := by
      show ({ s with rip := s.rip + 0#64 } : Mach) = s
      rw [BitVec.add_zero]
    rw [this]
    exact .refl s
  | cons c cs ih =>
    have hc' : c ≠ .ret := fun e => hr (e ▸ List.mem_cons_self)
    rw [bytesL_cons] at hc safe ⊢
    refine .step (step_of (hok c List.mem_cons_self) (codeAt_left hc)) ?_
    rw [exec_at hc']
    have e : ∀ k, exec ((c :: cs).take (k + 1)) s = exec (cs.take k) (c.ins.exec s) := fun k => rfl
    have hr' : Call.ret ∉ cs := fun e => hr (List.mem_cons_of_mem _ e)
    have := ih hr' (fun c hc => hok c (List.mem_cons_of_mem _ hc))
      { c.ins.exec s with rip := s.rip + BitVec.ofNat 64 c.bytes.length } ?_ ?_
    · dsimp only at this
      rw [execs_at hr'] at this
      dsimp only at this
      rw [BitVec.add_assoc, ← BitVec.ofNat_add, ← List.length_append] at this
      exact this
    · intro i hi
      have := codeAt_right hc i hi
      rw [← this]
      have s0 := safe 1 (c.bytes.length + i) (by rw [List.length_append]; omega)
      rw [BitVec.ofNat_add, ← BitVec.add_assoc] at s0
      exact s0
    · intro k i hi
      have hk : Call.ret ∉ cs.take k := fun e => hr' (List.mem_of_mem_take e)
      dsimp only
      rw [execs_at hk]
      have s0 := safe 1 (c.bytes.length + i) (by rw [List.length_append]; omega)
      have s1 := safe (k + 1) (c.bytes.length + i) (by rw [List.length_append]; omega)
      rw [BitVec.ofNat_add, ← BitVec.add_assoc] at s0 s1
      rw [e] at s1
      exact s1.trans s0.symm

def Call.isPush : Call → Bool
  | .push _ => true
  | _ => false

theorem mem_of_noPush {cs : List Call} (h : ∀ c ∈ cs, c.isPush = false) (s : Mach) : (exec cs s).mem = s.mem := by
  induction cs generalizing s with
  | nil => rfl
  | cons c cs ih =>
    show (exec cs (c.ins.exec s)).mem = s.mem
    rw [ih fun c hc => h c (List.mem_cons_of_mem _ hc)]
    have := h c List.mem_cons_self
    cases c <;> first | rfl | cases this

theorem prologue_calls (abi : Abi) (p n P : Nat) (c d : Bool) :
    ∃ R, prologue abi p n P c d = (((orderTbl abi).drop (noSaveNum abi)).take n).map .push ++ R ∧
      ∀ x ∈ R, x.isPush = false ∧ x.ok = true ∧ x ≠ .ret := by
  refine ⟨_, by unfold prologue; rw [List.append_assoc, List.append_assoc], ?_⟩
  intro x hx
  rcases List.mem_append.mp hx with hx | hx
  · split at hx
    · rw [List.mem_singleton.mp hx]; exact ⟨rfl, rfl, fun h => by cases h⟩
    · cases hx
  · rcases List.mem_append.mp hx with hx | hx
    all_goals
      split at hx
      · rw [List.mem_singleton.mp hx]; exact ⟨rfl, rfl, fun h => by cases h⟩
      · cases hx

theorem prologue_ok (abi : Abi) (p n P : Nat) (c d : Bool) : (∀ x ∈ prologue abi p n P c d, x.ok = true) ∧ Call.ret ∉ prologue abi p n P c d := by
  obtain ⟨R, e, h⟩ := prologue_calls abi p n P c d
  rw [e]
  constructor
  · intro x hx
    rcases List.mem_append.mp hx with hx | hx
    · obtain ⟨r, -, rfl⟩ := List.mem_map.mp hx; rfl
    · exact (h x hx).2.1
  · intro hx
    rcases List.mem_append.mp hx with hx | hx
    · obtain ⟨r, -, e⟩ := List.mem_map.mp hx; cases e
    · exact (h _ hx).2.2 rfl

/-- On the way, the prologue has written below the return address only. -/
theorem prologue_mem (abi : Abi) (p n P : Nat) (c d : Bool) (s : Mach) (k : Nat) (x : Word) (hx : ¬ Below (s.reg rsp) 64 x) :
    (exec ((prologue abi p n P c d).take k) s).mem x = s.mem x := by
  obtain ⟨R, e, h⟩ := prologue_calls abi p n P c d
  obtain ⟨k1, -, -, k4⟩ := saved_facts abi n
  generalize ((orderTbl abi).drop (noSaveNum abi)).take n = L at *
  rw [e, List.take_append, exec_append, mem_of_noPush fun c hc => (h c (List.mem_of_mem_take hc)).1, ← List.map_take]
  have hl : (L.take k).length ≤ 8 := by rw [List.length_take]; omega
  obtain ⟨-, -, -, v4⟩ := pushes_eff (L.take k) s (by omega) fun h => k1 (List.mem_of_mem_take h)
  have : exec ((L.take k).map .push) s = execAll ((L.take k).map .push) s := by
    unfold exec
    rw [List.map_map]
    rfl
  rw [this]
  apply v4
  intro hb
  apply hx
  unfold Below at hb ⊢
  omega

/-- The epilogue without the return. -/
theorem close_calls (f : Frame) (abi : Abi) : (∀ x ∈ f.close abi false, x.isPush = false ∧ x.ok = true ∧ x ≠ .ret) ∧
    f.close abi true = f.close abi false ++ [.ret] := by
  constructor
  · intro x hx
    unfold Frame.close at hx
    rcases List.mem_append.mp hx with hx | hx
    · rcases List.mem_append.mp hx with hx | hx
      · split at hx
        · rw [List.mem_singleton.mp hx]; exact ⟨rfl, rfl, fun h => by cases h⟩
        · cases hx
      · obtain ⟨r, -, rfl⟩ := List.mem_map.mp hx; exact ⟨rfl, rfl, fun h => by cases h⟩
    · cases hx
  · unfold Frame.close
    simp

theorem close_ok (f : Frame) (abi : Abi) (b : Bool) : ∀ x ∈ f.close abi b, x.ok = true := by
  obtain ⟨h1, h2⟩ := close_calls f abi
  intro x hx
  cases b
  · exact (h1 x hx).2.1
  · rw [h2] at hx
    rcases List.mem_append.mp hx with hx | hx
    · exact (h1 x hx).2.1
    · rw [List.mem_singleton.mp hx]; rfl

theorem close_run (f : Frame) (abi : Abi) (u : Mach) (hc : CodeAt u.mem u.rip (bytesL (f.close abi false))) :
    Mach.Runs u { exec (f.close abi false) u with rip := u.rip + BitVec.ofNat 64 (bytesL (f.close abi false)).length } ∧
      (exec (f.close abi false) u).mem = u.mem := by
  obtain ⟨h1, h2⟩ := close_calls f abi
  refine ⟨run_of (fun h => (h1 _ h).2.2 rfl) (fun c hc => (h1 c hc).2.1) u hc fun k i _ => ?_, mem_of_noPush (fun c hc => (h1 c hc).1) u⟩
  rw [mem_of_noPush fun c hc => (h1 c (List.mem_of_mem_take hc)).1]

theorem close_ret_run (f : Frame) (abi : Abi) (u : Mach) (hc : CodeAt u.mem u.rip (bytesL (f.close abi true))) :
    Mach.Runs u (exec (f.close abi true) u) ∧ (exec (f.close abi true) u).mem = u.mem := by
  obtain ⟨-, h2⟩ := close_calls f abi
  rw [h2, bytesL_append] at hc
  obtain ⟨a1, a2⟩ := close_run f abi u (codeAt_left hc)
  rw [h2, exec_append]
  refine ⟨Runs.trans a1 (.step (step_of (c := .ret) rfl ?_) ?_), a2⟩
  · dsimp only
    rw [a2]
    exact codeAt_right hc
  · exact .refl _

/-- What the body has to respect between `v` (behind the prologue of a function entered in `s`) and `u` (in front of the epilogue): rsp is as
it was, the bytes above the locals up to the end of the return address are as they were, and so are the callee-saved registers that are neither
parameters nor temporaries of the frame. -/
structure Respects (abi : Abi) (f : Frame) (locals : Int) (s v u : Mach) : Prop where
  sp : u.reg rsp = v.reg rsp
  mem : ∀ x, locals ≤ (x - v.reg rsp).toNat → (x - v.reg rsp).toNat < (s.reg rsp + 8 - v.reg rsp).toNat → u.mem x = v.mem x
  regs : ∀ r ∈ abi.calleeSaved, r ∉ f.p ++ f.t → u.reg r = v.reg r

/-- C100: the constructor and `close` write their code without an error. -/
theorem c100_written {abi : Abi} {pNum tNum ss : BitVec 32} {f : Frame} (h : make abi pNum tNum ss = .ok f) (b : Bool) :
    (∃ bs : List Byte, (encode f.prologue).Gives (bs.map .byte) ()) ∧ ∃ bs : List Byte, (encode (f.close abi b)).Gives (bs.map .byte) () := by
  obtain ⟨-, -, -, -, -, -, hpro, -⟩ := make_ok h
  refine ⟨⟨bytesL f.prologue, encode_gives ?_⟩, bytesL (f.close abi b), encode_gives (close_ok f abi b)⟩
  rw [hpro]
  exact (prologue_ok ..).1

theorem gives_inj {m : Enc Unit} {as bs : List Byte} (h : m.Gives (as.map .byte) ()) (h' : m.Gives (bs.map .byte) ()) : as = bs := by
  have := h.1.symm.trans h'.1
  induction as generalizing bs m with
  | nil => cases bs with
    | nil => rfl
    | cons b bs => cases this
  | cons a as ih => cases bs with
    | nil => cases this
    | cons b bs =>
      rw [List.map_cons, List.map_cons] at this
      injection this with h1 h2
      injection h1 with h1
      rw [h1, ih (m := ⟨as.map .byte, .ok ()⟩) ⟨rfl, rfl⟩ ⟨h2, rfl⟩ h2]

theorem prologue_run {abi : Abi} {pNum tNum ss : BitVec 32} {f : Frame} (h : make abi pNum tNum ss = .ok f) {pro : List Byte}
    (hp : (encode f.prologue).Gives (pro.map .byte) ()) (s : Mach) (hc : CodeAt s.mem s.rip pro)
    (hs : ∀ i, i < pro.length → ¬ Below (s.reg rsp) 64 (s.rip + BitVec.ofNat 64 i)) :
    Mach.Runs s { exec f.prologue s with rip := s.rip + BitVec.ofNat 64 pro.length } := by
  obtain ⟨-, -, -, -, -, -, hpro, -⟩ := make_ok h
  obtain ⟨o1, o2⟩ := prologue_ok abi pNum.toNat f.saveNum f.P f.useRcx f.useRdx
  rw [← hpro] at o1 o2
  have e := gives_inj hp (encode_gives o1)
  subst e
  refine run_of o2 o1 s hc fun k i hi => ?_
  rw [hpro]
  exact prologue_mem _ _ _ _ _ _ s k _ (hs i hi)

/-- C100: entering a function.  When the processor reaches the bytes written by the constructor, and they are not in the part of the stack they
write to, it executes them to the end; then `p[i]` holds the `i`-th integer argument, rsp is below the room for the locals, a multiple of 16 if
there are locals and the caller keeps the calling convention, and memory has changed in the 64 bytes below the return address at most. -/
theorem c100_enter {abi : Abi} {pNum tNum ss : BitVec 32} {f : Frame} (h : make abi pNum tNum ss = .ok f) {pro : List Byte}
    (hp : (encode f.prologue).Gives (pro.map .byte) ()) (s : Mach) (hc : CodeAt s.mem s.rip pro)
    (hs : ∀ i, i < pro.length → ¬ Below (s.reg rsp) 64 (s.rip + BitVec.ofNat 64 i)) :
    ∃ v, Mach.Runs s v ∧ v.rip = s.rip + BitVec.ofNat 64 pro.length ∧
      (∀ i, i < pNum.toNat → ∃ r a, f.p[i]? = some r ∧ abi.args[i]? = some a ∧ v.reg r = s.reg a) ∧
      (∃ n, n < 2 ^ 32 ∧ v.reg rsp = s.reg rsp - BitVec.ofNat 64 n ∧ ss.toInt ≤ n) ∧
      (0 < ss.toInt → (s.reg rsp).toNat % 16 = 8 → (v.reg rsp).toNat % 16 = 0) ∧
      (∀ x, ¬ Below (s.reg rsp) 64 x → v.mem x = s.mem x) := by
  obtain ⟨⟨n, n1, n2, n3, -⟩, l2⟩ := c50_locals h s
  exact ⟨_, prologue_run h hp s hc hs, rfl, fun i hi => c51_params h s i hi, ⟨n, n1, n2, n3⟩, fun h0 h8 => c50_align h h0 s h8, l2⟩

/-- C100: a whole function.  The processor executes the prologue; for any body that leads from the state behind it to one in front of the bytes
of `close()` and respects the frame, it then executes those and has returned: the instruction pointer is the return address the caller pushed,
rsp is above it, and the callee-saved registers are those of the caller. -/
theorem c100_return {abi : Abi} {pNum tNum ss : BitVec 32} {f : Frame} (h : make abi pNum tNum ss = .ok f) {pro epi : List Byte}
    (hp : (encode f.prologue).Gives (pro.map .byte) ()) (he : (encode (f.close abi true)).Gives (epi.map .byte) ())
    (s : Mach) (hc : CodeAt s.mem s.rip pro) (hs : ∀ i, i < pro.length → ¬ Below (s.reg rsp) 64 (s.rip + BitVec.ofNat 64 i)) :
    ∃ v, Mach.Runs s v ∧ v.rip = s.rip + BitVec.ofNat 64 pro.length ∧ ∀ u, CodeAt u.mem u.rip epi → Respects abi f ss.toInt s v u →
      ∃ z, Mach.Runs u z ∧ (Mach.Runs v u → Mach.Runs s z) ∧ z.rip = read64 s.mem (s.reg rsp) ∧ z.reg rsp = s.reg rsp + 8 ∧
        (∀ r ∈ abi.calleeSaved, z.reg r = s.reg r) ∧ z.mem = u.mem := by
  have hr := prologue_run h hp s hc hs
  refine ⟨_, hr, rfl, fun u cu hu => ?_⟩
  have e := gives_inj he (encode_gives (close_ok f abi true))
  subst e
  obtain ⟨a1, a2⟩ := close_ret_run f abi u cu
  obtain ⟨b1, b2, b3⟩ := c50_preserve h s (fun _ => u) hu.sp hu.mem hu.regs
  exact ⟨_, a1, fun r => Runs.trans hr (Runs.trans r a1), b2, b1, b3, a2⟩

/-- C100: `close(false)`: the same, but the processor goes on behind the bytes, with rsp at the return address. -/
theorem c100_close {abi : Abi} {pNum tNum ss : BitVec 32} {f : Frame} (h : make abi pNum tNum ss = .ok f) {pro epi : List Byte}
    (hp : (encode f.prologue).Gives (pro.map .byte) ()) (he : (encode (f.close abi false)).Gives (epi.map .byte) ())
    (s : Mach) (hc : CodeAt s.mem s.rip pro) (hs : ∀ i, i < pro.length → ¬ Below (s.reg rsp) 64 (s.rip + BitVec.ofNat 64 i)) :
    ∃ v, Mach.Runs s v ∧ v.rip = s.rip + BitVec.ofNat 64 pro.length ∧ ∀ u, CodeAt u.mem u.rip epi → Respects abi f ss.toInt s v u →
      ∃ z, Mach.Runs u z ∧ (Mach.Runs v u → Mach.Runs s z) ∧ z.rip = u.rip + BitVec.ofNat 64 epi.length ∧ z.reg rsp = s.reg rsp ∧
        read64 z.mem (z.reg rsp) = read64 s.mem (s.reg rsp) ∧ (∀ r ∈ abi.calleeSaved, z.reg r = s.reg r) ∧ z.mem = u.mem := by
  have hr := prologue_run h hp s hc hs
  refine ⟨_, hr, rfl, fun u cu hu => ?_⟩
  have e := gives_inj he (encode_gives (close_ok f abi false))
  subst e
  obtain ⟨a1, a2⟩ := close_run f abi u cu
  obtain ⟨b1, b2, b3⟩ := c50_preserve h s (fun _ => u) hu.sp hu.mem hu.regs
  rw [(close_calls f abi).2, exec_append] at b1 b2 b3
  have b1' : (exec (f.close abi false) u).reg rsp + 8 = s.reg rsp + 8 := (ret_sp _).symm.trans b1
  have e1 : (exec (f.close abi false) u).reg rsp = s.reg rsp := by
    have := congrArg (· - (8 : Word)) b1'
    simpa [BitVec.add_sub_cancel] using this
  refine ⟨_, a1, fun r => Runs.trans hr (Runs.trans r a1), rfl, e1, b2, fun r hr => ?_, a2⟩
  have hne : r ≠ rsp := by
    have : ∀ r ∈ abi.calleeSaved, r ≠ rsp := by cases abi <;> decide
    exact this r hr
  exact (ret_reg _ hne).symm.trans (b3 r hr)

/-! An example: three parameters, five temporaries and room for 100 bytes; the prologue is `push rbx; push rbp; sub rsp, 104; mov r11, rdx`. -/
example : (encode [.push 3, .push 5, .sub 104, .mov 11 2]).Gives ([0x53, 0x55, 0x48, 0x83, 0xEC, 0x68, 0x49, 0x89, 0xD3].map .byte) () := by
  exact ⟨by decide +kernel, rfl⟩

/-- A machine with that code at 1000 and the stack at 5000. -/
def demoMach : Mach :=
  { reg := fun r => if r = rsp then 5000 else r.setWidth 64
    mem := fun x => ([0x53, 0x55, 0x48, 0x83, 0xEC, 0x68, 0x49, 0x89, 0xD3] : List Byte).getD (x.toNat - 1000) 0
    rip := 1000 }

example : CodeAt demoMach.mem demoMach.rip [0x53, 0x55, 0x48, 0x83, 0xEC, 0x68, 0x49, 0x89, 0xD3] ∧
    ∀ i, i < 9 → ¬ Below (demoMach.reg rsp) 64 (demoMach.rip + BitVec.ofNat 64 i) := by
  constructor
  · show ∀ i : Nat, ∀ h : i < 9, _
    decide +kernel
  · unfold Below
    decide +kernel

end SF
end Xbyak
