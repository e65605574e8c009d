import Verif.Props.Gp
import Verif.Props.Fixed
/-!
# x87 instructions with operands (C71)
-/
namespace Xbyak
namespace Mn
open E X86

/-! ## Register forms -/

/-- ESC opcode with ModRM = 11 n i. -/
def stByte (n i : BitVec 3) : Byte := 0xC0 ||| n.setWidth 8 <<< 3 ||| i.setWidth 8

theorem stByte_fields : ∀ n i : BitVec 3, (stByte n i).extractLsb' 6 2 = 3 ∧ (stByte n i).extractLsb' 3 3 = n ∧ (stByte n i).extractLsb' 0 3 = i := by decide +kernel

theorem esc_head : ∀ esc ∈ [(0xD8 : Byte), 0xD9, 0xDA, 0xDB, 0xDC, 0xDD, 0xDE, 0xDF], ∀ t, head (esc :: t) = some ({ opcode := esc }, t) := by
  intro esc h t
  simp only [List.mem_cons, List.not_mem_nil, or_false] at h
  rcases h with rfl | rfl | rfl | rfl | rfl | rfl | rfl | rfl <;> rfl

/-- How the two bytes are read. -/
theorem st_insn {esc : Byte} (h : esc ∈ [(0xD8 : Byte), 0xD9, 0xDA, 0xDB, 0xDC, 0xDD, 0xDE, 0xDF]) (n i : BitVec 3) (t : List Byte) :
    X86.insn false 1 (esc :: stByte n i :: t) = some (⟨{ opcode := esc }, n, .reg i⟩, t) := by
  unfold X86.insn
  rw [esc_head esc h]
  dsimp only
  unfold X86.modrm
  dsimp only
  obtain ⟨h1, h2, h3⟩ := stByte_fields n i
  rw [h1, h2, h3, if_pos rfl]

/-- The registers `l` (by number) are the operands of the form, `i` is the one that is encoded.  A single operand stands for ST(i). -/
def FAt (i : BitVec 3) : FOps → List (BitVec 5) → Bool
  | .st0i, [a, b] => a == 0 && b == i.setWidth 5
  | .sti0, [a, b] => b == 0 && a == i.setWidth 5
  | _, [a] => a == i.setWidth 5
  | _, _ => false

/-- What the manual has for the mnemonic with these operands: with one operand, the first form. -/
def fformsFor (name n : Nat) : List FReg := if n = 1 then (fregsOf name).take 1 else fregsOf name

/-- The entry ends in `opFpuFpu` or `opFpu` with arguments or constant registers. -/
def Entry.fpued (e : Entry) : Bool := match e.body with
  | .leaf (.fpuFpu (.a _) (.a _) _ _) | .leaf (.fpuFpu (.r _) (.a _) _ _) | .leaf (.fpuFpu (.a _) (.r _) _ _) | .leaf (.fpu (.a _) _ _) => true
  | _ => false

/-- Functions that accept `(sti, st0)` although the instruction has ST(0) as first operand only. -/
def Entry.first0 (e : Entry) : Bool := match e.body with
  | .leaf (.fpuFpu (.a _) (.a _) _ c2) => (c2 >>> 8) == 0
  | _ => false

def idxs : List (BitVec 5) := [0, 1, 2, 3, 4, 5, 6, 7]
theorem mem_idxs : ∀ i : BitVec 5, i.toNat < 8 → i ∈ idxs := by decide +kernel

def sts : Nat → List (List (BitVec 5))
  | 0 => [[]]
  | n + 1 => idxs.flatMap fun i => (sts n).map fun l => i :: l

theorem mem_sts : ∀ l : List (BitVec 5), (∀ i ∈ l, i.toNat < 8) → l ∈ sts l.length
  | [], _ => List.mem_singleton.mpr rfl
  | i :: l, h => List.mem_flatMap.mpr ⟨i, mem_idxs i (h i (List.mem_cons_self ..)), List.mem_map.mpr ⟨l, mem_sts l fun j hj => h j (List.mem_cons_of_mem _ hj), rfl⟩⟩

/-- The two bytes are one of the forms. -/
def fOk (name : Nat) (l : List (BitVec 5)) (w : List Act) : Bool :=
  (fformsFor name l.length).any fun f => [(0xD8 : Byte), 0xD9, 0xDA, 0xDB, 0xDC, 0xDD, 0xDE, 0xDF].contains f.esc &&
    ([0, 1, 2, 3, 4, 5, 6, 7] : List (BitVec 3)).any fun i => FAt i f.ops l && w == [.byte f.esc, .byte (stByte f.reg i)]

def Entry.fpuOk (e : Entry) : Bool := Nat.beq e.opt 0 && e.params.all (· == .fpu) && (sts e.params.length).all fun l =>
  (e.first0 && !(l[0]? == some 0)) || match e.body.run { ops := l.map fun i => .reg (.st i) } with
    | some m => (match m.res with | .ok () => fOk e.name l m.acts | .error _ => true)
    | none => true

set_option maxRecDepth 1000000 in
theorem fpuOk_check : (all.all fun e => !e.fpued || e.fpuOk) = true := by decide +kernel

/-! Only the numbers of the registers matter. -/

def Args.sts (g : Args) : Args := { ops := g.ops.map fun o => .reg (.st o.hd.idx) }

theorem sts_idx (g : Args) (i : Nat) : (g.sts.reg i).idx = (g.reg i).idx := by
  unfold Args.reg Args.op Args.sts
  rw [List.getElem?_map]
  cases g.ops[i]? <;> rfl

theorem opFpuFpu_idx {a b a' b' : Reg} (h : a.idx = a'.idx) (h' : b.idx = b'.idx) (c d : BitVec 16) : opFpuFpu a b c d = opFpuFpu a' b' c d := by
  unfold opFpuFpu; rw [h, h']
theorem opFpu_idx {a a' : Reg} (h : a.idx = a'.idx) (c d : Byte) : opFpu a c d = opFpu a' c d := by
  unfold opFpu; rw [h]

theorem run_sts {e : Entry} (hf : e.fpued = true) (g : Args) : e.body.run g = e.body.run g.sts := by
  unfold Entry.fpued at hf
  have hi := fun i => (sts_idx g i).symm
  split at hf <;> rename_i h
  · rw [h]; exact congrArg some (opFpuFpu_idx (hi _) (hi _) _ _)
  · rw [h]; exact congrArg some (opFpuFpu_idx rfl (hi _) _ _)
  · rw [h]; exact congrArg some (opFpuFpu_idx (hi _) rfl _ _)
  · rw [h]; exact congrArg some (opFpu_idx (hi _) _ _)
  · cases hf

/-- C71, register forms: an accepted call of a function that ends in `opFpuFpu` or `opFpu` writes ESC opcode and ModRM of a form that the manual
has for the mnemonic, for the registers given.  `h0`: see `c71_refuted_st0`. -/
theorem c71_reg_partial {e : Entry} {g : Args} {w : List Act} (hf : e.fpued = true) (hc : Calls e g w)
    (hn : ∀ (i : Nat) q, g.ops[i]? = some (.reg q) → q.Named) (h0 : e.first0 = true → (g.reg 0).idx = 0) (fill : Act → BitVec 32) :
    ∃ f ∈ fregsOf e.name, ∃ i : BitVec 3, (g.ops.length = 1 → (fregsOf e.name).head? = some f) ∧ FAt i f.ops (g.ops.map (·.hd.idx)) = true ∧
      ∀ t, X86.insn false 1 (concr fill w ++ t) = some (⟨{ opcode := f.esc }, f.reg, .reg i⟩, t) := by
  have hok := List.all_eq_true.mp fpuOk_check e hc.mem
  rw [hf, Bool.not_true, Bool.false_or] at hok
  unfold Entry.fpuOk at hok
  rw [Bool.and_eq_true, Bool.and_eq_true] at hok
  obtain ⟨⟨h1, h2⟩, hok⟩ := hok
  have h1 : e.opt = 0 := Nat.eq_of_beq_eq_true h1
  have hfl : e.params.filter Param.isOperand = e.params := by
    rw [List.filter_eq_self]
    intro p hp
    have := eq_of_beq (List.all_eq_true.mp h2 p hp)
    rw [this]; rfl
  obtain ⟨hl1, hl2, hft⟩ := hc.fits
  rw [hfl] at hl1 hl2 hft
  have hlen : g.ops.length = e.params.length := by omega
  have hm : g.ops.map (·.hd.idx) ∈ sts e.params.length := by
    rw [← hlen, ← List.length_map (f := fun o : Operand => o.hd.idx)]
    apply mem_sts
    intro i hi
    obtain ⟨o, ho, rfl⟩ := List.mem_map.mp hi
    obtain ⟨k, hk⟩ := List.mem_iff_getElem?.mp ho
    have hk' : k < e.params.length := by
      rw [← hlen]; exact (List.getElem?_eq_some_iff.mp hk).1
    have hp : e.params[k] = .fpu := eq_of_beq (List.all_eq_true.mp h2 _ (List.getElem_mem hk'))
    have := hft k .fpu o (by rw [List.getElem?_eq_getElem hk', hp]) hk
    simp only [Param.takes, Bool.and_eq_true, decide_eq_true_eq] at this
    cases o with
    | mem a => simp [Operand.isMEM] at this
    | reg q => exact (hn k q hk).small (.inr (.inr (.inr this.2)))
  have hok := List.all_eq_true.mp hok _ hm
  have hg : ({ ops := (g.ops.map (·.hd.idx)).map fun i => .reg (.st i) } : Args) = g.sts := by
    unfold Args.sts; rw [List.map_map]; rfl
  obtain ⟨m, hm, hw⟩ := hc.runs
  rw [hg, ← run_sts hf, hm] at hok
  have hz : (e.first0 && !((g.ops.map (·.hd.idx))[0]? == some 0)) = false := by
    cases h : e.first0
    · rfl
    · have h0 := h0 h
      have : 0 < g.ops.length := by
        unfold Entry.first0 at h
        split at h
        · cases hps : e.params with
          | nil =>
            exfalso
            have : ∀ e ∈ all, e.fpued = true → e.params ≠ [] := by
              intro e he hf hp
              have : (all.all fun e => !e.fpued || !e.params.isEmpty) = true := by
                set_option maxRecDepth 1000000 in decide +kernel
              have := List.all_eq_true.mp this e he
              rw [hf, hp] at this
              cases this
            exact this e hc.mem hf hps
          | cons p ps => rw [hlen, hps]; exact Nat.succ_pos _
        · cases h
      have : (g.ops.map (·.hd.idx))[0]? = some 0 := by
        rw [List.getElem?_map]
        unfold Args.reg Args.op at h0
        rw [List.getElem?_eq_getElem this] at h0 ⊢
        exact congrArg some h0
      rw [this]; rfl
  rw [hz, Bool.false_or] at hok
  dsimp only at hok
  rw [hw.2, hw.1] at hok
  dsimp only at hok
  unfold fOk at hok
  obtain ⟨f, hff, hok⟩ := List.any_eq_true.mp hok
  rw [Bool.and_eq_true] at hok
  obtain ⟨he, hok⟩ := hok
  obtain ⟨i, _, hok⟩ := List.any_eq_true.mp hok
  rw [Bool.and_eq_true] at hok
  have hwe : w = [(f.esc : Byte), stByte f.reg i].map .byte := eq_of_beq hok.2
  rw [List.length_map] at hff
  unfold fformsFor at hff
  refine ⟨f, ?_, i, ?_, hok.1, fun t => ?_⟩
  · split at hff
    · exact List.mem_of_mem_take hff
    · exact hff
  · intro h
    rw [if_pos h] at hff
    cases hr : fregsOf e.name with
    | nil => rw [hr] at hff; cases hff
    | cons x l => rw [hr, List.take_succ_cons, List.take_zero, List.mem_singleton] at hff; rw [hff]; rfl
  · rw [hwe, concr_bytes]
    exact st_insn (List.contains_iff_mem.mp he) _ _ _

/-! ## Memory forms -/

/-- The flags of an instruction with a plain opcode and a memory operand of any size. -/
def escTy : Ty := T_ALLOW_DIFF_SIZE ||| T_M_K

theorem ext_small : ∀ n : BitVec 8, n.toNat < 8 → (n.setWidth 5 : BitVec 5).getLsbD 3 = false ∧ (n.setWidth 5 : BitVec 5).getLsbD 4 = false ∧
    (Reg.gp (n.setWidth 5) 32).hasRex2 = false ∧ (Reg.gp (n.setWidth 5) 32).ext8 = false ∧ (n.setWidth 5 : BitVec 5).extractLsb' 0 3 = n.setWidth 3 := by decide +kernel

theorem gp32 : ∀ i : BitVec 5, (Reg.gp i 32).isREG 64 = false ∧ (Reg.gp i 32).isBit 96 = true ∧ (Reg.gp i 32).isBit 16 = false ∧ (Reg.gp i 32).isBit 8 = false := by decide +kernel

theorem mk5_lo : ∀ (a b : Bool) (c : BitVec 3), (X86.mk5 a b c).extractLsb' 0 3 = c := by decide +kernel

theorem esc_ok : ∀ c ∈ [(0xD8 : Byte), 0xD9, 0xDA, 0xDB, 0xDC, 0xDD, 0xDE, 0xDF], X86.OpcodeOK (mapOf escTy) c := by decide +kernel

theorem extMR_esc (a : Addr) {n : BitVec 8} (h : n.toNat < 8) : extMR (.gp (n.setWidth 5) 32) a = extMR (.st 0) a := by
  obtain ⟨h1, h2, h3, h4, _⟩ := ext_small n h
  unfold extMR
  dsimp only
  rw [h3, h4, (gp32 _).1, show (Reg.gp (n.setWidth 5) 32).idx = n.setWidth 5 from rfl, h1, h2]
  rfl

/-- `opFpuMem` writes what `opMR` with the opcode extension as register writes. -/
theorem opFpuMem_gives {a : Addr} {m16 m32 m64 ext m64e : Byte} (he : ext.toNat < 8) (he' : m64e.toNat < 8) {w : List Act}
    (hw : (opFpuMem a m16 m32 m64 ext m64e).Gives w ()) :
    ∃ code n : Byte, code ≠ 0 ∧ n.toNat < 8 ∧ code = (if a.o.isBit 16 then m16 else if a.o.isBit 32 then m32 else if a.o.isBit 64 then m64 else 0) ∧
      n = (if m64e ≠ 0 ∧ a.o.isBit 64 then m64e else ext) ∧ (opMR a (.gp (n.setWidth 5) 32) escTy code).Gives w () := by
  unfold opFpuMem at hw
  simp only [Enc.throwIf_bind] at hw
  obtain ⟨h1, h2, hw⟩ := hw
  obtain ⟨w1, v, w2, hr, hw2, rfl⟩ := Enc.gives_bind.mp hw
  clear hw
  obtain ⟨hk, rfl, rfl⟩ := (rex_mem a (.st 0) 0 _ _).mp hr
  clear hr
  obtain ⟨w3, rfl, hw⟩ := Enc.db_bind.mp hw2
  clear hw2
  generalize hc : (if a.o.isBit 16 then m16 else if a.o.isBit 32 then m32 else if a.o.isBit 64 then m64 else 0) = code at *
  generalize hn : (if m64e ≠ 0 ∧ a.o.isBit 64 = true then m64e else ext) = n at *
  have hn8 : n.toNat < 8 := by
    rw [← hn]; split
    · exact he'
    · exact he
  refine ⟨code, n, by simpa using h2, hn8, rfl, rfl, ?_⟩
  rw [opMR_gives _ _ _ _ (by decide), extMR_esc a hn8]
  obtain ⟨⟨k1, _⟩, ⟨k2, _⟩, _⟩ := hk
  refine ⟨h1, rfl, ⟨⟨k1, rfl⟩, ⟨k2, rfl⟩, fun _ => by decide⟩, w3, hw, ?_⟩
  rw [← rex_code _ _ _ _ _ (by decide)]
  have : opc escTy (.gp (n.setWidth 5) 32) code = code := by
    unfold opc
    rw [show ((escTy &&& T_SENTRY == 0 || escTy.has T_CODE1_IF1) && !(Reg.gp (n.setWidth 5) 32).isBit 8) = false from by
      rw [show (escTy &&& T_SENTRY == 0 || escTy.has T_CODE1_IF1) = false from by decide]; rfl]
    exact BitVec.or_zero
  rw [this, show codeBytes escTy (extMR (.st 0) a).rex2 code = [code] from by
    unfold codeBytes; cases (extMR (.st 0) a).rex2 <;> rfl]
  rw [List.map_append, List.append_assoc]
  rfl

/-- The entry ends in `opFpuMem`; the operand sizes and their forms. -/
def Entry.fmemOk (e : Entry) : Bool := match e.body with
  | .leaf (.fpuMem s m16 m32 m64 ext m64e) =>
    s == .a 0 && e.params == [.addr] && Nat.beq e.opt 0 && decide (ext.toNat < 8) && decide (m64e.toNat < 8) && memBits.all fun b =>
      let code := if b &&& 16 != 0 then m16 else if b &&& 32 != 0 then m32 else if b &&& 64 != 0 then m64 else 0
      let n := if m64e ≠ 0 ∧ (b &&& 64 != 0) then m64e else ext
      code == 0 || ((fmemsOf e.name).contains ⟨code, n.setWidth 3, b⟩ && [(0xD8 : Byte), 0xD9, 0xDA, 0xDB, 0xDC, 0xDD, 0xDE, 0xDF].contains code)
  | _ => true

set_option maxRecDepth 1000000 in
theorem fmemOk_check : (all.all Entry.fmemOk) = true := by decide +kernel

/-- The entry ends in `opFpuMem`. -/
def Entry.fpuMemd (e : Entry) : Bool := match e.body with
  | .leaf (.fpuMem ..) => true
  | _ => false

/-- C71, memory forms: an accepted call writes ESC opcode and ModRM.reg of the form that the manual has for the mnemonic and the size of
the operand, and the address, which is in the instruction as given. -/
theorem c71_mem {e : Entry} {g : Args} {w : List Act} (hf : e.fpuMemd = true) (hc : Calls e g w)
    {a : Addr} (hg : g.ops[0]? = some (.mem a)) (ha : a.WF) (hp : a.permitVsib = false) (hn : a.disp8N = 0) (ht : a.e.index.kind ≠ .tmm)
    (hb : a.o.bit ∈ memBits) (fill : Act → BitVec 32) :
    ∃ f ∈ fmemsOf e.name, f.bits = a.o.bit ∧ ∃ (h : Head) (m : X86.Mem), Esc f.esc h ∧ h.p67 = a.is32bit ∧ a.Means fill h m ∧
      ∀ t, X86.insn false 1 (concr fill w ++ t) = some (⟨h, f.reg, .mem m⟩, t) := by
  have hok := List.all_eq_true.mp fmemOk_check e hc.mem
  obtain ⟨m, hm, hw⟩ := hc.runs
  unfold Entry.fpuMemd at hf
  split at hf
  · rename_i s m16 m32 m64 ext m64e hbody
    unfold Entry.fmemOk at hok
    rw [hbody] at hok hm
    cases hm
    simp only [Bool.and_eq_true, decide_eq_true_eq] at hok
    obtain ⟨⟨⟨⟨⟨hs, _⟩, _⟩, h1⟩, h2⟩, hok⟩ := hok
    have hs : s = .a 0 := eq_of_beq hs
    subst hs
    have hw : (opFpuMem (g.mem 0) m16 m32 m64 ext m64e).Gives w () := hw
    rw [show g.mem 0 = a from by unfold Args.mem Args.op; rw [hg]; rfl] at hw
    obtain ⟨code, n, hz, hn8, hcode, hnn, hw⟩ := opFpuMem_gives h1 h2 hw
    have hok := List.all_eq_true.mp hok _ hb
    change (_ || _) = true at hok
    rw [show (if a.o.bit &&& 16 != 0 then m16 else if a.o.bit &&& 32 != 0 then m32 else if a.o.bit &&& 64 != 0 then m64 else 0) = code from hcode.symm,
      show (if m64e ≠ 0 ∧ (a.o.bit &&& 64 != 0) then m64e else ext) = n from hnn.symm, Bool.or_eq_true] at hok
    have hok := hok.resolve_left (by simpa using hz)
    rw [Bool.and_eq_true] at hok
    have hmem := List.contains_iff_mem.mp hok.2
    have hoc : opc escTy (.gp (n.setWidth 5) 32) code = code := by
      unfold opc
      rw [show ((escTy &&& T_SENTRY == 0 || escTy.has T_CODE1_IF1) && !(Reg.gp (n.setWidth 5) 32).isBit 8) = false from by
        rw [show (escTy &&& T_SENTRY == 0 || escTy.has T_CODE1_IF1) = false from by decide]; rfl]
      exact BitVec.or_zero
    obtain ⟨h, reg, mm, hh, hr, _, hi, hme⟩ := c34_mr a ha hp hn ht (.gp (n.setWidth 5) 32) (fun h => absurd rfl h) escTy code (by decide)
      (by rw [hoc]; exact esc_ok code hmem) hw fill
    rw [hoc] at hh
    have hreg : reg = n.setWidth 3 := by
      rw [← (ext_small n hn8).2.2.2.2, ← show _ = n.setWidth 5 from hr]
      exact (mk5_lo _ _ _).symm
    refine ⟨_, List.contains_iff_mem.mp hok.1, rfl, h, mm, ⟨hh.space, hh.map, hh.opcode, ?_, hh.pF2, hh.pF3, ?_, hh.seg⟩, hh.p67, hme, ?_⟩
    · rw [hh.p66]
      unfold p66of
      rw [(gp32 _).2.1, (gp32 _).2.2.1, Bool.not_true, Bool.and_false]
      rfl
    · rw [hh.w]; exact (gp32 _).1
    · rw [← hreg]; exact hi
  · cases hf

/-! ## Functions that write WAIT first -/

set_option maxRecDepth 1000000 in
private theorem line466 {e : Entry} (he : e ∈ all) (h : e.line = 466) :
    e = ⟨466, n!"fsave", [.addr], 0, .pre (fun _ => true) 0x9B (.leaf (.mr (.a 0) (.r (.gp 6 32)) 0 0xDD 0 none))⟩ := mem_line he h rfl
set_option maxRecDepth 1000000 in
private theorem line473 {e : Entry} (he : e ∈ all) (h : e.line = 473) :
    e = ⟨473, n!"fstcw", [.addr], 0, .pre (fun _ => true) 0x9B (.leaf (.mr (.a 0) (.r (.gp 7 32)) 0 0xD9 0 none))⟩ := mem_line he h rfl
set_option maxRecDepth 1000000 in
private theorem line474 {e : Entry} (he : e ∈ all) (h : e.line = 474) :
    e = ⟨474, n!"fstenv", [.addr], 0, .pre (fun _ => true) 0x9B (.leaf (.mr (.a 0) (.r (.gp 6 32)) 0 0xD9 0 none))⟩ := mem_line he h rfl
set_option maxRecDepth 1000000 in
private theorem line477 {e : Entry} (he : e ∈ all) (h : e.line = 477) :
    e = ⟨477, n!"fstsw", [.addr], 0, .pre (fun _ => true) 0x9B (.leaf (.mr (.a 0) (.r (.gp 7 32)) 0 0xDD 0 none))⟩ := mem_line he h rfl

set_option maxRecDepth 1000000 in
private theorem plain_mem : (⟨455, n!"fnsave", [.addr], 0, .leaf (.mr (.a 0) (.r (.gp 6 32)) 0 0xDD 0 none)⟩ : Entry) ∈ all ∧
    (⟨456, n!"fnstcw", [.addr], 0, .leaf (.mr (.a 0) (.r (.gp 7 32)) 0 0xD9 0 none)⟩ : Entry) ∈ all ∧
    (⟨457, n!"fnstenv", [.addr], 0, .leaf (.mr (.a 0) (.r (.gp 6 32)) 0 0xD9 0 none)⟩ : Entry) ∈ all ∧
    (⟨458, n!"fnstsw", [.addr], 0, .leaf (.mr (.a 0) (.r (.gp 7 32)) 0 0xDD 0 none)⟩ : Entry) ∈ all := by
  have h : ∀ {n : Nat} {x : Entry}, (all.find? fun e => Nat.beq e.line n) = some x → x ∈ all := fun h => List.mem_of_find?_eq_some h
  exact ⟨h (n := 455) rfl, h (n := 456) rfl, h (n := 457) rfl, h (n := 458) rfl⟩

private theorem wait_run {e e' : Entry} {g : Args} {w : List Act} {l : Leaf} {x : Byte} (he : e.body = .pre (fun _ => true) x (.leaf l))
    (he' : e'.body = .leaf l) (hp : e.params = e'.params) (ho : e.opt = e'.opt) (hm : e' ∈ all) (hc : Calls e g w) :
    ∃ w', w = .byte x :: w' ∧ Calls e' g w' := by
  obtain ⟨m, hr, hw⟩ := hc.runs
  rw [he] at hr
  cases hr
  obtain ⟨w', h1, hw'⟩ := Enc.dbIf_bind.mp hw
  exact ⟨w', h1, hm, hp ▸ ho ▸ hc.fits, _, by rw [he']; rfl, hw'⟩

/-- C71, `fsave`, `fstcw`, `fstenv`, `fstsw`: WAIT and then the instruction without check for exceptions (about which: `c69_partial`). -/
theorem c71_wait {e : Entry} {g : Args} {w : List Act} (hc : Calls e g w) (hl : e.line ∈ [466, 473, 474, 477]) :
    ∃ e' w', (e.name, e'.name) ∈ X86.waits ∧ w = .byte 0x9B :: w' ∧ Calls e' g w' ∧ e'.gped = true := by
  obtain ⟨p1, p2, p3, p4⟩ := plain_mem
  simp only [List.mem_cons, List.not_mem_nil, or_false] at hl
  rcases hl with hl | hl | hl | hl
  · have := line466 hc.mem hl
    obtain ⟨w', h1, h2⟩ := wait_run (by rw [this]) rfl (by rw [this]) (by rw [this]) p1 hc
    exact ⟨_, w', by rw [this]; decide +kernel, h1, h2, by decide +kernel⟩
  · have := line473 hc.mem hl
    obtain ⟨w', h1, h2⟩ := wait_run (by rw [this]) rfl (by rw [this]) (by rw [this]) p2 hc
    exact ⟨_, w', by rw [this]; decide +kernel, h1, h2, by decide +kernel⟩
  · have := line474 hc.mem hl
    obtain ⟨w', h1, h2⟩ := wait_run (by rw [this]) rfl (by rw [this]) (by rw [this]) p3 hc
    exact ⟨_, w', by rw [this]; decide +kernel, h1, h2, by decide +kernel⟩
  · have := line477 hc.mem hl
    obtain ⟨w', h1, h2⟩ := wait_run (by rw [this]) rfl (by rw [this]) (by rw [this]) p4 hc
    exact ⟨_, w', by rw [this]; decide +kernel, h1, h2, by decide +kernel⟩

/-! ## Every form can be written -/

private def atRax (b : Nat) : Operand := .mem { o := { idx := 0, ext8 := false, kind := .mem, bit := b }, e := { base := .gp 0 64, index := .nil, scale := 0, disp := 0 } }

/-- Operands for a form: with ST(i), i = 1. -/
private def stArgs : FOps → List Operand
  | .st0i => [.reg (.st 0), .reg (.st 1)]
  | .sti0 => [.reg (.st 1), .reg (.st 0)]
  | .sti => [.reg (.st 1)]

private def runs? (e : Entry) (g : Args) : Option (List Act) := match e.body.run g with
  | some ⟨w, .ok ()⟩ => some w
  | _ => none

private theorem calls_of {e : Entry} {g : Args} {w : List Act} (he : e ∈ all) (h : runs? e g = some w) 
    (hl : (e.params.all Param.isOperand && Nat.beq e.params.length g.ops.length && ((e.params.zip g.ops).all fun p => p.1.takes p.2)) = true) : Calls e g w := by
  rw [Bool.and_eq_true, Bool.and_eq_true] at hl
  obtain ⟨⟨h1, h2⟩, h3⟩ := hl
  have hf : e.params.filter Param.isOperand = e.params := List.filter_eq_self.mpr fun p hp => List.all_eq_true.mp h1 p hp
  have h2 : e.params.length = g.ops.length := Nat.eq_of_beq_eq_true h2
  refine ⟨he, ?_, ?_⟩
  · unfold Args.Fits
    dsimp only
    rw [hf]
    refine ⟨by omega, by omega, fun i p o hp ho => ?_⟩
    refine List.all_eq_true.mp h3 (p, o) ?_
    rw [List.mem_iff_getElem?]
    exact ⟨i, by rw [List.getElem?_zip_eq_some]; exact ⟨hp, ho⟩⟩
  · unfold runs? at h
    split at h
    · rename_i w' hr; cases h; exact ⟨_, hr, rfl, rfl⟩
    · cases h

private def canCall (name : Nat) (g : Args) (k : Entry → Bool) (ok : List Act → Bool) : Bool := all.any fun e => Nat.beq e.name name && k e && Nat.beq e.opt 0 &&
  (e.params.all Param.isOperand && Nat.beq e.params.length g.ops.length && ((e.params.zip g.ops).all fun p => p.1.takes p.2)) &&
  match runs? e g with | some w => ok w | none => false

private theorem canCall_of {name : Nat} {g : Args} {k : Entry → Bool} {ok : List Act → Bool} (h : canCall name g k ok = true) :
    ∃ e w, e.name = name ∧ k e = true ∧ Calls e g w ∧ ok w = true := by
  obtain ⟨e, he, h⟩ := List.any_eq_true.mp h
  simp only [Bool.and_eq_true] at h
  obtain ⟨⟨⟨⟨h1, h2⟩, _⟩, h4⟩, h5⟩ := h
  split at h5
  · rename_i w hw
    exact ⟨e, w, Nat.eq_of_beq_eq_true h1, h2, calls_of he hw (by simp only [Bool.and_eq_true]; exact h4), h5⟩
  · cases h5

private def firstByte (b : Byte) : List Act → Bool
  | .byte c :: _ => c == b
  | _ => false

set_option maxRecDepth 1000000 in
private theorem cover_check : ((fregs.all fun p => p.2.all fun f => canCall p.1 { ops := stArgs f.ops } Entry.fpued (firstByte f.esc)) &&
    fmems.all fun p => p.2.all fun f => canCall p.1 { ops := [atRax f.bits] } Entry.fpuMemd (firstByte f.esc)) = true := by decide +kernel

/-- Every form of the two tables is written for some call that C71 speaks about. -/
theorem c71_cover_reg (p : Nat × List FReg) (hp : p ∈ fregs) (f : FReg) (hf : f ∈ p.2) :
    ∃ e g w, e.name = p.1 ∧ e.fpued = true ∧ Calls e g w ∧ ∃ w', w = .byte f.esc :: w' := by
  obtain ⟨e, w, h1, h2, h3, h4⟩ := canCall_of (List.all_eq_true.mp (List.all_eq_true.mp (Bool.and_eq_true _ _ ▸ cover_check).1 p hp) f hf)
  refine ⟨e, _, w, h1, h2, h3, ?_⟩
  unfold firstByte at h4
  split at h4
  · exact ⟨_, by rw [eq_of_beq h4]⟩
  · cases h4

theorem c71_cover_mem (p : Nat × List FMem) (hp : p ∈ fmems) (f : FMem) (hf : f ∈ p.2) :
    ∃ e g w, e.name = p.1 ∧ e.fpuMemd = true ∧ Calls e g w ∧ ∃ w', w = .byte f.esc :: w' := by
  obtain ⟨e, w, h1, h2, h3, h4⟩ := canCall_of (List.all_eq_true.mp (List.all_eq_true.mp (Bool.and_eq_true _ _ ▸ cover_check).2 p hp) f hf)
  refine ⟨e, _, w, h1, h2, h3, ?_⟩
  unfold firstByte at h4
  split at h4
  · exact ⟨_, by rw [eq_of_beq h4]⟩
  · cases h4

/-- Operands for a form. -/
def stArgsAt (i : BitVec 3) : FOps → List Operand
  | .st0i => [.reg (.st 0), .reg (.st (i.setWidth 5))]
  | .sti0 => [.reg (.st (i.setWidth 5)), .reg (.st 0)]
  | .sti => [.reg (.st (i.setWidth 5))]

private def all3 : List (BitVec 3) := [0, 1, 2, 3, 4, 5, 6, 7]
private theorem mem_all3 : ∀ i : BitVec 3, i ∈ all3 := by decide +kernel

set_option maxRecDepth 1000000 in
private theorem write_check : (fregs.all fun p => p.2.all fun f => all3.all fun i => (f.ops == .sti0 && i == 0) ||
    canCall p.1 { ops := stArgsAt i f.ops } Entry.fpued (fun w => w == [.byte f.esc, .byte (stByte f.reg i)])) = true := by decide +kernel

/-- C86 for the x87 instructions on registers: every form of the manual can be written for every register and gives that form.  Missing: forms
with ST(i), ST(0) for i = 0 (see `c86_x87_refuted`). -/
theorem c86_x87_partial (p : Nat × List FReg) (hp : p ∈ fregs) (f : FReg) (hf : f ∈ p.2) (i : BitVec 3) (hi : f.ops = .sti0 → i ≠ 0) :
    ∃ e, e.name = p.1 ∧ Calls e { ops := stArgsAt i f.ops } [.byte f.esc, .byte (stByte f.reg i)] := by
  have h := List.all_eq_true.mp (List.all_eq_true.mp (List.all_eq_true.mp write_check p hp) f hf) i (mem_all3 i)
  rw [Bool.or_eq_true] at h
  rcases h with h | h
  · rw [Bool.and_eq_true] at h
    exact absurd (eq_of_beq h.2) (hi (eq_of_beq h.1))
  · obtain ⟨e, w, h1, -, h3, h4⟩ := canCall_of h
    rw [eq_of_beq h4] at h3
    exact ⟨e, h1, h3⟩

private def poppers : List Nat := [n!"faddp", n!"fdivp", n!"fdivrp", n!"fmulp", n!"fsubp", n!"fsubrp"]

set_option maxRecDepth 1000000 in
private theorem refuse_check : (all.all fun e => !(poppers.any (Nat.beq e.name)) || Nat.beq e.params.length 0 ||
    (runs? e { ops := e.params.map fun _ => .reg (.st 0) }).isNone) = true := by decide +kernel

/-- Bug: FADDP ST(0), ST(0) (DE C0) and its likes are instructions of the manual, but `faddp(st0, st0)` and `faddp(st0)` are refused: `opFpuFpu`
(xbyak.h 2486-2492) looks at the first register only when both are ST(0). -/
theorem c86_x87_refuted (e : Entry) (he : e ∈ all) (hn : e.name ∈ ([n!"faddp", n!"fdivp", n!"fdivrp", n!"fmulp", n!"fsubp", n!"fsubrp"] : List Nat))
    (hp : 0 < e.params.length) (w : List Act) : ¬Calls e { ops := e.params.map fun _ => .reg (.st 0) } w := by
  intro hc
  have h := List.all_eq_true.mp refuse_check e he
  simp only [Bool.or_eq_true, Bool.not_eq_true'] at h
  rcases h with (h | h) | h
  · have : poppers.any (Nat.beq e.name) = true := List.any_eq_true.mpr ⟨_, hn, Nat.beq_refl _⟩
    rw [this] at h; cases h
  · have := Nat.eq_of_beq_eq_true h; omega
  · obtain ⟨m, hr, hg⟩ := hc.runs
    obtain ⟨acts, res⟩ := m
    have hok : res = .ok () := hg.2
    subst hok
    unfold runs? at h
    rw [hr] at h
    cases h

/-! ## What is accepted although there is no such instruction -/

/-- Bug: `fcmovb(st1, st0)` (mnemonic.h 380) should be refused like `faddp(st0, st1)` is: the instruction writes to ST(0) only.  The second code passed
to `opFpuFpu` is 0x00C0 instead of 0, so 00 C1 is written, which is `add cl, al`.  Likewise the other FCMOVcc, and FCOMI, FCOMIP, FUCOMI, FUCOMIP
(399, 401, 495, 497). -/
theorem c71_refuted_st0 :
    Confused n!"fcmovb" n!"add" { ops := [.reg (.st 1), .reg (.st 0)] } { ops := [.reg (.gp 1 8), .reg (.gp 0 8)] } ∧
    Confused n!"fcomi" n!"add" { ops := [.reg (.st 1), .reg (.st 0)] } { ops := [.reg (.gp 1 8), .reg (.gp 6 8)] } ∧
    Confused n!"fucomip" n!"add" { ops := [.reg (.st 1), .reg (.st 0)] } { ops := [.reg (.gp 1 8), .reg (.gp 5 8)] } :=
  ⟨confused_of (l := 380) (l' := 11) (w := [0x00, 0xC1].map .byte) (by decide +kernel) (by decide +kernel),
   confused_of (l := 399) (l' := 11) (w := [0x00, 0xF1].map .byte) (by decide +kernel) (by decide +kernel),
   confused_of (l := 497) (l' := 11) (w := [0x00, 0xE9].map .byte) (by decide +kernel) (by decide +kernel)⟩

/-- The functions with this bug. -/
theorem c71_first0 : (all.filter Entry.first0).map (·.line) = [380, 382, 384, 386, 388, 390, 392, 394, 399, 401, 495, 497] := by decide +kernel

/-- `fsubp(st3, st0)` and `fsubr(st0, st2)` (484, 487), `fild(qword [rax])` (426) -/
example : callAt 484 { ops := [.reg (.st 3), .reg (.st 0)] } = some (n!"fsubp", [0xDE, 0xEB].map .byte) ∧
    callAt 487 { ops := [.reg (.st 0), .reg (.st 2)] } = some (n!"fsubr", [0xD8, 0xEA].map .byte) ∧
    callAt 426 { ops := [atRax 64] } = some (n!"fild", [0xDF, 0x28].map .byte) := by decide +kernel

end Mn
end Xbyak
