import Verif.Arith
/-!
# Specification: a small x86-64 machine

What the CPU does for the instructions that occur in function prologues and epilogues (Intel SDM vol. 2: PUSH, POP, ADD, SUB,
MOV, RET).  Flags are not represented.  Independent of the model of the library.
-/
set_option linter.unusedSimpArgs false

namespace Xbyak
namespace X86

/-- General register numbers. -/
abbrev Gpr := BitVec 4
def rax : Gpr := 0
def rcx : Gpr := 1
def rdx : Gpr := 2
def rbx : Gpr := 3
def rsp : Gpr := 4
def rbp : Gpr := 5
def rsi : Gpr := 6
def rdi : Gpr := 7

/-- Machine state: general registers, byte-addressed memory, instruction pointer. -/
structure Mach where
  reg : Gpr → Word
  mem : Word → Byte
  rip : Word

/-- Eight bytes at `a`, little endian. -/
def read64 (m : Word → Byte) (a : Word) : Word := BitVec.ofNat 64 (fromLE ((List.range 8).map fun i => m (a + BitVec.ofNat 64 i)))

/-- Store eight bytes at `a`, little endian. -/
def write64 (m : Word → Byte) (a v : Word) : Word → Byte := fun x =>
  if (x - a).toNat < 8 then (v >>> (8 * (x - a).toNat)).setWidth 8 else m x

def Mach.setReg (s : Mach) (r : Gpr) (v : Word) : Mach := { s with reg := fun q => if q = r then v else s.reg q }

/-- Instructions. -/
inductive Ins
  | push (r : Gpr)
  | pop (r : Gpr)
  | add (r : Gpr) (imm : Word)
  | sub (r : Gpr) (imm : Word)
  | mov (d s : Gpr)
  | ret
  deriving DecidableEq, Repr

/-- Effect of one instruction.  `push rsp` stores the old value; `pop rsp` keeps the loaded value. -/
def Ins.exec : Ins → Mach → Mach
  | .push r, s =>
    let sp := s.reg rsp - 8
    { (s.setReg rsp sp) with mem := write64 s.mem sp (s.reg r) }
  | .pop r, s => (s.setReg rsp (s.reg rsp + 8)).setReg r (read64 s.mem (s.reg rsp))
  | .add r i, s => s.setReg r (s.reg r + i)
  | .sub r i, s => s.setReg r (s.reg r - i)
  | .mov d q, s => s.setReg d (s.reg q)
  | .ret, s => { (s.setReg rsp (s.reg rsp + 8)) with rip := read64 s.mem (s.reg rsp) }

def execAll (l : List Ins) (s : Mach) : Mach := l.foldl (fun s i => i.exec s) s

/-- The calling conventions: System V AMD64 (psABI 3.2) and Microsoft x64. -/
inductive Abi | sysv | win
  deriving DecidableEq, Repr

/-- The first four integer argument registers. -/
def Abi.args : Abi → List Gpr
  | .sysv => [rdi, rsi, rdx, rcx]
  | .win => [rcx, rdx, 8, 9]

/-- Registers (other than rsp) that belong to the caller. -/
def Abi.calleeSaved : Abi → List Gpr
  | .sysv => [rbx, rbp, 12, 13, 14, 15]
  | .win => [rbx, rbp, rdi, rsi, 12, 13, 14, 15]

theorem n8 : (8 : Word).toNat = 8 := rfl
theorem n1 : (1 : Word).toNat = 1 := rfl

theorem read_write (m : Word → Byte) (a v : Word) : read64 (write64 m a v) a = v := by
  have : (List.range 8).map (fun i => write64 m a v (a + BitVec.ofNat 64 i)) = leBytes 8 v := by
    apply List.map_congr_left
    intro i hi
    have hi : i < 8 := List.mem_range.mp hi
    have e : (a + BitVec.ofNat 64 i - a).toNat = i := by
      rw [BitVec.add_comm, BitVec.add_sub_cancel, BitVec.toNat_ofNat]
      omega
    simp only [write64, e, hi, if_true]
  rw [read64, this, fromLE_leBytes]
  apply BitVec.eq_of_toNat_eq
  have := v.isLt
  simp only [BitVec.toNat_ofNat]
  omega

theorem read_congr {m m' : Word → Byte} {a : Word} (h : ∀ i, i < 8 → m (a + BitVec.ofNat 64 i) = m' (a + BitVec.ofNat 64 i)) :
    read64 m a = read64 m' a := by
  unfold read64
  rw [List.map_congr_left (g := fun i => m' (a + BitVec.ofNat 64 i)) fun i hi => h i (List.mem_range.mp hi)]

/-- The `n` bytes just below `a`. -/
def Below (a : Word) (n : Nat) (x : Word) : Prop := (a - 1 - x).toNat < n

theorem execAll_append (l l' : List Ins) (s : Mach) : execAll (l ++ l') s = execAll l' (execAll l s) := List.foldl_append

theorem setReg_eq (s : Mach) (r : Gpr) (v : Word) : (s.setReg r v).reg r = v := by simp [Mach.setReg]
theorem setReg_ne (s : Mach) {r q : Gpr} (v : Word) (h : q ≠ r) : (s.setReg r v).reg q = s.reg q := by simp [Mach.setReg, h]
theorem setReg_mem (s : Mach) (r : Gpr) (v : Word) : (s.setReg r v).mem = s.mem := rfl

/-- Effect of a sequence of pushes. -/
theorem pushes_eff (L : List Gpr) : ∀ (s : Mach), 8 * L.length < 2 ^ 63 → rsp ∉ L →
    let u := execAll (L.map .push) s
    u.reg rsp = s.reg rsp - BitVec.ofNat 64 (8 * L.length) ∧ (∀ r, r ≠ rsp → u.reg r = s.reg r) ∧ u.rip = s.rip ∧
      ∀ x, ¬ Below (s.reg rsp) (8 * L.length) x → u.mem x = s.mem x := by
  induction L with
  | nil =>
    intro s _ _
    refine ⟨?_, fun r _ => rfl, rfl, fun x _ => rfl⟩
    show s.reg rsp = s.reg rsp - _
    simp
  | cons a L ih =>
    intro s hl hn
    have hl' : 8 * L.length + 8 < 2 ^ 63 := by simpa [Nat.mul_add] using hl
    obtain ⟨e1, e2, e3, e4⟩ := ih ((Ins.push a).exec s) (by omega) (fun h => hn (List.mem_cons_of_mem _ h))
    have sp : ((Ins.push a).exec s).reg rsp = s.reg rsp - 8 := setReg_eq s rsp _
    refine ⟨?_, ?_, ?_, ?_⟩
    · show (execAll (L.map .push) ((Ins.push a).exec s)).reg rsp = _
      rw [e1, sp]
      apply BitVec.eq_of_toNat_eq
      simp only [List.length_cons, BitVec.toNat_sub, BitVec.toNat_ofNat, n8, n1]
      omega
    · intro r hr
      show (execAll (L.map .push) ((Ins.push a).exec s)).reg r = _
      rw [e2 r hr]
      exact setReg_ne s _ hr
    · exact e3
    · intro x hx
      show (execAll (L.map .push) ((Ins.push a).exec s)).mem x = _
      simp only [Below, List.length_cons] at hx
      rw [e4 x]
      · show write64 s.mem (s.reg rsp - 8) (s.reg a) x = _
        rw [write64, if_neg]
        simp only [BitVec.toNat_sub, BitVec.toNat_ofNat, n8, n1] at hx ⊢
        omega
      · rw [sp]
        simp only [Below, BitVec.toNat_sub, BitVec.toNat_ofNat, n8, n1] at hx ⊢
        omega

/-- Popping in the opposite order restores what was pushed, whatever happened in between, as long as the stack pointer and the
pushed bytes are as they were. -/
theorem pops_eff (L : List Gpr) : ∀ (s u : Mach), 8 * L.length < 2 ^ 63 → rsp ∉ L →
    u.reg rsp = (execAll (L.map .push) s).reg rsp →
    (∀ x, Below (s.reg rsp) (8 * L.length) x → u.mem x = (execAll (L.map .push) s).mem x) →
    let v := execAll (L.reverse.map .pop) u
    v.reg rsp = s.reg rsp ∧ v.mem = u.mem ∧ (∀ r, r ∈ L → v.reg r = s.reg r) ∧
      (∀ r, r ∉ L → r ≠ rsp → v.reg r = u.reg r) := by
  induction L with
  | nil => intro s u _ _ h _; exact ⟨h, rfl, fun r h => (by cases h), fun r _ _ => rfl⟩
  | cons a L ih =>
    intro s u hl hn hsp hmem
    have hl' : 8 * L.length + 8 < 2 ^ 63 := by simpa [Nat.mul_add] using hl
    have hnL : rsp ∉ L := fun h => hn (List.mem_cons_of_mem _ h)
    have ha : a ≠ rsp := fun h => hn (h ▸ List.mem_cons_self)
    have sp : ((Ins.push a).exec s).reg rsp = s.reg rsp - 8 := setReg_eq s rsp _
    have low : ∀ x, Below (s.reg rsp - 8) (8 * L.length) x → Below (s.reg rsp) (8 * (a :: L).length) x := by
      intro x hx
      simp only [Below, List.length_cons, BitVec.toNat_sub, BitVec.toNat_ofNat, n8, n1] at hx ⊢
      omega
    obtain ⟨i1, i2, i3, i4⟩ := ih ((Ins.push a).exec s) u (by omega) hnL hsp (fun x hx => hmem x (low x (sp ▸ hx)))
    obtain ⟨-, -, -, e4⟩ := pushes_eff L ((Ins.push a).exec s) (by omega) hnL
    have hv : execAll ((a :: L).reverse.map .pop) u = (Ins.pop a).exec (execAll (L.reverse.map .pop) u) := by
      rw [List.reverse_cons, List.map_append, execAll_append]; rfl
    dsimp only
    rw [hv]
    rw [sp] at i1
    have val : read64 (execAll (L.reverse.map .pop) u).mem (s.reg rsp - 8) = s.reg a := by
      rw [i2, ← read_write s.mem (s.reg rsp - 8) (s.reg a)]
      apply read_congr
      intro i hi
      have hb : Below (s.reg rsp) (8 * (a :: L).length) (s.reg rsp - 8 + BitVec.ofNat 64 i) := by
        simp only [Below, List.length_cons, BitVec.toNat_sub, BitVec.toNat_add, BitVec.toNat_ofNat, n8, n1]
        omega
      rw [hmem _ hb]
      refine (e4 _ ?_)
      rw [sp]
      simp only [Below, BitVec.toNat_sub, BitVec.toNat_add, BitVec.toNat_ofNat, n8, n1]
      omega
    refine ⟨?_, i2, ?_, ?_⟩
    · show ((Mach.setReg _ rsp _).setReg a _).reg rsp = _
      rw [setReg_ne _ _ (fun h => ha h.symm), setReg_eq, i1]
      apply BitVec.eq_of_toNat_eq
      simp only [BitVec.toNat_sub, BitVec.toNat_add, BitVec.toNat_ofNat, n8, n1]
      omega
    · intro r hr
      show ((Mach.setReg _ rsp _).setReg a _).reg r = _
      have hr' : r ≠ rsp := fun h => hn (h ▸ hr)
      by_cases h : r = a
      · rw [h, setReg_eq, i1, val]
      · rw [setReg_ne _ _ h, setReg_ne _ _ hr', i3 r ((List.mem_cons.mp hr).resolve_left h)]
        exact setReg_ne s _ hr'
    · intro r hr hr'
      show ((Mach.setReg _ rsp _).setReg a _).reg r = _
      have ha' : r ≠ a := fun h => hr (h ▸ List.mem_cons_self)
      rw [setReg_ne _ _ ha', setReg_ne _ _ hr',
        i4 r (fun h => hr (List.mem_cons_of_mem _ h)) hr']

end X86
end Xbyak
