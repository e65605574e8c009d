import Verif.Spec.Cond
import Verif.Spec.Direct
import Verif.Spec.Machine
import Verif.Gen
/-!
# Specification: programs with labels, and a processor that runs their bytes

Two semantics that do not know each other.

* The program as written: a list of statements, a position in the list, registers, flags and memory.  A jump continues at the statement that defines its label,
  which is a `Label` object or a string.
* The processor: it decodes the bytes at the instruction pointer (Intel SDM vol. 2: MOV 89, 8B, B8+r, C7 /0; LEA 8D; ADD, OR, ADC, SBB, AND, SUB, XOR, CMP 01+8n, 03+8n, 05+8n, 81, 83;
  TEST 85; INC, DEC FF /0, /1; NOT, NEG F7 /2, /3; CMOVcc; SHL, SHR, SAR C1, D1; XCHG 87, 90+r; NOP; Jcc, JMP, LOOP, JRCXZ, CALL, RET, PUSH, POP, FF /2, FF /4; 64-bit operands), moves the instruction pointer behind the instruction and executes it.  Anything else is not
  decoded: the machine is stuck.

They share what an operation does to registers and flags (`alu`).  The auxiliary carry flag is not represented.
-/
namespace Xbyak
namespace X86

inductive Sh
  | shl | shr | sar
  deriving DecidableEq, Repr

/-- Registers, flags and memory.  `hw` is the overflow flag after a shift by more than one bit, which the manual leaves undefined: any function of operation, operand and count. -/
structure Core where
  reg : Gpr → Word
  fl : Flags
  mem : Word → Byte
  hw : Sh → Word → Nat → Bool

def Core.set (c : Core) (r : Gpr) (v : Word) : Core := { c with reg := fun q => if q = r then v else c.reg q }

/-- An even number of ones in the low byte. -/
def parity (v : Word) : Bool := decide (((List.range 8).filter fun i => v.getLsbD i).length % 2 = 0)

def flagsOf (v : Word) (cf of : Bool) : Flags := { cf, zf := v == 0, sf := v.msb, of, pf := parity v }

def addC (a b : Word) (c : Bool) : Word × Flags :=
  let r := a + b + BitVec.ofNat 64 c.toNat
  (r, flagsOf r (decide (2 ^ 64 ≤ a.toNat + b.toNat + c.toNat)) (a.msb == b.msb && r.msb != a.msb))

def subC (a b : Word) (c : Bool) : Word × Flags :=
  let r := a - b - BitVec.ofNat 64 c.toNat
  (r, flagsOf r (decide (a.toNat < b.toNat + c.toNat)) (a.msb != b.msb && r.msb != a.msb))

/-- Result and flags: 0 ADD, 1 OR, 2 ADC, 3 SBB, 4 AND, 5 SUB, 6 XOR, 7 CMP. -/
def alu (op : BitVec 3) (f : Flags) (a b : Word) : Word × Flags :=
  match op.toNat with
  | 0 => addC a b false
  | 1 => (a ||| b, flagsOf (a ||| b) false false)
  | 2 => addC a b f.cf
  | 3 => subC a b f.cf
  | 4 => (a &&& b, flagsOf (a &&& b) false false)
  | 6 => (a ^^^ b, flagsOf (a ^^^ b) false false)
  | _ => subC a b false

/-- CMP writes the flags only. -/
def Core.alu (c : Core) (op : BitVec 3) (d : Gpr) (v : Word) : Core :=
  let r := X86.alu op c.fl (c.reg d) v
  { (if op = 7 then c else c.set d r.1) with fl := r.2 }

/-- PUSH of a value. -/
def Core.push (c : Core) (v : Word) : Core :=
  let sp := c.reg rsp - 8
  { (c.set rsp sp) with mem := write64 c.mem sp v }

/-- POP into a register; `pop rsp` keeps the loaded value. -/
def Core.pop (c : Core) (r : Gpr) : Core := (c.set rsp (c.reg rsp + 8)).set r (read64 c.mem (c.reg rsp))

/-- CMP writes the flags only; the destination is in memory. -/
def Core.aluMem (c : Core) (op : BitVec 3) (a v : Word) : Core :=
  let r := X86.alu op c.fl (read64 c.mem a) v
  { (if op = 7 then c else { c with mem := write64 c.mem a r.1 }) with fl := r.2 }

/-- INC, DEC, NOT, NEG. -/
inductive Un
  | inc | dec | not | neg
  deriving DecidableEq, Repr

/-- INC and DEC keep the carry, NOT keeps all flags, NEG sets the carry if the operand is not zero. -/
def un (op : Un) (f : Flags) (a : Word) : Word × Flags :=
  match op with
  | .inc => ((addC a 1 false).1, { (addC a 1 false).2 with cf := f.cf })
  | .dec => ((subC a 1 false).1, { (subC a 1 false).2 with cf := f.cf })
  | .not => (~~~a, f)
  | .neg => subC 0 a false

def Core.un (c : Core) (op : Un) (d : Gpr) : Core :=
  let r := X86.un op c.fl (c.reg d)
  { (c.set d r.1) with fl := r.2 }

/-- The result of a shift. -/
def shVal (op : Sh) (a : Word) (n : Nat) : Word :=
  match op with
  | .shl => a <<< n
  | .shr => a >>> n
  | .sar => a.sshiftRight n

/-- The last bit shifted out. -/
def shOut (op : Sh) (a : Word) (n : Nat) : Bool :=
  match op with
  | .shl => a.getLsbD (64 - n)
  | _ => a.getLsbD (n - 1)

/-- The overflow flag after a shift by one. -/
def shOver (op : Sh) (a : Word) : Bool :=
  match op with
  | .shl => (a <<< 1).msb != a.msb
  | .shr => a.msb
  | .sar => false

/-- A shift by nothing does not touch the flags. -/
def Core.sh (c : Core) (op : Sh) (d : Gpr) (n : Nat) : Core :=
  if n = 0 then c
  else { (c.set d (shVal op (c.reg d) n)) with fl := flagsOf (shVal op (c.reg d) n) (shOut op (c.reg d) n) (if n = 1 then shOver op (c.reg d) else c.hw op (c.reg d) n) }

def Core.xchg (c : Core) (a b : Gpr) : Core := (c.set a (c.reg b)).set b (c.reg a)

/-- TEST: the flags of AND. -/
def Core.test (c : Core) (a b : Word) : Core := { c with fl := flagsOf (a &&& b) false false }

/-! ## The program as written -/

/-- `[base + index * 2 ^ scale + disp]`; `rsp` cannot be an index. -/
structure MemOp where
  base : Option Gpr := none
  index : Option ({ r : Gpr // r ≠ rsp } × BitVec 2) := none
  disp : BitVec 32 := 0
  deriving DecidableEq, Repr

/-- The address it means. -/
def MemOp.ea (m : MemOp) (g : Gpr → Word) : Word :=
  (m.base.map g).getD 0 + (m.index.map fun i => g i.1 <<< i.2.toNat).getD 0 + m.disp.signExtend 64

inductive Stmt
  | label (n : LRef)
  | mov (d s : Gpr)
  | alu (op : BitVec 3) (d s : Gpr)
  | aluI (op : BitVec 3) (d : Gpr) (i : BitVec 32)
  | jmp (n : LRef) (ty : LabelType)
  | jcc (cc : BitVec 4) (n : LRef) (ty : LabelType)
  | loop (n : LRef)
  | jrcxz (n : LRef)
  | enter
  | leave
  | push (r : Gpr)
  | pop (r : Gpr)
  | call (n : LRef)
  | ret
  | movI (d : Gpr) (v : Word)
  | load (d : Gpr) (m : MemOp)
  | store (m : MemOp) (s : Gpr)
  | lea (d : Gpr) (m : MemOp)
  | aluL (op : BitVec 3) (d : Gpr) (m : MemOp)
  | aluS (op : BitVec 3) (m : MemOp) (s : Gpr)
  | movL (d : Gpr) (n : LRef)
  | jmpR (r : Gpr)
  | callR (r : Gpr)
  | jmpM (m : MemOp)
  | callM (m : MemOp)
  | leaL (d : Gpr) (h : Nat)
  | loadL (d : Gpr) (h : Nat)
  | addrOf (n : LRef)
  | db (b : Byte)
  | test (d s : Gpr)
  | un (op : Un) (d : Gpr)
  | cmov (cc : BitVec 4) (d s : Gpr)
  | sh (op : Sh) (d : Gpr) (i : BitVec 32)
  | xchg (a b : Gpr)
  | nop
  deriving DecidableEq, Repr

/-- The scopes of dot labels that are open in front of statement `i`, innermost first.  0 is the one around the program, `k + 1` the one opened by
statement `k`. -/
def scopesAt (p : List Stmt) : Nat → List Nat
  | 0 => [0]
  | i + 1 =>
    match p[i]? with
    | some .enter => (i + 1) :: scopesAt p i
    | some .leave => (scopesAt p i).tail
    | _ => scopesAt p i

/-- The last anonymous label in front of statement `i`. -/
def anonBefore (p : List Stmt) : Nat → Option Nat
  | 0 => none
  | i + 1 => if p[i]? = some (.label (.str "@@")) then some i else anonBefore p i

/-- The statement that defines the label used in statement `i`.  `@b` and `@f` mean the nearest anonymous label backwards and forwards, a name with a
dot in front means the label of that name in the same scope. -/
def place (p : List Stmt) (i : Nat) : LRef → Option Nat
  | .obj h => p.findIdx? fun s => s == .label (.obj h)
  | .str n =>
    if n = "@@" then none
    else if n = "@b" then anonBefore p i
    else if n = "@f" then (List.range p.length).find? fun j => decide (i ≤ j) && p[j]? == some (.label (.str "@@"))
    else if n.toList.head? = some '.' then
      match (scopesAt p i).head? with
      | none => none
      | some s => (List.range p.length).find? fun j => p[j]? == some (.label (.str n)) && (scopesAt p j).head? == some s
    else p.findIdx? fun s => s == .label (.str n)

/-- Where the program is in memory: the address of each statement and of the end, and the addresses that hold code. -/
structure Layout where
  addr : Nat → Word
  code : Word → Prop

/-- One statement of the program `p`, but for the return and indirect jumps. -/
def Stmt.exec (p : List Stmt) (L : Layout) (pc : Nat) (c : Core) : Stmt → Option (Nat × Core)
  | .label _ | .enter | .leave | .nop => some (pc + 1, c)
  | .mov d s => some (pc + 1, c.set d (c.reg s))
  | .alu op d s => some (pc + 1, c.alu op d (c.reg s))
  | .aluI op d i => some (pc + 1, c.alu op d (i.signExtend 64))
  | .jmp n _ => (place p pc n).map fun j => (j, c)
  | .jcc cc n _ => if cond cc c.fl then (place p pc n).map fun j => (j, c) else some (pc + 1, c)
  | .loop n =>
    let c := c.set rcx (c.reg rcx - 1)
    if c.reg rcx = 0 then some (pc + 1, c) else (place p pc n).map fun j => (j, c)
  | .jrcxz n => if c.reg rcx = 0 then (place p pc n).map fun j => (j, c) else some (pc + 1, c)
  | .push r => some (pc + 1, c.push (c.reg r))
  | .pop r => some (pc + 1, c.pop r)
  | .call n => (place p pc n).map fun j => (j, c.push (L.addr (pc + 1)))
  | .ret | .jmpR _ | .callR _ | .jmpM _ | .callM _ => none
  -- data
  | .addrOf _ | .db _ => none
  -- relative to rip: a `Label` object
  | .leaL d h => (place p pc (.obj h)).map fun j => (pc + 1, c.set d (L.addr j))
  | .loadL d h => (place p pc (.obj h)).map fun j => (pc + 1, c.set d (read64 c.mem (L.addr j)))
  | .movL d n => (place p pc n).map fun j => (pc + 1, c.set d (L.addr j))
  | .test d s => some (pc + 1, c.test (c.reg d) (c.reg s))
  | .un op d => some (pc + 1, c.un op d)
  | .cmov cc d s => some (pc + 1, if cond cc c.fl then c.set d (c.reg s) else c)
  -- the count is taken modulo 64
  | .sh op d i => some (pc + 1, c.sh op d (i.toNat % 64))
  | .xchg a b => some (pc + 1, c.xchg a b)
  | .movI d v => some (pc + 1, c.set d v)
  | .load d m => some (pc + 1, c.set d (read64 c.mem (m.ea c.reg)))
  | .store m s => some (pc + 1, { c with mem := write64 c.mem (m.ea c.reg) (c.reg s) })
  | .lea d m => some (pc + 1, c.set d (m.ea c.reg))
  | .aluL op d m => some (pc + 1, c.alu op d (read64 c.mem (m.ea c.reg)))
  | .aluS op m s => some (pc + 1, c.aluMem op (m.ea c.reg) (c.reg s))

/-- Where the return and the indirect jumps go, and the state there; `next` is the address of the next statement. -/
def Stmt.dest (next : Word) (c : Core) : Stmt → Option (Word × Core)
  | .ret => some (read64 c.mem (c.reg rsp), c.set rsp (c.reg rsp + 8))
  | .jmpR r => some (c.reg r, c)
  | .callR r => some (c.reg r, c.push next)
  | .jmpM m => some (read64 c.mem (m.ea c.reg), c)
  | .callM m => some (read64 c.mem (m.ea c.reg), c.push next)
  | _ => none

/-- A return or an indirect jump goes to the statement with that address.  No statement may change the code. -/
def SrcStep (p : List Stmt) (L : Layout) (x y : Nat × Core) : Prop :=
  (∃ s, p[x.1]? = some s ∧ (s.exec p L x.1 x.2 = some y ∨ (s.dest (L.addr (x.1 + 1)) x.2 = some (L.addr y.1, y.2) ∧ y.1 ≤ p.length))) ∧
  ∀ a, L.code a → y.2.mem a = x.2.mem a

/-- Any number of statements. -/
inductive SrcRuns (p : List Stmt) (L : Layout) : Nat × Core → Nat × Core → Prop
  | refl (x) : SrcRuns p L x x
  | step {x y z} : SrcStep p L x y → SrcRuns p L y z → SrcRuns p L x z

/-! ## The processor -/

structure Cpu where
  core : Core
  rip : Word

inductive Inst
  | mov (d s : Gpr)
  | alu (op : BitVec 3) (d s : Gpr)
  | aluI (op : BitVec 3) (d : Gpr) (v : Word)
  | jmp (rel : Word)
  | jcc (cc : BitVec 4) (rel : Word)
  | loop (rel : Word)
  | jrcxz (rel : Word)
  | push (r : Gpr)
  | pop (r : Gpr)
  | call (rel : Word)
  | ret
  | movI (d : Gpr) (v : Word)
  | load (d : Gpr) (m : Mem)
  | store (m : Mem) (s : Gpr)
  | lea (d : Gpr) (m : Mem)
  | aluL (op : BitVec 3) (d : Gpr) (m : Mem)
  | aluS (op : BitVec 3) (m : Mem) (s : Gpr)
  | jmpR (r : Gpr)
  | callR (r : Gpr)
  | jmpM (m : Mem)
  | callM (m : Mem)
  | test (d s : Gpr)
  | un (op : Un) (d : Gpr)
  | cmov (cc : BitVec 4) (d s : Gpr)
  | sh (op : Sh) (d : Gpr) (n : Nat)
  | xchg (a b : Gpr)
  | nop
  deriving DecidableEq, Repr

/-- The address of a memory operand (no address size prefix). -/
def Cpu.ea (u : Cpu) (m : Mem) : Word := X86.ea { opcode := 0 } m false (fun r => u.core.reg (r.setWidth 4)) (fun _ => 0) u.rip

/-- Effect; the instruction pointer is behind the instruction already. -/
def Inst.exec (u : Cpu) : Inst → Cpu
  | .mov d s => { u with core := u.core.set d (u.core.reg s) }
  | .alu op d s => { u with core := u.core.alu op d (u.core.reg s) }
  | .aluI op d v => { u with core := u.core.alu op d v }
  | .jmp rel => { u with rip := u.rip + rel }
  | .jcc cc rel => if cond cc u.core.fl then { u with rip := u.rip + rel } else u
  | .loop rel =>
    let c := u.core.set rcx (u.core.reg rcx - 1)
    { u with core := c, rip := if c.reg rcx = 0 then u.rip else u.rip + rel }
  | .jrcxz rel => if u.core.reg rcx = 0 then { u with rip := u.rip + rel } else u
  | .push r => { u with core := u.core.push (u.core.reg r) }
  | .pop r => { u with core := u.core.pop r }
  | .call rel => { core := u.core.push u.rip, rip := u.rip + rel }
  | .ret => { core := u.core.set rsp (u.core.reg rsp + 8), rip := read64 u.core.mem (u.core.reg rsp) }
  | .movI d v => { u with core := u.core.set d v }
  | .load d m => { u with core := u.core.set d (read64 u.core.mem (u.ea m)) }
  | .store m s => { u with core := { u.core with mem := write64 u.core.mem (u.ea m) (u.core.reg s) } }
  | .lea d m => { u with core := u.core.set d (u.ea m) }
  | .aluL op d m => { u with core := u.core.alu op d (read64 u.core.mem (u.ea m)) }
  | .aluS op m s => { u with core := u.core.aluMem op (u.ea m) (u.core.reg s) }
  | .jmpR r => { u with rip := u.core.reg r }
  | .callR r => { core := u.core.push u.rip, rip := u.core.reg r }
  | .jmpM m => { u with rip := read64 u.core.mem (u.ea m) }
  | .callM m => { core := u.core.push u.rip, rip := read64 u.core.mem (u.ea m) }
  | .test d s => { u with core := u.core.test (u.core.reg d) (u.core.reg s) }
  | .un op d => { u with core := u.core.un op d }
  | .xchg a b => { u with core := u.core.xchg a b }
  | .nop => u
  | .sh op d n => { u with core := u.core.sh op d n }
  | .cmov cc d s => { u with core := if cond cc u.core.fl then u.core.set d (u.core.reg s) else u.core }

def shOf (r : BitVec 3) : Option Sh := if r = 4 then some .shl else if r = 5 then some .shr else if r = 7 then some .sar else none

/-- An instruction with 64-bit operands; `t` comes behind the opcode. -/
def instW (h : Head) (t : List Byte) : Option (Inst × List Byte) :=
  if h.opcode &&& 0xC7 = 0x05 then (imm 4 t).map fun p => (.aluI (h.opcode.extractLsb' 3 3) rax p.1, p.2)
  else
    match modrm h false 1 t with
    | some (r, .reg m, t) =>
      if h.opcode = 0x89 then some (.mov ((rmGpr h m).setWidth 4) ((regNum h r).setWidth 4), t)
      else if h.opcode &&& 0xC7 = 0x01 then some (.alu (h.opcode.extractLsb' 3 3) ((rmGpr h m).setWidth 4) ((regNum h r).setWidth 4), t)
      else if h.opcode = 0x81 then (imm 4 t).map fun p => (.aluI r ((rmGpr h m).setWidth 4) p.1, p.2)
      else if h.opcode = 0x83 then (imm 1 t).map fun p => (.aluI r ((rmGpr h m).setWidth 4) p.1, p.2)
      else if h.opcode = 0xC7 ∧ r = 0 then (imm 4 t).map fun p => (.movI ((rmGpr h m).setWidth 4) p.1, p.2)
      else if h.opcode = 0x85 then some (.test ((rmGpr h m).setWidth 4) ((regNum h r).setWidth 4), t)
      else if h.opcode = 0xFF ∧ r = 0 then some (.un .inc ((rmGpr h m).setWidth 4), t)
      else if h.opcode = 0xFF ∧ r = 1 then some (.un .dec ((rmGpr h m).setWidth 4), t)
      else if h.opcode = 0xF7 ∧ r = 2 then some (.un .not ((rmGpr h m).setWidth 4), t)
      else if h.opcode = 0xF7 ∧ r = 3 then some (.un .neg ((rmGpr h m).setWidth 4), t)
      else if h.opcode = 0x87 then some (.xchg ((regNum h r).setWidth 4) ((rmGpr h m).setWidth 4), t)
      else if h.opcode = 0xD1 then (shOf r).map fun o => (.sh o ((rmGpr h m).setWidth 4) 1, t)
      else if h.opcode = 0xC1 then (shOf r).bind fun o => (imm 1 t).map fun p => (.sh o ((rmGpr h m).setWidth 4) (p.1.toNat % 64), p.2)
      else none
    | some (r, .mem m, t) =>
      if h.opcode = 0x89 then some (.store m ((regNum h r).setWidth 4), t)
      else if h.opcode = 0x8B then some (.load ((regNum h r).setWidth 4) m, t)
      else if h.opcode = 0x8D then some (.lea ((regNum h r).setWidth 4) m, t)
      else if h.opcode &&& 0xC7 = 0x01 then some (.aluS (h.opcode.extractLsb' 3 3) m ((regNum h r).setWidth 4), t)
      else if h.opcode &&& 0xC7 = 0x03 then some (.aluL (h.opcode.extractLsb' 3 3) ((regNum h r).setWidth 4) m, t)
      else none
    | none => none

/-- CMOVcc with 64-bit registers. -/
def cmovW (h : Head) (t : List Byte) : Option (Inst × List Byte) :=
  match modrm h false 1 t with
  | some (r, .reg m, t) =>
    if h.opcode &&& 0xF0 = 0x40 then some (.cmov (h.opcode.extractLsb' 0 4) ((regNum h r).setWidth 4) ((rmGpr h m).setWidth 4), t) else none
  | _ => none

/-- PUSH, POP, RET and NOP. -/
def stackOp (h : Head) : Option Inst :=
  if h.map ≠ 0 then none
  else if h.opcode &&& 0xF8 = 0x50 then some (.push ((rmGpr h (h.opcode.extractLsb' 0 3)).setWidth 4))
  else if h.opcode &&& 0xF8 = 0x58 then some (.pop ((rmGpr h (h.opcode.extractLsb' 0 3)).setWidth 4))
  else if h.opcode = 0xC3 then some .ret
  else if h.opcode = 0x90 ∧ h.b3 = false then some .nop
  else none

/-- MOV of an immediate of `n` bytes to the register in the low bits of the opcode; a 32-bit operation clears the upper half. -/
def movOpc (n : Nat) (h : Head) (t : List Byte) : Option (Inst × List Byte) :=
  if h.map = 0 ∧ h.opcode &&& 0xF8 = 0xB8 then
    (imm n t).map fun p => (.movI ((rmGpr h (h.opcode.extractLsb' 0 3)).setWidth 4) (if n = 8 then p.1 else (p.1.setWidth 32).setWidth 64), p.2)
  else none

/-- CALL and JMP to the address in a register or in memory; the operand always has 64 bits. -/
def indirect (h : Head) (t : List Byte) : Option (Inst × List Byte) :=
  if h.map = 0 ∧ h.opcode = 0xFF then
    match modrm h false 1 t with
    | some (r, .reg m, t) =>
      if r = 2 then some (.callR ((rmGpr h m).setWidth 4), t)
      else if r = 4 then some (.jmpR ((rmGpr h m).setWidth 4), t)
      else none
    | some (r, .mem m, t) => if r = 2 then some (.callM m, t) else if r = 4 then some (.jmpM m, t) else none
    | none => none
  else none

/-- The instruction at the beginning of the bytes, and what follows. -/
def inst (bs : List Byte) : Option (Inst × List Byte) :=
  match head bs with
  | none => none
  | some (h, t) =>
    if h.space ≠ .legacy ∨ h.p66 = true ∨ h.pF2 = true ∨ h.pF3 = true ∨ h.p67 = true ∨ h.seg ≠ none then none
    else if h.w = true then
      if h.opcode &&& 0xF8 = 0xB8 then movOpc 8 h t
      else if h.map = 0 then
        if h.opcode &&& 0xF8 = 0x90 then some (.xchg rax ((rmGpr h (h.opcode.extractLsb' 0 3)).setWidth 4), t) else instW h t
      else if h.map = 1 then cmovW h t
      else none
    else
      match stackOp h with
      | some i => some (i, t)
      | none =>
        match jcc bs with
        | some (cc, v, t) => some (.jcc cc v, t)
        | none =>
          match direct bs with
          | some (.jmp, v, t) => some (.jmp v, t)
          | some (.call, v, t) => some (.call v, t)
          | some (.loop 64, v, t) => some (.loop v, t)
          | some (.jcxz 64, v, t) => some (.jrcxz v, t)
          | _ => (movOpc 4 h t).or (indirect h t)

/-- The fifteen bytes at the instruction pointer: no instruction is longer. -/
def Cpu.fetch (s : Cpu) : List Byte := (List.range 15).map fun i => s.core.mem (s.rip + BitVec.ofNat 64 i)

/-- One instruction. -/
def Cpu.step (s : Cpu) : Option Cpu :=
  match inst s.fetch with
  | none => none
  | some (i, t) => some (i.exec { s with rip := s.rip + BitVec.ofNat 64 (15 - t.length) })

/-- Any number of instructions. -/
inductive Cpu.Runs : Cpu → Cpu → Prop
  | refl (s : Cpu) : Runs s s
  | step {s u v : Cpu} : s.step = some u → Runs u v → Runs s v

/-- Exactly `n` instructions. -/
def Cpu.steps : Nat → Cpu → Option Cpu
  | 0, s => some s
  | n + 1, s => s.step.bind (Cpu.steps n)

end X86
end Xbyak
