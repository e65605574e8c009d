import Verif.Spec.X86
/-!
# Some instructions with immediates

Written from the Intel SDM, volume 2 (opcode maps and the pages of ADD, MOV, SAL, TEST, PUSH, POP, XCHG, IMUL), independently of the
assembler.  Each decoder returns which operation it is, the operand width in bits, where the operand is, and the immediate.
-/
namespace Xbyak
namespace X86

/-- Operand size selected by the prefixes of a non-byte integer instruction (64-bit mode). -/
def opBits (h : Head) : Nat := if h.w then 64 else if h.p66 then 16 else 32

/-- Number of bytes of an `iz` immediate. -/
def immz (h : Head) : Nat := if opBits h = 16 then 2 else 4

/-- `n` immediate bytes, sign-extended. -/
def imm (n : Nat) (bs : List Byte) : Option (Word × List Byte) :=
  if n ≤ bs.length then some (sextLE (bs.take n), bs.drop n) else none

/-- Where an operand is: the accumulator, a register in the low bits of the opcode, or ModRM.rm. -/
inductive Loc
  | acc
  | opc (lo : BitVec 3)
  | rm (m : RM)
  deriving DecidableEq, Repr

/-- An operation with an immediate. -/
structure OpI where
  head : Head
  /-- operation: the three opcode bits or the ModRM digit -/
  op : BitVec 3
  /-- operand width -/
  bits : Nat
  loc : Loc
  /-- sign-extended immediate -/
  imm : Word
  deriving DecidableEq, Repr

/-- ADD, OR, ADC, SBB, AND, SUB, XOR, CMP with an immediate: 04+8n ib, 05+8n iz, 80 /n ib, 81 /n iz, 83 /n ib. -/
def aluI (bs : List Byte) : Option (OpI × List Byte) :=
  match head bs with
  | none => none
  | some (h, t) =>
    if h.map ≠ 0 then none
    else if h.opcode &&& 0xC7 = 0x04 then (imm 1 t).map fun p => (⟨h, h.opcode.extractLsb' 3 3, 8, .acc, p.1⟩, p.2)
    else if h.opcode &&& 0xC7 = 0x05 then
      (imm (immz h) t).map fun p => (⟨h, h.opcode.extractLsb' 3 3, opBits h, .acc, p.1⟩, p.2)
    else
      match modrm h false 1 t with
      | none => none
      | some (r, m, t) =>
        if h.opcode = 0x80 then (imm 1 t).map fun p => (⟨h, r, 8, .rm m, p.1⟩, p.2)
        else if h.opcode = 0x81 then (imm (immz h) t).map fun p => (⟨h, r, opBits h, .rm m, p.1⟩, p.2)
        else if h.opcode = 0x83 then (imm 1 t).map fun p => (⟨h, r, opBits h, .rm m, p.1⟩, p.2)
        else none

/-- TEST with an immediate: A8 ib, A9 iz, F6 /0 ib, F7 /0 iz. -/
def testI (bs : List Byte) : Option (OpI × List Byte) :=
  match head bs with
  | none => none
  | some (h, t) =>
    if h.map ≠ 0 then none
    else if h.opcode = 0xA8 then (imm 1 t).map fun p => (⟨h, 0, 8, .acc, p.1⟩, p.2)
    else if h.opcode = 0xA9 then (imm (immz h) t).map fun p => (⟨h, 0, opBits h, .acc, p.1⟩, p.2)
    else
      match modrm h false 1 t with
      | none => none
      | some (r, m, t) =>
        if h.opcode = 0xF6 then (imm 1 t).map fun p => (⟨h, r, 8, .rm m, p.1⟩, p.2)
        else if h.opcode = 0xF7 then (imm (immz h) t).map fun p => (⟨h, r, opBits h, .rm m, p.1⟩, p.2)
        else none

/-- MOV with an immediate: B0+r ib, B8+r iv, C6 /0 ib, C7 /0 iz. -/
def movI (bs : List Byte) : Option (OpI × List Byte) :=
  match head bs with
  | none => none
  | some (h, t) =>
    if h.map ≠ 0 then none
    else if h.opcode &&& 0xF8 = 0xB0 then (imm 1 t).map fun p => (⟨h, 0, 8, .opc (h.opcode.extractLsb' 0 3), p.1⟩, p.2)
    else if h.opcode &&& 0xF8 = 0xB8 then
      (imm (opBits h / 8) t).map fun p => (⟨h, 0, opBits h, .opc (h.opcode.extractLsb' 0 3), p.1⟩, p.2)
    else
      match modrm h false 1 t with
      | none => none
      | some (r, m, t) =>
        if h.opcode = 0xC6 then (imm 1 t).map fun p => (⟨h, r, 8, .rm m, p.1⟩, p.2)
        else if h.opcode = 0xC7 then (imm (immz h) t).map fun p => (⟨h, r, opBits h, .rm m, p.1⟩, p.2)
        else none

/-- The 64-bit register after writing the low `bits` bits of `v`: 32-bit results are zero-extended, 8 and 16-bit results merged
(SDM vol. 1, 3.4.1.1). -/
def write (bits : Nat) (old v : Word) : Word :=
  if bits = 64 then v
  else if bits = 32 then v &&& 0xFFFFFFFF
  else if bits = 16 then (old &&& ~~~(0xFFFF : Word)) ||| (v &&& 0xFFFF)
  else (old &&& ~~~(0xFF : Word)) ||| (v &&& 0xFF)

/-- The 64-bit register after writing ah, ch, dh or bh. -/
def writeHigh (old v : Word) : Word := (old &&& ~~~(0xFF00 : Word)) ||| ((v &&& 0xFF) <<< 8)

/-- Shift count: an immediate (or 1), or register cl. -/
inductive Count | imm (n : Byte) | cl
  deriving DecidableEq, Repr

/-- PUSH and POP of a register or memory: 50+r, 58+r, FF /6, 8F /0.  The operand is 64 bits wide, or 16 with the 66 prefix. -/
structure PushPop where
  head : Head
  pop : Bool
  bits : Nat
  loc : Loc
  deriving DecidableEq, Repr

def stackBits (h : Head) : Nat := if h.p66 && !h.w then 16 else 64

def pushPop (bs : List Byte) : Option (PushPop × List Byte) :=
  match head bs with
  | none => none
  | some (h, t) =>
    if h.map ≠ 0 then none
    else if h.opcode &&& 0xF8 = 0x50 then some (⟨h, false, stackBits h, .opc (h.opcode.extractLsb' 0 3)⟩, t)
    else if h.opcode &&& 0xF8 = 0x58 then some (⟨h, true, stackBits h, .opc (h.opcode.extractLsb' 0 3)⟩, t)
    else
      match modrm h false 1 t with
      | none => none
      | some (r, m, t) =>
        if h.opcode = 0xFF ∧ r = 6 then some (⟨h, false, stackBits h, .rm m⟩, t)
        else if h.opcode = 0x8F ∧ r = 0 then some (⟨h, true, stackBits h, .rm m⟩, t)
        else none

/-- PUSH of an immediate: 6A ib, 68 iz.  The value is sign-extended to the operand size (64, or 16 with the 66 prefix). -/
def pushI (bs : List Byte) : Option (Nat × Word × List Byte) :=
  match head bs with
  | none => none
  | some (h, t) =>
    if h.map ≠ 0 then none
    else if h.opcode = 0x6A then (imm 1 t).map fun p => (stackBits h, p.1, p.2)
    else if h.opcode = 0x68 then (imm (if stackBits h = 16 then 2 else 4) t).map fun p => (stackBits h, p.1, p.2)
    else none

/-- XCHG: 90+r (accumulator and register), 86 /r, 87 /r.  90 without 66, REX.W and REX.B is NOP and not `xchg eax, eax`, which would clear
the high half of rax; F3 90 is PAUSE. -/
structure Xchg where
  head : Head
  bits : Nat
  /-- ModRM.reg, or `none` for the accumulator -/
  reg : Option (BitVec 3)
  loc : Loc
  deriving DecidableEq, Repr

def xchg (bs : List Byte) : Option (Xchg × List Byte) :=
  match head bs with
  | none => none
  | some (h, t) =>
    if h.map ≠ 0 then none
    else if h.opcode &&& 0xF8 = 0x90 then
      if (h.opcode = 0x90 ∧ h.b3 = false ∧ h.b4 = false ∧ opBits h = 32) ∨ h.pF3 then none
      else some (⟨h, opBits h, none, .opc (h.opcode.extractLsb' 0 3)⟩, t)
    else
      match modrm h false 1 t with
      | none => none
      | some (r, m, t) =>
        if h.opcode = 0x86 then some (⟨h, 8, some r, .rm m⟩, t)
        else if h.opcode = 0x87 then some (⟨h, opBits h, some r, .rm m⟩, t)
        else none

/-- Indirect CALL and JMP: FF /2, /3 (far), /4, /5 (far).  In 64-bit mode the operand of the near forms is 64 bits wide whatever REX.W is,
and the 66 prefix is not supported (vendors differ); the far forms read a selector and an offset of the operand size from memory. -/
structure Branch where
  head : Head
  call : Bool
  far : Bool
  bits : Nat
  rm : RM
  deriving DecidableEq, Repr

def branch (bs : List Byte) : Option (Branch × List Byte) :=
  match head bs with
  | none => none
  | some (h, t) =>
    if h.map ≠ 0 ∨ h.opcode ≠ 0xFF then none
    else
      match modrm h false 1 t with
      | none => none
      | some (r, m, t) =>
        if r = 2 ∨ r = 4 then if h.p66 then none else some (⟨h, r = 2, false, 64, m⟩, t)
        else if r = 3 ∨ r = 5 then
          match m with
          | .reg _ => none
          | .mem a => some (⟨h, r = 3, true, opBits h, .mem a⟩, t)
        else none

/-- IMUL with an immediate: 69 /r iz, 6B /r ib. -/
def imulI (bs : List Byte) : Option (OpI × BitVec 3 × List Byte) :=
  match head bs with
  | none => none
  | some (h, t) =>
    if h.map ≠ 0 then none
    else match modrm h false 1 t with
      | none => none
      | some (r, m, t) =>
        if h.opcode = 0x69 then (imm (immz h) t).map fun p => (⟨h, 0, opBits h, .rm m, p.1⟩, r, p.2)
        else if h.opcode = 0x6B then (imm 1 t).map fun p => (⟨h, 0, opBits h, .rm m, p.1⟩, r, p.2)
        else none

/-! ## EVEX vector length, rounding and compressed displacement -/

/-- Vector length of an EVEX instruction (SDM 2.7.7, 2.7.8; AVX10.2 2.1): with EVEX.b set and register operands only, L'L is the rounding
mode and the length is 512, or 256 if U = 0; otherwise L'L is the length. -/
def vectorBits (h : Head) (regForm : Bool) : Nat :=
  if regForm && h.b then (if h.u then 512 else 256)
  else if h.L = 0 then 128 else if h.L = 1 then 256 else if h.L = 2 then 512 else 0

/-- Static rounding of an instruction without memory operand: the mode, which implies suppression of exceptions. -/
def staticRounding (h : Head) : Option (BitVec 2) := if h.b then some h.L else none

/-- How a memory operand is read, which fixes the unit of an 8-bit displacement (SDM tables 2-34, 2-35). -/
inductive Tuple
  /-- full vector, full or fractional memory: `n` bytes per 128 bits of vector length -/
  | perVL (n : Nat)
  /-- a fixed number of bytes -/
  | fixed (n : Nat)
  /-- MOVDDUP -/
  | dup
  deriving DecidableEq, Repr

def Tuple.unit (t : Tuple) (vl : Nat) : Nat :=
  match t with
  | .perVL n => n * (vl / 128)
  | .fixed n => n
  | .dup => if vl = 128 then 8 else if vl = 256 then 32 else 64

end X86
end Xbyak
