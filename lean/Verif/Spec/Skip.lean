import Verif.Spec.Group
import Verif.Spec.Manual
/-!
# Where an instruction ends

Written from the opcode maps of the Intel SDM (vol. 2, appendix A, tables A-2 to A-6) and of the APX architecture specification, independently
of the assembler: which opcodes have a ModRM byte and how many immediate bytes follow.  This is what a disassembler needs to find the next
instruction; it does not know mnemonics or operands.  64-bit mode.
-/
namespace Xbyak
namespace X86

/-- One-byte map: opcodes with a ModRM byte. -/
def modrm0 (o : Byte) : Bool :=
  (decide (o < 0x40) && decide (o &&& 7 < 4)) || o == 0x63 || o == 0x69 || o == 0x6B || o &&& 0xF0 == 0x80 || o &&& 0xFE == 0xC0 || o &&& 0xFE == 0xC6 ||
    o &&& 0xFC == 0xD0 || o &&& 0xF8 == 0xD8 || o &&& 0xFE == 0xF6 || o &&& 0xFE == 0xFE

/-- Two-byte map: opcodes without a ModRM byte. -/
def plain1 (o : Byte) : Bool :=
  (decide (0x05 ≤ o) && decide (o ≤ 0x09)) || o == 0x0B || o == 0x0E || o &&& 0xF8 == 0x30 || o == 0x77 || o &&& 0xF0 == 0x80 || o == 0xA0 || o == 0xA1 ||
    o == 0xA2 || o == 0xA8 || o == 0xA9 || o == 0xAA || o &&& 0xF8 == 0xC8

/-- The encoding without VEX or EVEX prefix. -/
def Space.old : Space → Bool
  | .legacy | .rex2 => true
  | _ => false

/-- The opcode has a ModRM byte. -/
def withModrm (sp : Space) (map : BitVec 5) (o : Byte) : Bool :=
  if map = 0 then modrm0 o
  else if map = 1 then if sp.old then !plain1 o else sp == .evex || o != 0x77
  else true

/-- Immediates: a number of bytes; operand size, at most 4 bytes; operand size; address size. -/
inductive ImmKind | n (k : Nat) | z | v | a
  deriving DecidableEq, Repr

/-- One-byte map; `r` is the reg field of the ModRM byte, if there is one.  D5 A1 is JMPABS. -/
def kind0 (o : Byte) (r : BitVec 3) : ImmKind :=
  if o < 0x40 then if o &&& 7 = 4 then .n 1 else if o &&& 7 = 5 then .z else .n 0
  else if o = 0x68 ∨ o = 0x69 ∨ o = 0x81 ∨ o = 0xA9 ∨ o = 0xC7 then .z
  else if o = 0x6A ∨ o = 0x6B ∨ o &&& 0xF0 = 0x70 ∨ o = 0x80 ∨ o = 0x83 ∨ o = 0xA8 ∨ o &&& 0xF8 = 0xB0 ∨ o = 0xC0 ∨ o = 0xC1 ∨ o = 0xC6 ∨ o = 0xCD ∨
    o &&& 0xF8 = 0xE0 ∨ o = 0xEB then .n 1
  else if o &&& 0xFC = 0xA0 then .a
  else if o &&& 0xF8 = 0xB8 then .v
  else if o = 0xC2 ∨ o = 0xCA then .n 2
  else if o = 0xC8 then .n 3
  else if o = 0xE8 ∨ o = 0xE9 then .n 4
  else if o = 0xF6 ∧ (r = 0 ∨ r = 1) then .n 1
  else if o = 0xF7 ∧ (r = 0 ∨ r = 1) then .z
  else .n 0

/-- Two-byte map of all encodings: opcodes with an immediate byte. -/
def byte1 (o : Byte) : Bool := o &&& 0xFC == 0x70 || o == 0xC2 || o == 0xC4 || o == 0xC5 || o == 0xC6

/-- Map 4 of EVEX. -/
def kind4 (o : Byte) (r : BitVec 3) : ImmKind :=
  if o = 0x69 ∨ o = 0x81 then .z
  else if o = 0x24 ∨ o = 0x2C ∨ o = 0x6B ∨ o = 0x80 ∨ o = 0x83 ∨ o = 0xC0 ∨ o = 0xC1 ∨ o = 0xD4 ∨ (o = 0xF6 ∧ (r = 0 ∨ r = 1)) then .n 1
  else if o = 0xF7 ∧ (r = 0 ∨ r = 1) then .z
  else .n 0

/-- The immediate of an opcode. -/
def immKind (sp : Space) (map : BitVec 5) (o : Byte) (r : BitVec 3) : ImmKind :=
  if map = 0 then kind0 o r
  else if map = 1 then
    if byte1 o then .n 1
    else if sp.old then if o = 0x0F ∨ o = 0xA4 ∨ o = 0xAC ∨ o = 0xBA then .n 1 else if o &&& 0xF0 = 0x80 then .n 4 else .n 0
    else .n 0
  else if map = 3 then .n 1
  else if map = 4 then kind4 o r
  else if map = 7 then .n 4
  else .n 0

/-- Number of bytes. -/
def ImmKind.bytes (h : Head) : ImmKind → Nat
  | n k => k
  | z => if (if h.map = 4 then apxBits h else opBits h) = 16 then 2 else 4
  | v => opBits h / 8
  | a => if h.p67 then 4 else 8

def immBytes (h : Head) (r : BitVec 3) : Nat := (immKind h.space h.map h.opcode r).bytes h

/-- What follows the first instruction. -/
def skip (bs : List Byte) : Option (List Byte) :=
  match head bs with
  | none => none
  | some (h, t) =>
    if withModrm h.space h.map h.opcode then
      match modrm h false 1 t with
      | none => none
      | some (r, _, t) => if immBytes h r ≤ t.length then some (t.drop (immBytes h r)) else none
    else if immBytes h 0 ≤ t.length then some (t.drop (immBytes h 0)) else none

/-- The instructions of `ws`, one after the other, are found at the beginning of `bs`; `t` follows. -/
inductive Stream : List (List Byte) → List Byte → List Byte → Prop
  | nil (t : List Byte) : Stream [] t t
  | cons {w : List Byte} {ws : List (List Byte)} {u t : List Byte} : skip (w ++ u) = some u → Stream ws u t → Stream (w :: ws) (w ++ u) t

/-- The form of the vector and SSE tables has an immediate byte. -/
def Form.ib (f : Form) : Bool := f.map == 3 || (f.map == 1 && byte1 f.op) || (f.map == 4 && f.op == 0xD4)

end X86
end Xbyak
