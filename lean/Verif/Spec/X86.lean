import Verif.Arith
/-!
# An x86-64 instruction decoder

Written from the Intel SDM (vol. 2, chapter 2) and the APX architecture specification, independently of the assembler.  It splits an
instruction into prefixes, opcode map, opcode, ModRM/SIB and displacement, and says which registers and which effective address are meant.
-/
namespace Xbyak
namespace X86

/-- Bit `i` of a byte. -/
def bitAt (b : Byte) (i : Nat) : Bool := b.getLsbD i

/-- A 5-bit register number from two extension bits and a 3-bit field. -/
def mk5 (b4 b3 : Bool) (lo : BitVec 3) : BitVec 5 :=
  (if b4 then 16 else 0) ||| (if b3 then 8 else 0) ||| lo.setWidth 5

/-- Encoding space of an instruction. -/
inductive Space | legacy | rex2 | vex | evex
  deriving DecidableEq, Repr

/-- Everything in front of the ModRM byte. -/
structure Head where
  p66 : Bool := false
  pF2 : Bool := false
  pF3 : Bool := false
  p67 : Bool := false
  /-- segment override -/
  seg : Option Byte := none
  space : Space := .legacy
  /-- a REX or REX2 prefix is present: byte registers 4-7 are spl, bpl, sil, dil -/
  rex : Bool := false
  w : Bool := false
  r3 : Bool := false
  x3 : Bool := false
  b3 : Bool := false
  r4 : Bool := false
  x4 : Bool := false
  b4 : Bool := false
  /-- opcode map: 0 one-byte, 1 0F, 2 0F38, 3 0F3A, 4 APX, 5, 6 -/
  map : BitVec 5 := 0
  /-- VEX/EVEX embedded prefix: 0 none, 1 66, 2 F3, 3 F2 -/
  pp : BitVec 2 := 0
  /-- VEX/EVEX second register number (V4 vvvv), after complement -/
  vreg : BitVec 5 := 0
  /-- vector length field -/
  L : BitVec 2 := 0
  /-- EVEX zeroing -/
  z : Bool := false
  /-- EVEX.b: broadcast, rounding/SAE, or APX ND -/
  b : Bool := false
  /-- EVEX opmask -/
  aaa : BitVec 3 := 0
  /-- EVEX.U, before complement (1 = not used) -/
  u : Bool := true
  /-- the four low bits of the last EVEX payload byte: APX source condition -/
  low4 : BitVec 4 := 0
  opcode : Byte := 0
  deriving DecidableEq, Repr

namespace Head
/-- APX: new data destination -/
def nd (h : Head) : Bool := h.b
/-- APX: flags are not written -/
def nf (h : Head) : Bool := h.aaa.getLsbD 2
end Head

/-- Legacy prefixes in any order (SDM 2.1.1). -/
def prefixes (h : Head) : List Byte → Head × List Byte
  | [] => (h, [])
  | c :: t =>
    if c = 0x66 then prefixes { h with p66 := true } t
    else if c = 0xF2 then prefixes { h with pF2 := true } t
    else if c = 0xF3 then prefixes { h with pF3 := true } t
    else if c = 0x67 then prefixes { h with p67 := true } t
    else if c = 0x26 ∨ c = 0x2E ∨ c = 0x36 ∨ c = 0x3E ∨ c = 0x64 ∨ c = 0x65 then prefixes { h with seg := some c } t
    else (h, c :: t)

/-- Escape bytes and opcode (SDM 2.1.2). -/
def opcode (h : Head) : List Byte → Option (Head × List Byte)
  | [] => none
  | c :: t =>
    if c = 0x0F then
      match t with
      | [] => none
      | d :: t =>
        if d = 0x38 then match t with | [] => none | o :: t => some ({ h with map := 2, opcode := o }, t)
        else if d = 0x3A then match t with | [] => none | o :: t => some ({ h with map := 3, opcode := o }, t)
        else some ({ h with map := 1, opcode := d }, t)
    else some ({ h with map := 0, opcode := c }, t)

/-- REX payload bits (SDM 2.2.1). -/
def withRex (h : Head) (c : Byte) : Head :=
  { h with rex := true, w := bitAt c 3, r3 := bitAt c 2, x3 := bitAt c 1, b3 := bitAt c 0 }

/-- REX2 payload `M0 R4 X4 B4 W R3 X3 B3` (APX 3.1.1.1). -/
def withRex2 (h : Head) (c o : Byte) : Head :=
  { h with
    space := .rex2, rex := true, map := if bitAt c 7 then 1 else 0, r4 := bitAt c 6, x4 := bitAt c 5, b4 := bitAt c 4
    w := bitAt c 3, r3 := bitAt c 2, x3 := bitAt c 1, b3 := bitAt c 0, opcode := o }

/-- 2-byte VEX payload `R vvvv L pp`, R and vvvv complemented (SDM 2.3.5). -/
def withVex2 (h : Head) (c o : Byte) : Head :=
  { h with
    space := .vex, map := 1, r3 := !bitAt c 7, vreg := (~~~(c.extractLsb' 3 4)).setWidth 5, L := (c.extractLsb' 2 1).setWidth 2
    pp := c.extractLsb' 0 2, opcode := o }

/-- 3-byte VEX payload `R X B mmmmm`, `W vvvv L pp`. -/
def withVex3 (h : Head) (c d o : Byte) : Head :=
  { h with
    space := .vex, r3 := !bitAt c 7, x3 := !bitAt c 6, b3 := !bitAt c 5, map := c.extractLsb' 0 5, w := bitAt d 7
    vreg := (~~~(d.extractLsb' 3 4)).setWidth 5, L := (d.extractLsb' 2 1).setWidth 2, pp := d.extractLsb' 0 2, opcode := o }

/-- EVEX payload `R3 X3 B3 R4 B4 mmm`, `W vvvv U pp`, `z LL b V4 aaa` (SDM 2.7.1, APX 3.1.2): R3, X3, B3, R4, vvvv, V4, X4 = U are
complemented, B4 is not. -/
def withEvex (h : Head) (c d e o : Byte) : Head :=
  { h with
    space := .evex, r3 := !bitAt c 7, x3 := !bitAt c 6, b3 := !bitAt c 5, r4 := !bitAt c 4, b4 := bitAt c 3
    map := (c.extractLsb' 0 3).setWidth 5, w := bitAt d 7, u := bitAt d 2, x4 := !bitAt d 2, pp := d.extractLsb' 0 2
    vreg := (if bitAt e 3 then 0 else 16) ||| (~~~(d.extractLsb' 3 4)).setWidth 5
    z := bitAt e 7, L := e.extractLsb' 5 2, b := bitAt e 4, aaa := e.extractLsb' 0 3, low4 := e.extractLsb' 0 4, opcode := o }

/-- The bytes after the legacy prefixes: VEX, EVEX, REX2, REX or opcode. -/
def afterPrefixes (h : Head) : List Byte → Option (Head × List Byte)
  | [] => none
  | k :: t =>
    if k = 0xC5 then match t with | c :: o :: t => some (withVex2 h c o, t) | _ => none
    else if k = 0xC4 then match t with | c :: d :: o :: t => some (withVex3 h c d o, t) | _ => none
    else if k = 0x62 then match t with | c :: d :: e :: o :: t => some (withEvex h c d e o, t) | _ => none
    else if k = 0xD5 then match t with | c :: o :: t => some (withRex2 h c o, t) | _ => none
    else if k.extractLsb' 4 4 = 4 then opcode (withRex h k) t
    else opcode h (k :: t)

/-- Split off everything in front of ModRM. -/
def head (bs : List Byte) : Option (Head × List Byte) :=
  let p := prefixes {} bs
  afterPrefixes p.1 p.2

/-- A memory operand. -/
structure Mem where
  base : Option (BitVec 5)
  /-- general register, or vector register for VSIB -/
  index : Option (BitVec 5)
  scale : Nat
  disp : Word
  /-- relative to the end of the instruction -/
  rip : Bool := false
  deriving DecidableEq, Repr

/-- The r/m operand: a register field or memory. -/
inductive RM
  | reg (lo : BitVec 3)
  | mem (m : Mem)
  deriving DecidableEq, Repr

/-- Little-endian 32-bit displacement, sign-extended. -/
def disp32 : List Byte → Option (Word × List Byte)
  | a :: b :: c :: d :: t => some (sextLE [a, b, c, d], t)
  | _ => none

/-- Displacement after ModRM/SIB; 8-bit displacements are scaled by `n` (SDM 2.7.5; 1 outside EVEX). -/
def displacement (mod : BitVec 2) (always : Bool) (n : Nat) (t : List Byte) : Option (Word × List Byte) :=
  if mod = 1 then
    match t with
    | a :: t => some (sextLE [a] * BitVec.ofNat 64 n, t)
    | [] => none
  else if mod = 2 then disp32 t
  else if always then disp32 t
  else some (0, t)

/-- ModRM, SIB, displacement (SDM tables 2-2, 2-3).  `vsib`: the index is a vector register (SDM 2.3.12); `n`: disp8 scale.
The result is the reg field, the r/m operand and the remaining bytes. -/
def modrm (h : Head) (vsib : Bool) (n : Nat) : List Byte → Option (BitVec 3 × RM × List Byte)
  | [] => none
  | c :: t =>
    let mod := c.extractLsb' 6 2
    let reg := c.extractLsb' 3 3
    let rm := c.extractLsb' 0 3
    if mod = 3 then some (reg, .reg rm, t)
    else if rm = 4 then
      match t with
      | [] => none
      | s :: t =>
        let noBase := s.extractLsb' 0 3 = 5 ∧ mod = 0
        let i := s.extractLsb' 3 3
        let index := if vsib then some (mk5 (h.vreg.getLsbD 4) h.x3 i)
          else if mk5 h.x4 h.x3 i = 4 then none else some (mk5 h.x4 h.x3 i)
        match displacement mod (decide noBase) n t with
        | none => none
        | some (d, t) =>
          some (reg, .mem { base := if noBase then none else some (mk5 h.b4 h.b3 (s.extractLsb' 0 3)), index := index
                            scale := 1 <<< (s.extractLsb' 6 2).toNat, disp := d }, t)
    else if mod = 0 ∧ rm = 5 then
      match disp32 t with
      | none => none
      | some (d, t) => some (reg, .mem { base := none, index := none, scale := 1, disp := d, rip := true }, t)
    else
      match displacement mod false n t with
      | none => none
      | some (d, t) => some (reg, .mem { base := some (mk5 h.b4 h.b3 rm), index := none, scale := 1, disp := d }, t)

/-- Effective address for a general register file `g` and (VSIB) vector element values `v`; `next` is the address of the next
instruction.  A 67 prefix selects 32-bit addresses (SDM 3.6.1). -/
def ea (h : Head) (m : Mem) (vsib : Bool) (g v : BitVec 5 → Word) (next : Word) : Word :=
  let b := (m.base.map g).getD 0
  let i := (m.index.map fun r => (if vsib then v r else g r) * BitVec.ofNat 64 m.scale).getD 0
  let s := b + i + m.disp + (if m.rip then next else 0)
  if h.p67 then (s.setWidth 32).setWidth 64 else s

/-- Number of the register in ModRM.reg. -/
def regNum (h : Head) (reg : BitVec 3) : BitVec 5 := mk5 h.r4 h.r3 reg
/-- Number of the general register in ModRM.rm. -/
def rmGpr (h : Head) (rm : BitVec 3) : BitVec 5 := mk5 h.b4 h.b3 rm
/-- Number of the vector register in ModRM.rm: EVEX uses X as bit 4 (SDM 2.7.2). -/
def rmVec (h : Head) (rm : BitVec 3) : BitVec 5 := mk5 (h.space == .evex && h.x3) h.b3 rm

/-- The byte register with a given number: 4-7 are ah, ch, dh, bh unless REX or REX2 or EVEX is used. -/
inductive Reg8 | low (n : BitVec 5) | high (n : BitVec 5)
  deriving DecidableEq, Repr
def reg8 (h : Head) (n : BitVec 5) : Reg8 :=
  if !h.rex && h.space == .legacy && decide (4 ≤ n.toNat ∧ n.toNat ≤ 7) then .high (n - 4) else .low n

/-- A decoded instruction up to (and without) the immediate. -/
structure Insn where
  head : Head
  reg : BitVec 3
  rm : RM
  deriving DecidableEq, Repr

/-- Decode an instruction that has a ModRM byte; the rest are immediate bytes. -/
def insn (vsib : Bool) (n : Nat) (bs : List Byte) : Option (Insn × List Byte) :=
  match head bs with
  | none => none
  | some (h, t) =>
    match modrm h vsib n t with
    | none => none
    | some (r, m, t) => some (⟨h, r, m⟩, t)

end X86
end Xbyak
