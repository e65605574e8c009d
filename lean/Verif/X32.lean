import Verif.EncOps
/-!
# The 32-bit build

With XBYAK32 `size_t` has 32 bits, `BIT` is 32 and `i32e` is 32 (xbyak.h 1716-1724); `Reg64`, `RegRip`, `ptr[uint64_t]` and the registers 8 to 31 do not exist.  The functions that
differ from the 64-bit build, and the integer instructions that reach them.  Not modelled: the extended EVEX forms of integer instructions (`opROO`), which this build has too although they
are undefined in 32-bit mode; they are reached only with three operands, `T_nf` or `T_zu`, which the functions below do not take.
-/
namespace Xbyak
namespace E32
open E (rexRXB writeCode setModRM dispForm scaleBits isBadCombination verifyMemHasSize getImmBit sel)
open Enc (throwIf db dbIf dbN lift)

/-- xbyak.h 1779-1824 `rex`; no 67 prefix (1803), REX2 left out -/
def rex (op1 op2 : Operand) (type : Ty) : Enc Unit := do
  throwIf (op1.hd.nf || op2.hd.nf) .INVALID_NF
  throwIf (op1.hd.zu || op2.hd.zu) .INVALID_ZU
  let p1 := if op1.isMEM then op2 else op1
  let p2 := if op1.isMEM then op1 else op2
  throwIf p1.isMEM .BAD_COMBINATION
  let p66 := (op1.isBit 16 && !op2.isBit 32) || (op2.isBit 16 && !op1.isBit 32)
  dbIf (type.has T_66 || p66) 0x66
  dbIf (type.has T_F2) 0xF2
  dbIf (type.has T_F3) 0xF3
  match p2 with
  | .mem addr => do
    let r := p1.hd
    let e := addr.getRegExp
    let rx := rexRXB 3 (r.isREG 64) r e.base e.index
    let rx := if rx ≠ 0 ∨ r.ext8 then rx ||| 0x40 else rx
    dbIf (rx ≠ 0) rx
  | .reg _ => do
    let r1 := op1.hd
    let r2 := op2.hd
    let rx := rexRXB 3 (r1.isREG 64 || r2.isREG 64) r2 r1 .nil
    let rx := if rx ≠ 0 ∨ r1.ext8 ∨ r2.ext8 then rx ||| 0x40 else rx
    dbIf (rx ≠ 0) rx

/-- xbyak.h 2011-2073 `setSIB`: no check of the displacement (2014-2024), and no SIB byte for an address without registers (2054-2056) -/
def setSIB (e : RegExp) (reg : BitVec 5) : Enc Unit := do
  let md := dispForm e.base (lo32 e.disp) 0
  let mod := md.1
  let disp := md.2
  let newBaseIdx : BitVec 5 := if e.base.bit ≠ 0 then e.base.idx &&& 7 else 5
  let hasSIB := e.index.bit ≠ 0 || e.base.idx &&& 7 == 4
  if hasSIB then do
    setModRM mod reg 4
    setModRM (scaleBits e.scale) (if e.index.bit ≠ 0 then e.index.idx &&& 7 else 4) newBaseIdx
  else setModRM mod reg newBaseIdx
  if mod = 1 then db (disp.setWidth 8)
  else if mod = 2 ∨ (mod = 0 ∧ e.base.bit = 0) then dbN (disp.setWidth 64) 4
  else pure ()

/-- xbyak.h 2184-2202 `opAddr`; every address is `M_ModRM` -/
def opAddr (addr : Addr) (reg : BitVec 5) : Enc Unit := do
  throwIf (!addr.permitVsib && addr.isVsib) .BAD_VSIB_ADDRESSING
  setSIB addr.getRegExp reg

/-- xbyak.h 2087-2094 `opRR` -/
def opRR (r1 r2 : Reg) (type : Ty) (code : Byte) : Enc Unit := do
  throwIf (!type.has T_ALLOW_DIFF_SIZE && r1.isREG && r2.isREG && r1.bit != r2.bit) .BAD_SIZE_OF_REGISTER
  throwIf (!type.has T_ALLOW_ABCDH && (isBadCombination r1 r2 || isBadCombination r2 r1)) .CANT_USE_ABCDH
  rex (.reg r2) (.reg r1) type
  writeCode type r1 code false
  setModRM 3 r1.idx r2.idx

/-- xbyak.h 2095-2104 `opMR` -/
def opMR (addr : Addr) (r : Reg) (type : Ty) (code : Byte) : Enc Unit := do
  throwIf (!type.has T_ALLOW_DIFF_SIZE && decide (r.bit ≤ 32) && decide (addr.o.bit > 0) && addr.o.bit != r.bit) .BAD_MEM_SIZE
  rex (.mem addr) (.reg r) type
  writeCode type r code false
  opAddr addr r.idx

/-- xbyak.h 2309-2318 `opRO` -/
def opRO (r : Reg) (op : Operand) (type : Ty) (code : Byte) (condR : Bool := true) : Enc Unit :=
  match op with
  | .mem a => opMR a r type code
  | .reg q => do
    throwIf (!condR) .BAD_COMBINATION
    opRR r q type code

/-- xbyak.h 2274-2287 `opRext` -/
def opRext (op : Operand) (bit : Nat) (ext : BitVec 5) (type : Ty) (code : Byte) : Enc Unit :=
  let r := Reg.gp ext op.bit
  match op with
  | .mem a => opMR a r type code
  | .reg q => do
    throwIf (!q.isREG bit) .BAD_COMBINATION
    let q' ← lift (q.changeBit op.bit)
    opRR r q' (type ||| T_ALLOW_ABCDH) code

/-- xbyak.h 2105-2114 `opLoadSeg` -/
def opLoadSeg (addr : Addr) (reg : Reg) (type : Ty) (code : Byte) : Enc Unit := do
  throwIf (reg.isBit 8) .BAD_SIZE_OF_REGISTER
  rex (.mem addr) (.reg reg) type
  dbIf (type.has T_0F) 0x0F
  db code
  opAddr addr reg.idx

/-- xbyak.h 2333-2341 `opRO_MR` -/
def opRO_MR (op1 op2 : Operand) (code : Byte) : Enc Unit :=
  match op2 with
  | .mem a => do
    throwIf (!op1.isREG) .BAD_COMBINATION
    opMR a op1.hd 0 (code ||| 2)
  | .reg r => opRO r op1 0 code (op1.hd.kind == r.kind)

/-- xbyak.h 2355-2366 `opOI` -/
def opOI (op : Operand) (imm : BitVec 32) (code : Byte) (ext : BitVec 5) : Enc Unit := do
  let immBit ← getImmBit op imm
  if op.isREG && op.hd.idx == 0 && op.bit == immBit then do
    rex op (.reg .nil) 0
    db (code ||| 4 ||| (if immBit = 8 then 0 else 1))
  else do
    let tmp : Byte := if immBit < min op.bit 32 then 2 else 0
    opRext op 0 ext 0 (0x80 ||| tmp)
  dbN (imm.setWidth 64) (immBit / 8)

/-- xbyak.h 2375-2396 `opIncDec` with one operand: the one-byte forms 40+r, 48+r -/
def opIncDec (op : Operand) (ext : BitVec 5) : Enc Unit := do
  verifyMemHasSize op
  if op.isREG && !op.isBit 8 then do
    rex op (.reg .nil) 0
    db ((if ext ≠ 0 then 0x48 else 0x40) ||| op.hd.idx.setWidth 8)
  else opRext op op.bit ext 0 0xFE

/-- xbyak.h 2397-2418 `opPushPop` -/
def opPushPop (op : Operand) (code : Byte) (ext : BitVec 5) (alt : Byte) : Enc Unit := do
  let bit := op.bit
  if bit = 16 ∨ bit = 32 then do
    dbIf (bit = 16) 0x66
    match op with
    | .reg r =>
      if r.isREG then do
        dbIf (r.idx.toNat ≥ 8) 0x41
        db (alt ||| (r.idx &&& 7).setWidth 8)
      else Enc.throw .BAD_COMBINATION
    | .mem a => opMR a (.gp ext 32) T_ALLOW_DIFF_SIZE code
  else Enc.throw .BAD_COMBINATION

/-- xbyak.h 1344 `isOnlyDisp` -/
def isOnlyDisp (a : Addr) : Bool := a.e.base.bit == 0 && a.e.index.bit == 0

/-- xbyak.h 3004-3040 `mov(op1, op2)`: A0-A3 for the accumulator and an address without registers (3031-3035) -/
def mov (op1 op2 : Operand) : Enc Unit :=
  match op1, op2 with
  | .reg r, .mem a =>
    if r.isREG && r.idx == 0 && isOnlyDisp a then do
      rex (.reg r) (.mem a) 0
      db (0xA0 ||| sel (!r.isBit 8) 1)
      dbN ((lo32 a.e.disp).setWidth 64) 4
    else opRO_MR op1 op2 0x88
  | .mem a, .reg r =>
    if r.isREG && r.idx == 0 && isOnlyDisp a then do
      rex (.reg r) (.mem a) 0
      db (0xA2 ||| sel (!r.isBit 8) 1)
      dbN ((lo32 a.e.disp).setWidth 64) 4
    else opRO_MR op1 op2 0x88
  | _, _ => opRO_MR op1 op2 0x88

/-- xbyak.h 2426-2445, 3041-3061 `mov(op, imm)` -/
def movI (op : Operand) (imm : Word) : Enc Unit :=
  match op with
  | .reg r =>
    if r.isREG then do
      rex (.reg r) (.reg .nil) 0
      db (0xB0 ||| sel (r.bit ≠ 8) 8 ||| (r.idx &&& 7).setWidth 8)
      dbN imm (r.bit / 8)
    else Enc.throw .BAD_COMBINATION
  | .mem a => do
    verifyMemHasSize op
    let n := op.bit / 8
    if n ≤ 4 then throwIf (imm.sshiftRight (n * 8) ≠ 0 && imm.sshiftRight (n * 8) ≠ -1) .IMM_IS_TOO_BIG
    else throwIf (!isInInt32 imm) .IMM_IS_TOO_BIG
    opMR a (.gp 0 op.bit) 0 0xC6
    dbN ((lo32 imm).setWidth 64) (min n 4)

/-- xbyak.h 3073-3090 `xchg`: `xchg(eax, eax)` has the one-byte form, too (3081-3083) -/
def xchg (op1 op2 : Operand) : Enc Unit := do
  let flip := op1.isMEM || (op2.isREG 48 && op2.hd.idx == 0)
  let p1 := if flip then op2 else op1
  let p2 := if flip then op1 else op2
  throwIf p1.isMEM .BAD_COMBINATION
  if p2.isREG && (p1.isREG 48 && p1.hd.idx == 0) then do
    rex p2 p1 0
    db (0x90 ||| (p2.hd.idx &&& 7).setWidth 8)
  else do
    let both := p1.isREG && p2.isREG
    let q1 := if both then p2 else p1
    let q2 := if both then p1 else p2
    opRO q1.hd q2 0 (0x86 ||| sel (!q1.isBit 8) 1) (q1.isREG && q1.bit == q2.bit)

/-- xbyak.h 2958-2961 `test(op, reg)` -/
def test (op : Operand) (reg : Reg) : Enc Unit := opRO reg op 0 0x84 (op.hd.kind == reg.kind)

/-- xbyak.h 2962-2973 `test(op, imm)` -/
def testI (op : Operand) (imm : BitVec 32) : Enc Unit := do
  verifyMemHasSize op
  if op.isREG && op.hd.idx == 0 then do
    rex op (.reg .nil) 0
    db (0xA8 ||| sel (!op.isBit 8) 1)
  else opRext op 0 0 0 0xF6
  dbN (imm.setWidth 64) (min (op.bit / 8) 4)

/-- xbyak.h 2986-3003 `push(imm)` -/
def pushI (imm : BitVec 32) : Enc Unit :=
  if isInDisp8 imm then do
    db 0x6A
    db (imm.setWidth 8)
  else do
    db 0x68
    dbN (imm.setWidth 64) 4

/-- xbyak_mnemonic.h 651 `lea` -/
def lea (reg : Reg) (addr : Addr) : Enc Unit := do
  throwIf (!reg.isBit 48) .BAD_SIZE_OF_REGISTER
  opMR addr reg 0 0x8D

/-- xbyak.h 2467-2473 `opMovxx` -/
def opMovxx (reg : Reg) (op : Operand) (code : Byte) : Enc Unit := do
  throwIf (op.isBit 32) .BAD_COMBINATION
  throwIf (!(reg.isREG && decide (reg.bit > op.bit))) .BAD_COMBINATION
  opRO reg op (T_0F ||| T_ALLOW_DIFF_SIZE) (code ||| sel (op.isBit 16) 1)

/-- xbyak_mnemonic.h 355, 517, 518, 733, 741, 743: `not_`, `neg`, `mul`, `imul`, `div`, `idiv` are /2 to /7 -/
def unary (op : Operand) (ext : BitVec 3) : Enc Unit :=
  opRext op 0 (ext.setWidth 5) (T_APX ||| (if ext = 2 then 0 else T_NF) ||| T_CODE1_IF1) 0xF6

/-- xbyak.h 2293-2300 `opShift(op, imm, ext)`; bit 3 of `ext` tells whether the form with `T_nf` exists -/
def opShiftI (op : Operand) (imm : BitVec 32) (ext : BitVec 4) : Enc Unit := do
  verifyMemHasSize op
  opRext op 0 ((ext &&& 7).setWidth 5) (E.shiftType ext none) (if imm = 1 then 0xD0 else 0xC0)
  dbIf (imm ≠ 1) (imm.setWidth 8)

/-- xbyak.h 2301-2307 `opShift(op, cl, ext)` -/
def opShiftCL (op : Operand) (cl : Reg) (ext : BitVec 4) : Enc Unit := do
  throwIf (cl.idx != 1) .BAD_COMBINATION
  opRext op 0 ((ext &&& 7).setWidth 5) (E.shiftType ext none) 0xD2

/-- xbyak.h 2172-2181 `opJmpOp` -/
def opJmpOp (op : Operand) (far : Bool) (ext : BitVec 5) : Enc Unit :=
  if far then do
    throwIf (!(op.isMEM && op.isBit 48)) .NOT_SUPPORTED
    opRext op 48 (ext + 1) 0 0xFF
  else opRext op 48 ext 0 0xFF

/-- xbyak_mnemonic.h 1944-1956: the functions without operands that only this build has -/
def fixed : List (String × List Byte) :=
  [("aaa", [0x37]), ("aad", [0xD5, 0x0A]), ("aam", [0xD4, 0x0A]), ("aas", [0x3F]), ("daa", [0x27]), ("das", [0x2F]), ("into", [0xCE]),
   ("popad", [0x61]), ("popfd", [0x9D]), ("pusha", [0x60]), ("pushad", [0x60]), ("pushfd", [0x9C]), ("popa", [0x61])]

/-- xbyak_mnemonic.h 1957, 1958 `lds`, `les` -/
def lds (reg : Reg) (addr : Addr) : Enc Unit := opLoadSeg addr reg 0 0xC5
def les (reg : Reg) (addr : Addr) : Enc Unit := opLoadSeg addr reg 0 0xC4

end E32
end Xbyak
