import Verif.Enc
/-!
# Instruction families

Models the `op*` helpers of `CodeGenerator` (xbyak.h 2087-2118, 2172-2183, 2203-2852) and the hand-written instructions of
xbyak.h 2957-3140.  The default value `NONE` of `imm8`, `code2` and `sc` is `none`; pointers `const Reg *d = 0` are options.
-/
namespace Xbyak
namespace E
open Enc (throwIf db dbIf dbN act lift)

/-- `if (imm8 != NONE) db(imm8)` -/
def dbOpt : Option Byte → Enc Unit
  | some b => db b
  | none => pure ()

/-- size of an optional imm8 -/
def optSize (imm : Option Byte) : Nat := if imm.isSome then 1 else 0

/-- xbyak.h 2087-2094 `opRR` -/
def opRR (r1 r2 : Reg) (type : Ty) (code : Byte) : Enc Unit := do
  throwIf (!type.has T_ALLOW_DIFF_SIZE && r1.isREG && r2.isREG && r1.bit != r2.bit) .BAD_SIZE_OF_REGISTER
  throwIf (!type.has T_ALLOW_ABCDH && (isBadCombination r1 r2 || isBadCombination r2 r1)) .CANT_USE_ABCDH
  let rex2 ← rex (.reg r2) (.reg r1) type
  writeCode type r1 code rex2
  setModRM 3 r1.idx r2.idx

/-- xbyak.h 2253-2273 `opROO` -/
def opROO (d : Reg) (op1 op2 : Operand) (type : Ty) (code : Byte) (immSize : Nat := 0) (sc : Option (BitVec 4) := none) :
    Enc Bool := do
  if !type.has T_MUST_EVEX && !d.isREG && !((Operand.reg d).hasRex2NFZU || op1.hasRex2NFZU || op2.hasRex2NFZU) then return false
  else do
    let p1 := if op1.isMEM then op2 else op1
    let p2 := if op1.isMEM then op1 else op2
    let code := if op1.isMEM then code else if op2.isMEM then code ||| 2 else code
    throwIf p1.isMEM .BAD_COMBINATION
    match p2 with
    | .mem addr => do
      let r := p1.hd
      let e := addr.getRegExp
      evexLeg r e.base e.index d type sc
      writeCode type d code false
      opAddr { addr with immSize := immSize } r.idx
      return true
    | .reg _ => do
      evexLeg op2.hd op1.hd .nil d type sc
      writeCode type d code false
      setModRM 3 op2.hd.idx op1.hd.idx
      return true

/-- xbyak.h 2095-2104 `opMR` -/
def opMR (addr : Addr) (r : Reg) (type : Ty) (code : Byte) (type2 : Ty := 0) (code2 : Option Byte := none) : Enc Unit := do
  let done ← if type2 ≠ 0 then opROO .nil (.mem addr) (.reg r) type2 (code2.getD code) else pure false
  if done then pure ()
  else do
    throwIf addr.is64bitDisp .CANT_USE_64BIT_DISP
    throwIf (!type.has T_ALLOW_DIFF_SIZE && decide (r.bit ≤ 64) && decide (addr.o.bit > 0) && addr.o.bit != r.bit) .BAD_MEM_SIZE
    let rex2 ← rex (.mem addr) (.reg r) type
    writeCode type r code rex2
    opAddr addr r.idx

/-- xbyak.h 2105-2114 `opLoadSeg` -/
def opLoadSeg (addr : Addr) (reg : Reg) (type : Ty) (code : Byte) : Enc Unit := do
  throwIf (reg.isBit 8) .BAD_SIZE_OF_REGISTER
  throwIf addr.is64bitDisp .CANT_USE_64BIT_DISP
  let _ ← rex (.mem addr) (.reg reg) type
  dbIf (type.has T_0F) 0x0F
  db code
  opAddr addr reg.idx

/-- xbyak.h 2116-2120 `opMIB` -/
def opMIB (addr : Addr) (reg : Reg) (type : Ty) (code : Byte) : Enc Unit := do
  throwIf (addr.mode != .modRM) .INVALID_MIB_ADDRESS
  opMR { addr with opt := false } reg type code

/-- xbyak.h 2309-2318 `opRO` -/
def opRO (r : Reg) (op : Operand) (type : Ty) (code : Byte) (condR : Bool := true) (immSize : Nat := 0) : Enc Unit :=
  match op with
  | .mem a => opMR { a with immSize := immSize } r type code
  | .reg q => do
    throwIf (!condR) .BAD_COMBINATION
    opRR r q type code

/-- xbyak.h 2274-2287 `opRext` -/
def opRext (op : Operand) (bit : Nat) (ext : BitVec 5) (type : Ty) (code : Byte) (disableRex : Bool := false) (immSize : Nat := 0)
    (d : Option Reg := none) : Enc Unit := do
  let opBit := if disableRex && op.bit == 64 then 32 else op.bit
  let r := Reg.gp ext opBit
  let done ← if type.has T_APX && (d.isSome || op.hasRex2NFZU) then
      opROO (d.getD (.gp 0 opBit)) op (.reg r) type code
    else pure false
  if done then pure ()
  else match op with
    | .mem a => opMR { a with immSize := immSize } r type code
    | .reg q => do
      throwIf (!q.isREG bit) .BAD_COMBINATION
      let q' ← lift (q.changeBit opBit)
      opRR r q' (type ||| T_ALLOW_ABCDH) code

/-- xbyak.h 2172-2181 `opJmpOp`; `far` = `T_FAR` -/
def opJmpOp (op : Operand) (far : Bool) (ext : BitVec 5) : Enc Unit := do
  if far then do
    throwIf (!(op.isMEM && op.isBit 112)) .NOT_SUPPORTED
    opRext op 112 (ext + 1) 0 0xFF false
  else opRext op 112 ext 0 0xFF true

/-- xbyak.h 1760-1764 `isValidSSE` -/
def isValidSSE (op : Operand) : Bool := !(op.hd.isXMM && decide (op.hd.idx.toNat ≥ 16))

/-! Operand predicates, xbyak.h 1724-1758 -/
def isXMM_XMMorMEM (a b : Operand) : Bool := a.hd.isXMM && (b.hd.isXMM || b.isMEM)
def isXMMorMMX_MEM (a b : Operand) : Bool := (a.hd.isMMX && (b.hd.isMMX || b.isMEM)) || isXMM_XMMorMEM a b
def isXMM_MMXorMEM (a b : Operand) : Bool := a.hd.isXMM && (b.hd.isMMX || b.isMEM)
def isMMX_XMMorMEM (a b : Operand) : Bool := a.hd.isMMX && (b.hd.isXMM || b.isMEM)
def isXMM_REG32orMEM (a b : Operand) : Bool := a.hd.isXMM && (b.isREG 96 || b.isMEM)
def isREG32_XMMorMEM (a b : Operand) : Bool := a.isREG 96 && (b.hd.isXMM || b.isMEM)
def isREG32_REG32orMEM (a b : Operand) : Bool := a.isREG 96 && ((b.isREG 96 && a.bit == b.bit) || b.isMEM)

/-- xbyak.h 2203-2209 `opSSE` -/
def opSSE (r : Reg) (op : Operand) (type : Ty) (code : Byte) (valid : Option (Operand → Operand → Bool) := none)
    (imm8 : Option Byte := none) : Enc Unit := do
  throwIf (match valid with | some f => !f (.reg r) op | none => false) .BAD_COMBINATION
  throwIf (!isValidSSE (.reg r) || !isValidSSE op) .NOT_SUPPORTED
  opRO r op type code true (optSize imm8)
  dbOpt imm8

/-- xbyak.h 2210-2217 `opMMX_IMM` -/
def opMMX_IMM (mmx : Reg) (imm8 : Byte) (code : Byte) (ext : BitVec 5) : Enc Unit := do
  throwIf (!isValidSSE (.reg mmx)) .NOT_SUPPORTED
  opRR (.gp ext 32) mmx (if mmx.isXMM then T_0F ||| T_66 else T_0F) code
  db imm8

/-- xbyak.h 2218-2222 `opMMX` -/
def opMMX (mmx : Reg) (op : Operand) (code : Byte) (type : Ty := T_0F) (pref : Ty := T_66) (imm8 : Option Byte := none) : Enc Unit :=
  opSSE mmx op (if mmx.isXMM then type ||| pref else type) code (some isXMMorMMX_MEM) imm8

/-- xbyak.h 2223-2233 `opMovXMM` -/
def opMovXMM (op1 op2 : Operand) (type : Ty) (code : Byte) : Enc Unit := do
  throwIf (!isValidSSE op1 || !isValidSSE op2) .NOT_SUPPORTED
  match op1, op2 with
  | .reg r, .mem a => if r.isXMM then opMR a r type code else Enc.throw .BAD_COMBINATION
  | .mem a, .reg r => if r.isXMM then opMR a r type (code ||| 1) else Enc.throw .BAD_COMBINATION
  | _, _ => Enc.throw .BAD_COMBINATION

/-- xbyak.h 2235-2244 `opExt` -/
def opExt (op : Operand) (mmx : Reg) (code : Byte) (imm : Byte) (hasMMX2 : Bool := false) : Enc Unit := do
  throwIf (!isValidSSE op || !isValidSSE (.reg mmx)) .NOT_SUPPORTED
  if hasMMX2 && op.isREG 96 then do
    dbIf mmx.isXMM 0x66
    opRR op.hd mmx T_0F 0xC5
    db imm
  else opSSE mmx op (T_66 ||| T_0F3A) code (some isXMM_REG32orMEM) (some imm)

/-- xbyak.h 2288-2292 `opSetCC` -/
def opSetCC (op : Operand) (ext : Byte) : Enc Unit := do
  let done ← opROO .nil op (.reg .nil) (T_APX ||| T_ZU ||| T_F2) (0x40 ||| ext)
  if done then pure () else opRext op 8 0 T_0F (0x90 ||| ext)

/-- xbyak.h 2420-2423 `verifyMemHasSize` -/
def verifyMemHasSize (op : Operand) : Enc Unit := throwIf (op.isMEM && op.bit == 0) .MEM_SIZE_IS_NOT_SPECIFIED

/-- type flags of `opShift`: xbyak.h 2297, 2305 -/
def shiftType (ext : BitVec 4) (d : Option Reg) : Ty :=
  (T_APX ||| T_CODE1_IF1) ||| (if ext &&& 8 ≠ 0 then T_NF else 0) ||| (if d.isSome then T_ND1 else 0)

/-- `d && op.getBit() != 0 && d->getBit() != op.getBit()` -/
def shiftSizeBad (op : Operand) (d : Option Reg) : Bool :=
  match d with | some q => op.bit != 0 && q.bit != op.bit | none => false

/-- xbyak.h 2293-2300 `opShift(op, imm, ext, d)`; `ext` = 8 * NF-capable + /r -/
def opShiftI (op : Operand) (imm : BitVec 32) (ext : BitVec 4) (d : Option Reg := none) : Enc Unit := do
  if d.isNone then verifyMemHasSize op else pure ()
  throwIf (shiftSizeBad op d) .BAD_SIZE_OF_REGISTER
  opRext op 0 ((ext &&& 7).setWidth 5) (shiftType ext d) (if imm = 1 then 0xD0 else 0xC0) false (if imm ≠ 1 then 1 else 0) d
  dbIf (imm ≠ 1) (imm.setWidth 8)

/-- xbyak.h 2301-2307 `opShift(op, cl, ext, d)` -/
def opShiftCL (op : Operand) (cl : Reg) (ext : BitVec 4) (d : Option Reg := none) : Enc Unit := do
  throwIf (cl.idx != 1) .BAD_COMBINATION
  throwIf (shiftSizeBad op d) .BAD_SIZE_OF_REGISTER
  opRext op 0 ((ext &&& 7).setWidth 5) (shiftType ext d) 0xD2 false 0 d

/-- xbyak.h 2319-2331 `opShxd`; `imm = none` for the `cl` form -/
def opShxd (d : Reg) (op : Operand) (reg : Reg) (imm : Byte) (code code2 : Byte) (cl : Option Reg := none) : Enc Unit := do
  throwIf (match cl with | some c => c.idx != 1 | none => false) .BAD_COMBINATION
  throwIf (!reg.isREG 112) .BAD_SIZE_OF_REGISTER
  let immSize := if cl.isSome then 0 else 1
  let code := if cl.isSome then code ||| 1 else code
  let type := T_APX ||| T_NF ||| (if d.isREG then T_ND1 else 0)
  let done ← opROO d op (.reg reg) type (if cl.isSome then code else code2) immSize
  if done then pure () else opRO reg op T_0F code true immSize
  dbIf cl.isNone imm

/-- xbyak.h 2333-2341 `opRO_MR` -/
def opRO_MR (op1 op2 : Operand) (code : Byte) : Enc Unit :=
  match op2 with
  | .mem a => do
    throwIf (!op1.isREG) .BAD_COMBINATION
    opMR a op1.hd 0 (code ||| 2)
  | .reg r => opRO r op1 0 code (op1.hd.kind == r.kind)

/-- xbyak.h 2344 `isInDisp16relaxed` -/
def isInDisp16relaxed (x : BitVec 32) : Bool := x &&& 0xffff0000 == 0 || x &&& 0xffff0000 == 0xffff0000

/-- xbyak.h 2345-2353 `getImmBit` -/
def getImmBit (op : Operand) (imm : BitVec 32) : Enc Nat := do
  verifyMemHasSize op
  let immBit := if isInDisp8 imm then 8 else if isInDisp16relaxed imm then 16 else 32
  let immBit := if op.isBit 8 then 8 else immBit
  throwIf (decide (op.bit < immBit)) .IMM_IS_TOO_BIG
  return if op.isBit 96 && immBit == 16 then 32 else immBit

/-- xbyak.h 2355-2366 `opOI` -/
def opOI (op : Operand) (imm : BitVec 32) (code : Byte) (ext : BitVec 5) : Enc Unit := do
  let immBit ← getImmBit op imm
  if op.isREG && op.hd.idx == 0 && (op.bit == immBit || (op.isBit 64 && immBit == 32)) then do
    let _ ← rex op (.reg .nil) 0
    db (code ||| 4 ||| (if immBit = 8 then 0 else 1))
  else do
    let tmp : Byte := if immBit < min op.bit 32 then 2 else 0
    opRext op 0 ext 0 (0x80 ||| tmp) false (immBit / 8)
  dbN (imm.setWidth 64) (immBit / 8)

/-- xbyak.h 2368-2374 `opROI` -/
def opROI (d : Reg) (op : Operand) (imm : BitVec 32) (type : Ty) (ext : BitVec 5) : Enc Unit := do
  let immBit ← getImmBit (.reg d) imm
  let code : Byte := if immBit < min d.bit 32 then 2 else 0
  let _ ← opROO d op (.reg (.gp ext d.bit)) type (0x80 ||| code) (immBit / 8)
  dbN (imm.setWidth 64) (immBit / 8)

/-- xbyak.h 2375-2396 `opIncDec` -/
def opIncDec (d : Reg) (op : Operand) (ext : BitVec 5) : Enc Unit := do
  if d.isREG then do
    let code : Byte := if d.isBit 8 then 0xFE else 0xFF
    let type := T_APX ||| T_NF ||| T_ND1 ||| (if d.isBit 16 then T_66 else 0)
    let _ ← opROO d op (.reg (.gp ext d.bit)) type code
    pure ()
  else do
    verifyMemHasSize op
    opRext op op.bit ext 0 0xFE

/-- xbyak.h 2397-2418 `opPushPop` -/
def opPushPop (op : Operand) (code : Byte) (ext : BitVec 5) (alt : Byte) : Enc Unit :=
  if op.isREG && op.hasRex2 then do
    let r := op.hd
    rex2 false (rexRXB 3 false .nil r .nil) .nil r .nil
    db (alt ||| (r.idx &&& 7).setWidth 8)
  else do
    let bit := op.bit
    if bit = 16 ∨ bit = 64 then do
      dbIf (bit = 16) 0x66
      match op with
      | .reg r =>
        if r.isREG then do
          dbIf (r.idx.toNat ≥ 8) 0x41
          db (alt ||| (r.idx &&& 7).setWidth 8)
        else Enc.throw .BAD_COMBINATION
      | .mem a => opMR a (.gp ext 32) T_ALLOW_DIFF_SIZE code
    else Enc.throw .BAD_COMBINATION

/-- xbyak.h 2427-2445 `mov_imm`; returns the number of immediate bytes -/
def mov_imm (reg : Reg) (imm : Word) : Enc Nat := do
  let bit := reg.bit
  let code : Byte := 0xB0 ||| (if bit = 8 then 0 else 8)
  if bit = 64 ∧ imm &&& ~~~(0xffffffff : Word) = 0 then do
    let _ ← rex (.reg (.gp reg.idx 32)) (.reg .nil) 0
    db (code ||| (reg.idx &&& 7).setWidth 8)
    return 4
  else do
    let _ ← rex (.reg reg) (.reg .nil) 0
    if bit = 64 ∧ isInInt32 imm then do
      db 0xC7
      db (0xC0 ||| (reg.idx &&& 7).setWidth 8)
      return 4
    else do
      db (code ||| (reg.idx &&& 7).setWidth 8)
      return bit / 8

/-- xbyak.h 2467-2473 `opMovxx` -/
def opMovxx (reg : Reg) (op : Operand) (code : Byte) : Enc Unit := do
  throwIf (op.isBit 32) .BAD_COMBINATION
  throwIf (!(reg.isREG && decide (reg.bit > op.bit))) .BAD_COMBINATION
  opRO reg op (T_0F ||| T_ALLOW_DIFF_SIZE) (code ||| sel (op.isBit 16) 1)

/-- xbyak.h 2474-2483 `opFpuMem` -/
def opFpuMem (addr : Addr) (m16 m32 m64 : Byte) (ext m64ext : Byte) : Enc Unit := do
  throwIf addr.is64bitDisp .CANT_USE_64BIT_DISP
  let code := if addr.o.isBit 16 then m16 else if addr.o.isBit 32 then m32 else if addr.o.isBit 64 then m64 else 0
  throwIf (code == 0) .BAD_MEM_SIZE
  let ext := if m64ext ≠ 0 ∧ addr.o.isBit 64 then m64ext else ext
  let _ ← rex (.mem addr) (.reg (.st 0)) 0
  db code
  opAddr addr (ext.setWidth 5)

/-- xbyak.h 2486-2492 `opFpuFpu` -/
def opFpuFpu (reg1 reg2 : Reg) (code1 code2 : BitVec 16) : Enc Unit := do
  let code := if reg1.idx = 0 then code1 else if reg2.idx = 0 then code2 else 0
  throwIf (code == 0) .BAD_ST_COMBINATION
  db ((code >>> 8).setWidth 8)
  db (code.setWidth 8 ||| (reg1.idx ||| reg2.idx).setWidth 8)

/-- xbyak.h 2493-2496 `opFpu` -/
def opFpu (reg : Reg) (code1 code2 : Byte) : Enc Unit := do
  db code1
  db (code2 ||| reg.idx.setWidth 8)

/-- The condition selecting EVEX for a memory operand, xbyak.h 2506 -/
def memEvex (r : Reg) (p1 : Option Reg) (addr : Addr) (type : Ty) : Bool :=
  type.has (T_MUST_EVEX ||| T_MEM_EVEX) || r.hasEvex || (match p1 with | some q => q.hasEvex | none => false) ||
    addr.broadcast || addr.o.mask != 0 || addr.hasRex2

/-- The condition selecting EVEX for a register operand, xbyak.h 2527 -/
def regEvex (r : Reg) (p1 : Option Reg) (base : Reg) (type : Ty) : Bool :=
  type.has T_MUST_EVEX || r.hasEvex || (match p1 with | some q => q.hasEvex | none => false) || base.hasEvex

/-- xbyak.h 2497-2534 `opVex` -/
def opVex (r : Reg) (p1 : Option Reg) (op2 : Operand) (type : Ty) (code : Byte) (imm8 : Option Byte := none) : Enc Unit := do
  match op2 with
  | .mem addr => do
    let e := addr.getRegExp
    dbIf addr.is32bit 0x67
    let disp8N ←
      if memEvex r p1 addr type then do
        let aaa := addr.o.mask
        throwIf (aaa != 0 && !type.has T_M_K) .INVALID_OPMASK_WITH_MEMORY
        throwIf (addr.broadcast && !type.has (T_B32 ||| T_B64)) .INVALID_BROADCAST
        let VL := if e.isVsib then e.index.bit else 0
        evex r e.base p1 type code (some e.index) addr.broadcast aaa VL (e.index.isSIMD && e.index.isExtIdx2)
      else do
        vex r e.base p1 type code e.index.isExtIdx
        pure 0
    opAddr { addr with
      permitVsib := addr.permitVsib || type.has T_VSIB
      disp8N := if disp8N ≠ 0 then disp8N else addr.disp8N
      immSize := if imm8.isSome then 1 else addr.immSize } r.idx
  | .reg base => do
    if regEvex r p1 base type then do
      let _ ← evex r base p1 type code none false 0 0 false
      pure ()
    else vex r base p1 type code false
    setModRM 3 r.idx base.idx
  dbOpt imm8

/-- xbyak.h 2536-2547 `opRRO` -/
def opRRO (d r1 : Reg) (op2 : Operand) (type : Ty) (code : Byte) (imm8 : Option Byte := none) : Enc Unit := do
  throwIf (r1.bit != d.bit || (op2.isREG && op2.bit != d.bit)) .BAD_COMBINATION
  let type := type ||| (if d.bit = 64 then T_W1 else T_W0)
  if d.hasRex2 || r1.hasRex2 || op2.hasRex2 || d.nf then do
    let _ ← opROO r1 op2 (.reg d) type code
    dbOpt imm8
  else opVex d (some r1) op2 type code imm8

/-- xbyak.h 2548-2559 `opAVX_X_X_XM`; `op2 = none` is the default `Operand()` -/
def opAVX_X_X_XM (x1 : Reg) (op1 : Operand) (op2 : Option Operand) (type : Ty) (code : Byte) (imm8 : Option Byte := none) :
    Enc Unit := do
  let x2 := match op2 with | none => x1 | some _ => op1.hd
  let op := match op2 with | none => op1 | some o => o
  throwIf (!((x1.isXMM && x2.isXMM) || (type.has T_YMM && ((x1.isYMM && x2.isYMM) || (x1.isZMM && x2.isZMM))))) .BAD_COMBINATION
  opVex x1 (some x2) op type code imm8

/-- xbyak.h 2560-2564 `opAVX_K_X_XM` -/
def opAVX_K_X_XM (k x2 : Reg) (op3 : Operand) (type : Ty) (code : Byte) (imm8 : Option Byte := none) : Enc Unit := do
  throwIf (!op3.isMEM && x2.kind != op3.hd.kind) .BAD_COMBINATION
  opVex k (some x2) op3 type code imm8

/-- xbyak.h 2566-2569 `checkCvt1` -/
def checkCvt1 (x : Reg) (op : Operand) : Enc Unit :=
  throwIf (!op.isMEM && !((x.isXMM || x.isYMM) && op.hd.isXMM) && !(x.isZMM && op.hd.isYMM)) .BAD_COMBINATION

/-- xbyak.h 2571-2574 `checkCvt2` -/
def checkCvt2 (x : Reg) (op : Operand) : Enc Unit :=
  throwIf (!(x.isXMM && (op.hd.isXMM || op.hd.isYMM || op.isMEM)) && !(x.isYMM && (op.hd.isZMM || op.isMEM))) .BAD_COMBINATION

/-- xbyak.h 2575-2579 `opCvt` -/
def opCvt (x : Reg) (op : Operand) (type : Ty) (code : Byte) : Enc Unit :=
  let kind := if x.isXMM then (if op.isBit 256 then Kind.ymm else .xmm) else .zmm
  opVex (x.setKind kind) (some (.xmm 0)) op type code

/-- xbyak.h 2580-2584 `opCvt2` -/
def opCvt2 (x : Reg) (op : Operand) (type : Ty) (code : Byte) : Enc Unit := do
  checkCvt2 x op
  opCvt x op type code

/-- xbyak.h 2585-2591 `opCvt3` -/
def opCvt3 (x1 x2 : Reg) (op : Operand) (type type64 type32 : Ty) (code : Byte) : Enc Unit := do
  throwIf (!(x1.isXMM && x2.isXMM && (op.isREG 96 || op.isMEM))) .BAD_SIZE_OF_REGISTER
  let p := if op.isREG then .reg (.xmm op.hd.idx) else op
  opVex x1 (some x2) p (type ||| (if op.isBit 64 then type64 else type32)) code

/-- xbyak.h 2593-2596 `checkCvt4` -/
def checkCvt4 (x : Reg) (op : Operand) : Enc Unit :=
  throwIf (!(x.isXMM && (op.hd.isXMM || op.hd.isYMM || op.isMEM) && op.isBit 384) && !(x.isYMM && (op.hd.isZMM || op.isMEM)))
    .BAD_COMBINATION

/-- xbyak.h 2598-2603 `opCvt5` -/
def opCvt5 (x : Reg) (op : Operand) (type : Ty) (code : Byte) : Enc Unit := do
  throwIf (!(x.isXMM && op.isBit 896)) .BAD_COMBINATION
  let kind := if op.isBit 128 then Kind.xmm else if op.isBit 256 then .ymm else .zmm
  opVex (x.setKind kind) (some (.xmm 0)) op type code

/-- xbyak.h 2605-2615 `opCvt6` -/
def opCvt6 (x1 x2 : Reg) (op : Operand) (type : Ty) (code : Byte) : Enc Unit := do
  let b1 := x1.bit
  let b2 := x2.bit
  let b3 := op.bit
  if (b1 == 128 && (b2 == 128 || b2 == 256) && (b2 == b3 || op.isMEM)) || (b1 == 256 && b2 == 512 && (b3 == b2 || op.isMEM)) then
    opVex x1 (some x2) op type code
  else Enc.throw .BAD_COMBINATION

/-- xbyak.h 2616-2619 `cvtIdx0` -/
def cvtIdx0 (x : Reg) : Reg := if x.isZMM then .zmm 0 else if x.isYMM then .ymm 0 else .xmm 0

/-- xbyak.h 2621-2624 `opAVX_X_XM_IMM` -/
def opAVX_X_XM_IMM (x : Reg) (op : Operand) (type : Ty) (code : Byte) (imm8 : Option Byte := none) : Enc Unit :=
  opAVX_X_X_XM x (.reg (cvtIdx0 x)) (some op) type code imm8

/-- xbyak.h 2625-2631 `opCnt` -/
def opCnt (reg : Reg) (op : Operand) (code : Byte) : Enc Unit := do
  throwIf (reg.isBit 8) .BAD_SIZE_OF_REGISTER
  let is16bit := reg.isREG 16 && (op.isREG 16 || op.isMEM)
  throwIf (!is16bit && !(reg.isREG 96 && (op.isREG reg.bit || op.isMEM))) .BAD_COMBINATION
  opRO reg op (T_F3 ||| T_0F) code

/-- xbyak.h 2632-2656 `opGather`; mode 0: y_vx_y, 1: y_vy_y, 2: x_vy_x -/
def opGather (x1 : Reg) (addr : Addr) (x2 : Reg) (type : Ty) (code : Byte) (mode : Nat) : Enc Unit := do
  let e := addr.getRegExp
  throwIf (!e.isVsib 384) .BAD_VSIB_ADDRESSING
  let isAddrYMM := e.index.bit == 256
  let isOK := if mode = 0 then x1.isYMM && !isAddrYMM && x2.isYMM
    else if mode = 1 then x1.isYMM && isAddrYMM && x2.isYMM else !x1.isYMM && isAddrYMM && !x2.isYMM
  throwIf ((!x1.isXMM || isAddrYMM || !x2.isXMM) && !isOK) .BAD_VSIB_ADDRESSING
  throwIf (x1.idx == e.index.idx || x1.idx == x2.idx || e.index.idx == x2.idx) .SAME_REGS_ARE_INVALID
  opAVX_X_X_XM (if isAddrYMM then .ymm x1.idx else x1) (.reg (if isAddrYMM then .ymm x2.idx else x2)) (some (.mem addr)) type code

/-- xbyak.h 2662-2674 `checkGather2`; mode 0: xx_yy_zz, 1: xx_yx_zy, 2: xx_xy_yz -/
def checkGather2 (x1 x2 : Reg) (mode : Nat) : Enc Unit :=
  let ok := (x1.isXMM && x2.isXMM) ||
    (if mode = 0 then (x1.isYMM && x2.isYMM) || (x1.isZMM && x2.isZMM)
     else if mode = 1 then (x1.isYMM && x2.isXMM) || (x1.isZMM && x2.isYMM)
     else if mode = 2 then (x1.isXMM && x2.isYMM) || (x1.isYMM && x2.isZMM) else false)
  throwIf (!ok) .BAD_VSIB_ADDRESSING

/-- xbyak.h 2675-2685 `opGather2` -/
def opGather2 (x : Reg) (addr : Addr) (type : Ty) (code : Byte) (mode : Nat) : Enc Unit := do
  throwIf x.zero .INVALID_ZERO
  let e := addr.getRegExp
  checkGather2 x e.index mode
  let maskIdx := if type.has T_M_K && addr.o.mask != 0 then addr.o.mask else x.mask
  throwIf (maskIdx == 0) .K0_IS_INVALID
  throwIf (!type.has T_M_K && x.idx == e.index.idx) .SAME_REGS_ARE_INVALID
  opVex x none (.mem addr) type code

/-- xbyak.h 2690-2698 `opVmov` -/
def opVmov (op : Operand) (x : Reg) (type : Ty) (code : Byte) (mode : Bool) : Enc Unit := do
  throwIf (if mode then !op.isMEM && !((op.hd.isXMM && x.isXMM) || (op.hd.isXMM && x.isYMM) || (op.hd.isYMM && x.isZMM))
    else !op.isMEM && !op.hd.isXMM) .BAD_COMBINATION
  opVex x none op type code

/-- xbyak.h 2699-2704 `opGatherFetch` -/
def opGatherFetch (addr : Addr) (x : Reg) (type : Ty) (code : Byte) (kind : Kind) : Enc Unit := do
  throwIf addr.o.zero .INVALID_ZERO
  throwIf (addr.getRegExp.index.kind != kind) .BAD_VSIB_ADDRESSING
  opVex x none (.mem addr) type code

/-- `PreferredEncoding` (xbyak.h 1699-1705) -/
inductive PrefEnc | default | vex | evex | preAVX10v2 | avx10v2
  deriving DecidableEq, Repr

/-- xbyak.h 2709-2719 `getEncoding`; `dflt` = `defaultEncoding_[sel]` -/
def getEncoding (dflt enc : PrefEnc) (sel : Nat) : Except Err PrefEnc :=
  let enc := if enc = .default then dflt else enc
  if (sel = 0 ∧ enc ≠ .vex ∧ enc ≠ .evex) ∨ (sel = 1 ∧ enc ≠ .preAVX10v2 ∧ enc ≠ .avx10v2) then .error .BAD_ENCODING_MODE
  else .ok enc

/-- xbyak.h 2720-2723 `orEvexIf` -/
def orEvexIf (dflt enc : PrefEnc) (typeVex typeEvex : Ty) (sel : Nat) : Except Err Ty := do
  let enc ← getEncoding dflt enc sel
  return if (sel = 0 ∧ enc = .vex) ∨ (sel = 1 ∧ enc ≠ .avx10v2) then typeVex else T_MUST_EVEX ||| typeEvex

/-- xbyak.h 2705-2708 `opEncoding` -/
def opEncoding (dflt : PrefEnc) (x1 x2 : Reg) (op : Option Operand) (type : Ty) (code : Byte) (enc : PrefEnc)
    (imm : Option Byte := none) (typeVex typeEvex : Ty := 0) (sel : Nat := 0) : Enc Unit := do
  let t ← lift (orEvexIf dflt enc typeVex typeEvex sel)
  opAVX_X_X_XM x1 (.reg x2) op (type ||| t) code imm

/-- xbyak.h 2724-2734 `opInOut(a, d, code)` -/
def opInOutDX (a d : Reg) (code : Byte) : Enc Unit :=
  if a.idx = 0 ∧ d.idx = 2 ∧ d.bit = 16 then
    if a.bit = 8 then db code
    else if a.bit = 16 then do db 0x66; db (code + 1)
    else if a.bit = 32 then db (code + 1)
    else Enc.throw .BAD_COMBINATION
  else Enc.throw .BAD_COMBINATION

/-- xbyak.h 2735-2745 `opInOut(a, code, v)` -/
def opInOutImm (a : Reg) (code v : Byte) : Enc Unit :=
  if a.idx = 0 then
    if a.bit = 8 then do db code; db v
    else if a.bit = 16 then do db 0x66; db (code + 1); db v
    else if a.bit = 32 then do db (code + 1); db v
    else Enc.throw .BAD_COMBINATION
  else Enc.throw .BAD_COMBINATION

/-- `Reg(15 - dfv, REG, bit)`; `dfv` in 0..15 -/
def dfvReg (dfv : Int) (bit : Nat) : Reg := .gp (BitVec.ofInt 5 (15 - dfv)) bit

/-- xbyak.h 2746-2750 `opCcmp` -/
def opCcmp (op1 op2 : Operand) (dfv : Int) (code : Byte) (sc : BitVec 4) : Enc Unit := do
  throwIf (decide (dfv < 0 ∨ 15 < dfv)) .INVALID_DFV
  let _ ← opROO (dfvReg dfv (op1.bit ||| op2.bit)) op1 op2 (T_APX ||| T_CODE1_IF1) code 0 (some sc)
  pure ()

/-- xbyak.h 2751-2759 `opCcmpi` -/
def opCcmpi (op : Operand) (imm : BitVec 32) (dfv : Int) (sc : BitVec 4) : Enc Unit := do
  throwIf (decide (dfv < 0 ∨ 15 < dfv)) .INVALID_DFV
  let immBit ← getImmBit op imm
  let tmp : Byte := if immBit < min op.bit 32 then 2 else 0
  let _ ← opROO (dfvReg dfv op.bit) op (.reg (.gp 15 op.bit)) (T_APX ||| T_CODE1_IF1) (0x80 ||| tmp) (immBit / 8) (some sc)
  dbN (imm.signExtend 64) (immBit / 8)

/-- xbyak.h 2760-2768 `opTesti` -/
def opTesti (op : Operand) (imm : BitVec 32) (dfv : Int) (sc : BitVec 4) : Enc Unit := do
  throwIf (decide (dfv < 0 ∨ 15 < dfv)) .INVALID_DFV
  throwIf (op.bit == 0) .MEM_SIZE_IS_NOT_SPECIFIED
  let immBit := min op.bit 32
  let _ ← opROO (dfvReg dfv op.bit) op (.reg (.gp 0 op.bit)) (T_APX ||| T_CODE1_IF1) 0xF6 (immBit / 8) (some sc)
  dbN (imm.signExtend 64) (immBit / 8)

/-- xbyak.h 2769-2782 `opCfcmov` -/
def opCfcmov (d : Reg) (op1 op2 : Operand) (code : Byte) : Enc Unit := do
  throwIf (decide (d.bit > 0) && decide (op2.bit > 0) && d.bit != op2.bit) .BAD_SIZE_OF_REGISTER
  throwIf (op1.isBit 8 || op2.bit == 8) .BAD_SIZE_OF_REGISTER
  match op2 with
  | .mem _ => do
    throwIf op1.isMEM .BAD_COMBINATION
    let type := if d.bit > 0 then T_MUST_EVEX ||| T_NF else T_MUST_EVEX
    let _ ← opROO d op2 op1 type code
    pure ()
  | .reg r => do
    let _ ← opROO d op1 (.reg r.setNF) (T_MUST_EVEX ||| T_NF) code
    pure ()

/-- xbyak.h 2784-2793 `opAMX` -/
def opAMX (t1 : Reg) (addr : Addr) (type : Ty) (code : Byte) : Enc Unit := do
  let addr2 := { addr with opt := false }
  let e := addr2.getRegExp
  throwIf (e.base.bit == 0 || e.index.bit == 0) .NOT_SUPPORTED
  let done ← opROO .nil (.mem addr2) (.reg t1) (T_APX ||| type) code
  if done then pure () else opVex t1 (some (.tmm 0)) (.mem addr2) type code

/-- xbyak.h 2796-2817 `opKmov` -/
def opKmov (k : Reg) (op : Operand) (rev : Bool) (size : Nat) : Enc Unit := do
  let isReg := op.isREG (if size < 64 then 32 else 64)
  let code : Byte := if rev then (if isReg then 0x93 else if op.isMEM then 0x91 else 0)
    else (if op.hd.isOPMASK || op.isMEM then 0x90 else if isReg then 0x92 else 0)
  throwIf (code == 0) .BAD_COMBINATION
  let type : Ty := T_0F ||| (if size = 8 then T_W0 ||| T_66 else if size = 16 then T_W0
    else if size = 32 then (if isReg then T_W0 ||| T_F2 else T_W1 ||| T_66)
    else if size = 64 then (if isReg then T_W1 ||| T_F2 else T_W1) else 0)
  let p1 := if code = 0x93 then op else .reg k
  let p2 := if code = 0x93 then .reg k else op
  let done ← opROO .nil p2 p1 (T_APX ||| type) code
  if done then pure () else opVex p1.hd none p2 (T_L0 ||| type) code

/-- xbyak.h 2818-2825 `opEncodeKey` -/
def opEncodeKey (r1 r2 : Reg) (code1 code2 : Byte) : Enc Unit := do
  if r1.idx.toNat < 8 ∧ r2.idx.toNat < 8 then do
    db 0xF3; db 0x0F; db 0x38; db code1
    setModRM 3 r1.idx r2.idx
  else do
    let _ ← opROO .nil (.reg r2) (.reg r1) (T_MUST_EVEX ||| T_F3) code2
    pure ()

/-- xbyak.h 2826-2833 `opSSE_APX` -/
def opSSE_APX (x : Reg) (op : Operand) (type1 : Ty) (code1 : Byte) (type2 : Ty) (code2 : Byte) (imm : Option Byte := none) :
    Enc Unit := do
  let done ← if x.idx.toNat ≤ 15 && op.hasRex2 then opROO .nil op (.reg x) type2 code2 (optSize imm) else pure false
  if done then dbOpt imm
  else opSSE x op type1 code1 (some isXMM_XMMorMEM) imm

/-- xbyak.h 2835-2858 `opAVX10ZeroExt`; the tables are indexed by `sel` -/
def opAVX10ZeroExt (dflt : PrefEnc) (op1 op2 : Operand) (typeTbl : Nat → Ty) (codeTbl : Nat → Byte) (enc : PrefEnc) (bit : Nat) :
    Enc Unit := do
  let sw := op1.isMEM
  let p1 := if sw then op2 else op1
  let p2 := if sw then op1 else op2
  throwIf p1.isMEM .BAD_COMBINATION
  let sw2 := p1.hd.isXMM
  let q1 := if sw2 then p2 else p1
  let q2 := if sw2 then p1 else p2
  let rev := if sw2 then !sw else sw
  let enc ← lift (getEncoding dflt enc 1)
  let r := if rev then 1 else 0
  if q1.hd.isXMM || (q1.isMEM && enc == .avx10v2) then
    opAVX_X_X_XM q2.hd (.reg (.xmm 0)) (some q1) (typeTbl (2 + r)) (codeTbl (2 + r))
  else if q1.isREG bit || q1.isMEM then
    opAVX_X_X_XM q2.hd (.reg (.xmm 0)) (some q1) (typeTbl r) (codeTbl r)
  else Enc.throw .BAD_COMBINATION

/-! ## Instructions defined in xbyak.h -/

/-- xbyak.h 2958-2961 `test(op, reg)` -/
def test (op : Operand) (reg : Reg) : Enc Unit := opRO reg op 0 0x84 (op.hd.kind == reg.kind)

/-- xbyak.h 2962-2973 `test(op, imm)` -/
def testI (op : Operand) (imm : BitVec 32) : Enc Unit := do
  verifyMemHasSize op
  let immSize := min (op.bit / 8) 4
  if op.isREG && op.hd.idx == 0 then do
    let _ ← rex op (.reg .nil) 0
    db (0xA8 ||| (if op.isBit 8 then 0 else 1))
  else opRext op 0 0 0 0xF6 false immSize
  dbN (imm.setWidth 64) immSize

/-- xbyak.h 2974-2983 `imul(reg, op, imm)` -/
def imulI (reg : Reg) (op : Operand) (imm : BitVec 32) : Enc Unit := do
  let s := isInDisp8 imm
  let immSize := if s then 1 else if reg.isREG 16 then 2 else 4
  let code : Byte := 0x69 ||| sel s 2
  let done ← opROO .nil op (.reg reg) (T_APX ||| T_NF ||| T_ZU) code immSize
  if done then pure () else opRO reg op 0 code (reg.kind == op.hd.kind) immSize
  dbN (imm.signExtend 64) immSize

/-- xbyak.h 2984-2985 -/
def push (op : Operand) : Enc Unit := opPushPop op 0xFF 6 0x50
def pop (op : Operand) : Enc Unit := opPushPop op 0x8F 0 0x58

/-- xbyak.h 2986-2995 `push(AddressFrame, imm)` -/
def pushAF (bit : Nat) (imm : BitVec 32) : Enc Unit :=
  if bit = 8 then do db 0x6A; db (imm.setWidth 8)
  else if bit = 16 then do db 0x66; db 0x68; dbN (imm.setWidth 64) 2
  else do db 0x68; dbN (imm.setWidth 64) 4

/-- xbyak.h 2997-3004 `push(imm)` -/
def pushI (imm : BitVec 32) : Enc Unit := if isInDisp8 imm then pushAF 8 imm else pushAF 32 imm

/-- xbyak.h 3005-3042 `mov(op1, op2)` -/
def mov (op1 op2 : Operand) : Enc Unit :=
  match op1, op2 with
  | .reg r, .mem a =>
    if r.isREG && r.idx == 0 && a.is64bitDisp then do
      let _ ← rex (.reg r) (.reg .nil) 0
      db (if r.isREG 8 then 0xA0 else 0xA1)
      dbN a.e.disp 8
    else opRO_MR op1 op2 0x88
  | .mem a, .reg r =>
    if r.isREG && r.idx == 0 && a.is64bitDisp then do
      let _ ← rex (.reg r) (.reg .nil) 0
      db (if r.isREG 8 then 0xA2 else 0xA3)
      dbN a.e.disp 8
    else opRO_MR op1 op2 0x88
  | _, _ => opRO_MR op1 op2 0x88

/-- xbyak.h 3041-3061 `mov(op, imm)` -/
def movI (op : Operand) (imm : Word) : Enc Unit :=
  match op with
  | .reg r =>
    if r.isREG then do
      let size ← mov_imm r imm
      dbN imm size
    else Enc.throw .BAD_COMBINATION
  | .mem a => do
    verifyMemHasSize op
    let immSize := a.o.bit / 8
    if immSize ≤ 4 then do
      let s := imm.sshiftRight (immSize * 8)
      throwIf (s != 0 && s != -1) .IMM_IS_TOO_BIG
      opMR { a with immSize := immSize } (.gp 0 a.o.bit) 0 0xC6
      dbN ((lo32 imm).setWidth 64) immSize
    else do
      throwIf (!isInInt32 imm) .IMM_IS_TOO_BIG
      opMR { a with immSize := 4 } (.gp 0 a.o.bit) 0 0xC6
      dbN ((lo32 imm).setWidth 64) 4

/-- xbyak.h 3073-3091 `xchg` -/
def xchg (op1 op2 : Operand) : Enc Unit := do
  let sw := op1.isMEM || (op2.isREG 112 && op2.hd.idx == 0)
  let p1 := if sw then op2 else op1
  let p2 := if sw then op1 else op2
  throwIf p1.isMEM .BAD_COMBINATION
  if p2.isREG && (p1.isREG 112 && p1.hd.idx == 0) && (p2.hd.idx != 0 || !p1.isREG 32) then do
    let _ ← rex p2 p1 0
    db (0x90 ||| (p2.hd.idx &&& 7).setWidth 8)
  else do
    let both := p1.isREG && p2.isREG
    let q1 := if both then p2 else p1
    let q2 := if both then p1 else p2
    opRO q1.hd q2 0 (0x86 ||| (if q1.isBit 8 then 0 else 1)) (q1.isREG && q1.bit == q2.bit)

/-- xbyak.h 3093-3105 `push(seg)` -/
def pushSeg (seg : Nat) : Enc Unit :=
  match seg with
  | 0 => db 0x06
  | 1 => db 0x0E
  | 2 => db 0x16
  | 3 => db 0x1E
  | 4 => do db 0x0F; db 0xA0
  | _ => do db 0x0F; db 0xA8

/-- xbyak.h 3106-3118 `pop(seg)` -/
def popSeg (seg : Nat) : Enc Unit :=
  match seg with
  | 0 => db 0x07
  | 1 => Enc.throw .BAD_COMBINATION
  | 2 => db 0x17
  | 3 => db 0x1F
  | 4 => do db 0x0F; db 0xA1
  | _ => do db 0x0F; db 0xA9

/-- xbyak.h 3119-3131 `putSeg`; 0..5 = es, cs, ss, ds, fs, gs -/
def putSeg (seg : Nat) : Enc Unit :=
  db (match seg with | 0 => 0x2E | 1 => 0x36 | 2 => 0x3E | 3 => 0x26 | 4 => 0x64 | _ => 0x65)

/-- xbyak.h 3132-3135 `mov(op, seg)` -/
def movFromSeg (op : Operand) (seg : BitVec 5) : Enc Unit :=
  opRO (.r8 seg) op (T_ALLOW_DIFF_SIZE ||| T_ALLOW_ABCDH) 0x8C (op.isREG 112)

/-- xbyak.h 3136-3139 `mov(seg, op)` -/
def movToSeg (seg : BitVec 5) (op : Operand) : Enc Unit := do
  let op' ← if op.isREG 112 then do let q ← lift (op.hd.cvtGp 32); pure (.reg q) else pure op
  opRO (.r8 seg) op' (T_ALLOW_DIFF_SIZE ||| T_ALLOW_ABCDH) 0x8E (op.isREG 112)

end E
end Xbyak
