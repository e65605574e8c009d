import Verif.Operand
import Verif.Arith
/-!
# Address expressions

Models `RegExp` (xbyak.h 984-1078), `RegRip` (899-924) and `Address` (1318-1367).
-/
namespace Xbyak

/-- xbyak.h 1034-1042: `[base_ + index_ * scale_ + disp_]` -/
structure RegExp where
  base : Reg
  index : Reg
  scale : Int
  disp : Word
  deriving DecidableEq, Repr

namespace RegExp

/-- xbyak.h 991 `RegExp(size_t disp)` -/
def ofDisp (d : Word) : RegExp := ⟨.nil, .nil, 0, d⟩

/-- xbyak.h 992-1004 `RegExp(const Reg& r, int scale)` -/
def ofReg (r : Reg) (scale : Int := 1) : Except Err RegExp :=
  if !r.isREG 96 && !(r.isXMM || r.isYMM || r.isZMM || r.isTMM) then .error .BAD_SIZE_OF_REGISTER
  else if scale = 0 then .ok ⟨.nil, .nil, scale, 0⟩
  else if scale ≠ 1 ∧ scale ≠ 2 ∧ scale ≠ 4 ∧ scale ≠ 8 then .error .BAD_SCALE
  else if r.bit ≥ 128 ∨ scale ≠ 1 then .ok ⟨.nil, r, scale, 0⟩
  else .ok ⟨r, .nil, scale, 0⟩

/-- xbyak.h 1005 `isVsib` -/
def isVsib (e : RegExp) (m : Nat := 896) : Bool := e.index.isBit m

/-- xbyak.h 1006-1015 `optimize` -/
def optimize (e : RegExp) : RegExp :=
  if e.index.isBit 96 && e.base.bit == 0 && decide (e.scale = 2) then { e with base := e.index, scale := 1 } else e

/-- xbyak.h 1024-1031 `verify` -/
def verify (e : RegExp) : Except Err Unit :=
  if e.base.bit ≥ 128 then .error .BAD_SIZE_OF_REGISTER
  else if e.index.bit ≠ 0 ∧ e.index.bit ≤ 64 then
    if e.index.idx = 4 then .error .ESP_CANT_BE_INDEX
    else if e.base.bit ≠ 0 ∧ e.base.bit ≠ e.index.bit then .error .BAD_SIZE_OF_REGISTER
    else .ok ()
  else .ok ()

/-- xbyak.h 1045-1064: `operator+` -/
def add (a b : RegExp) : Except Err RegExp :=
  if a.index.bit ≠ 0 ∧ b.index.bit ≠ 0 then .error .BAD_ADDRESSING
  else
    let ret := if a.index.bit = 0 then { a with index := b.index, scale := b.scale } else a
    if b.base.bit ≠ 0 then
      if ret.base.bit ≠ 0 then
        if ret.index.bit ≠ 0 then .error .BAD_ADDRESSING
        else if b.base.idx = 4 then .ok ⟨b.base, ret.base, 1, ret.disp + b.disp⟩
        else .ok ⟨ret.base, b.base, 1, ret.disp + b.disp⟩
      else .ok { ret with base := b.base, disp := ret.disp + b.disp }
    else .ok { ret with disp := ret.disp + b.disp }

/-- xbyak.h 1073-1078: `operator-` -/
def sub (e : RegExp) (d : Word) : RegExp := { e with disp := e.disp - d }

end RegExp

/-- xbyak.h 1320-1325 -/
inductive Mode | modRM | disp64 | rip | ripAddr
  deriving DecidableEq, Repr

/-- xbyak.h 1318-1367.  `o` is the `Operand` part (kind `mem`, index 0); the label is named by the address of the
`Label` object. -/
structure Addr where
  o : Reg
  e : RegExp
  label : Option Nat := none
  mode : Mode := .modRM
  immSize : Nat := 0
  disp8N : Nat := 0
  permitVsib : Bool := false
  broadcast : Bool := false
  opt : Bool := true
  deriving DecidableEq, Repr

/-- xbyak.h 899-924 -/
structure RegRip where
  disp : Word := 0
  label : Option Nat := none
  isAddr : Bool := false
  deriving DecidableEq, Repr

namespace RegRip
/-- xbyak.h 904-915 -/
def addDisp (r : RegRip) (d : Word) : RegRip := { r with disp := r.disp + d }
def subDisp (r : RegRip) (d : Word) : RegRip := { r with disp := r.disp - d }
/-- xbyak.h 916-919 -/
def addLabel (r : RegRip) (l : Nat) : Except Err RegRip :=
  if r.label.isSome || r.isAddr then .error .BAD_ADDRESSING else .ok ⟨r.disp, some l, false⟩
/-- xbyak.h 920-923 -/
def addAddr (r : RegRip) (a : Word) : Except Err RegRip :=
  if r.label.isSome || r.isAddr then .error .BAD_ADDRESSING else .ok ⟨r.disp + a, none, true⟩
end RegRip

namespace Addr

/-- `Operand(0, MEM, sizeBit)` -/
def memOp (bit : Nat) : Reg := { idx := 0, ext8 := false, kind := .mem, bit := bit }

/-- xbyak.h 1326-1330, 1400-1403: `ptr[e]`, `dword[e]`, `ptr_b[e]`, … -/
def ofExp (bit : Nat) (bcast : Bool) (e : RegExp) : Except Err Addr := do
  e.verify
  return { o := memOp bit, e := e, broadcast := bcast }

/-- xbyak.h 1332-1333, 1409: `ptr[uint64_t]` -/
def ofDisp64 (d : Word) : Addr := { o := memOp 64, e := .ofDisp d, mode := .disp64 }

/-- xbyak.h 1334-1335, 1410: `ptr[rip + …]` -/
def ofRip (bit : Nat) (bcast : Bool) (r : RegRip) : Addr :=
  { o := memOp bit, e := .ofDisp r.disp, label := r.label, mode := if r.isAddr then .ripAddr else .rip, broadcast := bcast }

/-- xbyak.h 1337-1340 `getRegExp` -/
def getRegExp (a : Addr) : RegExp := if a.opt then a.e.optimize else a.e
/-- xbyak.h 1343 `is32bit` -/
def is32bit (a : Addr) : Bool := a.e.base.bit == 32 || a.e.index.bit == 32
/-- xbyak.h 1348 `hasRex2` -/
def hasRex2 (a : Addr) : Bool := a.e.base.hasRex2 || a.e.index.hasRex2
/-- xbyak.h 1346 `is64bitDisp` -/
def is64bitDisp (a : Addr) : Bool := a.mode == .disp64
/-- xbyak.h 1355 `isVsib` -/
def isVsib (a : Addr) : Bool := a.e.isVsib

end Addr

/-- An operand argument: a register or an `Address`. -/
inductive Operand | reg (r : Reg) | mem (a : Addr)
  deriving DecidableEq, Repr

namespace Operand

/-- The `Operand` base object. -/
def hd : Operand → Reg
  | reg r => r
  | mem a => a.o
def isMEM : Operand → Bool
  | reg _ => false
  | mem _ => true
def isREG (o : Operand) (m : Nat := 0) : Bool := o.hd.isREG m
def isBit (o : Operand) (m : Nat) : Bool := o.hd.isBit m
def bit (o : Operand) : Nat := o.hd.bit
/-- xbyak.h 1387-1390 `hasRex2` -/
def hasRex2 : Operand → Bool
  | reg r => r.hasRex2
  | mem a => a.hasRex2
/-- xbyak.h 627 `hasRex2NFZU` -/
def hasRex2NFZU (o : Operand) : Bool := o.hasRex2 || o.hd.nf || o.hd.zu

end Operand
end Xbyak
