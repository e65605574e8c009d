import Verif.Basic
/-!
# Operands and registers

Models `Operand`, `Reg` and the register classes of xbyak.h 551-963.  The bit fields of `Operand` become a record; the six
bits of `idx_` are split into the five bits returned by `getIdx()` and the flag `EXT8BIT`.
-/
namespace Xbyak

/-- xbyak.h 564-576: `Operand::Kind` -/
inductive Kind | none | mem | reg | mmx | fpu | xmm | ymm | zmm | opmask | bndreg | tmm
  deriving DecidableEq, Repr

/-- xbyak.h 551-562: the data of an `Operand`.  `bit = 0` means no size. -/
structure Reg where
  /-- `getIdx()`, line 604 -/
  idx : BitVec 5
  /-- `isExt8bit()`, line 625 -/
  ext8 : Bool
  kind : Kind
  bit : Nat
  zero : Bool := false
  mask : BitVec 3 := 0
  rnd : BitVec 3 := 0
  nf : Bool := false
  zu : Bool := false
  deriving DecidableEq, Repr

namespace Reg

/-- xbyak.h 593, 799: `Operand()`, `Reg()` -/
def nil : Reg := { idx := 0, ext8 := false, kind := .none, bit := 0 }

/-- xbyak.h 800: `Reg(idx, REG, bit)` -/
def gp (idx : BitVec 5) (bit : Nat) : Reg := { idx, ext8 := false, kind := .reg, bit }
/-- xbyak.h 822 `Reg8(idx, ext8bit)` -/
def r8 (idx : BitVec 5) (ext8 : Bool := false) : Reg := { idx, ext8, kind := .reg, bit := 8 }
/-- xbyak.h 829-831: `Mmx` -/
def mm (idx : BitVec 5) : Reg := { idx, ext8 := false, kind := .mmx, bit := 64 }
/-- xbyak.h 846-863: `Xmm`, `Ymm`, `Zmm` -/
def xmm (idx : BitVec 5) : Reg := { idx, ext8 := false, kind := .xmm, bit := 128 }
def ymm (idx : BitVec 5) : Reg := { idx, ext8 := false, kind := .ymm, bit := 256 }
def zmm (idx : BitVec 5) : Reg := { idx, ext8 := false, kind := .zmm, bit := 512 }
/-- xbyak.h 866-868 -/
def tmm (idx : BitVec 5) : Reg := { idx, ext8 := false, kind := .tmm, bit := 8192 }
/-- xbyak.h 871-873 -/
def opmask (idx : BitVec 5) : Reg := { idx, ext8 := false, kind := .opmask, bit := 64 }
/-- xbyak.h 875-877 -/
def bnd (idx : BitVec 5) : Reg := { idx, ext8 := false, kind := .bndreg, bit := 128 }
/-- xbyak.h 883-885 -/
def st (idx : BitVec 5) : Reg := { idx, ext8 := false, kind := .fpu, bit := 32 }

/-- xbyak.h 667 `isBit` -/
def isBit (r : Reg) (m : Nat) : Bool := r.bit &&& m != 0
/-- xbyak.h 618, 662-666 `isREG(bit)`; `m = 0` accepts every size -/
def isREG (r : Reg) (m : Nat := 0) : Bool := r.kind == .reg && (m == 0 || r.isBit m)
def isXMM (r : Reg) : Bool := r.kind == .xmm
def isYMM (r : Reg) : Bool := r.kind == .ymm
def isZMM (r : Reg) : Bool := r.kind == .zmm
def isMMX (r : Reg) : Bool := r.kind == .mmx
def isTMM (r : Reg) : Bool := r.kind == .tmm
def isOPMASK (r : Reg) : Bool := r.kind == .opmask
def isBNDREG (r : Reg) : Bool := r.kind == .bndreg
/-- xbyak.h 610 `isSIMD` -/
def isSIMD (r : Reg) : Bool := r.isXMM || r.isYMM || r.isZMM
/-- xbyak.h 621 `isExtIdx`: `(getIdx() & 8) != 0` -/
def isExtIdx (r : Reg) : Bool := r.idx.getLsbD 3
/-- xbyak.h 622 `isExtIdx2`: `(getIdx() & 16) != 0` -/
def isExtIdx2 (r : Reg) : Bool := r.idx.getLsbD 4
/-- xbyak.h 623 `hasEvex` -/
def hasEvex (r : Reg) : Bool := r.isZMM || r.isExtIdx2 || r.mask != 0 || r.rnd != 0
/-- xbyak.h 1387-1390 `hasRex2` of a register -/
def hasRex2 (r : Reg) : Bool := r.isREG && r.isExtIdx2
/-- xbyak.h 655-661 `isHigh8bit`: ah, ch, dh, bh -/
def isHigh8bit (r : Reg) : Bool := r.isBit 8 && !r.ext8 && decide (4 ≤ r.idx.toNat ∧ r.idx.toNat ≤ 7)

/-- xbyak.h 738-785: `Operand::setBit` for registers (64-bit build). -/
def setBit (r : Reg) (bit : Nat) : Except Err Reg :=
  if ¬ (bit = 8 ∨ bit = 16 ∨ bit = 32 ∨ bit = 64 ∨ bit = 128 ∨ bit = 256 ∨ bit = 512 ∨ bit = 8192) then
    .error .CANT_CONVERT
  else if r.isBit bit then .ok r
  else if r.kind = .mem ∨ r.kind = .opmask then .ok { r with bit := bit }
  else if r.kind = .reg ∨ r.kind = .xmm ∨ r.kind = .ymm ∨ r.kind = .zmm ∨ r.kind = .tmm then
    if r.isREG 8 && decide (4 ≤ r.idx.toNat ∧ r.idx.toNat < 8) && !r.ext8 then .error .CANT_CONVERT
    else
      -- `idx` starts as `getIdx()`, which drops EXT8BIT; bit 8 sets it again for 4..7
      let ext8 := bit == 8 && decide (4 ≤ r.idx.toNat ∧ r.idx.toNat < 8)
      let kind := if bit = 128 then Kind.xmm else if bit = 256 then .ymm else if bit = 512 then .zmm
        else if bit = 8192 then .tmm else .reg
      if bit ≥ 128 then .ok { r with ext8 := ext8, kind := kind, bit := bit }
      else .ok { r with ext8 := ext8, kind := kind, bit := bit, mask := 0, rnd := 0 }
  else .error .CANT_CONVERT

/-- xbyak.h 802 `changeBit` -/
def changeBit (r : Reg) (bit : Nat) : Except Err Reg := r.setBit bit
/-- xbyak.h 927-930 `cvt8` -/
def cvt8 (r : Reg) : Except Err Reg := do let q ← r.changeBit 8; return .r8 q.idx q.ext8
/-- xbyak.h 932-947 `cvt16`, `cvt32`, `cvt64` -/
def cvtGp (r : Reg) (bit : Nat) : Except Err Reg := do let q ← r.changeBit bit; return .gp q.idx bit
/-- xbyak.h 949-962 `cvt128`, `cvt256`, `cvt512` -/
def cvt128 (r : Reg) : Except Err Reg := do let q ← r.changeBit 128; return .xmm q.idx
def cvt256 (r : Reg) : Except Err Reg := do let q ← r.changeBit 256; return .ymm q.idx
def cvt512 (r : Reg) : Except Err Reg := do let q ← r.changeBit 512; return .zmm q.idx

/-- xbyak.h 631-636 `setKind` -/
def setKind (r : Reg) (k : Kind) : Reg :=
  match k with
  | .xmm => { r with kind := .xmm, bit := 128 }
  | .ymm => { r with kind := .ymm, bit := 256 }
  | .zmm => { r with kind := .zmm, bit := 512 }
  | .tmm => { r with kind := .tmm, bit := 8192 }
  | _ => r

/-- xbyak.h 639-643, 879: `reg | k` -/
def setOpmaskIdx (r : Reg) (k : BitVec 3) : Except Err Reg :=
  if r.mask ≠ 0 then .error .OPMASK_IS_ALREADY_SET else .ok { r with mask := k }
/-- xbyak.h 644-648, 881: `reg | T_sae` etc. -/
def setRounding (r : Reg) (k : BitVec 3) : Except Err Reg :=
  if r.rnd ≠ 0 then .error .ROUNDING_IS_ALREADY_SET else .ok { r with rnd := k }
/-- xbyak.h 649, 880: `reg | T_z` -/
def setZero (r : Reg) : Reg := { r with zero := true }
/-- xbyak.h 650, 812: `reg | T_nf` -/
def setNF (r : Reg) : Reg := { r with nf := true }
/-- xbyak.h 652, 813: `reg | T_zu` -/
def setZU (r : Reg) : Reg := { r with zu := true }

/-- The registers a program can name: the constants of `CodeGenerator` (xbyak.h 2860-2908), possibly decorated with
modifiers. -/
structure Named (r : Reg) : Prop where
  shape : (r.kind = .reg ∧ (r.bit = 8 ∨ r.bit = 16 ∨ r.bit = 32 ∨ r.bit = 64)) ∨
    (r.kind = .mmx ∧ r.bit = 64) ∨ (r.kind = .xmm ∧ r.bit = 128) ∨ (r.kind = .ymm ∧ r.bit = 256) ∨
    (r.kind = .zmm ∧ r.bit = 512) ∨ (r.kind = .tmm ∧ r.bit = 8192) ∨ (r.kind = .opmask ∧ r.bit = 64) ∨
    (r.kind = .bndreg ∧ r.bit = 128) ∨ (r.kind = .fpu ∧ r.bit = 32)
  ext8 : r.ext8 = true → r.kind = .reg ∧ r.bit = 8 ∧ 4 ≤ r.idx.toNat ∧ r.idx.toNat ≤ 7
  small : r.kind = .mmx ∨ r.kind = .tmm ∨ r.kind = .opmask ∨ r.kind = .fpu → r.idx.toNat < 8
  bnd : r.kind = .bndreg → r.idx.toNat < 4

end Reg
end Xbyak
