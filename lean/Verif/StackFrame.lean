import Verif.Spec.Machine
/-!
# StackFrame

Models `class StackFrame` of xbyak_util.h 883-1016 for both calling conventions (`XBYAK64_WIN` or not).  The instructions it asks the
code generator for are kept as a list of calls; `Verif/Props/StackFrame.lean` connects them to the encoders.

`int` arguments are 32-bit words; signed overflow is a separate outcome, and so is an access outside of the register table.
`fprintf`, and the copy of the registers into the `Pack`s `p` and `t` (962-963, lengths at most 14 of 15), are left out.
-/
namespace Xbyak
namespace SF
open X86 (Gpr Abi)

/-- A call to the code generator; register operands are 64-bit registers. -/
inductive Call
  | push (r : Gpr)
  | pop (r : Gpr)
  /-- `sub(rsp, imm)` -/
  | sub (imm : BitVec 32)
  /-- `add(rsp, imm)` -/
  | add (imm : BitVec 32)
  | mov (d s : Gpr)
  | ret
  deriving DecidableEq, Repr

/-- xbyak_util.h 885, 889 -/
def noSaveNum : Abi → Nat
  | .win => 6
  | .sysv => 8
/-- xbyak_util.h 886, 890 -/
def rcxPos : Abi → Nat
  | .win => 0
  | .sysv => 3
/-- xbyak_util.h 887, 891 -/
def rdxPos : Abi → Nat
  | .win => 1
  | .sysv => 2
/-- xbyak_util.h 893 -/
def maxRegNum : Nat := 14

/-- xbyak_util.h 987-999 `getOrderTbl` -/
def orderTbl : Abi → List Gpr
  | .win => [1, 2, 8, 9, 10, 11, 7, 6, 3, 5, 12, 13, 14, 15]
  | .sysv => [7, 6, 2, 1, 8, 9, 10, 11, 3, 5, 12, 13, 14, 15]

/-- xbyak_util.h 1000-1015 `getRegIdx`; the result is the register and the new `pos`; `none` = read outside of the table -/
def getRegIdx (abi : Abi) (useRcx useRdx : Bool) (pos : Nat) : Option (Gpr × Nat) := do
  let tbl := orderTbl abi
  let r ← tbl[pos]?
  let pos := pos + 1
  if useRcx && r == 1 then return (10, pos)
  let (r, pos) ← if useRcx && r == 10 then do let q ← tbl[pos]?; pure (q, pos + 1) else pure (r, pos)
  if useRdx && r == 2 then return (11, pos)
  if useRdx && r == 11 then do let q ← tbl[pos]?; return (q, pos + 1)
  return (r, pos)

/-- the loops of xbyak_util.h 954-959: `n` calls of `getRegIdx` -/
def getRegs (abi : Abi) (useRcx useRdx : Bool) : Nat → Nat → Option (List Gpr × Nat)
  | 0, pos => some ([], pos)
  | n + 1, pos => do
    let (r, pos) ← getRegIdx abi useRcx useRdx pos
    let (rs, pos) ← getRegs abi useRcx useRdx n pos
    return (r :: rs, pos)

/-- `b ? 1 : 0` -/
def b2n (b : Bool) : Nat := if b then 1 else 0

/-- What the constructor leaves behind: members and the emitted calls. -/
structure Frame where
  p : List Gpr
  t : List Gpr
  /-- `P_`: bytes subtracted from rsp -/
  P : Nat
  saveNum : Nat
  useRcx : Bool
  useRdx : Bool
  prologue : List Call
  deriving DecidableEq, Repr

/-- Outcome of the constructor. -/
inductive Out
  | ok (f : Frame)
  | err (e : Err)
  /-- signed overflow or an access outside of a table -/
  | ub
  deriving DecidableEq, Repr

/-- xbyak_util.h 949-951: `P_` from the requested stack size; `none` = signed overflow -/
def localBytes (stackSizeByte : Int) (saveNum : Nat) : Option Nat :=
  if stackSizeByte + 7 ≥ 2 ^ 31 then none
  else
    let P := (stackSizeByte + 7).tdiv 8
    let P := if P > 0 ∧ P.toNat % 2 = saveNum % 2 then P + 1 else P
    if P * 8 ≥ 2 ^ 31 then none
    else some (P * 8).toNat

/-- the register saves and the stack space: xbyak_util.h 946-952 and 960-961 -/
def prologue (abi : Abi) (pNum saveNum P : Nat) (useRcx useRdx : Bool) : List Call :=
  (((orderTbl abi).drop (noSaveNum abi)).take saveNum).map .push
    ++ (if P > 0 then [.sub (BitVec.ofNat 32 P)] else [])
    ++ (if useRcx && decide (rcxPos abi < pNum) then [.mov 10 1] else [])
    ++ (if useRdx && decide (rdxPos abi < pNum) then [.mov 11 2] else [])

/-- the part of the constructor after the argument checks, xbyak_util.h 943-963 -/
def build (abi : Abi) (pNum tNum : Nat) (useRcx useRdx : Bool) (stackSizeByte : Int) : Out :=
  let allRegNum := pNum + tNum + b2n useRcx + b2n useRdx
  let saveNum := allRegNum - noSaveNum abi
  match localBytes stackSizeByte saveNum with
  | none => .ub
  | some P =>
    if (orderTbl abi).length < noSaveNum abi + saveNum then .ub
    else
      match getRegs abi useRcx useRdx pNum 0 with
      | none => .ub
      | some (p, pos) =>
        match getRegs abi useRcx useRdx tNum pos with
        | none => .ub
        | some (t, _) => .ok ⟨p, t, P, saveNum, useRcx, useRdx, prologue abi pNum saveNum P useRcx useRdx⟩

/-- xbyak_util.h 927-964: the constructor.  `tNum` carries `UseRCX` (bit 6) and `UseRDX` (bit 7), 783-784. -/
def make (abi : Abi) (pNum tNum stackSizeByte : BitVec 32) : Out :=
  let t : BitVec 32 := tNum &&& ~~~0xC0
  let useRcx := tNum.getLsbD 6
  let useRdx := tNum.getLsbD 7
  if pNum.toInt < 0 ∨ pNum.toInt > 4 then .err .BAD_PNUM
  else if t.toInt < 0 ∨ pNum.toInt + t.toInt + b2n useRcx + b2n useRdx > maxRegNum then .err .BAD_TNUM
  else build abi pNum.toNat t.toNat useRcx useRdx stackSizeByte.toInt

/-- xbyak_util.h 969-980 `close(callRet)`; called by the destructor with `true` -/
def Frame.close (f : Frame) (abi : Abi) (callRet : Bool) : List Call :=
  (if f.P > 0 then [.add (BitVec.ofNat 32 f.P)] else [])
    ++ (((orderTbl abi).drop (noSaveNum abi)).take f.saveNum).reverse.map .pop
    ++ (if callRet then [.ret] else [])

end SF
end Xbyak
