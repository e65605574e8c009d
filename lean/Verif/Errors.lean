import Verif.Basic
/-!
# Error messages and the no-exception mode

Models `ConvertErrorToString` and `class Error` (xbyak.h 240-301, 327-341), the thread-local error of `XBYAK_NO_EXCEPTION` builds
(xbyak.h 303-325), and how `db`, `growMemory` and the constructor of `CodeArray` behave in such builds, where `XBYAK_THROW` records the
error and returns from the current function only.
-/
namespace Xbyak

/-- xbyak.h 242-298 -/
def errTbl : List String :=
  ["none", "bad addressing", "code is too big", "bad scale", "esp can't be index", "bad combination", "bad size of register",
   "imm is too big", "bad align", "label is redefined", "label is too far", "label is not found", "code is not copyable",
   "bad parameter", "can't protect", "can't use 64bit disp(use (void*))", "offset is too big", "MEM size is not specified",
   "bad mem size", "bad st combination", "over local label", "under local label", "can't alloc",
   "T_SHORT is not supported in AutoGrow", "bad protect mode", "bad pNum", "bad tNum", "bad vsib addressing", "can't convert",
   "label is not set by L()", "label is already set by L()", "bad label string", "err munmap", "opmask is already set",
   "rounding is already set", "k0 is invalid", "evex is invalid", "sae(suppress all exceptions) is invalid",
   "er(embedded rounding) is invalid", "invalid broadcast", "invalid opmask with memory", "invalid zero",
   "invalid rip in AutoGrow", "invalid mib address", "x2APIC is not supported", "not supported", "same regs are invalid",
   "invalid NF", "invalid ZU", "can't use rex2", "invalid dfv", "invalid reg index", "bad encoding mode",
   "can't use [abcd]h with rex", "internal error"]

/-- The `int` behind an error code (xbyak.h 182-238); `ERR_NONE` is 0. -/
def Err.code (e : Err) : Nat := e.ctorIdx + 1

/-- xbyak.h 240-301 `ConvertErrorToString`; `none`: read outside of the table -/
def convertErrorToString (err : Int) : Option String :=
  if err ≤ (Err.code .INTERNAL : Int) then (if err < 0 then none else errTbl[err.toNat]?) else some "unknown err"

/-- xbyak.h 330-335: the constructor of `Error` -/
def errorCode (err : Int) : Int := if err < 0 ∨ err > (Err.code .INTERNAL : Int) then Err.code .INTERNAL else err
/-- xbyak.h 337-340 `Error::what` -/
def errorWhat (err : Int) : Option String := convertErrorToString (errorCode err)

namespace NoEx

/-- Calls that touch the thread-local error, xbyak.h 311-320. -/
inductive ErrOp
  | set (err : Int)
  | clear
  deriving DecidableEq, Repr

/-- xbyak.h 311-314 `SetError`, 318-320 `ClearError` -/
def ErrOp.run (cur : Int) : ErrOp → Int
  | .set e => if cur ≠ 0 then cur else e
  | .clear => 0

/-- `GetError()` after a sequence of calls, starting from 0 (xbyak.h 307, 321) -/
def getError (l : List ErrOp) : Int := l.foldl ErrOp.run 0

/-- The part of a `CodeArray` that `db` uses, in a no-exception build.  `top = none` is a null pointer. -/
structure Buf where
  autoGrow : Bool
  maxSize : Nat
  size : Nat
  top : Option (List Byte)
  err : Int
  deriving DecidableEq, Repr

/-- `SetError` on a buffer state, xbyak.h 311-314 -/
def Buf.setError (b : Buf) (e : Err) : Buf := { b with err := ErrOp.run b.err (.set e.code) }

/-- xbyak.h 1122-1131 `growMemory`; `got = none`: the allocator returned a null pointer -/
def growMemory (got : Option (List Byte)) (b : Buf) : Buf :=
  match got with
  | none => b.setError .CANT_ALLOC
  | some m => { b with top := some ((b.top.getD []).take b.size ++ m.drop b.size), maxSize := m.length }

/-- xbyak.h 1190-1200 `db`; the result is `none` when it writes through a null pointer or outside of the block -/
def db (got : Option (List Byte)) (c : Byte) (b : Buf) : Option Buf :=
  let stop := decide (b.size ≥ b.maxSize) && !b.autoGrow
  if stop then some (b.setError .CODE_IS_TOO_BIG)
  else
    let b := if b.size ≥ b.maxSize then growMemory got b else b
    match b.top with
    | none => none
    | some m => if b.size < m.length then some { b with top := some (m.set b.size c), size := b.size + 1 } else none

/-- xbyak.h 1150-1164: the constructor; `got` is the block obtained (or given by the user), `err` the thread's error -/
def construct (autoGrow : Bool) (maxSize : Nat) (got : Option (List Byte)) (err : Int) : Buf :=
  let b : Buf := ⟨autoGrow, maxSize, 0, got, err⟩
  if maxSize > 0 ∧ got = none then b.setError .CANT_ALLOC else b

/-- A sequence of `db` calls with the allocator's answers. -/
def dbs : List (Option (List Byte) × Byte) → Buf → Option Buf
  | [], b => some b
  | (g, c) :: l, b => (db g c b).bind (dbs l)

end NoEx
end Xbyak
