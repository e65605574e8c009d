import Verif.Label
/-!
# Jumps, label references, alignment, reset, ready

Models the label-related part of `CodeGenerator` (xbyak.h 2121-2183, 2447-2466, 2919-2937, 3208-3228,
3289-3340) and gives the type of calls `Op` whose histories the theorems quantify over.
-/
namespace Xbyak

/-- xbyak.h 1708-1713 -/
inductive LabelType | short | near | far | auto
  deriving DecidableEq, Repr

/-- A label argument: `const Label&` (address of the object) or `std::string`. -/
inductive LRef | obj (h : Nat) | str (s : String)
  deriving DecidableEq, Repr

namespace G

/-- `if (isAutoGrow() && size_ + 16 >= maxSize_) growMemory();` (xbyak.h 2139, 2163, 2451) -/
def reserve (env : Env) : M G Unit := do
  let g ← M.get
  if g.ca.isAutoGrow ∧ g.ca.size + 16 ≥ g.ca.maxSize then liftCA (CA.growMemory env) else pure ()

/-- xbyak.h 1630-1650: both `getOffset` overloads; returns the possibly renamed label as well. -/
def getOffset : LRef → M G (LRef × Option Nat)
  | .obj h => do return (.obj h, ← lookupC h)
  | .str s => do
    let s' ← resolveName s
    return (.str s', ← lookupS s')

/-- xbyak.h 1651-1659: both overloads -/
def addUndefinedLabel (env : Env) : LRef → JmpLabel → M G Unit
  | .obj h, j => addUndefC env h j
  | .str s, j => addUndefS env s j

/-- xbyak.h 2121-2134 `makeJmp`; `pref = 0` means no prefix -/
def makeJmp (env : Env) (disp : BitVec 32) (ty : LabelType) (short long pref : Byte) : M CA Unit :=
  let longHeaderSize := if pref ≠ 0 then 2 else 1
  let longJmpSize := longHeaderSize + 4
  if ty ≠ .near ∧ isInDisp8 (disp - 2) then do
    CA.db env short
    CA.db env ((disp - 2).setWidth 8)
  else do
    M.throwIf (ty == .short) .LABEL_IS_TOO_FAR
    if pref ≠ 0 then CA.db env pref else pure ()
    CA.db env long
    CA.dd env (disp - BitVec.ofNat 32 longJmpSize)

/-- xbyak.h 2135 -/
def isNEAR (g : G) (ty : LabelType) : Bool := ty == .near || (ty == .auto && g.defNear)

/-- xbyak.h 2136-2156 `opJmp` -/
def opJmp (env : Env) (l : LRef) (ty : LabelType) (short long pref : Byte) : M G Unit := do
  M.throwIf (ty == .far) .NOT_SUPPORTED
  reserve env
  let (l', off?) ← getOffset l
  let g ← M.get
  match off? with
  | some offset => do
    let d ← CA.verifyInInt32 (BitVec.ofNat 64 offset - BitVec.ofNat 64 g.ca.size)
    liftCA (makeJmp env d ty short long pref)
  | none => do
    if isNEAR g ty then do
      if pref ≠ 0 then liftCA (CA.db env pref) else pure ()
      liftCA (CA.db env long)
      liftCA (CA.dd env 0)
      let g ← M.get
      addUndefinedLabel env l' ⟨g.ca.size, 4, .asIs, 0⟩
    else do
      liftCA (CA.db env short)
      liftCA (CA.db env 0)
      let g ← M.get
      addUndefinedLabel env l' ⟨g.ca.size, 1, .asIs, 0⟩

/-- xbyak.h 2157-2171 `opJmpAbs` -/
def opJmpAbs (env : Env) (addr : Word) (ty : LabelType) (short long pref : Byte) : M G Unit := do
  M.throwIf (ty == .far) .NOT_SUPPORTED
  let g ← M.get
  if g.ca.isAutoGrow then do
    M.throwIf (!isNEAR g ty) .ONLY_T_NEAR_IS_SUPPORTED_IN_AUTO_GROW
    reserve env
    if pref ≠ 0 then liftCA (CA.db env pref) else pure ()
    liftCA (CA.db env long)
    liftCA (CA.dd env 0)
    let g ← M.get
    liftCA (CA.save (g.ca.size - 4) (addr - BitVec.ofNat 64 g.ca.size) 4 .abs)
  else do
    let d ← CA.verifyInInt32 (addr - g.ca.getCurr)
    liftCA (makeJmp env d ty short long pref)

/-- xbyak.h 2447-2466 `putL_inner` -/
def putLInner (env : Env) (l : LRef) (relative : Bool) (disp : Word) : M G Unit := do
  let jmpSize := if relative then 4 else 8
  reserve env
  let (l', off?) ← getOffset l
  let g ← M.get
  match off? with
  | some offset =>
    if relative then do
      let d ← CA.verifyInInt32 (BitVec.ofNat 64 offset + disp - BitVec.ofNat 64 g.ca.size - BitVec.ofNat 64 jmpSize)
      liftCA (CA.dbN env (d.setWidth 64) jmpSize)
    else if g.ca.isAutoGrow then do
      liftCA (CA.dbN env 0 jmpSize)
      let g ← M.get
      liftCA (CA.save (g.ca.size - jmpSize) (BitVec.ofNat 64 offset) jmpSize .addTop)
    else liftCA (CA.dbN env (g.ca.top + BitVec.ofNat 64 offset) jmpSize)
  | none => do
    liftCA (CA.dbN env 0 jmpSize)
    let g ← M.get
    addUndefinedLabel env l'
      ⟨g.ca.size, jmpSize, if relative then .asIs else if g.ca.isAutoGrow then .addTop else .abs, disp⟩

/-- xbyak.h 2919-2920 `L` -/
def defL : LRef → M G Unit
  | .obj h => defineClabel h
  | .str s => defineSlabel s

/-- xbyak.h 3302-3312 `nopTbl` -/
def nopTbl : List (List Byte) := [
  [0x90],
  [0x66, 0x90],
  [0x0F, 0x1F, 0x00],
  [0x0F, 0x1F, 0x40, 0x00],
  [0x0F, 0x1F, 0x44, 0x00, 0x00],
  [0x66, 0x0F, 0x1F, 0x44, 0x00, 0x00],
  [0x0F, 0x1F, 0x80, 0x00, 0x00, 0x00, 0x00],
  [0x0F, 0x1F, 0x84, 0x00, 0x00, 0x00, 0x00, 0x00],
  [0x66, 0x0F, 0x1F, 0x84, 0x00, 0x00, 0x00, 0x00, 0x00]]

/-- xbyak.h 3314-3319: the `while (size > 0)` loop; the emitted bytes. -/
def nopBytesMulti (size : Nat) : List Byte :=
  if _h : size = 0 then []
  else
    let len := min 9 size
    (nopTbl.getD (len - 1) []).take len ++ nopBytesMulti (size - len)
termination_by size
decreasing_by omega

/-- xbyak.h 3289-3320 `nop(size, useMultiByteNop)` -/
def nopBytes (size : Nat) (multi : Bool) : List Byte :=
  if multi then nopBytesMulti size else List.replicate size 0x90

/-- `(x & (x - 1)) == 0` for `x ≥ 1` -/
def isPow2 (x : Nat) : Bool := x &&& (x - 1) == 0

/-- xbyak.h 3326-3336 `align` -/
def align (env : Env) (x : Nat) (multi : Bool) : M CA Unit := do
  if x = 1 then pure ()
  else
    let c ← M.get
    M.throwIf (decide (x < 1) || !isPow2 x) .BAD_ALIGN
    M.throwIf (c.isAutoGrow && decide (env.pageSize % x ≠ 0)) .BAD_ALIGN
    let remain := c.getCurr.toNat % x
    if remain ≠ 0 then CA.dbs env (nopBytes (x - remain) multi) else pure ()

/-- xbyak.h 1574-1584, 3208-3214 `reset` -/
def reset : M G Unit := do
  M.modify fun g => { g with
    ca := g.ca.resetSize, labelId := 1, glob := .empty, locals := [.empty],
    cdef := fun _ => none, cundef := [] }
  resetLabelPtrList

/-- xbyak.h 3220-3227 `ready` -/
def ready (env : Env) : M G Unit := do
  let g ← M.get
  M.throwIf (hasUndefinedLabel g) .LABEL_IS_NOT_FOUND
  if g.ca.isAutoGrow then do
    liftCA CA.calcJmpAddress
    if env.useProtect then liftCA (CA.setProtectMode env) else pure ()
  else pure ()

/-- Initial generator over a buffer (xbyak.h 1574-1584, 3144-3207). -/
def init (c : CA) : G :=
  { ca := c, glob := .empty, locals := [.empty], labelId := 1, cdef := fun _ => none, cundef := [],
    ptrs := [], heap := fun _ => none, defNear := false }

end G

/-- Calls of the public interface.  Every instruction without label operands is a sequence of `db`;
`mov(reg, label)` is `db…, putL`; an instruction with a `[rip + label + disp]` operand and a trailing immediate is
`db…, ripL label (disp - immSize), db…` (xbyak.h 2184-2200). -/
inductive Op
  | db (b : Byte)
  | defL (l : LRef)
  | jmp (l : LRef) (ty : LabelType) (short long pref : Byte)
  | jmpAbs (addr : Word) (ty : LabelType) (short long pref : Byte)
  | putL (l : LRef)
  | ripL (l : LRef) (disp : Word)
  | assignL (dst src : Nat)
  | inLocal
  | outLocal
  | newLabel (h : Nat)
  | copyLabel (h src : Nat)
  | assignLabel (h src : Nat)
  | dtorLabel (h : Nat)
  | setDefaultJmpNEAR (b : Bool)
  | align (x : Nat) (multi : Bool)
  | setSize (n : Nat)
  | rewrite (off : Nat) (v : Word) (n : Nat)
  | ready
  | reset
  deriving DecidableEq, Repr

namespace G

/-- One call. -/
def step (env : Env) : Op → M G Unit
  | .db b => liftCA (CA.db env b)
  | .defL l => defL l
  | .jmp l ty s lo p => opJmp env l ty s lo p
  | .jmpAbs a ty s lo p => opJmpAbs env a ty s lo p
  | .putL l => putLInner env l false 0
  | .ripL l d => putLInner env l true d
  | .assignL d s => assign d s
  | .inLocal => enterLocal
  | .outLocal => leaveLocal
  | .newLabel h => newLabel h
  | .copyLabel h s => copyLabel h s
  | .assignLabel h s => assignLabel h s
  | .dtorLabel h => dtorLabel h
  | .setDefaultJmpNEAR b => M.modify fun g => { g with defNear := b }
  | .align x m => liftCA (align env x m)
  | .setSize n => liftCA (CA.setSize n)
  | .rewrite o v n => liftCA (CA.rewrite o v n)
  | .ready => ready env
  | .reset => reset

/-- A history: exceptions are caught by the caller and the history goes on; `error` = undefined behaviour. -/
def run (env : Env) : List Op → G → Except UB G
  | [], g => .ok g
  | op :: t, g =>
    match step env op g with
    | .ok _ g' => run env t g'
    | .err _ g' => run env t g'
    | .ub u => .error u

/-- Every call of the history is made in a state satisfying the caller's obligation `P`. -/
def Hist (P : G → Op → Prop) (env : Env) : List Op → G → Prop
  | [], _ => True
  | op :: t, g => P g op ∧
    match step env op g with
    | .ok _ g' => Hist P env t g'
    | .err _ g' => Hist P env t g'
    | .ub _ => True

end G
end Xbyak
