import Verif.Arith
/-!
# The code buffer

Models `class CodeArray`, xbyak.h 1084-1316 (exception build, XBYAK64, Linux).

Simplifications: sizes and offsets are `Nat`; the doubling of `growMemory` wraps at 2^64 as in C++; memory
contents are a list of bytes (the block at `top`), an access outside of it is `ub`; memory protection is an
oracle that can only succeed or fail.
-/
namespace Xbyak

/-- xbyak.h 1085-1089 -/
inductive BufType | userBuf | allocBuf | autoGrow
  deriving DecidableEq, Repr

/-- xbyak.h 425-429 -/
inductive LabelMode | asIs | abs | addTop
  deriving DecidableEq, Repr

/-- xbyak.h 1093-1106: deferred write of AutoGrow mode. -/
structure AddrInfo where
  codeOffset : Nat
  jmpAddr : Word
  jmpSize : Nat
  mode : LabelMode
  deriving DecidableEq, Repr

/-- Answer of the allocator to one growth attempt (`alloc_->alloc(newSize)` followed by `alloc_->free(top_)`,
xbyak.h 1129-1132): failure of `alloc`, exception of `free`, or a block at any address with any contents. -/
inductive AllocRes
  | fail
  | freeFail (e : Err)
  | ok (addr : Word) (junk : Nat → Byte)

/-- The environment: everything the generator does not control. -/
structure Env where
  /-- `alloc call size` : behaviour of the allocator at its `call`-th use -/
  alloc : Nat → Nat → AllocRes
  /-- result of the `n`-th `mprotect` -/
  protect : Nat → Bool
  /-- `alloc_->useProtect()` (xbyak.h 442) -/
  useProtect : Bool
  /-- `inner::getPageSize()` (xbyak.h 398) -/
  pageSize : Nat
  /-- where `unordered_multimap::insert` puts a new pending reference: `pos codeSize n` is its position among
  the `n` existing ones (the standard leaves it unspecified) -/
  pos : Nat → Nat → Nat

/-- xbyak.h 1108-1120: data members.  `mem` is the memory block at `top`; `nAlloc`/`nProt` count the calls
to the environment (ghost). -/
structure CA where
  ty : BufType
  maxSize : Nat
  top : Word
  mem : List Byte
  size : Nat
  addrInfo : List AddrInfo
  calcDone : Bool
  nAlloc : Nat
  nProt : Nat
  deriving Repr

/-- `DEFAULT_MAX_CODE_SIZE` (xbyak.h 157) -/
def DEFAULT_MAX_CODE_SIZE : Nat := 4096

namespace CA

def isAutoGrow (c : CA) : Bool := c.ty == .autoGrow

/-- xbyak.h 1126-1135 `growMemory`. -/
def growMemory (env : Env) : M CA Unit := fun c =>
  let newSize := max DEFAULT_MAX_CODE_SIZE (c.maxSize * 2 % 2 ^ 64)
  let c' := { c with nAlloc := c.nAlloc + 1 }
  match env.alloc c.nAlloc newSize with
  | .fail => .err .CANT_ALLOC c'
  | .freeFail e => .err e c'
  | .ok addr junk =>
    -- `for (i < size_) newTop[i] = top_[i]`
    if c.size ≤ newSize ∧ c.size ≤ c.mem.length then
      .ok () { c' with
        top := addr
        maxSize := newSize
        mem := c.mem.take c.size ++ (List.range (newSize - c.size)).map (fun i => junk (c.size + i)) }
    else .ub .bounds

/-- xbyak.h 1190-1200 `db(int)`. -/
def db (env : Env) (b : Byte) : M CA Unit := fun c =>
  (do
    if c.size ≥ c.maxSize then
      if c.ty = .autoGrow then growMemory env else M.throw .CODE_IS_TOO_BIG
    let c ← M.get
    if c.size < c.mem.length then
      M.set { c with mem := c.mem.set c.size b, size := c.size + 1 }
    else M.ub .bounds : M CA Unit) c

/-- xbyak.h 1201-1204 `db(const uint8_t*, size_t)`; also the loop of 1208. -/
def dbs (env : Env) : List Byte → M CA Unit
  | [] => M.pure ()
  | b :: t => do db env b; dbs env t

/-- xbyak.h 1205-1209 `db(uint64_t code, size_t codeSize)`. -/
def dbN (env : Env) (code : Word) (n : Nat) : M CA Unit := do
  M.throwIf (decide (n > 8)) .BAD_PARAMETER
  dbs env (leBytes n code)

/-- xbyak.h 1210-1212 -/
def dw (env : Env) (code : BitVec 32) : M CA Unit := dbN env (code.setWidth 64) 2
def dd (env : Env) (code : BitVec 32) : M CA Unit := dbN env (code.setWidth 64) 4
def dq (env : Env) (code : Word) : M CA Unit := dbN env code 8

/-- xbyak.h 1216 `getCurr()` -/
def getCurr (c : CA) : Word := c.top + BitVec.ofNat 64 c.size

/-- xbyak.h 1220-1224 -/
def setSize (n : Nat) : M CA Unit := fun c =>
  if n > c.maxSize then .err .OFFSET_IS_TOO_BIG c else .ok () { c with size := n }

/-- Overwrite `bs` at `off` (the loop xbyak.h 1257-1259 on the block). -/
def patch (l : List Byte) (off : Nat) (bs : List Byte) : List Byte :=
  l.take off ++ bs ++ l.drop (off + bs.length)

/-- xbyak.h 1252-1260 `rewrite` (the `assert` is compiled out in release builds). -/
def rewrite (off : Nat) (v : Word) (n : Nat) : M CA Unit := fun c =>
  if n ≠ 1 ∧ n ≠ 2 ∧ n ≠ 4 ∧ n ≠ 8 then .err .BAD_PARAMETER c
  else if off + n ≤ c.mem.length then .ok () { c with mem := patch c.mem off (leBytes n v) }
  else .ub .bounds

/-- xbyak.h 1261-1264 `save` -/
def save (off : Nat) (v : Word) (n : Nat) (mode : LabelMode) : M CA Unit := fun c =>
  .ok () { c with addrInfo := c.addrInfo ++ [⟨off, v, n, mode⟩] }

/-- xbyak.h 417-423 `VerifyInInt32`; the result is the truncated value. -/
def verifyInInt32 {σ : Type} (x : Word) : M σ (BitVec 32) :=
  if isInInt32 x then M.pure (lo32 x) else M.throw .OFFSET_IS_TOO_BIG

/-- xbyak.h 1100-1105 `AddrInfo::getVal`. -/
def AddrInfo.getVal {σ : Type} (i : AddrInfo) (top : Word) : M σ Word :=
  let disp := match i.mode with
    | .addTop => i.jmpAddr + top
    | .asIs => i.jmpAddr
    | .abs => i.jmpAddr - top
  if i.jmpSize = 4 then do
    let d ← verifyInInt32 disp
    pure (d.setWidth 64)
  else pure disp

/-- the loop of xbyak.h 1142-1145 -/
def calcLoop : List AddrInfo → M CA Unit
  | [] => pure ()
  | i :: t => do
    let c ← M.get
    let disp ← AddrInfo.getVal i c.top
    rewrite i.codeOffset disp i.jmpSize
    calcLoop t

/-- xbyak.h 1139-1147 `calcJmpAddress` -/
def calcJmpAddress : M CA Unit := do
  let c ← M.get
  if c.calcDone then pure ()
  else
    calcLoop c.addrInfo
    M.modify fun c => { c with calcDone := true }

/-- xbyak.h 1175-1181 `setProtectMode(mode)` (throwing form) -/
def setProtectMode (env : Env) : M CA Unit := fun c =>
  let c' := { c with nProt := c.nProt + 1 }
  if env.protect c.nProt then .ok () c' else .err .CANT_PROTECT c'

/-- xbyak.h 1184-1189 -/
def resetSize (c : CA) : CA := { c with size := 0, addrInfo := [], calcDone := false }

/-- xbyak.h 1154-1167, constructor on a user buffer of `mem.length` bytes -/
def initUser (maxSize : Nat) (top : Word) (mem : List Byte) : CA :=
  ⟨.userBuf, maxSize, top, mem, 0, [], false, 0, 0⟩

/-- xbyak.h 1154-1167, constructor with the allocator (`AutoGrow` or not); `none` = exception
`ERR_CANT_ALLOC`.  The initial `setProtectMode(PROTECT_RWE)` is not modelled here. -/
def initAlloc (env : Env) (auto : Bool) (maxSize : Nat) : Option CA :=
  let ty := if auto then BufType.autoGrow else .allocBuf
  match env.alloc 0 (max maxSize 1) with
  | .ok addr junk => some ⟨ty, maxSize, addr, (List.range (max maxSize 1)).map junk, 0, [], false, 1, 0⟩
  | _ => if maxSize > 0 then none else some ⟨ty, maxSize, 0, [], 0, [], false, 1, 0⟩

end CA
end Xbyak
