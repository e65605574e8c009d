import Verif.Cpu
/-!
# CPU signature, clock and profiler

Models the remaining parts of xbyak_util.h: `Cpu::setFamily` 166-186, `class Clock` 743-780, `class Profiler` 1019-1147 (built with
XBYAK_USE_PERF and without XBYAK_USE_VTUNE).

Simplifications: the time stamp counter and the success of `fopen` are an arbitrary environment; strings passed by pointer are values (the caller
keeps them alive); all files of one process are the same file opened for appending, `out` is the text appended so far; `fprintf` and `fclose`
succeed; the texts of `putFamily` and of the error message of `init` are left out.
-/
namespace Xbyak
namespace Cpu

/-- The public fields set by `setFamily`, xbyak_util.h 386-392 -/
structure Sig where
  stepping : BitVec 32
  model : BitVec 32
  family : BitVec 32
  extModel : BitVec 32
  extFamily : BitVec 32
  displayFamily : BitVec 32
  displayModel : BitVec 32
  deriving DecidableEq, Repr

/-- xbyak_util.h 166-186 `setFamily` -/
def setFamily (e : Env) : Sig :=
  let d := (e.cpuid 1 0).eax
  let model := extractBit d 4 7
  let family := extractBit d 8 11
  let extModel := extractBit d 16 19
  let extFamily := extractBit d 20 27
  { stepping := extractBit d 0 3, model, family, extModel, extFamily,
    displayFamily := if family == 0x0f then family + extFamily else family,
    displayModel := if ((features e).has Feature.tINTEL.ty && family == 6) || family == 0x0f then (extModel <<< 4) + model else model }

end Cpu

/-- xbyak_util.h 778-779: data members of `Clock` -/
structure Clock where
  clock : Word
  count : Nat
  deriving DecidableEq, Repr

namespace Clock

/-- Calls of the public interface; the argument is the value `rdtsc` returns. -/
inductive Call | begin (t : Word) | finish (t : Word) | clear
  deriving DecidableEq, Repr

/-- xbyak_util.h 760-764 -/
def new : Clock := ⟨0, 0⟩

/-- xbyak_util.h 765-776; `none` is the overflow of the `int` counter. -/
def step : Call → Clock → Option Clock
  | .begin t, c => some { c with clock := c.clock - t }
  | .finish t, c => if c.count + 1 < 2 ^ 31 then some ⟨c.clock + t, c.count + 1⟩ else none
  | .clear, _ => some ⟨0, 0⟩

/-- a history -/
def run : List Call → Clock → Option Clock
  | [], c => some c
  | a :: t, c => (step a c).bind (run t)

end Clock

namespace Prof

/-- xbyak_util.h 1020-1025: data members; `perf` is `mode_ == Perf`, `fp` the handle of an open file. -/
structure P where
  perf : Bool
  suffix : List Char
  start : Word
  fp : Option Nat
  deriving DecidableEq, Repr

/-- The files of the process: number of calls of `fopen`, the handles that are open, the text appended. -/
structure F where
  n : Nat
  live : List Nat
  out : List Char
  deriving DecidableEq, Repr

/-- What can go wrong: the object of a call does not exist (or exists already), or the handle of a closed file is used. -/
inductive Bad | object | file
  deriving DecidableEq, Repr

/-- xbyak_util.h 1027-1031 and any other value -/
inductive Mode | none | perf | vtune | other
  deriving DecidableEq, Repr

/-- xbyak_util.h 1032-1040 -/
def new : P := ⟨false, [], 0, none⟩

/-- xbyak_util.h 1089-1096 `close` -/
def close (p : P) (f : F) : Except Bad (P × F) :=
  match p.fp with
  | none => .ok (p, f)
  | some h => if h ∈ f.live then .ok ({ p with fp := none }, { f with live := f.live.filter (· ≠ h) }) else .error .file

/-- xbyak_util.h 1050-1084 `init`; `fopenOK` tells which calls of `fopen` succeed. -/
def init (fopenOK : Nat → Bool) (m : Mode) (p : P) (f : F) : Except Bad (P × F) :=
  let p := { p with perf := false }
  match m with
  | .perf => do
    let (p, f) ← close p f
    if fopenOK f.n then .ok ({ p with fp := some f.n, perf := true }, { f with n := f.n + 1, live := f.n :: f.live })
    else .ok ({ p with fp := none }, { f with n := f.n + 1 })
  | _ => .ok (p, f)

/-- `%llx` and `%zx`, xbyak_util.h 1108: `k` bounds the number of digits -/
def hexF : (k n : Nat) → List Char
  | 0, _ => []
  | k + 1, n => (if n < 16 then [] else hexF k (n / 16)) ++
      [['0', '1', '2', '3', '4', '5', '6', '7', '8', '9', 'a', 'b', 'c', 'd', 'e', 'f'].getD (n % 16) '0']

/-- the text of one call, xbyak_util.h 1108-1117 -/
def line (addr size : Word) (name suffix : List Char) : List Char :=
  hexF 16 addr.toNat ++ ' ' :: hexF 16 size.toNat ++ ' ' :: name ++ suffix ++
    List.replicate (3 - (name.length + suffix.length)) '_' ++ ['\n']

/-- xbyak_util.h 1097-1137 `set(funcName, startAddr, funcSize)` -/
def set3 (name : List Char) (addr size : Word) (p : P) (f : F) : Except Bad F :=
  if p.perf = false then .ok f
  else match p.fp with
    | none => .ok f
    | some h => if h ∈ f.live then .ok { f with out := f.out ++ line addr size name p.suffix } else .error .file

/-- xbyak_util.h 1142-1146 `set(funcName, endAddr)` -/
def set2 (name : List Char) (endAddr : Word) (p : P) (f : F) : Except Bad (P × F) := do
  let f ← set3 name p.start (endAddr - p.start) p f
  .ok ({ p with start := endAddr }, f)

/-- Calls on the object at address `h`. -/
inductive Call
  | new (h : Nat)
  /-- the implicit copy constructor -/
  | copy (h src : Nat)
  | dtor (h : Nat)
  | init (h : Nat) (m : Mode)
  | close (h : Nat)
  | setNameSuffix (h : Nat) (s : List Char)
  | setStartAddr (h : Nat) (a : Word)
  | set3 (h : Nat) (name : List Char) (addr size : Word)
  | set2 (h : Nat) (name : List Char) (endAddr : Word)
  deriving DecidableEq, Repr

/-- The objects and the files. -/
structure W where
  obj : Nat → Option P
  f : F

/-- store an object -/
def put (o : Nat → Option P) (h : Nat) (p : Option P) : Nat → Option P := fun i => if i = h then p else o i

/-- One call. -/
def step (fopenOK : Nat → Bool) (w : W) : Call → Except Bad W
  | .new h => match w.obj h with
    | none => .ok { w with obj := put w.obj h (some new) }
    | some _ => .error .object
  | .copy h s => match w.obj h, w.obj s with
    | none, some p => .ok { w with obj := put w.obj h (some p) }
    | _, _ => .error .object
  | .dtor h => match w.obj h with
    | some p => (close p w.f).map fun r => ⟨put w.obj h none, r.2⟩
    | none => .error .object
  | .init h m => match w.obj h with
    | some p => (init fopenOK m p w.f).map fun r => ⟨put w.obj h (some r.1), r.2⟩
    | none => .error .object
  | .close h => match w.obj h with
    | some p => (close p w.f).map fun r => ⟨put w.obj h (some r.1), r.2⟩
    | none => .error .object
  | .setNameSuffix h s => match w.obj h with
    | some p => .ok { w with obj := put w.obj h (some { p with suffix := s }) }
    | none => .error .object
  | .setStartAddr h a => match w.obj h with
    | some p => .ok { w with obj := put w.obj h (some { p with start := a }) }
    | none => .error .object
  | .set3 h nm a s => match w.obj h with
    | some p => (set3 nm a s p w.f).map fun f => { w with f := f }
    | none => .error .object
  | .set2 h nm a => match w.obj h with
    | some p => (set2 nm a p w.f).map fun r => ⟨put w.obj h (some r.1), r.2⟩
    | none => .error .object

/-- A history. -/
def run (fopenOK : Nat → Bool) : List Call → W → Except Bad W
  | [], w => .ok w
  | c :: t, w => (step fopenOK w c).bind (run fopenOK t)

/-- nothing exists yet -/
def start : W := ⟨fun _ => none, ⟨0, [], []⟩⟩

end Prof
end Xbyak
