import Verif.Mem
/-!
# MmapAllocator with XBYAK_USE_MEMFD

Models `MmapAllocator` of xbyak.h 469-534 as it is compiled with `XBYAK_USE_MEMFD`: the memory is a shared mapping of an anonymous file, whose
descriptor is kept open as long as the allocation lives.

The kernel is that of `Verif/Mem.lean` with the descriptors of the process and the lengths of their files.  `memfd_create` may fail at
will, or returns any descriptor that is not open; `ftruncate` may fail at will; `close` releases the descriptor, and `bad` records a
`close` of a descriptor that is not open.  Inserting into `allocList_` is assumed not to throw `std::bad_alloc`.
-/
namespace Xbyak
namespace Memfd

open Mem (overlaps mmapOK roundUp)

/-- An element of `allocList_`: its key and `struct Allocation`, xbyak.h 470-478; `none` stands for descriptor -1 -/
structure Entry where
  addr : Nat
  size : Nat
  fd : Option Nat
  deriving DecidableEq, Repr

/-- The allocator object, and what the kernel has of the process. -/
structure St where
  /-- `allocList_`, xbyak.h 480-481 -/
  list : List Entry
  /-- kernel: is the page with this number mapped? -/
  mapped : Nat → Bool
  /-- kernel: is this descriptor open? -/
  opened : Nat → Bool
  /-- kernel: length of the file behind a descriptor -/
  len : Nat → Nat
  /-- a descriptor that was not open has been closed -/
  bad : Bool

inductive Out (α : Type)
  | ok (a : α) (s : St)
  | err (e : Err) (s : St)

/-- The state in which a call leaves the allocator -/
def Out.st {α : Type} : Out α → St
  | .ok _ s => s
  | .err _ s => s

/-- close(2) -/
def close (fd : Nat) (s : St) : St :=
  { s with opened := fun n => s.opened n && decide (n ≠ fd), bad := s.bad || !s.opened fd }

/-- `if (fd != -1) close(fd);` -/
def closeIf (fd : Option Nat) (s : St) : St :=
  match fd with
  | some fd => close fd s
  | none => s

/-- The answers of the kernel to `memfd_create`, `ftruncate` and `mmap` in one call of `alloc` -/
structure Ans where
  fd : Option Nat
  trunc : Bool
  map : Option Nat

/-- xbyak.h 510-521, `alloc` from `mmap` on -/
def allocMap (page : Word) (size : Nat) (fd map : Option Nat) (s : St) : Out Nat :=
  match map with
  | none => .err .CANT_ALLOC (closeIf fd s)
  | some p =>
    .ok p { s with
      list := ⟨p, size, fd⟩ :: s.list.filter (·.addr ≠ p)
      mapped := fun n => s.mapped n || overlaps page.toNat p size n }

/-- xbyak.h 484-522 `alloc` -/
def alloc (page size : Word) (a : Ans) (s : St) : Out Nat :=
  let size := (roundUp page size).toNat
  match a.fd with
  | none => allocMap page size none a.map s
  | some fd =>
    let s := { s with opened := fun n => s.opened n || decide (n = fd) }
    if a.trunc then allocMap page size (some fd) a.map { s with len := fun n => if n = fd then size else s.len n }
    else .err .CANT_ALLOC (close fd s)

/-- xbyak.h 523-533 `free`; `kernel` tells whether `munmap` succeeds -/
def free (page : Word) (p : Nat) (kernel : Bool) (s : St) : Out Unit :=
  if p = 0 then .ok () s
  else match s.list.find? (·.addr = p) with
    | none => .err .BAD_PARAMETER s
    | some e =>
      if kernel then
        let s := closeIf e.fd { s with mapped := fun n => s.mapped n && !overlaps page.toNat e.addr e.size n }
        .ok () { s with list := s.list.filter (·.addr ≠ p) }
      else .err .MUNMAP s

/-- A call with the answers of the kernel -/
inductive Op
  | alloc (size : Word) (kernel : Ans)
  | free (p : Nat) (kernel : Bool)

/-- One call; errors are exceptions that leave the object usable. -/
def step (page : Word) (s : St) : Op → St
  | .alloc n k => (alloc page n k s).st
  | .free p k => (free page p k s).st

/-- The answers of the kernel are possible ones. -/
def Allowed (page : Word) (s : St) : Op → Prop
  | .alloc n k => (∀ fd, k.fd = some fd → s.opened fd = false) ∧ mmapOK page.toNat s.mapped (roundUp page n).toNat k.map
  | .free _ _ => True

/-- The descriptor belongs to an allocation. -/
def own (s : St) (n : Nat) : Bool := s.list.any (·.fd == some n)

/-- States reachable from a new allocator in a process whose other mappings are `m₀`.  The other descriptors `f` of the process may be
opened and closed by the rest of the program in between. -/
inductive Reach (page : Word) (m₀ : Nat → Bool) : (Nat → Bool) → St → Prop
  | new (f : Nat → Bool) (l : Nat → Nat) : Reach page m₀ f ⟨[], m₀, f, l, false⟩
  | step {f : Nat → Bool} {s : St} (o : Op) : Reach page m₀ f s → Allowed page s o → Reach page m₀ f (step page s o)
  | env {f f' : Nat → Bool} {l' : Nat → Nat} {s : St} : Reach page m₀ f s → (∀ n, own s n = true → f' n = false ∧ l' n = s.len n) →
      Reach page m₀ f' { s with opened := fun n => f' n || own s n, len := l' }

end Memfd
end Xbyak
