import Verif.Basic
/-!
# Memory: MmapAllocator, protect, getAlignedAddress

Models `MmapAllocator` of xbyak.h 469-534 (Linux without `XBYAK_USE_MEMFD` and `XBYAK_USE_MAP_JIT`), `CodeArray::protect` 1265-1302 (GCC branch)
and `CodeArray::getAlignedAddress` 1309-1312.

The kernel is a set of mapped pages.  `mmap` may fail at will, or picks any page-aligned free range that does not wrap around; it refuses
length 0 (mmap(2), EINVAL).  `munmap` may fail at will, otherwise it unmaps every page that overlaps the range.  Addresses and sizes are
natural numbers below 2^64; the rounding in `alloc` wraps around as `size_t` does.
-/
namespace Xbyak
namespace Mem

/-- `(x + m) & ~m` with `m = page - 1` on `size_t`, xbyak.h 486-487, for a power of two `page` -/
def roundUp (page size : Word) : Word := (size + (page - 1)) &&& ~~~(page - 1)

/-- The allocator object and the pages of the process it has mapped. -/
structure St where
  /-- `allocList_`, xbyak.h 480-481: address and size -/
  list : List (Nat × Nat)
  /-- kernel: is the page with this number mapped? -/
  mapped : Nat → Bool

/-- Page `n` overlaps `[addr, addr + len)`. -/
def overlaps (page addr len n : Nat) : Bool := decide (n * page < addr + len ∧ addr < (n + 1) * page)

/-- What the kernel may answer to `mmap(NULL, len, ...)`. -/
def mmapOK (page : Nat) (mapped : Nat → Bool) (len : Nat) : Option Nat → Prop
  | none => True
  | some p => 0 < len ∧ 0 < p ∧ p % page = 0 ∧ p + len ≤ 2 ^ 64 ∧ ∀ n, overlaps page p len n = true → mapped n = false

/-- Result of a call: the new state, or an error with the state at the throw. -/
inductive Out (α : Type)
  | ok (a : α) (s : St)
  | err (e : Err) (s : St)

/-- `std::unordered_map::operator[]` followed by an assignment -/
def insert (l : List (Nat × Nat)) (k v : Nat) : List (Nat × Nat) := (k, v) :: l.filter (·.1 ≠ k)

/-- xbyak.h 484-522 `alloc`; `kernel` is the answer of `mmap` -/
def alloc (page : Word) (size : Word) (kernel : Option Nat) (s : St) : Out Nat :=
  let size := (roundUp page size).toNat
  match kernel with
  | none => .err .CANT_ALLOC s
  | some p =>
    .ok p { list := insert s.list p size
            mapped := fun n => s.mapped n || overlaps page.toNat p size n }

/-- xbyak.h 523-533 `free`; `kernel` tells whether `munmap` succeeds -/
def free (page : Word) (p : Nat) (kernel : Bool) (s : St) : Out Unit :=
  if p = 0 then .ok () s
  else match s.list.find? (·.1 = p) with
    | none => .err .BAD_PARAMETER s
    | some (a, size) =>
      if kernel then
        .ok () { list := s.list.filter (·.1 ≠ p)
                 mapped := fun n => s.mapped n && !overlaps page.toNat a size n }
      else .err .MUNMAP s

/-- A call with the kernel's answer. -/
inductive Op
  | alloc (size : Word) (kernel : Option Nat)
  | free (p : Nat) (kernel : Bool)

/-- One call; errors are exceptions that leave the object usable. -/
def step (page : Word) (s : St) : Op → St
  | .alloc n k => match Mem.alloc page n k s with | .ok _ s' => s' | .err _ s' => s'
  | .free p k => match Mem.free page p k s with | .ok _ s' => s' | .err _ s' => s'

/-- The kernel's answers along a history are possible ones. -/
def Allowed (page : Word) (s : St) : Op → Prop
  | .alloc n k => mmapOK page.toNat s.mapped (roundUp page n).toNat k
  | .free _ _ => True

/-- States reachable from a new allocator in a process whose other mappings are `m₀`. -/
inductive Reach (page : Word) (m₀ : Nat → Bool) : St → Prop
  | new : Reach page m₀ ⟨[], m₀⟩
  | step {s : St} (o : Op) : Reach page m₀ s → Allowed page s o → Reach page m₀ (step page s o)

/-- The mode bits of mprotect(2). -/
structure Prot where
  read : Bool
  write : Bool
  exec : Bool
  deriving DecidableEq, Repr

/-- xbyak.h 1265-1302 `protect`: the arguments passed to `mprotect`, or `none` for an unknown mode -/
def protect (pageSize : Word) (addr size : Word) (mode : Int) : Option (Word × Word × Prot) :=
  let m : Option Prot :=
    if mode = 0 then some ⟨true, true, false⟩ else if mode = 1 then some ⟨true, true, true⟩ else if mode = 2 then some ⟨true, false, true⟩ else none
  m.map fun m =>
    let roundAddr := addr &&& ~~~(pageSize - 1)
    (roundAddr, size + (addr - roundAddr), m)

/-- xbyak.h 1309-1312 `getAlignedAddress` -/
def getAlignedAddress (addr alignedSize : Word) : Word := (addr + alignedSize - 1) &&& ~~~(alignedSize - 1)

end Mem
end Xbyak
