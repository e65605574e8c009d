import Verif.Operand
/-!
# `Pack`: a short list of 64-bit registers

Models `Xbyak::util::Pack` (xbyak_util.h 786-879, 64-bit build, exceptions enabled).  `size_t` is a 64-bit word and wraps; access outside the
15-element array is undefined behaviour, a separate outcome.  The twelve constructors that take registers are one function.
-/
namespace Xbyak
namespace Pack

/-- xbyak_util.h 787 `maxTblNum` -/
def maxTblNum : Nat := 15

/-- xbyak_util.h 788-789: `tbl_[15]`, `n_` -/
structure P where
  /-- element `i < 15` of the array -/
  tbl : Nat → Reg
  n : Word

/-- Result of a member function. -/
inductive Out (α : Type)
  | ok (a : α)
  | throw (e : Err)
  /-- access outside an array -/
  | ub

/-- xbyak_util.h 791 `Pack()` -/
def empty : P := ⟨fun _ => .gp 0 64, 0⟩

/-- `tbl_[i] = r` -/
def put (p : P) (i : Word) (r : Reg) : Out P :=
  if i.toNat < maxTblNum then .ok { p with tbl := fun j => if j = i.toNat then r else p.tbl j } else .ub

/-- `tbl_[i]` -/
def at' (p : P) (i : Word) : Out Reg := if i.toNat < maxTblNum then .ok (p.tbl i.toNat) else .ub

/-- xbyak_util.h 848-855 `operator[]` -/
def get (p : P) (n : Word) : Out Reg := if p.n ≤ n then .throw .BAD_PARAMETER else at' p n

/-- xbyak_util.h 828-836 `append` -/
def append (p : P) (t : Reg) : Out P :=
  if p.n = 15 then .throw .BAD_PARAMETER
  else match put p p.n t with
    | .ok q => .ok { q with n := p.n + 1 }
    | .throw e => .throw e
    | .ub => .ub

/-- The loop of `init` (844-846): `tbl_[i] = tbl[i]` for the remaining source elements. -/
def fill (p : P) (i : Word) : List Reg → Out P
  | [] => .ok p
  | r :: t => match put p i r with
    | .ok q => fill q (i + 1) t
    | .throw e => .throw e
    | .ub => .ub

/-- xbyak_util.h 837-847 `init(tbl, n)`; `src` are the `n` registers at `tbl`, which the caller provides -/
def init (p : P) (src : List Reg) : Out P :=
  if src.length > maxTblNum then .throw .BAD_PARAMETER else fill { p with n := BitVec.ofNat 64 src.length } 0 src

/-- xbyak_util.h 804-827: the constructors with 1 to 12 registers; the last argument is element 0 -/
def make (args : List Reg) : Out P := fill { empty with n := BitVec.ofNat 64 args.length } 0 args.reverse

/-- The loop of `sub` (869-871): `pack.tbl_[i] = tbl_[pos + i]`, `k` iterations left. -/
def copy (p : P) (pos i : Word) (q : P) : Nat → Out P
  | 0 => .ok q
  | k + 1 => match at' p (pos + i) with
    | .ok r => match put q i r with
      | .ok q => copy p pos (i + 1) q k
      | .throw e => .throw e
      | .ub => .ub
    | .throw e => .throw e
    | .ub => .ub

/-- xbyak_util.h 860-873 `sub(pos, num = size_t(-1))` -/
def sub (p : P) (pos : Word) (num : Word := -1) : Out P :=
  let num := if num = -1 then p.n - pos else num
  if p.n < pos + num then .throw .BAD_PARAMETER else copy p pos 0 { empty with n := num } num.toNat

end Pack
end Xbyak
