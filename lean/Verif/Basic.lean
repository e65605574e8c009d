/-!
# Errors, results, bytes

Models the error codes of `/repo/xbyak/xbyak.h` lines 182-238 and gives the result type of every modelled call.
-/
namespace Xbyak

/-- A byte of the code buffer. -/
abbrev Byte := BitVec 8
/-- A 64-bit machine word: addresses and `size_t` values used as displacements. -/
abbrev Word := BitVec 64

/-- xbyak.h 182-238: error codes (the `ERR_` prefix is dropped; `ERR_NONE` is not an error). -/
inductive Err
  | BAD_ADDRESSING | CODE_IS_TOO_BIG | BAD_SCALE | ESP_CANT_BE_INDEX | BAD_COMBINATION
  | BAD_SIZE_OF_REGISTER | IMM_IS_TOO_BIG | BAD_ALIGN | LABEL_IS_REDEFINED | LABEL_IS_TOO_FAR
  | LABEL_IS_NOT_FOUND | CODE_ISNOT_COPYABLE | BAD_PARAMETER | CANT_PROTECT | CANT_USE_64BIT_DISP
  | OFFSET_IS_TOO_BIG | MEM_SIZE_IS_NOT_SPECIFIED | BAD_MEM_SIZE | BAD_ST_COMBINATION
  | OVER_LOCAL_LABEL | UNDER_LOCAL_LABEL | CANT_ALLOC | ONLY_T_NEAR_IS_SUPPORTED_IN_AUTO_GROW
  | BAD_PROTECT_MODE | BAD_PNUM | BAD_TNUM | BAD_VSIB_ADDRESSING | CANT_CONVERT
  | LABEL_ISNOT_SET_BY_L | LABEL_IS_ALREADY_SET_BY_L | BAD_LABEL_STR | MUNMAP
  | OPMASK_IS_ALREADY_SET | ROUNDING_IS_ALREADY_SET | K0_IS_INVALID | EVEX_IS_INVALID
  | SAE_IS_INVALID | ER_IS_INVALID | INVALID_BROADCAST | INVALID_OPMASK_WITH_MEMORY | INVALID_ZERO
  | INVALID_RIP_IN_AUTO_GROW | INVALID_MIB_ADDRESS | X2APIC_IS_NOT_SUPPORTED | NOT_SUPPORTED
  | SAME_REGS_ARE_INVALID | INVALID_NF | INVALID_ZU | CANT_USE_REX2 | INVALID_DFV
  | INVALID_REG_IDX | BAD_ENCODING_MODE | CANT_USE_ABCDH | INTERNAL
  deriving DecidableEq, Repr

/-- Kinds of undefined behaviour: an access outside of a memory block or container, or the use of an object
that is not alive. -/
inductive UB | bounds | lifetime
  deriving DecidableEq, Repr

/-- Outcome of a modelled call.  `err` is a C++ exception (the object state at the throw is kept),
`ub` is undefined behaviour (out-of-bounds access, access to a destroyed object, …). -/
inductive Res (σ : Type) (α : Type)
  | ok (a : α) (s : σ)
  | err (e : Err) (s : σ)
  | ub (u : UB)

/-- Stateful call that may throw or be undefined. -/
abbrev M (σ α : Type) := σ → Res σ α

namespace M
variable {σ α β : Type}

@[inline] def pure (a : α) : M σ α := fun s => .ok a s
@[inline] def bind (m : M σ α) (f : α → M σ β) : M σ β := fun s =>
  match m s with
  | .ok a s' => f a s'
  | .err e s' => .err e s'
  | .ub u => .ub u

instance : Monad (M σ) where
  pure := M.pure
  bind := M.bind

/-- `XBYAK_THROW(e)` in the exception build (xbyak.h 352). -/
def throw (e : Err) : M σ α := fun s => .err e s
/-- Undefined behaviour. -/
def ub (u : UB) : M σ α := fun _ => .ub u
def get : M σ σ := fun s => .ok s s
def set (s : σ) : M σ Unit := fun _ => .ok () s
def modify (f : σ → σ) : M σ Unit := fun s => .ok () (f s)
/-- `if (c) XBYAK_THROW(e)` -/
def throwIf (c : Bool) (e : Err) : M σ Unit := if c then throw e else pure ()

end M

/-- Triple: `Q` on normal return, `E` on exception, and undefined behaviour only of the kinds allowed by `U`
(by default none). -/
def Res.Sat {σ α : Type} (r : Res σ α) (Q : α → σ → Prop) (E : Err → σ → Prop)
    (U : UB → Prop := fun _ => False) : Prop :=
  match r with
  | .ok a s => Q a s
  | .err e s => E e s
  | .ub u => U u

/-- Final state whatever the outcome (exception or not); `none` for undefined behaviour. -/
def Res.state {σ α : Type} : Res σ α → Option σ
  | .ok _ s => some s
  | .err _ s => some s
  | .ub _ => none

/-- The call returned normally. -/
def Res.isOk {σ α : Type} : Res σ α → Bool
  | .ok _ _ => true
  | _ => false

/-- The call raised this error. -/
def Res.errCode {σ α : Type} : Res σ α → Option Err
  | .err e _ => some e
  | _ => none

section
variable {σ α β : Type}

@[simp] theorem M.pure_run (a : α) (s : σ) : (Pure.pure a : M σ α) s = .ok a s := rfl
@[simp] theorem M.pure_run' (a : α) (s : σ) : (M.pure a : M σ α) s = .ok a s := rfl
theorem M.bind_run (m : M σ α) (f : α → M σ β) (s : σ) :
    (m >>= f) s = match m s with
      | .ok a s' => f a s'
      | .err e s' => .err e s'
      | .ub u => .ub u := rfl
@[simp] theorem M.throw_run (e : Err) (s : σ) : (M.throw e : M σ α) s = .err e s := rfl
@[simp] theorem M.get_run (s : σ) : (M.get : M σ σ) s = .ok s s := rfl
@[simp] theorem M.set_run (s t : σ) : (M.set t : M σ Unit) s = .ok () t := rfl
@[simp] theorem M.modify_run (f : σ → σ) (s : σ) : (M.modify f : M σ Unit) s = .ok () (f s) := rfl

theorem M.get_bind (f : σ → M σ β) (s : σ) : (M.get >>= f) s = f s s := rfl
theorem M.pure_bind' (a : α) (f : α → M σ β) (s : σ) : ((Pure.pure a : M σ α) >>= f) s = f a s := rfl
theorem M.mpure_bind (a : α) (f : α → M σ β) (s : σ) : ((M.pure a : M σ α) >>= f) s = f a s := rfl
theorem M.set_bind (t : σ) (f : Unit → M σ β) (s : σ) : (M.set t >>= f) s = f () t := rfl
theorem M.modify_bind (g : σ → σ) (f : Unit → M σ β) (s : σ) : (M.modify g >>= f) s = f () (g s) := rfl
theorem M.throw_bind (e : Err) (f : α → M σ β) (s : σ) : ((M.throw e : M σ α) >>= f) s = .err e s := rfl
theorem M.throwIf_true (e : Err) (s : σ) : M.throwIf true e s = .err e s := rfl
theorem M.throwIf_false (e : Err) (s : σ) : M.throwIf false e s = .ok () s := rfl
theorem M.throwIf_bind (c : Bool) (e : Err) (f : Unit → M σ β) (s : σ) :
    (M.throwIf c e >>= f) s = if c then .err e s else f () s := by
  cases c <;> rfl
theorem M.bind_assoc' {γ : Type} (m : M σ α) (f : α → M σ β) (g : β → M σ γ) :
    (m >>= f) >>= g = m >>= fun a => f a >>= g := by
  funext s
  simp only [M.bind_run]
  cases m s <;> rfl

theorem Res.Sat.mono {r : Res σ α} {Q Q' : α → σ → Prop} {E E' : Err → σ → Prop} {U : UB → Prop}
    (h : r.Sat Q E U) (hq : ∀ a s, Q a s → Q' a s) (he : ∀ e s, E e s → E' e s) : r.Sat Q' E' U := by
  cases r with
  | ok a s => exact hq _ _ h
  | err e s => exact he _ _ h
  | ub u => exact h

theorem Res.Sat.monoU {r : Res σ α} {Q Q' : α → σ → Prop} {E E' : Err → σ → Prop} {U U' : UB → Prop}
    (h : r.Sat Q E U) (hq : ∀ a s, Q a s → Q' a s) (he : ∀ e s, E e s → E' e s)
    (hu : ∀ u, U u → U' u) : r.Sat Q' E' U' := by
  cases r with
  | ok a s => exact hq _ _ h
  | err e s => exact he _ _ h
  | ub u => exact hu _ h

theorem Res.Sat.and {r : Res σ α} {Q Q' : α → σ → Prop} {E E' : Err → σ → Prop} {U : UB → Prop}
    (h : r.Sat Q E U) (h' : r.Sat Q' E' U) :
    r.Sat (fun a s => Q a s ∧ Q' a s) (fun e s => E e s ∧ E' e s) U := by
  cases r with
  | ok a s => exact ⟨h, h'⟩
  | err e s => exact ⟨h, h'⟩
  | ub u => exact h

theorem M.sat_bind {m : M σ α} {f : α → M σ β} {s : σ} {Q' : α → σ → Prop}
    {Q : β → σ → Prop} {E : Err → σ → Prop} {U : UB → Prop}
    (h : (m s).Sat Q' E U) (hf : ∀ a s', Q' a s' → (f a s').Sat Q E U) :
    ((m >>= f) s).Sat Q E U := by
  rw [M.bind_run]
  cases hm : m s with
  | ok a s' => rw [hm] at h; exact hf _ _ h
  | err e s' => rw [hm] at h; exact h
  | ub u => rw [hm] at h; exact h

end

end Xbyak
