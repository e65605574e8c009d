import Verif.Spec.Manual
/-!
# Gathers, scatters and their prefetches

Written from the manual (VGATHERDPS …, VPSCATTERDD …, VGATHERPF0DPS …): elements of `I` bits index data of `D` bits.  An instruction of vector length `VL`
has `VL / max I D` elements; a register that is not filled by them is at least an xmm register.
-/
namespace Xbyak
namespace X86

inductive VsibKind | gather | scatter | prefetch
  deriving DecidableEq, Repr

/-- Mnemonic, kind, bits of an index, bits of a datum. -/
def vsibOps : List (Nat × VsibKind × Nat × Nat) := [
  (n!"vgatherdps", .gather, 32, 32), (n!"vgatherdpd", .gather, 32, 64), (n!"vgatherqps", .gather, 64, 32), (n!"vgatherqpd", .gather, 64, 64),
  (n!"vpgatherdd", .gather, 32, 32), (n!"vpgatherdq", .gather, 32, 64), (n!"vpgatherqd", .gather, 64, 32), (n!"vpgatherqq", .gather, 64, 64),
  (n!"vscatterdps", .scatter, 32, 32), (n!"vscatterdpd", .scatter, 32, 64), (n!"vscatterqps", .scatter, 64, 32), (n!"vscatterqpd", .scatter, 64, 64),
  (n!"vpscatterdd", .scatter, 32, 32), (n!"vpscatterdq", .scatter, 32, 64), (n!"vpscatterqd", .scatter, 64, 32), (n!"vpscatterqq", .scatter, 64, 64),
  (n!"vgatherpf0dps", .prefetch, 32, 32), (n!"vgatherpf0dpd", .prefetch, 32, 64), (n!"vgatherpf0qps", .prefetch, 64, 32), (n!"vgatherpf0qpd", .prefetch, 64, 64),
  (n!"vgatherpf1dps", .prefetch, 32, 32), (n!"vgatherpf1dpd", .prefetch, 32, 64), (n!"vgatherpf1qps", .prefetch, 64, 32), (n!"vgatherpf1qpd", .prefetch, 64, 64),
  (n!"vscatterpf0dps", .prefetch, 32, 32), (n!"vscatterpf0dpd", .prefetch, 32, 64), (n!"vscatterpf0qps", .prefetch, 64, 32), (n!"vscatterpf0qpd", .prefetch, 64, 64),
  (n!"vscatterpf1dps", .prefetch, 32, 32), (n!"vscatterpf1dpd", .prefetch, 32, 64), (n!"vscatterpf1qps", .prefetch, 64, 32), (n!"vscatterpf1qpd", .prefetch, 64, 64)]

/-- Width of the register that holds the elements of `n` bits in an instruction of length `VL`. -/
def vsibWidth (VL I D n : Nat) : Nat := max 128 (n * (VL / max I D))

/-- The vector length of the prefix. -/
def vlen (h : Head) : Nat := 128 <<< h.L.toNat

/-- The instruction is defined (does not fault with #UD) for this index register: with VEX destination, index and mask are different registers; with EVEX
there is an opmask other than k0, no zeroing and no broadcast, and the destination of a gather is not the index. -/
def VsibDefined (k : VsibKind) (h : Head) (reg : BitVec 3) (x : BitVec 5) : Prop :=
  (h.space = .vex ∧ k = .gather ∧ regNum h reg ≠ x ∧ regNum h reg ≠ h.vreg ∧ x ≠ h.vreg) ∨
  (h.space = .evex ∧ h.aaa ≠ 0 ∧ h.z = false ∧ h.b = false ∧ (k = .gather → regNum h reg ≠ x))

end X86
end Xbyak
