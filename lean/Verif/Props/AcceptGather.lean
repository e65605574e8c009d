import Verif.AcceptGather
import Verif.Props.AcceptVec
/-!
# C94: gathers, scatters and prefetches of the manual are accepted

`c79_*` says that what these functions write is the instruction asked for; here, that no operands of the manual are refused.
-/
namespace Xbyak
open E
open Enc
namespace Mn

private theorem coarse_of' : ∀ i : BitVec 5, i.toNat < 16 → ∃ j ∈ [(1 : BitVec 5), 9], coarseIdx j = coarseIdx i := by decide +kernel

private theorem masks7_of : ∀ m : BitVec 3, m ≠ 0 → m ∈ masks7 := by decide +kernel

private theorem step3 {e : Entry} {t : Ty} {c : Byte} {md : Nat} (hb : e.body = .leaf (.gather (.a 0) (.a 1) (.a 2) t c md)) {X X' Y Y' : Reg} {a b : Addr} (hX : X.Like X') (hY : Y.Like Y')
    (k : a.Like b) (hr : (opGather X a Y t c md).res = (opGather X' b Y' t c md).res) (h : e.accepts { ops := [.reg X, .mem a, .reg Y] } = true) :
    e.accepts { ops := [.reg X', .mem b, .reg Y'] } = true :=
  accepts_of_like (g := { ops := [.reg X, .mem a, .reg Y] }) (g' := { ops := [.reg X', .mem b, .reg Y'] }) hb (.cons (likeReg hX) (.cons (likeMem k) (.cons (likeReg hY) .nil))) hr h

private theorem step2 {e : Entry} {t : Ty} {c : Byte} {md : Nat} (hb : e.body = .leaf (.gather2 (.a 0) (.a 1) t c md)) {X X' : Reg} {a b : Addr} (hX : X.Like X')
    (k : a.Like b) (hr : (opGather2 X a t c md).res = (opGather2 X' b t c md).res) (h : e.accepts { ops := [.reg X, .mem a] } = true) :
    e.accepts { ops := [.reg X', .mem b] } = true :=
  accepts_of_like (g := { ops := [.reg X, .mem a] }) (g' := { ops := [.reg X', .mem b] }) hb (.cons (likeReg hX) (.cons (likeMem k) .nil)) hr h

private theorem step2' {e : Entry} {t : Ty} {c : Byte} {md : Nat} (hb : e.body = .leaf (.gather2 (.a 1) (.a 0) t c md)) {X X' : Reg} {a b : Addr} (hX : X.Like X')
    (k : a.Like b) (hr : (opGather2 X a t c md).res = (opGather2 X' b t c md).res) (h : e.accepts { ops := [.mem a, .reg X] } = true) :
    e.accepts { ops := [.mem b, .reg X'] } = true :=
  accepts_of_like (g := { ops := [.mem a, .reg X] }) (g' := { ops := [.mem b, .reg X'] }) hb (.cons (likeMem k) (.cons (likeReg hX) .nil)) hr h

private theorem step1 {e : Entry} {r : Reg} {t : Ty} {c : Byte} {kd : Kind} (hb : e.body = .leaf (.gatherFetch (.a 0) (.r r) t c kd)) {a b : Addr}
    (k : a.Like b) (h : e.accepts { ops := [.mem a] } = true) : e.accepts { ops := [.mem b] } = true :=
  accepts_of_like (g := { ops := [.mem a] }) (g' := { ops := [.mem b] }) hb (.cons (likeMem k) .nil) (opGatherFetch_like k (.refl r) t c kd) h

/-- The gathers with VEX prefix: destination, index and mask are three different registers below 16, of the widths of the manual. -/
theorem c94_vex {n I D VL : Nat} (hn : (n, X86.VsibKind.gather, I, D) ∈ X86.vsibOps) (hl : VL = 128 ∨ VL = 256) {x y i : BitVec 5} (hx : x.toNat < 16) (hy : y.toNat < 16)
    (hi : i.toNat < 16) (h1 : x ≠ i) (h2 : x ≠ y) (h3 : i ≠ y) {a : Addr} (ha : VsibAt false (X86.vsibWidth VL I D I) i 0 a) :
    ∃ e w, e.name = n ∧ Calls e { ops := [.reg (vregW (X86.vsibWidth VL I D D) x), .mem a, .reg (vregW (X86.vsibWidth VL I D D) y)] } w := by
  have hc := List.all_eq_true.1 vexGathers_ok _ hn
  simp only [bne_self_eq_false, Bool.false_or] at hc
  obtain ⟨e, he, hc⟩ := List.any_eq_true.1 (List.all_eq_true.1 hc VL (by rcases hl with rfl | rfl <;> simp))
  rw [Bool.and_eq_true] at hc
  obtain ⟨b, hb, kb, eb⟩ := vsibReps_of ha fun _ => hi
  obtain ⟨p, hp, kp⟩ := coarse_16 x hx
  obtain ⟨q, hq, kq⟩ := coarse_of' y hy
  have hacc := List.all_eq_true.1 (List.all_eq_true.1 (List.all_eq_true.1 hc.2 b hb) p hp) q hq
  obtain ⟨hm, hname⟩ := of_namedT e he
  have kx := vregW_like (X86.vsibWidth VL I D D) kp 0
  have ky := vregW_like (X86.vsibWidth VL I D D) kq 0
  have z : ∀ w j, ({ vregW w j with mask := 0 } : Reg) = vregW w j := by intro w j; unfold vregW; split; rfl; split <;> rfl
  rw [z, z] at kx ky
  have hform := hc.1
  unfold Entry.isVexGather at hform
  split at hform
  · rename_i t c md hbody
    suffices hr : _ from by
      obtain ⟨w, hw⟩ := Entry.accepts_calls hm (step3 hbody kx ky kb hr hacc)
      exact ⟨e, w, hname, hw⟩
    refine opGather_like kx ky kb (by rw [vregW_idx, vregW_idx]; exact kp) (by rw [vregW_idx, vregW_idx]; exact kq) ?_ ?_ t c md
    · rw [vregW_idx, vregW_idx, (getRegExp_index _).1]
      simp only [List.mem_cons, List.not_mem_nil, or_false] at hp hq
      rcases hp with rfl | rfl <;> rcases hq with rfl | rfl <;> rcases eb with eb | eb <;> rw [eb] <;> decide
    · rw [vregW_idx, vregW_idx, (getRegExp_index _).1, ha.index, vregW_idx]
      simp [h1, h2, h3]
  · cases hform

/-- The gathers with EVEX prefix: the destination has an opmask other than k0 and is not the index. -/
theorem c94_evex {n I D VL : Nat} (hn : (n, X86.VsibKind.gather, I, D) ∈ X86.vsibOps) (hl : VL ∈ [128, 256, 512]) {x i : BitVec 5} (h1 : x ≠ i) {m : BitVec 3} (hm0 : m ≠ 0)
    {a : Addr} (ha : VsibAt true (X86.vsibWidth VL I D I) i 0 a) :
    ∃ e w, e.name = n ∧ Calls e { ops := [.reg { vregW (X86.vsibWidth VL I D D) x with mask := m }, .mem a] } w := by
  have hc := List.all_eq_true.1 (evexGathers_ok VL hl) _ hn
  simp only [bne_self_eq_false, Bool.false_or] at hc
  obtain ⟨e, he, hc⟩ := List.any_eq_true.1 hc
  rw [Bool.and_eq_true] at hc
  obtain ⟨b, hb, kb, eb⟩ := vsibReps_of ha fun h => by cases h
  obtain ⟨p, hp, kp⟩ := coarse_32 x
  have hacc := List.all_eq_true.1 (List.all_eq_true.1 (List.all_eq_true.1 hc.2 b hb) p hp) m (masks7_of m hm0)
  obtain ⟨hm, hname⟩ := of_namedT e he
  have kx := vregW_like (X86.vsibWidth VL I D D) kp m
  have hform := hc.1
  unfold Entry.isGather2 at hform
  split at hform
  · rename_i t c md hbody
    suffices hr : _ from by
      obtain ⟨w, hw⟩ := Entry.accepts_calls hm (step2 hbody kx kb hr hacc)
      exact ⟨e, w, hname, hw⟩
    refine opGather2_like kx kb kb.getRegExp.index.kind ?_ ?_ c md
    · show (_ && (vregW _ p).idx == _) = false
      rw [vregW_idx, (getRegExp_index _).1]
      simp only [List.mem_cons, List.not_mem_nil, or_false] at hp
      rcases hp with rfl | rfl | rfl <;> rcases eb with eb | eb <;> rw [eb] <;> simp
    · show (_ && (vregW _ x).idx == _) = false
      rw [vregW_idx, (getRegExp_index _).1, ha.index, vregW_idx]
      simp [h1]
  · cases hform

/-- The scatters, with an opmask other than k0 on the address. -/
theorem c94_scatter {n I D VL : Nat} (hn : (n, X86.VsibKind.scatter, I, D) ∈ X86.vsibOps) (hl : VL ∈ [128, 256, 512]) (x : BitVec 5) {i : BitVec 5} {m : BitVec 3} (hm0 : m ≠ 0)
    {a : Addr} (ha : VsibAt true (X86.vsibWidth VL I D I) i m a) :
    ∃ e w, e.name = n ∧ Calls e { ops := [.mem a, .reg (vregW (X86.vsibWidth VL I D D) x)] } w := by
  have hc := List.all_eq_true.1 (scatters_ok VL hl) _ hn
  simp only [bne_self_eq_false, Bool.false_or] at hc
  obtain ⟨e, he, hc⟩ := List.any_eq_true.1 hc
  rw [Bool.and_eq_true] at hc
  obtain ⟨b, hb, kb, eb⟩ := vsibReps_of ha fun h => by cases h
  obtain ⟨p, hp, kp⟩ := coarse_32 x
  have hacc := List.all_eq_true.1 (List.all_eq_true.1 (List.all_eq_true.1 hc.2 m (masks7_of m hm0)) b hb) p hp
  obtain ⟨hm, hname⟩ := of_namedT e he
  have kx := vregW_like (X86.vsibWidth VL I D D) kp 0
  have z : ∀ w j, ({ vregW w j with mask := 0 } : Reg) = vregW w j := by intro w j; unfold vregW; split; rfl; split <;> rfl
  rw [z, z] at kx
  have hform := hc.1
  unfold Entry.isScatter at hform
  split at hform
  · rename_i t c md hbody
    obtain ⟨w, hw⟩ := Entry.accepts_calls hm (step2' hbody kx kb (opGather2_like kx kb kb.getRegExp.index.kind (by rw [hform]; rfl) (by rw [hform]; rfl) c md) hacc)
    exact ⟨e, w, hname, hw⟩
  · cases hform

/-- The prefetches, with an opmask other than k0. -/
theorem c94_prefetch {n I D : Nat} (hn : (n, X86.VsibKind.prefetch, I, D) ∈ X86.vsibOps) {i : BitVec 5} {m : BitVec 3} (hm0 : m ≠ 0)
    {a : Addr} (ha : VsibAt true (X86.vsibWidth 512 I D I) i m a) : ∃ e w, e.name = n ∧ Calls e { ops := [.mem a] } w := by
  have hc := List.all_eq_true.1 prefetches_ok _ hn
  simp only [bne_self_eq_false, Bool.false_or] at hc
  obtain ⟨e, he, hc⟩ := List.any_eq_true.1 hc
  rw [Bool.and_eq_true] at hc
  obtain ⟨b, hb, kb, eb⟩ := vsibReps_of ha fun h => by cases h
  have hacc := List.all_eq_true.1 (List.all_eq_true.1 hc.2 m (masks7_of m hm0)) b hb
  obtain ⟨hm, hname⟩ := of_namedT e he
  have hform := hc.1
  unfold Entry.isFetch at hform
  split at hform
  · rename_i r t c kd hbody
    obtain ⟨w, hw⟩ := Entry.accepts_calls hm (step1 hbody kb hacc)
    exact ⟨e, w, hname, hw⟩
  · cases hform

/-- `vpgatherqd(xmm17|k3, ptr[r20 + ymm30*8 + 64])` -/
example : ∃ e w, e.name = n!"vpgatherqd" ∧
    Calls e { ops := [.reg { Reg.xmm 17 with mask := 3 }, .mem { o := Addr.memOp 0, e := { base := .gp 20 64, index := .ymm 30, scale := 8, disp := 64 } }] } w :=
  c94_evex (VL := 256) (x := 17) (i := 30) (m := 3) (show (n!"vpgatherqd", X86.VsibKind.gather, 64, 32) ∈ X86.vsibOps by simp [X86.vsibOps]) (by simp) (by decide) (by decide)
    ⟨rfl, .inr ⟨20, by simp, .inr rfl⟩, rfl, by decide, rfl, rfl, rfl, rfl, rfl⟩

/-- `vgatherdpd(ymm1, ptr[rax + xmm2*4], ymm3)` -/
example : ∃ e w, e.name = n!"vgatherdpd" ∧
    Calls e { ops := [.reg (Reg.ymm 1), .mem { o := Addr.memOp 0, e := { base := .gp 0 64, index := .xmm 2, scale := 4, disp := 0 } }, .reg (Reg.ymm 3)] } w :=
  c94_vex (VL := 256) (x := 1) (i := 2) (y := 3) (show (n!"vgatherdpd", X86.VsibKind.gather, 32, 64) ∈ X86.vsibOps by simp [X86.vsibOps]) (by simp) (by decide) (by decide) (by decide)
    (by decide) (by decide) (by decide) ⟨rfl, .inr ⟨0, by simp, .inr rfl⟩, rfl, by decide, rfl, rfl, rfl, rfl, rfl⟩

end Mn
end Xbyak
