import Verif.AcceptVec
import Verif.Spec.Masks
/-!
# Masks and broadcasts, by representatives

The forms of `AcceptVec` with an opmask on the destination and broadcast of the memory operand.
-/
namespace Xbyak
open E
namespace Mn
open X86

/-- `o | k<m>`, and `| T_z` (xbyak.h 592-609, 1302-1318). -/
def Operand.masked (m : BitVec 3) (z : Bool) : Operand → Operand
  | .reg r => .reg { r with mask := m, zero := z }
  | .mem a => .mem { a with o := { a.o with mask := m, zero := z } }

/-- An address written with `ptr_b`, `xword_b`, `yword_b` or `zword_b` (xbyak.h 3299-3302). -/
def Operand.bcast : Operand → Operand
  | .mem a => .mem { a with broadcast := true }
  | o => o

/-- The first operand has a mask, the memory operands behind it are broadcast. -/
def decorate (m : BitVec 3) (z b : Bool) : List Operand → List Operand
  | [] => []
  | o :: os => Operand.masked m z o :: bif b then os.map Operand.bcast else os

/-- The kinds of the operands where memory is broadcast, and has the size of the whole vector or, unless the length is seen at it only, no size (`ptr_b`). -/
def bkinds (s : Bool) (vl : Nat) : VOp → List OpKind
  | .vm n => bif s then [.mem (vl / n)] else [.mem (vl / n), .mem 0]
  | v => vkinds true vl v

/-- Some function of the list accepts all representatives with the mask and the broadcast. -/
def dcovers (es : List Entry) (n : Nat) (m : BitVec 3) (b : Bool) (ss : List OpKind) : Bool :=
  (prod (ss.map OpKind.wreps)).all fun os => es.any fun e => Nat.beq e.nInts n && e.encs.any fun c => e.qaccepts { ops := decorate m false b os, ints := [], enc := c }

theorem masked_weak {p o : Operand} (h : OpWeak p o) {m m' : BitVec 3} (hm : (m == 0) = (m' == 0)) (z z' : Bool) : OpWeak (Operand.masked m z p) (Operand.masked m' z' o) := by
  cases p <;> cases o <;> first | exact h.elim | skip
  · have h : Reg.Weak _ _ := h; exact ⟨h.kind, h.bit, hm, h.ext2⟩
  · exact ⟨⟨h.1.kind, h.1.bit, hm, h.1.ext2⟩, h.2⟩

theorem bcast_weak {p o : Operand} (h : OpWeak p o) : OpWeak (Operand.bcast p) (Operand.bcast o) := by
  cases p <;> cases o <;> first | exact h.elim | exact h | exact ⟨h.1, rfl⟩

theorem decorate_weak {m m' : BitVec 3} (hm : (m == 0) = (m' == 0)) (z z' b : Bool) {ps os : List Operand} (hl : ps.length = os.length) (h : ∀ i : Nat, OptWeak ps[i]? os[i]?) :
    (decorate m z b ps).length = (decorate m' z' b os).length ∧ ∀ i : Nat, OptWeak (decorate m z b ps)[i]? (decorate m' z' b os)[i]? := by
  cases ps with
  | nil =>
    cases os with
    | nil => exact ⟨rfl, fun i => by simp [decorate, OptWeak]⟩
    | cons => cases hl
  | cons p ps =>
    cases os with
    | nil => cases hl
    | cons o os =>
      refine ⟨by cases b <;> simpa [decorate] using hl, fun i => ?_⟩
      cases i with
      | zero => exact masked_weak (h 0) hm z z'
      | succ i =>
        have h := h (i + 1)
        simp only [List.getElem?_cons_succ] at h
        cases b
        · simpa [decorate] using h
        · simp only [decorate, cond_true, List.getElem?_cons_succ, List.getElem?_map]
          cases h1 : ps[i]? <;> cases h2 : os[i]? <;> rw [h1, h2] at h <;> first | exact h.elim | trivial | exact bcast_weak h

theorem masked_plain {o : Operand} (h : o.Plain 0) (m : BitVec 3) (z : Bool) : (Operand.masked m z o).Plain m := by
  cases o with
  | reg r => exact ⟨.inr rfl, h.rnd⟩
  | mem a => exact ⟨h.1, .inr rfl⟩

theorem bcast_plain {o : Operand} {m : BitVec 3} (h : o.Plain 0) : (Operand.bcast o).Plain m := by
  cases o with
  | reg r => exact ⟨.inl (h.mask.elim id id), h.rnd⟩
  | mem a => exact ⟨h.1, .inl (h.2.elim id id)⟩

theorem plain_up {o : Operand} {m : BitVec 3} (h : o.Plain 0) : o.Plain m := by
  cases o with
  | reg r => exact ⟨.inl (h.mask.elim id id), h.rnd⟩
  | mem a => exact ⟨h.1, .inl (h.2.elim id id)⟩

theorem decorate_plain {os : List Operand} (h : ∀ (i : Nat) (o : Operand), os[i]? = some o → o.Plain 0) (m : BitVec 3) (z b : Bool) :
    ∀ (i : Nat) (o : Operand), (decorate m z b os)[i]? = some o → o.Plain m := by
  intro i o ho
  cases os with
  | nil => simp [decorate] at ho
  | cons q qs =>
    cases i with
    | zero => cases ho; exact masked_plain (h 0 q rfl) m z
    | succ i =>
      cases b
      · exact plain_up (h (i + 1) o (by simpa [decorate] using ho))
      · simp only [decorate, cond_true, List.getElem?_cons_succ, List.getElem?_map] at ho
        cases h2 : qs[i]? with
        | none => rw [h2] at ho; cases ho
        | some p =>
          rw [h2] at ho
          cases ho
          exact bcast_plain (h (i + 1) p (by simpa using h2))

theorem dcovers_calls {es : List Entry} (hes : ∀ e ∈ es, e ∈ all) {n : Nat} {m m' : BitVec 3} (hm : (m == 0) = (m' == 0)) {b : Bool} {ks : List OpKind} (h : dcovers es n m b ks = true)
    {os : List Operand} (hk : OpKind.AllAre ks os) (z : Bool) (ints : List Word) :
    ∃ e ∈ es, ∃ c w, (c = .default ∨ .enc ∈ e.params) ∧ e.nInts = n ∧ Calls e { ops := decorate m' z b os, ints := ints, enc := c } w := by
  obtain ⟨ps, hp, hl, ha⟩ := allAre_wreps ks os hk
  obtain ⟨e, he, h⟩ := List.any_eq_true.1 (List.all_eq_true.1 h ps hp)
  rw [Bool.and_eq_true] at h
  obtain ⟨c, hc, h2⟩ := List.any_eq_true.1 h.2
  obtain ⟨h3, h4⟩ := decorate_weak hm false z b hl ha
  obtain ⟨w, hw⟩ := Entry.qaccepts_calls (hes e he) h2 (g' := { ops := decorate m' z b os, ints := ints, enc := c }) ⟨h4, rfl, rfl⟩ h3 (m := m') (fun i => by
    show (Args.op _ i).Plain m'
    unfold Args.op
    cases ho : (decorate m' z b os)[i]? with
    | none => exact ⟨.inl rfl, rfl⟩
    | some o => exact decorate_plain (allAre_plain 0 ks os hk) m' z b i o ho)
  exact ⟨e, he, c, w, Entry.encs_of hc, Nat.eq_of_beq_eq_true h.1, hw⟩

/-- The library has no mask for these stores (`c92_refuted_compress`), -/
def unmasked : List Nat :=
  [n!"vcompresspd", n!"vcompressps", n!"vpcompressb", n!"vpcompressd", n!"vpcompressq", n!"vpcompressw", n!"vextractf32x4", n!"vextractf64x2", n!"vextracti32x4", n!"vextracti64x2",
   n!"vextractf32x8", n!"vextractf64x4", n!"vextracti32x8", n!"vextracti64x4"]

/-- and no broadcast for these (`c92_refuted_valign`). -/
def unbroadcast : List Nat := [n!"valignd", n!"valignq"]

def OpKind.isMem : OpKind → Bool
  | .mem _ => true
  | _ => false

/-- Masks on the destination of the line are accepted. -/
def mcheck (es : List Entry) (n : Nat) (f : VForm) : Bool :=
  !f.evex || Manual.isIn n Vec.noMask || f.lens.all fun vl => vrefused n f vl || (choose (f.ops.map (vkinds f.evex vl))).all fun ks =>
    (Manual.isIn n unmasked && (ks.headD .k).isMem) || dcovers es f.ints 1 false ks

/-- Broadcasts are accepted. -/
def bcheck (es : List Entry) (n : Nat) (f : VForm) : Bool :=
  !Vec.bcast n f || Manual.isIn n unbroadcast || f.lens.all fun vl => (choose (f.ops.map (bkinds (Vec.sized f) vl))).all fun ks =>
    dcovers es f.ints 0 true ks && (Manual.isIn n Vec.noMask || dcovers es f.ints 1 true ks)

def dcheck (n : Nat) (fs : List VForm) : Bool := let es := namedT n; fs.all fun f => mcheck es n f && bcheck es n f

end Mn
end Xbyak
