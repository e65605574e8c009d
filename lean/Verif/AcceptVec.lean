import Verif.PlainWeak
import Verif.Spec.VecForms
/-!
# The forms of vector instructions, by representatives

Acceptance of operands without rounding depends on their kinds and sizes, on whether the numbers of registers exceed 15 and whether there is a mask or a broadcast
(`Body.quick_weak`); so one register of each kind stands for all.
-/
namespace Xbyak
open E
open Enc
namespace Mn
open X86

/-- The representatives. -/
def OpKind.wreps : OpKind → List Operand
  | gp n => [.reg (.gp 0 n)]
  | mm => [.reg (.mm 0)]
  | bnd => [.reg (.bnd 0)]
  | cl => [.reg (.r8 1)]
  | xmm x => .reg (.xmm 0) :: if x then [.reg (.xmm 16)] else []
  | ymm x => .reg (.ymm 0) :: if x then [.reg (.ymm 16)] else []
  | zmm => [.reg (.zmm 0), .reg (.zmm 16)]
  | k => [.reg (.opmask 0)]
  | st => [.reg (.st 0)]
  | mem n => [.mem (at' n .nil .nil 1)]

/-- The function takes the operands, and returns. -/
def Entry.qaccepts (e : Entry) (g : Args) : Bool :=
  !e.zeroTest && decide (g.ops.length ≤ (e.params.filter Param.isOperand).length ∧ (e.params.filter Param.isOperand).length ≤ g.ops.length + e.opt) &&
  (((e.params.filter Param.isOperand).zip g.ops).all fun p => p.1.takes p.2) && match e.body.quick g with | some b => b | none => false

/-- The encodings a caller may ask for. -/
def Entry.encs (e : Entry) : List PrefEnc := if e.params.any (fun p => match p with | .enc => true | _ => false) then [.default, .vex, .evex, .preAVX10v2, .avx10v2] else [.default]

/-- Some function of the list accepts all representatives. -/
def qcovers (es : List Entry) (n : Nat) (ss : List OpKind) : Bool :=
  (prod (ss.map OpKind.wreps)).all fun os => es.any fun e => Nat.beq e.nInts n && e.encs.any fun c => e.qaccepts { ops := os, ints := [], enc := c }

/-- The vector register of `n` bits. -/
def vreg (x : Bool) (n : Nat) : OpKind := if n ≤ 128 then .xmm x else if n = 256 then .ymm x else .zmm

/-- The operands of a line for vector length `vl`. -/
def vkinds (x : Bool) (vl : Nat) : VOp → List OpKind
  | .v n => [vreg x (vl / n)]
  | .vm n => [vreg x (vl / n), .mem (vl / n)]
  | .mv n => [.mem (vl / n)]
  | .w n => [vreg x n]
  | .wm n m => [vreg x n, .mem m]
  | .m n => [.mem n]
  | .r n => [.gp n]
  | .rm n m => [.gp n, .mem m]
  | .k => [.k]
  | .km n => [.k, .mem n]

/-! ## Every operand of a kind is like a representative -/

theorem bit4 : ∀ i : BitVec 5, i.getLsbD 4 = (0 : BitVec 5).getLsbD 4 ∨ i.getLsbD 4 = (16 : BitVec 5).getLsbD 4 := by decide +kernel
theorem bit4_lt : ∀ i : BitVec 5, i.toNat < 16 → i.getLsbD 4 = (0 : BitVec 5).getLsbD 4 := by decide +kernel
theorem bit4_lt8 : ∀ i : BitVec 5, i.toNat < 8 → i.getLsbD 4 = (0 : BitVec 5).getLsbD 4 := by decide +kernel
theorem bit4_lt4 : ∀ i : BitVec 5, i.toNat < 4 → i.getLsbD 4 = (0 : BitVec 5).getLsbD 4 := by decide +kernel

theorem Written.strip {n : Nat} {a : Addr} (h : Written n a) : a.strip = a := by
  have h1 := h.o
  have h2 := h.bcast
  cases a
  unfold Addr.strip
  dsimp only at h1 h2 ⊢
  rw [h1, h2]; rfl

/-- Registers of the kinds are undecorated. -/
theorem OpKind.Is.plain {c : OpKind} {o : Operand} (h : c.Is o) (m : BitVec 3) : o.Plain m := by
  cases c with
  | gp n =>
    rcases h with ⟨i, -, rfl⟩ | ⟨rfl, i, -, -, rfl⟩
    · exact ⟨.inl rfl, rfl⟩
    · exact ⟨.inl rfl, rfl⟩
  | cl => obtain rfl := h; exact ⟨.inl rfl, rfl⟩
  | zmm => obtain ⟨i, rfl⟩ := h; exact ⟨.inl rfl, rfl⟩
  | mem n => obtain ⟨a, rfl, ha⟩ := h; exact ⟨⟨n, ha.strip.symm ▸ ha⟩, .inl (by rw [ha.o]; rfl)⟩
  | _ => obtain ⟨i, -, rfl⟩ := h; exact ⟨.inl rfl, rfl⟩

theorem OpKind.Is.wrep {c : OpKind} {o : Operand} (h : c.Is o) : ∃ p ∈ c.wreps, OpWeak p o := by
  cases c with
  | gp n =>
    rcases h with ⟨i, hi, rfl⟩ | ⟨rfl, i, h1, h2, rfl⟩
    · exact ⟨_, List.mem_singleton.2 rfl, rfl, rfl, rfl, (bit4_lt i hi).symm⟩
    · exact ⟨_, List.mem_singleton.2 rfl, rfl, rfl, rfl, (bit4_lt8 i h2).symm⟩
  | mm => obtain ⟨i, hi, rfl⟩ := h; exact ⟨_, List.mem_singleton.2 rfl, rfl, rfl, rfl, (bit4_lt8 i hi).symm⟩
  | bnd => obtain ⟨i, hi, rfl⟩ := h; exact ⟨_, List.mem_singleton.2 rfl, rfl, rfl, rfl, (bit4_lt4 i hi).symm⟩
  | cl => obtain rfl := h; exact ⟨_, List.mem_singleton.2 rfl, OpWeak.refl _⟩
  | xmm x =>
    obtain ⟨i, hi, rfl⟩ := h
    cases x
    · exact ⟨.reg (.xmm 0), by simp [wreps], rfl, rfl, rfl, (bit4_lt i (hi rfl)).symm⟩
    · rcases bit4 i with h | h
      · exact ⟨.reg (.xmm 0), by simp [wreps], rfl, rfl, rfl, h.symm⟩
      · exact ⟨.reg (.xmm 16), by simp [wreps], rfl, rfl, rfl, h.symm⟩
  | ymm x =>
    obtain ⟨i, hi, rfl⟩ := h
    cases x
    · exact ⟨.reg (.ymm 0), by simp [wreps], rfl, rfl, rfl, (bit4_lt i (hi rfl)).symm⟩
    · rcases bit4 i with h | h
      · exact ⟨.reg (.ymm 0), by simp [wreps], rfl, rfl, rfl, h.symm⟩
      · exact ⟨.reg (.ymm 16), by simp [wreps], rfl, rfl, rfl, h.symm⟩
  | zmm =>
    obtain ⟨i, rfl⟩ := h
    rcases bit4 i with h | h
    · exact ⟨.reg (.zmm 0), by simp [wreps], rfl, rfl, rfl, h.symm⟩
    · exact ⟨.reg (.zmm 16), by simp [wreps], rfl, rfl, rfl, h.symm⟩
  | k => obtain ⟨i, hi, rfl⟩ := h; exact ⟨_, List.mem_singleton.2 rfl, rfl, rfl, rfl, (bit4_lt8 i hi).symm⟩
  | st => obtain ⟨i, hi, rfl⟩ := h; exact ⟨_, List.mem_singleton.2 rfl, rfl, rfl, rfl, (bit4_lt8 i hi).symm⟩
  | mem n =>
    obtain ⟨a, rfl, ha⟩ := h
    refine ⟨_, List.mem_singleton.2 rfl, ?_⟩
    show Reg.Weak _ a.o ∧ _ = a.broadcast
    rw [ha.o, ha.bcast]; exact ⟨Reg.Weak.refl _, rfl⟩

theorem allAre_wreps : ∀ (ks : List OpKind) (os : List Operand), OpKind.AllAre ks os →
    ∃ ps ∈ prod (ks.map OpKind.wreps), ps.length = os.length ∧ ∀ i : Nat, OptWeak ps[i]? os[i]?
  | [], [], _ => ⟨[], List.mem_singleton.2 rfl, rfl, fun i => by simp [OptWeak]⟩
  | [], _ :: _, h => h.elim
  | _ :: _, [], h => h.elim
  | c :: ks, o :: os, ⟨h, hs⟩ => by
    obtain ⟨p, hp, hl⟩ := h.wrep
    obtain ⟨ps, hps, h1, h2⟩ := allAre_wreps ks os hs
    refine ⟨p :: ps, List.mem_flatMap.2 ⟨p, hp, List.mem_map_of_mem hps⟩, by simp [h1], fun i => ?_⟩
    cases i with
    | zero => simpa [OptWeak] using hl
    | succ i => simpa using h2 i

theorem allAre_plain (m : BitVec 3) : ∀ (ks : List OpKind) (os : List Operand), OpKind.AllAre ks os → ∀ (i : Nat) (o : Operand), os[i]? = some o → o.Plain m
  | [], [], _ => fun i o h => by simp at h
  | [], _ :: _, h => h.elim
  | _ :: _, [], h => h.elim
  | c :: ks, o :: os, ⟨h, hs⟩ => fun i q hq => by
    cases i with
    | zero => cases hq; exact h.plain m
    | succ i => exact allAre_plain m ks os hs i q (by simpa using hq)

theorem Param.takes_weak {p : Param} {o q : Operand} (h : OpWeak o q) : p.takes o = p.takes q := by
  cases p <;> simp only [Param.takes, h.isMEM, h.isREG, h.hd.isMMX, h.hd.isSIMD, h.hd.isYMM, h.hd.isZMM, h.hd.isTMM, h.hd.isOPMASK, h.hd.isBNDREG, h.hd.kind]

/-- What the evaluator accepts on representatives is accepted on all operands of the kinds. -/
theorem Entry.qaccepts_calls {e : Entry} (he : e ∈ all) {g g' : Args} (h : e.qaccepts g = true) (hw : g.Weak g') (hl : g.ops.length = g'.ops.length) {m : BitVec 3} (hp : g'.Plain m) :
    ∃ w, Calls e g' w := by
  unfold Entry.qaccepts at h
  simp only [Bool.and_eq_true, Bool.not_eq_true', decide_eq_true_eq] at h
  obtain ⟨⟨⟨h0, h1⟩, h2⟩, h3⟩ := h
  cases hq : e.body.quick g with
  | none => rw [hq] at h3; cases h3
  | some b =>
    rw [hq] at h3
    obtain rfl : b = true := h3
    rw [Body.quick_weak hw e.body (all_wresp he h0)] at hq
    obtain ⟨x, hm, hr⟩ := Body.quick_ok hp hq
    refine ⟨x.acts, he, ⟨hl ▸ h1.1, hl ▸ h1.2, fun i p o hp ho => ?_⟩, x, hm, rfl, ?_⟩
    · have := hw.ops i
      rw [ho] at this
      cases ho' : g.ops[i]? with
      | none => rw [ho'] at this; exact this.elim
      | some q =>
        rw [ho'] at this
        rw [← Param.takes_weak (p := p) (show OpWeak q o from this)]
        exact List.all_eq_true.mp h2 (p, q) (by rw [List.mem_iff_getElem?]; exact ⟨i, by rw [List.getElem?_zip_eq_some]; exact ⟨hp, ho'⟩⟩)
    · unfold isOk at hr
      split at hr
      · assumption
      · cases hr

theorem Entry.encs_of {e : Entry} {c : PrefEnc} (h : c ∈ e.encs) : c = .default ∨ .enc ∈ e.params := by
  unfold Entry.encs at h
  split at h
  · rename_i hx
    obtain ⟨p, hp, hx⟩ := List.any_eq_true.1 hx
    cases p <;> first | exact .inr hp | cases hx
  · exact .inl (List.mem_singleton.1 h)

theorem qcovers_calls {es : List Entry} (hes : ∀ e ∈ es, e ∈ all) {n : Nat} {ks : List OpKind} (h : qcovers es n ks = true)
    {os : List Operand} (hk : OpKind.AllAre ks os) (ints : List Word) :
    ∃ e ∈ es, ∃ c w, (c = .default ∨ .enc ∈ e.params) ∧ e.nInts = n ∧ Calls e { ops := os, ints := ints, enc := c } w := by
  obtain ⟨ps, hp, hl, ha⟩ := allAre_wreps ks os hk
  obtain ⟨e, he, h⟩ := List.any_eq_true.1 (List.all_eq_true.1 h ps hp)
  rw [Bool.and_eq_true] at h
  obtain ⟨c, hc, h2⟩ := List.any_eq_true.1 h.2
  obtain ⟨w, hw⟩ := Entry.qaccepts_calls (hes e he) h2 (g' := { ops := os, ints := ints, enc := c }) ⟨ha, rfl, rfl⟩ hl (fun i => by
    show (Args.op _ i).Plain 0
    unfold Args.op
    cases ho : os[i]? with
    | none => exact ⟨.inl rfl, rfl⟩
    | some o => exact allAre_plain 0 ks os hk i o ho)
  exact ⟨e, he, c, w, Entry.encs_of hc, Nat.eq_of_beq_eq_true h.1, hw⟩

/-- The functions whose names have remainder `k`. -/
def bucket (k : Nat) : List Entry := tabs.flatMap fun t => t.filter fun e => Nat.beq (e.name % 61) k

/-- The functions by remainder (for fast lookup in the kernel). -/
def buckets : List (List Entry) :=
  [bucket 0, bucket 1, bucket 2, bucket 3, bucket 4, bucket 5, bucket 6, bucket 7, bucket 8, bucket 9, bucket 10, bucket 11, bucket 12, bucket 13, bucket
   14, bucket 15, bucket 16, bucket 17, bucket 18, bucket 19, bucket 20, bucket 21, bucket 22, bucket 23, bucket 24, bucket 25, bucket 26, bucket 27,
   bucket 28, bucket 29, bucket 30, bucket 31, bucket 32, bucket 33, bucket 34, bucket 35, bucket 36, bucket 37, bucket 38, bucket 39, bucket 40, bucket
   41, bucket 42, bucket 43, bucket 44, bucket 45, bucket 46, bucket 47, bucket 48, bucket 49, bucket 50, bucket 51, bucket 52, bucket 53, bucket 54,
   bucket 55, bucket 56, bucket 57, bucket 58, bucket 59, bucket 60]

/-- The functions with a name. -/
def namedT (n : Nat) : List Entry := (buckets.getD (n % 61) []).filter fun e => Nat.beq e.name n

theorem buckets_mem : ∀ l ∈ buckets, ∃ k, l = bucket k := by
  intro l hl
  simp only [buckets, List.mem_cons, List.not_mem_nil, or_false] at hl
  repeat' first | (rcases hl with rfl | hl; exact ⟨_, rfl⟩) | exact ⟨_, hl⟩

theorem of_namedT {n : Nat} : ∀ e ∈ namedT n, e ∈ all ∧ e.name = n := by
  intro e h
  obtain ⟨h1, h2⟩ := List.mem_filter.1 h
  refine ⟨?_, Nat.eq_of_beq_eq_true h2⟩
  rw [List.getD_eq_getElem?_getD] at h1
  cases hb : buckets[n % 61]? with
  | none => rw [hb] at h1; cases h1
  | some l =>
    rw [hb] at h1
    obtain ⟨k, rfl⟩ := buckets_mem l (List.mem_of_getElem? hb)
    obtain ⟨t, ht, h⟩ := List.mem_flatMap.1 h1
    exact mem_tabs ht (List.mem_filter.1 h).1

/-- Lines of the manual the library refuses: SM4 with 256 and 512 bits, and the 64-bit register of `vextractps`. -/
def vrefused (n : Nat) (f : VForm) (vl : Nat) : Bool :=
  ((Nat.beq n n!"vsm4key4" || Nat.beq n n!"vsm4rnds4") && !Nat.beq vl 128) || (Nat.beq n n!"vextractps" && decide (f.ops = [.r 64, .w 128]))

/-- The names whose functions the evaluator does not know. -/
def vslow (n : Nat) : Bool := Nat.beq n n!"kmovb" || Nat.beq n n!"kmovw" || Nat.beq n n!"kmovd" || Nat.beq n n!"kmovq"

/-- No operand is a byte register. -/
def noByte (ks : List OpKind) : Bool := ks.all fun c => match c with | .gp n => Nat.beq (n &&& 8) 0 | .cl => false | _ => true

def vcheck (n : Nat) (fs : List VForm) : Bool :=
  let es := namedT n
  fs.all fun f => f.lens.all fun vl => vrefused n f vl || (choose (f.ops.map (vkinds f.evex vl))).all fun ks =>
    if vslow n then noByte ks && (covers es f.ints false ks || covers es f.ints true ks) else qcovers es f.ints ks

theorem noByte_clash {ks : List OpKind} {os : List Operand} (h : noByte ks = true) (hk : OpKind.AllAre ks os) : clash os = false := by
  have : ∀ (ks : List OpKind) (os : List Operand), noByte ks = true → OpKind.AllAre ks os → ∀ o ∈ os, (o.hd.isHigh8bit && !o.isMEM) = false := by
    intro ks
    induction ks with
    | nil =>
      intro os _ hk o ho
      cases os with
      | nil => cases ho
      | cons => exact hk.elim
    | cons c cs ih =>
      intro os h hk o ho
      cases os with
      | nil => cases ho
      | cons q qs =>
        rw [noByte, List.all_cons, Bool.and_eq_true] at h
        rcases List.mem_cons.1 ho with rfl | ho
        · have h1 := hk.1
          have h0 := h.1
          cases c with
          | gp n =>
            rcases h1 with ⟨i, -, rfl⟩ | ⟨rfl, i, -, -, rfl⟩
            · have h2 : n &&& 8 = 0 := Nat.eq_of_beq_eq_true h0
              simp [Operand.hd, Reg.isHigh8bit, Reg.isBit, Reg.gp, h2]
            · cases h0
          | cl => cases h0
          | zmm => obtain ⟨i, rfl⟩ := h1; simp [Operand.hd, Reg.isHigh8bit, Reg.isBit, Reg.zmm]
          | mem n => obtain ⟨a, rfl, -⟩ := h1; simp [Operand.isMEM]
          | _ => obtain ⟨i, -, rfl⟩ := h1; simp [Operand.hd, Reg.isHigh8bit, Reg.isBit, Reg.mm, Reg.bnd, Reg.xmm, Reg.ymm, Reg.opmask, Reg.st]
        · exact ih qs h.2 hk.2 o ho
  unfold clash
  rw [List.any_eq_false]
  intro o ho
  rw [this ks os h hk o ho]; simp

end Mn
end Xbyak
