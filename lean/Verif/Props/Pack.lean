import Verif.Pack
/-!
# `Pack` (C75)
-/
namespace Xbyak
namespace Pack

/-- The registers of a pack, in order. -/
def P.regs (p : P) : List Reg := (List.range p.n.toNat).map p.tbl
/-- At most 15 registers. -/
def P.WF (p : P) : Prop := p.n.toNat ≤ 15

theorem put_ok (p : P) (i : Word) (r : Reg) (h : i.toNat < 15) : put p i r = .ok { p with tbl := fun j => if j = i.toNat then r else p.tbl j } :=
  if_pos h
theorem at_ok (p : P) (i : Word) (h : i.toNat < 15) : at' p i = .ok (p.tbl i.toNat) := if_pos h

theorem fill_ok (src : List Reg) : ∀ (p : P) (i : Word), i.toNat + src.length ≤ 15 → ∃ q, fill p i src = .ok q ∧ q.n = p.n ∧
    ∀ j, q.tbl j = if i.toNat ≤ j then (src[j - i.toNat]?).getD (p.tbl j) else p.tbl j := by
  induction src with
  | nil => intro p i _; exact ⟨p, rfl, rfl, fun j => by simp⟩
  | cons r t ih =>
    intro p i hi
    rw [List.length_cons] at hi
    unfold fill
    rw [put_ok p i r (by omega)]
    have h1 : (i + 1).toNat = i.toNat + 1 := by simp [BitVec.toNat_add]; omega
    obtain ⟨q, h2, h3, h4⟩ := ih { p with tbl := fun j => if j = i.toNat then r else p.tbl j } (i + 1) (by omega)
    refine ⟨q, h2, h3, fun j => ?_⟩
    rw [h4 j, h1]
    dsimp only
    by_cases c1 : i.toNat + 1 ≤ j
    · rw [if_neg (show ¬ j = i.toNat by omega), if_pos c1, if_pos (show i.toNat ≤ j by omega), show j - i.toNat = (j - (i.toNat + 1)) + 1 by omega, List.getElem?_cons_succ]
    · rw [if_neg c1]
      by_cases c2 : j = i.toNat
      · subst c2; simp
      · rw [if_neg c2, if_neg (by omega)]

theorem map_range_eq {f : Nat → Reg} {l : List Reg} (h : ∀ j, j < l.length → f j = l[j]?.getD (f j)) : (List.range l.length).map f = l := by
  refine List.ext_getElem (by simp) fun j h1 h2 => ?_
  have := h j h2
  simp [List.getElem?_eq_getElem h2] at this ⊢
  exact this

theorem fill_regs (src : List Reg) (p : P) (h : src.length ≤ 15) : ∃ q, fill { p with n := BitVec.ofNat 64 src.length } 0 src = .ok q ∧ q.WF ∧ q.regs = src := by
  obtain ⟨q, h1, h2, h3⟩ := fill_ok src { p with n := BitVec.ofNat 64 src.length } 0 (by simpa using h)
  have h2 : q.n = BitVec.ofNat 64 src.length := h2
  have hn : q.n.toNat = src.length := by rw [h2, BitVec.toNat_ofNat]; omega
  refine ⟨q, h1, by unfold P.WF; omega, ?_⟩
  unfold P.regs
  rw [hn]
  apply map_range_eq
  intro j hj
  have := h3 j
  simp only [show (0 : Word).toNat = 0 from rfl, Nat.zero_le, if_true, Nat.sub_zero] at this
  rw [this, List.getElem?_eq_getElem hj]
  rfl

/-- C75: the constructors: the last argument is element 0. -/
theorem c75_make (args : List Reg) (h : args.length ≤ 12) : ∃ q, make args = .ok q ∧ q.WF ∧ q.regs = args.reverse := by
  have := fill_regs args.reverse empty (by simp; omega)
  rwa [List.length_reverse] at this

/-- C75: `init` takes over exactly the given registers, or refuses more than 15. -/
theorem c75_init (p : P) (src : List Reg) :
    (15 < src.length ∧ init p src = .throw .BAD_PARAMETER) ∨ ∃ q, init p src = .ok q ∧ q.WF ∧ q.regs = src := by
  unfold init maxTblNum
  by_cases h : 15 < src.length
  · exact .inl ⟨h, if_pos h⟩
  · rw [if_neg h]; exact .inr (fill_regs src p (by omega))

/-- C75: `append` adds one register at the end, or refuses if there are 15. -/
theorem c75_append (p : P) (hp : p.WF) (t : Reg) :
    (p.regs.length = 15 ∧ append p t = .throw .BAD_PARAMETER) ∨ ∃ q, append p t = .ok q ∧ q.WF ∧ q.regs = p.regs ++ [t] := by
  unfold P.WF at *
  unfold append
  by_cases h : p.n = 15
  · refine .inl ⟨?_, if_pos h⟩
    unfold P.regs; rw [h]; simp
  · right
    have h' : p.n.toNat ≠ 15 := fun e => h (BitVec.eq_of_toNat_eq e)
    rw [if_neg h, put_ok p p.n t (by omega)]
    have h1 : (p.n + 1).toNat = p.n.toNat + 1 := by simp [BitVec.toNat_add]; omega
    refine ⟨_, rfl, by dsimp only; omega, ?_⟩
    unfold P.regs
    dsimp only
    rw [h1, List.range_succ, List.map_append]
    congr 1
    · refine List.map_congr_left fun j hj => ?_
      rw [List.mem_range] at hj
      rw [if_neg (by omega)]
    · simp

/-- C75: `operator[]` is the element at that index, or refuses. -/
theorem c75_get (p : P) (hp : p.WF) (i : Word) :
    get p i = match p.regs[i.toNat]? with | some r => .ok r | none => .throw .BAD_PARAMETER := by
  unfold P.WF at hp
  unfold get
  by_cases h : p.n ≤ i
  · have h' : p.n.toNat ≤ i.toNat := h
    rw [if_pos h, List.getElem?_eq_none (by unfold P.regs; simpa using h')]
  · have h' : i.toNat < p.n.toNat := by rw [BitVec.le_def] at h; omega
    rw [if_neg h, at_ok p i (by omega)]
    unfold P.regs
    rw [List.getElem?_map, List.getElem?_range h']
    rfl

theorem copy_ok (p : P) (pos : Word) (k : Nat) : ∀ (i : Word) (q : P), pos.toNat + i.toNat + k ≤ 15 → ∃ q', copy p pos i q k = .ok q' ∧ q'.n = q.n ∧
    ∀ j, q'.tbl j = if i.toNat ≤ j ∧ j < i.toNat + k then p.tbl (pos.toNat + j) else q.tbl j := by
  induction k with
  | zero => intro i q _; exact ⟨q, rfl, rfl, fun j => by rw [if_neg (by omega)]⟩
  | succ k ih =>
    intro i q h
    have h0 : (pos + i).toNat = pos.toNat + i.toNat := by simp [BitVec.toNat_add]; omega
    have h1 : (i + 1).toNat = i.toNat + 1 := by simp [BitVec.toNat_add]; omega
    unfold copy
    rw [at_ok p _ (by omega)]
    dsimp only
    rw [put_ok q i _ (by omega)]
    obtain ⟨q', h2, h3, h4⟩ := ih (i + 1) { q with tbl := fun j => if j = i.toNat then p.tbl (pos + i).toNat else q.tbl j } (by omega)
    refine ⟨q', h2, h3, fun j => ?_⟩
    rw [h4 j, h1, h0]
    dsimp only
    by_cases c : j = i.toNat
    · rw [if_neg (by omega), if_pos c, if_pos (by omega), c]
    · by_cases c2 : i.toNat + 1 ≤ j ∧ j < i.toNat + 1 + k
      · rw [if_pos c2, if_pos (by omega)]
      · rw [if_neg c2, if_neg c, if_neg (by omega)]

/-- The registers `pos .. pos + num` of a list. -/
def slice (l : List Reg) (pos num : Nat) : List Reg := (l.drop pos).take num

theorem regs_length (p : P) : p.regs.length = p.n.toNat := by unfold P.regs; simp

theorem copy_slice (p : P) (hp : p.WF) (pos num : Word) (h : pos.toNat + num.toNat ≤ p.n.toNat) :
    ∃ q, copy p pos 0 { empty with n := num } num.toNat = .ok q ∧ q.WF ∧ q.regs = slice p.regs pos.toNat num.toNat := by
  unfold P.WF at *
  obtain ⟨q, h1, h2, h3⟩ := copy_ok p pos num.toNat 0 { empty with n := num } (by simp; omega)
  have h2 : q.n = num := h2
  refine ⟨q, h1, by rw [h2]; omega, ?_⟩
  unfold slice
  have hl : ((p.regs.drop pos.toNat).take num.toNat).length = num.toNat := by
    rw [List.length_take, List.length_drop, regs_length]; omega
  unfold P.regs at hl ⊢
  rw [h2]
  refine List.ext_getElem (by rw [hl]; simp) fun j g1 g2 => ?_
  have hj : j < num.toNat := by rw [hl] at g2; exact g2
  simp
  rw [h3 j, if_pos ⟨by simp, by simpa using hj⟩]

/-- C75: `sub(pos, num)` is the slice, or is refused if it does not lie in the pack.  `h`: `pos + num` does not exceed 64 bits (`c75_refuted_num`). -/
theorem c75_sub_partial (p : P) (hp : p.WF) (pos num : Word) (hn : num ≠ -1) (h : pos.toNat + num.toNat < 2 ^ 64) :
    (p.regs.length < pos.toNat + num.toNat ∧ sub p pos num = .throw .BAD_PARAMETER) ∨
    pos.toNat + num.toNat ≤ p.regs.length ∧ ∃ q, sub p pos num = .ok q ∧ q.WF ∧ q.regs = slice p.regs pos.toNat num.toNat := by
  unfold sub
  dsimp only
  rw [if_neg hn, regs_length]
  have e : (pos + num).toNat = pos.toNat + num.toNat := by rw [BitVec.toNat_add]; omega
  by_cases c : p.n < pos + num
  · rw [if_pos c]
    rw [BitVec.lt_def] at c
    exact .inl ⟨by omega, rfl⟩
  · rw [if_neg c]
    rw [BitVec.lt_def] at c
    exact .inr ⟨by omega, copy_slice p hp pos num (by omega)⟩

/-- C75: `sub(pos)` are the registers from `pos` on.  `h`: `pos` lies in the pack (`c75_refuted_pos`). -/
theorem c75_rest_partial (p : P) (hp : p.WF) (pos : Word) (h : pos.toNat ≤ p.regs.length) :
    ∃ q, sub p pos = .ok q ∧ q.WF ∧ q.regs = p.regs.drop pos.toNat := by
  rw [regs_length] at h
  unfold sub
  dsimp only
  rw [if_pos rfl]
  have e : (p.n - pos).toNat = p.n.toNat - pos.toNat := BitVec.toNat_sub_of_le h
  have e2 : pos + (p.n - pos) = p.n := by rw [BitVec.add_comm, BitVec.sub_add_cancel]
  rw [if_neg (by rw [e2, BitVec.lt_def]; omega)]
  obtain ⟨q, h1, h2, h3⟩ := copy_slice p hp pos (p.n - pos) (by omega)
  refine ⟨q, h1, h2, h3.trans ?_⟩
  unfold slice
  rw [List.take_of_length_le]
  rw [List.length_drop, regs_length]; omega

theorem copy_ub (p : P) (pos : Word) (hp : pos.toNat ≤ 15) (k : Nat) : ∀ (i : Word) (q : P), pos.toNat + i.toNat ≤ 15 → 15 < pos.toNat + i.toNat + k →
    copy p pos i q k = .ub := by
  induction k with
  | zero => intro i q h1 h2; omega
  | succ k ih =>
    intro i q h1 h2
    have h0 : (pos + i).toNat = pos.toNat + i.toNat := by rw [BitVec.toNat_add]; omega
    unfold copy
    by_cases c : pos.toNat + i.toNat = 15
    · have : at' p (pos + i) = .ub := if_neg (by rw [h0, c]; decide)
      rw [this]
    · rw [at_ok p _ (by omega)]
      dsimp only
      rw [put_ok q i _ (by omega)]
      have h3 : (i + 1).toNat = i.toNat + 1 := by simp [BitVec.toNat_add]; omega
      exact ih (i + 1) _ (by omega) (by omega)

theorem copy_wrap (p q : P) (pos num : Word) (h : 2 ^ 64 ≤ pos.toNat + num.toNat) : copy p pos 0 q num.toNat = .ub := by
  by_cases c : pos.toNat ≤ 15
  · exact copy_ub p pos c num.toNat 0 q (by simpa using c) (by simp; omega)
  · have hn : 0 < num.toNat := by have := pos.isLt; omega
    obtain ⟨k, hk⟩ : ∃ k, num.toNat = k + 1 := ⟨num.toNat - 1, by omega⟩
    rw [hk]
    unfold copy
    have : at' p (pos + 0) = .ub := if_neg (by rw [show pos + 0 = pos from by simp]; unfold maxTblNum; omega)
    rw [this]

/-- C75 does not hold in full: `sub(pos)` with `pos` behind the end reads and writes outside the array instead of failing, for every pack. -/
theorem c75_refuted_pos (p : P) (pos : Word) (h : p.regs.length < pos.toNat) : sub p pos = .ub := by
  rw [regs_length] at h
  unfold sub
  dsimp only
  rw [if_pos rfl]
  have e2 : pos + (p.n - pos) = p.n := by rw [BitVec.add_comm, BitVec.sub_add_cancel]
  rw [if_neg (by rw [e2, BitVec.lt_def]; omega)]
  refine copy_wrap p _ pos (p.n - pos) ?_
  rw [BitVec.toNat_sub]
  have := pos.isLt
  have := p.n.isLt
  omega

/-- C75 does not hold in full: if `pos + num` exceeds 64 bits and the rest lies in the pack, `sub(pos, num)` reads outside the array. -/
theorem c75_refuted_num (p : P) (pos num : Word) (hn : num ≠ -1) (h : 2 ^ 64 ≤ pos.toNat + num.toNat)
    (h2 : pos.toNat + num.toNat - 2 ^ 64 ≤ p.regs.length) : sub p pos num = .ub := by
  rw [regs_length] at h2
  unfold sub
  dsimp only
  rw [if_neg hn]
  have e : (pos + num).toNat = pos.toNat + num.toNat - 2 ^ 64 := by
    rw [BitVec.toNat_add]
    have := pos.isLt
    have := num.isLt
    omega
  rw [if_neg (by rw [BitVec.lt_def]; omega)]
  exact copy_wrap p _ pos num h

/-- `Pack(rdx, rcx, rax).sub(1)` is `rcx, rdx`; `sub(4)` is undefined -/
example : ∃ p q, make [.gp 2 64, .gp 1 64, .gp 0 64] = .ok p ∧ sub p 1 = .ok q ∧ q.regs = [.gp 1 64, .gp 2 64] ∧ sub p 4 = .ub :=
  ⟨_, _, rfl, rfl, rfl, c75_refuted_pos _ _ (by decide)⟩

end Pack
end Xbyak
