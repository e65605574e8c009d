import Verif.Errors
/-!
# Error messages (C59), first error (C57), no-exception buffers (C62)
-/
namespace Xbyak

/-- The message that belongs to an error code. -/
def Err.says : Err → String
  | .BAD_ADDRESSING => "bad addressing"
  | .CODE_IS_TOO_BIG => "code is too big"
  | .BAD_SCALE => "bad scale"
  | .ESP_CANT_BE_INDEX => "esp can't be index"
  | .BAD_COMBINATION => "bad combination"
  | .BAD_SIZE_OF_REGISTER => "bad size of register"
  | .IMM_IS_TOO_BIG => "imm is too big"
  | .BAD_ALIGN => "bad align"
  | .LABEL_IS_REDEFINED => "label is redefined"
  | .LABEL_IS_TOO_FAR => "label is too far"
  | .LABEL_IS_NOT_FOUND => "label is not found"
  | .CODE_ISNOT_COPYABLE => "code is not copyable"
  | .BAD_PARAMETER => "bad parameter"
  | .CANT_PROTECT => "can't protect"
  | .CANT_USE_64BIT_DISP => "can't use 64bit disp(use (void*))"
  | .OFFSET_IS_TOO_BIG => "offset is too big"
  | .MEM_SIZE_IS_NOT_SPECIFIED => "MEM size is not specified"
  | .BAD_MEM_SIZE => "bad mem size"
  | .BAD_ST_COMBINATION => "bad st combination"
  | .OVER_LOCAL_LABEL => "over local label"
  | .UNDER_LOCAL_LABEL => "under local label"
  | .CANT_ALLOC => "can't alloc"
  | .ONLY_T_NEAR_IS_SUPPORTED_IN_AUTO_GROW => "T_SHORT is not supported in AutoGrow"
  | .BAD_PROTECT_MODE => "bad protect mode"
  | .BAD_PNUM => "bad pNum"
  | .BAD_TNUM => "bad tNum"
  | .BAD_VSIB_ADDRESSING => "bad vsib addressing"
  | .CANT_CONVERT => "can't convert"
  | .LABEL_ISNOT_SET_BY_L => "label is not set by L()"
  | .LABEL_IS_ALREADY_SET_BY_L => "label is already set by L()"
  | .BAD_LABEL_STR => "bad label string"
  | .MUNMAP => "err munmap"
  | .OPMASK_IS_ALREADY_SET => "opmask is already set"
  | .ROUNDING_IS_ALREADY_SET => "rounding is already set"
  | .K0_IS_INVALID => "k0 is invalid"
  | .EVEX_IS_INVALID => "evex is invalid"
  | .SAE_IS_INVALID => "sae(suppress all exceptions) is invalid"
  | .ER_IS_INVALID => "er(embedded rounding) is invalid"
  | .INVALID_BROADCAST => "invalid broadcast"
  | .INVALID_OPMASK_WITH_MEMORY => "invalid opmask with memory"
  | .INVALID_ZERO => "invalid zero"
  | .INVALID_RIP_IN_AUTO_GROW => "invalid rip in AutoGrow"
  | .INVALID_MIB_ADDRESS => "invalid mib address"
  | .X2APIC_IS_NOT_SUPPORTED => "x2APIC is not supported"
  | .NOT_SUPPORTED => "not supported"
  | .SAME_REGS_ARE_INVALID => "same regs are invalid"
  | .INVALID_NF => "invalid NF"
  | .INVALID_ZU => "invalid ZU"
  | .CANT_USE_REX2 => "can't use rex2"
  | .INVALID_DFV => "invalid dfv"
  | .INVALID_REG_IDX => "invalid reg index"
  | .BAD_ENCODING_MODE => "bad encoding mode"
  | .CANT_USE_ABCDH => "can't use [abcd]h with rex"
  | .INTERNAL => "internal error"

/-- C59: each code gives its own message. -/
theorem c59_message (e : Err) : convertErrorToString e.code = some e.says := by cases e <;> rfl

/-- C59: no nonnegative argument reads outside of the table. -/
theorem c59_total_partial (n : Int) (h : 0 ≤ n) : ∃ s, convertErrorToString n = some s := by
  have hl : errTbl.length = 55 := rfl
  have hc : (Err.code .INTERNAL : Int) = 54 := rfl
  unfold convertErrorToString
  rw [hc]
  split
  · rw [if_neg (by omega)]
    exact ⟨errTbl[n.toNat], List.getElem?_eq_getElem (by omega)⟩
  · exact ⟨_, rfl⟩

/-- C59 fails for negative arguments: the table is read before its start. -/
theorem c59_refuted_negative (n : Int) (h : n < 0) : convertErrorToString n = none := by
  have hc : (Err.code .INTERNAL : Int) = 54 := rfl
  unfold convertErrorToString
  rw [hc, if_pos (by omega), if_pos h]

/-- C59: an exception object never reads outside of the table, whatever it was constructed from, and keeps valid codes. -/
theorem c59_what (n : Int) : (∃ s, errorWhat n = some s) ∧ (∀ e : Err, errorWhat e.code = some e.says) := by
  have hc : (Err.code .INTERNAL : Int) = 54 := rfl
  constructor
  · unfold errorWhat
    apply c59_total_partial
    unfold errorCode
    rw [hc]
    split <;> omega
  · intro e
    rw [← c59_message]
    unfold errorWhat errorCode
    rw [if_neg]
    cases e <;> decide

theorem errTbl_nodup : ("unknown err" :: errTbl).Nodup := by decide +kernel

/-- C59: different codes have different messages. -/
theorem c59_distinct (n m : Int) (hn : 0 ≤ n) (hm : 0 ≤ m) (hn' : n ≤ Err.code .INTERNAL) (h : convertErrorToString n = convertErrorToString m) :
    n = m := by
  have hl : errTbl.length = 55 := rfl
  have hc : (Err.code .INTERNAL : Int) = 54 := rfl
  have hd := List.nodup_cons.1 errTbl_nodup
  unfold convertErrorToString at h
  rw [hc] at h hn'
  rw [if_pos hn', if_neg (by omega)] at h
  split at h
  · rw [if_neg (by omega)] at h
    have := (List.getElem?_inj (by omega) hd.2).1 h
    omega
  · exact absurd (List.mem_of_getElem? h) hd.1

namespace NoEx

/-- The errors raised after the last `ClearError`. -/
def sinceClear : List ErrOp → List Int
  | [] => []
  | .set e :: l => if .clear ∈ l then sinceClear l else e :: sinceClear l
  | .clear :: l => sinceClear l

theorem foldl_run (l : List ErrOp) : ∀ cur : Int, l.foldl ErrOp.run cur =
    if .clear ∉ l ∧ cur ≠ 0 then cur else ((sinceClear l).find? (· ≠ 0)).getD 0 := by
  induction l with
  | nil =>
    intro cur
    by_cases h : cur = 0 <;> simp [h, sinceClear]
  | cons o l ih =>
    intro cur
    rw [List.foldl_cons, ih]
    cases o with
    | clear => simp [sinceClear, ErrOp.run]
    | set e =>
      simp only [sinceClear, List.mem_cons, reduceCtorEq, false_or, ErrOp.run]
      by_cases hc : .clear ∈ l
      · simp [hc]
      · by_cases h : cur = 0
        · by_cases he : e = 0 <;> simp [hc, h, he]
        · simp [hc, h]

/-- C57: for every sequence of calls, `GetError()` is the first error raised since the last `ClearError()` (0 if there was none). -/
theorem c57_first (l : List ErrOp) : getError l = ((sinceClear l).find? (· ≠ 0)).getD 0 := by
  unfold getError
  rw [foldl_run, if_neg (by simp)]

example : getError [.set 3, .clear, .set 0, .set 7, .set 2] = 7 := by decide

/-- `db` calls on a fixed buffer that already holds `p`. -/
theorem dbs_fixed (l : List (Option (List Byte) × Byte)) : ∀ (p q : List Byte) (err : Int),
    dbs l ⟨false, p.length + q.length, p.length, some (p ++ q), err⟩ =
      some ⟨false, p.length + q.length, min (p.length + l.length) (p.length + q.length),
        some (p ++ (l.map (·.2)).take q.length ++ q.drop l.length),
        if err = 0 ∧ l.length > q.length then (Err.code .CODE_IS_TOO_BIG : Int) else err⟩ := by
  induction l with
  | nil => intro p q err; simp [dbs]
  | cons o l ih =>
    intro p q err
    obtain ⟨g, c⟩ := o
    cases q with
    | nil =>
      have e : db g c ⟨false, p.length, p.length, some p, err⟩ =
          some ⟨false, p.length, p.length, some p, if err = 0 then (Err.code .CODE_IS_TOO_BIG : Int) else err⟩ := by
        by_cases h : err = 0 <;> simp [db, Buf.setError, ErrOp.run, h]
      have := ih p [] (if err = 0 then (Err.code .CODE_IS_TOO_BIG : Int) else err)
      simp only [List.length_nil, Nat.add_zero, List.append_nil] at this ⊢
      rw [dbs, e, Option.bind_some, this]
      by_cases h : err = 0 <;> simp [h]
    | cons d q =>
      have e : db g c ⟨false, p.length + (q.length + 1), p.length, some (p ++ d :: q), err⟩ =
          some ⟨false, p.length + (q.length + 1), p.length + 1, some ((p ++ [c]) ++ q), err⟩ := by
        have : ¬ (p.length ≥ p.length + (q.length + 1)) := by omega
        simp [db, this]
      have := ih (p ++ [c]) q err
      simp only [List.length_append, List.length_cons, List.length_nil, Nat.zero_add] at this ⊢
      rw [dbs, e, Option.bind_some, show p.length + (q.length + 1) = p.length + 1 + q.length by omega, this]
      simp only [List.map_cons, List.take_succ_cons, List.drop_succ_cons, List.append_assoc, List.cons_append, List.nil_append, gt_iff_lt,
        Nat.add_lt_add_iff_right]
      rw [show p.length + 1 + l.length = p.length + (l.length + 1) by omega]

/-- C62: with a fixed buffer, a sequence of `db` calls in a no-exception build writes only inside the block; the block then starts with the
bytes that fit, and `ERR_CODE_IS_TOO_BIG` is recorded if some do not. -/
theorem c62_fixed_partial (m : List Byte) (err : Int) (l : List (Option (List Byte) × Byte)) :
    dbs l (construct false m.length (some m) err) = some ⟨false, m.length, min l.length m.length,
      some ((l.map (·.2)).take m.length ++ m.drop l.length),
      if err = 0 ∧ l.length > m.length then (Err.code .CODE_IS_TOO_BIG : Int) else err⟩ := by
  have := dbs_fixed l [] m err
  simp only [List.length_nil, Nat.zero_add, List.nil_append] at this
  rw [← this]
  simp [construct]

/-- The allocator gives a block of the size asked for (xbyak.h 1128: the larger of `DEFAULT_MAX_CODE_SIZE` and `maxSize_ * 2`) whenever it is asked. -/
def Served : List (Option (List Byte) × Byte) → Buf → Prop
  | [], _ => True
  | (g, c) :: l, b => (b.maxSize ≤ b.size → ∃ m, g = some m ∧ m.length = max 4096 (b.maxSize * 2)) ∧ ∀ b', db g c b = some b' → Served l b'

/-- C62: with AutoGrow, as long as no allocation fails, a sequence of `db` calls in a no-exception build writes only inside the current block, which then starts
with what it held followed by the bytes, and no error is recorded. -/
theorem c62_grow_partial (l : List (Option (List Byte) × Byte)) : ∀ (b : Buf) (m : List Byte), b.autoGrow = true → b.top = some m → m.length = b.maxSize →
    b.size ≤ b.maxSize → Served l b →
    ∃ b' m', dbs l b = some b' ∧ b'.top = some m' ∧ m'.length = b'.maxSize ∧ b'.size = b.size + l.length ∧ b'.size ≤ b'.maxSize ∧
      m'.take b'.size = m.take b.size ++ l.map (·.2) ∧ b'.err = b.err := by
  induction l with
  | nil => intro b m _ ht hm hs _; exact ⟨b, m, rfl, ht, hm, rfl, hs, by simp, rfl⟩
  | cons o l ih =>
    intro b m hg ht hm hs hS
    obtain ⟨g, c⟩ := o
    obtain ⟨h1, h2⟩ := hS
    -- one call
    have step : ∃ b' m', db g c b = some b' ∧ b'.autoGrow = true ∧ b'.top = some m' ∧ m'.length = b'.maxSize ∧ b'.size = b.size + 1 ∧ b'.size ≤ b'.maxSize ∧
        m'.take b'.size = m.take b.size ++ [c] ∧ b'.err = b.err := by
      have put : ∀ x : List Byte, b.size < x.length → (x.set b.size c).take (b.size + 1) = x.take b.size ++ [c] := by
        intro x hx
        rw [List.take_add_one, List.take_set_of_le (Nat.le_refl _), List.getElem?_set_self hx]; rfl
      by_cases hlt : b.maxSize ≤ b.size
      · obtain ⟨x, rfl, hx⟩ := h1 hlt
        have e : b.size = b.maxSize := by omega
        have ht' : m.take b.size = m := List.take_of_length_le (by omega)
        have hl : (m ++ x.drop b.size).length = x.length := by
          rw [List.length_append, List.length_drop]; omega
        refine ⟨{ b with top := some ((m ++ x.drop b.size).set b.size c), maxSize := x.length, size := b.size + 1 }, _, ?_, hg, rfl, ?_, rfl, ?_, ?_, rfl⟩
        · unfold db
          simp only [ge_iff_le, hlt, decide_true, hg, Bool.not_true, Bool.and_false, Bool.false_eq_true, if_false, if_true, growMemory, ht, Option.getD_some, ht', hl]
          rw [if_pos (by omega)]
        · rw [List.length_set, hl]
        · show b.size + 1 ≤ x.length; omega
        · show ((m ++ x.drop b.size).set b.size c).take (b.size + 1) = _
          rw [put _ (by omega), List.take_append_of_le_length (by omega)]
      · refine ⟨{ b with top := some (m.set b.size c), size := b.size + 1 }, _, ?_, hg, rfl, ?_, rfl, ?_, put m (by omega), rfl⟩
        · unfold db
          simp only [ge_iff_le, hlt, decide_false, Bool.false_and, Bool.false_eq_true, if_false, ht]
          rw [if_pos (by omega)]
        · rw [List.length_set, hm]
        · show b.size + 1 ≤ b.maxSize; omega
    obtain ⟨b1, m1, e1, g1, t1, l1, s1, s1', c1, r1⟩ := step
    obtain ⟨b2, m2, e2, t2, l2, s2, s2', c2, r2⟩ := ih b1 m1 g1 t1 l1 s1' (h2 b1 e1)
    refine ⟨b2, m2, ?_, t2, l2, ?_, s2', ?_, r2.trans r1⟩
    · rw [dbs, e1]; exact e2
    · rw [s2, s1, List.length_cons]; omega
    · rw [c2, c1]; simp

example : Served [(none, 1), (some (List.replicate 4096 0), 2)] (construct true 1 (some [0]) 0) := by
  refine ⟨fun h => absurd h (by decide), fun b' h => ?_⟩
  cases h
  exact ⟨fun _ => ⟨_, rfl, by rw [List.length_replicate]; rfl⟩, fun _ _ => trivial⟩

/-- C62 fails with AutoGrow: when the allocator returns a null pointer, `growMemory` records the error and returns, and `db` goes on to
write behind the end of the old block. -/
theorem c62_refuted_grow : dbs [(none, 0x90), (none, 0x90)] (construct true 1 (some [0]) 0) = none := by decide +kernel

/-- C62 fails after a failed construction: the buffer has a null pointer and a nonzero size, and `db` writes through it. -/
theorem c62_refuted_null (n : Nat) (h : 0 < n) (g : Bool) (c : Byte) : (construct g n none 0).err = (Err.code .CANT_ALLOC : Int) ∧
    dbs [(none, c)] (construct g n none 0) = none := by
  have e : construct g n none 0 = ⟨g, n, 0, none, (Err.code .CANT_ALLOC : Int)⟩ := by
    simp [construct, h, Buf.setError, ErrOp.run]
  rw [e]
  refine ⟨rfl, ?_⟩
  have : ¬ n = 0 := by omega
  simp [dbs, db, this]

example : dbs [(none, 1), (none, 2), (none, 3)] (construct false 2 (some [0, 0]) 0) = some ⟨false, 2, 2, some [1, 2], 2⟩ := by decide +kernel

end NoEx
end Xbyak
