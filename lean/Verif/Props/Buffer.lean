import Verif.CodeArrayLemmas
/-!
# C01-C03, C05-C07: the code buffer

Specification side: directives denote byte strings (`Directive.bytes`, plain arithmetic), independent of the loops
of the implementation.
-/
namespace Xbyak
open CA

/-- Data directives of the public interface (xbyak.h 1190-1212). -/
inductive Directive
  | db (b : Byte)
  | dw (v : BitVec 32)
  | dd (v : BitVec 32)
  | dq (v : Word)
  | dbn (v : Word) (n : Nat)

namespace Directive

/-- Specification: the little-endian bytes of a number. -/
def le (n : Nat) (v : Nat) : List Byte := List.ofFn fun i : Fin n => BitVec.ofNat 8 (v / 256 ^ i.val)

/-- Specification: bytes denoted by a directive. -/
def bytes : Directive → List Byte
  | .db b => [b]
  | .dw v => le 2 v.toNat
  | .dd v => le 4 v.toNat
  | .dq v => le 8 v.toNat
  | .dbn v n => le n v.toNat

/-- the widths accepted by `db(uint64_t, size_t)` -/
def valid : Directive → Prop
  | .dbn _ n => n ≤ 8
  | _ => True

/-- The implementation. -/
def exec (env : Env) : Directive → M CA Unit
  | .db b => CA.db env b
  | .dw v => CA.dw env v
  | .dd v => CA.dd env v
  | .dq v => CA.dq env v
  | .dbn v n => CA.dbN env v n

def execAll (env : Env) : List Directive → M CA Unit
  | [] => pure ()
  | d :: t => do exec env d; execAll env t

theorem leBytes_eq_le (n : Nat) (v : Word) : leBytes n v = le n v.toNat := by
  apply List.ext_getElem
  · simp [le]
  · intro i h1 h2
    simp only [leBytes, le, List.getElem_map, List.getElem_range, List.getElem_ofFn]
    apply BitVec.eq_of_toNat_eq
    simp only [BitVec.toNat_setWidth, BitVec.toNat_ushiftRight, BitVec.toNat_ofNat, Nat.shiftRight_eq_div_pow]
    rw [Nat.pow_mul]

theorem bytes_of_exec (env : Env) (d : Directive) (hv : d.valid) : exec env d = CA.dbs env d.bytes := by
  have key : ∀ (n : Nat) (v : Word), n ≤ 8 → CA.dbN env v n = CA.dbs env (le n v.toNat) := by
    intro n v h
    funext c
    unfold dbN
    rw [M.throwIf_bind, leBytes_eq_le]
    have : ¬ n > 8 := by omega
    simp [this]
  have e32 : ∀ v : BitVec 32, (v.setWidth 64 : Word).toNat = v.toNat := by
    intro v
    simp only [BitVec.toNat_setWidth]
    have := v.isLt
    omega
  cases d with
  | db b =>
    funext c
    simp only [exec, bytes, dbs]
    rw [M.bind_run]
    cases CA.db env b c <;> rfl
  | dw v => simp only [exec, bytes, CA.dw]; rw [key _ _ (by omega), e32]
  | dd v => simp only [exec, bytes, CA.dd]; rw [key _ _ (by omega), e32]
  | dq v => simp only [exec, bytes, CA.dq]; rw [key _ _ (by omega)]
  | dbn v n => simp only [exec, bytes]; exact key _ _ hv

theorem dbs_append (env : Env) (a b : List Byte) :
    CA.dbs env (a ++ b) = (CA.dbs env a >>= fun _ => CA.dbs env b) := by
  induction a with
  | nil => rfl
  | cons x t ih =>
    simp only [List.cons_append, dbs]
    rw [ih, M.bind_assoc']

theorem execAll_eq (env : Env) (ds : List Directive) (hv : ∀ d ∈ ds, d.valid) :
    execAll env ds = CA.dbs env (ds.flatMap bytes) := by
  induction ds with
  | nil => rfl
  | cons d t ih =>
    simp only [execAll, List.flatMap_cons]
    rw [bytes_of_exec env d (hv d (by simp)), ih (fun d hd => hv d (by simp [hd])), dbs_append]

end Directive

open Directive

/-- Exact behaviour of emission on a fixed buffer. -/
theorem dbs_fixed (env : Env) (bs : List Byte) {c : CA} (h : c.Wf) (ht : c.ty ≠ .autoGrow) :
    dbs env bs c =
      if c.size + bs.length ≤ c.maxSize then
        .ok () { c with mem := patch c.mem c.size bs, size := c.size + bs.length }
      else
        .err .CODE_IS_TOO_BIG
          { c with mem := patch c.mem c.size (bs.take (c.maxSize - c.size)), size := c.maxSize } := by
  induction bs generalizing c with
  | nil =>
    have := h.size_le
    simp [dbs, patch, this]
  | cons b t ih =>
    have h1 := h.size_le
    have h2 := h.max_le
    unfold dbs
    rw [M.bind_run]
    unfold CA.db
    by_cases hf : c.size ≥ c.maxSize
    · have e : c.maxSize - c.size = 0 := by omega
      have e' : c.maxSize = c.size := by omega
      have : ¬ c.size + (t.length + 1) ≤ c.maxSize := by omega
      have ec : c = { c with mem := patch c.mem c.size [], size := c.maxSize } := by
        cases c; simp_all [patch]
      rw [if_pos hf, if_neg ht, if_neg (show ¬ c.size + (b :: t).length ≤ c.maxSize from this), e]
      rw [M.throw_bind]
      simp only [List.take_zero]
      rw [← ec]
    · simp only [hf, if_false]
      rw [M.get_bind]
      have hl : c.size < c.mem.length := by omega
      simp only [hl, if_true, M.set_run]
      have hw : CA.Wf { c with mem := c.mem.set c.size b, size := c.size + 1 } :=
        ⟨by simp only; omega, by simp only [List.length_set]; exact h2, h.lt⟩
      rw [ih hw ht]
      simp only [List.length_cons]
      have hp : ∀ u : List Byte, patch (c.mem.set c.size b) (c.size + 1) u = patch c.mem c.size (b :: u) := by
        intro u
        unfold patch
        rw [List.take_set, List.drop_set]
        simp only [List.length_cons]
        have : ¬ c.size + 1 + u.length ≤ c.size := by omega
        rw [if_pos (by omega)]
        rw [show c.size + (u.length + 1) = c.size + 1 + u.length by omega]
        congr 1
        rw [List.take_add_one, List.getElem?_eq_getElem hl]
        rw [List.set_append_right _ _ (by rw [List.length_take]; omega)]
        have e0 : c.size - (List.take c.size c.mem).length = 0 := by rw [List.length_take]; omega
        rw [e0]
        simp
      have e1 : c.size + 1 + t.length = c.size + (t.length + 1) := by omega
      rw [e1]
      split
      · rw [hp]
      · have e2 : c.maxSize - c.size = (c.maxSize - (c.size + 1)) + 1 := by omega
        rw [hp, e2, List.take_succ_cons]

/-- C01 (fixed buffers): a successful directive sequence appends exactly the denoted bytes, the size grows by
their number, and no other byte of the whole block changes. -/
theorem c01_data_directives (env : Env) (ds : List Directive) (hv : ∀ d ∈ ds, d.valid) (c c' : CA)
    (h : c.Wf) (ht : c.ty ≠ .autoGrow) (hr : execAll env ds c = .ok () c') :
    c'.size = c.size + (ds.flatMap bytes).length ∧
    (∀ i, i < (ds.flatMap bytes).length → c'.mem[c.size + i]? = (ds.flatMap bytes)[i]?) ∧
    (∀ i, i < c.size ∨ c'.size ≤ i → c'.mem[i]? = c.mem[i]?) ∧
    c'.mem.length = c.mem.length ∧ c'.top = c.top ∧ c'.maxSize = c.maxSize := by
  have h1 := h.size_le
  have h2 := h.max_le
  rw [execAll_eq env ds hv, dbs_fixed env _ h ht] at hr
  generalize hb : ds.flatMap bytes = bs at hr ⊢
  split at hr
  · rename_i hle
    injection hr with _ hr
    subst hr
    refine ⟨rfl, ?_, ?_, ?_, rfl, rfl⟩
    · intro i hi
      simp only [patch, List.append_assoc]
      rw [List.getElem?_append_right (by rw [List.length_take]; omega)]
      rw [List.getElem?_append_left (by rw [List.length_take]; omega)]
      congr 1
      rw [List.length_take]; omega
    · intro i hi
      simp only [patch, List.append_assoc]
      rcases hi with hi | hi
      · rw [List.getElem?_append_left (by rw [List.length_take]; omega), List.getElem?_take_of_lt hi]
      · simp only at hi
        rw [List.getElem?_append_right (by rw [List.length_take]; omega)]
        rw [List.getElem?_append_right (by rw [List.length_take]; omega)]
        rw [List.getElem?_drop]
        congr 1
        rw [List.length_take]; omega
    · simp only [patch, List.length_append, List.length_take, List.length_drop]; omega
  · cases hr

/-- C02: on a fixed buffer emission succeeds exactly when the bytes fit; otherwise the error is
`CODE_IS_TOO_BIG`, the prefix that fits is stored and nothing else changes.  In no case is anything written
outside of the block (`ub` would be the result). -/
theorem c02_fixed_never_overrun (env : Env) (ds : List Directive) (hv : ∀ d ∈ ds, d.valid) (c : CA)
    (h : c.Wf) (ht : c.ty ≠ .autoGrow) :
    let bs := ds.flatMap bytes
    (c.size + bs.length ≤ c.maxSize →
      ∃ c', execAll env ds c = .ok () c' ∧ c'.size = c.size + bs.length ∧ c'.code = c.code ++ bs) ∧
    (c.maxSize < c.size + bs.length →
      ∃ c', execAll env ds c = .err .CODE_IS_TOO_BIG c' ∧ c'.size = c.maxSize ∧
        c'.code = c.code ++ bs.take (c.maxSize - c.size) ∧
        ∀ i, c.maxSize ≤ i → c'.mem[i]? = c.mem[i]?) := by
  have h1 := h.size_le
  have h2 := h.max_le
  intro bs
  rw [execAll_eq env ds hv, dbs_fixed env _ h ht]
  have hcode : ∀ (u : List Byte), c.size + u.length ≤ c.maxSize →
      (patch c.mem c.size u).take (c.size + u.length) = c.mem.take c.size ++ u := by
    intro u hu
    unfold patch
    rw [List.take_append_of_le_length (by simp only [List.length_append, List.length_take]; omega)]
    rw [List.take_of_length_le (by simp only [List.length_append, List.length_take]; omega)]
  constructor
  · intro hle
    simp only [bs] at hle
    simp only [hle, if_true]
    exact ⟨_, rfl, rfl, hcode _ hle⟩
  · intro hlt
    simp only [bs] at hlt
    have : ¬ c.size + (ds.flatMap bytes).length ≤ c.maxSize := by omega
    simp only [this, if_false]
    refine ⟨_, rfl, rfl, ?_, ?_⟩
    · have hl : ((ds.flatMap bytes).take (c.maxSize - c.size)).length = c.maxSize - c.size := by
        rw [List.length_take]; omega
      have := hcode ((ds.flatMap bytes).take (c.maxSize - c.size)) (by omega)
      rw [hl] at this
      simp only [CA.code, bs]
      rw [← this]
      congr 1
      omega
    · intro i hi
      simp only [patch, List.append_assoc]
      rw [List.getElem?_append_right (by rw [List.length_take]; omega)]
      rw [List.getElem?_append_right (by simp only [List.length_take]; omega)]
      rw [List.getElem?_drop]
      congr 1
      simp only [List.length_take]; omega

/-- A concrete case: a 4-byte user buffer holding one byte accepts `dw` and then refuses `dd` after one byte. -/
example :
    let env : Env := ⟨fun _ _ => .fail, fun _ => true, true, 4096, fun _ _ => 0⟩
    let c : CA := { initUser 4 0x1000 [1, 2, 3, 4, 5] with size := 1 }
    c.Wf ∧ (execAll env [.dw 0x1234] c).isOk = true ∧
      (execAll env [.dw 0x1234, .dd 7] c).errCode = some .CODE_IS_TOO_BIG := by
  refine ⟨⟨by decide, by decide, by decide⟩, by decide, by decide⟩

/-- C03: in AutoGrow mode a successful directive sequence yields the previous code followed by the denoted
bytes, whatever addresses and contents the allocator returned and whenever growth happened. -/
theorem c03_autogrow_transparent (env : Env) (he : env.Sane) (ds : List Directive) (hv : ∀ d ∈ ds, d.valid)
    (c c' : CA) (h : c.Wf) (hr : execAll env ds c = .ok () c') :
    c'.code = c.code ++ ds.flatMap bytes ∧ c'.size = c.size + (ds.flatMap bytes).length ∧ c'.Wf := by
  rw [execAll_eq env ds hv] at hr
  have := dbs_sat env he (ds.flatMap bytes) h
  rw [hr] at this
  exact ⟨this.code, this.size, this.wf⟩

/-- C03, progress: if the allocator never fails, an AutoGrow buffer accepts every directive sequence.  (`n` bounds
the number of growth steps only through `Env.Sane`-compatibility: sizes below 2^62.) -/
theorem c03_autogrow_progress (env : Env)
    (hok : ∀ k n, n < 2 ^ 63 → ∃ a j, env.alloc k n = .ok a j) (he : env.Sane)
    (bs : List Byte) (c : CA) (h : c.Wf) (ht : c.ty = .autoGrow) (hsz : c.size + bs.length < 2 ^ 62)
    (hmax : c.maxSize < 2 ^ 63) :
    ∃ c', dbs env bs c = .ok () c' := by
  induction bs generalizing c with
  | nil => exact ⟨c, rfl⟩
  | cons b t ih =>
    have h1 := h.size_le
    have h2 := h.max_le
    simp only [List.length_cons] at hsz
    unfold dbs
    rw [M.bind_run]
    have hs := db_sat env he h b
    cases hd : CA.db env b c with
    | ok _ c' =>
      rw [hd] at hs
      simp only [Res.Sat] at hs
      simp only
      refine ih c' hs.wf (hs.ty.trans ht) ?_ (hs.wf.lt (hs.ty.trans ht))
      have := hs.size
      simp at this
      omega
    | ub u => rw [hd] at hs; exact hs.elim
    | err e c' =>
      exfalso
      unfold CA.db at hd
      by_cases hf : c.size ≥ c.maxSize
      · simp only [hf, if_true, ht] at hd
        rw [M.bind_run] at hd
        have e : c.maxSize * 2 % 2 ^ 64 = c.maxSize * 2 := Nat.mod_eq_of_lt (by omega)
        obtain ⟨a, j, haj⟩ := hok c.nAlloc (Max.max 4096 (c.maxSize * 2)) (by omega)
        have hg := growMemory_sat env he h ht
        cases hg' : growMemory env c with
        | ok _ c1 =>
          rw [hg'] at hd hg
          simp only [Res.Sat] at hg
          simp only at hd
          rw [M.get_bind] at hd
          have := hg.1.wf.max_le
          have := hg.1.size
          simp only [List.length_nil] at this
          have hl : c1.size < c1.mem.length := by omega
          simp [hl] at hd
        | err e' c1 =>
          unfold growMemory at hg'
          simp only [e, DEFAULT_MAX_CODE_SIZE, haj] at hg'
          split at hg' <;> cases hg'
        | ub u => rw [hg'] at hd; simp at hd
      · simp only [hf, if_false] at hd
        rw [M.get_bind] at hd
        have hl : c.size < c.mem.length := by omega
        simp [hl] at hd

/-- A concrete growth: an AutoGrow buffer of capacity 1, allocator returning junk, still holds the emitted bytes. -/
example :
    let env : Env := ⟨fun k n => if n < 2 ^ 63 then .ok (BitVec.ofNat 64 (4096 * (k + 1))) (fun _ => 0xCC) else .fail,
      fun _ => true, true, 4096, fun _ _ => 0⟩
    let c : CA := ⟨.autoGrow, 1, 0x1000, [0xAA], 0, [], false, 0, 0⟩
    c.Wf ∧ env.Sane ∧ (execAll env [.db 1] c).isOk = true := by
  refine ⟨⟨by decide, by decide, by decide⟩, ?_, by decide⟩
  intro k n a j hh
  simp only at hh
  split at hh
  · assumption
  · cases hh

/-- C05: a failing growth reports `CANT_ALLOC` and leaves address, capacity, size, contents and pending
writes untouched (only the ghost counter of allocator calls moves). -/
theorem c05_alloc_failure_loses_nothing (env : Env) (b : Byte) (c : CA) (ht : c.ty = .autoGrow)
    (hfull : c.maxSize ≤ c.size)
    (hfail : env.alloc c.nAlloc (max 4096 (c.maxSize * 2 % 2 ^ 64)) = .fail) :
    CA.db env b c = .err .CANT_ALLOC { c with nAlloc := c.nAlloc + 1 } := by
  unfold CA.db
  have : c.size ≥ c.maxSize := hfull
  rw [if_pos this, if_pos ht, M.bind_run]
  unfold growMemory
  simp only [DEFAULT_MAX_CODE_SIZE, hfail]

/-- C05 for whole directive sequences: an error during emission in any mode keeps the code emitted before,
extended by a prefix of the requested bytes, and the pending writes. -/
theorem c05_failed_emission_keeps_code (env : Env) (he : env.Sane) (ds : List Directive)
    (hv : ∀ d ∈ ds, d.valid) (c c' : CA) (e : Err) (h : c.Wf) (hr : execAll env ds c = .err e c') :
    ∃ p, p <+: ds.flatMap bytes ∧ c'.code = c.code ++ p ∧ c'.size = c.size + p.length ∧
      c'.addrInfo = c.addrInfo ∧ c'.Wf := by
  rw [execAll_eq env ds hv] at hr
  have := dbs_sat env he (ds.flatMap bytes) h
  rw [hr] at this
  obtain ⟨p, hp, hc⟩ := this
  exact ⟨p, hp, hc.code, hc.size, hc.info, hc.wf⟩

example :
    let env : Env := ⟨fun _ _ => .fail, fun _ => true, true, 4096, fun _ _ => 0⟩
    let c : CA := ⟨.autoGrow, 1, 0x1000, [0xAA], 1, [], false, 3, 0⟩
    c.ty = .autoGrow ∧ (CA.db env 5 c).errCode = some .CANT_ALLOC := by decide

/-- C06: `rewrite` with a supported width stores exactly the little-endian value and changes nothing else. -/
theorem c06_rewrite_exact (c : CA) (off n : Nat) (v : Word) (hn : n = 1 ∨ n = 2 ∨ n = 4 ∨ n = 8)
    (hin : off + n ≤ c.mem.length) :
    ∃ c', rewrite off v n c = .ok () c' ∧
      (∀ i, i < n → c'.mem[off + i]? = some (BitVec.ofNat 8 (v.toNat / 256 ^ i))) ∧
      (∀ i, i < off ∨ off + n ≤ i → c'.mem[i]? = c.mem[i]?) ∧
      c' = { c with mem := c'.mem } ∧ c'.mem.length = c.mem.length := by
  have hne : ¬ (n ≠ 1 ∧ n ≠ 2 ∧ n ≠ 4 ∧ n ≠ 8) := by omega
  unfold rewrite
  simp only [hne, if_false, hin, if_true]
  have hlen : (leBytes n v).length = n := leBytes_length n v
  refine ⟨_, rfl, ?_, ?_, rfl, ?_⟩
  · intro i hi
    simp only [patch, List.append_assoc]
    rw [List.getElem?_append_right (by rw [List.length_take]; omega)]
    rw [List.getElem?_append_left (by rw [List.length_take, hlen]; omega)]
    have : off + i - (List.take off c.mem).length = i := by rw [List.length_take]; omega
    rw [this, leBytes_eq_le, List.getElem?_eq_getElem (by simpa [Directive.le] using hi)]
    simp [Directive.le]
  · intro i hi
    simp only [patch, List.append_assoc]
    rcases hi with hi | hi
    · rw [List.getElem?_append_left (by rw [List.length_take]; omega), List.getElem?_take_of_lt hi]
    · rw [List.getElem?_append_right (by rw [List.length_take]; omega)]
      rw [List.getElem?_append_right (by rw [List.length_take]; omega)]
      rw [List.getElem?_drop]
      congr 1
      rw [List.length_take]; omega
  · simp only [patch, List.length_append, List.length_take, List.length_drop]; omega

/-- C06: other widths are refused and nothing changes. -/
theorem c06_rewrite_refuses (c : CA) (off n : Nat) (v : Word) (hn : n ≠ 1 ∧ n ≠ 2 ∧ n ≠ 4 ∧ n ≠ 8) :
    rewrite off v n c = .err .BAD_PARAMETER c := by
  unfold rewrite
  simp [hn]

example : (rewrite 1 0x1234 2 (initUser 4 0 [9, 9, 9, 9])).state.map CA.mem = some [9, 0x34, 0x12, 9] := by
  decide

/-- C07: `setSize` succeeds iff the new size is within capacity; the next byte goes to the new position and
no byte has changed. -/
theorem c07_setSize (env : Env) (c : CA) (n : Nat) (h : c.Wf) :
    (n ≤ c.maxSize → ∃ c', setSize n c = .ok () c' ∧ c'.mem = c.mem ∧ c'.size = n ∧
      (∀ b, n < c.maxSize → ∃ c'', CA.db env b c' = .ok () c'' ∧ c''.mem[n]? = some b ∧
        ∀ i, i ≠ n → c''.mem[i]? = c.mem[i]?)) ∧
    (c.maxSize < n → setSize n c = .err .OFFSET_IS_TOO_BIG c) := by
  have h2 := h.max_le
  constructor
  · intro hn
    unfold setSize
    have : ¬ n > c.maxSize := by omega
    simp only [this, if_false]
    refine ⟨_, rfl, rfl, rfl, ?_⟩
    intro b hlt
    unfold CA.db
    have h3 : ¬ n ≥ c.maxSize := by omega
    simp only [h3, if_false]
    rw [M.get_bind]
    have hl : n < c.mem.length := by omega
    simp only [hl, if_true, M.set_run]
    refine ⟨_, rfl, by simp [hl], ?_⟩
    intro i hi
    simp only
    rw [List.getElem?_set_ne (by omega)]
  · intro hn
    unfold setSize
    simp [hn]

example : (setSize 3 (initUser 4 0 [9, 9, 9, 9])).isOk = true ∧
    (setSize 5 (initUser 4 0 [9, 9, 9, 9])).errCode = some .OFFSET_IS_TOO_BIG := by decide

end Xbyak
