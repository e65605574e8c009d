import Verif.Props.Jumps
/-! # C25, C26: `align` and `nop` -/
namespace Xbyak
open CA G

/-! ## Specification: what a decoder reads as a no-operation

Intel SDM vol. 2, `NOP`: opcode `90`, or `0F 1F /0` with a memory or register operand given by ModRM, SIB and displacement;
operand-size prefixes `66` may precede.  An instruction has at most 15 bytes. -/

/-- Bytes after the opcode: ModRM, SIB, displacement (Intel SDM vol. 2, table 2-2). -/
def modrmLen (bs : List Byte) : Option Nat :=
  match bs with
  | [] => none
  | m :: t =>
    let md := m.toNat / 64
    let rm := m.toNat % 8
    if md = 3 then some 1
    else
      let sib := if rm = 4 then 1 else 0
      let base := if rm = 4 then (t.headD 0).toNat % 8 else rm
      let disp := if md = 0 then (if base = 5 then 4 else 0) else if md = 1 then 1 else 4
      some (1 + sib + disp)

/-- Length of the NOP instruction at the start of `bs`. -/
def nopLen : List Byte → Option Nat
  | [] => none
  | b :: t =>
    if b = 0x66 then (nopLen t).map (· + 1)
    else if b = 0x90 then some 1
    else if b = 0x0F then
      match t with
      | 0x1F :: m :: r => if m.toNat / 8 % 8 = 0 then (modrmLen (m :: r)).map (· + 2) else none
      | _ => none
    else none

/-- The bytes are a sequence of NOP instructions. -/
inductive Nops : List Byte → Prop
  | nil : Nops []
  | cons {bs : List Byte} {n : Nat} : nopLen bs = some n → n ≤ bs.length → n ≤ 15 → Nops (bs.drop n) → Nops bs

theorem nopLen_tbl : ∀ len ∈ List.range 9, (nopTbl.getD len []).length = len + 1 := by decide

theorem nopBytesMulti_length (n : Nat) : (nopBytesMulti n).length = n := by
  induction n using Nat.strongRecOn with
  | ind n ih =>
    unfold nopBytesMulti
    by_cases h : n = 0
    · rw [dif_pos h]; simp [h]
    · rw [dif_neg h]
      simp only [List.length_append, List.length_take]
      rw [ih (n - min 9 n) (by omega)]
      rw [nopLen_tbl (min 9 n - 1) (by simp; omega)]
      omega

/-- Prepending a table entry. -/
theorem nopLen_entry : ∀ len, len < 9 → ∀ rest : List Byte,
    nopLen ((nopTbl.getD len []).take (len + 1) ++ rest) = some (len + 1) := by
  intro len h rest
  match len, h with
  | 0, _ | 1, _ | 2, _ | 3, _ | 4, _ | 5, _ | 6, _ | 7, _ | 8, _ => simp [nopTbl, nopLen, modrmLen]

theorem nopBytesMulti_nops (n : Nat) : Nops (nopBytesMulti n) := by
  induction n using Nat.strongRecOn with
  | ind n ih =>
    unfold nopBytesMulti
    by_cases h : n = 0
    · rw [dif_pos h]; exact .nil
    · rw [dif_neg h]
      simp only
      have hm : min 9 n = (min 9 n - 1) + 1 := by omega
      have hl : ((nopTbl.getD (min 9 n - 1) []).take (min 9 n)).length = min 9 n := by
        rw [List.length_take, nopLen_tbl (min 9 n - 1) (by simp; omega)]; omega
      refine .cons (n := min 9 n) ?_ ?_ (by omega) ?_
      · have := nopLen_entry (min 9 n - 1) (by omega) (nopBytesMulti (n - min 9 n))
        rw [← hm] at this
        exact this
      · rw [List.length_append, hl]; omega
      · rw [List.drop_left' hl]
        exact ih _ (by omega)

theorem replicate_nops (n : Nat) : Nops (List.replicate n 0x90) := by
  induction n with
  | zero => exact .nil
  | succ n ih =>
    refine .cons (n := 1) ?_ (by simp) (by omega) ?_
    · simp [List.replicate_succ, nopLen]
    · simpa [List.replicate_succ] using ih

/-- **C26.** `nop(n)` emits exactly `n` bytes, which a decoder reads as NOPs, with both settings. -/
theorem c26_nop (n : Nat) (multi : Bool) : (nopBytes n multi).length = n ∧ Nops (nopBytes n multi) := by
  unfold nopBytes
  cases multi with
  | true => exact ⟨nopBytesMulti_length n, nopBytesMulti_nops n⟩
  | false => exact ⟨by simp, replicate_nops n⟩

/-- The decoder is not trivial: it reads 11 bytes as 9 + 2, and rejects other code. -/
example : nopBytes 11 true = [0x66, 0x0F, 0x1F, 0x84, 0, 0, 0, 0, 0, 0x66, 0x90] := by
  simp [nopBytes, nopBytesMulti, nopTbl]
example : ¬ Nops [0x0F, 0x1F, 0x44, 0x00] := by
  rintro (_ | ⟨h1, h2, _, _⟩)
  simp [nopLen, modrmLen] at h1
  subst h1
  simp at h2

/-! ## C25 -/

theorem isPow2_iff (x : Nat) (hx : 0 < x) : isPow2 x = true ↔ ∃ k, x = 2 ^ k := by
  unfold isPow2
  rw [beq_iff_eq, Nat.and_sub_one_eq_zero_iff_isPowerOfTwo (by omega)]
  rfl

theorem mod_dvd {x : Nat} (k : Nat) (hk : x = 2 ^ k) (hx : x < 2 ^ 64) : x ∣ 2 ^ 64 := by
  subst hk
  exact Nat.pow_dvd_pow 2 (Nat.le_of_lt ((Nat.pow_lt_pow_iff_right (by omega)).mp hx))

theorem curr_mod {x : Nat} (h : x ∣ 2 ^ 64) (top : Word) (n : Nat) : (top + BitVec.ofNat 64 n).toNat % x = (top.toNat + n) % x := by
  rw [BitVec.toNat_add, BitVec.toNat_ofNat, Nat.mod_mod_of_dvd _ h, Nat.add_mod, Nat.mod_mod_of_dvd _ h, ← Nat.add_mod]

/-- **C25.** `align(x)` for a power of two `x`: if it succeeds it has appended fewer than `x` bytes, all NOPs, and the
next instruction is at a multiple of `x` — in a fixed buffer at its address; in AutoGrow mode at every page-aligned
address to which the code is moved later.  If it fails (buffer full, no memory) some of the bytes were appended. -/
theorem c25_align (env : Env) (he : env.Sane) (c : CA) (hw : c.Wf) (k x : Nat) (hk : x = 2 ^ k) (hx : x < 2 ^ 64) (multi : Bool)
    (hpage : c.isAutoGrow = true → c.top.toNat % env.pageSize = 0 ∧ x ∣ env.pageSize) :
    (align env x multi c).Sat
      (fun _ c' => ∃ bs, Emit c c' bs ∧ bs.length < x ∧ Nops bs ∧
        (c.isAutoGrow = false → c'.getCurr.toNat % x = 0) ∧
        (c.isAutoGrow = true → ∀ top : Word, top.toNat % env.pageSize = 0 → (top + BitVec.ofNat 64 c'.size).toNat % x = 0))
      (fun _ c' => ∃ bs, Emit c c' bs ∧ bs.length < x) := by
  have hd := mod_dvd k hk hx
  have hpos : 0 < x := by rw [hk]; exact Nat.two_pow_pos k
  have hp2 : isPow2 x = true := (isPow2_iff x hpos).mpr ⟨k, hk⟩
  have main : ∀ c' bs, Emit c c' bs → (c.getCurr.toNat + bs.length) % x = 0 →
      (c.isAutoGrow = false → c'.getCurr.toNat % x = 0) ∧
      (c.isAutoGrow = true → ∀ top : Word, top.toNat % env.pageSize = 0 → (top + BitVec.ofNat 64 c'.size).toNat % x = 0) := by
    intro c' bs hem hz
    have hz2 : (c.top.toNat + c'.size) % x = 0 := by
      rw [hem.size, ← Nat.add_assoc]
      have := curr_mod hd c.top c.size
      rw [Nat.add_mod, ← this, ← Nat.add_mod]
      exact hz
    constructor
    · intro hfix
      have ht : c'.top = c.top := (hem.fixedTop (by intro e; unfold CA.isAutoGrow at hfix; rw [e] at hfix; exact absurd hfix (by decide))).1
      unfold CA.getCurr
      rw [curr_mod hd, ht]
      exact hz2
    · intro hauto top htop
      obtain ⟨h1, h2⟩ := hpage hauto
      have h3 : c.top.toNat % x = 0 := Nat.mod_eq_zero_of_dvd (Nat.dvd_trans h2 (Nat.dvd_of_mod_eq_zero h1))
      have h4 : top.toNat % x = 0 := Nat.mod_eq_zero_of_dvd (Nat.dvd_trans h2 (Nat.dvd_of_mod_eq_zero htop))
      rw [curr_mod hd, Nat.add_mod, h4]
      rw [Nat.add_mod, h3] at hz2
      exact hz2
  unfold align
  by_cases h1 : x = 1
  · rw [if_pos h1]
    exact ⟨[], Emit.refl hw, by simpa using hpos, .nil, main c [] (Emit.refl hw) (by rw [h1]; exact Nat.mod_one _)⟩
  rw [if_neg h1, M.get_bind, M.throwIf_bind, if_neg (by simp [hp2]; omega), M.throwIf_bind, if_neg]
  · by_cases hr : c.getCurr.toNat % x ≠ 0
    · rw [if_pos hr]
      obtain ⟨hl, hn⟩ := c26_nop (x - c.getCurr.toNat % x) multi
      have hlt := Nat.mod_lt c.getCurr.toNat hpos
      refine (dbs_sat env he _ hw).mono ?_ ?_
      · intro _ c' hem
        refine ⟨_, hem, by rw [hl]; omega, hn, main c' _ hem ?_⟩
        rw [hl]
        have := Nat.div_add_mod c.getCurr.toNat x
        have e : c.getCurr.toNat + (x - c.getCurr.toNat % x) = x * (c.getCurr.toNat / x + 1) := by
          rw [Nat.mul_add]; omega
        rw [e]; exact Nat.mul_mod_right _ _
      · rintro _ c' ⟨p, hp, hem⟩
        refine ⟨p, hem, ?_⟩
        have := hp.length_le
        omega
    · rw [if_neg hr]
      have hr : c.getCurr.toNat % x = 0 := by simpa using hr
      exact ⟨[], Emit.refl hw, by simpa using hpos, .nil, main c [] (Emit.refl hw) (by simpa using hr)⟩
  · intro hc
    simp only [Bool.and_eq_true, decide_eq_true_eq] at hc
    exact hc.2 (Nat.mod_eq_zero_of_dvd (hpage hc.1).2)

/-- **C25.** In a fixed buffer with at least `x` bytes left, `align(x)` succeeds. -/
theorem c25_succeeds (env : Env) (c : CA) (hw : c.Wf) (k x : Nat) (hk : x = 2 ^ k) (multi : Bool)
    (hfix : c.isAutoGrow = false) (hroom : c.size + x ≤ c.maxSize) : ∃ c', align env x multi c = .ok () c' := by
  have hpos : 0 < x := by rw [hk]; exact Nat.two_pow_pos k
  have hp2 : isPow2 x = true := (isPow2_iff x hpos).mpr ⟨k, hk⟩
  unfold align
  by_cases h1 : x = 1
  · rw [if_pos h1]; exact ⟨c, rfl⟩
  rw [if_neg h1, M.get_bind, M.throwIf_bind, if_neg (by simp [hp2]; omega), M.throwIf_bind, if_neg (by simp [hfix])]
  by_cases hr : c.getCurr.toNat % x ≠ 0
  · rw [if_pos hr]
    obtain ⟨c', h, _⟩ := dbs_room env (nopBytes (x - c.getCurr.toNat % x) multi) c hw (by rw [(c26_nop _ _).1]; omega)
    exact ⟨c', h⟩
  · rw [if_neg hr]; exact ⟨c, rfl⟩

/-- **C25.** In AutoGrow mode an alignment that does not divide the page size is refused, since it would not survive. -/
theorem c25_page (env : Env) (c : CA) (k x : Nat) (hk : x = 2 ^ k) (h1 : x ≠ 1) (multi : Bool) (hauto : c.isAutoGrow = true)
    (hpage : ¬ x ∣ env.pageSize) : align env x multi c = .err .BAD_ALIGN c := by
  have hpos : 0 < x := by rw [hk]; exact Nat.two_pow_pos k
  have hp2 : isPow2 x = true := (isPow2_iff x hpos).mpr ⟨k, hk⟩
  unfold align
  rw [if_neg h1, M.get_bind, M.throwIf_bind, if_neg (by simp [hp2]; omega), M.throwIf_bind, if_pos]
  simp only [Bool.and_eq_true, decide_eq_true_eq]
  exact ⟨hauto, fun h => hpage (Nat.dvd_of_mod_eq_zero h)⟩

/-- At 0x1003, `align(16)` adds 13 bytes. -/
example : (match (do CA.dbs demoEnv [1, 2, 3]; align demoEnv 16 false : M CA Unit) demoCA with
    | .ok _ c => (c.size, c.getCurr.toNat % 16)
    | _ => (0, 1)) = (16, 0) := by decide +kernel

/-- **C25.** Anything but a power of two is refused and nothing is emitted. -/
theorem c25_bad_align (env : Env) (c : CA) (x : Nat) (multi : Bool) (h : ¬ ∃ k, x = 2 ^ k) :
    align env x multi c = .err .BAD_ALIGN c := by
  unfold align
  have h1 : x ≠ 1 := fun e => h ⟨0, e⟩
  rw [if_neg h1, M.get_bind, M.throwIf_bind, if_pos]
  by_cases h0 : x = 0
  · simp [h0]
  · have : isPow2 x = false := by
      cases hp : isPow2 x with
      | false => rfl
      | true => exact absurd ((isPow2_iff x (by omega)).mp hp) h
    simp [this]

end Xbyak
