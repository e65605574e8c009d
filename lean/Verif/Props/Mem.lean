import Verif.Mem
/-!
# MmapAllocator (C52), protect and getAlignedAddress (C53)
-/
namespace Xbyak
namespace Mem

theorem sub_one {page : Word} {k : Nat} (hp : page.toNat = 2 ^ k) : (page - 1).toNat = 2 ^ k - 1 := by
  have := page.isLt
  have h0 : 0 < 2 ^ k := Nat.two_pow_pos k
  have h1 : (1 : Word).toNat = 1 := rfl
  rw [BitVec.toNat_sub, h1, hp]
  omega

/-- Clearing the low `k` bits. -/
theorem and_not {page : Word} {k : Nat} (hp : page.toNat = 2 ^ k) (x : Word) : (x &&& ~~~(page - 1)).toNat = x.toNat / 2 ^ k * 2 ^ k := by
  have hlt := page.isLt
  have hk : k < 64 := by
    rw [hp] at hlt
    exact (Nat.pow_lt_pow_iff_right (by decide)).1 hlt
  rw [BitVec.toNat_and, BitVec.toNat_not, sub_one hp]
  have h0 : 0 < 2 ^ k := Nat.two_pow_pos k
  have e : 2 ^ 64 - 1 - (2 ^ k - 1) = 2 ^ 64 - ((2 ^ k - 1) + 1) := by omega
  rw [e]
  apply Nat.eq_of_testBit_eq
  intro i
  rw [Nat.testBit_and, Nat.testBit_two_pow_sub_succ (by rw [hp] at hlt; omega), Nat.testBit_two_pow_sub_one, Nat.testBit_mul_two_pow,
    Nat.testBit_div_two_pow]
  by_cases hi : k ≤ i
  · rw [show i - k + k = i by omega]
    by_cases h64 : i < 64
    · simp [hi, h64, Nat.not_lt.mpr hi]
    · have : x.toNat.testBit i = false := Nat.testBit_lt_two_pow (Nat.lt_of_lt_of_le x.isLt (Nat.pow_le_pow_right (by decide) (by omega)))
      simp [this]
  · have : i < k := by omega
    simp [hi, this]

theorem roundUp_toNat {page : Word} {k : Nat} (hp : page.toNat = 2 ^ k) (n : Word) :
    (roundUp page n).toNat = (n.toNat + (2 ^ k - 1)) % 2 ^ 64 / 2 ^ k * 2 ^ k := by
  unfold roundUp
  rw [and_not hp, BitVec.toNat_add, sub_one hp]

/-- A rounded size is a multiple of the page size and, unless it is 0, at least the requested size. -/
theorem roundUp_spec {page : Word} {k : Nat} (hp : page.toNat = 2 ^ k) (n : Word) :
    (roundUp page n).toNat % 2 ^ k = 0 ∧ (0 < (roundUp page n).toNat → n.toNat ≤ (roundUp page n).toNat ∧ (roundUp page n).toNat < n.toNat + 2 ^ k) := by
  rw [roundUp_toNat hp]
  refine ⟨Nat.mul_mod_left _ _, fun h => ?_⟩
  have hn := n.isLt
  have hlt := page.isLt
  rw [hp] at hlt
  have h0 : 0 < 2 ^ k := Nat.two_pow_pos k
  by_cases hw : n.toNat + (2 ^ k - 1) < 2 ^ 64
  · rw [Nat.mod_eq_of_lt hw] at h ⊢
    have := Nat.div_add_mod (n.toNat + (2 ^ k - 1)) (2 ^ k)
    rw [Nat.mul_comm] at this
    have := Nat.mod_lt (n.toNat + (2 ^ k - 1)) h0
    omega
  · exfalso
    rw [Nat.mod_eq_sub_mod (by omega), Nat.mod_eq_of_lt (by omega), Nat.div_eq_of_lt (by omega)] at h
    omega

/-- The state of the allocator and of the kernel agree. -/
structure Inv (page : Nat) (m₀ : Nat → Bool) (s : St) : Prop where
  keys : (s.list.map (·.1)).Nodup
  entry : ∀ e ∈ s.list, 0 < e.1 ∧ e.1 % page = 0 ∧ 0 < e.2 ∧ e.2 % page = 0 ∧ e.1 + e.2 ≤ 2 ^ 64
  disj : ∀ e ∈ s.list, ∀ e' ∈ s.list, e ≠ e' → ∀ n, overlaps page e.1 e.2 n = true → overlaps page e'.1 e'.2 n = false
  other : ∀ e ∈ s.list, ∀ n, overlaps page e.1 e.2 n = true → m₀ n = false
  mapped : ∀ n, s.mapped n = true ↔ (m₀ n = true ∨ ∃ e ∈ s.list, overlaps page e.1 e.2 n = true)

theorem self_overlap {page p len : Nat} (h0 : 0 < page) (h : 0 < len) (hp : p % page = 0) : overlaps page p len (p / page) = true := by
  unfold overlaps
  have := Nat.div_add_mod p page
  rw [hp, Nat.mul_comm] at this
  rw [decide_eq_true_iff, Nat.add_mul]
  omega

theorem mem_insert {l : List (Nat × Nat)} {k v : Nat} {e : Nat × Nat} : e ∈ insert l k v ↔ e = (k, v) ∨ (e ∈ l ∧ e.1 ≠ k) := by
  simp [insert]

theorem nodup_filter {l : List (Nat × Nat)} (h : (l.map (·.1)).Nodup) (q : Nat × Nat → Bool) : ((l.filter q).map (·.1)).Nodup :=
  h.sublist (List.filter_sublist.map _)

theorem find_mem {l : List (Nat × Nat)} {p : Nat} {e : Nat × Nat} (h : l.find? (·.1 = p) = some e) : e ∈ l ∧ e.1 = p := by
  have := List.find?_some h
  exact ⟨List.mem_of_find?_eq_some h, by simpa using this⟩

theorem key_eq {l : List (Nat × Nat)} (h : (l.map (·.1)).Nodup) {e e' : Nat × Nat} (he : e ∈ l) (he' : e' ∈ l) (hk : e.1 = e'.1) : e = e' := by
  induction l with
  | nil => cases he
  | cons a l ih =>
    rw [List.map_cons, List.nodup_cons] at h
    rcases List.mem_cons.1 he with h1 | h1 <;> rcases List.mem_cons.1 he' with h2 | h2
    · rw [h1, h2]
    · subst h1; exact absurd (hk ▸ List.mem_map_of_mem h2) h.1
    · subst h2; exact absurd (hk ▸ List.mem_map_of_mem h1) h.1
    · exact ih h.2 h1 h2

theorem inv_step {page : Word} {k : Nat} (hp : page.toNat = 2 ^ k) {m₀ : Nat → Bool} {s : St} (h : Inv page.toNat m₀ s) (o : Op)
    (ha : Allowed page s o) : Inv page.toNat m₀ (step page s o) := by
  have h0 : 0 < page.toNat := by rw [hp]; exact Nat.two_pow_pos k
  cases o with
  | alloc n ker =>
    cases ker with
    | none => exact h
    | some p =>
      obtain ⟨a1, a2, a3, a4, a5⟩ := ha
      have hr := (roundUp_spec hp n).1
      generalize hsz : (roundUp page n).toNat = sz at *
      have fresh : ∀ e ∈ s.list, ∀ m, overlaps page.toNat p sz m = true → overlaps page.toNat e.1 e.2 m = false := by
        intro e he m hm
        cases ho : overlaps page.toNat e.1 e.2 m
        · rfl
        · have := (h.mapped m).2 (.inr ⟨e, he, ho⟩)
          rw [a5 m hm] at this; cases this
      have nokey : ∀ e ∈ s.list, e.1 ≠ p := by
        intro e he hk
        obtain ⟨-, e2, e3, -, -⟩ := h.entry e he
        have o1 := self_overlap h0 a1 a3
        have o2 := self_overlap h0 e3 e2
        rw [hk] at o2
        have := fresh e he _ o1
        rw [hk] at this
        rw [this] at o2
        cases o2
      have hstep : step page s (.alloc n (some p)) =
          { list := insert s.list p sz, mapped := fun n => s.mapped n || overlaps page.toNat p sz n } := by
        simp only [step, alloc, hsz]
      rw [hstep]
      refine ⟨?_, ?_, ?_, ?_, ?_⟩
      · unfold insert
        rw [List.map_cons, List.nodup_cons]
        refine ⟨?_, nodup_filter h.keys _⟩
        intro hm
        obtain ⟨e, he, hk⟩ := List.mem_map.1 hm
        have := (List.mem_filter.1 he).2
        simp [hk] at this
      · intro e he
        rcases mem_insert.1 he with rfl | ⟨he, -⟩
        · exact ⟨a2, a3, a1, by rw [hp]; exact hr, a4⟩
        · exact h.entry e he
      · intro e he e' he' hne m hm
        rcases mem_insert.1 he with rfl | ⟨he, -⟩ <;> rcases mem_insert.1 he' with rfl | ⟨he', -⟩
        · exact absurd rfl hne
        · exact fresh e' he' m hm
        · cases ho : overlaps page.toNat p sz m
          · rfl
          · rw [fresh e he m ho] at hm; cases hm
        · exact h.disj e he e' he' hne m hm
      · intro e he m hm
        rcases mem_insert.1 he with rfl | ⟨he, -⟩
        · cases hx : m₀ m
          · rfl
          · have := (h.mapped m).2 (.inl hx)
            rw [a5 m hm] at this; cases this
        · exact h.other e he m hm
      · intro m
        show (s.mapped m || overlaps page.toNat p sz m) = true ↔ _
        rw [Bool.or_eq_true, h.mapped m]
        constructor
        · rintro ((h1 | ⟨e, he, h1⟩) | h1)
          · exact .inl h1
          · exact .inr ⟨e, mem_insert.2 (.inr ⟨he, nokey e he⟩), h1⟩
          · exact .inr ⟨(p, sz), mem_insert.2 (.inl rfl), h1⟩
        · rintro (h1 | ⟨e, he, h1⟩)
          · exact .inl (.inl h1)
          · rcases mem_insert.1 he with rfl | ⟨he, -⟩
            · exact .inr h1
            · exact .inl (.inr ⟨e, he, h1⟩)
  | free p ker =>
    show Inv page.toNat m₀ (match free page p ker s with | .ok _ s' => s' | .err _ s' => s')
    unfold free
    by_cases hz : p = 0
    · rw [if_pos hz]; exact h
    rw [if_neg hz]
    cases hf : s.list.find? (·.1 = p) with
    | none => exact h
    | some e =>
      obtain ⟨a, sz⟩ := e
      obtain ⟨hm, hk⟩ := find_mem hf
      have hk : a = p := hk
      subst hk
      dsimp only
      cases ker
      · exact h
      rw [if_pos rfl]
      have sub : ∀ e, e ∈ s.list.filter (·.1 ≠ a) → e ∈ s.list ∧ e ≠ (a, sz) := by
        intro e he
        obtain ⟨h1, h2⟩ := List.mem_filter.1 he
        refine ⟨h1, fun hx => ?_⟩
        subst hx; simp at h2
      refine ⟨nodup_filter h.keys _, fun e he => h.entry e (sub e he).1, fun e he e' he' => h.disj e (sub e he).1 e' (sub e' he').1,
        fun e he => h.other e (sub e he).1, ?_⟩
      intro n
      show (s.mapped n && !overlaps page.toNat a sz n) = true ↔ _
      rw [Bool.and_eq_true, h.mapped n, Bool.not_eq_true']
      constructor
      · rintro ⟨h1 | ⟨e, he, h1⟩, h2⟩
        · exact .inl h1
        · refine .inr ⟨e, List.mem_filter.2 ⟨he, ?_⟩, h1⟩
          have : e.1 ≠ a := fun hx => by
            have := key_eq h.keys he hm hx
            subst this
            rw [h2] at h1; cases h1
          simpa using this
      · rintro (h1 | ⟨e, he, h1⟩)
        · refine ⟨.inl h1, ?_⟩
          cases ho : overlaps page.toNat a sz n
          · rfl
          · rw [h.other _ hm n ho] at h1; cases h1
        · exact ⟨.inr ⟨e, (sub e he).1, h1⟩, h.disj e (sub e he).1 (a, sz) hm (sub e he).2 n h1⟩

theorem reach_inv {page : Word} {k : Nat} (hp : page.toNat = 2 ^ k) {m₀ : Nat → Bool} {s : St} (h : Reach page m₀ s) : Inv page.toNat m₀ s := by
  induction h with
  | new => exact ⟨by simp, by simp, by simp, by simp, by simp⟩
  | step o _ ha ih => exact inv_step hp ih o ha

/-- C52: after any history, the pages the process has in addition to its own are exactly those of the entries of the list, which do not
overlap each other. -/
theorem c52_exact {page : Word} {k : Nat} (hp : page.toNat = 2 ^ k) {m₀ : Nat → Bool} {s : St} (h : Reach page m₀ s) :
    (∀ n, s.mapped n = true ↔ (m₀ n = true ∨ ∃ e ∈ s.list, overlaps page.toNat e.1 e.2 n = true)) ∧
      (∀ e ∈ s.list, ∀ e' ∈ s.list, e ≠ e' → ∀ n, overlaps page.toNat e.1 e.2 n = true → overlaps page.toNat e'.1 e'.2 n = false) ∧
      (∀ e ∈ s.list, ∀ n, overlaps page.toNat e.1 e.2 n = true → m₀ n = false) :=
  let i := reach_inv hp h
  ⟨i.mapped, i.disj, i.other⟩

/-- C52: a successful `alloc` returns memory that was not mapped before and covers the requested size. -/
theorem c52_alloc {page : Word} {k : Nat} (hp : page.toNat = 2 ^ k) {s s' : St} {n : Word} {ker : Option Nat} {p : Nat}
    (ha : Allowed page s (.alloc n ker)) (he : alloc page n ker s = .ok p s') :
    p % page.toNat = 0 ∧ 0 < p ∧ (∃ size, (p, size) ∈ s'.list ∧ n.toNat ≤ size) ∧
      ∀ a, p ≤ a → a < p + n.toNat → s.mapped (a / page.toNat) = false ∧ s'.mapped (a / page.toNat) = true := by
  have h0 : 0 < page.toNat := by rw [hp]; exact Nat.two_pow_pos k
  cases ker with
  | none => cases he
  | some q =>
    unfold alloc at he
    cases he
    obtain ⟨a1, a2, a3, a4, a5⟩ := ha
    have hr := ((roundUp_spec hp n).2 a1).1
    refine ⟨a3, a2, ⟨_, mem_insert.2 (.inl rfl), hr⟩, ?_⟩
    intro a h1 h2
    have : overlaps page.toNat p (roundUp page n).toNat (a / page.toNat) = true := by
      unfold overlaps
      have hd := Nat.div_add_mod a page.toNat
      have := Nat.mod_lt a h0
      rw [Nat.mul_comm] at hd
      rw [decide_eq_true_iff, Nat.add_mul]
      omega
    exact ⟨a5 _ this, by simp [this]⟩

/-- C52: a successful `free` unmaps all pages of one live allocation, the one at `p`, and no other page. -/
theorem c52_free {page : Word} {k : Nat} (hp : page.toNat = 2 ^ k) {m₀ : Nat → Bool} {s s' : St} (h : Reach page m₀ s) {p : Nat} {ker : Bool}
    (h0 : p ≠ 0) (he : free page p ker s = .ok () s') :
    ∃ size, (p, size) ∈ s.list ∧ (∀ n, s'.mapped n = false ↔ (s.mapped n = false ∨ overlaps page.toNat p size n = true)) ∧
      (∀ e, e ∈ s'.list ↔ (e ∈ s.list ∧ e ≠ (p, size))) ∧
      (∀ e ∈ s'.list, ∀ n, overlaps page.toNat e.1 e.2 n = true → s'.mapped n = true) := by
  have i := reach_inv hp h
  have i' : Inv page.toNat m₀ s' := by
    have := inv_step hp i (.free p ker) trivial
    simpa only [step, he] using this
  unfold free at he
  rw [if_neg h0] at he
  cases hf : s.list.find? (·.1 = p) with
  | none => rw [hf] at he; cases he
  | some e =>
    obtain ⟨a, sz⟩ := e
    obtain ⟨hm, hk⟩ := find_mem hf
    have hk : a = p := hk
    subst hk
    rw [hf] at he
    dsimp only at he
    cases ker
    · cases he
    rw [if_pos rfl] at he
    cases he
    refine ⟨sz, hm, fun n => ?_, fun e => ?_, fun e he n hn => (i'.mapped n).2 (.inr ⟨e, he, hn⟩)⟩
    · show (s.mapped n && !overlaps page.toNat a sz n) = false ↔ _
      cases s.mapped n <;> simp
    · show e ∈ s.list.filter _ ↔ _
      rw [List.mem_filter]
      constructor
      · rintro ⟨h1, h2⟩
        refine ⟨h1, fun hx => ?_⟩
        subst hx; simp at h2
      · rintro ⟨h1, h2⟩
        refine ⟨h1, ?_⟩
        have : e.1 ≠ a := fun hx => h2 (key_eq i.keys h1 hm hx)
        simpa using this

/-- C52: freeing a pointer that is not a live allocation is refused and nothing is unmapped. -/
theorem c52_unknown {page : Word} {s : St} {p : Nat} (h0 : p ≠ 0) (hn : ∀ size, (p, size) ∉ s.list) (ker : Bool) :
    free page p ker s = .err .BAD_PARAMETER s := by
  unfold free
  rw [if_neg h0]
  cases hf : s.list.find? (·.1 = p) with
  | none => rfl
  | some e =>
    obtain ⟨a, sz⟩ := e
    obtain ⟨hm, hk⟩ := find_mem hf
    have hk : a = p := hk
    subst hk
    exact absurd hm (hn sz)

/-- C52: freeing twice is refused. -/
theorem c52_double {page : Word} {k : Nat} (hp : page.toNat = 2 ^ k) {m₀ : Nat → Bool} {s s' : St} (h : Reach page m₀ s) {p : Nat} {ker : Bool}
    (h0 : p ≠ 0) (he : free page p ker s = .ok () s') (ker' : Bool) : free page p ker' s' = .err .BAD_PARAMETER s' := by
  obtain ⟨size, hm, -, hl, -⟩ := c52_free hp h h0 he
  apply c52_unknown h0
  intro sz hx
  obtain ⟨h1, h2⟩ := (hl _).1 hx
  exact h2 (key_eq (reach_inv hp h).keys h1 hm rfl)

/-- C53: the range passed to `mprotect` starts at the page of `addr` and ends at `addr + size`. -/
theorem c53_protect {pageSize : Word} {k : Nat} (hp : pageSize.toNat = 2 ^ k) (addr size : Word) (mode : Int)
    {a len : Word} {m : Prot} (h : protect pageSize addr size mode = some (a, len, m)) :
    a.toNat % pageSize.toNat = 0 ∧ a.toNat ≤ addr.toNat ∧ addr.toNat < a.toNat + pageSize.toNat ∧
      (addr.toNat + size.toNat < 2 ^ 64 → a.toNat + len.toNat = addr.toNat + size.toNat) ∧
      (mode = 0 ∧ m = ⟨true, true, false⟩ ∨ mode = 1 ∧ m = ⟨true, true, true⟩ ∨ mode = 2 ∧ m = ⟨true, false, true⟩) := by
  unfold protect at h
  have hr := and_not hp addr
  have h0 : 0 < 2 ^ k := Nat.two_pow_pos k
  have hd := Nat.div_add_mod addr.toNat (2 ^ k)
  have hl := Nat.mod_lt addr.toNat h0
  rw [Nat.mul_comm] at hd
  have key : ∀ m', (m' : Option Prot).map (fun m => (addr &&& ~~~(pageSize - 1), size + (addr - (addr &&& ~~~(pageSize - 1))), m)) = some (a, len, m) →
      m' = some m ∧ a = addr &&& ~~~(pageSize - 1) ∧ len = size + (addr - (addr &&& ~~~(pageSize - 1))) := by
    intro m' h
    cases m' with
    | none => cases h
    | some m' => cases h; exact ⟨rfl, rfl, rfl⟩
  obtain ⟨hm, rfl, rfl⟩ := key _ h
  rw [hp]
  refine ⟨by rw [hr]; exact Nat.mul_mod_left _ _, by omega, by omega, fun hlt => ?_, ?_⟩
  · generalize addr &&& ~~~(pageSize - 1) = b at *
    have := addr.isLt
    have := b.isLt
    rw [BitVec.toNat_add, BitVec.toNat_sub]
    omega
  · by_cases h0 : mode = 0
    · subst h0; left; rw [if_pos rfl] at hm; cases hm; exact ⟨rfl, rfl⟩
    · rw [if_neg h0] at hm
      by_cases h1 : mode = 1
      · subst h1; right; left; rw [if_pos rfl] at hm; cases hm; exact ⟨rfl, rfl⟩
      · rw [if_neg h1] at hm
        by_cases h2 : mode = 2
        · subst h2; right; right; rw [if_pos rfl] at hm; cases hm; exact ⟨rfl, rfl⟩
        · rw [if_neg h2] at hm; cases hm

/-- C53: `getAlignedAddress` returns the least multiple of the alignment that is not below the address. -/
theorem c53_aligned {al : Word} {k : Nat} (hp : al.toNat = 2 ^ k) (addr : Word) (hs : addr.toNat + al.toNat ≤ 2 ^ 64) :
    (getAlignedAddress addr al).toNat % al.toNat = 0 ∧ addr.toNat ≤ (getAlignedAddress addr al).toNat ∧
      ∀ x, x % al.toNat = 0 → addr.toNat ≤ x → (getAlignedAddress addr al).toNat ≤ x := by
  have h0 : 0 < 2 ^ k := Nat.two_pow_pos k
  have e : (addr + al - 1).toNat = addr.toNat + (2 ^ k - 1) := by
    have h1 : (1 : Word).toNat = 1 := rfl
    rw [BitVec.toNat_sub, BitVec.toNat_add, h1]
    have := addr.isLt
    rw [hp] at hs ⊢
    omega
  unfold getAlignedAddress
  rw [and_not hp, e, hp]
  have hd := Nat.div_add_mod (addr.toNat + (2 ^ k - 1)) (2 ^ k)
  have hl := Nat.mod_lt (addr.toNat + (2 ^ k - 1)) h0
  rw [Nat.mul_comm] at hd
  refine ⟨Nat.mul_mod_left _ _, by omega, ?_⟩
  intro x hx hle
  have hx' := Nat.div_add_mod x (2 ^ k)
  rw [hx, Nat.mul_comm, Nat.add_zero] at hx'
  rw [← hx']
  apply Nat.mul_le_mul_right
  rw [Nat.div_le_iff_le_mul h0] at *
  omega

example : getAlignedAddress 0x1001 16 = 0x1010 ∧ protect 4096 0x12345 0x2000 1 = some (0x12000, 0x2345, ⟨true, true, true⟩) := by decide +kernel
example : ∃ s', alloc 4096 5000 (some 0x7000) ⟨[], fun _ => false⟩ = .ok 0x7000 s' ∧ s'.list = [(0x7000, 8192)] ∧ s'.mapped 8 = true ∧
    s'.mapped 9 = false := ⟨_, rfl, by decide +kernel, by decide +kernel, by decide +kernel⟩

end Mem
end Xbyak
