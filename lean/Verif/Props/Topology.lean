import Verif.Props.Cpu
/-!
# Number of cores and cache hierarchy (C55)
-/
namespace Xbyak
namespace Cpu
open Feature

/-- The arrays have 10 entries and the level count stays within. -/
def Caches.Inv (c : Caches) : Prop := c.size.length = 10 ∧ c.sharing.length = 10 ∧ c.levels ≤ 10

/-- An outcome without array overrun and without a thrown error. -/
def Good : Out Caches → Prop
  | .ok c => c.Inv
  | .oob => False
  | .err _ => False
  | .divZero => True
  | .overflow => True

theorem bind_ok {α β : Type} (a : α) (f : α → Out β) : (Out.ok a >>= f) = f a := rfl

theorem put_ok {c : Caches} (h : c.Inv) {i : Nat} (hi : i < 10) (s r : BitVec 32) :
    ∃ c', c.put i s r = .ok c' ∧ c'.size.length = 10 ∧ c'.sharing.length = 10 ∧ c'.levels = c.levels := by
  unfold Caches.put
  rw [if_pos ⟨by rw [h.1]; exact hi, by rw [h.2.1]; exact hi⟩]
  exact ⟨_, rfl, by simp [h.1], by simp [h.2.1], rfl⟩

theorem div_ok {a b : Nat} (h : b ≠ 0) : Out.div a b = .ok (a / b) := by unfold Out.div; rw [if_neg h]

/-- One more level, or signed overflow. -/
theorem amdLevel_cases (e : Env) (cores : Cores) (s : BitVec 32) {c : Caches} (h : c.Inv) (hl : c.levels < 10) :
    amdLevel e cores s c = .overflow ∨ ∃ c', amdLevel e cores s c = .ok c' ∧ c'.Inv := by
  unfold amdLevel
  dsimp only
  split
  · exact .inl rfl
  · right
    have key : ∀ q : Nat, ∃ c', (do
        let c ← c.put c.levels (if (extractBit (e.cpuid 0x8000001D s).eax 9 9 == 0) = true then
            BitVec.ofNat 32 (((extractBit (e.cpuid 0x8000001D s).ebx 0 11).toNat + 1) * ((extractBit (e.cpuid 0x8000001D s).ebx 12 21).toNat + 1) *
              ((extractBit (e.cpuid 0x8000001D s).ebx 22 31).toNat + 1)) * ((e.cpuid 0x8000001D s).ecx + 1)
          else BitVec.ofNat 32 (((extractBit (e.cpuid 0x8000001D s).ebx 0 11).toNat + 1) * ((extractBit (e.cpuid 0x8000001D s).ebx 12 21).toNat + 1) *
              ((extractBit (e.cpuid 0x8000001D s).ebx 22 31).toNat + 1))) (BitVec.ofNat 32 q)
        return { c with levels := c.levels + 1 } : Out Caches) = .ok c' ∧ c'.Inv := by
      intro q
      obtain ⟨c', h1, h2, h3, h4⟩ := put_ok h hl (if (extractBit (e.cpuid 0x8000001D s).eax 9 9 == 0) = true then
            BitVec.ofNat 32 (((extractBit (e.cpuid 0x8000001D s).ebx 0 11).toNat + 1) * ((extractBit (e.cpuid 0x8000001D s).ebx 12 21).toNat + 1) *
              ((extractBit (e.cpuid 0x8000001D s).ebx 22 31).toNat + 1)) * ((e.cpuid 0x8000001D s).ecx + 1)
          else BitVec.ofNat 32 (((extractBit (e.cpuid 0x8000001D s).ebx 0 11).toNat + 1) * ((extractBit (e.cpuid 0x8000001D s).ebx 12 21).toNat + 1) *
              ((extractBit (e.cpuid 0x8000001D s).ebx 22 31).toNat + 1))) (BitVec.ofNat 32 q)
      rw [h1, bind_ok]
      exact ⟨_, rfl, h2, h3, by show c'.levels + 1 ≤ 10; omega⟩
    split
    · rw [div_ok (by have := Nat.le_max_left 1 c.sharing0.toNat; omega), bind_ok]
      exact key _
    · exact key _

theorem amdLoop_good (e : Env) (cores : Cores) : ∀ (fuel : Nat) (s : BitVec 32) (c : Caches), c.Inv → ∀ o, amdLoop e cores fuel s c = some o →
    Good o ∧ o ≠ .divZero := by
  intro fuel
  induction fuel with
  | zero => intro s c _ o h; cases h
  | succ n ih =>
    intro s c hc o h
    unfold amdLoop at h
    by_cases h1 : c.levels < maxNumberCacheLevels
    · rw [if_pos h1] at h
      dsimp only at h
      by_cases h2 : (extractBit (e.cpuid 0x8000001D s).eax 0 4 == 0) = true
      · rw [if_pos h2] at h; cases h; exact ⟨hc, by simp⟩
      · rw [if_neg h2] at h
        by_cases h3 : (extractBit (e.cpuid 0x8000001D s).eax 0 4 == 2) = true
        · rw [if_pos h3] at h; exact ih _ _ hc _ h
        · rw [if_neg h3] at h
          rcases amdLevel_cases e cores s hc h1 with h4 | ⟨c', h4, h5⟩
          · rw [h4] at h; cases h; exact ⟨trivial, by simp⟩
          · rw [h4] at h; exact ih _ _ h5 _ h
    · rw [if_neg h1] at h; cases h; exact ⟨hc, by simp⟩

theorem intelLevel_cases (e : Env) (cores : Cores) (i w : Nat) {c : Caches} (h : c.Inv) (hl : c.levels < 10) :
    (w = 0 ∧ intelLevel e cores i w c = .divZero) ∨ ∃ w' c', intelLevel e cores i w c = .ok (w', c') ∧ c'.Inv ∧ (w ≠ 0 → w' ≠ 0) := by
  unfold intelLevel
  dsimp only
  generalize hw : (if (extractBit (e.cpuid 4 (BitVec.ofNat 32 i)).eax 0 4 == 1 && w == 0) = true then
    if cores.core ≠ 0 then min ((extractBit (e.cpuid 4 (BitVec.ofNat 32 i)).eax 14 25).toNat + 1) cores.core
    else (extractBit (e.cpuid 4 (BitVec.ofNat 32 i)).eax 14 25).toNat + 1 else w) = w'
  have hw' : w ≠ 0 → w' ≠ 0 := by
    intro h0
    rw [← hw, if_neg (by simp [h0])]
    exact h0
  by_cases h0 : w' = 0
  · left
    refine ⟨Decidable.by_contra fun hn => hw' hn h0, ?_⟩
    subst h0
    rfl
  · right
    rw [div_ok h0, bind_ok]
    obtain ⟨c', h1, h2, h3, h4⟩ := put_ok h hl ((extractBit (e.cpuid 4 (BitVec.ofNat 32 i)).ebx 22 31 + 1) *
      (extractBit (e.cpuid 4 (BitVec.ofNat 32 i)).ebx 12 21 + 1) * (extractBit (e.cpuid 4 (BitVec.ofNat 32 i)).ebx 0 11 + 1) *
      ((e.cpuid 4 (BitVec.ofNat 32 i)).ecx + 1)) (BitVec.ofNat 32 (max ((if cores.core ≠ 0 then
        min ((extractBit (e.cpuid 4 (BitVec.ofNat 32 i)).eax 14 25).toNat + 1) cores.core
        else (extractBit (e.cpuid 4 (BitVec.ofNat 32 i)).eax 14 25).toNat + 1) / w') 1))
    rw [h1, bind_ok]
    exact ⟨_, _, rfl, ⟨h2, h3, by show c'.levels + 1 ≤ 10; omega⟩, hw'⟩

theorem intelLoop_good (e : Env) (cores : Cores) : ∀ (fuel i w : Nat) (c : Caches), c.Inv → ∀ o, intelLoop e cores fuel i w c = some o →
    Good o ∧ (w ≠ 0 → o ≠ .divZero) := by
  intro fuel
  induction fuel with
  | zero => intro i w c _ o h; cases h
  | succ n ih =>
    intro i w c hc o h
    unfold intelLoop at h
    by_cases h0 : i ≥ 2 ^ 31
    · rw [if_pos h0] at h; cases h; exact ⟨trivial, by simp⟩
    rw [if_neg h0] at h
    by_cases h1 : c.levels < maxNumberCacheLevels
    · rw [if_pos h1] at h
      dsimp only at h
      by_cases h2 : (extractBit (e.cpuid 4 (BitVec.ofNat 32 i)).eax 0 4 == 0) = true
      · rw [if_pos h2] at h; cases h; exact ⟨hc, by simp⟩
      · rw [if_neg h2] at h
        by_cases h3 : (extractBit (e.cpuid 4 (BitVec.ofNat 32 i)).eax 0 4 == 1 || extractBit (e.cpuid 4 (BitVec.ofNat 32 i)).eax 0 4 == 3) = true
        · rw [if_pos h3] at h
          rcases intelLevel_cases e cores i w hc h1 with ⟨h4, h5⟩ | ⟨w', c', h4, h5, h6⟩
          · rw [h5] at h; cases h; exact ⟨trivial, fun hw => absurd h4 hw⟩
          · rw [h4] at h
            obtain ⟨g1, g2⟩ := ih _ _ _ h5 _ h
            exact ⟨g1, fun hw => g2 (h6 hw)⟩
        · rw [if_neg h3] at h; exact ih _ _ _ hc _ h
    · rw [if_neg h1] at h; cases h; exact ⟨hc, by simp⟩

theorem init_inv : Caches.init.Inv := ⟨rfl, rfl, by decide⟩

theorem amdLegacy_good (e : Env) (cores : Cores) : Good (amdLegacy e cores) ∧ amdLegacy e cores ≠ .divZero := by
  unfold amdLegacy
  dsimp only
  obtain ⟨c1, h1, a1, b1, -⟩ := put_ok init_inv (i := 0) (by decide) (extractBit (e.cpuid 0x80000005 0).ecx 24 31 * 1024) 1
  rw [h1, bind_ok]
  have i1 : Caches.Inv { c1 with levels := 1 } := ⟨a1, b1, by show 1 ≤ 10; decide⟩
  have last : ∀ c : Caches, c.Inv → Good (if extractBit (e.cpuid 0x80000006 0).edx 12 15 > 0 then
      if (extractBit (e.cpuid 0x80000006 0).edx 18 31).toNat * 512 * 1024 ≥ 2 ^ 31 then Out.overflow
      else do
        let c ← c.put 2 (BitVec.ofNat 32 ((extractBit (e.cpuid 0x80000006 0).edx 18 31).toNat * 512 * 1024)) (BitVec.ofNat 32 cores.core)
        pure { c with levels := 3 }
    else pure c) ∧ (if extractBit (e.cpuid 0x80000006 0).edx 12 15 > 0 then
      if (extractBit (e.cpuid 0x80000006 0).edx 18 31).toNat * 512 * 1024 ≥ 2 ^ 31 then Out.overflow
      else do
        let c ← c.put 2 (BitVec.ofNat 32 ((extractBit (e.cpuid 0x80000006 0).edx 18 31).toNat * 512 * 1024)) (BitVec.ofNat 32 cores.core)
        pure { c with levels := 3 }
    else pure c) ≠ .divZero := by
    intro c hc
    split
    · split
      · exact ⟨trivial, by simp⟩
      · obtain ⟨c2, h2, a2, b2, -⟩ := put_ok hc (i := 2) (by decide)
          (BitVec.ofNat 32 ((extractBit (e.cpuid 0x80000006 0).edx 18 31).toNat * 512 * 1024)) (BitVec.ofNat 32 cores.core)
        rw [h2, bind_ok]
        exact ⟨⟨a2, b2, by show 3 ≤ 10; decide⟩, by intro h; cases h⟩
    · exact ⟨hc, by intro h; cases h⟩
  split
  · obtain ⟨c2, h2, a2, b2, -⟩ := put_ok i1 (i := 1) (by decide) (extractBit (e.cpuid 0x80000006 0).ecx 16 31 * 1024) 1
    rw [h2, bind_ok]
    exact last { c2 with levels := 2 } ⟨a2, b2, by show 2 ≤ 10; decide⟩
  · exact last _ i1

theorem first_inv {c : Caches} (h : c.Inv) : c.first.Inv := ⟨h.1, by simp [Caches.first, h.2.1], h.2.2⟩

theorem caches_good (e : Env) (cores : Cores) (fuel : Nat) (o : Out Caches) (h : caches e cores fuel = some o) :
    Good o ∧ (cores.smt ≠ 0 → o ≠ .divZero) := by
  unfold caches at h
  dsimp only at h
  split at h
  · split at h
    · cases hl : amdLoop e cores fuel 0 Caches.init with
      | none => rw [hl] at h; cases h
      | some o' =>
        rw [hl] at h
        obtain ⟨g1, g2⟩ := amdLoop_good e cores fuel 0 _ init_inv _ hl
        cases h
        cases o' with
        | ok c => exact ⟨first_inv g1, by intro _ h; cases h⟩
        | err x => exact absurd g1 id
        | oob => exact absurd g1 id
        | divZero => exact absurd rfl g2
        | overflow => exact ⟨trivial, by intro _ h; cases h⟩
    · split at h
      · cases h
        exact ⟨(amdLegacy_good e cores).1, fun _ => (amdLegacy_good e cores).2⟩
      · cases h; exact ⟨init_inv, by intro _ h; cases h⟩
  · split at h
    · exact intelLoop_good e cores fuel 0 _ _ init_inv _ h
    · cases h; exact ⟨init_inv, by intro _ h; cases h⟩

theorem numCores_cases (e : Env) : (∃ c, numCores e = .ok c) ∨ numCores e = .divZero := by
  unfold numCores
  dsimp only
  have dv : ∀ (a b : Nat) (x : Nat), (∃ c, (do let smt ← Out.div a b; return (⟨smt, x⟩ : Cores) : Out Cores) = .ok c) ∨
      (do let smt ← Out.div a b; return (⟨smt, x⟩ : Cores) : Out Cores) = .divZero := by
    intro a b x
    by_cases h : b = 0
    · right; subst h; rfl
    · left; rw [div_ok h]; exact ⟨_, rfl⟩
  repeat' split
  all_goals first
    | exact .inl ⟨_, rfl⟩
    | exact dv _ _ _
    | (rw [div_ok (by omega), bind_ok]; exact dv _ _ _)
    | (exfalso; omega)

/-- The array accesses of the constructor stay within bounds and it throws nothing, whatever `cpuid` returns. -/
theorem c55_bounds (e : Env) (fuel : Nat) : construct e fuel ≠ some .oob ∧ ∀ x, construct e fuel ≠ some (.err x) := by
  unfold construct
  rcases numCores_cases e with ⟨c, h⟩ | h
  · rw [h]
    dsimp only
    cases hc : caches e c fuel with
    | none => exact ⟨by simp, by simp⟩
    | some o =>
      have := (caches_good e c fuel o hc).1
      cases o with
      | ok c => exact ⟨(by intro h; cases h), (by intro x h; cases h)⟩
      | err x => exact absurd this id
      | oob => exact absurd this id
      | divZero => exact ⟨(by intro h; cases h), (by intro x h; cases h)⟩
      | overflow => exact ⟨(by intro h; cases h), (by intro x h; cases h)⟩
  · rw [h]
    exact ⟨(by intro h; cases h), (by intro x h; cases h)⟩

/-- C55: at most 10 levels are detected, and the queries answer exactly for the levels below. -/
theorem c55_levels (e : Env) (fuel : Nat) {n : Cores} {c : Caches} (h : construct e fuel = some (.ok (n, c))) :
    c.levels ≤ 10 ∧ ∀ i : BitVec 32, (i.toNat < c.levels → (∃ v, c.getSize i = .ok v) ∧ ∃ v, c.getSharing i = .ok v) ∧
      (c.levels ≤ i.toNat → c.getSize i = .err .BAD_PARAMETER ∧ c.getSharing i = .err .BAD_PARAMETER) := by
  have inv : c.Inv := by
    unfold construct at h
    rcases numCores_cases e with ⟨k, hk⟩ | hk
    · rw [hk] at h
      dsimp only at h
      cases hc : caches e k fuel with
      | none => rw [hc] at h; cases h
      | some o =>
        have g := (caches_good e k fuel o hc).1
        rw [hc] at h
        cases o with
        | ok c' =>
          have h : some (Out.ok (k, c')) = some (Out.ok (n, c)) := h
          cases h; exact g
        | err x => cases h
        | oob => cases h
        | divZero => cases h
        | overflow => cases h
    · rw [hk] at h; cases h
  refine ⟨inv.2.2, fun i => ⟨fun hi => ?_, fun hi => ?_⟩⟩
  · have hs : i.toNat < c.size.length := by have := inv.1; have := inv.2.2; omega
    have hr : i.toNat < c.sharing.length := by have := inv.2.1; have := inv.2.2; omega
    unfold Caches.getSize Caches.getSharing
    rw [if_neg (by omega), if_neg (by omega), List.getElem?_eq_getElem hs, List.getElem?_eq_getElem hr]
    exact ⟨⟨_, rfl⟩, ⟨_, rfl⟩⟩
  · unfold Caches.getSize Caches.getSharing
    rw [if_pos hi, if_pos hi]
    exact ⟨rfl, rfl⟩

/-- C55: with a usable leaf 0xB on an Intel or AMD CPU nothing divides by zero, and the core counts are at least 1. -/
theorem c55_division_partial (e : Env) (fuel : Nat) (hv : intel e = true ∨ amd e = true) (hb : hasB e = true) :
    construct e fuel ≠ some .divZero ∧ ∃ n, numCores e = .ok n ∧ 1 ≤ n.smt ∧ n.smt ≤ n.core ∧ ∃ v, n.get 2 = .ok v ∧ 1 ≤ v := by
  have hf : ((features e).has tINTEL.ty = true) ∨ (features e).has tAMD.ty = true := by
    rcases hv with h | h
    · left
      rw [has_test, features_test _ _ (by decide), base_test e tINTEL, vendorRules_any e tINTEL, h]
      simp
    · right
      rw [has_test, features_test _ _ (by decide), base_test e tAMD, vendorRules_any e tAMD, h]
      simp
  have hn : numCores e = .ok ⟨max 1 (levelB e 1 (levelB e 0 ⟨0, 0⟩)).smt,
      max (max 1 (levelB e 1 (levelB e 0 ⟨0, 0⟩)).smt) (levelB e 1 (levelB e 0 ⟨0, 0⟩)).core⟩ := by
    unfold numCores
    dsimp only
    rw [if_neg (by rcases hf with h | h <;> rw [h] <;> simp), if_pos hb]
  refine ⟨?_, _, hn, Nat.le_max_left _ _, Nat.le_max_left _ _, ?_⟩
  · unfold construct
    rw [hn]
    dsimp only
    intro h
    generalize hk : (⟨max 1 (levelB e 1 (levelB e 0 ⟨0, 0⟩)).smt,
      max (max 1 (levelB e 1 (levelB e 0 ⟨0, 0⟩)).smt) (levelB e 1 (levelB e 0 ⟨0, 0⟩)).core⟩ : Cores) = k at h
    have h1 : k.smt ≠ 0 := by
      rw [← hk]
      have := Nat.le_max_left 1 (levelB e 1 (levelB e 0 ⟨0, 0⟩)).smt
      show max 1 _ ≠ 0
      omega
    cases hc : caches e k fuel with
    | none => rw [hc] at h; cases h
    | some o =>
      have g := (caches_good e k fuel o hc).2 h1
      rw [hc] at h
      cases o with
      | divZero => exact g rfl
      | ok c => cases h
      | err x => cases h
      | oob => cases h
      | overflow => cases h
  · have h1 := Nat.le_max_left 1 (levelB e 1 (levelB e 0 ⟨0, 0⟩)).smt
    generalize max 1 (levelB e 1 (levelB e 0 ⟨0, 0⟩)).smt = s at *
    have h2 := Nat.le_max_left s (levelB e 1 (levelB e 0 ⟨0, 0⟩)).core
    generalize max s (levelB e 1 (levelB e 0 ⟨0, 0⟩)).core = k at *
    refine ⟨k / s, ?_, Nat.div_pos h2 h1⟩
    unfold Cores.get
    rw [if_neg (by decide), if_pos rfl]
    exact div_ok (by show s ≠ 0; omega)

/-- The loops end once a sub-leaf says that there are no more caches. -/
theorem amdLoop_ends (e : Env) (cores : Cores) (n : Nat) (hz : extractBit (e.cpuid 0x8000001D (BitVec.ofNat 32 n)).eax 0 4 = 0) :
    ∀ (fuel i : Nat) (c : Caches), i ≤ n → n < i + fuel → ∃ o, amdLoop e cores fuel (BitVec.ofNat 32 i) c = some o := by
  intro fuel
  induction fuel with
  | zero => intro i c h1 h2; omega
  | succ k ih =>
    intro i c h1 h2
    have next : (BitVec.ofNat 32 i) + 1 = BitVec.ofNat 32 (i + 1) := by rw [BitVec.ofNat_add]; rfl
    unfold amdLoop
    split
    · dsimp only
      by_cases hi : i = n
      · subst hi
        rw [hz]
        exact ⟨_, rfl⟩
      · rw [next]
        split
        · exact ⟨_, rfl⟩
        · split
          · exact ih _ _ (by omega) (by omega)
          · split
            · exact ih _ _ (by omega) (by omega)
            · exact ⟨_, rfl⟩
    · exact ⟨_, rfl⟩

theorem intelLoop_ends (e : Env) (cores : Cores) (n : Nat) (hz : extractBit (e.cpuid 4 (BitVec.ofNat 32 n)).eax 0 4 = 0) :
    ∀ (fuel i w : Nat) (c : Caches), i ≤ n → n < i + fuel → ∃ o, intelLoop e cores fuel i w c = some o := by
  intro fuel
  induction fuel with
  | zero => intro i w c h1 h2; omega
  | succ k ih =>
    intro i w c h1 h2
    unfold intelLoop
    split
    · exact ⟨_, rfl⟩
    split
    · dsimp only
      by_cases hi : i = n
      · subst hi
        rw [hz]
        exact ⟨_, rfl⟩
      · split
        · exact ⟨_, rfl⟩
        · split
          · split
            · exact ih _ _ _ (by omega) (by omega)
            · exact ⟨_, rfl⟩
            · exact ⟨_, rfl⟩
            · exact ⟨_, rfl⟩
            · exact ⟨_, rfl⟩
          · exact ih _ _ _ (by omega) (by omega)
    · exact ⟨_, rfl⟩

/-- C55: the constructor returns if sub-leaf `n` of leaves 4 and 8000001Dh says that there are no more caches. -/
theorem c55_ends (e : Env) (n : Nat) (h4 : extractBit (e.cpuid 4 (BitVec.ofNat 32 n)).eax 0 4 = 0)
    (hd : extractBit (e.cpuid 0x8000001D (BitVec.ofNat 32 n)).eax 0 4 = 0) : ∃ o, construct e (n + 1) = some o := by
  unfold construct
  rcases numCores_cases e with ⟨k, hk⟩ | hk
  · rw [hk]
    dsimp only
    have : ∃ o, caches e k (n + 1) = some o := by
      unfold caches
      dsimp only
      split
      · split
        · obtain ⟨o, ho⟩ := amdLoop_ends e k n hd (n + 1) 0 Caches.init (by omega) (by omega)
          have ho : amdLoop e k (n + 1) 0 Caches.init = some o := ho
          rw [ho]; exact ⟨_, rfl⟩
        · split <;> exact ⟨_, rfl⟩
      · split
        · exact intelLoop_ends e k n h4 (n + 1) 0 _ _ (by omega) (by omega)
        · exact ⟨_, rfl⟩
    obtain ⟨o, ho⟩ := this
    rw [ho]; exact ⟨_, rfl⟩
  · rw [hk]; exact ⟨_, rfl⟩

/-- A CPU given by a list of answers (leaf, sub-leaf, registers); 0 elsewhere. -/
def ofList (l : List (Nat × Nat × Regs)) : Env :=
  ⟨fun a c => ((l.find? fun x => x.1 = a.toNat ∧ x.2.1 = c.toNat).map (·.2.2)).getD ⟨0, 0, 0, 0⟩, 0⟩

/-- C55 does not hold as stated: on a CPU of any other vendor the number of cores is a division by zero. -/
theorem c55_refuted_vendor (e : Env) (hi : intel e = false) (ha : amd e = false) : ∃ n, numCores e = .ok n ∧ n.get 2 = .divZero := by
  have fi : (features e).has tINTEL.ty = false := by
    rw [has_test, features_test _ _ (by decide), base_test, vendorRules_any, hi, ha]
    unfold extRules leaf1Rules avxRules avx512Rules leaf7Rules leaf71Rules
    dsimp only
    (repeat' split) <;> simp only [List.any_append, List.any_cons, List.any_nil, reduceCtorEq, decide_false, Bool.and_false, Bool.false_and,
      Bool.or_self]
  have fa : (features e).has tAMD.ty = false := by
    rw [has_test, features_test _ _ (by decide), base_test, vendorRules_any, hi, ha]
    unfold extRules leaf1Rules avxRules avx512Rules leaf7Rules leaf71Rules
    dsimp only
    (repeat' split) <;> simp only [List.any_append, List.any_cons, List.any_nil, reduceCtorEq, decide_false, Bool.and_false, Bool.false_and,
      Bool.or_false, Bool.or_self]
  refine ⟨⟨0, 0⟩, ?_, by decide +kernel⟩
  unfold numCores
  dsimp only
  rw [fi, fa]
  rfl

/-- C55 does not hold as stated: an AMD CPU without leaf 0xB that reports more threads per compute unit than threads makes the constructor
divide by zero. -/
theorem c55_refuted_amd : construct (ofList [(0, 0, ⟨1, 0x68747541, 0x444d4163, 0x69746e65⟩), (1, 0, ⟨0x00800F00, 0x00020000, 0, 0x10000000⟩),
    (0x80000000, 0, ⟨0x8000001E, 0, 0, 0⟩), (0x80000008, 0, ⟨0, 0, 1, 0⟩), (0x8000001E, 0, ⟨0, 0x300, 0, 0⟩)]) 100 = some .divZero := by
  decide +kernel

/-- C55 does not hold as stated: an Intel CPU without leaf 0xB whose package has room for more cores than it has logical processors, and
whose first cache is unified, makes the constructor divide by zero. -/
theorem c55_refuted_intel : construct (ofList [(0, 0, ⟨4, 0x756e6547, 0x6c65746e, 0x49656e69⟩), (1, 0, ⟨0, 0x00010000, 0, 0x10000000⟩),
    (4, 0, ⟨0x04000003, 0, 0, 0⟩)]) 100 = some .divZero := by decide +kernel

/-- C55 does not hold as stated: the same Intel CPU with a data cache first is constructed, but `getNumCores(CoreLevel)` divides by zero. -/
theorem c55_refuted_cores : ∃ n c, construct (ofList [(0, 0, ⟨4, 0x756e6547, 0x6c65746e, 0x49656e69⟩), (1, 0, ⟨0, 0x00010000, 0, 0x10000000⟩),
    (4, 0, ⟨0x04000001, 0, 0, 0⟩)]) 100 = some (.ok (n, c)) ∧ n.get 2 = .divZero :=
  ⟨⟨0, 1⟩, ⟨1 :: List.replicate 9 0, 1 :: List.replicate 9 0, 1⟩, by decide +kernel, by decide +kernel⟩

/-- C55: on an AMD CPU all of whose cache leaves are instruction caches the constructor does not return. -/
theorem c55_refuted_hang : ∃ e : Env, ∀ fuel, construct e fuel = none := by
  refine ⟨⟨fun l _ => if l = 0 then ⟨1, 0x68747541, 0x444d4163, 0x69746e65⟩ else if l = 0x80000000 then ⟨0x8000001E, 0, 0, 0⟩
    else if l = 0x8000001D then ⟨2, 0, 0, 0⟩ else ⟨0, 0, 0, 0⟩, 0⟩, fun fuel => ?_⟩
  generalize he : (⟨fun l _ => if l = 0 then ⟨1, 0x68747541, 0x444d4163, 0x69746e65⟩ else if l = 0x80000000 then ⟨0x8000001E, 0, 0, 0⟩
    else if l = 0x8000001D then ⟨2, 0, 0, 0⟩ else ⟨0, 0, 0, 0⟩, 0⟩ : Env) = e
  have loop : ∀ (fuel : Nat) (s : BitVec 32), amdLoop e ⟨1, 1⟩ fuel s Caches.init = none := by
    intro fuel
    induction fuel with
    | zero => intro s; rfl
    | succ n ih =>
      intro s
      unfold amdLoop
      rw [if_pos (by decide)]
      have : extractBit (e.cpuid 0x8000001D s).eax 0 4 = 2 := by
        rw [← he]
        show extractBit 2 0 4 = 2
        decide
      dsimp only
      rw [this]
      exact ih _
  have hn : numCores e = .ok ⟨1, 1⟩ := by rw [← he]; decide +kernel
  have hc : caches e ⟨1, 1⟩ fuel = none := by
    unfold caches
    have h1 : (features e).has tAMD.ty = true := by rw [← he]; decide +kernel
    have h2 : (e.cpuid 0x80000000 0).eax ≥ 0x8000001D := by rw [← he]; decide +kernel
    dsimp only
    rw [if_pos h1, if_pos h2, loop]
    rfl
  unfold construct
  rw [hn]
  dsimp only
  rw [hc]
  rfl

/-- Signed overflow in the cache size of an older AMD CPU that reports 2 GB or more of L3 cache. -/
theorem c55_refuted_overflow : construct (ofList [(0, 0, ⟨1, 0x68747541, 0x444d4163, 0x69746e65⟩), (0x80000000, 0, ⟨0x80000006, 0, 0, 0⟩),
    (0x80000006, 0, ⟨0, 0, 0, 0x40001000⟩)]) 100 = some .overflow := by decide +kernel

/-- Two levels of an Intel CPU: 32 KB data cache, 1 MB unified cache shared by two logical processors. -/
example : ∃ n c, construct (ofList [(0, 0, ⟨0xB, 0x756e6547, 0x6c65746e, 0x49656e69⟩), (0xB, 0, ⟨1, 2, 0x100, 0⟩), (0xB, 1, ⟨4, 8, 0x200, 0⟩),
    (4, 0, ⟨0x00004021, 0x01C0003F, 63, 0⟩), (4, 1, ⟨0x00004043, 0x03C0003F, 1023, 0⟩)]) 100 = some (.ok (n, c)) ∧ n = ⟨2, 8⟩ ∧ c.levels = 2 ∧
    c.getSize 1 = .ok 1048576 ∧ c.getSharing 1 = .ok 1 ∧ c.getSize 2 = .err .BAD_PARAMETER ∧ n.get 2 = .ok 4 :=
  ⟨⟨2, 8⟩, ⟨32768 :: 1048576 :: List.replicate 8 0, 1 :: 1 :: List.replicate 8 0, 2⟩, by decide +kernel⟩

end Cpu
end Xbyak
