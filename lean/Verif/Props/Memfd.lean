import Verif.Memfd
import Verif.Props.Mem
/-!
# MmapAllocator with memfd (C99)
-/
namespace Xbyak
namespace Memfd

/-- What `Verif/Mem.lean` sees of a state -/
def St.base (s : St) : Mem.St := ⟨s.list.map fun e => (e.addr, e.size), s.mapped⟩

/-- The descriptors of the allocator and of the kernel agree. -/
structure Inv (f : Nat → Bool) (s : St) : Prop where
  opened : ∀ n, s.opened n = (f n || own s n)
  other : ∀ n, own s n = true → f n = false
  inj : s.list.Pairwise fun e e' => e.fd = none ∨ e.fd ≠ e'.fd
  len : ∀ e ∈ s.list, ∀ fd, e.fd = some fd → s.len fd = e.size
  bad : s.bad = false

theorem own_iff {s : St} {n : Nat} : own s n = true ↔ ∃ e ∈ s.list, e.fd = some n := by
  simp [own]

theorem base_filter (l : List Entry) (p : Nat) :
    (l.filter (·.addr ≠ p)).map (fun e => (e.addr, e.size)) = (l.map fun e => (e.addr, e.size)).filter (·.1 ≠ p) := by
  rw [List.filter_map]; rfl

/-- What `mmap` would have to answer in the build without memfd for the same effect on the mappings -/
def Op.base : Op → Mem.Op
  | .alloc n k => .alloc n (if k.fd.isSome && !k.trunc then none else k.map)
  | .free p k => .free p k

theorem base_step (page : Word) (s : St) (o : Op) : (step page s o).base = Mem.step page s.base o.base := by
  cases o with
  | alloc n k =>
    obtain ⟨fd, t, m⟩ := k
    cases fd <;> cases t <;> cases m <;> simp only [step, alloc, allocMap, Out.st, St.base, Op.base, Mem.step, Mem.alloc, closeIf, close, Mem.insert, List.map_cons,
      base_filter, Option.isSome, Bool.and_self, Bool.and_false, Bool.not_true, Bool.not_false, Bool.and_true, if_true, if_false, Bool.false_eq_true]
  | free p k =>
    simp only [step, free, Op.base, Mem.step, Mem.free]
    by_cases hp : p = 0
    · rw [if_pos hp, if_pos hp]; rfl
    rw [if_neg hp, if_neg hp]
    have hf : s.base.list.find? (·.1 = p) = (s.list.find? (·.addr = p)).map fun e => (e.addr, e.size) := by
      unfold St.base
      rw [List.find?_map]; rfl
    rw [hf]
    cases s.list.find? (·.addr = p) with
    | none => rfl
    | some e =>
      obtain ⟨a, sz, fd⟩ := e
      cases k
      · rfl
      · cases fd <;> simp only [Out.st, Option.map, closeIf, close, St.base, base_filter, if_true]

/-- C99: in the build with memfd the allocator does with the mappings what it does without (C52 holds for it as well). -/
theorem c99_maps {page : Word} {m₀ f : Nat → Bool} {s : St} (h : Reach page m₀ f s) : Mem.Reach page m₀ s.base := by
  induction h with
  | new f l => exact .new
  | @step f s o _ ha ih =>
    rw [base_step]
    refine .step _ ih ?_
    cases o with
    | alloc n k =>
      obtain ⟨-, h2⟩ := ha
      show Mem.mmapOK _ _ _ (if k.fd.isSome && !k.trunc then none else k.map)
      cases k.fd.isSome && !k.trunc
      · exact h2
      · trivial
    | free p k => trivial
  | env _ _ ih => exact ih

theorem find_mem {l : List Entry} {p : Nat} {e : Entry} (h : l.find? (·.addr = p) = some e) : e ∈ l ∧ e.addr = p := by
  have := List.find?_some h
  exact ⟨List.mem_of_find?_eq_some h, by simpa using this⟩

/-- In a list in which no two elements have the same descriptor -/
theorem inj_eq {l : List Entry} (h : l.Pairwise fun e e' => e.fd = none ∨ e.fd ≠ e'.fd) {e e' : Entry} {n : Nat} (he : e ∈ l) (he' : e' ∈ l)
    (h1 : e.fd = some n) (h2 : e'.fd = some n) : e = e' := by
  induction l with
  | nil => cases he
  | cons a l ih =>
    rw [List.pairwise_cons] at h
    rcases List.mem_cons.1 he with g1 | g1 <;> rcases List.mem_cons.1 he' with g2 | g2
    · rw [g1, g2]
    · subst g1
      rcases h.1 e' g2 with g | g
      · rw [h1] at g; cases g
      · exact absurd (h1.trans h2.symm) g
    · subst g2
      rcases h.1 e g1 with g | g
      · rw [h2] at g; cases g
      · exact absurd (h2.trans h1.symm) g
    · exact ih h.2 g1 g2

/-- An address that is not mapped is not in the list. -/
theorem fresh_addr {page : Word} {k : Nat} (hp : page.toNat = 2 ^ k) {m₀ : Nat → Bool} {s : St} (h : Mem.Reach page m₀ s.base) {p size : Nat}
    (ha : Mem.mmapOK page.toNat s.mapped size (some p)) : s.list.filter (·.addr ≠ p) = s.list := by
  rw [List.filter_eq_self]
  intro e he
  have i := Mem.reach_inv hp h
  have h0 : 0 < page.toNat := by rw [hp]; exact Nat.two_pow_pos k
  obtain ⟨a1, a2, a3, a4, a5⟩ := ha
  have hm : (e.addr, e.size) ∈ s.base.list := List.mem_map_of_mem (f := fun e : Entry => (e.addr, e.size)) he
  obtain ⟨e1, e2, e3, -, -⟩ := i.entry _ hm
  rw [decide_eq_true_iff]
  intro hk
  have := (i.mapped (p / page.toNat)).2 (.inr ⟨_, hm, hk ▸ Mem.self_overlap h0 e3 e2⟩)
  rw [show s.base.mapped = s.mapped from rfl, a5 _ (Mem.self_overlap h0 a1 a3)] at this
  cases this

/-- Opening a new descriptor and closing it again changes nothing. -/
theorem close_new {s : St} {fd : Nat} (h : s.opened fd = false) (l : Nat → Nat) :
    close fd { s with opened := fun n => s.opened n || decide (n = fd), len := l } = { s with len := l } := by
  have : (fun n => (s.opened n || decide (n = fd)) && decide (n ≠ fd)) = s.opened := by
    funext n
    by_cases hn : n = fd
    · subst hn; simp [h]
    · simp [hn]
  simp only [close, this]
  simp

/-- C99: an `alloc` that fails leaves mappings, descriptors and the list as they were. -/
theorem c99_failed {page n : Word} {k : Ans} {s s' : St} {e : Err} (ha : Allowed page s (.alloc n k)) (h : alloc page n k s = .err e s') :
    s'.list = s.list ∧ s'.mapped = s.mapped ∧ s'.opened = s.opened ∧ s'.bad = s.bad := by
  obtain ⟨fd, t, m⟩ := k
  obtain ⟨hn, -⟩ := ha
  cases fd with
  | none =>
    cases m with
    | none => cases h; exact ⟨rfl, rfl, rfl, rfl⟩
    | some p => cases h
  | some fd =>
    have hn' : s.opened fd = false := hn fd rfl
    cases t with
    | false =>
      have : close fd { s with opened := fun n => s.opened n || decide (n = fd) } = s' := by
        simp only [alloc, Bool.false_eq_true, if_false] at h
        injection h
      have c := close_new hn' s.len
      rw [← this, c]
      exact ⟨rfl, rfl, rfl, rfl⟩
    | true =>
      cases m with
      | none =>
        simp only [alloc, allocMap, if_true, closeIf] at h
        injection h with _ h
        rw [← h, close_new hn']
        exact ⟨rfl, rfl, rfl, rfl⟩
      | some p => cases h

/-- A state that differs in the lengths of files of others only -/
theorem Inv.congr {f : Nat → Bool} {s s' : St} (h : Inv f s) (h1 : s'.list = s.list) (h2 : s'.opened = s.opened) (h3 : s'.bad = s.bad)
    (h4 : ∀ n, own s n = true → s'.len n = s.len n) : Inv f s' := by
  have ho : ∀ n, own s' n = own s n := fun n => by unfold own; rw [h1]
  refine ⟨fun n => by rw [h2, ho, h.opened], fun n hn => h.other n (by rw [← ho]; exact hn), by rw [h1]; exact h.inj, ?_, by rw [h3]; exact h.bad⟩
  intro e he fd hf
  rw [h1] at he
  rw [h4 fd (own_iff.2 ⟨e, he, hf⟩)]
  exact h.len e he fd hf

/-- A new entry -/
theorem Inv.cons {f : Nat → Bool} {s s' : St} {e : Entry} (h : Inv f s) (hl : s'.list = e :: s.list)
    (ho : ∀ n, s'.opened n = (s.opened n || e.fd == some n)) (hn : ∀ n, e.fd = some n → s.opened n = false)
    (h4 : ∀ n, own s n = true → s'.len n = s.len n) (h5 : ∀ n, e.fd = some n → s'.len n = e.size) (h3 : s'.bad = s.bad) : Inv f s' := by
  have hw : ∀ n, own s' n = (e.fd == some n || own s n) := fun n => by unfold own; rw [hl, List.any_cons]
  refine ⟨?_, ?_, ?_, ?_, by rw [h3]; exact h.bad⟩
  · intro n
    rw [ho, hw, h.opened]
    cases f n <;> cases own s n <;> simp
  · intro n h1
    rw [hw, Bool.or_eq_true, beq_iff_eq] at h1
    rcases h1 with h1 | h1
    · have := hn n h1
      rw [h.opened, Bool.or_eq_false_iff] at this
      exact this.1
    · exact h.other n h1
  · rw [hl, List.pairwise_cons]
    refine ⟨?_, h.inj⟩
    intro e' he'
    cases hf : e.fd with
    | none => exact .inl rfl
    | some n =>
      refine .inr fun hx => ?_
      have := hn n hf
      rw [h.opened, Bool.or_eq_false_iff, own_iff.2 ⟨e', he', hx.symm⟩] at this
      cases this.2
  · intro e' he' fd hf
    rw [hl] at he'
    rcases List.mem_cons.1 he' with rfl | he'
    · exact h5 fd hf
    · rw [h4 fd (own_iff.2 ⟨e', he', hf⟩)]
      exact h.len e' he' fd hf

/-- The entries of the others -/
theorem Inv.drop {f : Nat → Bool} {s s' : St} {e : Entry} (h : Inv f s) (he : e ∈ s.list) (hu : ∀ e' ∈ s.list, e'.addr = e.addr → e' = e)
    (hl : s'.list = s.list.filter (·.addr ≠ e.addr)) (ho : ∀ n, s'.opened n = (s.opened n && e.fd != some n))
    (h4 : s'.len = s.len) (h3 : s'.bad = s.bad) : Inv f s' := by
  have mem : ∀ e', e' ∈ s'.list ↔ e' ∈ s.list ∧ e' ≠ e := by
    intro e'
    rw [hl, List.mem_filter, decide_eq_true_iff]
    exact ⟨fun ⟨g1, g2⟩ => ⟨g1, fun hx => g2 (by rw [hx])⟩, fun ⟨g1, g2⟩ => ⟨g1, fun hx => g2 (hu e' g1 hx)⟩⟩
  have hw : ∀ n, own s' n = (own s n && e.fd != some n) := by
    intro n
    rw [Bool.eq_iff_iff, own_iff, Bool.and_eq_true, own_iff, bne_iff_ne]
    constructor
    · rintro ⟨e', h1, h2⟩
      obtain ⟨g1, g2⟩ := (mem e').1 h1
      exact ⟨⟨e', g1, h2⟩, fun hx => g2 (inj_eq h.inj g1 he h2 hx)⟩
    · rintro ⟨⟨e', h1, h2⟩, h3⟩
      exact ⟨e', (mem e').2 ⟨h1, fun hx => h3 (hx ▸ h2)⟩, h2⟩
  refine ⟨?_, ?_, by rw [hl]; exact h.inj.sublist List.filter_sublist, fun e' he' => by rw [h4]; exact h.len e' ((mem e').1 he').1, by rw [h3]; exact h.bad⟩
  · intro n
    rw [ho, hw, h.opened]
    cases hx : e.fd == some n
    · simp [bne, hx]
    · have hy := h.other n (own_iff.2 ⟨e, he, eq_of_beq hx⟩)
      simp [bne, hx, hy]
  · intro n hn
    rw [hw, Bool.and_eq_true] at hn
    exact h.other n hn.1

theorem inv_step {page : Word} {k : Nat} (hp : page.toNat = 2 ^ k) {m₀ f : Nat → Bool} {s : St} (hb : Mem.Reach page m₀ s.base) (h : Inv f s) (o : Op)
    (ha : Allowed page s o) : Inv f (step page s o) := by
  cases o with
  | alloc n k =>
    obtain ⟨fd, t, m⟩ := k
    have ha' := ha
    obtain ⟨hn, hm⟩ := ha
    cases he : alloc page n ⟨fd, t, m⟩ s with
    | err e s' =>
      obtain ⟨g1, g2, g3, g4⟩ := c99_failed ha' he
      show Inv f (alloc page n ⟨fd, t, m⟩ s).st
      rw [he]
      refine h.congr g1 g3 g4 fun j hj => ?_
      have hj' : s.opened j = true := by rw [h.opened, hj, Bool.or_true]
      cases fd with
      | none =>
        cases m with
        | none => cases he; rfl
        | some p => cases he
      | some fd =>
        have hfd : s.opened fd = false := hn fd rfl
        have hne : j ≠ fd := fun hx => by rw [hx, hfd] at hj'; cases hj'
        cases t with
        | false =>
          simp only [alloc, Bool.false_eq_true, if_false] at he
          injection he with _ he
          rw [← he]; rfl
        | true =>
          cases m with
          | none =>
            simp only [alloc, allocMap, if_true, closeIf] at he
            injection he with _ he
            rw [← he]
            exact if_neg hne
          | some p => cases he
    | ok q s' =>
      show Inv f (alloc page n ⟨fd, t, m⟩ s).st
      rw [he]
      cases fd with
      | none =>
        cases m with
        | none => cases he
        | some p =>
          have hf := fresh_addr hp hb hm
          simp only [alloc, allocMap, hf] at he
          injection he with _ he
          subst he
          exact h.cons rfl (fun j => by simp [Out.st]) (by simp) (fun _ _ => rfl) (by simp) rfl
      | some fd =>
        have hfd : s.opened fd = false := hn fd rfl
        cases t with
        | false => cases he
        | true =>
          cases m with
          | none => cases he
          | some p =>
            have hf := fresh_addr hp hb hm
            simp only [alloc, allocMap, hf, if_true] at he
            injection he with _ he
            subst he
            refine h.cons rfl (fun j => ?_) (fun j hj => ?_) (fun j hj => ?_) (fun j hj => ?_) rfl
            · show (s.opened j || decide (j = fd)) = (s.opened j || some fd == some j)
              by_cases hx : j = fd
              · subst hx; simp
              · have : ¬ fd = j := fun h => hx h.symm
                simp [hx, this]
            · cases hj; exact hfd
            · refine if_neg fun hx => ?_
              have hj' : s.opened j = true := by rw [h.opened, hj, Bool.or_true]
              rw [hx, hfd] at hj'; cases hj'
            · cases hj; exact if_pos rfl
  | free p k =>
    show Inv f (free page p k s).st
    unfold free
    by_cases hz : p = 0
    · rw [if_pos hz]; exact h
    rw [if_neg hz]
    cases hf : s.list.find? (·.addr = p) with
    | none => exact h
    | some e =>
      obtain ⟨hm, hk⟩ := find_mem hf
      subst hk
      dsimp only
      cases k
      · exact h
      rw [if_pos rfl]
      have hu : ∀ e' ∈ s.list, e'.addr = e.addr → e' = e := by
        have i := Mem.reach_inv hp hb
        have hk : (s.list.map (·.addr)).Nodup := by
          have := i.keys
          unfold St.base at this
          rwa [List.map_map] at this
        clear hf i ha hb h hz
        generalize s.list = l at *
        intro e' he' hx
        induction l with
        | nil => cases he'
        | cons a l ih =>
          rw [List.map_cons, List.nodup_cons] at hk
          rcases List.mem_cons.1 he' with h1 | h1 <;> rcases List.mem_cons.1 hm with h2 | h2
          · rw [h1, h2]
          · subst h1; exact absurd (hx ▸ List.mem_map_of_mem h2) hk.1
          · subst h2; exact absurd (hx ▸ List.mem_map_of_mem h1) hk.1
          · exact ih h2 hk.2 h1
      cases hd : e.fd with
      | none => exact h.drop hm hu rfl (fun j => by simp [hd, Out.st, closeIf]) rfl rfl
      | some fd =>
        refine h.drop hm hu rfl (fun j => ?_) rfl ?_
        · show (s.opened j && decide (j ≠ fd)) = (s.opened j && e.fd != some j)
          rw [hd]
          by_cases hx : j = fd
          · subst hx; simp
          · have : ¬ fd = j := fun h => hx h.symm
            simp [hx, this]
        · show (s.bad || !s.opened fd) = s.bad
          rw [h.opened, own_iff.2 ⟨e, hm, hd⟩]
          simp

theorem reach_inv {page : Word} {k : Nat} (hp : page.toNat = 2 ^ k) {m₀ f : Nat → Bool} {s : St} (h : Reach page m₀ f s) : Inv f s := by
  induction h with
  | new f l => exact ⟨by simp [own], by simp [own], by simp, by simp, rfl⟩
  | step o hr ha ih => exact inv_step hp (c99_maps hr) ih o ha
  | env _ he ih =>
    exact ⟨fun n => rfl, fun n hn => (he n hn).1, ih.inj, fun e hm fd hf => by rw [← ih.len e hm fd hf]; exact (he fd (own_iff.2 ⟨e, hm, hf⟩)).2, ih.bad⟩

/-- C99: after any history, the open descriptors of the process are those of the rest of the program and those of the living allocations,
which are all different and different from the others; every one has a file as long as its mapping; and no descriptor was closed that was
not open. -/
theorem c99_exact {page : Word} {k : Nat} (hp : page.toNat = 2 ^ k) {m₀ f : Nat → Bool} {s : St} (h : Reach page m₀ f s) :
    (∀ n, s.opened n = true ↔ (f n = true ∨ ∃ e ∈ s.list, e.fd = some n)) ∧ (∀ e ∈ s.list, ∀ n, e.fd = some n → f n = false ∧ s.len n = e.size) ∧
      (∀ e ∈ s.list, ∀ e' ∈ s.list, ∀ n, e.fd = some n → e'.fd = some n → e = e') ∧ s.bad = false := by
  have i := reach_inv hp h
  refine ⟨fun n => ?_, fun e he n hn => ⟨i.other n (own_iff.2 ⟨e, he, hn⟩), i.len e he n hn⟩, fun e he e' he' n => inj_eq i.inj he he', i.bad⟩
  rw [i.opened, Bool.or_eq_true, own_iff]

/-- C99: when everything is freed, no descriptor is left behind. -/
theorem c99_none_left {page : Word} {k : Nat} (hp : page.toNat = 2 ^ k) {m₀ f : Nat → Bool} {s : St} (h : Reach page m₀ f s) (he : s.list = []) :
    s.opened = f ∧ s.mapped = m₀ := by
  constructor
  · funext n
    rw [(reach_inv hp h).opened, own, he]; simp
  · funext n
    have := (Mem.c52_exact hp (c99_maps h)).1 n
    rw [St.base, he] at this
    rw [Bool.eq_iff_iff]
    refine this.trans ⟨fun g => ?_, Or.inl⟩
    rcases g with g | ⟨e, h1, _⟩
    · exact g
    · cases h1

/-- C99: `free` closes the descriptor of the allocation and no other. -/
theorem c99_free {page : Word} {s s' : St} {p : Nat} {ker : Bool}
    (h0 : p ≠ 0) (he : free page p ker s = .ok () s') :
    ∃ e ∈ s.list, e.addr = p ∧ (∀ n, s'.opened n = (s.opened n && e.fd != some n)) ∧ e ∉ s'.list := by
  unfold free at he
  rw [if_neg h0] at he
  cases hf : s.list.find? (·.addr = p) with
  | none => rw [hf] at he; cases he
  | some e =>
    rw [hf] at he
    obtain ⟨hm, hk⟩ := find_mem hf
    cases ker
    · cases he
    simp only [if_true] at he
    injection he with _ he
    subst he
    refine ⟨e, hm, hk, fun n => ?_, ?_⟩
    · cases hd : e.fd with
      | none => simp [closeIf]
      | some fd =>
        show (s.opened n && decide (n ≠ fd)) = _
        by_cases hx : n = fd
        · subst hx; simp
        · have : ¬ fd = n := fun h => hx h.symm
          simp [hx, this]
    · intro hx
      have hx : e ∈ (closeIf e.fd { s with mapped := fun n => s.mapped n && !Mem.overlaps page.toNat e.addr e.size n }).list.filter (·.addr ≠ p) := hx
      have := (List.mem_filter.1 hx).2
      simp [hk] at this

/-- Two allocations, one of them without a file, the first freed: descriptor 3 is closed, 0-2 stay. -/
example :
    let s₀ : St := ⟨[], fun _ => false, fun n => decide (n < 3), fun _ => 0, false⟩
    let s₁ := step 4096 s₀ (.alloc 5000 ⟨some 3, true, some 0x7000⟩)
    let s₂ := step 4096 s₁ (.alloc 100 ⟨none, true, some 0xA000⟩)
    let s₃ := step 4096 s₂ (.alloc 100 ⟨some 4, false, some 0xC000⟩)
    let s₄ := step 4096 s₃ (.free 0x7000 true)
    s₃.list = [⟨0xA000, 4096, none⟩, ⟨0x7000, 8192, some 3⟩] ∧ s₃.opened 3 = true ∧ s₃.opened 4 = false ∧ s₃.len 3 = 8192 ∧ s₄.opened 3 = false ∧
      s₄.opened 2 = true ∧ s₄.bad = false := by decide +kernel

end Memfd
end Xbyak
