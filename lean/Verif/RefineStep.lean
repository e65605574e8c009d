import Verif.Refine
/-! # Every successful call is a step of the symbolic assembler -/
namespace Xbyak
open CA G
namespace Asm

theorem Tab.ca {g g' : G} {sp : Spec} (h : Tab g sp) (hf : g' = { g with ca := g'.ca }) : Tab g' sp := by
  rw [hf]
  exact ⟨h.near, h.labelId, h.idPos, h.objs, h.objDef, h.fresh, h.freshU, h.glob, h.globU, h.anonCur, h.anonPrev, h.anonDef,
    h.locLen, h.loc, h.nodup, h.scopeLt, h.scopeFresh⟩

theorem Entry.ca {g g' : G} {sp : Spec} (hf : g' = { g with ca := g'.ca }) (k j) : Entry g' sp k j ↔ Entry g sp k j := by
  rw [hf]; cases k <;> exact Iff.rfl

/-- Entries depend on the specification state through the scopes and the anonymous counter only. -/
theorem Entry.sp {g : G} {sp sp' : Spec} (h1 : sp'.anons = sp.anons) (h2 : sp'.scopes = sp.scopes) (k j) :
    Entry g sp' k j ↔ Entry g sp k j := by
  cases k <;> simp only [Entry, h1, h2]

/-! ## first use of a label object -/

theorem sp_touch_cells (sp : Spec) (l : LRef) : (sp.touch l).cells = sp.cells := by
  cases l with
  | str s => rfl
  | obj h => simp only [Spec.touch]; split <;> rfl
theorem sp_touch_defs (sp : Spec) (l : LRef) : (sp.touch l).defs = sp.defs := by
  cases l with
  | str s => rfl
  | obj h => simp only [Spec.touch]; split <;> rfl
theorem sp_touch_anons (sp : Spec) (l : LRef) : (sp.touch l).anons = sp.anons := by
  cases l with
  | str s => rfl
  | obj h => simp only [Spec.touch]; split <;> rfl
theorem sp_touch_scopes (sp : Spec) (l : LRef) : (sp.touch l).scopes = sp.scopes := by
  cases l with
  | str s => rfl
  | obj h => simp only [Spec.touch]; split <;> rfl
theorem sp_touch_defNear (sp : Spec) (l : LRef) : (sp.touch l).defNear = sp.defNear := by
  cases l with
  | str s => rfl
  | obj h => simp only [Spec.touch]; split <;> rfl

theorem Entry.touch (g : G) (sp : Spec) (l : LRef) (k j) : Entry (touch l g) (sp.touch l) k j ↔ Entry g sp k j := by
  rw [Entry.sp (sp_touch_anons sp l) (sp_touch_scopes sp l)]
  cases k <;> simp only [Entry, touch_cundef, touch_glob, touch_locals]

theorem Tab.touch {g : G} {sp : Spec} (h : Tab g sp) (hl : Life g) (l : LRef) : Tab (touch l g) (sp.touch l) := by
  cases l with
  | str s => exact h
  | obj x =>
    unfold G.touch Spec.touch
    have ho := h.objs x
    cases hx : g.heap x with
    | none =>
      rw [hx] at ho
      simp only [Option.map_none] at ho
      simp only [ho, hx]
      simpa using h
    | some o =>
      rw [hx] at ho
      simp only [Option.map_some] at ho
      simp only [ho, hx]
      by_cases h0 : o.id = 0
      · rw [if_pos h0, if_pos (by rw [h0])]
        have hp := h.idPos
        have hmgr : o.mgr = false := Bool.eq_false_iff.mpr fun hm => hl.ptr.nz x o hx hm h0
        have fr := h.fresh sp.nextId (.inr (Nat.le_refl _))
        refine ⟨h.near, by simp only; rw [h.labelId], by simp only; omega, ?_, ?_, ?_, ?_, h.glob, h.globU, h.anonCur,
          h.anonPrev, h.anonDef, h.locLen, h.loc, h.nodup, h.scopeLt, h.scopeFresh⟩
        · intro y
          simp only [upd]
          split
          · rw [h.labelId]; rfl
          · exact h.objs y
        · intro y o' hy hid
          simp only [upd] at hy
          split at hy
          · subst_vars
            cases hy
            simp only [h.labelId] at hid ⊢
            refine ⟨by omega, by rw [fr.1, fr.2]; rfl, fun _ => ⟨fr.1, ?_⟩⟩
            intro z oz hz hidz
            simp only [upd] at hz
            split at hz
            · assumption
            · have := (h.objDef z oz hz (by omega)).1
              omega
          · rename_i hyx
            obtain ⟨h1, h2, h3⟩ := h.objDef y o' hy hid
            refine ⟨by simp only; omega, h2, fun hm => ⟨(h3 hm).1, ?_⟩⟩
            intro z oz hz hidz
            simp only [upd] at hz
            split at hz
            · cases hz
              simp only [h.labelId] at hidz
              omega
            · exact (h3 hm).2 z oz hz hidz
        · intro n hn
          refine h.fresh n ?_
          simp only at hn; omega
        · intro n j hj
          have := h.freshU n j hj
          simp only; omega
      · rw [if_neg h0, if_neg (by simpa using h0)]
        exact h

theorem Inv.touch {cx : Cx} {g : G} {sp : Spec} (h : Inv cx g sp) (hl : Life g) (l : LRef) :
    Inv cx (touch l g) (sp.touch l) := by
  refine ⟨?_, ?_, ⟨?_, ?_⟩, h.tab.touch hl l⟩
  · rw [touch_ca, sp_touch_cells, sp_touch_defs]; exact h.buf
  · rw [sp_touch_cells, sp_touch_defs]; exact h.vals
  · intro k j he
    rw [sp_touch_cells, sp_touch_defs]
    exact h.pend.ok k j ((Entry.touch g sp l k j).mp he)
  · intro p f k d
    rw [sp_touch_cells, sp_touch_defs]
    intro h1 h2 h3
    obtain ⟨j, h4, h5⟩ := h.pend.ex p f k d h1 h2 h3
    exact ⟨j, (Entry.touch g sp l k j).mpr h4, h5⟩

/-! ## looking a label up -/

theorem nm_ne (n : Nat) : nm n ≠ nm (n + 1) := by
  unfold nm
  by_cases h : n % 2 = 0
  · rw [if_pos h, if_neg (by omega)]; decide
  · rw [if_neg h, if_pos (by omega)]; decide

theorem nm_cases (n : Nat) : (nm n = "@f" ∧ nm (n + 1) = "@b") ∨ (nm n = "@b" ∧ nm (n + 1) = "@f") := by
  unfold nm
  by_cases h : n % 2 = 0
  · rw [if_pos h, if_neg (by omega)]; exact .inl ⟨rfl, rfl⟩
  · rw [if_neg h, if_pos (by omega)]; exact .inr ⟨rfl, rfl⟩

/-- Where a reference is recorded. -/
def KeyLoc (g : G) (sp : Spec) (l' : LRef) (k : Key) : Prop :=
  match l' with
  | .obj h => ∃ o, g.heap h = some o ∧ k = .obj o.id ∧ o.id < sp.nextId
  | .str s => (isDot s = true ∧ ∃ σ, sp.scopes.head? = some σ ∧ k = .loc σ s) ∨
      (isDot s = false ∧ s ≠ "@b" ∧ s ≠ "@f" ∧ k = .name s) ∨ (s = nm sp.anons ∧ k = .anon sp.anons)

theorem resolved_key {cx : Cx} {g : G} {sp : Spec} (h : Inv cx g sp) (hs : BufSafe g) {l l' : LRef} {off : Option Nat}
    (hid : ∀ x o, l = .obj x → g.heap x = some o → o.id ≠ 0)
    (hr : Resolved g l (l', off)) :
    ∃ k, sp.keyRef l = some k ∧ off = sp.defs k ∧ (off = none → KeyLoc g sp l' k) := by
  have ht := h.tab
  cases l with
  | obj x =>
    obtain ⟨o, ho, he⟩ := hr
    cases he
    have h1 := ht.objDef x o ho (hid x o rfl ho)
    refine ⟨.obj o.id, ?_, h1.2.1, fun _ => ⟨o, ho, rfl, h1.1⟩⟩
    simp only [Spec.keyRef, ht.objs x, ho, Option.map_some]
  | str s =>
    obtain ⟨s', hn, he⟩ := hr
    cases he
    have hloc : isDot "@f" = false ∧ isDot "@b" = false := by decide
    -- value of the two table names
    have hcur := ht.anonCur
    have hprev := ht.anonPrev
    have hdef := ht.anonDef
    have slk : ∀ n, isDot n = false → slook g n = g.glob.defs n := by
      intro n hn
      unfold slook
      rw [if_neg (by rw [show isLocalName n = isDot n from rfl, hn]; simp)]
    unfold rname at hn
    by_cases hb : s = "@b"
    · subst hb
      simp only [if_true] at hn
      simp only [Spec.keyRef, if_true]
      by_cases h0 : sp.anons = 0
      · rw [h0] at hcur hprev
        have e1 : nm 0 = "@f" := by decide
        have e2 : nm 1 = "@b" := by decide
        rw [e1] at hcur
        simp only [Nat.zero_add, e2, if_true] at hprev
        rw [hcur, hprev] at hn
        cases hn
      · rw [if_neg h0]
        rw [if_neg h0] at hprev
        have hsome : sp.defs (.anon (sp.anons - 1)) ≠ none := by
          rw [Ne, hdef]; omega
        refine ⟨_, rfl, ?_, ?_⟩
        · rcases nm_cases sp.anons with ⟨e1, e2⟩ | ⟨e1, e2⟩
          · rw [e1] at hcur; rw [e2] at hprev
            rw [hcur, hprev] at hn
            cases hd : sp.defs (.anon (sp.anons - 1)) with
            | none => exact absurd hd hsome
            | some o =>
              rw [hd] at hn; cases hn
              rw [slk _ hloc.2, hprev, hd]
          · rw [e1] at hcur; rw [e2] at hprev
            rw [hcur, hprev] at hn
            cases hd : sp.defs (.anon (sp.anons - 1)) with
            | none => exact absurd hd hsome
            | some o =>
              rw [hd] at hn; cases hn
              rw [slk _ hloc.1, hprev, hd]
        · intro hoff
          exfalso
          rcases nm_cases sp.anons with ⟨e1, e2⟩ | ⟨e1, e2⟩
          · rw [e1] at hcur; rw [e2] at hprev
            rw [hcur, hprev] at hn
            cases hd : sp.defs (.anon (sp.anons - 1)) with
            | none => exact absurd hd hsome
            | some o =>
              rw [hd] at hn; cases hn
              rw [slk _ hloc.2, hprev, hd] at hoff; cases hoff
          · rw [e1] at hcur; rw [e2] at hprev
            rw [hcur, hprev] at hn
            cases hd : sp.defs (.anon (sp.anons - 1)) with
            | none => exact absurd hd hsome
            | some o =>
              rw [hd] at hn; cases hn
              rw [slk _ hloc.1, hprev, hd] at hoff; cases hoff
    · rw [if_neg hb] at hn
      by_cases hf : s = "@f"
      · subst hf
        simp only [if_true] at hn
        have hkey : sp.keyRef (.str "@f") = some (.anon sp.anons) := by
          simp only [Spec.keyRef, if_true]
          rw [if_neg (by decide)]
        have hnone : sp.defs (.anon sp.anons) = none := (hdef _).mpr (Nat.le_refl _)
        have hs' : s' = nm sp.anons := by
          rcases nm_cases sp.anons with ⟨e1, e2⟩ | ⟨e1, e2⟩
          · rw [e1] at hcur
            rw [hcur] at hn; cases hn; exact e1.symm
          · rw [e2] at hprev
            have h0 : sp.anons ≠ 0 := by
              intro h0; rw [h0] at e1; exact absurd e1 (by decide)
            rw [if_neg h0] at hprev
            have hsome : sp.defs (.anon (sp.anons - 1)) ≠ none := by rw [Ne, hdef]; omega
            cases hd : sp.defs (.anon (sp.anons - 1)) with
            | none => exact absurd hd hsome
            | some o => rw [hprev, hd] at hn; cases hn; exact e1.symm
        subst hs'
        refine ⟨_, hkey, ?_, fun _ => .inr (.inr ⟨rfl, rfl⟩)⟩
        rw [slk, hcur, hnone]
        rcases nm_cases sp.anons with ⟨e1, _⟩ | ⟨e1, _⟩ <;> rw [e1]
        · exact hloc.1
        · exact hloc.2
      · rw [if_neg hf] at hn
        cases hn
        by_cases hd : isDot s = true
        · have hne := hs.loc
          have hlen := ht.locLen
          cases hg : g.locals with
          | nil => exact absurd hg hne
          | cons st rest =>
            cases hsc : sp.scopes with
            | nil => rw [hsc, hg] at hlen; simp at hlen
            | cons σ σs =>
              have hz : (σ, st) ∈ sp.scopes.zip g.locals := by rw [hg, hsc]; simp
              refine ⟨.loc σ s, ?_, ?_, fun _ => .inl ⟨hd, σ, by simp [hsc], rfl⟩⟩
              · simp only [Spec.keyRef, if_neg hb, if_neg hf, if_pos hd, hsc, List.head?_cons, Option.map_some]
              · rw [← (ht.loc σ st hz).1 s hd]
                unfold slook
                rw [if_pos (show isLocalName s = true from hd), hg]
        · have hd' : isDot s = false := by simpa using hd
          refine ⟨.name s, ?_, ?_, fun _ => .inr (.inl ⟨hd', hb, hf, rfl⟩)⟩
          · simp only [Spec.keyRef, if_neg hb, if_neg hf, if_neg hd]
          · rw [slk s hd', ht.glob s hd' hb hf]

theorem mem_insertAt {α : Type} (n : Nat) (x y : α) (l : List α) : y ∈ insertAt n x l ↔ y = x ∨ y ∈ l := by
  unfold insertAt
  constructor
  · intro h
    rcases List.mem_append.mp h with h | h
    · exact .inr (List.mem_of_mem_take h)
    · rcases List.mem_cons.mp h with h | h
      · exact .inl h
      · exact .inr (List.mem_of_mem_drop h)
  · rintro (rfl | h)
    · simp
    · have : y ∈ l.take n ++ l.drop n := by rw [List.take_append_drop]; exact h
      rcases List.mem_append.mp this with h | h
      · exact List.mem_append_left _ h
      · exact List.mem_append_right _ (List.mem_cons_of_mem _ h)

theorem zip_head {α β : Type} {a : α} {b : β} {as : List α} {bs : List β} (hn : (a :: as).Nodup) {x : α} {y : β} :
    (x, y) ∈ (a :: as).zip (b :: bs) ↔ (x = a ∧ y = b) ∨ (x ≠ a ∧ (x, y) ∈ as.zip bs) := by
  simp only [List.zip_cons_cons, List.mem_cons, Prod.mk.injEq]
  constructor
  · rintro (h | h)
    · exact .inl h
    · refine .inr ⟨?_, h⟩
      rintro rfl
      exact (List.nodup_cons.mp hn).1 (List.of_mem_zip h).1
  · rintro (h | ⟨_, h⟩)
    · exact .inl h
    · exact .inr h

theorem addU_entry {g : G} {sp : Spec} (ht : Tab g sp) (env : Env) {l' : LRef} {k : Key} (hk : KeyLoc g sp l' k) (j : JmpLabel)
    (k' : Key) (j' : JmpLabel) : Entry (addU env l' j g) sp k' j' ↔ Entry g sp k' j' ∨ (k' = k ∧ j' = j) := by
  cases l' with
  | obj x =>
    obtain ⟨o, ho, rfl, _⟩ := hk
    simp only [addU, ho, Option.getD_some]
    cases k' with
    | obj n =>
      simp only [Entry, mem_insertAt, Prod.mk.injEq, Key.obj.injEq]
      constructor
      · rintro (h | h)
        · exact .inr h
        · exact .inl h
      · rintro (h | h)
        · exact .inr h
        · exact .inl h
    | name s => simp [Entry]
    | anon i => simp [Entry]
    | loc σ s => simp [Entry]
  | str s =>
    rcases hk with ⟨hd, σ, hσ, rfl⟩ | ⟨hd, hb, hf, rfl⟩ | ⟨rfl, rfl⟩
    · cases hg : g.locals with
      | nil =>
        have := ht.locLen
        rw [hg] at this
        cases hsc : sp.scopes with
        | nil => rw [hsc] at hσ; cases hσ
        | cons a b => rw [hsc] at this; simp at this
      | cons st rest =>
        cases hsc : sp.scopes with
        | nil => rw [hsc] at hσ; cases hσ
        | cons σ' σs =>
          rw [hsc] at hσ
          simp only [List.head?_cons, Option.some.injEq] at hσ
          subst hσ
          have hn := ht.nodup
          rw [hsc] at hn
          simp only [addU, show isLocalName s = isDot s from rfl, hd, if_true, hg]
          cases k' with
          | obj n => simp [Entry]
          | name s => simp [Entry]
          | anon i => simp [Entry]
          | loc τ s' =>
            simp only [Entry, hsc, hg, Key.loc.injEq]
            constructor
            · rintro ⟨st', h1, h2⟩
              rcases (zip_head hn).mp h1 with ⟨rfl, rfl⟩ | ⟨h3, h4⟩
              · rcases (mem_insertAt _ _ _ _).mp h2 with h2 | h2
                · cases h2; exact .inr ⟨⟨rfl, rfl⟩, rfl⟩
                · exact .inl ⟨st, (zip_head hn).mpr (.inl ⟨rfl, rfl⟩), h2⟩
              · exact .inl ⟨st', (zip_head hn).mpr (.inr ⟨h3, h4⟩), h2⟩
            · rintro (⟨st', h1, h2⟩ | ⟨⟨rfl, rfl⟩, rfl⟩)
              · rcases (zip_head hn).mp h1 with ⟨rfl, rfl⟩ | ⟨h3, h4⟩
                · exact ⟨_, (zip_head hn).mpr (.inl ⟨rfl, rfl⟩), (mem_insertAt _ _ _ _).mpr (.inr h2)⟩
                · exact ⟨st', (zip_head hn).mpr (.inr ⟨h3, h4⟩), h2⟩
              · exact ⟨_, (zip_head hn).mpr (.inl ⟨rfl, rfl⟩), (mem_insertAt _ _ _ _).mpr (.inl rfl)⟩
    · simp only [addU, show isLocalName s = isDot s from rfl, hd, Bool.false_eq_true, if_false]
      cases k' with
      | obj n => simp [Entry]
      | loc τ s' => simp [Entry]
      | name s' =>
        simp only [Entry, mem_insertAt, Prod.mk.injEq, Key.name.injEq]
        constructor
        · rintro ⟨h1, h2, h3, h4 | h4⟩
          · exact .inr h4
          · exact .inl ⟨h1, h2, h3, h4⟩
        · rintro (⟨h1, h2, h3, h4⟩ | ⟨rfl, rfl⟩)
          · exact ⟨h1, h2, h3, .inr h4⟩
          · exact ⟨hd, hb, hf, .inl ⟨rfl, rfl⟩⟩
      | anon i =>
        simp only [Entry, mem_insertAt, Prod.mk.injEq, reduceCtorEq, false_and, or_false]
        constructor
        · rintro ⟨h1, h4 | h4⟩
          · rcases nm_cases i with ⟨e, _⟩ | ⟨e, _⟩
            · exact absurd (h4.1.symm.trans e) hf
            · exact absurd (h4.1.symm.trans e) hb
          · exact ⟨h1, h4⟩
        · rintro ⟨h1, h4⟩; exact ⟨h1, .inr h4⟩
    · have hd : isDot (nm sp.anons) = false := by
        rcases nm_cases sp.anons with ⟨e, _⟩ | ⟨e, _⟩ <;> rw [e] <;> decide
      simp only [addU, show isLocalName (nm sp.anons) = isDot (nm sp.anons) from rfl, hd, Bool.false_eq_true, if_false]
      cases k' with
      | obj n => simp [Entry]
      | loc τ s' => simp [Entry]
      | name s' =>
        simp only [Entry, mem_insertAt, Prod.mk.injEq, reduceCtorEq, false_and, or_false]
        constructor
        · rintro ⟨h1, h2, h3, h4 | h4⟩
          · rcases nm_cases sp.anons with ⟨e, _⟩ | ⟨e, _⟩
            · exact absurd (h4.1.trans e) h3
            · exact absurd (h4.1.trans e) h2
          · exact ⟨h1, h2, h3, h4⟩
        · rintro ⟨h1, h2, h3, h4⟩; exact ⟨h1, h2, h3, .inr h4⟩
      | anon i =>
        simp only [Entry, mem_insertAt, Prod.mk.injEq, Key.anon.injEq]
        constructor
        · rintro ⟨h1, h4 | h4⟩
          · exact .inr ⟨h1, h4.2⟩
          · exact .inl ⟨h1, h4⟩
        · rintro (⟨h1, h4⟩ | ⟨rfl, rfl⟩)
          · exact ⟨h1, .inr h4⟩
          · exact ⟨rfl, .inl ⟨rfl, rfl⟩⟩

theorem addU_tab {g : G} {sp : Spec} (ht : Tab g sp) (env : Env) {l' : LRef} {k : Key} (hk : KeyLoc g sp l' k) (j : JmpLabel) :
    Tab (addU env l' j g) sp := by
  cases l' with
  | obj x =>
    obtain ⟨o, ho, rfl, hlt⟩ := hk
    simp only [addU, ho, Option.getD_some]
    refine ⟨ht.near, ht.labelId, ht.idPos, ht.objs, ht.objDef, ht.fresh, ?_, ht.glob, ht.globU, ht.anonCur, ht.anonPrev, ht.anonDef,
      ht.locLen, ht.loc, ht.nodup, ht.scopeLt, ht.scopeFresh⟩
    intro n j' hm
    rcases (mem_insertAt _ _ _ _).mp hm with h | h
    · cases h; exact hlt
    · exact ht.freshU n j' h
  | str s =>
    have globCase : isDot s = false → (s = "@b" ∨ s = "@f" → s = nm sp.anons) →
        Tab { g with glob := { g.glob with undef := insertAt (env.pos g.ca.size g.glob.undef.length) (s, j) g.glob.undef } } sp := by
      intro hd hname
      refine ⟨ht.near, ht.labelId, ht.idPos, ht.objs, ht.objDef, ht.fresh, ht.freshU, ht.glob, ?_, ht.anonCur, ht.anonPrev, ht.anonDef,
        ht.locLen, ht.loc, ht.nodup, ht.scopeLt, ht.scopeFresh⟩
      intro s' j' hm
      rcases (mem_insertAt _ _ _ _).mp hm with h | h
      · cases h; exact ⟨hd, hname⟩
      · exact ht.globU s' j' h
    rcases hk with ⟨hd, σ, hσ, rfl⟩ | ⟨hd, hb, hf, rfl⟩ | ⟨rfl, rfl⟩
    · simp only [addU, show isLocalName s = isDot s from rfl, hd, if_true]
      cases hg : g.locals with
      | nil => simp only; exact ht
      | cons st rest =>
        cases hsc : sp.scopes with
        | nil => rw [hsc] at hσ; cases hσ
        | cons σ' σs =>
          simp only
          have hlen := ht.locLen
          have hn := ht.nodup
          rw [hsc] at hn
          refine ⟨ht.near, ht.labelId, ht.idPos, ht.objs, ht.objDef, ht.fresh, ht.freshU, ht.glob, ht.globU, ht.anonCur, ht.anonPrev, ht.anonDef,
            ?_, ?_, ht.nodup, ht.scopeLt, ht.scopeFresh⟩
          · rw [hlen, hg]; rfl
          · intro τ st' hz
            rw [hsc] at hz
            have hloc := ht.loc
            rw [hsc, hg] at hloc
            rcases (zip_head hn).mp hz with ⟨rfl, rfl⟩ | h
            · have h1 := hloc τ st (by simp)
              refine ⟨h1.1, ?_⟩
              intro s' j' hm
              rcases (mem_insertAt _ _ _ _).mp hm with h | h
              · cases h; exact hd
              · exact h1.2 s' j' h
            · exact hloc τ st' ((zip_head hn).mpr (.inr h))
    · simp only [addU, show isLocalName s = isDot s from rfl, hd, Bool.false_eq_true, if_false]
      exact globCase hd (by rintro (h | h); exact absurd h hb; exact absurd h hf)
    · have hd : isDot (nm sp.anons) = false := by
        rcases nm_cases sp.anons with ⟨e, _⟩ | ⟨e, _⟩ <;> rw [e] <;> decide
      simp only [addU, show isLocalName (nm sp.anons) = isDot (nm sp.anons) from rfl, hd, Bool.false_eq_true, if_false]
      exact globCase hd (fun _ => rfl)

theorem addU_ca (env : Env) (l : LRef) (j : JmpLabel) (g : G) : (addU env l j g).ca = g.ca := by
  unfold addU
  cases l with
  | obj h => rfl
  | str s =>
    simp only
    split
    · split <;> rfl
    · rfl

end Asm
end Xbyak
