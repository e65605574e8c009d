import Verif.Spec.Skip
import Verif.Spec.Cond
import Verif.Spec.Direct
import Verif.Spec.Seg
import Verif.Spec.Misc
import Verif.Spec.Fixed
/-!
# The decoders of the specification end instructions where `X86.skip` does
-/
namespace Xbyak
namespace X86

variable {bs t u : List Byte} {h : Head} {r : BitVec 3} {m : RM}

theorem displacement_rest {mod : BitVec 2} {b : Bool} {n : Nat} {d : Word} (hd : displacement mod b n t = some (d, u)) (n' : Nat) :
    ∃ d', displacement mod b n' t = some (d', u) := by
  unfold displacement at hd ⊢
  split
  · rename_i h1
    rw [if_pos h1] at hd
    split at hd
    · cases hd; exact ⟨_, rfl⟩
    · cases hd
  · rename_i h1
    rw [if_neg h1] at hd
    exact ⟨d, hd⟩

/-- What follows ModRM, SIB and displacement does not depend on what they mean. -/
theorem modrm_rest {v : Bool} {n : Nat} (hd : modrm h v n t = some (r, m, u)) (v' : Bool) (n' : Nat) : ∃ m', modrm h v' n' t = some (r, m', u) := by
  unfold modrm at hd ⊢
  cases t with
  | nil => cases hd
  | cons c t =>
    dsimp only at hd ⊢
    split
    · rename_i h1
      rw [if_pos h1] at hd
      cases hd; exact ⟨_, rfl⟩
    · rename_i h1
      rw [if_neg h1] at hd
      split
      · rename_i h2
        rw [if_pos h2] at hd
        cases t with
        | nil => cases hd
        | cons s t =>
          dsimp only at hd ⊢
          split at hd
          · cases hd
          · rename_i h3
            obtain ⟨d', h4⟩ := displacement_rest h3 n'
            cases hd
            rw [h4]
            exact ⟨_, rfl⟩
      · rename_i h2
        rw [if_neg h2] at hd
        split
        · rename_i h3
          rw [if_pos h3] at hd
          split at hd
          · cases hd
          · cases hd; exact ⟨_, rfl⟩
        · rename_i h3
          rw [if_neg h3] at hd
          split at hd
          · cases hd
          · rename_i h4
            obtain ⟨d', h5⟩ := displacement_rest h4 n'
            cases hd
            rw [h5]
            exact ⟨_, rfl⟩

theorem skip_modrm (hh : head bs = some (h, t)) {v : Bool} {n : Nat} (hm : modrm h v n t = some (r, m, u)) (hw : withModrm h.space h.map h.opcode = true)
    (hl : immBytes h r ≤ u.length) : skip bs = some (u.drop (immBytes h r)) := by
  obtain ⟨m', hm'⟩ := modrm_rest hm false 1
  unfold skip
  rw [hh]
  dsimp only
  rw [if_pos hw, hm']
  dsimp only
  rw [if_pos hl]

theorem skip_plain (hh : head bs = some (h, u)) (hw : withModrm h.space h.map h.opcode = false) (hl : immBytes h 0 ≤ u.length) :
    skip bs = some (u.drop (immBytes h 0)) := by
  unfold skip
  rw [hh]
  dsimp only
  rw [if_neg (by rw [hw]; decide), if_pos hl]

theorem skip_insn {v : Bool} {n : Nat} {imm : List Byte} (hi : insn v n bs = some (⟨h, r, m⟩, imm ++ t)) (hw : withModrm h.space h.map h.opcode = true)
    (hl : immBytes h r = imm.length) : skip bs = some t := by
  unfold insn at hi
  split at hi
  · cases hi
  · rename_i hh
    split at hi
    · cases hi
    · rename_i hm
      cases hi
      rw [skip_modrm hh hm hw (by rw [hl, List.length_append]; omega), hl, List.drop_left]

theorem insn_parts {v : Bool} {n : Nat} (hi : insn v n bs = some (⟨h, r, m⟩, t)) : ∃ u, head bs = some (h, u) ∧ modrm h v n u = some (r, m, t) := by
  unfold insn at hi
  split at hi
  · cases hi
  · rename_i hh
    split at hi
    · cases hi
    · rename_i hm
      cases hi
      exact ⟨_, hh, hm⟩

theorem imm_rest {n : Nat} {p : Word × List Byte} (hi : imm n t = some p) : n ≤ t.length ∧ p.2 = t.drop n := by
  unfold imm at hi
  split at hi
  · cases hi; exact ⟨‹_›, rfl⟩
  · cases hi

/-! ## Opcodes -/

theorem and_alu4 : ∀ o : Byte, o &&& 0xC7 = 0x04 → modrm0 o = false ∧ ∀ r, kind0 o r = .n 1 := by decide +kernel
theorem and_alu5 : ∀ o : Byte, o &&& 0xC7 = 0x05 → modrm0 o = false ∧ ∀ r, kind0 o r = .z := by decide +kernel
theorem and_mov8 : ∀ o : Byte, o &&& 0xF8 = 0xB0 → modrm0 o = false ∧ ∀ r, kind0 o r = .n 1 := by decide +kernel
theorem and_movv : ∀ o : Byte, o &&& 0xF8 = 0xB8 → modrm0 o = false ∧ ∀ r, kind0 o r = .v := by decide +kernel
theorem and_push : ∀ o : Byte, o &&& 0xF8 = 0x50 ∨ o &&& 0xF8 = 0x58 ∨ o &&& 0xF8 = 0x90 → modrm0 o = false ∧ ∀ r, kind0 o r = .n 0 := by decide +kernel
theorem and_jcc : ∀ o : Byte, o &&& 0xF0 = 0x70 → modrm0 o = false ∧ ∀ r, kind0 o r = .n 1 := by decide +kernel
theorem and_jcc4 : ∀ o : Byte, o &&& 0xF0 = 0x80 → plain1 o = true ∧ byte1 o = false ∧ ¬ (o = 0x0F ∨ o = 0xA4 ∨ o = 0xAC ∨ o = 0xBA) := by decide +kernel
theorem and_set : ∀ o : Byte, o &&& 0xF0 = 0x90 ∨ o &&& 0xF0 = 0x40 →
    plain1 o = false ∧ byte1 o = false ∧ ¬ (o = 0x0F ∨ o = 0xA4 ∨ o = 0xAC ∨ o = 0xBA) ∧ o &&& 0xF0 ≠ 0x80 := by decide +kernel
theorem and_cfcmov : ∀ o : Byte, o &&& 0xF0 = 0x40 → ∀ r, kind4 o r = .n 0 := by decide +kernel
theorem and_shiftI : ∀ o : Byte, o &&& 0xFE = 0xC0 → modrm0 o = true ∧ ∀ r, kind0 o r = .n 1 ∧ kind4 o r = .n 1 := by decide +kernel
theorem and_shift : ∀ o : Byte, o &&& 0xFE = 0xD0 ∨ o &&& 0xFE = 0xD2 → modrm0 o = true ∧ ∀ r, kind0 o r = .n 0 ∧ kind4 o r = .n 0 := by decide +kernel
theorem and_unary : ∀ (o : Byte) (r : BitVec 3), unaryOp o r ≠ none → modrm0 o = true ∧ kind0 o r = .n 0 ∧ kind4 o r = .n 0 := by decide +kernel
theorem and_bswap : ∀ o : Byte, o.extractLsb' 3 5 = 0x19 → plain1 o = true ∧ byte1 o = false ∧ ¬ (o = 0x0F ∨ o = 0xA4 ∨ o = 0xAC ∨ o = 0xBA) ∧ o &&& 0xF0 ≠ 0x80 := by
  decide +kernel

/-! ## One-byte map -/

theorem with0 (hm : h.map = 0) (o : Bool) (ho : modrm0 h.opcode = o) : withModrm h.space h.map h.opcode = o := by
  unfold withModrm; rw [if_pos hm]; exact ho

theorem bytes0 (hm : h.map = 0) {k : ImmKind} (ho : kind0 h.opcode r = k) : immBytes h r = k.bytes h := by
  unfold immBytes immKind; rw [if_pos hm, ho]

theorem bytes_z (hm : h.map = 0) : ImmKind.bytes h .z = immz h := by
  show (if (if h.map = 4 then apxBits h else opBits h) = 16 then 2 else 4) = _
  rw [if_neg (c := h.map = 4) (by rw [hm]; decide)]; rfl

/-- An opcode of the one-byte map without ModRM. -/
theorem skip0 {α : Type} (hh : head bs = some (h, t)) (hm : h.map = 0) (hw : modrm0 h.opcode = false) {k : ImmKind} (hk : kind0 h.opcode 0 = k) {n : Nat} (hn : k.bytes h = n)
    {f : Word × List Byte → α × List Byte} (hf : ∀ p, (f p).2 = p.2) {x : α} (hi : (imm n t).map f = some (x, u)) : skip bs = some u := by
  obtain ⟨p, hp, hx⟩ := Option.map_eq_some_iff.mp hi
  obtain ⟨h1, h2⟩ := imm_rest hp
  have hb := (bytes0 (r := 0) hm hk).trans hn
  rw [skip_plain hh (with0 hm _ hw) (hb ▸ h1), hb, ← h2, ← hf, hx]

/-- One with ModRM. -/
theorem skip0m {α : Type} (hh : head bs = some (h, u)) {v : Bool} {s : Nat} (hr : modrm h v s u = some (r, m, t)) (hm : h.map = 0) (hw : modrm0 h.opcode = true)
    {k : ImmKind} (hk : kind0 h.opcode r = k) {n : Nat} (hn : k.bytes h = n)
    {f : Word × List Byte → α × List Byte} (hf : ∀ p, (f p).2 = p.2) {x : α} {u' : List Byte} (hi : (imm n t).map f = some (x, u')) : skip bs = some u' := by
  obtain ⟨p, hp, hx⟩ := Option.map_eq_some_iff.mp hi
  obtain ⟨h1, h2⟩ := imm_rest hp
  have hb := (bytes0 (r := r) hm hk).trans hn
  rw [skip_modrm hh hr (with0 hm _ hw) (hb ▸ h1), hb, ← h2, ← hf, hx]

theorem skip0m0 (hh : head bs = some (h, u)) {v : Bool} {n : Nat} (hr : modrm h v n u = some (r, m, t)) (hm : h.map = 0) (hw : modrm0 h.opcode = true)
    (hk : kind0 h.opcode r = .n 0) : skip bs = some t := by
  have hb : immBytes h r = 0 := bytes0 (r := r) hm hk
  rw [skip_modrm hh hr (with0 hm _ hw) (by omega), hb]
  rfl

theorem skip00 (hh : head bs = some (h, t)) (hm : h.map = 0) (hw : modrm0 h.opcode = false) (hk : kind0 h.opcode 0 = .n 0) : skip bs = some t := by
  have hb : immBytes h 0 = 0 := bytes0 (r := 0) hm hk
  rw [skip_plain hh (with0 hm _ hw) (by omega), hb]
  rfl

theorem skip_aluI {i : OpI} (hd : aluI bs = some (i, u)) : skip bs = some u := by
  unfold aluI at hd
  split at hd
  · cases hd
  · rename_i h t hh
    split at hd
    · cases hd
    · rename_i hm
      have hm : h.map = 0 := Decidable.not_not.mp hm
      split at hd
      · rename_i ho
        obtain ⟨a, b⟩ := and_alu4 _ ho
        exact skip0 hh hm a (b 0) rfl (by intro; rfl) hd
      · split at hd
        · rename_i ho
          obtain ⟨a, b⟩ := and_alu5 _ ho
          exact skip0 hh hm a (b 0) (bytes_z hm) (by intro; rfl) hd
        · split at hd
          · cases hd
          · rename_i hr
            split at hd
            · rename_i ho
              exact skip0m hh hr hm (by rw [ho]; rfl) (k := .n 1) (by rw [ho]; rfl) (n := 1) rfl (by intro; rfl) hd
            · split at hd
              · rename_i ho
                exact skip0m hh hr hm (by rw [ho]; rfl) (k := .z) (by rw [ho]; rfl) (bytes_z hm) (by intro; rfl) hd
              · split at hd
                · rename_i ho
                  exact skip0m hh hr hm (by rw [ho]; rfl) (k := .n 1) (by rw [ho]; rfl) (n := 1) rfl (by intro; rfl) hd
                · cases hd

theorem skip_movI {i : OpI} (hd : movI bs = some (i, u)) : skip bs = some u := by
  unfold movI at hd
  split at hd
  · cases hd
  · rename_i h t hh
    split at hd
    · cases hd
    · rename_i hm
      have hm : h.map = 0 := Decidable.not_not.mp hm
      split at hd
      · rename_i ho
        obtain ⟨a, b⟩ := and_mov8 _ ho
        exact skip0 hh hm a (b 0) rfl (by intro; rfl) hd
      · split at hd
        · rename_i ho
          obtain ⟨a, b⟩ := and_movv _ ho
          exact skip0 hh hm a (b 0) rfl (by intro; rfl) hd
        · split at hd
          · cases hd
          · rename_i hr
            split at hd
            · rename_i ho
              exact skip0m hh hr hm (by rw [ho]; rfl) (k := .n 1) (by rw [ho]; rfl) (n := 1) rfl (by intro; rfl) hd
            · split at hd
              · rename_i ho
                exact skip0m hh hr hm (by rw [ho]; rfl) (k := .z) (by rw [ho]; rfl) (bytes_z hm) (by intro; rfl) hd
              · cases hd

theorem skip_testI {i : OpI} (hd : testI bs = some (i, u)) (h0 : i.op = 0) : skip bs = some u := by
  unfold testI at hd
  split at hd
  · cases hd
  · rename_i h t hh
    split at hd
    · cases hd
    · rename_i hm
      have hm : h.map = 0 := Decidable.not_not.mp hm
      split at hd
      · rename_i ho
        exact skip0 hh hm (by rw [ho]; rfl) (k := .n 1) (by rw [ho]; rfl) (n := 1) rfl (by intro; rfl) hd
      · split at hd
        · rename_i ho
          exact skip0 hh hm (by rw [ho]; rfl) (k := .z) (by rw [ho]; rfl) (bytes_z hm) (by intro; rfl) hd
        · split at hd
          · cases hd
          · rename_i hr
            split at hd
            · rename_i ho
              obtain ⟨p, hp, hx⟩ := Option.map_eq_some_iff.mp hd
              cases hx
              cases h0
              exact skip0m hh hr hm (by rw [ho]; rfl) (k := .n 1) (by rw [ho]; rfl) (n := 1) rfl (f := fun p => ((), p.2)) (fun _ => rfl) (by rw [hp]; rfl)
            · split at hd
              · rename_i ho
                obtain ⟨p, hp, hx⟩ := Option.map_eq_some_iff.mp hd
                cases hx
                cases h0
                exact skip0m hh hr hm (by rw [ho]; rfl) (k := .z) (by rw [ho]; rfl) (bytes_z hm) (f := fun p => ((), p.2)) (fun _ => rfl) (by rw [hp]; rfl)
              · cases hd

theorem skip_imulI {i : OpI} (hd : imulI bs = some (i, r, u)) : skip bs = some u := by
  unfold imulI at hd
  split at hd
  · cases hd
  · rename_i h t hh
    split at hd
    · cases hd
    · rename_i hm
      have hm : h.map = 0 := Decidable.not_not.mp hm
      split at hd
      · cases hd
      · rename_i hr
        split at hd
        · rename_i ho
          obtain ⟨p, hp, hx⟩ := Option.map_eq_some_iff.mp hd
          cases hx
          exact skip0m hh hr hm (by rw [ho]; rfl) (k := .z) (by rw [ho]; rfl) (bytes_z hm) (f := fun p => ((), p.2)) (fun _ => rfl) (by rw [hp]; rfl)
        · split at hd
          · rename_i ho
            obtain ⟨p, hp, hx⟩ := Option.map_eq_some_iff.mp hd
            cases hx
            exact skip0m hh hr hm (by rw [ho]; rfl) (k := .n 1) (by rw [ho]; rfl) (n := 1) rfl (f := fun p => ((), p.2)) (fun _ => rfl) (by rw [hp]; rfl)
          · cases hd

theorem skip_pushPop {i : PushPop} (hd : pushPop bs = some (i, u)) : skip bs = some u := by
  unfold pushPop at hd
  split at hd
  · cases hd
  · rename_i h t hh
    split at hd
    · cases hd
    · rename_i hm
      have hm : h.map = 0 := Decidable.not_not.mp hm
      split at hd
      · rename_i ho
        obtain ⟨a, b⟩ := and_push _ (.inl ho)
        cases hd
        exact skip00 hh hm a (b 0)
      · split at hd
        · rename_i ho
          obtain ⟨a, b⟩ := and_push _ (.inr (.inl ho))
          cases hd
          exact skip00 hh hm a (b 0)
        · split at hd
          · cases hd
          · rename_i hr
            split at hd
            · rename_i ho
              cases hd
              exact skip0m0 hh hr hm (by rw [ho.1]; rfl) (by rw [ho.1, ho.2]; rfl)
            · split at hd
              · rename_i ho
                cases hd
                exact skip0m0 hh hr hm (by rw [ho.1]; rfl) (by rw [ho.1, ho.2]; rfl)
              · cases hd

theorem stackBits16 (h : Head) : (stackBits h = 16) = (opBits h = 16) := by
  unfold stackBits opBits
  cases h.w <;> cases h.p66 <;> simp

theorem skip_pushI {n : Nat} {v : Word} (hd : pushI bs = some (n, v, u)) : skip bs = some u := by
  unfold pushI at hd
  split at hd
  · cases hd
  · rename_i h t hh
    split at hd
    · cases hd
    · rename_i hm
      have hm : h.map = 0 := Decidable.not_not.mp hm
      split at hd
      · rename_i ho
        obtain ⟨p, hp, hx⟩ := Option.map_eq_some_iff.mp hd
        cases hx
        exact skip0 hh hm (by rw [ho]; rfl) (k := .n 1) (by rw [ho]; rfl) (n := 1) rfl (f := fun p => ((), p.2)) (fun _ => rfl) (by rw [hp]; rfl)
      · split at hd
        · rename_i ho
          obtain ⟨p, hp, hx⟩ := Option.map_eq_some_iff.mp hd
          cases hx
          refine skip0 hh hm (by rw [ho]; rfl) (k := .z) (by rw [ho]; rfl) (n := if stackBits h = 16 then 2 else 4) ?_ (f := fun p => ((), p.2)) (fun _ => rfl) (by rw [hp]; rfl)
          rw [bytes_z hm]
          unfold immz
          simp only [stackBits16]
        · cases hd

theorem skip_xchg {i : Xchg} (hd : xchg bs = some (i, u)) : skip bs = some u := by
  unfold xchg at hd
  split at hd
  · cases hd
  · rename_i h t hh
    split at hd
    · cases hd
    · rename_i hm
      have hm : h.map = 0 := Decidable.not_not.mp hm
      split at hd
      · rename_i ho
        obtain ⟨a, b⟩ := and_push _ (.inr (.inr ho))
        split at hd
        · cases hd
        · cases hd
          exact skip00 hh hm a (b 0)
      · split at hd
        · cases hd
        · rename_i hr
          split at hd
          · rename_i ho
            cases hd
            exact skip0m0 hh hr hm (by rw [ho]; rfl) (by rw [ho]; rfl)
          · split at hd
            · rename_i ho
              cases hd
              exact skip0m0 hh hr hm (by rw [ho]; rfl) (by rw [ho]; rfl)
            · cases hd

theorem kindFF : ∀ r : BitVec 3, kind0 0xFF r = .n 0 := by decide +kernel

theorem skip_branch {i : Branch} (hd : branch bs = some (i, u)) : skip bs = some u := by
  unfold branch at hd
  split at hd
  · cases hd
  · rename_i h t hh
    split at hd
    · cases hd
    · rename_i hm
      rw [not_or] at hm
      have ho : h.opcode = 0xFF := Decidable.not_not.mp hm.2
      have hm : h.map = 0 := Decidable.not_not.mp hm.1
      split at hd
      · cases hd
      · rename_i hr
        have key := skip0m0 hh hr hm (by rw [ho]; rfl) (by rw [ho]; exact kindFF _)
        split at hd
        · split at hd
          · cases hd
          · cases hd; exact key
        · split at hd
          · split at hd
            · cases hd
            · cases hd; exact key
          · cases hd

theorem skip_movSeg {i : MovSeg} (hd : movSeg bs = some (i, u)) : skip bs = some u := by
  unfold movSeg at hd
  split at hd
  · cases hd
  · rename_i i t hi
    obtain ⟨v, hh, hr⟩ := insn_parts (h := i.head) (r := i.reg) (m := i.rm) hi
    split at hd
    · cases hd
    · rename_i hm
      rw [not_or] at hm
      have hm : i.head.map = 0 := Decidable.not_not.mp hm.1
      split at hd
      · rename_i ho
        cases hd
        exact skip0m0 hh hr hm (by rw [ho]; rfl) (by rw [ho]; rfl)
      · split at hd
        · rename_i ho
          cases hd
          exact skip0m0 hh hr hm (by rw [ho.1]; rfl) (by rw [ho.1]; rfl)
        · cases hd

/-! ## Groups -/

theorem skip_group (hi : insn false 1 bs = some (⟨h, r, m⟩, u)) (hg : InGroup h) (hw : modrm0 h.opcode = true) {n : Nat} (hk : kind0 h.opcode r = .n n ∧ kind4 h.opcode r = .n n)
    (hl : n ≤ u.length) : skip bs = some (u.drop n) := by
  obtain ⟨v, hh, hr⟩ := insn_parts hi
  have hb : immBytes h r = n := by
    unfold immBytes immKind
    rcases hg with hg | hg
    · rw [if_pos hg.2, hk.1]; rfl
    · rw [hg.2.1, if_neg (by decide), if_neg (by decide), if_neg (by decide), if_pos rfl, hk.2]; rfl
  have hm : withModrm h.space h.map h.opcode = true := by
    unfold withModrm
    rcases hg with hg | hg
    · rw [if_pos hg.2]; exact hw
    · rw [hg.2.1, if_neg (by decide), if_neg (by decide)]
  rw [skip_modrm hh hr hm (hb ▸ hl), hb]

theorem skip_shift {i : Shift} (hd : shift bs = some (i, u)) : skip bs = some u := by
  unfold shift at hd
  split at hd
  · cases hd
  · rename_i h r m t hi
    split at hd
    · cases hd
    · rename_i hg
      have hg := Decidable.not_not.mp hg
      split at hd
      · rename_i ho
        obtain ⟨a, b⟩ := and_shiftI _ ho
        cases t with
        | nil => cases hd
        | cons c t => cases hd; exact skip_group hi hg a (b _) (by simp)
      · split at hd
        · rename_i ho
          obtain ⟨a, b⟩ := and_shift _ (.inl ho)
          cases hd; exact skip_group hi hg a (b _) (Nat.zero_le _)
        · split at hd
          · rename_i ho
            obtain ⟨a, b⟩ := and_shift _ (.inr ho)
            cases hd; exact skip_group hi hg a (b _) (Nat.zero_le _)
          · cases hd

theorem skip_unary {i : Unary} (hd : unary bs = some (i, u)) : skip bs = some u := by
  unfold unary at hd
  split at hd
  · cases hd
  · rename_i h r m t hi
    split at hd
    · cases hd
    · rename_i hg
      have hg := Decidable.not_not.mp hg
      split at hd
      · cases hd
      · rename_i ho
        obtain ⟨a, b⟩ := and_unary h.opcode r (by rw [ho]; exact fun h => by cases h)
        cases hd; exact skip_group hi hg a b (Nat.zero_le _)

/-! ## Two-byte map and map 4 -/

theorem old_of (hs : h.space = .legacy ∨ h.space = .rex2) : h.space.old = true := by
  rcases hs with hs | hs <;> rw [hs] <;> rfl

theorem with1 (hs : h.space = .legacy ∨ h.space = .rex2) (hm : h.map = 1) {o : Bool} (ho : plain1 h.opcode = o) : withModrm h.space h.map h.opcode = !o := by
  unfold withModrm; rw [hm, if_neg (by decide), if_pos rfl, if_pos (old_of hs), ho]

theorem bytes1 (hs : h.space = .legacy ∨ h.space = .rex2) (hm : h.map = 1) (h1 : byte1 h.opcode = false)
    (h2 : ¬ (h.opcode = 0x0F ∨ h.opcode = 0xA4 ∨ h.opcode = 0xAC ∨ h.opcode = 0xBA)) : immBytes h r = if h.opcode &&& 0xF0 = 0x80 then 4 else 0 := by
  unfold immBytes immKind
  rw [hm, if_neg (by decide), if_pos rfl, if_neg (by rw [h1]; decide), if_pos (old_of hs), if_neg h2]
  split <;> rfl

theorem with4 (hm : h.map = 4) : withModrm h.space h.map h.opcode = true := by
  unfold withModrm; rw [hm, if_neg (by decide), if_neg (by decide)]

theorem bytes4 (hm : h.map = 4) {k : ImmKind} (hk : kind4 h.opcode r = k) : immBytes h r = k.bytes h := by
  unfold immBytes immKind; rw [hm, if_neg (by decide), if_neg (by decide), if_neg (by decide), if_pos rfl, hk]

theorem skip_jcc {cc : BitVec 4} {v : Word} (hd : jcc bs = some (cc, v, u)) : skip bs = some u := by
  unfold jcc at hd
  split at hd
  · cases hd
  · rename_i h t hh
    split at hd
    · cases hd
    · rename_i hs
      have hs : h.space = .legacy := Decidable.not_not.mp hs
      split at hd
      · rename_i ho
        obtain ⟨a, b⟩ := and_jcc _ ho.2
        obtain ⟨p, hp, hx⟩ := Option.map_eq_some_iff.mp hd
        cases hx
        exact skip0 hh ho.1 a (b 0) (n := 1) rfl (f := fun p => ((), p.2)) (fun _ => rfl) (by rw [hp]; rfl)
      · split at hd
        · rename_i ho
          obtain ⟨a, b, c⟩ := and_jcc4 _ ho.2
          obtain ⟨p, hp, hx⟩ := Option.map_eq_some_iff.mp hd
          cases hx
          obtain ⟨h1, h2⟩ := imm_rest hp
          have hb := bytes1 (r := 0) (.inl hs) ho.1 b c
          rw [if_pos ho.2] at hb
          rw [skip_plain hh (with1 (.inl hs) ho.1 a) (hb ▸ h1), hb, ← h2]
        · cases hd

theorem skip_insn0 {v : Bool} {n : Nat} (hi : insn v n bs = some (⟨h, r, m⟩, t)) (hw : withModrm h.space h.map h.opcode = true)
    (hl : immBytes h r = 0) : skip bs = some t := skip_insn (imm := []) hi hw hl

theorem skip_setcc {i : Setcc} (hd : setcc bs = some (i, u)) : skip bs = some u := by
  unfold setcc at hd
  split at hd
  · cases hd
  · rename_i h r m t hi
    split at hd
    · rename_i ho
      cases hd
      obtain ⟨a, b, c, d⟩ := and_set _ (.inl ho.2.2)
      exact skip_insn0 hi (with1 ho.1 ho.2.1 a) ((bytes1 ho.1 ho.2.1 b c).trans (if_neg d))
    · split at hd
      · rename_i ho
        cases hd
        exact skip_insn0 hi (with4 ho.2.1) (bytes4 ho.2.1 (and_cfcmov _ ho.2.2.2.2.2 _))
      · cases hd

theorem skip_cmov {i : Cmov} (hd : cmov bs = some (i, u)) : skip bs = some u := by
  unfold cmov at hd
  split at hd
  · cases hd
  · rename_i h r m t hi
    dsimp only at hd
    split at hd
    · cases hd
    · rename_i hc
      have hc := Decidable.not_not.mp hc
      split at hd
      · rename_i ho
        cases hd
        obtain ⟨a, b, c, d⟩ := and_set _ (.inr hc)
        exact skip_insn0 hi (with1 ho.1 ho.2 a) ((bytes1 ho.1 ho.2 b c).trans (if_neg d))
      · split at hd
        · rename_i ho
          have key := skip_insn0 hi (with4 ho.2.1) (bytes4 ho.2.1 (and_cfcmov _ hc _))
          split at hd
          · cases hd; exact key
          · split at hd
            · cases hd
            · split at hd
              · cases hd; exact key
              · cases hd; exact key
        · cases hd

theorem and_ccmp : ∀ o : Byte, o &&& 0xFC = 0x38 ∨ o &&& 0xFE = 0x84 → ∀ r, kind4 o r = .n 0 := by decide +kernel
theorem and_ccmpi : ∀ o : Byte, o &&& 0xFE = 0x80 → ∀ r, kind4 o r = if o &&& 1 = 0 then .n 1 else .z := by decide +kernel
theorem and_ctesti : ∀ o : Byte, o &&& 0xFE = 0xF6 → kind4 o 0 = if o &&& 1 = 0 then .n 1 else .z := by decide +kernel

theorem bytes_ccmp (hm : h.map = 4) {k : ImmKind} (hk : k = if h.opcode &&& 1 = 0 then .n 1 else .z) :
    k.bytes h = (if (if h.opcode &&& 1 = 0 then 8 else apxBits h) = 8 then 1 else if (if h.opcode &&& 1 = 0 then 8 else apxBits h) = 16 then 2 else 4) := by
  subst hk
  split
  · rfl
  · show (if (if h.map = 4 then apxBits h else opBits h) = 16 then 2 else 4) = _
    rw [if_pos hm]
    have : apxBits h ≠ 8 := by unfold apxBits; split <;> (try split) <;> decide
    rw [if_neg this]

theorem skip4i (hi : insn false 1 bs = some (⟨h, r, m⟩, t)) (hm : h.map = 4) {n : Nat} (hk : immBytes h r = n) {α : Type} {f : Word × List Byte → α × List Byte}
    (hf : ∀ p, (f p).2 = p.2) {x : α} (hd : (imm n t).map f = some (x, u)) : skip bs = some u := by
  obtain ⟨p, hp, hx⟩ := Option.map_eq_some_iff.mp hd
  obtain ⟨h1, h2⟩ := imm_rest hp
  obtain ⟨v, hh, hr⟩ := insn_parts hi
  rw [skip_modrm hh hr (with4 hm) (hk ▸ h1), hk, ← h2, ← hf, hx]

theorem skip_ccmp {i : Ccmp} (hd : ccmp bs = some (i, u)) : skip bs = some u := by
  unfold ccmp at hd
  split at hd
  · cases hd
  · rename_i h r m t hi
    dsimp only at hd
    split at hd
    · cases hd
    · rename_i hc
      rw [not_or, not_or] at hc
      have hm : h.map = 4 := Decidable.not_not.mp hc.2.1
      split at hd
      · rename_i ho
        cases hd
        exact skip_insn0 hi (with4 hm) (bytes4 hm (and_ccmp _ (.inl ho) _))
      · split at hd
        · rename_i ho
          cases hd
          exact skip_insn0 hi (with4 hm) (bytes4 hm (and_ccmp _ (.inr ho) _))
        · split at hd
          · rename_i ho
            exact skip4i hi hm ((bytes4 hm rfl).trans (bytes_ccmp hm (and_ccmpi _ ho.1 _))) (by intro; rfl) hd
          · split at hd
            · rename_i ho
              exact skip4i hi hm (bytes4 hm (k := .n 1) (by rw [ho.1]; rfl)) (by intro; rfl) hd
            · split at hd
              · rename_i ho
                exact skip4i hi hm ((bytes4 hm rfl).trans (bytes_ccmp hm (ho.2 ▸ and_ctesti _ ho.1))) (by intro; rfl) hd
              · cases hd

theorem skip1 (hh : head bs = some (h, t)) (hs : h.space = .legacy ∨ h.space = .rex2) (hm : h.map = 1) (hp : plain1 h.opcode = true) (h1 : byte1 h.opcode = false)
    (h2 : ¬ (h.opcode = 0x0F ∨ h.opcode = 0xA4 ∨ h.opcode = 0xAC ∨ h.opcode = 0xBA)) (h3 : h.opcode &&& 0xF0 ≠ 0x80) : skip bs = some t := by
  have hb : immBytes h 0 = 0 := (bytes1 hs hm h1 h2).trans (if_neg h3)
  rw [skip_plain hh (with1 hs hm hp) (by omega), hb]
  rfl

theorem skip_stackSeg {b : Bool} {n : Nat} (hd : stackSeg bs = some (b, n, u)) : skip bs = some u := by
  unfold stackSeg at hd
  split at hd
  · cases hd
  · rename_i h t hh
    split at hd
    · cases hd
    · rename_i hm
      rw [not_or] at hm
      have hs := Decidable.not_not.mp hm.1
      have hm : h.map = 1 := Decidable.not_not.mp hm.2
      have key : h.opcode = 0xA0 ∨ h.opcode = 0xA8 ∨ h.opcode = 0xA1 ∨ h.opcode = 0xA9 → skip bs = some t := by
        intro ho
        rcases ho with ho | ho | ho | ho <;> exact skip1 hh hs hm (by rw [ho]; rfl) (by rw [ho]; rfl) (by rw [ho]; decide) (by rw [ho]; decide)
      split at hd
      · cases hd; exact key (by simp [*])
      · split at hd
        · cases hd; exact key (by simp [*])
        · split at hd
          · cases hd; exact key (by simp [*])
          · split at hd
            · cases hd; exact key (by simp [*])
            · cases hd

theorem skip_bswap {n : Nat} {q : BitVec 5} (hd : bswap bs = some (n, q, u)) : skip bs = some u := by
  unfold bswap at hd
  split at hd
  · cases hd
  · rename_i h t hh
    split at hd
    · rename_i ho
      cases hd
      obtain ⟨a, b, c, d⟩ := and_bswap _ ho.2.2.1
      exact skip1 hh ho.1 ho.2.1 a b c d
    · cases hd

/-! ## Miscellaneous instructions -/

theorem skip0n {k : Nat} (hh : head bs = some (h, t)) (hm : h.map = 0) (hw : modrm0 h.opcode = false) (hk : kind0 h.opcode 0 = .n k) {l : List Byte} (ht : t = l ++ u)
    (hl : l.length = k) : skip bs = some u := by
  have hb : immBytes h 0 = k := bytes0 (r := 0) hm hk
  subst ht
  rw [skip_plain hh (with0 hm _ hw) (by rw [hb, List.length_append]; omega), hb, ← hl, List.drop_left]

theorem modrmF8 (h : Head) (t : List Byte) : modrm h false 1 (0xF8 :: t) = some (7, .reg 0, t) := rfl

theorem ite_cases {α : Type} {c : Prop} [Decidable c] {a b x : α} (h : (if c then a else b) = x) : (c ∧ a = x) ∨ (¬ c ∧ b = x) := by
  split at h
  · exact .inl ⟨‹_›, h⟩
  · exact .inr ⟨‹_›, h⟩

theorem skip_misc0 {x : Misc} (hh : head bs = some (h, t)) (hm : h.map = 0) (hd : misc0 h t = some (x, u)) : skip bs = some u := by
  unfold misc0 at hd
  obtain ⟨-, hd⟩ | ⟨-, hd⟩ := ite_cases hd
  · cases hd
  iterate 2
    obtain ⟨ho, hd⟩ | ⟨-, hd⟩ := ite_cases hd
    · split at hd
      · cases hd
        rcases ho with ho | ho <;> exact skip0n (l := [_]) hh hm (by rw [ho]; rfl) (by rw [ho]; rfl) rfl rfl
      · cases hd
  iterate 2
    obtain ⟨ho, hd⟩ | ⟨-, hd⟩ := ite_cases hd
    · cases hd
      rcases ho with ho | ho <;> exact skip0n (l := []) hh hm (by rw [ho]; rfl) (by rw [ho]; rfl) rfl rfl
  obtain ⟨-, hd⟩ | ⟨h66, hd⟩ := ite_cases hd
  · cases hd
  obtain ⟨ho, hd⟩ | ⟨-, hd⟩ := ite_cases hd
  · split at hd
    · cases hd
      exact skip0n (l := [_]) hh hm (by rw [ho]; rfl) (by rw [ho]; rfl) rfl rfl
    · cases hd
  iterate 2
    obtain ⟨ho, hd⟩ | ⟨-, hd⟩ := ite_cases hd
    · cases hd
      exact skip0n (l := []) hh hm (by rw [ho]; rfl) (by rw [ho]; rfl) rfl rfl
  iterate 2
    obtain ⟨ho, hd⟩ | ⟨-, hd⟩ := ite_cases hd
    · split at hd
      · cases hd
        exact skip0n (l := [_, _]) hh hm (by rw [ho]; rfl) (by rw [ho]; rfl) rfl rfl
      · cases hd
  obtain ⟨ho, hd⟩ | ⟨-, hd⟩ := ite_cases hd
  · split at hd
    · cases hd
      exact skip0n (l := [_, _, _]) hh hm (by rw [ho]; rfl) (by rw [ho]; rfl) rfl rfl
    · cases hd
  obtain ⟨ho, hd⟩ | ⟨-, hd⟩ := ite_cases hd
  · split at hd
    · cases hd
      have hb : immBytes h 7 = 1 := bytes0 (k := .n 1) hm (by rw [ho]; rfl)
      rw [skip_modrm hh (modrmF8 _ _) (with0 hm _ (by rw [ho]; rfl)) (by rw [hb]; simp), hb]; rfl
    · cases hd
  obtain ⟨ho, hd⟩ | ⟨-, hd⟩ := ite_cases hd
  · split at hd
    · cases hd
      have hb : immBytes h 7 = 4 := by
        rw [bytes0 (k := .z) hm (by rw [ho]; rfl), bytes_z hm]
        have h66 : h.p66 = false := by simpa using h66
        unfold immz opBits
        rw [h66]
        cases h.w <;> rfl
      rw [skip_modrm hh (modrmF8 _ _) (with0 hm _ (by rw [ho]; rfl)) (by rw [hb]; simp), hb]; rfl
    · cases hd
  · cases hd

theorem skip_misc1 {x : Misc} (hh : head bs = some (h, t)) (hs : h.space = .legacy ∨ h.space = .rex2) (hm : h.map = 1) (hd : misc1 h t = some (x, u)) : skip bs = some u := by
  unfold misc1 at hd
  split at hd
  · rename_i lo v hr
    have key : h.opcode = 0xAE ∨ h.opcode = 0xC7 → skip bs = some v := by
      intro ho
      have hb : immBytes h 6#3 = 0 := by
        rcases ho with ho | ho <;> rw [bytes1 hs hm (by rw [ho]; rfl) (by rw [ho]; decide), ho] <;> rfl
      rw [skip_modrm hh hr (by rcases ho with ho | ho <;> exact with1 hs hm (o := false) (by rw [ho]; rfl)) (by omega), hb]; rfl
    obtain ⟨-, hd⟩ | ⟨-, hd⟩ := ite_cases hd
    · cases hd
    iterate 4
      obtain ⟨ho, hd⟩ | ⟨-, hd⟩ := ite_cases hd
      · cases hd
        exact key (by simp [ho.1])
    cases hd
  · cases hd

theorem skip_misc2 {x : Misc} (hh : head bs = some (h, t)) (hm : h.map = 2) (hd : misc2 h t = some (x, u)) : skip bs = some u := by
  unfold misc2 at hd
  split at hd
  · rename_i d lo v hr
    have key : skip bs = some v := by
      have hb : immBytes h d = 0 := by unfold immBytes immKind; rw [hm]; rfl
      rw [skip_modrm hh hr (by unfold withModrm; rw [hm]; rfl) (by omega), hb]; rfl
    iterate 2
      obtain ⟨-, hd⟩ | ⟨-, hd⟩ := ite_cases hd
      · cases hd; exact key
    cases hd
  · cases hd

theorem skip_misc {x : Misc} (hd : misc bs = some (x, u)) : skip bs = some u := by
  unfold misc at hd
  split at hd
  · cases hd
  · rename_i h t hh
    split at hd
    · rename_i hs
      split at hd
      · rename_i ho
        split at hd
        · cases hd
          have hb : immBytes h 0 = 8 := by
            rw [bytes0 (k := .a) hs.2 (by rw [ho.1]; rfl)]
            have := ho.2.1
            simp only [Head.bare, Bool.and_eq_true, Bool.not_eq_true'] at this
            show (if h.p67 then 4 else 8) = 8
            rw [this.1.2]; rfl
          rw [skip_plain hh (with0 hs.2 _ (by rw [ho.1]; rfl)) (by rw [hb]; simp), hb]; rfl
        · cases hd
      · cases hd
    · split at hd
      · rename_i hs
        split at hd
        · rename_i hm
          split at hd
          · cases hd
          · exact skip_misc0 hh hm hd
        · split at hd
          · rename_i hm; exact skip_misc1 hh hs hm hd
          · split at hd
            · rename_i hm; exact skip_misc2 hh hm hd
            · cases hd
      · cases hd

theorem skip_direct {o : Direct} {v : Word} (hd : direct bs = some (o, v, u)) : skip bs = some u := by
  unfold direct at hd
  split at hd
  · cases hd
  · rename_i h t hh
    dsimp only at hd
    obtain ⟨-, hd⟩ | ⟨hs, hd⟩ := ite_cases hd
    · cases hd
    have hm : h.map = 0 := Decidable.not_not.mp fun hm => hs (.inr (.inl hm))
    have key : ∀ {n : Nat} {x : Direct}, modrm0 h.opcode = false → kind0 h.opcode 0 = .n n → (imm n t).map (fun p => (x, p)) = some (o, v, u) → skip bs = some u := by
      intro n x h1 h2 h3
      obtain ⟨p, hp, hx⟩ := Option.map_eq_some_iff.mp h3
      cases hx
      exact skip0 hh hm h1 h2 (n := n) rfl (f := fun p => ((), p.2)) (fun _ => rfl) (by rw [hp]; rfl)
    obtain ⟨ho, hd⟩ | ⟨-, hd⟩ := ite_cases hd
    · exact key (by rw [ho]; rfl) (by rw [ho]; rfl) hd
    obtain ⟨ho, hd⟩ | ⟨-, hd⟩ := ite_cases hd
    · exact key (by rw [ho]; rfl) (by rw [ho]; rfl) hd
    obtain ⟨ho, hd⟩ | ⟨-, hd⟩ := ite_cases hd
    · exact key (by rw [ho]; rfl) (by rw [ho]; rfl) hd
    obtain ⟨ho, hd⟩ | ⟨-, hd⟩ := ite_cases hd
    · exact key (by rw [ho]; rfl) (by rw [ho]; rfl) hd
    obtain ⟨ho, hd⟩ | ⟨-, hd⟩ := ite_cases hd
    · exact key (by rw [ho]; rfl) (by rw [ho]; rfl) hd
    obtain ⟨ho, hd⟩ | ⟨-, hd⟩ := ite_cases hd
    · exact key (by rw [ho]; rfl) (by rw [ho]; rfl) hd
    obtain ⟨ho, hd⟩ | ⟨-, hd⟩ := ite_cases hd
    · exact key (by rw [ho]; rfl) (by rw [ho]; rfl) hd
    cases hd

/-! ## Instructions without operands -/

def Fixed.sp (f : Fixed) : Space := if f.vex.isSome then .vex else .legacy

/-- The byte behind the opcode, if any, is a ModRM byte with a register, and there is no immediate. -/
def Fixed.std (f : Fixed) : Bool :=
  match f.after with
  | none => !withModrm f.sp f.map f.op && decide (immKind f.sp f.map f.op 0 = .n 0)
  | some b => withModrm f.sp f.map f.op && decide (b.extractLsb' 6 2 = 3) && decide (immKind f.sp f.map f.op (b.extractLsb' 3 3) = .n 0)

set_option maxRecDepth 100000 in
theorem fixed_std : (fixed.all fun p => p.2.std) = true := by decide +kernel

theorem head_wait (t : List Byte) : head (0x9B :: t) = some ({ opcode := 0x9B }, t) := rfl

theorem skip_wait (t : List Byte) : skip (0x9B :: t) = some t := skip00 (head_wait t) rfl rfl rfl

theorem skip_fixed {f : Fixed} (hf : f.std = true) (hr : f.Reads bs t) : ∃ bs', bs = (if f.wait then 0x9B :: bs' else bs') ∧ skip bs' = some t := by
  obtain ⟨h, bs', h1, hh, hm, ho, -, -, hv⟩ := hr
  refine ⟨bs', h1, ?_⟩
  have hs : h.space = f.sp := by
    unfold Fixed.sp
    cases hx : f.vex with
    | none => rw [hx] at hv; exact hv.1
    | some l => rw [hx] at hv; exact hv.1
  have hb : ∀ r, immKind f.sp f.map f.op r = .n 0 → immBytes h r = 0 := by
    intro r hk
    unfold immBytes
    rw [hs, hm, ho, hk]; rfl
  have hw : withModrm h.space h.map h.opcode = withModrm f.sp f.map f.op := by rw [hs, hm, ho]
  unfold Fixed.std at hf
  cases ha : f.after with
  | none =>
    rw [ha] at hf hh
    simp only [Bool.and_eq_true, Bool.not_eq_true', decide_eq_true_eq] at hf
    have hb := hb 0 hf.2
    rw [skip_plain hh (hw.trans hf.1) (by omega), hb]; rfl
  | some b =>
    rw [ha] at hf hh
    simp only [Bool.and_eq_true, decide_eq_true_eq] at hf
    have hb := hb _ hf.2
    have hr : modrm h false 1 (b :: t) = some (b.extractLsb' 3 3, .reg (b.extractLsb' 0 3), t) := by
      show (if b.extractLsb' 6 2 = 3 then _ else _) = _
      rw [if_pos hf.1.2]
    rw [skip_modrm hh hr (hw.trans hf.1.1) (by omega), hb]; rfl

end X86
end Xbyak
