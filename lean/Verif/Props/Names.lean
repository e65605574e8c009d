import Verif.Names
/-!
# Register names (C60)
-/
namespace Xbyak
namespace Reg

/-- The name of a register in the Intel manuals (SDM vol. 1, 3.4.1; APX 3.1.1), composed from its parts. -/
def manualName (r : Reg) : String :=
  let n := r.idx.toNat
  let num := Nat.repr n
  match r.kind with
  | .reg =>
    if 8 ≤ n then "r" ++ num ++ (if r.bit = 8 then "b" else if r.bit = 16 then "w" else if r.bit = 32 then "d" else "")
    else if n < 4 then
      let l := ["a", "c", "d", "b"].getD n ""
      if r.bit = 8 then l ++ "l" else (if r.bit = 16 then "" else if r.bit = 32 then "e" else "r") ++ l ++ "x"
    else if r.bit = 8 ∧ r.ext8 = false then ["a", "c", "d", "b"].getD (n - 4) "" ++ "h"
    else (if r.bit = 8 ∨ r.bit = 16 then "" else if r.bit = 32 then "e" else "r") ++ ["sp", "bp", "si", "di"].getD (n - 4) ""
      ++ (if r.bit = 8 then "l" else "")
  | .opmask => "k" ++ num
  | .tmm => "tmm" ++ num
  | .zmm => "zmm" ++ num
  | .ymm => "ymm" ++ num
  | .xmm => "xmm" ++ num
  | .mmx => "mm" ++ num
  | .fpu => "st" ++ num
  | .bndreg => "bnd" ++ num
  | _ => ""

/-- All names in one list. -/
def names : List String :=
  nameExt8 ++ name8 ++ name16 ++ name32 ++ name64 ++ nameK ++ nameTmm ++ nameZmm ++ nameYmm ++ nameXmm ++ nameMmx ++ nameSt ++ nameBnd

theorem names_nodup : names.Nodup := by decide +kernel

/-- Where the name of a register is in `names`. -/
def key (r : Reg) : Nat :=
  let idx := r.idx.toNat
  match r.kind with
  | .reg => if r.ext8 then idx - 4 else if r.bit = 8 then 4 + idx else if r.bit = 16 then 36 + idx else if r.bit = 32 then 68 + idx else 100 + idx
  | .opmask => 132 + idx
  | .tmm => 140 + idx
  | .zmm => 148 + idx
  | .ymm => 180 + idx
  | .xmm => 212 + idx
  | .mmx => 244 + idx
  | .fpu => 252 + idx
  | .bndreg => 260 + idx
  | _ => 264

/-- A register without its modifiers. -/
def plain (idx : BitVec 5) (ext8 : Bool) (kind : Kind) (bit : Nat) : Reg := { idx, ext8, kind, bit }

theorem named_cases {P : Reg → Prop} (hgp : ∀ i, (∀ b ∈ [8, 16, 32, 64], P (plain i false .reg b)) ∧ (4 ≤ i.toNat → i.toNat ≤ 7 → P (plain i true .reg 8)) ∧
      P (plain i false .xmm 128) ∧ P (plain i false .ymm 256) ∧ P (plain i false .zmm 512) ∧
      (i.toNat < 8 → P (plain i false .mmx 64) ∧ P (plain i false .tmm 8192) ∧ P (plain i false .opmask 64) ∧ P (plain i false .fpu 32)) ∧
      (i.toNat < 4 → P (plain i false .bndreg 128))) {r : Reg} (h : r.Named) : P (plain r.idx r.ext8 r.kind r.bit) := by
  obtain ⟨g1, g2, g3, g4, g5, g6, g7⟩ := hgp r.idx
  obtain ⟨hs, he, hl, hb⟩ := h
  have e : r.kind ≠ .reg ∨ r.bit ≠ 8 → r.ext8 = false := by
    intro h
    cases hx : r.ext8
    · rfl
    · obtain ⟨a, b, _⟩ := he hx
      rcases h with h | h <;> contradiction
  rcases hs with ⟨h1, h | h | h | h⟩ | ⟨h1, h⟩ | ⟨h1, h⟩ | ⟨h1, h⟩ | ⟨h1, h⟩ | ⟨h1, h⟩ | ⟨h1, h⟩ | ⟨h1, h⟩ | ⟨h1, h⟩
  · cases hx : r.ext8
    · rw [h1, h]; exact g1 8 (by decide)
    · obtain ⟨-, -, a, b⟩ := he hx
      rw [h1, h]; exact g2 a b
  · rw [e (.inr (by omega)), h1, h]; exact g1 16 (by decide)
  · rw [e (.inr (by omega)), h1, h]; exact g1 32 (by decide)
  · rw [e (.inr (by omega)), h1, h]; exact g1 64 (by decide)
  all_goals rw [e (.inl (by rw [h1]; decide)), h1, h]
  · exact (g6 (hl (.inl h1))).1
  · exact g3
  · exact g4
  · exact g5
  · exact (g6 (hl (.inr (.inl h1)))).2.1
  · exact (g6 (hl (.inr (.inr (.inl h1))))).2.2.1
  · exact g7 (hb h1)
  · exact (g6 (hl (.inr (.inr (.inr h1))))).2.2.2

theorem toStr_plain (r : Reg) : (plain r.idx r.ext8 r.kind r.bit).toStr = r.toStr ∧ (plain r.idx r.ext8 r.kind r.bit).manualName = r.manualName ∧
    (plain r.idx r.ext8 r.kind r.bit).key = r.key := ⟨rfl, rfl, rfl⟩

/-- C60: every register is printed with the name it has in the manuals. -/
theorem c60_manual {r : Reg} (h : r.Named) : r.toStr = some r.manualName := by
  obtain ⟨e1, e2, -⟩ := toStr_plain r
  rw [← e1, ← e2]
  exact named_cases (P := fun r => r.toStr = some r.manualName) (by decide +kernel) h

theorem toStr_key {r : Reg} (h : r.Named) : r.toStr = names[r.key]? ∧ r.key < 264 := by
  obtain ⟨e1, -, e3⟩ := toStr_plain r
  rw [← e1, ← e3]
  exact named_cases (P := fun r => r.toStr = names[r.key]? ∧ r.key < 264) (by decide +kernel) h

/-- The register at a place of `names`. -/
def unkey (n : Nat) : Reg :=
  if n < 4 then plain (BitVec.ofNat 5 (n + 4)) true .reg 8
  else if n < 36 then plain (BitVec.ofNat 5 (n - 4)) false .reg 8
  else if n < 68 then plain (BitVec.ofNat 5 (n - 36)) false .reg 16
  else if n < 100 then plain (BitVec.ofNat 5 (n - 68)) false .reg 32
  else if n < 132 then plain (BitVec.ofNat 5 (n - 100)) false .reg 64
  else if n < 140 then plain (BitVec.ofNat 5 (n - 132)) false .opmask 64
  else if n < 148 then plain (BitVec.ofNat 5 (n - 140)) false .tmm 8192
  else if n < 180 then plain (BitVec.ofNat 5 (n - 148)) false .zmm 512
  else if n < 212 then plain (BitVec.ofNat 5 (n - 180)) false .ymm 256
  else if n < 244 then plain (BitVec.ofNat 5 (n - 212)) false .xmm 128
  else if n < 252 then plain (BitVec.ofNat 5 (n - 244)) false .mmx 64
  else if n < 260 then plain (BitVec.ofNat 5 (n - 252)) false .fpu 32
  else plain (BitVec.ofNat 5 (n - 260)) false .bndreg 128

theorem unkey_key {r : Reg} (h : r.Named) : unkey r.key = plain r.idx r.ext8 r.kind r.bit :=
  named_cases (P := fun r => unkey r.key = plain r.idx r.ext8 r.kind r.bit) (by decide +kernel) h

theorem key_inj {r q : Reg} (hr : r.Named) (hq : q.Named) (h : r.key = q.key) :
    r.idx = q.idx ∧ r.ext8 = q.ext8 ∧ r.kind = q.kind ∧ r.bit = q.bit := by
  have e := unkey_key hr
  rw [h, unkey_key hq] at e
  simp only [plain, Reg.mk.injEq] at e
  exact ⟨e.1.symm, e.2.1.symm, e.2.2.1.symm, e.2.2.2.1.symm⟩

/-- C60: different registers have different names. -/
theorem c60_distinct {r q : Reg} (hr : r.Named) (hq : q.Named) (h : r.toStr = q.toStr) :
    r.idx = q.idx ∧ r.ext8 = q.ext8 ∧ r.kind = q.kind ∧ r.bit = q.bit := by
  obtain ⟨e1, l1⟩ := toStr_key hr
  obtain ⟨e2, l2⟩ := toStr_key hq
  rw [e1, e2] at h
  have hl : names.length = 264 := by decide +kernel
  apply key_inj hr hq
  exact (List.getElem?_inj (by omega) names_nodup).1 h

example : (r8 4).toStr = some "ah" ∧ (r8 4 true).toStr = some "spl" ∧ (gp 13 32).toStr = some "r13d" ∧ (zmm 31).toStr = some "zmm31" := by
  decide +kernel

end Reg
end Xbyak
