import Verif.Head
/-!
# What the legacy encoders emit, as bytes the decoder lemmas understand
-/
namespace Xbyak
namespace E
open Enc (throwIf db dbIf dbN act lift Gives)
open X86 (opt Ext)

/-- Opcode map selected by the type flags. -/
def mapOf (type : Ty) : BitVec 5 := (getMap type).setWidth 5

theorem mapOf_cases (type : Ty) : mapOf type = if type.has T_0F then 1 else if type.has T_0F38 then 2 else if type.has T_0F3A then 3 else 0 := by
  unfold mapOf getMap
  split
  · rfl
  · split
    · rfl
    · split <;> rfl

/-- Opcode byte written by `writeCode`. -/
def opc (type : Ty) (q : Reg) (code : Byte) : Byte :=
  code ||| sel ((type &&& T_SENTRY == 0 || type.has T_CODE1_IF1) && !q.isBit 8) 1

/-- Extension bits for two registers: `r` in ModRM.reg, `b` in ModRM.rm. -/
def extRR (r b : Reg) : Ext :=
  { w := b.isREG 64 || r.isREG 64, r3 := r.idx.getLsbD 3, x3 := false, b3 := b.idx.getLsbD 3, r4 := r.idx.getLsbD 4, b4 := b.idx.getLsbD 4
    rex2 := b.hasRex2 || r.hasRex2, force := b.ext8 || r.ext8 }

/-- Extension bits for register `r` and address `a`. -/
def extMR (r : Reg) (a : Addr) : Ext :=
  let e := a.getRegExp
  { w := r.isREG 64, r3 := r.idx.getLsbD 3, x3 := e.index.idx.getLsbD 3, b3 := e.base.idx.getLsbD 3, r4 := r.idx.getLsbD 4
    x4 := e.index.idx.getLsbD 4, b4 := e.base.idx.getLsbD 4, rex2 := r.hasRex2 || a.hasRex2, force := r.ext8 }

/-- The operand-size rule of `rex`. -/
def p66of (type : Ty) (a b : Reg) : Bool := type.has T_66 || ((a.isBit 16 && !b.isBit 96) || (b.isBit 16 && !a.isBit 96))

/-- Prefixes, map and opcode. -/
def legBytes (type : Ty) (p66 p67 : Bool) (x : Ext) (o : Byte) : List Byte :=
  opt p66 0x66 ++ opt (type.has T_F2) 0xF2 ++ opt (type.has T_F3) 0xF3 ++ opt p67 0x67 ++ x.bytes (mapOf type) o

theorem nib_or : ∀ a b c d : Bool, (X86.nib a b c d = 0 ↔ (a || b || c || d) = false) ∧ X86.nib a b c d ||| 0x40 ≠ 0 := by decide +kernel

theorem rexRXB_nib (bit : Nat) (w : Bool) (r b x : Reg) :
    rexRXB bit w r b x = X86.nib w (r.idx.getLsbD bit) (x.idx.getLsbD bit) (b.idx.getLsbD bit) := rfl

/-- The conditions under which `rex` accepts. -/
def RexOK (type : Ty) (a b : Reg) (rex2 : Bool) : Prop :=
  (a.nf = false ∧ b.nf = false) ∧ (a.zu = false ∧ b.zu = false) ∧ (rex2 = true → type.has (T_0F38 ||| T_0F3A) = false)

/-- The bytes of `rex` alone. -/
def rexBytes (type : Ty) (p66 p67 : Bool) (x : Ext) : List Byte :=
  opt p66 0x66 ++ opt (type.has T_F2) 0xF2 ++ opt (type.has T_F3) 0xF3 ++ opt p67 0x67 ++
    (if x.rex2 then [(0xD5 : Byte), X86.nib (type.has T_0F) x.r4 x.x4 x.b4 <<< 4 ||| X86.nib x.w x.r3 x.x3 x.b3]
    else opt x.present (X86.nib x.w x.r3 x.x3 x.b3 ||| 0x40))

theorem rex_tail (x : Ext) (h : x.rex2 = false) (rx : Byte) (hrx : rx = X86.nib x.w x.r3 x.x3 x.b3) (f : Bool) (hf : f = x.force) :
    (if (if rx ≠ 0 ∨ f = true then rx ||| 0x40 else rx) ≠ 0 then [if rx ≠ 0 ∨ f = true then rx ||| 0x40 else rx] else []) =
      opt x.present (X86.nib x.w x.r3 x.x3 x.b3 ||| 0x40) := by
  subst hrx hf
  obtain ⟨h1, h2⟩ := nib_or x.w x.r3 x.x3 x.b3
  unfold Ext.present opt
  by_cases hc : X86.nib x.w x.r3 x.x3 x.b3 ≠ 0 ∨ x.force = true
  · rw [if_pos hc, if_pos h2, if_pos]
    rcases hc with hc | hc
    · have : ¬ (x.w || x.r3 || x.x3 || x.b3) = false := fun h => hc (h1.2 h)
      rw [Bool.not_eq_false] at this
      rw [h, Bool.false_or, this, Bool.true_or]
    · simp [hc]
  · rw [if_neg hc]
    simp only [ne_eq, not_or, Classical.not_not, Bool.not_eq_true] at hc
    rw [if_neg (by simp [hc.1])]
    have := h1.1 hc.1
    rw [if_neg]
    simp only [h, Bool.false_or, Bool.or_eq_true, not_or, Bool.not_eq_true, Bool.or_eq_false_iff] at this ⊢
    exact ⟨this, hc.2⟩

/-- The last part of `rex`, common to both cases. -/
theorem rex_end (x : Ext) (type : Ty) (r b i : Reg) (rx : Byte) (hrx : rx = X86.nib x.w x.r3 x.x3 x.b3) (h4 : rexRXB 4 (type.has T_0F) r b i =
      X86.nib (type.has T_0F) x.r4 x.x4 x.b4) (w : List Act) (v : Bool) (c : Prop) [Decidable c] (hc : c ↔ rx ≠ 0 ∨ x.force = true)
    (q : Bool) (hq : q = x.rex2) :
    (if q = true then do
        throwIf (type.has (T_0F38 ||| T_0F3A)) .CANT_USE_REX2
        rex2 (type.has T_0F) rx r b i
        pure true
      else do
        dbIf (decide ((if c then rx ||| 0x40 else rx) ≠ 0)) (if c then rx ||| 0x40 else rx)
        pure false : Enc Bool).Gives w v ↔
      (x.rex2 = true → type.has (T_0F38 ||| T_0F3A) = false) ∧ v = x.rex2 ∧
      w = (if x.rex2 then [(0xD5 : Byte), X86.nib (type.has T_0F) x.r4 x.x4 x.b4 <<< 4 ||| X86.nib x.w x.r3 x.x3 x.b3]
        else opt x.present (X86.nib x.w x.r3 x.x3 x.b3 ||| 0x40)).map .byte := by
  subst hq
  by_cases h2 : x.rex2 = true
  · simp only [if_pos h2, Enc.throwIf_bind, rex2, Enc.bind_assoc, Enc.db_bind, Enc.gives_pure, h4, hrx]
    constructor
    · rintro ⟨h, _, rfl, _, rfl, rfl, rfl⟩
      exact ⟨fun _ => h, h2.symm, rfl⟩
    · rintro ⟨h, rfl, rfl⟩
      exact ⟨h h2, _, rfl, _, rfl, rfl, h2⟩
  · have h2' : x.rex2 = false := by simpa using h2
    have rt := rex_tail x h2' rx hrx x.force rfl
    simp only [if_neg h2, Enc.dbIf_bind, Enc.gives_pure]
    simp only [← hc] at rt
    rw [← rt]
    simp only [decide_eq_true_eq]
    constructor
    · rintro ⟨_, rfl, rfl, rfl⟩
      exact ⟨fun h => absurd h h2, h2'.symm, by simp⟩
    · rintro ⟨_, rfl, rfl⟩
      exact ⟨[], by simp, rfl, h2'⟩

theorem rex_reg (a b : Reg) (type : Ty) (w : List Act) (v : Bool) :
    (rex (.reg a) (.reg b) type).Gives w v ↔ RexOK type a b (extRR b a).rex2 ∧ v = (extRR b a).rex2 ∧
      w = (rexBytes type (p66of type a b) false (extRR b a)).map .byte := by
  have re := fun w => rex_end (extRR b a) type b a .nil (rexRXB 3 (a.isREG 64 || b.isREG 64) b a .nil) rfl rfl w v
    (rexRXB 3 (a.isREG 64 || b.isREG 64) b a .nil ≠ 0 ∨ a.ext8 = true ∨ b.ext8 = true) (by simp [extRR])
    (a.hasRex2 || b.hasRex2) rfl
  unfold rex RexOK
  simp only [Enc.throwIf_bind, Operand.hd, Operand.isMEM, Enc.dbIf_bind, Bool.or_eq_false_iff, Bool.false_eq_true, if_false]
  unfold rexBytes p66of opt
  constructor
  · rintro ⟨h1, h2, _, _, rfl, _, rfl, _, rfl, h⟩
    obtain ⟨h3, rfl, rfl⟩ := (re _).1 h
    exact ⟨⟨h1, h2, h3⟩, rfl, by simp only [List.map_append, List.append_assoc, Bool.false_eq_true, if_false, List.nil_append]; rfl⟩
  · rintro ⟨⟨h1, h2, h3⟩, rfl, rfl⟩
    exact ⟨h1, h2, trivial, _, by simp only [List.map_append, List.append_assoc]; rfl, _, rfl, _, rfl, (re _).2 ⟨h3, rfl, rfl⟩⟩

theorem rex_mem (a : Addr) (r : Reg) (type : Ty) (w : List Act) (v : Bool) :
    (rex (.mem a) (.reg r) type).Gives w v ↔ RexOK type a.o r (extMR r a).rex2 ∧ v = (extMR r a).rex2 ∧
      w = (rexBytes type (p66of type a.o r) a.is32bit (extMR r a)).map .byte := by
  have re := fun w => rex_end (extMR r a) type r a.getRegExp.base a.getRegExp.index
    (rexRXB 3 (r.isREG 64) r a.getRegExp.base a.getRegExp.index) rfl rfl w v
    (rexRXB 3 (r.isREG 64) r a.getRegExp.base a.getRegExp.index ≠ 0 ∨ r.ext8 = true) (by simp [extMR])
    (r.hasRex2 || a.hasRex2) rfl
  unfold rex RexOK
  simp only [Enc.throwIf_bind, Operand.hd, Operand.isMEM, Enc.dbIf_bind, Bool.or_eq_false_iff, if_true]
  simp only [re, true_and]
  unfold rexBytes p66of opt
  constructor
  · rintro ⟨h1, h2, _, rfl, _, rfl, _, rfl, _, rfl, h3, rfl, rfl⟩
    exact ⟨⟨h1, h2, h3⟩, rfl, by simp only [List.map_append, List.append_assoc]; rfl⟩
  · rintro ⟨⟨h1, h2, h3⟩, rfl, rfl⟩
    exact ⟨h1, h2, _, by simp only [List.map_append, List.append_assoc]; rfl, _, rfl, _, rfl, _, rfl, h3, rfl, rfl⟩

/-- Bytes of `writeCode`. -/
def codeBytes (type : Ty) (rex2 : Bool) (o : Byte) : List Byte :=
  if type.has T_APX || rex2 then [o]
  else (if mapOf type = 1 then [0x0F] else if mapOf type = 2 then [0x0F, 0x38] else if mapOf type = 3 then [0x0F, 0x3A] else []) ++ [o]

theorem writeCode_gives (type : Ty) (q : Reg) (code : Byte) (v : Bool) (w : List Act) (u : Unit) :
    (writeCode type q code v).Gives w u ↔ w = (codeBytes type v (opc type q code)).map .byte := by
  unfold writeCode codeBytes
  rw [mapOf_cases]
  simp only [Enc.dbIf_bind, Enc.gives_db]
  change (∃ w1, w = _ ++ w1 ∧ ∃ w2, w1 = _ ++ w2 ∧ ∃ w3, w2 = _ ++ w3 ∧ w3 = [Act.byte (opc type q code)]) ↔ _
  generalize opc type q code = o
  cases type.has T_APX <;> cases v <;> cases type.has T_0F <;> cases type.has T_0F38 <;> cases type.has T_0F3A <;> simp

/-- `rex` followed by `writeCode`. -/
theorem rex_code (type : Ty) (p66 p67 : Bool) (x : Ext) (o : Byte) (ha : type.has T_APX = true → mapOf type = 0) :
    rexBytes type p66 p67 x ++ codeBytes type x.rex2 o = legBytes type p66 p67 x o := by
  unfold rexBytes codeBytes legBytes Ext.bytes
  by_cases h2 : x.rex2 = true
  · have m1 : decide (mapOf type = 1) = type.has T_0F := by
      rw [mapOf_cases]; cases type.has T_0F <;> cases type.has T_0F38 <;> cases type.has T_0F3A <;> decide
    rw [m1]; simp [h2]
  · have h2' : x.rex2 = false := by simpa using h2
    simp only [h2', Bool.or_false, if_false, Bool.false_eq_true]
    by_cases hx : type.has T_APX = true
    · rw [if_pos hx, ha hx]; simp
    · rw [if_neg hx]; simp

theorem mapOf_le (type : Ty) : (mapOf type).toNat ≤ 3 := by
  rw [mapOf_cases]; cases type.has T_0F <;> cases type.has T_0F38 <;> cases type.has T_0F3A <;> decide

theorem mapOf_rex2 (type : Ty) (h : type.has (T_0F38 ||| T_0F3A) = false) : (mapOf type).toNat ≤ 1 := by
  have h1 : type.has T_0F38 = false := by
    simp only [Ty.has, bne_eq_false_iff_eq] at h ⊢
    have : T_0F38 = (T_0F38 ||| T_0F3A) &&& T_0F38 := by decide
    rw [this, ← BitVec.and_assoc, h]; decide
  have h2 : type.has T_0F3A = false := by
    simp only [Ty.has, bne_eq_false_iff_eq] at h ⊢
    have : T_0F3A = (T_0F38 ||| T_0F3A) &&& T_0F3A := by decide
    rw [this, ← BitVec.and_assoc, h]; decide
  rw [mapOf_cases, h1, h2]; cases type.has T_0F <;> decide

/-- The head of a legacy instruction is read back. -/
theorem head_legBytes (type : Ty) (p66 p67 : Bool) (x : Ext) (o : Byte) (ho : X86.OpcodeOK (mapOf type) o)
    (h38 : x.rex2 = true → type.has (T_0F38 ||| T_0F3A) = false) (t : List Byte) :
    X86.head (legBytes type p66 p67 x o ++ t) =
      some (x.head { p66 := p66, pF2 := type.has T_F2, pF3 := type.has T_F3, p67 := p67 } (mapOf type) o, t) :=
  X86.head_legacy p66 _ _ p67 x (mapOf type) (mapOf_le type) (fun h => mapOf_rex2 type (h38 h)) o ho t

/-! ## `opRR` and `opMR` -/

theorem opRR_gives (r1 r2 : Reg) (type : Ty) (code : Byte) (ha : type.has T_APX = true → mapOf type = 0) (w : List Act) :
    (opRR r1 r2 type code).Gives w () ↔
      (!type.has T_ALLOW_DIFF_SIZE && r1.isREG && r2.isREG && r1.bit != r2.bit) = false ∧
      (!type.has T_ALLOW_ABCDH && (isBadCombination r1 r2 || isBadCombination r2 r1)) = false ∧
      RexOK type r2 r1 (extRR r1 r2).rex2 ∧
      w = (legBytes type (p66of type r2 r1) false (extRR r1 r2) (opc type r1 code) ++ [modRM 3 r1.idx r2.idx]).map .byte := by
  unfold opRR
  simp only [Enc.throwIf_bind]
  apply and_congr_right
  intro _
  apply and_congr_right
  intro _
  simp only [Enc.gives_bind, rex_reg, writeCode_gives, setModRM, Enc.gives_db]
  constructor
  · rintro ⟨_, _, _, ⟨h1, rfl, rfl⟩, ⟨_, _, _, rfl, rfl, rfl⟩, rfl⟩
    refine ⟨h1, ?_⟩
    rw [← rex_code _ _ _ _ _ ha]; simp only [List.map_append, List.append_assoc]; rfl
  · rintro ⟨h1, rfl⟩
    refine ⟨_, _, _, ⟨h1, rfl, rfl⟩, ⟨_, (), _, rfl, rfl, rfl⟩, ?_⟩
    rw [← rex_code _ _ _ _ _ ha]; simp only [List.map_append, List.append_assoc]; rfl

theorem opMR_gives (a : Addr) (r : Reg) (type : Ty) (code : Byte) (ha : type.has T_APX = true → mapOf type = 0) (w : List Act) :
    (opMR a r type code).Gives w () ↔ a.is64bitDisp = false ∧
      (!type.has T_ALLOW_DIFF_SIZE && decide (r.bit ≤ 64) && decide (a.o.bit > 0) && a.o.bit != r.bit) = false ∧
      RexOK type a.o r (extMR r a).rex2 ∧
      ∃ w', (opAddr a r.idx).Gives w' () ∧
        w = (legBytes type (p66of type a.o r) a.is32bit (extMR r a) (opc type r code)).map .byte ++ w' := by
  unfold opMR
  rw [if_neg (by simp), Enc.pure_bind]
  dsimp only
  rw [if_neg (by simp)]
  simp only [Enc.throwIf_bind]
  apply and_congr_right
  intro _
  apply and_congr_right
  intro _
  simp only [Enc.gives_bind, rex_mem, writeCode_gives]
  constructor
  · rintro ⟨_, _, _, ⟨h1, rfl, rfl⟩, ⟨_, _, _, rfl, h2, rfl⟩, rfl⟩
    refine ⟨h1, _, h2, ?_⟩
    rw [← rex_code _ _ _ _ _ ha]; simp only [List.map_append, List.append_assoc]
  · rintro ⟨h1, w', h2, rfl⟩
    refine ⟨_, _, _, ⟨h1, rfl, rfl⟩, ⟨_, (), _, rfl, h2, rfl⟩, ?_⟩
    rw [← rex_code _ _ _ _ _ ha]; simp only [List.map_append, List.append_assoc]

end E
end Xbyak
