import Verif.Vex
import Verif.Props.Vex
import Verif.Props.Legacy
/-!
# The extended EVEX prefix of APX

The bytes written by `evexLeg` and `opROO` (xbyak.h 1980-2006, 2253-2273), and how they decode.
-/
namespace Xbyak
open E

/-- The opcode map of an APX instruction: map 4 for promoted legacy instructions, otherwise the map of the type. -/
def apxMap (type : Ty) : BitVec 3 := if mapOf type = 0 then 4 else (mapOf type).setWidth 3

/-- The modifier `T_nf` on one of the operands. -/
def apxNF (r b x v : Reg) : Bool := r.nf || b.nf || x.nf || v.nf

/-- Line 1995 -/
def apxND (r b v : Reg) (type : Ty) : Bool :=
  if type.has T_ZU then r.zu || b.zu else if type.has T_ND1 then true else if type.has T_APX then false else v.isREG

/-- The embedded prefix: fixed by the type, or the 16-bit operand size. -/
def apxPP (r v : Reg) (type : Ty) : BitVec 2 :=
  if type.has (T_F2 ||| T_F3 ||| T_66) then ppOf type else if r.isBit 16 || v.isBit 16 then 1 else 0

/-- W: fixed by the type, or the 64-bit operand size. -/
def apxW (r v : Reg) (type : Ty) : Bool := if type.has T_W0 then false else r.isBit 64 || v.isBit 64 || type.has T_W1

/-- The fields chosen by `evexLeg`. -/
def legF (r b x v : Reg) (type : Ty) (sc : Option (BitVec 4)) : EvexF :=
  { R := r.isExtIdx, X := x.isExtIdx, B := b.isExtIdx, R4 := r.isExtIdx2, B4 := b.isExtIdx2, map := apxMap type, w := apxW r v type
    v := v.idx, u := !x.isExtIdx2, pp := apxPP r v type, z := false, LL := 0, b := apxND r b v type
    V4 := (match sc with | some sc => !sc.getLsbD 3 | none => v.isExtIdx2)
    aaa := (match sc with | some sc => sc.setWidth 3 | none => if apxNF r b x v then 4 else 0) }

/-- The modifiers of an APX instruction are refused unless the type allows them. -/
def legOK (r b x v : Reg) (type : Ty) : Prop :=
  (type.has T_NF = true ∨ apxNF r b x v = false) ∧ (type.has T_ZU = true ∨ r.zu = false)

theorem apxMap_eq (type : Ty) : (if getMap type = 0 then 4 else getMap type : BitVec 8) = (apxMap type).setWidth 8 := by
  unfold apxMap mapOf getMap
  split
  · rfl
  split
  · rfl
  split <;> rfl

theorem apxPP_eq (r v : Reg) (type : Ty) :
    (if type.has (T_F2 ||| T_F3 ||| T_66) then getPP type else sel (r.isBit 16 || v.isBit 16) 1 : BitVec 8) = (apxPP r v type).setWidth 8 := by
  unfold apxPP
  split
  · exact getPP_eq type
  · cases (r.isBit 16 || v.isBit 16) <;> rfl

theorem sc_bits : ∀ (nd : Bool) (sc : BitVec 4), (sel nd 0x10 ||| sc.setWidth 8 : Byte) =
    sel false 0x80 ||| ((0 : BitVec 2).setWidth 8) <<< 5 ||| sel nd 0x10 ||| sel (!!sc.getLsbD 3) 8 ||| (sc.setWidth 3).setWidth 8 := by
  decide +kernel
theorem nf_bits : ∀ (nd v4 nf : Bool), (sel nd 0x10 ||| sel (!v4) 8 ||| sel nf 4 : Byte) =
    sel false 0x80 ||| ((0 : BitVec 2).setWidth 8) <<< 5 ||| sel nd 0x10 ||| sel (!v4) 8 ||| (if nf then (4 : BitVec 3) else 0).setWidth 8 := by
  decide +kernel

theorem evexLeg_gives (r b x v : Reg) (type : Ty) (sc : Option (BitVec 4)) (w : List Act) (u : Unit) :
    (evexLeg r b x v type sc).Gives w u ↔ legOK r b x v type ∧
      w = ([0x62, (legF r b x v type sc).byte1, (legF r b x v type sc).byte2, (legF r b x v type sc).byte3] : List Byte).map .byte := by
  unfold evexLeg
  dsimp only
  rw [Enc.throwIf_bind, Enc.throwIf_bind, apxMap_eq, apxPP_eq]
  have e1 : (!type.has T_NF && (r.nf || b.nf || x.nf || v.nf)) = false ↔ (type.has T_NF = true ∨ apxNF r b x v = false) := by
    unfold apxNF; cases type.has T_NF <;> simp
  have e2 : (!type.has T_ZU && r.zu) = false ↔ (type.has T_ZU = true ∨ r.zu = false) := by
    cases type.has T_ZU <;> simp
  unfold legOK
  rw [e1, e2, and_assoc]
  refine and_congr Iff.rfl (and_congr Iff.rfl ?_)
  rw [Enc.db_bind]
  simp only [Enc.db_bind]
  cases sc with
  | some sc =>
    dsimp only
    have : (sel (if type.has T_ZU then r.zu || b.zu else if type.has T_ND1 then true else if type.has T_APX then false else v.isREG) 16 |||
        sc.setWidth 8 : Byte) = (legF r b x v type (some sc)).byte3 := sc_bits _ _
    simp only [this, Enc.gives_db]
    constructor
    · rintro ⟨_, rfl, _, rfl, _, rfl, rfl⟩; rfl
    · rintro rfl; exact ⟨_, rfl, _, rfl, _, rfl, rfl⟩
  | none =>
    dsimp only
    have : (sel (if type.has T_ZU then r.zu || b.zu else if type.has T_ND1 then true else if type.has T_APX then false else v.isREG) 16 |||
        sel (!v.isExtIdx2) 8 ||| sel (r.nf || b.nf || x.nf || v.nf) 4 : Byte) = (legF r b x v type none).byte3 := nf_bits _ _ _
    simp only [this, Enc.gives_db]
    constructor
    · rintro ⟨_, rfl, _, rfl, _, rfl, rfl⟩; rfl
    · rintro rfl; exact ⟨_, rfl, _, rfl, _, rfl, rfl⟩

/-! ## `opROO` -/

/-- The instruction is encoded in the APX form. -/
def rooUsed (d : Reg) (op1 op2 : Operand) (type : Ty) : Bool :=
  type.has T_MUST_EVEX || d.isREG || ((Operand.reg d).hasRex2NFZU || op1.hasRex2NFZU || op2.hasRex2NFZU)

/-- The operand in ModRM.reg: the one that is not memory, the second of two registers. -/
def rooReg (op1 op2 : Operand) : Reg := match op1, op2 with | .reg a, .mem _ => a | _, b => b.hd
/-- The operand in ModRM.rm. -/
def rooRm (op1 op2 : Operand) : Operand := match op1, op2 with | .reg _, .mem b => .mem b | a, _ => a
/-- The opcode with the direction bit: set if the second source is memory. -/
def rooCode (op1 op2 : Operand) (code : Byte) : Byte := match op1, op2 with | .reg _, .mem _ => code ||| 2 | _, _ => code

theorem roo_false (d : Reg) (op1 op2 : Operand) (type : Ty) (code : Byte) (n : Nat) (sc : Option (BitVec 4))
    (h : rooUsed d op1 op2 type = false) : opROO d op1 op2 type code n sc = pure false := by
  unfold opROO
  rw [if_pos]
  unfold rooUsed at h
  simp only [Bool.or_eq_false_iff] at h
  simp [h]

/-- Base (or register) and index of the r/m operand. -/
def rmBase : Operand → Reg
  | .reg q => q
  | .mem a => a.getRegExp.base
def rmIndex : Operand → Reg
  | .reg _ => .nil
  | .mem a => a.getRegExp.index

/-- ModRM and what follows it. -/
def rmTail (r : Reg) (n : Nat) : Operand → Enc Unit
  | .reg q => setModRM 3 r.idx q.idx
  | .mem a => opAddr { a with immSize := n } r.idx

/-- The fields of the prefix written by `opROO`. -/
def rooF (d : Reg) (op1 op2 : Operand) (type : Ty) (sc : Option (BitVec 4)) : EvexF :=
  legF (rooReg op1 op2) (rmBase (rooRm op1 op2)) (rmIndex (rooRm op1 op2)) d type sc

def EvexF.pre (f : EvexF) : List Byte := [0x62, f.byte1, f.byte2, f.byte3]

theorem roo_core (r b x d : Reg) (type : Ty) (code : Byte) (sc : Option (BitVec 4)) (tail : Enc Unit) (w : List Act) (v : Bool) :
    (do evexLeg r b x d type sc; writeCode type d code false; tail; return true : Enc Bool).Gives w v ↔ v = true ∧ legOK r b x d type ∧
      ∃ w', tail.Gives w' () ∧ w = ((legF r b x d type sc).pre ++ codeBytes type false (opc type d code)).map .byte ++ w' := by
  simp only [Enc.gives_bind, evexLeg_gives, writeCode_gives, Enc.gives_pure]
  constructor
  · rintro ⟨_, _, _, ⟨h1, rfl⟩, ⟨_, _, _, rfl, ⟨w', _, _, h2, ⟨rfl, rfl⟩, rfl⟩, rfl⟩, rfl⟩
    refine ⟨rfl, h1, w', h2, by simp [EvexF.pre]⟩
  · rintro ⟨rfl, h1, w', h2, rfl⟩
    exact ⟨_, (), _, ⟨h1, rfl⟩, ⟨_, (), _, rfl, ⟨w', (), [], h2, ⟨rfl, rfl⟩, rfl⟩, rfl⟩, by simp [EvexF.pre]⟩

theorem roo_gives (d : Reg) (op1 op2 : Operand) (type : Ty) (code : Byte) (n : Nat) (sc : Option (BitVec 4)) (h : rooUsed d op1 op2 type = true)
    (w : List Act) (v : Bool) :
    (opROO d op1 op2 type code n sc).Gives w v ↔ (op1.isMEM && op2.isMEM) = false ∧ v = true ∧
      legOK (rooReg op1 op2) (rmBase (rooRm op1 op2)) (rmIndex (rooRm op1 op2)) d type ∧
      ∃ w', (rmTail (rooReg op1 op2) n (rooRm op1 op2)).Gives w' () ∧
        w = ((rooF d op1 op2 type sc).pre ++ codeBytes type false (opc type d (rooCode op1 op2 code))).map .byte ++ w' := by
  unfold opROO
  have h' : (!type.has T_MUST_EVEX && !d.isREG && !((Operand.reg d).hasRex2NFZU || op1.hasRex2NFZU || op2.hasRex2NFZU)) = false := by
    unfold rooUsed at h; rw [← Bool.not_eq_true]; intro h2; revert h; simp at h2; simp [h2]
  rw [if_neg (by rw [h']; decide)]
  cases op1 with
  | reg a =>
    cases op2 with
    | reg b =>
      simp only [Operand.isMEM, Operand.hd, Bool.false_eq_true, if_false, Enc.throwIf_bind, true_and, Bool.and_false]
      exact roo_core b a .nil d type code sc (setModRM 3 b.idx a.idx) w v
    | mem b =>
      simp only [Operand.isMEM, Operand.hd, Bool.false_eq_true, if_false, if_true, Enc.throwIf_bind, true_and, Bool.false_and]
      exact roo_core a b.getRegExp.base b.getRegExp.index d type (code ||| 2) sc (opAddr { b with immSize := n } a.idx) w v
  | mem a =>
    cases op2 with
    | reg b =>
      simp only [Operand.isMEM, Operand.hd, Bool.false_eq_true, if_false, if_true, Enc.throwIf_bind, true_and, Bool.and_false]
      exact roo_core b a.getRegExp.base a.getRegExp.index d type code sc (opAddr { a with immSize := n } b.idx) w v
    | mem b =>
      simp only [Operand.isMEM, if_true, Enc.throwIf_bind, Bool.and_self, Bool.true_eq_false, false_and]

end Xbyak
