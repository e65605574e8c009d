import Verif.Like
import Verif.Sib
import Verif.Arith
/-!
# Every encoder treats alike operands alike
-/
set_option linter.unusedSimpArgs false
namespace Xbyak
namespace Enc
variable {α β : Type}

theorem res_bind (m : Enc α) (f : α → Enc β) : (m >>= f).res = m.res.bind fun a => (f a).res := by
  show (Enc.bind m f).res = _
  unfold Enc.bind
  cases m.res <;> rfl
theorem res_pure (a : α) : (Pure.pure a : Enc α).res = .ok a := rfl
theorem res_throw (e : Err) : (throw e : Enc α).res = .error e := rfl
theorem res_throwIf (c : Bool) (e : Err) : (throwIf c e).res = cond c (.error e) (.ok ()) := by cases c <;> rfl
theorem res_db (b : Byte) : (db b).res = .ok () := rfl
theorem res_dbIf (c : Bool) (b : Byte) : (dbIf c b).res = .ok () := by cases c <;> rfl
theorem res_act (a : Act) : (act a).res = .ok () := rfl
theorem res_dbN (v : Word) (n : Nat) : (dbN v n).res = .ok () := rfl
theorem res_lift (x : Except Err α) : (lift x).res = x := by cases x <;> rfl
theorem ok_bind (a : α) (f : α → Except Err β) : (Except.ok a : Except Err α).bind f = f a := rfl
theorem error_bind (e : Err) (f : α → Except Err β) : (Except.error e : Except Err α).bind f = .error e := rfl
theorem res_ite (c : Prop) [Decidable c] (m m' : Enc α) : (if c then m else m').res = cond (decide c) m.res m'.res := by
  by_cases h : c <;> simp [h]

end Enc

open Enc

/-- Rewrites the result of an encoder to a computation without the bytes. -/
macro "encres" : tactic => `(tactic| simp only [res_bind, res_pure, res_throw, res_throwIf, res_db, res_dbIf, res_act, res_dbN, res_lift, ok_bind, error_bind, res_ite, Bool.decide_eq_true])

/-- The same on constructors of operands. -/
macro "enccases" : tactic => `(tactic| simp only [res_bind, res_pure, res_throw, res_throwIf, res_db, res_dbIf, res_act, res_dbN, res_lift,
  ok_bind, error_bind, res_ite, Bool.decide_eq_true, Operand.isMEM, Bool.false_eq_true, if_false, if_true, cond_true, cond_false, Bool.cond_self])

/-- Splits alike operands into registers and addresses. -/
theorem Operand.Like.or : ∀ {p q : Operand}, p.Like q → (∃ r s, p = .reg r ∧ q = .reg s ∧ r.Like s) ∨ (∃ a b, p = .mem a ∧ q = .mem b ∧ a.Like b)
  | .reg r, .reg s, h => .inl ⟨r, s, rfl, rfl, h⟩
  | .mem a, .mem b, h => .inr ⟨a, b, rfl, rfl, h⟩
  | .reg _, .mem _, h => h.elim
  | .mem _, .reg _, h => h.elim

/-- Optional registers. -/
def OLike : Option Reg → Option Reg → Prop
  | some r, some s => r.Like s
  | none, none => True
  | _, _ => False

theorem OLike.or : ∀ {p q : Option Reg}, OLike p q → (p = none ∧ q = none) ∨ ∃ r s, p = some r ∧ q = some s ∧ r.Like s
  | none, none, _ => .inl ⟨rfl, rfl⟩
  | some r, some s, h => .inr ⟨r, s, rfl, rfl, h⟩
  | some _, none, h => h.elim
  | none, some _, h => h.elim
theorem OLike.refl : ∀ o, OLike o o
  | none => trivial
  | some r => Reg.Like.refl r
theorem OLike.isSome {p q : Option Reg} (h : OLike p q) : p.isSome = q.isSome := by
  obtain ⟨rfl, rfl⟩ | ⟨r, s, rfl, rfl, _⟩ := h.or <;> rfl
theorem OLike.isNone {p q : Option Reg} (h : OLike p q) : p.isNone = q.isNone := by
  obtain ⟨rfl, rfl⟩ | ⟨r, s, rfl, rfl, _⟩ := h.or <;> rfl

namespace E

theorem setModRM_res (m : BitVec 2) (a b : BitVec 5) : (setModRM m a b).res = .ok () := rfl
theorem rex2_res (b : Bool) (x : BitVec 8) (p q r : Reg) : (rex2 b x p q r).res = .ok () := rfl
theorem dbOpt_res (i : Option Byte) : (dbOpt i).res = .ok () := by cases i <;> rfl
theorem writeCode_res (t : Ty) (r : Reg) (c : Byte) (b : Bool) : (writeCode t r c b).res = .ok () := by
  unfold writeCode; encres

theorem hi_disp (x : Word) : (decide (x >>> 31 ≠ 0) && decide (x >>> 31 ≠ 0x1FFFFFFFF)) = !isInInt32 x := by
  have h := (disp_check x).trans (isInInt32_iff x).symm
  cases hi : isInInt32 x
  · rw [hi] at h
    cases hd : (decide (x >>> 31 ≠ 0) && decide (x >>> 31 ≠ 0x1FFFFFFFF))
    · exact absurd (h.1 hd) (by decide)
    · rfl
  · exact h.2 hi

theorem setSIB_res (e : RegExp) (r : BitVec 5) (n : Nat) : (setSIB e r n).res = cond (isInInt32 e.disp) (.ok ()) (.error .OFFSET_IS_TOO_BIG) := by
  unfold setSIB
  encres
  rw [hi_disp]
  cases isInInt32 e.disp
  · rfl
  simp only [Bool.not_true, cond_false, cond_true, ok_bind, setModRM_res, Bool.cond_self]

theorem opAddr_like {a b : Addr} (h : a.Like b) (r s : BitVec 5) : (opAddr a r).res = (opAddr b s).res := by
  unfold opAddr
  encres
  rw [h.vsib, h.isVsib, h.mode]
  have hl := h.label
  congr 1; funext _
  cases b.mode
  · dsimp only; rw [setSIB_res, setSIB_res, h.getRegExp.disp]
  all_goals first | rfl | skip
  all_goals
    dsimp only
    encres
    rw [setModRM_res, setModRM_res]
    cases ha : a.label <;> cases hb : b.label <;> rw [ha, hb] at hl <;> first | cases hl | skip
    all_goals encres; first | rfl | skip
    all_goals simp only [h.disp]

theorem rex_like {a b c d : Operand} (h : a.Like b) (k : c.Like d) (t : Ty) : (rex a c t).res = (rex b d t).res := by
  obtain ⟨r, s, rfl, rfl, h1⟩ | ⟨r, s, rfl, rfl, h1⟩ := h.or <;> obtain ⟨r', s', rfl, rfl, k1⟩ | ⟨r', s', rfl, rfl, k1⟩ := k.or <;> unfold rex
  · enccases; simp only [Operand.hd, ok_bind, h1.nf, k1.nf, h1.zu, k1.zu, rex2_res, h1.hasRex2, k1.hasRex2]
  · enccases; simp only [Operand.hd, ok_bind, h1.nf, k1.o.nf, h1.zu, k1.o.zu, rex2_res, h1.hasRex2, k1.hasRex2]
  · enccases; simp only [Operand.hd, ok_bind, h1.o.nf, k1.nf, h1.o.zu, k1.zu, rex2_res, h1.hasRex2, k1.hasRex2]
  · enccases; simp only [Operand.hd, h1.o.nf, k1.o.nf, h1.o.zu, k1.o.zu]

theorem ge16_bit : ∀ i : BitVec 5, decide (i.toNat ≥ 16) = i.getLsbD 4 := by decide +kernel

theorem vex_like {r r' b b' : Reg} {v v' : Option Reg} (h : r.Like r') (k : b.Base b') (l : OLike v v') (t : Ty) (c c' : Byte) (x x' : Bool) :
    (vex r b v t c x).res = (vex r' b' v' t c' x').res := by
  unfold vex
  encres
  have hr : r.idx.getLsbD 4 = r'.idx.getLsbD 4 := h.isExtIdx2
  have hb : b.idx.getLsbD 4 = b'.idx.getLsbD 4 := k.isExtIdx2
  simp only [ge16_bit, BitVec.getLsbD_or, hr, hb, ok_bind, Bool.cond_self]
  obtain ⟨rfl, rfl⟩ | ⟨p, q, rfl, rfl, l1⟩ := l.or
  · rfl
  · simp only [show p.idx.getLsbD 4 = q.idx.getLsbD 4 from l1.isExtIdx2]

theorem verifySAE_like {r r' b b' : Reg} (h : r.Like r') (k : b.Base b') (t : Ty) : verifySAE r b t = verifySAE r' b' t := by
  unfold verifySAE; rw [h.isYMM, k.isXMM, k.isYMM, k.isZMM]
theorem verifyER_like {r r' b b' : Reg} (h : r.Like r') (k : b.Base b') (t : Ty) : verifyER r b t = verifyER r' b' t := by
  unfold verifyER; rw [h.isYMM, k.isXMM, k.isYMM, k.isZMM, k.isREG]

theorem evexLen_like {r r' b b' : Reg} {v v' : Option Reg} (h : r.Like r') (k : b.Base b') (l : OLike v v') (t : Ty) (bc : Bool) (VL : Nat) :
    evexLen r b v t bc VL = evexLen r' b' v' t bc VL := by
  unfold evexLen
  obtain ⟨rfl, rfl⟩ | ⟨p, q, rfl, rfl, l⟩ := l.or
  · rw [h.rnd, k.rnd, h.bit, k.bit, verifySAE_like h k, verifyER_like h k]
  · dsimp only; rw [h.rnd, k.rnd, l.rnd, h.bit, k.bit, l.bit, verifySAE_like h k, verifyER_like h k]

theorem evex_like {r r' b b' : Reg} {v v' : Option Reg} (h : r.Like r') (k : b.Base b') (l : OLike v v') (t : Ty) (c c' : Byte) (x x' : Option Reg) (bc : Bool)
    (aaa : BitVec 3) (VL : Nat) (hi hi' : Bool) : (evex r b v t c x bc aaa VL hi).res = (evex r' b' v' t c' x' bc aaa VL hi').res := by
  unfold evex
  encres
  rw [evexLen_like h k l]
  congr 1; funext _; congr 1; funext ln
  obtain ⟨rfl, rfl⟩ | ⟨p, q, rfl, rfl, l⟩ := l.or
  · rw [h.mask, k.mask]
  · dsimp only; rw [h.mask, k.mask, l.mask]

theorem evexLeg_like {r r' b b' x x' v v' : Reg} (h : r.Like r') (k : b.Base b') (m : x.Base x') (l : v.Like v') (t : Ty) (sc sc' : Option (BitVec 4)) :
    (evexLeg r b x v t sc).res = (evexLeg r' b' x' v' t sc').res := by
  unfold evexLeg
  encres
  rw [h.nf, k.nf, m.nf, l.nf, h.zu]
  congr 1; funext _; congr 1; funext _
  cases sc <;> cases sc' <;> rfl

theorem opROO_like {d d' : Reg} {a b e f : Operand} (hd : d.Like d') (h : a.Like b) (k : e.Like f) (t : Ty) (c c' : Byte) (n n' : Nat) (sc sc' : Option (BitVec 4)) :
    (opROO d a e t c n sc).res = (opROO d' b f t c' n' sc').res := by
  have hc : ((Operand.reg d).hasRex2NFZU || a.hasRex2NFZU || e.hasRex2NFZU) = ((Operand.reg d').hasRex2NFZU || b.hasRex2NFZU || f.hasRex2NFZU) := by
    rw [Operand.Like.hasRex2NFZU (p := .reg d) (q := .reg d') hd, h.hasRex2NFZU, k.hasRex2NFZU]
  unfold opROO
  simp only [hc, hd.isREG, res_ite, res_pure]
  congr 1
  obtain ⟨r, s, rfl, rfl, h1⟩ | ⟨r, s, rfl, rfl, h1⟩ := h.or <;> obtain ⟨r', s', rfl, rfl, k1⟩ | ⟨r', s', rfl, rfl, k1⟩ := k.or
  · enccases; simp only [Operand.hd, ok_bind, writeCode_res, setModRM_res, evexLeg_like k1 h1.toBase (.refl _) hd t sc sc']
  · enccases; simp only [Operand.hd, ok_bind, writeCode_res, evexLeg_like h1 k1.getRegExp.base k1.getRegExp.index hd t sc sc', opAddr_like (k1.withImm n n') r.idx s.idx]
  · enccases; simp only [Operand.hd, ok_bind, writeCode_res, evexLeg_like k1 h1.getRegExp.base h1.getRegExp.index hd t sc sc', opAddr_like (h1.withImm n n') r'.idx s'.idx]
  · enccases

theorem isBad_like {r r' b b' : Reg} (h : r.Like r') (k : b.Like b') : isBadCombination r b = isBadCombination r' b' := by
  unfold isBadCombination; rw [h.isHigh8bit, k.ext8, k.ge8]

theorem opRR_like {r r' b b' : Reg} (h : r.Like r') (k : b.Like b') (t : Ty) (c c' : Byte) : (opRR r b t c).res = (opRR r' b' t c').res := by
  unfold opRR
  encres
  rw [h.isREG, k.isREG, h.bit, k.bit, isBad_like h k, isBad_like k h, rex_like (a := .reg b) (b := .reg b') (c := .reg r) (d := .reg r') k h]
  simp only [writeCode_res, setModRM_res]

theorem opMR_like {a b : Addr} {r s : Reg} (h : a.Like b) (k : r.Like s) (t : Ty) (c c' : Byte) (t2 : Ty) (c2 c2' : Option Byte) :
    (opMR a r t c t2 c2).res = (opMR b s t c' t2 c2').res := by
  unfold opMR
  encres
  rw [opROO_like (a := .mem a) (b := .mem b) (e := .reg r) (f := .reg s) (.refl .nil) h k t2 (c2.getD c) (c2'.getD c') 0 0 none none]
  rw [h.is64bitDisp, k.bit, h.o.bit, rex_like (a := .mem a) (b := .mem b) (c := .reg r) (d := .reg s) h k]
  simp only [writeCode_res, opAddr_like h r.idx s.idx]

theorem opLoadSeg_like {a b : Addr} {r s : Reg} (h : a.Like b) (k : r.Like s) (t : Ty) (c : Byte) : (opLoadSeg a r t c).res = (opLoadSeg b s t c).res := by
  unfold opLoadSeg
  encres
  rw [h.is64bitDisp, k.isBit, rex_like (a := .mem a) (b := .mem b) (c := .reg r) (d := .reg s) h k]
  simp only [opAddr_like h r.idx s.idx]

theorem opMIB_like {a b : Addr} {r s : Reg} (h : a.Like b) (k : r.Like s) (t : Ty) (c : Byte) : (opMIB a r t c).res = (opMIB b s t c).res := by
  unfold opMIB
  encres
  rw [opMR_like h.noOpt k t c c 0 none none, h.mode]

theorem opRO_like {r s : Reg} {p q : Operand} (h : r.Like s) (k : p.Like q) (t : Ty) (c c' : Byte) (cond : Bool) (n n' : Nat) :
    (opRO r p t c cond n).res = (opRO s q t c' cond n').res := by
  unfold opRO
  obtain ⟨r', s', rfl, rfl, k⟩ | ⟨r', s', rfl, rfl, k⟩ := k.or
  · encres; rw [opRR_like h k t c c']
  · exact opMR_like (k.withImm n n') h t c c' 0 none none

theorem bind_congr' {α β : Type} {x y : Except Err α} {f g : α → Except Err β} (h : x = y) (hf : ∀ a, f a = g a) : x.bind f = y.bind g := by
  subst h; exact congrArg _ (funext hf)
theorem cond_congr' {α : Type} {c d : Bool} {a a' b b' : α} (h : c = d) (ha : a = a') (hb : b = b') : cond c a b = cond d a' b' := by
  subst h ha hb; rfl

theorem bind_likeRes {R : Reg → Reg → Prop} {x y : Except Err Reg} {f g : Reg → Except Err Unit} (h : LikeRes R x y) (hf : ∀ a b, R a b → f a = g b) :
    x.bind f = y.bind g := by
  match x, y, h with
  | .ok a, .ok b, h => exact hf a b h
  | .error _, .error _, h => exact congrArg _ h
  | .ok _, .error _, h => exact h.elim
  | .error _, .ok _, h => exact h.elim

theorem bind_likeRes2 {x y : Except Err Unit} {x' y' : Except Err Reg} {f g : Reg → Except Err Unit} (hx : x = y) (h : x = .ok () → LikeRes Reg.Like x' y')
    (hf : ∀ a b, a.Like b → f a = g b) : (x.bind fun _ => x'.bind f) = (y.bind fun _ => y'.bind g) := by
  subst hx
  cases hx : x with
  | error e => rfl
  | ok u => exact bind_likeRes (h hx) hf

theorem gp_like {i j : BitVec 5} (h : repIdx i = repIdx j) (b : Nat) : (Reg.gp i b).Like (.gp j b) := Reg.Like.made h _ _ _

theorem opRext_like {p q : Operand} (h : p.Like q) (b : Nat) {e e' : BitVec 5} (he : repIdx e = repIdx e') (t : Ty) (c c' : Byte) (dis : Bool) (n n' : Nat)
    {d d' : Option Reg} (hd : OLike d d') : (opRext p b e t c dis n d).res = (opRext q b e' t c' dis n' d').res := by
  unfold opRext
  have hg : (d.getD (.gp 0 (if dis && q.bit == 64 then 32 else q.bit))).Like (d'.getD (.gp 0 (if dis && q.bit == 64 then 32 else q.bit))) := by
    obtain ⟨rfl, rfl⟩ | ⟨r, s, rfl, rfl, h⟩ := hd.or
    · exact .refl _
    · exact h
  encres
  rw [h.bit, hd.isSome, h.hasRex2NFZU]
  rw [opROO_like hg h (e := .reg (.gp e _)) (f := .reg (.gp e' _)) (gp_like he _) t c c' 0 0 none none]
  refine cond_congr' rfl (bind_congr' rfl fun _ => cond_congr' rfl rfl ?_) (cond_congr' rfl rfl ?_)
  all_goals
    obtain ⟨r', s', rfl, rfl, h1⟩ | ⟨r', s', rfl, rfl, h1⟩ := h.or
    · dsimp only; encres
      refine bind_likeRes2 (by rw [h1.isREG]) (fun hr => h1.setBit (h1.gpIdx ?_) _) fun a b h2 => opRR_like (gp_like he _) h2 _ c c'
      cases hk : r'.isREG b
      · rw [hk] at hr; cases hr
      · unfold Reg.isREG at hk; rw [Bool.and_eq_true, beq_iff_eq] at hk; exact hk.1
    · exact opMR_like (h1.withImm n n') (gp_like he _) t c c' 0 none none

end E
end Xbyak
