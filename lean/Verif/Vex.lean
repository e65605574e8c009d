import Verif.OpAddr
import Verif.EncOps
/-!
# VEX and EVEX prefixes

The bytes written by `vex` and `evex` (xbyak.h 1882-1978), and how they decode.
-/
namespace Xbyak
open E

/-- The embedded prefix selected by the type flags: 0 none, 1 66, 2 F3, 3 F2. -/
def ppOf (type : Ty) : BitVec 2 := if type.has T_66 then 1 else if type.has T_F3 then 2 else if type.has T_F2 then 3 else 0

theorem getPP_eq (type : Ty) : getPP type = (ppOf type).setWidth 8 := by
  unfold getPP ppOf; split; rfl; split; rfl; split <;> rfl

theorem getMap_eq (type : Ty) : ∃ m : BitVec 2, getMap type = m.setWidth 8 ∧ mapOf type = m.setWidth 5 := by
  unfold mapOf getMap; split
  · exact ⟨1, rfl, rfl⟩
  split
  · exact ⟨2, rfl, rfl⟩
  split
  · exact ⟨3, rfl, rfl⟩
  exact ⟨0, rfl, rfl⟩

/-- The number of the optional second source; 0 if there is none. -/
def vIdx (v : Option Reg) : BitVec 5 := match v with | some q => q.idx | none => 0

/-- The vector length bit of a VEX instruction: fixed by the type, or the size of the destination. -/
def vexL (type : Ty) (r : Reg) : Bool := if type.has T_L1 then true else if type.has T_L0 then false else r.isYMM

/-- Line 1893 -/
def vex2ok (base : Reg) (type : Ty) (x : Bool) : Bool := !base.isExtIdx && !x && !type.has T_W1 && type.has T_0F

/-- The bytes of `vex` -/
def vexBytes (reg base : Reg) (v : Option Reg) (type : Ty) (code : Byte) (x : Bool) : List Byte :=
  let vvvv : BitVec 8 := ((~~~((vIdx v).setWidth 8)) &&& 15) <<< 3 ||| sel (vexL type reg) 4 ||| getPP type
  if vex2ok base type x then [0xC5, sel (!reg.isExtIdx) 0x80 ||| vvvv, code]
  else [0xC4, sel (!reg.isExtIdx) 0x80 ||| sel (!x) 0x40 ||| sel (!base.isExtIdx) 0x20 ||| getMap type, sel (type.has T_W1) 0x80 ||| vvvv, code]

theorem or_lt16 : ∀ a b c : BitVec 5, (a ||| b ||| c).toNat < 16 ↔ a.getLsbD 4 = false ∧ b.getLsbD 4 = false ∧ c.getLsbD 4 = false := by
  decide +kernel

/-- `vex` succeeds if no register number exceeds 15, and writes `vexBytes`. -/
theorem vex_gives (reg base : Reg) (v : Option Reg) (type : Ty) (code : Byte) (x : Bool) (w : List Act) (u : Unit) :
    (vex reg base v type code x).Gives w u ↔
      ((vIdx v).getLsbD 4 = false ∧ reg.isExtIdx2 = false ∧ base.isExtIdx2 = false) ∧ w = (vexBytes reg base v type code x).map .byte := by
  unfold vex
  dsimp only
  rw [Enc.throwIf_bind]
  have e : (decide ((vIdx v ||| reg.idx ||| base.idx).toNat ≥ 16) = false) ↔
      ((vIdx v).getLsbD 4 = false ∧ reg.isExtIdx2 = false ∧ base.isExtIdx2 = false) := by
    rw [decide_eq_false_iff_not, Nat.not_le, or_lt16]; rfl
  refine and_congr e ?_
  unfold vexBytes vex2ok
  dsimp only
  show Enc.Gives (if _ then _ else _) w u ↔ _
  split
  · rw [Enc.db_bind]
    simp only [Enc.db_bind, Enc.gives_db]
    constructor
    · rintro ⟨_, rfl, _, rfl, rfl⟩; rfl
    · rintro rfl; exact ⟨_, rfl, _, rfl, rfl⟩
  · simp only [Enc.db_bind, Enc.gives_db]
    constructor
    · rintro ⟨_, rfl, _, rfl, _, rfl, rfl⟩; rfl
    · rintro rfl; exact ⟨_, rfl, _, rfl, _, rfl, rfl⟩

theorem vex3_bits1 : ∀ (r x b : Bool) (m : BitVec 2),
    X86.bitAt (sel (!r) 0x80 ||| sel (!x) 0x40 ||| sel (!b) 0x20 ||| m.setWidth 8) 7 = !r ∧
    X86.bitAt (sel (!r) 0x80 ||| sel (!x) 0x40 ||| sel (!b) 0x20 ||| m.setWidth 8) 6 = !x ∧
    X86.bitAt (sel (!r) 0x80 ||| sel (!x) 0x40 ||| sel (!b) 0x20 ||| m.setWidth 8) 5 = !b ∧
    (sel (!r) 0x80 ||| sel (!x) 0x40 ||| sel (!b) 0x20 ||| m.setWidth 8).extractLsb' 0 5 = m.setWidth 5 := by decide +kernel

theorem vex_bits2 : ∀ (w l : Bool) (v : BitVec 5) (p : BitVec 2), v.getLsbD 4 = false →
    X86.bitAt (sel w 0x80 ||| (((~~~(v.setWidth 8)) &&& 15) <<< 3 ||| sel l 4 ||| p.setWidth 8)) 7 = w ∧
    (~~~((sel w 0x80 ||| (((~~~(v.setWidth 8)) &&& 15) <<< 3 ||| sel l 4 ||| p.setWidth 8)).extractLsb' 3 4)).setWidth 5 = v ∧
    ((sel w 0x80 ||| (((~~~(v.setWidth 8)) &&& 15) <<< 3 ||| sel l 4 ||| p.setWidth 8)).extractLsb' 2 1).setWidth 2 = (if l then 1#2 else 0#2) ∧
    (sel w 0x80 ||| (((~~~(v.setWidth 8)) &&& 15) <<< 3 ||| sel l 4 ||| p.setWidth 8)).extractLsb' 0 2 = p := by decide +kernel

/-- What the VEX prefix and the opcode byte say. -/
def vexHead (reg base : Reg) (v : Option Reg) (type : Ty) (code : Byte) (x p67 : Bool) : X86.Head :=
  { p67, space := .vex, w := type.has T_W1, r3 := reg.isExtIdx, x3 := x, b3 := base.isExtIdx, map := mapOf type, pp := ppOf type
    vreg := vIdx v, L := if vexL type reg then 1 else 0, opcode := code }

/-- The VEX bytes decode to `vexHead`, in the 2-byte form as in the 3-byte form. -/
theorem head_vex (reg base : Reg) (v : Option Reg) (type : Ty) (code : Byte) (x p67 : Bool) (hv : (vIdx v).getLsbD 4 = false) (t : List Byte) :
    X86.head (X86.opt p67 0x67 ++ (vexBytes reg base v type code x ++ t)) = some (vexHead reg base v type code x p67, t) := by
  unfold X86.head vexBytes
  dsimp only
  rw [X86.prefixes_67]
  obtain ⟨m, h1, h2⟩ := getMap_eq type
  rw [getPP_eq, h1]
  obtain ⟨a1, a2, a3, a4⟩ := vex3_bits1 reg.isExtIdx x base.isExtIdx m
  split
  · rename_i hc
    unfold vex2ok at hc
    simp only [Bool.and_eq_true, Bool.not_eq_true'] at hc
    obtain ⟨⟨⟨c1, c2⟩, c3⟩, c4⟩ := hc
    have e : mapOf type = 1 := by rw [mapOf_cases, if_pos c4]
    obtain ⟨b1, b2, b3, b4⟩ := vex_bits2 (!reg.isExtIdx) (vexL type reg) (vIdx v) (ppOf type) hv
    simp only [List.cons_append, List.nil_append]
    rw [X86.prefixes_stop _ _ _ (by decide)]
    unfold X86.afterPrefixes
    dsimp only
    rw [if_pos rfl]
    unfold X86.withVex2 vexHead
    rw [b1, b2, b3, b4, c1, c3, e, c2]
    simp
  · obtain ⟨b1, b2, b3, b4⟩ := vex_bits2 (type.has T_W1) (vexL type reg) (vIdx v) (ppOf type) hv
    simp only [List.cons_append, List.nil_append]
    rw [X86.prefixes_stop _ _ _ (by decide)]
    unfold X86.afterPrefixes
    dsimp only
    rw [if_neg (by decide), if_pos rfl]
    unfold X86.withVex3 vexHead
    rw [a1, a2, a3, a4, b1, b2, b3, b4, h2]
    simp

/-! ## EVEX -/

/-- The opcode map of an EVEX instruction: 1-3, or 5 and 6 with `T_FP16`. -/
def evexMap (type : Ty) : BitVec 3 := (getMap type ||| sel (type.has T_FP16) 4).setWidth 3

/-- The fields of the EVEX prefix. -/
structure EvexF where
  R : Bool
  X : Bool
  B : Bool
  R4 : Bool
  B4 : Bool
  map : BitVec 3
  w : Bool
  v : BitVec 5
  u : Bool
  pp : BitVec 2
  z : Bool
  LL : BitVec 2
  b : Bool
  V4 : Bool
  aaa : BitVec 3

def EvexF.byte1 (f : EvexF) : Byte :=
  sel (!f.R) 0x80 ||| sel (!f.X) 0x40 ||| sel (!f.B) 0x20 ||| sel (!f.R4) 0x10 ||| sel f.B4 8 ||| f.map.setWidth 8
def EvexF.byte2 (f : EvexF) : Byte :=
  sel f.w 0x80 ||| ((~~~(f.v.setWidth 8)) &&& 15) <<< 3 ||| sel f.u 4 ||| f.pp.setWidth 8
def EvexF.byte3 (f : EvexF) : Byte :=
  sel f.z 0x80 ||| (f.LL.setWidth 8) <<< 5 ||| sel f.b 0x10 ||| sel (!f.V4) 8 ||| f.aaa.setWidth 8

def EvexF.bytes (f : EvexF) (code : Byte) : List Byte := [0x62, f.byte1, f.byte2, f.byte3, code]

theorem evex_bits1 : ∀ (R X B R4 B4 : Bool) (m : BitVec 3),
    let c : Byte := sel (!R) 0x80 ||| sel (!X) 0x40 ||| sel (!B) 0x20 ||| sel (!R4) 0x10 ||| sel B4 8 ||| m.setWidth 8
    X86.bitAt c 7 = !R ∧ X86.bitAt c 6 = !X ∧ X86.bitAt c 5 = !B ∧ X86.bitAt c 4 = !R4 ∧ X86.bitAt c 3 = B4 ∧ c.extractLsb' 0 3 = m := by
  decide +kernel

theorem evex_bits2 : ∀ (w u : Bool) (v : BitVec 5) (p : BitVec 2),
    let d : Byte := sel w 0x80 ||| ((~~~(v.setWidth 8)) &&& 15) <<< 3 ||| sel u 4 ||| p.setWidth 8
    X86.bitAt d 7 = w ∧ (~~~(d.extractLsb' 3 4)).setWidth 5 = v &&& 15 ∧ X86.bitAt d 2 = u ∧ d.extractLsb' 0 2 = p := by decide +kernel

theorem evex_bits3 : ∀ (z b V4 : Bool) (L : BitVec 2) (k : BitVec 3),
    let e : Byte := sel z 0x80 ||| (L.setWidth 8) <<< 5 ||| sel b 0x10 ||| sel (!V4) 8 ||| k.setWidth 8
    X86.bitAt e 7 = z ∧ e.extractLsb' 5 2 = L ∧ X86.bitAt e 4 = b ∧ X86.bitAt e 3 = !V4 ∧ e.extractLsb' 0 3 = k ∧
      e.extractLsb' 0 4 = (if V4 then 0 else 8) ||| k.setWidth 4 := by decide +kernel

/-- What the EVEX prefix and the opcode byte say. -/
def EvexF.head (f : EvexF) (code : Byte) (p67 : Bool) : X86.Head :=
  { p67, space := .evex, w := f.w, r3 := f.R, x3 := f.X, b3 := f.B, r4 := f.R4, x4 := !f.u, b4 := f.B4, map := f.map.setWidth 5, pp := f.pp
    vreg := (if f.V4 then 16 else 0) ||| f.v &&& 15, L := f.LL, z := f.z, b := f.b, aaa := f.aaa, u := f.u
    low4 := (if f.V4 then 0 else 8) ||| f.aaa.setWidth 4, opcode := code }

theorem head_evex (f : EvexF) (code : Byte) (p67 : Bool) (t : List Byte) :
    X86.head (X86.opt p67 0x67 ++ (f.bytes code ++ t)) = some (f.head code p67, t) := by
  unfold X86.head EvexF.bytes
  dsimp only
  rw [X86.prefixes_67]
  obtain ⟨a1, a2, a3, a4, a5, a6⟩ := evex_bits1 f.R f.X f.B f.R4 f.B4 f.map
  obtain ⟨b1, b2, b3, b4⟩ := evex_bits2 f.w f.u f.v f.pp
  obtain ⟨c1, c2, c3, c4, c5, c6⟩ := evex_bits3 f.z f.b f.V4 f.LL f.aaa
  simp only [List.cons_append, List.nil_append]
  rw [X86.prefixes_stop _ _ _ (by decide)]
  unfold X86.afterPrefixes
  dsimp only
  rw [if_neg (by decide), if_neg (by decide), if_pos rfl]
  unfold X86.withEvex EvexF.byte1 EvexF.byte2 EvexF.byte3 EvexF.head
  rw [a1, a2, a3, a4, a5, a6, b1, b2, b3, b4, c1, c2, c3, c4, c5, c6]
  cases f.V4 <;> simp

/-- Zeroing requested by some operand. -/
def anyZero (reg base : Reg) (v : Option Reg) : Bool := reg.zero || base.zero || (match v with | some q => q.zero | none => false)

/-- The opmask of an EVEX instruction: given by the address, or by the registers. -/
def evexMask (reg base : Reg) (v : Option Reg) (aaa : BitVec 3) : Except Err (BitVec 3) :=
  if aaa = 0 then verifyDuplicate base.mask reg.mask (match v with | some q => q.mask | none => 0) .OPMASK_IS_ALREADY_SET else .ok aaa

/-- The fields chosen by `evex`. -/
def evexF (reg base : Reg) (v : Option Reg) (type : Ty) (x : Option Reg) (hi16 : Bool) (ln : EvexLen) (k : BitVec 3) : EvexF :=
  { R := reg.isExtIdx
    X := (match x with | some q => q.isExtIdx | none => false) || (base.isSIMD && base.isExtIdx2)
    B := base.isExtIdx, R4 := reg.isExtIdx2, B4 := base.isREG && base.isExtIdx2, map := evexMap type, w := type.has T_EW1
    v := vIdx v
    u := !ln.uzero && !(match x with | some q => q.isREG && q.isExtIdx2 | none => false)
    pp := ppOf type
    z := k != 0 && anyZero reg base v, LL := ln.LL.setWidth 2, b := ln.b, V4 := (vIdx v).getLsbD 4 || hi16, aaa := k }

theorem map3 (type : Ty) : getMap type ||| sel (type.has T_FP16) 4 = (evexMap type).setWidth 8 := by
  unfold evexMap
  obtain ⟨m, h1, _⟩ := getMap_eq type
  rw [h1]
  have : ∀ (m : BitVec 2) (c : Bool), m.setWidth 8 ||| sel c 4 = ((m.setWidth 8 ||| sel c 4).setWidth 3).setWidth 8 := by decide +kernel
  exact this _ _

theorem and3_eq (x : BitVec 8) : (x &&& 3) = (x.setWidth 2).setWidth 8 := by revert x; decide +kernel
theorem pp_and3 (p : BitVec 2) : (p.setWidth 8 : BitVec 8) &&& 3 = p.setWidth 8 := by revert p; decide +kernel

theorem z_eq (reg base : Reg) (v : Option Reg) (k : BitVec 3) :
    (if k = 0 then false else (reg.zero || base.zero || (match v with | some q => q.zero | none => false))) = (k != 0 && anyZero reg base v) := by
  unfold anyZero
  by_cases h : k = 0
  · rw [if_pos h, h]; rfl
  · rw [if_neg h, bne_iff_ne.2 h]; rfl
theorem u_eq (c : Bool) (x : Option Reg) :
    (if c then 0 else match x with | some q => sel (!(q.isREG && q.isExtIdx2)) 4 | none => 4 : BitVec 8) =
      sel (!c && !(match x with | some q => q.isREG && q.isExtIdx2 | none => false)) 4 := by
  cases c <;> cases x <;> simp [sel]
theorem v4_eq (v : Option Reg) : (match v with | some q => q.isExtIdx2 | none => false) = (vIdx v).getLsbD 4 := by cases v <;> rfl

/-- `evex` succeeds if the type allows EVEX and the modifiers are consistent; it writes the fields of `evexF`. -/
theorem evex_gives (reg base : Reg) (v : Option Reg) (type : Ty) (code : Byte) (x : Option Reg) (b : Bool) (aaa : BitVec 3) (VL : Nat)
    (hi16 : Bool) (w : List Act) (n : Nat) :
    (evex reg base v type code x b aaa VL hi16).Gives w n ↔
      type.has (T_EVEX ||| T_MUST_EVEX) = true ∧ ∃ ln k, evexLen reg base v type b VL = .ok ln ∧ evexMask reg base v aaa = .ok k ∧
        n = ln.disp8N ∧ w = ((evexF reg base v type x hi16 ln k).bytes code).map .byte := by
  unfold evex
  dsimp only
  rw [Enc.throwIf_bind]
  simp only [Bool.not_eq_false']
  refine and_congr Iff.rfl ?_
  rw [Enc.lift_bind]
  refine exists_congr fun ln => ?_
  have fin : ∀ k : BitVec 3, (do
      let z := if k = 0 then false else (reg.zero || base.zero || (match v with | some q => q.zero | none => false))
      Enc.db 0x62
      Enc.db (sel (!reg.isExtIdx) 0x80 ||| sel (!((match x with | some q => q.isExtIdx | none => false) || (base.isSIMD && base.isExtIdx2))) 0x40 ||| sel (!base.isExtIdx) 0x20 ||| sel (!reg.isExtIdx2) 0x10 ||| sel (base.isREG && base.isExtIdx2) 8 ||| (getMap type ||| sel (type.has T_FP16) 4))
      Enc.db (sel (type.has T_EW1) 0x80 ||| ((~~~((vIdx v).setWidth 8)) &&& 15) <<< 3 ||| (if ln.uzero then 0 else match x with | some q => sel (!(q.isREG && q.isExtIdx2)) 4 | none => 4) ||| (getPP type &&& 3))
      Enc.db (sel z 0x80 ||| (ln.LL &&& 3) <<< 5 ||| sel ln.b 0x10 ||| sel (!((match v with | some q => q.isExtIdx2 | none => false) || hi16)) 8 ||| k.setWidth 8)
      Enc.db code
      Pure.pure ln.disp8N : Enc Nat).Gives w n ↔ n = ln.disp8N ∧ w = ((evexF reg base v type x hi16 ln k).bytes code).map .byte := by
    intro k
    rw [u_eq, v4_eq, map3, getPP_eq, pp_and3, and3_eq, z_eq]
    simp only [Enc.db_bind, Enc.gives_pure]
    constructor
    · rintro ⟨_, rfl, _, rfl, _, rfl, _, rfl, _, rfl, rfl, rfl⟩; exact ⟨rfl, rfl⟩
    · rintro ⟨rfl, rfl⟩; exact ⟨_, rfl, _, rfl, _, rfl, _, rfl, _, rfl, rfl, rfl⟩
  constructor
  · rintro ⟨h, hw⟩
    unfold evexMask
    split at hw
    · rename_i ha
      rw [Enc.lift_bind] at hw
      obtain ⟨k, hk, hw⟩ := hw
      refine ⟨k, h, ?_, (fin k).1 hw⟩
      rw [if_pos ha]; exact hk
    · rename_i ha
      rw [Enc.pure_bind] at hw
      refine ⟨aaa, h, ?_, (fin aaa).1 hw⟩
      rw [if_neg ha]
  · rintro ⟨k, h, hk, hw⟩
    refine ⟨h, ?_⟩
    unfold evexMask at hk
    split at hk
    · rename_i ha
      rw [if_pos ha, Enc.lift_bind]
      exact ⟨k, hk, (fin k).2 hw⟩
    · rename_i ha
      cases hk
      rw [if_neg ha, Enc.pure_bind]
      exact (fin aaa).2 hw

end Xbyak
