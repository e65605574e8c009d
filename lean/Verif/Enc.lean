import Verif.RegExp
/-!
# Encoder primitives

Models the instruction encoding helpers of `CodeGenerator` (xbyak.h 1760-2110, 2184-2202).

An encoder appends bytes to the buffer and may throw in between.  It is a writer of `Act`s with an `Except` result: plain bytes,
the 4-byte field of a `[rip + label]` operand (written by `putL_inner`, modelled by `G.putLInner`), and the 4-byte field of a
`[rip + &variable]` operand, whose value depends on the current address.  `Verif/Props/Rip.lean` connects the acts to the code buffer.
-/
namespace Xbyak

/-- What an encoder appends. -/
inductive Act
  | byte (b : Byte)
  /-- `putL_inner(label, true, disp)` -/
  | rel (label : Nat) (disp : Word)
  /-- `dd(VerifyInInt32(target - (getCurr() + 4 + immSize)))`, refused in AutoGrow mode -/
  | ripAddr (target : Word) (immSize : Nat)
  deriving DecidableEq, Repr

/-- An encoder: the acts performed, and normal return or the exception. -/
structure Enc (α : Type) where
  acts : List Act
  res : Except Err α

namespace Enc
variable {α β : Type}

def pure (a : α) : Enc α := ⟨[], .ok a⟩
def bind (m : Enc α) (f : α → Enc β) : Enc β :=
  match m.res with
  | .ok a => ⟨m.acts ++ (f a).acts, (f a).res⟩
  | .error e => ⟨m.acts, .error e⟩

instance : Monad Enc where
  pure := Enc.pure
  bind := Enc.bind

def throw (e : Err) : Enc α := ⟨[], .error e⟩
def throwIf (c : Bool) (e : Err) : Enc Unit := if c then throw e else pure ()
/-- `db(code)` -/
def db (b : Byte) : Enc Unit := ⟨[.byte b], .ok ()⟩
/-- `if (c) db(code)` -/
def dbIf (c : Bool) (b : Byte) : Enc Unit := if c then db b else pure ()
def act (a : Act) : Enc Unit := ⟨[a], .ok ()⟩
/-- `db(uint64_t code, size_t n)`, `dd` -/
def dbN (v : Word) (n : Nat) : Enc Unit := ⟨(leBytes n v).map .byte, .ok ()⟩
def lift : Except Err α → Enc α
  | .ok a => pure a
  | .error e => throw e

/-- `m` returns `a` after the acts `w`. -/
def Gives (m : Enc α) (w : List Act) (a : α) : Prop := m.acts = w ∧ m.res = .ok a

theorem gives_pure {a b : α} {w : List Act} : (Pure.pure a : Enc α).Gives w b ↔ w = [] ∧ b = a := by
  constructor
  · rintro ⟨h, h'⟩; exact ⟨h.symm, (Except.ok.inj h').symm⟩
  · rintro ⟨rfl, rfl⟩; exact ⟨rfl, rfl⟩

theorem gives_throw {a : α} {w : List Act} {e : Err} : (throw e : Enc α).Gives w a ↔ False :=
  ⟨fun h => (by have := h.2; cases this), False.elim⟩

theorem gives_bind {m : Enc α} {f : α → Enc β} {w : List Act} {b : β} :
    (m >>= f).Gives w b ↔ ∃ w1 a w2, m.Gives w1 a ∧ (f a).Gives w2 b ∧ w = w1 ++ w2 := by
  show (Enc.bind m f).Gives w b ↔ _
  unfold Enc.bind Gives
  cases h : m.res with
  | ok a =>
    constructor
    · rintro ⟨rfl, h2⟩; exact ⟨_, a, _, ⟨rfl, rfl⟩, ⟨rfl, h2⟩, rfl⟩
    · rintro ⟨w1, a', w2, ⟨rfl, h1⟩, ⟨rfl, h2⟩, rfl⟩
      cases h1; exact ⟨rfl, h2⟩
  | error e =>
    constructor
    · rintro ⟨_, h2⟩; cases h2
    · rintro ⟨w1, a', w2, ⟨_, h1⟩, _⟩; cases h1

theorem gives_throwIf {c : Bool} {e : Err} {w : List Act} {a : Unit} :
    (throwIf c e).Gives w a ↔ c = false ∧ w = [] := by
  cases c
  · simp [throwIf, Gives, pure, eq_comm]
  · simp [throwIf, Gives, throw]

theorem gives_db {b : Byte} {w : List Act} {a : Unit} : (db b).Gives w a ↔ w = [.byte b] := by
  simp [db, Gives, eq_comm]
theorem gives_act {c : Act} {w : List Act} {a : Unit} : (act c).Gives w a ↔ w = [c] := by
  simp [act, Gives, eq_comm]
theorem gives_dbN {v : Word} {n : Nat} {w : List Act} {a : Unit} : (dbN v n).Gives w a ↔ w = (leBytes n v).map .byte := by
  simp [dbN, Gives, eq_comm]

end Enc

/-! ## Instruction type flags (xbyak.h 1826-1876) -/

/-- The `uint64_t type` argument. -/
abbrev Ty := BitVec 64

/-- `type & mask` as a condition -/
def Ty.has (t m : Ty) : Bool := t &&& m != 0

def T_NONE : Ty := 0
def T_N1 : Ty := 1
def T_N2 : Ty := 2
def T_N4 : Ty := 3
def T_N8 : Ty := 4
def T_N16 : Ty := 5
def T_N32 : Ty := 6
def T_NX_MASK : Ty := 7
def T_DUP : Ty := T_NX_MASK
def T_N_VL : Ty := 1 <<< 3
def T_APX : Ty := 1 <<< 4
def T_66 : Ty := 1 <<< 5
def T_F3 : Ty := 1 <<< 6
def T_ER_R : Ty := 1 <<< 7
def T_0F : Ty := 1 <<< 8
def T_0F38 : Ty := 1 <<< 9
def T_0F3A : Ty := 1 <<< 10
def T_L0 : Ty := 1 <<< 11
def T_L1 : Ty := 1 <<< 12
def T_W0 : Ty := 1 <<< 13
def T_W1 : Ty := 1 <<< 14
def T_EW0 : Ty := 1 <<< 15
def T_EW1 : Ty := 1 <<< 16
def T_YMM : Ty := 1 <<< 17
def T_EVEX : Ty := 1 <<< 18
def T_ER_X : Ty := 1 <<< 19
def T_ER_Y : Ty := 1 <<< 20
def T_ER_Z : Ty := 1 <<< 21
def T_SAE_X : Ty := 1 <<< 22
def T_SAE_Y : Ty := 1 <<< 23
def T_SAE_Z : Ty := 1 <<< 24
def T_MUST_EVEX : Ty := 1 <<< 25
def T_B32 : Ty := 1 <<< 26
def T_B64 : Ty := 1 <<< 27
def T_B16 : Ty := T_B32 ||| T_B64
def T_M_K : Ty := 1 <<< 28
def T_VSIB : Ty := 1 <<< 29
def T_MEM_EVEX : Ty := 1 <<< 30
def T_FP16 : Ty := 1 <<< 31
def T_MAP5 : Ty := T_FP16 ||| T_0F
def T_MAP6 : Ty := T_FP16 ||| T_0F38
def T_NF : Ty := 1 <<< 32
def T_CODE1_IF1 : Ty := 1 <<< 33
def T_ND1 : Ty := 1 <<< 35
def T_ZU : Ty := 1 <<< 36
def T_F2 : Ty := 1 <<< 37
def T_SENTRY : Ty := (1 <<< 38) - 1
def T_ALLOW_DIFF_SIZE : Ty := 1 <<< 38
def T_ALLOW_ABCDH : Ty := 1 <<< 39

namespace E
open Enc (throwIf db dbIf dbN act lift)

/-- xbyak.h 1879 `getPP` -/
def getPP (t : Ty) : BitVec 8 := if t.has T_66 then 1 else if t.has T_F3 then 2 else if t.has T_F2 then 3 else 0
/-- xbyak.h 1881 `getMap` -/
def getMap (t : Ty) : BitVec 8 := if t.has T_0F then 1 else if t.has T_0F38 then 2 else if t.has T_0F3A then 3 else 0

/-- `b ? v : 0` -/
def sel (b : Bool) (v : BitVec 8) : BitVec 8 := if b then v else 0

/-- xbyak.h 1765-1772 `rexRXB(bit, bit3, r, b, x)` with `bit` = 3 or 4 -/
def rexRXB (bit : Nat) (bit3 : Bool) (r b x : Reg) : BitVec 8 :=
  sel bit3 8 ||| sel (r.idx.getLsbD bit) 4 ||| sel (x.idx.getLsbD bit) 2 ||| sel (b.idx.getLsbD bit) 1

/-- xbyak.h 1773-1777 `rex2` -/
def rex2 (bit3 : Bool) (rex4bit : BitVec 8) (r b x : Reg) : Enc Unit := do
  db 0xD5
  db (rexRXB 4 bit3 r b x <<< 4 ||| rex4bit)

/-- xbyak.h 1779-1823 `rex`; the result is true if REX2 was selected -/
def rex (op1 op2 : Operand) (type : Ty) : Enc Bool := do
  throwIf (op1.hd.nf || op2.hd.nf) .INVALID_NF
  throwIf (op1.hd.zu || op2.hd.zu) .INVALID_ZU
  let p1 := if op1.isMEM then op2 else op1
  let p2 := if op1.isMEM then op1 else op2
  throwIf p1.isMEM .BAD_COMBINATION
  let p66 := (op1.isBit 16 && !op2.isBit 96) || (op2.isBit 16 && !op1.isBit 96)
  dbIf (type.has T_66 || p66) 0x66
  dbIf (type.has T_F2) 0xF2
  dbIf (type.has T_F3) 0xF3
  let is0F := type.has T_0F
  match p2 with
  | .mem addr => do
    let r := p1.hd
    let e := addr.getRegExp
    dbIf addr.is32bit 0x67
    let rx := rexRXB 3 (r.isREG 64) r e.base e.index
    if r.hasRex2 || addr.hasRex2 then do
      throwIf (type.has (T_0F38 ||| T_0F3A)) .CANT_USE_REX2
      rex2 is0F rx r e.base e.index
      return true
    else do
      let rx := if rx ≠ 0 ∨ r.ext8 then rx ||| 0x40 else rx
      dbIf (rx ≠ 0) rx
      return false
  | .reg _ => do
    let r1 := op1.hd
    let r2 := op2.hd
    let rx := rexRXB 3 (r1.isREG 64 || r2.isREG 64) r2 r1 .nil
    if r1.hasRex2 || r2.hasRex2 then do
      throwIf (type.has (T_0F38 ||| T_0F3A)) .CANT_USE_REX2
      rex2 is0F rx r2 r1 .nil
      return true
    else do
      let rx := if rx ≠ 0 ∨ r1.ext8 ∨ r2.ext8 then rx ||| 0x40 else rx
      dbIf (rx ≠ 0) rx
      return false

/-- xbyak.h 1882-1899 `vex`; `v` is the optional vvvv operand, `x` the X bit -/
def vex (reg base : Reg) (v : Option Reg) (type : Ty) (code : Byte) (x : Bool) : Enc Unit := do
  let w := type.has T_W1
  let is256 := if type.has T_L1 then true else if type.has T_L0 then false else reg.isYMM
  let r := reg.isExtIdx
  let b := base.isExtIdx
  let idx : BitVec 5 := match v with | some q => q.idx | none => 0
  throwIf (decide ((idx ||| reg.idx ||| base.idx).toNat ≥ 16)) .BAD_COMBINATION
  let vvvv : BitVec 8 := ((~~~(idx.setWidth 8)) &&& 15) <<< 3 ||| sel is256 4 ||| getPP type
  if !b && !x && !w && type.has T_0F then do
    db 0xC5
    db (sel (!r) 0x80 ||| vvvv)
  else do
    db 0xC4
    db (sel (!r) 0x80 ||| sel (!x) 0x40 ||| sel (!b) 0x20 ||| getMap type)
    db (sel w 0x80 ||| vvvv)
  db code

/-- xbyak.h 1901-1906 `verifySAE` -/
def verifySAE (r b : Reg) (type : Ty) : Except Err Bool :=
  if (type.has T_SAE_X && (r.isYMM && b.isXMM)) || (type.has T_SAE_Y && b.isXMM) || (type.has T_SAE_Z && b.isYMM) then .ok true
  else if (type.has T_SAE_X && b.isXMM) || (type.has T_SAE_Y && b.isYMM) || (type.has T_SAE_Z && b.isZMM) then .ok false
  else .error .SAE_IS_INVALID

/-- xbyak.h 1907-1913 `verifyER` -/
def verifyER (r b : Reg) (type : Ty) : Except Err Bool :=
  if type.has T_ER_R && b.isREG 96 then .ok false
  else if (type.has T_ER_X && (r.isYMM && b.isXMM)) || (type.has T_ER_Y && b.isXMM) || (type.has T_ER_Z && b.isYMM) then .ok true
  else if (type.has T_ER_X && b.isXMM) || (type.has T_ER_Y && b.isYMM) || (type.has T_ER_Z && b.isZMM) then .ok false
  else .error .SAE_IS_INVALID

/-- xbyak.h 1915-1920 `verifyDuplicate` -/
def verifyDuplicate (a b c : BitVec 3) (err : Err) : Except Err (BitVec 3) :=
  let v := a ||| b ||| c
  if (a ≠ 0 ∧ a ≠ v) ∨ (b ≠ 0 ∧ b ≠ v) ∨ (c ≠ 0 ∧ c ≠ v) then .error err else .ok v

/-- xbyak.h 1945-1962: the value returned by `evex`, for the vector length `VL` -/
def disp8Scale (type : Ty) (b : Bool) (VL : Nat) : Nat :=
  if b then
    if type &&& T_B16 = T_B16 then 2 else if type.has T_B32 then 4 else 8
  else if type &&& T_NX_MASK = T_DUP then
    if VL = 128 then 8 else if VL = 256 then 32 else 64
  else
    let type := if type &&& (T_NX_MASK ||| T_N_VL) = 0 then type ||| (T_N16 ||| T_N_VL) else type
    let low := (type &&& T_NX_MASK).toNat
    if low > 0 then
      let n := 1 <<< (low - 1)
      if type.has T_N_VL then n * (if VL = 512 then 4 else if VL = 256 then 2 else 1) else n
    else 1

/-- The fields decided by the rounding/length part of `evex` (xbyak.h 1934-1964). -/
structure EvexLen where
  LL : BitVec 8
  uzero : Bool
  b : Bool
  disp8N : Nat

/-- xbyak.h 1934-1964 -/
def evexLen (reg base : Reg) (v : Option Reg) (type : Ty) (b : Bool) (VL : Nat) : Except Err EvexLen := do
  let rounding ← verifyDuplicate reg.rnd base.rnd (match v with | some q => q.rnd | none => 0) .ROUNDING_IS_ALREADY_SET
  if rounding ≠ 0 then
    if rounding = 5 then
      let u ← verifySAE reg base type
      return ⟨0, u, true, 1⟩
    else
      let u ← verifyER reg base type
      return ⟨rounding.setWidth 8 - 1, u, true, 1⟩
  else
    let VL := match v with | some q => max VL q.bit | none => VL
    let VL := max (max reg.bit base.bit) VL
    let LL : BitVec 8 := if VL = 512 then 2 else if VL = 256 then 1 else 0
    return ⟨LL, false, b, disp8Scale type b VL⟩

/-- xbyak.h 1921-1978 `evex`; `x` is the optional index register, the result is `disp8N` -/
def evex (reg base : Reg) (v : Option Reg) (type : Ty) (code : Byte) (x : Option Reg) (b : Bool) (aaa : BitVec 3)
    (VL : Nat) (hi16Vidx : Bool) : Enc Nat := do
  throwIf (!type.has (T_EVEX ||| T_MUST_EVEX)) .EVEX_IS_INVALID
  let w := type.has T_EW1
  let mmm := getMap type ||| sel (type.has T_FP16) 4
  let pp := getPP type
  let idx : BitVec 5 := match v with | some q => q.idx | none => 0
  let vvvv : BitVec 8 := ~~~(idx.setWidth 8)
  let R := reg.isExtIdx
  let X3 := (match x with | some q => q.isExtIdx | none => false) || (base.isSIMD && base.isExtIdx2)
  let B4 := sel (base.isREG && base.isExtIdx2) 8
  let U : BitVec 8 := match x with | some q => sel (!(q.isREG && q.isExtIdx2)) 4 | none => 4
  let B := base.isExtIdx
  let Rp := reg.isExtIdx2
  let ln ← lift (evexLen reg base v type b VL)
  let U := if ln.uzero then 0 else U
  let V4 := (match v with | some q => q.isExtIdx2 | none => false) || hi16Vidx
  let z := reg.zero || base.zero || (match v with | some q => q.zero | none => false)
  let aaa ← if aaa = 0 then
      lift (verifyDuplicate base.mask reg.mask (match v with | some q => q.mask | none => 0) .OPMASK_IS_ALREADY_SET)
    else pure aaa
  let z := if aaa = 0 then false else z
  db 0x62
  db (sel (!R) 0x80 ||| sel (!X3) 0x40 ||| sel (!B) 0x20 ||| sel (!Rp) 0x10 ||| B4 ||| mmm)
  db (sel w 0x80 ||| (vvvv &&& 15) <<< 3 ||| U ||| (pp &&& 3))
  db (sel z 0x80 ||| (ln.LL &&& 3) <<< 5 ||| sel ln.b 0x10 ||| sel (!V4) 8 ||| aaa.setWidth 8)
  db code
  return ln.disp8N

/-- xbyak.h 1980-2006 `evexLeg`; `sc` is the source condition of `ccmp`/`ctest` -/
def evexLeg (r b x v : Reg) (type : Ty) (sc : Option (BitVec 4)) : Enc Unit := do
  let M := if getMap type = 0 then 4 else getMap type
  let w := if type.has T_W0 then false else r.isBit 64 || v.isBit 64 || type.has T_W1
  let V : BitVec 8 := ((~~~(v.idx.setWidth 8)) &&& 15) <<< 3
  let pp : BitVec 8 := if type.has (T_F2 ||| T_F3 ||| T_66) then getPP type else sel (r.isBit 16 || v.isBit 16) 1
  let ND := if type.has T_ZU then r.zu || b.zu else if type.has T_ND1 then true else if type.has T_APX then false else v.isREG
  let NF := r.nf || b.nf || x.nf || v.nf
  throwIf (!type.has T_NF && NF) .INVALID_NF
  throwIf (!type.has T_ZU && r.zu) .INVALID_ZU
  db 0x62
  db (sel (!r.isExtIdx) 0x80 ||| sel (!x.isExtIdx) 0x40 ||| sel (!b.isExtIdx) 0x20 ||| sel (!r.isExtIdx2) 0x10
    ||| sel b.isExtIdx2 8 ||| M)
  db (sel w 0x80 ||| V ||| sel (!x.isExtIdx2) 4 ||| pp)
  match sc with
  | some sc => db (sel ND 0x10 ||| sc.setWidth 8)
  | none => db (sel ND 0x10 ||| sel (!v.isExtIdx2) 8 ||| sel NF 4)

/-- xbyak.h 2007-2010: the byte written by `setModRM` -/
def modRM (mod : BitVec 2) (r1 r2 : BitVec 5) : Byte :=
  mod.setWidth 8 <<< 6 ||| (r1.setWidth 8 &&& 7) <<< 3 ||| (r2.setWidth 8 &&& 7)

/-- xbyak.h 2007-2010 `setModRM` -/
def setModRM (mod : BitVec 2) (r1 r2 : BitVec 5) : Enc Unit := db (modRM mod r1 r2)

/-- xbyak.h 2035-2052: mod field and stored displacement -/
def dispForm (base : Reg) (disp : BitVec 32) (disp8N : Nat) : BitVec 2 × BitVec 32 :=
  if base.bit = 0 ∨ (base.idx &&& 7 ≠ 5 ∧ disp = 0) then (0, disp)
  else if disp8N = 0 then
    if isInDisp8 disp then (1, disp) else (2, disp)
  else
    let t : BitVec 32 := BitVec.ofInt 32 (disp.toInt.tdiv disp8N)
    if disp.toNat % disp8N = 0 ∧ isInDisp8 t then (1, t) else (2, disp)

/-- xbyak.h 2065-2066 -/
def scaleBits (scale : Int) : BitVec 2 := if scale = 8 then 3 else if scale = 4 then 2 else if scale = 2 then 1 else 0

/-- xbyak.h 2011-2073 `setSIB` -/
def setSIB (e : RegExp) (reg : BitVec 5) (disp8N : Nat) : Enc Unit := do
  let high := e.disp >>> 31
  throwIf (high ≠ 0 && high ≠ 0x1FFFFFFFF) .OFFSET_IS_TOO_BIG
  let md := dispForm e.base (lo32 e.disp) disp8N
  let mod := md.1
  let disp := md.2
  let newBaseIdx : BitVec 5 := if e.base.bit ≠ 0 then e.base.idx &&& 7 else 5
  let hasSIB := e.index.bit ≠ 0 || e.base.idx &&& 7 == 4 || (e.base.bit == 0 && e.index.bit == 0)
  if hasSIB then do
    setModRM mod reg 4
    setModRM (scaleBits e.scale) (if e.index.bit ≠ 0 then e.index.idx &&& 7 else 4) newBaseIdx
  else setModRM mod reg newBaseIdx
  if mod = 1 then db (disp.setWidth 8)
  else if mod = 2 ∨ (mod = 0 ∧ e.base.bit = 0) then dbN (disp.setWidth 64) 4
  else pure ()

/-- xbyak.h 2074-2086 `writeCode` -/
def writeCode (type : Ty) (r : Reg) (code : Byte) (isRex2 : Bool) : Enc Unit := do
  let legacy := !(type.has T_APX || isRex2)
  let m1 := type.has T_0F
  let m2 := !m1 && type.has T_0F38
  let m3 := !m1 && !m2 && type.has T_0F3A
  dbIf (legacy && (m1 || m2 || m3)) 0x0F
  dbIf (legacy && m2) 0x38
  dbIf (legacy && m3) 0x3A
  db (code ||| sel ((type &&& T_SENTRY == 0 || type.has T_CODE1_IF1) && !r.isBit 8) 1)

/-- xbyak.h 2184-2202 `opAddr` -/
def opAddr (addr : Addr) (reg : BitVec 5) : Enc Unit := do
  throwIf (!addr.permitVsib && addr.isVsib) .BAD_VSIB_ADDRESSING
  match addr.mode with
  | .modRM => setSIB addr.getRegExp reg addr.disp8N
  | .rip | .ripAddr => do
    setModRM 0 reg 5
    match addr.label with
    | some l => act (.rel l (addr.e.disp - BitVec.ofNat 64 addr.immSize))
    | none =>
      if addr.mode = .ripAddr then act (.ripAddr addr.e.disp addr.immSize)
      else do
        throwIf (!isInInt32 addr.e.disp) .OFFSET_IS_TOO_BIG
        dbN ((lo32 addr.e.disp).setWidth 64) 4
  | .disp64 => pure ()

/-- xbyak.h 2246-2251 `isBadCombination` -/
def isBadCombination (r1 r2 : Reg) : Bool := r1.isHigh8bit && (r2.ext8 || decide (r2.idx.toNat ≥ 8))

end E
end Xbyak
