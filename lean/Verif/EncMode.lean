import Verif.EncOps
/-!
# The default encodings

The member `defaultEncoding_` of the code generator (xbyak.h 2917) and the functions that set it.
-/
namespace Xbyak
namespace E

/-- xbyak.h 3204-3205: the constructor calls both functions with their default arguments (3244, 3250). -/
def initEncoding : Nat → PrefEnc := fun sel => if sel = 0 then .evex else .preAVX10v2

/-- xbyak.h 3244-3248 `setDefaultEncoding` -/
def setDefaultEncoding (d : Nat → PrefEnc) (enc : PrefEnc) : Except Err (Nat → PrefEnc) :=
  if enc ≠ .vex ∧ enc ≠ .evex then .error .BAD_ENCODING_MODE else .ok fun i => if i = 0 then enc else d i

/-- xbyak.h 3250-3254 `setDefaultEncodingAVX10` -/
def setDefaultEncodingAVX10 (d : Nat → PrefEnc) (enc : PrefEnc) : Except Err (Nat → PrefEnc) :=
  if enc ≠ .preAVX10v2 ∧ enc ≠ .avx10v2 then .error .BAD_ENCODING_MODE else .ok fun i => if i = 1 then enc else d i

/-- A call of one of the two functions, or of `reset` (xbyak.h 3208-3214), which does not touch the defaults. -/
inductive SetEnc | vnni (enc : PrefEnc) | avx10 (enc : PrefEnc) | reset

/-- What the call does to the defaults. -/
def SetEnc.call : SetEnc → (Nat → PrefEnc) → Except Err (Nat → PrefEnc)
  | .vnni enc, d => setDefaultEncoding d enc
  | .avx10 enc, d => setDefaultEncodingAVX10 d enc
  | .reset, d => .ok d

/-- The defaults after a call; one that throws leaves them as they are. -/
def SetEnc.run (d : Nat → PrefEnc) (c : SetEnc) : Nat → PrefEnc := match c.call d with | .ok d' => d' | .error _ => d

end E

end Xbyak
