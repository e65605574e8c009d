import Verif.Spec.VecLen
/-!
# Instructions with static rounding or suppression of exceptions

Written from the manual (SDM vol. 2, the forms with `{er}` and `{sae}`; AVX10.2 specification), independently of the assembler.  Both are allowed with
register operands only.  The vector forms have 512 bits (AVX10.2: or 256, with EVEX.U = 0); the width of their source, relative to that, is given by the list
the name is in.
-/
namespace Xbyak
namespace X86
open Mn

/-- Vector instructions with `{er}` whose source has the whole length. -/
def erFull : List Nat :=
  [n!"vaddpd", n!"vaddps", n!"vaddph", n!"vsubpd", n!"vsubps", n!"vsubph", n!"vmulpd", n!"vmulps", n!"vmulph", n!"vdivpd", n!"vdivps", n!"vdivph", n!"vsqrtpd", n!"vsqrtps",
   n!"vsqrtph", n!"vscalefpd", n!"vscalefps", n!"vscalefph", n!"vfmadd132pd", n!"vfmadd132ps", n!"vfmadd132ph", n!"vfmadd213pd", n!"vfmadd213ps", n!"vfmadd213ph",
   n!"vfmadd231pd", n!"vfmadd231ps", n!"vfmadd231ph", n!"vfmsub132pd", n!"vfmsub132ps", n!"vfmsub132ph", n!"vfmsub213pd", n!"vfmsub213ps", n!"vfmsub213ph", n!"vfmsub231pd",
   n!"vfmsub231ps", n!"vfmsub231ph", n!"vfnmadd132pd", n!"vfnmadd132ps", n!"vfnmadd132ph", n!"vfnmadd213pd", n!"vfnmadd213ps", n!"vfnmadd213ph", n!"vfnmadd231pd",
   n!"vfnmadd231ps", n!"vfnmadd231ph", n!"vfnmsub132pd", n!"vfnmsub132ps", n!"vfnmsub132ph", n!"vfnmsub213pd", n!"vfnmsub213ps", n!"vfnmsub213ph", n!"vfnmsub231pd",
   n!"vfnmsub231ps", n!"vfnmsub231ph", n!"vfmaddsub132pd", n!"vfmaddsub132ps", n!"vfmaddsub132ph", n!"vfmaddsub213pd", n!"vfmaddsub213ps", n!"vfmaddsub213ph",
   n!"vfmaddsub231pd", n!"vfmaddsub231ps", n!"vfmaddsub231ph", n!"vfmsubadd132pd", n!"vfmsubadd132ps", n!"vfmsubadd132ph", n!"vfmsubadd213pd", n!"vfmsubadd213ps",
   n!"vfmsubadd213ph", n!"vfmsubadd231pd", n!"vfmsubadd231ps", n!"vfmsubadd231ph", n!"vfmulcph", n!"vfcmulcph", n!"vfmaddcph", n!"vfcmaddcph", n!"vcvtdq2ps", n!"vcvtudq2ps",
   n!"vcvtps2dq", n!"vcvtps2udq", n!"vcvtpd2dq", n!"vcvtpd2udq", n!"vcvtpd2ps", n!"vcvtpd2qq", n!"vcvtpd2uqq", n!"vcvtqq2pd", n!"vcvtuqq2pd", n!"vcvtqq2ps", n!"vcvtuqq2ps",
   n!"vcvtdq2ph", n!"vcvtudq2ph", n!"vcvtpd2ph", n!"vcvtqq2ph", n!"vcvtuqq2ph", n!"vcvtps2phx", n!"vcvtph2w", n!"vcvtph2uw", n!"vcvtw2ph", n!"vcvtuw2ph", n!"vcvt2ps2phx",
   n!"vcvtph2ibs", n!"vcvtph2iubs", n!"vcvtps2ibs", n!"vcvtps2iubs"]

/-- `{er}`, source of half the length. -/
def erHalf : List Nat := [n!"vcvtps2qq", n!"vcvtps2uqq", n!"vcvtph2dq", n!"vcvtph2udq"]

/-- `{er}`, source of a quarter of the length. -/
def erQuarter : List Nat := [n!"vcvtph2qq", n!"vcvtph2uqq"]

/-- Scalar instructions with `{er}`. -/
def erScalar : List Nat :=
  [n!"vaddsd", n!"vaddss", n!"vaddsh", n!"vsubsd", n!"vsubss", n!"vsubsh", n!"vmulsd", n!"vmulss", n!"vmulsh", n!"vdivsd", n!"vdivss", n!"vdivsh", n!"vsqrtsd", n!"vsqrtss",
   n!"vsqrtsh", n!"vscalefsd", n!"vscalefss", n!"vscalefsh", n!"vfmadd132sd", n!"vfmadd132ss", n!"vfmadd132sh", n!"vfmadd213sd", n!"vfmadd213ss", n!"vfmadd213sh",
   n!"vfmadd231sd", n!"vfmadd231ss", n!"vfmadd231sh", n!"vfmsub132sd", n!"vfmsub132ss", n!"vfmsub132sh", n!"vfmsub213sd", n!"vfmsub213ss", n!"vfmsub213sh", n!"vfmsub231sd",
   n!"vfmsub231ss", n!"vfmsub231sh", n!"vfnmadd132sd", n!"vfnmadd132ss", n!"vfnmadd132sh", n!"vfnmadd213sd", n!"vfnmadd213ss", n!"vfnmadd213sh", n!"vfnmadd231sd",
   n!"vfnmadd231ss", n!"vfnmadd231sh", n!"vfnmsub132sd", n!"vfnmsub132ss", n!"vfnmsub132sh", n!"vfnmsub213sd", n!"vfnmsub213ss", n!"vfnmsub213sh", n!"vfnmsub231sd",
   n!"vfnmsub231ss", n!"vfnmsub231sh", n!"vfmulcsh", n!"vfcmulcsh", n!"vfmaddcsh", n!"vfcmaddcsh", n!"vcvtsd2si", n!"vcvtsd2usi", n!"vcvtss2si", n!"vcvtss2usi",
   n!"vcvtsh2si", n!"vcvtsh2usi", n!"vcvtsd2ss", n!"vcvtsd2sh", n!"vcvtss2sh", n!"vcvtsi2sd", n!"vcvtsi2ss", n!"vcvtsi2sh", n!"vcvtusi2sd", n!"vcvtusi2ss", n!"vcvtusi2sh"]

/-- Comparisons of vectors: `{sae}`, sources of the whole length. -/
def cmpVector : List Nat :=
  [n!"vcmppd", n!"vcmpps", n!"vcmpph", n!"vcmpeqpd", n!"vcmpeqps", n!"vcmpltpd", n!"vcmpltps", n!"vcmplepd", n!"vcmpleps", n!"vcmpunordpd", n!"vcmpunordps", n!"vcmpneqpd",
   n!"vcmpneqps", n!"vcmpnltpd", n!"vcmpnltps", n!"vcmpnlepd", n!"vcmpnleps", n!"vcmpordpd", n!"vcmpordps", n!"vcmpeq_uqpd", n!"vcmpeq_uqps", n!"vcmpngepd", n!"vcmpngeps",
   n!"vcmpngtpd", n!"vcmpngtps", n!"vcmpfalsepd", n!"vcmpfalseps", n!"vcmpneq_oqpd", n!"vcmpneq_oqps", n!"vcmpgepd", n!"vcmpgeps", n!"vcmpgtpd", n!"vcmpgtps", n!"vcmptruepd",
   n!"vcmptrueps", n!"vcmpeq_ospd", n!"vcmpeq_osps", n!"vcmplt_oqpd", n!"vcmplt_oqps", n!"vcmple_oqpd", n!"vcmple_oqps", n!"vcmpunord_spd", n!"vcmpunord_sps",
   n!"vcmpneq_uspd", n!"vcmpneq_usps", n!"vcmpnlt_uqpd", n!"vcmpnlt_uqps", n!"vcmpnle_uqpd", n!"vcmpnle_uqps", n!"vcmpord_spd", n!"vcmpord_sps", n!"vcmpeq_uspd",
   n!"vcmpeq_usps", n!"vcmpnge_uqpd", n!"vcmpnge_uqps", n!"vcmpngt_uqpd", n!"vcmpngt_uqps", n!"vcmpfalse_ospd", n!"vcmpfalse_osps", n!"vcmpneq_ospd", n!"vcmpneq_osps",
   n!"vcmpge_oqpd", n!"vcmpge_oqps", n!"vcmpgt_oqpd", n!"vcmpgt_oqps", n!"vcmptrue_uspd", n!"vcmptrue_usps"]

/-- Vector instructions with `{sae}` whose source has the whole length. -/
def saeFull : List Nat :=
  [n!"vmaxpd", n!"vmaxps", n!"vmaxph", n!"vminpd", n!"vminps", n!"vminph", n!"vgetexppd", n!"vgetexpps", n!"vgetexpph", n!"vgetmantpd", n!"vgetmantps", n!"vgetmantph",
   n!"vreducepd", n!"vreduceps", n!"vreduceph", n!"vrndscalepd", n!"vrndscaleps", n!"vrndscaleph", n!"vminmaxpd", n!"vminmaxps", n!"vminmaxph", n!"vrangepd", n!"vrangeps",
   n!"vfixupimmpd", n!"vfixupimmps", n!"vexp2pd", n!"vexp2ps", n!"vrcp28pd", n!"vrcp28ps", n!"vrsqrt28pd", n!"vrsqrt28ps", n!"vcvttpd2dq", n!"vcvttpd2udq", n!"vcvttpd2qq",
   n!"vcvttpd2uqq", n!"vcvttps2dq", n!"vcvttps2udq", n!"vcvttph2w", n!"vcvttph2uw", n!"vcvttpd2dqs", n!"vcvttpd2udqs", n!"vcvttpd2qqs", n!"vcvttpd2uqqs", n!"vcvttps2dqs",
   n!"vcvttps2udqs", n!"vcvttph2ibs", n!"vcvttph2iubs", n!"vcvttps2ibs", n!"vcvttps2iubs"]

/-- `{sae}`, source (VCVTPS2PH: destination) of half the length. -/
def saeHalf : List Nat := [n!"vcvttps2qq", n!"vcvttps2uqq", n!"vcvtps2pd", n!"vcvtph2ps", n!"vcvtps2ph", n!"vcvtph2psx", n!"vcvttph2dq", n!"vcvttph2udq", n!"vcvttps2qqs", n!"vcvttps2uqqs"]

/-- `{sae}`, source of a quarter of the length. -/
def saeQuarter : List Nat := [n!"vcvtph2pd", n!"vcvttph2qq", n!"vcvttph2uqq"]

/-- Comparisons of scalars: `{sae}`. -/
def cmpScalar : List Nat :=
  [n!"vcmpsd", n!"vcmpss", n!"vcmpsh", n!"vcmpeqsd", n!"vcmpeqss", n!"vcmpltsd", n!"vcmpltss", n!"vcmplesd", n!"vcmpless", n!"vcmpunordsd", n!"vcmpunordss", n!"vcmpneqsd",
   n!"vcmpneqss", n!"vcmpnltsd", n!"vcmpnltss", n!"vcmpnlesd", n!"vcmpnless", n!"vcmpordsd", n!"vcmpordss", n!"vcmpeq_uqsd", n!"vcmpeq_uqss", n!"vcmpngesd", n!"vcmpngess",
   n!"vcmpngtsd", n!"vcmpngtss", n!"vcmpfalsesd", n!"vcmpfalsess", n!"vcmpneq_oqsd", n!"vcmpneq_oqss", n!"vcmpgesd", n!"vcmpgess", n!"vcmpgtsd", n!"vcmpgtss", n!"vcmptruesd",
   n!"vcmptruess", n!"vcmpeq_ossd", n!"vcmpeq_osss", n!"vcmplt_oqsd", n!"vcmplt_oqss", n!"vcmple_oqsd", n!"vcmple_oqss", n!"vcmpunord_ssd", n!"vcmpunord_sss",
   n!"vcmpneq_ussd", n!"vcmpneq_usss", n!"vcmpnlt_uqsd", n!"vcmpnlt_uqss", n!"vcmpnle_uqsd", n!"vcmpnle_uqss", n!"vcmpord_ssd", n!"vcmpord_sss", n!"vcmpeq_ussd",
   n!"vcmpeq_usss", n!"vcmpnge_uqsd", n!"vcmpnge_uqss", n!"vcmpngt_uqsd", n!"vcmpngt_uqss", n!"vcmpfalse_ossd", n!"vcmpfalse_osss", n!"vcmpneq_ossd", n!"vcmpneq_osss",
   n!"vcmpge_oqsd", n!"vcmpge_oqss", n!"vcmpgt_oqsd", n!"vcmpgt_oqss", n!"vcmptrue_ussd", n!"vcmptrue_usss"]

/-- Scalar instructions with `{sae}`. -/
def saeScalar : List Nat :=
  [n!"vmaxsd", n!"vmaxss", n!"vmaxsh", n!"vminsd", n!"vminss", n!"vminsh", n!"vgetexpsd", n!"vgetexpss", n!"vgetexpsh", n!"vgetmantsd", n!"vgetmantss", n!"vgetmantsh",
   n!"vreducesd", n!"vreducess", n!"vreducesh", n!"vrndscalesd", n!"vrndscaless", n!"vrndscalesh", n!"vminmaxsd", n!"vminmaxss", n!"vminmaxsh", n!"vcomisd", n!"vcomiss",
   n!"vcomish", n!"vucomisd", n!"vucomiss", n!"vucomish", n!"vcomxsd", n!"vcomxss", n!"vcomxsh", n!"vucomxsd", n!"vucomxss", n!"vucomxsh", n!"vrangesd", n!"vrangess",
   n!"vfixupimmsd", n!"vfixupimmss", n!"vrcp28sd", n!"vrcp28ss", n!"vrsqrt28sd", n!"vrsqrt28ss", n!"vcvttsd2si", n!"vcvttsd2usi", n!"vcvttss2si", n!"vcvttss2usi",
   n!"vcvttsh2si", n!"vcvttsh2usi", n!"vcvttsd2sis", n!"vcvttsd2usis", n!"vcvttss2sis", n!"vcvttss2usis", n!"vcvtss2sd", n!"vcvtsh2sd", n!"vcvtsh2ss"]

def hasEr (name : Nat) : Bool := among name erFull || among name erHalf || among name erQuarter || among name erScalar
def hasSae (name : Nat) : Bool :=
  among name cmpVector || among name saeFull || among name saeHalf || among name saeQuarter || among name cmpScalar || among name saeScalar
def isHalf (name : Nat) : Bool := among name erHalf || among name saeHalf
def isQuarter (name : Nat) : Bool := among name erQuarter || among name saeQuarter
def isScalar (name : Nat) : Bool := among name erScalar || among name cmpScalar || among name saeScalar

/-- The operand that is compared with the length: the last register, or the destination of VCVTPS2PH. -/
def measured (name n : Nat) : Nat := if name.beq n!"vcvtps2ph" then 0 else n - 1

/-- A vector form of `name` with rounding: the length is that of the widest register, 256 or 512, and the operand `measured`, of width `src`, has the width
for it; registers narrower than 128 bits do not exist. -/
def RoundForm (name src len : Nat) : Prop :=
  (len = 256 ∨ len = 512) ∧ src = (if isHalf name then len / 2 else if isQuarter name then 128 else len)

end X86
end Xbyak
