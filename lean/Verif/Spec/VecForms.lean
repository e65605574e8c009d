import Verif.Spec.Kinds
/-!
# The operands of vector instructions

The instruction column of the Intel SDM, and of the AVX10.2 specification, for the VEX and EVEX encoded instructions without vector index: the kinds and sizes of
the operands for each vector length, and the number of immediates.
-/
namespace Xbyak
namespace X86

/-- Operands, as a function of the vector length `VL`. -/
inductive VOp
  /-- vector register of `VL / n` bits, but at least 128 -/
  | v (n : Nat)
  /-- that, or memory of `VL / n` bits -/
  | vm (n : Nat)
  /-- memory of `VL / n` bits -/
  | mv (n : Nat)
  /-- vector register of `n` bits -/
  | w (n : Nat)
  /-- vector register of `n` bits or memory of `m` bits -/
  | wm (n m : Nat)
  /-- memory of `n` bits -/
  | m (n : Nat)
  /-- general register of `n` bits; for `reg` of the manual, where the width does not matter, the part that is used -/
  | r (n : Nat)
  /-- general register of `n` bits or memory of `m` bits -/
  | rm (n m : Nat)
  /-- opmask register -/
  | k
  /-- opmask register or memory of `n` bits -/
  | km (n : Nat)
  deriving DecidableEq, Repr

/-- A line of the instruction column for several vector lengths; with `evex` vector registers 16 to 31 may be used. -/
structure VForm where
  evex : Bool
  lens : List Nat
  ops : List VOp
  ints : Nat
  deriving DecidableEq, Repr

namespace Vec
open VOp

def V (lens : List Nat) (ops : List VOp) (ints : Nat) : VForm := ⟨false, lens, ops, ints⟩
def E (lens : List Nat) (ops : List VOp) (ints : Nat) : VForm := ⟨true, lens, ops, ints⟩
def len2 : List Nat := [128, 256]
def len3 : List Nat := [128, 256, 512]
/-- Packed: VEX with 128 and 256 bits, EVEX with all lengths. -/
def both (ops : List VOp) (ints : Nat) : List VForm := [V len2 ops ints, E len3 ops ints]
/-- Scalar. -/
def one (ops : List VOp) (ints : Nat) : List VForm := [V [128] ops ints, E [128] ops ints]
def onlyE (ops : List VOp) (ints : Nat) : List VForm := [E [128] ops ints]

def g0 : List (List VForm × List Nat) :=
  [-- packed, three operands
   (both [v 1, v 1, vm 1] 0,
    [n!"vaddpd", n!"vaddps", n!"vaesdec", n!"vaesdeclast", n!"vaesenc", n!"vaesenclast", n!"vandnpd", n!"vandnps", n!"vandpd", n!"vandps", n!"vdivpd",
     n!"vdivps", n!"vfmadd132pd", n!"vfmadd132ps", n!"vfmadd213pd", n!"vfmadd213ps", n!"vfmadd231pd", n!"vfmadd231ps", n!"vfmaddsub132pd",
     n!"vfmaddsub132ps", n!"vfmaddsub213pd", n!"vfmaddsub213ps", n!"vfmaddsub231pd", n!"vfmaddsub231ps", n!"vfmsub132pd", n!"vfmsub132ps",
     n!"vfmsub213pd", n!"vfmsub213ps", n!"vfmsub231pd", n!"vfmsub231ps", n!"vfmsubadd132pd", n!"vfmsubadd132ps", n!"vfmsubadd213pd", n!"vfmsubadd213ps",
     n!"vfmsubadd231pd", n!"vfmsubadd231ps", n!"vfnmadd132pd", n!"vfnmadd132ps", n!"vfnmadd213pd", n!"vfnmadd213ps", n!"vfnmadd231pd", n!"vfnmadd231ps",
     n!"vfnmsub132pd", n!"vfnmsub132ps", n!"vfnmsub213pd", n!"vfnmsub213ps", n!"vfnmsub231pd", n!"vfnmsub231ps", n!"vgf2p8mulb", n!"vmaxpd", n!"vmaxps",
     n!"vminpd", n!"vminps", n!"vmulpd", n!"vmulps", n!"vorpd", n!"vorps", n!"vpackssdw", n!"vpacksswb", n!"vpackusdw", n!"vpackuswb", n!"vpaddb",
     n!"vpaddd", n!"vpaddq", n!"vpaddsb", n!"vpaddsw", n!"vpaddusb", n!"vpaddusw", n!"vpaddw", n!"vpavgb", n!"vpavgw", n!"vpdpbssd", n!"vpdpbssds",
     n!"vpdpbsud", n!"vpdpbsuds", n!"vpdpbusd", n!"vpdpbusds", n!"vpdpbuud", n!"vpdpbuuds", n!"vpdpwssd", n!"vpdpwssds", n!"vpdpwsud", n!"vpdpwsuds",
     n!"vpdpwusd", n!"vpdpwusds", n!"vpdpwuud", n!"vpdpwuuds", n!"vpmadd52huq", n!"vpmadd52luq", n!"vpmaddubsw", n!"vpmaddwd", n!"vpmaxsb", n!"vpmaxsd",
     n!"vpmaxsw", n!"vpmaxub", n!"vpmaxud", n!"vpmaxuw", n!"vpminsb", n!"vpminsd", n!"vpminsw", n!"vpminub", n!"vpminud", n!"vpminuw", n!"vpmuldq",
     n!"vpmulhrsw", n!"vpmulhuw", n!"vpmulhw", n!"vpmulld", n!"vpmullw", n!"vpmuludq", n!"vpsadbw", n!"vpshufb", n!"vpsllvd", n!"vpsllvq", n!"vpsravd",
     n!"vpsrlvd", n!"vpsrlvq", n!"vpsubb", n!"vpsubd", n!"vpsubq", n!"vpsubsb", n!"vpsubsw", n!"vpsubusb", n!"vpsubusw", n!"vpsubw", n!"vpunpckhbw",
     n!"vpunpckhdq", n!"vpunpckhqdq", n!"vpunpckhwd", n!"vpunpcklbw", n!"vpunpckldq", n!"vpunpcklqdq", n!"vpunpcklwd", n!"vsm4key4", n!"vsm4rnds4",
     n!"vsubpd", n!"vsubps", n!"vunpckhpd", n!"vunpckhps", n!"vunpcklpd", n!"vunpcklps", n!"vxorpd", n!"vxorps"]),
   -- with an immediate
   (both [v 1, v 1, vm 1] 1,
    [n!"vgf2p8affineinvqb", n!"vgf2p8affineqb", n!"vmpsadbw", n!"vpalignr", n!"vpclmulqdq", n!"vshufpd", n!"vshufps"]),
   -- compares to a vector or a mask
   ([V len2 [v 1, v 1, vm 1] 0, E len3 [k, v 1, vm 1] 0],
    [n!"vpcmpeqb", n!"vpcmpeqd", n!"vpcmpeqq", n!"vpcmpeqw", n!"vpcmpgtb", n!"vpcmpgtd", n!"vpcmpgtq", n!"vpcmpgtw"]),
   ([V len2 [v 1, v 1, vm 1] 1, E len3 [k, v 1, vm 1] 1],
    [n!"vcmppd", n!"vcmpps"]),
   ([V [256] [v 1, v 1, vm 1] 0, E [256, 512] [v 1, v 1, vm 1] 0],
    [n!"vpermd", n!"vpermps"]),
   ([E len3 [v 1, v 1, vm 1] 0],
    [n!"vaddnepbf16", n!"vaddph", n!"vblendmpd", n!"vblendmps", n!"vcvt2ps2phx", n!"vcvtne2ph2bf8", n!"vcvtne2ph2bf8s", n!"vcvtne2ph2hf8",
     n!"vcvtne2ph2hf8s", n!"vcvtne2ps2bf16", n!"vdivnepbf16", n!"vdivph", n!"vdpbf16ps", n!"vdpphps", n!"vfcmaddcph", n!"vfcmulcph", n!"vfmadd132nepbf16",
     n!"vfmadd132ph", n!"vfmadd213nepbf16", n!"vfmadd213ph", n!"vfmadd231nepbf16", n!"vfmadd231ph", n!"vfmaddcph", n!"vfmaddsub132ph", n!"vfmaddsub213ph",
     n!"vfmaddsub231ph", n!"vfmsub132nepbf16", n!"vfmsub132ph", n!"vfmsub213nepbf16", n!"vfmsub213ph", n!"vfmsub231nepbf16", n!"vfmsub231ph",
     n!"vfmsubadd132ph", n!"vfmsubadd213ph", n!"vfmsubadd231ph", n!"vfmulcph", n!"vfnmadd132nepbf16", n!"vfnmadd132ph", n!"vfnmadd213nepbf16",
     n!"vfnmadd213ph", n!"vfnmadd231nepbf16", n!"vfnmadd231ph", n!"vfnmsub132nepbf16", n!"vfnmsub132ph", n!"vfnmsub213nepbf16", n!"vfnmsub213ph",
     n!"vfnmsub231nepbf16", n!"vfnmsub231ph", n!"vmaxpbf16", n!"vmaxph", n!"vminpbf16", n!"vminph", n!"vmulnepbf16", n!"vmulph", n!"vpandd", n!"vpandnd",
     n!"vpandnq", n!"vpandq", n!"vpblendmb", n!"vpblendmd", n!"vpblendmq", n!"vpblendmw", n!"vpermb", n!"vpermi2b", n!"vpermi2d", n!"vpermi2pd",
     n!"vpermi2ps", n!"vpermi2q", n!"vpermi2w", n!"vpermt2b", n!"vpermt2d", n!"vpermt2pd", n!"vpermt2ps", n!"vpermt2q", n!"vpermt2w", n!"vpermw",
     n!"vpmaxsq", n!"vpmaxuq", n!"vpminsq", n!"vpminuq", n!"vpmullq", n!"vpmultishiftqb", n!"vpord", n!"vporq", n!"vprolvd", n!"vprolvq", n!"vprorvd",
     n!"vprorvq", n!"vpshldvd", n!"vpshldvq", n!"vpshldvw", n!"vpshrdvd", n!"vpshrdvq", n!"vpshrdvw", n!"vpsllvw", n!"vpsravq", n!"vpsravw", n!"vpsrlvw",
     n!"vpxord", n!"vpxorq", n!"vscalefpbf16", n!"vscalefpd", n!"vscalefph", n!"vscalefps", n!"vsubnepbf16", n!"vsubph"]),
   ([E len3 [v 1, v 1, vm 1] 1],
    [n!"valignd", n!"valignq", n!"vdbpsadbw", n!"vfixupimmpd", n!"vfixupimmps", n!"vminmaxnepbf16", n!"vminmaxpd", n!"vminmaxph", n!"vminmaxps",
     n!"vpshldd", n!"vpshldq", n!"vpshldw", n!"vpshrdd", n!"vpshrdq", n!"vpshrdw", n!"vpternlogd", n!"vpternlogq", n!"vrangepd", n!"vrangeps"]),
   ([E len3 [v 2, v 1, vm 1] 0],
    [n!"vcvtbiasph2bf8", n!"vcvtbiasph2bf8s", n!"vcvtbiasph2hf8", n!"vcvtbiasph2hf8s"]),
   ([E len3 [k, v 1, vm 1] 1],
    [n!"vcmppbf16", n!"vcmpph", n!"vpcmpb", n!"vpcmpd", n!"vpcmpq", n!"vpcmpub", n!"vpcmpud", n!"vpcmpuq", n!"vpcmpuw", n!"vpcmpw"]),
   ([E len3 [k, v 1, vm 1] 0],
    [n!"vp2intersectd", n!"vp2intersectq", n!"vpshufbitqmb", n!"vptestmb", n!"vptestmd", n!"vptestmq", n!"vptestmw", n!"vptestnmb", n!"vptestnmd",
     n!"vptestnmq", n!"vptestnmw"]),
   ([E [256, 512] [v 1, v 1, vm 1] 1],
    [n!"vshuff32x4", n!"vshuff64x2", n!"vshufi32x4", n!"vshufi64x2"]),
   -- two operands
   ([E len3 [v 1, vm 1] 0],
    [n!"vcvtnebf162ibs", n!"vcvtnebf162iubs", n!"vcvtpd2qq", n!"vcvtpd2uqq", n!"vcvtph2ibs", n!"vcvtph2iubs", n!"vcvtph2uw", n!"vcvtph2w", n!"vcvtps2ibs",
     n!"vcvtps2iubs", n!"vcvtps2udq", n!"vcvtqq2pd", n!"vcvttnebf162ibs", n!"vcvttnebf162iubs", n!"vcvttpd2qq", n!"vcvttpd2qqs", n!"vcvttpd2uqq",
     n!"vcvttpd2uqqs", n!"vcvttph2ibs", n!"vcvttph2iubs", n!"vcvttph2uw", n!"vcvttph2w", n!"vcvttps2dqs", n!"vcvttps2ibs", n!"vcvttps2iubs",
     n!"vcvttps2udq", n!"vcvttps2udqs", n!"vcvtudq2ps", n!"vcvtuqq2pd", n!"vcvtuw2ph", n!"vcvtw2ph", n!"vgetexppd", n!"vgetexpph", n!"vgetexpps",
     n!"vpabsq", n!"vpconflictd", n!"vpconflictq", n!"vplzcntd", n!"vplzcntq", n!"vpopcntb", n!"vpopcntd", n!"vpopcntq", n!"vpopcntw", n!"vrcp14pd",
     n!"vrcp14ps", n!"vrcppbf16", n!"vrcpph", n!"vrsqrt14pd", n!"vrsqrt14ps", n!"vrsqrtpbf16", n!"vrsqrtph", n!"vsqrtnepbf16", n!"vsqrtph"]),
   ([E len3 [v 1, vm 1] 1],
    [n!"vgetmantpbf16", n!"vgetmantpd", n!"vgetmantph", n!"vgetmantps", n!"vreducenepbf16", n!"vreducepd", n!"vreduceph", n!"vreduceps",
     n!"vrndscalenepbf16", n!"vrndscalepd", n!"vrndscaleph", n!"vrndscaleps"]),
   ([E len3 [v 2, vm 1] 0],
    [n!"vcvtdq2ph", n!"vcvtneph2bf8", n!"vcvtneph2bf8s", n!"vcvtneph2hf8", n!"vcvtneph2hf8s", n!"vcvtpd2udq", n!"vcvtps2phx", n!"vcvtqq2ps",
     n!"vcvttpd2dqs", n!"vcvttpd2udq", n!"vcvttpd2udqs", n!"vcvtudq2ph", n!"vcvtuqq2ps"]),
   ([E len3 [v 4, vm 1] 0],
    [n!"vcvtpd2ph", n!"vcvtqq2ph", n!"vcvtuqq2ph"]),
   ([E [512] [v 1, vm 1] 0],
    [n!"vexp2pd", n!"vexp2ps", n!"vrcp28pd", n!"vrcp28ps", n!"vrsqrt28pd", n!"vrsqrt28ps"]),
   ([E len3 [k, vm 1] 1],
    [n!"vfpclasspbf16", n!"vfpclasspd", n!"vfpclassph", n!"vfpclassps"]),
   (both [v 1, vm 1] 0,
    [n!"vcvtdq2ps", n!"vcvtps2dq", n!"vcvttps2dq", n!"vmovshdup", n!"vmovsldup", n!"vpabsb", n!"vpabsd", n!"vpabsw", n!"vsqrtpd", n!"vsqrtps"]),
   (both [v 1, vm 1] 1,
    [n!"vpshufd", n!"vpshufhw", n!"vpshuflw"]),
   (both [v 2, vm 1] 0,
    [n!"vcvtneps2bf16", n!"vcvtpd2dq", n!"vcvtpd2ps", n!"vcvttpd2dq"]),
   (both [v 1, mv 1] 0,
    [n!"vmovntdqa"]),
   -- widening
   ([E len3 [v 1, vm 2] 0],
    [n!"vcvthf82ph", n!"vcvtph2dq", n!"vcvtph2psx", n!"vcvtph2udq", n!"vcvtps2qq", n!"vcvtps2uqq", n!"vcvttph2dq", n!"vcvttph2udq", n!"vcvttps2qq",
     n!"vcvttps2qqs", n!"vcvttps2uqq", n!"vcvttps2uqqs", n!"vcvtudq2pd"]),
   (both [v 1, vm 2] 0,
    [n!"vcvtdq2pd", n!"vcvtph2ps", n!"vcvtps2pd", n!"vpmovsxbw", n!"vpmovsxdq", n!"vpmovsxwd", n!"vpmovzxbw", n!"vpmovzxdq", n!"vpmovzxwd"]),
   ([E len3 [v 1, vm 4] 0],
    [n!"vcvtph2pd", n!"vcvtph2qq", n!"vcvtph2uqq", n!"vcvttph2qq", n!"vcvttph2uqq"]),
   (both [v 1, vm 4] 0,
    [n!"vpmovsxbd", n!"vpmovsxwq", n!"vpmovzxbd", n!"vpmovzxwq"]),
   (both [v 1, vm 8] 0,
    [n!"vpmovsxbq", n!"vpmovzxbq"]),
   -- narrowing to memory or register
   ([E len3 [vm 2, v 1] 0],
    [n!"vpmovdw", n!"vpmovqd", n!"vpmovsdw", n!"vpmovsqd", n!"vpmovswb", n!"vpmovusdw", n!"vpmovusqd", n!"vpmovuswb", n!"vpmovwb"]),
   ([E len3 [vm 4, v 1] 0],
    [n!"vpmovdb", n!"vpmovqw", n!"vpmovsdb", n!"vpmovsqw", n!"vpmovusdb", n!"vpmovusqw"]),
   ([E len3 [vm 8, v 1] 0],
    [n!"vpmovqb", n!"vpmovsqb", n!"vpmovusqb"]),
   (both [vm 2, v 1] 1,
    [n!"vcvtps2ph"]),
   -- masks
   ([E len3 [v 1, k] 0],
    [n!"vpbroadcastmb2q", n!"vpbroadcastmw2d", n!"vpmovm2b", n!"vpmovm2d", n!"vpmovm2q", n!"vpmovm2w"]),
   ([E len3 [k, v 1] 0],
    [n!"vpmovb2m", n!"vpmovd2m", n!"vpmovq2m", n!"vpmovw2m"]),
   -- moves
   ([E len3 [v 1, vm 1] 0, E len3 [vm 1, v 1] 0],
    [n!"vmovdqa32", n!"vmovdqa64", n!"vmovdqu16", n!"vmovdqu32", n!"vmovdqu64", n!"vmovdqu8"])]

def g1 : List (List VForm × List Nat) :=
  [(both [v 1, vm 1] 0 ++ both [vm 1, v 1] 0,
    [n!"vmovapd", n!"vmovaps", n!"vmovupd", n!"vmovups"]),
   (both [mv 1, v 1] 0,
    [n!"vmovntdq", n!"vmovntpd", n!"vmovntps"]),
   ([V len2 [v 1, vm 1] 0, V len2 [vm 1, v 1] 0],
    [n!"vmovdqa", n!"vmovdqu"]),
   ([E [128] [w 128, m 16] 0, E [128] [m 16, w 128] 0, E [128] [w 128, w 128, w 128] 0],
    [n!"vmovsh"]),
   (one [w 128, m 32] 0 ++ one [m 32, w 128] 0 ++ one [w 128, w 128, w 128] 0,
    [n!"vmovss"]),
   (one [w 128, m 64] 0 ++ one [m 64, w 128] 0 ++ one [w 128, w 128, w 128] 0,
    [n!"vmovsd"]),
   (one [w 128, rm 64 64] 0 ++ one [rm 64 64, w 128] 0 ++ one [w 128, w 128] 0,
    [n!"vmovq"]),
   (one [w 128, w 128, m 64] 0 ++ one [m 64, w 128] 0,
    [n!"vmovhpd", n!"vmovhps", n!"vmovlpd", n!"vmovlps"]),
   (one [w 128, w 128, w 128] 0,
    [n!"vmovhlps", n!"vmovlhps"]),
   (one [w 128, wm 128 64] 0 ++ [V [256] [v 1, vm 1] 0, E [256, 512] [v 1, vm 1] 0],
    [n!"vmovddup"]),
   -- elements
   (one [rm 32 8, w 128] 1 ++ one [r 64, w 128] 1,
    [n!"vpextrb"]),
   (one [rm 32 16, w 128] 1 ++ one [r 64, w 128] 1,
    [n!"vpextrw"]),
   (one [rm 32 32, w 128] 1,
    [n!"vpextrd"]),
   (one [rm 32 32, w 128] 1 ++ one [r 64, w 128] 1,
    [n!"vextractps"]),
   (one [rm 64 64, w 128] 1,
    [n!"vpextrq"]),
   (one [w 128, w 128, rm 32 8] 1,
    [n!"vpinsrb"]),
   (one [w 128, w 128, rm 32 16] 1,
    [n!"vpinsrw"]),
   (one [w 128, w 128, rm 32 32] 1,
    [n!"vpinsrd"]),
   (one [w 128, w 128, rm 64 64] 1,
    [n!"vpinsrq"]),
   (one [w 128, w 128, wm 128 32] 1,
    [n!"vinsertps"]),
   -- parts
   ([E [256, 512] [wm 128 128, v 1] 1],
    [n!"vextractf32x4", n!"vextractf64x2", n!"vextracti32x4", n!"vextracti64x2"]),
   ([E [512] [wm 256 256, v 1] 1],
    [n!"vextractf32x8", n!"vextractf64x4", n!"vextracti32x8", n!"vextracti64x4"]),
   ([V [256] [wm 128 128, v 1] 1],
    [n!"vextractf128", n!"vextracti128"]),
   ([E [256, 512] [v 1, v 1, wm 128 128] 1],
    [n!"vinsertf32x4", n!"vinsertf64x2", n!"vinserti32x4", n!"vinserti64x2"]),
   ([E [512] [v 1, v 1, wm 256 256] 1],
    [n!"vinsertf32x8", n!"vinsertf64x4", n!"vinserti32x8", n!"vinserti64x4"]),
   ([V [256] [v 1, v 1, wm 128 128] 1],
    [n!"vinsertf128", n!"vinserti128"]),
   ([E len3 [vm 1, v 1] 0],
    [n!"vcompresspd", n!"vcompressps", n!"vpcompressb", n!"vpcompressd", n!"vpcompressq", n!"vpcompressw"]),
   ([E len3 [v 1, vm 1] 0],
    [n!"vexpandpd", n!"vexpandps", n!"vpexpandb", n!"vpexpandd", n!"vpexpandq", n!"vpexpandw"]),
   -- broadcasts
   (both [v 1, wm 128 32] 0,
    [n!"vbroadcastss"]),
   ([V [256] [v 1, wm 128 64] 0, E [256, 512] [v 1, wm 128 64] 0],
    [n!"vbroadcastsd"]),
   ([V [256] [v 1, m 128] 0],
    [n!"vbroadcastf128", n!"vbroadcasti128"]),
   ([E [256, 512] [v 1, wm 128 64] 0],
    [n!"vbroadcastf32x2"]),
   ([E len3 [v 1, wm 128 64] 0],
    [n!"vbroadcasti32x2"])]

def g2 : List (List VForm × List Nat) :=
  [([E [256, 512] [v 1, m 128] 0],
    [n!"vbroadcastf32x4", n!"vbroadcastf64x2", n!"vbroadcasti32x4", n!"vbroadcasti64x2"]),
   ([E [512] [v 1, m 256] 0],
    [n!"vbroadcastf32x8", n!"vbroadcastf64x4", n!"vbroadcasti32x8", n!"vbroadcasti64x4"]),
   (both [v 1, wm 128 8] 0 ++ [E len3 [v 1, r 8] 0],
    [n!"vpbroadcastb"]),
   (both [v 1, wm 128 16] 0 ++ [E len3 [v 1, r 16] 0],
    [n!"vpbroadcastw"]),
   (both [v 1, wm 128 32] 0 ++ [E len3 [v 1, r 32] 0],
    [n!"vpbroadcastd"]),
   (both [v 1, wm 128 64] 0 ++ [E len3 [v 1, r 64] 0],
    [n!"vpbroadcastq"]),
   -- scalars
   (onlyE [w 128, w 128, wm 128 16] 0,
    [n!"vaddsh", n!"vcvtsh2sd", n!"vcvtsh2ss", n!"vdivsh", n!"vfmadd132sh", n!"vfmadd213sh", n!"vfmadd231sh", n!"vfmsub132sh", n!"vfmsub213sh",
     n!"vfmsub231sh", n!"vfnmadd132sh", n!"vfnmadd213sh", n!"vfnmadd231sh", n!"vfnmsub132sh", n!"vfnmsub213sh", n!"vfnmsub231sh", n!"vgetexpsh",
     n!"vmaxsh", n!"vminsh", n!"vmulsh", n!"vrcpsh", n!"vrsqrtsh", n!"vscalefsh", n!"vsqrtsh", n!"vsubsh"]),
   (onlyE [w 128, w 128, wm 128 16] 1,
    [n!"vgetmantsh", n!"vminmaxsh", n!"vreducesh", n!"vrndscalesh"]),
   ([E [128] [k, w 128, wm 128 16] 1],
    [n!"vcmpsh"]),
   -- scalars
   (onlyE [w 128, w 128, wm 128 32] 0,
    [n!"vcvtss2sh", n!"vgetexpss", n!"vrcp14ss", n!"vrcp28ss", n!"vrsqrt14ss", n!"vrsqrt28ss", n!"vscalefss"]),
   (onlyE [w 128, w 128, wm 128 32] 1,
    [n!"vfixupimmss", n!"vgetmantss", n!"vminmaxss", n!"vrangess", n!"vreducess", n!"vrndscaless"]),
   -- scalars
   (onlyE [w 128, w 128, wm 128 64] 0,
    [n!"vcvtsd2sh", n!"vgetexpsd", n!"vrcp14sd", n!"vrcp28sd", n!"vrsqrt14sd", n!"vrsqrt28sd", n!"vscalefsd"]),
   (onlyE [w 128, w 128, wm 128 64] 1,
    [n!"vfixupimmsd", n!"vgetmantsd", n!"vminmaxsd", n!"vrangesd", n!"vreducesd", n!"vrndscalesd"]),
   -- scalars
   (one [w 128, w 128, wm 128 32] 0,
    [n!"vaddss", n!"vcvtss2sd", n!"vdivss", n!"vfmadd132ss", n!"vfmadd213ss", n!"vfmadd231ss", n!"vfmsub132ss", n!"vfmsub213ss", n!"vfmsub231ss",
     n!"vfnmadd132ss", n!"vfnmadd213ss", n!"vfnmadd231ss", n!"vfnmsub132ss", n!"vfnmsub213ss", n!"vfnmsub231ss", n!"vmaxss", n!"vminss", n!"vmulss",
     n!"vsqrtss", n!"vsubss"]),
   ([V [128] [w 128, w 128, wm 128 32] 1, E [128] [k, w 128, wm 128 32] 1],
    [n!"vcmpss"]),
   -- scalars
   (one [w 128, w 128, wm 128 64] 0,
    [n!"vaddsd", n!"vcvtsd2ss", n!"vdivsd", n!"vfmadd132sd", n!"vfmadd213sd", n!"vfmadd231sd", n!"vfmsub132sd", n!"vfmsub213sd", n!"vfmsub231sd",
     n!"vfnmadd132sd", n!"vfnmadd213sd", n!"vfnmadd231sd", n!"vfnmsub132sd", n!"vfnmsub213sd", n!"vfnmsub231sd", n!"vmaxsd", n!"vminsd", n!"vmulsd",
     n!"vsqrtsd", n!"vsubsd"]),
   ([V [128] [w 128, w 128, wm 128 64] 1, E [128] [k, w 128, wm 128 64] 1],
    [n!"vcmpsd"]),
   (onlyE [w 128, w 128, rm 32 32] 0 ++ onlyE [w 128, w 128, rm 64 64] 0,
    [n!"vcvtsi2sh", n!"vcvtusi2sd", n!"vcvtusi2sh", n!"vcvtusi2ss"]),
   (one [w 128, w 128, rm 32 32] 0 ++ one [w 128, w 128, rm 64 64] 0,
    [n!"vcvtsi2sd", n!"vcvtsi2ss"]),
   (onlyE [r 32, wm 128 16] 0 ++ onlyE [r 64, wm 128 16] 0,
    [n!"vcvtsh2si", n!"vcvtsh2usi", n!"vcvttsh2si", n!"vcvttsh2usi"]),
   (onlyE [r 32, wm 128 32] 0 ++ onlyE [r 64, wm 128 32] 0,
    [n!"vcvtss2usi", n!"vcvttss2sis", n!"vcvttss2usi", n!"vcvttss2usis"]),
   (one [r 32, wm 128 32] 0 ++ one [r 64, wm 128 32] 0,
    [n!"vcvtss2si", n!"vcvttss2si"]),
   (onlyE [r 32, wm 128 64] 0 ++ onlyE [r 64, wm 128 64] 0,
    [n!"vcvtsd2usi", n!"vcvttsd2sis", n!"vcvttsd2usi", n!"vcvttsd2usis"]),
   (one [r 32, wm 128 64] 0 ++ one [r 64, wm 128 64] 0,
    [n!"vcvtsd2si", n!"vcvttsd2si"]),
   (onlyE [w 128, wm 128 16] 0,
    [n!"vcomish", n!"vcomsbf16", n!"vucomish"]),
   (one [w 128, wm 128 32] 0,
    [n!"vcomiss", n!"vucomiss"]),
   (one [w 128, wm 128 64] 0,
    [n!"vcomisd", n!"vucomisd"]),
   (onlyE [k, wm 128 16] 1,
    [n!"vfpclasssh"]),
   (onlyE [k, wm 128 32] 1,
    [n!"vfpclassss"]),
   (onlyE [k, wm 128 64] 1,
    [n!"vfpclasssd"]),
   ([E [512] [v 1, v 1, m 128] 0],
    [n!"v4fmaddps", n!"v4fnmaddps", n!"vp4dpwssd", n!"vp4dpwssds"]),
   (onlyE [w 128, w 128, m 128] 0,
    [n!"v4fmaddss", n!"v4fnmaddss"]),
   -- shifts
   (both [v 1, v 1, wm 128 128] 0 ++ [V len2 [v 1, v 1] 1, E len3 [v 1, vm 1] 1],
    [n!"vpslld", n!"vpsllq", n!"vpsllw", n!"vpsrad", n!"vpsraw", n!"vpsrld", n!"vpsrlq", n!"vpsrlw"])]

def g3 : List (List VForm × List Nat) :=
  [([E len3 [v 1, v 1, wm 128 128] 0, E len3 [v 1, vm 1] 1],
    [n!"vpsraq"]),
   ([V len2 [v 1, v 1] 1, E len3 [v 1, vm 1] 1],
    [n!"vpslldq", n!"vpsrldq"]),
   ([E len3 [v 1, vm 1] 1],
    [n!"vprold", n!"vprolq", n!"vprord", n!"vprorq"]),
   (both [v 1, v 1, vm 1] 0 ++ both [v 1, vm 1] 1,
    [n!"vpermilpd", n!"vpermilps"]),
   ([V [256] [v 1, vm 1] 1, E [256, 512] [v 1, vm 1] 1, E [256, 512] [v 1, v 1, vm 1] 0],
    [n!"vpermpd", n!"vpermq"]),
   -- AVX only
   ([V len2 [v 1, v 1, vm 1] 0],
    [n!"vaddsubpd", n!"vaddsubps", n!"vhaddpd", n!"vhaddps", n!"vhsubpd", n!"vhsubps", n!"vpand", n!"vpandn", n!"vphaddd", n!"vphaddsw", n!"vphaddw",
     n!"vphsubd", n!"vphsubsw", n!"vphsubw", n!"vpor", n!"vpsignb", n!"vpsignd", n!"vpsignw", n!"vpxor"]),
   ([V len2 [v 1, v 1, vm 1] 1],
    [n!"vblendpd", n!"vblendps", n!"vdpps", n!"vpblendd", n!"vpblendw"]),
   ([V [128] [v 1, v 1, vm 1] 1],
    [n!"vdppd", n!"vsm3rnds2"]),
   ([V [128] [v 1, v 1, vm 1] 0],
    [n!"vsm3msg1", n!"vsm3msg2"]),
   ([V [256] [v 1, v 1, vm 1] 1],
    [n!"vperm2f128", n!"vperm2i128"]),
   ([V [128] [w 128, w 128, wm 128 32] 0],
    [n!"vrcpss", n!"vrsqrtss"]),
   ([V [128] [w 128, w 128, wm 128 32] 1],
    [n!"vroundss"]),
   ([V [128] [w 128, w 128, wm 128 64] 1],
    [n!"vroundsd"]),
   ([V [256] [v 1, v 1, w 128] 0],
    [n!"vsha512rnds2"]),
   ([V [256] [v 1, w 128] 0],
    [n!"vsha512msg1"]),
   ([V [256] [v 1, v 1] 0],
    [n!"vsha512msg2"]),
   ([V [128] [v 1, vm 1] 0],
    [n!"vaesimc", n!"vphminposuw"]),
   ([V [128] [v 1, vm 1] 1],
    [n!"vaeskeygenassist", n!"vpcmpestri", n!"vpcmpestrm", n!"vpcmpistri", n!"vpcmpistrm"]),
   ([V len2 [v 1, m 16] 0],
    [n!"vbcstnebf162ps", n!"vbcstnesh2ps"]),
   ([V len2 [v 1, mv 1] 0],
    [n!"vcvtneebf162ps", n!"vcvtneeph2ps", n!"vcvtneobf162ps", n!"vcvtneoph2ps", n!"vlddqu"]),
   ([V [128] [v 1, v 1] 0],
    [n!"vmaskmovdqu"]),
   ([V len2 [r 32, v 1] 0, V len2 [r 64, v 1] 0],
    [n!"vmovmskpd", n!"vmovmskps", n!"vpmovmskb"]),
   ([V len2 [v 1, vm 1] 0],
    [n!"vptest", n!"vrcpps", n!"vrsqrtps", n!"vtestpd", n!"vtestps"]),
   ([V len2 [v 1, vm 1] 1],
    [n!"vroundpd", n!"vroundps"]),
   ([V len2 [v 1, v 1, vm 1, v 1] 0],
    [n!"vblendvpd", n!"vblendvps", n!"vpblendvb"]),
   ([V len2 [v 1, v 1, mv 1] 0, V len2 [mv 1, v 1, v 1] 0],
    [n!"vmaskmovpd", n!"vmaskmovps", n!"vpmaskmovd", n!"vpmaskmovq"]),
   ([V [128] [m 32] 0],
    [n!"vldmxcsr", n!"vstmxcsr"]),
   -- opmasks
   ([V [128] [k, k, k] 0],
    [n!"kaddb", n!"kaddd", n!"kaddq", n!"kaddw", n!"kandb", n!"kandd", n!"kandnb", n!"kandnd", n!"kandnq", n!"kandnw", n!"kandq", n!"kandw", n!"korb",
     n!"kord", n!"korq", n!"korw", n!"kunpckbw", n!"kunpckdq", n!"kunpckwd", n!"kxnorb", n!"kxnord", n!"kxnorq", n!"kxnorw", n!"kxorb", n!"kxord",
     n!"kxorq", n!"kxorw"]),
   ([V [128] [k, k] 0],
    [n!"knotb", n!"knotd", n!"knotq", n!"knotw", n!"kortestb", n!"kortestd", n!"kortestq", n!"kortestw", n!"ktestb", n!"ktestd", n!"ktestq", n!"ktestw"]),
   ([V [128] [k, k] 1],
    [n!"kshiftlb", n!"kshiftld", n!"kshiftlq", n!"kshiftlw", n!"kshiftrb", n!"kshiftrd", n!"kshiftrq", n!"kshiftrw"]),
   ([V [128] [k, km 8] 0, V [128] [m 8, k] 0, V [128] [k, r 32] 0, V [128] [r 32, k] 0],
    [n!"kmovb"]),
   ([V [128] [k, km 16] 0, V [128] [m 16, k] 0, V [128] [k, r 32] 0, V [128] [r 32, k] 0],
    [n!"kmovw"]),
   ([V [128] [k, km 32] 0, V [128] [m 32, k] 0, V [128] [k, r 32] 0, V [128] [r 32, k] 0],
    [n!"kmovd"])]

def g4 : List (List VForm × List Nat) :=
  [([V [128] [k, km 64] 0, V [128] [m 64, k] 0, V [128] [k, r 64] 0, V [128] [r 64, k] 0],
    [n!"kmovq"]),
   -- pseudo-ops
   ([V len2 [v 1, v 1, vm 1] 0, E len3 [k, v 1, vm 1] 0],
    [n!"vcmpeq_ospd", n!"vcmpeq_osps", n!"vcmpeq_uqpd", n!"vcmpeq_uqps", n!"vcmpeq_uspd", n!"vcmpeq_usps", n!"vcmpeqpd", n!"vcmpeqps", n!"vcmpfalse_ospd",
     n!"vcmpfalse_osps", n!"vcmpfalsepd", n!"vcmpfalseps", n!"vcmpge_oqpd", n!"vcmpge_oqps", n!"vcmpgepd", n!"vcmpgeps", n!"vcmpgt_oqpd", n!"vcmpgt_oqps",
     n!"vcmpgtpd", n!"vcmpgtps", n!"vcmple_oqpd", n!"vcmple_oqps", n!"vcmplepd", n!"vcmpleps", n!"vcmplt_oqpd", n!"vcmplt_oqps", n!"vcmpltpd",
     n!"vcmpltps", n!"vcmpneq_oqpd", n!"vcmpneq_oqps", n!"vcmpneq_ospd", n!"vcmpneq_osps", n!"vcmpneq_uspd", n!"vcmpneq_usps", n!"vcmpneqpd",
     n!"vcmpneqps", n!"vcmpnge_uqpd", n!"vcmpnge_uqps", n!"vcmpngepd", n!"vcmpngeps", n!"vcmpngt_uqpd", n!"vcmpngt_uqps", n!"vcmpngtpd", n!"vcmpngtps",
     n!"vcmpnle_uqpd", n!"vcmpnle_uqps", n!"vcmpnlepd", n!"vcmpnleps", n!"vcmpnlt_uqpd", n!"vcmpnlt_uqps", n!"vcmpnltpd", n!"vcmpnltps", n!"vcmpord_spd",
     n!"vcmpord_sps", n!"vcmpordpd", n!"vcmpordps", n!"vcmptrue_uspd", n!"vcmptrue_usps", n!"vcmptruepd", n!"vcmptrueps", n!"vcmpunord_spd",
     n!"vcmpunord_sps", n!"vcmpunordpd", n!"vcmpunordps"]),
   ([V [128] [w 128, w 128, wm 128 32] 0, E [128] [k, w 128, wm 128 32] 0],
    [n!"vcmpeq_osss", n!"vcmpeq_uqss", n!"vcmpeq_usss", n!"vcmpeqss", n!"vcmpfalse_osss", n!"vcmpfalsess", n!"vcmpge_oqss", n!"vcmpgess", n!"vcmpgt_oqss",
     n!"vcmpgtss", n!"vcmple_oqss", n!"vcmpless", n!"vcmplt_oqss", n!"vcmpltss", n!"vcmpneq_oqss", n!"vcmpneq_osss", n!"vcmpneq_usss", n!"vcmpneqss",
     n!"vcmpnge_uqss", n!"vcmpngess", n!"vcmpngt_uqss", n!"vcmpngtss", n!"vcmpnle_uqss", n!"vcmpnless", n!"vcmpnlt_uqss", n!"vcmpnltss", n!"vcmpord_sss",
     n!"vcmpordss", n!"vcmptrue_usss", n!"vcmptruess", n!"vcmpunord_sss", n!"vcmpunordss"]),
   ([V [128] [w 128, w 128, wm 128 64] 0, E [128] [k, w 128, wm 128 64] 0],
    [n!"vcmpeq_ossd", n!"vcmpeq_uqsd", n!"vcmpeq_ussd", n!"vcmpeqsd", n!"vcmpfalse_ossd", n!"vcmpfalsesd", n!"vcmpge_oqsd", n!"vcmpgesd", n!"vcmpgt_oqsd",
     n!"vcmpgtsd", n!"vcmple_oqsd", n!"vcmplesd", n!"vcmplt_oqsd", n!"vcmpltsd", n!"vcmpneq_oqsd", n!"vcmpneq_ossd", n!"vcmpneq_ussd", n!"vcmpneqsd",
     n!"vcmpnge_uqsd", n!"vcmpngesd", n!"vcmpngt_uqsd", n!"vcmpngtsd", n!"vcmpnle_uqsd", n!"vcmpnlesd", n!"vcmpnlt_uqsd", n!"vcmpnltsd", n!"vcmpord_ssd",
     n!"vcmpordsd", n!"vcmptrue_ussd", n!"vcmptruesd", n!"vcmpunord_ssd", n!"vcmpunordsd"]),
   (both [v 1, v 1, vm 1] 0,
    [n!"vpclmulhqhqdq", n!"vpclmulhqlqdq", n!"vpclmullqhqdq", n!"vpclmullqlqdq"]),
   ([E len3 [v 1, vm 1] 0],
    [n!"vgetexppbf16"]),
   (onlyE [w 128, wm 128 16] 0,
    [n!"vcomxsh", n!"vucomxsh"]),
   (onlyE [w 128, wm 128 32] 0,
    [n!"vcomxss", n!"vucomxss"]),
   (onlyE [w 128, wm 128 64] 0,
    [n!"vcomxsd", n!"vucomxsd"])]

/-- All, by lines of the same operands. -/
def groups : List (List VForm × List Nat) := g0 ++ g1 ++ g2 ++ g3 ++ g4

/-- The lines for a mnemonic. -/
def forms (name : Nat) : List VForm := groups.flatMap fun g => if Manual.isIn name g.2 then g.1 else []

end Vec
end X86
end Xbyak
