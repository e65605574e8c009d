import Verif.Sel
/-!
# Selectors of the vector part of the table

The selectors of all functions of the SSE, AVX, AVX-512, mask and tile families as numbers, so that the kernel can compare all pairs.
-/
set_option linter.unusedSimpArgs false
namespace Xbyak.Mn
open E

/-- A field of a selector as bits. -/
def bitsOf {n : Nat} : Option (BitVec n) → BitVec n × BitVec n
  | some v => (v, BitVec.allOnes n)
  | none => (0, 0)

def spBits : X86.Space → BitVec 2
  | .legacy => 0 | .rex2 => 3 | .vex => 1 | .evex => 2

def b1 (b : Bool) : BitVec 1 := BitVec.ofBool b

/-- The values of the fields of a selector. -/
def Sel.val (s : Sel) : BitVec 33 :=
  s.op ++ spBits s.sp ++ s.map ++ b1 s.p66 ++ b1 s.pF2 ++ b1 s.pF3 ++ s.pp ++ (bitsOf (s.w.map b1)).1 ++ (bitsOf s.ext).1 ++
    (bitsOf (s.mem.map b1)).1 ++ (bitsOf s.imm).1

/-- Which fields are fixed. -/
def Sel.mask (s : Sel) : BitVec 33 :=
  BitVec.allOnes 20 ++ (bitsOf (s.w.map b1)).2 ++ (bitsOf s.ext).2 ++
    (bitsOf (s.mem.map b1)).2 ++ (bitsOf s.imm).2

/-- Name, values and fixed fields of one selector. -/
abbrev Row := Nat × Nat × Nat

def Entry.rows (e : Entry) : List Row := e.sels.map fun s => (e.name, s.val.toNat, s.mask.toNat)

/-- The pseudo-ops of the manual (SDM, CMPPD/CMPPS/CMPSD/CMPSS and PCLMULQDQ): another name of the second instruction with a fixed
immediate byte. -/
def pseudoOps : List (Nat × Nat) := [
  (n!"cmpeqpd", n!"cmppd"), (n!"cmpeqps", n!"cmpps"), (n!"cmpeqsd", n!"cmpsd"), (n!"cmpeqss", n!"cmpss"), (n!"cmplepd", n!"cmppd"),
  (n!"cmpleps", n!"cmpps"), (n!"cmplesd", n!"cmpsd"), (n!"cmpless", n!"cmpss"), (n!"cmpltpd", n!"cmppd"), (n!"cmpltps", n!"cmpps"),
  (n!"cmpltsd", n!"cmpsd"), (n!"cmpltss", n!"cmpss"), (n!"cmpneqpd", n!"cmppd"), (n!"cmpneqps", n!"cmpps"), (n!"cmpneqsd", n!"cmpsd"),
  (n!"cmpneqss", n!"cmpss"), (n!"cmpnlepd", n!"cmppd"), (n!"cmpnleps", n!"cmpps"), (n!"cmpnlesd", n!"cmpsd"), (n!"cmpnless", n!"cmpss"),
  (n!"cmpnltpd", n!"cmppd"), (n!"cmpnltps", n!"cmpps"), (n!"cmpnltsd", n!"cmpsd"), (n!"cmpnltss", n!"cmpss"), (n!"cmpordpd", n!"cmppd"),
  (n!"cmpordps", n!"cmpps"), (n!"cmpordsd", n!"cmpsd"), (n!"cmpordss", n!"cmpss"), (n!"cmpunordpd", n!"cmppd"),
  (n!"cmpunordps", n!"cmpps"), (n!"cmpunordsd", n!"cmpsd"), (n!"cmpunordss", n!"cmpss"), (n!"pclmulhqhqdq", n!"pclmulqdq"),
  (n!"pclmulhqlqdq", n!"pclmulqdq"), (n!"pclmullqhqdq", n!"pclmulqdq"), (n!"pclmullqlqdq", n!"pclmulqdq"), (n!"vcmpeq_ospd", n!"vcmppd"),
  (n!"vcmpeq_osps", n!"vcmpps"), (n!"vcmpeq_ossd", n!"vcmpsd"), (n!"vcmpeq_osss", n!"vcmpss"), (n!"vcmpeq_uqpd", n!"vcmppd"),
  (n!"vcmpeq_uqps", n!"vcmpps"), (n!"vcmpeq_uqsd", n!"vcmpsd"), (n!"vcmpeq_uqss", n!"vcmpss"), (n!"vcmpeq_uspd", n!"vcmppd"),
  (n!"vcmpeq_usps", n!"vcmpps"), (n!"vcmpeq_ussd", n!"vcmpsd"), (n!"vcmpeq_usss", n!"vcmpss"), (n!"vcmpeqpd", n!"vcmppd"),
  (n!"vcmpeqps", n!"vcmpps"), (n!"vcmpeqsd", n!"vcmpsd"), (n!"vcmpeqss", n!"vcmpss"), (n!"vcmpfalse_ospd", n!"vcmppd"),
  (n!"vcmpfalse_osps", n!"vcmpps"), (n!"vcmpfalse_ossd", n!"vcmpsd"), (n!"vcmpfalse_osss", n!"vcmpss"), (n!"vcmpfalsepd", n!"vcmppd"),
  (n!"vcmpfalseps", n!"vcmpps"), (n!"vcmpfalsesd", n!"vcmpsd"), (n!"vcmpfalsess", n!"vcmpss"), (n!"vcmpge_oqpd", n!"vcmppd"),
  (n!"vcmpge_oqps", n!"vcmpps"), (n!"vcmpge_oqsd", n!"vcmpsd"), (n!"vcmpge_oqss", n!"vcmpss"), (n!"vcmpgepd", n!"vcmppd"),
  (n!"vcmpgeps", n!"vcmpps"), (n!"vcmpgesd", n!"vcmpsd"), (n!"vcmpgess", n!"vcmpss"), (n!"vcmpgt_oqpd", n!"vcmppd"),
  (n!"vcmpgt_oqps", n!"vcmpps"), (n!"vcmpgt_oqsd", n!"vcmpsd"), (n!"vcmpgt_oqss", n!"vcmpss"), (n!"vcmpgtpd", n!"vcmppd"),
  (n!"vcmpgtps", n!"vcmpps"), (n!"vcmpgtsd", n!"vcmpsd"), (n!"vcmpgtss", n!"vcmpss"), (n!"vcmple_oqpd", n!"vcmppd"),
  (n!"vcmple_oqps", n!"vcmpps"), (n!"vcmple_oqsd", n!"vcmpsd"), (n!"vcmple_oqss", n!"vcmpss"), (n!"vcmplepd", n!"vcmppd"),
  (n!"vcmpleps", n!"vcmpps"), (n!"vcmplesd", n!"vcmpsd"), (n!"vcmpless", n!"vcmpss"), (n!"vcmplt_oqpd", n!"vcmppd"),
  (n!"vcmplt_oqps", n!"vcmpps"), (n!"vcmplt_oqsd", n!"vcmpsd"), (n!"vcmplt_oqss", n!"vcmpss"), (n!"vcmpltpd", n!"vcmppd"),
  (n!"vcmpltps", n!"vcmpps"), (n!"vcmpltsd", n!"vcmpsd"), (n!"vcmpltss", n!"vcmpss"), (n!"vcmpneq_oqpd", n!"vcmppd"),
  (n!"vcmpneq_oqps", n!"vcmpps"), (n!"vcmpneq_oqsd", n!"vcmpsd"), (n!"vcmpneq_oqss", n!"vcmpss"), (n!"vcmpneq_ospd", n!"vcmppd"),
  (n!"vcmpneq_osps", n!"vcmpps"), (n!"vcmpneq_ossd", n!"vcmpsd"), (n!"vcmpneq_osss", n!"vcmpss"), (n!"vcmpneq_uspd", n!"vcmppd"),
  (n!"vcmpneq_usps", n!"vcmpps"), (n!"vcmpneq_ussd", n!"vcmpsd"), (n!"vcmpneq_usss", n!"vcmpss"), (n!"vcmpneqpd", n!"vcmppd"),
  (n!"vcmpneqps", n!"vcmpps"), (n!"vcmpneqsd", n!"vcmpsd"), (n!"vcmpneqss", n!"vcmpss"), (n!"vcmpnge_uqpd", n!"vcmppd"),
  (n!"vcmpnge_uqps", n!"vcmpps"), (n!"vcmpnge_uqsd", n!"vcmpsd"), (n!"vcmpnge_uqss", n!"vcmpss"), (n!"vcmpngepd", n!"vcmppd"),
  (n!"vcmpngeps", n!"vcmpps"), (n!"vcmpngesd", n!"vcmpsd"), (n!"vcmpngess", n!"vcmpss"), (n!"vcmpngt_uqpd", n!"vcmppd"),
  (n!"vcmpngt_uqps", n!"vcmpps"), (n!"vcmpngt_uqsd", n!"vcmpsd"), (n!"vcmpngt_uqss", n!"vcmpss"), (n!"vcmpngtpd", n!"vcmppd"),
  (n!"vcmpngtps", n!"vcmpps"), (n!"vcmpngtsd", n!"vcmpsd"), (n!"vcmpngtss", n!"vcmpss"), (n!"vcmpnle_uqpd", n!"vcmppd"),
  (n!"vcmpnle_uqps", n!"vcmpps"), (n!"vcmpnle_uqsd", n!"vcmpsd"), (n!"vcmpnle_uqss", n!"vcmpss"), (n!"vcmpnlepd", n!"vcmppd"),
  (n!"vcmpnleps", n!"vcmpps"), (n!"vcmpnlesd", n!"vcmpsd"), (n!"vcmpnless", n!"vcmpss"), (n!"vcmpnlt_uqpd", n!"vcmppd"),
  (n!"vcmpnlt_uqps", n!"vcmpps"), (n!"vcmpnlt_uqsd", n!"vcmpsd"), (n!"vcmpnlt_uqss", n!"vcmpss"), (n!"vcmpnltpd", n!"vcmppd"),
  (n!"vcmpnltps", n!"vcmpps"), (n!"vcmpnltsd", n!"vcmpsd"), (n!"vcmpnltss", n!"vcmpss"), (n!"vcmpord_spd", n!"vcmppd"),
  (n!"vcmpord_sps", n!"vcmpps"), (n!"vcmpord_ssd", n!"vcmpsd"), (n!"vcmpord_sss", n!"vcmpss"), (n!"vcmpordpd", n!"vcmppd"),
  (n!"vcmpordps", n!"vcmpps"), (n!"vcmpordsd", n!"vcmpsd"), (n!"vcmpordss", n!"vcmpss"), (n!"vcmptrue_uspd", n!"vcmppd"),
  (n!"vcmptrue_usps", n!"vcmpps"), (n!"vcmptrue_ussd", n!"vcmpsd"), (n!"vcmptrue_usss", n!"vcmpss"), (n!"vcmptruepd", n!"vcmppd"),
  (n!"vcmptrueps", n!"vcmpps"), (n!"vcmptruesd", n!"vcmpsd"), (n!"vcmptruess", n!"vcmpss"), (n!"vcmpunord_spd", n!"vcmppd"),
  (n!"vcmpunord_sps", n!"vcmpps"), (n!"vcmpunord_ssd", n!"vcmpsd"), (n!"vcmpunord_sss", n!"vcmpss"), (n!"vcmpunordpd", n!"vcmppd"),
  (n!"vcmpunordps", n!"vcmpps"), (n!"vcmpunordsd", n!"vcmpsd"), (n!"vcmpunordss", n!"vcmpss"), (n!"vpclmulhqhqdq", n!"vpclmulqdq"),
  (n!"vpclmulhqlqdq", n!"vpclmulqdq"), (n!"vpclmullqhqdq", n!"vpclmulqdq"), (n!"vpclmullqlqdq", n!"vpclmulqdq")]

/-- Pairs of mnemonics the library writes identically for some operands (`c45_refuted_*`). -/
def confusedPairs : List (Nat × Nat) := [
  (n!"pextrd", n!"pextrq"), (n!"pinsrd", n!"pinsrq"), (n!"pshufd", n!"pshufhw"), (n!"pshufd", n!"pshuflw"), (n!"pshufd", n!"pshufw"),
  (n!"pshufhw", n!"pshuflw"), (n!"pshufhw", n!"pshufw"), (n!"pshuflw", n!"pshufw"), (n!"vmovhlps", n!"vmovlps"),
  (n!"vmovhps", n!"vmovlhps"), (n!"vp2intersectd", n!"vp2intersectq"), (n!"vpermd", n!"vpermq")]

/-- The pair is listed, in one order or the other. -/
def listed (l : List (Nat × Nat)) (n m : Nat) : Bool :=
  l.any fun p => (Nat.beq p.1 n && Nat.beq p.2 m) || (Nat.beq p.1 m && Nat.beq p.2 n)

set_option maxRecDepth 100000 in
/-- The rows of all functions, in order. -/
def selRows : List Row := [
  (n!"addpd", 0xb0060000, 0x1ffffe000), (n!"addps", 0xb0040000, 0x1ffffe000), (n!"addsd", 0xb0050000, 0x1ffffe000),
  (n!"addss", 0xb0048000, 0x1ffffe000), (n!"addsubpd", 0x1a0060000, 0x1ffffe000), (n!"addsubps", 0x1a0050000, 0x1ffffe000),
  (n!"aesdec", 0x1bc0a0000, 0x1ffffe000), (n!"aesdeclast", 0x1be0a0000, 0x1ffffe000), (n!"aesenc", 0x1b80a0000, 0x1ffffe000),
  (n!"aesenclast", 0x1ba0a0000, 0x1ffffe000), (n!"aesimc", 0x1b60a0000, 0x1ffffe000), (n!"aeskeygenassist", 0x1be0e0000, 0x1ffffe000),
  (n!"andn", 0x1e4881000, 0x1fffff000), (n!"andn", 0x1e4880000, 0x1fffff000), (n!"andn", 0x1e5081000, 0x1fffff000),
  (n!"andn", 0x1e5080000, 0x1fffff000), (n!"andnpd", 0xaa060000, 0x1ffffe000), (n!"andnps", 0xaa040000, 0x1ffffe000),
  (n!"andpd", 0xa8060000, 0x1ffffe000), (n!"andps", 0xa8040000, 0x1ffffe000), (n!"bextr", 0x1ee881000, 0x1fffff000),
  (n!"bextr", 0x1ee880000, 0x1fffff000), (n!"bextr", 0x1ef081000, 0x1fffff000), (n!"bextr", 0x1ef080000, 0x1fffff000),
  (n!"blendpd", 0x1a0e0000, 0x1ffffe000), (n!"blendps", 0x180e0000, 0x1ffffe000), (n!"blendvpd", 0x2a0a0000, 0x1ffffe000),
  (n!"blendvps", 0x280a0000, 0x1ffffe000), (n!"blsi", 0x1e6881600, 0x1fffffe00), (n!"blsi", 0x1e6880600, 0x1fffffe00),
  (n!"blsi", 0x1e7081600, 0x1fffffe00), (n!"blsi", 0x1e7080600, 0x1fffffe00), (n!"blsmsk", 0x1e6881400, 0x1fffffe00),
  (n!"blsmsk", 0x1e6880400, 0x1fffffe00), (n!"blsmsk", 0x1e7081400, 0x1fffffe00), (n!"blsmsk", 0x1e7080400, 0x1fffffe00),
  (n!"blsr", 0x1e6881200, 0x1fffffe00), (n!"blsr", 0x1e6880200, 0x1fffffe00), (n!"blsr", 0x1e7081200, 0x1fffffe00),
  (n!"blsr", 0x1e7080200, 0x1fffffe00), (n!"bzhi", 0x1ea881000, 0x1fffff000), (n!"bzhi", 0x1ea880000, 0x1fffff000),
  (n!"bzhi", 0x1eb081000, 0x1fffff000), (n!"bzhi", 0x1eb080000, 0x1fffff000), (n!"cmpeqpd", 0x184060000, 0x1ffffe0ff),
  (n!"cmpeqps", 0x184040000, 0x1ffffe0ff), (n!"cmpeqsd", 0x184050000, 0x1ffffe0ff), (n!"cmpeqss", 0x184048000, 0x1ffffe0ff),
  (n!"cmplepd", 0x184060002, 0x1ffffe0ff), (n!"cmpleps", 0x184040002, 0x1ffffe0ff), (n!"cmplesd", 0x184050002, 0x1ffffe0ff),
  (n!"cmpless", 0x184048002, 0x1ffffe0ff), (n!"cmpltpd", 0x184060001, 0x1ffffe0ff), (n!"cmpltps", 0x184040001, 0x1ffffe0ff),
  (n!"cmpltsd", 0x184050001, 0x1ffffe0ff), (n!"cmpltss", 0x184048001, 0x1ffffe0ff), (n!"cmpneqpd", 0x184060004, 0x1ffffe0ff),
  (n!"cmpneqps", 0x184040004, 0x1ffffe0ff), (n!"cmpneqsd", 0x184050004, 0x1ffffe0ff), (n!"cmpneqss", 0x184048004, 0x1ffffe0ff),
  (n!"cmpnlepd", 0x184060006, 0x1ffffe0ff), (n!"cmpnleps", 0x184040006, 0x1ffffe0ff), (n!"cmpnlesd", 0x184050006, 0x1ffffe0ff),
  (n!"cmpnless", 0x184048006, 0x1ffffe0ff), (n!"cmpnltpd", 0x184060005, 0x1ffffe0ff), (n!"cmpnltps", 0x184040005, 0x1ffffe0ff),
  (n!"cmpnltsd", 0x184050005, 0x1ffffe0ff), (n!"cmpnltss", 0x184048005, 0x1ffffe0ff), (n!"cmpordpd", 0x184060007, 0x1ffffe0ff),
  (n!"cmpordps", 0x184040007, 0x1ffffe0ff), (n!"cmpordsd", 0x184050007, 0x1ffffe0ff), (n!"cmpordss", 0x184048007, 0x1ffffe0ff),
  (n!"cmppd", 0x184060000, 0x1ffffe000), (n!"cmpps", 0x184040000, 0x1ffffe000), (n!"cmpsd", 0x184050000, 0x1ffffe000),
  (n!"cmpss", 0x184048000, 0x1ffffe000), (n!"cmpunordpd", 0x184060003, 0x1ffffe0ff), (n!"cmpunordps", 0x184040003, 0x1ffffe0ff),
  (n!"cmpunordsd", 0x184050003, 0x1ffffe0ff), (n!"cmpunordss", 0x184048003, 0x1ffffe0ff), (n!"comisd", 0x5e060000, 0x1ffffe000),
  (n!"comiss", 0x5e040000, 0x1ffffe000), (n!"cvtdq2pd", 0x1cc048000, 0x1ffffe000), (n!"cvtdq2ps", 0xb6040000, 0x1ffffe000),
  (n!"cvtpd2dq", 0x1cc050000, 0x1ffffe000), (n!"cvtpd2pi", 0x5a060000, 0x1ffffe000), (n!"cvtpd2ps", 0xb4060000, 0x1ffffe000),
  (n!"cvtpi2pd", 0x54060000, 0x1ffffe000), (n!"cvtpi2ps", 0x54040000, 0x1ffffe000), (n!"cvtps2dq", 0xb6060000, 0x1ffffe000),
  (n!"cvtps2pd", 0xb4040000, 0x1ffffe000), (n!"cvtps2pi", 0x5a040000, 0x1ffffe000), (n!"cvtsd2si", 0x5a050000, 0x1ffffe000),
  (n!"cvtsd2ss", 0xb4050000, 0x1ffffe000), (n!"cvtsi2sd", 0x54050000, 0x1ffffe000), (n!"cvtsi2ss", 0x54048000, 0x1ffffe000),
  (n!"cvtss2sd", 0xb4048000, 0x1ffffe000), (n!"cvtss2si", 0x5a048000, 0x1ffffe000), (n!"cvttpd2dq", 0x1cc060000, 0x1ffffe000),
  (n!"cvttpd2pi", 0x58060000, 0x1ffffe000), (n!"cvttps2dq", 0xb6048000, 0x1ffffe000), (n!"cvttps2pi", 0x58040000, 0x1ffffe000),
  (n!"cvttsd2si", 0x58050000, 0x1ffffe000), (n!"cvttss2si", 0x58048000, 0x1ffffe000), (n!"divpd", 0xbc060000, 0x1ffffe000),
  (n!"divps", 0xbc040000, 0x1ffffe000), (n!"divsd", 0xbc050000, 0x1ffffe000), (n!"divss", 0xbc048000, 0x1ffffe000),
  (n!"dppd", 0x820e0000, 0x1ffffe000), (n!"dpps", 0x800e0000, 0x1ffffe000), (n!"extractps", 0x2e0e0000, 0x1ffffe000),
  (n!"gf2p8affineinvqb", 0x19e0e0000, 0x1ffffe000), (n!"gf2p8affineqb", 0x19c0e0000, 0x1ffffe000),
  (n!"gf2p8mulb", 0x19e0a0000, 0x1ffffe000), (n!"haddpd", 0xf8060000, 0x1ffffe000), (n!"haddps", 0xf8050000, 0x1ffffe000),
  (n!"hsubpd", 0xfa060000, 0x1ffffe000), (n!"hsubps", 0xfa050000, 0x1ffffe000), (n!"insertps", 0x420e0000, 0x1ffffe000),
  (n!"lddqu", 0x1e0050100, 0x1fffff100), (n!"maskmovdqu", 0x1ee060000, 0x1fffff100), (n!"maskmovq", 0x1ee040000, 0x1fffff100),
  (n!"maxpd", 0xbe060000, 0x1ffffe000), (n!"maxps", 0xbe040000, 0x1ffffe000), (n!"maxsd", 0xbe050000, 0x1ffffe000),
  (n!"maxss", 0xbe048000, 0x1ffffe000), (n!"minpd", 0xba060000, 0x1ffffe000), (n!"minps", 0xba040000, 0x1ffffe000),
  (n!"minsd", 0xba050000, 0x1ffffe000), (n!"minss", 0xba048000, 0x1ffffe000), (n!"movapd", 0x52060100, 0x1fffff100),
  (n!"movapd", 0x50060000, 0x1fffff000), (n!"movaps", 0x52040100, 0x1fffff100), (n!"movaps", 0x50040000, 0x1fffff000),
  (n!"movd", 0xdc060000, 0x1fffff000), (n!"movd", 0xdc040000, 0x1fffff000), (n!"movd", 0xfc060000, 0x1fffff000),
  (n!"movd", 0xfc040000, 0x1fffff000), (n!"movddup", 0x24050000, 0x1ffffe000), (n!"movdq2q", 0x1ac050000, 0x1fffff100),
  (n!"movdqa", 0xfe060100, 0x1fffff100), (n!"movdqa", 0xde060000, 0x1fffff000), (n!"movdqu", 0xfe048100, 0x1fffff100),
  (n!"movdqu", 0xde048000, 0x1fffff000), (n!"movhlps", 0x24040000, 0x1fffff100), (n!"movhpd", 0x2c060100, 0x1fffff100),
  (n!"movhpd", 0x2e060100, 0x1fffff100), (n!"movhps", 0x2c040100, 0x1fffff100), (n!"movhps", 0x2e040100, 0x1fffff100),
  (n!"movlhps", 0x2c040000, 0x1fffff100), (n!"movlpd", 0x24060100, 0x1fffff100), (n!"movlpd", 0x26060100, 0x1fffff100),
  (n!"movlps", 0x24040100, 0x1fffff100), (n!"movlps", 0x26040100, 0x1fffff100), (n!"movmskpd", 0xa0060000, 0x1ffffe100),
  (n!"movmskps", 0xa0040000, 0x1ffffe100), (n!"movntdq", 0x1ce060100, 0x1fffff100), (n!"movntdqa", 0x540a0100, 0x1fffff100),
  (n!"movntpd", 0x56060100, 0x1fffff100), (n!"movntps", 0x56040100, 0x1fffff100), (n!"movntq", 0x1ce040100, 0x1fffff100),
  (n!"movq", 0x1ac060000, 0x1fffff000), (n!"movq", 0xfe040000, 0x1fffff000), (n!"movq", 0xfc048000, 0x1fffff000),
  (n!"movq", 0xde040000, 0x1fffff000), (n!"movq2dq", 0x1ac048000, 0x1fffff100), (n!"movsd", 0x22050100, 0x1fffff100),
  (n!"movsd", 0x20050000, 0x1fffff000), (n!"movshdup", 0x2c048000, 0x1ffffe000), (n!"movsldup", 0x24048000, 0x1ffffe000),
  (n!"movss", 0x22048100, 0x1fffff100), (n!"movss", 0x20048000, 0x1fffff000), (n!"movupd", 0x22060100, 0x1fffff100),
  (n!"movupd", 0x20060000, 0x1fffff000), (n!"movups", 0x22040100, 0x1fffff100), (n!"movups", 0x20040000, 0x1fffff000),
  (n!"mpsadbw", 0x840e0000, 0x1ffffe000), (n!"mulpd", 0xb2060000, 0x1ffffe000), (n!"mulps", 0xb2040000, 0x1ffffe000),
  (n!"mulsd", 0xb2050000, 0x1ffffe000), (n!"mulss", 0xb2048000, 0x1ffffe000), (n!"mulx", 0x1ec887000, 0x1fffff000),
  (n!"mulx", 0x1ec886000, 0x1fffff000), (n!"mulx", 0x1ed087000, 0x1fffff000), (n!"mulx", 0x1ed086000, 0x1fffff000),
  (n!"orpd", 0xac060000, 0x1ffffe000), (n!"orps", 0xac040000, 0x1ffffe000), (n!"pabsb", 0x38080000, 0x1fffff000),
  (n!"pabsb", 0x380a0000, 0x1fffff000), (n!"pabsd", 0x3c080000, 0x1fffff000), (n!"pabsd", 0x3c0a0000, 0x1fffff000),
  (n!"pabsw", 0x3a080000, 0x1fffff000), (n!"pabsw", 0x3a0a0000, 0x1fffff000), (n!"packssdw", 0xd6040000, 0x1fffff000),
  (n!"packssdw", 0xd6060000, 0x1fffff000), (n!"packsswb", 0xc6040000, 0x1fffff000), (n!"packsswb", 0xc6060000, 0x1fffff000),
  (n!"packusdw", 0x560a0000, 0x1ffffe000), (n!"packuswb", 0xce040000, 0x1fffff000), (n!"packuswb", 0xce060000, 0x1fffff000),
  (n!"paddb", 0x1f8040000, 0x1fffff000), (n!"paddb", 0x1f8060000, 0x1fffff000), (n!"paddd", 0x1fc040000, 0x1fffff000),
  (n!"paddd", 0x1fc060000, 0x1fffff000), (n!"paddq", 0x1a8040000, 0x1fffff000), (n!"paddq", 0x1a8060000, 0x1fffff000),
  (n!"paddsb", 0x1d8040000, 0x1fffff000), (n!"paddsb", 0x1d8060000, 0x1fffff000), (n!"paddsw", 0x1da040000, 0x1fffff000),
  (n!"paddsw", 0x1da060000, 0x1fffff000), (n!"paddusb", 0x1b8040000, 0x1fffff000), (n!"paddusb", 0x1b8060000, 0x1fffff000),
  (n!"paddusw", 0x1ba040000, 0x1fffff000), (n!"paddusw", 0x1ba060000, 0x1fffff000), (n!"paddw", 0x1fa040000, 0x1fffff000),
  (n!"paddw", 0x1fa060000, 0x1fffff000), (n!"palignr", 0x1e0c0000, 0x1fffff000), (n!"palignr", 0x1e0e0000, 0x1fffff000),
  (n!"pand", 0x1b6040000, 0x1fffff000), (n!"pand", 0x1b6060000, 0x1fffff000), (n!"pandn", 0x1be040000, 0x1fffff000),
  (n!"pandn", 0x1be060000, 0x1fffff000), (n!"pavgb", 0x1c0040000, 0x1fffff000), (n!"pavgb", 0x1c0060000, 0x1fffff000),
  (n!"pavgw", 0x1c6040000, 0x1fffff000), (n!"pavgw", 0x1c6060000, 0x1fffff000), (n!"pblendvb", 0x200a0000, 0x1ffffe000),
  (n!"pblendw", 0x1c0e0000, 0x1ffffe000), (n!"pclmulhqhqdq", 0x880e0011, 0x1ffffe0ff), (n!"pclmulhqlqdq", 0x880e0001, 0x1ffffe0ff),
  (n!"pclmullqhqdq", 0x880e0010, 0x1ffffe0ff), (n!"pclmullqlqdq", 0x880e0000, 0x1ffffe0ff), (n!"pclmulqdq", 0x880e0000, 0x1ffffe000),
  (n!"pcmpeqb", 0xe8040000, 0x1fffff000), (n!"pcmpeqb", 0xe8060000, 0x1fffff000), (n!"pcmpeqd", 0xec040000, 0x1fffff000),
  (n!"pcmpeqd", 0xec060000, 0x1fffff000), (n!"pcmpeqq", 0x520a0000, 0x1ffffe000), (n!"pcmpeqw", 0xea040000, 0x1fffff000),
  (n!"pcmpeqw", 0xea060000, 0x1fffff000), (n!"pcmpestri", 0xc20e0000, 0x1ffffe000), (n!"pcmpestrm", 0xc00e0000, 0x1ffffe000),
  (n!"pcmpgtb", 0xc8040000, 0x1fffff000), (n!"pcmpgtb", 0xc8060000, 0x1fffff000), (n!"pcmpgtd", 0xcc040000, 0x1fffff000),
  (n!"pcmpgtd", 0xcc060000, 0x1fffff000), (n!"pcmpgtq", 0x6e0a0000, 0x1ffffe000), (n!"pcmpgtw", 0xca040000, 0x1fffff000),
  (n!"pcmpgtw", 0xca060000, 0x1fffff000), (n!"pcmpistri", 0xc60e0000, 0x1ffffe000), (n!"pcmpistrm", 0xc40e0000, 0x1ffffe000),
  (n!"pdep", 0x1ea887000, 0x1fffff000), (n!"pdep", 0x1ea886000, 0x1fffff000), (n!"pdep", 0x1eb087000, 0x1fffff000),
  (n!"pdep", 0x1eb086000, 0x1fffff000), (n!"pext", 0x1ea885000, 0x1fffff000), (n!"pext", 0x1ea884000, 0x1fffff000),
  (n!"pext", 0x1eb085000, 0x1fffff000), (n!"pext", 0x1eb084000, 0x1fffff000), (n!"pextrb", 0x280e0000, 0x1ffffe000),
  (n!"pextrd", 0x2c0e0000, 0x1ffffe000), (n!"pextrw", 0x18a040000, 0x1ffffe100), (n!"pextrw", 0x18a060000, 0x1ffffe100),
  (n!"pextrw", 0x2a0e0000, 0x1ffffe000), (n!"phaddd", 0x4080000, 0x1fffff000), (n!"phaddd", 0x40a0000, 0x1fffff000),
  (n!"phaddsw", 0x6080000, 0x1fffff000), (n!"phaddsw", 0x60a0000, 0x1fffff000), (n!"phaddw", 0x2080000, 0x1fffff000),
  (n!"phaddw", 0x20a0000, 0x1fffff000), (n!"phminposuw", 0x820a0000, 0x1ffffe000), (n!"phsubd", 0xc080000, 0x1fffff000),
  (n!"phsubd", 0xc0a0000, 0x1fffff000), (n!"phsubsw", 0xe080000, 0x1fffff000), (n!"phsubsw", 0xe0a0000, 0x1fffff000),
  (n!"phsubw", 0xa080000, 0x1fffff000), (n!"phsubw", 0xa0a0000, 0x1fffff000), (n!"pinsrb", 0x400e0000, 0x1ffffe000),
  (n!"pinsrd", 0x440e0000, 0x1ffffe000), (n!"pinsrw", 0x188060000, 0x1ffffe000), (n!"pinsrw", 0x188040000, 0x1ffffe000),
  (n!"pmaddubsw", 0x8080000, 0x1fffff000), (n!"pmaddubsw", 0x80a0000, 0x1fffff000), (n!"pmaddwd", 0x1ea040000, 0x1fffff000),
  (n!"pmaddwd", 0x1ea060000, 0x1fffff000), (n!"pmaxsb", 0x780a0000, 0x1ffffe000), (n!"pmaxsd", 0x7a0a0000, 0x1ffffe000),
  (n!"pmaxsw", 0x1dc040000, 0x1fffff000), (n!"pmaxsw", 0x1dc060000, 0x1fffff000), (n!"pmaxub", 0x1bc040000, 0x1fffff000),
  (n!"pmaxub", 0x1bc060000, 0x1fffff000), (n!"pmaxud", 0x7e0a0000, 0x1ffffe000), (n!"pmaxuw", 0x7c0a0000, 0x1ffffe000),
  (n!"pminsb", 0x700a0000, 0x1ffffe000), (n!"pminsd", 0x720a0000, 0x1ffffe000), (n!"pminsw", 0x1d4040000, 0x1fffff000),
  (n!"pminsw", 0x1d4060000, 0x1fffff000), (n!"pminub", 0x1b4040000, 0x1fffff000), (n!"pminub", 0x1b4060000, 0x1fffff000),
  (n!"pminud", 0x760a0000, 0x1ffffe000), (n!"pminuw", 0x740a0000, 0x1ffffe000), (n!"pmovmskb", 0x1ae040000, 0x1ffffe100),
  (n!"pmovmskb", 0x1ae060000, 0x1ffffe100), (n!"pmovsxbd", 0x420a0000, 0x1ffffe000), (n!"pmovsxbq", 0x440a0000, 0x1ffffe000),
  (n!"pmovsxbw", 0x400a0000, 0x1ffffe000), (n!"pmovsxdq", 0x4a0a0000, 0x1ffffe000), (n!"pmovsxwd", 0x460a0000, 0x1ffffe000),
  (n!"pmovsxwq", 0x480a0000, 0x1ffffe000), (n!"pmovzxbd", 0x620a0000, 0x1ffffe000), (n!"pmovzxbq", 0x640a0000, 0x1ffffe000),
  (n!"pmovzxbw", 0x600a0000, 0x1ffffe000), (n!"pmovzxdq", 0x6a0a0000, 0x1ffffe000), (n!"pmovzxwd", 0x660a0000, 0x1ffffe000),
  (n!"pmovzxwq", 0x680a0000, 0x1ffffe000), (n!"pmuldq", 0x500a0000, 0x1ffffe000), (n!"pmulhrsw", 0x16080000, 0x1fffff000),
  (n!"pmulhrsw", 0x160a0000, 0x1fffff000), (n!"pmulhuw", 0x1c8040000, 0x1fffff000), (n!"pmulhuw", 0x1c8060000, 0x1fffff000),
  (n!"pmulhw", 0x1ca040000, 0x1fffff000), (n!"pmulhw", 0x1ca060000, 0x1fffff000), (n!"pmulld", 0x800a0000, 0x1ffffe000),
  (n!"pmullw", 0x1aa040000, 0x1fffff000), (n!"pmullw", 0x1aa060000, 0x1fffff000), (n!"pmuludq", 0x1e8040000, 0x1fffff000),
  (n!"pmuludq", 0x1e8060000, 0x1fffff000), (n!"por", 0x1d6040000, 0x1fffff000), (n!"por", 0x1d6060000, 0x1fffff000),
  (n!"psadbw", 0x1ec040000, 0x1fffff000), (n!"psadbw", 0x1ec060000, 0x1fffff000), (n!"pshufb", 0x80000, 0x1fffff000),
  (n!"pshufb", 0xa0000, 0x1fffff000), (n!"pshufd", 0xe0040000, 0x1fffff000), (n!"pshufd", 0xe0060000, 0x1fffff000),
  (n!"pshufhw", 0xe0040000, 0x1fffff000), (n!"pshufhw", 0xe0048000, 0x1fffff000), (n!"pshuflw", 0xe0040000, 0x1fffff000),
  (n!"pshuflw", 0xe0050000, 0x1fffff000), (n!"pshufw", 0xe0040000, 0x1fffff000), (n!"pshufw", 0xe0040000, 0x1fffff000),
  (n!"psignb", 0x10080000, 0x1fffff000), (n!"psignb", 0x100a0000, 0x1fffff000), (n!"psignd", 0x14080000, 0x1fffff000),
  (n!"psignd", 0x140a0000, 0x1fffff000), (n!"psignw", 0x12080000, 0x1fffff000), (n!"psignw", 0x120a0000, 0x1fffff000),
  (n!"pslld", 0x1e4040000, 0x1fffff000), (n!"pslld", 0x1e4060000, 0x1fffff000), (n!"pslld", 0xe4040c00, 0x1ffffff00),
  (n!"pslld", 0xe4060c00, 0x1ffffff00), (n!"pslldq", 0xe6040e00, 0x1ffffff00), (n!"pslldq", 0xe6060e00, 0x1ffffff00),
  (n!"psllq", 0x1e6040000, 0x1fffff000), (n!"psllq", 0x1e6060000, 0x1fffff000), (n!"psllq", 0xe6040c00, 0x1ffffff00),
  (n!"psllq", 0xe6060c00, 0x1ffffff00), (n!"psllw", 0x1e2040000, 0x1fffff000), (n!"psllw", 0x1e2060000, 0x1fffff000),
  (n!"psllw", 0xe2040c00, 0x1ffffff00), (n!"psllw", 0xe2060c00, 0x1ffffff00), (n!"psrad", 0x1c4040000, 0x1fffff000),
  (n!"psrad", 0x1c4060000, 0x1fffff000), (n!"psrad", 0xe4040800, 0x1ffffff00), (n!"psrad", 0xe4060800, 0x1ffffff00),
  (n!"psraw", 0x1c2040000, 0x1fffff000), (n!"psraw", 0x1c2060000, 0x1fffff000), (n!"psraw", 0xe2040800, 0x1ffffff00),
  (n!"psraw", 0xe2060800, 0x1ffffff00), (n!"psrld", 0x1a4040000, 0x1fffff000), (n!"psrld", 0x1a4060000, 0x1fffff000),
  (n!"psrld", 0xe4040400, 0x1ffffff00), (n!"psrld", 0xe4060400, 0x1ffffff00), (n!"psrldq", 0xe6040600, 0x1ffffff00),
  (n!"psrldq", 0xe6060600, 0x1ffffff00), (n!"psrlq", 0x1a6040000, 0x1fffff000), (n!"psrlq", 0x1a6060000, 0x1fffff000),
  (n!"psrlq", 0xe6040400, 0x1ffffff00), (n!"psrlq", 0xe6060400, 0x1ffffff00), (n!"psrlw", 0x1a2040000, 0x1fffff000),
  (n!"psrlw", 0x1a2060000, 0x1fffff000), (n!"psrlw", 0xe2040400, 0x1ffffff00), (n!"psrlw", 0xe2060400, 0x1ffffff00),
  (n!"psubb", 0x1f0040000, 0x1fffff000), (n!"psubb", 0x1f0060000, 0x1fffff000), (n!"psubd", 0x1f4040000, 0x1fffff000),
  (n!"psubd", 0x1f4060000, 0x1fffff000), (n!"psubq", 0x1f6040000, 0x1fffff000), (n!"psubq", 0x1f6060000, 0x1fffff000),
  (n!"psubsb", 0x1d0040000, 0x1fffff000), (n!"psubsb", 0x1d0060000, 0x1fffff000), (n!"psubsw", 0x1d2040000, 0x1fffff000),
  (n!"psubsw", 0x1d2060000, 0x1fffff000), (n!"psubusb", 0x1b0040000, 0x1fffff000), (n!"psubusb", 0x1b0060000, 0x1fffff000),
  (n!"psubusw", 0x1b2040000, 0x1fffff000), (n!"psubusw", 0x1b2060000, 0x1fffff000), (n!"psubw", 0x1f2040000, 0x1fffff000),
  (n!"psubw", 0x1f2060000, 0x1fffff000), (n!"ptest", 0x2e0a0000, 0x1ffffe000), (n!"punpckhbw", 0xd0040000, 0x1fffff000),
  (n!"punpckhbw", 0xd0060000, 0x1fffff000), (n!"punpckhdq", 0xd4040000, 0x1fffff000), (n!"punpckhdq", 0xd4060000, 0x1fffff000),
  (n!"punpckhqdq", 0xda060000, 0x1ffffe000), (n!"punpckhwd", 0xd2040000, 0x1fffff000), (n!"punpckhwd", 0xd2060000, 0x1fffff000),
  (n!"punpcklbw", 0xc0040000, 0x1fffff000), (n!"punpcklbw", 0xc0060000, 0x1fffff000), (n!"punpckldq", 0xc4040000, 0x1fffff000),
  (n!"punpckldq", 0xc4060000, 0x1fffff000), (n!"punpcklqdq", 0xd8060000, 0x1ffffe000), (n!"punpcklwd", 0xc2040000, 0x1fffff000),
  (n!"punpcklwd", 0xc2060000, 0x1fffff000), (n!"pxor", 0x1de040000, 0x1fffff000), (n!"pxor", 0x1de060000, 0x1fffff000),
  (n!"rcpps", 0xa6040000, 0x1ffffe000), (n!"rcpss", 0xa6048000, 0x1ffffe000), (n!"rorx", 0x1e08c7000, 0x1fffff000),
  (n!"rorx", 0x1e08c6000, 0x1fffff000), (n!"rorx", 0x1e10c7000, 0x1fffff000), (n!"rorx", 0x1e10c6000, 0x1fffff000),
  (n!"roundpd", 0x120e0000, 0x1ffffe000), (n!"roundps", 0x100e0000, 0x1ffffe000), (n!"roundsd", 0x160e0000, 0x1ffffe000),
  (n!"roundss", 0x140e0000, 0x1ffffe000), (n!"rsqrtps", 0xa4040000, 0x1ffffe000), (n!"rsqrtss", 0xa4048000, 0x1ffffe000),
  (n!"sarx", 0x1ee885000, 0x1fffff000), (n!"sarx", 0x1ee884000, 0x1fffff000), (n!"sarx", 0x1ef085000, 0x1fffff000),
  (n!"sarx", 0x1ef084000, 0x1fffff000), (n!"sha1msg1", 0x192080000, 0x1fffff000), (n!"sha1msg1", 0x1b3100000, 0x1ffffe000),
  (n!"sha1msg2", 0x194080000, 0x1fffff000), (n!"sha1msg2", 0x1b5100000, 0x1ffffe000), (n!"sha1nexte", 0x190080000, 0x1fffff000),
  (n!"sha1nexte", 0x1b1100000, 0x1ffffe000), (n!"sha1rnds4", 0x1980c0000, 0x1fffff000), (n!"sha1rnds4", 0x1a9100000, 0x1ffffe000),
  (n!"sha256msg1", 0x198080000, 0x1fffff000), (n!"sha256msg1", 0x1b9100000, 0x1ffffe000), (n!"sha256msg2", 0x19a080000, 0x1fffff000),
  (n!"sha256msg2", 0x1bb100000, 0x1ffffe000), (n!"sha256rnds2", 0x196080000, 0x1fffff000), (n!"sha256rnds2", 0x1b7100000, 0x1ffffe000),
  (n!"shlx", 0x1ee883000, 0x1fffff000), (n!"shlx", 0x1ee882000, 0x1fffff000), (n!"shlx", 0x1ef083000, 0x1fffff000),
  (n!"shlx", 0x1ef082000, 0x1fffff000), (n!"shrx", 0x1ee887000, 0x1fffff000), (n!"shrx", 0x1ee886000, 0x1fffff000),
  (n!"shrx", 0x1ef087000, 0x1fffff000), (n!"shrx", 0x1ef086000, 0x1fffff000), (n!"shufpd", 0x18c060000, 0x1ffffe000),
  (n!"shufps", 0x18c040000, 0x1ffffe000), (n!"sqrtpd", 0xa2060000, 0x1ffffe000), (n!"sqrtps", 0xa2040000, 0x1ffffe000),
  (n!"sqrtsd", 0xa2050000, 0x1ffffe000), (n!"sqrtss", 0xa2048000, 0x1ffffe000), (n!"subpd", 0xb8060000, 0x1ffffe000),
  (n!"subps", 0xb8040000, 0x1ffffe000), (n!"subsd", 0xb8050000, 0x1ffffe000), (n!"subss", 0xb8048000, 0x1ffffe000),
  (n!"ucomisd", 0x5c060000, 0x1ffffe000), (n!"ucomiss", 0x5c040000, 0x1ffffe000), (n!"unpckhpd", 0x2a060000, 0x1ffffe000),
  (n!"unpckhps", 0x2a040000, 0x1ffffe000), (n!"unpcklpd", 0x28060000, 0x1ffffe000), (n!"unpcklps", 0x28040000, 0x1ffffe000),
  (n!"vaddpd", 0xb0842000, 0x1fffff000), (n!"vaddpd", 0xb1043000, 0x1fffff000), (n!"vaddps", 0xb0840000, 0x1fffff000),
  (n!"vaddps", 0xb1040000, 0x1fffff000), (n!"vaddsd", 0xb0846000, 0x1fffff000), (n!"vaddsd", 0xb1047000, 0x1fffff000),
  (n!"vaddss", 0xb0844000, 0x1fffff000), (n!"vaddss", 0xb1044000, 0x1fffff000), (n!"vaddsubpd", 0x1a0842000, 0x1fffff000),
  (n!"vaddsubps", 0x1a0846000, 0x1fffff000), (n!"vaesdec", 0x1bc882000, 0x1fffff000), (n!"vaesdec", 0x1bd082000, 0x1fffff000),
  (n!"vaesdeclast", 0x1be882000, 0x1fffff000), (n!"vaesdeclast", 0x1bf082000, 0x1fffff000), (n!"vaesenc", 0x1b8882000, 0x1fffff000),
  (n!"vaesenc", 0x1b9082000, 0x1fffff000), (n!"vaesenclast", 0x1ba882000, 0x1fffff000), (n!"vaesenclast", 0x1bb082000, 0x1fffff000),
  (n!"vaesimc", 0x1b6882000, 0x1fffff000), (n!"vaeskeygenassist", 0x1be8c2000, 0x1fffff000), (n!"vandnpd", 0xaa842000, 0x1fffff000),
  (n!"vandnpd", 0xab043000, 0x1fffff000), (n!"vandnps", 0xaa840000, 0x1fffff000), (n!"vandnps", 0xab040000, 0x1fffff000),
  (n!"vandpd", 0xa8842000, 0x1fffff000), (n!"vandpd", 0xa9043000, 0x1fffff000), (n!"vandps", 0xa8840000, 0x1fffff000),
  (n!"vandps", 0xa9040000, 0x1fffff000), (n!"vbcstnebf162ps", 0x162884100, 0x1fffff100), (n!"vbcstnesh2ps", 0x162882100, 0x1fffff100),
  (n!"vblendpd", 0x1a8c2000, 0x1fffff000), (n!"vblendps", 0x188c2000, 0x1fffff000), (n!"vblendvpd", 0x968c2000, 0x1fffff000),
  (n!"vblendvps", 0x948c2000, 0x1fffff000), (n!"vbroadcastf128", 0x34882100, 0x1fffff100), (n!"vbroadcasti128", 0xb4882100, 0x1fffff100),
  (n!"vbroadcastsd", 0x32882000, 0x1fffff000), (n!"vbroadcastsd", 0x33083000, 0x1fffff000), (n!"vbroadcastss", 0x30882000, 0x1fffff000),
  (n!"vbroadcastss", 0x31082000, 0x1fffff000), (n!"vcmpeq_ospd", 0x184842010, 0x1fffff0ff), (n!"vcmpeq_osps", 0x184840010, 0x1fffff0ff),
  (n!"vcmpeq_ossd", 0x184846010, 0x1fffff0ff), (n!"vcmpeq_osss", 0x184844010, 0x1fffff0ff), (n!"vcmpeq_uqpd", 0x184842008, 0x1fffff0ff),
  (n!"vcmpeq_uqps", 0x184840008, 0x1fffff0ff), (n!"vcmpeq_uqsd", 0x184846008, 0x1fffff0ff), (n!"vcmpeq_uqss", 0x184844008, 0x1fffff0ff),
  (n!"vcmpeq_uspd", 0x184842018, 0x1fffff0ff), (n!"vcmpeq_usps", 0x184840018, 0x1fffff0ff), (n!"vcmpeq_ussd", 0x184846018, 0x1fffff0ff),
  (n!"vcmpeq_usss", 0x184844018, 0x1fffff0ff), (n!"vcmpeqpd", 0x184842000, 0x1fffff0ff), (n!"vcmpeqps", 0x184840000, 0x1fffff0ff),
  (n!"vcmpeqsd", 0x184846000, 0x1fffff0ff), (n!"vcmpeqss", 0x184844000, 0x1fffff0ff), (n!"vcmpfalse_ospd", 0x18484201b, 0x1fffff0ff),
  (n!"vcmpfalse_osps", 0x18484001b, 0x1fffff0ff), (n!"vcmpfalse_ossd", 0x18484601b, 0x1fffff0ff),
  (n!"vcmpfalse_osss", 0x18484401b, 0x1fffff0ff), (n!"vcmpfalsepd", 0x18484200b, 0x1fffff0ff), (n!"vcmpfalseps", 0x18484000b, 0x1fffff0ff),
  (n!"vcmpfalsesd", 0x18484600b, 0x1fffff0ff), (n!"vcmpfalsess", 0x18484400b, 0x1fffff0ff), (n!"vcmpge_oqpd", 0x18484201d, 0x1fffff0ff),
  (n!"vcmpge_oqps", 0x18484001d, 0x1fffff0ff), (n!"vcmpge_oqsd", 0x18484601d, 0x1fffff0ff), (n!"vcmpge_oqss", 0x18484401d, 0x1fffff0ff),
  (n!"vcmpgepd", 0x18484200d, 0x1fffff0ff), (n!"vcmpgeps", 0x18484000d, 0x1fffff0ff), (n!"vcmpgesd", 0x18484600d, 0x1fffff0ff),
  (n!"vcmpgess", 0x18484400d, 0x1fffff0ff), (n!"vcmpgt_oqpd", 0x18484201e, 0x1fffff0ff), (n!"vcmpgt_oqps", 0x18484001e, 0x1fffff0ff),
  (n!"vcmpgt_oqsd", 0x18484601e, 0x1fffff0ff), (n!"vcmpgt_oqss", 0x18484401e, 0x1fffff0ff), (n!"vcmpgtpd", 0x18484200e, 0x1fffff0ff),
  (n!"vcmpgtps", 0x18484000e, 0x1fffff0ff), (n!"vcmpgtsd", 0x18484600e, 0x1fffff0ff), (n!"vcmpgtss", 0x18484400e, 0x1fffff0ff),
  (n!"vcmple_oqpd", 0x184842012, 0x1fffff0ff), (n!"vcmple_oqps", 0x184840012, 0x1fffff0ff), (n!"vcmple_oqsd", 0x184846012, 0x1fffff0ff),
  (n!"vcmple_oqss", 0x184844012, 0x1fffff0ff), (n!"vcmplepd", 0x184842002, 0x1fffff0ff), (n!"vcmpleps", 0x184840002, 0x1fffff0ff),
  (n!"vcmplesd", 0x184846002, 0x1fffff0ff), (n!"vcmpless", 0x184844002, 0x1fffff0ff), (n!"vcmplt_oqpd", 0x184842011, 0x1fffff0ff),
  (n!"vcmplt_oqps", 0x184840011, 0x1fffff0ff), (n!"vcmplt_oqsd", 0x184846011, 0x1fffff0ff), (n!"vcmplt_oqss", 0x184844011, 0x1fffff0ff),
  (n!"vcmpltpd", 0x184842001, 0x1fffff0ff), (n!"vcmpltps", 0x184840001, 0x1fffff0ff), (n!"vcmpltsd", 0x184846001, 0x1fffff0ff),
  (n!"vcmpltss", 0x184844001, 0x1fffff0ff), (n!"vcmpneq_oqpd", 0x18484200c, 0x1fffff0ff), (n!"vcmpneq_oqps", 0x18484000c, 0x1fffff0ff),
  (n!"vcmpneq_oqsd", 0x18484600c, 0x1fffff0ff), (n!"vcmpneq_oqss", 0x18484400c, 0x1fffff0ff), (n!"vcmpneq_ospd", 0x18484201c, 0x1fffff0ff),
  (n!"vcmpneq_osps", 0x18484001c, 0x1fffff0ff), (n!"vcmpneq_ossd", 0x18484601c, 0x1fffff0ff), (n!"vcmpneq_osss", 0x18484401c, 0x1fffff0ff),
  (n!"vcmpneq_uspd", 0x184842014, 0x1fffff0ff), (n!"vcmpneq_usps", 0x184840014, 0x1fffff0ff), (n!"vcmpneq_ussd", 0x184846014, 0x1fffff0ff),
  (n!"vcmpneq_usss", 0x184844014, 0x1fffff0ff), (n!"vcmpneqpd", 0x184842004, 0x1fffff0ff), (n!"vcmpneqps", 0x184840004, 0x1fffff0ff),
  (n!"vcmpneqsd", 0x184846004, 0x1fffff0ff), (n!"vcmpneqss", 0x184844004, 0x1fffff0ff), (n!"vcmpnge_uqpd", 0x184842019, 0x1fffff0ff),
  (n!"vcmpnge_uqps", 0x184840019, 0x1fffff0ff), (n!"vcmpnge_uqsd", 0x184846019, 0x1fffff0ff), (n!"vcmpnge_uqss", 0x184844019, 0x1fffff0ff),
  (n!"vcmpngepd", 0x184842009, 0x1fffff0ff), (n!"vcmpngeps", 0x184840009, 0x1fffff0ff), (n!"vcmpngesd", 0x184846009, 0x1fffff0ff),
  (n!"vcmpngess", 0x184844009, 0x1fffff0ff), (n!"vcmpngt_uqpd", 0x18484201a, 0x1fffff0ff), (n!"vcmpngt_uqps", 0x18484001a, 0x1fffff0ff),
  (n!"vcmpngt_uqsd", 0x18484601a, 0x1fffff0ff), (n!"vcmpngt_uqss", 0x18484401a, 0x1fffff0ff), (n!"vcmpngtpd", 0x18484200a, 0x1fffff0ff),
  (n!"vcmpngtps", 0x18484000a, 0x1fffff0ff), (n!"vcmpngtsd", 0x18484600a, 0x1fffff0ff), (n!"vcmpngtss", 0x18484400a, 0x1fffff0ff),
  (n!"vcmpnle_uqpd", 0x184842016, 0x1fffff0ff), (n!"vcmpnle_uqps", 0x184840016, 0x1fffff0ff), (n!"vcmpnle_uqsd", 0x184846016, 0x1fffff0ff),
  (n!"vcmpnle_uqss", 0x184844016, 0x1fffff0ff), (n!"vcmpnlepd", 0x184842006, 0x1fffff0ff), (n!"vcmpnleps", 0x184840006, 0x1fffff0ff),
  (n!"vcmpnlesd", 0x184846006, 0x1fffff0ff), (n!"vcmpnless", 0x184844006, 0x1fffff0ff), (n!"vcmpnlt_uqpd", 0x184842015, 0x1fffff0ff),
  (n!"vcmpnlt_uqps", 0x184840015, 0x1fffff0ff), (n!"vcmpnlt_uqsd", 0x184846015, 0x1fffff0ff), (n!"vcmpnlt_uqss", 0x184844015, 0x1fffff0ff),
  (n!"vcmpnltpd", 0x184842005, 0x1fffff0ff), (n!"vcmpnltps", 0x184840005, 0x1fffff0ff), (n!"vcmpnltsd", 0x184846005, 0x1fffff0ff),
  (n!"vcmpnltss", 0x184844005, 0x1fffff0ff), (n!"vcmpord_spd", 0x184842017, 0x1fffff0ff), (n!"vcmpord_sps", 0x184840017, 0x1fffff0ff),
  (n!"vcmpord_ssd", 0x184846017, 0x1fffff0ff), (n!"vcmpord_sss", 0x184844017, 0x1fffff0ff), (n!"vcmpordpd", 0x184842007, 0x1fffff0ff),
  (n!"vcmpordps", 0x184840007, 0x1fffff0ff), (n!"vcmpordsd", 0x184846007, 0x1fffff0ff), (n!"vcmpordss", 0x184844007, 0x1fffff0ff),
  (n!"vcmppd", 0x184842000, 0x1fffff000), (n!"vcmpps", 0x184840000, 0x1fffff000), (n!"vcmpsd", 0x184846000, 0x1fffff000),
  (n!"vcmpss", 0x184844000, 0x1fffff000), (n!"vcmptrue_uspd", 0x18484201f, 0x1fffff0ff), (n!"vcmptrue_usps", 0x18484001f, 0x1fffff0ff),
  (n!"vcmptrue_ussd", 0x18484601f, 0x1fffff0ff), (n!"vcmptrue_usss", 0x18484401f, 0x1fffff0ff), (n!"vcmptruepd", 0x18484200f, 0x1fffff0ff),
  (n!"vcmptrueps", 0x18484000f, 0x1fffff0ff), (n!"vcmptruesd", 0x18484600f, 0x1fffff0ff), (n!"vcmptruess", 0x18484400f, 0x1fffff0ff),
  (n!"vcmpunord_spd", 0x184842013, 0x1fffff0ff), (n!"vcmpunord_sps", 0x184840013, 0x1fffff0ff),
  (n!"vcmpunord_ssd", 0x184846013, 0x1fffff0ff), (n!"vcmpunord_sss", 0x184844013, 0x1fffff0ff),
  (n!"vcmpunordpd", 0x184842003, 0x1fffff0ff), (n!"vcmpunordps", 0x184840003, 0x1fffff0ff), (n!"vcmpunordsd", 0x184846003, 0x1fffff0ff),
  (n!"vcmpunordss", 0x184844003, 0x1fffff0ff), (n!"vcomisd", 0x5e842000, 0x1fffff000), (n!"vcomisd", 0x5f043000, 0x1fffff000),
  (n!"vcomiss", 0x5e840000, 0x1fffff000), (n!"vcomiss", 0x5f040000, 0x1fffff000), (n!"vcvtdq2pd", 0x1cc844000, 0x1fffff000),
  (n!"vcvtdq2pd", 0x1cd044000, 0x1fffff000), (n!"vcvtdq2ps", 0xb6840000, 0x1fffff000), (n!"vcvtdq2ps", 0xb7040000, 0x1fffff000),
  (n!"vcvtneebf162ps", 0x160884100, 0x1fffff100), (n!"vcvtneeph2ps", 0x160882100, 0x1fffff100),
  (n!"vcvtneobf162ps", 0x160886100, 0x1fffff100), (n!"vcvtneoph2ps", 0x160880100, 0x1fffff100),
  (n!"vcvtneps2bf16", 0xe4884000, 0x1fffff000), (n!"vcvtneps2bf16", 0xe5084000, 0x1fffff000), (n!"vcvtpd2dq", 0x1cc846000, 0x1fffff000),
  (n!"vcvtpd2dq", 0x1cd047000, 0x1fffff000), (n!"vcvtpd2ps", 0xb4842000, 0x1fffff000), (n!"vcvtpd2ps", 0xb5043000, 0x1fffff000),
  (n!"vcvtph2ps", 0x26882000, 0x1fffff000), (n!"vcvtph2ps", 0x27082000, 0x1fffff000), (n!"vcvtps2dq", 0xb6842000, 0x1fffff000),
  (n!"vcvtps2dq", 0xb7042000, 0x1fffff000), (n!"vcvtps2pd", 0xb4840000, 0x1fffff000), (n!"vcvtps2pd", 0xb5040000, 0x1fffff000),
  (n!"vcvtps2ph", 0x3a8c2000, 0x1fffff000), (n!"vcvtps2ph", 0x3b0c2000, 0x1fffff000), (n!"vcvtsd2si", 0x5a846000, 0x1fffff000),
  (n!"vcvtsd2si", 0x5b046000, 0x1fffff000), (n!"vcvtsd2ss", 0xb4846000, 0x1fffff000), (n!"vcvtsd2ss", 0xb5047000, 0x1fffff000),
  (n!"vcvtsi2sd", 0x54847000, 0x1fffff000), (n!"vcvtsi2sd", 0x55047000, 0x1fffff000), (n!"vcvtsi2sd", 0x54846000, 0x1fffff000),
  (n!"vcvtsi2sd", 0x55046000, 0x1fffff000), (n!"vcvtsi2ss", 0x54845000, 0x1fffff000), (n!"vcvtsi2ss", 0x55045000, 0x1fffff000),
  (n!"vcvtsi2ss", 0x54844000, 0x1fffff000), (n!"vcvtsi2ss", 0x55044000, 0x1fffff000), (n!"vcvtss2sd", 0xb4844000, 0x1fffff000),
  (n!"vcvtss2sd", 0xb5044000, 0x1fffff000), (n!"vcvtss2si", 0x5a844000, 0x1fffff000), (n!"vcvtss2si", 0x5b044000, 0x1fffff000),
  (n!"vcvttpd2dq", 0x1cc842000, 0x1fffff000), (n!"vcvttpd2dq", 0x1cd043000, 0x1fffff000), (n!"vcvttps2dq", 0xb6844000, 0x1fffff000),
  (n!"vcvttps2dq", 0xb7044000, 0x1fffff000), (n!"vcvttsd2si", 0x58846000, 0x1fffff000), (n!"vcvttsd2si", 0x59046000, 0x1fffff000),
  (n!"vcvttss2si", 0x58844000, 0x1fffff000), (n!"vcvttss2si", 0x59044000, 0x1fffff000), (n!"vdivpd", 0xbc842000, 0x1fffff000),
  (n!"vdivpd", 0xbd043000, 0x1fffff000), (n!"vdivps", 0xbc840000, 0x1fffff000), (n!"vdivps", 0xbd040000, 0x1fffff000),
  (n!"vdivsd", 0xbc846000, 0x1fffff000), (n!"vdivsd", 0xbd047000, 0x1fffff000), (n!"vdivss", 0xbc844000, 0x1fffff000),
  (n!"vdivss", 0xbd044000, 0x1fffff000), (n!"vdppd", 0x828c2000, 0x1fffff000), (n!"vdpps", 0x808c2000, 0x1fffff000),
  (n!"vextractf128", 0x328c2000, 0x1fffff000), (n!"vextracti128", 0x728c2000, 0x1fffff000), (n!"vextractps", 0x2e8c2000, 0x1fffff000),
  (n!"vextractps", 0x2f0c2000, 0x1fffff000), (n!"vfmadd132pd", 0x130883000, 0x1fffff000), (n!"vfmadd132pd", 0x131083000, 0x1fffff000),
  (n!"vfmadd132ps", 0x130882000, 0x1fffff000), (n!"vfmadd132ps", 0x131082000, 0x1fffff000), (n!"vfmadd132sd", 0x132883000, 0x1fffff000),
  (n!"vfmadd132sd", 0x133083000, 0x1fffff000), (n!"vfmadd132ss", 0x132882000, 0x1fffff000), (n!"vfmadd132ss", 0x133082000, 0x1fffff000),
  (n!"vfmadd213pd", 0x150883000, 0x1fffff000), (n!"vfmadd213pd", 0x151083000, 0x1fffff000), (n!"vfmadd213ps", 0x150882000, 0x1fffff000),
  (n!"vfmadd213ps", 0x151082000, 0x1fffff000), (n!"vfmadd213sd", 0x152883000, 0x1fffff000), (n!"vfmadd213sd", 0x153083000, 0x1fffff000),
  (n!"vfmadd213ss", 0x152882000, 0x1fffff000), (n!"vfmadd213ss", 0x153082000, 0x1fffff000), (n!"vfmadd231pd", 0x170883000, 0x1fffff000),
  (n!"vfmadd231pd", 0x171083000, 0x1fffff000), (n!"vfmadd231ps", 0x170882000, 0x1fffff000), (n!"vfmadd231ps", 0x171082000, 0x1fffff000),
  (n!"vfmadd231sd", 0x172883000, 0x1fffff000), (n!"vfmadd231sd", 0x173083000, 0x1fffff000), (n!"vfmadd231ss", 0x172882000, 0x1fffff000),
  (n!"vfmadd231ss", 0x173082000, 0x1fffff000), (n!"vfmaddsub132pd", 0x12c883000, 0x1fffff000),
  (n!"vfmaddsub132pd", 0x12d083000, 0x1fffff000), (n!"vfmaddsub132ps", 0x12c882000, 0x1fffff000),
  (n!"vfmaddsub132ps", 0x12d082000, 0x1fffff000), (n!"vfmaddsub213pd", 0x14c883000, 0x1fffff000),
  (n!"vfmaddsub213pd", 0x14d083000, 0x1fffff000), (n!"vfmaddsub213ps", 0x14c882000, 0x1fffff000),
  (n!"vfmaddsub213ps", 0x14d082000, 0x1fffff000), (n!"vfmaddsub231pd", 0x16c883000, 0x1fffff000),
  (n!"vfmaddsub231pd", 0x16d083000, 0x1fffff000), (n!"vfmaddsub231ps", 0x16c882000, 0x1fffff000),
  (n!"vfmaddsub231ps", 0x16d082000, 0x1fffff000), (n!"vfmsub132pd", 0x134883000, 0x1fffff000), (n!"vfmsub132pd", 0x135083000, 0x1fffff000),
  (n!"vfmsub132ps", 0x134882000, 0x1fffff000), (n!"vfmsub132ps", 0x135082000, 0x1fffff000), (n!"vfmsub132sd", 0x136883000, 0x1fffff000),
  (n!"vfmsub132sd", 0x137083000, 0x1fffff000), (n!"vfmsub132ss", 0x136882000, 0x1fffff000), (n!"vfmsub132ss", 0x137082000, 0x1fffff000),
  (n!"vfmsub213pd", 0x154883000, 0x1fffff000), (n!"vfmsub213pd", 0x155083000, 0x1fffff000), (n!"vfmsub213ps", 0x154882000, 0x1fffff000),
  (n!"vfmsub213ps", 0x155082000, 0x1fffff000), (n!"vfmsub213sd", 0x156883000, 0x1fffff000), (n!"vfmsub213sd", 0x157083000, 0x1fffff000),
  (n!"vfmsub213ss", 0x156882000, 0x1fffff000), (n!"vfmsub213ss", 0x157082000, 0x1fffff000), (n!"vfmsub231pd", 0x174883000, 0x1fffff000),
  (n!"vfmsub231pd", 0x175083000, 0x1fffff000), (n!"vfmsub231ps", 0x174882000, 0x1fffff000), (n!"vfmsub231ps", 0x175082000, 0x1fffff000),
  (n!"vfmsub231sd", 0x176883000, 0x1fffff000), (n!"vfmsub231sd", 0x177083000, 0x1fffff000), (n!"vfmsub231ss", 0x176882000, 0x1fffff000),
  (n!"vfmsub231ss", 0x177082000, 0x1fffff000), (n!"vfmsubadd132pd", 0x12e883000, 0x1fffff000),
  (n!"vfmsubadd132pd", 0x12f083000, 0x1fffff000), (n!"vfmsubadd132ps", 0x12e882000, 0x1fffff000),
  (n!"vfmsubadd132ps", 0x12f082000, 0x1fffff000), (n!"vfmsubadd213pd", 0x14e883000, 0x1fffff000),
  (n!"vfmsubadd213pd", 0x14f083000, 0x1fffff000), (n!"vfmsubadd213ps", 0x14e882000, 0x1fffff000),
  (n!"vfmsubadd213ps", 0x14f082000, 0x1fffff000), (n!"vfmsubadd231pd", 0x16e883000, 0x1fffff000),
  (n!"vfmsubadd231pd", 0x16f083000, 0x1fffff000), (n!"vfmsubadd231ps", 0x16e882000, 0x1fffff000),
  (n!"vfmsubadd231ps", 0x16f082000, 0x1fffff000), (n!"vfnmadd132pd", 0x138883000, 0x1fffff000),
  (n!"vfnmadd132pd", 0x139083000, 0x1fffff000), (n!"vfnmadd132ps", 0x138882000, 0x1fffff000), (n!"vfnmadd132ps", 0x139082000, 0x1fffff000),
  (n!"vfnmadd132sd", 0x13a883000, 0x1fffff000), (n!"vfnmadd132sd", 0x13b083000, 0x1fffff000), (n!"vfnmadd132ss", 0x13a882000, 0x1fffff000),
  (n!"vfnmadd132ss", 0x13b082000, 0x1fffff000), (n!"vfnmadd213pd", 0x158883000, 0x1fffff000), (n!"vfnmadd213pd", 0x159083000, 0x1fffff000),
  (n!"vfnmadd213ps", 0x158882000, 0x1fffff000), (n!"vfnmadd213ps", 0x159082000, 0x1fffff000), (n!"vfnmadd213sd", 0x15a883000, 0x1fffff000),
  (n!"vfnmadd213sd", 0x15b083000, 0x1fffff000), (n!"vfnmadd213ss", 0x15a882000, 0x1fffff000), (n!"vfnmadd213ss", 0x15b082000, 0x1fffff000),
  (n!"vfnmadd231pd", 0x178883000, 0x1fffff000), (n!"vfnmadd231pd", 0x179083000, 0x1fffff000), (n!"vfnmadd231ps", 0x178882000, 0x1fffff000),
  (n!"vfnmadd231ps", 0x179082000, 0x1fffff000), (n!"vfnmadd231sd", 0x17a883000, 0x1fffff000), (n!"vfnmadd231sd", 0x17b083000, 0x1fffff000),
  (n!"vfnmadd231ss", 0x17a882000, 0x1fffff000), (n!"vfnmadd231ss", 0x17b082000, 0x1fffff000), (n!"vfnmsub132pd", 0x13c883000, 0x1fffff000),
  (n!"vfnmsub132pd", 0x13d083000, 0x1fffff000), (n!"vfnmsub132ps", 0x13c882000, 0x1fffff000), (n!"vfnmsub132ps", 0x13d082000, 0x1fffff000),
  (n!"vfnmsub132sd", 0x13e883000, 0x1fffff000), (n!"vfnmsub132sd", 0x13f083000, 0x1fffff000), (n!"vfnmsub132ss", 0x13e882000, 0x1fffff000),
  (n!"vfnmsub132ss", 0x13f082000, 0x1fffff000), (n!"vfnmsub213pd", 0x15c883000, 0x1fffff000), (n!"vfnmsub213pd", 0x15d083000, 0x1fffff000),
  (n!"vfnmsub213ps", 0x15c882000, 0x1fffff000), (n!"vfnmsub213ps", 0x15d082000, 0x1fffff000), (n!"vfnmsub213sd", 0x15e883000, 0x1fffff000),
  (n!"vfnmsub213sd", 0x15f083000, 0x1fffff000), (n!"vfnmsub213ss", 0x15e882000, 0x1fffff000), (n!"vfnmsub213ss", 0x15f082000, 0x1fffff000),
  (n!"vfnmsub231pd", 0x17c883000, 0x1fffff000), (n!"vfnmsub231pd", 0x17d083000, 0x1fffff000), (n!"vfnmsub231ps", 0x17c882000, 0x1fffff000),
  (n!"vfnmsub231ps", 0x17d082000, 0x1fffff000), (n!"vfnmsub231sd", 0x17e883000, 0x1fffff000), (n!"vfnmsub231sd", 0x17f083000, 0x1fffff000),
  (n!"vfnmsub231ss", 0x17e882000, 0x1fffff000), (n!"vfnmsub231ss", 0x17f082000, 0x1fffff000), (n!"vgatherdpd", 0x124883100, 0x1fffff100),
  (n!"vgatherdps", 0x124882100, 0x1fffff100), (n!"vgatherqpd", 0x126883100, 0x1fffff100), (n!"vgatherqps", 0x126882100, 0x1fffff100),
  (n!"vgf2p8affineinvqb", 0x19e8c3000, 0x1fffff000), (n!"vgf2p8affineinvqb", 0x19f0c3000, 0x1fffff000),
  (n!"vgf2p8affineqb", 0x19c8c3000, 0x1fffff000), (n!"vgf2p8affineqb", 0x19d0c3000, 0x1fffff000),
  (n!"vgf2p8mulb", 0x19e882000, 0x1fffff000), (n!"vgf2p8mulb", 0x19f082000, 0x1fffff000), (n!"vhaddpd", 0xf8842000, 0x1fffff000),
  (n!"vhaddps", 0xf8846000, 0x1fffff000), (n!"vhsubpd", 0xfa842000, 0x1fffff000), (n!"vhsubps", 0xfa846000, 0x1fffff000),
  (n!"vinsertf128", 0x308c2000, 0x1fffff000), (n!"vinserti128", 0x708c2000, 0x1fffff000), (n!"vinsertps", 0x428c2000, 0x1fffff000),
  (n!"vinsertps", 0x430c2000, 0x1fffff000), (n!"vlddqu", 0x1e0846000, 0x1fffff000), (n!"vldmxcsr", 0x15c840400, 0x1fffffe00),
  (n!"vmaskmovdqu", 0x1ee842000, 0x1fffff000), (n!"vmaskmovpd", 0x5e882000, 0x1fffff000), (n!"vmaskmovpd", 0x5a882000, 0x1fffff000),
  (n!"vmaskmovps", 0x5c882000, 0x1fffff000), (n!"vmaskmovps", 0x58882000, 0x1fffff000), (n!"vmaxpd", 0xbe842000, 0x1fffff000),
  (n!"vmaxpd", 0xbf043000, 0x1fffff000), (n!"vmaxps", 0xbe840000, 0x1fffff000), (n!"vmaxps", 0xbf040000, 0x1fffff000),
  (n!"vmaxsd", 0xbe846000, 0x1fffff000), (n!"vmaxsd", 0xbf047000, 0x1fffff000), (n!"vmaxss", 0xbe844000, 0x1fffff000),
  (n!"vmaxss", 0xbf044000, 0x1fffff000), (n!"vminpd", 0xba842000, 0x1fffff000), (n!"vminpd", 0xbb043000, 0x1fffff000),
  (n!"vminps", 0xba840000, 0x1fffff000), (n!"vminps", 0xbb040000, 0x1fffff000), (n!"vminsd", 0xba846000, 0x1fffff000),
  (n!"vminsd", 0xbb047000, 0x1fffff000), (n!"vminss", 0xba844000, 0x1fffff000), (n!"vminss", 0xbb044000, 0x1fffff000),
  (n!"vmovapd", 0x52842100, 0x1fffff100), (n!"vmovapd", 0x53043100, 0x1fffff100), (n!"vmovapd", 0x50842000, 0x1fffff000),
  (n!"vmovapd", 0x51043000, 0x1fffff000), (n!"vmovaps", 0x52840100, 0x1fffff100), (n!"vmovaps", 0x53040100, 0x1fffff100),
  (n!"vmovaps", 0x50840000, 0x1fffff000), (n!"vmovaps", 0x51040000, 0x1fffff000), (n!"vmovddup", 0x24846000, 0x1fffff000),
  (n!"vmovddup", 0x25047000, 0x1fffff000), (n!"vmovdqa", 0xfe842100, 0x1fffff100), (n!"vmovdqa", 0xde842000, 0x1fffff000),
  (n!"vmovdqu", 0xfe844100, 0x1fffff100), (n!"vmovdqu", 0xde844000, 0x1fffff000), (n!"vmovhlps", 0x24840000, 0x1fffff000),
  (n!"vmovhlps", 0x25040000, 0x1fffff000), (n!"vmovhpd", 0x2e842000, 0x1fffff000), (n!"vmovhpd", 0x2f043000, 0x1fffff000),
  (n!"vmovhpd", 0x2c842000, 0x1fffff000), (n!"vmovhpd", 0x2d043000, 0x1fffff000), (n!"vmovhps", 0x2e840000, 0x1fffff000),
  (n!"vmovhps", 0x2f040000, 0x1fffff000), (n!"vmovhps", 0x2c840000, 0x1fffff000), (n!"vmovhps", 0x2d040000, 0x1fffff000),
  (n!"vmovlhps", 0x2c840000, 0x1fffff000), (n!"vmovlhps", 0x2d040000, 0x1fffff000), (n!"vmovlpd", 0x26842000, 0x1fffff000),
  (n!"vmovlpd", 0x27043000, 0x1fffff000), (n!"vmovlpd", 0x24842000, 0x1fffff000), (n!"vmovlpd", 0x25043000, 0x1fffff000),
  (n!"vmovlps", 0x26840000, 0x1fffff000), (n!"vmovlps", 0x27040000, 0x1fffff000), (n!"vmovlps", 0x24840000, 0x1fffff000),
  (n!"vmovlps", 0x25040000, 0x1fffff000), (n!"vmovmskpd", 0xa0842000, 0x1fffff000), (n!"vmovmskpd", 0xa0842000, 0x1fffff000),
  (n!"vmovmskps", 0xa0840000, 0x1fffff000), (n!"vmovmskps", 0xa0840000, 0x1fffff000), (n!"vmovntdq", 0x1ce842100, 0x1fffff100),
  (n!"vmovntdq", 0x1cf042100, 0x1fffff100), (n!"vmovntdqa", 0x54882100, 0x1fffff100), (n!"vmovntdqa", 0x55082100, 0x1fffff100),
  (n!"vmovntpd", 0x56842100, 0x1fffff100), (n!"vmovntpd", 0x57043100, 0x1fffff100), (n!"vmovntps", 0x56840100, 0x1fffff100),
  (n!"vmovntps", 0x57040100, 0x1fffff100), (n!"vmovq", 0x1ac842000, 0x1fffff000), (n!"vmovq", 0x1ad043000, 0x1fffff000),
  (n!"vmovq", 0xfc842000, 0x1fffff000), (n!"vmovq", 0xfd043000, 0x1fffff000), (n!"vmovq", 0xfc844000, 0x1fffff000),
  (n!"vmovq", 0xdc842000, 0x1fffff000), (n!"vmovq", 0xdd043000, 0x1fffff000), (n!"vmovq", 0xfc844000, 0x1fffff000),
  (n!"vmovq", 0xfd045000, 0x1fffff000), (n!"vmovsd", 0x22846000, 0x1fffff000), (n!"vmovsd", 0x23047000, 0x1fffff000),
  (n!"vmovsd", 0x20846000, 0x1fffff000), (n!"vmovsd", 0x21047000, 0x1fffff000), (n!"vmovsd", 0x20846000, 0x1fffff000),
  (n!"vmovsd", 0x21047000, 0x1fffff000), (n!"vmovshdup", 0x2c844000, 0x1fffff000), (n!"vmovshdup", 0x2d044000, 0x1fffff000),
  (n!"vmovsldup", 0x24844000, 0x1fffff000), (n!"vmovsldup", 0x25044000, 0x1fffff000), (n!"vmovss", 0x22844000, 0x1fffff000),
  (n!"vmovss", 0x23044000, 0x1fffff000), (n!"vmovss", 0x20844000, 0x1fffff000), (n!"vmovss", 0x21044000, 0x1fffff000),
  (n!"vmovss", 0x20844000, 0x1fffff000), (n!"vmovss", 0x21044000, 0x1fffff000), (n!"vmovupd", 0x22842100, 0x1fffff100),
  (n!"vmovupd", 0x23043100, 0x1fffff100), (n!"vmovupd", 0x20842000, 0x1fffff000), (n!"vmovupd", 0x21043000, 0x1fffff000),
  (n!"vmovups", 0x22840100, 0x1fffff100), (n!"vmovups", 0x23040100, 0x1fffff100), (n!"vmovups", 0x20840000, 0x1fffff000),
  (n!"vmovups", 0x21040000, 0x1fffff000), (n!"vmulpd", 0xb2842000, 0x1fffff000), (n!"vmulpd", 0xb3043000, 0x1fffff000),
  (n!"vmulps", 0xb2840000, 0x1fffff000), (n!"vmulps", 0xb3040000, 0x1fffff000), (n!"vmulsd", 0xb2846000, 0x1fffff000),
  (n!"vmulsd", 0xb3047000, 0x1fffff000), (n!"vmulss", 0xb2844000, 0x1fffff000), (n!"vmulss", 0xb3044000, 0x1fffff000),
  (n!"vorpd", 0xac842000, 0x1fffff000), (n!"vorpd", 0xad043000, 0x1fffff000), (n!"vorps", 0xac840000, 0x1fffff000),
  (n!"vorps", 0xad040000, 0x1fffff000), (n!"vpabsb", 0x38882000, 0x1fffff000), (n!"vpabsb", 0x39082000, 0x1fffff000),
  (n!"vpabsd", 0x3c882000, 0x1fffff000), (n!"vpabsd", 0x3d082000, 0x1fffff000), (n!"vpabsw", 0x3a882000, 0x1fffff000),
  (n!"vpabsw", 0x3b082000, 0x1fffff000), (n!"vpackssdw", 0xd6842000, 0x1fffff000), (n!"vpackssdw", 0xd7042000, 0x1fffff000),
  (n!"vpacksswb", 0xc6842000, 0x1fffff000), (n!"vpacksswb", 0xc7042000, 0x1fffff000), (n!"vpackusdw", 0x56882000, 0x1fffff000),
  (n!"vpackusdw", 0x57082000, 0x1fffff000), (n!"vpackuswb", 0xce842000, 0x1fffff000), (n!"vpackuswb", 0xcf042000, 0x1fffff000),
  (n!"vpaddb", 0x1f8842000, 0x1fffff000), (n!"vpaddb", 0x1f9042000, 0x1fffff000), (n!"vpaddd", 0x1fc842000, 0x1fffff000),
  (n!"vpaddd", 0x1fd042000, 0x1fffff000), (n!"vpaddq", 0x1a8842000, 0x1fffff000), (n!"vpaddq", 0x1a9043000, 0x1fffff000),
  (n!"vpaddsb", 0x1d8842000, 0x1fffff000), (n!"vpaddsb", 0x1d9042000, 0x1fffff000), (n!"vpaddsw", 0x1da842000, 0x1fffff000),
  (n!"vpaddsw", 0x1db042000, 0x1fffff000), (n!"vpaddusb", 0x1b8842000, 0x1fffff000), (n!"vpaddusb", 0x1b9042000, 0x1fffff000),
  (n!"vpaddusw", 0x1ba842000, 0x1fffff000), (n!"vpaddusw", 0x1bb042000, 0x1fffff000), (n!"vpaddw", 0x1fa842000, 0x1fffff000),
  (n!"vpaddw", 0x1fb042000, 0x1fffff000), (n!"vpalignr", 0x1e8c2000, 0x1fffff000), (n!"vpalignr", 0x1f0c2000, 0x1fffff000),
  (n!"vpand", 0x1b6842000, 0x1fffff000), (n!"vpandn", 0x1be842000, 0x1fffff000), (n!"vpavgb", 0x1c0842000, 0x1fffff000),
  (n!"vpavgb", 0x1c1042000, 0x1fffff000), (n!"vpavgw", 0x1c6842000, 0x1fffff000), (n!"vpavgw", 0x1c7042000, 0x1fffff000),
  (n!"vpblendd", 0x48c2000, 0x1fffff000), (n!"vpblendvb", 0x988c2000, 0x1fffff000), (n!"vpblendw", 0x1c8c2000, 0x1fffff000),
  (n!"vpbroadcastb", 0xf0882000, 0x1fffff000), (n!"vpbroadcastb", 0xf1082000, 0x1fffff000), (n!"vpbroadcastd", 0xb0882000, 0x1fffff000),
  (n!"vpbroadcastd", 0xb1082000, 0x1fffff000), (n!"vpbroadcastq", 0xb2882000, 0x1fffff000), (n!"vpbroadcastq", 0xb3083000, 0x1fffff000),
  (n!"vpbroadcastw", 0xf2882000, 0x1fffff000), (n!"vpbroadcastw", 0xf3082000, 0x1fffff000), (n!"vpclmulhqhqdq", 0x888c2011, 0x1fffff0ff),
  (n!"vpclmulhqhqdq", 0x890c2011, 0x1fffff0ff), (n!"vpclmulhqlqdq", 0x888c2001, 0x1fffff0ff), (n!"vpclmulhqlqdq", 0x890c2001, 0x1fffff0ff),
  (n!"vpclmullqhqdq", 0x888c2010, 0x1fffff0ff), (n!"vpclmullqhqdq", 0x890c2010, 0x1fffff0ff), (n!"vpclmullqlqdq", 0x888c2000, 0x1fffff0ff),
  (n!"vpclmullqlqdq", 0x890c2000, 0x1fffff0ff), (n!"vpclmulqdq", 0x888c2000, 0x1fffff000), (n!"vpclmulqdq", 0x890c2000, 0x1fffff000),
  (n!"vpcmpeqb", 0xe8842000, 0x1fffff000), (n!"vpcmpeqd", 0xec842000, 0x1fffff000), (n!"vpcmpeqq", 0x52882000, 0x1fffff000),
  (n!"vpcmpeqw", 0xea842000, 0x1fffff000), (n!"vpcmpestri", 0xc28c2000, 0x1fffff000), (n!"vpcmpestrm", 0xc08c2000, 0x1fffff000),
  (n!"vpcmpgtb", 0xc8842000, 0x1fffff000), (n!"vpcmpgtd", 0xcc842000, 0x1fffff000), (n!"vpcmpgtq", 0x6e882000, 0x1fffff000),
  (n!"vpcmpgtw", 0xca842000, 0x1fffff000), (n!"vpcmpistri", 0xc68c2000, 0x1fffff000), (n!"vpcmpistrm", 0xc48c2000, 0x1fffff000),
  (n!"vpdpbusd", 0xa0882000, 0x1fffff000), (n!"vpdpbusd", 0xa1082000, 0x1fffff000), (n!"vpdpbusds", 0xa2882000, 0x1fffff000),
  (n!"vpdpbusds", 0xa3082000, 0x1fffff000), (n!"vpdpwssd", 0xa4882000, 0x1fffff000), (n!"vpdpwssd", 0xa5082000, 0x1fffff000),
  (n!"vpdpwssds", 0xa6882000, 0x1fffff000), (n!"vpdpwssds", 0xa7082000, 0x1fffff000), (n!"vperm2f128", 0xc8c2000, 0x1fffff000),
  (n!"vperm2i128", 0x8c8c2000, 0x1fffff000), (n!"vpermd", 0x6c882000, 0x1fffff000), (n!"vpermd", 0x6d082000, 0x1fffff000),
  (n!"vpermilpd", 0x1a882000, 0x1fffff000), (n!"vpermilpd", 0x1b083000, 0x1fffff000), (n!"vpermilpd", 0xa8c2000, 0x1fffff000),
  (n!"vpermilpd", 0xb0c3000, 0x1fffff000), (n!"vpermilps", 0x18882000, 0x1fffff000), (n!"vpermilps", 0x19082000, 0x1fffff000),
  (n!"vpermilps", 0x88c2000, 0x1fffff000), (n!"vpermilps", 0x90c2000, 0x1fffff000), (n!"vpermpd", 0x28c3000, 0x1fffff000),
  (n!"vpermpd", 0x30c3000, 0x1fffff000), (n!"vpermpd", 0x2d083000, 0x1fffff000), (n!"vpermps", 0x2c882000, 0x1fffff000),
  (n!"vpermps", 0x2d082000, 0x1fffff000), (n!"vpermq", 0x8c3000, 0x1fffff000), (n!"vpermq", 0x10c3000, 0x1fffff000),
  (n!"vpermq", 0x6c882000, 0x1fffff000), (n!"vpermq", 0x6d083000, 0x1fffff000), (n!"vpextrb", 0x288c2000, 0x1fffff000),
  (n!"vpextrb", 0x290c2000, 0x1fffff000), (n!"vpextrd", 0x2c8c2000, 0x1fffff000), (n!"vpextrd", 0x2d0c2000, 0x1fffff000),
  (n!"vpextrq", 0x2c8c3000, 0x1fffff000), (n!"vpextrq", 0x2d0c3000, 0x1fffff000), (n!"vpextrw", 0x18a842000, 0x1fffff000),
  (n!"vpextrw", 0x2a8c2000, 0x1fffff000), (n!"vpextrw", 0x2b0c2000, 0x1fffff000), (n!"vpgatherdd", 0x120882100, 0x1fffff100),
  (n!"vpgatherdq", 0x120883100, 0x1fffff100), (n!"vpgatherqd", 0x122882100, 0x1fffff100), (n!"vpgatherqq", 0x122883100, 0x1fffff100),
  (n!"vphaddd", 0x4882000, 0x1fffff000), (n!"vphaddsw", 0x6882000, 0x1fffff000), (n!"vphaddw", 0x2882000, 0x1fffff000),
  (n!"vphminposuw", 0x82882000, 0x1fffff000), (n!"vphsubd", 0xc882000, 0x1fffff000), (n!"vphsubsw", 0xe882000, 0x1fffff000),
  (n!"vphsubw", 0xa882000, 0x1fffff000), (n!"vpinsrb", 0x408c2000, 0x1fffff000), (n!"vpinsrb", 0x410c2000, 0x1fffff000),
  (n!"vpinsrd", 0x448c2000, 0x1fffff000), (n!"vpinsrd", 0x450c2000, 0x1fffff000), (n!"vpinsrq", 0x448c3000, 0x1fffff000),
  (n!"vpinsrq", 0x450c3000, 0x1fffff000), (n!"vpinsrw", 0x188842000, 0x1fffff000), (n!"vpinsrw", 0x189042000, 0x1fffff000),
  (n!"vpmaddubsw", 0x8882000, 0x1fffff000), (n!"vpmaddubsw", 0x9082000, 0x1fffff000), (n!"vpmaddwd", 0x1ea842000, 0x1fffff000),
  (n!"vpmaddwd", 0x1eb042000, 0x1fffff000), (n!"vpmaskmovd", 0x11c882000, 0x1fffff000), (n!"vpmaskmovd", 0x118882000, 0x1fffff000),
  (n!"vpmaskmovq", 0x11c883000, 0x1fffff000), (n!"vpmaskmovq", 0x118883000, 0x1fffff000), (n!"vpmaxsb", 0x78882000, 0x1fffff000),
  (n!"vpmaxsb", 0x79082000, 0x1fffff000), (n!"vpmaxsd", 0x7a882000, 0x1fffff000), (n!"vpmaxsd", 0x7b082000, 0x1fffff000),
  (n!"vpmaxsw", 0x1dc842000, 0x1fffff000), (n!"vpmaxsw", 0x1dd042000, 0x1fffff000), (n!"vpmaxub", 0x1bc842000, 0x1fffff000),
  (n!"vpmaxub", 0x1bd042000, 0x1fffff000), (n!"vpmaxud", 0x7e882000, 0x1fffff000), (n!"vpmaxud", 0x7f082000, 0x1fffff000),
  (n!"vpmaxuw", 0x7c882000, 0x1fffff000), (n!"vpmaxuw", 0x7d082000, 0x1fffff000), (n!"vpminsb", 0x70882000, 0x1fffff000),
  (n!"vpminsb", 0x71082000, 0x1fffff000), (n!"vpminsd", 0x72882000, 0x1fffff000), (n!"vpminsd", 0x73082000, 0x1fffff000),
  (n!"vpminsw", 0x1d4842000, 0x1fffff000), (n!"vpminsw", 0x1d5042000, 0x1fffff000), (n!"vpminub", 0x1b4842000, 0x1fffff000),
  (n!"vpminub", 0x1b5042000, 0x1fffff000), (n!"vpminud", 0x76882000, 0x1fffff000), (n!"vpminud", 0x77082000, 0x1fffff000),
  (n!"vpminuw", 0x74882000, 0x1fffff000), (n!"vpminuw", 0x75082000, 0x1fffff000), (n!"vpmovmskb", 0x1ae842000, 0x1fffff100),
  (n!"vpmovmskb", 0x1ae842000, 0x1fffff100), (n!"vpmovsxbd", 0x42882000, 0x1fffff000), (n!"vpmovsxbd", 0x43082000, 0x1fffff000),
  (n!"vpmovsxbq", 0x44882000, 0x1fffff000), (n!"vpmovsxbq", 0x45082000, 0x1fffff000), (n!"vpmovsxbw", 0x40882000, 0x1fffff000),
  (n!"vpmovsxbw", 0x41082000, 0x1fffff000), (n!"vpmovsxdq", 0x4a882000, 0x1fffff000), (n!"vpmovsxdq", 0x4b082000, 0x1fffff000),
  (n!"vpmovsxwd", 0x46882000, 0x1fffff000), (n!"vpmovsxwd", 0x47082000, 0x1fffff000), (n!"vpmovsxwq", 0x48882000, 0x1fffff000),
  (n!"vpmovsxwq", 0x49082000, 0x1fffff000), (n!"vpmovzxbd", 0x62882000, 0x1fffff000), (n!"vpmovzxbd", 0x63082000, 0x1fffff000),
  (n!"vpmovzxbq", 0x64882000, 0x1fffff000), (n!"vpmovzxbq", 0x65082000, 0x1fffff000), (n!"vpmovzxbw", 0x60882000, 0x1fffff000),
  (n!"vpmovzxbw", 0x61082000, 0x1fffff000), (n!"vpmovzxdq", 0x6a882000, 0x1fffff000), (n!"vpmovzxdq", 0x6b082000, 0x1fffff000),
  (n!"vpmovzxwd", 0x66882000, 0x1fffff000), (n!"vpmovzxwd", 0x67082000, 0x1fffff000), (n!"vpmovzxwq", 0x68882000, 0x1fffff000),
  (n!"vpmovzxwq", 0x69082000, 0x1fffff000), (n!"vpmuldq", 0x50882000, 0x1fffff000), (n!"vpmuldq", 0x51083000, 0x1fffff000),
  (n!"vpmulhrsw", 0x16882000, 0x1fffff000), (n!"vpmulhrsw", 0x17082000, 0x1fffff000), (n!"vpmulhuw", 0x1c8842000, 0x1fffff000),
  (n!"vpmulhuw", 0x1c9042000, 0x1fffff000), (n!"vpmulhw", 0x1ca842000, 0x1fffff000), (n!"vpmulhw", 0x1cb042000, 0x1fffff000),
  (n!"vpmulld", 0x80882000, 0x1fffff000), (n!"vpmulld", 0x81082000, 0x1fffff000), (n!"vpmullw", 0x1aa842000, 0x1fffff000),
  (n!"vpmullw", 0x1ab042000, 0x1fffff000), (n!"vpmuludq", 0x1e8842000, 0x1fffff000), (n!"vpmuludq", 0x1e9043000, 0x1fffff000),
  (n!"vpor", 0x1d6842000, 0x1fffff000), (n!"vpsadbw", 0x1ec842000, 0x1fffff000), (n!"vpsadbw", 0x1ed042000, 0x1fffff000),
  (n!"vpshufb", 0x882000, 0x1fffff000), (n!"vpshufb", 0x1082000, 0x1fffff000), (n!"vpshufd", 0xe0842000, 0x1fffff000),
  (n!"vpshufd", 0xe1042000, 0x1fffff000), (n!"vpshufhw", 0xe0844000, 0x1fffff000), (n!"vpshufhw", 0xe1044000, 0x1fffff000),
  (n!"vpshuflw", 0xe0846000, 0x1fffff000), (n!"vpshuflw", 0xe1046000, 0x1fffff000), (n!"vpsignb", 0x10882000, 0x1fffff000),
  (n!"vpsignd", 0x14882000, 0x1fffff000), (n!"vpsignw", 0x12882000, 0x1fffff000), (n!"vpslld", 0xe4842c00, 0x1fffffe00),
  (n!"vpslld", 0xe5042c00, 0x1fffffe00), (n!"vpslld", 0x1e4842000, 0x1fffff000), (n!"vpslld", 0x1e5042000, 0x1fffff000),
  (n!"vpslldq", 0xe6842e00, 0x1fffffe00), (n!"vpslldq", 0xe7042e00, 0x1fffffe00), (n!"vpsllq", 0xe6842c00, 0x1fffffe00),
  (n!"vpsllq", 0xe7043c00, 0x1fffffe00), (n!"vpsllq", 0x1e6842000, 0x1fffff000), (n!"vpsllq", 0x1e7043000, 0x1fffff000),
  (n!"vpsllvd", 0x8e882000, 0x1fffff000), (n!"vpsllvd", 0x8f082000, 0x1fffff000), (n!"vpsllvq", 0x8e883000, 0x1fffff000),
  (n!"vpsllvq", 0x8f083000, 0x1fffff000), (n!"vpsllw", 0xe2842c00, 0x1fffffe00), (n!"vpsllw", 0xe3042c00, 0x1fffffe00),
  (n!"vpsllw", 0x1e2842000, 0x1fffff000), (n!"vpsllw", 0x1e3042000, 0x1fffff000), (n!"vpsrad", 0xe4842800, 0x1fffffe00),
  (n!"vpsrad", 0xe5042800, 0x1fffffe00), (n!"vpsrad", 0x1c4842000, 0x1fffff000), (n!"vpsrad", 0x1c5042000, 0x1fffff000),
  (n!"vpsravd", 0x8c882000, 0x1fffff000), (n!"vpsravd", 0x8d082000, 0x1fffff000), (n!"vpsraw", 0xe2842800, 0x1fffffe00),
  (n!"vpsraw", 0xe3042800, 0x1fffffe00), (n!"vpsraw", 0x1c2842000, 0x1fffff000), (n!"vpsraw", 0x1c3042000, 0x1fffff000),
  (n!"vpsrld", 0xe4842400, 0x1fffffe00), (n!"vpsrld", 0xe5042400, 0x1fffffe00), (n!"vpsrld", 0x1a4842000, 0x1fffff000),
  (n!"vpsrld", 0x1a5042000, 0x1fffff000), (n!"vpsrldq", 0xe6842600, 0x1fffffe00), (n!"vpsrldq", 0xe7042600, 0x1fffffe00),
  (n!"vpsrlq", 0xe6842400, 0x1fffffe00), (n!"vpsrlq", 0xe7043400, 0x1fffffe00), (n!"vpsrlq", 0x1a6842000, 0x1fffff000),
  (n!"vpsrlq", 0x1a7043000, 0x1fffff000), (n!"vpsrlvd", 0x8a882000, 0x1fffff000), (n!"vpsrlvd", 0x8b082000, 0x1fffff000),
  (n!"vpsrlvq", 0x8a883000, 0x1fffff000), (n!"vpsrlvq", 0x8b083000, 0x1fffff000), (n!"vpsrlw", 0xe2842400, 0x1fffffe00),
  (n!"vpsrlw", 0xe3042400, 0x1fffffe00), (n!"vpsrlw", 0x1a2842000, 0x1fffff000), (n!"vpsrlw", 0x1a3042000, 0x1fffff000),
  (n!"vpsubb", 0x1f0842000, 0x1fffff000), (n!"vpsubb", 0x1f1042000, 0x1fffff000), (n!"vpsubd", 0x1f4842000, 0x1fffff000),
  (n!"vpsubd", 0x1f5042000, 0x1fffff000), (n!"vpsubq", 0x1f6842000, 0x1fffff000), (n!"vpsubq", 0x1f7043000, 0x1fffff000),
  (n!"vpsubsb", 0x1d0842000, 0x1fffff000), (n!"vpsubsb", 0x1d1042000, 0x1fffff000), (n!"vpsubsw", 0x1d2842000, 0x1fffff000),
  (n!"vpsubsw", 0x1d3042000, 0x1fffff000), (n!"vpsubusb", 0x1b0842000, 0x1fffff000), (n!"vpsubusb", 0x1b1042000, 0x1fffff000),
  (n!"vpsubusw", 0x1b2842000, 0x1fffff000), (n!"vpsubusw", 0x1b3042000, 0x1fffff000), (n!"vpsubw", 0x1f2842000, 0x1fffff000),
  (n!"vpsubw", 0x1f3042000, 0x1fffff000), (n!"vptest", 0x2e882000, 0x1fffff000), (n!"vpunpckhbw", 0xd0842000, 0x1fffff000),
  (n!"vpunpckhbw", 0xd1042000, 0x1fffff000), (n!"vpunpckhdq", 0xd4842000, 0x1fffff000), (n!"vpunpckhdq", 0xd5042000, 0x1fffff000),
  (n!"vpunpckhqdq", 0xda842000, 0x1fffff000), (n!"vpunpckhqdq", 0xdb043000, 0x1fffff000), (n!"vpunpckhwd", 0xd2842000, 0x1fffff000),
  (n!"vpunpckhwd", 0xd3042000, 0x1fffff000), (n!"vpunpcklbw", 0xc0842000, 0x1fffff000), (n!"vpunpcklbw", 0xc1042000, 0x1fffff000),
  (n!"vpunpckldq", 0xc4842000, 0x1fffff000), (n!"vpunpckldq", 0xc5042000, 0x1fffff000), (n!"vpunpcklqdq", 0xd8842000, 0x1fffff000),
  (n!"vpunpcklqdq", 0xd9043000, 0x1fffff000), (n!"vpunpcklwd", 0xc2842000, 0x1fffff000), (n!"vpunpcklwd", 0xc3042000, 0x1fffff000),
  (n!"vpxor", 0x1de842000, 0x1fffff000), (n!"vrcpps", 0xa6840000, 0x1fffff000), (n!"vrcpss", 0xa6844000, 0x1fffff000),
  (n!"vroundpd", 0x128c2000, 0x1fffff000), (n!"vroundps", 0x108c2000, 0x1fffff000), (n!"vroundsd", 0x168c2000, 0x1fffff000),
  (n!"vroundss", 0x148c2000, 0x1fffff000), (n!"vrsqrtps", 0xa4840000, 0x1fffff000), (n!"vrsqrtss", 0xa4844000, 0x1fffff000),
  (n!"vsha512msg1", 0x198886000, 0x1fffff100), (n!"vsha512msg2", 0x19a886000, 0x1fffff100), (n!"vsha512rnds2", 0x196886000, 0x1fffff100),
  (n!"vshufpd", 0x18c842000, 0x1fffff000), (n!"vshufpd", 0x18d043000, 0x1fffff000), (n!"vshufps", 0x18c840000, 0x1fffff000),
  (n!"vshufps", 0x18d040000, 0x1fffff000), (n!"vsm3msg1", 0x1b4880000, 0x1fffff000), (n!"vsm3msg1", 0x1b5080000, 0x1fffff000),
  (n!"vsm3msg2", 0x1b4882000, 0x1fffff000), (n!"vsm3msg2", 0x1b5082000, 0x1fffff000), (n!"vsm3rnds2", 0x1bc8c2000, 0x1fffff000),
  (n!"vsm3rnds2", 0x1bd0c2000, 0x1fffff000), (n!"vsm4key4", 0x1b4884000, 0x1fffff000), (n!"vsm4key4", 0x1b5084000, 0x1fffff000),
  (n!"vsm4rnds4", 0x1b4886000, 0x1fffff000), (n!"vsm4rnds4", 0x1b5086000, 0x1fffff000), (n!"vsqrtpd", 0xa2842000, 0x1fffff000),
  (n!"vsqrtpd", 0xa3043000, 0x1fffff000), (n!"vsqrtps", 0xa2840000, 0x1fffff000), (n!"vsqrtps", 0xa3040000, 0x1fffff000),
  (n!"vsqrtsd", 0xa2846000, 0x1fffff000), (n!"vsqrtsd", 0xa3047000, 0x1fffff000), (n!"vsqrtss", 0xa2844000, 0x1fffff000),
  (n!"vsqrtss", 0xa3044000, 0x1fffff000), (n!"vstmxcsr", 0x15c840600, 0x1fffffe00), (n!"vsubpd", 0xb8842000, 0x1fffff000),
  (n!"vsubpd", 0xb9043000, 0x1fffff000), (n!"vsubps", 0xb8840000, 0x1fffff000), (n!"vsubps", 0xb9040000, 0x1fffff000),
  (n!"vsubsd", 0xb8846000, 0x1fffff000), (n!"vsubsd", 0xb9047000, 0x1fffff000), (n!"vsubss", 0xb8844000, 0x1fffff000),
  (n!"vsubss", 0xb9044000, 0x1fffff000), (n!"vtestpd", 0x1e882000, 0x1fffff000), (n!"vtestps", 0x1c882000, 0x1fffff000),
  (n!"vucomisd", 0x5c842000, 0x1fffff000), (n!"vucomisd", 0x5d043000, 0x1fffff000), (n!"vucomiss", 0x5c840000, 0x1fffff000),
  (n!"vucomiss", 0x5d040000, 0x1fffff000), (n!"vunpckhpd", 0x2a842000, 0x1fffff000), (n!"vunpckhpd", 0x2b043000, 0x1fffff000),
  (n!"vunpckhps", 0x2a840000, 0x1fffff000), (n!"vunpckhps", 0x2b040000, 0x1fffff000), (n!"vunpcklpd", 0x28842000, 0x1fffff000),
  (n!"vunpcklpd", 0x29043000, 0x1fffff000), (n!"vunpcklps", 0x28840000, 0x1fffff000), (n!"vunpcklps", 0x29040000, 0x1fffff000),
  (n!"vxorpd", 0xae842000, 0x1fffff000), (n!"vxorpd", 0xaf043000, 0x1fffff000), (n!"vxorps", 0xae840000, 0x1fffff000),
  (n!"vxorps", 0xaf040000, 0x1fffff000), (n!"xorpd", 0xae060000, 0x1ffffe000), (n!"xorps", 0xae040000, 0x1ffffe000),
  (n!"vblendpd", 0x1a8c2000, 0x1fffff000), (n!"vblendps", 0x188c2000, 0x1fffff000), (n!"vblendvpd", 0x968c2000, 0x1fffff000),
  (n!"vblendvps", 0x948c2000, 0x1fffff000), (n!"vcmpeq_ospd", 0x184842010, 0x1fffff0ff), (n!"vcmpeq_osps", 0x184840010, 0x1fffff0ff),
  (n!"vcmpeq_ossd", 0x184846010, 0x1fffff0ff), (n!"vcmpeq_osss", 0x184844010, 0x1fffff0ff), (n!"vcmpeq_uqpd", 0x184842008, 0x1fffff0ff),
  (n!"vcmpeq_uqps", 0x184840008, 0x1fffff0ff), (n!"vcmpeq_uqsd", 0x184846008, 0x1fffff0ff), (n!"vcmpeq_uqss", 0x184844008, 0x1fffff0ff),
  (n!"vcmpeq_uspd", 0x184842018, 0x1fffff0ff), (n!"vcmpeq_usps", 0x184840018, 0x1fffff0ff), (n!"vcmpeq_ussd", 0x184846018, 0x1fffff0ff),
  (n!"vcmpeq_usss", 0x184844018, 0x1fffff0ff), (n!"vcmpeqpd", 0x184842000, 0x1fffff0ff), (n!"vcmpeqps", 0x184840000, 0x1fffff0ff),
  (n!"vcmpeqsd", 0x184846000, 0x1fffff0ff), (n!"vcmpeqss", 0x184844000, 0x1fffff0ff), (n!"vcmpfalse_ospd", 0x18484201b, 0x1fffff0ff),
  (n!"vcmpfalse_osps", 0x18484001b, 0x1fffff0ff), (n!"vcmpfalse_ossd", 0x18484601b, 0x1fffff0ff),
  (n!"vcmpfalse_osss", 0x18484401b, 0x1fffff0ff), (n!"vcmpfalsepd", 0x18484200b, 0x1fffff0ff), (n!"vcmpfalseps", 0x18484000b, 0x1fffff0ff),
  (n!"vcmpfalsesd", 0x18484600b, 0x1fffff0ff), (n!"vcmpfalsess", 0x18484400b, 0x1fffff0ff), (n!"vcmpge_oqpd", 0x18484201d, 0x1fffff0ff),
  (n!"vcmpge_oqps", 0x18484001d, 0x1fffff0ff), (n!"vcmpge_oqsd", 0x18484601d, 0x1fffff0ff), (n!"vcmpge_oqss", 0x18484401d, 0x1fffff0ff),
  (n!"vcmpgepd", 0x18484200d, 0x1fffff0ff), (n!"vcmpgeps", 0x18484000d, 0x1fffff0ff), (n!"vcmpgesd", 0x18484600d, 0x1fffff0ff),
  (n!"vcmpgess", 0x18484400d, 0x1fffff0ff), (n!"vcmpgt_oqpd", 0x18484201e, 0x1fffff0ff), (n!"vcmpgt_oqps", 0x18484001e, 0x1fffff0ff),
  (n!"vcmpgt_oqsd", 0x18484601e, 0x1fffff0ff), (n!"vcmpgt_oqss", 0x18484401e, 0x1fffff0ff), (n!"vcmpgtpd", 0x18484200e, 0x1fffff0ff),
  (n!"vcmpgtps", 0x18484000e, 0x1fffff0ff), (n!"vcmpgtsd", 0x18484600e, 0x1fffff0ff), (n!"vcmpgtss", 0x18484400e, 0x1fffff0ff),
  (n!"vcmple_oqpd", 0x184842012, 0x1fffff0ff), (n!"vcmple_oqps", 0x184840012, 0x1fffff0ff), (n!"vcmple_oqsd", 0x184846012, 0x1fffff0ff),
  (n!"vcmple_oqss", 0x184844012, 0x1fffff0ff), (n!"vcmplepd", 0x184842002, 0x1fffff0ff), (n!"vcmpleps", 0x184840002, 0x1fffff0ff),
  (n!"vcmplesd", 0x184846002, 0x1fffff0ff), (n!"vcmpless", 0x184844002, 0x1fffff0ff), (n!"vcmplt_oqpd", 0x184842011, 0x1fffff0ff),
  (n!"vcmplt_oqps", 0x184840011, 0x1fffff0ff), (n!"vcmplt_oqsd", 0x184846011, 0x1fffff0ff), (n!"vcmplt_oqss", 0x184844011, 0x1fffff0ff),
  (n!"vcmpltpd", 0x184842001, 0x1fffff0ff), (n!"vcmpltps", 0x184840001, 0x1fffff0ff), (n!"vcmpltsd", 0x184846001, 0x1fffff0ff),
  (n!"vcmpltss", 0x184844001, 0x1fffff0ff), (n!"vcmpneq_oqpd", 0x18484200c, 0x1fffff0ff), (n!"vcmpneq_oqps", 0x18484000c, 0x1fffff0ff),
  (n!"vcmpneq_oqsd", 0x18484600c, 0x1fffff0ff), (n!"vcmpneq_oqss", 0x18484400c, 0x1fffff0ff), (n!"vcmpneq_ospd", 0x18484201c, 0x1fffff0ff),
  (n!"vcmpneq_osps", 0x18484001c, 0x1fffff0ff), (n!"vcmpneq_ossd", 0x18484601c, 0x1fffff0ff), (n!"vcmpneq_osss", 0x18484401c, 0x1fffff0ff),
  (n!"vcmpneq_uspd", 0x184842014, 0x1fffff0ff), (n!"vcmpneq_usps", 0x184840014, 0x1fffff0ff), (n!"vcmpneq_ussd", 0x184846014, 0x1fffff0ff),
  (n!"vcmpneq_usss", 0x184844014, 0x1fffff0ff), (n!"vcmpneqpd", 0x184842004, 0x1fffff0ff), (n!"vcmpneqps", 0x184840004, 0x1fffff0ff),
  (n!"vcmpneqsd", 0x184846004, 0x1fffff0ff), (n!"vcmpneqss", 0x184844004, 0x1fffff0ff), (n!"vcmpnge_uqpd", 0x184842019, 0x1fffff0ff),
  (n!"vcmpnge_uqps", 0x184840019, 0x1fffff0ff), (n!"vcmpnge_uqsd", 0x184846019, 0x1fffff0ff), (n!"vcmpnge_uqss", 0x184844019, 0x1fffff0ff),
  (n!"vcmpngepd", 0x184842009, 0x1fffff0ff), (n!"vcmpngeps", 0x184840009, 0x1fffff0ff), (n!"vcmpngesd", 0x184846009, 0x1fffff0ff),
  (n!"vcmpngess", 0x184844009, 0x1fffff0ff), (n!"vcmpngt_uqpd", 0x18484201a, 0x1fffff0ff), (n!"vcmpngt_uqps", 0x18484001a, 0x1fffff0ff),
  (n!"vcmpngt_uqsd", 0x18484601a, 0x1fffff0ff), (n!"vcmpngt_uqss", 0x18484401a, 0x1fffff0ff), (n!"vcmpngtpd", 0x18484200a, 0x1fffff0ff),
  (n!"vcmpngtps", 0x18484000a, 0x1fffff0ff), (n!"vcmpngtsd", 0x18484600a, 0x1fffff0ff), (n!"vcmpngtss", 0x18484400a, 0x1fffff0ff),
  (n!"vcmpnle_uqpd", 0x184842016, 0x1fffff0ff), (n!"vcmpnle_uqps", 0x184840016, 0x1fffff0ff), (n!"vcmpnle_uqsd", 0x184846016, 0x1fffff0ff),
  (n!"vcmpnle_uqss", 0x184844016, 0x1fffff0ff), (n!"vcmpnlepd", 0x184842006, 0x1fffff0ff), (n!"vcmpnleps", 0x184840006, 0x1fffff0ff),
  (n!"vcmpnlesd", 0x184846006, 0x1fffff0ff), (n!"vcmpnless", 0x184844006, 0x1fffff0ff), (n!"vcmpnlt_uqpd", 0x184842015, 0x1fffff0ff),
  (n!"vcmpnlt_uqps", 0x184840015, 0x1fffff0ff), (n!"vcmpnlt_uqsd", 0x184846015, 0x1fffff0ff), (n!"vcmpnlt_uqss", 0x184844015, 0x1fffff0ff),
  (n!"vcmpnltpd", 0x184842005, 0x1fffff0ff), (n!"vcmpnltps", 0x184840005, 0x1fffff0ff), (n!"vcmpnltsd", 0x184846005, 0x1fffff0ff),
  (n!"vcmpnltss", 0x184844005, 0x1fffff0ff), (n!"vcmpord_spd", 0x184842017, 0x1fffff0ff), (n!"vcmpord_sps", 0x184840017, 0x1fffff0ff),
  (n!"vcmpord_ssd", 0x184846017, 0x1fffff0ff), (n!"vcmpord_sss", 0x184844017, 0x1fffff0ff), (n!"vcmpordpd", 0x184842007, 0x1fffff0ff),
  (n!"vcmpordps", 0x184840007, 0x1fffff0ff), (n!"vcmpordsd", 0x184846007, 0x1fffff0ff), (n!"vcmpordss", 0x184844007, 0x1fffff0ff),
  (n!"vcmppd", 0x184842000, 0x1fffff000), (n!"vcmpps", 0x184840000, 0x1fffff000), (n!"vcmpsd", 0x184846000, 0x1fffff000),
  (n!"vcmpss", 0x184844000, 0x1fffff000), (n!"vcmptrue_uspd", 0x18484201f, 0x1fffff0ff), (n!"vcmptrue_usps", 0x18484001f, 0x1fffff0ff),
  (n!"vcmptrue_ussd", 0x18484601f, 0x1fffff0ff), (n!"vcmptrue_usss", 0x18484401f, 0x1fffff0ff), (n!"vcmptruepd", 0x18484200f, 0x1fffff0ff),
  (n!"vcmptrueps", 0x18484000f, 0x1fffff0ff), (n!"vcmptruesd", 0x18484600f, 0x1fffff0ff), (n!"vcmptruess", 0x18484400f, 0x1fffff0ff),
  (n!"vcmpunord_spd", 0x184842013, 0x1fffff0ff), (n!"vcmpunord_sps", 0x184840013, 0x1fffff0ff),
  (n!"vcmpunord_ssd", 0x184846013, 0x1fffff0ff), (n!"vcmpunord_sss", 0x184844013, 0x1fffff0ff),
  (n!"vcmpunordpd", 0x184842003, 0x1fffff0ff), (n!"vcmpunordps", 0x184840003, 0x1fffff0ff), (n!"vcmpunordsd", 0x184846003, 0x1fffff0ff),
  (n!"vcmpunordss", 0x184844003, 0x1fffff0ff), (n!"vcvtsd2ss", 0xb4846000, 0x1fffff000), (n!"vcvtsd2ss", 0xb5047000, 0x1fffff000),
  (n!"vcvtsi2sd", 0x54847000, 0x1fffff000), (n!"vcvtsi2sd", 0x55047000, 0x1fffff000), (n!"vcvtsi2sd", 0x54846000, 0x1fffff000),
  (n!"vcvtsi2sd", 0x55046000, 0x1fffff000), (n!"vcvtsi2ss", 0x54845000, 0x1fffff000), (n!"vcvtsi2ss", 0x55045000, 0x1fffff000),
  (n!"vcvtsi2ss", 0x54844000, 0x1fffff000), (n!"vcvtsi2ss", 0x55044000, 0x1fffff000), (n!"vcvtss2sd", 0xb4844000, 0x1fffff000),
  (n!"vcvtss2sd", 0xb5044000, 0x1fffff000), (n!"vdppd", 0x828c2000, 0x1fffff000), (n!"vdpps", 0x808c2000, 0x1fffff000),
  (n!"vinsertps", 0x428c2000, 0x1fffff000), (n!"vinsertps", 0x430c2000, 0x1fffff000), (n!"vmpsadbw", 0x848c2000, 0x1fffff000),
  (n!"vmpsadbw", 0x850c4000, 0x1fffff000), (n!"vpackssdw", 0xd6842000, 0x1fffff000), (n!"vpackssdw", 0xd7042000, 0x1fffff000),
  (n!"vpacksswb", 0xc6842000, 0x1fffff000), (n!"vpacksswb", 0xc7042000, 0x1fffff000), (n!"vpackusdw", 0x56882000, 0x1fffff000),
  (n!"vpackusdw", 0x57082000, 0x1fffff000), (n!"vpackuswb", 0xce842000, 0x1fffff000), (n!"vpackuswb", 0xcf042000, 0x1fffff000),
  (n!"vpaddb", 0x1f8842000, 0x1fffff000), (n!"vpaddb", 0x1f9042000, 0x1fffff000), (n!"vpaddd", 0x1fc842000, 0x1fffff000),
  (n!"vpaddd", 0x1fd042000, 0x1fffff000), (n!"vpaddq", 0x1a8842000, 0x1fffff000), (n!"vpaddq", 0x1a9043000, 0x1fffff000),
  (n!"vpaddsb", 0x1d8842000, 0x1fffff000), (n!"vpaddsb", 0x1d9042000, 0x1fffff000), (n!"vpaddsw", 0x1da842000, 0x1fffff000),
  (n!"vpaddsw", 0x1db042000, 0x1fffff000), (n!"vpaddusb", 0x1b8842000, 0x1fffff000), (n!"vpaddusb", 0x1b9042000, 0x1fffff000),
  (n!"vpaddusw", 0x1ba842000, 0x1fffff000), (n!"vpaddusw", 0x1bb042000, 0x1fffff000), (n!"vpaddw", 0x1fa842000, 0x1fffff000),
  (n!"vpaddw", 0x1fb042000, 0x1fffff000), (n!"vpalignr", 0x1e8c2000, 0x1fffff000), (n!"vpalignr", 0x1f0c2000, 0x1fffff000),
  (n!"vpand", 0x1b6842000, 0x1fffff000), (n!"vpandn", 0x1be842000, 0x1fffff000), (n!"vpavgb", 0x1c0842000, 0x1fffff000),
  (n!"vpavgb", 0x1c1042000, 0x1fffff000), (n!"vpavgw", 0x1c6842000, 0x1fffff000), (n!"vpavgw", 0x1c7042000, 0x1fffff000),
  (n!"vpblendd", 0x48c2000, 0x1fffff000), (n!"vpblendvb", 0x988c2000, 0x1fffff000), (n!"vpblendw", 0x1c8c2000, 0x1fffff000),
  (n!"vpclmulqdq", 0x888c2000, 0x1fffff000), (n!"vpclmulqdq", 0x890c2000, 0x1fffff000), (n!"vpcmpeqb", 0xe8842000, 0x1fffff000),
  (n!"vpcmpeqd", 0xec842000, 0x1fffff000), (n!"vpcmpeqq", 0x52882000, 0x1fffff000), (n!"vpcmpeqw", 0xea842000, 0x1fffff000),
  (n!"vpcmpgtb", 0xc8842000, 0x1fffff000), (n!"vpcmpgtd", 0xcc842000, 0x1fffff000), (n!"vpcmpgtq", 0x6e882000, 0x1fffff000),
  (n!"vpcmpgtw", 0xca842000, 0x1fffff000), (n!"vphaddd", 0x4882000, 0x1fffff000), (n!"vphaddsw", 0x6882000, 0x1fffff000),
  (n!"vphaddw", 0x2882000, 0x1fffff000), (n!"vphsubd", 0xc882000, 0x1fffff000), (n!"vphsubsw", 0xe882000, 0x1fffff000),
  (n!"vphsubw", 0xa882000, 0x1fffff000), (n!"vpinsrb", 0x408c2000, 0x1fffff000), (n!"vpinsrb", 0x410c2000, 0x1fffff000),
  (n!"vpinsrd", 0x448c2000, 0x1fffff000), (n!"vpinsrd", 0x450c2000, 0x1fffff000), (n!"vpinsrq", 0x448c3000, 0x1fffff000),
  (n!"vpinsrq", 0x450c3000, 0x1fffff000), (n!"vpinsrw", 0x188842000, 0x1fffff000), (n!"vpinsrw", 0x189042000, 0x1fffff000),
  (n!"vpmaddubsw", 0x8882000, 0x1fffff000), (n!"vpmaddubsw", 0x9082000, 0x1fffff000), (n!"vpmaddwd", 0x1ea842000, 0x1fffff000),
  (n!"vpmaddwd", 0x1eb042000, 0x1fffff000), (n!"vpmaxsb", 0x78882000, 0x1fffff000), (n!"vpmaxsb", 0x79082000, 0x1fffff000),
  (n!"vpmaxsd", 0x7a882000, 0x1fffff000), (n!"vpmaxsd", 0x7b082000, 0x1fffff000), (n!"vpmaxsw", 0x1dc842000, 0x1fffff000),
  (n!"vpmaxsw", 0x1dd042000, 0x1fffff000), (n!"vpmaxub", 0x1bc842000, 0x1fffff000), (n!"vpmaxub", 0x1bd042000, 0x1fffff000),
  (n!"vpmaxud", 0x7e882000, 0x1fffff000), (n!"vpmaxud", 0x7f082000, 0x1fffff000), (n!"vpmaxuw", 0x7c882000, 0x1fffff000),
  (n!"vpmaxuw", 0x7d082000, 0x1fffff000), (n!"vpminsb", 0x70882000, 0x1fffff000), (n!"vpminsb", 0x71082000, 0x1fffff000),
  (n!"vpminsd", 0x72882000, 0x1fffff000), (n!"vpminsd", 0x73082000, 0x1fffff000), (n!"vpminsw", 0x1d4842000, 0x1fffff000),
  (n!"vpminsw", 0x1d5042000, 0x1fffff000), (n!"vpminub", 0x1b4842000, 0x1fffff000), (n!"vpminub", 0x1b5042000, 0x1fffff000),
  (n!"vpminud", 0x76882000, 0x1fffff000), (n!"vpminud", 0x77082000, 0x1fffff000), (n!"vpminuw", 0x74882000, 0x1fffff000),
  (n!"vpminuw", 0x75082000, 0x1fffff000), (n!"vpmuldq", 0x50882000, 0x1fffff000), (n!"vpmuldq", 0x51083000, 0x1fffff000),
  (n!"vpmulhrsw", 0x16882000, 0x1fffff000), (n!"vpmulhrsw", 0x17082000, 0x1fffff000), (n!"vpmulhuw", 0x1c8842000, 0x1fffff000),
  (n!"vpmulhuw", 0x1c9042000, 0x1fffff000), (n!"vpmulhw", 0x1ca842000, 0x1fffff000), (n!"vpmulhw", 0x1cb042000, 0x1fffff000),
  (n!"vpmulld", 0x80882000, 0x1fffff000), (n!"vpmulld", 0x81082000, 0x1fffff000), (n!"vpmullw", 0x1aa842000, 0x1fffff000),
  (n!"vpmullw", 0x1ab042000, 0x1fffff000), (n!"vpmuludq", 0x1e8842000, 0x1fffff000), (n!"vpmuludq", 0x1e9043000, 0x1fffff000),
  (n!"vpor", 0x1d6842000, 0x1fffff000), (n!"vpsadbw", 0x1ec842000, 0x1fffff000), (n!"vpsadbw", 0x1ed042000, 0x1fffff000),
  (n!"vpsignb", 0x10882000, 0x1fffff000), (n!"vpsignd", 0x14882000, 0x1fffff000), (n!"vpsignw", 0x12882000, 0x1fffff000),
  (n!"vpslld", 0x1e4842000, 0x1fffff000), (n!"vpslld", 0x1e5042000, 0x1fffff000), (n!"vpslld", 0xe4842c00, 0x1fffffe00),
  (n!"vpslld", 0xe5042c00, 0x1fffffe00), (n!"vpslldq", 0xe6842e00, 0x1fffffe00), (n!"vpslldq", 0xe7042e00, 0x1fffffe00),
  (n!"vpsllq", 0x1e6842000, 0x1fffff000), (n!"vpsllq", 0x1e7043000, 0x1fffff000), (n!"vpsllq", 0xe6842c00, 0x1fffffe00),
  (n!"vpsllq", 0xe7043c00, 0x1fffffe00), (n!"vpsllw", 0x1e2842000, 0x1fffff000), (n!"vpsllw", 0x1e3042000, 0x1fffff000),
  (n!"vpsllw", 0xe2842c00, 0x1fffffe00), (n!"vpsllw", 0xe3042c00, 0x1fffffe00), (n!"vpsrad", 0x1c4842000, 0x1fffff000),
  (n!"vpsrad", 0x1c5042000, 0x1fffff000), (n!"vpsrad", 0xe4842800, 0x1fffffe00), (n!"vpsrad", 0xe5042800, 0x1fffffe00),
  (n!"vpsraw", 0x1c2842000, 0x1fffff000), (n!"vpsraw", 0x1c3042000, 0x1fffff000), (n!"vpsraw", 0xe2842800, 0x1fffffe00),
  (n!"vpsraw", 0xe3042800, 0x1fffffe00), (n!"vpsrld", 0x1a4842000, 0x1fffff000), (n!"vpsrld", 0x1a5042000, 0x1fffff000),
  (n!"vpsrld", 0xe4842400, 0x1fffffe00), (n!"vpsrld", 0xe5042400, 0x1fffffe00), (n!"vpsrldq", 0xe6842600, 0x1fffffe00),
  (n!"vpsrldq", 0xe7042600, 0x1fffffe00), (n!"vpsrlq", 0x1a6842000, 0x1fffff000), (n!"vpsrlq", 0x1a7043000, 0x1fffff000),
  (n!"vpsrlq", 0xe6842400, 0x1fffffe00), (n!"vpsrlq", 0xe7043400, 0x1fffffe00), (n!"vpsrlw", 0x1a2842000, 0x1fffff000),
  (n!"vpsrlw", 0x1a3042000, 0x1fffff000), (n!"vpsrlw", 0xe2842400, 0x1fffffe00), (n!"vpsrlw", 0xe3042400, 0x1fffffe00),
  (n!"vpsubb", 0x1f0842000, 0x1fffff000), (n!"vpsubb", 0x1f1042000, 0x1fffff000), (n!"vpsubd", 0x1f4842000, 0x1fffff000),
  (n!"vpsubd", 0x1f5042000, 0x1fffff000), (n!"vpsubq", 0x1f6842000, 0x1fffff000), (n!"vpsubq", 0x1f7043000, 0x1fffff000),
  (n!"vpsubsb", 0x1d0842000, 0x1fffff000), (n!"vpsubsb", 0x1d1042000, 0x1fffff000), (n!"vpsubsw", 0x1d2842000, 0x1fffff000),
  (n!"vpsubsw", 0x1d3042000, 0x1fffff000), (n!"vpsubusb", 0x1b0842000, 0x1fffff000), (n!"vpsubusb", 0x1b1042000, 0x1fffff000),
  (n!"vpsubusw", 0x1b2842000, 0x1fffff000), (n!"vpsubusw", 0x1b3042000, 0x1fffff000), (n!"vpsubw", 0x1f2842000, 0x1fffff000),
  (n!"vpsubw", 0x1f3042000, 0x1fffff000), (n!"vpunpckhbw", 0xd0842000, 0x1fffff000), (n!"vpunpckhbw", 0xd1042000, 0x1fffff000),
  (n!"vpunpckhdq", 0xd4842000, 0x1fffff000), (n!"vpunpckhdq", 0xd5042000, 0x1fffff000), (n!"vpunpckhqdq", 0xda842000, 0x1fffff000),
  (n!"vpunpckhqdq", 0xdb043000, 0x1fffff000), (n!"vpunpckhwd", 0xd2842000, 0x1fffff000), (n!"vpunpckhwd", 0xd3042000, 0x1fffff000),
  (n!"vpunpcklbw", 0xc0842000, 0x1fffff000), (n!"vpunpcklbw", 0xc1042000, 0x1fffff000), (n!"vpunpckldq", 0xc4842000, 0x1fffff000),
  (n!"vpunpckldq", 0xc5042000, 0x1fffff000), (n!"vpunpcklqdq", 0xd8842000, 0x1fffff000), (n!"vpunpcklqdq", 0xd9043000, 0x1fffff000),
  (n!"vpunpcklwd", 0xc2842000, 0x1fffff000), (n!"vpunpcklwd", 0xc3042000, 0x1fffff000), (n!"vpxor", 0x1de842000, 0x1fffff000),
  (n!"vrcpss", 0xa6844000, 0x1fffff000), (n!"vroundsd", 0x168c2000, 0x1fffff000), (n!"vroundss", 0x148c2000, 0x1fffff000),
  (n!"vrsqrtss", 0xa4844000, 0x1fffff000), (n!"vshufpd", 0x18c842000, 0x1fffff000), (n!"vshufpd", 0x18d043000, 0x1fffff000),
  (n!"vshufps", 0x18c840000, 0x1fffff000), (n!"vshufps", 0x18d040000, 0x1fffff000), (n!"vsqrtsd", 0xa2846000, 0x1fffff000),
  (n!"vsqrtsd", 0xa3047000, 0x1fffff000), (n!"vsqrtss", 0xa2844000, 0x1fffff000), (n!"vsqrtss", 0xa3044000, 0x1fffff000),
  (n!"vunpckhpd", 0x2a842000, 0x1fffff000), (n!"vunpckhpd", 0x2b043000, 0x1fffff000), (n!"vunpckhps", 0x2a840000, 0x1fffff000),
  (n!"vunpckhps", 0x2b040000, 0x1fffff000), (n!"vunpcklpd", 0x28842000, 0x1fffff000), (n!"vunpcklpd", 0x29043000, 0x1fffff000),
  (n!"vunpcklps", 0x28840000, 0x1fffff000), (n!"vunpcklps", 0x29040000, 0x1fffff000), (n!"movq", 0xfc041000, 0x1fffff100),
  (n!"movq", 0xfc061000, 0x1fffff100), (n!"movq", 0xdc041000, 0x1fffff100), (n!"movq", 0xdc061000, 0x1fffff100),
  (n!"pextrq", 0x2c0e1000, 0x1fffff000), (n!"pinsrq", 0x440e1000, 0x1fffff000), (n!"vcvtss2si", 0x5a845000, 0x1fffff000),
  (n!"vcvtss2si", 0x5b045000, 0x1fffff000), (n!"vcvttss2si", 0x58845000, 0x1fffff000), (n!"vcvttss2si", 0x59045000, 0x1fffff000),
  (n!"vcvtsd2si", 0x5a847000, 0x1fffff000), (n!"vcvtsd2si", 0x5b047000, 0x1fffff000), (n!"vcvttsd2si", 0x58847000, 0x1fffff000),
  (n!"vcvttsd2si", 0x59047000, 0x1fffff000), (n!"vmovq", 0xdc843000, 0x1fffff000), (n!"vmovq", 0xdd043000, 0x1fffff000),
  (n!"vmovq", 0xfc843000, 0x1fffff000), (n!"vmovq", 0xfd043000, 0x1fffff000), (n!"cmpbexadd", 0x1cc883100, 0x1fffff100),
  (n!"cmpbexadd", 0x1cc882100, 0x1fffff100), (n!"cmpbexadd", 0x1cd083100, 0x1fffff100), (n!"cmpbexadd", 0x1cd082100, 0x1fffff100),
  (n!"cmpbxadd", 0x1c4883100, 0x1fffff100), (n!"cmpbxadd", 0x1c4882100, 0x1fffff100), (n!"cmpbxadd", 0x1c5083100, 0x1fffff100),
  (n!"cmpbxadd", 0x1c5082100, 0x1fffff100), (n!"cmplexadd", 0x1dc883100, 0x1fffff100), (n!"cmplexadd", 0x1dc882100, 0x1fffff100),
  (n!"cmplexadd", 0x1dd083100, 0x1fffff100), (n!"cmplexadd", 0x1dd082100, 0x1fffff100), (n!"cmplxadd", 0x1d8883100, 0x1fffff100),
  (n!"cmplxadd", 0x1d8882100, 0x1fffff100), (n!"cmplxadd", 0x1d9083100, 0x1fffff100), (n!"cmplxadd", 0x1d9082100, 0x1fffff100),
  (n!"cmpnbexadd", 0x1ce883100, 0x1fffff100), (n!"cmpnbexadd", 0x1ce882100, 0x1fffff100), (n!"cmpnbexadd", 0x1cf083100, 0x1fffff100),
  (n!"cmpnbexadd", 0x1cf082100, 0x1fffff100), (n!"cmpnbxadd", 0x1c6883100, 0x1fffff100), (n!"cmpnbxadd", 0x1c6882100, 0x1fffff100),
  (n!"cmpnbxadd", 0x1c7083100, 0x1fffff100), (n!"cmpnbxadd", 0x1c7082100, 0x1fffff100), (n!"cmpnlexadd", 0x1de883100, 0x1fffff100),
  (n!"cmpnlexadd", 0x1de882100, 0x1fffff100), (n!"cmpnlexadd", 0x1df083100, 0x1fffff100), (n!"cmpnlexadd", 0x1df082100, 0x1fffff100),
  (n!"cmpnlxadd", 0x1da883100, 0x1fffff100), (n!"cmpnlxadd", 0x1da882100, 0x1fffff100), (n!"cmpnlxadd", 0x1db083100, 0x1fffff100),
  (n!"cmpnlxadd", 0x1db082100, 0x1fffff100), (n!"cmpnoxadd", 0x1c2883100, 0x1fffff100), (n!"cmpnoxadd", 0x1c2882100, 0x1fffff100),
  (n!"cmpnoxadd", 0x1c3083100, 0x1fffff100), (n!"cmpnoxadd", 0x1c3082100, 0x1fffff100), (n!"cmpnpxadd", 0x1d6883100, 0x1fffff100),
  (n!"cmpnpxadd", 0x1d6882100, 0x1fffff100), (n!"cmpnpxadd", 0x1d7083100, 0x1fffff100), (n!"cmpnpxadd", 0x1d7082100, 0x1fffff100),
  (n!"cmpnsxadd", 0x1d2883100, 0x1fffff100), (n!"cmpnsxadd", 0x1d2882100, 0x1fffff100), (n!"cmpnsxadd", 0x1d3083100, 0x1fffff100),
  (n!"cmpnsxadd", 0x1d3082100, 0x1fffff100), (n!"cmpnzxadd", 0x1ca883100, 0x1fffff100), (n!"cmpnzxadd", 0x1ca882100, 0x1fffff100),
  (n!"cmpnzxadd", 0x1cb083100, 0x1fffff100), (n!"cmpnzxadd", 0x1cb082100, 0x1fffff100), (n!"cmpoxadd", 0x1c0883100, 0x1fffff100),
  (n!"cmpoxadd", 0x1c0882100, 0x1fffff100), (n!"cmpoxadd", 0x1c1083100, 0x1fffff100), (n!"cmpoxadd", 0x1c1082100, 0x1fffff100),
  (n!"cmppxadd", 0x1d4883100, 0x1fffff100), (n!"cmppxadd", 0x1d4882100, 0x1fffff100), (n!"cmppxadd", 0x1d5083100, 0x1fffff100),
  (n!"cmppxadd", 0x1d5082100, 0x1fffff100), (n!"cmpsxadd", 0x1d0883100, 0x1fffff100), (n!"cmpsxadd", 0x1d0882100, 0x1fffff100),
  (n!"cmpsxadd", 0x1d1083100, 0x1fffff100), (n!"cmpsxadd", 0x1d1082100, 0x1fffff100), (n!"cmpzxadd", 0x1c8883100, 0x1fffff100),
  (n!"cmpzxadd", 0x1c8882100, 0x1fffff100), (n!"cmpzxadd", 0x1c9083100, 0x1fffff100), (n!"cmpzxadd", 0x1c9082100, 0x1fffff100),
  (n!"aesdec128kl", 0x1ba088100, 0x1fffff100), (n!"aesdec128kl", 0x1bb104100, 0x1ffffe100), (n!"aesdec256kl", 0x1be088100, 0x1fffff100),
  (n!"aesdec256kl", 0x1bf104100, 0x1ffffe100), (n!"aesdecwide128kl", 0x1b0088300, 0x1ffffff00),
  (n!"aesdecwide128kl", 0x1b1104300, 0x1ffffef00), (n!"aesdecwide256kl", 0x1b0088700, 0x1ffffff00),
  (n!"aesdecwide256kl", 0x1b1104700, 0x1ffffef00), (n!"aesenc128kl", 0x1b8088100, 0x1fffff100),
  (n!"aesenc128kl", 0x1b9104100, 0x1ffffe100), (n!"aesenc256kl", 0x1bc088100, 0x1fffff100), (n!"aesenc256kl", 0x1bd104100, 0x1ffffe100),
  (n!"aesencwide128kl", 0x1b0088100, 0x1ffffff00), (n!"aesencwide128kl", 0x1b1104100, 0x1ffffef00),
  (n!"aesencwide256kl", 0x1b0088500, 0x1ffffff00), (n!"aesencwide256kl", 0x1b1104500, 0x1ffffef00),
  (n!"encodekey128", 0x1f4088000, 0x1fffff100), (n!"encodekey128", 0x1b5104000, 0x1ffffe100), (n!"encodekey256", 0x1f6088000, 0x1fffff100),
  (n!"encodekey256", 0x1b7104000, 0x1ffffe100), (n!"ldtilecfg", 0x92880100, 0x1ffffff00), (n!"ldtilecfg", 0x93080100, 0x1ffffff00),
  (n!"sttilecfg", 0x92882100, 0x1ffffff00), (n!"sttilecfg", 0x93082100, 0x1ffffff00), (n!"tileloadd", 0x96886100, 0x1fffff100),
  (n!"tileloadd", 0x97086100, 0x1fffff100), (n!"tileloaddt1", 0x96882100, 0x1fffff100), (n!"tileloaddt1", 0x97082100, 0x1fffff100),
  (n!"tilestored", 0x96884100, 0x1fffff100), (n!"tilestored", 0x97084100, 0x1fffff100), (n!"tilezero", 0x92886000, 0x1fffff100),
  (n!"tdpbssd", 0xbc886000, 0x1fffff100), (n!"tdpbsud", 0xbc884000, 0x1fffff100), (n!"tdpbusd", 0xbc882000, 0x1fffff100),
  (n!"tdpbuud", 0xbc880000, 0x1fffff100), (n!"tdpfp16ps", 0xb8886000, 0x1fffff100), (n!"tdpbf16ps", 0xb8884000, 0x1fffff100),
  (n!"kaddb", 0x94842000, 0x1fffff100), (n!"kaddd", 0x94843000, 0x1fffff100), (n!"kaddq", 0x94841000, 0x1fffff100),
  (n!"kaddw", 0x94840000, 0x1fffff100), (n!"kandb", 0x82842000, 0x1fffff100), (n!"kandd", 0x82843000, 0x1fffff100),
  (n!"kandnb", 0x84842000, 0x1fffff100), (n!"kandnd", 0x84843000, 0x1fffff100), (n!"kandnq", 0x84841000, 0x1fffff100),
  (n!"kandnw", 0x84840000, 0x1fffff100), (n!"kandq", 0x82841000, 0x1fffff100), (n!"kandw", 0x82840000, 0x1fffff100),
  (n!"kmovb", 0x126842000, 0x1fffff100), (n!"kmovb", 0x127042000, 0x1fffff100), (n!"kmovb", 0x122842100, 0x1fffff100),
  (n!"kmovb", 0x123042100, 0x1fffff100), (n!"kmovb", 0x124842000, 0x1fffff100), (n!"kmovb", 0x125042000, 0x1fffff100),
  (n!"kmovb", 0x120842000, 0x1fffff000), (n!"kmovb", 0x121042000, 0x1fffff000), (n!"kmovb", 0x126842000, 0x1fffff100),
  (n!"kmovb", 0x127042000, 0x1fffff100), (n!"kmovb", 0x122842100, 0x1fffff100), (n!"kmovb", 0x123042100, 0x1fffff100),
  (n!"kmovd", 0x126846000, 0x1fffff100), (n!"kmovd", 0x127046000, 0x1fffff100), (n!"kmovd", 0x122843100, 0x1fffff100),
  (n!"kmovd", 0x123043100, 0x1fffff100), (n!"kmovd", 0x124846000, 0x1fffff100), (n!"kmovd", 0x125046000, 0x1fffff100),
  (n!"kmovd", 0x120843000, 0x1fffff000), (n!"kmovd", 0x121043000, 0x1fffff000), (n!"kmovd", 0x126846000, 0x1fffff100),
  (n!"kmovd", 0x127046000, 0x1fffff100), (n!"kmovd", 0x122843100, 0x1fffff100), (n!"kmovd", 0x123043100, 0x1fffff100),
  (n!"kmovq", 0x126847000, 0x1fffff100), (n!"kmovq", 0x127047000, 0x1fffff100), (n!"kmovq", 0x122841100, 0x1fffff100),
  (n!"kmovq", 0x123041100, 0x1fffff100), (n!"kmovq", 0x124847000, 0x1fffff100), (n!"kmovq", 0x125047000, 0x1fffff100),
  (n!"kmovq", 0x120841000, 0x1fffff000), (n!"kmovq", 0x121041000, 0x1fffff000), (n!"kmovw", 0x126840000, 0x1fffff100),
  (n!"kmovw", 0x127040000, 0x1fffff100), (n!"kmovw", 0x122840100, 0x1fffff100), (n!"kmovw", 0x123040100, 0x1fffff100),
  (n!"kmovw", 0x124840000, 0x1fffff100), (n!"kmovw", 0x125040000, 0x1fffff100), (n!"kmovw", 0x120840000, 0x1fffff000),
  (n!"kmovw", 0x121040000, 0x1fffff000), (n!"kmovw", 0x126840000, 0x1fffff100), (n!"kmovw", 0x127040000, 0x1fffff100),
  (n!"kmovw", 0x122840100, 0x1fffff100), (n!"kmovw", 0x123040100, 0x1fffff100), (n!"knotb", 0x88842000, 0x1fffff100),
  (n!"knotd", 0x88843000, 0x1fffff100), (n!"knotq", 0x88841000, 0x1fffff100), (n!"knotw", 0x88840000, 0x1fffff100),
  (n!"korb", 0x8a842000, 0x1fffff100), (n!"kord", 0x8a843000, 0x1fffff100), (n!"korq", 0x8a841000, 0x1fffff100),
  (n!"kortestb", 0x130842000, 0x1fffff100), (n!"kortestd", 0x130843000, 0x1fffff100), (n!"kortestq", 0x130841000, 0x1fffff100),
  (n!"kortestw", 0x130840000, 0x1fffff100), (n!"korw", 0x8a840000, 0x1fffff100), (n!"kshiftlb", 0x648c2000, 0x1fffff100),
  (n!"kshiftld", 0x668c2000, 0x1fffff100), (n!"kshiftlq", 0x668c3000, 0x1fffff100), (n!"kshiftlw", 0x648c3000, 0x1fffff100),
  (n!"kshiftrb", 0x608c2000, 0x1fffff100), (n!"kshiftrd", 0x628c2000, 0x1fffff100), (n!"kshiftrq", 0x628c3000, 0x1fffff100),
  (n!"kshiftrw", 0x608c3000, 0x1fffff100), (n!"ktestb", 0x132842000, 0x1fffff100), (n!"ktestd", 0x132843000, 0x1fffff100),
  (n!"ktestq", 0x132841000, 0x1fffff100), (n!"ktestw", 0x132840000, 0x1fffff100), (n!"kunpckbw", 0x96842000, 0x1fffff100),
  (n!"kunpckdq", 0x96841000, 0x1fffff100), (n!"kunpckwd", 0x96840000, 0x1fffff100), (n!"kxnorb", 0x8c842000, 0x1fffff100),
  (n!"kxnord", 0x8c843000, 0x1fffff100), (n!"kxnorq", 0x8c841000, 0x1fffff100), (n!"kxnorw", 0x8c840000, 0x1fffff100),
  (n!"kxorb", 0x8e842000, 0x1fffff100), (n!"kxord", 0x8e843000, 0x1fffff100), (n!"kxorq", 0x8e841000, 0x1fffff100),
  (n!"kxorw", 0x8e840000, 0x1fffff100), (n!"v4fmaddps", 0x135086000, 0x1fffff000), (n!"v4fmaddss", 0x137086000, 0x1fffff000),
  (n!"v4fnmaddps", 0x155086000, 0x1fffff000), (n!"v4fnmaddss", 0x157086000, 0x1fffff000), (n!"vaddnepbf16", 0xb1142000, 0x1fffff000),
  (n!"vaddph", 0xb1140000, 0x1fffff000), (n!"vaddsh", 0xb1144000, 0x1fffff000), (n!"valignd", 0x70c2000, 0x1fffff000),
  (n!"valignq", 0x70c3000, 0x1fffff000), (n!"vblendmpd", 0xcb083000, 0x1fffff000), (n!"vblendmps", 0xcb082000, 0x1fffff000),
  (n!"vbroadcastf32x2", 0x33082000, 0x1fffff000), (n!"vbroadcastf32x4", 0x35082100, 0x1fffff100),
  (n!"vbroadcastf32x8", 0x37082100, 0x1fffff100), (n!"vbroadcastf64x2", 0x35083100, 0x1fffff100),
  (n!"vbroadcastf64x4", 0x37083100, 0x1fffff100), (n!"vbroadcasti32x2", 0xb3082000, 0x1fffff000),
  (n!"vbroadcasti32x4", 0xb5082000, 0x1fffff000), (n!"vbroadcasti32x8", 0xb7082000, 0x1fffff000),
  (n!"vbroadcasti64x2", 0xb5083000, 0x1fffff000), (n!"vbroadcasti64x4", 0xb7083000, 0x1fffff000),
  (n!"vcmpeq_ospd", 0x185043010, 0x1fffff0ff), (n!"vcmpeq_osps", 0x185040010, 0x1fffff0ff), (n!"vcmpeq_ossd", 0x185047010, 0x1fffff0ff),
  (n!"vcmpeq_osss", 0x185044010, 0x1fffff0ff), (n!"vcmpeq_uqpd", 0x185043008, 0x1fffff0ff), (n!"vcmpeq_uqps", 0x185040008, 0x1fffff0ff),
  (n!"vcmpeq_uqsd", 0x185047008, 0x1fffff0ff), (n!"vcmpeq_uqss", 0x185044008, 0x1fffff0ff), (n!"vcmpeq_uspd", 0x185043018, 0x1fffff0ff),
  (n!"vcmpeq_usps", 0x185040018, 0x1fffff0ff), (n!"vcmpeq_ussd", 0x185047018, 0x1fffff0ff), (n!"vcmpeq_usss", 0x185044018, 0x1fffff0ff),
  (n!"vcmpeqpd", 0x185043000, 0x1fffff0ff), (n!"vcmpeqps", 0x185040000, 0x1fffff0ff), (n!"vcmpeqsd", 0x185047000, 0x1fffff0ff),
  (n!"vcmpeqss", 0x185044000, 0x1fffff0ff), (n!"vcmpfalse_ospd", 0x18504301b, 0x1fffff0ff), (n!"vcmpfalse_osps", 0x18504001b, 0x1fffff0ff),
  (n!"vcmpfalse_ossd", 0x18504701b, 0x1fffff0ff), (n!"vcmpfalse_osss", 0x18504401b, 0x1fffff0ff),
  (n!"vcmpfalsepd", 0x18504300b, 0x1fffff0ff), (n!"vcmpfalseps", 0x18504000b, 0x1fffff0ff), (n!"vcmpfalsesd", 0x18504700b, 0x1fffff0ff),
  (n!"vcmpfalsess", 0x18504400b, 0x1fffff0ff), (n!"vcmpge_oqpd", 0x18504301d, 0x1fffff0ff), (n!"vcmpge_oqps", 0x18504001d, 0x1fffff0ff),
  (n!"vcmpge_oqsd", 0x18504701d, 0x1fffff0ff), (n!"vcmpge_oqss", 0x18504401d, 0x1fffff0ff), (n!"vcmpgepd", 0x18504300d, 0x1fffff0ff),
  (n!"vcmpgeps", 0x18504000d, 0x1fffff0ff), (n!"vcmpgesd", 0x18504700d, 0x1fffff0ff), (n!"vcmpgess", 0x18504400d, 0x1fffff0ff),
  (n!"vcmpgt_oqpd", 0x18504301e, 0x1fffff0ff), (n!"vcmpgt_oqps", 0x18504001e, 0x1fffff0ff), (n!"vcmpgt_oqsd", 0x18504701e, 0x1fffff0ff),
  (n!"vcmpgt_oqss", 0x18504401e, 0x1fffff0ff), (n!"vcmpgtpd", 0x18504300e, 0x1fffff0ff), (n!"vcmpgtps", 0x18504000e, 0x1fffff0ff),
  (n!"vcmpgtsd", 0x18504700e, 0x1fffff0ff), (n!"vcmpgtss", 0x18504400e, 0x1fffff0ff), (n!"vcmple_oqpd", 0x185043012, 0x1fffff0ff),
  (n!"vcmple_oqps", 0x185040012, 0x1fffff0ff), (n!"vcmple_oqsd", 0x185047012, 0x1fffff0ff), (n!"vcmple_oqss", 0x185044012, 0x1fffff0ff),
  (n!"vcmplepd", 0x185043002, 0x1fffff0ff), (n!"vcmpleps", 0x185040002, 0x1fffff0ff), (n!"vcmplesd", 0x185047002, 0x1fffff0ff),
  (n!"vcmpless", 0x185044002, 0x1fffff0ff), (n!"vcmplt_oqpd", 0x185043011, 0x1fffff0ff), (n!"vcmplt_oqps", 0x185040011, 0x1fffff0ff),
  (n!"vcmplt_oqsd", 0x185047011, 0x1fffff0ff), (n!"vcmplt_oqss", 0x185044011, 0x1fffff0ff), (n!"vcmpltpd", 0x185043001, 0x1fffff0ff),
  (n!"vcmpltps", 0x185040001, 0x1fffff0ff), (n!"vcmpltsd", 0x185047001, 0x1fffff0ff), (n!"vcmpltss", 0x185044001, 0x1fffff0ff),
  (n!"vcmpneq_oqpd", 0x18504300c, 0x1fffff0ff), (n!"vcmpneq_oqps", 0x18504000c, 0x1fffff0ff), (n!"vcmpneq_oqsd", 0x18504700c, 0x1fffff0ff),
  (n!"vcmpneq_oqss", 0x18504400c, 0x1fffff0ff), (n!"vcmpneq_ospd", 0x18504301c, 0x1fffff0ff), (n!"vcmpneq_osps", 0x18504001c, 0x1fffff0ff),
  (n!"vcmpneq_ossd", 0x18504701c, 0x1fffff0ff), (n!"vcmpneq_osss", 0x18504401c, 0x1fffff0ff), (n!"vcmpneq_uspd", 0x185043014, 0x1fffff0ff),
  (n!"vcmpneq_usps", 0x185040014, 0x1fffff0ff), (n!"vcmpneq_ussd", 0x185047014, 0x1fffff0ff), (n!"vcmpneq_usss", 0x185044014, 0x1fffff0ff),
  (n!"vcmpneqpd", 0x185043004, 0x1fffff0ff), (n!"vcmpneqps", 0x185040004, 0x1fffff0ff), (n!"vcmpneqsd", 0x185047004, 0x1fffff0ff),
  (n!"vcmpneqss", 0x185044004, 0x1fffff0ff), (n!"vcmpnge_uqpd", 0x185043019, 0x1fffff0ff), (n!"vcmpnge_uqps", 0x185040019, 0x1fffff0ff),
  (n!"vcmpnge_uqsd", 0x185047019, 0x1fffff0ff), (n!"vcmpnge_uqss", 0x185044019, 0x1fffff0ff), (n!"vcmpngepd", 0x185043009, 0x1fffff0ff),
  (n!"vcmpngeps", 0x185040009, 0x1fffff0ff), (n!"vcmpngesd", 0x185047009, 0x1fffff0ff), (n!"vcmpngess", 0x185044009, 0x1fffff0ff),
  (n!"vcmpngt_uqpd", 0x18504301a, 0x1fffff0ff), (n!"vcmpngt_uqps", 0x18504001a, 0x1fffff0ff), (n!"vcmpngt_uqsd", 0x18504701a, 0x1fffff0ff),
  (n!"vcmpngt_uqss", 0x18504401a, 0x1fffff0ff), (n!"vcmpngtpd", 0x18504300a, 0x1fffff0ff), (n!"vcmpngtps", 0x18504000a, 0x1fffff0ff),
  (n!"vcmpngtsd", 0x18504700a, 0x1fffff0ff), (n!"vcmpngtss", 0x18504400a, 0x1fffff0ff), (n!"vcmpnle_uqpd", 0x185043016, 0x1fffff0ff),
  (n!"vcmpnle_uqps", 0x185040016, 0x1fffff0ff), (n!"vcmpnle_uqsd", 0x185047016, 0x1fffff0ff), (n!"vcmpnle_uqss", 0x185044016, 0x1fffff0ff),
  (n!"vcmpnlepd", 0x185043006, 0x1fffff0ff), (n!"vcmpnleps", 0x185040006, 0x1fffff0ff), (n!"vcmpnlesd", 0x185047006, 0x1fffff0ff),
  (n!"vcmpnless", 0x185044006, 0x1fffff0ff), (n!"vcmpnlt_uqpd", 0x185043015, 0x1fffff0ff), (n!"vcmpnlt_uqps", 0x185040015, 0x1fffff0ff),
  (n!"vcmpnlt_uqsd", 0x185047015, 0x1fffff0ff), (n!"vcmpnlt_uqss", 0x185044015, 0x1fffff0ff), (n!"vcmpnltpd", 0x185043005, 0x1fffff0ff),
  (n!"vcmpnltps", 0x185040005, 0x1fffff0ff), (n!"vcmpnltsd", 0x185047005, 0x1fffff0ff), (n!"vcmpnltss", 0x185044005, 0x1fffff0ff),
  (n!"vcmpord_spd", 0x185043017, 0x1fffff0ff), (n!"vcmpord_sps", 0x185040017, 0x1fffff0ff), (n!"vcmpord_ssd", 0x185047017, 0x1fffff0ff),
  (n!"vcmpord_sss", 0x185044017, 0x1fffff0ff), (n!"vcmpordpd", 0x185043007, 0x1fffff0ff), (n!"vcmpordps", 0x185040007, 0x1fffff0ff),
  (n!"vcmpordsd", 0x185047007, 0x1fffff0ff), (n!"vcmpordss", 0x185044007, 0x1fffff0ff), (n!"vcmppbf16", 0x1850c6000, 0x1fffff000),
  (n!"vcmppd", 0x185043000, 0x1fffff000), (n!"vcmpph", 0x1850c0000, 0x1fffff000), (n!"vcmpps", 0x185040000, 0x1fffff000),
  (n!"vcmpsd", 0x185047000, 0x1fffff000), (n!"vcmpsh", 0x1850c4000, 0x1fffff000), (n!"vcmpss", 0x185044000, 0x1fffff000),
  (n!"vcmptrue_uspd", 0x18504301f, 0x1fffff0ff), (n!"vcmptrue_usps", 0x18504001f, 0x1fffff0ff),
  (n!"vcmptrue_ussd", 0x18504701f, 0x1fffff0ff), (n!"vcmptrue_usss", 0x18504401f, 0x1fffff0ff), (n!"vcmptruepd", 0x18504300f, 0x1fffff0ff),
  (n!"vcmptrueps", 0x18504000f, 0x1fffff0ff), (n!"vcmptruesd", 0x18504700f, 0x1fffff0ff), (n!"vcmptruess", 0x18504400f, 0x1fffff0ff),
  (n!"vcmpunord_spd", 0x185043013, 0x1fffff0ff), (n!"vcmpunord_sps", 0x185040013, 0x1fffff0ff),
  (n!"vcmpunord_ssd", 0x185047013, 0x1fffff0ff), (n!"vcmpunord_sss", 0x185044013, 0x1fffff0ff),
  (n!"vcmpunordpd", 0x185043003, 0x1fffff0ff), (n!"vcmpunordps", 0x185040003, 0x1fffff0ff), (n!"vcmpunordsd", 0x185047003, 0x1fffff0ff),
  (n!"vcmpunordss", 0x185044003, 0x1fffff0ff), (n!"vcomish", 0x5f140000, 0x1fffff000), (n!"vcompresspd", 0x115083000, 0x1fffff000),
  (n!"vcompressps", 0x115082000, 0x1fffff000), (n!"vcomsbf16", 0x5f142000, 0x1fffff000), (n!"vcomxsd", 0x5f047000, 0x1fffff000),
  (n!"vcomxsh", 0x5f144000, 0x1fffff000), (n!"vcomxss", 0x5f044000, 0x1fffff000), (n!"vcvt2ps2phx", 0xcf082000, 0x1fffff000),
  (n!"vcvtbiasph2bf8", 0xe9080000, 0x1fffff000), (n!"vcvtbiasph2bf8s", 0xe9140000, 0x1fffff000),
  (n!"vcvtbiasph2hf8", 0x31140000, 0x1fffff000), (n!"vcvtbiasph2hf8s", 0x37140000, 0x1fffff000), (n!"vcvtdq2ph", 0xb7140000, 0x1fffff000),
  (n!"vcvthf82ph", 0x3d146000, 0x1fffff000), (n!"vcvtne2ph2bf8", 0xe9086000, 0x1fffff000), (n!"vcvtne2ph2bf8s", 0xe9146000, 0x1fffff000),
  (n!"vcvtne2ph2hf8", 0x31146000, 0x1fffff000), (n!"vcvtne2ph2hf8s", 0x37146000, 0x1fffff000),
  (n!"vcvtne2ps2bf16", 0xe5086000, 0x1fffff000), (n!"vcvtnebf162ibs", 0xd3146000, 0x1fffff000),
  (n!"vcvtnebf162iubs", 0xd7146000, 0x1fffff000), (n!"vcvtneph2bf8", 0xe9084000, 0x1fffff000),
  (n!"vcvtneph2bf8s", 0xe9144000, 0x1fffff000), (n!"vcvtneph2hf8", 0x31144000, 0x1fffff000), (n!"vcvtneph2hf8s", 0x37144000, 0x1fffff000),
  (n!"vcvtpd2ph", 0xb5143000, 0x1fffff000), (n!"vcvtpd2qq", 0xf7043000, 0x1fffff000), (n!"vcvtpd2udq", 0xf3041000, 0x1fffff000),
  (n!"vcvtpd2uqq", 0xf3043000, 0x1fffff000), (n!"vcvtph2dq", 0xb7142000, 0x1fffff000), (n!"vcvtph2ibs", 0xd3140000, 0x1fffff000),
  (n!"vcvtph2iubs", 0xd7140000, 0x1fffff000), (n!"vcvtph2pd", 0xb5140000, 0x1fffff000), (n!"vcvtph2psx", 0x27182000, 0x1fffff000),
  (n!"vcvtph2qq", 0xf7142000, 0x1fffff000), (n!"vcvtph2udq", 0xf3140000, 0x1fffff000), (n!"vcvtph2uqq", 0xf3142000, 0x1fffff000),
  (n!"vcvtph2uw", 0xfb140000, 0x1fffff000), (n!"vcvtph2w", 0xfb142000, 0x1fffff000), (n!"vcvtps2ibs", 0xd3142000, 0x1fffff000),
  (n!"vcvtps2iubs", 0xd7142000, 0x1fffff000), (n!"vcvtps2phx", 0x3b142000, 0x1fffff000), (n!"vcvtps2qq", 0xf7042000, 0x1fffff000),
  (n!"vcvtps2udq", 0xf3040000, 0x1fffff000), (n!"vcvtps2uqq", 0xf3042000, 0x1fffff000), (n!"vcvtqq2pd", 0x1cd045000, 0x1fffff000),
  (n!"vcvtqq2ph", 0xb7141000, 0x1fffff000), (n!"vcvtqq2ps", 0xb7041000, 0x1fffff000), (n!"vcvtsd2sh", 0xb5147000, 0x1fffff000),
  (n!"vcvtsd2usi", 0xf3047000, 0x1fffff000), (n!"vcvtsd2usi", 0xf3046000, 0x1fffff000), (n!"vcvtsh2sd", 0xb5144000, 0x1fffff000),
  (n!"vcvtsh2si", 0x5b145000, 0x1fffff000), (n!"vcvtsh2si", 0x5b144000, 0x1fffff000), (n!"vcvtsh2ss", 0x27180000, 0x1fffff000),
  (n!"vcvtsh2usi", 0xf3145000, 0x1fffff000), (n!"vcvtsh2usi", 0xf3144000, 0x1fffff000), (n!"vcvtsi2sh", 0x55144000, 0x1fffff000),
  (n!"vcvtsi2sh", 0x55145000, 0x1fffff000), (n!"vcvtss2sh", 0x3b140000, 0x1fffff000), (n!"vcvtss2usi", 0xf3045000, 0x1fffff000),
  (n!"vcvtss2usi", 0xf3044000, 0x1fffff000), (n!"vcvttnebf162ibs", 0xd1146000, 0x1fffff000),
  (n!"vcvttnebf162iubs", 0xd5146000, 0x1fffff000), (n!"vcvttpd2dqs", 0xdb141000, 0x1fffff000), (n!"vcvttpd2qq", 0xf5043000, 0x1fffff000),
  (n!"vcvttpd2qqs", 0xdb143000, 0x1fffff000), (n!"vcvttpd2udq", 0xf1041000, 0x1fffff000), (n!"vcvttpd2udqs", 0xd9141000, 0x1fffff000),
  (n!"vcvttpd2uqq", 0xf1043000, 0x1fffff000), (n!"vcvttpd2uqqs", 0xd9143000, 0x1fffff000), (n!"vcvttph2dq", 0xb7144000, 0x1fffff000),
  (n!"vcvttph2ibs", 0xd1140000, 0x1fffff000), (n!"vcvttph2iubs", 0xd5140000, 0x1fffff000), (n!"vcvttph2qq", 0xf5142000, 0x1fffff000),
  (n!"vcvttph2udq", 0xf1140000, 0x1fffff000), (n!"vcvttph2uqq", 0xf1142000, 0x1fffff000), (n!"vcvttph2uw", 0xf9140000, 0x1fffff000),
  (n!"vcvttph2w", 0xf9142000, 0x1fffff000), (n!"vcvttps2dqs", 0xdb140000, 0x1fffff000), (n!"vcvttps2ibs", 0xd1142000, 0x1fffff000),
  (n!"vcvttps2iubs", 0xd5142000, 0x1fffff000), (n!"vcvttps2qq", 0xf5042000, 0x1fffff000), (n!"vcvttps2qqs", 0xdb142000, 0x1fffff000),
  (n!"vcvttps2udq", 0xf1040000, 0x1fffff000), (n!"vcvttps2udqs", 0xd9140000, 0x1fffff000), (n!"vcvttps2uqq", 0xf1042000, 0x1fffff000),
  (n!"vcvttps2uqqs", 0xd9142000, 0x1fffff000), (n!"vcvttsd2sis", 0xdb147000, 0x1fffff000), (n!"vcvttsd2sis", 0xdb146000, 0x1fffff000),
  (n!"vcvttsd2usi", 0xf1047000, 0x1fffff000), (n!"vcvttsd2usi", 0xf1046000, 0x1fffff000), (n!"vcvttsd2usis", 0xd9147000, 0x1fffff000),
  (n!"vcvttsd2usis", 0xd9146000, 0x1fffff000), (n!"vcvttsh2si", 0x59145000, 0x1fffff000), (n!"vcvttsh2si", 0x59144000, 0x1fffff000),
  (n!"vcvttsh2usi", 0xf1145000, 0x1fffff000), (n!"vcvttsh2usi", 0xf1144000, 0x1fffff000), (n!"vcvttss2sis", 0xdb145000, 0x1fffff000),
  (n!"vcvttss2sis", 0xdb144000, 0x1fffff000), (n!"vcvttss2usi", 0xf1045000, 0x1fffff000), (n!"vcvttss2usi", 0xf1044000, 0x1fffff000),
  (n!"vcvttss2usis", 0xd9145000, 0x1fffff000), (n!"vcvttss2usis", 0xd9144000, 0x1fffff000), (n!"vcvtudq2pd", 0xf5044000, 0x1fffff000),
  (n!"vcvtudq2ph", 0xf5146000, 0x1fffff000), (n!"vcvtudq2ps", 0xf5046000, 0x1fffff000), (n!"vcvtuqq2pd", 0xf5045000, 0x1fffff000),
  (n!"vcvtuqq2ph", 0xf5147000, 0x1fffff000), (n!"vcvtuqq2ps", 0xf5047000, 0x1fffff000), (n!"vcvtusi2sd", 0xf7047000, 0x1fffff000),
  (n!"vcvtusi2sd", 0xf7046000, 0x1fffff000), (n!"vcvtusi2sh", 0xf7144000, 0x1fffff000), (n!"vcvtusi2sh", 0xf7145000, 0x1fffff000),
  (n!"vcvtusi2ss", 0xf7045000, 0x1fffff000), (n!"vcvtusi2ss", 0xf7044000, 0x1fffff000), (n!"vcvtuw2ph", 0xfb146000, 0x1fffff000),
  (n!"vcvtw2ph", 0xfb144000, 0x1fffff000), (n!"vdbpsadbw", 0x850c2000, 0x1fffff000), (n!"vdivnepbf16", 0xbd142000, 0x1fffff000),
  (n!"vdivph", 0xbd140000, 0x1fffff000), (n!"vdivsh", 0xbd144000, 0x1fffff000), (n!"vdpbf16ps", 0xa5084000, 0x1fffff000),
  (n!"vdpphps", 0xa5080000, 0x1fffff000), (n!"vexp2pd", 0x191083000, 0x1fffff000), (n!"vexp2ps", 0x191082000, 0x1fffff000),
  (n!"vexpandpd", 0x111083000, 0x1fffff000), (n!"vexpandps", 0x111082000, 0x1fffff000), (n!"vextractf32x4", 0x330c2000, 0x1fffff000),
  (n!"vextractf32x8", 0x370c2000, 0x1fffff000), (n!"vextractf64x2", 0x330c3000, 0x1fffff000), (n!"vextractf64x4", 0x370c3000, 0x1fffff000),
  (n!"vextracti32x4", 0x730c2000, 0x1fffff000), (n!"vextracti32x8", 0x770c2000, 0x1fffff000), (n!"vextracti64x2", 0x730c3000, 0x1fffff000),
  (n!"vextracti64x4", 0x770c3000, 0x1fffff000), (n!"vfcmaddcph", 0xad186000, 0x1fffff000), (n!"vfcmulcph", 0x1ad186000, 0x1fffff000),
  (n!"vfixupimmpd", 0xa90c3000, 0x1fffff000), (n!"vfixupimmps", 0xa90c2000, 0x1fffff000), (n!"vfixupimmsd", 0xab0c3000, 0x1fffff000),
  (n!"vfixupimmss", 0xab0c2000, 0x1fffff000), (n!"vfmadd132nepbf16", 0x131180000, 0x1fffff000),
  (n!"vfmadd132ph", 0x131182000, 0x1fffff000), (n!"vfmadd132sh", 0x133182000, 0x1fffff000),
  (n!"vfmadd213nepbf16", 0x151180000, 0x1fffff000), (n!"vfmadd213ph", 0x151182000, 0x1fffff000),
  (n!"vfmadd213sh", 0x153182000, 0x1fffff000), (n!"vfmadd231nepbf16", 0x171180000, 0x1fffff000),
  (n!"vfmadd231ph", 0x171182000, 0x1fffff000), (n!"vfmadd231sh", 0x173182000, 0x1fffff000), (n!"vfmaddcph", 0xad184000, 0x1fffff000),
  (n!"vfmaddsub132ph", 0x12d182000, 0x1fffff000), (n!"vfmaddsub213ph", 0x14d182000, 0x1fffff000),
  (n!"vfmaddsub231ph", 0x16d182000, 0x1fffff000), (n!"vfmsub132nepbf16", 0x135180000, 0x1fffff000),
  (n!"vfmsub132ph", 0x135182000, 0x1fffff000), (n!"vfmsub132sh", 0x137182000, 0x1fffff000),
  (n!"vfmsub213nepbf16", 0x155180000, 0x1fffff000), (n!"vfmsub213ph", 0x155182000, 0x1fffff000),
  (n!"vfmsub213sh", 0x157182000, 0x1fffff000), (n!"vfmsub231nepbf16", 0x175180000, 0x1fffff000),
  (n!"vfmsub231ph", 0x175182000, 0x1fffff000), (n!"vfmsub231sh", 0x177182000, 0x1fffff000), (n!"vfmsubadd132ph", 0x12f182000, 0x1fffff000),
  (n!"vfmsubadd213ph", 0x14f182000, 0x1fffff000), (n!"vfmsubadd231ph", 0x16f182000, 0x1fffff000), (n!"vfmulcph", 0x1ad184000, 0x1fffff000),
  (n!"vfnmadd132nepbf16", 0x139180000, 0x1fffff000), (n!"vfnmadd132ph", 0x139182000, 0x1fffff000),
  (n!"vfnmadd132sh", 0x13b182000, 0x1fffff000), (n!"vfnmadd213nepbf16", 0x159180000, 0x1fffff000),
  (n!"vfnmadd213ph", 0x159182000, 0x1fffff000), (n!"vfnmadd213sh", 0x15b182000, 0x1fffff000),
  (n!"vfnmadd231nepbf16", 0x179180000, 0x1fffff000), (n!"vfnmadd231ph", 0x179182000, 0x1fffff000),
  (n!"vfnmadd231sh", 0x17b182000, 0x1fffff000), (n!"vfnmsub132nepbf16", 0x13d180000, 0x1fffff000),
  (n!"vfnmsub132ph", 0x13d182000, 0x1fffff000), (n!"vfnmsub132sh", 0x13f182000, 0x1fffff000),
  (n!"vfnmsub213nepbf16", 0x15d180000, 0x1fffff000), (n!"vfnmsub213ph", 0x15d182000, 0x1fffff000),
  (n!"vfnmsub213sh", 0x15f182000, 0x1fffff000), (n!"vfnmsub231nepbf16", 0x17d180000, 0x1fffff000),
  (n!"vfnmsub231ph", 0x17d182000, 0x1fffff000), (n!"vfnmsub231sh", 0x17f182000, 0x1fffff000), (n!"vfpclasspbf16", 0xcd0c6000, 0x1fffff000),
  (n!"vfpclasspd", 0xcd0c3000, 0x1fffff000), (n!"vfpclassph", 0xcd0c0000, 0x1fffff000), (n!"vfpclassps", 0xcd0c2000, 0x1fffff000),
  (n!"vfpclasssd", 0xcf0c3000, 0x1fffff000), (n!"vfpclasssh", 0xcf0c0000, 0x1fffff000), (n!"vfpclassss", 0xcf0c2000, 0x1fffff000),
  (n!"vgatherdpd", 0x125083100, 0x1fffff100), (n!"vgatherdps", 0x125082100, 0x1fffff100), (n!"vgatherpf0dpd", 0x18d083300, 0x1ffffff00),
  (n!"vgatherpf0dps", 0x18d082300, 0x1ffffff00), (n!"vgatherpf0qpd", 0x18f083300, 0x1ffffff00),
  (n!"vgatherpf0qps", 0x18f082300, 0x1ffffff00), (n!"vgatherpf1dpd", 0x18d083500, 0x1ffffff00),
  (n!"vgatherpf1dps", 0x18d082500, 0x1ffffff00), (n!"vgatherpf1qpd", 0x18f083500, 0x1ffffff00),
  (n!"vgatherpf1qps", 0x18f082500, 0x1ffffff00), (n!"vgatherqpd", 0x127083100, 0x1fffff100), (n!"vgatherqps", 0x127082100, 0x1fffff100),
  (n!"vgetexppbf16", 0x85180000, 0x1fffff000), (n!"vgetexppd", 0x85083000, 0x1fffff000), (n!"vgetexpph", 0x85182000, 0x1fffff000),
  (n!"vgetexpps", 0x85082000, 0x1fffff000), (n!"vgetexpsd", 0x87083000, 0x1fffff000), (n!"vgetexpsh", 0x87182000, 0x1fffff000),
  (n!"vgetexpss", 0x87082000, 0x1fffff000), (n!"vgetmantpbf16", 0x4d0c6000, 0x1fffff000), (n!"vgetmantpd", 0x4d0c3000, 0x1fffff000),
  (n!"vgetmantph", 0x4d0c0000, 0x1fffff000), (n!"vgetmantps", 0x4d0c2000, 0x1fffff000), (n!"vgetmantsd", 0x4f0c3000, 0x1fffff000),
  (n!"vgetmantsh", 0x4f0c0000, 0x1fffff000), (n!"vgetmantss", 0x4f0c2000, 0x1fffff000), (n!"vinsertf32x4", 0x310c2000, 0x1fffff000),
  (n!"vinsertf32x8", 0x350c2000, 0x1fffff000), (n!"vinsertf64x2", 0x310c3000, 0x1fffff000), (n!"vinsertf64x4", 0x350c3000, 0x1fffff000),
  (n!"vinserti32x4", 0x710c2000, 0x1fffff000), (n!"vinserti32x8", 0x750c2000, 0x1fffff000), (n!"vinserti64x2", 0x710c3000, 0x1fffff000),
  (n!"vinserti64x4", 0x750c3000, 0x1fffff000), (n!"vmaxpbf16", 0xbf142000, 0x1fffff000), (n!"vmaxph", 0xbf140000, 0x1fffff000),
  (n!"vmaxsh", 0xbf144000, 0x1fffff000), (n!"vminmaxnepbf16", 0xa50c6000, 0x1fffff000), (n!"vminmaxpd", 0xa50c3000, 0x1fffff000),
  (n!"vminmaxph", 0xa50c0000, 0x1fffff000), (n!"vminmaxps", 0xa50c2000, 0x1fffff000), (n!"vminmaxsd", 0xa70c3000, 0x1fffff000),
  (n!"vminmaxsh", 0xa70c0000, 0x1fffff000), (n!"vminmaxss", 0xa70c2000, 0x1fffff000), (n!"vminpbf16", 0xbb142000, 0x1fffff000),
  (n!"vminph", 0xbb140000, 0x1fffff000), (n!"vminsh", 0xbb144000, 0x1fffff000), (n!"vmovdqa32", 0xff042100, 0x1fffff100),
  (n!"vmovdqa32", 0xdf042000, 0x1fffff000), (n!"vmovdqa64", 0xff043100, 0x1fffff100), (n!"vmovdqa64", 0xdf043000, 0x1fffff000),
  (n!"vmovdqu16", 0xff047100, 0x1fffff100), (n!"vmovdqu16", 0xdf047000, 0x1fffff000), (n!"vmovdqu32", 0xff044100, 0x1fffff100),
  (n!"vmovdqu32", 0xdf044000, 0x1fffff000), (n!"vmovdqu64", 0xff045100, 0x1fffff100), (n!"vmovdqu64", 0xdf045000, 0x1fffff000),
  (n!"vmovdqu8", 0xff046100, 0x1fffff100), (n!"vmovdqu8", 0xdf046000, 0x1fffff000), (n!"vmovsh", 0x23144100, 0x1fffff100),
  (n!"vmovsh", 0x21144000, 0x1fffff000), (n!"vmovsh", 0x21144000, 0x1fffff000), (n!"vmpsadbw", 0x848c2000, 0x1fffff000),
  (n!"vmpsadbw", 0x850c4000, 0x1fffff000), (n!"vmulnepbf16", 0xb3142000, 0x1fffff000), (n!"vmulph", 0xb3140000, 0x1fffff000),
  (n!"vmulsh", 0xb3144000, 0x1fffff000), (n!"vp2intersectd", 0xd0886000, 0x1fffff000), (n!"vp2intersectd", 0xd1086000, 0x1fffff000),
  (n!"vp2intersectq", 0xd0886000, 0x1fffff000), (n!"vp2intersectq", 0xd1087000, 0x1fffff000), (n!"vp4dpwssd", 0xa5086000, 0x1fffff000),
  (n!"vp4dpwssds", 0xa7086000, 0x1fffff000), (n!"vpabsq", 0x3f083000, 0x1fffff000), (n!"vpandd", 0x1b7042000, 0x1fffff000),
  (n!"vpandnd", 0x1bf042000, 0x1fffff000), (n!"vpandnq", 0x1bf043000, 0x1fffff000), (n!"vpandq", 0x1b7043000, 0x1fffff000),
  (n!"vpblendmb", 0xcd082000, 0x1fffff000), (n!"vpblendmd", 0xc9082000, 0x1fffff000), (n!"vpblendmq", 0xc9083000, 0x1fffff000),
  (n!"vpblendmw", 0xcd083000, 0x1fffff000), (n!"vpbroadcastb", 0xf5082000, 0x1fffff100), (n!"vpbroadcastd", 0xf9082000, 0x1fffff100),
  (n!"vpbroadcastmb2q", 0x55085000, 0x1fffff100), (n!"vpbroadcastmw2d", 0x75084000, 0x1fffff100),
  (n!"vpbroadcastw", 0xf7082000, 0x1fffff100), (n!"vpcmpb", 0x7f0c2000, 0x1fffff000), (n!"vpcmpd", 0x3f0c2000, 0x1fffff000),
  (n!"vpcmpeqb", 0xe9042000, 0x1fffff000), (n!"vpcmpeqd", 0xed042000, 0x1fffff000), (n!"vpcmpeqq", 0x53083000, 0x1fffff000),
  (n!"vpcmpeqw", 0xeb042000, 0x1fffff000), (n!"vpcmpgtb", 0xc9042000, 0x1fffff000), (n!"vpcmpgtd", 0xcd042000, 0x1fffff000),
  (n!"vpcmpgtq", 0x6f083000, 0x1fffff000), (n!"vpcmpgtw", 0xcb042000, 0x1fffff000), (n!"vpcmpq", 0x3f0c3000, 0x1fffff000),
  (n!"vpcmpub", 0x7d0c2000, 0x1fffff000), (n!"vpcmpud", 0x3d0c2000, 0x1fffff000), (n!"vpcmpuq", 0x3d0c3000, 0x1fffff000),
  (n!"vpcmpuw", 0x7d0c3000, 0x1fffff000), (n!"vpcmpw", 0x7f0c3000, 0x1fffff000), (n!"vpcompressb", 0xc7082000, 0x1fffff000),
  (n!"vpcompressd", 0x117082000, 0x1fffff000), (n!"vpcompressq", 0x117083000, 0x1fffff000), (n!"vpcompressw", 0xc7083000, 0x1fffff000),
  (n!"vpconflictd", 0x189082000, 0x1fffff000), (n!"vpconflictq", 0x189083000, 0x1fffff000), (n!"vpdpbssd", 0xa0886000, 0x1fffff000),
  (n!"vpdpbssd", 0xa1086000, 0x1fffff000), (n!"vpdpbssds", 0xa2886000, 0x1fffff000), (n!"vpdpbssds", 0xa3086000, 0x1fffff000),
  (n!"vpdpbsud", 0xa0884000, 0x1fffff000), (n!"vpdpbsud", 0xa1084000, 0x1fffff000), (n!"vpdpbsuds", 0xa2884000, 0x1fffff000),
  (n!"vpdpbsuds", 0xa3084000, 0x1fffff000), (n!"vpdpbuud", 0xa0880000, 0x1fffff000), (n!"vpdpbuud", 0xa1080000, 0x1fffff000),
  (n!"vpdpbuuds", 0xa2880000, 0x1fffff000), (n!"vpdpbuuds", 0xa3080000, 0x1fffff000), (n!"vpdpwsud", 0x1a4884000, 0x1fffff000),
  (n!"vpdpwsud", 0x1a5084000, 0x1fffff000), (n!"vpdpwsuds", 0x1a6884000, 0x1fffff000), (n!"vpdpwsuds", 0x1a7084000, 0x1fffff000),
  (n!"vpdpwusd", 0x1a4882000, 0x1fffff000), (n!"vpdpwusd", 0x1a5082000, 0x1fffff000), (n!"vpdpwusds", 0x1a6882000, 0x1fffff000),
  (n!"vpdpwusds", 0x1a7082000, 0x1fffff000), (n!"vpdpwuud", 0x1a4880000, 0x1fffff000), (n!"vpdpwuud", 0x1a5080000, 0x1fffff000),
  (n!"vpdpwuuds", 0x1a6880000, 0x1fffff000), (n!"vpdpwuuds", 0x1a7080000, 0x1fffff000), (n!"vpermb", 0x11b082000, 0x1fffff000),
  (n!"vpermi2b", 0xeb082000, 0x1fffff000), (n!"vpermi2d", 0xed082000, 0x1fffff000), (n!"vpermi2pd", 0xef083000, 0x1fffff000),
  (n!"vpermi2ps", 0xef082000, 0x1fffff000), (n!"vpermi2q", 0xed083000, 0x1fffff000), (n!"vpermi2w", 0xeb083000, 0x1fffff000),
  (n!"vpermt2b", 0xfb082000, 0x1fffff000), (n!"vpermt2d", 0xfd082000, 0x1fffff000), (n!"vpermt2pd", 0xff083000, 0x1fffff000),
  (n!"vpermt2ps", 0xff082000, 0x1fffff000), (n!"vpermt2q", 0xfd083000, 0x1fffff000), (n!"vpermt2w", 0xfb083000, 0x1fffff000),
  (n!"vpermw", 0x11b083000, 0x1fffff000), (n!"vpexpandb", 0xc5082000, 0x1fffff000), (n!"vpexpandd", 0x113082000, 0x1fffff000),
  (n!"vpexpandq", 0x113083000, 0x1fffff000), (n!"vpexpandw", 0xc5083000, 0x1fffff000), (n!"vpgatherdd", 0x121082100, 0x1fffff100),
  (n!"vpgatherdq", 0x121083100, 0x1fffff100), (n!"vpgatherqd", 0x123082100, 0x1fffff100), (n!"vpgatherqq", 0x123083100, 0x1fffff100),
  (n!"vplzcntd", 0x89082000, 0x1fffff000), (n!"vplzcntq", 0x89083000, 0x1fffff000), (n!"vpmadd52huq", 0x16b083000, 0x1fffff000),
  (n!"vpmadd52luq", 0x169083000, 0x1fffff000), (n!"vpmaxsq", 0x7b083000, 0x1fffff000), (n!"vpmaxuq", 0x7f083000, 0x1fffff000),
  (n!"vpminsq", 0x73083000, 0x1fffff000), (n!"vpminuq", 0x77083000, 0x1fffff000), (n!"vpmovb2m", 0x53084000, 0x1fffff100),
  (n!"vpmovd2m", 0x73084000, 0x1fffff100), (n!"vpmovdb", 0x63084000, 0x1fffff000), (n!"vpmovdw", 0x67084000, 0x1fffff000),
  (n!"vpmovm2b", 0x51084000, 0x1fffff100), (n!"vpmovm2d", 0x71084000, 0x1fffff100), (n!"vpmovm2q", 0x71085000, 0x1fffff100),
  (n!"vpmovm2w", 0x51085000, 0x1fffff100), (n!"vpmovq2m", 0x73085000, 0x1fffff100), (n!"vpmovqb", 0x65084000, 0x1fffff000),
  (n!"vpmovqd", 0x6b084000, 0x1fffff000), (n!"vpmovqw", 0x69084000, 0x1fffff000), (n!"vpmovsdb", 0x43084000, 0x1fffff000),
  (n!"vpmovsdw", 0x47084000, 0x1fffff000), (n!"vpmovsqb", 0x45084000, 0x1fffff000), (n!"vpmovsqd", 0x4b084000, 0x1fffff000),
  (n!"vpmovsqw", 0x49084000, 0x1fffff000), (n!"vpmovswb", 0x41084000, 0x1fffff000), (n!"vpmovusdb", 0x23084000, 0x1fffff000),
  (n!"vpmovusdw", 0x27084000, 0x1fffff000), (n!"vpmovusqb", 0x25084000, 0x1fffff000), (n!"vpmovusqd", 0x2b084000, 0x1fffff000),
  (n!"vpmovusqw", 0x29084000, 0x1fffff000), (n!"vpmovuswb", 0x21084000, 0x1fffff000), (n!"vpmovw2m", 0x53085000, 0x1fffff100),
  (n!"vpmovwb", 0x61084000, 0x1fffff000), (n!"vpmullq", 0x81083000, 0x1fffff000), (n!"vpmultishiftqb", 0x107083000, 0x1fffff000),
  (n!"vpopcntb", 0xa9082000, 0x1fffff000), (n!"vpopcntd", 0xab082000, 0x1fffff000), (n!"vpopcntq", 0xab083000, 0x1fffff000),
  (n!"vpopcntw", 0xa9083000, 0x1fffff000), (n!"vpord", 0x1d7042000, 0x1fffff000), (n!"vporq", 0x1d7043000, 0x1fffff000),
  (n!"vprold", 0xe5042200, 0x1fffffe00), (n!"vprolq", 0xe5043200, 0x1fffffe00), (n!"vprolvd", 0x2b082000, 0x1fffff000),
  (n!"vprolvq", 0x2b083000, 0x1fffff000), (n!"vprord", 0xe5042000, 0x1fffffe00), (n!"vprorq", 0xe5043000, 0x1fffffe00),
  (n!"vprorvd", 0x29082000, 0x1fffff000), (n!"vprorvq", 0x29083000, 0x1fffff000), (n!"vpscatterdd", 0x141082100, 0x1fffff100),
  (n!"vpscatterdq", 0x141083100, 0x1fffff100), (n!"vpscatterqd", 0x143082100, 0x1fffff100), (n!"vpscatterqq", 0x143083100, 0x1fffff100),
  (n!"vpshldd", 0xe30c2000, 0x1fffff000), (n!"vpshldq", 0xe30c3000, 0x1fffff000), (n!"vpshldvd", 0xe3082000, 0x1fffff000),
  (n!"vpshldvq", 0xe3083000, 0x1fffff000), (n!"vpshldvw", 0xe1083000, 0x1fffff000), (n!"vpshldw", 0xe10c3000, 0x1fffff000),
  (n!"vpshrdd", 0xe70c2000, 0x1fffff000), (n!"vpshrdq", 0xe70c3000, 0x1fffff000), (n!"vpshrdvd", 0xe7082000, 0x1fffff000),
  (n!"vpshrdvq", 0xe7083000, 0x1fffff000), (n!"vpshrdvw", 0xe5083000, 0x1fffff000), (n!"vpshrdw", 0xe50c3000, 0x1fffff000),
  (n!"vpshufbitqmb", 0x11f082000, 0x1fffff000), (n!"vpsllvw", 0x25083000, 0x1fffff000), (n!"vpsraq", 0xe5043800, 0x1fffffe00),
  (n!"vpsraq", 0x1c5043000, 0x1fffff000), (n!"vpsravq", 0x8d083000, 0x1fffff000), (n!"vpsravw", 0x23083000, 0x1fffff000),
  (n!"vpsrlvw", 0x21083000, 0x1fffff000), (n!"vpternlogd", 0x4b0c2000, 0x1fffff000), (n!"vpternlogq", 0x4b0c3000, 0x1fffff000),
  (n!"vptestmb", 0x4d082000, 0x1fffff000), (n!"vptestmd", 0x4f082000, 0x1fffff000), (n!"vptestmq", 0x4f083000, 0x1fffff000),
  (n!"vptestmw", 0x4d083000, 0x1fffff000), (n!"vptestnmb", 0x4d084000, 0x1fffff000), (n!"vptestnmd", 0x4f084000, 0x1fffff000),
  (n!"vptestnmq", 0x4f085000, 0x1fffff000), (n!"vptestnmw", 0x4d085000, 0x1fffff000), (n!"vpxord", 0x1df042000, 0x1fffff000),
  (n!"vpxorq", 0x1df043000, 0x1fffff000), (n!"vrangepd", 0xa10c3000, 0x1fffff000), (n!"vrangeps", 0xa10c2000, 0x1fffff000),
  (n!"vrangesd", 0xa30c3000, 0x1fffff000), (n!"vrangess", 0xa30c2000, 0x1fffff000), (n!"vrcp14pd", 0x99083000, 0x1fffff000),
  (n!"vrcp14ps", 0x99082000, 0x1fffff000), (n!"vrcp14sd", 0x9b083000, 0x1fffff000), (n!"vrcp14ss", 0x9b082000, 0x1fffff000),
  (n!"vrcp28pd", 0x195083000, 0x1fffff000), (n!"vrcp28ps", 0x195082000, 0x1fffff000), (n!"vrcp28sd", 0x197083000, 0x1fffff000),
  (n!"vrcp28ss", 0x197082000, 0x1fffff000), (n!"vrcppbf16", 0x99180000, 0x1fffff000), (n!"vrcpph", 0x99182000, 0x1fffff000),
  (n!"vrcpsh", 0x9b182000, 0x1fffff000), (n!"vreducenepbf16", 0xad0c6000, 0x1fffff000), (n!"vreducepd", 0xad0c3000, 0x1fffff000),
  (n!"vreduceph", 0xad0c0000, 0x1fffff000), (n!"vreduceps", 0xad0c2000, 0x1fffff000), (n!"vreducesd", 0xaf0c3000, 0x1fffff000),
  (n!"vreducesh", 0xaf0c0000, 0x1fffff000), (n!"vreducess", 0xaf0c2000, 0x1fffff000), (n!"vrndscalenepbf16", 0x110c6000, 0x1fffff000),
  (n!"vrndscalepd", 0x130c3000, 0x1fffff000), (n!"vrndscaleph", 0x110c0000, 0x1fffff000), (n!"vrndscaleps", 0x110c2000, 0x1fffff000),
  (n!"vrndscalesd", 0x170c3000, 0x1fffff000), (n!"vrndscalesh", 0x150c0000, 0x1fffff000), (n!"vrndscaless", 0x150c2000, 0x1fffff000),
  (n!"vrsqrt14pd", 0x9d083000, 0x1fffff000), (n!"vrsqrt14ps", 0x9d082000, 0x1fffff000), (n!"vrsqrt14sd", 0x9f083000, 0x1fffff000),
  (n!"vrsqrt14ss", 0x9f082000, 0x1fffff000), (n!"vrsqrt28pd", 0x199083000, 0x1fffff000), (n!"vrsqrt28ps", 0x199082000, 0x1fffff000),
  (n!"vrsqrt28sd", 0x19b083000, 0x1fffff000), (n!"vrsqrt28ss", 0x19b082000, 0x1fffff000), (n!"vrsqrtpbf16", 0x9d180000, 0x1fffff000),
  (n!"vrsqrtph", 0x9d182000, 0x1fffff000), (n!"vrsqrtsh", 0x9f182000, 0x1fffff000), (n!"vscalefpbf16", 0x59180000, 0x1fffff000),
  (n!"vscalefpbf16", 0x59180000, 0x1fffff000), (n!"vscalefpd", 0x59083000, 0x1fffff000), (n!"vscalefph", 0x59182000, 0x1fffff000),
  (n!"vscalefps", 0x59082000, 0x1fffff000), (n!"vscalefsd", 0x5b083000, 0x1fffff000), (n!"vscalefsh", 0x5b182000, 0x1fffff000),
  (n!"vscalefss", 0x5b082000, 0x1fffff000), (n!"vscatterdpd", 0x145083100, 0x1fffff100), (n!"vscatterdps", 0x145082100, 0x1fffff100),
  (n!"vscatterpf0dpd", 0x18d083b00, 0x1ffffff00), (n!"vscatterpf0dps", 0x18d082b00, 0x1ffffff00),
  (n!"vscatterpf0qpd", 0x18f083b00, 0x1ffffff00), (n!"vscatterpf0qps", 0x18f082b00, 0x1ffffff00),
  (n!"vscatterpf1dpd", 0x18d083d00, 0x1ffffff00), (n!"vscatterpf1dps", 0x18d082d00, 0x1ffffff00),
  (n!"vscatterpf1qpd", 0x18f083d00, 0x1ffffff00), (n!"vscatterpf1qps", 0x18f082d00, 0x1ffffff00),
  (n!"vscatterqpd", 0x147083100, 0x1fffff100), (n!"vscatterqps", 0x147082100, 0x1fffff100), (n!"vshuff32x4", 0x470c2000, 0x1fffff000),
  (n!"vshuff64x2", 0x470c3000, 0x1fffff000), (n!"vshufi32x4", 0x870c2000, 0x1fffff000), (n!"vshufi64x2", 0x870c3000, 0x1fffff000),
  (n!"vsqrtnepbf16", 0xa3142000, 0x1fffff000), (n!"vsqrtph", 0xa3140000, 0x1fffff000), (n!"vsqrtsh", 0xa3144000, 0x1fffff000),
  (n!"vsubnepbf16", 0xb9142000, 0x1fffff000), (n!"vsubph", 0xb9140000, 0x1fffff000), (n!"vsubsh", 0xb9144000, 0x1fffff000),
  (n!"vucomish", 0x5d140000, 0x1fffff000), (n!"vucomxsd", 0x5d047000, 0x1fffff000), (n!"vucomxsh", 0x5d144000, 0x1fffff000),
  (n!"vucomxss", 0x5d044000, 0x1fffff000), (n!"kmovq", 0x126847000, 0x1fffff100), (n!"kmovq", 0x127047000, 0x1fffff100),
  (n!"kmovq", 0x122841100, 0x1fffff100), (n!"kmovq", 0x123041100, 0x1fffff100), (n!"vpbroadcastq", 0xf9083000, 0x1fffff100)]

set_option maxRecDepth 1000000 in
theorem rows_eq : ((all.filter Entry.vec).flatMap Entry.rows) = selRows := by decide +kernel

/-- Two rows with the same name, or a listed pair of names, or with a fixed field in which they differ. -/
def Row.ok (a b : Row) : Bool :=
  Nat.beq a.1 b.1 || !(Nat.beq (Nat.land (Nat.xor a.2.1 b.2.1) (Nat.land a.2.2 b.2.2)) 0) || listed pseudoOps a.1 b.1 || listed confusedPairs a.1 b.1

def pairsOk : List Row → Bool
  | [] => true
  | a :: l => l.all (Row.ok a) && pairsOk l

/-- Compare the rows with equal opcode (the upper eight bits). -/
def splitOk : Nat → List Row → Bool
  | 0, l => pairsOk l
  | k + 1, l => splitOk k (l.filter fun r => r.2.1.testBit (25 + k)) && splitOk k (l.filter fun r => !r.2.1.testBit (25 + k))

set_option maxRecDepth 1000000 in
theorem rows_ok : splitOk 8 selRows = true := by decide +kernel

theorem listed_comm (l : List (Nat × Nat)) (n m : Nat) : listed l n m = listed l m n := by
  unfold listed; congr 1; funext p; rw [Bool.or_comm]

theorem beq_comm' (a b : Nat) : Nat.beq a b = Nat.beq b a := by
  rw [Bool.eq_iff_iff, Nat.beq_eq, Nat.beq_eq]; exact eq_comm

theorem Row.ok_comm (a b : Row) : a.ok b = b.ok a := by
  unfold Row.ok
  rw [beq_comm' a.1, listed_comm _ a.1, listed_comm _ a.1]
  have h1 : Nat.xor a.2.1 b.2.1 = Nat.xor b.2.1 a.2.1 := Nat.xor_comm _ _
  have h2 : Nat.land a.2.2 b.2.2 = Nat.land b.2.2 a.2.2 := Nat.and_comm _ _
  rw [h1, h2]

theorem pairsOk_mem {l : List Row} (h : pairsOk l = true) {a b : Row} (ha : a ∈ l) (hb : b ∈ l) (hn : a.1 ≠ b.1) : a.ok b = true := by
  induction l with
  | nil => cases ha
  | cons c l ih =>
    simp only [pairsOk, Bool.and_eq_true, List.all_eq_true] at h
    rcases List.mem_cons.mp ha with rfl | ha'
    · rcases List.mem_cons.mp hb with rfl | hb'
      · exact absurd rfl hn
      · exact h.1 b hb'
    · rcases List.mem_cons.mp hb with rfl | hb'
      · rw [Row.ok_comm]; exact h.1 a ha'
      · exact ih h.2 ha' hb'

theorem splitOk_mem (k : Nat) {l : List Row} (h : splitOk k l = true) {a b : Row} (ha : a ∈ l) (hb : b ∈ l) (hn : a.1 ≠ b.1)
    (hk : ∀ j, j < k → a.2.1.testBit (25 + j) = b.2.1.testBit (25 + j)) : a.ok b = true := by
  induction k generalizing l with
  | zero => exact pairsOk_mem h ha hb hn
  | succ k ih =>
    simp only [splitOk, Bool.and_eq_true] at h
    have e := hk k (by omega)
    cases hx : a.2.1.testBit (25 + k) with
    | true => exact ih h.1 (List.mem_filter.mpr ⟨ha, hx⟩) (List.mem_filter.mpr ⟨hb, by rw [← e]; exact hx⟩) fun j hj => hk j (by omega)
    | false =>
      exact ih h.2 (List.mem_filter.mpr ⟨ha, by rw [hx]; rfl⟩) (List.mem_filter.mpr ⟨hb, by rw [← e, hx]; rfl⟩) fun j hj => hk j (by omega)

theorem bitsOf_compat {n : Nat} {a b : Option (BitVec n)} (h : odiff a b = false) : ((bitsOf a).1 ^^^ (bitsOf b).1) &&& ((bitsOf a).2 &&& (bitsOf b).2) = 0#n := by
  cases a <;> cases b <;> simp_all [bitsOf, odiff]

theorem odiff_b1 {a b : Option Bool} (h : odiff a b = false) : odiff (a.map b1) (b.map b1) = false := by
  cases a <;> cases b <;> simp_all [odiff]

theorem app_hi {a b : Nat} (x : BitVec a) (y : BitVec b) {k : Nat} (h : b ≤ k) : (x ++ y).getLsbD k = x.getLsbD (k - b) := by
  rw [BitVec.getLsbD_append, if_neg (by omega)]

theorem op_hi (op : BitVec 8) (a2 : BitVec 2) (a5 : BitVec 5) (b c d : BitVec 1) (pp : BitVec 2) (w : BitVec 1) (e : BitVec 3) (m : BitVec 1) (i : BitVec 8) (j : Nat) :
   (op ++ a2 ++ a5 ++ b ++ c ++ d ++ pp ++ w ++ e ++ m ++ i : BitVec 33).getLsbD (25 + j) = op.getLsbD j := by
  refine (app_hi _ _ (by omega)).trans ?_
  refine (app_hi _ _ (by omega)).trans ?_
  refine (app_hi _ _ (by omega)).trans ?_
  refine (app_hi _ _ (by omega)).trans ?_
  refine (app_hi _ _ (by omega)).trans ?_
  refine (app_hi _ _ (by omega)).trans ?_
  refine (app_hi _ _ (by omega)).trans ?_
  refine (app_hi _ _ (by omega)).trans ?_
  refine (app_hi _ _ (by omega)).trans ?_
  refine (app_hi _ _ (by omega)).trans ?_
  congr 1; omega

theorem compat33 (op : BitVec 8) (a2 : BitVec 2) (a5 : BitVec 5) (b c d : BitVec 1) (pp : BitVec 2) {w w' v v' : BitVec 1} {e e' f f' : BitVec 3} {m m' n n' : BitVec 1} {i i' k k' : BitVec 8}
   (hw : (w ^^^ w') &&& (v &&& v') = 0#1) (he : (e ^^^ e') &&& (f &&& f') = 0#3) (hm : (m ^^^ m') &&& (n &&& n') = 0#1) (hi : (i ^^^ i') &&& (k &&& k') = 0#8) :
   ((op ++ a2 ++ a5 ++ b ++ c ++ d ++ pp ++ w ++ e ++ m ++ i : BitVec 33) ^^^ (op ++ a2 ++ a5 ++ b ++ c ++ d ++ pp ++ w' ++ e' ++ m' ++ i' : BitVec 33)) &&&
    ((BitVec.allOnes 20 ++ v ++ f ++ n ++ k : BitVec 33) &&& (BitVec.allOnes 20 ++ v' ++ f' ++ n' ++ k' : BitVec 33)) = 0 := by
  show (((op ++ a2 ++ a5 ++ b ++ c ++ d ++ pp : BitVec 20) ++ w ++ e ++ m ++ i) ^^^ ((op ++ a2 ++ a5 ++ b ++ c ++ d ++ pp : BitVec 20) ++ w' ++ e' ++ m' ++ i')) &&&
    ((BitVec.allOnes 20 ++ v ++ f ++ n ++ k) &&& (BitVec.allOnes 20 ++ v' ++ f' ++ n' ++ k')) = 0#(20 + 1 + 3 + 1 + 8)
  generalize (op ++ a2 ++ a5 ++ b ++ c ++ d ++ pp : BitVec 20) = z
  rw [BitVec.xor_append, BitVec.and_append, BitVec.and_append, BitVec.xor_append, BitVec.and_append, BitVec.and_append, BitVec.xor_append, BitVec.and_append, BitVec.and_append, BitVec.xor_append, BitVec.and_append, BitVec.and_append, hw, he, hm, hi, BitVec.xor_self, BitVec.zero_and]
  rfl

/-- Selectors that do not exclude each other have rows that agree in the fixed fields. -/
theorem Sel.compat {s t : Sel} (h : s.disj t = false) (ho : s.op = t.op) : (s.val ^^^ t.val) &&& (s.mask &&& t.mask) = 0 := by
  simp only [Sel.disj, Bool.or_eq_false_iff, decide_eq_false_iff_not, ne_eq, Decidable.not_not, bne_eq_false_iff_eq] at h
  obtain ⟨⟨⟨⟨⟨⟨⟨⟨⟨h1, h2⟩, h3⟩, h4⟩, h5⟩, h6⟩, h7⟩, h8⟩, h9⟩, h10⟩ := h
  unfold Sel.val Sel.mask
  rw [h1, h2, h3, h4, h5, h6, ho]
  exact compat33 _ _ _ _ _ _ _ (bitsOf_compat (odiff_b1 h7)) (bitsOf_compat h8) (bitsOf_compat (odiff_b1 h9)) (bitsOf_compat h10)

theorem Sel.op_bits (s : Sel) (j : Nat) : s.val.toNat.testBit (25 + j) = s.op.getLsbD j := op_hi ..

/-- Two functions of the table with different, not listed names have selectors that exclude each other. -/
theorem sels_disj {e f : Entry} (he : e ∈ all) (hf : f ∈ all) (ve : e.vec = true) (vf : f.vec = true) (hn : e.name ≠ f.name)
    (h1 : listed pseudoOps e.name f.name = false) (h2 : listed confusedPairs e.name f.name = false) {s t : Sel} (hs : s ∈ e.sels) (ht : t ∈ f.sels) :
    ¬ (s.disj t = false ∧ s.op = t.op) := by
  rintro ⟨hd, ho⟩
  have m1 : ((e.name, s.val.toNat, s.mask.toNat) : Row) ∈ selRows := by
    rw [← rows_eq]; exact List.mem_flatMap.mpr ⟨e, List.mem_filter.mpr ⟨he, ve⟩, List.mem_map.mpr ⟨s, hs, rfl⟩⟩
  have m2 : ((f.name, t.val.toNat, t.mask.toNat) : Row) ∈ selRows := by
    rw [← rows_eq]; exact List.mem_flatMap.mpr ⟨f, List.mem_filter.mpr ⟨hf, vf⟩, List.mem_map.mpr ⟨t, ht, rfl⟩⟩
  have := splitOk_mem 8 rows_ok m1 m2 hn fun j _ => by rw [Sel.op_bits, Sel.op_bits, ho]
  have hc := congrArg BitVec.toNat (Sel.compat hd ho)
  rw [BitVec.toNat_and, BitVec.toNat_and, BitVec.toNat_xor] at hc
  unfold Row.ok at this
  simp only [h1, h2, Bool.or_false, Bool.or_eq_true, Nat.beq_eq, hn, false_or, Bool.not_eq_true'] at this
  have hz : Nat.beq (Nat.land (Nat.xor s.val.toNat t.val.toNat) (Nat.land s.mask.toNat t.mask.toNat)) 0 = true := Nat.beq_eq.mpr hc
  rw [hz] at this
  cases this

set_option maxRecDepth 1000000 in
theorem vec_check : (all.all fun e => !(e.params.any fun p => p matches .mmx | .xmm | .ymm | .zmm | .tmm | .opmask) || e.vec) = true := by decide +kernel

end Xbyak.Mn
