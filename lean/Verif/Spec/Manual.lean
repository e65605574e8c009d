import Verif.Spec.X86Ops
import Verif.Spec.Pseudo
/-!
# The instruction forms of the manual

For each SSE, AVX, AVX-512, mask, tile and BMI mnemonic the encodings the Intel SDM (volume 2; the AVX10.2 and APX specifications for the
newest ones) gives it: opcode space, mandatory prefix, map, opcode, W, the extension in ModRM.reg, the operand encoding (Op/En column)
and, for EVEX, the tuple type with the element size of an embedded broadcast.  Written from the manual, independently of the assembler.
-/
namespace Xbyak
namespace X86

/-- Where an operand is encoded: ModRM.reg, VEX/EVEX.vvvv, ModRM.rm, or bits 7:4 of the immediate. -/
inductive Role | reg | vvvv | rm | is4
  deriving DecidableEq, Repr

/-- The Op/En column: the operands in the order of Intel syntax. -/
inductive En | rm | mr | rvm | mvr | rmv | mrv | rvmr | vm | m | r
  deriving DecidableEq, Repr

def En.roles : En → List Role
  | .rm => [.reg, .rm]
  | .mr => [.rm, .reg]
  | .rvm => [.reg, .vvvv, .rm]
  | .mvr => [.rm, .vvvv, .reg]
  | .rmv => [.reg, .rm, .vvvv]
  | .mrv => [.rm, .reg, .vvvv]
  | .rvmr => [.reg, .vvvv, .rm, .is4]
  | .vm => [.vvvv, .rm]
  | .m => [.rm]
  | .r => [.reg]

/-- One line of the opcode column. -/
structure Form where
  sp : Space
  /-- mandatory prefix: 0 none, 1 66, 2 F3, 3 F2 -/
  pp : BitVec 2
  map : BitVec 5
  op : Byte
  /-- W; `none`: ignored, or selects the operand size -/
  w : Option Bool := none
  /-- /digit -/
  ext : Option (BitVec 3) := none
  en : En
  /-- tuple type; `none`: no memory operand, or displacements are not scaled -/
  tup : Option Tuple := none
  /-- bytes of a broadcast element; 0: no broadcast -/
  bc : Nat := 0
  deriving DecidableEq, Repr

/-- The prefixes, map, opcode, W and extension of an instruction (`reg`: bits 5:3 of its ModRM byte) are those of the form. -/
structure Form.Is (f : Form) (h : Head) (reg : BitVec 3) : Prop where
  sp : (if h.space = .rex2 then .legacy else h.space) = f.sp
  map : h.map = f.map
  op : h.opcode = f.op
  /-- legacy encodings have the mandatory prefix before the opcode, the others inside the VEX or EVEX prefix -/
  p66 : h.p66 = (f.sp == .legacy && f.pp == 1)
  pF3 : h.pF3 = (f.sp == .legacy && f.pp == 2)
  pF2 : h.pF2 = (f.sp == .legacy && f.pp == 3)
  pp : h.pp = if f.sp = .legacy then 0 else f.pp
  w : f.w = none ∨ f.w = some h.w
  ext : f.ext = none ∨ f.ext = some reg

/-- The unit of an 8-bit displacement (SDM 2.7.5): bytes of the memory operand, or of one element if it is broadcast. -/
def Form.unit (f : Form) (h : Head) : Nat :=
  if f.sp = .evex then
    if h.b then f.bc else match f.tup with
      | some t => t.unit (128 <<< h.L.toNat)
      | none => 1
  else 1

namespace Manual

/-- Legacy (SSE, MMX) form. -/
def L (pp : BitVec 2) (map : BitVec 5) (op : Byte) (w : Option Bool) (ext : Option (BitVec 3)) (en : En) : Form :=
  { sp := .legacy, pp := pp, map := map, op := op, w := w, ext := ext, en := en }
/-- VEX form. -/
def V (pp : BitVec 2) (map : BitVec 5) (op : Byte) (w : Option Bool) (ext : Option (BitVec 3)) (en : En) : Form :=
  { sp := .vex, pp := pp, map := map, op := op, w := w, ext := ext, en := en }
/-- EVEX form. -/
def E (pp : BitVec 2) (map : BitVec 5) (op : Byte) (w : Option Bool) (ext : Option (BitVec 3)) (en : En) (tup : Option Tuple) (bc : Nat) : Form :=
  { sp := .evex, pp := pp, map := map, op := op, w := w, ext := ext, en := en, tup := tup, bc := bc }
def W0 : Option Bool := some false
def W1 : Option Bool := some true
def X (n : BitVec 3) : Option (BitVec 3) := some n
/-- Full vector or full memory, half, quarter, eighth; fixed size; MOVDDUP; no scaling. -/
def fv : Option Tuple := some (.perVL 16)
def hv : Option Tuple := some (.perVL 8)
def qv : Option Tuple := some (.perVL 4)
def ov : Option Tuple := some (.perVL 2)
def fx (n : Nat) : Option Tuple := some (.fixed n)
def dup : Option Tuple := some .dup
def nt : Option Tuple := none
def any : Option Bool := none
def nx : Option (BitVec 3) := none

def t0 : List (Nat × List Form) := [
  (n!"addss", [L 2 1 0x58 any nx .rm]),
  (n!"blendvpd", [L 1 2 0x15 any nx .rm]),
  (n!"cmpbxadd", [V 1 2 0xE2 any nx .mrv, E 1 2 0xE2 any nx .mrv nt 0]),
  (n!"hsubpd", [L 1 1 0x7D any nx .rm]),
  (n!"pmovsxbw", [L 1 2 0x20 any nx .rm]),
  (n!"vcvtpd2ps", [V 1 1 0x5A any nx .rm, E 1 1 0x5A W1 nx .rm fv 8]),
  (n!"vcvtph2uqq", [E 1 5 0x79 W0 nx .rm qv 2]),
  (n!"vcvttpd2dq", [V 1 1 0xE6 any nx .rm, E 1 1 0xE6 W1 nx .rm fv 8]),
  (n!"vcvttpd2udqs", [E 0 5 0x6C W1 nx .rm fv 8]),
  (n!"vcvttps2uqq", [E 1 1 0x78 W0 nx .rm hv 4]),
  (n!"vfmaddsub213pd", [V 1 2 0xA6 W1 nx .rvm, E 1 2 0xA6 W1 nx .rvm fv 8]),
  (n!"vfmaddsub231ph", [E 1 6 0xB6 W0 nx .rvm fv 2]),
  (n!"vfpclasspbf16", [E 3 3 0x66 W0 nx .rm fv 2]),
  (n!"vmaxps", [V 0 1 0x5F any nx .rvm, E 0 1 0x5F W0 nx .rvm fv 4]),
  (n!"vpaddusb", [V 1 1 0xDC any nx .rvm, E 1 1 0xDC any nx .rvm fv 0]),
  (n!"vphaddd", [V 1 2 0x02 any nx .rvm]),
  (n!"vpmovd2m", [E 2 2 0x39 W0 nx .rm nt 0]),
  (n!"vpmullw", [V 1 1 0xD5 any nx .rvm, E 1 1 0xD5 any nx .rvm fv 0]),
  (n!"vpshldvw", [E 1 2 0x70 W1 nx .rvm fv 0]),
  (n!"vreduceph", [E 0 3 0x56 W0 nx .rm fv 2]),
  (n!"vscatterpf0qps", [E 1 2 0xC7 W0 (X 5) .m (fx 4) 0]),
  (n!"vsqrtnepbf16", [E 1 5 0x51 W0 nx .rm fv 2]),
  (n!"vsqrtps", [V 0 1 0x51 any nx .rm, E 0 1 0x51 W0 nx .rm fv 4])]
def t1 : List (Nat × List Form) := [
  (n!"pcmpgtw", [L 0 1 0x65 any nx .rm, L 1 1 0x65 any nx .rm]),
  (n!"vcvtqq2ph", [E 0 5 0x5B W1 nx .rm fv 8]),
  (n!"vcvttph2w", [E 1 5 0x7C W0 nx .rm fv 2]),
  (n!"vfmadd231ss", [V 1 2 0xB9 W0 nx .rvm, E 1 2 0xB9 W0 nx .rvm (fx 4) 0]),
  (n!"vfmsubadd132ps", [V 1 2 0x97 W0 nx .rvm, E 1 2 0x97 W0 nx .rvm fv 4]),
  (n!"vhsubps", [V 3 1 0x7D any nx .rvm]),
  (n!"vminps", [V 0 1 0x5D any nx .rvm, E 0 1 0x5D W0 nx .rvm fv 4]),
  (n!"vp2intersectq", [E 3 2 0x68 W1 nx .rvm fv 8]),
  (n!"vpackssdw", [V 1 1 0x6B any nx .rvm, E 1 1 0x6B W0 nx .rvm fv 4]),
  (n!"vpermi2q", [E 1 2 0x76 W1 nx .rvm fv 8]),
  (n!"vpmaskmovd", [V 1 2 0x8C W0 nx .rvm, V 1 2 0x8E W0 nx .mvr]),
  (n!"vrsqrt28sd", [E 1 2 0xCD W1 nx .rvm (fx 8) 0]),
  (n!"vrsqrtps", [V 0 1 0x52 any nx .rm])]
def t2 : List (Nat × List Form) := [
  (n!"pabsb", [L 0 2 0x1C any nx .rm, L 1 2 0x1C any nx .rm]),
  (n!"pcmpistrm", [L 1 3 0x62 any nx .rm]),
  (n!"pmaxsb", [L 1 2 0x3C any nx .rm]),
  (n!"pmovsxwq", [L 1 2 0x24 any nx .rm]),
  (n!"vcvtps2ibs", [E 1 5 0x69 W0 nx .rm fv 4]),
  (n!"vcvtsi2ss", [V 2 1 0x2A any nx .rvm, E 2 1 0x2A W0 nx .rvm (fx 4) 0, E 2 1 0x2A W1 nx .rvm (fx 8) 0]),
  (n!"vfpclassph", [E 0 3 0x66 W0 nx .rm fv 2]),
  (n!"vmovlpd", [V 1 1 0x12 any nx .rvm, E 1 1 0x12 W1 nx .rvm (fx 8) 0, V 1 1 0x13 any nx .mr, E 1 1 0x13 W1 nx .mr (fx 8) 0]),
  (n!"vpavgb", [V 1 1 0xE0 any nx .rvm, E 1 1 0xE0 any nx .rvm fv 0]),
  (n!"vpblendvb", [V 1 3 0x4C W0 nx .rvmr]),
  (n!"vpbroadcastw", [V 1 2 0x79 W0 nx .rm, E 1 2 0x79 W0 nx .rm (fx 2) 0, E 1 2 0x7B W0 nx .rm nt 0]),
  (n!"vpsubsb", [V 1 1 0xE8 any nx .rvm, E 1 1 0xE8 any nx .rvm fv 0]),
  (n!"vrcp14pd", [E 1 2 0x4C W1 nx .rm fv 8]),
  (n!"vrcpss", [V 2 1 0x53 any nx .rvm]),
  (n!"vrndscaleps", [E 1 3 0x08 W0 nx .rm fv 4])]
def t3 : List (Nat × List Form) := [
  (n!"cvtpd2ps", [L 1 1 0x5A any nx .rm]),
  (n!"paddq", [L 0 1 0xD4 any nx .rm, L 1 1 0xD4 any nx .rm]),
  (n!"pminsb", [L 1 2 0x38 any nx .rm]),
  (n!"tileloadd", [V 3 2 0x4B W0 nx .rm, E 3 2 0x4B W0 nx .rm nt 0]),
  (n!"vcmpsd", [V 3 1 0xC2 any nx .rvm, E 3 1 0xC2 W1 nx .rvm (fx 8) 0]),
  (n!"vcvtdq2ps", [V 0 1 0x5B any nx .rm, E 0 1 0x5B W0 nx .rm fv 4]),
  (n!"vfixupimmpd", [E 1 3 0x54 W1 nx .rvm fv 8]),
  (n!"vfmsub132pd", [V 1 2 0x9A W1 nx .rvm, E 1 2 0x9A W1 nx .rvm fv 8]),
  (n!"vfnmadd231pd", [V 1 2 0xBC W1 nx .rvm, E 1 2 0xBC W1 nx .rvm fv 8]),
  (n!"vmulph", [E 0 5 0x59 W0 nx .rvm fv 2]),
  (n!"vpcompressq", [E 1 2 0x8B W1 nx .mr (fx 8) 0]),
  (n!"vpmaxsq", [E 1 2 0x3D W1 nx .rvm fv 8]),
  (n!"vpscatterqd", [E 1 2 0xA1 W0 nx .mr (fx 4) 0]),
  (n!"vrcp28ps", [E 1 2 0xCA W0 nx .rm fv 4]),
  (n!"vsubph", [E 0 5 0x5C W0 nx .rvm fv 2])]
def t4 : List (Nat × List Form) := [
  (n!"blendps", [L 1 3 0x0C any nx .rm]),
  (n!"kandnq", [V 0 1 0x42 W1 nx .rvm]),
  (n!"kxnorb", [V 1 1 0x46 W0 nx .rvm]),
  (n!"movhps", [L 0 1 0x16 any nx .rm, L 0 1 0x17 any nx .mr]),
  (n!"movsd", [L 3 1 0x10 any nx .rm, L 3 1 0x11 any nx .mr]),
  (n!"pabsd", [L 0 2 0x1E any nx .rm, L 1 2 0x1E any nx .rm]),
  (n!"packssdw", [L 0 1 0x6B any nx .rm, L 1 1 0x6B any nx .rm]),
  (n!"pmaxsd", [L 1 2 0x3D any nx .rm]),
  (n!"vaesenclast", [V 1 2 0xDD any nx .rvm, E 1 2 0xDD any nx .rvm fv 0]),
  (n!"vblendpd", [V 1 3 0x0D any nx .rvm]),
  (n!"vcvtneph2hf8s", [E 2 5 0x1B W0 nx .rm fv 2]),
  (n!"vcvtneps2bf16", [V 2 2 0x72 W0 nx .rm, E 2 2 0x72 W0 nx .rm fv 4]),
  (n!"vcvtph2pd", [E 0 5 0x5A W0 nx .rm qv 2]),
  (n!"vcvtss2sd", [V 2 1 0x5A any nx .rvm, E 2 1 0x5A W0 nx .rvm (fx 4) 0]),
  (n!"vfmaddsub213ph", [E 1 6 0xA6 W0 nx .rvm fv 2]),
  (n!"vfnmadd132sd", [V 1 2 0x9D W1 nx .rvm, E 1 2 0x9D W1 nx .rvm (fx 8) 0]),
  (n!"vgetmantpd", [E 1 3 0x26 W1 nx .rm fv 8]),
  (n!"vlddqu", [V 3 1 0xF0 any nx .rm]),
  (n!"vminpbf16", [E 1 5 0x5D W0 nx .rvm fv 2]),
  (n!"vmovapd", [V 1 1 0x28 any nx .rm, E 1 1 0x28 W1 nx .rm fv 0, V 1 1 0x29 any nx .mr, E 1 1 0x29 W1 nx .mr fv 0]),
  (n!"vpackuswb", [V 1 1 0x67 any nx .rvm, E 1 1 0x67 any nx .rvm fv 0]),
  (n!"vpminsq", [E 1 2 0x39 W1 nx .rvm fv 8]),
  (n!"vpmovdw", [E 2 2 0x33 W0 nx .mr hv 0]),
  (n!"vpmovm2b", [E 2 2 0x28 W0 nx .rm nt 0]),
  (n!"vpmovsdb", [E 2 2 0x21 W0 nx .mr qv 0]),
  (n!"vpmovzxwd", [V 1 2 0x33 any nx .rm, E 1 2 0x33 any nx .rm hv 0]),
  (n!"vpshufb", [V 1 2 0x00 any nx .rvm, E 1 2 0x00 any nx .rvm fv 0]),
  (n!"vpsubusb", [V 1 1 0xD8 any nx .rvm, E 1 1 0xD8 any nx .rvm fv 0]),
  (n!"vpunpcklqdq", [V 1 1 0x6C any nx .rvm, E 1 1 0x6C W1 nx .rvm fv 8]),
  (n!"vrsqrtpbf16", [E 0 6 0x4E W0 nx .rm fv 2]),
  (n!"vscalefsd", [E 1 2 0x2D W1 nx .rvm (fx 8) 0]),
  (n!"vscatterpf0dpd", [E 1 2 0xC6 W1 (X 5) .m (fx 8) 0])]
def t5 : List (Nat × List Form) := [
  (n!"cmppxadd", [V 1 2 0xEA any nx .mrv, E 1 2 0xEA any nx .mrv nt 0]),
  (n!"cvtsi2ss", [L 2 1 0x2A any nx .rm]),
  (n!"kandw", [V 0 1 0x41 W0 nx .rvm]),
  (n!"kunpckwd", [V 0 1 0x4B W0 nx .rvm]),
  (n!"mulps", [L 0 1 0x59 any nx .rm]),
  (n!"pblendvb", [L 1 2 0x10 any nx .rm]),
  (n!"pminsd", [L 1 2 0x39 any nx .rm]),
  (n!"sarx", [V 2 2 0xF7 any nx .rmv, E 2 2 0xF7 any nx .rmv nt 0]),
  (n!"subps", [L 0 1 0x5C any nx .rm]),
  (n!"vaesdec", [V 1 2 0xDE any nx .rvm, E 1 2 0xDE any nx .rvm fv 0]),
  (n!"vcvtps2qq", [E 1 1 0x7B W0 nx .rm hv 4]),
  (n!"vdivss", [V 2 1 0x5E any nx .rvm, E 2 1 0x5E W0 nx .rvm (fx 4) 0]),
  (n!"vfmadd132nepbf16", [E 0 6 0x98 W0 nx .rvm fv 2]),
  (n!"vfmadd213ss", [V 1 2 0xA9 W0 nx .rvm, E 1 2 0xA9 W0 nx .rvm (fx 4) 0]),
  (n!"vfnmsub231sd", [V 1 2 0xBF W1 nx .rvm, E 1 2 0xBF W1 nx .rvm (fx 8) 0]),
  (n!"vgatherpf0qpd", [E 1 2 0xC7 W1 (X 1) .m (fx 8) 0]),
  (n!"vmovmskps", [V 0 1 0x50 any nx .rm]),
  (n!"vpermb", [E 1 2 0x8D W0 nx .rvm fv 0]),
  (n!"vpermt2w", [E 1 2 0x7D W1 nx .rvm fv 0]),
  (n!"vpord", [E 1 1 0xEB W0 nx .rvm fv 4]),
  (n!"vscatterpf1qpd", [E 1 2 0xC7 W1 (X 6) .m (fx 8) 0]),
  (n!"vtestpd", [V 1 2 0x0F W0 nx .rm])]
def t6 : List (Nat × List Form) := [
  (n!"cmpnbxadd", [V 1 2 0xE3 any nx .mrv, E 1 2 0xE3 any nx .mrv nt 0]),
  (n!"cvtdq2ps", [L 0 1 0x5B any nx .rm]),
  (n!"divpd", [L 1 1 0x5E any nx .rm]),
  (n!"dpps", [L 1 3 0x40 any nx .rm]),
  (n!"gf2p8mulb", [L 1 2 0xCF any nx .rm]),
  (n!"kxnord", [V 1 1 0x46 W1 nx .rvm]),
  (n!"movntdq", [L 1 1 0xE7 any nx .mr]),
  (n!"paddusw", [L 0 1 0xDD any nx .rm, L 1 1 0xDD any nx .rm]),
  (n!"palignr", [L 0 3 0x0F any nx .rm, L 1 3 0x0F any nx .rm]),
  (n!"por", [L 0 1 0xEB any nx .rm, L 1 1 0xEB any nx .rm]),
  (n!"vcvtneph2bf8s", [E 2 5 0x74 W0 nx .rm fv 2]),
  (n!"vcvtneph2hf8", [E 2 5 0x18 W0 nx .rm fv 2]),
  (n!"vcvttph2iubs", [E 0 5 0x6A W0 nx .rm fv 2]),
  (n!"vexp2ps", [E 1 2 0xC8 W0 nx .rm fv 4]),
  (n!"vhaddpd", [V 1 1 0x7C any nx .rvm]),
  (n!"vmovq", [V 1 1 0x6E W1 nx .rm, V 1 1 0x7E W1 nx .mr, V 2 1 0x7E any nx .rm, V 1 1 0xD6 any nx .mr, E 1 1 0x6E W1 nx .rm (fx 8) 0, E 1 1 0x7E W1 nx .mr (fx 8) 0, E 2 1 0x7E W1 nx .rm (fx 8) 0, E 1 1 0xD6 W1 nx .mr (fx 8) 0]),
  (n!"vpmovm2d", [E 2 2 0x38 W0 nx .rm nt 0]),
  (n!"vprold", [E 1 1 0x72 W0 (X 1) .vm fv 4]),
  (n!"vpshufd", [V 1 1 0x70 any nx .rm, E 1 1 0x70 W0 nx .rm fv 4]),
  (n!"vsm4rnds4", [V 3 2 0xDA W0 nx .rvm, E 3 2 0xDA W0 nx .rvm fv 0])]
def t7 : List (Nat × List Form) := [
  (n!"cvtss2sd", [L 2 1 0x5A any nx .rm]),
  (n!"packuswb", [L 0 1 0x67 any nx .rm, L 1 1 0x67 any nx .rm]),
  (n!"pmovzxwd", [L 1 2 0x33 any nx .rm]),
  (n!"pmuludq", [L 0 1 0xF4 any nx .rm, L 1 1 0xF4 any nx .rm]),
  (n!"vcmpsh", [E 2 3 0xC2 W0 nx .rvm (fx 2) 0]),
  (n!"vcomsbf16", [E 1 5 0x2F W0 nx .rm (fx 2) 0]),
  (n!"vdppd", [V 1 3 0x41 any nx .rvm]),
  (n!"vfmsub132ph", [E 1 6 0x9A W0 nx .rvm fv 2]),
  (n!"vfnmadd213pd", [V 1 2 0xAC W1 nx .rvm, E 1 2 0xAC W1 nx .rvm fv 8]),
  (n!"vfnmadd231ph", [E 1 6 0xBC W0 nx .rvm fv 2]),
  (n!"vinserti64x2", [E 1 3 0x38 W1 nx .rvm (fx 16) 0]),
  (n!"vmaskmovdqu", [V 1 1 0xF7 any nx .rm]),
  (n!"vpdpwusd", [V 1 2 0xD2 W0 nx .rvm, E 1 2 0xD2 W0 nx .rvm fv 4]),
  (n!"vpermd", [V 1 2 0x36 W0 nx .rvm, E 1 2 0x36 W0 nx .rvm fv 4]),
  (n!"vpermi2w", [E 1 2 0x75 W1 nx .rvm fv 0]),
  (n!"vpmulhuw", [V 1 1 0xE4 any nx .rvm, E 1 1 0xE4 any nx .rvm fv 0]),
  (n!"vpunpcklwd", [V 1 1 0x61 any nx .rvm, E 1 1 0x61 any nx .rvm fv 0]),
  (n!"vrangepd", [E 1 3 0x50 W1 nx .rvm fv 8])]
def t8 : List (Nat × List Form) := [
  (n!"cvttss2si", [L 2 1 0x2C any nx .rm]),
  (n!"kaddb", [V 1 1 0x4A W0 nx .rvm]),
  (n!"movmskps", [L 0 1 0x50 any nx .rm]),
  (n!"vcvtne2ph2hf8s", [E 3 5 0x1B W0 nx .rvm fv 2]),
  (n!"vcvtne2ps2bf16", [E 3 2 0x72 W0 nx .rvm fv 4]),
  (n!"vcvtss2sh", [E 0 5 0x1D W0 nx .rvm (fx 4) 0]),
  (n!"vfnmadd132sh", [E 1 6 0x9D W0 nx .rvm (fx 2) 0]),
  (n!"vfnmsub132nepbf16", [E 0 6 0x9E W0 nx .rvm fv 2]),
  (n!"vgetmantph", [E 0 3 0x26 W0 nx .rm fv 2]),
  (n!"vp4dpwssds", [E 3 2 0x53 W0 nx .rvm (fx 16) 0]),
  (n!"vscalefsh", [E 1 6 0x2D W0 nx .rvm (fx 2) 0]),
  (n!"vshufi64x2", [E 1 3 0x43 W1 nx .rvm fv 8])]
def t9 : List (Nat × List Form) := [
  (n!"aesenc256kl", [L 2 2 0xDE any nx .rm, E 2 4 0xDE any nx .rm nt 0]),
  (n!"aesenclast", [L 1 2 0xDD any nx .rm]),
  (n!"aesencwide256kl", [L 2 2 0xD8 any (X 2) .m, E 2 4 0xD8 any (X 2) .m nt 0]),
  (n!"cmpoxadd", [V 1 2 0xE0 any nx .mrv, E 1 2 0xE0 any nx .mrv nt 0]),
  (n!"cmpss", [L 2 1 0xC2 any nx .rm]),
  (n!"korb", [V 1 1 0x45 W0 nx .rvm]),
  (n!"mulx", [V 3 2 0xF6 any nx .rvm, E 3 2 0xF6 any nx .rvm nt 0]),
  (n!"paddw", [L 0 1 0xFD any nx .rm, L 1 1 0xFD any nx .rm]),
  (n!"psignb", [L 0 2 0x08 any nx .rm, L 1 2 0x08 any nx .rm]),
  (n!"punpcklqdq", [L 1 1 0x6C any nx .rm]),
  (n!"ucomiss", [L 0 1 0x2E any nx .rm]),
  (n!"vaddss", [V 2 1 0x58 any nx .rvm, E 2 1 0x58 W0 nx .rvm (fx 4) 0]),
  (n!"vcvtss2si", [V 2 1 0x2D any nx .rm, E 2 1 0x2D any nx .rm (fx 4) 0]),
  (n!"vfmsub213nepbf16", [E 0 6 0xAA W0 nx .rvm fv 2]),
  (n!"vfnmsub213sd", [V 1 2 0xAF W1 nx .rvm, E 1 2 0xAF W1 nx .rvm (fx 8) 0]),
  (n!"vfnmsub231sh", [E 1 6 0xBF W0 nx .rvm (fx 2) 0]),
  (n!"vinserti64x4", [E 1 3 0x3A W1 nx .rvm (fx 32) 0]),
  (n!"vldmxcsr", [V 0 1 0xAE any (X 2) .m]),
  (n!"vpcmpuq", [E 1 3 0x1E W1 nx .rvm fv 8]),
  (n!"vpcompressw", [E 1 2 0x63 W1 nx .mr (fx 2) 0]),
  (n!"vpmaxsw", [V 1 1 0xEE any nx .rvm, E 1 1 0xEE any nx .rvm fv 0]),
  (n!"vpmovzxbq", [V 1 2 0x32 any nx .rm, E 1 2 0x32 any nx .rm ov 0]),
  (n!"vpunpckhdq", [V 1 1 0x6A any nx .rvm, E 1 1 0x6A W0 nx .rvm fv 4]),
  (n!"vucomisd", [V 1 1 0x2E any nx .rm, E 1 1 0x2E W1 nx .rm (fx 8) 0]),
  (n!"vunpcklps", [V 0 1 0x14 any nx .rvm, E 0 1 0x14 W0 nx .rvm fv 4])]
def t10 : List (Nat × List Form) := [
  (n!"addpd", [L 1 1 0x58 any nx .rm]),
  (n!"kaddd", [V 1 1 0x4A W1 nx .rvm]),
  (n!"kandnw", [V 0 1 0x42 W0 nx .rvm]),
  (n!"psubusw", [L 0 1 0xD9 any nx .rm, L 1 1 0xD9 any nx .rm]),
  (n!"roundss", [L 1 3 0x0A any nx .rm]),
  (n!"vcvtne2ph2bf8s", [E 3 5 0x74 W0 nx .rvm fv 2]),
  (n!"vcvtpd2qq", [E 1 1 0x7B W1 nx .rm fv 8]),
  (n!"vcvtsd2usi", [E 3 1 0x79 any nx .rm (fx 8) 0]),
  (n!"vcvttph2udq", [E 0 5 0x78 W0 nx .rm hv 2]),
  (n!"vfnmsub132ps", [V 1 2 0x9E W0 nx .rvm, E 1 2 0x9E W0 nx .rvm fv 4]),
  (n!"vmaskmovpd", [V 1 2 0x2D W0 nx .rvm, V 1 2 0x2F W0 nx .mvr]),
  (n!"vminmaxsd", [E 1 3 0x53 W1 nx .rvm (fx 8) 0]),
  (n!"vpcmpgtq", [V 1 2 0x37 any nx .rvm, E 1 2 0x37 W1 nx .rvm fv 8]),
  (n!"vpmadd52huq", [V 1 2 0xB5 W1 nx .rvm, E 1 2 0xB5 W1 nx .rvm fv 8]),
  (n!"vpminsw", [V 1 1 0xEA any nx .rvm, E 1 1 0xEA any nx .rvm fv 0]),
  (n!"vroundsd", [V 1 3 0x0B any nx .rvm]),
  (n!"vscalefpbf16", [E 0 6 0x2C W0 nx .rvm fv 2])]
def t11 : List (Nat × List Form) := [
  (n!"cmpnpxadd", [V 1 2 0xEB any nx .mrv, E 1 2 0xEB any nx .mrv nt 0]),
  (n!"kord", [V 1 1 0x45 W1 nx .rvm]),
  (n!"kshiftlb", [V 1 3 0x32 W0 nx .rm]),
  (n!"mpsadbw", [L 1 3 0x42 any nx .rm]),
  (n!"orpd", [L 1 1 0x56 any nx .rm]),
  (n!"phsubw", [L 0 2 0x05 any nx .rm, L 1 2 0x05 any nx .rm]),
  (n!"psignd", [L 0 2 0x0A any nx .rm, L 1 2 0x0A any nx .rm]),
  (n!"psrldq", [L 1 1 0x73 any (X 3) .m]),
  (n!"punpckldq", [L 0 1 0x62 any nx .rm, L 1 1 0x62 any nx .rm]),
  (n!"vcvtss2usi", [E 2 1 0x79 any nx .rm (fx 4) 0]),
  (n!"vfmadd231pd", [V 1 2 0xB8 W1 nx .rvm, E 1 2 0xB8 W1 nx .rvm fv 8]),
  (n!"vfmaddsub231ps", [V 1 2 0xB6 W0 nx .rvm, E 1 2 0xB6 W0 nx .rvm fv 4]),
  (n!"vfnmadd213ph", [E 1 6 0xAC W0 nx .rvm fv 2]),
  (n!"vmovdqu64", [E 2 1 0x6F W1 nx .rm fv 0, E 2 1 0x7F W1 nx .mr fv 0]),
  (n!"vpabsb", [V 1 2 0x1C any nx .rm, E 1 2 0x1C any nx .rm fv 0]),
  (n!"vreduceps", [E 1 3 0x56 W0 nx .rm fv 4])]
def t12 : List (Nat × List Form) := [
  (n!"blsmsk", [V 0 2 0xF3 any (X 2) .vm, E 0 2 0xF3 any (X 2) .vm nt 0]),
  (n!"cvtss2si", [L 2 1 0x2D any nx .rm]),
  (n!"maskmovdqu", [L 1 1 0xF7 any nx .rm]),
  (n!"maxsd", [L 3 1 0x5F any nx .rm]),
  (n!"pmaddwd", [L 0 1 0xF5 any nx .rm, L 1 1 0xF5 any nx .rm]),
  (n!"pmovzxbq", [L 1 2 0x32 any nx .rm]),
  (n!"pslld", [L 0 1 0xF2 any nx .rm, L 1 1 0xF2 any nx .rm, L 0 1 0x72 any (X 6) .m, L 1 1 0x72 any (X 6) .m]),
  (n!"psrad", [L 0 1 0xE2 any nx .rm, L 1 1 0xE2 any nx .rm, L 0 1 0x72 any (X 4) .m, L 1 1 0x72 any (X 4) .m]),
  (n!"unpcklps", [L 0 1 0x14 any nx .rm]),
  (n!"vblendvps", [V 1 3 0x4A W0 nx .rvmr]),
  (n!"vcvtqq2ps", [E 0 1 0x5B W1 nx .rm fv 8]),
  (n!"vcvttps2udqs", [E 0 5 0x6C W0 nx .rm fv 4]),
  (n!"vextracti64x2", [E 1 3 0x39 W1 nx .mr (fx 16) 0]),
  (n!"vfmadd132sd", [V 1 2 0x99 W1 nx .rvm, E 1 2 0x99 W1 nx .rvm (fx 8) 0]),
  (n!"vpaddq", [V 1 1 0xD4 any nx .rvm, E 1 1 0xD4 W1 nx .rvm fv 8]),
  (n!"vpmaxub", [V 1 1 0xDE any nx .rvm, E 1 1 0xDE any nx .rvm fv 0]),
  (n!"vpmovusdw", [E 2 2 0x13 W0 nx .mr hv 0]),
  (n!"vpsadbw", [V 1 1 0xF6 any nx .rvm, E 1 1 0xF6 any nx .rvm fv 0]),
  (n!"vscatterqpd", [E 1 2 0xA3 W1 nx .mr (fx 8) 0])]
def t13 : List (Nat × List Form) := [
  (n!"cvttsd2si", [L 3 1 0x2C any nx .rm]),
  (n!"kshiftld", [V 1 3 0x33 W0 nx .rm]),
  (n!"ktestb", [V 1 1 0x99 W0 nx .rm]),
  (n!"minsd", [L 3 1 0x5D any nx .rm]),
  (n!"pslldq", [L 1 1 0x73 any (X 7) .m]),
  (n!"tdpbusd", [V 1 2 0x5E W0 nx .rmv]),
  (n!"vaesenc", [V 1 2 0xDC any nx .rvm, E 1 2 0xDC any nx .rvm fv 0]),
  (n!"valignd", [E 1 3 0x03 W0 nx .rvm fv 4]),
  (n!"vcvtsd2sh", [E 3 5 0x5A W1 nx .rvm (fx 8) 0]),
  (n!"vfmsub231sd", [V 1 2 0xBB W1 nx .rvm, E 1 2 0xBB W1 nx .rvm (fx 8) 0]),
  (n!"vfnmsub213sh", [E 1 6 0xAF W0 nx .rvm (fx 2) 0]),
  (n!"vfpclassps", [E 1 3 0x66 W0 nx .rm fv 4]),
  (n!"vgatherqpd", [V 1 2 0x93 W1 nx .rmv, E 1 2 0x93 W1 nx .rm (fx 8) 0]),
  (n!"vmovsd", [V 3 1 0x10 any nx .rm, V 3 1 0x10 any nx .rvm, E 3 1 0x10 W1 nx .rm (fx 8) 0, E 3 1 0x10 W1 nx .rvm (fx 8) 0, V 3 1 0x11 any nx .mr, V 3 1 0x11 any nx .mvr, E 3 1 0x11 W1 nx .mr (fx 8) 0, E 3 1 0x11 W1 nx .mvr (fx 8) 0]),
  (n!"vpabsd", [V 1 2 0x1E any nx .rm, E 1 2 0x1E W0 nx .rm fv 4]),
  (n!"vpcmpb", [E 1 3 0x3F W0 nx .rvm fv 0]),
  (n!"vpgatherdd", [V 1 2 0x90 W0 nx .rmv, E 1 2 0x90 W0 nx .rm (fx 4) 0]),
  (n!"vpminub", [V 1 1 0xDA any nx .rvm, E 1 1 0xDA any nx .rvm fv 0]),
  (n!"vpmulhw", [V 1 1 0xE5 any nx .rvm, E 1 1 0xE5 any nx .rvm fv 0]),
  (n!"vucomish", [E 0 5 0x2E W0 nx .rm (fx 2) 0])]
def t14 : List (Nat × List Form) := [
  (n!"pavgw", [L 0 1 0xE3 any nx .rm, L 1 1 0xE3 any nx .rm]),
  (n!"pcmpestri", [L 1 3 0x61 any nx .rm]),
  (n!"phaddd", [L 0 2 0x02 any nx .rm, L 1 2 0x02 any nx .rm]),
  (n!"pmullw", [L 0 1 0xD5 any nx .rm, L 1 1 0xD5 any nx .rm]),
  (n!"sqrtps", [L 0 1 0x51 any nx .rm]),
  (n!"tilestored", [V 2 2 0x4B W0 nx .mr, E 2 2 0x4B W0 nx .mr nt 0]),
  (n!"v4fnmaddps", [E 3 2 0xAA W0 nx .rvm (fx 16) 0]),
  (n!"vcvtsd2si", [V 3 1 0x2D any nx .rm, E 3 1 0x2D any nx .rm (fx 8) 0]),
  (n!"vextracti64x4", [E 1 3 0x3B W1 nx .mr (fx 32) 0]),
  (n!"vminmaxsh", [E 0 3 0x53 W0 nx .rvm (fx 2) 0]),
  (n!"vmovdqu16", [E 3 1 0x6F W1 nx .rm fv 0, E 3 1 0x7F W1 nx .mr fv 0]),
  (n!"vmulps", [V 0 1 0x59 any nx .rvm, E 0 1 0x59 W0 nx .rvm fv 4]),
  (n!"vpdpbusd", [V 1 2 0x50 W0 nx .rvm, E 1 2 0x50 W0 nx .rvm fv 4]),
  (n!"vpextrb", [V 1 3 0x14 W0 nx .mr, E 1 3 0x14 any nx .mr (fx 1) 0]),
  (n!"vphminposuw", [V 1 2 0x41 any nx .rm]),
  (n!"vpmaskmovq", [V 1 2 0x8C W1 nx .rvm, V 1 2 0x8E W1 nx .mvr]),
  (n!"vpmaxud", [V 1 2 0x3F any nx .rvm, E 1 2 0x3F W0 nx .rvm fv 4]),
  (n!"vsubps", [V 0 1 0x5C any nx .rvm, E 0 1 0x5C W0 nx .rvm fv 4])]
def t15 : List (Nat × List Form) := [
  (n!"aesdec128kl", [L 2 2 0xDD any nx .rm, E 2 4 0xDD any nx .rm nt 0]),
  (n!"blendvps", [L 1 2 0x14 any nx .rm]),
  (n!"cmpnoxadd", [V 1 2 0xE1 any nx .mrv, E 1 2 0xE1 any nx .mrv nt 0]),
  (n!"hsubps", [L 3 1 0x7D any nx .rm]),
  (n!"kortestb", [V 1 1 0x98 W0 nx .rm]),
  (n!"ktestd", [V 1 1 0x99 W1 nx .rm]),
  (n!"movntpd", [L 1 1 0x2B any nx .mr]),
  (n!"v4fmaddps", [E 3 2 0x9A W0 nx .rvm (fx 16) 0]),
  (n!"vaddnepbf16", [E 1 5 0x58 W0 nx .rvm fv 2]),
  (n!"vbroadcasti64x2", [E 1 2 0x5A W1 nx .rm (fx 16) 0]),
  (n!"vdivpd", [V 1 1 0x5E any nx .rvm, E 1 1 0x5E W1 nx .rvm fv 8]),
  (n!"vfmadd213pd", [V 1 2 0xA8 W1 nx .rvm, E 1 2 0xA8 W1 nx .rvm fv 8]),
  (n!"vfmadd231ph", [E 1 6 0xB8 W0 nx .rvm fv 2]),
  (n!"vfmaddsub213ps", [V 1 2 0xA6 W0 nx .rvm, E 1 2 0xA6 W0 nx .rvm fv 4]),
  (n!"vpand", [V 1 1 0xDB any nx .rvm]),
  (n!"vpcmpd", [E 1 3 0x1F W0 nx .rvm fv 4]),
  (n!"vpcmpuw", [E 1 3 0x3E W1 nx .rvm fv 0]),
  (n!"vpermt2pd", [E 1 2 0x7F W1 nx .rvm fv 8]),
  (n!"vpminud", [V 1 2 0x3B any nx .rvm, E 1 2 0x3B W0 nx .rvm fv 4]),
  (n!"vpmovsxdq", [V 1 2 0x25 any nx .rm, E 1 2 0x25 W0 nx .rm hv 0]),
  (n!"vpmovzxbw", [V 1 2 0x30 any nx .rm, E 1 2 0x30 any nx .rm hv 0]),
  (n!"vpxord", [E 1 1 0xEF W0 nx .rvm fv 4]),
  (n!"vrsqrt14sd", [E 1 2 0x4F W1 nx .rvm (fx 8) 0])]
def t16 : List (Nat × List Form) := [
  (n!"kunpckbw", [V 1 1 0x4B W0 nx .rvm]),
  (n!"movlpd", [L 1 1 0x12 any nx .rm, L 1 1 0x13 any nx .mr]),
  (n!"psubsb", [L 0 1 0xE8 any nx .rm, L 1 1 0xE8 any nx .rm]),
  (n!"punpckhwd", [L 0 1 0x69 any nx .rm, L 1 1 0x69 any nx .rm]),
  (n!"vcvtnebf162ibs", [E 3 5 0x69 W0 nx .rm fv 2]),
  (n!"vcvtpd2uqq", [E 1 1 0x79 W1 nx .rm fv 8]),
  (n!"vfmadd132sh", [E 1 6 0x99 W0 nx .rvm (fx 2) 0]),
  (n!"vgetexpsd", [E 1 2 0x43 W1 nx .rvm (fx 8) 0]),
  (n!"vpblendmb", [E 1 2 0x66 W0 nx .rvm fv 0]),
  (n!"vpcmpgtw", [V 1 1 0x65 any nx .rvm, E 1 1 0x65 any nx .rvm fv 0]),
  (n!"vpdpwusds", [V 1 2 0xD3 W0 nx .rvm, E 1 2 0xD3 W0 nx .rvm fv 4]),
  (n!"vpextrd", [V 1 3 0x16 W0 nx .mr, E 1 3 0x16 W0 nx .mr (fx 4) 0]),
  (n!"vpscatterqq", [E 1 2 0xA1 W1 nx .mr (fx 8) 0]),
  (n!"vpsignw", [V 1 2 0x09 any nx .rvm]),
  (n!"vrcpph", [E 1 6 0x4C W0 nx .rm fv 2]),
  (n!"vrsqrt28ss", [E 1 2 0xCD W0 nx .rvm (fx 4) 0])]
def t17 : List (Nat × List Form) := [
  (n!"cvtsd2si", [L 3 1 0x2D any nx .rm]),
  (n!"kortestd", [V 1 1 0x98 W1 nx .rm]),
  (n!"movq2dq", [L 2 1 0xD6 any nx .rm]),
  (n!"vbroadcasti64x4", [E 1 2 0x5B W1 nx .rm (fx 32) 0]),
  (n!"vcvtps2uqq", [E 1 1 0x79 W0 nx .rm hv 4]),
  (n!"vfmaddcph", [E 2 6 0x56 W0 nx .rvm fv 4]),
  (n!"vfmsub213sd", [V 1 2 0xAB W1 nx .rvm, E 1 2 0xAB W1 nx .rvm (fx 8) 0]),
  (n!"vfmsub231sh", [E 1 6 0xBB W0 nx .rvm (fx 2) 0]),
  (n!"vinserti128", [V 1 3 0x38 W0 nx .rvm]),
  (n!"vmovlps", [V 0 1 0x12 any nx .rvm, E 0 1 0x12 W0 nx .rvm (fx 8) 0, V 0 1 0x13 any nx .mr, E 0 1 0x13 W0 nx .mr (fx 8) 0]),
  (n!"vmovsh", [E 2 5 0x10 W0 nx .rm (fx 2) 0, E 2 5 0x10 W0 nx .rvm (fx 2) 0, E 2 5 0x11 W0 nx .mr (fx 2) 0, E 2 5 0x11 W0 nx .mvr (fx 2) 0]),
  (n!"vmovupd", [V 1 1 0x10 any nx .rm, E 1 1 0x10 W1 nx .rm fv 0, V 1 1 0x11 any nx .mr, E 1 1 0x11 W1 nx .mr fv 0]),
  (n!"vplzcntd", [E 1 2 0x44 W0 nx .rm fv 4]),
  (n!"vpmovb2m", [E 2 2 0x29 W0 nx .rm nt 0]),
  (n!"vpmovqb", [E 2 2 0x32 W0 nx .mr ov 0]),
  (n!"vpmovzxwq", [V 1 2 0x34 any nx .rm, E 1 2 0x34 any nx .rm qv 0]),
  (n!"vprord", [E 1 1 0x72 W0 (X 0) .vm fv 4]),
  (n!"vpsrlvd", [V 1 2 0x45 W0 nx .rvm, E 1 2 0x45 W0 nx .rvm fv 4]),
  (n!"vrcp14ps", [E 1 2 0x4C W0 nx .rm fv 4]),
  (n!"vshufpd", [V 1 1 0xC6 any nx .rvm, E 1 1 0xC6 W1 nx .rvm fv 8])]
def t18 : List (Nat × List Form) := [
  (n!"movapd", [L 1 1 0x28 any nx .rm, L 1 1 0x29 any nx .mr]),
  (n!"pcmpestrm", [L 1 3 0x60 any nx .rm]),
  (n!"pmovsxdq", [L 1 2 0x25 any nx .rm]),
  (n!"pmovzxbw", [L 1 2 0x30 any nx .rm]),
  (n!"pshufb", [L 0 2 0x00 any nx .rm, L 1 2 0x00 any nx .rm]),
  (n!"rcpps", [L 0 1 0x53 any nx .rm]),
  (n!"vcmpss", [V 2 1 0xC2 any nx .rvm, E 2 1 0xC2 W0 nx .rvm (fx 4) 0]),
  (n!"vfixupimmps", [E 1 3 0x54 W0 nx .rvm fv 4]),
  (n!"vfmsub132ps", [V 1 2 0x9A W0 nx .rvm, E 1 2 0x9A W0 nx .rvm fv 4]),
  (n!"vfmsub231nepbf16", [E 0 6 0xBA W0 nx .rvm fv 2]),
  (n!"vfnmadd231ps", [V 1 2 0xBC W0 nx .rvm, E 1 2 0xBC W0 nx .rvm fv 4]),
  (n!"vinsertf128", [V 1 3 0x18 W0 nx .rvm]),
  (n!"vmovdqa", [V 1 1 0x6F any nx .rm, V 1 1 0x7F any nx .mr]),
  (n!"vpaddw", [V 1 1 0xFD any nx .rvm, E 1 1 0xFD any nx .rvm fv 0]),
  (n!"vpblendmd", [E 1 2 0x64 W0 nx .rvm fv 4]),
  (n!"vporq", [E 1 1 0xEB W1 nx .rvm fv 8]),
  (n!"vpunpcklbw", [V 1 1 0x60 any nx .rvm, E 1 1 0x60 any nx .rvm fv 0])]
def t19 : List (Nat × List Form) := [
  (n!"aesdec", [L 1 2 0xDE any nx .rm]),
  (n!"bzhi", [V 0 2 0xF5 any nx .rmv, E 0 2 0xF5 any nx .rmv nt 0]),
  (n!"cmppd", [L 1 1 0xC2 any nx .rm]),
  (n!"kxnorq", [V 0 1 0x46 W1 nx .rvm]),
  (n!"movss", [L 2 1 0x10 any nx .rm, L 2 1 0x11 any nx .mr]),
  (n!"phminposuw", [L 1 2 0x41 any nx .rm]),
  (n!"vaddpd", [V 1 1 0x58 any nx .rvm, E 1 1 0x58 W1 nx .rvm fv 8]),
  (n!"vblendps", [V 1 3 0x0C any nx .rvm]),
  (n!"vcvtph2ps", [V 1 2 0x13 W0 nx .rm, E 1 2 0x13 W0 nx .rm hv 0]),
  (n!"vcvttph2dq", [E 2 5 0x5B W0 nx .rm hv 2]),
  (n!"vdivph", [E 0 5 0x5E W0 nx .rvm fv 2]),
  (n!"vfmadd213ph", [E 1 6 0xA8 W0 nx .rvm fv 2]),
  (n!"vfnmadd132ss", [V 1 2 0x9D W0 nx .rvm, E 1 2 0x9D W0 nx .rvm (fx 4) 0]),
  (n!"vgetmantps", [E 1 3 0x26 W0 nx .rm fv 4]),
  (n!"vinsertf64x2", [E 1 3 0x18 W1 nx .rvm (fx 16) 0]),
  (n!"vmovaps", [V 0 1 0x28 any nx .rm, E 0 1 0x28 W0 nx .rm fv 0, V 0 1 0x29 any nx .mr, E 0 1 0x29 W0 nx .mr fv 0]),
  (n!"vphaddw", [V 1 2 0x01 any nx .rvm]),
  (n!"vpmovm2q", [E 2 2 0x38 W1 nx .rm nt 0]),
  (n!"vpmovqd", [E 2 2 0x35 W0 nx .mr hv 0]),
  (n!"vprolq", [E 1 1 0x72 W1 (X 1) .vm fv 8]),
  (n!"vpsllvd", [V 1 2 0x47 W0 nx .rvm, E 1 2 0x47 W0 nx .rvm fv 4]),
  (n!"vpsravd", [V 1 2 0x46 W0 nx .rvm, E 1 2 0x46 W0 nx .rvm fv 4]),
  (n!"vscalefss", [E 1 2 0x2D W0 nx .rvm (fx 4) 0]),
  (n!"vscatterpf0dps", [E 1 2 0xC6 W0 (X 5) .m (fx 4) 0]),
  (n!"xorpd", [L 1 1 0x57 any nx .rm])]
def t20 : List (Nat × List Form) := [
  (n!"gf2p8affineinvqb", [L 1 3 0xCF any nx .rm]),
  (n!"haddpd", [L 1 1 0x7C any nx .rm]),
  (n!"phsubsw", [L 0 2 0x07 any nx .rm, L 1 2 0x07 any nx .rm]),
  (n!"pmovzxwq", [L 1 2 0x34 any nx .rm]),
  (n!"pshufd", [L 1 1 0x70 any nx .rm]),
  (n!"roundpd", [L 1 3 0x09 any nx .rm]),
  (n!"vextractps", [V 1 3 0x17 any nx .mr, E 1 3 0x17 any nx .mr (fx 4) 0]),
  (n!"vfnmsub231ss", [V 1 2 0xBF W0 nx .rvm, E 1 2 0xBF W0 nx .rvm (fx 4) 0]),
  (n!"vgatherpf0qps", [E 1 2 0xC7 W0 (X 1) .m (fx 4) 0]),
  (n!"vgetexpsh", [E 1 6 0x43 W0 nx .rvm (fx 2) 0]),
  (n!"vpdpwsuds", [V 2 2 0xD3 W0 nx .rvm, E 2 2 0xD3 W0 nx .rvm fv 4]),
  (n!"vpermq", [E 1 2 0x36 W1 nx .rvm fv 8, V 1 3 0x00 W1 nx .rm, E 1 3 0x00 W1 nx .rm fv 8]),
  (n!"vpinsrb", [V 1 3 0x20 W0 nx .rvm, E 1 3 0x20 any nx .rvm (fx 1) 0]),
  (n!"vpmuldq", [V 1 2 0x28 any nx .rvm, E 1 2 0x28 W1 nx .rvm fv 8]),
  (n!"vscatterpf1qps", [E 1 2 0xC7 W0 (X 6) .m (fx 4) 0]),
  (n!"vshuff64x2", [E 1 3 0x23 W1 nx .rvm fv 8]),
  (n!"vsm4key4", [V 2 2 0xDA W0 nx .rvm, E 2 2 0xDA W0 nx .rvm fv 0]),
  (n!"vtestps", [V 1 2 0x0E W0 nx .rm])]
def t21 : List (Nat × List Form) := [
  (n!"cmpbexadd", [V 1 2 0xE6 any nx .mrv, E 1 2 0xE6 any nx .mrv nt 0]),
  (n!"cmplxadd", [V 1 2 0xEC any nx .mrv, E 1 2 0xEC any nx .mrv nt 0]),
  (n!"divps", [L 0 1 0x5E any nx .rm]),
  (n!"vcvtbiasph2hf8s", [E 0 5 0x1B W0 nx .rvm fv 2]),
  (n!"vfmsub213sh", [E 1 6 0xAB W0 nx .rvm (fx 2) 0]),
  (n!"vfmsubadd231pd", [V 1 2 0xB7 W1 nx .rvm, E 1 2 0xB7 W1 nx .rvm fv 8]),
  (n!"vhaddps", [V 3 1 0x7C any nx .rvm]),
  (n!"vinsertf64x4", [E 1 3 0x1A W1 nx .rvm (fx 32) 0]),
  (n!"vmaxsd", [V 3 1 0x5F any nx .rvm, E 3 1 0x5F W1 nx .rvm (fx 8) 0]),
  (n!"vmovdqa32", [E 1 1 0x6F W0 nx .rm fv 0, E 1 1 0x7F W0 nx .mr fv 0]),
  (n!"vmovntdq", [V 1 1 0xE7 any nx .mr, E 1 1 0xE7 W0 nx .mr fv 0]),
  (n!"vpaddusw", [V 1 1 0xDD any nx .rvm, E 1 1 0xDD any nx .rvm fv 0]),
  (n!"vpalignr", [V 1 3 0x0F any nx .rvm, E 1 3 0x0F any nx .rvm fv 0]),
  (n!"vpexpandb", [E 1 2 0x62 W0 nx .rm (fx 1) 0]),
  (n!"vpslld", [V 1 1 0xF2 any nx .rvm, E 1 1 0xF2 W0 nx .rvm (fx 16) 0, V 1 1 0x72 any (X 6) .vm, E 1 1 0x72 W0 (X 6) .vm fv 4]),
  (n!"vpsrad", [V 1 1 0xE2 any nx .rvm, E 1 1 0xE2 W0 nx .rvm (fx 16) 0, V 1 1 0x72 any (X 4) .vm, E 1 1 0x72 W0 (X 4) .vm fv 4]),
  (n!"vreducenepbf16", [E 3 3 0x56 W0 nx .rm fv 2]),
  (n!"vsqrtsd", [V 3 1 0x51 any nx .rvm, E 3 1 0x51 W1 nx .rvm (fx 8) 0])]
def t22 : List (Nat × List Form) := [
  (n!"kshiftrb", [V 1 3 0x30 W0 nx .rm]),
  (n!"pcmpeqb", [L 0 1 0x74 any nx .rm, L 1 1 0x74 any nx .rm]),
  (n!"psrld", [L 0 1 0xD2 any nx .rm, L 1 1 0xD2 any nx .rm, L 0 1 0x72 any (X 2) .m, L 1 1 0x72 any (X 2) .m]),
  (n!"rsqrtss", [L 2 1 0x52 any nx .rm]),
  (n!"tdpbf16ps", [V 2 2 0x5C W0 nx .rmv]),
  (n!"vandnpd", [V 1 1 0x55 any nx .rvm, E 1 1 0x55 W1 nx .rvm fv 8]),
  (n!"vcvtph2uw", [E 0 5 0x7D W0 nx .rm fv 2]),
  (n!"vcvttsd2sis", [E 3 5 0x6D any nx .rm (fx 8) 0]),
  (n!"vdpps", [V 1 3 0x40 any nx .rvm]),
  (n!"vfmaddsub132pd", [V 1 2 0x96 W1 nx .rvm, E 1 2 0x96 W1 nx .rvm fv 8]),
  (n!"vfnmadd213ps", [V 1 2 0xAC W0 nx .rvm, E 1 2 0xAC W0 nx .rvm fv 4]),
  (n!"vminsd", [V 3 1 0x5D any nx .rvm, E 3 1 0x5D W1 nx .rvm (fx 8) 0]),
  (n!"vpaddsb", [V 1 1 0xEC any nx .rvm, E 1 1 0xEC any nx .rvm fv 0]),
  (n!"vpdpbuuds", [V 0 2 0x51 W0 nx .rvm, E 0 2 0x51 W0 nx .rvm fv 4]),
  (n!"vpinsrd", [V 1 3 0x22 W0 nx .rvm, E 1 3 0x22 W0 nx .rvm (fx 4) 0]),
  (n!"vpmuludq", [V 1 1 0xF4 any nx .rvm, E 1 1 0xF4 W1 nx .rvm fv 8]),
  (n!"vprolvd", [E 1 2 0x15 W0 nx .rvm fv 4]),
  (n!"vptestmb", [E 1 2 0x26 W0 nx .rvm fv 0]),
  (n!"vrangeps", [E 1 3 0x50 W0 nx .rvm fv 4])]
def t23 : List (Nat × List Form) := [
  (n!"kaddq", [V 0 1 0x4A W1 nx .rvm]),
  (n!"movddup", [L 3 1 0x12 any nx .rm]),
  (n!"pabsw", [L 0 2 0x1D any nx .rm, L 1 2 0x1D any nx .rm]),
  (n!"pmaxsw", [L 0 1 0xEE any nx .rm, L 1 1 0xEE any nx .rm]),
  (n!"vaddph", [E 0 5 0x58 W0 nx .rvm fv 2]),
  (n!"vcvtbiasph2bf8s", [E 0 5 0x74 W0 nx .rvm fv 2]),
  (n!"vcvttnebf162ibs", [E 3 5 0x68 W0 nx .rm fv 2]),
  (n!"vcvttss2sis", [E 2 5 0x6D any nx .rm (fx 4) 0]),
  (n!"vfnmadd132nepbf16", [E 0 6 0x9C W0 nx .rvm fv 2]),
  (n!"vpavgw", [V 1 1 0xE3 any nx .rvm, E 1 1 0xE3 any nx .rvm fv 0]),
  (n!"vpcmpistri", [V 1 3 0x63 any nx .rm]),
  (n!"vpermpd", [E 1 2 0x16 W1 nx .rvm fv 8, V 1 3 0x01 W1 nx .rm, E 1 3 0x01 W1 nx .rm fv 8]),
  (n!"vpexpandd", [E 1 2 0x89 W0 nx .rm (fx 4) 0]),
  (n!"vpsubsw", [V 1 1 0xE9 any nx .rvm, E 1 1 0xE9 any nx .rvm fv 0]),
  (n!"vpternlogd", [E 1 3 0x25 W0 nx .rvm fv 4]),
  (n!"vrndscalesd", [E 1 3 0x0B W1 nx .rvm (fx 8) 0])]
def t24 : List (Nat × List Form) := [
  (n!"korq", [V 0 1 0x45 W1 nx .rvm]),
  (n!"kshiftrd", [V 1 3 0x31 W0 nx .rm]),
  (n!"kxorb", [V 1 1 0x47 W0 nx .rvm]),
  (n!"pcmpeqd", [L 0 1 0x76 any nx .rm, L 1 1 0x76 any nx .rm]),
  (n!"pminsw", [L 0 1 0xEA any nx .rm, L 1 1 0xEA any nx .rm]),
  (n!"vcvtneeph2ps", [V 1 2 0xB0 W0 nx .rm]),
  (n!"vcvtsd2ss", [V 3 1 0x5A any nx .rvm, E 3 1 0x5A W1 nx .rvm (fx 8) 0]),
  (n!"vcvtusi2sd", [E 3 1 0x7B W0 nx .rvm (fx 4) 0, E 3 1 0x7B W1 nx .rvm (fx 8) 0]),
  (n!"vdivnepbf16", [E 1 5 0x5E W0 nx .rvm fv 2]),
  (n!"vextractf64x2", [E 1 3 0x19 W1 nx .mr (fx 16) 0]),
  (n!"vfmadd213nepbf16", [E 0 6 0xA8 W0 nx .rvm fv 2]),
  (n!"vfnmsub213ss", [V 1 2 0xAF W0 nx .rvm, E 1 2 0xAF W0 nx .rvm (fx 4) 0]),
  (n!"vgatherpf0dpd", [E 1 2 0xC6 W1 (X 1) .m (fx 8) 0]),
  (n!"vmovdqu8", [E 3 1 0x6F W0 nx .rm fv 0, E 3 1 0x7F W0 nx .mr fv 0]),
  (n!"vpclmulqdq", [V 1 3 0x44 any nx .rvm, E 1 3 0x44 any nx .rvm fv 0]),
  (n!"vpconflictd", [E 1 2 0xC4 W0 nx .rm fv 4]),
  (n!"vpdpwssd", [V 1 2 0x52 W0 nx .rvm, E 1 2 0x52 W0 nx .rvm fv 4]),
  (n!"vptestmd", [E 1 2 0x27 W0 nx .rvm fv 4]),
  (n!"vrcp28sd", [E 1 2 0xCB W1 nx .rvm (fx 8) 0]),
  (n!"vscatterpf1dpd", [E 1 2 0xC6 W1 (X 6) .m (fx 8) 0]),
  (n!"vucomiss", [V 0 1 0x2E any nx .rm, E 0 1 0x2E W0 nx .rm (fx 4) 0])]
def t25 : List (Nat × List Form) := [
  (n!"addps", [L 0 1 0x58 any nx .rm]),
  (n!"kxnorw", [V 0 1 0x46 W0 nx .rvm]),
  (n!"psllq", [L 0 1 0xF3 any nx .rm, L 1 1 0xF3 any nx .rm, L 0 1 0x73 any (X 6) .m, L 1 1 0x73 any (X 6) .m]),
  (n!"sha1rnds4", [L 0 3 0xCC any nx .rm, E 0 4 0xD4 any nx .rm nt 0]),
  (n!"vcvtudq2pd", [E 2 1 0x7A W0 nx .rm hv 4]),
  (n!"vfmsubadd213pd", [V 1 2 0xA7 W1 nx .rvm, E 1 2 0xA7 W1 nx .rvm fv 8]),
  (n!"vfmsubadd231ph", [E 1 6 0xB7 W0 nx .rvm fv 2]),
  (n!"vgatherpf1qpd", [E 1 2 0xC7 W1 (X 2) .m (fx 8) 0]),
  (n!"vmaskmovps", [V 1 2 0x2C W0 nx .rvm, V 1 2 0x2E W0 nx .mvr]),
  (n!"vmaxsh", [E 2 5 0x5F W0 nx .rvm (fx 2) 0]),
  (n!"vminmaxss", [E 1 3 0x53 W0 nx .rvm (fx 4) 0]),
  (n!"vpacksswb", [V 1 1 0x63 any nx .rvm, E 1 1 0x63 any nx .rvm fv 0]),
  (n!"vpbroadcastmb2q", [E 2 2 0x2A W1 nx .rm nt 0]),
  (n!"vpmovm2w", [E 2 2 0x28 W1 nx .rm nt 0]),
  (n!"vpmovsdw", [E 2 2 0x23 W0 nx .mr hv 0]),
  (n!"vpmovusqb", [E 2 2 0x12 W0 nx .mr ov 0]),
  (n!"vpsubusw", [V 1 1 0xD9 any nx .rvm, E 1 1 0xD9 any nx .rvm fv 0]),
  (n!"vroundss", [V 1 3 0x0A any nx .rvm]),
  (n!"vsqrtsh", [E 2 5 0x51 W0 nx .rvm (fx 2) 0])]
def t26 : List (Nat × List Form) := [
  (n!"blsi", [V 0 2 0xF3 any (X 3) .vm, E 0 2 0xF3 any (X 3) .vm nt 0]),
  (n!"cmpzxadd", [V 1 2 0xE4 any nx .mrv, E 1 2 0xE4 any nx .mrv nt 0]),
  (n!"kshiftlq", [V 1 3 0x33 W1 nx .rm]),
  (n!"kxord", [V 1 1 0x47 W1 nx .rvm]),
  (n!"mulsd", [L 3 1 0x59 any nx .rm]),
  (n!"orps", [L 0 1 0x56 any nx .rm]),
  (n!"pmaxub", [L 0 1 0xDE any nx .rm, L 1 1 0xDE any nx .rm]),
  (n!"psadbw", [L 0 1 0xF6 any nx .rm, L 1 1 0xF6 any nx .rm]),
  (n!"shlx", [V 1 2 0xF7 any nx .rmv, E 1 2 0xF7 any nx .rmv nt 0]),
  (n!"subsd", [L 3 1 0x5C any nx .rm]),
  (n!"valignq", [E 1 3 0x03 W1 nx .rvm fv 8]),
  (n!"vcvttpd2udq", [E 0 1 0x78 W1 nx .rm fv 8]),
  (n!"vextractf64x4", [E 1 3 0x1B W1 nx .mr (fx 32) 0]),
  (n!"vfcmaddcph", [E 3 6 0x56 W0 nx .rvm fv 4]),
  (n!"vfmadd231ps", [V 1 2 0xB8 W0 nx .rvm, E 1 2 0xB8 W0 nx .rvm fv 4]),
  (n!"vfmaddsub132ph", [E 1 6 0x96 W0 nx .rvm fv 2]),
  (n!"vminsh", [E 2 5 0x5D W0 nx .rvm (fx 2) 0]),
  (n!"vmpsadbw", [V 1 3 0x42 any nx .rvm, E 2 3 0x42 W0 nx .rvm fv 0]),
  (n!"vpabsq", [E 1 2 0x1F W1 nx .rm fv 8]),
  (n!"vpermw", [E 1 2 0x8D W1 nx .rvm fv 0]),
  (n!"vpgatherdq", [V 1 2 0x90 W1 nx .rmv, E 1 2 0x90 W1 nx .rm (fx 8) 0]),
  (n!"vrndscalenepbf16", [E 3 3 0x08 W0 nx .rm fv 2]),
  (n!"vrsqrt28pd", [E 1 2 0xCC W1 nx .rm fv 8]),
  (n!"vrsqrtsh", [E 1 6 0x4F W0 nx .rvm (fx 2) 0])]
def t27 : List (Nat × List Form) := [
  (n!"aesdec256kl", [L 2 2 0xDF any nx .rm, E 2 4 0xDF any nx .rm nt 0]),
  (n!"aesenc", [L 1 2 0xDC any nx .rm]),
  (n!"andpd", [L 1 1 0x54 any nx .rm]),
  (n!"cmpnlxadd", [V 1 2 0xED any nx .mrv, E 1 2 0xED any nx .mrv nt 0]),
  (n!"cvtpi2pd", [L 1 1 0x2A any nx .rm]),
  (n!"cvtsd2ss", [L 3 1 0x5A any nx .rm]),
  (n!"maskmovq", [L 0 1 0xF7 any nx .rm]),
  (n!"maxss", [L 2 1 0x5F any nx .rm]),
  (n!"pminub", [L 0 1 0xDA any nx .rm, L 1 1 0xDA any nx .rm]),
  (n!"pmulhw", [L 0 1 0xE5 any nx .rm, L 1 1 0xE5 any nx .rm]),
  (n!"psubb", [L 0 1 0xF8 any nx .rm, L 1 1 0xF8 any nx .rm]),
  (n!"punpckhbw", [L 0 1 0x68 any nx .rm, L 1 1 0x68 any nx .rm]),
  (n!"vbroadcastf64x2", [E 1 2 0x1A W1 nx .rm (fx 16) 0]),
  (n!"vcvtph2iubs", [E 0 5 0x6B W0 nx .rm fv 2]),
  (n!"vcvtph2udq", [E 0 5 0x79 W0 nx .rm hv 2]),
  (n!"vcvttps2iubs", [E 1 5 0x6A W0 nx .rm fv 4]),
  (n!"vcvttps2udq", [E 0 1 0x78 W0 nx .rm fv 4]),
  (n!"vfmadd132ss", [V 1 2 0x99 W0 nx .rvm, E 1 2 0x99 W0 nx .rvm (fx 4) 0]),
  (n!"vfnmsub213nepbf16", [E 0 6 0xAE W0 nx .rvm fv 2]),
  (n!"vinserti32x4", [E 1 3 0x38 W0 nx .rvm (fx 16) 0]),
  (n!"vorpd", [V 1 1 0x56 any nx .rvm, E 1 1 0x56 W1 nx .rvm fv 8]),
  (n!"vpcmpistrm", [V 1 3 0x62 any nx .rm]),
  (n!"vpmaddwd", [V 1 1 0xF5 any nx .rvm, E 1 1 0xF5 any nx .rvm fv 0]),
  (n!"vpmaxuq", [E 1 2 0x3F W1 nx .rvm fv 8]),
  (n!"vpmovusqd", [E 2 2 0x15 W0 nx .mr hv 0]),
  (n!"vrcpps", [V 0 1 0x53 any nx .rm]),
  (n!"vrndscalesh", [E 0 3 0x0A W0 nx .rvm (fx 2) 0]),
  (n!"vscatterqps", [E 1 2 0xA3 W0 nx .mr (fx 4) 0])]
def t28 : List (Nat × List Form) := [
  (n!"ktestq", [V 0 1 0x99 W1 nx .rm]),
  (n!"minss", [L 2 1 0x5D any nx .rm]),
  (n!"packsswb", [L 0 1 0x63 any nx .rm, L 1 1 0x63 any nx .rm]),
  (n!"pextrb", [L 1 3 0x14 any nx .mr]),
  (n!"pmaxud", [L 1 2 0x3F any nx .rm]),
  (n!"pshuflw", [L 3 1 0x70 any nx .rm]),
  (n!"tilezero", [V 3 2 0x49 W0 nx .r]),
  (n!"vaesimc", [V 1 2 0xDB any nx .rm]),
  (n!"vcmppd", [V 1 1 0xC2 any nx .rvm, E 1 1 0xC2 W1 nx .rvm fv 8]),
  (n!"vcomisd", [V 1 1 0x2F any nx .rm, E 1 1 0x2F W1 nx .rm (fx 8) 0]),
  (n!"vcvtsh2sd", [E 2 5 0x5A W0 nx .rvm (fx 2) 0]),
  (n!"vcvtusi2sh", [E 2 5 0x7B W0 nx .rvm (fx 4) 0, E 2 5 0x7B W1 nx .rvm (fx 8) 0]),
  (n!"vfmsub231ss", [V 1 2 0xBB W0 nx .rvm, E 1 2 0xBB W0 nx .rvm (fx 4) 0]),
  (n!"vgatherqps", [V 1 2 0x93 W0 nx .rmv, E 1 2 0x93 W0 nx .rm (fx 4) 0]),
  (n!"vmovss", [V 2 1 0x10 any nx .rm, V 2 1 0x10 any nx .rvm, E 2 1 0x10 W0 nx .rm (fx 4) 0, E 2 1 0x10 W0 nx .rvm (fx 4) 0, V 2 1 0x11 any nx .mr, V 2 1 0x11 any nx .mvr, E 2 1 0x11 W0 nx .mr (fx 4) 0, E 2 1 0x11 W0 nx .mvr (fx 4) 0]),
  (n!"vpcmpq", [E 1 3 0x1F W1 nx .rvm fv 8]),
  (n!"vpminuq", [E 1 2 0x3B W1 nx .rvm fv 8]),
  (n!"vpmovwb", [E 2 2 0x30 W0 nx .mr hv 0]),
  (n!"vpmulhrsw", [V 1 2 0x0B any nx .rvm, E 1 2 0x0B any nx .rvm fv 0]),
  (n!"vpshldd", [E 1 3 0x71 W0 nx .rvm fv 4]),
  (n!"vptestnmb", [E 2 2 0x26 W0 nx .rvm fv 0]),
  (n!"vpxorq", [E 1 1 0xEF W1 nx .rvm fv 8]),
  (n!"vshufi32x4", [E 1 3 0x43 W0 nx .rvm fv 4]),
  (n!"vstmxcsr", [V 0 1 0xAE any (X 3) .m]),
  (n!"vunpckhpd", [V 1 1 0x15 any nx .rvm, E 1 1 0x15 W1 nx .rvm fv 8]),
  (n!"vxorpd", [V 1 1 0x57 any nx .rvm, E 1 1 0x57 W1 nx .rvm fv 8])]
def t29 : List (Nat × List Form) := [
  (n!"cmplexadd", [V 1 2 0xEE any nx .mrv, E 1 2 0xEE any nx .mrv nt 0]),
  (n!"kaddw", [V 0 1 0x4A W0 nx .rvm]),
  (n!"pminud", [L 1 2 0x3B any nx .rm]),
  (n!"psubd", [L 0 1 0xFA any nx .rm, L 1 1 0xFA any nx .rm]),
  (n!"vbroadcastf64x4", [E 1 2 0x1B W1 nx .rm (fx 32) 0]),
  (n!"vcvtph2qq", [E 1 5 0x7B W0 nx .rm qv 2]),
  (n!"vcvttph2ibs", [E 0 5 0x68 W0 nx .rm fv 2]),
  (n!"vcvttps2qq", [E 1 1 0x7A W0 nx .rm hv 4]),
  (n!"vcvtudq2ph", [E 3 5 0x7A W0 nx .rm fv 4]),
  (n!"vfmsubadd213ph", [E 1 6 0xA7 W0 nx .rvm fv 2]),
  (n!"vfnmadd132pd", [V 1 2 0x9C W1 nx .rvm, E 1 2 0x9C W1 nx .rvm fv 8]),
  (n!"vpextrq", [V 1 3 0x16 W1 nx .mr, E 1 3 0x16 W1 nx .mr (fx 8) 0]),
  (n!"vscalefpd", [E 1 2 0x2C W1 nx .rvm fv 8])]
def t30 : List (Nat × List Form) := [
  (n!"kortestq", [V 0 1 0x98 W1 nx .rm]),
  (n!"korw", [V 0 1 0x45 W0 nx .rvm]),
  (n!"movntps", [L 0 1 0x2B any nx .mr]),
  (n!"pdep", [V 3 2 0xF5 any nx .rvm, E 3 2 0xF5 any nx .rvm nt 0]),
  (n!"pextrd", [L 1 3 0x16 W0 nx .mr]),
  (n!"psignw", [L 0 2 0x09 any nx .rm, L 1 2 0x09 any nx .rm]),
  (n!"tdpbssd", [V 3 2 0x5E W0 nx .rmv]),
  (n!"vdivps", [V 0 1 0x5E any nx .rvm, E 0 1 0x5E W0 nx .rvm fv 4]),
  (n!"vfmadd213ps", [V 1 2 0xA8 W0 nx .rvm, E 1 2 0xA8 W0 nx .rvm fv 4]),
  (n!"vfnmsub231pd", [V 1 2 0xBE W1 nx .rvm, E 1 2 0xBE W1 nx .rvm fv 8]),
  (n!"vmovntpd", [V 1 1 0x2B any nx .mr, E 1 1 0x2B W1 nx .mr fv 0]),
  (n!"vmovshdup", [V 2 1 0x16 any nx .rm, E 2 1 0x16 W0 nx .rm fv 0]),
  (n!"vpermt2ps", [E 1 2 0x7F W0 nx .rvm fv 4]),
  (n!"vplzcntq", [E 1 2 0x44 W1 nx .rm fv 8]),
  (n!"vprorq", [E 1 1 0x72 W1 (X 0) .vm fv 8]),
  (n!"vpscatterdd", [E 1 2 0xA0 W0 nx .mr (fx 4) 0]),
  (n!"vpsrlvq", [V 1 2 0x45 W1 nx .rvm, E 1 2 0x45 W1 nx .rvm fv 8]),
  (n!"vptestnmd", [E 2 2 0x27 W0 nx .rvm fv 4]),
  (n!"vrsqrt14ss", [E 1 2 0x4F W0 nx .rvm (fx 4) 0])]
def t31 : List (Nat × List Form) := [
  (n!"cvttps2dq", [L 2 1 0x5B any nx .rm]),
  (n!"knotb", [V 1 1 0x44 W0 nx .rm]),
  (n!"movlhps", [L 0 1 0x16 any nx .rm]),
  (n!"movlps", [L 0 1 0x12 any nx .rm, L 0 1 0x13 any nx .mr]),
  (n!"movupd", [L 1 1 0x10 any nx .rm, L 1 1 0x11 any nx .mr]),
  (n!"pmulhrsw", [L 0 2 0x0B any nx .rm, L 1 2 0x0B any nx .rm]),
  (n!"psllw", [L 0 1 0xF1 any nx .rm, L 1 1 0xF1 any nx .rm, L 0 1 0x71 any (X 6) .m, L 1 1 0x71 any (X 6) .m]),
  (n!"psraw", [L 0 1 0xE1 any nx .rm, L 1 1 0xE1 any nx .rm, L 0 1 0x71 any (X 4) .m, L 1 1 0x71 any (X 4) .m]),
  (n!"shufpd", [L 1 1 0xC6 any nx .rm]),
  (n!"unpckhpd", [L 1 1 0x15 any nx .rm]),
  (n!"vbcstnesh2ps", [V 1 2 0xB1 W0 nx .rm]),
  (n!"vcvttsd2usis", [E 3 5 0x6C any nx .rm (fx 8) 0]),
  (n!"vfmulcph", [E 2 6 0xD6 W0 nx .rvm fv 4]),
  (n!"vfnmsub132sd", [V 1 2 0x9F W1 nx .rvm, E 1 2 0x9F W1 nx .rvm (fx 8) 0]),
  (n!"vgetexpss", [E 1 2 0x43 W0 nx .rvm (fx 4) 0]),
  (n!"vgf2p8mulb", [V 1 2 0xCF W0 nx .rvm, E 1 2 0xCF W0 nx .rvm fv 0]),
  (n!"vinserti32x8", [E 1 3 0x3A W0 nx .rvm (fx 32) 0]),
  (n!"vpblendmq", [E 1 2 0x64 W1 nx .rvm fv 8]),
  (n!"vpdpbssd", [V 3 2 0x50 W0 nx .rvm, E 3 2 0x50 W0 nx .rvm fv 4]),
  (n!"vpdpwuud", [V 0 2 0xD2 W0 nx .rvm, E 0 2 0xD2 W0 nx .rvm fv 4]),
  (n!"vpsrld", [V 1 1 0xD2 any nx .rvm, E 1 1 0xD2 W0 nx .rvm (fx 16) 0, V 1 1 0x72 any (X 2) .vm, E 1 1 0x72 W0 (X 2) .vm fv 4]),
  (n!"vscatterdpd", [E 1 2 0xA2 W1 nx .mr (fx 8) 0]),
  (n!"vsm3msg1", [V 0 2 0xDA W0 nx .rvm])]
def t32 : List (Nat × List Form) := [
  (n!"cmpnbexadd", [V 1 2 0xE7 any nx .mrv, E 1 2 0xE7 any nx .mrv nt 0]),
  (n!"cmpnzxadd", [V 1 2 0xE5 any nx .mrv, E 1 2 0xE5 any nx .mrv nt 0]),
  (n!"kshiftlw", [V 1 3 0x32 W1 nx .rm]),
  (n!"movdqa", [L 1 1 0x6F any nx .rm, L 1 1 0x7F any nx .mr]),
  (n!"pmaddubsw", [L 0 2 0x04 any nx .rm, L 1 2 0x04 any nx .rm]),
  (n!"vbroadcastsd", [V 1 2 0x19 W0 nx .rm, E 1 2 0x19 W1 nx .rm (fx 8) 0]),
  (n!"vcmpph", [E 0 3 0xC2 W0 nx .rvm fv 2]),
  (n!"vcomish", [E 0 5 0x2F W0 nx .rm (fx 2) 0]),
  (n!"vcvtneoph2ps", [V 0 2 0xB0 W0 nx .rm]),
  (n!"vcvtps2dq", [V 1 1 0x5B any nx .rm, E 1 1 0x5B W0 nx .rm fv 4]),
  (n!"vextracti32x4", [E 1 3 0x39 W0 nx .mr (fx 16) 0]),
  (n!"vfmsub213ss", [V 1 2 0xAB W0 nx .rvm, E 1 2 0xAB W0 nx .rvm (fx 4) 0]),
  (n!"vgatherdpd", [V 1 2 0x92 W1 nx .rmv, E 1 2 0x92 W1 nx .rm (fx 8) 0]),
  (n!"vmovups", [V 0 1 0x10 any nx .rm, E 0 1 0x10 W0 nx .rm fv 0, V 0 1 0x11 any nx .mr, E 0 1 0x11 W0 nx .mr fv 0]),
  (n!"vpabsw", [V 1 2 0x1D any nx .rm, E 1 2 0x1D any nx .rm fv 0]),
  (n!"vprorvd", [E 1 2 0x14 W0 nx .rvm fv 4]),
  (n!"vpsllvq", [V 1 2 0x47 W1 nx .rvm, E 1 2 0x47 W1 nx .rvm fv 8]),
  (n!"vpsravq", [E 1 2 0x46 W1 nx .rvm fv 8]),
  (n!"vreducesd", [E 1 3 0x57 W1 nx .rvm (fx 8) 0]),
  (n!"vshufps", [V 0 1 0xC6 any nx .rvm, E 0 1 0xC6 W0 nx .rvm fv 4]),
  (n!"vsm3msg2", [V 1 2 0xDA W0 nx .rvm])]
def t33 : List (Nat × List Form) := [
  (n!"knotd", [V 1 1 0x44 W1 nx .rm]),
  (n!"movaps", [L 0 1 0x28 any nx .rm, L 0 1 0x29 any nx .mr]),
  (n!"movshdup", [L 2 1 0x16 any nx .rm]),
  (n!"phaddw", [L 0 2 0x01 any nx .rm, L 1 2 0x01 any nx .rm]),
  (n!"vbroadcasti32x2", [E 1 2 0x59 W0 nx .rm (fx 8) 0]),
  (n!"vcvtbiasph2bf8", [E 0 2 0x74 W0 nx .rvm fv 2]),
  (n!"vcvtnebf162iubs", [E 3 5 0x6B W0 nx .rm fv 2]),
  (n!"vcvtsh2si", [E 2 5 0x2D any nx .rm (fx 2) 0]),
  (n!"vcvttss2si", [V 2 1 0x2C any nx .rm, E 2 1 0x2C any nx .rm (fx 4) 0]),
  (n!"vfmadd231nepbf16", [E 0 6 0xB8 W0 nx .rvm fv 2]),
  (n!"vfnmadd132ph", [E 1 6 0x9C W0 nx .rvm fv 2]),
  (n!"vgf2p8affineinvqb", [V 1 3 0xCF W1 nx .rvm, E 1 3 0xCF W1 nx .rvm fv 8]),
  (n!"vpmaxuw", [V 1 2 0x3E any nx .rvm, E 1 2 0x3E any nx .rvm fv 0]),
  (n!"vpmovzxdq", [V 1 2 0x35 any nx .rm, E 1 2 0x35 W0 nx .rm hv 0]),
  (n!"vpopcntb", [E 1 2 0x54 W0 nx .rm fv 0]),
  (n!"vscalefph", [E 1 6 0x2C W0 nx .rvm fv 2])]
def t34 : List (Nat × List Form) := [
  (n!"cmpps", [L 0 1 0xC2 any nx .rm]),
  (n!"ktestw", [V 0 1 0x99 W0 nx .rm]),
  (n!"kunpckdq", [V 0 1 0x4B W1 nx .rvm]),
  (n!"pinsrb", [L 1 3 0x20 any nx .rm]),
  (n!"pmuldq", [L 1 2 0x28 any nx .rm]),
  (n!"sttilecfg", [V 1 2 0x49 W0 (X 0) .m, E 1 2 0x49 W0 (X 0) .m nt 0]),
  (n!"tdpfp16ps", [V 3 2 0x5C W0 nx .rmv]),
  (n!"vaddps", [V 0 1 0x58 any nx .rvm, E 0 1 0x58 W0 nx .rvm fv 4]),
  (n!"vcvttpd2qq", [E 1 1 0x7A W1 nx .rm fv 8]),
  (n!"vcvtuqq2pd", [E 2 1 0x7A W1 nx .rm fv 8]),
  (n!"vfnmsub213pd", [V 1 2 0xAE W1 nx .rvm, E 1 2 0xAE W1 nx .rvm fv 8]),
  (n!"vfnmsub231ph", [E 1 6 0xBE W0 nx .rvm fv 2]),
  (n!"vfpclasssd", [E 1 3 0x67 W1 nx .rm (fx 8) 0]),
  (n!"vmovdqu32", [E 2 1 0x6F W0 nx .rm fv 0, E 2 1 0x7F W0 nx .mr fv 0]),
  (n!"vpcmpw", [E 1 3 0x3F W1 nx .rvm fv 0]),
  (n!"vpermilpd", [V 1 2 0x0D W0 nx .rvm, E 1 2 0x0D W1 nx .rvm fv 8, V 1 3 0x05 W0 nx .rm, E 1 3 0x05 W1 nx .rm fv 8]),
  (n!"vpminuw", [V 1 2 0x3A any nx .rvm, E 1 2 0x3A any nx .rvm fv 0]),
  (n!"vpsllq", [V 1 1 0xF3 any nx .rvm, E 1 1 0xF3 W1 nx .rvm (fx 16) 0, V 1 1 0x73 any (X 6) .vm, E 1 1 0x73 W1 (X 6) .vm fv 8]),
  (n!"vpsraq", [E 1 1 0xE2 W1 nx .rvm (fx 16) 0, E 1 1 0x72 W1 (X 4) .vm fv 8]),
  (n!"xorps", [L 0 1 0x57 any nx .rm])]
def t35 : List (Nat × List Form) := [
  (n!"blsr", [V 0 2 0xF3 any (X 1) .vm, E 0 2 0xF3 any (X 1) .vm nt 0]),
  (n!"cvtps2dq", [L 1 1 0x5B any nx .rm]),
  (n!"gf2p8affineqb", [L 1 3 0xCE any nx .rm]),
  (n!"haddps", [L 3 1 0x7C any nx .rm]),
  (n!"kmovb", [V 1 1 0x90 W0 nx .rm, E 1 1 0x90 W0 nx .rm nt 0, V 1 1 0x91 W0 nx .mr, E 1 1 0x91 W0 nx .mr nt 0, V 1 1 0x92 W0 nx .rm, E 1 1 0x92 W0 nx .rm nt 0, V 1 1 0x93 W0 nx .rm, E 1 1 0x93 W0 nx .rm nt 0]),
  (n!"psrlq", [L 0 1 0xD3 any nx .rm, L 1 1 0xD3 any nx .rm, L 0 1 0x73 any (X 2) .m, L 1 1 0x73 any (X 2) .m]),
  (n!"roundps", [L 1 3 0x08 any nx .rm]),
  (n!"sqrtsd", [L 3 1 0x51 any nx .rm]),
  (n!"vbroadcasti32x4", [E 1 2 0x5A W0 nx .rm (fx 16) 0]),
  (n!"vcvttpd2qqs", [E 1 5 0x6D W1 nx .rm fv 8]),
  (n!"vfnmsub132sh", [E 1 6 0x9F W0 nx .rvm (fx 2) 0]),
  (n!"vinsertps", [V 1 3 0x21 any nx .rvm, E 1 3 0x21 W0 nx .rvm (fx 4) 0]),
  (n!"vminmaxpd", [E 1 3 0x52 W1 nx .rvm fv 8]),
  (n!"vmulsd", [V 3 1 0x59 any nx .rvm, E 3 1 0x59 W1 nx .rvm (fx 8) 0]),
  (n!"vpblendd", [V 1 3 0x02 W0 nx .rvm]),
  (n!"vpextrw", [V 1 1 0xC5 W0 nx .rm, E 1 1 0xC5 any nx .rm nt 0, V 1 3 0x15 W0 nx .mr, E 1 3 0x15 any nx .mr (fx 2) 0]),
  (n!"vphsubsw", [V 1 2 0x07 any nx .rvm]),
  (n!"vpinsrq", [V 1 3 0x22 W1 nx .rvm, E 1 3 0x22 W1 nx .rvm (fx 8) 0]),
  (n!"vpopcntd", [E 1 2 0x55 W0 nx .rm fv 4]),
  (n!"vprolvq", [E 1 2 0x15 W1 nx .rvm fv 8]),
  (n!"vroundpd", [V 1 3 0x09 any nx .rm]),
  (n!"vsubsd", [V 3 1 0x5C any nx .rvm, E 3 1 0x5C W1 nx .rvm (fx 8) 0])]
def t36 : List (Nat × List Form) := [
  (n!"andnpd", [L 1 1 0x55 any nx .rm]),
  (n!"cvttpd2dq", [L 1 1 0xE6 any nx .rm]),
  (n!"kortestw", [V 0 1 0x98 W0 nx .rm]),
  (n!"paddsb", [L 0 1 0xEC any nx .rm, L 1 1 0xEC any nx .rm]),
  (n!"pinsrd", [L 1 3 0x22 W0 nx .rm]),
  (n!"pmovzxdq", [L 1 2 0x35 any nx .rm]),
  (n!"vaesdeclast", [V 1 2 0xDF any nx .rvm, E 1 2 0xDF any nx .rvm fv 0]),
  (n!"vandpd", [V 1 1 0x54 any nx .rvm, E 1 1 0x54 W1 nx .rvm fv 8]),
  (n!"vcvttps2qqs", [E 1 5 0x6D W0 nx .rm hv 4]),
  (n!"vextracti32x8", [E 1 3 0x3B W0 nx .mr (fx 32) 0]),
  (n!"vfmsubadd231ps", [V 1 2 0xB7 W0 nx .rvm, E 1 2 0xB7 W0 nx .rvm fv 4]),
  (n!"vfnmsub231nepbf16", [E 0 6 0xBE W0 nx .rvm fv 2]),
  (n!"vmaxss", [V 2 1 0x5F any nx .rvm, E 2 1 0x5F W0 nx .rvm (fx 4) 0]),
  (n!"vmovhpd", [V 1 1 0x16 any nx .rvm, E 1 1 0x16 W1 nx .rvm (fx 8) 0, V 1 1 0x17 any nx .mr, E 1 1 0x17 W1 nx .mr (fx 8) 0]),
  (n!"vpandd", [E 1 1 0xDB W0 nx .rvm fv 4]),
  (n!"vpexpandq", [E 1 2 0x89 W1 nx .rm (fx 8) 0]),
  (n!"vpmovuswb", [E 2 2 0x10 W0 nx .mr hv 0]),
  (n!"vpsrlvw", [E 1 2 0x10 W1 nx .rvm fv 0]),
  (n!"vpsubb", [V 1 1 0xF8 any nx .rvm, E 1 1 0xF8 any nx .rvm fv 0]),
  (n!"vpternlogq", [E 1 3 0x25 W1 nx .rvm fv 8]),
  (n!"vpunpckldq", [V 1 1 0x62 any nx .rvm, E 1 1 0x62 W0 nx .rvm fv 4]),
  (n!"vrcppbf16", [E 0 6 0x4C W0 nx .rm fv 2]),
  (n!"vreducesh", [E 0 3 0x57 W0 nx .rvm (fx 2) 0]),
  (n!"vsqrtss", [V 2 1 0x51 any nx .rvm, E 2 1 0x51 W0 nx .rvm (fx 4) 0])]
def t37 : List (Nat × List Form) := [
  (n!"kmovd", [V 1 1 0x90 W1 nx .rm, E 1 1 0x90 W1 nx .rm nt 0, V 1 1 0x91 W1 nx .mr, E 1 1 0x91 W1 nx .mr nt 0, V 3 1 0x92 W0 nx .rm, E 3 1 0x92 W0 nx .rm nt 0, V 3 1 0x93 W0 nx .rm, E 3 1 0x93 W0 nx .rm nt 0]),
  (n!"kshiftrq", [V 1 3 0x31 W1 nx .rm]),
  (n!"maxpd", [L 1 1 0x5F any nx .rm]),
  (n!"pandn", [L 0 1 0xDF any nx .rm, L 1 1 0xDF any nx .rm]),
  (n!"pcmpeqq", [L 1 2 0x29 any nx .rm]),
  (n!"psubsw", [L 0 1 0xE9 any nx .rm, L 1 1 0xE9 any nx .rm]),
  (n!"shrx", [V 3 2 0xF7 any nx .rmv, E 3 2 0xF7 any nx .rmv nt 0]),
  (n!"tdpbuud", [V 0 2 0x5E W0 nx .rmv]),
  (n!"vandnps", [V 0 1 0x55 any nx .rvm, E 0 1 0x55 W0 nx .rvm fv 4]),
  (n!"vcvtne2ph2bf8", [E 3 2 0x74 W0 nx .rvm fv 2]),
  (n!"vcvtpd2dq", [V 3 1 0xE6 any nx .rm, E 3 1 0xE6 W1 nx .rm fv 8]),
  (n!"vfmadd132pd", [V 1 2 0x98 W1 nx .rvm, E 1 2 0x98 W1 nx .rvm fv 8]),
  (n!"vfmaddsub132ps", [V 1 2 0x96 W0 nx .rvm, E 1 2 0x96 W0 nx .rvm fv 4]),
  (n!"vminss", [V 2 1 0x5D any nx .rvm, E 2 1 0x5D W0 nx .rvm (fx 4) 0]),
  (n!"vpblendmw", [E 1 2 0x66 W1 nx .rvm fv 0]),
  (n!"vpcmpeqb", [V 1 1 0x74 any nx .rvm, E 1 1 0x74 any nx .rvm fv 0]),
  (n!"vpconflictq", [E 1 2 0xC4 W1 nx .rm fv 8]),
  (n!"vpdpwssds", [V 1 2 0x53 W0 nx .rvm, E 1 2 0x53 W0 nx .rvm fv 4]),
  (n!"vpmadd52luq", [V 1 2 0xB4 W1 nx .rvm, E 1 2 0xB4 W1 nx .rvm fv 8]),
  (n!"vpmovmskb", [V 1 1 0xD7 any nx .rm]),
  (n!"vptestmq", [E 1 2 0x27 W1 nx .rvm fv 8]),
  (n!"vrsqrtss", [V 2 1 0x52 any nx .rvm])]
def t38 : List (Nat × List Form) := [
  (n!"insertps", [L 1 3 0x21 any nx .rm]),
  (n!"minpd", [L 1 1 0x5D any nx .rm]),
  (n!"movd", [L 0 1 0x6E W0 nx .rm, L 0 1 0x7E W0 nx .mr, L 1 1 0x6E W0 nx .rm, L 1 1 0x7E W0 nx .mr]),
  (n!"vaddsubpd", [V 1 1 0xD0 any nx .rvm]),
  (n!"vbroadcasti128", [V 1 2 0x5A W0 nx .rm]),
  (n!"vcvttsd2si", [V 3 1 0x2C any nx .rm, E 3 1 0x2C any nx .rm (fx 8) 0]),
  (n!"vcvttsh2usi", [E 2 5 0x78 any nx .rm (fx 2) 0]),
  (n!"vcvtuqq2ph", [E 3 5 0x7A W1 nx .rm fv 8]),
  (n!"vfmsub231pd", [V 1 2 0xBA W1 nx .rvm, E 1 2 0xBA W1 nx .rvm fv 8]),
  (n!"vfnmsub213ph", [E 1 6 0xAE W0 nx .rvm fv 2]),
  (n!"vfpclasssh", [E 0 3 0x67 W0 nx .rm (fx 2) 0]),
  (n!"vmovddup", [V 3 1 0x12 any nx .rm, E 3 1 0x12 W1 nx .rm dup 0]),
  (n!"vmovdqu", [V 2 1 0x6F any nx .rm, V 2 1 0x7F any nx .mr]),
  (n!"vpdpbuud", [V 0 2 0x50 W0 nx .rvm, E 0 2 0x50 W0 nx .rvm fv 4]),
  (n!"vpermps", [V 1 2 0x16 W0 nx .rvm, E 1 2 0x16 W0 nx .rvm fv 4]),
  (n!"vpmovqw", [E 2 2 0x34 W0 nx .mr qv 0]),
  (n!"vpmovsqb", [E 2 2 0x22 W0 nx .mr ov 0]),
  (n!"vpshrdd", [E 1 3 0x73 W0 nx .rvm fv 4]),
  (n!"vpsllvw", [E 1 2 0x12 W1 nx .rvm fv 0]),
  (n!"vpsravw", [E 1 2 0x11 W1 nx .rvm fv 0]),
  (n!"vpsubd", [V 1 1 0xFA any nx .rvm, E 1 1 0xFA W0 nx .rvm fv 4]),
  (n!"vrcp14sd", [E 1 2 0x4D W1 nx .rvm (fx 8) 0]),
  (n!"vrndscaless", [E 1 3 0x0A W0 nx .rvm (fx 4) 0])]
def t39 : List (Nat × List Form) := [
  (n!"kxorq", [V 0 1 0x47 W1 nx .rvm]),
  (n!"movhlps", [L 0 1 0x12 any nx .rm]),
  (n!"pblendw", [L 1 3 0x0E any nx .rm]),
  (n!"pshufw", [L 0 1 0x70 any nx .rm]),
  (n!"ptest", [L 1 2 0x17 any nx .rm]),
  (n!"vbroadcastf128", [V 1 2 0x1A W0 nx .rm]),
  (n!"vbroadcasti32x8", [E 1 2 0x5B W0 nx .rm (fx 32) 0]),
  (n!"vcompresspd", [E 1 2 0x8A W1 nx .mr (fx 8) 0]),
  (n!"vcvtusi2ss", [E 2 1 0x7B W0 nx .rvm (fx 4) 0, E 2 1 0x7B W1 nx .rvm (fx 8) 0]),
  (n!"vfixupimmsd", [E 1 3 0x55 W1 nx .rvm (fx 8) 0]),
  (n!"vfmsub132sd", [V 1 2 0x9B W1 nx .rvm, E 1 2 0x9B W1 nx .rvm (fx 8) 0]),
  (n!"vfnmadd231sd", [V 1 2 0xBD W1 nx .rvm, E 1 2 0xBD W1 nx .rvm (fx 8) 0]),
  (n!"vgatherpf0dps", [E 1 2 0xC6 W0 (X 1) .m (fx 4) 0]),
  (n!"vinsertf32x4", [E 1 3 0x18 W0 nx .rvm (fx 16) 0]),
  (n!"vminmaxph", [E 0 3 0x52 W0 nx .rvm fv 2]),
  (n!"vmulsh", [E 2 5 0x59 W0 nx .rvm (fx 2) 0]),
  (n!"vpcmpeqd", [V 1 1 0x76 any nx .rvm, E 1 1 0x76 W0 nx .rvm fv 4]),
  (n!"vpcmpestri", [V 1 3 0x61 any nx .rm]),
  (n!"vpdpbusds", [V 1 2 0x51 W0 nx .rvm, E 1 2 0x51 W0 nx .rvm fv 4]),
  (n!"vpermi2pd", [E 1 2 0x77 W1 nx .rvm fv 8]),
  (n!"vphsubd", [V 1 2 0x06 any nx .rvm]),
  (n!"vpmovsxbd", [V 1 2 0x21 any nx .rm, E 1 2 0x21 any nx .rm qv 0]),
  (n!"vrcp28ss", [E 1 2 0xCB W0 nx .rvm (fx 4) 0]),
  (n!"vscatterpf1dps", [E 1 2 0xC6 W0 (X 6) .m (fx 4) 0]),
  (n!"vsubsh", [E 2 5 0x5C W0 nx .rvm (fx 2) 0])]
def t40 : List (Nat × List Form) := [
  (n!"bextr", [V 0 2 0xF7 any nx .rmv, E 0 2 0xF7 any nx .rmv nt 0]),
  (n!"cmpnlexadd", [V 1 2 0xEF any nx .mrv, E 1 2 0xEF any nx .mrv nt 0]),
  (n!"cvtpd2dq", [L 3 1 0xE6 any nx .rm]),
  (n!"encodekey256", [L 2 2 0xFB any nx .rm, E 2 4 0xDB any nx .rm nt 0]),
  (n!"pext", [V 2 2 0xF5 any nx .rvm, E 2 2 0xF5 any nx .rvm nt 0]),
  (n!"phaddsw", [L 0 2 0x03 any nx .rm, L 1 2 0x03 any nx .rm]),
  (n!"pmovmskb", [L 0 1 0xD7 any nx .rm, L 1 1 0xD7 any nx .rm]),
  (n!"vcvtudq2ps", [E 3 1 0x7A W0 nx .rm fv 4]),
  (n!"vfmsubadd213ps", [V 1 2 0xA7 W0 nx .rvm, E 1 2 0xA7 W0 nx .rvm fv 4]),
  (n!"vgatherpf1qps", [E 1 2 0xC7 W0 (X 2) .m (fx 4) 0]),
  (n!"vgetmantsd", [E 1 3 0x27 W1 nx .rvm (fx 8) 0]),
  (n!"vminmaxnepbf16", [E 3 3 0x52 W0 nx .rvm fv 2]),
  (n!"vpmovsqd", [E 2 2 0x25 W0 nx .mr hv 0]),
  (n!"vpshrdvd", [E 1 2 0x73 W0 nx .rvm fv 4]),
  (n!"vpsllw", [V 1 1 0xF1 any nx .rvm, E 1 1 0xF1 any nx .rvm (fx 16) 0, V 1 1 0x71 any (X 6) .vm, E 1 1 0x71 any (X 6) .vm fv 0]),
  (n!"vpsraw", [V 1 1 0xE1 any nx .rvm, E 1 1 0xE1 any nx .rvm (fx 16) 0, V 1 1 0x71 any (X 4) .vm, E 1 1 0x71 any (X 4) .vm fv 0]),
  (n!"vrsqrt14pd", [E 1 2 0x4E W1 nx .rm fv 8]),
  (n!"vshuff32x4", [E 1 3 0x23 W0 nx .rvm fv 4])]
def t41 : List (Nat × List Form) := [
  (n!"addsubpd", [L 1 1 0xD0 any nx .rm]),
  (n!"aesdeclast", [L 1 2 0xDF any nx .rm]),
  (n!"mulss", [L 2 1 0x59 any nx .rm]),
  (n!"pcmpgtb", [L 0 1 0x64 any nx .rm, L 1 1 0x64 any nx .rm]),
  (n!"pshufhw", [L 2 1 0x70 any nx .rm]),
  (n!"psrlw", [L 0 1 0xD1 any nx .rm, L 1 1 0xD1 any nx .rm, L 0 1 0x71 any (X 2) .m, L 1 1 0x71 any (X 2) .m]),
  (n!"subss", [L 2 1 0x5C any nx .rm]),
  (n!"vcvtps2pd", [V 0 1 0x5A any nx .rm, E 0 1 0x5A W0 nx .rm hv 4]),
  (n!"vfmadd132ph", [E 1 6 0x98 W0 nx .rvm fv 2]),
  (n!"vgetexppd", [E 1 2 0x42 W1 nx .rm fv 8]),
  (n!"vpackusdw", [V 1 2 0x2B any nx .rvm, E 1 2 0x2B W0 nx .rvm fv 4]),
  (n!"vperm2i128", [V 1 3 0x46 W0 nx .rvm]),
  (n!"vpinsrw", [V 1 1 0xC4 W0 nx .rvm, E 1 1 0xC4 any nx .rvm (fx 2) 0]),
  (n!"vpshldq", [E 1 3 0x71 W1 nx .rvm fv 8]),
  (n!"vpunpckhwd", [V 1 1 0x69 any nx .rvm, E 1 1 0x69 any nx .rvm fv 0]),
  (n!"vrsqrt28ps", [E 1 2 0xCC W0 nx .rm fv 4])]
def t42 : List (Nat × List Form) := [
  (n!"aesimc", [L 1 2 0xDB any nx .rm]),
  (n!"andps", [L 0 1 0x54 any nx .rm]),
  (n!"comisd", [L 1 1 0x2F any nx .rm]),
  (n!"cvtpi2ps", [L 0 1 0x2A any nx .rm]),
  (n!"divsd", [L 3 1 0x5E any nx .rm]),
  (n!"pmovsxbd", [L 1 2 0x21 any nx .rm]),
  (n!"psubq", [L 0 1 0xFB any nx .rm, L 1 1 0xFB any nx .rm]),
  (n!"vcvttpd2uqqs", [E 1 5 0x6C W1 nx .rm fv 8]),
  (n!"vexpandpd", [E 1 2 0x88 W1 nx .rm (fx 8) 0]),
  (n!"vfmsub213pd", [V 1 2 0xAA W1 nx .rvm, E 1 2 0xAA W1 nx .rvm fv 8]),
  (n!"vfmsub231ph", [E 1 6 0xBA W0 nx .rvm fv 2]),
  (n!"vfnmadd213nepbf16", [E 0 6 0xAC W0 nx .rvm fv 2]),
  (n!"vorps", [V 0 1 0x56 any nx .rvm, E 0 1 0x56 W0 nx .rvm fv 4]),
  (n!"vpandnd", [E 1 1 0xDF W0 nx .rvm fv 4]),
  (n!"vpbroadcastb", [V 1 2 0x78 W0 nx .rm, E 1 2 0x78 W0 nx .rm (fx 1) 0, E 1 2 0x7A W0 nx .rm nt 0]),
  (n!"vperm2f128", [V 1 3 0x06 W0 nx .rvm]),
  (n!"vpexpandw", [E 1 2 0x62 W1 nx .rm (fx 2) 0]),
  (n!"vpmovq2m", [E 2 2 0x39 W1 nx .rm nt 0]),
  (n!"vpmulld", [V 1 2 0x40 any nx .rvm, E 1 2 0x40 W0 nx .rvm fv 4]),
  (n!"vpshldvd", [E 1 2 0x71 W0 nx .rvm fv 4])]
def t43 : List (Nat × List Form) := [
  (n!"kshiftrw", [V 1 3 0x30 W1 nx .rm]),
  (n!"ldtilecfg", [V 0 2 0x49 W0 (X 0) .m, E 0 2 0x49 W0 (X 0) .m nt 0]),
  (n!"pcmpeqw", [L 0 1 0x75 any nx .rm, L 1 1 0x75 any nx .rm]),
  (n!"pcmpgtd", [L 0 1 0x66 any nx .rm, L 1 1 0x66 any nx .rm]),
  (n!"pextrq", [L 1 3 0x16 W1 nx .mr]),
  (n!"punpcklwd", [L 0 1 0x61 any nx .rm, L 1 1 0x61 any nx .rm]),
  (n!"pxor", [L 0 1 0xEF any nx .rm, L 1 1 0xEF any nx .rm]),
  (n!"tileloaddt1", [V 1 2 0x4B W0 nx .rm, E 1 2 0x4B W0 nx .rm nt 0]),
  (n!"vblendmpd", [E 1 2 0x65 W1 nx .rvm fv 8]),
  (n!"vcmpps", [V 0 1 0xC2 any nx .rvm, E 0 1 0xC2 W0 nx .rvm fv 4]),
  (n!"vcomiss", [V 0 1 0x2F any nx .rm, E 0 1 0x2F W0 nx .rm (fx 4) 0]),
  (n!"vcvtbiasph2hf8", [E 0 5 0x18 W0 nx .rvm fv 2]),
  (n!"vcvtpd2udq", [E 0 1 0x79 W1 nx .rm fv 8]),
  (n!"vcvtph2psx", [E 1 6 0x13 W0 nx .rm hv 2]),
  (n!"vcvtsh2ss", [E 0 6 0x13 W0 nx .rvm (fx 2) 0]),
  (n!"vcvttss2usis", [E 2 5 0x6C any nx .rm (fx 4) 0]),
  (n!"vfmsub132sh", [E 1 6 0x9B W0 nx .rvm (fx 2) 0]),
  (n!"vfnmadd213sd", [V 1 2 0xAD W1 nx .rvm, E 1 2 0xAD W1 nx .rvm (fx 8) 0]),
  (n!"vfnmadd231sh", [E 1 6 0xBD W0 nx .rvm (fx 2) 0]),
  (n!"vinsertf32x8", [E 1 3 0x1A W0 nx .rvm (fx 32) 0]),
  (n!"vpaddsw", [V 1 1 0xED any nx .rvm, E 1 1 0xED any nx .rvm fv 0]),
  (n!"vpcmpestrm", [V 1 3 0x60 any nx .rm]),
  (n!"vpdpbsuds", [V 2 2 0x51 W0 nx .rvm, E 2 2 0x51 W0 nx .rvm fv 4]),
  (n!"vpscatterdq", [E 1 2 0xA0 W1 nx .mr (fx 8) 0]),
  (n!"vpshuflw", [V 3 1 0x70 any nx .rm, E 3 1 0x70 any nx .rm fv 0]),
  (n!"vptestmw", [E 1 2 0x26 W1 nx .rvm fv 0]),
  (n!"vptestnmq", [E 2 2 0x27 W1 nx .rvm fv 8]),
  (n!"vrangesd", [E 1 3 0x51 W1 nx .rvm (fx 8) 0]),
  (n!"vunpckhps", [V 0 1 0x15 any nx .rvm, E 0 1 0x15 W0 nx .rvm fv 4]),
  (n!"vxorps", [V 0 1 0x57 any nx .rvm, E 0 1 0x57 W0 nx .rvm fv 4])]
def t44 : List (Nat × List Form) := [
  (n!"cvtps2pd", [L 0 1 0x5A any nx .rm]),
  (n!"packusdw", [L 1 2 0x2B any nx .rm]),
  (n!"vcvtps2udq", [E 0 1 0x79 W0 nx .rm fv 4]),
  (n!"vcvttph2uqq", [E 1 5 0x78 W0 nx .rm qv 2]),
  (n!"vcvtuw2ph", [E 3 5 0x7D W0 nx .rm fv 2]),
  (n!"vextractf32x4", [E 1 3 0x19 W0 nx .mr (fx 16) 0]),
  (n!"vfnmadd132ps", [V 1 2 0x9C W0 nx .rvm, E 1 2 0x9C W0 nx .rvm fv 4]),
  (n!"vgatherpf1dpd", [E 1 2 0xC6 W1 (X 2) .m (fx 8) 0]),
  (n!"vgetmantsh", [E 0 3 0x27 W0 nx .rvm (fx 2) 0]),
  (n!"vmovntdqa", [V 1 2 0x2A any nx .rm, E 1 2 0x2A W0 nx .rm fv 0]),
  (n!"vpbroadcastd", [V 1 2 0x58 W0 nx .rm, E 1 2 0x58 W0 nx .rm (fx 4) 0, E 1 2 0x7C W0 nx .rm nt 0]),
  (n!"vpmovdb", [E 2 2 0x31 W0 nx .mr qv 0]),
  (n!"vpsrlq", [V 1 1 0xD3 any nx .rvm, E 1 1 0xD3 W1 nx .rvm (fx 16) 0, V 1 1 0x73 any (X 2) .vm, E 1 1 0x73 W1 (X 2) .vm fv 8]),
  (n!"vscalefps", [E 1 2 0x2C W0 nx .rvm fv 4])]
def t45 : List (Nat × List Form) := [
  (n!"cvttps2pi", [L 0 1 0x2C any nx .rm]),
  (n!"encodekey128", [L 2 2 0xFA any nx .rm, E 2 4 0xDA any nx .rm nt 0]),
  (n!"kandb", [V 1 1 0x41 W0 nx .rvm]),
  (n!"kxorw", [V 0 1 0x47 W0 nx .rvm]),
  (n!"punpckhdq", [L 0 1 0x6A any nx .rm, L 1 1 0x6A any nx .rm]),
  (n!"vbroadcastf32x2", [E 1 2 0x19 W0 nx .rm (fx 8) 0]),
  (n!"vcvtps2ph", [V 1 3 0x1D W0 nx .mr, E 1 3 0x1D W0 nx .mr hv 0]),
  (n!"vfnmsub231ps", [V 1 2 0xBE W0 nx .rvm, E 1 2 0xBE W0 nx .rvm fv 4]),
  (n!"vgetexpph", [E 1 6 0x42 W0 nx .rm fv 2]),
  (n!"vmaxpbf16", [E 1 5 0x5F W0 nx .rvm fv 2]),
  (n!"vmovntps", [V 0 1 0x2B any nx .mr, E 0 1 0x2B W0 nx .mr fv 0]),
  (n!"vpermt2b", [E 1 2 0x7D W0 nx .rvm fv 0]),
  (n!"vprorvq", [E 1 2 0x14 W1 nx .rvm fv 8])]
def t46 : List (Nat × List Form) := [
  (n!"addsd", [L 3 1 0x58 any nx .rm]),
  (n!"knotq", [V 0 1 0x44 W1 nx .rm]),
  (n!"movups", [L 0 1 0x10 any nx .rm, L 0 1 0x11 any nx .mr]),
  (n!"paddusb", [L 0 1 0xDC any nx .rm, L 1 1 0xDC any nx .rm]),
  (n!"shufps", [L 0 1 0xC6 any nx .rm]),
  (n!"unpckhps", [L 0 1 0x15 any nx .rm]),
  (n!"vcvt2ps2phx", [E 1 2 0x67 W0 nx .rvm fv 4]),
  (n!"vcvtph2ibs", [E 0 5 0x69 W0 nx .rm fv 2]),
  (n!"vcvttph2uw", [E 0 5 0x7C W0 nx .rm fv 2]),
  (n!"vcvttps2ibs", [E 1 5 0x68 W0 nx .rm fv 4]),
  (n!"vcvtw2ph", [E 2 5 0x7D W0 nx .rm fv 2]),
  (n!"vfmsub213ph", [E 1 6 0xAA W0 nx .rvm fv 2]),
  (n!"vfnmsub132ss", [V 1 2 0x9F W0 nx .rvm, E 1 2 0x9F W0 nx .rvm (fx 4) 0]),
  (n!"vmaxpd", [V 1 1 0x5F any nx .rvm, E 1 1 0x5F W1 nx .rvm fv 8]),
  (n!"vmovlhps", [V 0 1 0x16 any nx .rvm, E 0 1 0x16 W0 nx .rvm nt 0]),
  (n!"vpandn", [V 1 1 0xDF any nx .rvm]),
  (n!"vpmovusqw", [E 2 2 0x14 W0 nx .mr qv 0]),
  (n!"vpunpckhqdq", [V 1 1 0x6D any nx .rvm, E 1 1 0x6D W1 nx .rvm fv 8]),
  (n!"vscatterdps", [E 1 2 0xA2 W0 nx .mr (fx 4) 0]),
  (n!"vscatterpf0qpd", [E 1 2 0xC7 W1 (X 5) .m (fx 8) 0]),
  (n!"vsqrtpd", [V 1 1 0x51 any nx .rm, E 1 1 0x51 W1 nx .rm fv 8])]
def t47 : List (Nat × List Form) := [
  (n!"aesdecwide128kl", [L 2 2 0xD8 any (X 1) .m, E 2 4 0xD8 any (X 1) .m nt 0]),
  (n!"kandd", [V 1 1 0x41 W1 nx .rvm]),
  (n!"movntdqa", [L 1 2 0x2A any nx .rm]),
  (n!"pmaxuw", [L 1 2 0x3E any nx .rm]),
  (n!"rsqrtps", [L 0 1 0x52 any nx .rm]),
  (n!"vbroadcastf32x4", [E 1 2 0x1A W0 nx .rm (fx 16) 0]),
  (n!"vbroadcastss", [V 1 2 0x18 W0 nx .rm, E 1 2 0x18 W0 nx .rm (fx 4) 0]),
  (n!"vcvtne2ph2hf8", [E 3 5 0x18 W0 nx .rvm fv 2]),
  (n!"vfcmulcph", [E 3 6 0xD6 W0 nx .rvm fv 4]),
  (n!"vfmadd231sd", [V 1 2 0xB9 W1 nx .rvm, E 1 2 0xB9 W1 nx .rvm (fx 8) 0]),
  (n!"vfmsubadd132pd", [V 1 2 0x97 W1 nx .rvm, E 1 2 0x97 W1 nx .rvm fv 8]),
  (n!"vfnmadd213sh", [E 1 6 0xAD W0 nx .rvm (fx 2) 0]),
  (n!"vgatherdps", [V 1 2 0x92 W0 nx .rmv, E 1 2 0x92 W0 nx .rm (fx 4) 0]),
  (n!"vhsubpd", [V 1 1 0x7D any nx .rvm]),
  (n!"vminpd", [V 1 1 0x5D any nx .rvm, E 1 1 0x5D W1 nx .rvm fv 8]),
  (n!"vp4dpwssd", [E 3 2 0x52 W0 nx .rvm (fx 16) 0]),
  (n!"vpbroadcastmw2d", [E 2 2 0x3A W0 nx .rm nt 0]),
  (n!"vpermi2b", [E 1 2 0x75 W0 nx .rvm fv 0]),
  (n!"vpermt2d", [E 1 2 0x7E W0 nx .rvm fv 4]),
  (n!"vpgatherqd", [V 1 2 0x91 W0 nx .rmv, E 1 2 0x91 W0 nx .rm (fx 4) 0]),
  (n!"vpmovsxwd", [V 1 2 0x23 any nx .rm, E 1 2 0x23 any nx .rm hv 0]),
  (n!"vpshldw", [E 1 3 0x70 W1 nx .rvm fv 0]),
  (n!"vreducess", [E 1 3 0x57 W0 nx .rvm (fx 4) 0])]
def t48 : List (Nat × List Form) := [
  (n!"pminuw", [L 1 2 0x3A any nx .rm]),
  (n!"psubw", [L 0 1 0xF9 any nx .rm, L 1 1 0xF9 any nx .rm]),
  (n!"vcvtps2iubs", [E 1 5 0x6B W0 nx .rm fv 4]),
  (n!"vcvtsi2sd", [V 3 1 0x2A any nx .rvm, E 3 1 0x2A W0 nx .rvm (fx 4) 0, E 3 1 0x2A W1 nx .rvm (fx 8) 0]),
  (n!"vextractf32x8", [E 1 3 0x1B W0 nx .mr (fx 32) 0]),
  (n!"vpdpwsud", [V 2 2 0xD2 W0 nx .rvm, E 2 2 0xD2 W0 nx .rvm fv 4]),
  (n!"vpopcntq", [E 1 2 0x55 W1 nx .rm fv 8]),
  (n!"vpor", [V 1 1 0xEB any nx .rvm]),
  (n!"vptest", [V 1 2 0x17 any nx .rm]),
  (n!"vrndscalepd", [E 1 3 0x09 W1 nx .rm fv 8])]
def t49 : List (Nat × List Form) := [
  (n!"cvtps2pi", [L 0 1 0x2D any nx .rm]),
  (n!"paddb", [L 0 1 0xFC any nx .rm, L 1 1 0xFC any nx .rm]),
  (n!"pextrw", [L 0 1 0xC5 any nx .rm, L 1 1 0xC5 any nx .rm, L 1 3 0x15 any nx .mr]),
  (n!"pinsrq", [L 1 3 0x22 W1 nx .rm]),
  (n!"rorx", [V 3 3 0xF0 any nx .rm, E 3 3 0xF0 any nx .rm nt 0]),
  (n!"vaeskeygenassist", [V 1 3 0xDF any nx .rm]),
  (n!"vbcstnebf162ps", [V 2 2 0xB1 W0 nx .rm]),
  (n!"vcvtdq2pd", [V 2 1 0xE6 any nx .rm, E 2 1 0xE6 W0 nx .rm hv 4]),
  (n!"vcvtuqq2ps", [E 3 1 0x7A W1 nx .rm fv 8]),
  (n!"vfnmsub213ps", [V 1 2 0xAE W0 nx .rvm, E 1 2 0xAE W0 nx .rvm fv 4]),
  (n!"vfpclassss", [E 1 3 0x67 W0 nx .rm (fx 4) 0]),
  (n!"vmovsldup", [V 2 1 0x12 any nx .rm, E 2 1 0x12 W0 nx .rm fv 0]),
  (n!"vp2intersectd", [E 3 2 0x68 W0 nx .rvm fv 4]),
  (n!"vpandq", [E 1 1 0xDB W1 nx .rvm fv 8]),
  (n!"vpcompressb", [E 1 2 0x63 W0 nx .mr (fx 1) 0]),
  (n!"vpermi2d", [E 1 2 0x76 W0 nx .rvm fv 4]),
  (n!"vpermilps", [V 1 2 0x0C W0 nx .rvm, E 1 2 0x0C W0 nx .rvm fv 4, V 1 3 0x04 W0 nx .rm, E 1 3 0x04 W0 nx .rm fv 4]),
  (n!"vpmaxsb", [V 1 2 0x3C any nx .rvm, E 1 2 0x3C any nx .rvm fv 0]),
  (n!"vpmovswb", [E 2 2 0x20 W0 nx .mr hv 0]),
  (n!"vpshufbitqmb", [E 1 2 0x8F W0 nx .rvm fv 0]),
  (n!"vptestnmw", [E 2 2 0x26 W1 nx .rvm fv 0]),
  (n!"vrcp28pd", [E 1 2 0xCA W1 nx .rm fv 8])]
def t50 : List (Nat × List Form) := [
  (n!"blendpd", [L 1 3 0x0D any nx .rm]),
  (n!"cvttpd2pi", [L 1 1 0x2C any nx .rm]),
  (n!"kandnb", [V 1 1 0x42 W0 nx .rvm]),
  (n!"kmovq", [V 0 1 0x90 W1 nx .rm, E 0 1 0x90 W1 nx .rm nt 0, V 0 1 0x91 W1 nx .mr, E 0 1 0x91 W1 nx .mr nt 0, V 3 1 0x92 W1 nx .rm, E 3 1 0x92 W1 nx .rm nt 0, V 3 1 0x93 W1 nx .rm, E 3 1 0x93 W1 nx .rm nt 0]),
  (n!"movhpd", [L 1 1 0x16 any nx .rm, L 1 1 0x17 any nx .mr]),
  (n!"pmovsxwd", [L 1 2 0x23 any nx .rm]),
  (n!"psubusb", [L 0 1 0xD8 any nx .rm, L 1 1 0xD8 any nx .rm]),
  (n!"sqrtss", [L 2 1 0x51 any nx .rm]),
  (n!"v4fnmaddss", [E 3 2 0xAB W0 nx .rvm (fx 16) 0]),
  (n!"vcvtpd2ph", [E 1 5 0x5A W1 nx .rm fv 8]),
  (n!"vcvtps2phx", [E 1 5 0x1D W0 nx .rm fv 4]),
  (n!"vmaxph", [E 0 5 0x5F W0 nx .rvm fv 2]),
  (n!"vminmaxps", [E 1 3 0x52 W0 nx .rvm fv 4]),
  (n!"vmulss", [V 2 1 0x59 any nx .rvm, E 2 1 0x59 W0 nx .rvm (fx 4) 0]),
  (n!"vpminsb", [V 1 2 0x38 any nx .rvm, E 1 2 0x38 any nx .rvm fv 0]),
  (n!"vpsrlw", [V 1 1 0xD1 any nx .rvm, E 1 1 0xD1 any nx .rvm (fx 16) 0, V 1 1 0x71 any (X 2) .vm, E 1 1 0x71 any (X 2) .vm fv 0]),
  (n!"vroundps", [V 1 3 0x08 any nx .rm]),
  (n!"vsqrtph", [E 0 5 0x51 W0 nx .rm fv 2]),
  (n!"vsubss", [V 2 1 0x5C any nx .rvm, E 2 1 0x5C W0 nx .rvm (fx 4) 0])]
def t51 : List (Nat × List Form) := [
  (n!"andnps", [L 0 1 0x55 any nx .rm]),
  (n!"cvtsi2sd", [L 3 1 0x2A any nx .rm]),
  (n!"movq", [L 0 1 0x6F any nx .rm, L 0 1 0x7F any nx .mr, L 2 1 0x7E any nx .rm, L 1 1 0xD6 any nx .mr, L 0 1 0x6E W1 nx .rm, L 0 1 0x7E W1 nx .mr, L 1 1 0x6E W1 nx .rm, L 1 1 0x7E W1 nx .mr]),
  (n!"mulpd", [L 1 1 0x59 any nx .rm]),
  (n!"paddd", [L 0 1 0xFE any nx .rm, L 1 1 0xFE any nx .rm]),
  (n!"punpckhqdq", [L 1 1 0x6D any nx .rm]),
  (n!"subpd", [L 1 1 0x5C any nx .rm]),
  (n!"v4fmaddss", [E 3 2 0x9B W0 nx .rvm (fx 16) 0]),
  (n!"vandps", [V 0 1 0x54 any nx .rvm, E 0 1 0x54 W0 nx .rvm fv 4]),
  (n!"vbroadcastf32x8", [E 1 2 0x1B W0 nx .rm (fx 32) 0]),
  (n!"vcmppbf16", [E 3 3 0xC2 W0 nx .rvm fv 2]),
  (n!"vcvtneobf162ps", [V 3 2 0xB0 W0 nx .rm]),
  (n!"vdivsd", [V 3 1 0x5E any nx .rvm, E 3 1 0x5E W1 nx .rvm (fx 8) 0]),
  (n!"vfmadd213sd", [V 1 2 0xA9 W1 nx .rvm, E 1 2 0xA9 W1 nx .rvm (fx 8) 0]),
  (n!"vfmadd231sh", [E 1 6 0xB9 W0 nx .rvm (fx 2) 0]),
  (n!"vfmsub132nepbf16", [E 0 6 0x9A W0 nx .rvm fv 2]),
  (n!"vfmsubadd132ph", [E 1 6 0x97 W0 nx .rvm fv 2]),
  (n!"vfnmadd231nepbf16", [E 0 6 0xBC W0 nx .rvm fv 2]),
  (n!"vminph", [E 0 5 0x5D W0 nx .rvm fv 2]),
  (n!"vmovhps", [V 0 1 0x16 any nx .rvm, E 0 1 0x16 W0 nx .rvm (fx 8) 0, V 0 1 0x17 any nx .mr, E 0 1 0x17 W0 nx .mr (fx 8) 0]),
  (n!"vmovmskpd", [V 1 1 0x50 any nx .rm]),
  (n!"vpcompressd", [E 1 2 0x8B W0 nx .mr (fx 4) 0]),
  (n!"vpmaxsd", [V 1 2 0x3D any nx .rvm, E 1 2 0x3D W0 nx .rvm fv 4]),
  (n!"vpshrdq", [E 1 3 0x73 W1 nx .rvm fv 8]),
  (n!"vpsubq", [V 1 1 0xFB any nx .rvm, E 1 1 0xFB W1 nx .rvm fv 8]),
  (n!"vrsqrtph", [E 1 6 0x4E W0 nx .rm fv 2])]
def t52 : List (Nat × List Form) := [
  (n!"cvtdq2pd", [L 2 1 0xE6 any nx .rm]),
  (n!"dppd", [L 1 3 0x41 any nx .rm]),
  (n!"kandnd", [V 1 1 0x42 W1 nx .rvm]),
  (n!"knotw", [V 0 1 0x44 W0 nx .rm]),
  (n!"maxps", [L 0 1 0x5F any nx .rm]),
  (n!"movdqu", [L 2 1 0x6F any nx .rm, L 2 1 0x7F any nx .mr]),
  (n!"movsldup", [L 2 1 0x12 any nx .rm]),
  (n!"vcvtsi2sh", [E 2 5 0x2A W0 nx .rvm (fx 4) 0, E 2 5 0x2A W1 nx .rvm (fx 8) 0]),
  (n!"vdbpsadbw", [E 1 3 0x42 W0 nx .rvm fv 0]),
  (n!"vexp2pd", [E 1 2 0xC8 W1 nx .rm fv 8]),
  (n!"vfmadd132ps", [V 1 2 0x98 W0 nx .rvm, E 1 2 0x98 W0 nx .rvm fv 4]),
  (n!"vpcmpeqq", [V 1 2 0x29 any nx .rvm, E 1 2 0x29 W1 nx .rvm fv 8]),
  (n!"vpminsd", [V 1 2 0x39 any nx .rvm, E 1 2 0x39 W0 nx .rvm fv 4]),
  (n!"vpmovsxbq", [V 1 2 0x22 any nx .rm, E 1 2 0x22 any nx .rm ov 0]),
  (n!"vpmovusdb", [E 2 2 0x11 W0 nx .mr qv 0]),
  (n!"vpmovw2m", [E 2 2 0x29 W1 nx .rm nt 0]),
  (n!"vpunpckhbw", [V 1 1 0x68 any nx .rvm, E 1 1 0x68 any nx .rvm fv 0]),
  (n!"vrcpsh", [E 1 6 0x4D W0 nx .rvm (fx 2) 0]),
  (n!"vrndscaleph", [E 0 3 0x08 W0 nx .rm fv 2]),
  (n!"vsm3rnds2", [V 1 3 0xDE W0 nx .rvm])]
def t53 : List (Nat × List Form) := [
  (n!"aeskeygenassist", [L 1 3 0xDF any nx .rm]),
  (n!"minps", [L 0 1 0x5D any nx .rm]),
  (n!"phsubd", [L 0 2 0x06 any nx .rm, L 1 2 0x06 any nx .rm]),
  (n!"pmulhuw", [L 0 1 0xE4 any nx .rm, L 1 1 0xE4 any nx .rm]),
  (n!"vaddsubps", [V 3 1 0xD0 any nx .rvm]),
  (n!"vcvtdq2ph", [E 0 5 0x5B W0 nx .rm fv 4]),
  (n!"vcvttph2qq", [E 1 5 0x7A W0 nx .rm qv 2]),
  (n!"vextracti128", [V 1 3 0x39 W0 nx .mr]),
  (n!"vfmsub231ps", [V 1 2 0xBA W0 nx .rvm, E 1 2 0xBA W0 nx .rvm fv 4]),
  (n!"vpshrdvq", [E 1 2 0x73 W1 nx .rvm fv 8]),
  (n!"vrcp14ss", [E 1 2 0x4D W0 nx .rvm (fx 4) 0])]
def t54 : List (Nat × List Form) := [
  (n!"cmpsxadd", [V 1 2 0xE8 any nx .mrv, E 1 2 0xE8 any nx .mrv nt 0]),
  (n!"cvtpd2pi", [L 1 1 0x2D any nx .rm]),
  (n!"movmskpd", [L 1 1 0x50 any nx .rm]),
  (n!"pavgb", [L 0 1 0xE0 any nx .rm, L 1 1 0xE0 any nx .rm]),
  (n!"punpcklbw", [L 0 1 0x60 any nx .rm, L 1 1 0x60 any nx .rm]),
  (n!"rcpss", [L 2 1 0x53 any nx .rm]),
  (n!"sha1msg1", [L 0 2 0xC9 any nx .rm, E 0 4 0xD9 any nx .rm nt 0]),
  (n!"tdpbsud", [V 2 2 0x5E W0 nx .rmv]),
  (n!"vcompressps", [E 1 2 0x8A W0 nx .mr (fx 4) 0]),
  (n!"vcvthf82ph", [E 3 5 0x1E W0 nx .rm hv 0]),
  (n!"vcvttpd2dqs", [E 0 5 0x6D W1 nx .rm fv 8]),
  (n!"vcvttps2uqqs", [E 1 5 0x6C W0 nx .rm hv 4]),
  (n!"vcvttsd2usi", [E 3 1 0x78 any nx .rm (fx 8) 0]),
  (n!"vdpbf16ps", [E 2 2 0x52 W0 nx .rvm fv 4]),
  (n!"vdpphps", [E 0 2 0x52 W0 nx .rvm fv 4]),
  (n!"vextractf128", [V 1 3 0x19 W0 nx .mr]),
  (n!"vfixupimmss", [E 1 3 0x55 W0 nx .rvm (fx 4) 0]),
  (n!"vfmsub132ss", [V 1 2 0x9B W0 nx .rvm, E 1 2 0x9B W0 nx .rvm (fx 4) 0]),
  (n!"vfnmadd231ss", [V 1 2 0xBD W0 nx .rvm, E 1 2 0xBD W0 nx .rvm (fx 4) 0]),
  (n!"vmovhlps", [V 0 1 0x12 any nx .rvm, E 0 1 0x12 W0 nx .rvm nt 0]),
  (n!"vpblendw", [V 1 3 0x0E any nx .rvm]),
  (n!"vpermi2ps", [E 1 2 0x77 W0 nx .rvm fv 4]),
  (n!"vpopcntw", [E 1 2 0x54 W1 nx .rm fv 0])]
def t55 : List (Nat × List Form) := [
  (n!"cmpsd", [L 3 1 0xC2 any nx .rm]),
  (n!"movdq2q", [L 3 1 0xD6 any nx .rm]),
  (n!"pinsrw", [L 0 1 0xC4 any nx .rm, L 1 1 0xC4 any nx .rm]),
  (n!"pmovsxbq", [L 1 2 0x22 any nx .rm]),
  (n!"sha1msg2", [L 0 2 0xCA any nx .rm, E 0 4 0xDA any nx .rm nt 0]),
  (n!"ucomisd", [L 1 1 0x2E any nx .rm]),
  (n!"vaddsd", [V 3 1 0x58 any nx .rvm, E 3 1 0x58 W1 nx .rvm (fx 8) 0]),
  (n!"vcvtsh2usi", [E 2 5 0x79 any nx .rm (fx 2) 0]),
  (n!"vcvttps2dqs", [E 0 5 0x6D W0 nx .rm fv 4]),
  (n!"vcvttss2usi", [E 2 1 0x78 any nx .rm (fx 4) 0]),
  (n!"vdivsh", [E 2 5 0x5E W0 nx .rvm (fx 2) 0]),
  (n!"vfmadd213sh", [E 1 6 0xA9 W0 nx .rvm (fx 2) 0]),
  (n!"vgetmantss", [E 1 3 0x27 W0 nx .rvm (fx 4) 0]),
  (n!"vpandnq", [E 1 1 0xDF W1 nx .rvm fv 8]),
  (n!"vpcmpub", [E 1 3 0x3E W0 nx .rvm fv 0]),
  (n!"vpdpbsud", [V 2 2 0x50 W0 nx .rvm, E 2 2 0x50 W0 nx .rvm fv 4]),
  (n!"vphaddsw", [V 1 2 0x03 any nx .rvm]),
  (n!"vpmullq", [E 1 2 0x40 W1 nx .rvm fv 8]),
  (n!"vpshldvq", [E 1 2 0x71 W1 nx .rvm fv 8]),
  (n!"vrsqrt14ps", [E 1 2 0x4E W0 nx .rm fv 4]),
  (n!"vunpcklpd", [V 1 1 0x14 any nx .rvm, E 1 1 0x14 W1 nx .rvm fv 8])]
def t56 : List (Nat × List Form) := [
  (n!"addsubps", [L 3 1 0xD0 any nx .rm]),
  (n!"extractps", [L 1 3 0x17 any nx .mr]),
  (n!"kmovw", [V 0 1 0x90 W0 nx .rm, E 0 1 0x90 W0 nx .rm nt 0, V 0 1 0x91 W0 nx .mr, E 0 1 0x91 W0 nx .mr nt 0, V 0 1 0x92 W0 nx .rm, E 0 1 0x92 W0 nx .rm nt 0, V 0 1 0x93 W0 nx .rm, E 0 1 0x93 W0 nx .rm nt 0]),
  (n!"lddqu", [L 3 1 0xF0 any nx .rm]),
  (n!"pcmpgtq", [L 1 2 0x37 any nx .rm]),
  (n!"pmulld", [L 1 2 0x40 any nx .rm]),
  (n!"roundsd", [L 1 3 0x0B any nx .rm]),
  (n!"vcvtph2dq", [E 1 5 0x5B W0 nx .rm hv 2]),
  (n!"vcvttnebf162iubs", [E 3 5 0x6A W0 nx .rm fv 2]),
  (n!"vcvttps2dq", [V 2 1 0x5B any nx .rm, E 2 1 0x5B W0 nx .rm fv 4]),
  (n!"vfnmsub132pd", [V 1 2 0x9E W1 nx .rvm, E 1 2 0x9E W1 nx .rvm fv 8]),
  (n!"vgetexpps", [E 1 2 0x42 W0 nx .rm fv 4]),
  (n!"vpcmpgtb", [V 1 1 0x64 any nx .rvm, E 1 1 0x64 any nx .rvm fv 0]),
  (n!"vpshufhw", [V 2 1 0x70 any nx .rm, E 2 1 0x70 any nx .rm fv 0]),
  (n!"vpsignb", [V 1 2 0x08 any nx .rvm])]
def t57 : List (Nat × List Form) := [
  (n!"comiss", [L 0 1 0x2F any nx .rm]),
  (n!"divss", [L 2 1 0x5E any nx .rm]),
  (n!"paddsw", [L 0 1 0xED any nx .rm, L 1 1 0xED any nx .rm]),
  (n!"sha1nexte", [L 0 2 0xC8 any nx .rm, E 0 4 0xD8 any nx .rm nt 0]),
  (n!"sha256msg1", [L 0 2 0xCC any nx .rm, E 0 4 0xDC any nx .rm nt 0]),
  (n!"vcvtneph2bf8", [E 2 2 0x74 W0 nx .rm fv 2]),
  (n!"vcvttsh2si", [E 2 5 0x2C any nx .rm (fx 2) 0]),
  (n!"vexpandps", [E 1 2 0x88 W0 nx .rm (fx 4) 0]),
  (n!"vfmaddsub231pd", [V 1 2 0xB6 W1 nx .rvm, E 1 2 0xB6 W1 nx .rvm fv 8]),
  (n!"vfmsub213ps", [V 1 2 0xAA W0 nx .rvm, E 1 2 0xAA W0 nx .rvm fv 4]),
  (n!"vgf2p8affineqb", [V 1 3 0xCE W1 nx .rvm, E 1 3 0xCE W1 nx .rvm fv 8]),
  (n!"vpbroadcastq", [V 1 2 0x59 W0 nx .rm, E 1 2 0x59 W1 nx .rm (fx 8) 0, E 1 2 0x7C W1 nx .rm nt 0]),
  (n!"vpcmpud", [E 1 3 0x1E W0 nx .rvm fv 4]),
  (n!"vpmaddubsw", [V 1 2 0x04 any nx .rvm, E 1 2 0x04 any nx .rvm fv 0]),
  (n!"vpmovzxbd", [V 1 2 0x31 any nx .rm, E 1 2 0x31 any nx .rm qv 0]),
  (n!"vpshrdw", [E 1 3 0x72 W1 nx .rvm fv 0]),
  (n!"vpsubw", [V 1 1 0xF9 any nx .rvm, E 1 1 0xF9 any nx .rvm fv 0]),
  (n!"vreducepd", [E 1 3 0x56 W1 nx .rm fv 8]),
  (n!"vsha512msg1", [V 3 2 0xCC W0 nx .rm])]
def t58 : List (Nat × List Form) := [
  (n!"aesenc128kl", [L 2 2 0xDC any nx .rm, E 2 4 0xDC any nx .rm nt 0]),
  (n!"aesencwide128kl", [L 2 2 0xD8 any (X 0) .m, E 2 4 0xD8 any (X 0) .m nt 0]),
  (n!"andn", [V 0 2 0xF2 any nx .rvm, E 0 2 0xF2 any nx .rvm nt 0]),
  (n!"sha256msg2", [L 0 2 0xCD any nx .rm, E 0 4 0xDD any nx .rm nt 0]),
  (n!"unpcklpd", [L 1 1 0x14 any nx .rm]),
  (n!"vblendmps", [E 1 2 0x65 W0 nx .rvm fv 4]),
  (n!"vblendvpd", [V 1 3 0x4B W0 nx .rvmr]),
  (n!"vcvtneebf162ps", [V 2 2 0xB0 W0 nx .rm]),
  (n!"vcvtqq2pd", [E 2 1 0xE6 W1 nx .rm fv 8]),
  (n!"vfnmadd213ss", [V 1 2 0xAD W0 nx .rvm, E 1 2 0xAD W0 nx .rvm (fx 4) 0]),
  (n!"vpaddb", [V 1 1 0xFC any nx .rvm, E 1 1 0xFC any nx .rvm fv 0]),
  (n!"vpcmpeqw", [V 1 1 0x75 any nx .rvm, E 1 1 0x75 any nx .rvm fv 0]),
  (n!"vpcmpgtd", [V 1 1 0x66 any nx .rvm, E 1 1 0x66 W0 nx .rvm fv 4]),
  (n!"vphsubw", [V 1 2 0x05 any nx .rvm]),
  (n!"vpmovsxbw", [V 1 2 0x20 any nx .rm, E 1 2 0x20 any nx .rm hv 0]),
  (n!"vpmultishiftqb", [E 1 2 0x83 W1 nx .rvm fv 8]),
  (n!"vpsignd", [V 1 2 0x0A any nx .rvm]),
  (n!"vpsrldq", [V 1 1 0x73 any (X 3) .vm, E 1 1 0x73 any (X 3) .vm fv 0]),
  (n!"vrangess", [E 1 3 0x51 W0 nx .rvm (fx 4) 0]),
  (n!"vsha512msg2", [V 3 2 0xCD W0 nx .rm])]
def t59 : List (Nat × List Form) := [
  (n!"aesdecwide256kl", [L 2 2 0xD8 any (X 3) .m, E 2 4 0xD8 any (X 3) .m nt 0]),
  (n!"pcmpistri", [L 1 3 0x63 any nx .rm]),
  (n!"sha256rnds2", [L 0 2 0xCB any nx .rm, E 0 4 0xDB any nx .rm nt 0]),
  (n!"vaddsh", [E 2 5 0x58 W0 nx .rvm (fx 2) 0]),
  (n!"vfpclasspd", [E 1 3 0x66 W1 nx .rm fv 8]),
  (n!"vgatherpf1dps", [E 1 2 0xC6 W0 (X 2) .m (fx 4) 0]),
  (n!"vgetmantpbf16", [E 3 3 0x26 W0 nx .rm fv 2]),
  (n!"vmovdqa64", [E 1 1 0x6F W1 nx .rm fv 0, E 1 1 0x7F W1 nx .mr fv 0]),
  (n!"vpmovsqw", [E 2 2 0x24 W0 nx .mr qv 0]),
  (n!"vpshrdvw", [E 1 2 0x72 W1 nx .rvm fv 0]),
  (n!"vpxor", [V 1 1 0xEF any nx .rvm]),
  (n!"vsha512rnds2", [V 3 2 0xCB W0 nx .rvm])]
def t60 : List (Nat × List Form) := [
  (n!"cmpnsxadd", [V 1 2 0xE9 any nx .mrv, E 1 2 0xE9 any nx .mrv nt 0]),
  (n!"kandq", [V 0 1 0x41 W1 nx .rvm]),
  (n!"movntq", [L 0 1 0xE7 any nx .mr]),
  (n!"pand", [L 0 1 0xDB any nx .rm, L 1 1 0xDB any nx .rm]),
  (n!"pclmulqdq", [L 1 3 0x44 any nx .rm]),
  (n!"pmovzxbd", [L 1 2 0x31 any nx .rm]),
  (n!"sqrtpd", [L 1 1 0x51 any nx .rm]),
  (n!"vcvtph2w", [E 1 5 0x7D W0 nx .rm fv 2]),
  (n!"vcvttpd2uqq", [E 1 1 0x78 W1 nx .rm fv 8]),
  (n!"vfnmsub132ph", [E 1 6 0x9E W0 nx .rvm fv 2]),
  (n!"vmulnepbf16", [E 1 5 0x59 W0 nx .rvm fv 2]),
  (n!"vmulpd", [V 1 1 0x59 any nx .rvm, E 1 1 0x59 W1 nx .rvm fv 8]),
  (n!"vpaddd", [V 1 1 0xFE any nx .rvm, E 1 1 0xFE W0 nx .rvm fv 4]),
  (n!"vpdpbssds", [V 3 2 0x51 W0 nx .rvm, E 3 2 0x51 W0 nx .rvm fv 4]),
  (n!"vpdpwuuds", [V 0 2 0xD3 W0 nx .rvm, E 0 2 0xD3 W0 nx .rvm fv 4]),
  (n!"vpermt2q", [E 1 2 0x7E W1 nx .rvm fv 8]),
  (n!"vpgatherqq", [V 1 2 0x91 W1 nx .rmv, E 1 2 0x91 W1 nx .rm (fx 8) 0]),
  (n!"vpmovsxwq", [V 1 2 0x24 any nx .rm, E 1 2 0x24 any nx .rm qv 0]),
  (n!"vpslldq", [V 1 1 0x73 any (X 7) .vm, E 1 1 0x73 any (X 7) .vm fv 0]),
  (n!"vsubnepbf16", [E 1 5 0x5C W0 nx .rvm fv 2]),
  (n!"vsubpd", [V 1 1 0x5C any nx .rvm, E 1 1 0x5C W1 nx .rvm fv 8])]

/-- All rows; those in the list number `k` have names that are `k` modulo 61, for quick lookup. -/
def table : List (List (Nat × List Form)) := [t0, t1, t2, t3, t4, t5, t6, t7, t8, t9, t10, t11, t12, t13, t14, t15, t16, t17, t18, t19, t20, t21, t22, t23, t24, t25, t26, t27, t28, t29, t30, t31, t32, t33, t34, t35, t36, t37, t38, t39, t40, t41, t42, t43, t44, t45, t46, t47, t48, t49, t50, t51, t52, t53, t54, t55, t56, t57, t58, t59, t60]

/-- The forms of a name. -/
def find (n : Nat) : List Form := match ((table[n % 61]?).getD []).find? (fun r => Nat.beq r.1 n) with | some r => r.2 | none => []

/-- The pseudo-ops the manual defines by a base instruction and an immediate. -/
def aliases : List (Nat × Nat) :=
  (fmts.flatMap fun f => ssePreds.map fun (p : Nat × Pred) => (glue n!"cmp" (glue p.1 f), glue n!"cmp" f)) ++
  ((fmts ++ [n!"ph", n!"sh"]).flatMap fun f => avxPreds.map fun (p : Nat × Pred) => (glue n!"vcmp" (glue p.1 f), glue n!"vcmp" f)) ++
  (clmulHalves.flatMap fun (p : Nat × Bool × Bool) => [(glue n!"pclmul" (glue p.1 n!"dq"), n!"pclmulqdq"), (glue n!"vpclmul" (glue p.1 n!"dq"), n!"vpclmulqdq")])

/-- The forms of a mnemonic; those of a pseudo-op are the forms of its base instruction. -/
def forms (n : Nat) : List Form := match find n with
  | [] => match aliases.find? (fun r => Nat.beq r.1 n) with | some r => find r.2 | none => []
  | l => l

/-- The instructions whose memory operand has a vector of indexes (VSIB, SDM 2.3.12). -/
def vsibs : List Nat := [n!"vgatherdpd", n!"vgatherdps", n!"vgatherqpd", n!"vgatherqps", n!"vpgatherdd", n!"vpgatherdq", n!"vpgatherqd", n!"vpgatherqq",
  n!"vscatterdpd", n!"vscatterdps", n!"vscatterqpd", n!"vscatterqps", n!"vpscatterdd", n!"vpscatterdq", n!"vpscatterqd", n!"vpscatterqq",
  n!"vgatherpf0dpd", n!"vgatherpf0dps", n!"vgatherpf0qpd", n!"vgatherpf0qps", n!"vgatherpf1dpd", n!"vgatherpf1dps", n!"vgatherpf1qpd", n!"vgatherpf1qps",
  n!"vscatterpf0dpd", n!"vscatterpf0dps", n!"vscatterpf0qpd", n!"vscatterpf0qps", n!"vscatterpf1dpd", n!"vscatterpf1dps", n!"vscatterpf1qpd", n!"vscatterpf1qps"]
def vsib (n : Nat) : Bool := vsibs.any (Nat.beq n)

end Manual
end X86
end Xbyak
