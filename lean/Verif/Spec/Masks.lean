import Verif.Spec.VecForms
import Verif.Spec.Manual
/-!
# Opmasks and embedded broadcast

Which EVEX instructions have `{k1}`, `{z}` and `m16bcst`, `m32bcst` or `m64bcst` in the instruction column of the Intel SDM and of the AVX10.2 specification.
-/
namespace Xbyak
namespace X86
namespace Vec

/-- The EVEX encoded instructions without opmask: EVEX.aaa must be 0. -/
def noMask : List Nat :=
  [-- the rounds of AES and SM4, products without carry
   n!"vaesdec", n!"vaesdeclast", n!"vaesenc", n!"vaesenclast", n!"vsm4key4", n!"vsm4rnds4", n!"vpclmulqdq", n!"vpclmulhqhqdq", n!"vpclmulhqlqdq", n!"vpclmullqhqdq", n!"vpclmullqlqdq",
   -- moves past the cache, of single elements and halves
   n!"vmovntdq", n!"vmovntdqa", n!"vmovntpd", n!"vmovntps", n!"vmovd", n!"vmovq", n!"vmovw", n!"vmovhlps", n!"vmovlhps", n!"vmovhpd", n!"vmovhps", n!"vmovlpd", n!"vmovlps", n!"vinsertps",
   n!"vextractps", n!"vpextrb", n!"vpextrw", n!"vpextrd", n!"vpextrq", n!"vpinsrb", n!"vpinsrw", n!"vpinsrd", n!"vpinsrq",
   -- comparisons to the flags
   n!"vcomisd", n!"vcomish", n!"vcomiss", n!"vcomsbf16", n!"vcomxsd", n!"vcomxsh", n!"vcomxss", n!"vucomisd", n!"vucomish", n!"vucomiss", n!"vucomxsd", n!"vucomxsh", n!"vucomxss",
   -- conversions from and to general registers
   n!"vcvtsi2sd", n!"vcvtsi2sh", n!"vcvtsi2ss", n!"vcvtusi2sd", n!"vcvtusi2sh", n!"vcvtusi2ss", n!"vcvtsd2si", n!"vcvtsd2usi", n!"vcvtsh2si", n!"vcvtsh2usi", n!"vcvtss2si", n!"vcvtss2usi",
   n!"vcvttsd2si", n!"vcvttsd2sis", n!"vcvttsd2usi", n!"vcvttsd2usis", n!"vcvttsh2si", n!"vcvttsh2usi", n!"vcvttss2si", n!"vcvttss2sis", n!"vcvttss2usi", n!"vcvttss2usis",
   -- sums of differences, shifts of bytes
   n!"vpsadbw", n!"vpslldq", n!"vpsrldq",
   -- between masks and vectors
   n!"vpbroadcastmb2q", n!"vpbroadcastmw2d", n!"vpmovm2b", n!"vpmovm2d", n!"vpmovm2q", n!"vpmovm2w", n!"vpmovb2m", n!"vpmovd2m", n!"vpmovq2m", n!"vpmovw2m",
   n!"vp2intersectd", n!"vp2intersectq"]

/-- The line has `m16bcst`, `m32bcst` or `m64bcst`. -/
def bcast (n : Nat) (f : VForm) : Bool :=
  f.evex && (Manual.forms n).any fun x => x.sp == .evex && !Nat.beq x.bc 0 && Nat.beq x.en.roles.length f.ops.length

/-- The vector length is seen at the size of the memory operand only. -/
def sized (f : VForm) : Bool :=
  match f.ops with
  | [.v 1, _] | [_, .v 1, _] => false
  | _ => true

end Vec
end X86
end Xbyak
