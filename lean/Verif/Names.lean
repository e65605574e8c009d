import Verif.Operand
/-!
# Names of registers

Models `Operand::toString` of xbyak.h 669-727 for register operands; the tables are copied from there.
-/
namespace Xbyak
namespace Reg

/-- xbyak.h 675 -/
def nameExt8 : List String :=
  ["spl", "bpl", "sil", "dil"]
/-- xbyak.h 679-681 -/
def name8 : List String :=
  ["al", "cl", "dl", "bl", "ah", "ch", "dh", "bh", "r8b", "r9b", "r10b", "r11b", "r12b", "r13b", "r14b", "r15b", "r16b", "r17b",
   "r18b", "r19b", "r20b", "r21b", "r22b", "r23b", "r24b", "r25b", "r26b", "r27b", "r28b", "r29b", "r30b", "r31b"]
/-- xbyak.h 682-684 -/
def name16 : List String :=
  ["ax", "cx", "dx", "bx", "sp", "bp", "si", "di", "r8w", "r9w", "r10w", "r11w", "r12w", "r13w", "r14w", "r15w", "r16w", "r17w",
   "r18w", "r19w", "r20w", "r21w", "r22w", "r23w", "r24w", "r25w", "r26w", "r27w", "r28w", "r29w", "r30w", "r31w"]
/-- xbyak.h 685-687 -/
def name32 : List String :=
  ["eax", "ecx", "edx", "ebx", "esp", "ebp", "esi", "edi", "r8d", "r9d", "r10d", "r11d", "r12d", "r13d", "r14d", "r15d", "r16d",
   "r17d", "r18d", "r19d", "r20d", "r21d", "r22d", "r23d", "r24d", "r25d", "r26d", "r27d", "r28d", "r29d", "r30d", "r31d"]
/-- xbyak.h 688-690 -/
def name64 : List String :=
  ["rax", "rcx", "rdx", "rbx", "rsp", "rbp", "rsi", "rdi", "r8", "r9", "r10", "r11", "r12", "r13", "r14", "r15", "r16", "r17",
   "r18", "r19", "r20", "r21", "r22", "r23", "r24", "r25", "r26", "r27", "r28", "r29", "r30", "r31"]
/-- xbyak.h 694 -/
def nameK : List String :=
  ["k0", "k1", "k2", "k3", "k4", "k5", "k6", "k7"]
/-- xbyak.h 697-699 -/
def nameTmm : List String :=
  ["tmm0", "tmm1", "tmm2", "tmm3", "tmm4", "tmm5", "tmm6", "tmm7"]
/-- xbyak.h 702-705 -/
def nameZmm : List String :=
  ["zmm0", "zmm1", "zmm2", "zmm3", "zmm4", "zmm5", "zmm6", "zmm7", "zmm8", "zmm9", "zmm10", "zmm11", "zmm12", "zmm13", "zmm14",
   "zmm15", "zmm16", "zmm17", "zmm18", "zmm19", "zmm20", "zmm21", "zmm22", "zmm23", "zmm24", "zmm25", "zmm26", "zmm27", "zmm28",
   "zmm29", "zmm30", "zmm31"]
/-- xbyak.h 708-711 -/
def nameYmm : List String :=
  ["ymm0", "ymm1", "ymm2", "ymm3", "ymm4", "ymm5", "ymm6", "ymm7", "ymm8", "ymm9", "ymm10", "ymm11", "ymm12", "ymm13", "ymm14",
   "ymm15", "ymm16", "ymm17", "ymm18", "ymm19", "ymm20", "ymm21", "ymm22", "ymm23", "ymm24", "ymm25", "ymm26", "ymm27", "ymm28",
   "ymm29", "ymm30", "ymm31"]
/-- xbyak.h 714-717 -/
def nameXmm : List String :=
  ["xmm0", "xmm1", "xmm2", "xmm3", "xmm4", "xmm5", "xmm6", "xmm7", "xmm8", "xmm9", "xmm10", "xmm11", "xmm12", "xmm13", "xmm14",
   "xmm15", "xmm16", "xmm17", "xmm18", "xmm19", "xmm20", "xmm21", "xmm22", "xmm23", "xmm24", "xmm25", "xmm26", "xmm27", "xmm28",
   "xmm29", "xmm30", "xmm31"]
/-- xbyak.h 720 -/
def nameMmx : List String :=
  ["mm0", "mm1", "mm2", "mm3", "mm4", "mm5", "mm6", "mm7"]
/-- xbyak.h 723 -/
def nameSt : List String :=
  ["st0", "st1", "st2", "st3", "st4", "st5", "st6", "st7"]
/-- xbyak.h 726 -/
def nameBnd : List String :=
  ["bnd0", "bnd1", "bnd2", "bnd3"]

/-- xbyak.h 669-729 `toString`; `none`: read outside of a table, or `ERR_INTERNAL` for operands that are not registers -/
def toStr (r : Reg) : Option String :=
  let idx := r.idx.toNat
  if r.kind = .reg then
    if r.ext8 then (if idx < 4 then none else nameExt8[idx - 4]?)
    else (if r.bit = 8 then name8 else if r.bit = 16 then name16 else if r.bit = 32 then name32 else name64)[idx]?
  else match r.kind with
    | .opmask => nameK[idx]?
    | .tmm => nameTmm[idx]?
    | .zmm => nameZmm[idx]?
    | .ymm => nameYmm[idx]?
    | .xmm => nameXmm[idx]?
    | .mmx => nameMmx[idx]?
    | .fpu => nameSt[idx]?
    | .bndreg => nameBnd[idx]?
    | _ => none

end Reg
end Xbyak
