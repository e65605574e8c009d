import Verif.Spec.Manual
/-!
# Operand classes of SSE and MMX instructions

What the operands of a legacy form are, from the instruction column of the Intel SDM.  Where the manual says `reg` (r32 or
r64), and for the byte and word lanes of PINSRB and PEXTRB, both widths are listed: the upper half is ignored or cleared.
-/
namespace Xbyak
namespace X86

/-- MMX and vector registers, the 32-bit and 64-bit general registers, memory. -/
inductive Cls | mm | xmm | ymm | zmm | r32 | r64 | mem
  deriving DecidableEq, Repr

namespace Manual

/-- Integer instructions that exist for mm (no mandatory prefix) and for xmm (66), and those that exist for mm only. -/
def mmx : List Nat := [n!"maskmovq", n!"movntq", n!"pabsb", n!"pabsd", n!"pabsw", n!"packssdw", n!"packsswb", n!"packuswb", n!"paddb",
  n!"paddd", n!"paddq", n!"paddsb", n!"paddsw", n!"paddusb", n!"paddusw", n!"paddw", n!"palignr", n!"pand", n!"pandn", n!"pavgb",
  n!"pavgw", n!"pcmpeqb", n!"pcmpeqd", n!"pcmpeqw", n!"pcmpgtb", n!"pcmpgtd", n!"pcmpgtw", n!"phaddd", n!"phaddsw", n!"phaddw",
  n!"phsubd", n!"phsubsw", n!"phsubw", n!"pmaddubsw", n!"pmaddwd", n!"pmaxsw", n!"pmaxub", n!"pminsw", n!"pminub", n!"pmulhrsw",
  n!"pmulhuw", n!"pmulhw", n!"pmullw", n!"pmuludq", n!"por", n!"psadbw", n!"pshufb", n!"pshufw", n!"psignb", n!"psignd", n!"psignw",
  n!"pslld", n!"psllq", n!"psllw", n!"psrad", n!"psraw", n!"psrld", n!"psrlq", n!"psrlw", n!"psubb", n!"psubd", n!"psubq", n!"psubsb",
  n!"psubsw", n!"psubusb", n!"psubusw", n!"psubw", n!"punpckhbw", n!"punpckhdq", n!"punpckhwd", n!"punpcklbw", n!"punpckldq",
  n!"punpcklwd", n!"pxor"]

def isIn (n : Nat) (l : List Nat) : Bool := l.any (Nat.beq n)

/-- The possible registers for each operand, in the order of Intel syntax. -/
def regs (name : Nat) (f : Form) : List (List Cls) :=
  let v : Cls := if f.pp = 0 then .mm else .xmm
  let gp : List Cls := [.r32, .r64]
  if isIn name mmx then f.en.roles.map fun _ => [v]
  else if isIn name [n!"cvtpd2pi", n!"cvttpd2pi", n!"cvtps2pi", n!"cvttps2pi", n!"movdq2q"] then [[.mm], [.xmm]]
  else if isIn name [n!"cvtpi2pd", n!"cvtpi2ps", n!"movq2dq"] then [[.xmm], [.mm]]
  else if isIn name [n!"cvtsd2si", n!"cvttsd2si", n!"cvtss2si", n!"cvttss2si", n!"movmskpd", n!"movmskps", n!"extractps", n!"pextrb"] then [gp, [.xmm]]
  else if isIn name [n!"cvtsi2sd", n!"cvtsi2ss", n!"pinsrb"] then [[.xmm], gp]
  else if Nat.beq name n!"pextrd" then [[.r32], [.xmm]]
  else if Nat.beq name n!"pextrq" then [[.r64], [.xmm]]
  else if Nat.beq name n!"pinsrd" then [[.xmm], [.r32]]
  else if Nat.beq name n!"pinsrq" then [[.xmm], [.r64]]
  else if isIn name [n!"pextrw", n!"pmovmskb"] then [gp, [v]]
  else if Nat.beq name n!"pinsrw" then [[v], [.r32]]
  else if isIn name [n!"encodekey128", n!"encodekey256"] then [[.r32], [.r32]]
  else if Nat.beq name n!"movd" then if f.en = .rm then [[v], [.r32]] else [[.r32], [v]]
  else if Nat.beq name n!"movq" then if f.w = some true then (if f.en = .rm then [[v], [.r64]] else [[.r64], [v]]) else [[v], [v]]
  else f.en.roles.map fun _ => [.xmm]

/-- The operand in ModRM.rm is memory. -/
def memOnly (name : Nat) : Bool := isIn name [n!"movntdq", n!"movntpd", n!"movntps", n!"movntq", n!"lddqu", n!"movntdqa", n!"movhpd", n!"movlpd",
  n!"movhps", n!"movlps", n!"aesdec128kl", n!"aesdec256kl", n!"aesdecwide128kl", n!"aesdecwide256kl", n!"aesenc128kl", n!"aesenc256kl",
  n!"aesencwide128kl", n!"aesencwide256kl"]

/-- The operand in ModRM.rm is a register; shifts by an immediate are those with a /digit. -/
def regOnly (name : Nat) (f : Form) : Bool := isIn name [n!"maskmovdqu", n!"maskmovq", n!"movdq2q", n!"movq2dq", n!"movmskpd", n!"movmskps",
  n!"movhlps", n!"movlhps", n!"pmovmskb", n!"encodekey128", n!"encodekey256"] || (Nat.beq name n!"pextrw" && f.map == 1) || f.ext.isSome

/-- The possible operands, in the order of Intel syntax. -/
def classes (name : Nat) (f : Form) : List (List Cls) :=
  (f.en.roles.zip (regs name f)).map fun p =>
    if p.1 = .rm then (if memOnly name then [.mem] else if regOnly name f then p.2 else .mem :: p.2) else p.2

end Manual
end X86
end Xbyak
