import Verif.Spec.Gp
import Verif.Spec.Kinds
/-!
# Sizes of operands

Which sizes the operands of an integer instruction may have together, and the size of the memory operand of SSE and MMX instructions, from the
instruction column of the Intel SDM.
-/
namespace Xbyak
namespace X86

/-- The values of prefix 66 and W that give the operands of a form their sizes; 66 is ignored with W. -/
def GForm.choices (f : GForm) : List (Bool × Bool) :=
  ((if f.pp == some 0x66 then [true] else if f.has66 then [false, true] else [false]).flatMap fun p =>
    (if f.hasW then [false, true] else [f.w]).map fun w => (p, w)).filter fun x => !(f.has66 && x.1 && x.2)

/-- MOVSX and MOVZX from a word have no 16-bit destination. -/
def GForm.listed (f : GForm) (p66 w : Bool) : Bool := !((f.op == 0xB7 || f.op == 0xBF) && f.ops == [.r .v, .rm .w] && p66 && !w)

namespace Manual

/-- Memory operands of SSE and MMX instructions that are not 128 bits (xmm) or 64 bits (mm) wide. -/
def narrow : List (Nat × List Nat) :=
  [(8, [n!"pextrb", n!"pinsrb"]),
   (16, [n!"pextrw", n!"pinsrw", n!"pmovsxbq", n!"pmovzxbq"]),
   (32, [n!"addss", n!"cmpss", n!"cmpeqss", n!"cmpless", n!"cmpltss", n!"cmpneqss", n!"cmpnless", n!"cmpnltss", n!"cmpordss", n!"cmpunordss", n!"comiss", n!"cvtss2sd",
     n!"cvtss2si", n!"cvttss2si", n!"divss", n!"extractps", n!"insertps", n!"maxss", n!"minss", n!"movd", n!"movss", n!"mulss", n!"pextrd", n!"pinsrd", n!"pmovsxbd",
     n!"pmovsxwq", n!"pmovzxbd", n!"pmovzxwq", n!"rcpss", n!"roundss", n!"rsqrtss", n!"sqrtss", n!"subss", n!"ucomiss"]),
   (64, [n!"addsd", n!"cmpsd", n!"cmpeqsd", n!"cmplesd", n!"cmpltsd", n!"cmpneqsd", n!"cmpnlesd", n!"cmpnltsd", n!"cmpordsd", n!"cmpunordsd", n!"comisd", n!"cvtsd2ss",
     n!"cvtsd2si", n!"cvttsd2si", n!"divsd", n!"maxsd", n!"minsd", n!"movsd", n!"mulsd", n!"pextrq", n!"pinsrq", n!"roundsd", n!"sqrtsd", n!"subsd", n!"ucomisd",
     n!"cvtdq2pd", n!"cvtps2pd", n!"cvtpi2pd", n!"cvtpi2ps", n!"cvtps2pi", n!"cvttps2pi", n!"movddup", n!"movhpd", n!"movhps", n!"movlpd", n!"movlps", n!"movq",
     n!"pmovsxbw", n!"pmovsxdq", n!"pmovsxwd", n!"pmovzxbw", n!"pmovzxdq", n!"pmovzxwd"])]

/-- The sizes of the memory operand in bits; 0: 384 bits, for which there is no size keyword. -/
def memSizes (name : Nat) (f : Form) : List Nat :=
  if isIn name [n!"cvtsi2sd", n!"cvtsi2ss"] then [32, 64]
  else if isIn name [n!"aesdec128kl", n!"aesenc128kl", n!"aesdecwide128kl", n!"aesencwide128kl"] then [0]
  else if isIn name [n!"aesdec256kl", n!"aesenc256kl", n!"aesdecwide256kl", n!"aesencwide256kl"] then [512]
  else if f.pp = 0 && isIn name [n!"punpcklbw", n!"punpckldq", n!"punpcklwd"] then [32]
  else match narrow.find? fun p => isIn name p.2 with
    | some p => [p.1]
    | none => if f.pp = 0 && isIn name mmx then [64] else [128]

end Manual
end X86
end Xbyak
