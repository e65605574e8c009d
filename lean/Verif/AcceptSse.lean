import Verif.Accept
import Verif.Spec.Sizes
/-!
# The forms of SSE and MMX instructions, by representatives
-/
namespace Xbyak
namespace Mn
open E X86

/-- The operand; the memory operand has `m` bits. -/
def ckind (m : Nat) : Cls → OpKind
  | .mm => .mm
  | .xmm => .xmm false
  | .ymm => .ymm false
  | .zmm => .zmm
  | .r32 => .gp 32
  | .r64 => .gp 64
  | .mem => .mem m

/-- The functions that refuse a memory operand with the size the manual gives it, for some or all of their registers. -/
def refusing : List Nat := [n!"cvtpd2pi", n!"cvttpd2pi", n!"cvtsd2si", n!"cvttsd2si", n!"cvtss2si", n!"cvttss2si", n!"movntdq", n!"movntpd", n!"pinsrw", n!"punpcklbw",
  n!"punpckldq", n!"punpcklwd"]

def scheck (t : List Entry) (n : Nat) : Bool :=
  let fs := (Manual.forms n).filter fun f => f.sp == .legacy
  fs.isEmpty || let es := if Nat.beq n n!"movq" then namedIn t03 n ++ namedIn t06 n else namedIn t n
    fs.all fun f => (0 :: if Manual.isIn n refusing then [] else Manual.memSizes n f).all fun m =>
      (choose ((Manual.classes n f).map fun l => l.map (ckind m))).all fun ks => [0, 1].any fun i => covers es i false ks || covers es i true ks

private theorem scheck1 : (t01.all fun e => scheck t01 e.name) = true := by decide +kernel
private theorem scheck2 : (t02.all fun e => scheck t02 e.name) = true := by decide +kernel
private theorem scheck3 : (t03.all fun e => scheck t03 e.name) = true := by decide +kernel
private theorem scheck4 : (t04.all fun e => scheck t04 e.name) = true := by decide +kernel
private theorem scheck5 : (t05.all fun e => scheck t05 e.name) = true := by decide +kernel
private theorem scheck6 : (t06.all fun e => scheck t06 e.name) = true := by decide +kernel
private theorem scheck7 : (t07.all fun e => scheck t07 e.name) = true := by decide +kernel
private theorem scheck8 : (t08.all fun e => scheck t08 e.name) = true := by decide +kernel

theorem scheck_all {t : List Entry} (ht : t ∈ tabs) : (t.all fun e => scheck t e.name) = true := by
  simp only [tabs, List.mem_cons, List.not_mem_nil, or_false] at ht
  rcases ht with rfl | rfl | rfl | rfl | rfl | rfl | rfl | rfl
  · exact scheck1
  · exact scheck2
  · exact scheck3
  · exact scheck4
  · exact scheck5
  · exact scheck6
  · exact scheck7
  · exact scheck8

end Mn
end Xbyak
