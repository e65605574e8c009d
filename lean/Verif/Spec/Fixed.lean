import Verif.Spec.X86
import Verif.Mnemonic.Basic
/-!
# Instructions without operands, and the x87 instructions

Transcribed from the Intel SDM, volume 2 (and, for clzero, monitorx and mwaitx, the AMD64 manual, volume 3), independently of the assembler.
-/
namespace Xbyak
namespace X86

/-! ## Instructions without operands -/

/-- An instruction without explicit operands.  `after` is the fixed byte in the place of ModRM. -/
structure Fixed where
  op : Byte
  map : BitVec 5 := 0
  /-- mandatory or operand size prefix -/
  pp : Option Byte := none
  /-- REX.W -/
  w : Bool := false
  after : Option Byte := none
  /-- WAIT in front of it -/
  wait : Bool := false
  /-- VEX.128 or VEX.256, with W0 or WIG and vvvv = 1111 -/
  vex : Option (BitVec 2) := none
  deriving DecidableEq, Repr

/-- The bytes start with this instruction; `t` follows. -/
def Fixed.Reads (f : Fixed) (bs t : List Byte) : Prop :=
  ∃ h bs', bs = (if f.wait then 0x9B :: bs' else bs') ∧ head bs' = some (h, f.after.toList ++ t) ∧ h.map = f.map ∧ h.opcode = f.op ∧
    h.p67 = false ∧ h.seg = none ∧
    match f.vex with
    | some l => h.space = .vex ∧ h.L = l ∧ h.w = false ∧ h.vreg = 0 ∧ h.pp = 0 ∧ f.pp = none ∧ h.p66 = false ∧ h.pF2 = false ∧ h.pF3 = false
    | none => h.space = .legacy ∧ h.w = f.w ∧ h.p66 = (f.pp == some 0x66) ∧ h.pF2 = (f.pp == some 0xF2) ∧ h.pF3 = (f.pp == some 0xF3)

namespace Fixed

/-- string instructions: byte, word, doubleword, quadword -/
def strB (op : Byte) : Fixed := { op }
def strW (op : Byte) : Fixed := { op := op + 1, pp := some 0x66 }
def strD (op : Byte) : Fixed := { op := op + 1 }
def strQ (op : Byte) : Fixed := { op := op + 1, w := true }
/-- x87 instructions without operands, or with the implied operand ST(1) -/
def fp (op after : Byte) : Fixed := { op, after := some after }
def sys (after : Byte) (pp : Option Byte := none) : Fixed := { map := 1, op := 0x01, after := some after, pp }
def of (op : Byte) : Fixed := { map := 1, op }

end Fixed

/-- Instruction prefixes with a function of their own: LOCK, REPNE/REPNZ/BND, REP/REPE/REPZ. -/
def prefixBytes : List (Nat × Byte) :=
  [(n!"lock", 0xF0), (n!"rep", 0xF3), (n!"repe", 0xF3), (n!"repz", 0xF3), (n!"repne", 0xF2), (n!"repnz", 0xF2), (n!"bnd", 0xF2)]

open Fixed in
def fixed : List (Nat × Fixed) :=
  [-- conversions of rAX
   (n!"cbw", { op := 0x98, pp := some 0x66 }), (n!"cwde", { op := 0x98 }), (n!"cdqe", { op := 0x98, w := true }),
   (n!"cwd", { op := 0x99, pp := some 0x66 }), (n!"cdq", { op := 0x99 }), (n!"cqo", { op := 0x99, w := true }),
   -- flags
   (n!"cmc", { op := 0xF5 }), (n!"clc", { op := 0xF8 }), (n!"stc", { op := 0xF9 }), (n!"cli", { op := 0xFA }), (n!"sti", { op := 0xFB }), (n!"cld", { op := 0xFC }),
   (n!"std", { op := 0xFD }), (n!"lahf", { op := 0x9F }), (n!"sahf", { op := 0x9E }), (n!"pushf", { op := 0x9C }), (n!"popf", { op := 0x9D }),
   (n!"pushfq", { op := 0x9C }), (n!"popfq", { op := 0x9D }), (n!"stac", sys 0xCB),
   -- strings
   (n!"movsb", strB 0xA4), (n!"movsw", strW 0xA4), (n!"movsd", strD 0xA4), (n!"movsq", strQ 0xA4), (n!"cmpsb", strB 0xA6), (n!"cmpsw", strW 0xA6), (n!"cmpsd", strD 0xA6),
   (n!"cmpsq", strQ 0xA6), (n!"stosb", strB 0xAA), (n!"stosw", strW 0xAA), (n!"stosd", strD 0xAA), (n!"stosq", strQ 0xAA), (n!"lodsb", strB 0xAC), (n!"lodsw", strW 0xAC),
   (n!"lodsd", strD 0xAC), (n!"lodsq", strQ 0xAC), (n!"scasb", strB 0xAE), (n!"scasw", strW 0xAE), (n!"scasd", strD 0xAE), (n!"scasq", strQ 0xAE),
   (n!"outsb", strB 0x6E), (n!"outsw", strW 0x6E), (n!"outsd", strD 0x6E), (n!"xlatb", { op := 0xD7 }),
   -- control
   (n!"leave", { op := 0xC9 }), (n!"int3", { op := 0xCC }), (n!"hlt", { op := 0xF4 }), (n!"pause", { op := 0x90, pp := some 0xF3 }), (n!"ud2", of 0x0B),
   (n!"syscall", of 0x05), (n!"sysret", of 0x07), (n!"sysenter", of 0x34), (n!"sysexit", of 0x35),
   (n!"endbr64", { map := 1, op := 0x1E, pp := some 0xF3, after := some 0xFA }), (n!"endbr32", { map := 1, op := 0x1E, pp := some 0xF3, after := some 0xFB }),
   (n!"clui", sys 0xEE (some 0xF3)), (n!"stui", sys 0xEF (some 0xF3)), (n!"testui", sys 0xED (some 0xF3)), (n!"uiret", sys 0xEC (some 0xF3)),
   (n!"xend", sys 0xD5), (n!"xsusldtrk", sys 0xE8 (some 0xF2)), (n!"xresldtrk", sys 0xE9 (some 0xF2)),
   -- system
   (n!"cpuid", of 0xA2), (n!"rdtsc", of 0x31), (n!"rdtscp", sys 0xF9), (n!"rdmsr", of 0x32), (n!"wrmsr", of 0x30), (n!"rdpmc", of 0x33), (n!"wbinvd", of 0x09),
   (n!"monitor", sys 0xC8), (n!"mwait", sys 0xC9), (n!"monitorx", sys 0xFA), (n!"mwaitx", sys 0xFB), (n!"clzero", sys 0xFC), (n!"xgetbv", sys 0xD0),
   (n!"serialize", sys 0xE8), (n!"lfence", { map := 1, op := 0xAE, after := some 0xE8 }), (n!"mfence", { map := 1, op := 0xAE, after := some 0xF0 }),
   (n!"sfence", { map := 1, op := 0xAE, after := some 0xF8 }),
   -- vector state
   (n!"emms", of 0x77), (n!"vzeroupper", { map := 1, op := 0x77, vex := some 0 }), (n!"vzeroall", { map := 1, op := 0x77, vex := some 1 }),
   (n!"tilerelease", { map := 2, op := 0x49, after := some 0xC0, vex := some 0 }),
   -- x87
   (n!"fnop", fp 0xD9 0xD0), (n!"fchs", fp 0xD9 0xE0), (n!"fabs", fp 0xD9 0xE1), (n!"ftst", fp 0xD9 0xE4), (n!"fxam", fp 0xD9 0xE5),
   (n!"fld1", fp 0xD9 0xE8), (n!"fldl2t", fp 0xD9 0xE9), (n!"fldl2e", fp 0xD9 0xEA), (n!"fldpi", fp 0xD9 0xEB), (n!"fldlg2", fp 0xD9 0xEC), (n!"fldln2", fp 0xD9 0xED), (n!"fldz", fp 0xD9 0xEE),
   (n!"f2xm1", fp 0xD9 0xF0), (n!"fyl2x", fp 0xD9 0xF1), (n!"fptan", fp 0xD9 0xF2), (n!"fpatan", fp 0xD9 0xF3), (n!"fxtract", fp 0xD9 0xF4), (n!"fprem1", fp 0xD9 0xF5),
   (n!"fdecstp", fp 0xD9 0xF6), (n!"fincstp", fp 0xD9 0xF7), (n!"fprem", fp 0xD9 0xF8), (n!"fyl2xp1", fp 0xD9 0xF9), (n!"fsqrt", fp 0xD9 0xFA), (n!"fsincos", fp 0xD9 0xFB),
   (n!"frndint", fp 0xD9 0xFC), (n!"fscale", fp 0xD9 0xFD), (n!"fsin", fp 0xD9 0xFE), (n!"fcos", fp 0xD9 0xFF), (n!"fxch", fp 0xD9 0xC9),
   (n!"fcom", fp 0xD8 0xD1), (n!"fcomp", fp 0xD8 0xD9), (n!"fcompp", fp 0xDE 0xD9), (n!"fucom", fp 0xDD 0xE1), (n!"fucomp", fp 0xDD 0xE9), (n!"fucompp", fp 0xDA 0xE9),
   (n!"faddp", fp 0xDE 0xC1), (n!"fmulp", fp 0xDE 0xC9), (n!"fsubrp", fp 0xDE 0xE1), (n!"fsubp", fp 0xDE 0xE9), (n!"fdivrp", fp 0xDE 0xF1), (n!"fdivp", fp 0xDE 0xF9),
   (n!"fnclex", fp 0xDB 0xE2), (n!"fclex", { fp 0xDB 0xE2 with wait := true }), (n!"fninit", fp 0xDB 0xE3), (n!"finit", { fp 0xDB 0xE3 with wait := true }),
   (n!"fwait", { op := 0x9B }), (n!"wait", { op := 0x9B })]

/-! ## x87 instructions with operands -/

/-- How the operands of a register form are written: `ST(0), ST(i)`; `ST(i), ST(0)`; `ST(i)`. -/
inductive FOps | st0i | sti0 | sti
  deriving DecidableEq, Repr

/-- ESC opcode D8-DF and ModRM = 11 reg i. -/
structure FReg where
  esc : Byte
  reg : BitVec 3
  ops : FOps
  deriving DecidableEq, Repr

/-- ESC opcode, ModRM.reg, size of the memory operand. -/
structure FMem where
  esc : Byte
  reg : BitVec 3
  bits : Nat
  deriving DecidableEq, Repr

namespace F

/-- FADD, FMUL, FSUB, FSUBR, FDIV, FDIVR: `n` in the form with destination ST(0), `n'` in the form with destination ST(i). -/
def arith (n n' : BitVec 3) : List FReg := [⟨0xD8, n, .st0i⟩, ⟨0xDC, n', .sti0⟩]
def pop (n' : BitVec 3) : List FReg := [⟨0xDE, n', .sti0⟩]
def real (n : BitVec 3) : List FMem := [⟨0xD8, n, 32⟩, ⟨0xDC, n, 64⟩]
def int (n : BitVec 3) : List FMem := [⟨0xDE, n, 16⟩, ⟨0xDA, n, 32⟩]

end F

open F in
def fregs : List (Nat × List FReg) :=
  [(n!"fadd", arith 0 0), (n!"fmul", arith 1 1), (n!"fsub", arith 4 5), (n!"fsubr", arith 5 4), (n!"fdiv", arith 6 7), (n!"fdivr", arith 7 6),
   (n!"faddp", pop 0), (n!"fmulp", pop 1), (n!"fsubp", pop 5), (n!"fsubrp", pop 4), (n!"fdivp", pop 7), (n!"fdivrp", pop 6),
   (n!"fcmovb", [⟨0xDA, 0, .st0i⟩]), (n!"fcmove", [⟨0xDA, 1, .st0i⟩]), (n!"fcmovbe", [⟨0xDA, 2, .st0i⟩]), (n!"fcmovu", [⟨0xDA, 3, .st0i⟩]),
   (n!"fcmovnb", [⟨0xDB, 0, .st0i⟩]), (n!"fcmovne", [⟨0xDB, 1, .st0i⟩]), (n!"fcmovnbe", [⟨0xDB, 2, .st0i⟩]), (n!"fcmovnu", [⟨0xDB, 3, .st0i⟩]),
   (n!"fcomi", [⟨0xDB, 6, .st0i⟩]), (n!"fcomip", [⟨0xDF, 6, .st0i⟩]), (n!"fucomi", [⟨0xDB, 5, .st0i⟩]), (n!"fucomip", [⟨0xDF, 5, .st0i⟩]),
   (n!"fcom", [⟨0xD8, 2, .sti⟩]), (n!"fcomp", [⟨0xD8, 3, .sti⟩]), (n!"fucom", [⟨0xDD, 4, .sti⟩]), (n!"fucomp", [⟨0xDD, 5, .sti⟩]),
   (n!"ffree", [⟨0xDD, 0, .sti⟩]), (n!"fld", [⟨0xD9, 0, .sti⟩]), (n!"fst", [⟨0xDD, 2, .sti⟩]), (n!"fstp", [⟨0xDD, 3, .sti⟩]), (n!"fxch", [⟨0xD9, 1, .sti⟩])]

open F in
def fmems : List (Nat × List FMem) :=
  [(n!"fadd", real 0), (n!"fmul", real 1), (n!"fcom", real 2), (n!"fcomp", real 3), (n!"fsub", real 4), (n!"fsubr", real 5), (n!"fdiv", real 6), (n!"fdivr", real 7),
   (n!"fiadd", int 0), (n!"fimul", int 1), (n!"ficom", int 2), (n!"ficomp", int 3), (n!"fisub", int 4), (n!"fisubr", int 5), (n!"fidiv", int 6), (n!"fidivr", int 7),
   (n!"fld", [⟨0xD9, 0, 32⟩, ⟨0xDD, 0, 64⟩]), (n!"fst", [⟨0xD9, 2, 32⟩, ⟨0xDD, 2, 64⟩]), (n!"fstp", [⟨0xD9, 3, 32⟩, ⟨0xDD, 3, 64⟩]),
   (n!"fild", [⟨0xDF, 0, 16⟩, ⟨0xDB, 0, 32⟩, ⟨0xDF, 5, 64⟩]), (n!"fist", [⟨0xDF, 2, 16⟩, ⟨0xDB, 2, 32⟩]), (n!"fistp", [⟨0xDF, 3, 16⟩, ⟨0xDB, 3, 32⟩, ⟨0xDF, 7, 64⟩]),
   (n!"fisttp", [⟨0xDF, 1, 16⟩, ⟨0xDB, 1, 32⟩, ⟨0xDD, 1, 64⟩])]

/-- Mnemonics that stand for WAIT and another instruction (assembler convention, see FSTSW/FNSTSW in the SDM). -/
def waits : List (Nat × Nat) :=
  [(n!"fsave", n!"fnsave"), (n!"fstcw", n!"fnstcw"), (n!"fstenv", n!"fnstenv"), (n!"fstsw", n!"fnstsw")]

def fregsOf (name : Nat) : List FReg := (fregs.filter fun p => Nat.beq p.1 name).flatMap (·.2)
def fmemsOf (name : Nat) : List FMem := (fmems.filter fun p => Nat.beq p.1 name).flatMap (·.2)

/-- The decoded head is an ESC opcode without any prefix but REX.RXB/REX2 bits. -/
structure Esc (esc : Byte) (h : Head) : Prop where
  space : h.space = .legacy ∨ h.space = .rex2
  map : h.map = 0
  op : h.opcode = esc
  p66 : h.p66 = false
  pF2 : h.pF2 = false
  pF3 : h.pF3 = false
  w : h.w = false
  seg : h.seg = none

end X86
end Xbyak
