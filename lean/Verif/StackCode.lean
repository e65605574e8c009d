import Verif.StackFrame
import Verif.EncOps
/-!
# The code of StackFrame

The calls of `class StackFrame` (xbyak_util.h 883-1016) as calls of the encoders.
-/
namespace Xbyak
namespace SF
open X86 (Gpr)

/-- `Reg64(r)`, xbyak.h 896-898 -/
def r64 (r : Gpr) : Operand := .reg (.gp (r.setWidth 5) 64)

/-- xbyak.h 2984-2985 `push`, `pop`; xbyak_mnemonic.h 1028 `sub(op, imm)`, 10 `add(op, imm)`; xbyak.h 3005-3042 `mov(reg, reg)`; xbyak_mnemonic.h 923 `ret()` -/
def Call.enc : Call → Enc Unit
  | .push r => E.push (r64 r)
  | .pop r => E.pop (r64 r)
  | .sub i => E.opOI (r64 4) i 0x28 5
  | .add i => E.opOI (r64 4) i 0x00 0
  | .mov d s => E.mov (r64 d) (r64 s)
  | .ret => Enc.db 0xC3

/-- The calls one after the other -/
def encode : List Call → Enc Unit
  | [] => pure ()
  | c :: cs => do c.enc; encode cs

end SF
end Xbyak
