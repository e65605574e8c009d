import Verif.Mnemonic.T01
import Verif.Mnemonic.T02
import Verif.Mnemonic.T03
import Verif.Mnemonic.T04
import Verif.Mnemonic.T05
import Verif.Mnemonic.T06
import Verif.Mnemonic.T07
import Verif.Mnemonic.T08
/-!
# The mnemonic table

All functions of `xbyak_mnemonic.h` compiled with `XBYAK64` (lines 2-2662 except the 32-bit section 1940-1958), including the omitted-operand
forms (`XBYAK_ENABLE_OMITTED_OPERAND`), the operator names (1961-1967) and the AVX-512 section.
-/
namespace Xbyak
namespace Mn

/-- The whole table. -/
def all : List Entry := t01 ++ t02 ++ t03 ++ t04 ++ t05 ++ t06 ++ t07 ++ t08

/-- The functions with a name (`Nat.beq`: fast in the kernel). -/
def named (n : Nat) : List Entry := all.filter fun e => Nat.beq e.name n

end Mn
end Xbyak
