import Verif.Spec.Skip
/-!
# LOCK

`X86.head` knows the prefixes that change operands or opcode maps.  LOCK (F0, Intel SDM vol. 2, 2.1.1 group 1) changes neither; the encoder
writes it only in front of everything else, and that is where it is read here.
-/
namespace Xbyak
namespace X86

/-- What follows the first instruction, which may begin with LOCK. -/
def skipL : List Byte → Option (List Byte)
  | 0xF0 :: t => skip t
  | bs => skip bs

end X86
end Xbyak
