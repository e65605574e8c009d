import Verif.EncOps
import Verif.Mnemonic.Basic
import Verif.Spec.X86
/-!
# Instructions with two encodings

Written from the manual and the comments at `setDefaultEncoding` and `setDefaultEncodingAVX10` (xbyak.h 3242-3254; the names of the choices are those of lines 1698-1704): AVX-VNNI and AVX-NE-CONVERT have VEX encodings of instructions of AVX-512,
and AVX10.2 has EVEX encodings of instructions of AVX, AVX-VNNI-INT8 and AVX-VNNI-INT16.
-/
namespace Xbyak
namespace X86
open Mn E

/-- Groups of instructions with two encodings, chosen by one default each: 0 those of AVX-VNNI and AVX-NE-CONVERT that AVX-512 has too; 1 those that AVX10.2
has too. -/
def twoEncodings : List (Nat × Nat) := [(n!"vpdpbusd", 0), (n!"vpdpbusds", 0), (n!"vpdpwssd", 0), (n!"vpdpwssds", 0), (n!"vcvtneps2bf16", 0),
  (n!"vmpsadbw", 1), (n!"vpdpbssd", 1), (n!"vpdpbssds", 1), (n!"vpdpbsud", 1), (n!"vpdpbsuds", 1), (n!"vpdpbuud", 1), (n!"vpdpbuuds", 1),
  (n!"vpdpwsud", 1), (n!"vpdpwsuds", 1), (n!"vpdpwusd", 1), (n!"vpdpwusds", 1), (n!"vpdpwuud", 1), (n!"vpdpwuuds", 1)]

/-- The prefix a preference stands for in each group. -/
def asked : Nat → PrefEnc → Option Space
  | 0, .vex => some .vex
  | 0, .evex => some .evex
  | 1, .preAVX10v2 => some .vex
  | 1, .avx10v2 => some .evex
  | _, _ => none

/-- The choice last made in group `sel` by a list of calls, latest last; the first one is the initial choice. -/
def lastAsked (sel : Nat) : PrefEnc → List PrefEnc → PrefEnc
  | d, [] => d
  | d, enc :: l => lastAsked sel (if (asked sel enc).isSome then enc else d) l

end X86

end Xbyak
