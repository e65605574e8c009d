import Verif.Mnemonic.Basic
/-!
# Vector length of an instruction

Written from the manual: the length an instruction operates on (VEX.L, EVEX.L'L) is the width of its widest vector register, the index of a VSIB
address included, 128 if there is none.  Exceptions: the three-operand instructions on opmasks are defined with VEX.L = 1; the prefetches of AVX512_PF
exist with 512 bits only, whatever the index; and the instructions whose only vector register may be narrower than their memory source, the length of
which is the width of the source.
-/
namespace Xbyak
namespace X86
open Mn

/-- The field for a length in bits (SDM vol. 2A 2.3.6.2, table 2-38). -/
def lengthBits (n : Nat) : BitVec 2 := if 512 ≤ n then 2 else if 256 ≤ n then 1 else 0

/-- `VEX.L1` in SDM vol. 2, KADDW … KXORW. -/
def maskOps : List Nat := [n!"kaddb", n!"kaddd", n!"kaddq", n!"kaddw", n!"kandb", n!"kandd", n!"kandq", n!"kandw", n!"kandnb", n!"kandnd", n!"kandnq", n!"kandnw",
  n!"korb", n!"kord", n!"korq", n!"korw", n!"kunpckbw", n!"kunpckdq", n!"kunpckwd", n!"kxnorb", n!"kxnord", n!"kxnorq", n!"kxnorw",
  n!"kxorb", n!"kxord", n!"kxorq", n!"kxorw"]

/-- AVX512_PF: `EVEX.512` only. -/
def prefetches : List Nat := [n!"vgatherpf0dpd", n!"vgatherpf0dps", n!"vgatherpf0qpd", n!"vgatherpf0qps", n!"vgatherpf1dpd", n!"vgatherpf1dps", n!"vgatherpf1qpd", n!"vgatherpf1qps",
  n!"vscatterpf0dpd", n!"vscatterpf0dps", n!"vscatterpf0qpd", n!"vscatterpf0qps", n!"vscatterpf1dpd", n!"vscatterpf1dps", n!"vscatterpf1qpd", n!"vscatterpf1qps"]

/-- Instructions whose destination does not show the length: narrowing conversions, and tests with an opmask destination. -/
def bySource : List Nat := [n!"vcvtpd2dq", n!"vcvtpd2ps", n!"vcvttpd2dq", n!"vcvtneps2bf16", n!"vcvtneph2bf8", n!"vcvtneph2bf8s", n!"vcvtneph2hf8", n!"vcvtneph2hf8s",
  n!"vcvtpd2udq", n!"vcvtqq2ps", n!"vcvttpd2dqs", n!"vcvttpd2udq", n!"vcvttpd2udqs", n!"vcvtuqq2ps", n!"vcvtdq2ph", n!"vcvtps2phx", n!"vcvtudq2ph",
  n!"vcvtpd2ph", n!"vcvtqq2ph", n!"vcvtuqq2ph", n!"vfpclasspbf16", n!"vfpclasspd", n!"vfpclassph", n!"vfpclassps"]

def among (name : Nat) (l : List Nat) : Bool := l.any (Nat.beq name)

/-- The length of `name`, given the widths of its vector registers and, if it has a memory operand, the size stated for that (0: none). -/
def vectorLength (name : Nat) (regs : List Nat) (mem : Option Nat) : Nat :=
  if among name maskOps then 256
  else if among name prefetches then 512
  else match among name bySource, mem with
    | true, some 0 => if 256 ∈ regs then 512 else 128
    | true, some b => max 128 b
    | _, _ => regs.foldl max 128

end X86
end Xbyak
