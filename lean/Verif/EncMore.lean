import Verif.EncOps
/-!
# More instructions of `CodeGenerator` written in xbyak.h
-/
namespace Xbyak
namespace E
open Enc

/-- xbyak.h 3256-3267 `bswap`; `r` is a `Reg32e`, a 32- or 64-bit general register -/
def bswap (r : Reg) : Enc Unit := do
  let idx := r.idx.setWidth 8
  let rex : Byte := sel (r.isREG 64) 8 ||| sel (idx &&& 8 != 0) 1
  if 16 ≤ idx.toNat then do
    db 0xD5
    db (0x80 ||| (idx &&& 16) ||| rex)
  else do
    dbIf (rex != 0) (0x40 ||| rex)
    db 0x0F
  db (0xC8 + (idx &&& 7))

/-- xbyak.h 3268-3276 `vmovd` -/
def vmovd (dflt : PrefEnc) (op1 op2 : Operand) (enc : PrefEnc) : Enc Unit :=
  opAVX10ZeroExt dflt op1 op2
    (fun i => match i with
      | 0 | 1 => T_EVEX ||| T_66 ||| T_0F ||| T_W0 ||| T_N4
      | 2 => T_MUST_EVEX ||| T_66 ||| T_0F ||| T_EW0 ||| T_N4
      | _ => T_MUST_EVEX ||| T_F3 ||| T_0F ||| T_EW0 ||| T_N4)
    (fun i => match i with | 0 => 0x7E | 1 => 0x6E | 2 => 0xD6 | _ => 0x7E) enc 32

/-- xbyak.h 3277-3285 `vmovw` -/
def vmovw (dflt : PrefEnc) (op1 op2 : Operand) (enc : PrefEnc) : Enc Unit :=
  opAVX10ZeroExt dflt op1 op2
    (fun i => match i with
      | 0 | 1 => T_MUST_EVEX ||| T_66 ||| T_MAP5 ||| T_N2
      | _ => T_MUST_EVEX ||| T_F3 ||| T_MAP5 ||| T_EW0 ||| T_N2)
    (fun i => match i with | 0 => 0x7E | 1 => 0x6E | 2 => 0x7E | _ => 0x6E) enc (16 ||| 32 ||| 64)

end E
end Xbyak
