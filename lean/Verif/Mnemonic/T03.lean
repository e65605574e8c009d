import Verif.Mnemonic.Basic
/-! Mnemonic table, `xbyak_mnemonic.h` lines 682-1021.  Each entry cites its line; an alias (a line calling another mnemonic) has the
body of the function it calls, with the arguments substituted. -/
namespace Xbyak
namespace Mn
open E

/-- `xbyak_mnemonic.h` 682-1021 -/
def t03 : List Entry := [
  ⟨682, n!"monitor", [], 0, .leaf (.bytes [0x0F, 0x01, 0xC8])⟩,
  ⟨683, n!"monitorx", [], 0, .leaf (.bytes [0x0F, 0x01, 0xFA])⟩,
  ⟨684, n!"movapd", [.addr, .xmm], 0, .leaf (.sse (.a 1) (.a 0) (fl [T_0F, T_66]) 0x29 .any .none)⟩,
  ⟨685, n!"movapd", [.xmm, .op], 0, .leaf (.mmx (.a 0) (.a 1) 0x28 T_0F T_66 .none)⟩,
  ⟨686, n!"movaps", [.addr, .xmm], 0, .leaf (.sse (.a 1) (.a 0) T_0F 0x29 .any .none)⟩,
  ⟨687, n!"movaps", [.xmm, .op], 0, .leaf (.mmx (.a 0) (.a 1) 0x28 T_0F 0 .none)⟩,
  ⟨688, n!"movbe", [.addr, .reg], 0, .leaf (.mr (.a 0) (.a 1) T_0F38 0xF1 T_APX (some 0x61))⟩,
  ⟨689, n!"movbe", [.reg, .addr], 0, .leaf (.mr (.a 1) (.a 0) T_0F38 0xF0 T_APX (some 0x60))⟩,
  ⟨690, n!"movd", [.mmx, .op], 0, .guard (fun g => !((g.op 1).isMEM || (g.reg 1).isREG 32)) .BAD_COMBINATION (.pre (fun g => (g.reg 0).isXMM) 0x66 (.leaf (.sse (.a 0) (.a 1) (fl [T_0F, T_ALLOW_DIFF_SIZE]) 0x6E .any .none)))⟩,
  ⟨691, n!"movd", [.op, .mmx], 0, .guard (fun g => !((g.op 0).isMEM || (g.reg 0).isREG 32)) .BAD_COMBINATION (.pre (fun g => (g.reg 1).isXMM) 0x66 (.leaf (.sse (.a 1) (.a 0) (fl [T_0F, T_ALLOW_DIFF_SIZE]) 0x7E .any .none)))⟩,
  ⟨692, n!"movddup", [.xmm, .op], 0, .leaf (.sse (.a 0) (.a 1) (fl [T_DUP, T_F2, T_0F, T_EW1, T_YMM, T_EVEX, T_ER_X, T_ER_Y, T_ER_Z]) 0x12 .xmm_xmm .none)⟩,
  ⟨693, n!"movdir64b", [.reg, .addr], 0, .leaf (.raw .movdir64b)⟩,
  ⟨694, n!"movdiri", [.addr, .reg32e], 0, .leaf (.mr (.a 0) (.a 1) T_0F38 0xF9 T_APX none)⟩,
  ⟨695, n!"movdq2q", [.mmx, .xmm], 0, .leaf (.sse (.a 0) (.a 1) (fl [T_F2, T_0F]) 0xD6 .any .none)⟩,
  ⟨696, n!"movdqa", [.addr, .xmm], 0, .leaf (.sse (.a 1) (.a 0) (fl [T_0F, T_66]) 0x7F .any .none)⟩,
  ⟨697, n!"movdqa", [.xmm, .op], 0, .leaf (.mmx (.a 0) (.a 1) 0x6F T_0F T_66 .none)⟩,
  ⟨698, n!"movdqu", [.addr, .xmm], 0, .leaf (.sse (.a 1) (.a 0) (fl [T_0F, T_F3]) 0x7F .any .none)⟩,
  ⟨699, n!"movdqu", [.xmm, .op], 0, .leaf (.mmx (.a 0) (.a 1) 0x6F T_0F T_F3 .none)⟩,
  ⟨700, n!"movhlps", [.xmm, .xmm], 0, .leaf (.sse (.a 0) (.a 1) T_0F 0x12 .any .none)⟩,
  ⟨701, n!"movhpd", [.op, .op], 0, .leaf (.movXmm (.a 0) (.a 1) (fl [T_66, T_0F]) 0x16)⟩,
  ⟨702, n!"movhps", [.op, .op], 0, .leaf (.movXmm (.a 0) (.a 1) T_0F 0x16)⟩,
  ⟨703, n!"movlhps", [.xmm, .xmm], 0, .leaf (.sse (.a 0) (.a 1) T_0F 0x16 .any .none)⟩,
  ⟨704, n!"movlpd", [.op, .op], 0, .leaf (.movXmm (.a 0) (.a 1) (fl [T_66, T_0F]) 0x12)⟩,
  ⟨705, n!"movlps", [.op, .op], 0, .leaf (.movXmm (.a 0) (.a 1) T_0F 0x12)⟩,
  ⟨706, n!"movmskpd", [.reg32e, .xmm], 0, .pre (fun _ => true) 0x66 (.leaf (.sse (.a 0) (.a 1) T_0F 0x50 .any .none))⟩,
  ⟨707, n!"movmskps", [.reg32e, .xmm], 0, .leaf (.sse (.a 0) (.a 1) T_0F 0x50 .any .none)⟩,
  ⟨708, n!"movntdq", [.addr, .xmm], 0, .guard (fun g => decide ((g.reg 1).idx.toNat ≥ 16)) .BAD_PARAMETER (.leaf (.sse (.gp16Of 1) (.a 0) T_0F 0xE7 .any .none))⟩,
  ⟨709, n!"movntdqa", [.xmm, .addr], 0, .leaf (.sse (.a 0) (.a 1) (fl [T_66, T_0F38]) 0x2A .any .none)⟩,
  ⟨710, n!"movnti", [.addr, .reg32e], 0, .leaf (.mr (.a 0) (.a 1) T_0F 0xC3 0 none)⟩,
  ⟨711, n!"movntpd", [.addr, .xmm], 0, .guard (fun g => decide ((g.reg 1).idx.toNat ≥ 16)) .BAD_PARAMETER (.leaf (.sse (.gp16Of 1) (.a 0) T_0F 0x2B .any .none))⟩,
  ⟨712, n!"movntps", [.addr, .xmm], 0, .leaf (.sse (.xmmOf 1) (.a 0) T_0F 0x2B .any .none)⟩,
  ⟨713, n!"movntq", [.addr, .mmx], 0, .guard (fun g => !((g.reg 1).isMMX)) .BAD_COMBINATION (.leaf (.sse (.a 1) (.a 0) T_0F 0xE7 .any .none))⟩,
  ⟨714, n!"movq", [.addr, .mmx], 0, .pre (fun g => (g.reg 1).isXMM) 0x66 (.ite (fun g => (g.reg 1).isXMM) (.leaf (.sse (.a 1) (.a 0) (fl [T_0F, T_ALLOW_DIFF_SIZE]) 0xD6 .any .none)) (.leaf (.sse (.a 1) (.a 0) (fl [T_0F, T_ALLOW_DIFF_SIZE]) 0x7F .any .none)))⟩,
  ⟨715, n!"movq", [.mmx, .op], 0, .guard (fun g => !((g.op 1).isMEM) && decide ((g.reg 0).kind ≠ (g.reg 1).kind)) .BAD_COMBINATION (.pre (fun g => (g.reg 0).isXMM) 0xF3 (.ite (fun g => (g.reg 0).isXMM) (.leaf (.sse (.a 0) (.a 1) (fl [T_0F, T_ALLOW_DIFF_SIZE]) 0x7E .any .none)) (.leaf (.sse (.a 0) (.a 1) (fl [T_0F, T_ALLOW_DIFF_SIZE]) 0x6F .any .none))))⟩,
  ⟨716, n!"movq2dq", [.xmm, .mmx], 0, .leaf (.sse (.a 0) (.a 1) (fl [T_F3, T_0F]) 0xD6 .any .none)⟩,
  ⟨717, n!"movsb", [], 0, .leaf (.bytes [0xA4])⟩,
  ⟨718, n!"movsd", [], 0, .leaf (.bytes [0xA5])⟩,
  ⟨719, n!"movsd", [.addr, .xmm], 0, .leaf (.sse (.a 1) (.a 0) (fl [T_0F, T_F2]) 0x11 .any .none)⟩,
  ⟨720, n!"movsd", [.xmm, .op], 0, .leaf (.mmx (.a 0) (.a 1) 0x10 T_0F T_F2 .none)⟩,
  ⟨721, n!"movshdup", [.xmm, .op], 0, .leaf (.sse (.a 0) (.a 1) (fl [T_F3, T_0F, T_EW0, T_YMM, T_EVEX]) 0x16 .xmm_xmm .none)⟩,
  ⟨722, n!"movsldup", [.xmm, .op], 0, .leaf (.sse (.a 0) (.a 1) (fl [T_F3, T_0F, T_EW0, T_YMM, T_EVEX]) 0x12 .xmm_xmm .none)⟩,
  ⟨723, n!"movss", [.addr, .xmm], 0, .leaf (.sse (.a 1) (.a 0) (fl [T_0F, T_F3]) 0x11 .any .none)⟩,
  ⟨724, n!"movss", [.xmm, .op], 0, .leaf (.mmx (.a 0) (.a 1) 0x10 T_0F T_F3 .none)⟩,
  ⟨725, n!"movsw", [], 0, .leaf (.bytes [0x66, 0xA5])⟩,
  ⟨726, n!"movsx", [.reg, .op], 0, .leaf (.movxx (.a 0) (.a 1) 0xBE)⟩,
  ⟨727, n!"movupd", [.addr, .xmm], 0, .leaf (.sse (.a 1) (.a 0) (fl [T_0F, T_66]) 0x11 .any .none)⟩,
  ⟨728, n!"movupd", [.xmm, .op], 0, .leaf (.mmx (.a 0) (.a 1) 0x10 T_0F T_66 .none)⟩,
  ⟨729, n!"movups", [.addr, .xmm], 0, .leaf (.sse (.a 1) (.a 0) T_0F 0x11 .any .none)⟩,
  ⟨730, n!"movups", [.xmm, .op], 0, .leaf (.mmx (.a 0) (.a 1) 0x10 T_0F 0 .none)⟩,
  ⟨731, n!"movzx", [.reg, .op], 0, .leaf (.movxx (.a 0) (.a 1) 0xB6)⟩,
  ⟨732, n!"mpsadbw", [.xmm, .op, .int], 0, .leaf (.sse (.a 0) (.a 1) (fl [T_66, T_0F3A]) 0x42 .xmm_xmm (.i 0))⟩,
  ⟨733, n!"mul", [.op], 0, .leaf (.rext (.a 0) 0 4 (fl [T_APX, T_NF, T_CODE1_IF1]) 0xF6)⟩,
  ⟨734, n!"mulpd", [.xmm, .op], 0, .leaf (.sse (.a 0) (.a 1) (fl [T_0F, T_66]) 0x59 .xmm_xmm .none)⟩,
  ⟨735, n!"mulps", [.xmm, .op], 0, .leaf (.sse (.a 0) (.a 1) T_0F 0x59 .xmm_xmm .none)⟩,
  ⟨736, n!"mulsd", [.xmm, .op], 0, .leaf (.sse (.a 0) (.a 1) (fl [T_0F, T_F2]) 0x59 .xmm_xmm .none)⟩,
  ⟨737, n!"mulss", [.xmm, .op], 0, .leaf (.sse (.a 0) (.a 1) (fl [T_0F, T_F3]) 0x59 .xmm_xmm .none)⟩,
  ⟨738, n!"mulx", [.reg32e, .reg32e, .op], 0, .leaf (.rro (.a 0) (.a 1) (.a 2) (fl [T_APX, T_F2, T_0F38]) 0xF6 .none)⟩,
  ⟨739, n!"mwait", [], 0, .leaf (.bytes [0x0F, 0x01, 0xC9])⟩,
  ⟨740, n!"mwaitx", [], 0, .leaf (.bytes [0x0F, 0x01, 0xFB])⟩,
  ⟨741, n!"neg", [.op], 0, .leaf (.rext (.a 0) 0 3 (fl [T_APX, T_NF, T_CODE1_IF1]) 0xF6)⟩,
  ⟨742, n!"neg", [.reg, .op], 0, .leaf (.roo (.a 0) (.a 1) (.bitOf 0 3) (fl [T_APX, T_NF, T_CODE1_IF1, T_ND1]) 0xF6)⟩,
  ⟨743, n!"not_", [.op], 0, .leaf (.rext (.a 0) 0 2 (fl [T_APX, T_CODE1_IF1]) 0xF6)⟩,
  ⟨744, n!"not_", [.reg, .op], 0, .leaf (.roo (.a 0) (.a 1) (.bitOf 0 2) (fl [T_APX, T_CODE1_IF1, T_ND1]) 0xF6)⟩,
  ⟨745, n!"or_", [.op, .int], 0, .leaf (.oi (.a 0) 0 0x08 1)⟩,
  ⟨746, n!"or_", [.op, .op], 0, .leaf (.roMr (.a 0) (.a 1) 0x08)⟩,
  ⟨747, n!"or_", [.reg, .op, .int], 0, .leaf (.roi (.a 0) (.a 1) 0 (fl [T_NF, T_CODE1_IF1]) 1)⟩,
  ⟨748, n!"or_", [.reg, .op, .op], 0, .leaf (.roo (.a 0) (.a 1) (.a 2) (fl [T_NF, T_CODE1_IF1]) 0x08)⟩,
  ⟨749, n!"orpd", [.xmm, .op], 0, .leaf (.sse (.a 0) (.a 1) (fl [T_0F, T_66]) 0x56 .xmm_xmm .none)⟩,
  ⟨750, n!"orps", [.xmm, .op], 0, .leaf (.sse (.a 0) (.a 1) T_0F 0x56 .xmm_xmm .none)⟩,
  ⟨751, n!"out_", [.reg, .reg], 0, .leaf (.inOutDX (.a 1) (.a 0) 0xEE)⟩,
  ⟨752, n!"out_", [.int, .reg], 0, .leaf (.inOutImm (.a 0) 0xE6 0)⟩,
  ⟨753, n!"outsb", [], 0, .leaf (.bytes [0x6E])⟩,
  ⟨754, n!"outsd", [], 0, .leaf (.bytes [0x6F])⟩,
  ⟨755, n!"outsw", [], 0, .leaf (.bytes [0x66, 0x6F])⟩,
  ⟨756, n!"pabsb", [.mmx, .op], 0, .leaf (.mmx (.a 0) (.a 1) 0x1C T_0F38 T_66 .none)⟩,
  ⟨757, n!"pabsd", [.mmx, .op], 0, .leaf (.mmx (.a 0) (.a 1) 0x1E T_0F38 T_66 .none)⟩,
  ⟨758, n!"pabsw", [.mmx, .op], 0, .leaf (.mmx (.a 0) (.a 1) 0x1D T_0F38 T_66 .none)⟩,
  ⟨759, n!"packssdw", [.mmx, .op], 0, .leaf (.mmx (.a 0) (.a 1) 0x6B T_0F T_66 .none)⟩,
  ⟨760, n!"packsswb", [.mmx, .op], 0, .leaf (.mmx (.a 0) (.a 1) 0x63 T_0F T_66 .none)⟩,
  ⟨761, n!"packusdw", [.xmm, .op], 0, .leaf (.sse (.a 0) (.a 1) (fl [T_66, T_0F38]) 0x2B .xmm_xmm .none)⟩,
  ⟨762, n!"packuswb", [.mmx, .op], 0, .leaf (.mmx (.a 0) (.a 1) 0x67 T_0F T_66 .none)⟩,
  ⟨763, n!"paddb", [.mmx, .op], 0, .leaf (.mmx (.a 0) (.a 1) 0xFC T_0F T_66 .none)⟩,
  ⟨764, n!"paddd", [.mmx, .op], 0, .leaf (.mmx (.a 0) (.a 1) 0xFE T_0F T_66 .none)⟩,
  ⟨765, n!"paddq", [.mmx, .op], 0, .leaf (.mmx (.a 0) (.a 1) 0xD4 T_0F T_66 .none)⟩,
  ⟨766, n!"paddsb", [.mmx, .op], 0, .leaf (.mmx (.a 0) (.a 1) 0xEC T_0F T_66 .none)⟩,
  ⟨767, n!"paddsw", [.mmx, .op], 0, .leaf (.mmx (.a 0) (.a 1) 0xED T_0F T_66 .none)⟩,
  ⟨768, n!"paddusb", [.mmx, .op], 0, .leaf (.mmx (.a 0) (.a 1) 0xDC T_0F T_66 .none)⟩,
  ⟨769, n!"paddusw", [.mmx, .op], 0, .leaf (.mmx (.a 0) (.a 1) 0xDD T_0F T_66 .none)⟩,
  ⟨770, n!"paddw", [.mmx, .op], 0, .leaf (.mmx (.a 0) (.a 1) 0xFD T_0F T_66 .none)⟩,
  ⟨771, n!"palignr", [.mmx, .op, .int], 0, .leaf (.mmx (.a 0) (.a 1) 0x0F T_0F3A T_66 (.i 0))⟩,
  ⟨772, n!"pand", [.mmx, .op], 0, .leaf (.mmx (.a 0) (.a 1) 0xDB T_0F T_66 .none)⟩,
  ⟨773, n!"pandn", [.mmx, .op], 0, .leaf (.mmx (.a 0) (.a 1) 0xDF T_0F T_66 .none)⟩,
  ⟨774, n!"pause", [], 0, .leaf (.bytes [0xF3, 0x90])⟩,
  ⟨775, n!"pavgb", [.mmx, .op], 0, .leaf (.mmx (.a 0) (.a 1) 0xE0 T_0F T_66 .none)⟩,
  ⟨776, n!"pavgw", [.mmx, .op], 0, .leaf (.mmx (.a 0) (.a 1) 0xE3 T_0F T_66 .none)⟩,
  ⟨777, n!"pblendvb", [.xmm, .op], 0, .leaf (.sse (.a 0) (.a 1) (fl [T_66, T_0F38]) 0x10 .xmm_xmm .none)⟩,
  ⟨778, n!"pblendw", [.xmm, .op, .int], 0, .leaf (.sse (.a 0) (.a 1) (fl [T_66, T_0F3A]) 0x0E .xmm_xmm (.i 0))⟩,
  ⟨779, n!"pclmulhqhqdq", [.xmm, .op], 0, .leaf (.sse (.a 0) (.a 1) (fl [T_66, T_0F3A]) 0x44 .xmm_xmm (.c 0x11))⟩,
  ⟨780, n!"pclmulhqlqdq", [.xmm, .op], 0, .leaf (.sse (.a 0) (.a 1) (fl [T_66, T_0F3A]) 0x44 .xmm_xmm (.c 0x01))⟩,
  ⟨781, n!"pclmullqhqdq", [.xmm, .op], 0, .leaf (.sse (.a 0) (.a 1) (fl [T_66, T_0F3A]) 0x44 .xmm_xmm (.c 0x10))⟩,
  ⟨782, n!"pclmullqlqdq", [.xmm, .op], 0, .leaf (.sse (.a 0) (.a 1) (fl [T_66, T_0F3A]) 0x44 .xmm_xmm (.c 0x00))⟩,
  ⟨783, n!"pclmulqdq", [.xmm, .op, .int], 0, .leaf (.sse (.a 0) (.a 1) (fl [T_66, T_0F3A]) 0x44 .xmm_xmm (.i 0))⟩,
  ⟨784, n!"pcmpeqb", [.mmx, .op], 0, .leaf (.mmx (.a 0) (.a 1) 0x74 T_0F T_66 .none)⟩,
  ⟨785, n!"pcmpeqd", [.mmx, .op], 0, .leaf (.mmx (.a 0) (.a 1) 0x76 T_0F T_66 .none)⟩,
  ⟨786, n!"pcmpeqq", [.xmm, .op], 0, .leaf (.sse (.a 0) (.a 1) (fl [T_66, T_0F38]) 0x29 .xmm_xmm .none)⟩,
  ⟨787, n!"pcmpeqw", [.mmx, .op], 0, .leaf (.mmx (.a 0) (.a 1) 0x75 T_0F T_66 .none)⟩,
  ⟨788, n!"pcmpestri", [.xmm, .op, .int], 0, .leaf (.sse (.a 0) (.a 1) (fl [T_66, T_0F3A]) 0x61 .xmm_xmm (.i 0))⟩,
  ⟨789, n!"pcmpestrm", [.xmm, .op, .int], 0, .leaf (.sse (.a 0) (.a 1) (fl [T_66, T_0F3A]) 0x60 .xmm_xmm (.i 0))⟩,
  ⟨790, n!"pcmpgtb", [.mmx, .op], 0, .leaf (.mmx (.a 0) (.a 1) 0x64 T_0F T_66 .none)⟩,
  ⟨791, n!"pcmpgtd", [.mmx, .op], 0, .leaf (.mmx (.a 0) (.a 1) 0x66 T_0F T_66 .none)⟩,
  ⟨792, n!"pcmpgtq", [.xmm, .op], 0, .leaf (.sse (.a 0) (.a 1) (fl [T_66, T_0F38]) 0x37 .xmm_xmm .none)⟩,
  ⟨793, n!"pcmpgtw", [.mmx, .op], 0, .leaf (.mmx (.a 0) (.a 1) 0x65 T_0F T_66 .none)⟩,
  ⟨794, n!"pcmpistri", [.xmm, .op, .int], 0, .leaf (.sse (.a 0) (.a 1) (fl [T_66, T_0F3A]) 0x63 .xmm_xmm (.i 0))⟩,
  ⟨795, n!"pcmpistrm", [.xmm, .op, .int], 0, .leaf (.sse (.a 0) (.a 1) (fl [T_66, T_0F3A]) 0x62 .xmm_xmm (.i 0))⟩,
  ⟨796, n!"pdep", [.reg32e, .reg32e, .op], 0, .leaf (.rro (.a 0) (.a 1) (.a 2) (fl [T_APX, T_F2, T_0F38]) 0xF5 .none)⟩,
  ⟨797, n!"pext", [.reg32e, .reg32e, .op], 0, .leaf (.rro (.a 0) (.a 1) (.a 2) (fl [T_APX, T_F3, T_0F38]) 0xF5 .none)⟩,
  ⟨798, n!"pextrb", [.op, .xmm, .int], 0, .leaf (.ext (.a 0) (.a 1) 0x14 0 false)⟩,
  ⟨799, n!"pextrd", [.op, .xmm, .int], 0, .leaf (.ext (.a 0) (.a 1) 0x16 0 false)⟩,
  ⟨800, n!"pextrw", [.op, .mmx, .int], 0, .leaf (.ext (.a 0) (.a 1) 0x15 0 true)⟩,
  ⟨801, n!"phaddd", [.mmx, .op], 0, .leaf (.mmx (.a 0) (.a 1) 0x02 T_0F38 T_66 .none)⟩,
  ⟨802, n!"phaddsw", [.mmx, .op], 0, .leaf (.mmx (.a 0) (.a 1) 0x03 T_0F38 T_66 .none)⟩,
  ⟨803, n!"phaddw", [.mmx, .op], 0, .leaf (.mmx (.a 0) (.a 1) 0x01 T_0F38 T_66 .none)⟩,
  ⟨804, n!"phminposuw", [.xmm, .op], 0, .leaf (.sse (.a 0) (.a 1) (fl [T_66, T_0F38]) 0x41 .xmm_xmm .none)⟩,
  ⟨805, n!"phsubd", [.mmx, .op], 0, .leaf (.mmx (.a 0) (.a 1) 0x06 T_0F38 T_66 .none)⟩,
  ⟨806, n!"phsubsw", [.mmx, .op], 0, .leaf (.mmx (.a 0) (.a 1) 0x07 T_0F38 T_66 .none)⟩,
  ⟨807, n!"phsubw", [.mmx, .op], 0, .leaf (.mmx (.a 0) (.a 1) 0x05 T_0F38 T_66 .none)⟩,
  ⟨808, n!"pinsrb", [.xmm, .op, .int], 0, .leaf (.sse (.a 0) (.a 1) (fl [T_66, T_0F3A]) 0x20 .xmm_r32 (.i 0))⟩,
  ⟨809, n!"pinsrd", [.xmm, .op, .int], 0, .leaf (.sse (.a 0) (.a 1) (fl [T_66, T_0F3A]) 0x22 .xmm_r32 (.i 0))⟩,
  ⟨810, n!"pinsrw", [.mmx, .op, .int], 0, .guard (fun g => !((g.reg 1).isREG 32) && !((g.op 1).isMEM)) .BAD_COMBINATION (.ite (fun g => (g.reg 0).isXMM) (.leaf (.sse (.a 0) (.a 1) (fl [T_0F, T_66]) 0xC4 .any (.i 0))) (.leaf (.sse (.a 0) (.a 1) T_0F 0xC4 .any (.i 0))))⟩,
  ⟨811, n!"pmaddubsw", [.mmx, .op], 0, .leaf (.mmx (.a 0) (.a 1) 0x04 T_0F38 T_66 .none)⟩,
  ⟨812, n!"pmaddwd", [.mmx, .op], 0, .leaf (.mmx (.a 0) (.a 1) 0xF5 T_0F T_66 .none)⟩,
  ⟨813, n!"pmaxsb", [.xmm, .op], 0, .leaf (.sse (.a 0) (.a 1) (fl [T_66, T_0F38]) 0x3C .xmm_xmm .none)⟩,
  ⟨814, n!"pmaxsd", [.xmm, .op], 0, .leaf (.sse (.a 0) (.a 1) (fl [T_66, T_0F38]) 0x3D .xmm_xmm .none)⟩,
  ⟨815, n!"pmaxsw", [.mmx, .op], 0, .leaf (.mmx (.a 0) (.a 1) 0xEE T_0F T_66 .none)⟩,
  ⟨816, n!"pmaxub", [.mmx, .op], 0, .leaf (.mmx (.a 0) (.a 1) 0xDE T_0F T_66 .none)⟩,
  ⟨817, n!"pmaxud", [.xmm, .op], 0, .leaf (.sse (.a 0) (.a 1) (fl [T_66, T_0F38]) 0x3F .xmm_xmm .none)⟩,
  ⟨818, n!"pmaxuw", [.xmm, .op], 0, .leaf (.sse (.a 0) (.a 1) (fl [T_66, T_0F38]) 0x3E .xmm_xmm .none)⟩,
  ⟨819, n!"pminsb", [.xmm, .op], 0, .leaf (.sse (.a 0) (.a 1) (fl [T_66, T_0F38]) 0x38 .xmm_xmm .none)⟩,
  ⟨820, n!"pminsd", [.xmm, .op], 0, .leaf (.sse (.a 0) (.a 1) (fl [T_66, T_0F38]) 0x39 .xmm_xmm .none)⟩,
  ⟨821, n!"pminsw", [.mmx, .op], 0, .leaf (.mmx (.a 0) (.a 1) 0xEA T_0F T_66 .none)⟩,
  ⟨822, n!"pminub", [.mmx, .op], 0, .leaf (.mmx (.a 0) (.a 1) 0xDA T_0F T_66 .none)⟩,
  ⟨823, n!"pminud", [.xmm, .op], 0, .leaf (.sse (.a 0) (.a 1) (fl [T_66, T_0F38]) 0x3B .xmm_xmm .none)⟩,
  ⟨824, n!"pminuw", [.xmm, .op], 0, .leaf (.sse (.a 0) (.a 1) (fl [T_66, T_0F38]) 0x3A .xmm_xmm .none)⟩,
  ⟨825, n!"pmovmskb", [.reg32e, .mmx], 0, .pre (fun g => (g.reg 1).isXMM) 0x66 (.leaf (.sse (.a 0) (.a 1) T_0F 0xD7 .any .none))⟩,
  ⟨826, n!"pmovsxbd", [.xmm, .op], 0, .leaf (.sse (.a 0) (.a 1) (fl [T_N4, T_N_VL, T_66, T_0F38, T_YMM, T_EVEX]) 0x21 .xmm_xmm .none)⟩,
  ⟨827, n!"pmovsxbq", [.xmm, .op], 0, .leaf (.sse (.a 0) (.a 1) (fl [T_N2, T_N_VL, T_66, T_0F38, T_YMM, T_EVEX]) 0x22 .xmm_xmm .none)⟩,
  ⟨828, n!"pmovsxbw", [.xmm, .op], 0, .leaf (.sse (.a 0) (.a 1) (fl [T_N8, T_N_VL, T_66, T_0F38, T_YMM, T_EVEX]) 0x20 .xmm_xmm .none)⟩,
  ⟨829, n!"pmovsxdq", [.xmm, .op], 0, .leaf (.sse (.a 0) (.a 1) (fl [T_N8, T_N_VL, T_66, T_0F38, T_EW0, T_YMM, T_EVEX]) 0x25 .xmm_xmm .none)⟩,
  ⟨830, n!"pmovsxwd", [.xmm, .op], 0, .leaf (.sse (.a 0) (.a 1) (fl [T_N8, T_N_VL, T_66, T_0F38, T_YMM, T_EVEX]) 0x23 .xmm_xmm .none)⟩,
  ⟨831, n!"pmovsxwq", [.xmm, .op], 0, .leaf (.sse (.a 0) (.a 1) (fl [T_N4, T_N_VL, T_66, T_0F38, T_YMM, T_EVEX]) 0x24 .xmm_xmm .none)⟩,
  ⟨832, n!"pmovzxbd", [.xmm, .op], 0, .leaf (.sse (.a 0) (.a 1) (fl [T_N4, T_N_VL, T_66, T_0F38, T_YMM, T_EVEX]) 0x31 .xmm_xmm .none)⟩,
  ⟨833, n!"pmovzxbq", [.xmm, .op], 0, .leaf (.sse (.a 0) (.a 1) (fl [T_N2, T_N_VL, T_66, T_0F38, T_YMM, T_EVEX]) 0x32 .xmm_xmm .none)⟩,
  ⟨834, n!"pmovzxbw", [.xmm, .op], 0, .leaf (.sse (.a 0) (.a 1) (fl [T_N8, T_N_VL, T_66, T_0F38, T_YMM, T_EVEX]) 0x30 .xmm_xmm .none)⟩,
  ⟨835, n!"pmovzxdq", [.xmm, .op], 0, .leaf (.sse (.a 0) (.a 1) (fl [T_N8, T_N_VL, T_66, T_0F38, T_EW0, T_YMM, T_EVEX]) 0x35 .xmm_xmm .none)⟩,
  ⟨836, n!"pmovzxwd", [.xmm, .op], 0, .leaf (.sse (.a 0) (.a 1) (fl [T_N8, T_N_VL, T_66, T_0F38, T_YMM, T_EVEX]) 0x33 .xmm_xmm .none)⟩,
  ⟨837, n!"pmovzxwq", [.xmm, .op], 0, .leaf (.sse (.a 0) (.a 1) (fl [T_N4, T_N_VL, T_66, T_0F38, T_YMM, T_EVEX]) 0x34 .xmm_xmm .none)⟩,
  ⟨838, n!"pmuldq", [.xmm, .op], 0, .leaf (.sse (.a 0) (.a 1) (fl [T_66, T_0F38]) 0x28 .xmm_xmm .none)⟩,
  ⟨839, n!"pmulhrsw", [.mmx, .op], 0, .leaf (.mmx (.a 0) (.a 1) 0x0B T_0F38 T_66 .none)⟩,
  ⟨840, n!"pmulhuw", [.mmx, .op], 0, .leaf (.mmx (.a 0) (.a 1) 0xE4 T_0F T_66 .none)⟩,
  ⟨841, n!"pmulhw", [.mmx, .op], 0, .leaf (.mmx (.a 0) (.a 1) 0xE5 T_0F T_66 .none)⟩,
  ⟨842, n!"pmulld", [.xmm, .op], 0, .leaf (.sse (.a 0) (.a 1) (fl [T_66, T_0F38]) 0x40 .xmm_xmm .none)⟩,
  ⟨843, n!"pmullw", [.mmx, .op], 0, .leaf (.mmx (.a 0) (.a 1) 0xD5 T_0F T_66 .none)⟩,
  ⟨844, n!"pmuludq", [.mmx, .op], 0, .leaf (.mmx (.a 0) (.a 1) 0xF4 T_0F T_66 .none)⟩,
  ⟨845, n!"popcnt", [.reg, .op], 0, .leaf (.cnt (.a 0) (.a 1) 0xB8)⟩,
  ⟨846, n!"popf", [], 0, .leaf (.bytes [0x9D])⟩,
  ⟨847, n!"por", [.mmx, .op], 0, .leaf (.mmx (.a 0) (.a 1) 0xEB T_0F T_66 .none)⟩,
  ⟨848, n!"prefetchit0", [.addr], 0, .leaf (.mr (.a 0) (.r (.gp 7 32)) T_0F 0x18 0 none)⟩,
  ⟨849, n!"prefetchit1", [.addr], 0, .leaf (.mr (.a 0) (.r (.gp 6 32)) T_0F 0x18 0 none)⟩,
  ⟨850, n!"prefetchnta", [.addr], 0, .leaf (.mr (.a 0) (.r (.gp 0 32)) T_0F 0x18 0 none)⟩,
  ⟨851, n!"prefetcht0", [.addr], 0, .leaf (.mr (.a 0) (.r (.gp 1 32)) T_0F 0x18 0 none)⟩,
  ⟨852, n!"prefetcht1", [.addr], 0, .leaf (.mr (.a 0) (.r (.gp 2 32)) T_0F 0x18 0 none)⟩,
  ⟨853, n!"prefetcht2", [.addr], 0, .leaf (.mr (.a 0) (.r (.gp 3 32)) T_0F 0x18 0 none)⟩,
  ⟨854, n!"prefetchw", [.addr], 0, .leaf (.mr (.a 0) (.r (.gp 1 32)) T_0F 0x0D 0 none)⟩,
  ⟨855, n!"prefetchwt1", [.addr], 0, .leaf (.mr (.a 0) (.r (.gp 2 32)) T_0F 0x0D 0 none)⟩,
  ⟨856, n!"psadbw", [.mmx, .op], 0, .leaf (.mmx (.a 0) (.a 1) 0xF6 T_0F T_66 .none)⟩,
  ⟨857, n!"pshufb", [.mmx, .op], 0, .leaf (.mmx (.a 0) (.a 1) 0x00 T_0F38 T_66 .none)⟩,
  ⟨858, n!"pshufd", [.mmx, .op, .int], 0, .leaf (.mmx (.a 0) (.a 1) 0x70 T_0F T_66 (.i 0))⟩,
  ⟨859, n!"pshufhw", [.mmx, .op, .int], 0, .leaf (.mmx (.a 0) (.a 1) 0x70 T_0F T_F3 (.i 0))⟩,
  ⟨860, n!"pshuflw", [.mmx, .op, .int], 0, .leaf (.mmx (.a 0) (.a 1) 0x70 T_0F T_F2 (.i 0))⟩,
  ⟨861, n!"pshufw", [.mmx, .op, .int], 0, .leaf (.mmx (.a 0) (.a 1) 0x70 T_0F 0 (.i 0))⟩,
  ⟨862, n!"psignb", [.mmx, .op], 0, .leaf (.mmx (.a 0) (.a 1) 0x08 T_0F38 T_66 .none)⟩,
  ⟨863, n!"psignd", [.mmx, .op], 0, .leaf (.mmx (.a 0) (.a 1) 0x0A T_0F38 T_66 .none)⟩,
  ⟨864, n!"psignw", [.mmx, .op], 0, .leaf (.mmx (.a 0) (.a 1) 0x09 T_0F38 T_66 .none)⟩,
  ⟨865, n!"pslld", [.mmx, .op], 0, .leaf (.mmx (.a 0) (.a 1) 0xF2 T_0F T_66 .none)⟩,
  ⟨866, n!"pslld", [.mmx, .int], 0, .leaf (.mmxImm (.a 0) 0 0x72 6)⟩,
  ⟨867, n!"pslldq", [.xmm, .int], 0, .leaf (.mmxImm (.a 0) 0 0x73 7)⟩,
  ⟨868, n!"psllq", [.mmx, .op], 0, .leaf (.mmx (.a 0) (.a 1) 0xF3 T_0F T_66 .none)⟩,
  ⟨869, n!"psllq", [.mmx, .int], 0, .leaf (.mmxImm (.a 0) 0 0x73 6)⟩,
  ⟨870, n!"psllw", [.mmx, .op], 0, .leaf (.mmx (.a 0) (.a 1) 0xF1 T_0F T_66 .none)⟩,
  ⟨871, n!"psllw", [.mmx, .int], 0, .leaf (.mmxImm (.a 0) 0 0x71 6)⟩,
  ⟨872, n!"psrad", [.mmx, .op], 0, .leaf (.mmx (.a 0) (.a 1) 0xE2 T_0F T_66 .none)⟩,
  ⟨873, n!"psrad", [.mmx, .int], 0, .leaf (.mmxImm (.a 0) 0 0x72 4)⟩,
  ⟨874, n!"psraw", [.mmx, .op], 0, .leaf (.mmx (.a 0) (.a 1) 0xE1 T_0F T_66 .none)⟩,
  ⟨875, n!"psraw", [.mmx, .int], 0, .leaf (.mmxImm (.a 0) 0 0x71 4)⟩,
  ⟨876, n!"psrld", [.mmx, .op], 0, .leaf (.mmx (.a 0) (.a 1) 0xD2 T_0F T_66 .none)⟩,
  ⟨877, n!"psrld", [.mmx, .int], 0, .leaf (.mmxImm (.a 0) 0 0x72 2)⟩,
  ⟨878, n!"psrldq", [.xmm, .int], 0, .leaf (.mmxImm (.a 0) 0 0x73 3)⟩,
  ⟨879, n!"psrlq", [.mmx, .op], 0, .leaf (.mmx (.a 0) (.a 1) 0xD3 T_0F T_66 .none)⟩,
  ⟨880, n!"psrlq", [.mmx, .int], 0, .leaf (.mmxImm (.a 0) 0 0x73 2)⟩,
  ⟨881, n!"psrlw", [.mmx, .op], 0, .leaf (.mmx (.a 0) (.a 1) 0xD1 T_0F T_66 .none)⟩,
  ⟨882, n!"psrlw", [.mmx, .int], 0, .leaf (.mmxImm (.a 0) 0 0x71 2)⟩,
  ⟨883, n!"psubb", [.mmx, .op], 0, .leaf (.mmx (.a 0) (.a 1) 0xF8 T_0F T_66 .none)⟩,
  ⟨884, n!"psubd", [.mmx, .op], 0, .leaf (.mmx (.a 0) (.a 1) 0xFA T_0F T_66 .none)⟩,
  ⟨885, n!"psubq", [.mmx, .op], 0, .leaf (.mmx (.a 0) (.a 1) 0xFB T_0F T_66 .none)⟩,
  ⟨886, n!"psubsb", [.mmx, .op], 0, .leaf (.mmx (.a 0) (.a 1) 0xE8 T_0F T_66 .none)⟩,
  ⟨887, n!"psubsw", [.mmx, .op], 0, .leaf (.mmx (.a 0) (.a 1) 0xE9 T_0F T_66 .none)⟩,
  ⟨888, n!"psubusb", [.mmx, .op], 0, .leaf (.mmx (.a 0) (.a 1) 0xD8 T_0F T_66 .none)⟩,
  ⟨889, n!"psubusw", [.mmx, .op], 0, .leaf (.mmx (.a 0) (.a 1) 0xD9 T_0F T_66 .none)⟩,
  ⟨890, n!"psubw", [.mmx, .op], 0, .leaf (.mmx (.a 0) (.a 1) 0xF9 T_0F T_66 .none)⟩,
  ⟨891, n!"ptest", [.xmm, .op], 0, .leaf (.sse (.a 0) (.a 1) (fl [T_66, T_0F38, T_YMM]) 0x17 .xmm_xmm .none)⟩,
  ⟨892, n!"punpckhbw", [.mmx, .op], 0, .leaf (.mmx (.a 0) (.a 1) 0x68 T_0F T_66 .none)⟩,
  ⟨893, n!"punpckhdq", [.mmx, .op], 0, .leaf (.mmx (.a 0) (.a 1) 0x6A T_0F T_66 .none)⟩,
  ⟨894, n!"punpckhqdq", [.xmm, .op], 0, .leaf (.sse (.a 0) (.a 1) (fl [T_66, T_0F]) 0x6D .xmm_xmm .none)⟩,
  ⟨895, n!"punpckhwd", [.mmx, .op], 0, .leaf (.mmx (.a 0) (.a 1) 0x69 T_0F T_66 .none)⟩,
  ⟨896, n!"punpcklbw", [.mmx, .op], 0, .leaf (.mmx (.a 0) (.a 1) 0x60 T_0F T_66 .none)⟩,
  ⟨897, n!"punpckldq", [.mmx, .op], 0, .leaf (.mmx (.a 0) (.a 1) 0x62 T_0F T_66 .none)⟩,
  ⟨898, n!"punpcklqdq", [.xmm, .op], 0, .leaf (.sse (.a 0) (.a 1) (fl [T_66, T_0F]) 0x6C .xmm_xmm .none)⟩,
  ⟨899, n!"punpcklwd", [.mmx, .op], 0, .leaf (.mmx (.a 0) (.a 1) 0x61 T_0F T_66 .none)⟩,
  ⟨900, n!"pushf", [], 0, .leaf (.bytes [0x9C])⟩,
  ⟨901, n!"pxor", [.mmx, .op], 0, .leaf (.mmx (.a 0) (.a 1) 0xEF T_0F T_66 .none)⟩,
  ⟨902, n!"rcl", [.op, .reg8], 0, .leaf (.shiftCL (.a 0) (.a 1) 2 none)⟩,
  ⟨903, n!"rcl", [.op, .int], 0, .leaf (.shiftI (.a 0) 0 2 none)⟩,
  ⟨904, n!"rcl", [.reg, .op, .reg8], 0, .leaf (.shiftCL (.a 1) (.a 2) 2 (some (.a 0)))⟩,
  ⟨905, n!"rcl", [.reg, .op, .int], 0, .leaf (.shiftI (.a 1) 0 2 (some (.a 0)))⟩,
  ⟨906, n!"rcpps", [.xmm, .op], 0, .leaf (.sse (.a 0) (.a 1) T_0F 0x53 .xmm_xmm .none)⟩,
  ⟨907, n!"rcpss", [.xmm, .op], 0, .leaf (.sse (.a 0) (.a 1) (fl [T_0F, T_F3]) 0x53 .xmm_xmm .none)⟩,
  ⟨908, n!"rcr", [.op, .reg8], 0, .leaf (.shiftCL (.a 0) (.a 1) 3 none)⟩,
  ⟨909, n!"rcr", [.op, .int], 0, .leaf (.shiftI (.a 0) 0 3 none)⟩,
  ⟨910, n!"rcr", [.reg, .op, .reg8], 0, .leaf (.shiftCL (.a 1) (.a 2) 3 (some (.a 0)))⟩,
  ⟨911, n!"rcr", [.reg, .op, .int], 0, .leaf (.shiftI (.a 1) 0 3 (some (.a 0)))⟩,
  ⟨912, n!"rdmsr", [], 0, .leaf (.bytes [0x0F, 0x32])⟩,
  ⟨913, n!"rdpmc", [], 0, .leaf (.bytes [0x0F, 0x33])⟩,
  ⟨914, n!"rdrand", [.reg], 0, .guard (fun g => (g.reg 0).isBit 8) .BAD_SIZE_OF_REGISTER (.leaf (.rr (.bitOf 0 6) (.a 0) T_0F 0xC7))⟩,
  ⟨915, n!"rdseed", [.reg], 0, .guard (fun g => (g.reg 0).isBit 8) .BAD_SIZE_OF_REGISTER (.leaf (.rr (.bitOf 0 7) (.a 0) T_0F 0xC7))⟩,
  ⟨916, n!"rdtsc", [], 0, .leaf (.bytes [0x0F, 0x31])⟩,
  ⟨917, n!"rdtscp", [], 0, .leaf (.bytes [0x0F, 0x01, 0xF9])⟩,
  ⟨918, n!"rep", [], 0, .leaf (.bytes [0xF3])⟩,
  ⟨919, n!"repe", [], 0, .leaf (.bytes [0xF3])⟩,
  ⟨920, n!"repne", [], 0, .leaf (.bytes [0xF2])⟩,
  ⟨921, n!"repnz", [], 0, .leaf (.bytes [0xF2])⟩,
  ⟨922, n!"repz", [], 0, .leaf (.bytes [0xF3])⟩,
  ⟨923, n!"ret", [.int], 0, .leaf (.raw .ret)⟩,
  ⟨924, n!"retf", [.int], 0, .leaf (.raw .retf)⟩,
  ⟨925, n!"rol", [.op, .reg8], 0, .leaf (.shiftCL (.a 0) (.a 1) 8 none)⟩,
  ⟨926, n!"rol", [.op, .int], 0, .leaf (.shiftI (.a 0) 0 8 none)⟩,
  ⟨927, n!"rol", [.reg, .op, .reg8], 0, .leaf (.shiftCL (.a 1) (.a 2) 8 (some (.a 0)))⟩,
  ⟨928, n!"rol", [.reg, .op, .int], 0, .leaf (.shiftI (.a 1) 0 8 (some (.a 0)))⟩,
  ⟨929, n!"ror", [.op, .reg8], 0, .leaf (.shiftCL (.a 0) (.a 1) 9 none)⟩,
  ⟨930, n!"ror", [.op, .int], 0, .leaf (.shiftI (.a 0) 0 9 none)⟩,
  ⟨931, n!"ror", [.reg, .op, .reg8], 0, .leaf (.shiftCL (.a 1) (.a 2) 9 (some (.a 0)))⟩,
  ⟨932, n!"ror", [.reg, .op, .int], 0, .leaf (.shiftI (.a 1) 0 9 (some (.a 0)))⟩,
  ⟨933, n!"rorx", [.reg32e, .op, .int], 0, .leaf (.rro (.a 0) (.bitOf 0 0) (.a 1) (fl [T_0F3A, T_F2, T_APX]) 0xF0 (.i 0))⟩,
  ⟨934, n!"roundpd", [.xmm, .op, .int], 0, .leaf (.sse (.a 0) (.a 1) (fl [T_66, T_0F3A, T_YMM]) 0x09 .xmm_xmm (.i 0))⟩,
  ⟨935, n!"roundps", [.xmm, .op, .int], 0, .leaf (.sse (.a 0) (.a 1) (fl [T_66, T_0F3A, T_YMM]) 0x08 .xmm_xmm (.i 0))⟩,
  ⟨936, n!"roundsd", [.xmm, .op, .int], 0, .leaf (.sse (.a 0) (.a 1) (fl [T_66, T_0F3A]) 0x0B .xmm_xmm (.i 0))⟩,
  ⟨937, n!"roundss", [.xmm, .op, .int], 0, .leaf (.sse (.a 0) (.a 1) (fl [T_66, T_0F3A]) 0x0A .xmm_xmm (.i 0))⟩,
  ⟨938, n!"rsqrtps", [.xmm, .op], 0, .leaf (.sse (.a 0) (.a 1) T_0F 0x52 .xmm_xmm .none)⟩,
  ⟨939, n!"rsqrtss", [.xmm, .op], 0, .leaf (.sse (.a 0) (.a 1) (fl [T_0F, T_F3]) 0x52 .xmm_xmm .none)⟩,
  ⟨940, n!"sahf", [], 0, .leaf (.bytes [0x9E])⟩,
  ⟨941, n!"sal", [.op, .reg8], 0, .leaf (.shiftCL (.a 0) (.a 1) 12 none)⟩,
  ⟨942, n!"sal", [.op, .int], 0, .leaf (.shiftI (.a 0) 0 12 none)⟩,
  ⟨943, n!"sal", [.reg, .op, .reg8], 0, .leaf (.shiftCL (.a 1) (.a 2) 12 (some (.a 0)))⟩,
  ⟨944, n!"sal", [.reg, .op, .int], 0, .leaf (.shiftI (.a 1) 0 12 (some (.a 0)))⟩,
  ⟨945, n!"sar", [.op, .reg8], 0, .leaf (.shiftCL (.a 0) (.a 1) 15 none)⟩,
  ⟨946, n!"sar", [.op, .int], 0, .leaf (.shiftI (.a 0) 0 15 none)⟩,
  ⟨947, n!"sar", [.reg, .op, .reg8], 0, .leaf (.shiftCL (.a 1) (.a 2) 15 (some (.a 0)))⟩,
  ⟨948, n!"sar", [.reg, .op, .int], 0, .leaf (.shiftI (.a 1) 0 15 (some (.a 0)))⟩,
  ⟨949, n!"sarx", [.reg32e, .op, .reg32e], 0, .leaf (.rro (.a 0) (.a 2) (.a 1) (fl [T_APX, T_F3, T_0F38]) 0xF7 .none)⟩,
  ⟨950, n!"sbb", [.op, .int], 0, .leaf (.oi (.a 0) 0 0x18 3)⟩,
  ⟨951, n!"sbb", [.op, .op], 0, .leaf (.roMr (.a 0) (.a 1) 0x18)⟩,
  ⟨952, n!"sbb", [.reg, .op, .int], 0, .leaf (.roi (.a 0) (.a 1) 0 0 3)⟩,
  ⟨953, n!"sbb", [.reg, .op, .op], 0, .leaf (.roo (.a 0) (.a 1) (.a 2) 0 0x18)⟩,
  ⟨954, n!"scasb", [], 0, .leaf (.bytes [0xAE])⟩,
  ⟨955, n!"scasd", [], 0, .leaf (.bytes [0xAF])⟩,
  ⟨956, n!"scasw", [], 0, .leaf (.bytes [0x66, 0xAF])⟩,
  ⟨957, n!"serialize", [], 0, .leaf (.bytes [0x0F, 0x01, 0xE8])⟩,
  ⟨958, n!"seta", [.op], 0, .leaf (.setcc (.a 0) 7)⟩,
  ⟨959, n!"setae", [.op], 0, .leaf (.setcc (.a 0) 3)⟩,
  ⟨960, n!"setb", [.op], 0, .leaf (.setcc (.a 0) 2)⟩,
  ⟨961, n!"setbe", [.op], 0, .leaf (.setcc (.a 0) 6)⟩,
  ⟨962, n!"setc", [.op], 0, .leaf (.setcc (.a 0) 2)⟩,
  ⟨963, n!"sete", [.op], 0, .leaf (.setcc (.a 0) 4)⟩,
  ⟨964, n!"setg", [.op], 0, .leaf (.setcc (.a 0) 15)⟩,
  ⟨965, n!"setge", [.op], 0, .leaf (.setcc (.a 0) 13)⟩,
  ⟨966, n!"setl", [.op], 0, .leaf (.setcc (.a 0) 12)⟩,
  ⟨967, n!"setle", [.op], 0, .leaf (.setcc (.a 0) 14)⟩,
  ⟨968, n!"setna", [.op], 0, .leaf (.setcc (.a 0) 6)⟩,
  ⟨969, n!"setnae", [.op], 0, .leaf (.setcc (.a 0) 2)⟩,
  ⟨970, n!"setnb", [.op], 0, .leaf (.setcc (.a 0) 3)⟩,
  ⟨971, n!"setnbe", [.op], 0, .leaf (.setcc (.a 0) 7)⟩,
  ⟨972, n!"setnc", [.op], 0, .leaf (.setcc (.a 0) 3)⟩,
  ⟨973, n!"setne", [.op], 0, .leaf (.setcc (.a 0) 5)⟩,
  ⟨974, n!"setng", [.op], 0, .leaf (.setcc (.a 0) 14)⟩,
  ⟨975, n!"setnge", [.op], 0, .leaf (.setcc (.a 0) 12)⟩,
  ⟨976, n!"setnl", [.op], 0, .leaf (.setcc (.a 0) 13)⟩,
  ⟨977, n!"setnle", [.op], 0, .leaf (.setcc (.a 0) 15)⟩,
  ⟨978, n!"setno", [.op], 0, .leaf (.setcc (.a 0) 1)⟩,
  ⟨979, n!"setnp", [.op], 0, .leaf (.setcc (.a 0) 11)⟩,
  ⟨980, n!"setns", [.op], 0, .leaf (.setcc (.a 0) 9)⟩,
  ⟨981, n!"setnz", [.op], 0, .leaf (.setcc (.a 0) 5)⟩,
  ⟨982, n!"seto", [.op], 0, .leaf (.setcc (.a 0) 0)⟩,
  ⟨983, n!"setp", [.op], 0, .leaf (.setcc (.a 0) 10)⟩,
  ⟨984, n!"setpe", [.op], 0, .leaf (.setcc (.a 0) 10)⟩,
  ⟨985, n!"setpo", [.op], 0, .leaf (.setcc (.a 0) 11)⟩,
  ⟨986, n!"sets", [.op], 0, .leaf (.setcc (.a 0) 8)⟩,
  ⟨987, n!"setz", [.op], 0, .leaf (.setcc (.a 0) 4)⟩,
  ⟨988, n!"sfence", [], 0, .leaf (.bytes [0x0F, 0xAE, 0xF8])⟩,
  ⟨989, n!"sha1msg1", [.xmm, .op], 0, .leaf (.sseApx (.a 0) (.a 1) T_0F38 0xC9 T_MUST_EVEX 0xD9 .none)⟩,
  ⟨990, n!"sha1msg2", [.xmm, .op], 0, .leaf (.sseApx (.a 0) (.a 1) T_0F38 0xCA T_MUST_EVEX 0xDA .none)⟩,
  ⟨991, n!"sha1nexte", [.xmm, .op], 0, .leaf (.sseApx (.a 0) (.a 1) T_0F38 0xC8 T_MUST_EVEX 0xD8 .none)⟩,
  ⟨992, n!"sha1rnds4", [.xmm, .op, .int], 0, .leaf (.sseApx (.a 0) (.a 1) T_0F3A 0xCC T_MUST_EVEX 0xD4 (.i 0))⟩,
  ⟨993, n!"sha256msg1", [.xmm, .op], 0, .leaf (.sseApx (.a 0) (.a 1) T_0F38 0xCC T_MUST_EVEX 0xDC .none)⟩,
  ⟨994, n!"sha256msg2", [.xmm, .op], 0, .leaf (.sseApx (.a 0) (.a 1) T_0F38 0xCD T_MUST_EVEX 0xDD .none)⟩,
  ⟨995, n!"sha256rnds2", [.xmm, .op], 0, .leaf (.sseApx (.a 0) (.a 1) T_0F38 0xCB T_MUST_EVEX 0xDB .none)⟩,
  ⟨996, n!"shl", [.op, .reg8], 0, .leaf (.shiftCL (.a 0) (.a 1) 12 none)⟩,
  ⟨997, n!"shl", [.op, .int], 0, .leaf (.shiftI (.a 0) 0 12 none)⟩,
  ⟨998, n!"shl", [.reg, .op, .reg8], 0, .leaf (.shiftCL (.a 1) (.a 2) 12 (some (.a 0)))⟩,
  ⟨999, n!"shl", [.reg, .op, .int], 0, .leaf (.shiftI (.a 1) 0 12 (some (.a 0)))⟩,
  ⟨1000, n!"shld", [.op, .reg, .reg8], 0, .leaf (.shxdCL (.r .nil) (.a 0) (.a 1) (.a 2) 0xA4 0x24)⟩,
  ⟨1001, n!"shld", [.op, .reg, .int], 0, .leaf (.shxd (.r .nil) (.a 0) (.a 1) 0 0xA4 0x24)⟩,
  ⟨1002, n!"shld", [.reg, .op, .reg, .reg8], 0, .leaf (.shxdCL (.a 0) (.a 1) (.a 2) (.a 3) 0xA4 0x24)⟩,
  ⟨1003, n!"shld", [.reg, .op, .reg, .int], 0, .leaf (.shxd (.a 0) (.a 1) (.a 2) 0 0xA4 0x24)⟩,
  ⟨1004, n!"shlx", [.reg32e, .op, .reg32e], 0, .leaf (.rro (.a 0) (.a 2) (.a 1) (fl [T_APX, T_66, T_0F38]) 0xF7 .none)⟩,
  ⟨1005, n!"shr", [.op, .reg8], 0, .leaf (.shiftCL (.a 0) (.a 1) 13 none)⟩,
  ⟨1006, n!"shr", [.op, .int], 0, .leaf (.shiftI (.a 0) 0 13 none)⟩,
  ⟨1007, n!"shr", [.reg, .op, .reg8], 0, .leaf (.shiftCL (.a 1) (.a 2) 13 (some (.a 0)))⟩,
  ⟨1008, n!"shr", [.reg, .op, .int], 0, .leaf (.shiftI (.a 1) 0 13 (some (.a 0)))⟩,
  ⟨1009, n!"shrd", [.op, .reg, .reg8], 0, .leaf (.shxdCL (.r .nil) (.a 0) (.a 1) (.a 2) 0xAC 0x2C)⟩,
  ⟨1010, n!"shrd", [.op, .reg, .int], 0, .leaf (.shxd (.r .nil) (.a 0) (.a 1) 0 0xAC 0x2C)⟩,
  ⟨1011, n!"shrd", [.reg, .op, .reg, .reg8], 0, .leaf (.shxdCL (.a 0) (.a 1) (.a 2) (.a 3) 0xAC 0x2C)⟩,
  ⟨1012, n!"shrd", [.reg, .op, .reg, .int], 0, .leaf (.shxd (.a 0) (.a 1) (.a 2) 0 0xAC 0x2C)⟩,
  ⟨1013, n!"shrx", [.reg32e, .op, .reg32e], 0, .leaf (.rro (.a 0) (.a 2) (.a 1) (fl [T_APX, T_F2, T_0F38]) 0xF7 .none)⟩,
  ⟨1014, n!"shufpd", [.xmm, .op, .int], 0, .leaf (.sse (.a 0) (.a 1) (fl [T_0F, T_66]) 0xC6 .xmm_xmm (.i 0))⟩,
  ⟨1015, n!"shufps", [.xmm, .op, .int], 0, .leaf (.sse (.a 0) (.a 1) T_0F 0xC6 .xmm_xmm (.i 0))⟩,
  ⟨1016, n!"sqrtpd", [.xmm, .op], 0, .leaf (.sse (.a 0) (.a 1) (fl [T_0F, T_66]) 0x51 .xmm_xmm .none)⟩,
  ⟨1017, n!"sqrtps", [.xmm, .op], 0, .leaf (.sse (.a 0) (.a 1) T_0F 0x51 .xmm_xmm .none)⟩,
  ⟨1018, n!"sqrtsd", [.xmm, .op], 0, .leaf (.sse (.a 0) (.a 1) (fl [T_0F, T_F2]) 0x51 .xmm_xmm .none)⟩,
  ⟨1019, n!"sqrtss", [.xmm, .op], 0, .leaf (.sse (.a 0) (.a 1) (fl [T_0F, T_F3]) 0x51 .xmm_xmm .none)⟩,
  ⟨1020, n!"stac", [], 0, .leaf (.bytes [0x0F, 0x01, 0xCB])⟩,
  ⟨1021, n!"stc", [], 0, .leaf (.bytes [0xF9])⟩]

end Mn
end Xbyak
