import Verif.Mnemonic.Basic
/-! Mnemonic table, `xbyak_mnemonic.h` lines 1703-2068.  Each entry cites its line; an alias (a line calling another mnemonic) has the
body of the function it calls, with the arguments substituted. -/
namespace Xbyak
namespace Mn
open E

/-- `xbyak_mnemonic.h` 1703-2068 -/
def t06 : List Entry := [
  ⟨1703, n!"vcmpnlt_uqss", [.xmm, .op], 0, .leaf (.avx3 (.a 0) (.a 0) (.a 1) (fl [T_F3, T_0F]) 0xC2 (.c 0x15))⟩,
  ⟨1704, n!"vcmpnltpd", [.xmm, .op], 0, .leaf (.avx3 (.a 0) (.a 0) (.a 1) (fl [T_66, T_0F, T_YMM]) 0xC2 (.c 0x05))⟩,
  ⟨1705, n!"vcmpnltps", [.xmm, .op], 0, .leaf (.avx3 (.a 0) (.a 0) (.a 1) (fl [T_0F, T_YMM]) 0xC2 (.c 0x05))⟩,
  ⟨1706, n!"vcmpnltsd", [.xmm, .op], 0, .leaf (.avx3 (.a 0) (.a 0) (.a 1) (fl [T_F2, T_0F]) 0xC2 (.c 0x05))⟩,
  ⟨1707, n!"vcmpnltss", [.xmm, .op], 0, .leaf (.avx3 (.a 0) (.a 0) (.a 1) (fl [T_F3, T_0F]) 0xC2 (.c 0x05))⟩,
  ⟨1708, n!"vcmpord_spd", [.xmm, .op], 0, .leaf (.avx3 (.a 0) (.a 0) (.a 1) (fl [T_66, T_0F, T_YMM]) 0xC2 (.c 0x17))⟩,
  ⟨1709, n!"vcmpord_sps", [.xmm, .op], 0, .leaf (.avx3 (.a 0) (.a 0) (.a 1) (fl [T_0F, T_YMM]) 0xC2 (.c 0x17))⟩,
  ⟨1710, n!"vcmpord_ssd", [.xmm, .op], 0, .leaf (.avx3 (.a 0) (.a 0) (.a 1) (fl [T_F2, T_0F]) 0xC2 (.c 0x17))⟩,
  ⟨1711, n!"vcmpord_sss", [.xmm, .op], 0, .leaf (.avx3 (.a 0) (.a 0) (.a 1) (fl [T_F3, T_0F]) 0xC2 (.c 0x17))⟩,
  ⟨1712, n!"vcmpordpd", [.xmm, .op], 0, .leaf (.avx3 (.a 0) (.a 0) (.a 1) (fl [T_66, T_0F, T_YMM]) 0xC2 (.c 0x07))⟩,
  ⟨1713, n!"vcmpordps", [.xmm, .op], 0, .leaf (.avx3 (.a 0) (.a 0) (.a 1) (fl [T_0F, T_YMM]) 0xC2 (.c 0x07))⟩,
  ⟨1714, n!"vcmpordsd", [.xmm, .op], 0, .leaf (.avx3 (.a 0) (.a 0) (.a 1) (fl [T_F2, T_0F]) 0xC2 (.c 0x07))⟩,
  ⟨1715, n!"vcmpordss", [.xmm, .op], 0, .leaf (.avx3 (.a 0) (.a 0) (.a 1) (fl [T_F3, T_0F]) 0xC2 (.c 0x07))⟩,
  ⟨1716, n!"vcmppd", [.xmm, .op, .int], 0, .leaf (.avx3 (.a 0) (.a 0) (.a 1) (fl [T_66, T_0F, T_YMM]) 0xC2 (.i 0))⟩,
  ⟨1717, n!"vcmpps", [.xmm, .op, .int], 0, .leaf (.avx3 (.a 0) (.a 0) (.a 1) (fl [T_0F, T_YMM]) 0xC2 (.i 0))⟩,
  ⟨1718, n!"vcmpsd", [.xmm, .op, .int], 0, .leaf (.avx3 (.a 0) (.a 0) (.a 1) (fl [T_F2, T_0F]) 0xC2 (.i 0))⟩,
  ⟨1719, n!"vcmpss", [.xmm, .op, .int], 0, .leaf (.avx3 (.a 0) (.a 0) (.a 1) (fl [T_F3, T_0F]) 0xC2 (.i 0))⟩,
  ⟨1720, n!"vcmptrue_uspd", [.xmm, .op], 0, .leaf (.avx3 (.a 0) (.a 0) (.a 1) (fl [T_66, T_0F, T_YMM]) 0xC2 (.c 0x1F))⟩,
  ⟨1721, n!"vcmptrue_usps", [.xmm, .op], 0, .leaf (.avx3 (.a 0) (.a 0) (.a 1) (fl [T_0F, T_YMM]) 0xC2 (.c 0x1F))⟩,
  ⟨1722, n!"vcmptrue_ussd", [.xmm, .op], 0, .leaf (.avx3 (.a 0) (.a 0) (.a 1) (fl [T_F2, T_0F]) 0xC2 (.c 0x1F))⟩,
  ⟨1723, n!"vcmptrue_usss", [.xmm, .op], 0, .leaf (.avx3 (.a 0) (.a 0) (.a 1) (fl [T_F3, T_0F]) 0xC2 (.c 0x1F))⟩,
  ⟨1724, n!"vcmptruepd", [.xmm, .op], 0, .leaf (.avx3 (.a 0) (.a 0) (.a 1) (fl [T_66, T_0F, T_YMM]) 0xC2 (.c 0x0F))⟩,
  ⟨1725, n!"vcmptrueps", [.xmm, .op], 0, .leaf (.avx3 (.a 0) (.a 0) (.a 1) (fl [T_0F, T_YMM]) 0xC2 (.c 0x0F))⟩,
  ⟨1726, n!"vcmptruesd", [.xmm, .op], 0, .leaf (.avx3 (.a 0) (.a 0) (.a 1) (fl [T_F2, T_0F]) 0xC2 (.c 0x0F))⟩,
  ⟨1727, n!"vcmptruess", [.xmm, .op], 0, .leaf (.avx3 (.a 0) (.a 0) (.a 1) (fl [T_F3, T_0F]) 0xC2 (.c 0x0F))⟩,
  ⟨1728, n!"vcmpunord_spd", [.xmm, .op], 0, .leaf (.avx3 (.a 0) (.a 0) (.a 1) (fl [T_66, T_0F, T_YMM]) 0xC2 (.c 0x13))⟩,
  ⟨1729, n!"vcmpunord_sps", [.xmm, .op], 0, .leaf (.avx3 (.a 0) (.a 0) (.a 1) (fl [T_0F, T_YMM]) 0xC2 (.c 0x13))⟩,
  ⟨1730, n!"vcmpunord_ssd", [.xmm, .op], 0, .leaf (.avx3 (.a 0) (.a 0) (.a 1) (fl [T_F2, T_0F]) 0xC2 (.c 0x13))⟩,
  ⟨1731, n!"vcmpunord_sss", [.xmm, .op], 0, .leaf (.avx3 (.a 0) (.a 0) (.a 1) (fl [T_F3, T_0F]) 0xC2 (.c 0x13))⟩,
  ⟨1732, n!"vcmpunordpd", [.xmm, .op], 0, .leaf (.avx3 (.a 0) (.a 0) (.a 1) (fl [T_66, T_0F, T_YMM]) 0xC2 (.c 0x03))⟩,
  ⟨1733, n!"vcmpunordps", [.xmm, .op], 0, .leaf (.avx3 (.a 0) (.a 0) (.a 1) (fl [T_0F, T_YMM]) 0xC2 (.c 0x03))⟩,
  ⟨1734, n!"vcmpunordsd", [.xmm, .op], 0, .leaf (.avx3 (.a 0) (.a 0) (.a 1) (fl [T_F2, T_0F]) 0xC2 (.c 0x03))⟩,
  ⟨1735, n!"vcmpunordss", [.xmm, .op], 0, .leaf (.avx3 (.a 0) (.a 0) (.a 1) (fl [T_F3, T_0F]) 0xC2 (.c 0x03))⟩,
  ⟨1736, n!"vcvtsd2ss", [.xmm, .op], 0, .leaf (.avx3 (.a 0) (.a 0) (.a 1) (fl [T_N8, T_F2, T_0F, T_EW1, T_EVEX, T_ER_X]) 0x5A .none)⟩,
  ⟨1737, n!"vcvtsi2sd", [.xmm, .op], 0, .leaf (.cvt3 (.a 0) (.a 0) (.a 1) (fl [T_0F, T_F2, T_EVEX]) (fl [T_W1, T_EW1, T_ER_X, T_N8]) (fl [T_W0, T_EW0, T_N4]) 0x2A)⟩,
  ⟨1738, n!"vcvtsi2ss", [.xmm, .op], 0, .leaf (.cvt3 (.a 0) (.a 0) (.a 1) (fl [T_0F, T_F3, T_EVEX, T_ER_X]) (fl [T_W1, T_EW1, T_N8]) (fl [T_W0, T_EW0, T_N4]) 0x2A)⟩,
  ⟨1739, n!"vcvtss2sd", [.xmm, .op], 0, .leaf (.avx3 (.a 0) (.a 0) (.a 1) (fl [T_N4, T_F3, T_0F, T_EW0, T_EVEX, T_SAE_X]) 0x5A .none)⟩,
  ⟨1740, n!"vdppd", [.xmm, .op, .int], 0, .leaf (.avx3 (.a 0) (.a 0) (.a 1) (fl [T_66, T_0F3A, T_W0]) 0x41 (.i 0))⟩,
  ⟨1741, n!"vdpps", [.xmm, .op, .int], 0, .leaf (.avx3 (.a 0) (.a 0) (.a 1) (fl [T_66, T_0F3A, T_W0, T_YMM]) 0x40 (.i 0))⟩,
  ⟨1742, n!"vinsertps", [.xmm, .op, .int], 0, .leaf (.avx3 (.a 0) (.a 0) (.a 1) (fl [T_N4, T_66, T_0F3A, T_W0, T_EW0, T_EVEX]) 0x21 (.i 0))⟩,
  ⟨1743, n!"vmpsadbw", [.xmm, .op, .int], 0, .leaf (.encoding (.a 0) (.a 0) (.a 1) (fl [T_0F3A, T_YMM]) 0x42 (.i 0) (fl [T_66, T_W0, T_YMM]) (fl [T_F3, T_0F3A, T_EW0, T_B32]) 1)⟩,
  ⟨1744, n!"vpackssdw", [.xmm, .op], 0, .leaf (.avx3 (.a 0) (.a 0) (.a 1) (fl [T_66, T_0F, T_EW0, T_YMM, T_EVEX, T_B32]) 0x6B .none)⟩,
  ⟨1745, n!"vpacksswb", [.xmm, .op], 0, .leaf (.avx3 (.a 0) (.a 0) (.a 1) (fl [T_66, T_0F, T_YMM, T_EVEX]) 0x63 .none)⟩,
  ⟨1746, n!"vpackusdw", [.xmm, .op], 0, .leaf (.avx3 (.a 0) (.a 0) (.a 1) (fl [T_66, T_0F38, T_EW0, T_YMM, T_EVEX, T_B32]) 0x2B .none)⟩,
  ⟨1747, n!"vpackuswb", [.xmm, .op], 0, .leaf (.avx3 (.a 0) (.a 0) (.a 1) (fl [T_66, T_0F, T_YMM, T_EVEX]) 0x67 .none)⟩,
  ⟨1748, n!"vpaddb", [.xmm, .op], 0, .leaf (.avx3 (.a 0) (.a 0) (.a 1) (fl [T_66, T_0F, T_YMM, T_EVEX]) 0xFC .none)⟩,
  ⟨1749, n!"vpaddd", [.xmm, .op], 0, .leaf (.avx3 (.a 0) (.a 0) (.a 1) (fl [T_66, T_0F, T_EW0, T_YMM, T_EVEX, T_B32]) 0xFE .none)⟩,
  ⟨1750, n!"vpaddq", [.xmm, .op], 0, .leaf (.avx3 (.a 0) (.a 0) (.a 1) (fl [T_66, T_0F, T_EW1, T_YMM, T_EVEX, T_B64]) 0xD4 .none)⟩,
  ⟨1751, n!"vpaddsb", [.xmm, .op], 0, .leaf (.avx3 (.a 0) (.a 0) (.a 1) (fl [T_66, T_0F, T_YMM, T_EVEX]) 0xEC .none)⟩,
  ⟨1752, n!"vpaddsw", [.xmm, .op], 0, .leaf (.avx3 (.a 0) (.a 0) (.a 1) (fl [T_66, T_0F, T_YMM, T_EVEX]) 0xED .none)⟩,
  ⟨1753, n!"vpaddusb", [.xmm, .op], 0, .leaf (.avx3 (.a 0) (.a 0) (.a 1) (fl [T_66, T_0F, T_YMM, T_EVEX]) 0xDC .none)⟩,
  ⟨1754, n!"vpaddusw", [.xmm, .op], 0, .leaf (.avx3 (.a 0) (.a 0) (.a 1) (fl [T_66, T_0F, T_YMM, T_EVEX]) 0xDD .none)⟩,
  ⟨1755, n!"vpaddw", [.xmm, .op], 0, .leaf (.avx3 (.a 0) (.a 0) (.a 1) (fl [T_66, T_0F, T_YMM, T_EVEX]) 0xFD .none)⟩,
  ⟨1756, n!"vpalignr", [.xmm, .op, .int], 0, .leaf (.avx3 (.a 0) (.a 0) (.a 1) (fl [T_66, T_0F3A, T_YMM, T_EVEX]) 0x0F (.i 0))⟩,
  ⟨1757, n!"vpand", [.xmm, .op], 0, .leaf (.avx3 (.a 0) (.a 0) (.a 1) (fl [T_66, T_0F, T_YMM]) 0xDB .none)⟩,
  ⟨1758, n!"vpandn", [.xmm, .op], 0, .leaf (.avx3 (.a 0) (.a 0) (.a 1) (fl [T_66, T_0F, T_YMM]) 0xDF .none)⟩,
  ⟨1759, n!"vpavgb", [.xmm, .op], 0, .leaf (.avx3 (.a 0) (.a 0) (.a 1) (fl [T_66, T_0F, T_YMM, T_EVEX]) 0xE0 .none)⟩,
  ⟨1760, n!"vpavgw", [.xmm, .op], 0, .leaf (.avx3 (.a 0) (.a 0) (.a 1) (fl [T_66, T_0F, T_YMM, T_EVEX]) 0xE3 .none)⟩,
  ⟨1761, n!"vpblendd", [.xmm, .op, .int], 0, .leaf (.avx3 (.a 0) (.a 0) (.a 1) (fl [T_66, T_0F3A, T_W0, T_YMM]) 0x02 (.i 0))⟩,
  ⟨1762, n!"vpblendvb", [.xmm, .op, .xmm], 0, .leaf (.avx3 (.a 0) (.a 0) (.a 1) (fl [T_0F3A, T_66, T_YMM]) 0x4C (.is4 2))⟩,
  ⟨1763, n!"vpblendw", [.xmm, .op, .int], 0, .leaf (.avx3 (.a 0) (.a 0) (.a 1) (fl [T_66, T_0F3A, T_W0, T_YMM]) 0x0E (.i 0))⟩,
  ⟨1764, n!"vpclmulqdq", [.xmm, .op, .int], 0, .leaf (.avx3 (.a 0) (.a 0) (.a 1) (fl [T_66, T_0F3A, T_W0, T_YMM, T_EVEX]) 0x44 (.i 0))⟩,
  ⟨1765, n!"vpcmpeqb", [.xmm, .op], 0, .leaf (.avx3 (.a 0) (.a 0) (.a 1) (fl [T_66, T_0F, T_YMM]) 0x74 .none)⟩,
  ⟨1766, n!"vpcmpeqd", [.xmm, .op], 0, .leaf (.avx3 (.a 0) (.a 0) (.a 1) (fl [T_66, T_0F, T_YMM]) 0x76 .none)⟩,
  ⟨1767, n!"vpcmpeqq", [.xmm, .op], 0, .leaf (.avx3 (.a 0) (.a 0) (.a 1) (fl [T_66, T_0F38, T_YMM]) 0x29 .none)⟩,
  ⟨1768, n!"vpcmpeqw", [.xmm, .op], 0, .leaf (.avx3 (.a 0) (.a 0) (.a 1) (fl [T_66, T_0F, T_YMM]) 0x75 .none)⟩,
  ⟨1769, n!"vpcmpgtb", [.xmm, .op], 0, .leaf (.avx3 (.a 0) (.a 0) (.a 1) (fl [T_66, T_0F, T_YMM]) 0x64 .none)⟩,
  ⟨1770, n!"vpcmpgtd", [.xmm, .op], 0, .leaf (.avx3 (.a 0) (.a 0) (.a 1) (fl [T_66, T_0F, T_YMM]) 0x66 .none)⟩,
  ⟨1771, n!"vpcmpgtq", [.xmm, .op], 0, .leaf (.avx3 (.a 0) (.a 0) (.a 1) (fl [T_66, T_0F38, T_YMM]) 0x37 .none)⟩,
  ⟨1772, n!"vpcmpgtw", [.xmm, .op], 0, .leaf (.avx3 (.a 0) (.a 0) (.a 1) (fl [T_66, T_0F, T_YMM]) 0x65 .none)⟩,
  ⟨1773, n!"vphaddd", [.xmm, .op], 0, .leaf (.avx3 (.a 0) (.a 0) (.a 1) (fl [T_66, T_0F38, T_YMM]) 0x02 .none)⟩,
  ⟨1774, n!"vphaddsw", [.xmm, .op], 0, .leaf (.avx3 (.a 0) (.a 0) (.a 1) (fl [T_66, T_0F38, T_YMM]) 0x03 .none)⟩,
  ⟨1775, n!"vphaddw", [.xmm, .op], 0, .leaf (.avx3 (.a 0) (.a 0) (.a 1) (fl [T_66, T_0F38, T_YMM]) 0x01 .none)⟩,
  ⟨1776, n!"vphsubd", [.xmm, .op], 0, .leaf (.avx3 (.a 0) (.a 0) (.a 1) (fl [T_66, T_0F38, T_YMM]) 0x06 .none)⟩,
  ⟨1777, n!"vphsubsw", [.xmm, .op], 0, .leaf (.avx3 (.a 0) (.a 0) (.a 1) (fl [T_66, T_0F38, T_YMM]) 0x07 .none)⟩,
  ⟨1778, n!"vphsubw", [.xmm, .op], 0, .leaf (.avx3 (.a 0) (.a 0) (.a 1) (fl [T_66, T_0F38, T_YMM]) 0x05 .none)⟩,
  ⟨1779, n!"vpinsrb", [.xmm, .op, .int], 0, .guard (fun g => !((g.reg 0).isXMM && (g.reg 0).isXMM && ((g.reg 1).isREG 32 || (g.op 1).isMEM))) .BAD_COMBINATION (.leaf (.vex (.a 0) (some (.a 0)) (.a 1) (fl [T_0F3A, T_66, T_EVEX, T_N1]) 0x20 (.i 0)))⟩,
  ⟨1780, n!"vpinsrd", [.xmm, .op, .int], 0, .guard (fun g => !((g.reg 0).isXMM && (g.reg 0).isXMM && ((g.reg 1).isREG 32 || (g.op 1).isMEM))) .BAD_COMBINATION (.leaf (.vex (.a 0) (some (.a 0)) (.a 1) (fl [T_0F3A, T_66, T_W0, T_EVEX, T_EW0, T_N4]) 0x22 (.i 0)))⟩,
  ⟨1781, n!"vpinsrq", [.xmm, .op, .int], 0, .guard (fun g => !((g.reg 0).isXMM && (g.reg 0).isXMM && ((g.reg 1).isREG 64 || (g.op 1).isMEM))) .BAD_COMBINATION (.leaf (.vex (.a 0) (some (.a 0)) (.a 1) (fl [T_0F3A, T_66, T_W1, T_EVEX, T_EW1, T_N8]) 0x22 (.i 0)))⟩,
  ⟨1782, n!"vpinsrw", [.xmm, .op, .int], 0, .guard (fun g => !((g.reg 0).isXMM && (g.reg 0).isXMM && ((g.reg 1).isREG 32 || (g.op 1).isMEM))) .BAD_COMBINATION (.leaf (.vex (.a 0) (some (.a 0)) (.a 1) (fl [T_0F, T_66, T_EVEX, T_N2]) 0xC4 (.i 0)))⟩,
  ⟨1783, n!"vpmaddubsw", [.xmm, .op], 0, .leaf (.avx3 (.a 0) (.a 0) (.a 1) (fl [T_66, T_0F38, T_YMM, T_EVEX]) 0x04 .none)⟩,
  ⟨1784, n!"vpmaddwd", [.xmm, .op], 0, .leaf (.avx3 (.a 0) (.a 0) (.a 1) (fl [T_66, T_0F, T_YMM, T_EVEX]) 0xF5 .none)⟩,
  ⟨1785, n!"vpmaxsb", [.xmm, .op], 0, .leaf (.avx3 (.a 0) (.a 0) (.a 1) (fl [T_66, T_0F38, T_YMM, T_EVEX]) 0x3C .none)⟩,
  ⟨1786, n!"vpmaxsd", [.xmm, .op], 0, .leaf (.avx3 (.a 0) (.a 0) (.a 1) (fl [T_66, T_0F38, T_EW0, T_YMM, T_EVEX, T_B32]) 0x3D .none)⟩,
  ⟨1787, n!"vpmaxsw", [.xmm, .op], 0, .leaf (.avx3 (.a 0) (.a 0) (.a 1) (fl [T_66, T_0F, T_YMM, T_EVEX]) 0xEE .none)⟩,
  ⟨1788, n!"vpmaxub", [.xmm, .op], 0, .leaf (.avx3 (.a 0) (.a 0) (.a 1) (fl [T_66, T_0F, T_YMM, T_EVEX]) 0xDE .none)⟩,
  ⟨1789, n!"vpmaxud", [.xmm, .op], 0, .leaf (.avx3 (.a 0) (.a 0) (.a 1) (fl [T_66, T_0F38, T_EW0, T_YMM, T_EVEX, T_B32]) 0x3F .none)⟩,
  ⟨1790, n!"vpmaxuw", [.xmm, .op], 0, .leaf (.avx3 (.a 0) (.a 0) (.a 1) (fl [T_66, T_0F38, T_YMM, T_EVEX]) 0x3E .none)⟩,
  ⟨1791, n!"vpminsb", [.xmm, .op], 0, .leaf (.avx3 (.a 0) (.a 0) (.a 1) (fl [T_66, T_0F38, T_YMM, T_EVEX]) 0x38 .none)⟩,
  ⟨1792, n!"vpminsd", [.xmm, .op], 0, .leaf (.avx3 (.a 0) (.a 0) (.a 1) (fl [T_66, T_0F38, T_EW0, T_YMM, T_EVEX, T_B32]) 0x39 .none)⟩,
  ⟨1793, n!"vpminsw", [.xmm, .op], 0, .leaf (.avx3 (.a 0) (.a 0) (.a 1) (fl [T_66, T_0F, T_YMM, T_EVEX]) 0xEA .none)⟩,
  ⟨1794, n!"vpminub", [.xmm, .op], 0, .leaf (.avx3 (.a 0) (.a 0) (.a 1) (fl [T_66, T_0F, T_YMM, T_EVEX]) 0xDA .none)⟩,
  ⟨1795, n!"vpminud", [.xmm, .op], 0, .leaf (.avx3 (.a 0) (.a 0) (.a 1) (fl [T_66, T_0F38, T_EW0, T_YMM, T_EVEX, T_B32]) 0x3B .none)⟩,
  ⟨1796, n!"vpminuw", [.xmm, .op], 0, .leaf (.avx3 (.a 0) (.a 0) (.a 1) (fl [T_66, T_0F38, T_YMM, T_EVEX]) 0x3A .none)⟩,
  ⟨1797, n!"vpmuldq", [.xmm, .op], 0, .leaf (.avx3 (.a 0) (.a 0) (.a 1) (fl [T_66, T_0F38, T_EW1, T_YMM, T_EVEX, T_B64]) 0x28 .none)⟩,
  ⟨1798, n!"vpmulhrsw", [.xmm, .op], 0, .leaf (.avx3 (.a 0) (.a 0) (.a 1) (fl [T_66, T_0F38, T_YMM, T_EVEX]) 0x0B .none)⟩,
  ⟨1799, n!"vpmulhuw", [.xmm, .op], 0, .leaf (.avx3 (.a 0) (.a 0) (.a 1) (fl [T_66, T_0F, T_YMM, T_EVEX]) 0xE4 .none)⟩,
  ⟨1800, n!"vpmulhw", [.xmm, .op], 0, .leaf (.avx3 (.a 0) (.a 0) (.a 1) (fl [T_66, T_0F, T_YMM, T_EVEX]) 0xE5 .none)⟩,
  ⟨1801, n!"vpmulld", [.xmm, .op], 0, .leaf (.avx3 (.a 0) (.a 0) (.a 1) (fl [T_66, T_0F38, T_EW0, T_YMM, T_EVEX, T_B32]) 0x40 .none)⟩,
  ⟨1802, n!"vpmullw", [.xmm, .op], 0, .leaf (.avx3 (.a 0) (.a 0) (.a 1) (fl [T_66, T_0F, T_YMM, T_EVEX]) 0xD5 .none)⟩,
  ⟨1803, n!"vpmuludq", [.xmm, .op], 0, .leaf (.avx3 (.a 0) (.a 0) (.a 1) (fl [T_66, T_0F, T_EW1, T_YMM, T_EVEX, T_B64]) 0xF4 .none)⟩,
  ⟨1804, n!"vpor", [.xmm, .op], 0, .leaf (.avx3 (.a 0) (.a 0) (.a 1) (fl [T_66, T_0F, T_YMM]) 0xEB .none)⟩,
  ⟨1805, n!"vpsadbw", [.xmm, .op], 0, .leaf (.avx3 (.a 0) (.a 0) (.a 1) (fl [T_66, T_0F, T_YMM, T_EVEX]) 0xF6 .none)⟩,
  ⟨1806, n!"vpsignb", [.xmm, .op], 0, .leaf (.avx3 (.a 0) (.a 0) (.a 1) (fl [T_66, T_0F38, T_YMM]) 0x08 .none)⟩,
  ⟨1807, n!"vpsignd", [.xmm, .op], 0, .leaf (.avx3 (.a 0) (.a 0) (.a 1) (fl [T_66, T_0F38, T_YMM]) 0x0A .none)⟩,
  ⟨1808, n!"vpsignw", [.xmm, .op], 0, .leaf (.avx3 (.a 0) (.a 0) (.a 1) (fl [T_66, T_0F38, T_YMM]) 0x09 .none)⟩,
  ⟨1809, n!"vpslld", [.xmm, .op], 0, .leaf (.avx3 (.a 0) (.a 0) (.a 1) (fl [T_N16, T_66, T_0F, T_EW0, T_YMM, T_EVEX]) 0xF2 .none)⟩,
  ⟨1810, n!"vpslld", [.xmm, .int], 0, .leaf (.avx3 (.kindOf 0 6) (.a 0) (.a 0) (fl [T_66, T_0F, T_EW0, T_YMM, T_EVEX, T_B32, T_MEM_EVEX]) 0x72 (.i 0))⟩,
  ⟨1811, n!"vpslldq", [.xmm, .int], 0, .leaf (.avx3 (.kindOf 0 7) (.a 0) (.a 0) (fl [T_66, T_0F, T_YMM, T_EVEX, T_MEM_EVEX]) 0x73 (.i 0))⟩,
  ⟨1812, n!"vpsllq", [.xmm, .op], 0, .leaf (.avx3 (.a 0) (.a 0) (.a 1) (fl [T_N16, T_66, T_0F, T_EW1, T_YMM, T_EVEX]) 0xF3 .none)⟩,
  ⟨1813, n!"vpsllq", [.xmm, .int], 0, .leaf (.avx3 (.kindOf 0 6) (.a 0) (.a 0) (fl [T_66, T_0F, T_EW1, T_YMM, T_EVEX, T_B64, T_MEM_EVEX]) 0x73 (.i 0))⟩,
  ⟨1814, n!"vpsllw", [.xmm, .op], 0, .leaf (.avx3 (.a 0) (.a 0) (.a 1) (fl [T_N16, T_66, T_0F, T_YMM, T_EVEX]) 0xF1 .none)⟩,
  ⟨1815, n!"vpsllw", [.xmm, .int], 0, .leaf (.avx3 (.kindOf 0 6) (.a 0) (.a 0) (fl [T_66, T_0F, T_YMM, T_EVEX, T_MEM_EVEX]) 0x71 (.i 0))⟩,
  ⟨1816, n!"vpsrad", [.xmm, .op], 0, .leaf (.avx3 (.a 0) (.a 0) (.a 1) (fl [T_N16, T_66, T_0F, T_EW0, T_YMM, T_EVEX]) 0xE2 .none)⟩,
  ⟨1817, n!"vpsrad", [.xmm, .int], 0, .leaf (.avx3 (.kindOf 0 4) (.a 0) (.a 0) (fl [T_66, T_0F, T_EW0, T_YMM, T_EVEX, T_B32, T_MEM_EVEX]) 0x72 (.i 0))⟩,
  ⟨1818, n!"vpsraw", [.xmm, .op], 0, .leaf (.avx3 (.a 0) (.a 0) (.a 1) (fl [T_N16, T_66, T_0F, T_YMM, T_EVEX]) 0xE1 .none)⟩,
  ⟨1819, n!"vpsraw", [.xmm, .int], 0, .leaf (.avx3 (.kindOf 0 4) (.a 0) (.a 0) (fl [T_66, T_0F, T_YMM, T_EVEX, T_MEM_EVEX]) 0x71 (.i 0))⟩,
  ⟨1820, n!"vpsrld", [.xmm, .op], 0, .leaf (.avx3 (.a 0) (.a 0) (.a 1) (fl [T_N16, T_66, T_0F, T_EW0, T_YMM, T_EVEX]) 0xD2 .none)⟩,
  ⟨1821, n!"vpsrld", [.xmm, .int], 0, .leaf (.avx3 (.kindOf 0 2) (.a 0) (.a 0) (fl [T_66, T_0F, T_EW0, T_YMM, T_EVEX, T_B32, T_MEM_EVEX]) 0x72 (.i 0))⟩,
  ⟨1822, n!"vpsrldq", [.xmm, .int], 0, .leaf (.avx3 (.kindOf 0 3) (.a 0) (.a 0) (fl [T_66, T_0F, T_YMM, T_EVEX, T_MEM_EVEX]) 0x73 (.i 0))⟩,
  ⟨1823, n!"vpsrlq", [.xmm, .op], 0, .leaf (.avx3 (.a 0) (.a 0) (.a 1) (fl [T_N16, T_66, T_0F, T_EW1, T_YMM, T_EVEX]) 0xD3 .none)⟩,
  ⟨1824, n!"vpsrlq", [.xmm, .int], 0, .leaf (.avx3 (.kindOf 0 2) (.a 0) (.a 0) (fl [T_66, T_0F, T_EW1, T_YMM, T_EVEX, T_B64, T_MEM_EVEX]) 0x73 (.i 0))⟩,
  ⟨1825, n!"vpsrlw", [.xmm, .op], 0, .leaf (.avx3 (.a 0) (.a 0) (.a 1) (fl [T_N16, T_66, T_0F, T_YMM, T_EVEX]) 0xD1 .none)⟩,
  ⟨1826, n!"vpsrlw", [.xmm, .int], 0, .leaf (.avx3 (.kindOf 0 2) (.a 0) (.a 0) (fl [T_66, T_0F, T_YMM, T_EVEX, T_MEM_EVEX]) 0x71 (.i 0))⟩,
  ⟨1827, n!"vpsubb", [.xmm, .op], 0, .leaf (.avx3 (.a 0) (.a 0) (.a 1) (fl [T_66, T_0F, T_YMM, T_EVEX]) 0xF8 .none)⟩,
  ⟨1828, n!"vpsubd", [.xmm, .op], 0, .leaf (.avx3 (.a 0) (.a 0) (.a 1) (fl [T_66, T_0F, T_EW0, T_YMM, T_EVEX, T_B32]) 0xFA .none)⟩,
  ⟨1829, n!"vpsubq", [.xmm, .op], 0, .leaf (.avx3 (.a 0) (.a 0) (.a 1) (fl [T_66, T_0F, T_EW1, T_YMM, T_EVEX, T_B64]) 0xFB .none)⟩,
  ⟨1830, n!"vpsubsb", [.xmm, .op], 0, .leaf (.avx3 (.a 0) (.a 0) (.a 1) (fl [T_66, T_0F, T_YMM, T_EVEX]) 0xE8 .none)⟩,
  ⟨1831, n!"vpsubsw", [.xmm, .op], 0, .leaf (.avx3 (.a 0) (.a 0) (.a 1) (fl [T_66, T_0F, T_YMM, T_EVEX]) 0xE9 .none)⟩,
  ⟨1832, n!"vpsubusb", [.xmm, .op], 0, .leaf (.avx3 (.a 0) (.a 0) (.a 1) (fl [T_66, T_0F, T_YMM, T_EVEX]) 0xD8 .none)⟩,
  ⟨1833, n!"vpsubusw", [.xmm, .op], 0, .leaf (.avx3 (.a 0) (.a 0) (.a 1) (fl [T_66, T_0F, T_YMM, T_EVEX]) 0xD9 .none)⟩,
  ⟨1834, n!"vpsubw", [.xmm, .op], 0, .leaf (.avx3 (.a 0) (.a 0) (.a 1) (fl [T_66, T_0F, T_YMM, T_EVEX]) 0xF9 .none)⟩,
  ⟨1835, n!"vpunpckhbw", [.xmm, .op], 0, .leaf (.avx3 (.a 0) (.a 0) (.a 1) (fl [T_66, T_0F, T_YMM, T_EVEX]) 0x68 .none)⟩,
  ⟨1836, n!"vpunpckhdq", [.xmm, .op], 0, .leaf (.avx3 (.a 0) (.a 0) (.a 1) (fl [T_66, T_0F, T_EW0, T_YMM, T_EVEX, T_B32]) 0x6A .none)⟩,
  ⟨1837, n!"vpunpckhqdq", [.xmm, .op], 0, .leaf (.avx3 (.a 0) (.a 0) (.a 1) (fl [T_66, T_0F, T_EW1, T_YMM, T_EVEX, T_B64]) 0x6D .none)⟩,
  ⟨1838, n!"vpunpckhwd", [.xmm, .op], 0, .leaf (.avx3 (.a 0) (.a 0) (.a 1) (fl [T_66, T_0F, T_YMM, T_EVEX]) 0x69 .none)⟩,
  ⟨1839, n!"vpunpcklbw", [.xmm, .op], 0, .leaf (.avx3 (.a 0) (.a 0) (.a 1) (fl [T_66, T_0F, T_YMM, T_EVEX]) 0x60 .none)⟩,
  ⟨1840, n!"vpunpckldq", [.xmm, .op], 0, .leaf (.avx3 (.a 0) (.a 0) (.a 1) (fl [T_66, T_0F, T_EW0, T_YMM, T_EVEX, T_B32]) 0x62 .none)⟩,
  ⟨1841, n!"vpunpcklqdq", [.xmm, .op], 0, .leaf (.avx3 (.a 0) (.a 0) (.a 1) (fl [T_66, T_0F, T_EW1, T_YMM, T_EVEX, T_B64]) 0x6C .none)⟩,
  ⟨1842, n!"vpunpcklwd", [.xmm, .op], 0, .leaf (.avx3 (.a 0) (.a 0) (.a 1) (fl [T_66, T_0F, T_YMM, T_EVEX]) 0x61 .none)⟩,
  ⟨1843, n!"vpxor", [.xmm, .op], 0, .leaf (.avx3 (.a 0) (.a 0) (.a 1) (fl [T_66, T_0F, T_YMM]) 0xEF .none)⟩,
  ⟨1844, n!"vrcpss", [.xmm, .op], 0, .leaf (.avx3 (.a 0) (.a 0) (.a 1) (fl [T_F3, T_0F]) 0x53 .none)⟩,
  ⟨1845, n!"vroundsd", [.xmm, .op, .int], 0, .leaf (.avx3 (.a 0) (.a 0) (.a 1) (fl [T_66, T_0F3A, T_W0]) 0x0B (.i 0))⟩,
  ⟨1846, n!"vroundss", [.xmm, .op, .int], 0, .leaf (.avx3 (.a 0) (.a 0) (.a 1) (fl [T_66, T_0F3A, T_W0]) 0x0A (.i 0))⟩,
  ⟨1847, n!"vrsqrtss", [.xmm, .op], 0, .leaf (.avx3 (.a 0) (.a 0) (.a 1) (fl [T_F3, T_0F]) 0x52 .none)⟩,
  ⟨1848, n!"vshufpd", [.xmm, .op, .int], 0, .leaf (.avx3 (.a 0) (.a 0) (.a 1) (fl [T_66, T_0F, T_EW1, T_YMM, T_EVEX, T_B64]) 0xC6 (.i 0))⟩,
  ⟨1849, n!"vshufps", [.xmm, .op, .int], 0, .leaf (.avx3 (.a 0) (.a 0) (.a 1) (fl [T_0F, T_EW0, T_YMM, T_EVEX, T_B32]) 0xC6 (.i 0))⟩,
  ⟨1850, n!"vsqrtsd", [.xmm, .op], 0, .leaf (.avx3 (.a 0) (.a 0) (.a 1) (fl [T_N8, T_F2, T_0F, T_EW1, T_EVEX, T_ER_X]) 0x51 .none)⟩,
  ⟨1851, n!"vsqrtss", [.xmm, .op], 0, .leaf (.avx3 (.a 0) (.a 0) (.a 1) (fl [T_N4, T_F3, T_0F, T_EW0, T_EVEX, T_ER_X]) 0x51 .none)⟩,
  ⟨1852, n!"vunpckhpd", [.xmm, .op], 0, .leaf (.avx3 (.a 0) (.a 0) (.a 1) (fl [T_66, T_0F, T_EW1, T_YMM, T_EVEX, T_B64]) 0x15 .none)⟩,
  ⟨1853, n!"vunpckhps", [.xmm, .op], 0, .leaf (.avx3 (.a 0) (.a 0) (.a 1) (fl [T_0F, T_EW0, T_YMM, T_EVEX, T_B32]) 0x15 .none)⟩,
  ⟨1854, n!"vunpcklpd", [.xmm, .op], 0, .leaf (.avx3 (.a 0) (.a 0) (.a 1) (fl [T_66, T_0F, T_EW1, T_YMM, T_EVEX, T_B64]) 0x14 .none)⟩,
  ⟨1855, n!"vunpcklps", [.xmm, .op], 0, .leaf (.avx3 (.a 0) (.a 0) (.a 1) (fl [T_0F, T_EW0, T_YMM, T_EVEX, T_B32]) 0x14 .none)⟩,
  ⟨1858, n!"jecxz", [.label], 0, .jmp [0x67] .short 0xE3 0x00 0x00⟩,
  ⟨1859, n!"jecxz", [.label], 0, .jmp [0x67] .short 0xE3 0x00 0x00⟩,
  ⟨1860, n!"jrcxz", [.label], 0, .jmp [] .short 0xE3 0x00 0x00⟩,
  ⟨1861, n!"jrcxz", [.label], 0, .jmp [] .short 0xE3 0x00 0x00⟩,
  ⟨1862, n!"cdqe", [], 0, .leaf (.bytes [0x48, 0x98])⟩,
  ⟨1863, n!"cqo", [], 0, .leaf (.bytes [0x48, 0x99])⟩,
  ⟨1864, n!"cmpsq", [], 0, .leaf (.bytes [0x48, 0xA7])⟩,
  ⟨1865, n!"popfq", [], 0, .leaf (.bytes [0x9D])⟩,
  ⟨1866, n!"pushfq", [], 0, .leaf (.bytes [0x9C])⟩,
  ⟨1867, n!"lodsq", [], 0, .leaf (.bytes [0x48, 0xAD])⟩,
  ⟨1868, n!"movsq", [], 0, .leaf (.bytes [0x48, 0xA5])⟩,
  ⟨1869, n!"scasq", [], 0, .leaf (.bytes [0x48, 0xAF])⟩,
  ⟨1870, n!"stosq", [], 0, .leaf (.bytes [0x48, 0xAB])⟩,
  ⟨1871, n!"syscall", [], 0, .leaf (.bytes [0x0F, 0x05])⟩,
  ⟨1872, n!"sysret", [], 0, .leaf (.bytes [0x0F, 0x07])⟩,
  ⟨1873, n!"clui", [], 0, .leaf (.bytes [0xF3, 0x0F, 0x01, 0xEE])⟩,
  ⟨1874, n!"stui", [], 0, .leaf (.bytes [0xF3, 0x0F, 0x01, 0xEF])⟩,
  ⟨1875, n!"testui", [], 0, .leaf (.bytes [0xF3, 0x0F, 0x01, 0xED])⟩,
  ⟨1876, n!"uiret", [], 0, .leaf (.bytes [0xF3, 0x0F, 0x01, 0xEC])⟩,
  ⟨1877, n!"cmpxchg16b", [.addr], 0, .leaf (.mr (.a 0) (.r (.gp 1 64)) T_0F 0xC7 0 none)⟩,
  ⟨1878, n!"fxrstor64", [.addr], 0, .leaf (.mr (.a 0) (.r (.gp 1 64)) T_0F 0xAE 0 none)⟩,
  ⟨1879, n!"movq", [.reg64, .mmx], 0, .pre (fun g => (g.reg 1).isXMM) 0x66 (.leaf (.sse (.a 1) (.a 0) T_0F 0x7E .any .none))⟩,
  ⟨1880, n!"movq", [.mmx, .reg64], 0, .pre (fun g => (g.reg 0).isXMM) 0x66 (.leaf (.sse (.a 0) (.a 1) T_0F 0x6E .any .none))⟩,
  ⟨1881, n!"movsxd", [.reg64, .op], 0, .guard (fun g => !((g.reg 1).isBit 32)) .BAD_COMBINATION (.leaf (.ro (.a 0) (.a 1) T_ALLOW_DIFF_SIZE 0x63 .any))⟩,
  ⟨1882, n!"pextrq", [.op, .xmm, .int], 0, .guard (fun g => !((g.reg 0).isREG 64) && !((g.op 0).isMEM)) .BAD_COMBINATION (.leaf (.sse (.gp64Of 1) (.a 0) (fl [T_66, T_0F3A]) 0x16 .any (.i 0)))⟩,
  ⟨1883, n!"pinsrq", [.xmm, .op, .int], 0, .guard (fun g => !((g.reg 1).isREG 64) && !((g.op 1).isMEM)) .BAD_COMBINATION (.leaf (.sse (.gp64Of 0) (.a 1) (fl [T_66, T_0F3A]) 0x22 .any (.i 0)))⟩,
  ⟨1884, n!"senduipi", [.reg64], 0, .leaf (.raw .senduipi)⟩,
  ⟨1885, n!"vcvtss2si", [.reg64, .op], 0, .leaf (.avx3 (.xmmOf 0) (.r (.xmm 0)) (.a 1) (fl [T_0F, T_F3, T_W1, T_EVEX, T_EW1, T_ER_X, T_N8]) 0x2D .none)⟩,
  ⟨1886, n!"vcvttss2si", [.reg64, .op], 0, .leaf (.avx3 (.xmmOf 0) (.r (.xmm 0)) (.a 1) (fl [T_0F, T_F3, T_W1, T_EVEX, T_EW1, T_SAE_X, T_N8]) 0x2C .none)⟩,
  ⟨1887, n!"vcvtsd2si", [.reg64, .op], 0, .leaf (.avx3 (.xmmOf 0) (.r (.xmm 0)) (.a 1) (fl [T_0F, T_F2, T_W1, T_EVEX, T_EW1, T_N4, T_ER_X]) 0x2D .none)⟩,
  ⟨1888, n!"vcvttsd2si", [.reg64, .op], 0, .leaf (.avx3 (.xmmOf 0) (.r (.xmm 0)) (.a 1) (fl [T_0F, T_F2, T_W1, T_EVEX, T_EW1, T_N4, T_SAE_X]) 0x2C .none)⟩,
  ⟨1889, n!"vmovq", [.xmm, .reg64], 0, .leaf (.avx3 (.a 0) (.r (.xmm 0)) (.xmmOf 1) (fl [T_66, T_0F, T_W1, T_EVEX, T_EW1]) 0x6E .none)⟩,
  ⟨1890, n!"vmovq", [.reg64, .xmm], 0, .leaf (.avx3 (.a 1) (.r (.xmm 0)) (.xmmOf 0) (fl [T_66, T_0F, T_W1, T_EVEX, T_EW1]) 0x7E .none)⟩,
  ⟨1891, n!"jmpabs", [.int], 0, .leaf (.raw .jmpabs)⟩,
  ⟨1892, n!"push2", [.reg64, .reg64], 0, .leaf (.roo (.a 0) (.a 1) (.r (.gp 6 64)) (fl [T_APX, T_ND1, T_W0]) 0xFF)⟩,
  ⟨1893, n!"push2p", [.reg64, .reg64], 0, .leaf (.roo (.a 0) (.a 1) (.r (.gp 6 64)) (fl [T_APX, T_ND1, T_W1]) 0xFF)⟩,
  ⟨1894, n!"pop2", [.reg64, .reg64], 0, .leaf (.roo (.a 0) (.a 1) (.r (.gp 0 64)) (fl [T_APX, T_ND1, T_W0]) 0x8F)⟩,
  ⟨1895, n!"pop2p", [.reg64, .reg64], 0, .leaf (.roo (.a 0) (.a 1) (.r (.gp 0 64)) (fl [T_APX, T_ND1, T_W1]) 0x8F)⟩,
  ⟨1896, n!"cmpbexadd", [.addr, .reg32e, .reg32e], 0, .leaf (.rro (.a 1) (.a 2) (.a 0) (fl [T_APX, T_66, T_0F38]) 0xE6 .none)⟩,
  ⟨1897, n!"cmpbxadd", [.addr, .reg32e, .reg32e], 0, .leaf (.rro (.a 1) (.a 2) (.a 0) (fl [T_APX, T_66, T_0F38]) 0xE2 .none)⟩,
  ⟨1898, n!"cmplexadd", [.addr, .reg32e, .reg32e], 0, .leaf (.rro (.a 1) (.a 2) (.a 0) (fl [T_APX, T_66, T_0F38]) 0xEE .none)⟩,
  ⟨1899, n!"cmplxadd", [.addr, .reg32e, .reg32e], 0, .leaf (.rro (.a 1) (.a 2) (.a 0) (fl [T_APX, T_66, T_0F38]) 0xEC .none)⟩,
  ⟨1900, n!"cmpnbexadd", [.addr, .reg32e, .reg32e], 0, .leaf (.rro (.a 1) (.a 2) (.a 0) (fl [T_APX, T_66, T_0F38]) 0xE7 .none)⟩,
  ⟨1901, n!"cmpnbxadd", [.addr, .reg32e, .reg32e], 0, .leaf (.rro (.a 1) (.a 2) (.a 0) (fl [T_APX, T_66, T_0F38]) 0xE3 .none)⟩,
  ⟨1902, n!"cmpnlexadd", [.addr, .reg32e, .reg32e], 0, .leaf (.rro (.a 1) (.a 2) (.a 0) (fl [T_APX, T_66, T_0F38]) 0xEF .none)⟩,
  ⟨1903, n!"cmpnlxadd", [.addr, .reg32e, .reg32e], 0, .leaf (.rro (.a 1) (.a 2) (.a 0) (fl [T_APX, T_66, T_0F38]) 0xED .none)⟩,
  ⟨1904, n!"cmpnoxadd", [.addr, .reg32e, .reg32e], 0, .leaf (.rro (.a 1) (.a 2) (.a 0) (fl [T_APX, T_66, T_0F38]) 0xE1 .none)⟩,
  ⟨1905, n!"cmpnpxadd", [.addr, .reg32e, .reg32e], 0, .leaf (.rro (.a 1) (.a 2) (.a 0) (fl [T_APX, T_66, T_0F38]) 0xEB .none)⟩,
  ⟨1906, n!"cmpnsxadd", [.addr, .reg32e, .reg32e], 0, .leaf (.rro (.a 1) (.a 2) (.a 0) (fl [T_APX, T_66, T_0F38]) 0xE9 .none)⟩,
  ⟨1907, n!"cmpnzxadd", [.addr, .reg32e, .reg32e], 0, .leaf (.rro (.a 1) (.a 2) (.a 0) (fl [T_APX, T_66, T_0F38]) 0xE5 .none)⟩,
  ⟨1908, n!"cmpoxadd", [.addr, .reg32e, .reg32e], 0, .leaf (.rro (.a 1) (.a 2) (.a 0) (fl [T_APX, T_66, T_0F38]) 0xE0 .none)⟩,
  ⟨1909, n!"cmppxadd", [.addr, .reg32e, .reg32e], 0, .leaf (.rro (.a 1) (.a 2) (.a 0) (fl [T_APX, T_66, T_0F38]) 0xEA .none)⟩,
  ⟨1910, n!"cmpsxadd", [.addr, .reg32e, .reg32e], 0, .leaf (.rro (.a 1) (.a 2) (.a 0) (fl [T_APX, T_66, T_0F38]) 0xE8 .none)⟩,
  ⟨1911, n!"cmpzxadd", [.addr, .reg32e, .reg32e], 0, .leaf (.rro (.a 1) (.a 2) (.a 0) (fl [T_APX, T_66, T_0F38]) 0xE4 .none)⟩,
  ⟨1912, n!"aesdec128kl", [.xmm, .addr], 0, .leaf (.sseApx (.a 0) (.a 1) (fl [T_F3, T_0F38]) 0xDD (fl [T_F3, T_MUST_EVEX]) 0xDD .none)⟩,
  ⟨1913, n!"aesdec256kl", [.xmm, .addr], 0, .leaf (.sseApx (.a 0) (.a 1) (fl [T_F3, T_0F38]) 0xDF (fl [T_F3, T_MUST_EVEX]) 0xDF .none)⟩,
  ⟨1914, n!"aesdecwide128kl", [.addr], 0, .leaf (.sseApx (.r (.xmm 1)) (.a 0) (fl [T_F3, T_0F38]) 0xD8 (fl [T_F3, T_MUST_EVEX]) 0xD8 .none)⟩,
  ⟨1915, n!"aesdecwide256kl", [.addr], 0, .leaf (.sseApx (.r (.xmm 3)) (.a 0) (fl [T_F3, T_0F38]) 0xD8 (fl [T_F3, T_MUST_EVEX]) 0xD8 .none)⟩,
  ⟨1916, n!"aesenc128kl", [.xmm, .addr], 0, .leaf (.sseApx (.a 0) (.a 1) (fl [T_F3, T_0F38]) 0xDC (fl [T_F3, T_MUST_EVEX]) 0xDC .none)⟩,
  ⟨1917, n!"aesenc256kl", [.xmm, .addr], 0, .leaf (.sseApx (.a 0) (.a 1) (fl [T_F3, T_0F38]) 0xDE (fl [T_F3, T_MUST_EVEX]) 0xDE .none)⟩,
  ⟨1918, n!"aesencwide128kl", [.addr], 0, .leaf (.sseApx (.r (.xmm 0)) (.a 0) (fl [T_F3, T_0F38]) 0xD8 (fl [T_F3, T_MUST_EVEX]) 0xD8 .none)⟩,
  ⟨1919, n!"aesencwide256kl", [.addr], 0, .leaf (.sseApx (.r (.xmm 2)) (.a 0) (fl [T_F3, T_0F38]) 0xD8 (fl [T_F3, T_MUST_EVEX]) 0xD8 .none)⟩,
  ⟨1920, n!"encodekey128", [.reg32, .reg32], 0, .leaf (.encodeKey (.a 0) (.a 1) 0xFA 0xDA)⟩,
  ⟨1921, n!"encodekey256", [.reg32, .reg32], 0, .leaf (.encodeKey (.a 0) (.a 1) 0xFB 0xDB)⟩,
  ⟨1922, n!"rdfsbase", [.reg32e], 0, .leaf (.rr (.r (.gp 0 32)) (.a 0) (fl [T_F3, T_0F, T_ALLOW_DIFF_SIZE]) 0xAE)⟩,
  ⟨1923, n!"rdgsbase", [.reg32e], 0, .leaf (.rr (.r (.gp 1 32)) (.a 0) (fl [T_F3, T_0F, T_ALLOW_DIFF_SIZE]) 0xAE)⟩,
  ⟨1924, n!"wrfsbase", [.reg32e], 0, .leaf (.rr (.r (.gp 2 32)) (.a 0) (fl [T_F3, T_0F, T_ALLOW_DIFF_SIZE]) 0xAE)⟩,
  ⟨1925, n!"wrgsbase", [.reg32e], 0, .leaf (.rr (.r (.gp 3 32)) (.a 0) (fl [T_F3, T_0F, T_ALLOW_DIFF_SIZE]) 0xAE)⟩,
  ⟨1926, n!"ldtilecfg", [.addr], 0, .apx (.r .nil) (.a 0) (.r (.tmm 0)) (fl [T_APX, T_0F38, T_W0]) 0x49 (.leaf (.vex (.r (.tmm 0)) (some (.r (.tmm 0))) (.a 0) (fl [T_0F38, T_W0]) 0x49 .none))⟩,
  ⟨1927, n!"sttilecfg", [.addr], 0, .apx (.r .nil) (.a 0) (.r (.tmm 0)) (fl [T_APX, T_66, T_0F38, T_W0]) 0x49 (.leaf (.vex (.r (.tmm 0)) (some (.r (.tmm 0))) (.a 0) (fl [T_66, T_0F38, T_W0]) 0x49 .none))⟩,
  ⟨1928, n!"tileloadd", [.tmm, .addr], 0, .leaf (.amx (.a 0) (.a 1) (fl [T_F2, T_0F38, T_W0]) 0x4B)⟩,
  ⟨1929, n!"tileloaddt1", [.tmm, .addr], 0, .leaf (.amx (.a 0) (.a 1) (fl [T_66, T_0F38, T_W0]) 0x4B)⟩,
  ⟨1930, n!"tilerelease", [], 0, .leaf (.bytes [0xC4, 0xE2, 0x78, 0x49, 0xC0])⟩,
  ⟨1931, n!"tilestored", [.addr, .tmm], 0, .apx (.r .nil) (.a 0) (.a 1) (fl [T_APX, T_F3, T_0F38, T_W0]) 0x4B (.leaf (.vex (.a 1) (some (.r (.tmm 0))) (.a 0) (fl [T_F3, T_0F38, T_W0]) 0x4B .none))⟩,
  ⟨1932, n!"tilezero", [.tmm], 0, .leaf (.vex (.a 0) (some (.r (.tmm 0))) (.r (.tmm 0)) (fl [T_F2, T_0F38, T_W0]) 0x49 .none)⟩,
  ⟨1933, n!"tdpbssd", [.tmm, .tmm, .tmm], 0, .leaf (.vex (.a 0) (some (.a 2)) (.a 1) (fl [T_F2, T_0F38, T_W0]) 0x5E .none)⟩,
  ⟨1934, n!"tdpbsud", [.tmm, .tmm, .tmm], 0, .leaf (.vex (.a 0) (some (.a 2)) (.a 1) (fl [T_F3, T_0F38, T_W0]) 0x5E .none)⟩,
  ⟨1935, n!"tdpbusd", [.tmm, .tmm, .tmm], 0, .leaf (.vex (.a 0) (some (.a 2)) (.a 1) (fl [T_66, T_0F38, T_W0]) 0x5E .none)⟩,
  ⟨1936, n!"tdpbuud", [.tmm, .tmm, .tmm], 0, .leaf (.vex (.a 0) (some (.a 2)) (.a 1) (fl [T_0F38, T_W0]) 0x5E .none)⟩,
  ⟨1937, n!"tdpfp16ps", [.tmm, .tmm, .tmm], 0, .leaf (.vex (.a 0) (some (.a 2)) (.a 1) (fl [T_F2, T_0F38, T_W0]) 0x5C .none)⟩,
  ⟨1938, n!"tdpbf16ps", [.tmm, .tmm, .tmm], 0, .leaf (.vex (.a 0) (some (.a 2)) (.a 1) (fl [T_F3, T_0F38, T_W0]) 0x5C .none)⟩,
  ⟨1961, n!"and", [.op, .op], 0, .leaf (.roMr (.a 0) (.a 1) 0x20)⟩,
  ⟨1962, n!"and", [.op, .int], 0, .leaf (.oi (.a 0) 0 0x20 4)⟩,
  ⟨1963, n!"or", [.op, .op], 0, .leaf (.roMr (.a 0) (.a 1) 0x08)⟩,
  ⟨1964, n!"or", [.op, .int], 0, .leaf (.oi (.a 0) 0 0x08 1)⟩,
  ⟨1965, n!"xor", [.op, .op], 0, .leaf (.roMr (.a 0) (.a 1) 0x30)⟩,
  ⟨1966, n!"xor", [.op, .int], 0, .leaf (.oi (.a 0) 0 0x30 6)⟩,
  ⟨1967, n!"not", [.op], 0, .leaf (.rext (.a 0) 0 2 (fl [T_APX, T_CODE1_IF1]) 0xF6)⟩,
  ⟨1970, n!"kaddb", [.opmask, .opmask, .opmask], 0, .leaf (.vex (.a 0) (some (.a 1)) (.a 2) (fl [T_L1, T_0F, T_66, T_W0]) 0x4A .none)⟩,
  ⟨1971, n!"kaddd", [.opmask, .opmask, .opmask], 0, .leaf (.vex (.a 0) (some (.a 1)) (.a 2) (fl [T_L1, T_0F, T_66, T_W1]) 0x4A .none)⟩,
  ⟨1972, n!"kaddq", [.opmask, .opmask, .opmask], 0, .leaf (.vex (.a 0) (some (.a 1)) (.a 2) (fl [T_L1, T_0F, T_W1]) 0x4A .none)⟩,
  ⟨1973, n!"kaddw", [.opmask, .opmask, .opmask], 0, .leaf (.vex (.a 0) (some (.a 1)) (.a 2) (fl [T_L1, T_0F, T_W0]) 0x4A .none)⟩,
  ⟨1974, n!"kandb", [.opmask, .opmask, .opmask], 0, .leaf (.vex (.a 0) (some (.a 1)) (.a 2) (fl [T_L1, T_0F, T_66, T_W0]) 0x41 .none)⟩,
  ⟨1975, n!"kandd", [.opmask, .opmask, .opmask], 0, .leaf (.vex (.a 0) (some (.a 1)) (.a 2) (fl [T_L1, T_0F, T_66, T_W1]) 0x41 .none)⟩,
  ⟨1976, n!"kandnb", [.opmask, .opmask, .opmask], 0, .leaf (.vex (.a 0) (some (.a 1)) (.a 2) (fl [T_L1, T_0F, T_66, T_W0]) 0x42 .none)⟩,
  ⟨1977, n!"kandnd", [.opmask, .opmask, .opmask], 0, .leaf (.vex (.a 0) (some (.a 1)) (.a 2) (fl [T_L1, T_0F, T_66, T_W1]) 0x42 .none)⟩,
  ⟨1978, n!"kandnq", [.opmask, .opmask, .opmask], 0, .leaf (.vex (.a 0) (some (.a 1)) (.a 2) (fl [T_L1, T_0F, T_W1]) 0x42 .none)⟩,
  ⟨1979, n!"kandnw", [.opmask, .opmask, .opmask], 0, .leaf (.vex (.a 0) (some (.a 1)) (.a 2) (fl [T_L1, T_0F, T_W0]) 0x42 .none)⟩,
  ⟨1980, n!"kandq", [.opmask, .opmask, .opmask], 0, .leaf (.vex (.a 0) (some (.a 1)) (.a 2) (fl [T_L1, T_0F, T_W1]) 0x41 .none)⟩,
  ⟨1981, n!"kandw", [.opmask, .opmask, .opmask], 0, .leaf (.vex (.a 0) (some (.a 1)) (.a 2) (fl [T_L1, T_0F, T_W0]) 0x41 .none)⟩,
  ⟨1982, n!"kmovb", [.addr, .opmask], 0, .leaf (.kmov (.a 1) (.a 0) true 8)⟩,
  ⟨1983, n!"kmovb", [.opmask, .op], 0, .leaf (.kmov (.a 0) (.a 1) false 8)⟩,
  ⟨1984, n!"kmovb", [.reg32, .opmask], 0, .leaf (.kmov (.a 1) (.a 0) true 8)⟩,
  ⟨1985, n!"kmovd", [.addr, .opmask], 0, .leaf (.kmov (.a 1) (.a 0) true 32)⟩,
  ⟨1986, n!"kmovd", [.opmask, .op], 0, .leaf (.kmov (.a 0) (.a 1) false 32)⟩,
  ⟨1987, n!"kmovd", [.reg32, .opmask], 0, .leaf (.kmov (.a 1) (.a 0) true 32)⟩,
  ⟨1988, n!"kmovq", [.addr, .opmask], 0, .leaf (.kmov (.a 1) (.a 0) true 64)⟩,
  ⟨1989, n!"kmovq", [.opmask, .op], 0, .leaf (.kmov (.a 0) (.a 1) false 64)⟩,
  ⟨1990, n!"kmovw", [.addr, .opmask], 0, .leaf (.kmov (.a 1) (.a 0) true 16)⟩,
  ⟨1991, n!"kmovw", [.opmask, .op], 0, .leaf (.kmov (.a 0) (.a 1) false 16)⟩,
  ⟨1992, n!"kmovw", [.reg32, .opmask], 0, .leaf (.kmov (.a 1) (.a 0) true 16)⟩,
  ⟨1993, n!"knotb", [.opmask, .opmask], 0, .leaf (.vex (.a 0) none (.a 1) (fl [T_0F, T_66, T_W0]) 0x44 .none)⟩,
  ⟨1994, n!"knotd", [.opmask, .opmask], 0, .leaf (.vex (.a 0) none (.a 1) (fl [T_0F, T_66, T_W1]) 0x44 .none)⟩,
  ⟨1995, n!"knotq", [.opmask, .opmask], 0, .leaf (.vex (.a 0) none (.a 1) (fl [T_0F, T_W1]) 0x44 .none)⟩,
  ⟨1996, n!"knotw", [.opmask, .opmask], 0, .leaf (.vex (.a 0) none (.a 1) (fl [T_0F, T_W0]) 0x44 .none)⟩,
  ⟨1997, n!"korb", [.opmask, .opmask, .opmask], 0, .leaf (.vex (.a 0) (some (.a 1)) (.a 2) (fl [T_L1, T_0F, T_66, T_W0]) 0x45 .none)⟩,
  ⟨1998, n!"kord", [.opmask, .opmask, .opmask], 0, .leaf (.vex (.a 0) (some (.a 1)) (.a 2) (fl [T_L1, T_0F, T_66, T_W1]) 0x45 .none)⟩,
  ⟨1999, n!"korq", [.opmask, .opmask, .opmask], 0, .leaf (.vex (.a 0) (some (.a 1)) (.a 2) (fl [T_L1, T_0F, T_W1]) 0x45 .none)⟩,
  ⟨2000, n!"kortestb", [.opmask, .opmask], 0, .leaf (.vex (.a 0) none (.a 1) (fl [T_0F, T_66, T_W0]) 0x98 .none)⟩,
  ⟨2001, n!"kortestd", [.opmask, .opmask], 0, .leaf (.vex (.a 0) none (.a 1) (fl [T_0F, T_66, T_W1]) 0x98 .none)⟩,
  ⟨2002, n!"kortestq", [.opmask, .opmask], 0, .leaf (.vex (.a 0) none (.a 1) (fl [T_0F, T_W1]) 0x98 .none)⟩,
  ⟨2003, n!"kortestw", [.opmask, .opmask], 0, .leaf (.vex (.a 0) none (.a 1) (fl [T_0F, T_W0]) 0x98 .none)⟩,
  ⟨2004, n!"korw", [.opmask, .opmask, .opmask], 0, .leaf (.vex (.a 0) (some (.a 1)) (.a 2) (fl [T_L1, T_0F, T_W0]) 0x45 .none)⟩,
  ⟨2005, n!"kshiftlb", [.opmask, .opmask, .int], 0, .leaf (.vex (.a 0) none (.a 1) (fl [T_66, T_0F3A, T_W0]) 0x32 (.i 0))⟩,
  ⟨2006, n!"kshiftld", [.opmask, .opmask, .int], 0, .leaf (.vex (.a 0) none (.a 1) (fl [T_66, T_0F3A, T_W0]) 0x33 (.i 0))⟩,
  ⟨2007, n!"kshiftlq", [.opmask, .opmask, .int], 0, .leaf (.vex (.a 0) none (.a 1) (fl [T_66, T_0F3A, T_W1]) 0x33 (.i 0))⟩,
  ⟨2008, n!"kshiftlw", [.opmask, .opmask, .int], 0, .leaf (.vex (.a 0) none (.a 1) (fl [T_66, T_0F3A, T_W1]) 0x32 (.i 0))⟩,
  ⟨2009, n!"kshiftrb", [.opmask, .opmask, .int], 0, .leaf (.vex (.a 0) none (.a 1) (fl [T_66, T_0F3A, T_W0]) 0x30 (.i 0))⟩,
  ⟨2010, n!"kshiftrd", [.opmask, .opmask, .int], 0, .leaf (.vex (.a 0) none (.a 1) (fl [T_66, T_0F3A, T_W0]) 0x31 (.i 0))⟩,
  ⟨2011, n!"kshiftrq", [.opmask, .opmask, .int], 0, .leaf (.vex (.a 0) none (.a 1) (fl [T_66, T_0F3A, T_W1]) 0x31 (.i 0))⟩,
  ⟨2012, n!"kshiftrw", [.opmask, .opmask, .int], 0, .leaf (.vex (.a 0) none (.a 1) (fl [T_66, T_0F3A, T_W1]) 0x30 (.i 0))⟩,
  ⟨2013, n!"ktestb", [.opmask, .opmask], 0, .leaf (.vex (.a 0) none (.a 1) (fl [T_0F, T_66, T_W0]) 0x99 .none)⟩,
  ⟨2014, n!"ktestd", [.opmask, .opmask], 0, .leaf (.vex (.a 0) none (.a 1) (fl [T_0F, T_66, T_W1]) 0x99 .none)⟩,
  ⟨2015, n!"ktestq", [.opmask, .opmask], 0, .leaf (.vex (.a 0) none (.a 1) (fl [T_0F, T_W1]) 0x99 .none)⟩,
  ⟨2016, n!"ktestw", [.opmask, .opmask], 0, .leaf (.vex (.a 0) none (.a 1) (fl [T_0F, T_W0]) 0x99 .none)⟩,
  ⟨2017, n!"kunpckbw", [.opmask, .opmask, .opmask], 0, .leaf (.vex (.a 0) (some (.a 1)) (.a 2) (fl [T_L1, T_0F, T_66, T_W0]) 0x4B .none)⟩,
  ⟨2018, n!"kunpckdq", [.opmask, .opmask, .opmask], 0, .leaf (.vex (.a 0) (some (.a 1)) (.a 2) (fl [T_L1, T_0F, T_W1]) 0x4B .none)⟩,
  ⟨2019, n!"kunpckwd", [.opmask, .opmask, .opmask], 0, .leaf (.vex (.a 0) (some (.a 1)) (.a 2) (fl [T_L1, T_0F, T_W0]) 0x4B .none)⟩,
  ⟨2020, n!"kxnorb", [.opmask, .opmask, .opmask], 0, .leaf (.vex (.a 0) (some (.a 1)) (.a 2) (fl [T_L1, T_0F, T_66, T_W0]) 0x46 .none)⟩,
  ⟨2021, n!"kxnord", [.opmask, .opmask, .opmask], 0, .leaf (.vex (.a 0) (some (.a 1)) (.a 2) (fl [T_L1, T_0F, T_66, T_W1]) 0x46 .none)⟩,
  ⟨2022, n!"kxnorq", [.opmask, .opmask, .opmask], 0, .leaf (.vex (.a 0) (some (.a 1)) (.a 2) (fl [T_L1, T_0F, T_W1]) 0x46 .none)⟩,
  ⟨2023, n!"kxnorw", [.opmask, .opmask, .opmask], 0, .leaf (.vex (.a 0) (some (.a 1)) (.a 2) (fl [T_L1, T_0F, T_W0]) 0x46 .none)⟩,
  ⟨2024, n!"kxorb", [.opmask, .opmask, .opmask], 0, .leaf (.vex (.a 0) (some (.a 1)) (.a 2) (fl [T_L1, T_0F, T_66, T_W0]) 0x47 .none)⟩,
  ⟨2025, n!"kxord", [.opmask, .opmask, .opmask], 0, .leaf (.vex (.a 0) (some (.a 1)) (.a 2) (fl [T_L1, T_0F, T_66, T_W1]) 0x47 .none)⟩,
  ⟨2026, n!"kxorq", [.opmask, .opmask, .opmask], 0, .leaf (.vex (.a 0) (some (.a 1)) (.a 2) (fl [T_L1, T_0F, T_W1]) 0x47 .none)⟩,
  ⟨2027, n!"kxorw", [.opmask, .opmask, .opmask], 0, .leaf (.vex (.a 0) (some (.a 1)) (.a 2) (fl [T_L1, T_0F, T_W0]) 0x47 .none)⟩,
  ⟨2028, n!"v4fmaddps", [.zmm, .zmm, .addr], 0, .leaf (.avx3 (.a 0) (.a 1) (.a 2) (fl [T_0F38, T_F2, T_EW0, T_YMM, T_MUST_EVEX, T_N16]) 0x9A .none)⟩,
  ⟨2029, n!"v4fmaddss", [.xmm, .xmm, .addr], 0, .leaf (.avx3 (.a 0) (.a 1) (.a 2) (fl [T_0F38, T_F2, T_EW0, T_MUST_EVEX, T_N16]) 0x9B .none)⟩,
  ⟨2030, n!"v4fnmaddps", [.zmm, .zmm, .addr], 0, .leaf (.avx3 (.a 0) (.a 1) (.a 2) (fl [T_0F38, T_F2, T_EW0, T_YMM, T_MUST_EVEX, T_N16]) 0xAA .none)⟩,
  ⟨2031, n!"v4fnmaddss", [.xmm, .xmm, .addr], 0, .leaf (.avx3 (.a 0) (.a 1) (.a 2) (fl [T_0F38, T_F2, T_EW0, T_MUST_EVEX, T_N16]) 0xAB .none)⟩,
  ⟨2032, n!"vaddnepbf16", [.xmm, .xmm, .op], 0, .leaf (.avx3 (.a 0) (.a 1) (.a 2) (fl [T_66, T_MAP5, T_EW0, T_YMM, T_MUST_EVEX, T_B16]) 0x58 .none)⟩,
  ⟨2033, n!"vaddph", [.xmm, .op, .op], 1, .leaf (.avx3 (.a 0) (.a 1) (.a 2) (fl [T_MAP5, T_EW0, T_YMM, T_MUST_EVEX, T_ER_Z, T_B16]) 0x58 .none)⟩,
  ⟨2034, n!"vaddsh", [.xmm, .op, .op], 1, .leaf (.avx3 (.a 0) (.a 1) (.a 2) (fl [T_MAP5, T_F3, T_EW0, T_MUST_EVEX, T_ER_X, T_N2]) 0x58 .none)⟩,
  ⟨2035, n!"valignd", [.xmm, .xmm, .op, .int], 0, .leaf (.avx3 (.a 0) (.a 1) (.a 2) (fl [T_66, T_0F3A, T_EW0, T_YMM, T_MUST_EVEX]) 0x03 (.i 0))⟩,
  ⟨2036, n!"valignq", [.xmm, .xmm, .op, .int], 0, .leaf (.avx3 (.a 0) (.a 1) (.a 2) (fl [T_66, T_0F3A, T_EW1, T_YMM, T_MUST_EVEX]) 0x03 (.i 0))⟩,
  ⟨2037, n!"vblendmpd", [.xmm, .xmm, .op], 0, .leaf (.avx3 (.a 0) (.a 1) (.a 2) (fl [T_66, T_0F38, T_EW1, T_YMM, T_MUST_EVEX, T_B64]) 0x65 .none)⟩,
  ⟨2038, n!"vblendmps", [.xmm, .xmm, .op], 0, .leaf (.avx3 (.a 0) (.a 1) (.a 2) (fl [T_66, T_0F38, T_EW0, T_YMM, T_MUST_EVEX, T_B32]) 0x65 .none)⟩,
  ⟨2039, n!"vbroadcastf32x2", [.ymm, .op], 0, .leaf (.avx2 (.a 0) (.a 1) (fl [T_66, T_0F38, T_YMM, T_MUST_EVEX, T_EW0, T_N8]) 0x19 .none)⟩,
  ⟨2040, n!"vbroadcastf32x4", [.ymm, .addr], 0, .leaf (.avx2 (.a 0) (.a 1) (fl [T_66, T_0F38, T_YMM, T_MUST_EVEX, T_EW0, T_N16]) 0x1A .none)⟩,
  ⟨2041, n!"vbroadcastf32x8", [.zmm, .addr], 0, .leaf (.avx2 (.a 0) (.a 1) (fl [T_66, T_0F38, T_YMM, T_MUST_EVEX, T_EW0, T_N32]) 0x1B .none)⟩,
  ⟨2042, n!"vbroadcastf64x2", [.ymm, .addr], 0, .leaf (.avx2 (.a 0) (.a 1) (fl [T_66, T_0F38, T_YMM, T_MUST_EVEX, T_EW1, T_N16]) 0x1A .none)⟩,
  ⟨2043, n!"vbroadcastf64x4", [.zmm, .addr], 0, .leaf (.avx2 (.a 0) (.a 1) (fl [T_66, T_0F38, T_YMM, T_MUST_EVEX, T_EW1, T_N32]) 0x1B .none)⟩,
  ⟨2044, n!"vbroadcasti32x2", [.xmm, .op], 0, .leaf (.avx2 (.a 0) (.a 1) (fl [T_66, T_0F38, T_YMM, T_MUST_EVEX, T_EW0, T_N8]) 0x59 .none)⟩,
  ⟨2045, n!"vbroadcasti32x4", [.ymm, .op], 0, .leaf (.avx2 (.a 0) (.a 1) (fl [T_66, T_0F38, T_YMM, T_MUST_EVEX, T_EW0, T_N16]) 0x5A .none)⟩,
  ⟨2046, n!"vbroadcasti32x8", [.zmm, .op], 0, .leaf (.avx2 (.a 0) (.a 1) (fl [T_66, T_0F38, T_YMM, T_MUST_EVEX, T_EW0, T_N32]) 0x5B .none)⟩,
  ⟨2047, n!"vbroadcasti64x2", [.ymm, .op], 0, .leaf (.avx2 (.a 0) (.a 1) (fl [T_66, T_0F38, T_YMM, T_MUST_EVEX, T_EW1, T_N16]) 0x5A .none)⟩,
  ⟨2048, n!"vbroadcasti64x4", [.zmm, .op], 0, .leaf (.avx2 (.a 0) (.a 1) (fl [T_66, T_0F38, T_YMM, T_MUST_EVEX, T_EW1, T_N32]) 0x5B .none)⟩,
  ⟨2049, n!"vcmpeq_ospd", [.opmask, .xmm, .op], 0, .leaf (.avxK (.a 0) (.a 1) (.a 2) (fl [T_66, T_0F, T_EW1, T_YMM, T_SAE_Z, T_MUST_EVEX, T_B64]) 0xC2 (.c 0x10))⟩,
  ⟨2050, n!"vcmpeq_osps", [.opmask, .xmm, .op], 0, .leaf (.avxK (.a 0) (.a 1) (.a 2) (fl [T_0F, T_EW0, T_YMM, T_SAE_Z, T_MUST_EVEX, T_B32]) 0xC2 (.c 0x10))⟩,
  ⟨2051, n!"vcmpeq_ossd", [.opmask, .xmm, .op], 0, .leaf (.avxK (.a 0) (.a 1) (.a 2) (fl [T_N8, T_F2, T_0F, T_EW1, T_SAE_Z, T_MUST_EVEX]) 0xC2 (.c 0x10))⟩,
  ⟨2052, n!"vcmpeq_osss", [.opmask, .xmm, .op], 0, .leaf (.avxK (.a 0) (.a 1) (.a 2) (fl [T_N4, T_F3, T_0F, T_EW0, T_SAE_Z, T_MUST_EVEX]) 0xC2 (.c 0x10))⟩,
  ⟨2053, n!"vcmpeq_uqpd", [.opmask, .xmm, .op], 0, .leaf (.avxK (.a 0) (.a 1) (.a 2) (fl [T_66, T_0F, T_EW1, T_YMM, T_SAE_Z, T_MUST_EVEX, T_B64]) 0xC2 (.c 0x08))⟩,
  ⟨2054, n!"vcmpeq_uqps", [.opmask, .xmm, .op], 0, .leaf (.avxK (.a 0) (.a 1) (.a 2) (fl [T_0F, T_EW0, T_YMM, T_SAE_Z, T_MUST_EVEX, T_B32]) 0xC2 (.c 0x08))⟩,
  ⟨2055, n!"vcmpeq_uqsd", [.opmask, .xmm, .op], 0, .leaf (.avxK (.a 0) (.a 1) (.a 2) (fl [T_N8, T_F2, T_0F, T_EW1, T_SAE_Z, T_MUST_EVEX]) 0xC2 (.c 0x08))⟩,
  ⟨2056, n!"vcmpeq_uqss", [.opmask, .xmm, .op], 0, .leaf (.avxK (.a 0) (.a 1) (.a 2) (fl [T_N4, T_F3, T_0F, T_EW0, T_SAE_Z, T_MUST_EVEX]) 0xC2 (.c 0x08))⟩,
  ⟨2057, n!"vcmpeq_uspd", [.opmask, .xmm, .op], 0, .leaf (.avxK (.a 0) (.a 1) (.a 2) (fl [T_66, T_0F, T_EW1, T_YMM, T_SAE_Z, T_MUST_EVEX, T_B64]) 0xC2 (.c 0x18))⟩,
  ⟨2058, n!"vcmpeq_usps", [.opmask, .xmm, .op], 0, .leaf (.avxK (.a 0) (.a 1) (.a 2) (fl [T_0F, T_EW0, T_YMM, T_SAE_Z, T_MUST_EVEX, T_B32]) 0xC2 (.c 0x18))⟩,
  ⟨2059, n!"vcmpeq_ussd", [.opmask, .xmm, .op], 0, .leaf (.avxK (.a 0) (.a 1) (.a 2) (fl [T_N8, T_F2, T_0F, T_EW1, T_SAE_Z, T_MUST_EVEX]) 0xC2 (.c 0x18))⟩,
  ⟨2060, n!"vcmpeq_usss", [.opmask, .xmm, .op], 0, .leaf (.avxK (.a 0) (.a 1) (.a 2) (fl [T_N4, T_F3, T_0F, T_EW0, T_SAE_Z, T_MUST_EVEX]) 0xC2 (.c 0x18))⟩,
  ⟨2061, n!"vcmpeqpd", [.opmask, .xmm, .op], 0, .leaf (.avxK (.a 0) (.a 1) (.a 2) (fl [T_66, T_0F, T_EW1, T_YMM, T_SAE_Z, T_MUST_EVEX, T_B64]) 0xC2 (.c 0x00))⟩,
  ⟨2062, n!"vcmpeqps", [.opmask, .xmm, .op], 0, .leaf (.avxK (.a 0) (.a 1) (.a 2) (fl [T_0F, T_EW0, T_YMM, T_SAE_Z, T_MUST_EVEX, T_B32]) 0xC2 (.c 0x00))⟩,
  ⟨2063, n!"vcmpeqsd", [.opmask, .xmm, .op], 0, .leaf (.avxK (.a 0) (.a 1) (.a 2) (fl [T_N8, T_F2, T_0F, T_EW1, T_SAE_Z, T_MUST_EVEX]) 0xC2 (.c 0x00))⟩,
  ⟨2064, n!"vcmpeqss", [.opmask, .xmm, .op], 0, .leaf (.avxK (.a 0) (.a 1) (.a 2) (fl [T_N4, T_F3, T_0F, T_EW0, T_SAE_Z, T_MUST_EVEX]) 0xC2 (.c 0x00))⟩,
  ⟨2065, n!"vcmpfalse_ospd", [.opmask, .xmm, .op], 0, .leaf (.avxK (.a 0) (.a 1) (.a 2) (fl [T_66, T_0F, T_EW1, T_YMM, T_SAE_Z, T_MUST_EVEX, T_B64]) 0xC2 (.c 0x1B))⟩,
  ⟨2066, n!"vcmpfalse_osps", [.opmask, .xmm, .op], 0, .leaf (.avxK (.a 0) (.a 1) (.a 2) (fl [T_0F, T_EW0, T_YMM, T_SAE_Z, T_MUST_EVEX, T_B32]) 0xC2 (.c 0x1B))⟩,
  ⟨2067, n!"vcmpfalse_ossd", [.opmask, .xmm, .op], 0, .leaf (.avxK (.a 0) (.a 1) (.a 2) (fl [T_N8, T_F2, T_0F, T_EW1, T_SAE_Z, T_MUST_EVEX]) 0xC2 (.c 0x1B))⟩,
  ⟨2068, n!"vcmpfalse_osss", [.opmask, .xmm, .op], 0, .leaf (.avxK (.a 0) (.a 1) (.a 2) (fl [T_N4, T_F3, T_0F, T_EW0, T_SAE_Z, T_MUST_EVEX]) 0xC2 (.c 0x1B))⟩]

end Mn
end Xbyak
