import Verif.Mnemonic.Basic
/-! Mnemonic table, `xbyak_mnemonic.h` lines 2069-2408.  Each entry cites its line; an alias (a line calling another mnemonic) has the
body of the function it calls, with the arguments substituted. -/
namespace Xbyak
namespace Mn
open E

/-- `xbyak_mnemonic.h` 2069-2408 -/
def t07 : List Entry := [
  ⟨2069, n!"vcmpfalsepd", [.opmask, .xmm, .op], 0, .leaf (.avxK (.a 0) (.a 1) (.a 2) (fl [T_66, T_0F, T_EW1, T_YMM, T_SAE_Z, T_MUST_EVEX, T_B64]) 0xC2 (.c 0x0B))⟩,
  ⟨2070, n!"vcmpfalseps", [.opmask, .xmm, .op], 0, .leaf (.avxK (.a 0) (.a 1) (.a 2) (fl [T_0F, T_EW0, T_YMM, T_SAE_Z, T_MUST_EVEX, T_B32]) 0xC2 (.c 0x0B))⟩,
  ⟨2071, n!"vcmpfalsesd", [.opmask, .xmm, .op], 0, .leaf (.avxK (.a 0) (.a 1) (.a 2) (fl [T_N8, T_F2, T_0F, T_EW1, T_SAE_Z, T_MUST_EVEX]) 0xC2 (.c 0x0B))⟩,
  ⟨2072, n!"vcmpfalsess", [.opmask, .xmm, .op], 0, .leaf (.avxK (.a 0) (.a 1) (.a 2) (fl [T_N4, T_F3, T_0F, T_EW0, T_SAE_Z, T_MUST_EVEX]) 0xC2 (.c 0x0B))⟩,
  ⟨2073, n!"vcmpge_oqpd", [.opmask, .xmm, .op], 0, .leaf (.avxK (.a 0) (.a 1) (.a 2) (fl [T_66, T_0F, T_EW1, T_YMM, T_SAE_Z, T_MUST_EVEX, T_B64]) 0xC2 (.c 0x1D))⟩,
  ⟨2074, n!"vcmpge_oqps", [.opmask, .xmm, .op], 0, .leaf (.avxK (.a 0) (.a 1) (.a 2) (fl [T_0F, T_EW0, T_YMM, T_SAE_Z, T_MUST_EVEX, T_B32]) 0xC2 (.c 0x1D))⟩,
  ⟨2075, n!"vcmpge_oqsd", [.opmask, .xmm, .op], 0, .leaf (.avxK (.a 0) (.a 1) (.a 2) (fl [T_N8, T_F2, T_0F, T_EW1, T_SAE_Z, T_MUST_EVEX]) 0xC2 (.c 0x1D))⟩,
  ⟨2076, n!"vcmpge_oqss", [.opmask, .xmm, .op], 0, .leaf (.avxK (.a 0) (.a 1) (.a 2) (fl [T_N4, T_F3, T_0F, T_EW0, T_SAE_Z, T_MUST_EVEX]) 0xC2 (.c 0x1D))⟩,
  ⟨2077, n!"vcmpgepd", [.opmask, .xmm, .op], 0, .leaf (.avxK (.a 0) (.a 1) (.a 2) (fl [T_66, T_0F, T_EW1, T_YMM, T_SAE_Z, T_MUST_EVEX, T_B64]) 0xC2 (.c 0x0D))⟩,
  ⟨2078, n!"vcmpgeps", [.opmask, .xmm, .op], 0, .leaf (.avxK (.a 0) (.a 1) (.a 2) (fl [T_0F, T_EW0, T_YMM, T_SAE_Z, T_MUST_EVEX, T_B32]) 0xC2 (.c 0x0D))⟩,
  ⟨2079, n!"vcmpgesd", [.opmask, .xmm, .op], 0, .leaf (.avxK (.a 0) (.a 1) (.a 2) (fl [T_N8, T_F2, T_0F, T_EW1, T_SAE_Z, T_MUST_EVEX]) 0xC2 (.c 0x0D))⟩,
  ⟨2080, n!"vcmpgess", [.opmask, .xmm, .op], 0, .leaf (.avxK (.a 0) (.a 1) (.a 2) (fl [T_N4, T_F3, T_0F, T_EW0, T_SAE_Z, T_MUST_EVEX]) 0xC2 (.c 0x0D))⟩,
  ⟨2081, n!"vcmpgt_oqpd", [.opmask, .xmm, .op], 0, .leaf (.avxK (.a 0) (.a 1) (.a 2) (fl [T_66, T_0F, T_EW1, T_YMM, T_SAE_Z, T_MUST_EVEX, T_B64]) 0xC2 (.c 0x1E))⟩,
  ⟨2082, n!"vcmpgt_oqps", [.opmask, .xmm, .op], 0, .leaf (.avxK (.a 0) (.a 1) (.a 2) (fl [T_0F, T_EW0, T_YMM, T_SAE_Z, T_MUST_EVEX, T_B32]) 0xC2 (.c 0x1E))⟩,
  ⟨2083, n!"vcmpgt_oqsd", [.opmask, .xmm, .op], 0, .leaf (.avxK (.a 0) (.a 1) (.a 2) (fl [T_N8, T_F2, T_0F, T_EW1, T_SAE_Z, T_MUST_EVEX]) 0xC2 (.c 0x1E))⟩,
  ⟨2084, n!"vcmpgt_oqss", [.opmask, .xmm, .op], 0, .leaf (.avxK (.a 0) (.a 1) (.a 2) (fl [T_N4, T_F3, T_0F, T_EW0, T_SAE_Z, T_MUST_EVEX]) 0xC2 (.c 0x1E))⟩,
  ⟨2085, n!"vcmpgtpd", [.opmask, .xmm, .op], 0, .leaf (.avxK (.a 0) (.a 1) (.a 2) (fl [T_66, T_0F, T_EW1, T_YMM, T_SAE_Z, T_MUST_EVEX, T_B64]) 0xC2 (.c 0x0E))⟩,
  ⟨2086, n!"vcmpgtps", [.opmask, .xmm, .op], 0, .leaf (.avxK (.a 0) (.a 1) (.a 2) (fl [T_0F, T_EW0, T_YMM, T_SAE_Z, T_MUST_EVEX, T_B32]) 0xC2 (.c 0x0E))⟩,
  ⟨2087, n!"vcmpgtsd", [.opmask, .xmm, .op], 0, .leaf (.avxK (.a 0) (.a 1) (.a 2) (fl [T_N8, T_F2, T_0F, T_EW1, T_SAE_Z, T_MUST_EVEX]) 0xC2 (.c 0x0E))⟩,
  ⟨2088, n!"vcmpgtss", [.opmask, .xmm, .op], 0, .leaf (.avxK (.a 0) (.a 1) (.a 2) (fl [T_N4, T_F3, T_0F, T_EW0, T_SAE_Z, T_MUST_EVEX]) 0xC2 (.c 0x0E))⟩,
  ⟨2089, n!"vcmple_oqpd", [.opmask, .xmm, .op], 0, .leaf (.avxK (.a 0) (.a 1) (.a 2) (fl [T_66, T_0F, T_EW1, T_YMM, T_SAE_Z, T_MUST_EVEX, T_B64]) 0xC2 (.c 0x12))⟩,
  ⟨2090, n!"vcmple_oqps", [.opmask, .xmm, .op], 0, .leaf (.avxK (.a 0) (.a 1) (.a 2) (fl [T_0F, T_EW0, T_YMM, T_SAE_Z, T_MUST_EVEX, T_B32]) 0xC2 (.c 0x12))⟩,
  ⟨2091, n!"vcmple_oqsd", [.opmask, .xmm, .op], 0, .leaf (.avxK (.a 0) (.a 1) (.a 2) (fl [T_N8, T_F2, T_0F, T_EW1, T_SAE_Z, T_MUST_EVEX]) 0xC2 (.c 0x12))⟩,
  ⟨2092, n!"vcmple_oqss", [.opmask, .xmm, .op], 0, .leaf (.avxK (.a 0) (.a 1) (.a 2) (fl [T_N4, T_F3, T_0F, T_EW0, T_SAE_Z, T_MUST_EVEX]) 0xC2 (.c 0x12))⟩,
  ⟨2093, n!"vcmplepd", [.opmask, .xmm, .op], 0, .leaf (.avxK (.a 0) (.a 1) (.a 2) (fl [T_66, T_0F, T_EW1, T_YMM, T_SAE_Z, T_MUST_EVEX, T_B64]) 0xC2 (.c 0x02))⟩,
  ⟨2094, n!"vcmpleps", [.opmask, .xmm, .op], 0, .leaf (.avxK (.a 0) (.a 1) (.a 2) (fl [T_0F, T_EW0, T_YMM, T_SAE_Z, T_MUST_EVEX, T_B32]) 0xC2 (.c 0x02))⟩,
  ⟨2095, n!"vcmplesd", [.opmask, .xmm, .op], 0, .leaf (.avxK (.a 0) (.a 1) (.a 2) (fl [T_N8, T_F2, T_0F, T_EW1, T_SAE_Z, T_MUST_EVEX]) 0xC2 (.c 0x02))⟩,
  ⟨2096, n!"vcmpless", [.opmask, .xmm, .op], 0, .leaf (.avxK (.a 0) (.a 1) (.a 2) (fl [T_N4, T_F3, T_0F, T_EW0, T_SAE_Z, T_MUST_EVEX]) 0xC2 (.c 0x02))⟩,
  ⟨2097, n!"vcmplt_oqpd", [.opmask, .xmm, .op], 0, .leaf (.avxK (.a 0) (.a 1) (.a 2) (fl [T_66, T_0F, T_EW1, T_YMM, T_SAE_Z, T_MUST_EVEX, T_B64]) 0xC2 (.c 0x11))⟩,
  ⟨2098, n!"vcmplt_oqps", [.opmask, .xmm, .op], 0, .leaf (.avxK (.a 0) (.a 1) (.a 2) (fl [T_0F, T_EW0, T_YMM, T_SAE_Z, T_MUST_EVEX, T_B32]) 0xC2 (.c 0x11))⟩,
  ⟨2099, n!"vcmplt_oqsd", [.opmask, .xmm, .op], 0, .leaf (.avxK (.a 0) (.a 1) (.a 2) (fl [T_N8, T_F2, T_0F, T_EW1, T_SAE_Z, T_MUST_EVEX]) 0xC2 (.c 0x11))⟩,
  ⟨2100, n!"vcmplt_oqss", [.opmask, .xmm, .op], 0, .leaf (.avxK (.a 0) (.a 1) (.a 2) (fl [T_N4, T_F3, T_0F, T_EW0, T_SAE_Z, T_MUST_EVEX]) 0xC2 (.c 0x11))⟩,
  ⟨2101, n!"vcmpltpd", [.opmask, .xmm, .op], 0, .leaf (.avxK (.a 0) (.a 1) (.a 2) (fl [T_66, T_0F, T_EW1, T_YMM, T_SAE_Z, T_MUST_EVEX, T_B64]) 0xC2 (.c 0x01))⟩,
  ⟨2102, n!"vcmpltps", [.opmask, .xmm, .op], 0, .leaf (.avxK (.a 0) (.a 1) (.a 2) (fl [T_0F, T_EW0, T_YMM, T_SAE_Z, T_MUST_EVEX, T_B32]) 0xC2 (.c 0x01))⟩,
  ⟨2103, n!"vcmpltsd", [.opmask, .xmm, .op], 0, .leaf (.avxK (.a 0) (.a 1) (.a 2) (fl [T_N8, T_F2, T_0F, T_EW1, T_SAE_Z, T_MUST_EVEX]) 0xC2 (.c 0x01))⟩,
  ⟨2104, n!"vcmpltss", [.opmask, .xmm, .op], 0, .leaf (.avxK (.a 0) (.a 1) (.a 2) (fl [T_N4, T_F3, T_0F, T_EW0, T_SAE_Z, T_MUST_EVEX]) 0xC2 (.c 0x01))⟩,
  ⟨2105, n!"vcmpneq_oqpd", [.opmask, .xmm, .op], 0, .leaf (.avxK (.a 0) (.a 1) (.a 2) (fl [T_66, T_0F, T_EW1, T_YMM, T_SAE_Z, T_MUST_EVEX, T_B64]) 0xC2 (.c 0x0C))⟩,
  ⟨2106, n!"vcmpneq_oqps", [.opmask, .xmm, .op], 0, .leaf (.avxK (.a 0) (.a 1) (.a 2) (fl [T_0F, T_EW0, T_YMM, T_SAE_Z, T_MUST_EVEX, T_B32]) 0xC2 (.c 0x0C))⟩,
  ⟨2107, n!"vcmpneq_oqsd", [.opmask, .xmm, .op], 0, .leaf (.avxK (.a 0) (.a 1) (.a 2) (fl [T_N8, T_F2, T_0F, T_EW1, T_SAE_Z, T_MUST_EVEX]) 0xC2 (.c 0x0C))⟩,
  ⟨2108, n!"vcmpneq_oqss", [.opmask, .xmm, .op], 0, .leaf (.avxK (.a 0) (.a 1) (.a 2) (fl [T_N4, T_F3, T_0F, T_EW0, T_SAE_Z, T_MUST_EVEX]) 0xC2 (.c 0x0C))⟩,
  ⟨2109, n!"vcmpneq_ospd", [.opmask, .xmm, .op], 0, .leaf (.avxK (.a 0) (.a 1) (.a 2) (fl [T_66, T_0F, T_EW1, T_YMM, T_SAE_Z, T_MUST_EVEX, T_B64]) 0xC2 (.c 0x1C))⟩,
  ⟨2110, n!"vcmpneq_osps", [.opmask, .xmm, .op], 0, .leaf (.avxK (.a 0) (.a 1) (.a 2) (fl [T_0F, T_EW0, T_YMM, T_SAE_Z, T_MUST_EVEX, T_B32]) 0xC2 (.c 0x1C))⟩,
  ⟨2111, n!"vcmpneq_ossd", [.opmask, .xmm, .op], 0, .leaf (.avxK (.a 0) (.a 1) (.a 2) (fl [T_N8, T_F2, T_0F, T_EW1, T_SAE_Z, T_MUST_EVEX]) 0xC2 (.c 0x1C))⟩,
  ⟨2112, n!"vcmpneq_osss", [.opmask, .xmm, .op], 0, .leaf (.avxK (.a 0) (.a 1) (.a 2) (fl [T_N4, T_F3, T_0F, T_EW0, T_SAE_Z, T_MUST_EVEX]) 0xC2 (.c 0x1C))⟩,
  ⟨2113, n!"vcmpneq_uspd", [.opmask, .xmm, .op], 0, .leaf (.avxK (.a 0) (.a 1) (.a 2) (fl [T_66, T_0F, T_EW1, T_YMM, T_SAE_Z, T_MUST_EVEX, T_B64]) 0xC2 (.c 0x14))⟩,
  ⟨2114, n!"vcmpneq_usps", [.opmask, .xmm, .op], 0, .leaf (.avxK (.a 0) (.a 1) (.a 2) (fl [T_0F, T_EW0, T_YMM, T_SAE_Z, T_MUST_EVEX, T_B32]) 0xC2 (.c 0x14))⟩,
  ⟨2115, n!"vcmpneq_ussd", [.opmask, .xmm, .op], 0, .leaf (.avxK (.a 0) (.a 1) (.a 2) (fl [T_N8, T_F2, T_0F, T_EW1, T_SAE_Z, T_MUST_EVEX]) 0xC2 (.c 0x14))⟩,
  ⟨2116, n!"vcmpneq_usss", [.opmask, .xmm, .op], 0, .leaf (.avxK (.a 0) (.a 1) (.a 2) (fl [T_N4, T_F3, T_0F, T_EW0, T_SAE_Z, T_MUST_EVEX]) 0xC2 (.c 0x14))⟩,
  ⟨2117, n!"vcmpneqpd", [.opmask, .xmm, .op], 0, .leaf (.avxK (.a 0) (.a 1) (.a 2) (fl [T_66, T_0F, T_EW1, T_YMM, T_SAE_Z, T_MUST_EVEX, T_B64]) 0xC2 (.c 0x04))⟩,
  ⟨2118, n!"vcmpneqps", [.opmask, .xmm, .op], 0, .leaf (.avxK (.a 0) (.a 1) (.a 2) (fl [T_0F, T_EW0, T_YMM, T_SAE_Z, T_MUST_EVEX, T_B32]) 0xC2 (.c 0x04))⟩,
  ⟨2119, n!"vcmpneqsd", [.opmask, .xmm, .op], 0, .leaf (.avxK (.a 0) (.a 1) (.a 2) (fl [T_N8, T_F2, T_0F, T_EW1, T_SAE_Z, T_MUST_EVEX]) 0xC2 (.c 0x04))⟩,
  ⟨2120, n!"vcmpneqss", [.opmask, .xmm, .op], 0, .leaf (.avxK (.a 0) (.a 1) (.a 2) (fl [T_N4, T_F3, T_0F, T_EW0, T_SAE_Z, T_MUST_EVEX]) 0xC2 (.c 0x04))⟩,
  ⟨2121, n!"vcmpnge_uqpd", [.opmask, .xmm, .op], 0, .leaf (.avxK (.a 0) (.a 1) (.a 2) (fl [T_66, T_0F, T_EW1, T_YMM, T_SAE_Z, T_MUST_EVEX, T_B64]) 0xC2 (.c 0x19))⟩,
  ⟨2122, n!"vcmpnge_uqps", [.opmask, .xmm, .op], 0, .leaf (.avxK (.a 0) (.a 1) (.a 2) (fl [T_0F, T_EW0, T_YMM, T_SAE_Z, T_MUST_EVEX, T_B32]) 0xC2 (.c 0x19))⟩,
  ⟨2123, n!"vcmpnge_uqsd", [.opmask, .xmm, .op], 0, .leaf (.avxK (.a 0) (.a 1) (.a 2) (fl [T_N8, T_F2, T_0F, T_EW1, T_SAE_Z, T_MUST_EVEX]) 0xC2 (.c 0x19))⟩,
  ⟨2124, n!"vcmpnge_uqss", [.opmask, .xmm, .op], 0, .leaf (.avxK (.a 0) (.a 1) (.a 2) (fl [T_N4, T_F3, T_0F, T_EW0, T_SAE_Z, T_MUST_EVEX]) 0xC2 (.c 0x19))⟩,
  ⟨2125, n!"vcmpngepd", [.opmask, .xmm, .op], 0, .leaf (.avxK (.a 0) (.a 1) (.a 2) (fl [T_66, T_0F, T_EW1, T_YMM, T_SAE_Z, T_MUST_EVEX, T_B64]) 0xC2 (.c 0x09))⟩,
  ⟨2126, n!"vcmpngeps", [.opmask, .xmm, .op], 0, .leaf (.avxK (.a 0) (.a 1) (.a 2) (fl [T_0F, T_EW0, T_YMM, T_SAE_Z, T_MUST_EVEX, T_B32]) 0xC2 (.c 0x09))⟩,
  ⟨2127, n!"vcmpngesd", [.opmask, .xmm, .op], 0, .leaf (.avxK (.a 0) (.a 1) (.a 2) (fl [T_N8, T_F2, T_0F, T_EW1, T_SAE_Z, T_MUST_EVEX]) 0xC2 (.c 0x09))⟩,
  ⟨2128, n!"vcmpngess", [.opmask, .xmm, .op], 0, .leaf (.avxK (.a 0) (.a 1) (.a 2) (fl [T_N4, T_F3, T_0F, T_EW0, T_SAE_Z, T_MUST_EVEX]) 0xC2 (.c 0x09))⟩,
  ⟨2129, n!"vcmpngt_uqpd", [.opmask, .xmm, .op], 0, .leaf (.avxK (.a 0) (.a 1) (.a 2) (fl [T_66, T_0F, T_EW1, T_YMM, T_SAE_Z, T_MUST_EVEX, T_B64]) 0xC2 (.c 0x1A))⟩,
  ⟨2130, n!"vcmpngt_uqps", [.opmask, .xmm, .op], 0, .leaf (.avxK (.a 0) (.a 1) (.a 2) (fl [T_0F, T_EW0, T_YMM, T_SAE_Z, T_MUST_EVEX, T_B32]) 0xC2 (.c 0x1A))⟩,
  ⟨2131, n!"vcmpngt_uqsd", [.opmask, .xmm, .op], 0, .leaf (.avxK (.a 0) (.a 1) (.a 2) (fl [T_N8, T_F2, T_0F, T_EW1, T_SAE_Z, T_MUST_EVEX]) 0xC2 (.c 0x1A))⟩,
  ⟨2132, n!"vcmpngt_uqss", [.opmask, .xmm, .op], 0, .leaf (.avxK (.a 0) (.a 1) (.a 2) (fl [T_N4, T_F3, T_0F, T_EW0, T_SAE_Z, T_MUST_EVEX]) 0xC2 (.c 0x1A))⟩,
  ⟨2133, n!"vcmpngtpd", [.opmask, .xmm, .op], 0, .leaf (.avxK (.a 0) (.a 1) (.a 2) (fl [T_66, T_0F, T_EW1, T_YMM, T_SAE_Z, T_MUST_EVEX, T_B64]) 0xC2 (.c 0x0A))⟩,
  ⟨2134, n!"vcmpngtps", [.opmask, .xmm, .op], 0, .leaf (.avxK (.a 0) (.a 1) (.a 2) (fl [T_0F, T_EW0, T_YMM, T_SAE_Z, T_MUST_EVEX, T_B32]) 0xC2 (.c 0x0A))⟩,
  ⟨2135, n!"vcmpngtsd", [.opmask, .xmm, .op], 0, .leaf (.avxK (.a 0) (.a 1) (.a 2) (fl [T_N8, T_F2, T_0F, T_EW1, T_SAE_Z, T_MUST_EVEX]) 0xC2 (.c 0x0A))⟩,
  ⟨2136, n!"vcmpngtss", [.opmask, .xmm, .op], 0, .leaf (.avxK (.a 0) (.a 1) (.a 2) (fl [T_N4, T_F3, T_0F, T_EW0, T_SAE_Z, T_MUST_EVEX]) 0xC2 (.c 0x0A))⟩,
  ⟨2137, n!"vcmpnle_uqpd", [.opmask, .xmm, .op], 0, .leaf (.avxK (.a 0) (.a 1) (.a 2) (fl [T_66, T_0F, T_EW1, T_YMM, T_SAE_Z, T_MUST_EVEX, T_B64]) 0xC2 (.c 0x16))⟩,
  ⟨2138, n!"vcmpnle_uqps", [.opmask, .xmm, .op], 0, .leaf (.avxK (.a 0) (.a 1) (.a 2) (fl [T_0F, T_EW0, T_YMM, T_SAE_Z, T_MUST_EVEX, T_B32]) 0xC2 (.c 0x16))⟩,
  ⟨2139, n!"vcmpnle_uqsd", [.opmask, .xmm, .op], 0, .leaf (.avxK (.a 0) (.a 1) (.a 2) (fl [T_N8, T_F2, T_0F, T_EW1, T_SAE_Z, T_MUST_EVEX]) 0xC2 (.c 0x16))⟩,
  ⟨2140, n!"vcmpnle_uqss", [.opmask, .xmm, .op], 0, .leaf (.avxK (.a 0) (.a 1) (.a 2) (fl [T_N4, T_F3, T_0F, T_EW0, T_SAE_Z, T_MUST_EVEX]) 0xC2 (.c 0x16))⟩,
  ⟨2141, n!"vcmpnlepd", [.opmask, .xmm, .op], 0, .leaf (.avxK (.a 0) (.a 1) (.a 2) (fl [T_66, T_0F, T_EW1, T_YMM, T_SAE_Z, T_MUST_EVEX, T_B64]) 0xC2 (.c 0x06))⟩,
  ⟨2142, n!"vcmpnleps", [.opmask, .xmm, .op], 0, .leaf (.avxK (.a 0) (.a 1) (.a 2) (fl [T_0F, T_EW0, T_YMM, T_SAE_Z, T_MUST_EVEX, T_B32]) 0xC2 (.c 0x06))⟩,
  ⟨2143, n!"vcmpnlesd", [.opmask, .xmm, .op], 0, .leaf (.avxK (.a 0) (.a 1) (.a 2) (fl [T_N8, T_F2, T_0F, T_EW1, T_SAE_Z, T_MUST_EVEX]) 0xC2 (.c 0x06))⟩,
  ⟨2144, n!"vcmpnless", [.opmask, .xmm, .op], 0, .leaf (.avxK (.a 0) (.a 1) (.a 2) (fl [T_N4, T_F3, T_0F, T_EW0, T_SAE_Z, T_MUST_EVEX]) 0xC2 (.c 0x06))⟩,
  ⟨2145, n!"vcmpnlt_uqpd", [.opmask, .xmm, .op], 0, .leaf (.avxK (.a 0) (.a 1) (.a 2) (fl [T_66, T_0F, T_EW1, T_YMM, T_SAE_Z, T_MUST_EVEX, T_B64]) 0xC2 (.c 0x15))⟩,
  ⟨2146, n!"vcmpnlt_uqps", [.opmask, .xmm, .op], 0, .leaf (.avxK (.a 0) (.a 1) (.a 2) (fl [T_0F, T_EW0, T_YMM, T_SAE_Z, T_MUST_EVEX, T_B32]) 0xC2 (.c 0x15))⟩,
  ⟨2147, n!"vcmpnlt_uqsd", [.opmask, .xmm, .op], 0, .leaf (.avxK (.a 0) (.a 1) (.a 2) (fl [T_N8, T_F2, T_0F, T_EW1, T_SAE_Z, T_MUST_EVEX]) 0xC2 (.c 0x15))⟩,
  ⟨2148, n!"vcmpnlt_uqss", [.opmask, .xmm, .op], 0, .leaf (.avxK (.a 0) (.a 1) (.a 2) (fl [T_N4, T_F3, T_0F, T_EW0, T_SAE_Z, T_MUST_EVEX]) 0xC2 (.c 0x15))⟩,
  ⟨2149, n!"vcmpnltpd", [.opmask, .xmm, .op], 0, .leaf (.avxK (.a 0) (.a 1) (.a 2) (fl [T_66, T_0F, T_EW1, T_YMM, T_SAE_Z, T_MUST_EVEX, T_B64]) 0xC2 (.c 0x05))⟩,
  ⟨2150, n!"vcmpnltps", [.opmask, .xmm, .op], 0, .leaf (.avxK (.a 0) (.a 1) (.a 2) (fl [T_0F, T_EW0, T_YMM, T_SAE_Z, T_MUST_EVEX, T_B32]) 0xC2 (.c 0x05))⟩,
  ⟨2151, n!"vcmpnltsd", [.opmask, .xmm, .op], 0, .leaf (.avxK (.a 0) (.a 1) (.a 2) (fl [T_N8, T_F2, T_0F, T_EW1, T_SAE_Z, T_MUST_EVEX]) 0xC2 (.c 0x05))⟩,
  ⟨2152, n!"vcmpnltss", [.opmask, .xmm, .op], 0, .leaf (.avxK (.a 0) (.a 1) (.a 2) (fl [T_N4, T_F3, T_0F, T_EW0, T_SAE_Z, T_MUST_EVEX]) 0xC2 (.c 0x05))⟩,
  ⟨2153, n!"vcmpord_spd", [.opmask, .xmm, .op], 0, .leaf (.avxK (.a 0) (.a 1) (.a 2) (fl [T_66, T_0F, T_EW1, T_YMM, T_SAE_Z, T_MUST_EVEX, T_B64]) 0xC2 (.c 0x17))⟩,
  ⟨2154, n!"vcmpord_sps", [.opmask, .xmm, .op], 0, .leaf (.avxK (.a 0) (.a 1) (.a 2) (fl [T_0F, T_EW0, T_YMM, T_SAE_Z, T_MUST_EVEX, T_B32]) 0xC2 (.c 0x17))⟩,
  ⟨2155, n!"vcmpord_ssd", [.opmask, .xmm, .op], 0, .leaf (.avxK (.a 0) (.a 1) (.a 2) (fl [T_N8, T_F2, T_0F, T_EW1, T_SAE_Z, T_MUST_EVEX]) 0xC2 (.c 0x17))⟩,
  ⟨2156, n!"vcmpord_sss", [.opmask, .xmm, .op], 0, .leaf (.avxK (.a 0) (.a 1) (.a 2) (fl [T_N4, T_F3, T_0F, T_EW0, T_SAE_Z, T_MUST_EVEX]) 0xC2 (.c 0x17))⟩,
  ⟨2157, n!"vcmpordpd", [.opmask, .xmm, .op], 0, .leaf (.avxK (.a 0) (.a 1) (.a 2) (fl [T_66, T_0F, T_EW1, T_YMM, T_SAE_Z, T_MUST_EVEX, T_B64]) 0xC2 (.c 0x07))⟩,
  ⟨2158, n!"vcmpordps", [.opmask, .xmm, .op], 0, .leaf (.avxK (.a 0) (.a 1) (.a 2) (fl [T_0F, T_EW0, T_YMM, T_SAE_Z, T_MUST_EVEX, T_B32]) 0xC2 (.c 0x07))⟩,
  ⟨2159, n!"vcmpordsd", [.opmask, .xmm, .op], 0, .leaf (.avxK (.a 0) (.a 1) (.a 2) (fl [T_N8, T_F2, T_0F, T_EW1, T_SAE_Z, T_MUST_EVEX]) 0xC2 (.c 0x07))⟩,
  ⟨2160, n!"vcmpordss", [.opmask, .xmm, .op], 0, .leaf (.avxK (.a 0) (.a 1) (.a 2) (fl [T_N4, T_F3, T_0F, T_EW0, T_SAE_Z, T_MUST_EVEX]) 0xC2 (.c 0x07))⟩,
  ⟨2161, n!"vcmppbf16", [.opmask, .xmm, .op, .int], 0, .leaf (.vex (.a 0) (some (.a 1)) (.a 2) (fl [T_MUST_EVEX, T_F2, T_0F3A, T_EW0, T_YMM, T_B16]) 0xC2 (.i 0))⟩,
  ⟨2162, n!"vcmppd", [.opmask, .xmm, .op, .int], 0, .leaf (.avxK (.a 0) (.a 1) (.a 2) (fl [T_66, T_0F, T_EW1, T_YMM, T_SAE_Z, T_MUST_EVEX, T_B64]) 0xC2 (.i 0))⟩,
  ⟨2163, n!"vcmpph", [.opmask, .xmm, .op, .int], 0, .leaf (.avxK (.a 0) (.a 1) (.a 2) (fl [T_0F3A, T_EW0, T_YMM, T_SAE_Z, T_MUST_EVEX, T_B16]) 0xC2 (.i 0))⟩,
  ⟨2164, n!"vcmpps", [.opmask, .xmm, .op, .int], 0, .leaf (.avxK (.a 0) (.a 1) (.a 2) (fl [T_0F, T_EW0, T_YMM, T_SAE_Z, T_MUST_EVEX, T_B32]) 0xC2 (.i 0))⟩,
  ⟨2165, n!"vcmpsd", [.opmask, .xmm, .op, .int], 0, .leaf (.avxK (.a 0) (.a 1) (.a 2) (fl [T_N8, T_F2, T_0F, T_EW1, T_SAE_Z, T_MUST_EVEX]) 0xC2 (.i 0))⟩,
  ⟨2166, n!"vcmpsh", [.opmask, .xmm, .op, .int], 0, .leaf (.avxK (.a 0) (.a 1) (.a 2) (fl [T_N2, T_F3, T_0F3A, T_EW0, T_SAE_X, T_MUST_EVEX]) 0xC2 (.i 0))⟩,
  ⟨2167, n!"vcmpss", [.opmask, .xmm, .op, .int], 0, .leaf (.avxK (.a 0) (.a 1) (.a 2) (fl [T_N4, T_F3, T_0F, T_EW0, T_SAE_Z, T_MUST_EVEX]) 0xC2 (.i 0))⟩,
  ⟨2168, n!"vcmptrue_uspd", [.opmask, .xmm, .op], 0, .leaf (.avxK (.a 0) (.a 1) (.a 2) (fl [T_66, T_0F, T_EW1, T_YMM, T_SAE_Z, T_MUST_EVEX, T_B64]) 0xC2 (.c 0x1F))⟩,
  ⟨2169, n!"vcmptrue_usps", [.opmask, .xmm, .op], 0, .leaf (.avxK (.a 0) (.a 1) (.a 2) (fl [T_0F, T_EW0, T_YMM, T_SAE_Z, T_MUST_EVEX, T_B32]) 0xC2 (.c 0x1F))⟩,
  ⟨2170, n!"vcmptrue_ussd", [.opmask, .xmm, .op], 0, .leaf (.avxK (.a 0) (.a 1) (.a 2) (fl [T_N8, T_F2, T_0F, T_EW1, T_SAE_Z, T_MUST_EVEX]) 0xC2 (.c 0x1F))⟩,
  ⟨2171, n!"vcmptrue_usss", [.opmask, .xmm, .op], 0, .leaf (.avxK (.a 0) (.a 1) (.a 2) (fl [T_N4, T_F3, T_0F, T_EW0, T_SAE_Z, T_MUST_EVEX]) 0xC2 (.c 0x1F))⟩,
  ⟨2172, n!"vcmptruepd", [.opmask, .xmm, .op], 0, .leaf (.avxK (.a 0) (.a 1) (.a 2) (fl [T_66, T_0F, T_EW1, T_YMM, T_SAE_Z, T_MUST_EVEX, T_B64]) 0xC2 (.c 0x0F))⟩,
  ⟨2173, n!"vcmptrueps", [.opmask, .xmm, .op], 0, .leaf (.avxK (.a 0) (.a 1) (.a 2) (fl [T_0F, T_EW0, T_YMM, T_SAE_Z, T_MUST_EVEX, T_B32]) 0xC2 (.c 0x0F))⟩,
  ⟨2174, n!"vcmptruesd", [.opmask, .xmm, .op], 0, .leaf (.avxK (.a 0) (.a 1) (.a 2) (fl [T_N8, T_F2, T_0F, T_EW1, T_SAE_Z, T_MUST_EVEX]) 0xC2 (.c 0x0F))⟩,
  ⟨2175, n!"vcmptruess", [.opmask, .xmm, .op], 0, .leaf (.avxK (.a 0) (.a 1) (.a 2) (fl [T_N4, T_F3, T_0F, T_EW0, T_SAE_Z, T_MUST_EVEX]) 0xC2 (.c 0x0F))⟩,
  ⟨2176, n!"vcmpunord_spd", [.opmask, .xmm, .op], 0, .leaf (.avxK (.a 0) (.a 1) (.a 2) (fl [T_66, T_0F, T_EW1, T_YMM, T_SAE_Z, T_MUST_EVEX, T_B64]) 0xC2 (.c 0x13))⟩,
  ⟨2177, n!"vcmpunord_sps", [.opmask, .xmm, .op], 0, .leaf (.avxK (.a 0) (.a 1) (.a 2) (fl [T_0F, T_EW0, T_YMM, T_SAE_Z, T_MUST_EVEX, T_B32]) 0xC2 (.c 0x13))⟩,
  ⟨2178, n!"vcmpunord_ssd", [.opmask, .xmm, .op], 0, .leaf (.avxK (.a 0) (.a 1) (.a 2) (fl [T_N8, T_F2, T_0F, T_EW1, T_SAE_Z, T_MUST_EVEX]) 0xC2 (.c 0x13))⟩,
  ⟨2179, n!"vcmpunord_sss", [.opmask, .xmm, .op], 0, .leaf (.avxK (.a 0) (.a 1) (.a 2) (fl [T_N4, T_F3, T_0F, T_EW0, T_SAE_Z, T_MUST_EVEX]) 0xC2 (.c 0x13))⟩,
  ⟨2180, n!"vcmpunordpd", [.opmask, .xmm, .op], 0, .leaf (.avxK (.a 0) (.a 1) (.a 2) (fl [T_66, T_0F, T_EW1, T_YMM, T_SAE_Z, T_MUST_EVEX, T_B64]) 0xC2 (.c 0x03))⟩,
  ⟨2181, n!"vcmpunordps", [.opmask, .xmm, .op], 0, .leaf (.avxK (.a 0) (.a 1) (.a 2) (fl [T_0F, T_EW0, T_YMM, T_SAE_Z, T_MUST_EVEX, T_B32]) 0xC2 (.c 0x03))⟩,
  ⟨2182, n!"vcmpunordsd", [.opmask, .xmm, .op], 0, .leaf (.avxK (.a 0) (.a 1) (.a 2) (fl [T_N8, T_F2, T_0F, T_EW1, T_SAE_Z, T_MUST_EVEX]) 0xC2 (.c 0x03))⟩,
  ⟨2183, n!"vcmpunordss", [.opmask, .xmm, .op], 0, .leaf (.avxK (.a 0) (.a 1) (.a 2) (fl [T_N4, T_F3, T_0F, T_EW0, T_SAE_Z, T_MUST_EVEX]) 0xC2 (.c 0x03))⟩,
  ⟨2184, n!"vcomish", [.xmm, .op], 0, .leaf (.avx2 (.a 0) (.a 1) (fl [T_N2, T_MAP5, T_EW0, T_SAE_X, T_MUST_EVEX]) 0x2F .none)⟩,
  ⟨2185, n!"vcompresspd", [.op, .xmm], 0, .leaf (.avx2 (.a 1) (.a 0) (fl [T_N8, T_66, T_0F38, T_EW1, T_YMM, T_MUST_EVEX]) 0x8A .none)⟩,
  ⟨2186, n!"vcompressps", [.op, .xmm], 0, .leaf (.avx2 (.a 1) (.a 0) (fl [T_N4, T_66, T_0F38, T_EW0, T_YMM, T_MUST_EVEX]) 0x8A .none)⟩,
  ⟨2187, n!"vcomsbf16", [.xmm, .op], 0, .leaf (.avx2 (.a 0) (.a 1) (fl [T_N2, T_66, T_MAP5, T_EW0, T_MUST_EVEX]) 0x2F .none)⟩,
  ⟨2188, n!"vcomxsd", [.xmm, .op], 0, .leaf (.avx2 (.a 0) (.a 1) (fl [T_N8, T_F2, T_0F, T_EW1, T_SAE_X, T_MUST_EVEX]) 0x2F .none)⟩,
  ⟨2189, n!"vcomxsh", [.xmm, .op], 0, .leaf (.avx2 (.a 0) (.a 1) (fl [T_N2, T_F3, T_MAP5, T_EW0, T_SAE_X, T_MUST_EVEX]) 0x2F .none)⟩,
  ⟨2190, n!"vcomxss", [.xmm, .op], 0, .leaf (.avx2 (.a 0) (.a 1) (fl [T_N4, T_F3, T_0F, T_EW0, T_SAE_X, T_MUST_EVEX]) 0x2F .none)⟩,
  ⟨2191, n!"vcvt2ps2phx", [.xmm, .xmm, .op], 0, .leaf (.avx3 (.a 0) (.a 1) (.a 2) (fl [T_66, T_0F38, T_EW0, T_YMM, T_ER_Y, T_ER_Z, T_MUST_EVEX, T_B32]) 0x67 .none)⟩,
  ⟨2192, n!"vcvtbiasph2bf8", [.xmm, .xmm, .op], 0, .leaf (.cvt6 (.a 0) (.a 1) (.a 2) (fl [T_0F38, T_EW0, T_YMM, T_MUST_EVEX, T_B16]) 0x74)⟩,
  ⟨2193, n!"vcvtbiasph2bf8s", [.xmm, .xmm, .op], 0, .leaf (.cvt6 (.a 0) (.a 1) (.a 2) (fl [T_MAP5, T_EW0, T_YMM, T_MUST_EVEX, T_B16]) 0x74)⟩,
  ⟨2194, n!"vcvtbiasph2hf8", [.xmm, .xmm, .op], 0, .leaf (.cvt6 (.a 0) (.a 1) (.a 2) (fl [T_MAP5, T_EW0, T_YMM, T_MUST_EVEX, T_B16]) 0x18)⟩,
  ⟨2195, n!"vcvtbiasph2hf8s", [.xmm, .xmm, .op], 0, .leaf (.cvt6 (.a 0) (.a 1) (.a 2) (fl [T_MAP5, T_EW0, T_YMM, T_MUST_EVEX, T_B16]) 0x1B)⟩,
  ⟨2196, n!"vcvtdq2ph", [.xmm, .op], 0, .check .cvt4 (.a 0) (.a 1) (.leaf (.cvt (.a 0) (.a 1) (fl [T_N16, T_N_VL, T_MAP5, T_EW0, T_YMM, T_ER_Z, T_MUST_EVEX, T_B32]) 0x5B))⟩,
  ⟨2197, n!"vcvthf82ph", [.xmm, .op], 0, .check .cvt1 (.a 0) (.a 1) (.leaf (.vex (.a 0) none (.a 1) (fl [T_MUST_EVEX, T_F2, T_MAP5, T_EW0, T_YMM, T_N1]) 0x1E .none))⟩,
  ⟨2198, n!"vcvtne2ph2bf8", [.xmm, .xmm, .op], 0, .leaf (.avx3 (.a 0) (.a 1) (.a 2) (fl [T_N1, T_F2, T_0F38, T_EW0, T_YMM, T_MUST_EVEX, T_B16]) 0x74 .none)⟩,
  ⟨2199, n!"vcvtne2ph2bf8s", [.xmm, .xmm, .op], 0, .leaf (.avx3 (.a 0) (.a 1) (.a 2) (fl [T_N1, T_F2, T_MAP5, T_EW0, T_YMM, T_MUST_EVEX, T_B16]) 0x74 .none)⟩,
  ⟨2200, n!"vcvtne2ph2hf8", [.xmm, .xmm, .op], 0, .leaf (.avx3 (.a 0) (.a 1) (.a 2) (fl [T_N1, T_F2, T_MAP5, T_EW0, T_YMM, T_MUST_EVEX, T_B16]) 0x18 .none)⟩,
  ⟨2201, n!"vcvtne2ph2hf8s", [.xmm, .xmm, .op], 0, .leaf (.avx3 (.a 0) (.a 1) (.a 2) (fl [T_N1, T_F2, T_MAP5, T_EW0, T_YMM, T_MUST_EVEX, T_B16]) 0x1B .none)⟩,
  ⟨2202, n!"vcvtne2ps2bf16", [.xmm, .xmm, .op], 0, .leaf (.avx3 (.a 0) (.a 1) (.a 2) (fl [T_F2, T_0F38, T_EW0, T_YMM, T_SAE_Z, T_MUST_EVEX, T_B32]) 0x72 .none)⟩,
  ⟨2203, n!"vcvtnebf162ibs", [.xmm, .op], 0, .leaf (.avx2 (.a 0) (.a 1) (fl [T_F2, T_MAP5, T_EW0, T_YMM, T_MUST_EVEX, T_B16]) 0x69 .none)⟩,
  ⟨2204, n!"vcvtnebf162iubs", [.xmm, .op], 0, .leaf (.avx2 (.a 0) (.a 1) (fl [T_F2, T_MAP5, T_EW0, T_YMM, T_MUST_EVEX, T_B16]) 0x6B .none)⟩,
  ⟨2205, n!"vcvtneph2bf8", [.xmm, .op], 0, .leaf (.cvt2 (.a 0) (.a 1) (fl [T_F3, T_0F38, T_EW0, T_YMM, T_MUST_EVEX, T_B16]) 0x74)⟩,
  ⟨2206, n!"vcvtneph2bf8s", [.xmm, .op], 0, .leaf (.cvt2 (.a 0) (.a 1) (fl [T_F3, T_MAP5, T_EW0, T_YMM, T_MUST_EVEX, T_B16]) 0x74)⟩,
  ⟨2207, n!"vcvtneph2hf8", [.xmm, .op], 0, .leaf (.cvt2 (.a 0) (.a 1) (fl [T_F3, T_MAP5, T_EW0, T_YMM, T_MUST_EVEX, T_B16]) 0x18)⟩,
  ⟨2208, n!"vcvtneph2hf8s", [.xmm, .op], 0, .leaf (.cvt2 (.a 0) (.a 1) (fl [T_F3, T_MAP5, T_EW0, T_YMM, T_MUST_EVEX, T_B16]) 0x1B)⟩,
  ⟨2209, n!"vcvtpd2ph", [.xmm, .op], 0, .leaf (.cvt5 (.a 0) (.a 1) (fl [T_N16, T_N_VL, T_66, T_MAP5, T_EW1, T_ER_Z, T_MUST_EVEX, T_B64]) 0x5A)⟩,
  ⟨2210, n!"vcvtpd2qq", [.xmm, .op], 0, .leaf (.avx2 (.a 0) (.a 1) (fl [T_66, T_0F, T_EW1, T_YMM, T_ER_Z, T_MUST_EVEX, T_B64]) 0x7B .none)⟩,
  ⟨2211, n!"vcvtpd2udq", [.xmm, .op], 0, .leaf (.cvt2 (.a 0) (.a 1) (fl [T_0F, T_EW1, T_YMM, T_ER_Z, T_MUST_EVEX, T_B64]) 0x79)⟩,
  ⟨2212, n!"vcvtpd2uqq", [.xmm, .op], 0, .leaf (.avx2 (.a 0) (.a 1) (fl [T_66, T_0F, T_EW1, T_YMM, T_ER_Z, T_MUST_EVEX, T_B64]) 0x79 .none)⟩,
  ⟨2213, n!"vcvtph2dq", [.xmm, .op], 0, .check .cvt1 (.a 0) (.a 1) (.leaf (.vex (.a 0) none (.a 1) (fl [T_N8, T_N_VL, T_66, T_MAP5, T_EW0, T_YMM, T_ER_Y, T_MUST_EVEX, T_B16]) 0x5B .none))⟩,
  ⟨2214, n!"vcvtph2ibs", [.xmm, .op], 0, .leaf (.avx2 (.a 0) (.a 1) (fl [T_MAP5, T_EW0, T_YMM, T_ER_Y, T_ER_Z, T_MUST_EVEX, T_B16]) 0x69 .none)⟩,
  ⟨2215, n!"vcvtph2iubs", [.xmm, .op], 0, .leaf (.avx2 (.a 0) (.a 1) (fl [T_MAP5, T_EW0, T_YMM, T_ER_Y, T_ER_Z, T_MUST_EVEX, T_B16]) 0x6B .none)⟩,
  ⟨2216, n!"vcvtph2pd", [.xmm, .op], 0, .guard (fun g => !((g.reg 1).isXMM) && !((g.op 1).isMEM)) .BAD_MEM_SIZE (.leaf (.vex (.a 0) none (.a 1) (fl [T_N4, T_N_VL, T_MAP5, T_EW0, T_YMM, T_SAE_X, T_MUST_EVEX, T_B16]) 0x5A .none))⟩,
  ⟨2217, n!"vcvtph2psx", [.xmm, .op], 0, .check .cvt1 (.a 0) (.a 1) (.leaf (.vex (.a 0) none (.a 1) (fl [T_N8, T_N_VL, T_66, T_MAP6, T_EW0, T_YMM, T_SAE_Y, T_MUST_EVEX, T_B16]) 0x13 .none))⟩,
  ⟨2218, n!"vcvtph2qq", [.xmm, .op], 0, .guard (fun g => !((g.reg 1).isXMM) && !((g.op 1).isMEM)) .BAD_MEM_SIZE (.leaf (.vex (.a 0) none (.a 1) (fl [T_N4, T_N_VL, T_66, T_MAP5, T_EW0, T_YMM, T_ER_X, T_MUST_EVEX, T_B16]) 0x7B .none))⟩,
  ⟨2219, n!"vcvtph2udq", [.xmm, .op], 0, .check .cvt1 (.a 0) (.a 1) (.leaf (.vex (.a 0) none (.a 1) (fl [T_N8, T_N_VL, T_MAP5, T_EW0, T_YMM, T_ER_Y, T_MUST_EVEX, T_B16]) 0x79 .none))⟩,
  ⟨2220, n!"vcvtph2uqq", [.xmm, .op], 0, .guard (fun g => !((g.reg 1).isXMM) && !((g.op 1).isMEM)) .BAD_MEM_SIZE (.leaf (.vex (.a 0) none (.a 1) (fl [T_N4, T_N_VL, T_66, T_MAP5, T_EW0, T_YMM, T_ER_X, T_MUST_EVEX, T_B16]) 0x79 .none))⟩,
  ⟨2221, n!"vcvtph2uw", [.xmm, .op], 0, .leaf (.avx2 (.a 0) (.a 1) (fl [T_MAP5, T_EW0, T_YMM, T_ER_Z, T_MUST_EVEX, T_B16]) 0x7D .none)⟩,
  ⟨2222, n!"vcvtph2w", [.xmm, .op], 0, .leaf (.avx2 (.a 0) (.a 1) (fl [T_66, T_MAP5, T_EW0, T_YMM, T_ER_Z, T_MUST_EVEX, T_B16]) 0x7D .none)⟩,
  ⟨2223, n!"vcvtps2ibs", [.xmm, .op], 0, .leaf (.avx2 (.a 0) (.a 1) (fl [T_66, T_MAP5, T_EW0, T_YMM, T_ER_Y, T_ER_Z, T_MUST_EVEX, T_B32]) 0x69 .none)⟩,
  ⟨2224, n!"vcvtps2iubs", [.xmm, .op], 0, .leaf (.avx2 (.a 0) (.a 1) (fl [T_66, T_MAP5, T_EW0, T_YMM, T_ER_Y, T_ER_Z, T_MUST_EVEX, T_B32]) 0x6B .none)⟩,
  ⟨2225, n!"vcvtps2phx", [.xmm, .op], 0, .check .cvt4 (.a 0) (.a 1) (.leaf (.cvt (.a 0) (.a 1) (fl [T_N16, T_N_VL, T_66, T_MAP5, T_EW0, T_ER_Z, T_MUST_EVEX, T_B32]) 0x1D))⟩,
  ⟨2226, n!"vcvtps2qq", [.xmm, .op], 0, .check .cvt1 (.a 0) (.a 1) (.leaf (.vex (.a 0) none (.a 1) (fl [T_N8, T_N_VL, T_66, T_0F, T_EW0, T_YMM, T_ER_Y, T_MUST_EVEX, T_B32]) 0x7B .none))⟩,
  ⟨2227, n!"vcvtps2udq", [.xmm, .op], 0, .leaf (.avx2 (.a 0) (.a 1) (fl [T_0F, T_EW0, T_YMM, T_ER_Z, T_MUST_EVEX, T_B32]) 0x79 .none)⟩,
  ⟨2228, n!"vcvtps2uqq", [.xmm, .op], 0, .check .cvt1 (.a 0) (.a 1) (.leaf (.vex (.a 0) none (.a 1) (fl [T_N8, T_N_VL, T_66, T_0F, T_EW0, T_YMM, T_ER_Y, T_MUST_EVEX, T_B32]) 0x79 .none))⟩,
  ⟨2229, n!"vcvtqq2pd", [.xmm, .op], 0, .leaf (.avx2 (.a 0) (.a 1) (fl [T_F3, T_0F, T_EW1, T_YMM, T_ER_Z, T_MUST_EVEX, T_B64]) 0xE6 .none)⟩,
  ⟨2230, n!"vcvtqq2ph", [.xmm, .op], 0, .leaf (.cvt5 (.a 0) (.a 1) (fl [T_N16, T_N_VL, T_MAP5, T_EW1, T_ER_Z, T_MUST_EVEX, T_B64]) 0x5B)⟩,
  ⟨2231, n!"vcvtqq2ps", [.xmm, .op], 0, .leaf (.cvt2 (.a 0) (.a 1) (fl [T_0F, T_EW1, T_YMM, T_ER_Z, T_MUST_EVEX, T_B64]) 0x5B)⟩,
  ⟨2232, n!"vcvtsd2sh", [.xmm, .xmm, .op], 0, .leaf (.avx3 (.a 0) (.a 1) (.a 2) (fl [T_N8, T_F2, T_MAP5, T_EW1, T_ER_X, T_MUST_EVEX]) 0x5A .none)⟩,
  ⟨2233, n!"vcvtsd2usi", [.reg32e, .op], 0, .ite (fun g => (g.reg 0).isREG 64) (.leaf (.vex (.a 0) (some (.r (.xmm 0))) (.a 1) (fl [T_N8, T_F2, T_0F, T_ER_X, T_MUST_EVEX, T_EW1]) 0x79 .none)) (.leaf (.vex (.a 0) (some (.r (.xmm 0))) (.a 1) (fl [T_N8, T_F2, T_0F, T_ER_X, T_MUST_EVEX, T_EW0]) 0x79 .none))⟩,
  ⟨2234, n!"vcvtsh2sd", [.xmm, .xmm, .op], 0, .leaf (.avx3 (.a 0) (.a 1) (.a 2) (fl [T_N2, T_F3, T_MAP5, T_EW0, T_SAE_X, T_MUST_EVEX]) 0x5A .none)⟩,
  ⟨2235, n!"vcvtsh2si", [.reg32e, .op], 0, .ite (fun g => (g.reg 0).isREG 64) (.leaf (.vex (.a 0) (some (.r (.xmm 0))) (.a 1) (fl [T_N2, T_F3, T_MAP5, T_ER_X, T_MUST_EVEX, T_EW1]) 0x2D .none)) (.leaf (.vex (.a 0) (some (.r (.xmm 0))) (.a 1) (fl [T_N2, T_F3, T_MAP5, T_ER_X, T_MUST_EVEX, T_EW0]) 0x2D .none))⟩,
  ⟨2236, n!"vcvtsh2ss", [.xmm, .xmm, .op], 0, .leaf (.avx3 (.a 0) (.a 1) (.a 2) (fl [T_N2, T_MAP6, T_EW0, T_SAE_X, T_MUST_EVEX]) 0x13 .none)⟩,
  ⟨2237, n!"vcvtsh2usi", [.reg32e, .op], 0, .ite (fun g => (g.reg 0).isREG 64) (.leaf (.vex (.a 0) (some (.r (.xmm 0))) (.a 1) (fl [T_N2, T_F3, T_MAP5, T_ER_X, T_MUST_EVEX, T_EW1]) 0x79 .none)) (.leaf (.vex (.a 0) (some (.r (.xmm 0))) (.a 1) (fl [T_N2, T_F3, T_MAP5, T_ER_X, T_MUST_EVEX, T_EW0]) 0x79 .none))⟩,
  ⟨2238, n!"vcvtsi2sh", [.xmm, .xmm, .op], 0, .guard (fun g => !((g.reg 0).isXMM && (g.reg 1).isXMM && (g.reg 2).isBit 96)) .BAD_COMBINATION (.ite (fun g => (g.reg 2).isBit 32) (.leaf (.vex (.a 0) (some (.a 1)) (.a 2) (fl [T_F3, T_MAP5, T_ER_R, T_MUST_EVEX, T_M_K, T_EW0, T_N4]) 0x2A .none)) (.leaf (.vex (.a 0) (some (.a 1)) (.a 2) (fl [T_F3, T_MAP5, T_ER_R, T_MUST_EVEX, T_M_K, T_EW1, T_N8]) 0x2A .none)))⟩,
  ⟨2239, n!"vcvtss2sh", [.xmm, .xmm, .op], 0, .leaf (.avx3 (.a 0) (.a 1) (.a 2) (fl [T_N4, T_MAP5, T_EW0, T_ER_X, T_MUST_EVEX]) 0x1D .none)⟩,
  ⟨2240, n!"vcvtss2usi", [.reg32e, .op], 0, .ite (fun g => (g.reg 0).isREG 64) (.leaf (.vex (.a 0) (some (.r (.xmm 0))) (.a 1) (fl [T_N4, T_F3, T_0F, T_ER_X, T_MUST_EVEX, T_EW1]) 0x79 .none)) (.leaf (.vex (.a 0) (some (.r (.xmm 0))) (.a 1) (fl [T_N4, T_F3, T_0F, T_ER_X, T_MUST_EVEX, T_EW0]) 0x79 .none))⟩,
  ⟨2241, n!"vcvttnebf162ibs", [.xmm, .op], 0, .leaf (.avx2 (.a 0) (.a 1) (fl [T_F2, T_MAP5, T_EW0, T_YMM, T_MUST_EVEX, T_B16]) 0x68 .none)⟩,
  ⟨2242, n!"vcvttnebf162iubs", [.xmm, .op], 0, .leaf (.avx2 (.a 0) (.a 1) (fl [T_F2, T_MAP5, T_EW0, T_YMM, T_MUST_EVEX, T_B16]) 0x6A .none)⟩,
  ⟨2243, n!"vcvttpd2dqs", [.xmm, .op], 0, .leaf (.cvt2 (.a 0) (.a 1) (fl [T_MAP5, T_EW1, T_YMM, T_SAE_Y, T_SAE_Z, T_MUST_EVEX, T_B64]) 0x6D)⟩,
  ⟨2244, n!"vcvttpd2qq", [.xmm, .op], 0, .leaf (.avx2 (.a 0) (.a 1) (fl [T_66, T_0F, T_EW1, T_YMM, T_SAE_Z, T_MUST_EVEX, T_B64]) 0x7A .none)⟩,
  ⟨2245, n!"vcvttpd2qqs", [.xmm, .op], 0, .leaf (.avx2 (.a 0) (.a 1) (fl [T_66, T_MAP5, T_EW1, T_YMM, T_SAE_Y, T_SAE_Z, T_MUST_EVEX, T_B64]) 0x6D .none)⟩,
  ⟨2246, n!"vcvttpd2udq", [.xmm, .op], 0, .leaf (.cvt2 (.a 0) (.a 1) (fl [T_0F, T_EW1, T_YMM, T_SAE_Z, T_MUST_EVEX, T_B64]) 0x78)⟩,
  ⟨2247, n!"vcvttpd2udqs", [.xmm, .op], 0, .leaf (.cvt2 (.a 0) (.a 1) (fl [T_MAP5, T_EW1, T_YMM, T_SAE_Y, T_SAE_Z, T_MUST_EVEX, T_B64]) 0x6C)⟩,
  ⟨2248, n!"vcvttpd2uqq", [.xmm, .op], 0, .leaf (.avx2 (.a 0) (.a 1) (fl [T_66, T_0F, T_EW1, T_YMM, T_SAE_Z, T_MUST_EVEX, T_B64]) 0x78 .none)⟩,
  ⟨2249, n!"vcvttpd2uqqs", [.xmm, .op], 0, .leaf (.avx2 (.a 0) (.a 1) (fl [T_66, T_MAP5, T_EW1, T_YMM, T_SAE_Y, T_SAE_Z, T_MUST_EVEX, T_B64]) 0x6C .none)⟩,
  ⟨2250, n!"vcvttph2dq", [.xmm, .op], 0, .check .cvt1 (.a 0) (.a 1) (.leaf (.vex (.a 0) none (.a 1) (fl [T_N8, T_N_VL, T_F3, T_MAP5, T_EW0, T_YMM, T_SAE_Y, T_MUST_EVEX, T_B16]) 0x5B .none))⟩,
  ⟨2251, n!"vcvttph2ibs", [.xmm, .op], 0, .leaf (.avx2 (.a 0) (.a 1) (fl [T_MAP5, T_EW0, T_YMM, T_ER_Y, T_ER_Z, T_MUST_EVEX, T_B16]) 0x68 .none)⟩,
  ⟨2252, n!"vcvttph2iubs", [.xmm, .op], 0, .leaf (.avx2 (.a 0) (.a 1) (fl [T_MAP5, T_EW0, T_YMM, T_ER_Y, T_ER_Z, T_MUST_EVEX, T_B16]) 0x6A .none)⟩,
  ⟨2253, n!"vcvttph2qq", [.xmm, .op], 0, .guard (fun g => !((g.reg 1).isXMM) && !((g.op 1).isMEM)) .BAD_MEM_SIZE (.leaf (.vex (.a 0) none (.a 1) (fl [T_N4, T_N_VL, T_66, T_MAP5, T_EW0, T_YMM, T_SAE_X, T_MUST_EVEX, T_B16]) 0x7A .none))⟩,
  ⟨2254, n!"vcvttph2udq", [.xmm, .op], 0, .check .cvt1 (.a 0) (.a 1) (.leaf (.vex (.a 0) none (.a 1) (fl [T_N8, T_N_VL, T_MAP5, T_EW0, T_YMM, T_SAE_Y, T_MUST_EVEX, T_B16]) 0x78 .none))⟩,
  ⟨2255, n!"vcvttph2uqq", [.xmm, .op], 0, .guard (fun g => !((g.reg 1).isXMM) && !((g.op 1).isMEM)) .BAD_MEM_SIZE (.leaf (.vex (.a 0) none (.a 1) (fl [T_N4, T_N_VL, T_66, T_MAP5, T_EW0, T_YMM, T_SAE_X, T_MUST_EVEX, T_B16]) 0x78 .none))⟩,
  ⟨2256, n!"vcvttph2uw", [.xmm, .op], 0, .leaf (.avx2 (.a 0) (.a 1) (fl [T_MAP5, T_EW0, T_YMM, T_SAE_Z, T_MUST_EVEX, T_B16]) 0x7C .none)⟩,
  ⟨2257, n!"vcvttph2w", [.xmm, .op], 0, .leaf (.avx2 (.a 0) (.a 1) (fl [T_66, T_MAP5, T_EW0, T_YMM, T_SAE_Z, T_MUST_EVEX, T_B16]) 0x7C .none)⟩,
  ⟨2258, n!"vcvttps2dqs", [.xmm, .op], 0, .leaf (.avx2 (.a 0) (.a 1) (fl [T_MAP5, T_EW0, T_YMM, T_SAE_Y, T_SAE_Z, T_MUST_EVEX, T_B32]) 0x6D .none)⟩,
  ⟨2259, n!"vcvttps2ibs", [.xmm, .op], 0, .leaf (.avx2 (.a 0) (.a 1) (fl [T_66, T_MAP5, T_EW0, T_YMM, T_ER_Y, T_ER_Z, T_MUST_EVEX, T_B32]) 0x68 .none)⟩,
  ⟨2260, n!"vcvttps2iubs", [.xmm, .op], 0, .leaf (.avx2 (.a 0) (.a 1) (fl [T_66, T_MAP5, T_EW0, T_YMM, T_ER_Y, T_ER_Z, T_MUST_EVEX, T_B32]) 0x6A .none)⟩,
  ⟨2261, n!"vcvttps2qq", [.xmm, .op], 0, .check .cvt1 (.a 0) (.a 1) (.leaf (.vex (.a 0) none (.a 1) (fl [T_N8, T_N_VL, T_66, T_0F, T_EW0, T_YMM, T_SAE_Y, T_MUST_EVEX, T_B32]) 0x7A .none))⟩,
  ⟨2262, n!"vcvttps2qqs", [.xmm, .op], 0, .check .cvt1 (.a 0) (.a 1) (.leaf (.vex (.a 0) none (.a 1) (fl [T_N8, T_N_VL, T_66, T_MAP5, T_EW0, T_YMM, T_SAE_X, T_SAE_Y, T_MUST_EVEX, T_B32]) 0x6D .none))⟩,
  ⟨2263, n!"vcvttps2udq", [.xmm, .op], 0, .leaf (.avx2 (.a 0) (.a 1) (fl [T_0F, T_EW0, T_YMM, T_SAE_Z, T_MUST_EVEX, T_B32]) 0x78 .none)⟩,
  ⟨2264, n!"vcvttps2udqs", [.xmm, .op], 0, .leaf (.avx2 (.a 0) (.a 1) (fl [T_MAP5, T_EW0, T_YMM, T_SAE_Y, T_SAE_Z, T_MUST_EVEX, T_B32]) 0x6C .none)⟩,
  ⟨2265, n!"vcvttps2uqq", [.xmm, .op], 0, .check .cvt1 (.a 0) (.a 1) (.leaf (.vex (.a 0) none (.a 1) (fl [T_N8, T_N_VL, T_66, T_0F, T_EW0, T_YMM, T_SAE_Y, T_MUST_EVEX, T_B32]) 0x78 .none))⟩,
  ⟨2266, n!"vcvttps2uqqs", [.xmm, .op], 0, .check .cvt1 (.a 0) (.a 1) (.leaf (.vex (.a 0) none (.a 1) (fl [T_N8, T_N_VL, T_66, T_MAP5, T_EW0, T_YMM, T_SAE_X, T_SAE_Y, T_MUST_EVEX, T_B32]) 0x6C .none))⟩,
  ⟨2267, n!"vcvttsd2sis", [.reg32e, .op], 0, .ite (fun g => (g.reg 0).isREG 64) (.leaf (.vex (.a 0) (some (.r (.xmm 0))) (.a 1) (fl [T_N8, T_F2, T_MAP5, T_EW0, T_SAE_X, T_MUST_EVEX, T_EW1]) 0x6D .none)) (.leaf (.vex (.a 0) (some (.r (.xmm 0))) (.a 1) (fl [T_N8, T_F2, T_MAP5, T_EW0, T_SAE_X, T_MUST_EVEX, T_EW0]) 0x6D .none))⟩,
  ⟨2268, n!"vcvttsd2usi", [.reg32e, .op], 0, .ite (fun g => (g.reg 0).isREG 64) (.leaf (.vex (.a 0) (some (.r (.xmm 0))) (.a 1) (fl [T_N8, T_F2, T_0F, T_SAE_X, T_MUST_EVEX, T_EW1]) 0x78 .none)) (.leaf (.vex (.a 0) (some (.r (.xmm 0))) (.a 1) (fl [T_N8, T_F2, T_0F, T_SAE_X, T_MUST_EVEX, T_EW0]) 0x78 .none))⟩,
  ⟨2269, n!"vcvttsd2usis", [.reg32e, .op], 0, .ite (fun g => (g.reg 0).isREG 64) (.leaf (.vex (.a 0) (some (.r (.xmm 0))) (.a 1) (fl [T_N8, T_F2, T_MAP5, T_EW0, T_SAE_X, T_MUST_EVEX, T_EW1]) 0x6C .none)) (.leaf (.vex (.a 0) (some (.r (.xmm 0))) (.a 1) (fl [T_N8, T_F2, T_MAP5, T_EW0, T_SAE_X, T_MUST_EVEX, T_EW0]) 0x6C .none))⟩,
  ⟨2270, n!"vcvttsh2si", [.reg32e, .op], 0, .ite (fun g => (g.reg 0).isREG 64) (.leaf (.vex (.a 0) (some (.r (.xmm 0))) (.a 1) (fl [T_N2, T_F3, T_MAP5, T_EW0, T_SAE_X, T_MUST_EVEX, T_EW1]) 0x2C .none)) (.leaf (.vex (.a 0) (some (.r (.xmm 0))) (.a 1) (fl [T_N2, T_F3, T_MAP5, T_EW0, T_SAE_X, T_MUST_EVEX, T_EW0]) 0x2C .none))⟩,
  ⟨2271, n!"vcvttsh2usi", [.reg32e, .op], 0, .ite (fun g => (g.reg 0).isREG 64) (.leaf (.vex (.a 0) (some (.r (.xmm 0))) (.a 1) (fl [T_N2, T_F3, T_MAP5, T_EW0, T_SAE_X, T_MUST_EVEX, T_EW1]) 0x78 .none)) (.leaf (.vex (.a 0) (some (.r (.xmm 0))) (.a 1) (fl [T_N2, T_F3, T_MAP5, T_EW0, T_SAE_X, T_MUST_EVEX, T_EW0]) 0x78 .none))⟩,
  ⟨2272, n!"vcvttss2sis", [.reg32e, .op], 0, .ite (fun g => (g.reg 0).isREG 64) (.leaf (.vex (.a 0) (some (.r (.xmm 0))) (.a 1) (fl [T_N4, T_F3, T_MAP5, T_EW0, T_SAE_X, T_MUST_EVEX, T_EW1]) 0x6D .none)) (.leaf (.vex (.a 0) (some (.r (.xmm 0))) (.a 1) (fl [T_N4, T_F3, T_MAP5, T_EW0, T_SAE_X, T_MUST_EVEX, T_EW0]) 0x6D .none))⟩,
  ⟨2273, n!"vcvttss2usi", [.reg32e, .op], 0, .ite (fun g => (g.reg 0).isREG 64) (.leaf (.vex (.a 0) (some (.r (.xmm 0))) (.a 1) (fl [T_N4, T_F3, T_0F, T_SAE_X, T_MUST_EVEX, T_EW1]) 0x78 .none)) (.leaf (.vex (.a 0) (some (.r (.xmm 0))) (.a 1) (fl [T_N4, T_F3, T_0F, T_SAE_X, T_MUST_EVEX, T_EW0]) 0x78 .none))⟩,
  ⟨2274, n!"vcvttss2usis", [.reg32e, .op], 0, .ite (fun g => (g.reg 0).isREG 64) (.leaf (.vex (.a 0) (some (.r (.xmm 0))) (.a 1) (fl [T_N4, T_F3, T_MAP5, T_EW0, T_SAE_X, T_MUST_EVEX, T_EW1]) 0x6C .none)) (.leaf (.vex (.a 0) (some (.r (.xmm 0))) (.a 1) (fl [T_N4, T_F3, T_MAP5, T_EW0, T_SAE_X, T_MUST_EVEX, T_EW0]) 0x6C .none))⟩,
  ⟨2275, n!"vcvtudq2pd", [.xmm, .op], 0, .check .cvt1 (.a 0) (.a 1) (.leaf (.vex (.a 0) none (.a 1) (fl [T_N8, T_N_VL, T_F3, T_0F, T_EW0, T_YMM, T_MUST_EVEX, T_B32]) 0x7A .none))⟩,
  ⟨2276, n!"vcvtudq2ph", [.xmm, .op], 0, .check .cvt4 (.a 0) (.a 1) (.leaf (.cvt (.a 0) (.a 1) (fl [T_N16, T_N_VL, T_F2, T_MAP5, T_EW0, T_ER_Z, T_MUST_EVEX, T_B32]) 0x7A))⟩,
  ⟨2277, n!"vcvtudq2ps", [.xmm, .op], 0, .leaf (.avx2 (.a 0) (.a 1) (fl [T_F2, T_0F, T_EW0, T_YMM, T_ER_Z, T_MUST_EVEX, T_B32]) 0x7A .none)⟩,
  ⟨2278, n!"vcvtuqq2pd", [.xmm, .op], 0, .leaf (.avx2 (.a 0) (.a 1) (fl [T_F3, T_0F, T_EW1, T_YMM, T_ER_Z, T_MUST_EVEX, T_B64]) 0x7A .none)⟩,
  ⟨2279, n!"vcvtuqq2ph", [.xmm, .op], 0, .leaf (.cvt5 (.a 0) (.a 1) (fl [T_N16, T_N_VL, T_F2, T_MAP5, T_EW1, T_ER_Z, T_MUST_EVEX, T_B64]) 0x7A)⟩,
  ⟨2280, n!"vcvtuqq2ps", [.xmm, .op], 0, .leaf (.cvt2 (.a 0) (.a 1) (fl [T_F2, T_0F, T_EW1, T_YMM, T_ER_Z, T_MUST_EVEX, T_B64]) 0x7A)⟩,
  ⟨2281, n!"vcvtusi2sd", [.xmm, .xmm, .op], 0, .leaf (.cvt3 (.a 0) (.a 1) (.a 2) (fl [T_F2, T_0F, T_MUST_EVEX]) (fl [T_W1, T_EW1, T_ER_X, T_N8]) (fl [T_W0, T_EW0, T_N4]) 0x7B)⟩,
  ⟨2282, n!"vcvtusi2sh", [.xmm, .xmm, .op], 0, .guard (fun g => !((g.reg 0).isXMM && (g.reg 1).isXMM && (g.reg 2).isBit 96)) .BAD_COMBINATION (.ite (fun g => (g.reg 2).isBit 32) (.leaf (.vex (.a 0) (some (.a 1)) (.a 2) (fl [T_F3, T_MAP5, T_ER_R, T_MUST_EVEX, T_M_K, T_EW0, T_N4]) 0x7B .none)) (.leaf (.vex (.a 0) (some (.a 1)) (.a 2) (fl [T_F3, T_MAP5, T_ER_R, T_MUST_EVEX, T_M_K, T_EW1, T_N8]) 0x7B .none)))⟩,
  ⟨2283, n!"vcvtusi2ss", [.xmm, .xmm, .op], 0, .leaf (.cvt3 (.a 0) (.a 1) (.a 2) (fl [T_F3, T_0F, T_MUST_EVEX, T_ER_X]) (fl [T_W1, T_EW1, T_N8]) (fl [T_W0, T_EW0, T_N4]) 0x7B)⟩,
  ⟨2284, n!"vcvtuw2ph", [.xmm, .op], 0, .leaf (.avx2 (.a 0) (.a 1) (fl [T_F2, T_MAP5, T_EW0, T_YMM, T_ER_Z, T_MUST_EVEX, T_B16]) 0x7D .none)⟩,
  ⟨2285, n!"vcvtw2ph", [.xmm, .op], 0, .leaf (.avx2 (.a 0) (.a 1) (fl [T_F3, T_MAP5, T_EW0, T_YMM, T_ER_Z, T_MUST_EVEX, T_B16]) 0x7D .none)⟩,
  ⟨2286, n!"vdbpsadbw", [.xmm, .xmm, .op, .int], 0, .leaf (.avx3 (.a 0) (.a 1) (.a 2) (fl [T_66, T_0F3A, T_EW0, T_YMM, T_MUST_EVEX]) 0x42 (.i 0))⟩,
  ⟨2287, n!"vdivnepbf16", [.xmm, .xmm, .op], 0, .leaf (.avx3 (.a 0) (.a 1) (.a 2) (fl [T_66, T_MAP5, T_EW0, T_YMM, T_MUST_EVEX, T_B16]) 0x5E .none)⟩,
  ⟨2288, n!"vdivph", [.xmm, .op, .op], 1, .leaf (.avx3 (.a 0) (.a 1) (.a 2) (fl [T_MAP5, T_EW0, T_YMM, T_MUST_EVEX, T_ER_Z, T_B16]) 0x5E .none)⟩,
  ⟨2289, n!"vdivsh", [.xmm, .op, .op], 1, .leaf (.avx3 (.a 0) (.a 1) (.a 2) (fl [T_MAP5, T_F3, T_EW0, T_MUST_EVEX, T_ER_X, T_N2]) 0x5E .none)⟩,
  ⟨2290, n!"vdpbf16ps", [.xmm, .xmm, .op], 0, .leaf (.avx3 (.a 0) (.a 1) (.a 2) (fl [T_F3, T_0F38, T_EW0, T_YMM, T_SAE_Z, T_MUST_EVEX, T_B32]) 0x52 .none)⟩,
  ⟨2291, n!"vdpphps", [.xmm, .xmm, .op], 0, .leaf (.avx3 (.a 0) (.a 1) (.a 2) (fl [T_0F38, T_EW0, T_YMM, T_MUST_EVEX, T_B32]) 0x52 .none)⟩,
  ⟨2292, n!"vexp2pd", [.zmm, .op], 0, .leaf (.avx2 (.a 0) (.a 1) (fl [T_66, T_0F38, T_MUST_EVEX, T_YMM, T_EW1, T_B64, T_SAE_Z]) 0xC8 .none)⟩,
  ⟨2293, n!"vexp2ps", [.zmm, .op], 0, .leaf (.avx2 (.a 0) (.a 1) (fl [T_66, T_0F38, T_MUST_EVEX, T_YMM, T_EW0, T_B32, T_SAE_Z]) 0xC8 .none)⟩,
  ⟨2294, n!"vexpandpd", [.xmm, .op], 0, .leaf (.avx2 (.a 0) (.a 1) (fl [T_N8, T_66, T_0F38, T_EW1, T_YMM, T_MUST_EVEX]) 0x88 .none)⟩,
  ⟨2295, n!"vexpandps", [.xmm, .op], 0, .leaf (.avx2 (.a 0) (.a 1) (fl [T_N4, T_66, T_0F38, T_EW0, T_YMM, T_MUST_EVEX]) 0x88 .none)⟩,
  ⟨2296, n!"vextractf32x4", [.op, .ymm, .int], 0, .guard (fun g => !((g.op 0).isMEM || (g.reg 0).isXMM)) .BAD_COMBINATION (.leaf (.vex (.a 1) none (.a 0) (fl [T_N16, T_66, T_0F3A, T_EW0, T_YMM, T_MUST_EVEX]) 0x19 (.i 0)))⟩,
  ⟨2297, n!"vextractf32x8", [.op, .zmm, .int], 0, .guard (fun g => !((g.op 0).isMEM || (g.reg 0).isYMM)) .BAD_COMBINATION (.leaf (.vex (.a 1) none (.a 0) (fl [T_N32, T_66, T_0F3A, T_EW0, T_YMM, T_MUST_EVEX]) 0x1B (.i 0)))⟩,
  ⟨2298, n!"vextractf64x2", [.op, .ymm, .int], 0, .guard (fun g => !((g.op 0).isMEM || (g.reg 0).isXMM)) .BAD_COMBINATION (.leaf (.vex (.a 1) none (.a 0) (fl [T_N16, T_66, T_0F3A, T_EW1, T_YMM, T_MUST_EVEX]) 0x19 (.i 0)))⟩,
  ⟨2299, n!"vextractf64x4", [.op, .zmm, .int], 0, .guard (fun g => !((g.op 0).isMEM || (g.reg 0).isYMM)) .BAD_COMBINATION (.leaf (.vex (.a 1) none (.a 0) (fl [T_N32, T_66, T_0F3A, T_EW1, T_YMM, T_MUST_EVEX]) 0x1B (.i 0)))⟩,
  ⟨2300, n!"vextracti32x4", [.op, .ymm, .int], 0, .guard (fun g => !((g.op 0).isMEM || (g.reg 0).isXMM)) .BAD_COMBINATION (.leaf (.vex (.a 1) none (.a 0) (fl [T_N16, T_66, T_0F3A, T_EW0, T_YMM, T_MUST_EVEX]) 0x39 (.i 0)))⟩,
  ⟨2301, n!"vextracti32x8", [.op, .zmm, .int], 0, .guard (fun g => !((g.op 0).isMEM || (g.reg 0).isYMM)) .BAD_COMBINATION (.leaf (.vex (.a 1) none (.a 0) (fl [T_N32, T_66, T_0F3A, T_EW0, T_YMM, T_MUST_EVEX]) 0x3B (.i 0)))⟩,
  ⟨2302, n!"vextracti64x2", [.op, .ymm, .int], 0, .guard (fun g => !((g.op 0).isMEM || (g.reg 0).isXMM)) .BAD_COMBINATION (.leaf (.vex (.a 1) none (.a 0) (fl [T_N16, T_66, T_0F3A, T_EW1, T_YMM, T_MUST_EVEX]) 0x39 (.i 0)))⟩,
  ⟨2303, n!"vextracti64x4", [.op, .zmm, .int], 0, .guard (fun g => !((g.op 0).isMEM || (g.reg 0).isYMM)) .BAD_COMBINATION (.leaf (.vex (.a 1) none (.a 0) (fl [T_N32, T_66, T_0F3A, T_EW1, T_YMM, T_MUST_EVEX]) 0x3B (.i 0)))⟩,
  ⟨2304, n!"vfcmaddcph", [.xmm, .xmm, .op], 0, .leaf (.avx3 (.a 0) (.a 1) (.a 2) (fl [T_F2, T_MAP6, T_EW0, T_YMM, T_ER_Z, T_MUST_EVEX, T_B32]) 0x56 .none)⟩,
  ⟨2305, n!"vfcmulcph", [.xmm, .xmm, .op], 0, .leaf (.avx3 (.a 0) (.a 1) (.a 2) (fl [T_F2, T_MAP6, T_EW0, T_YMM, T_ER_Z, T_MUST_EVEX, T_B32]) 0xD6 .none)⟩,
  ⟨2306, n!"vfixupimmpd", [.xmm, .xmm, .op, .int], 0, .leaf (.avx3 (.a 0) (.a 1) (.a 2) (fl [T_66, T_0F3A, T_EW1, T_YMM, T_SAE_Z, T_MUST_EVEX, T_B64]) 0x54 (.i 0))⟩,
  ⟨2307, n!"vfixupimmps", [.xmm, .xmm, .op, .int], 0, .leaf (.avx3 (.a 0) (.a 1) (.a 2) (fl [T_66, T_0F3A, T_EW0, T_YMM, T_SAE_Z, T_MUST_EVEX, T_B32]) 0x54 (.i 0))⟩,
  ⟨2308, n!"vfixupimmsd", [.xmm, .xmm, .op, .int], 0, .leaf (.avx3 (.a 0) (.a 1) (.a 2) (fl [T_N8, T_66, T_0F3A, T_EW1, T_SAE_Z, T_MUST_EVEX]) 0x55 (.i 0))⟩,
  ⟨2309, n!"vfixupimmss", [.xmm, .xmm, .op, .int], 0, .leaf (.avx3 (.a 0) (.a 1) (.a 2) (fl [T_N4, T_66, T_0F3A, T_EW0, T_SAE_Z, T_MUST_EVEX]) 0x55 (.i 0))⟩,
  ⟨2310, n!"vfmadd132nepbf16", [.xmm, .xmm, .op], 0, .leaf (.avx3 (.a 0) (.a 1) (.a 2) (fl [T_MAP6, T_EW0, T_YMM, T_MUST_EVEX, T_B16]) 0x98 .none)⟩,
  ⟨2311, n!"vfmadd132ph", [.xmm, .xmm, .op], 0, .leaf (.avx3 (.a 0) (.a 1) (.a 2) (fl [T_66, T_MAP6, T_EW0, T_YMM, T_ER_Z, T_MUST_EVEX, T_B16]) 0x98 .none)⟩,
  ⟨2312, n!"vfmadd132sh", [.xmm, .xmm, .op], 0, .leaf (.avx3 (.a 0) (.a 1) (.a 2) (fl [T_N2, T_66, T_MAP6, T_EW0, T_ER_X, T_MUST_EVEX]) 0x99 .none)⟩,
  ⟨2313, n!"vfmadd213nepbf16", [.xmm, .xmm, .op], 0, .leaf (.avx3 (.a 0) (.a 1) (.a 2) (fl [T_MAP6, T_EW0, T_YMM, T_MUST_EVEX, T_B16]) 0xA8 .none)⟩,
  ⟨2314, n!"vfmadd213ph", [.xmm, .xmm, .op], 0, .leaf (.avx3 (.a 0) (.a 1) (.a 2) (fl [T_66, T_MAP6, T_EW0, T_YMM, T_ER_Z, T_MUST_EVEX, T_B16]) 0xA8 .none)⟩,
  ⟨2315, n!"vfmadd213sh", [.xmm, .xmm, .op], 0, .leaf (.avx3 (.a 0) (.a 1) (.a 2) (fl [T_N2, T_66, T_MAP6, T_EW0, T_ER_X, T_MUST_EVEX]) 0xA9 .none)⟩,
  ⟨2316, n!"vfmadd231nepbf16", [.xmm, .xmm, .op], 0, .leaf (.avx3 (.a 0) (.a 1) (.a 2) (fl [T_MAP6, T_EW0, T_YMM, T_MUST_EVEX, T_B16]) 0xB8 .none)⟩,
  ⟨2317, n!"vfmadd231ph", [.xmm, .xmm, .op], 0, .leaf (.avx3 (.a 0) (.a 1) (.a 2) (fl [T_66, T_MAP6, T_EW0, T_YMM, T_ER_Z, T_MUST_EVEX, T_B16]) 0xB8 .none)⟩,
  ⟨2318, n!"vfmadd231sh", [.xmm, .xmm, .op], 0, .leaf (.avx3 (.a 0) (.a 1) (.a 2) (fl [T_N2, T_66, T_MAP6, T_EW0, T_ER_X, T_MUST_EVEX]) 0xB9 .none)⟩,
  ⟨2319, n!"vfmaddcph", [.xmm, .xmm, .op], 0, .leaf (.avx3 (.a 0) (.a 1) (.a 2) (fl [T_F3, T_MAP6, T_EW0, T_YMM, T_ER_Z, T_MUST_EVEX, T_B32]) 0x56 .none)⟩,
  ⟨2320, n!"vfmaddsub132ph", [.xmm, .xmm, .op], 0, .leaf (.avx3 (.a 0) (.a 1) (.a 2) (fl [T_66, T_MAP6, T_EW0, T_YMM, T_ER_Z, T_MUST_EVEX, T_B16]) 0x96 .none)⟩,
  ⟨2321, n!"vfmaddsub213ph", [.xmm, .xmm, .op], 0, .leaf (.avx3 (.a 0) (.a 1) (.a 2) (fl [T_66, T_MAP6, T_EW0, T_YMM, T_ER_Z, T_MUST_EVEX, T_B16]) 0xA6 .none)⟩,
  ⟨2322, n!"vfmaddsub231ph", [.xmm, .xmm, .op], 0, .leaf (.avx3 (.a 0) (.a 1) (.a 2) (fl [T_66, T_MAP6, T_EW0, T_YMM, T_ER_Z, T_MUST_EVEX, T_B16]) 0xB6 .none)⟩,
  ⟨2323, n!"vfmsub132nepbf16", [.xmm, .xmm, .op], 0, .leaf (.avx3 (.a 0) (.a 1) (.a 2) (fl [T_MAP6, T_EW0, T_YMM, T_MUST_EVEX, T_B16]) 0x9A .none)⟩,
  ⟨2324, n!"vfmsub132ph", [.xmm, .xmm, .op], 0, .leaf (.avx3 (.a 0) (.a 1) (.a 2) (fl [T_66, T_MAP6, T_EW0, T_YMM, T_ER_Z, T_MUST_EVEX, T_B16]) 0x9A .none)⟩,
  ⟨2325, n!"vfmsub132sh", [.xmm, .xmm, .op], 0, .leaf (.avx3 (.a 0) (.a 1) (.a 2) (fl [T_N2, T_66, T_MAP6, T_EW0, T_ER_X, T_MUST_EVEX]) 0x9B .none)⟩,
  ⟨2326, n!"vfmsub213nepbf16", [.xmm, .xmm, .op], 0, .leaf (.avx3 (.a 0) (.a 1) (.a 2) (fl [T_MAP6, T_EW0, T_YMM, T_MUST_EVEX, T_B16]) 0xAA .none)⟩,
  ⟨2327, n!"vfmsub213ph", [.xmm, .xmm, .op], 0, .leaf (.avx3 (.a 0) (.a 1) (.a 2) (fl [T_66, T_MAP6, T_EW0, T_YMM, T_ER_Z, T_MUST_EVEX, T_B16]) 0xAA .none)⟩,
  ⟨2328, n!"vfmsub213sh", [.xmm, .xmm, .op], 0, .leaf (.avx3 (.a 0) (.a 1) (.a 2) (fl [T_N2, T_66, T_MAP6, T_EW0, T_ER_X, T_MUST_EVEX]) 0xAB .none)⟩,
  ⟨2329, n!"vfmsub231nepbf16", [.xmm, .xmm, .op], 0, .leaf (.avx3 (.a 0) (.a 1) (.a 2) (fl [T_MAP6, T_EW0, T_YMM, T_MUST_EVEX, T_B16]) 0xBA .none)⟩,
  ⟨2330, n!"vfmsub231ph", [.xmm, .xmm, .op], 0, .leaf (.avx3 (.a 0) (.a 1) (.a 2) (fl [T_66, T_MAP6, T_EW0, T_YMM, T_ER_Z, T_MUST_EVEX, T_B16]) 0xBA .none)⟩,
  ⟨2331, n!"vfmsub231sh", [.xmm, .xmm, .op], 0, .leaf (.avx3 (.a 0) (.a 1) (.a 2) (fl [T_N2, T_66, T_MAP6, T_EW0, T_ER_X, T_MUST_EVEX]) 0xBB .none)⟩,
  ⟨2332, n!"vfmsubadd132ph", [.xmm, .xmm, .op], 0, .leaf (.avx3 (.a 0) (.a 1) (.a 2) (fl [T_66, T_MAP6, T_EW0, T_YMM, T_ER_Z, T_MUST_EVEX, T_B16]) 0x97 .none)⟩,
  ⟨2333, n!"vfmsubadd213ph", [.xmm, .xmm, .op], 0, .leaf (.avx3 (.a 0) (.a 1) (.a 2) (fl [T_66, T_MAP6, T_EW0, T_YMM, T_ER_Z, T_MUST_EVEX, T_B16]) 0xA7 .none)⟩,
  ⟨2334, n!"vfmsubadd231ph", [.xmm, .xmm, .op], 0, .leaf (.avx3 (.a 0) (.a 1) (.a 2) (fl [T_66, T_MAP6, T_EW0, T_YMM, T_ER_Z, T_MUST_EVEX, T_B16]) 0xB7 .none)⟩,
  ⟨2335, n!"vfmulcph", [.xmm, .xmm, .op], 0, .leaf (.avx3 (.a 0) (.a 1) (.a 2) (fl [T_F3, T_MAP6, T_EW0, T_YMM, T_ER_Z, T_MUST_EVEX, T_B32]) 0xD6 .none)⟩,
  ⟨2336, n!"vfnmadd132nepbf16", [.xmm, .xmm, .op], 0, .leaf (.avx3 (.a 0) (.a 1) (.a 2) (fl [T_MAP6, T_EW0, T_YMM, T_MUST_EVEX, T_B16]) 0x9C .none)⟩,
  ⟨2337, n!"vfnmadd132ph", [.xmm, .xmm, .op], 0, .leaf (.avx3 (.a 0) (.a 1) (.a 2) (fl [T_66, T_MAP6, T_EW0, T_YMM, T_ER_Z, T_MUST_EVEX, T_B16]) 0x9C .none)⟩,
  ⟨2338, n!"vfnmadd132sh", [.xmm, .xmm, .op], 0, .leaf (.avx3 (.a 0) (.a 1) (.a 2) (fl [T_N2, T_66, T_MAP6, T_EW0, T_ER_X, T_MUST_EVEX]) 0x9D .none)⟩,
  ⟨2339, n!"vfnmadd213nepbf16", [.xmm, .xmm, .op], 0, .leaf (.avx3 (.a 0) (.a 1) (.a 2) (fl [T_MAP6, T_EW0, T_YMM, T_MUST_EVEX, T_B16]) 0xAC .none)⟩,
  ⟨2340, n!"vfnmadd213ph", [.xmm, .xmm, .op], 0, .leaf (.avx3 (.a 0) (.a 1) (.a 2) (fl [T_66, T_MAP6, T_EW0, T_YMM, T_ER_Z, T_MUST_EVEX, T_B16]) 0xAC .none)⟩,
  ⟨2341, n!"vfnmadd213sh", [.xmm, .xmm, .op], 0, .leaf (.avx3 (.a 0) (.a 1) (.a 2) (fl [T_N2, T_66, T_MAP6, T_EW0, T_ER_X, T_MUST_EVEX]) 0xAD .none)⟩,
  ⟨2342, n!"vfnmadd231nepbf16", [.xmm, .xmm, .op], 0, .leaf (.avx3 (.a 0) (.a 1) (.a 2) (fl [T_MAP6, T_EW0, T_YMM, T_MUST_EVEX, T_B16]) 0xBC .none)⟩,
  ⟨2343, n!"vfnmadd231ph", [.xmm, .xmm, .op], 0, .leaf (.avx3 (.a 0) (.a 1) (.a 2) (fl [T_66, T_MAP6, T_EW0, T_YMM, T_ER_Z, T_MUST_EVEX, T_B16]) 0xBC .none)⟩,
  ⟨2344, n!"vfnmadd231sh", [.xmm, .xmm, .op], 0, .leaf (.avx3 (.a 0) (.a 1) (.a 2) (fl [T_N2, T_66, T_MAP6, T_EW0, T_ER_X, T_MUST_EVEX]) 0xBD .none)⟩,
  ⟨2345, n!"vfnmsub132nepbf16", [.xmm, .xmm, .op], 0, .leaf (.avx3 (.a 0) (.a 1) (.a 2) (fl [T_MAP6, T_EW0, T_YMM, T_MUST_EVEX, T_B16]) 0x9E .none)⟩,
  ⟨2346, n!"vfnmsub132ph", [.xmm, .xmm, .op], 0, .leaf (.avx3 (.a 0) (.a 1) (.a 2) (fl [T_66, T_MAP6, T_EW0, T_YMM, T_ER_Z, T_MUST_EVEX, T_B16]) 0x9E .none)⟩,
  ⟨2347, n!"vfnmsub132sh", [.xmm, .xmm, .op], 0, .leaf (.avx3 (.a 0) (.a 1) (.a 2) (fl [T_N2, T_66, T_MAP6, T_EW0, T_ER_X, T_MUST_EVEX]) 0x9F .none)⟩,
  ⟨2348, n!"vfnmsub213nepbf16", [.xmm, .xmm, .op], 0, .leaf (.avx3 (.a 0) (.a 1) (.a 2) (fl [T_MAP6, T_EW0, T_YMM, T_MUST_EVEX, T_B16]) 0xAE .none)⟩,
  ⟨2349, n!"vfnmsub213ph", [.xmm, .xmm, .op], 0, .leaf (.avx3 (.a 0) (.a 1) (.a 2) (fl [T_66, T_MAP6, T_EW0, T_YMM, T_ER_Z, T_MUST_EVEX, T_B16]) 0xAE .none)⟩,
  ⟨2350, n!"vfnmsub213sh", [.xmm, .xmm, .op], 0, .leaf (.avx3 (.a 0) (.a 1) (.a 2) (fl [T_N2, T_66, T_MAP6, T_EW0, T_ER_X, T_MUST_EVEX]) 0xAF .none)⟩,
  ⟨2351, n!"vfnmsub231nepbf16", [.xmm, .xmm, .op], 0, .leaf (.avx3 (.a 0) (.a 1) (.a 2) (fl [T_MAP6, T_EW0, T_YMM, T_MUST_EVEX, T_B16]) 0xBE .none)⟩,
  ⟨2352, n!"vfnmsub231ph", [.xmm, .xmm, .op], 0, .leaf (.avx3 (.a 0) (.a 1) (.a 2) (fl [T_66, T_MAP6, T_EW0, T_YMM, T_ER_Z, T_MUST_EVEX, T_B16]) 0xBE .none)⟩,
  ⟨2353, n!"vfnmsub231sh", [.xmm, .xmm, .op], 0, .leaf (.avx3 (.a 0) (.a 1) (.a 2) (fl [T_N2, T_66, T_MAP6, T_EW0, T_ER_X, T_MUST_EVEX]) 0xBF .none)⟩,
  ⟨2354, n!"vfpclasspbf16", [.opmask, .op, .int], 0, .leaf (.vexCB (.a 0) (.a 1) (fl [T_MUST_EVEX, T_F2, T_0F3A, T_EW0, T_YMM, T_B16]) 0x66 (.i 0))⟩,
  ⟨2355, n!"vfpclasspd", [.opmask, .op, .int], 0, .guard (fun g => !((g.reg 1).isBit 896)) .BAD_MEM_SIZE (.leaf (.vexCB (.a 0) (.a 1) (fl [T_66, T_0F3A, T_MUST_EVEX, T_YMM, T_EW1, T_B64]) 0x66 (.i 0)))⟩,
  ⟨2356, n!"vfpclassph", [.opmask, .op, .int], 0, .guard (fun g => !((g.reg 1).isBit 896)) .BAD_MEM_SIZE (.leaf (.vexCB (.a 0) (.a 1) (fl [T_0F3A, T_MUST_EVEX, T_YMM, T_EW0, T_B16]) 0x66 (.i 0)))⟩,
  ⟨2357, n!"vfpclassps", [.opmask, .op, .int], 0, .guard (fun g => !((g.reg 1).isBit 896)) .BAD_MEM_SIZE (.leaf (.vexCB (.a 0) (.a 1) (fl [T_66, T_0F3A, T_MUST_EVEX, T_YMM, T_EW0, T_B32]) 0x66 (.i 0)))⟩,
  ⟨2358, n!"vfpclasssd", [.opmask, .op, .int], 0, .guard (fun g => !((g.reg 1).isXMM || (g.op 1).isMEM)) .BAD_MEM_SIZE (.leaf (.vex (.a 0) none (.a 1) (fl [T_66, T_0F3A, T_MUST_EVEX, T_EW1, T_N8]) 0x67 (.i 0)))⟩,
  ⟨2359, n!"vfpclasssh", [.opmask, .op, .int], 0, .guard (fun g => !((g.reg 1).isXMM || (g.op 1).isMEM)) .BAD_MEM_SIZE (.leaf (.vex (.a 0) none (.a 1) (fl [T_0F3A, T_MUST_EVEX, T_EW0, T_N2]) 0x67 (.i 0)))⟩,
  ⟨2360, n!"vfpclassss", [.opmask, .op, .int], 0, .guard (fun g => !((g.reg 1).isXMM || (g.op 1).isMEM)) .BAD_MEM_SIZE (.leaf (.vex (.a 0) none (.a 1) (fl [T_66, T_0F3A, T_MUST_EVEX, T_EW0, T_N4]) 0x67 (.i 0)))⟩,
  ⟨2361, n!"vgatherdpd", [.xmm, .addr], 0, .leaf (.gather2 (.a 0) (.a 1) (fl [T_N8, T_66, T_0F38, T_EW1, T_YMM, T_MUST_EVEX, T_VSIB]) 0x92 1)⟩,
  ⟨2362, n!"vgatherdps", [.xmm, .addr], 0, .leaf (.gather2 (.a 0) (.a 1) (fl [T_N4, T_66, T_0F38, T_EW0, T_YMM, T_MUST_EVEX, T_VSIB]) 0x92 0)⟩,
  ⟨2363, n!"vgatherpf0dpd", [.addr], 0, .leaf (.gatherFetch (.a 0) (.r (.zmm 1)) (fl [T_N8, T_66, T_0F38, T_EW1, T_MUST_EVEX, T_M_K, T_VSIB]) 0xC6 .ymm)⟩,
  ⟨2364, n!"vgatherpf0dps", [.addr], 0, .leaf (.gatherFetch (.a 0) (.r (.zmm 1)) (fl [T_N4, T_66, T_0F38, T_EW0, T_MUST_EVEX, T_M_K, T_VSIB]) 0xC6 .zmm)⟩,
  ⟨2365, n!"vgatherpf0qpd", [.addr], 0, .leaf (.gatherFetch (.a 0) (.r (.zmm 1)) (fl [T_N8, T_66, T_0F38, T_EW1, T_MUST_EVEX, T_M_K, T_VSIB]) 0xC7 .zmm)⟩,
  ⟨2366, n!"vgatherpf0qps", [.addr], 0, .leaf (.gatherFetch (.a 0) (.r (.zmm 1)) (fl [T_N4, T_66, T_0F38, T_EW0, T_MUST_EVEX, T_M_K, T_VSIB]) 0xC7 .zmm)⟩,
  ⟨2367, n!"vgatherpf1dpd", [.addr], 0, .leaf (.gatherFetch (.a 0) (.r (.zmm 2)) (fl [T_N8, T_66, T_0F38, T_EW1, T_MUST_EVEX, T_M_K, T_VSIB]) 0xC6 .ymm)⟩,
  ⟨2368, n!"vgatherpf1dps", [.addr], 0, .leaf (.gatherFetch (.a 0) (.r (.zmm 2)) (fl [T_N4, T_66, T_0F38, T_EW0, T_MUST_EVEX, T_M_K, T_VSIB]) 0xC6 .zmm)⟩,
  ⟨2369, n!"vgatherpf1qpd", [.addr], 0, .leaf (.gatherFetch (.a 0) (.r (.zmm 2)) (fl [T_N8, T_66, T_0F38, T_EW1, T_MUST_EVEX, T_M_K, T_VSIB]) 0xC7 .zmm)⟩,
  ⟨2370, n!"vgatherpf1qps", [.addr], 0, .leaf (.gatherFetch (.a 0) (.r (.zmm 2)) (fl [T_N4, T_66, T_0F38, T_EW0, T_MUST_EVEX, T_M_K, T_VSIB]) 0xC7 .zmm)⟩,
  ⟨2371, n!"vgatherqpd", [.xmm, .addr], 0, .leaf (.gather2 (.a 0) (.a 1) (fl [T_N8, T_66, T_0F38, T_EW1, T_YMM, T_MUST_EVEX, T_VSIB]) 0x93 0)⟩,
  ⟨2372, n!"vgatherqps", [.xmm, .addr], 0, .leaf (.gather2 (.a 0) (.a 1) (fl [T_N4, T_66, T_0F38, T_EW0, T_YMM, T_MUST_EVEX, T_VSIB]) 0x93 2)⟩,
  ⟨2373, n!"vgetexppbf16", [.xmm, .op], 0, .leaf (.avx2 (.a 0) (.a 1) (fl [T_MAP6, T_EW0, T_YMM, T_MUST_EVEX, T_B16]) 0x42 .none)⟩,
  ⟨2374, n!"vgetexppd", [.xmm, .op], 0, .leaf (.avx2 (.a 0) (.a 1) (fl [T_66, T_0F38, T_EW1, T_YMM, T_SAE_Z, T_MUST_EVEX, T_B64]) 0x42 .none)⟩,
  ⟨2375, n!"vgetexpph", [.xmm, .op], 0, .leaf (.avx2 (.a 0) (.a 1) (fl [T_66, T_MAP6, T_EW0, T_YMM, T_SAE_Z, T_MUST_EVEX, T_B16]) 0x42 .none)⟩,
  ⟨2376, n!"vgetexpps", [.xmm, .op], 0, .leaf (.avx2 (.a 0) (.a 1) (fl [T_66, T_0F38, T_EW0, T_YMM, T_SAE_Z, T_MUST_EVEX, T_B32]) 0x42 .none)⟩,
  ⟨2377, n!"vgetexpsd", [.xmm, .xmm, .op], 0, .leaf (.avx3 (.a 0) (.a 1) (.a 2) (fl [T_N8, T_66, T_0F38, T_EW1, T_SAE_X, T_MUST_EVEX]) 0x43 .none)⟩,
  ⟨2378, n!"vgetexpsh", [.xmm, .xmm, .op], 0, .leaf (.avx3 (.a 0) (.a 1) (.a 2) (fl [T_N2, T_66, T_MAP6, T_EW0, T_SAE_X, T_MUST_EVEX]) 0x43 .none)⟩,
  ⟨2379, n!"vgetexpss", [.xmm, .xmm, .op], 0, .leaf (.avx3 (.a 0) (.a 1) (.a 2) (fl [T_N4, T_66, T_0F38, T_EW0, T_SAE_X, T_MUST_EVEX]) 0x43 .none)⟩,
  ⟨2380, n!"vgetmantpbf16", [.xmm, .op, .int], 0, .leaf (.avx2 (.a 0) (.a 1) (fl [T_F2, T_0F3A, T_EW0, T_YMM, T_MUST_EVEX, T_B16]) 0x26 (.i 0))⟩,
  ⟨2381, n!"vgetmantpd", [.xmm, .op, .int], 0, .leaf (.avx2 (.a 0) (.a 1) (fl [T_66, T_0F3A, T_EW1, T_YMM, T_SAE_Z, T_MUST_EVEX, T_B64]) 0x26 (.i 0))⟩,
  ⟨2382, n!"vgetmantph", [.xmm, .op, .int], 0, .leaf (.avx2 (.a 0) (.a 1) (fl [T_0F3A, T_EW0, T_YMM, T_SAE_Z, T_MUST_EVEX, T_B16]) 0x26 (.i 0))⟩,
  ⟨2383, n!"vgetmantps", [.xmm, .op, .int], 0, .leaf (.avx2 (.a 0) (.a 1) (fl [T_66, T_0F3A, T_EW0, T_YMM, T_SAE_Z, T_MUST_EVEX, T_B32]) 0x26 (.i 0))⟩,
  ⟨2384, n!"vgetmantsd", [.xmm, .xmm, .op, .int], 0, .leaf (.avx3 (.a 0) (.a 1) (.a 2) (fl [T_N8, T_66, T_0F3A, T_EW1, T_SAE_X, T_MUST_EVEX]) 0x27 (.i 0))⟩,
  ⟨2385, n!"vgetmantsh", [.xmm, .xmm, .op, .int], 0, .leaf (.avx3 (.a 0) (.a 1) (.a 2) (fl [T_N2, T_0F3A, T_EW0, T_SAE_X, T_MUST_EVEX]) 0x27 (.i 0))⟩,
  ⟨2386, n!"vgetmantss", [.xmm, .xmm, .op, .int], 0, .leaf (.avx3 (.a 0) (.a 1) (.a 2) (fl [T_N4, T_66, T_0F3A, T_EW0, T_SAE_X, T_MUST_EVEX]) 0x27 (.i 0))⟩,
  ⟨2387, n!"vinsertf32x4", [.ymm, .ymm, .op, .int], 0, .guard (fun g => !(decide ((g.reg 0).kind = (g.reg 1).kind) && ((g.op 2).isMEM || (g.reg 2).isXMM))) .BAD_COMBINATION (.leaf (.vex (.a 0) (some (.a 1)) (.a 2) (fl [T_N16, T_66, T_0F3A, T_EW0, T_YMM, T_MUST_EVEX]) 0x18 (.i 0)))⟩,
  ⟨2388, n!"vinsertf32x8", [.zmm, .zmm, .op, .int], 0, .guard (fun g => !((g.op 2).isMEM || (g.reg 2).isYMM)) .BAD_COMBINATION (.leaf (.vex (.a 0) (some (.a 1)) (.a 2) (fl [T_N32, T_66, T_0F3A, T_EW0, T_YMM, T_MUST_EVEX]) 0x1A (.i 0)))⟩,
  ⟨2389, n!"vinsertf64x2", [.ymm, .ymm, .op, .int], 0, .guard (fun g => !(decide ((g.reg 0).kind = (g.reg 1).kind) && ((g.op 2).isMEM || (g.reg 2).isXMM))) .BAD_COMBINATION (.leaf (.vex (.a 0) (some (.a 1)) (.a 2) (fl [T_N16, T_66, T_0F3A, T_EW1, T_YMM, T_MUST_EVEX]) 0x18 (.i 0)))⟩,
  ⟨2390, n!"vinsertf64x4", [.zmm, .zmm, .op, .int], 0, .guard (fun g => !((g.op 2).isMEM || (g.reg 2).isYMM)) .BAD_COMBINATION (.leaf (.vex (.a 0) (some (.a 1)) (.a 2) (fl [T_N32, T_66, T_0F3A, T_EW1, T_YMM, T_MUST_EVEX]) 0x1A (.i 0)))⟩,
  ⟨2391, n!"vinserti32x4", [.ymm, .ymm, .op, .int], 0, .guard (fun g => !(decide ((g.reg 0).kind = (g.reg 1).kind) && ((g.op 2).isMEM || (g.reg 2).isXMM))) .BAD_COMBINATION (.leaf (.vex (.a 0) (some (.a 1)) (.a 2) (fl [T_N16, T_66, T_0F3A, T_EW0, T_YMM, T_MUST_EVEX]) 0x38 (.i 0)))⟩,
  ⟨2392, n!"vinserti32x8", [.zmm, .zmm, .op, .int], 0, .guard (fun g => !((g.op 2).isMEM || (g.reg 2).isYMM)) .BAD_COMBINATION (.leaf (.vex (.a 0) (some (.a 1)) (.a 2) (fl [T_N32, T_66, T_0F3A, T_EW0, T_YMM, T_MUST_EVEX]) 0x3A (.i 0)))⟩,
  ⟨2393, n!"vinserti64x2", [.ymm, .ymm, .op, .int], 0, .guard (fun g => !(decide ((g.reg 0).kind = (g.reg 1).kind) && ((g.op 2).isMEM || (g.reg 2).isXMM))) .BAD_COMBINATION (.leaf (.vex (.a 0) (some (.a 1)) (.a 2) (fl [T_N16, T_66, T_0F3A, T_EW1, T_YMM, T_MUST_EVEX]) 0x38 (.i 0)))⟩,
  ⟨2394, n!"vinserti64x4", [.zmm, .zmm, .op, .int], 0, .guard (fun g => !((g.op 2).isMEM || (g.reg 2).isYMM)) .BAD_COMBINATION (.leaf (.vex (.a 0) (some (.a 1)) (.a 2) (fl [T_N32, T_66, T_0F3A, T_EW1, T_YMM, T_MUST_EVEX]) 0x3A (.i 0)))⟩,
  ⟨2395, n!"vmaxpbf16", [.xmm, .xmm, .op], 0, .leaf (.avx3 (.a 0) (.a 1) (.a 2) (fl [T_66, T_MAP5, T_EW0, T_YMM, T_MUST_EVEX, T_B16]) 0x5F .none)⟩,
  ⟨2396, n!"vmaxph", [.xmm, .op, .op], 1, .leaf (.avx3 (.a 0) (.a 1) (.a 2) (fl [T_MAP5, T_EW0, T_YMM, T_MUST_EVEX, T_SAE_Z, T_B16]) 0x5F .none)⟩,
  ⟨2397, n!"vmaxsh", [.xmm, .op, .op], 1, .leaf (.avx3 (.a 0) (.a 1) (.a 2) (fl [T_MAP5, T_F3, T_EW0, T_MUST_EVEX, T_SAE_X, T_N2]) 0x5F .none)⟩,
  ⟨2398, n!"vminmaxnepbf16", [.xmm, .xmm, .op, .int], 0, .leaf (.avx3 (.a 0) (.a 1) (.a 2) (fl [T_F2, T_0F3A, T_EW0, T_YMM, T_MUST_EVEX, T_B16]) 0x52 (.i 0))⟩,
  ⟨2399, n!"vminmaxpd", [.xmm, .xmm, .op, .int], 0, .leaf (.avx3 (.a 0) (.a 1) (.a 2) (fl [T_66, T_0F3A, T_EW1, T_YMM, T_SAE_Y, T_SAE_Z, T_MUST_EVEX, T_B64]) 0x52 (.i 0))⟩,
  ⟨2400, n!"vminmaxph", [.xmm, .xmm, .op, .int], 0, .leaf (.avx3 (.a 0) (.a 1) (.a 2) (fl [T_0F3A, T_EW0, T_YMM, T_SAE_Y, T_SAE_Z, T_MUST_EVEX, T_B16]) 0x52 (.i 0))⟩,
  ⟨2401, n!"vminmaxps", [.xmm, .xmm, .op, .int], 0, .leaf (.avx3 (.a 0) (.a 1) (.a 2) (fl [T_66, T_0F3A, T_EW0, T_YMM, T_SAE_Y, T_SAE_Z, T_MUST_EVEX, T_B32]) 0x52 (.i 0))⟩,
  ⟨2402, n!"vminmaxsd", [.xmm, .xmm, .op, .int], 0, .leaf (.avx3 (.a 0) (.a 1) (.a 2) (fl [T_N8, T_66, T_0F3A, T_EW1, T_SAE_X, T_MUST_EVEX]) 0x53 (.i 0))⟩,
  ⟨2403, n!"vminmaxsh", [.xmm, .xmm, .op, .int], 0, .leaf (.avx3 (.a 0) (.a 1) (.a 2) (fl [T_N2, T_0F3A, T_EW0, T_SAE_X, T_MUST_EVEX]) 0x53 (.i 0))⟩,
  ⟨2404, n!"vminmaxss", [.xmm, .xmm, .op, .int], 0, .leaf (.avx3 (.a 0) (.a 1) (.a 2) (fl [T_N4, T_66, T_0F3A, T_EW0, T_SAE_X, T_MUST_EVEX]) 0x53 (.i 0))⟩,
  ⟨2405, n!"vminpbf16", [.xmm, .xmm, .op], 0, .leaf (.avx3 (.a 0) (.a 1) (.a 2) (fl [T_66, T_MAP5, T_EW0, T_YMM, T_MUST_EVEX, T_B16]) 0x5D .none)⟩,
  ⟨2406, n!"vminph", [.xmm, .op, .op], 1, .leaf (.avx3 (.a 0) (.a 1) (.a 2) (fl [T_MAP5, T_EW0, T_YMM, T_MUST_EVEX, T_SAE_Z, T_B16]) 0x5D .none)⟩,
  ⟨2407, n!"vminsh", [.xmm, .op, .op], 1, .leaf (.avx3 (.a 0) (.a 1) (.a 2) (fl [T_MAP5, T_F3, T_EW0, T_MUST_EVEX, T_SAE_X, T_N2]) 0x5D .none)⟩,
  ⟨2408, n!"vmovdqa32", [.addr, .xmm], 0, .leaf (.avx2 (.a 1) (.a 0) (fl [T_66, T_0F, T_EW0, T_YMM, T_ER_X, T_ER_Y, T_ER_Z, T_MUST_EVEX, T_M_K]) 0x7F .none)⟩]

end Mn
end Xbyak
