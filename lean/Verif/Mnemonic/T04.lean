import Verif.Mnemonic.Basic
/-! Mnemonic table, `xbyak_mnemonic.h` lines 1022-1361.  Each entry cites its line; an alias (a line calling another mnemonic) has the
body of the function it calls, with the arguments substituted. -/
namespace Xbyak
namespace Mn
open E

/-- `xbyak_mnemonic.h` 1022-1361 -/
def t04 : List Entry := [
  ⟨1022, n!"std", [], 0, .leaf (.bytes [0xFD])⟩,
  ⟨1023, n!"sti", [], 0, .leaf (.bytes [0xFB])⟩,
  ⟨1024, n!"stmxcsr", [.addr], 0, .leaf (.mr (.a 0) (.r (.gp 3 32)) T_0F 0xAE 0 none)⟩,
  ⟨1025, n!"stosb", [], 0, .leaf (.bytes [0xAA])⟩,
  ⟨1026, n!"stosd", [], 0, .leaf (.bytes [0xAB])⟩,
  ⟨1027, n!"stosw", [], 0, .leaf (.bytes [0x66, 0xAB])⟩,
  ⟨1028, n!"sub", [.op, .int], 0, .leaf (.oi (.a 0) 0 0x28 5)⟩,
  ⟨1029, n!"sub", [.op, .op], 0, .leaf (.roMr (.a 0) (.a 1) 0x28)⟩,
  ⟨1030, n!"sub", [.reg, .op, .int], 0, .leaf (.roi (.a 0) (.a 1) 0 (fl [T_NF, T_CODE1_IF1]) 5)⟩,
  ⟨1031, n!"sub", [.reg, .op, .op], 0, .leaf (.roo (.a 0) (.a 1) (.a 2) (fl [T_NF, T_CODE1_IF1]) 0x28)⟩,
  ⟨1032, n!"subpd", [.xmm, .op], 0, .leaf (.sse (.a 0) (.a 1) (fl [T_0F, T_66]) 0x5C .xmm_xmm .none)⟩,
  ⟨1033, n!"subps", [.xmm, .op], 0, .leaf (.sse (.a 0) (.a 1) T_0F 0x5C .xmm_xmm .none)⟩,
  ⟨1034, n!"subsd", [.xmm, .op], 0, .leaf (.sse (.a 0) (.a 1) (fl [T_0F, T_F2]) 0x5C .xmm_xmm .none)⟩,
  ⟨1035, n!"subss", [.xmm, .op], 0, .leaf (.sse (.a 0) (.a 1) (fl [T_0F, T_F3]) 0x5C .xmm_xmm .none)⟩,
  ⟨1036, n!"sysenter", [], 0, .leaf (.bytes [0x0F, 0x34])⟩,
  ⟨1037, n!"sysexit", [], 0, .leaf (.bytes [0x0F, 0x35])⟩,
  ⟨1038, n!"tpause", [.reg32], 0, .leaf (.raw .tpause)⟩,
  ⟨1039, n!"tzcnt", [.reg, .op], 0, .apx (.r .nil) (.a 1) (.a 0) (fl [T_APX, T_NF]) 0xF4 (.leaf (.cnt (.a 0) (.a 1) 0xBC))⟩,
  ⟨1040, n!"ucomisd", [.xmm, .op], 0, .leaf (.sse (.a 0) (.a 1) (fl [T_66, T_0F]) 0x2E .xmm_xmm .none)⟩,
  ⟨1041, n!"ucomiss", [.xmm, .op], 0, .leaf (.sse (.a 0) (.a 1) T_0F 0x2E .xmm_xmm .none)⟩,
  ⟨1042, n!"ud2", [], 0, .leaf (.bytes [0x0F, 0x0B])⟩,
  ⟨1043, n!"umonitor", [.reg], 0, .leaf (.raw .umonitor)⟩,
  ⟨1044, n!"umwait", [.reg32], 0, .leaf (.raw .umwait)⟩,
  ⟨1045, n!"unpckhpd", [.xmm, .op], 0, .leaf (.sse (.a 0) (.a 1) (fl [T_0F, T_66]) 0x15 .xmm_xmm .none)⟩,
  ⟨1046, n!"unpckhps", [.xmm, .op], 0, .leaf (.sse (.a 0) (.a 1) T_0F 0x15 .xmm_xmm .none)⟩,
  ⟨1047, n!"unpcklpd", [.xmm, .op], 0, .leaf (.sse (.a 0) (.a 1) (fl [T_0F, T_66]) 0x14 .xmm_xmm .none)⟩,
  ⟨1048, n!"unpcklps", [.xmm, .op], 0, .leaf (.sse (.a 0) (.a 1) T_0F 0x14 .xmm_xmm .none)⟩,
  ⟨1049, n!"vaddpd", [.xmm, .op, .op], 1, .leaf (.avx3 (.a 0) (.a 1) (.a 2) (fl [T_0F, T_66, T_EW1, T_YMM, T_EVEX, T_ER_Z, T_B64]) 0x58 .none)⟩,
  ⟨1050, n!"vaddps", [.xmm, .op, .op], 1, .leaf (.avx3 (.a 0) (.a 1) (.a 2) (fl [T_0F, T_EW0, T_YMM, T_EVEX, T_ER_Z, T_B32]) 0x58 .none)⟩,
  ⟨1051, n!"vaddsd", [.xmm, .op, .op], 1, .leaf (.avx3 (.a 0) (.a 1) (.a 2) (fl [T_0F, T_F2, T_EW1, T_EVEX, T_ER_X, T_N8]) 0x58 .none)⟩,
  ⟨1052, n!"vaddss", [.xmm, .op, .op], 1, .leaf (.avx3 (.a 0) (.a 1) (.a 2) (fl [T_0F, T_F3, T_EW0, T_EVEX, T_ER_X, T_N4]) 0x58 .none)⟩,
  ⟨1053, n!"vaddsubpd", [.xmm, .op, .op], 1, .leaf (.avx3 (.a 0) (.a 1) (.a 2) (fl [T_66, T_0F, T_YMM]) 0xD0 .none)⟩,
  ⟨1054, n!"vaddsubps", [.xmm, .op, .op], 1, .leaf (.avx3 (.a 0) (.a 1) (.a 2) (fl [T_F2, T_0F, T_YMM]) 0xD0 .none)⟩,
  ⟨1055, n!"vaesdec", [.xmm, .op, .op], 1, .leaf (.avx3 (.a 0) (.a 1) (.a 2) (fl [T_66, T_0F38, T_YMM, T_EVEX]) 0xDE .none)⟩,
  ⟨1056, n!"vaesdeclast", [.xmm, .op, .op], 1, .leaf (.avx3 (.a 0) (.a 1) (.a 2) (fl [T_66, T_0F38, T_YMM, T_EVEX]) 0xDF .none)⟩,
  ⟨1057, n!"vaesenc", [.xmm, .op, .op], 1, .leaf (.avx3 (.a 0) (.a 1) (.a 2) (fl [T_66, T_0F38, T_YMM, T_EVEX]) 0xDC .none)⟩,
  ⟨1058, n!"vaesenclast", [.xmm, .op, .op], 1, .leaf (.avx3 (.a 0) (.a 1) (.a 2) (fl [T_66, T_0F38, T_YMM, T_EVEX]) 0xDD .none)⟩,
  ⟨1059, n!"vaesimc", [.xmm, .op], 0, .leaf (.avx2 (.a 0) (.a 1) (fl [T_66, T_0F38, T_W0]) 0xDB .none)⟩,
  ⟨1060, n!"vaeskeygenassist", [.xmm, .op, .int], 0, .leaf (.avx2 (.a 0) (.a 1) (fl [T_66, T_0F3A]) 0xDF (.i 0))⟩,
  ⟨1061, n!"vandnpd", [.xmm, .op, .op], 1, .leaf (.avx3 (.a 0) (.a 1) (.a 2) (fl [T_0F, T_66, T_EW1, T_YMM, T_EVEX, T_B64]) 0x55 .none)⟩,
  ⟨1062, n!"vandnps", [.xmm, .op, .op], 1, .leaf (.avx3 (.a 0) (.a 1) (.a 2) (fl [T_0F, T_EW0, T_YMM, T_EVEX, T_B32]) 0x55 .none)⟩,
  ⟨1063, n!"vandpd", [.xmm, .op, .op], 1, .leaf (.avx3 (.a 0) (.a 1) (.a 2) (fl [T_0F, T_66, T_EW1, T_YMM, T_EVEX, T_B64]) 0x54 .none)⟩,
  ⟨1064, n!"vandps", [.xmm, .op, .op], 1, .leaf (.avx3 (.a 0) (.a 1) (.a 2) (fl [T_0F, T_EW0, T_YMM, T_EVEX, T_B32]) 0x54 .none)⟩,
  ⟨1065, n!"vbcstnebf162ps", [.xmm, .addr], 0, .leaf (.vex (.a 0) none (.a 1) (fl [T_F3, T_0F38, T_W0, T_YMM, T_B16]) 0xB1 .none)⟩,
  ⟨1066, n!"vbcstnesh2ps", [.xmm, .addr], 0, .leaf (.vex (.a 0) none (.a 1) (fl [T_66, T_0F38, T_W0, T_YMM, T_B16]) 0xB1 .none)⟩,
  ⟨1067, n!"vblendpd", [.xmm, .xmm, .op, .int], 0, .leaf (.avx3 (.a 0) (.a 1) (.a 2) (fl [T_66, T_0F3A, T_W0, T_YMM]) 0x0D (.i 0))⟩,
  ⟨1068, n!"vblendps", [.xmm, .xmm, .op, .int], 0, .leaf (.avx3 (.a 0) (.a 1) (.a 2) (fl [T_66, T_0F3A, T_W0, T_YMM]) 0x0C (.i 0))⟩,
  ⟨1069, n!"vblendvpd", [.xmm, .xmm, .op, .xmm], 0, .leaf (.avx3 (.a 0) (.a 1) (.a 2) (fl [T_0F3A, T_66, T_YMM]) 0x4B (.is4 3))⟩,
  ⟨1070, n!"vblendvps", [.xmm, .xmm, .op, .xmm], 0, .leaf (.avx3 (.a 0) (.a 1) (.a 2) (fl [T_0F3A, T_66, T_YMM]) 0x4A (.is4 3))⟩,
  ⟨1071, n!"vbroadcastf128", [.ymm, .addr], 0, .leaf (.avx2 (.a 0) (.a 1) (fl [T_0F38, T_66, T_W0, T_YMM]) 0x1A .none)⟩,
  ⟨1072, n!"vbroadcasti128", [.ymm, .addr], 0, .leaf (.avx2 (.a 0) (.a 1) (fl [T_0F38, T_66, T_W0, T_YMM]) 0x5A .none)⟩,
  ⟨1073, n!"vbroadcastsd", [.ymm, .op], 0, .guard (fun g => !((g.op 1).isMEM) && !((g.reg 0).isYMM && (g.reg 1).isXMM) && !((g.reg 0).isZMM && (g.reg 1).isXMM)) .BAD_COMBINATION (.leaf (.avx2 (.a 0) (.a 1) (fl [T_0F38, T_66, T_W0, T_YMM, T_EVEX, T_EW1, T_N8]) 0x19 .none))⟩,
  ⟨1074, n!"vbroadcastss", [.xmm, .op], 0, .guard (fun g => !((g.reg 1).isXMM || (g.op 1).isMEM)) .BAD_COMBINATION (.leaf (.avx2 (.a 0) (.a 1) (fl [T_N4, T_66, T_0F38, T_W0, T_YMM, T_EVEX]) 0x18 .none))⟩,
  ⟨1075, n!"vcmpeq_ospd", [.xmm, .xmm, .op], 0, .leaf (.avx3 (.a 0) (.a 1) (.a 2) (fl [T_66, T_0F, T_YMM]) 0xC2 (.c 0x10))⟩,
  ⟨1076, n!"vcmpeq_osps", [.xmm, .xmm, .op], 0, .leaf (.avx3 (.a 0) (.a 1) (.a 2) (fl [T_0F, T_YMM]) 0xC2 (.c 0x10))⟩,
  ⟨1077, n!"vcmpeq_ossd", [.xmm, .xmm, .op], 0, .leaf (.avx3 (.a 0) (.a 1) (.a 2) (fl [T_F2, T_0F]) 0xC2 (.c 0x10))⟩,
  ⟨1078, n!"vcmpeq_osss", [.xmm, .xmm, .op], 0, .leaf (.avx3 (.a 0) (.a 1) (.a 2) (fl [T_F3, T_0F]) 0xC2 (.c 0x10))⟩,
  ⟨1079, n!"vcmpeq_uqpd", [.xmm, .xmm, .op], 0, .leaf (.avx3 (.a 0) (.a 1) (.a 2) (fl [T_66, T_0F, T_YMM]) 0xC2 (.c 0x08))⟩,
  ⟨1080, n!"vcmpeq_uqps", [.xmm, .xmm, .op], 0, .leaf (.avx3 (.a 0) (.a 1) (.a 2) (fl [T_0F, T_YMM]) 0xC2 (.c 0x08))⟩,
  ⟨1081, n!"vcmpeq_uqsd", [.xmm, .xmm, .op], 0, .leaf (.avx3 (.a 0) (.a 1) (.a 2) (fl [T_F2, T_0F]) 0xC2 (.c 0x08))⟩,
  ⟨1082, n!"vcmpeq_uqss", [.xmm, .xmm, .op], 0, .leaf (.avx3 (.a 0) (.a 1) (.a 2) (fl [T_F3, T_0F]) 0xC2 (.c 0x08))⟩,
  ⟨1083, n!"vcmpeq_uspd", [.xmm, .xmm, .op], 0, .leaf (.avx3 (.a 0) (.a 1) (.a 2) (fl [T_66, T_0F, T_YMM]) 0xC2 (.c 0x18))⟩,
  ⟨1084, n!"vcmpeq_usps", [.xmm, .xmm, .op], 0, .leaf (.avx3 (.a 0) (.a 1) (.a 2) (fl [T_0F, T_YMM]) 0xC2 (.c 0x18))⟩,
  ⟨1085, n!"vcmpeq_ussd", [.xmm, .xmm, .op], 0, .leaf (.avx3 (.a 0) (.a 1) (.a 2) (fl [T_F2, T_0F]) 0xC2 (.c 0x18))⟩,
  ⟨1086, n!"vcmpeq_usss", [.xmm, .xmm, .op], 0, .leaf (.avx3 (.a 0) (.a 1) (.a 2) (fl [T_F3, T_0F]) 0xC2 (.c 0x18))⟩,
  ⟨1087, n!"vcmpeqpd", [.xmm, .xmm, .op], 0, .leaf (.avx3 (.a 0) (.a 1) (.a 2) (fl [T_66, T_0F, T_YMM]) 0xC2 (.c 0x00))⟩,
  ⟨1088, n!"vcmpeqps", [.xmm, .xmm, .op], 0, .leaf (.avx3 (.a 0) (.a 1) (.a 2) (fl [T_0F, T_YMM]) 0xC2 (.c 0x00))⟩,
  ⟨1089, n!"vcmpeqsd", [.xmm, .xmm, .op], 0, .leaf (.avx3 (.a 0) (.a 1) (.a 2) (fl [T_F2, T_0F]) 0xC2 (.c 0x00))⟩,
  ⟨1090, n!"vcmpeqss", [.xmm, .xmm, .op], 0, .leaf (.avx3 (.a 0) (.a 1) (.a 2) (fl [T_F3, T_0F]) 0xC2 (.c 0x00))⟩,
  ⟨1091, n!"vcmpfalse_ospd", [.xmm, .xmm, .op], 0, .leaf (.avx3 (.a 0) (.a 1) (.a 2) (fl [T_66, T_0F, T_YMM]) 0xC2 (.c 0x1B))⟩,
  ⟨1092, n!"vcmpfalse_osps", [.xmm, .xmm, .op], 0, .leaf (.avx3 (.a 0) (.a 1) (.a 2) (fl [T_0F, T_YMM]) 0xC2 (.c 0x1B))⟩,
  ⟨1093, n!"vcmpfalse_ossd", [.xmm, .xmm, .op], 0, .leaf (.avx3 (.a 0) (.a 1) (.a 2) (fl [T_F2, T_0F]) 0xC2 (.c 0x1B))⟩,
  ⟨1094, n!"vcmpfalse_osss", [.xmm, .xmm, .op], 0, .leaf (.avx3 (.a 0) (.a 1) (.a 2) (fl [T_F3, T_0F]) 0xC2 (.c 0x1B))⟩,
  ⟨1095, n!"vcmpfalsepd", [.xmm, .xmm, .op], 0, .leaf (.avx3 (.a 0) (.a 1) (.a 2) (fl [T_66, T_0F, T_YMM]) 0xC2 (.c 0x0B))⟩,
  ⟨1096, n!"vcmpfalseps", [.xmm, .xmm, .op], 0, .leaf (.avx3 (.a 0) (.a 1) (.a 2) (fl [T_0F, T_YMM]) 0xC2 (.c 0x0B))⟩,
  ⟨1097, n!"vcmpfalsesd", [.xmm, .xmm, .op], 0, .leaf (.avx3 (.a 0) (.a 1) (.a 2) (fl [T_F2, T_0F]) 0xC2 (.c 0x0B))⟩,
  ⟨1098, n!"vcmpfalsess", [.xmm, .xmm, .op], 0, .leaf (.avx3 (.a 0) (.a 1) (.a 2) (fl [T_F3, T_0F]) 0xC2 (.c 0x0B))⟩,
  ⟨1099, n!"vcmpge_oqpd", [.xmm, .xmm, .op], 0, .leaf (.avx3 (.a 0) (.a 1) (.a 2) (fl [T_66, T_0F, T_YMM]) 0xC2 (.c 0x1D))⟩,
  ⟨1100, n!"vcmpge_oqps", [.xmm, .xmm, .op], 0, .leaf (.avx3 (.a 0) (.a 1) (.a 2) (fl [T_0F, T_YMM]) 0xC2 (.c 0x1D))⟩,
  ⟨1101, n!"vcmpge_oqsd", [.xmm, .xmm, .op], 0, .leaf (.avx3 (.a 0) (.a 1) (.a 2) (fl [T_F2, T_0F]) 0xC2 (.c 0x1D))⟩,
  ⟨1102, n!"vcmpge_oqss", [.xmm, .xmm, .op], 0, .leaf (.avx3 (.a 0) (.a 1) (.a 2) (fl [T_F3, T_0F]) 0xC2 (.c 0x1D))⟩,
  ⟨1103, n!"vcmpgepd", [.xmm, .xmm, .op], 0, .leaf (.avx3 (.a 0) (.a 1) (.a 2) (fl [T_66, T_0F, T_YMM]) 0xC2 (.c 0x0D))⟩,
  ⟨1104, n!"vcmpgeps", [.xmm, .xmm, .op], 0, .leaf (.avx3 (.a 0) (.a 1) (.a 2) (fl [T_0F, T_YMM]) 0xC2 (.c 0x0D))⟩,
  ⟨1105, n!"vcmpgesd", [.xmm, .xmm, .op], 0, .leaf (.avx3 (.a 0) (.a 1) (.a 2) (fl [T_F2, T_0F]) 0xC2 (.c 0x0D))⟩,
  ⟨1106, n!"vcmpgess", [.xmm, .xmm, .op], 0, .leaf (.avx3 (.a 0) (.a 1) (.a 2) (fl [T_F3, T_0F]) 0xC2 (.c 0x0D))⟩,
  ⟨1107, n!"vcmpgt_oqpd", [.xmm, .xmm, .op], 0, .leaf (.avx3 (.a 0) (.a 1) (.a 2) (fl [T_66, T_0F, T_YMM]) 0xC2 (.c 0x1E))⟩,
  ⟨1108, n!"vcmpgt_oqps", [.xmm, .xmm, .op], 0, .leaf (.avx3 (.a 0) (.a 1) (.a 2) (fl [T_0F, T_YMM]) 0xC2 (.c 0x1E))⟩,
  ⟨1109, n!"vcmpgt_oqsd", [.xmm, .xmm, .op], 0, .leaf (.avx3 (.a 0) (.a 1) (.a 2) (fl [T_F2, T_0F]) 0xC2 (.c 0x1E))⟩,
  ⟨1110, n!"vcmpgt_oqss", [.xmm, .xmm, .op], 0, .leaf (.avx3 (.a 0) (.a 1) (.a 2) (fl [T_F3, T_0F]) 0xC2 (.c 0x1E))⟩,
  ⟨1111, n!"vcmpgtpd", [.xmm, .xmm, .op], 0, .leaf (.avx3 (.a 0) (.a 1) (.a 2) (fl [T_66, T_0F, T_YMM]) 0xC2 (.c 0x0E))⟩,
  ⟨1112, n!"vcmpgtps", [.xmm, .xmm, .op], 0, .leaf (.avx3 (.a 0) (.a 1) (.a 2) (fl [T_0F, T_YMM]) 0xC2 (.c 0x0E))⟩,
  ⟨1113, n!"vcmpgtsd", [.xmm, .xmm, .op], 0, .leaf (.avx3 (.a 0) (.a 1) (.a 2) (fl [T_F2, T_0F]) 0xC2 (.c 0x0E))⟩,
  ⟨1114, n!"vcmpgtss", [.xmm, .xmm, .op], 0, .leaf (.avx3 (.a 0) (.a 1) (.a 2) (fl [T_F3, T_0F]) 0xC2 (.c 0x0E))⟩,
  ⟨1115, n!"vcmple_oqpd", [.xmm, .xmm, .op], 0, .leaf (.avx3 (.a 0) (.a 1) (.a 2) (fl [T_66, T_0F, T_YMM]) 0xC2 (.c 0x12))⟩,
  ⟨1116, n!"vcmple_oqps", [.xmm, .xmm, .op], 0, .leaf (.avx3 (.a 0) (.a 1) (.a 2) (fl [T_0F, T_YMM]) 0xC2 (.c 0x12))⟩,
  ⟨1117, n!"vcmple_oqsd", [.xmm, .xmm, .op], 0, .leaf (.avx3 (.a 0) (.a 1) (.a 2) (fl [T_F2, T_0F]) 0xC2 (.c 0x12))⟩,
  ⟨1118, n!"vcmple_oqss", [.xmm, .xmm, .op], 0, .leaf (.avx3 (.a 0) (.a 1) (.a 2) (fl [T_F3, T_0F]) 0xC2 (.c 0x12))⟩,
  ⟨1119, n!"vcmplepd", [.xmm, .xmm, .op], 0, .leaf (.avx3 (.a 0) (.a 1) (.a 2) (fl [T_66, T_0F, T_YMM]) 0xC2 (.c 0x02))⟩,
  ⟨1120, n!"vcmpleps", [.xmm, .xmm, .op], 0, .leaf (.avx3 (.a 0) (.a 1) (.a 2) (fl [T_0F, T_YMM]) 0xC2 (.c 0x02))⟩,
  ⟨1121, n!"vcmplesd", [.xmm, .xmm, .op], 0, .leaf (.avx3 (.a 0) (.a 1) (.a 2) (fl [T_F2, T_0F]) 0xC2 (.c 0x02))⟩,
  ⟨1122, n!"vcmpless", [.xmm, .xmm, .op], 0, .leaf (.avx3 (.a 0) (.a 1) (.a 2) (fl [T_F3, T_0F]) 0xC2 (.c 0x02))⟩,
  ⟨1123, n!"vcmplt_oqpd", [.xmm, .xmm, .op], 0, .leaf (.avx3 (.a 0) (.a 1) (.a 2) (fl [T_66, T_0F, T_YMM]) 0xC2 (.c 0x11))⟩,
  ⟨1124, n!"vcmplt_oqps", [.xmm, .xmm, .op], 0, .leaf (.avx3 (.a 0) (.a 1) (.a 2) (fl [T_0F, T_YMM]) 0xC2 (.c 0x11))⟩,
  ⟨1125, n!"vcmplt_oqsd", [.xmm, .xmm, .op], 0, .leaf (.avx3 (.a 0) (.a 1) (.a 2) (fl [T_F2, T_0F]) 0xC2 (.c 0x11))⟩,
  ⟨1126, n!"vcmplt_oqss", [.xmm, .xmm, .op], 0, .leaf (.avx3 (.a 0) (.a 1) (.a 2) (fl [T_F3, T_0F]) 0xC2 (.c 0x11))⟩,
  ⟨1127, n!"vcmpltpd", [.xmm, .xmm, .op], 0, .leaf (.avx3 (.a 0) (.a 1) (.a 2) (fl [T_66, T_0F, T_YMM]) 0xC2 (.c 0x01))⟩,
  ⟨1128, n!"vcmpltps", [.xmm, .xmm, .op], 0, .leaf (.avx3 (.a 0) (.a 1) (.a 2) (fl [T_0F, T_YMM]) 0xC2 (.c 0x01))⟩,
  ⟨1129, n!"vcmpltsd", [.xmm, .xmm, .op], 0, .leaf (.avx3 (.a 0) (.a 1) (.a 2) (fl [T_F2, T_0F]) 0xC2 (.c 0x01))⟩,
  ⟨1130, n!"vcmpltss", [.xmm, .xmm, .op], 0, .leaf (.avx3 (.a 0) (.a 1) (.a 2) (fl [T_F3, T_0F]) 0xC2 (.c 0x01))⟩,
  ⟨1131, n!"vcmpneq_oqpd", [.xmm, .xmm, .op], 0, .leaf (.avx3 (.a 0) (.a 1) (.a 2) (fl [T_66, T_0F, T_YMM]) 0xC2 (.c 0x0C))⟩,
  ⟨1132, n!"vcmpneq_oqps", [.xmm, .xmm, .op], 0, .leaf (.avx3 (.a 0) (.a 1) (.a 2) (fl [T_0F, T_YMM]) 0xC2 (.c 0x0C))⟩,
  ⟨1133, n!"vcmpneq_oqsd", [.xmm, .xmm, .op], 0, .leaf (.avx3 (.a 0) (.a 1) (.a 2) (fl [T_F2, T_0F]) 0xC2 (.c 0x0C))⟩,
  ⟨1134, n!"vcmpneq_oqss", [.xmm, .xmm, .op], 0, .leaf (.avx3 (.a 0) (.a 1) (.a 2) (fl [T_F3, T_0F]) 0xC2 (.c 0x0C))⟩,
  ⟨1135, n!"vcmpneq_ospd", [.xmm, .xmm, .op], 0, .leaf (.avx3 (.a 0) (.a 1) (.a 2) (fl [T_66, T_0F, T_YMM]) 0xC2 (.c 0x1C))⟩,
  ⟨1136, n!"vcmpneq_osps", [.xmm, .xmm, .op], 0, .leaf (.avx3 (.a 0) (.a 1) (.a 2) (fl [T_0F, T_YMM]) 0xC2 (.c 0x1C))⟩,
  ⟨1137, n!"vcmpneq_ossd", [.xmm, .xmm, .op], 0, .leaf (.avx3 (.a 0) (.a 1) (.a 2) (fl [T_F2, T_0F]) 0xC2 (.c 0x1C))⟩,
  ⟨1138, n!"vcmpneq_osss", [.xmm, .xmm, .op], 0, .leaf (.avx3 (.a 0) (.a 1) (.a 2) (fl [T_F3, T_0F]) 0xC2 (.c 0x1C))⟩,
  ⟨1139, n!"vcmpneq_uspd", [.xmm, .xmm, .op], 0, .leaf (.avx3 (.a 0) (.a 1) (.a 2) (fl [T_66, T_0F, T_YMM]) 0xC2 (.c 0x14))⟩,
  ⟨1140, n!"vcmpneq_usps", [.xmm, .xmm, .op], 0, .leaf (.avx3 (.a 0) (.a 1) (.a 2) (fl [T_0F, T_YMM]) 0xC2 (.c 0x14))⟩,
  ⟨1141, n!"vcmpneq_ussd", [.xmm, .xmm, .op], 0, .leaf (.avx3 (.a 0) (.a 1) (.a 2) (fl [T_F2, T_0F]) 0xC2 (.c 0x14))⟩,
  ⟨1142, n!"vcmpneq_usss", [.xmm, .xmm, .op], 0, .leaf (.avx3 (.a 0) (.a 1) (.a 2) (fl [T_F3, T_0F]) 0xC2 (.c 0x14))⟩,
  ⟨1143, n!"vcmpneqpd", [.xmm, .xmm, .op], 0, .leaf (.avx3 (.a 0) (.a 1) (.a 2) (fl [T_66, T_0F, T_YMM]) 0xC2 (.c 0x04))⟩,
  ⟨1144, n!"vcmpneqps", [.xmm, .xmm, .op], 0, .leaf (.avx3 (.a 0) (.a 1) (.a 2) (fl [T_0F, T_YMM]) 0xC2 (.c 0x04))⟩,
  ⟨1145, n!"vcmpneqsd", [.xmm, .xmm, .op], 0, .leaf (.avx3 (.a 0) (.a 1) (.a 2) (fl [T_F2, T_0F]) 0xC2 (.c 0x04))⟩,
  ⟨1146, n!"vcmpneqss", [.xmm, .xmm, .op], 0, .leaf (.avx3 (.a 0) (.a 1) (.a 2) (fl [T_F3, T_0F]) 0xC2 (.c 0x04))⟩,
  ⟨1147, n!"vcmpnge_uqpd", [.xmm, .xmm, .op], 0, .leaf (.avx3 (.a 0) (.a 1) (.a 2) (fl [T_66, T_0F, T_YMM]) 0xC2 (.c 0x19))⟩,
  ⟨1148, n!"vcmpnge_uqps", [.xmm, .xmm, .op], 0, .leaf (.avx3 (.a 0) (.a 1) (.a 2) (fl [T_0F, T_YMM]) 0xC2 (.c 0x19))⟩,
  ⟨1149, n!"vcmpnge_uqsd", [.xmm, .xmm, .op], 0, .leaf (.avx3 (.a 0) (.a 1) (.a 2) (fl [T_F2, T_0F]) 0xC2 (.c 0x19))⟩,
  ⟨1150, n!"vcmpnge_uqss", [.xmm, .xmm, .op], 0, .leaf (.avx3 (.a 0) (.a 1) (.a 2) (fl [T_F3, T_0F]) 0xC2 (.c 0x19))⟩,
  ⟨1151, n!"vcmpngepd", [.xmm, .xmm, .op], 0, .leaf (.avx3 (.a 0) (.a 1) (.a 2) (fl [T_66, T_0F, T_YMM]) 0xC2 (.c 0x09))⟩,
  ⟨1152, n!"vcmpngeps", [.xmm, .xmm, .op], 0, .leaf (.avx3 (.a 0) (.a 1) (.a 2) (fl [T_0F, T_YMM]) 0xC2 (.c 0x09))⟩,
  ⟨1153, n!"vcmpngesd", [.xmm, .xmm, .op], 0, .leaf (.avx3 (.a 0) (.a 1) (.a 2) (fl [T_F2, T_0F]) 0xC2 (.c 0x09))⟩,
  ⟨1154, n!"vcmpngess", [.xmm, .xmm, .op], 0, .leaf (.avx3 (.a 0) (.a 1) (.a 2) (fl [T_F3, T_0F]) 0xC2 (.c 0x09))⟩,
  ⟨1155, n!"vcmpngt_uqpd", [.xmm, .xmm, .op], 0, .leaf (.avx3 (.a 0) (.a 1) (.a 2) (fl [T_66, T_0F, T_YMM]) 0xC2 (.c 0x1A))⟩,
  ⟨1156, n!"vcmpngt_uqps", [.xmm, .xmm, .op], 0, .leaf (.avx3 (.a 0) (.a 1) (.a 2) (fl [T_0F, T_YMM]) 0xC2 (.c 0x1A))⟩,
  ⟨1157, n!"vcmpngt_uqsd", [.xmm, .xmm, .op], 0, .leaf (.avx3 (.a 0) (.a 1) (.a 2) (fl [T_F2, T_0F]) 0xC2 (.c 0x1A))⟩,
  ⟨1158, n!"vcmpngt_uqss", [.xmm, .xmm, .op], 0, .leaf (.avx3 (.a 0) (.a 1) (.a 2) (fl [T_F3, T_0F]) 0xC2 (.c 0x1A))⟩,
  ⟨1159, n!"vcmpngtpd", [.xmm, .xmm, .op], 0, .leaf (.avx3 (.a 0) (.a 1) (.a 2) (fl [T_66, T_0F, T_YMM]) 0xC2 (.c 0x0A))⟩,
  ⟨1160, n!"vcmpngtps", [.xmm, .xmm, .op], 0, .leaf (.avx3 (.a 0) (.a 1) (.a 2) (fl [T_0F, T_YMM]) 0xC2 (.c 0x0A))⟩,
  ⟨1161, n!"vcmpngtsd", [.xmm, .xmm, .op], 0, .leaf (.avx3 (.a 0) (.a 1) (.a 2) (fl [T_F2, T_0F]) 0xC2 (.c 0x0A))⟩,
  ⟨1162, n!"vcmpngtss", [.xmm, .xmm, .op], 0, .leaf (.avx3 (.a 0) (.a 1) (.a 2) (fl [T_F3, T_0F]) 0xC2 (.c 0x0A))⟩,
  ⟨1163, n!"vcmpnle_uqpd", [.xmm, .xmm, .op], 0, .leaf (.avx3 (.a 0) (.a 1) (.a 2) (fl [T_66, T_0F, T_YMM]) 0xC2 (.c 0x16))⟩,
  ⟨1164, n!"vcmpnle_uqps", [.xmm, .xmm, .op], 0, .leaf (.avx3 (.a 0) (.a 1) (.a 2) (fl [T_0F, T_YMM]) 0xC2 (.c 0x16))⟩,
  ⟨1165, n!"vcmpnle_uqsd", [.xmm, .xmm, .op], 0, .leaf (.avx3 (.a 0) (.a 1) (.a 2) (fl [T_F2, T_0F]) 0xC2 (.c 0x16))⟩,
  ⟨1166, n!"vcmpnle_uqss", [.xmm, .xmm, .op], 0, .leaf (.avx3 (.a 0) (.a 1) (.a 2) (fl [T_F3, T_0F]) 0xC2 (.c 0x16))⟩,
  ⟨1167, n!"vcmpnlepd", [.xmm, .xmm, .op], 0, .leaf (.avx3 (.a 0) (.a 1) (.a 2) (fl [T_66, T_0F, T_YMM]) 0xC2 (.c 0x06))⟩,
  ⟨1168, n!"vcmpnleps", [.xmm, .xmm, .op], 0, .leaf (.avx3 (.a 0) (.a 1) (.a 2) (fl [T_0F, T_YMM]) 0xC2 (.c 0x06))⟩,
  ⟨1169, n!"vcmpnlesd", [.xmm, .xmm, .op], 0, .leaf (.avx3 (.a 0) (.a 1) (.a 2) (fl [T_F2, T_0F]) 0xC2 (.c 0x06))⟩,
  ⟨1170, n!"vcmpnless", [.xmm, .xmm, .op], 0, .leaf (.avx3 (.a 0) (.a 1) (.a 2) (fl [T_F3, T_0F]) 0xC2 (.c 0x06))⟩,
  ⟨1171, n!"vcmpnlt_uqpd", [.xmm, .xmm, .op], 0, .leaf (.avx3 (.a 0) (.a 1) (.a 2) (fl [T_66, T_0F, T_YMM]) 0xC2 (.c 0x15))⟩,
  ⟨1172, n!"vcmpnlt_uqps", [.xmm, .xmm, .op], 0, .leaf (.avx3 (.a 0) (.a 1) (.a 2) (fl [T_0F, T_YMM]) 0xC2 (.c 0x15))⟩,
  ⟨1173, n!"vcmpnlt_uqsd", [.xmm, .xmm, .op], 0, .leaf (.avx3 (.a 0) (.a 1) (.a 2) (fl [T_F2, T_0F]) 0xC2 (.c 0x15))⟩,
  ⟨1174, n!"vcmpnlt_uqss", [.xmm, .xmm, .op], 0, .leaf (.avx3 (.a 0) (.a 1) (.a 2) (fl [T_F3, T_0F]) 0xC2 (.c 0x15))⟩,
  ⟨1175, n!"vcmpnltpd", [.xmm, .xmm, .op], 0, .leaf (.avx3 (.a 0) (.a 1) (.a 2) (fl [T_66, T_0F, T_YMM]) 0xC2 (.c 0x05))⟩,
  ⟨1176, n!"vcmpnltps", [.xmm, .xmm, .op], 0, .leaf (.avx3 (.a 0) (.a 1) (.a 2) (fl [T_0F, T_YMM]) 0xC2 (.c 0x05))⟩,
  ⟨1177, n!"vcmpnltsd", [.xmm, .xmm, .op], 0, .leaf (.avx3 (.a 0) (.a 1) (.a 2) (fl [T_F2, T_0F]) 0xC2 (.c 0x05))⟩,
  ⟨1178, n!"vcmpnltss", [.xmm, .xmm, .op], 0, .leaf (.avx3 (.a 0) (.a 1) (.a 2) (fl [T_F3, T_0F]) 0xC2 (.c 0x05))⟩,
  ⟨1179, n!"vcmpord_spd", [.xmm, .xmm, .op], 0, .leaf (.avx3 (.a 0) (.a 1) (.a 2) (fl [T_66, T_0F, T_YMM]) 0xC2 (.c 0x17))⟩,
  ⟨1180, n!"vcmpord_sps", [.xmm, .xmm, .op], 0, .leaf (.avx3 (.a 0) (.a 1) (.a 2) (fl [T_0F, T_YMM]) 0xC2 (.c 0x17))⟩,
  ⟨1181, n!"vcmpord_ssd", [.xmm, .xmm, .op], 0, .leaf (.avx3 (.a 0) (.a 1) (.a 2) (fl [T_F2, T_0F]) 0xC2 (.c 0x17))⟩,
  ⟨1182, n!"vcmpord_sss", [.xmm, .xmm, .op], 0, .leaf (.avx3 (.a 0) (.a 1) (.a 2) (fl [T_F3, T_0F]) 0xC2 (.c 0x17))⟩,
  ⟨1183, n!"vcmpordpd", [.xmm, .xmm, .op], 0, .leaf (.avx3 (.a 0) (.a 1) (.a 2) (fl [T_66, T_0F, T_YMM]) 0xC2 (.c 0x07))⟩,
  ⟨1184, n!"vcmpordps", [.xmm, .xmm, .op], 0, .leaf (.avx3 (.a 0) (.a 1) (.a 2) (fl [T_0F, T_YMM]) 0xC2 (.c 0x07))⟩,
  ⟨1185, n!"vcmpordsd", [.xmm, .xmm, .op], 0, .leaf (.avx3 (.a 0) (.a 1) (.a 2) (fl [T_F2, T_0F]) 0xC2 (.c 0x07))⟩,
  ⟨1186, n!"vcmpordss", [.xmm, .xmm, .op], 0, .leaf (.avx3 (.a 0) (.a 1) (.a 2) (fl [T_F3, T_0F]) 0xC2 (.c 0x07))⟩,
  ⟨1187, n!"vcmppd", [.xmm, .xmm, .op, .int], 0, .leaf (.avx3 (.a 0) (.a 1) (.a 2) (fl [T_66, T_0F, T_YMM]) 0xC2 (.i 0))⟩,
  ⟨1188, n!"vcmpps", [.xmm, .xmm, .op, .int], 0, .leaf (.avx3 (.a 0) (.a 1) (.a 2) (fl [T_0F, T_YMM]) 0xC2 (.i 0))⟩,
  ⟨1189, n!"vcmpsd", [.xmm, .xmm, .op, .int], 0, .leaf (.avx3 (.a 0) (.a 1) (.a 2) (fl [T_F2, T_0F]) 0xC2 (.i 0))⟩,
  ⟨1190, n!"vcmpss", [.xmm, .xmm, .op, .int], 0, .leaf (.avx3 (.a 0) (.a 1) (.a 2) (fl [T_F3, T_0F]) 0xC2 (.i 0))⟩,
  ⟨1191, n!"vcmptrue_uspd", [.xmm, .xmm, .op], 0, .leaf (.avx3 (.a 0) (.a 1) (.a 2) (fl [T_66, T_0F, T_YMM]) 0xC2 (.c 0x1F))⟩,
  ⟨1192, n!"vcmptrue_usps", [.xmm, .xmm, .op], 0, .leaf (.avx3 (.a 0) (.a 1) (.a 2) (fl [T_0F, T_YMM]) 0xC2 (.c 0x1F))⟩,
  ⟨1193, n!"vcmptrue_ussd", [.xmm, .xmm, .op], 0, .leaf (.avx3 (.a 0) (.a 1) (.a 2) (fl [T_F2, T_0F]) 0xC2 (.c 0x1F))⟩,
  ⟨1194, n!"vcmptrue_usss", [.xmm, .xmm, .op], 0, .leaf (.avx3 (.a 0) (.a 1) (.a 2) (fl [T_F3, T_0F]) 0xC2 (.c 0x1F))⟩,
  ⟨1195, n!"vcmptruepd", [.xmm, .xmm, .op], 0, .leaf (.avx3 (.a 0) (.a 1) (.a 2) (fl [T_66, T_0F, T_YMM]) 0xC2 (.c 0x0F))⟩,
  ⟨1196, n!"vcmptrueps", [.xmm, .xmm, .op], 0, .leaf (.avx3 (.a 0) (.a 1) (.a 2) (fl [T_0F, T_YMM]) 0xC2 (.c 0x0F))⟩,
  ⟨1197, n!"vcmptruesd", [.xmm, .xmm, .op], 0, .leaf (.avx3 (.a 0) (.a 1) (.a 2) (fl [T_F2, T_0F]) 0xC2 (.c 0x0F))⟩,
  ⟨1198, n!"vcmptruess", [.xmm, .xmm, .op], 0, .leaf (.avx3 (.a 0) (.a 1) (.a 2) (fl [T_F3, T_0F]) 0xC2 (.c 0x0F))⟩,
  ⟨1199, n!"vcmpunord_spd", [.xmm, .xmm, .op], 0, .leaf (.avx3 (.a 0) (.a 1) (.a 2) (fl [T_66, T_0F, T_YMM]) 0xC2 (.c 0x13))⟩,
  ⟨1200, n!"vcmpunord_sps", [.xmm, .xmm, .op], 0, .leaf (.avx3 (.a 0) (.a 1) (.a 2) (fl [T_0F, T_YMM]) 0xC2 (.c 0x13))⟩,
  ⟨1201, n!"vcmpunord_ssd", [.xmm, .xmm, .op], 0, .leaf (.avx3 (.a 0) (.a 1) (.a 2) (fl [T_F2, T_0F]) 0xC2 (.c 0x13))⟩,
  ⟨1202, n!"vcmpunord_sss", [.xmm, .xmm, .op], 0, .leaf (.avx3 (.a 0) (.a 1) (.a 2) (fl [T_F3, T_0F]) 0xC2 (.c 0x13))⟩,
  ⟨1203, n!"vcmpunordpd", [.xmm, .xmm, .op], 0, .leaf (.avx3 (.a 0) (.a 1) (.a 2) (fl [T_66, T_0F, T_YMM]) 0xC2 (.c 0x03))⟩,
  ⟨1204, n!"vcmpunordps", [.xmm, .xmm, .op], 0, .leaf (.avx3 (.a 0) (.a 1) (.a 2) (fl [T_0F, T_YMM]) 0xC2 (.c 0x03))⟩,
  ⟨1205, n!"vcmpunordsd", [.xmm, .xmm, .op], 0, .leaf (.avx3 (.a 0) (.a 1) (.a 2) (fl [T_F2, T_0F]) 0xC2 (.c 0x03))⟩,
  ⟨1206, n!"vcmpunordss", [.xmm, .xmm, .op], 0, .leaf (.avx3 (.a 0) (.a 1) (.a 2) (fl [T_F3, T_0F]) 0xC2 (.c 0x03))⟩,
  ⟨1207, n!"vcomisd", [.xmm, .op], 0, .leaf (.avx2 (.a 0) (.a 1) (fl [T_N8, T_66, T_0F, T_EW1, T_EVEX, T_SAE_X]) 0x2F .none)⟩,
  ⟨1208, n!"vcomiss", [.xmm, .op], 0, .leaf (.avx2 (.a 0) (.a 1) (fl [T_N4, T_0F, T_EW0, T_EVEX, T_SAE_X]) 0x2F .none)⟩,
  ⟨1209, n!"vcvtdq2pd", [.xmm, .op], 0, .check .cvt1 (.a 0) (.a 1) (.leaf (.vex (.a 0) none (.a 1) (fl [T_0F, T_F3, T_YMM, T_EVEX, T_EW0, T_B32, T_N8, T_N_VL]) 0xE6 .none))⟩,
  ⟨1210, n!"vcvtdq2ps", [.xmm, .op], 0, .leaf (.avx2 (.a 0) (.a 1) (fl [T_0F, T_EW0, T_YMM, T_EVEX, T_ER_Z, T_B32]) 0x5B .none)⟩,
  ⟨1211, n!"vcvtneebf162ps", [.xmm, .addr], 0, .leaf (.vex (.a 0) none (.a 1) (fl [T_F3, T_0F38, T_W0, T_YMM]) 0xB0 .none)⟩,
  ⟨1212, n!"vcvtneeph2ps", [.xmm, .addr], 0, .leaf (.vex (.a 0) none (.a 1) (fl [T_66, T_0F38, T_W0, T_YMM]) 0xB0 .none)⟩,
  ⟨1213, n!"vcvtneobf162ps", [.xmm, .addr], 0, .leaf (.vex (.a 0) none (.a 1) (fl [T_F2, T_0F38, T_W0, T_YMM]) 0xB0 .none)⟩,
  ⟨1214, n!"vcvtneoph2ps", [.xmm, .addr], 0, .leaf (.vex (.a 0) none (.a 1) (fl [T_0F38, T_W0, T_YMM]) 0xB0 .none)⟩,
  ⟨1215, n!"vcvtneps2bf16", [.xmm, .op, .enc], 0, .leaf (.cvt2Enc (.a 0) (.a 1) (fl [T_F3, T_0F38, T_EW0, T_YMM, T_SAE_Z, T_B32]) 0x72 0 T_MUST_EVEX 0)⟩,
  ⟨1216, n!"vcvtpd2dq", [.xmm, .op], 0, .leaf (.cvt2 (.a 0) (.a 1) (fl [T_0F, T_F2, T_YMM, T_EVEX, T_EW1, T_B64, T_ER_Z]) 0xE6)⟩,
  ⟨1217, n!"vcvtpd2ps", [.xmm, .op], 0, .leaf (.cvt2 (.a 0) (.a 1) (fl [T_0F, T_66, T_YMM, T_EVEX, T_EW1, T_B64, T_ER_Z]) 0x5A)⟩,
  ⟨1218, n!"vcvtph2ps", [.xmm, .op], 0, .check .cvt1 (.a 0) (.a 1) (.leaf (.vex (.a 0) none (.a 1) (fl [T_0F38, T_66, T_W0, T_EVEX, T_EW0, T_N8, T_N_VL, T_SAE_Y]) 0x13 .none))⟩,
  ⟨1219, n!"vcvtps2dq", [.xmm, .op], 0, .leaf (.avx2 (.a 0) (.a 1) (fl [T_66, T_0F, T_EW0, T_YMM, T_EVEX, T_ER_Z, T_B32]) 0x5B .none)⟩,
  ⟨1220, n!"vcvtps2pd", [.xmm, .op], 0, .check .cvt1 (.a 0) (.a 1) (.leaf (.vex (.a 0) none (.a 1) (fl [T_0F, T_YMM, T_EVEX, T_EW0, T_B32, T_N8, T_N_VL, T_SAE_Y]) 0x5A .none))⟩,
  ⟨1221, n!"vcvtps2ph", [.op, .xmm, .int], 0, .check .cvt1 (.a 1) (.a 0) (.leaf (.vex (.a 1) none (.a 0) (fl [T_0F3A, T_66, T_W0, T_EVEX, T_EW0, T_N8, T_N_VL, T_SAE_Y, T_M_K]) 0x1D (.i 0)))⟩,
  ⟨1222, n!"vcvtsd2si", [.reg32, .op], 0, .leaf (.avx3 (.xmmOf 0) (.r (.xmm 0)) (.a 1) (fl [T_0F, T_F2, T_W0, T_EVEX, T_EW0, T_N4, T_ER_X]) 0x2D .none)⟩,
  ⟨1223, n!"vcvtsd2ss", [.xmm, .xmm, .op], 0, .leaf (.avx3 (.a 0) (.a 1) (.a 2) (fl [T_N8, T_F2, T_0F, T_EW1, T_EVEX, T_ER_X]) 0x5A .none)⟩,
  ⟨1224, n!"vcvtsi2sd", [.xmm, .xmm, .op], 0, .leaf (.cvt3 (.a 0) (.a 1) (.a 2) (fl [T_0F, T_F2, T_EVEX]) (fl [T_W1, T_EW1, T_ER_X, T_N8]) (fl [T_W0, T_EW0, T_N4]) 0x2A)⟩,
  ⟨1225, n!"vcvtsi2ss", [.xmm, .xmm, .op], 0, .leaf (.cvt3 (.a 0) (.a 1) (.a 2) (fl [T_0F, T_F3, T_EVEX, T_ER_X]) (fl [T_W1, T_EW1, T_N8]) (fl [T_W0, T_EW0, T_N4]) 0x2A)⟩,
  ⟨1226, n!"vcvtss2sd", [.xmm, .xmm, .op], 0, .leaf (.avx3 (.a 0) (.a 1) (.a 2) (fl [T_N4, T_F3, T_0F, T_EW0, T_EVEX, T_SAE_X]) 0x5A .none)⟩,
  ⟨1227, n!"vcvtss2si", [.reg32, .op], 0, .leaf (.avx3 (.xmmOf 0) (.r (.xmm 0)) (.a 1) (fl [T_0F, T_F3, T_W0, T_EVEX, T_EW0, T_ER_X, T_N8]) 0x2D .none)⟩,
  ⟨1228, n!"vcvttpd2dq", [.xmm, .op], 0, .leaf (.cvt2 (.a 0) (.a 1) (fl [T_66, T_0F, T_YMM, T_EVEX, T_EW1, T_B64, T_SAE_Z]) 0xE6)⟩,
  ⟨1229, n!"vcvttps2dq", [.xmm, .op], 0, .leaf (.avx2 (.a 0) (.a 1) (fl [T_F3, T_0F, T_EW0, T_YMM, T_EVEX, T_SAE_Z, T_B32]) 0x5B .none)⟩,
  ⟨1230, n!"vcvttsd2si", [.reg32, .op], 0, .leaf (.avx3 (.xmmOf 0) (.r (.xmm 0)) (.a 1) (fl [T_0F, T_F2, T_W0, T_EVEX, T_EW0, T_N4, T_SAE_X]) 0x2C .none)⟩,
  ⟨1231, n!"vcvttss2si", [.reg32, .op], 0, .leaf (.avx3 (.xmmOf 0) (.r (.xmm 0)) (.a 1) (fl [T_0F, T_F3, T_W0, T_EVEX, T_EW0, T_SAE_X, T_N8]) 0x2C .none)⟩,
  ⟨1232, n!"vdivpd", [.xmm, .op, .op], 1, .leaf (.avx3 (.a 0) (.a 1) (.a 2) (fl [T_0F, T_66, T_EW1, T_YMM, T_EVEX, T_ER_Z, T_B64]) 0x5E .none)⟩,
  ⟨1233, n!"vdivps", [.xmm, .op, .op], 1, .leaf (.avx3 (.a 0) (.a 1) (.a 2) (fl [T_0F, T_EW0, T_YMM, T_EVEX, T_ER_Z, T_B32]) 0x5E .none)⟩,
  ⟨1234, n!"vdivsd", [.xmm, .op, .op], 1, .leaf (.avx3 (.a 0) (.a 1) (.a 2) (fl [T_0F, T_F2, T_EW1, T_EVEX, T_ER_X, T_N8]) 0x5E .none)⟩,
  ⟨1235, n!"vdivss", [.xmm, .op, .op], 1, .leaf (.avx3 (.a 0) (.a 1) (.a 2) (fl [T_0F, T_F3, T_EW0, T_EVEX, T_ER_X, T_N4]) 0x5E .none)⟩,
  ⟨1236, n!"vdppd", [.xmm, .xmm, .op, .int], 0, .leaf (.avx3 (.a 0) (.a 1) (.a 2) (fl [T_66, T_0F3A, T_W0]) 0x41 (.i 0))⟩,
  ⟨1237, n!"vdpps", [.xmm, .xmm, .op, .int], 0, .leaf (.avx3 (.a 0) (.a 1) (.a 2) (fl [T_66, T_0F3A, T_W0, T_YMM]) 0x40 (.i 0))⟩,
  ⟨1238, n!"vextractf128", [.op, .ymm, .int], 0, .guard (fun g => !(((g.reg 0).isXMM || (g.op 0).isMEM) && (g.reg 1).isYMM)) .BAD_COMBINATION (.leaf (.vex (.a 1) none (.a 0) (fl [T_0F3A, T_66, T_W0, T_YMM]) 0x19 (.i 0)))⟩,
  ⟨1239, n!"vextracti128", [.op, .ymm, .int], 0, .guard (fun g => !(((g.reg 0).isXMM || (g.op 0).isMEM) && (g.reg 1).isYMM)) .BAD_COMBINATION (.leaf (.vex (.a 1) none (.a 0) (fl [T_0F3A, T_66, T_W0, T_YMM]) 0x39 (.i 0)))⟩,
  ⟨1240, n!"vextractps", [.op, .xmm, .int], 0, .guard (fun g => !(((g.reg 0).isREG 32 || (g.op 0).isMEM) && (g.reg 1).isXMM)) .BAD_COMBINATION (.leaf (.vex (.a 1) none (.a 0) (fl [T_0F3A, T_66, T_W0, T_EVEX, T_N4]) 0x17 (.i 0)))⟩,
  ⟨1241, n!"vfmadd132pd", [.xmm, .xmm, .op], 0, .leaf (.avx3 (.a 0) (.a 1) (.a 2) (fl [T_66, T_0F38, T_W1, T_EW1, T_YMM, T_EVEX, T_ER_Z, T_B64]) 0x98 .none)⟩,
  ⟨1242, n!"vfmadd132ps", [.xmm, .xmm, .op], 0, .leaf (.avx3 (.a 0) (.a 1) (.a 2) (fl [T_66, T_0F38, T_W0, T_EW0, T_YMM, T_EVEX, T_ER_Z, T_B32]) 0x98 .none)⟩,
  ⟨1243, n!"vfmadd132sd", [.xmm, .xmm, .op], 0, .leaf (.avx3 (.a 0) (.a 1) (.a 2) (fl [T_N8, T_66, T_0F38, T_W1, T_EW1, T_EVEX, T_ER_X]) 0x99 .none)⟩,
  ⟨1244, n!"vfmadd132ss", [.xmm, .xmm, .op], 0, .leaf (.avx3 (.a 0) (.a 1) (.a 2) (fl [T_N4, T_66, T_0F38, T_W0, T_EW0, T_EVEX, T_ER_X]) 0x99 .none)⟩,
  ⟨1245, n!"vfmadd213pd", [.xmm, .xmm, .op], 0, .leaf (.avx3 (.a 0) (.a 1) (.a 2) (fl [T_66, T_0F38, T_W1, T_EW1, T_YMM, T_EVEX, T_ER_Z, T_B64]) 0xA8 .none)⟩,
  ⟨1246, n!"vfmadd213ps", [.xmm, .xmm, .op], 0, .leaf (.avx3 (.a 0) (.a 1) (.a 2) (fl [T_66, T_0F38, T_W0, T_EW0, T_YMM, T_EVEX, T_ER_Z, T_B32]) 0xA8 .none)⟩,
  ⟨1247, n!"vfmadd213sd", [.xmm, .xmm, .op], 0, .leaf (.avx3 (.a 0) (.a 1) (.a 2) (fl [T_N8, T_66, T_0F38, T_W1, T_EW1, T_EVEX, T_ER_X]) 0xA9 .none)⟩,
  ⟨1248, n!"vfmadd213ss", [.xmm, .xmm, .op], 0, .leaf (.avx3 (.a 0) (.a 1) (.a 2) (fl [T_N4, T_66, T_0F38, T_W0, T_EW0, T_EVEX, T_ER_X]) 0xA9 .none)⟩,
  ⟨1249, n!"vfmadd231pd", [.xmm, .xmm, .op], 0, .leaf (.avx3 (.a 0) (.a 1) (.a 2) (fl [T_66, T_0F38, T_W1, T_EW1, T_YMM, T_EVEX, T_ER_Z, T_B64]) 0xB8 .none)⟩,
  ⟨1250, n!"vfmadd231ps", [.xmm, .xmm, .op], 0, .leaf (.avx3 (.a 0) (.a 1) (.a 2) (fl [T_66, T_0F38, T_W0, T_EW0, T_YMM, T_EVEX, T_ER_Z, T_B32]) 0xB8 .none)⟩,
  ⟨1251, n!"vfmadd231sd", [.xmm, .xmm, .op], 0, .leaf (.avx3 (.a 0) (.a 1) (.a 2) (fl [T_N8, T_66, T_0F38, T_W1, T_EW1, T_EVEX, T_ER_X]) 0xB9 .none)⟩,
  ⟨1252, n!"vfmadd231ss", [.xmm, .xmm, .op], 0, .leaf (.avx3 (.a 0) (.a 1) (.a 2) (fl [T_N4, T_66, T_0F38, T_W0, T_EW0, T_EVEX, T_ER_X]) 0xB9 .none)⟩,
  ⟨1253, n!"vfmaddsub132pd", [.xmm, .xmm, .op], 0, .leaf (.avx3 (.a 0) (.a 1) (.a 2) (fl [T_66, T_0F38, T_W1, T_EW1, T_YMM, T_EVEX, T_ER_Z, T_B64]) 0x96 .none)⟩,
  ⟨1254, n!"vfmaddsub132ps", [.xmm, .xmm, .op], 0, .leaf (.avx3 (.a 0) (.a 1) (.a 2) (fl [T_66, T_0F38, T_W0, T_EW0, T_YMM, T_EVEX, T_ER_Z, T_B32]) 0x96 .none)⟩,
  ⟨1255, n!"vfmaddsub213pd", [.xmm, .xmm, .op], 0, .leaf (.avx3 (.a 0) (.a 1) (.a 2) (fl [T_66, T_0F38, T_W1, T_EW1, T_YMM, T_EVEX, T_ER_Z, T_B64]) 0xA6 .none)⟩,
  ⟨1256, n!"vfmaddsub213ps", [.xmm, .xmm, .op], 0, .leaf (.avx3 (.a 0) (.a 1) (.a 2) (fl [T_66, T_0F38, T_W0, T_EW0, T_YMM, T_EVEX, T_ER_Z, T_B32]) 0xA6 .none)⟩,
  ⟨1257, n!"vfmaddsub231pd", [.xmm, .xmm, .op], 0, .leaf (.avx3 (.a 0) (.a 1) (.a 2) (fl [T_66, T_0F38, T_W1, T_EW1, T_YMM, T_EVEX, T_ER_Z, T_B64]) 0xB6 .none)⟩,
  ⟨1258, n!"vfmaddsub231ps", [.xmm, .xmm, .op], 0, .leaf (.avx3 (.a 0) (.a 1) (.a 2) (fl [T_66, T_0F38, T_W0, T_EW0, T_YMM, T_EVEX, T_ER_Z, T_B32]) 0xB6 .none)⟩,
  ⟨1259, n!"vfmsub132pd", [.xmm, .xmm, .op], 0, .leaf (.avx3 (.a 0) (.a 1) (.a 2) (fl [T_66, T_0F38, T_W1, T_EW1, T_YMM, T_EVEX, T_ER_Z, T_B64]) 0x9A .none)⟩,
  ⟨1260, n!"vfmsub132ps", [.xmm, .xmm, .op], 0, .leaf (.avx3 (.a 0) (.a 1) (.a 2) (fl [T_66, T_0F38, T_W0, T_EW0, T_YMM, T_EVEX, T_ER_Z, T_B32]) 0x9A .none)⟩,
  ⟨1261, n!"vfmsub132sd", [.xmm, .xmm, .op], 0, .leaf (.avx3 (.a 0) (.a 1) (.a 2) (fl [T_N8, T_66, T_0F38, T_W1, T_EW1, T_EVEX, T_ER_X]) 0x9B .none)⟩,
  ⟨1262, n!"vfmsub132ss", [.xmm, .xmm, .op], 0, .leaf (.avx3 (.a 0) (.a 1) (.a 2) (fl [T_N4, T_66, T_0F38, T_W0, T_EW0, T_EVEX, T_ER_X]) 0x9B .none)⟩,
  ⟨1263, n!"vfmsub213pd", [.xmm, .xmm, .op], 0, .leaf (.avx3 (.a 0) (.a 1) (.a 2) (fl [T_66, T_0F38, T_W1, T_EW1, T_YMM, T_EVEX, T_ER_Z, T_B64]) 0xAA .none)⟩,
  ⟨1264, n!"vfmsub213ps", [.xmm, .xmm, .op], 0, .leaf (.avx3 (.a 0) (.a 1) (.a 2) (fl [T_66, T_0F38, T_W0, T_EW0, T_YMM, T_EVEX, T_ER_Z, T_B32]) 0xAA .none)⟩,
  ⟨1265, n!"vfmsub213sd", [.xmm, .xmm, .op], 0, .leaf (.avx3 (.a 0) (.a 1) (.a 2) (fl [T_N8, T_66, T_0F38, T_W1, T_EW1, T_EVEX, T_ER_X]) 0xAB .none)⟩,
  ⟨1266, n!"vfmsub213ss", [.xmm, .xmm, .op], 0, .leaf (.avx3 (.a 0) (.a 1) (.a 2) (fl [T_N4, T_66, T_0F38, T_W0, T_EW0, T_EVEX, T_ER_X]) 0xAB .none)⟩,
  ⟨1267, n!"vfmsub231pd", [.xmm, .xmm, .op], 0, .leaf (.avx3 (.a 0) (.a 1) (.a 2) (fl [T_66, T_0F38, T_W1, T_EW1, T_YMM, T_EVEX, T_ER_Z, T_B64]) 0xBA .none)⟩,
  ⟨1268, n!"vfmsub231ps", [.xmm, .xmm, .op], 0, .leaf (.avx3 (.a 0) (.a 1) (.a 2) (fl [T_66, T_0F38, T_W0, T_EW0, T_YMM, T_EVEX, T_ER_Z, T_B32]) 0xBA .none)⟩,
  ⟨1269, n!"vfmsub231sd", [.xmm, .xmm, .op], 0, .leaf (.avx3 (.a 0) (.a 1) (.a 2) (fl [T_N8, T_66, T_0F38, T_W1, T_EW1, T_EVEX, T_ER_X]) 0xBB .none)⟩,
  ⟨1270, n!"vfmsub231ss", [.xmm, .xmm, .op], 0, .leaf (.avx3 (.a 0) (.a 1) (.a 2) (fl [T_N4, T_66, T_0F38, T_W0, T_EW0, T_EVEX, T_ER_X]) 0xBB .none)⟩,
  ⟨1271, n!"vfmsubadd132pd", [.xmm, .xmm, .op], 0, .leaf (.avx3 (.a 0) (.a 1) (.a 2) (fl [T_66, T_0F38, T_W1, T_EW1, T_YMM, T_EVEX, T_ER_Z, T_B64]) 0x97 .none)⟩,
  ⟨1272, n!"vfmsubadd132ps", [.xmm, .xmm, .op], 0, .leaf (.avx3 (.a 0) (.a 1) (.a 2) (fl [T_66, T_0F38, T_W0, T_EW0, T_YMM, T_EVEX, T_ER_Z, T_B32]) 0x97 .none)⟩,
  ⟨1273, n!"vfmsubadd213pd", [.xmm, .xmm, .op], 0, .leaf (.avx3 (.a 0) (.a 1) (.a 2) (fl [T_66, T_0F38, T_W1, T_EW1, T_YMM, T_EVEX, T_ER_Z, T_B64]) 0xA7 .none)⟩,
  ⟨1274, n!"vfmsubadd213ps", [.xmm, .xmm, .op], 0, .leaf (.avx3 (.a 0) (.a 1) (.a 2) (fl [T_66, T_0F38, T_W0, T_EW0, T_YMM, T_EVEX, T_ER_Z, T_B32]) 0xA7 .none)⟩,
  ⟨1275, n!"vfmsubadd231pd", [.xmm, .xmm, .op], 0, .leaf (.avx3 (.a 0) (.a 1) (.a 2) (fl [T_66, T_0F38, T_W1, T_EW1, T_YMM, T_EVEX, T_ER_Z, T_B64]) 0xB7 .none)⟩,
  ⟨1276, n!"vfmsubadd231ps", [.xmm, .xmm, .op], 0, .leaf (.avx3 (.a 0) (.a 1) (.a 2) (fl [T_66, T_0F38, T_W0, T_EW0, T_YMM, T_EVEX, T_ER_Z, T_B32]) 0xB7 .none)⟩,
  ⟨1277, n!"vfnmadd132pd", [.xmm, .xmm, .op], 0, .leaf (.avx3 (.a 0) (.a 1) (.a 2) (fl [T_66, T_0F38, T_W1, T_EW1, T_YMM, T_EVEX, T_ER_Z, T_B64]) 0x9C .none)⟩,
  ⟨1278, n!"vfnmadd132ps", [.xmm, .xmm, .op], 0, .leaf (.avx3 (.a 0) (.a 1) (.a 2) (fl [T_66, T_0F38, T_W0, T_EW0, T_YMM, T_EVEX, T_ER_Z, T_B32]) 0x9C .none)⟩,
  ⟨1279, n!"vfnmadd132sd", [.xmm, .xmm, .op], 0, .leaf (.avx3 (.a 0) (.a 1) (.a 2) (fl [T_N8, T_66, T_0F38, T_W1, T_EW1, T_EVEX, T_ER_X]) 0x9D .none)⟩,
  ⟨1280, n!"vfnmadd132ss", [.xmm, .xmm, .op], 0, .leaf (.avx3 (.a 0) (.a 1) (.a 2) (fl [T_N4, T_66, T_0F38, T_W0, T_EW0, T_EVEX, T_ER_X]) 0x9D .none)⟩,
  ⟨1281, n!"vfnmadd213pd", [.xmm, .xmm, .op], 0, .leaf (.avx3 (.a 0) (.a 1) (.a 2) (fl [T_66, T_0F38, T_W1, T_EW1, T_YMM, T_EVEX, T_ER_Z, T_B64]) 0xAC .none)⟩,
  ⟨1282, n!"vfnmadd213ps", [.xmm, .xmm, .op], 0, .leaf (.avx3 (.a 0) (.a 1) (.a 2) (fl [T_66, T_0F38, T_W0, T_EW0, T_YMM, T_EVEX, T_ER_Z, T_B32]) 0xAC .none)⟩,
  ⟨1283, n!"vfnmadd213sd", [.xmm, .xmm, .op], 0, .leaf (.avx3 (.a 0) (.a 1) (.a 2) (fl [T_N8, T_66, T_0F38, T_W1, T_EW1, T_EVEX, T_ER_X]) 0xAD .none)⟩,
  ⟨1284, n!"vfnmadd213ss", [.xmm, .xmm, .op], 0, .leaf (.avx3 (.a 0) (.a 1) (.a 2) (fl [T_N4, T_66, T_0F38, T_W0, T_EW0, T_EVEX, T_ER_X]) 0xAD .none)⟩,
  ⟨1285, n!"vfnmadd231pd", [.xmm, .xmm, .op], 0, .leaf (.avx3 (.a 0) (.a 1) (.a 2) (fl [T_66, T_0F38, T_W1, T_EW1, T_YMM, T_EVEX, T_ER_Z, T_B64]) 0xBC .none)⟩,
  ⟨1286, n!"vfnmadd231ps", [.xmm, .xmm, .op], 0, .leaf (.avx3 (.a 0) (.a 1) (.a 2) (fl [T_66, T_0F38, T_W0, T_EW0, T_YMM, T_EVEX, T_ER_Z, T_B32]) 0xBC .none)⟩,
  ⟨1287, n!"vfnmadd231sd", [.xmm, .xmm, .op], 0, .leaf (.avx3 (.a 0) (.a 1) (.a 2) (fl [T_N8, T_66, T_0F38, T_W1, T_EW1, T_EVEX, T_ER_X]) 0xBD .none)⟩,
  ⟨1288, n!"vfnmadd231ss", [.xmm, .xmm, .op], 0, .leaf (.avx3 (.a 0) (.a 1) (.a 2) (fl [T_N4, T_66, T_0F38, T_W0, T_EW0, T_EVEX, T_ER_X]) 0xBD .none)⟩,
  ⟨1289, n!"vfnmsub132pd", [.xmm, .xmm, .op], 0, .leaf (.avx3 (.a 0) (.a 1) (.a 2) (fl [T_66, T_0F38, T_W1, T_EW1, T_YMM, T_EVEX, T_ER_Z, T_B64]) 0x9E .none)⟩,
  ⟨1290, n!"vfnmsub132ps", [.xmm, .xmm, .op], 0, .leaf (.avx3 (.a 0) (.a 1) (.a 2) (fl [T_66, T_0F38, T_W0, T_EW0, T_YMM, T_EVEX, T_ER_Z, T_B32]) 0x9E .none)⟩,
  ⟨1291, n!"vfnmsub132sd", [.xmm, .xmm, .op], 0, .leaf (.avx3 (.a 0) (.a 1) (.a 2) (fl [T_N8, T_66, T_0F38, T_W1, T_EW1, T_EVEX, T_ER_X]) 0x9F .none)⟩,
  ⟨1292, n!"vfnmsub132ss", [.xmm, .xmm, .op], 0, .leaf (.avx3 (.a 0) (.a 1) (.a 2) (fl [T_N4, T_66, T_0F38, T_W0, T_EW0, T_EVEX, T_ER_X]) 0x9F .none)⟩,
  ⟨1293, n!"vfnmsub213pd", [.xmm, .xmm, .op], 0, .leaf (.avx3 (.a 0) (.a 1) (.a 2) (fl [T_66, T_0F38, T_W1, T_EW1, T_YMM, T_EVEX, T_ER_Z, T_B64]) 0xAE .none)⟩,
  ⟨1294, n!"vfnmsub213ps", [.xmm, .xmm, .op], 0, .leaf (.avx3 (.a 0) (.a 1) (.a 2) (fl [T_66, T_0F38, T_W0, T_EW0, T_YMM, T_EVEX, T_ER_Z, T_B32]) 0xAE .none)⟩,
  ⟨1295, n!"vfnmsub213sd", [.xmm, .xmm, .op], 0, .leaf (.avx3 (.a 0) (.a 1) (.a 2) (fl [T_N8, T_66, T_0F38, T_W1, T_EW1, T_EVEX, T_ER_X]) 0xAF .none)⟩,
  ⟨1296, n!"vfnmsub213ss", [.xmm, .xmm, .op], 0, .leaf (.avx3 (.a 0) (.a 1) (.a 2) (fl [T_N4, T_66, T_0F38, T_W0, T_EW0, T_EVEX, T_ER_X]) 0xAF .none)⟩,
  ⟨1297, n!"vfnmsub231pd", [.xmm, .xmm, .op], 0, .leaf (.avx3 (.a 0) (.a 1) (.a 2) (fl [T_66, T_0F38, T_W1, T_EW1, T_YMM, T_EVEX, T_ER_Z, T_B64]) 0xBE .none)⟩,
  ⟨1298, n!"vfnmsub231ps", [.xmm, .xmm, .op], 0, .leaf (.avx3 (.a 0) (.a 1) (.a 2) (fl [T_66, T_0F38, T_W0, T_EW0, T_YMM, T_EVEX, T_ER_Z, T_B32]) 0xBE .none)⟩,
  ⟨1299, n!"vfnmsub231sd", [.xmm, .xmm, .op], 0, .leaf (.avx3 (.a 0) (.a 1) (.a 2) (fl [T_N8, T_66, T_0F38, T_W1, T_EW1, T_EVEX, T_ER_X]) 0xBF .none)⟩,
  ⟨1300, n!"vfnmsub231ss", [.xmm, .xmm, .op], 0, .leaf (.avx3 (.a 0) (.a 1) (.a 2) (fl [T_N4, T_66, T_0F38, T_W0, T_EW0, T_EVEX, T_ER_X]) 0xBF .none)⟩,
  ⟨1301, n!"vgatherdpd", [.xmm, .addr, .xmm], 0, .leaf (.gather (.a 0) (.a 1) (.a 2) (fl [T_0F38, T_66, T_YMM, T_VSIB, T_W1]) 0x92 0)⟩,
  ⟨1302, n!"vgatherdps", [.xmm, .addr, .xmm], 0, .leaf (.gather (.a 0) (.a 1) (.a 2) (fl [T_0F38, T_66, T_YMM, T_VSIB, T_W0]) 0x92 1)⟩,
  ⟨1303, n!"vgatherqpd", [.xmm, .addr, .xmm], 0, .leaf (.gather (.a 0) (.a 1) (.a 2) (fl [T_0F38, T_66, T_YMM, T_VSIB, T_W1]) 0x93 1)⟩,
  ⟨1304, n!"vgatherqps", [.xmm, .addr, .xmm], 0, .leaf (.gather (.a 0) (.a 1) (.a 2) (fl [T_0F38, T_66, T_YMM, T_VSIB, T_W0]) 0x93 2)⟩,
  ⟨1305, n!"vgf2p8affineinvqb", [.xmm, .xmm, .op, .int], 0, .leaf (.avx3 (.a 0) (.a 1) (.a 2) (fl [T_66, T_0F3A, T_W1, T_EW1, T_YMM, T_EVEX, T_SAE_Z, T_B64]) 0xCF (.i 0))⟩,
  ⟨1306, n!"vgf2p8affineqb", [.xmm, .xmm, .op, .int], 0, .leaf (.avx3 (.a 0) (.a 1) (.a 2) (fl [T_66, T_0F3A, T_W1, T_EW1, T_YMM, T_EVEX, T_SAE_Z, T_B64]) 0xCE (.i 0))⟩,
  ⟨1307, n!"vgf2p8mulb", [.xmm, .xmm, .op], 0, .leaf (.avx3 (.a 0) (.a 1) (.a 2) (fl [T_66, T_0F38, T_W0, T_EW0, T_YMM, T_EVEX, T_SAE_Z]) 0xCF .none)⟩,
  ⟨1308, n!"vhaddpd", [.xmm, .op, .op], 1, .leaf (.avx3 (.a 0) (.a 1) (.a 2) (fl [T_66, T_0F, T_YMM]) 0x7C .none)⟩,
  ⟨1309, n!"vhaddps", [.xmm, .op, .op], 1, .leaf (.avx3 (.a 0) (.a 1) (.a 2) (fl [T_F2, T_0F, T_YMM]) 0x7C .none)⟩,
  ⟨1310, n!"vhsubpd", [.xmm, .op, .op], 1, .leaf (.avx3 (.a 0) (.a 1) (.a 2) (fl [T_66, T_0F, T_YMM]) 0x7D .none)⟩,
  ⟨1311, n!"vhsubps", [.xmm, .op, .op], 1, .leaf (.avx3 (.a 0) (.a 1) (.a 2) (fl [T_F2, T_0F, T_YMM]) 0x7D .none)⟩,
  ⟨1312, n!"vinsertf128", [.ymm, .ymm, .op, .int], 0, .guard (fun g => !((g.reg 0).isYMM && (g.reg 1).isYMM && ((g.reg 2).isXMM || (g.op 2).isMEM))) .BAD_COMBINATION (.leaf (.vex (.a 0) (some (.a 1)) (.a 2) (fl [T_0F3A, T_66, T_W0, T_YMM]) 0x18 (.i 0)))⟩,
  ⟨1313, n!"vinserti128", [.ymm, .ymm, .op, .int], 0, .guard (fun g => !((g.reg 0).isYMM && (g.reg 1).isYMM && ((g.reg 2).isXMM || (g.op 2).isMEM))) .BAD_COMBINATION (.leaf (.vex (.a 0) (some (.a 1)) (.a 2) (fl [T_0F3A, T_66, T_W0, T_YMM]) 0x38 (.i 0)))⟩,
  ⟨1314, n!"vinsertps", [.xmm, .xmm, .op, .int], 0, .leaf (.avx3 (.a 0) (.a 1) (.a 2) (fl [T_N4, T_66, T_0F3A, T_W0, T_EW0, T_EVEX]) 0x21 (.i 0))⟩,
  ⟨1315, n!"vlddqu", [.xmm, .addr], 0, .leaf (.avx3 (.a 0) (.zeroOf 0) (.a 1) (fl [T_0F, T_F2, T_W0, T_YMM]) 0xF0 .none)⟩,
  ⟨1316, n!"vldmxcsr", [.addr], 0, .leaf (.avx3 (.r (.xmm 2)) (.r (.xmm 0)) (.a 0) T_0F 0xAE .none)⟩,
  ⟨1317, n!"vmaskmovdqu", [.xmm, .xmm], 0, .leaf (.avx3 (.a 0) (.r (.xmm 0)) (.a 1) (fl [T_0F, T_66]) 0xF7 .none)⟩,
  ⟨1318, n!"vmaskmovpd", [.addr, .xmm, .xmm], 0, .leaf (.avx3 (.a 2) (.a 1) (.a 0) (fl [T_0F38, T_66, T_W0, T_YMM]) 0x2F .none)⟩,
  ⟨1319, n!"vmaskmovpd", [.xmm, .xmm, .addr], 0, .leaf (.avx3 (.a 0) (.a 1) (.a 2) (fl [T_0F38, T_66, T_W0, T_YMM]) 0x2D .none)⟩,
  ⟨1320, n!"vmaskmovps", [.addr, .xmm, .xmm], 0, .leaf (.avx3 (.a 2) (.a 1) (.a 0) (fl [T_0F38, T_66, T_W0, T_YMM]) 0x2E .none)⟩,
  ⟨1321, n!"vmaskmovps", [.xmm, .xmm, .addr], 0, .leaf (.avx3 (.a 0) (.a 1) (.a 2) (fl [T_0F38, T_66, T_W0, T_YMM]) 0x2C .none)⟩,
  ⟨1322, n!"vmaxpd", [.xmm, .op, .op], 1, .leaf (.avx3 (.a 0) (.a 1) (.a 2) (fl [T_0F, T_66, T_EW1, T_YMM, T_EVEX, T_SAE_Z, T_B64]) 0x5F .none)⟩,
  ⟨1323, n!"vmaxps", [.xmm, .op, .op], 1, .leaf (.avx3 (.a 0) (.a 1) (.a 2) (fl [T_0F, T_EW0, T_YMM, T_EVEX, T_SAE_Z, T_B32]) 0x5F .none)⟩,
  ⟨1324, n!"vmaxsd", [.xmm, .op, .op], 1, .leaf (.avx3 (.a 0) (.a 1) (.a 2) (fl [T_0F, T_F2, T_EW1, T_EVEX, T_SAE_X, T_N8]) 0x5F .none)⟩,
  ⟨1325, n!"vmaxss", [.xmm, .op, .op], 1, .leaf (.avx3 (.a 0) (.a 1) (.a 2) (fl [T_0F, T_F3, T_EW0, T_EVEX, T_SAE_X, T_N4]) 0x5F .none)⟩,
  ⟨1326, n!"vminpd", [.xmm, .op, .op], 1, .leaf (.avx3 (.a 0) (.a 1) (.a 2) (fl [T_0F, T_66, T_EW1, T_YMM, T_EVEX, T_SAE_Z, T_B64]) 0x5D .none)⟩,
  ⟨1327, n!"vminps", [.xmm, .op, .op], 1, .leaf (.avx3 (.a 0) (.a 1) (.a 2) (fl [T_0F, T_EW0, T_YMM, T_EVEX, T_SAE_Z, T_B32]) 0x5D .none)⟩,
  ⟨1328, n!"vminsd", [.xmm, .op, .op], 1, .leaf (.avx3 (.a 0) (.a 1) (.a 2) (fl [T_0F, T_F2, T_EW1, T_EVEX, T_SAE_X, T_N8]) 0x5D .none)⟩,
  ⟨1329, n!"vminss", [.xmm, .op, .op], 1, .leaf (.avx3 (.a 0) (.a 1) (.a 2) (fl [T_0F, T_F3, T_EW0, T_EVEX, T_SAE_X, T_N4]) 0x5D .none)⟩,
  ⟨1330, n!"vmovapd", [.addr, .xmm], 0, .leaf (.avx2 (.a 1) (.a 0) (fl [T_66, T_0F, T_EW1, T_YMM, T_EVEX, T_M_K]) 0x29 .none)⟩,
  ⟨1331, n!"vmovapd", [.xmm, .op], 0, .leaf (.avx2 (.a 0) (.a 1) (fl [T_66, T_0F, T_EW1, T_YMM, T_EVEX]) 0x28 .none)⟩,
  ⟨1332, n!"vmovaps", [.addr, .xmm], 0, .leaf (.avx2 (.a 1) (.a 0) (fl [T_0F, T_EW0, T_YMM, T_EVEX, T_M_K]) 0x29 .none)⟩,
  ⟨1333, n!"vmovaps", [.xmm, .op], 0, .leaf (.avx2 (.a 0) (.a 1) (fl [T_0F, T_EW0, T_YMM, T_EVEX]) 0x28 .none)⟩,
  ⟨1334, n!"vmovddup", [.xmm, .op], 0, .leaf (.avx2 (.a 0) (.a 1) (fl [T_DUP, T_F2, T_0F, T_EW1, T_YMM, T_EVEX, T_ER_X, T_ER_Y, T_ER_Z]) 0x12 .none)⟩,
  ⟨1335, n!"vmovdqa", [.addr, .xmm], 0, .leaf (.avx2 (.a 1) (.a 0) (fl [T_66, T_0F, T_YMM]) 0x7F .none)⟩,
  ⟨1336, n!"vmovdqa", [.xmm, .op], 0, .leaf (.avx2 (.a 0) (.a 1) (fl [T_66, T_0F, T_YMM]) 0x6F .none)⟩,
  ⟨1337, n!"vmovdqu", [.addr, .xmm], 0, .leaf (.avx2 (.a 1) (.a 0) (fl [T_F3, T_0F, T_YMM]) 0x7F .none)⟩,
  ⟨1338, n!"vmovdqu", [.xmm, .op], 0, .leaf (.avx2 (.a 0) (.a 1) (fl [T_F3, T_0F, T_YMM]) 0x6F .none)⟩,
  ⟨1339, n!"vmovhlps", [.xmm, .xmm, .op], 1, .guard (fun g => !(g.ops[2]?).isNone && !((g.reg 2).isXMM)) .BAD_COMBINATION (.leaf (.avx3 (.a 0) (.a 1) (.a 2) (fl [T_0F, T_EVEX, T_EW0]) 0x12 .none))⟩,
  ⟨1340, n!"vmovhpd", [.addr, .xmm], 0, .leaf (.avx3 (.a 1) (.r (.xmm 0)) (.a 0) (fl [T_N8, T_66, T_0F, T_EW1, T_EVEX]) 0x17 .none)⟩,
  ⟨1341, n!"vmovhpd", [.xmm, .op, .op], 1, .guard (fun g => !(g.ops[2]?).isNone && !((g.op 2).isMEM)) .BAD_COMBINATION (.leaf (.avx3 (.a 0) (.a 1) (.a 2) (fl [T_N8, T_66, T_0F, T_EW1, T_EVEX]) 0x16 .none))⟩,
  ⟨1342, n!"vmovhps", [.addr, .xmm], 0, .leaf (.avx3 (.a 1) (.r (.xmm 0)) (.a 0) (fl [T_N8, T_0F, T_EW0, T_EVEX]) 0x17 .none)⟩,
  ⟨1343, n!"vmovhps", [.xmm, .op, .op], 1, .guard (fun g => !(g.ops[2]?).isNone && !((g.op 2).isMEM)) .BAD_COMBINATION (.leaf (.avx3 (.a 0) (.a 1) (.a 2) (fl [T_N8, T_0F, T_EW0, T_EVEX]) 0x16 .none))⟩,
  ⟨1344, n!"vmovlhps", [.xmm, .xmm, .op], 1, .guard (fun g => !(g.ops[2]?).isNone && !((g.reg 2).isXMM)) .BAD_COMBINATION (.leaf (.avx3 (.a 0) (.a 1) (.a 2) (fl [T_0F, T_EVEX, T_EW0]) 0x16 .none))⟩,
  ⟨1345, n!"vmovlpd", [.addr, .xmm], 0, .leaf (.avx3 (.a 1) (.r (.xmm 0)) (.a 0) (fl [T_N8, T_66, T_0F, T_EW1, T_EVEX]) 0x13 .none)⟩,
  ⟨1346, n!"vmovlpd", [.xmm, .op, .op], 1, .guard (fun g => !(g.ops[2]?).isNone && !((g.op 2).isMEM)) .BAD_COMBINATION (.leaf (.avx3 (.a 0) (.a 1) (.a 2) (fl [T_N8, T_66, T_0F, T_EW1, T_EVEX]) 0x12 .none))⟩,
  ⟨1347, n!"vmovlps", [.addr, .xmm], 0, .leaf (.avx3 (.a 1) (.r (.xmm 0)) (.a 0) (fl [T_N8, T_0F, T_EW0, T_EVEX]) 0x13 .none)⟩,
  ⟨1348, n!"vmovlps", [.xmm, .op, .op], 1, .guard (fun g => !(g.ops[2]?).isNone && !((g.op 2).isMEM)) .BAD_COMBINATION (.leaf (.avx3 (.a 0) (.a 1) (.a 2) (fl [T_N8, T_0F, T_EW0, T_EVEX]) 0x12 .none))⟩,
  ⟨1349, n!"vmovmskpd", [.reg, .xmm], 0, .guard (fun g => !((g.reg 0).isBit 96)) .BAD_COMBINATION (.ite (fun g => (g.reg 1).isXMM) (.leaf (.avx3 (.xmmOf 0) (.zeroOf 1) (.a 1) (fl [T_0F, T_66, T_W0, T_YMM]) 0x50 .none)) (.leaf (.avx3 (.ymmOf 0) (.zeroOf 1) (.a 1) (fl [T_0F, T_66, T_W0, T_YMM]) 0x50 .none)))⟩,
  ⟨1350, n!"vmovmskps", [.reg, .xmm], 0, .guard (fun g => !((g.reg 0).isBit 96)) .BAD_COMBINATION (.ite (fun g => (g.reg 1).isXMM) (.leaf (.avx3 (.xmmOf 0) (.zeroOf 1) (.a 1) (fl [T_0F, T_W0, T_YMM]) 0x50 .none)) (.leaf (.avx3 (.ymmOf 0) (.zeroOf 1) (.a 1) (fl [T_0F, T_W0, T_YMM]) 0x50 .none)))⟩,
  ⟨1351, n!"vmovntdq", [.addr, .xmm], 0, .leaf (.vex (.a 1) none (.a 0) (fl [T_0F, T_66, T_YMM, T_EVEX, T_EW0]) 0xE7 .none)⟩,
  ⟨1352, n!"vmovntdqa", [.xmm, .addr], 0, .leaf (.vex (.a 0) none (.a 1) (fl [T_0F38, T_66, T_YMM, T_EVEX, T_EW0]) 0x2A .none)⟩,
  ⟨1353, n!"vmovntpd", [.addr, .xmm], 0, .leaf (.vex (.a 1) none (.a 0) (fl [T_0F, T_66, T_YMM, T_EVEX, T_EW1]) 0x2B .none)⟩,
  ⟨1354, n!"vmovntps", [.addr, .xmm], 0, .leaf (.vex (.a 1) none (.a 0) (fl [T_0F, T_YMM, T_EVEX, T_EW0]) 0x2B .none)⟩,
  ⟨1355, n!"vmovq", [.addr, .xmm], 0, .ite (fun g => decide ((g.reg 1).idx.toNat < 16)) (.leaf (.avx3 (.a 1) (.r (.xmm 0)) (.a 0) (fl [T_0F, T_66, T_EVEX, T_EW1, T_N8]) 0xD6 .none)) (.leaf (.avx3 (.a 1) (.r (.xmm 0)) (.a 0) (fl [T_0F, T_66, T_EVEX, T_EW1, T_N8]) 0x7E .none))⟩,
  ⟨1356, n!"vmovq", [.xmm, .addr], 0, .ite (fun g => decide ((g.reg 0).idx.toNat < 16)) (.leaf (.avx3 (.a 0) (.r (.xmm 0)) (.a 1) (fl [T_0F, T_F3]) 0x7E .none))
    (.leaf (.avx3 (.a 0) (.r (.xmm 0)) (.a 1) (fl [T_0F, T_66, T_EVEX, T_EW1, T_N8]) 0x6E .none))⟩,
  ⟨1357, n!"vmovq", [.xmm, .xmm], 0, .leaf (.avx3 (.a 0) (.r (.xmm 0)) (.a 1) (fl [T_0F, T_F3, T_EVEX, T_EW1, T_N8]) 0x7E .none)⟩,
  ⟨1358, n!"vmovsd", [.addr, .xmm], 0, .leaf (.avx3 (.a 1) (.r (.xmm 0)) (.a 0) (fl [T_N8, T_F2, T_0F, T_EW1, T_EVEX, T_M_K]) 0x11 .none)⟩,
  ⟨1359, n!"vmovsd", [.xmm, .addr], 0, .leaf (.avx3 (.a 0) (.r (.xmm 0)) (.a 1) (fl [T_N8, T_F2, T_0F, T_EW1, T_EVEX]) 0x10 .none)⟩,
  ⟨1360, n!"vmovsd", [.xmm, .xmm, .op], 1, .guard (fun g => !(g.ops[2]?).isNone && !((g.reg 2).isXMM)) .BAD_COMBINATION (.leaf (.avx3 (.a 0) (.a 1) (.a 2) (fl [T_N8, T_F2, T_0F, T_EW1, T_EVEX]) 0x10 .none))⟩,
  ⟨1361, n!"vmovshdup", [.xmm, .op], 0, .leaf (.avx2 (.a 0) (.a 1) (fl [T_F3, T_0F, T_EW0, T_YMM, T_EVEX]) 0x16 .none)⟩]

end Mn
end Xbyak
