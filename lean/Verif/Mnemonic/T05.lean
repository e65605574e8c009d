import Verif.Mnemonic.Basic
/-! Mnemonic table, `xbyak_mnemonic.h` lines 1362-1702.  Each entry cites its line; an alias (a line calling another mnemonic) has the
body of the function it calls, with the arguments substituted. -/
namespace Xbyak
namespace Mn
open E

/-- `xbyak_mnemonic.h` 1362-1702 -/
def t05 : List Entry := [
  ⟨1362, n!"vmovsldup", [.xmm, .op], 0, .leaf (.avx2 (.a 0) (.a 1) (fl [T_F3, T_0F, T_EW0, T_YMM, T_EVEX]) 0x12 .none)⟩,
  ⟨1363, n!"vmovss", [.addr, .xmm], 0, .leaf (.avx3 (.a 1) (.r (.xmm 0)) (.a 0) (fl [T_N4, T_F3, T_0F, T_EW0, T_EVEX, T_M_K]) 0x11 .none)⟩,
  ⟨1364, n!"vmovss", [.xmm, .addr], 0, .leaf (.avx3 (.a 0) (.r (.xmm 0)) (.a 1) (fl [T_N4, T_F3, T_0F, T_EW0, T_EVEX]) 0x10 .none)⟩,
  ⟨1365, n!"vmovss", [.xmm, .xmm, .op], 1, .guard (fun g => !(g.ops[2]?).isNone && !((g.reg 2).isXMM)) .BAD_COMBINATION (.leaf (.avx3 (.a 0) (.a 1) (.a 2) (fl [T_N4, T_F3, T_0F, T_EW0, T_EVEX]) 0x10 .none))⟩,
  ⟨1366, n!"vmovupd", [.addr, .xmm], 0, .leaf (.avx2 (.a 1) (.a 0) (fl [T_66, T_0F, T_EW1, T_YMM, T_EVEX, T_M_K]) 0x11 .none)⟩,
  ⟨1367, n!"vmovupd", [.xmm, .op], 0, .leaf (.avx2 (.a 0) (.a 1) (fl [T_66, T_0F, T_EW1, T_YMM, T_EVEX]) 0x10 .none)⟩,
  ⟨1368, n!"vmovups", [.addr, .xmm], 0, .leaf (.avx2 (.a 1) (.a 0) (fl [T_0F, T_EW0, T_YMM, T_EVEX, T_M_K]) 0x11 .none)⟩,
  ⟨1369, n!"vmovups", [.xmm, .op], 0, .leaf (.avx2 (.a 0) (.a 1) (fl [T_0F, T_EW0, T_YMM, T_EVEX]) 0x10 .none)⟩,
  ⟨1370, n!"vmulpd", [.xmm, .op, .op], 1, .leaf (.avx3 (.a 0) (.a 1) (.a 2) (fl [T_0F, T_66, T_EW1, T_YMM, T_EVEX, T_ER_Z, T_B64]) 0x59 .none)⟩,
  ⟨1371, n!"vmulps", [.xmm, .op, .op], 1, .leaf (.avx3 (.a 0) (.a 1) (.a 2) (fl [T_0F, T_EW0, T_YMM, T_EVEX, T_ER_Z, T_B32]) 0x59 .none)⟩,
  ⟨1372, n!"vmulsd", [.xmm, .op, .op], 1, .leaf (.avx3 (.a 0) (.a 1) (.a 2) (fl [T_0F, T_F2, T_EW1, T_EVEX, T_ER_X, T_N8]) 0x59 .none)⟩,
  ⟨1373, n!"vmulss", [.xmm, .op, .op], 1, .leaf (.avx3 (.a 0) (.a 1) (.a 2) (fl [T_0F, T_F3, T_EW0, T_EVEX, T_ER_X, T_N4]) 0x59 .none)⟩,
  ⟨1374, n!"vorpd", [.xmm, .op, .op], 1, .leaf (.avx3 (.a 0) (.a 1) (.a 2) (fl [T_0F, T_66, T_EW1, T_YMM, T_EVEX, T_B64]) 0x56 .none)⟩,
  ⟨1375, n!"vorps", [.xmm, .op, .op], 1, .leaf (.avx3 (.a 0) (.a 1) (.a 2) (fl [T_0F, T_EW0, T_YMM, T_EVEX, T_B32]) 0x56 .none)⟩,
  ⟨1376, n!"vpabsb", [.xmm, .op], 0, .leaf (.avx2 (.a 0) (.a 1) (fl [T_66, T_0F38, T_YMM, T_EVEX]) 0x1C .none)⟩,
  ⟨1377, n!"vpabsd", [.xmm, .op], 0, .leaf (.avx2 (.a 0) (.a 1) (fl [T_66, T_0F38, T_EW0, T_YMM, T_EVEX, T_B32]) 0x1E .none)⟩,
  ⟨1378, n!"vpabsw", [.xmm, .op], 0, .leaf (.avx2 (.a 0) (.a 1) (fl [T_66, T_0F38, T_YMM, T_EVEX]) 0x1D .none)⟩,
  ⟨1379, n!"vpackssdw", [.xmm, .xmm, .op], 0, .leaf (.avx3 (.a 0) (.a 1) (.a 2) (fl [T_66, T_0F, T_EW0, T_YMM, T_EVEX, T_B32]) 0x6B .none)⟩,
  ⟨1380, n!"vpacksswb", [.xmm, .xmm, .op], 0, .leaf (.avx3 (.a 0) (.a 1) (.a 2) (fl [T_66, T_0F, T_YMM, T_EVEX]) 0x63 .none)⟩,
  ⟨1381, n!"vpackusdw", [.xmm, .xmm, .op], 0, .leaf (.avx3 (.a 0) (.a 1) (.a 2) (fl [T_66, T_0F38, T_EW0, T_YMM, T_EVEX, T_B32]) 0x2B .none)⟩,
  ⟨1382, n!"vpackuswb", [.xmm, .xmm, .op], 0, .leaf (.avx3 (.a 0) (.a 1) (.a 2) (fl [T_66, T_0F, T_YMM, T_EVEX]) 0x67 .none)⟩,
  ⟨1383, n!"vpaddb", [.xmm, .xmm, .op], 0, .leaf (.avx3 (.a 0) (.a 1) (.a 2) (fl [T_66, T_0F, T_YMM, T_EVEX]) 0xFC .none)⟩,
  ⟨1384, n!"vpaddd", [.xmm, .xmm, .op], 0, .leaf (.avx3 (.a 0) (.a 1) (.a 2) (fl [T_66, T_0F, T_EW0, T_YMM, T_EVEX, T_B32]) 0xFE .none)⟩,
  ⟨1385, n!"vpaddq", [.xmm, .xmm, .op], 0, .leaf (.avx3 (.a 0) (.a 1) (.a 2) (fl [T_66, T_0F, T_EW1, T_YMM, T_EVEX, T_B64]) 0xD4 .none)⟩,
  ⟨1386, n!"vpaddsb", [.xmm, .xmm, .op], 0, .leaf (.avx3 (.a 0) (.a 1) (.a 2) (fl [T_66, T_0F, T_YMM, T_EVEX]) 0xEC .none)⟩,
  ⟨1387, n!"vpaddsw", [.xmm, .xmm, .op], 0, .leaf (.avx3 (.a 0) (.a 1) (.a 2) (fl [T_66, T_0F, T_YMM, T_EVEX]) 0xED .none)⟩,
  ⟨1388, n!"vpaddusb", [.xmm, .xmm, .op], 0, .leaf (.avx3 (.a 0) (.a 1) (.a 2) (fl [T_66, T_0F, T_YMM, T_EVEX]) 0xDC .none)⟩,
  ⟨1389, n!"vpaddusw", [.xmm, .xmm, .op], 0, .leaf (.avx3 (.a 0) (.a 1) (.a 2) (fl [T_66, T_0F, T_YMM, T_EVEX]) 0xDD .none)⟩,
  ⟨1390, n!"vpaddw", [.xmm, .xmm, .op], 0, .leaf (.avx3 (.a 0) (.a 1) (.a 2) (fl [T_66, T_0F, T_YMM, T_EVEX]) 0xFD .none)⟩,
  ⟨1391, n!"vpalignr", [.xmm, .xmm, .op, .int], 0, .leaf (.avx3 (.a 0) (.a 1) (.a 2) (fl [T_66, T_0F3A, T_YMM, T_EVEX]) 0x0F (.i 0))⟩,
  ⟨1392, n!"vpand", [.xmm, .xmm, .op], 0, .leaf (.avx3 (.a 0) (.a 1) (.a 2) (fl [T_66, T_0F, T_YMM]) 0xDB .none)⟩,
  ⟨1393, n!"vpandn", [.xmm, .xmm, .op], 0, .leaf (.avx3 (.a 0) (.a 1) (.a 2) (fl [T_66, T_0F, T_YMM]) 0xDF .none)⟩,
  ⟨1394, n!"vpavgb", [.xmm, .xmm, .op], 0, .leaf (.avx3 (.a 0) (.a 1) (.a 2) (fl [T_66, T_0F, T_YMM, T_EVEX]) 0xE0 .none)⟩,
  ⟨1395, n!"vpavgw", [.xmm, .xmm, .op], 0, .leaf (.avx3 (.a 0) (.a 1) (.a 2) (fl [T_66, T_0F, T_YMM, T_EVEX]) 0xE3 .none)⟩,
  ⟨1396, n!"vpblendd", [.xmm, .xmm, .op, .int], 0, .leaf (.avx3 (.a 0) (.a 1) (.a 2) (fl [T_66, T_0F3A, T_W0, T_YMM]) 0x02 (.i 0))⟩,
  ⟨1397, n!"vpblendvb", [.xmm, .xmm, .op, .xmm], 0, .leaf (.avx3 (.a 0) (.a 1) (.a 2) (fl [T_0F3A, T_66, T_YMM]) 0x4C (.is4 3))⟩,
  ⟨1398, n!"vpblendw", [.xmm, .xmm, .op, .int], 0, .leaf (.avx3 (.a 0) (.a 1) (.a 2) (fl [T_66, T_0F3A, T_W0, T_YMM]) 0x0E (.i 0))⟩,
  ⟨1399, n!"vpbroadcastb", [.xmm, .op], 0, .guard (fun g => !((g.reg 1).isXMM || (g.op 1).isMEM)) .BAD_COMBINATION (.leaf (.avx2 (.a 0) (.a 1) (fl [T_N1, T_66, T_0F38, T_W0, T_YMM, T_EVEX]) 0x78 .none))⟩,
  ⟨1400, n!"vpbroadcastd", [.xmm, .op], 0, .guard (fun g => !((g.reg 1).isXMM || (g.op 1).isMEM)) .BAD_COMBINATION (.leaf (.avx2 (.a 0) (.a 1) (fl [T_N4, T_66, T_0F38, T_W0, T_YMM, T_EVEX]) 0x58 .none))⟩,
  ⟨1401, n!"vpbroadcastq", [.xmm, .op], 0, .guard (fun g => !((g.reg 1).isXMM || (g.op 1).isMEM)) .BAD_COMBINATION (.leaf (.avx2 (.a 0) (.a 1) (fl [T_N8, T_66, T_0F38, T_W0, T_EW1, T_YMM, T_EVEX]) 0x59 .none))⟩,
  ⟨1402, n!"vpbroadcastw", [.xmm, .op], 0, .guard (fun g => !((g.reg 1).isXMM || (g.op 1).isMEM)) .BAD_COMBINATION (.leaf (.avx2 (.a 0) (.a 1) (fl [T_N2, T_66, T_0F38, T_W0, T_YMM, T_EVEX]) 0x79 .none))⟩,
  ⟨1403, n!"vpclmulhqhqdq", [.xmm, .xmm, .op], 0, .leaf (.avx3 (.a 0) (.a 1) (.a 2) (fl [T_66, T_0F3A, T_W0, T_YMM, T_EVEX]) 0x44 (.c 0x11))⟩,
  ⟨1404, n!"vpclmulhqlqdq", [.xmm, .xmm, .op], 0, .leaf (.avx3 (.a 0) (.a 1) (.a 2) (fl [T_66, T_0F3A, T_W0, T_YMM, T_EVEX]) 0x44 (.c 0x01))⟩,
  ⟨1405, n!"vpclmullqhqdq", [.xmm, .xmm, .op], 0, .leaf (.avx3 (.a 0) (.a 1) (.a 2) (fl [T_66, T_0F3A, T_W0, T_YMM, T_EVEX]) 0x44 (.c 0x10))⟩,
  ⟨1406, n!"vpclmullqlqdq", [.xmm, .xmm, .op], 0, .leaf (.avx3 (.a 0) (.a 1) (.a 2) (fl [T_66, T_0F3A, T_W0, T_YMM, T_EVEX]) 0x44 (.c 0x00))⟩,
  ⟨1407, n!"vpclmulqdq", [.xmm, .xmm, .op, .int], 0, .leaf (.avx3 (.a 0) (.a 1) (.a 2) (fl [T_66, T_0F3A, T_W0, T_YMM, T_EVEX]) 0x44 (.i 0))⟩,
  ⟨1408, n!"vpcmpeqb", [.xmm, .xmm, .op], 0, .leaf (.avx3 (.a 0) (.a 1) (.a 2) (fl [T_66, T_0F, T_YMM]) 0x74 .none)⟩,
  ⟨1409, n!"vpcmpeqd", [.xmm, .xmm, .op], 0, .leaf (.avx3 (.a 0) (.a 1) (.a 2) (fl [T_66, T_0F, T_YMM]) 0x76 .none)⟩,
  ⟨1410, n!"vpcmpeqq", [.xmm, .xmm, .op], 0, .leaf (.avx3 (.a 0) (.a 1) (.a 2) (fl [T_66, T_0F38, T_YMM]) 0x29 .none)⟩,
  ⟨1411, n!"vpcmpeqw", [.xmm, .xmm, .op], 0, .leaf (.avx3 (.a 0) (.a 1) (.a 2) (fl [T_66, T_0F, T_YMM]) 0x75 .none)⟩,
  ⟨1412, n!"vpcmpestri", [.xmm, .op, .int], 0, .leaf (.avx2 (.a 0) (.a 1) (fl [T_66, T_0F3A]) 0x61 (.i 0))⟩,
  ⟨1413, n!"vpcmpestrm", [.xmm, .op, .int], 0, .leaf (.avx2 (.a 0) (.a 1) (fl [T_66, T_0F3A]) 0x60 (.i 0))⟩,
  ⟨1414, n!"vpcmpgtb", [.xmm, .xmm, .op], 0, .leaf (.avx3 (.a 0) (.a 1) (.a 2) (fl [T_66, T_0F, T_YMM]) 0x64 .none)⟩,
  ⟨1415, n!"vpcmpgtd", [.xmm, .xmm, .op], 0, .leaf (.avx3 (.a 0) (.a 1) (.a 2) (fl [T_66, T_0F, T_YMM]) 0x66 .none)⟩,
  ⟨1416, n!"vpcmpgtq", [.xmm, .xmm, .op], 0, .leaf (.avx3 (.a 0) (.a 1) (.a 2) (fl [T_66, T_0F38, T_YMM]) 0x37 .none)⟩,
  ⟨1417, n!"vpcmpgtw", [.xmm, .xmm, .op], 0, .leaf (.avx3 (.a 0) (.a 1) (.a 2) (fl [T_66, T_0F, T_YMM]) 0x65 .none)⟩,
  ⟨1418, n!"vpcmpistri", [.xmm, .op, .int], 0, .leaf (.avx2 (.a 0) (.a 1) (fl [T_66, T_0F3A]) 0x63 (.i 0))⟩,
  ⟨1419, n!"vpcmpistrm", [.xmm, .op, .int], 0, .leaf (.avx2 (.a 0) (.a 1) (fl [T_66, T_0F3A]) 0x62 (.i 0))⟩,
  ⟨1420, n!"vpdpbusd", [.xmm, .xmm, .op, .enc], 0, .leaf (.encoding (.a 0) (.a 1) (.a 2) (fl [T_66, T_0F38, T_EW0, T_YMM, T_SAE_Z, T_B32]) 0x50 .none 0 0 0)⟩,
  ⟨1421, n!"vpdpbusds", [.xmm, .xmm, .op, .enc], 0, .leaf (.encoding (.a 0) (.a 1) (.a 2) (fl [T_66, T_0F38, T_EW0, T_YMM, T_SAE_Z, T_B32]) 0x51 .none 0 0 0)⟩,
  ⟨1422, n!"vpdpwssd", [.xmm, .xmm, .op, .enc], 0, .leaf (.encoding (.a 0) (.a 1) (.a 2) (fl [T_66, T_0F38, T_EW0, T_YMM, T_SAE_Z, T_B32]) 0x52 .none 0 0 0)⟩,
  ⟨1423, n!"vpdpwssds", [.xmm, .xmm, .op, .enc], 0, .leaf (.encoding (.a 0) (.a 1) (.a 2) (fl [T_66, T_0F38, T_EW0, T_YMM, T_SAE_Z, T_B32]) 0x53 .none 0 0 0)⟩,
  ⟨1424, n!"vperm2f128", [.ymm, .ymm, .op, .int], 0, .guard (fun g => !((g.reg 0).isYMM && (g.reg 1).isYMM && ((g.reg 2).isYMM || (g.op 2).isMEM))) .BAD_COMBINATION (.leaf (.vex (.a 0) (some (.a 1)) (.a 2) (fl [T_0F3A, T_66, T_W0, T_YMM]) 0x06 (.i 0)))⟩,
  ⟨1425, n!"vperm2i128", [.ymm, .ymm, .op, .int], 0, .guard (fun g => !((g.reg 0).isYMM && (g.reg 1).isYMM && ((g.reg 2).isYMM || (g.op 2).isMEM))) .BAD_COMBINATION (.leaf (.vex (.a 0) (some (.a 1)) (.a 2) (fl [T_0F3A, T_66, T_W0, T_YMM]) 0x46 (.i 0)))⟩,
  ⟨1426, n!"vpermd", [.ymm, .ymm, .op], 0, .leaf (.avx3 (.a 0) (.a 1) (.a 2) (fl [T_66, T_0F38, T_W0, T_EW0, T_YMM, T_EVEX, T_B32]) 0x36 .none)⟩,
  ⟨1427, n!"vpermilpd", [.xmm, .xmm, .op], 0, .leaf (.avx3 (.a 0) (.a 1) (.a 2) (fl [T_66, T_0F38, T_W0, T_EW1, T_YMM, T_EVEX, T_B64]) 0x0D .none)⟩,
  ⟨1428, n!"vpermilpd", [.xmm, .op, .int], 0, .leaf (.avx2 (.a 0) (.a 1) (fl [T_66, T_0F3A, T_EW1, T_YMM, T_EVEX, T_B64]) 0x05 (.i 0))⟩,
  ⟨1429, n!"vpermilps", [.xmm, .xmm, .op], 0, .leaf (.avx3 (.a 0) (.a 1) (.a 2) (fl [T_66, T_0F38, T_W0, T_EW0, T_YMM, T_EVEX, T_B32]) 0x0C .none)⟩,
  ⟨1430, n!"vpermilps", [.xmm, .op, .int], 0, .leaf (.avx2 (.a 0) (.a 1) (fl [T_66, T_0F3A, T_EW0, T_YMM, T_EVEX, T_B32]) 0x04 (.i 0))⟩,
  ⟨1431, n!"vpermpd", [.ymm, .op, .int], 0, .leaf (.avx2 (.a 0) (.a 1) (fl [T_66, T_0F3A, T_W1, T_EW1, T_YMM, T_EVEX, T_B64]) 0x01 (.i 0))⟩,
  ⟨1432, n!"vpermpd", [.ymm, .ymm, .op], 0, .leaf (.avx3 (.a 0) (.a 1) (.a 2) (fl [T_66, T_0F38, T_EW1, T_YMM, T_MUST_EVEX, T_B64]) 0x16 .none)⟩,
  ⟨1433, n!"vpermps", [.ymm, .ymm, .op], 0, .leaf (.avx3 (.a 0) (.a 1) (.a 2) (fl [T_66, T_0F38, T_W0, T_EW0, T_YMM, T_EVEX, T_B32]) 0x16 .none)⟩,
  ⟨1434, n!"vpermq", [.ymm, .op, .int], 0, .leaf (.avx2 (.a 0) (.a 1) (fl [T_66, T_0F3A, T_W1, T_EW1, T_YMM, T_EVEX, T_B64]) 0x00 (.i 0))⟩,
  ⟨1435, n!"vpermq", [.ymm, .ymm, .op], 0, .leaf (.avx3 (.a 0) (.a 1) (.a 2) (fl [T_66, T_0F38, T_W0, T_EW1, T_YMM, T_EVEX, T_B64]) 0x36 .none)⟩,
  ⟨1436, n!"vpextrb", [.op, .xmm, .int], 0, .guard (fun g => !(((g.reg 0).isREG 120 || (g.op 0).isMEM) && (g.reg 1).isXMM)) .BAD_COMBINATION (.leaf (.vex (.a 1) none (.a 0) (fl [T_0F3A, T_66, T_EVEX, T_N1]) 0x14 (.i 0)))⟩,
  ⟨1437, n!"vpextrd", [.op, .xmm, .int], 0, .guard (fun g => !(((g.reg 0).isREG 32 || (g.op 0).isMEM) && (g.reg 1).isXMM)) .BAD_COMBINATION (.leaf (.vex (.a 1) none (.a 0) (fl [T_0F3A, T_66, T_W0, T_EVEX, T_EW0, T_N4]) 0x16 (.i 0)))⟩,
  ⟨1438, n!"vpextrq", [.op, .xmm, .int], 0, .guard (fun g => !(((g.reg 0).isREG 64 || (g.op 0).isMEM) && (g.reg 1).isXMM)) .BAD_COMBINATION (.leaf (.vex (.a 1) none (.a 0) (fl [T_0F3A, T_66, T_W1, T_EVEX, T_EW1, T_N8]) 0x16 (.i 0)))⟩,
  ⟨1439, n!"vpextrw", [.op, .xmm, .int], 0, .guard (fun g => !(((g.reg 0).isREG 112 || (g.op 0).isMEM) && (g.reg 1).isXMM)) .BAD_COMBINATION (.ite (fun g => (g.reg 0).isREG && decide ((g.reg 1).idx.toNat < 16)) (.leaf (.avx3 (.xmmOf 0) (.r (.xmm 0)) (.a 1) (fl [T_0F, T_66]) 0xC5 (.i 0))) (.leaf (.vex (.a 1) none (.a 0) (fl [T_0F3A, T_66, T_EVEX, T_N2]) 0x15 (.i 0))))⟩,
  ⟨1440, n!"vpgatherdd", [.xmm, .addr, .xmm], 0, .leaf (.gather (.a 0) (.a 1) (.a 2) (fl [T_0F38, T_66, T_YMM, T_VSIB, T_W0]) 0x90 1)⟩,
  ⟨1441, n!"vpgatherdq", [.xmm, .addr, .xmm], 0, .leaf (.gather (.a 0) (.a 1) (.a 2) (fl [T_0F38, T_66, T_YMM, T_VSIB, T_W1]) 0x90 0)⟩,
  ⟨1442, n!"vpgatherqd", [.xmm, .addr, .xmm], 0, .leaf (.gather (.a 0) (.a 1) (.a 2) (fl [T_0F38, T_66, T_YMM, T_VSIB, T_W0]) 0x91 2)⟩,
  ⟨1443, n!"vpgatherqq", [.xmm, .addr, .xmm], 0, .leaf (.gather (.a 0) (.a 1) (.a 2) (fl [T_0F38, T_66, T_YMM, T_VSIB, T_W1]) 0x91 1)⟩,
  ⟨1444, n!"vphaddd", [.xmm, .xmm, .op], 0, .leaf (.avx3 (.a 0) (.a 1) (.a 2) (fl [T_66, T_0F38, T_YMM]) 0x02 .none)⟩,
  ⟨1445, n!"vphaddsw", [.xmm, .xmm, .op], 0, .leaf (.avx3 (.a 0) (.a 1) (.a 2) (fl [T_66, T_0F38, T_YMM]) 0x03 .none)⟩,
  ⟨1446, n!"vphaddw", [.xmm, .xmm, .op], 0, .leaf (.avx3 (.a 0) (.a 1) (.a 2) (fl [T_66, T_0F38, T_YMM]) 0x01 .none)⟩,
  ⟨1447, n!"vphminposuw", [.xmm, .op], 0, .leaf (.avx2 (.a 0) (.a 1) (fl [T_66, T_0F38]) 0x41 .none)⟩,
  ⟨1448, n!"vphsubd", [.xmm, .xmm, .op], 0, .leaf (.avx3 (.a 0) (.a 1) (.a 2) (fl [T_66, T_0F38, T_YMM]) 0x06 .none)⟩,
  ⟨1449, n!"vphsubsw", [.xmm, .xmm, .op], 0, .leaf (.avx3 (.a 0) (.a 1) (.a 2) (fl [T_66, T_0F38, T_YMM]) 0x07 .none)⟩,
  ⟨1450, n!"vphsubw", [.xmm, .xmm, .op], 0, .leaf (.avx3 (.a 0) (.a 1) (.a 2) (fl [T_66, T_0F38, T_YMM]) 0x05 .none)⟩,
  ⟨1451, n!"vpinsrb", [.xmm, .xmm, .op, .int], 0, .guard (fun g => !((g.reg 0).isXMM && (g.reg 1).isXMM && ((g.reg 2).isREG 32 || (g.op 2).isMEM))) .BAD_COMBINATION (.leaf (.vex (.a 0) (some (.a 1)) (.a 2) (fl [T_0F3A, T_66, T_EVEX, T_N1]) 0x20 (.i 0)))⟩,
  ⟨1452, n!"vpinsrd", [.xmm, .xmm, .op, .int], 0, .guard (fun g => !((g.reg 0).isXMM && (g.reg 1).isXMM && ((g.reg 2).isREG 32 || (g.op 2).isMEM))) .BAD_COMBINATION (.leaf (.vex (.a 0) (some (.a 1)) (.a 2) (fl [T_0F3A, T_66, T_W0, T_EVEX, T_EW0, T_N4]) 0x22 (.i 0)))⟩,
  ⟨1453, n!"vpinsrq", [.xmm, .xmm, .op, .int], 0, .guard (fun g => !((g.reg 0).isXMM && (g.reg 1).isXMM && ((g.reg 2).isREG 64 || (g.op 2).isMEM))) .BAD_COMBINATION (.leaf (.vex (.a 0) (some (.a 1)) (.a 2) (fl [T_0F3A, T_66, T_W1, T_EVEX, T_EW1, T_N8]) 0x22 (.i 0)))⟩,
  ⟨1454, n!"vpinsrw", [.xmm, .xmm, .op, .int], 0, .guard (fun g => !((g.reg 0).isXMM && (g.reg 1).isXMM && ((g.reg 2).isREG 32 || (g.op 2).isMEM))) .BAD_COMBINATION (.leaf (.vex (.a 0) (some (.a 1)) (.a 2) (fl [T_0F, T_66, T_EVEX, T_N2]) 0xC4 (.i 0)))⟩,
  ⟨1455, n!"vpmaddubsw", [.xmm, .xmm, .op], 0, .leaf (.avx3 (.a 0) (.a 1) (.a 2) (fl [T_66, T_0F38, T_YMM, T_EVEX]) 0x04 .none)⟩,
  ⟨1456, n!"vpmaddwd", [.xmm, .xmm, .op], 0, .leaf (.avx3 (.a 0) (.a 1) (.a 2) (fl [T_66, T_0F, T_YMM, T_EVEX]) 0xF5 .none)⟩,
  ⟨1457, n!"vpmaskmovd", [.addr, .xmm, .xmm], 0, .leaf (.avx3 (.a 2) (.a 1) (.a 0) (fl [T_0F38, T_66, T_W0, T_YMM]) 0x8E .none)⟩,
  ⟨1458, n!"vpmaskmovd", [.xmm, .xmm, .addr], 0, .leaf (.avx3 (.a 0) (.a 1) (.a 2) (fl [T_0F38, T_66, T_W0, T_YMM]) 0x8C .none)⟩,
  ⟨1459, n!"vpmaskmovq", [.addr, .xmm, .xmm], 0, .leaf (.avx3 (.a 2) (.a 1) (.a 0) (fl [T_0F38, T_66, T_W1, T_YMM]) 0x8E .none)⟩,
  ⟨1460, n!"vpmaskmovq", [.xmm, .xmm, .addr], 0, .leaf (.avx3 (.a 0) (.a 1) (.a 2) (fl [T_0F38, T_66, T_W1, T_YMM]) 0x8C .none)⟩,
  ⟨1461, n!"vpmaxsb", [.xmm, .xmm, .op], 0, .leaf (.avx3 (.a 0) (.a 1) (.a 2) (fl [T_66, T_0F38, T_YMM, T_EVEX]) 0x3C .none)⟩,
  ⟨1462, n!"vpmaxsd", [.xmm, .xmm, .op], 0, .leaf (.avx3 (.a 0) (.a 1) (.a 2) (fl [T_66, T_0F38, T_EW0, T_YMM, T_EVEX, T_B32]) 0x3D .none)⟩,
  ⟨1463, n!"vpmaxsw", [.xmm, .xmm, .op], 0, .leaf (.avx3 (.a 0) (.a 1) (.a 2) (fl [T_66, T_0F, T_YMM, T_EVEX]) 0xEE .none)⟩,
  ⟨1464, n!"vpmaxub", [.xmm, .xmm, .op], 0, .leaf (.avx3 (.a 0) (.a 1) (.a 2) (fl [T_66, T_0F, T_YMM, T_EVEX]) 0xDE .none)⟩,
  ⟨1465, n!"vpmaxud", [.xmm, .xmm, .op], 0, .leaf (.avx3 (.a 0) (.a 1) (.a 2) (fl [T_66, T_0F38, T_EW0, T_YMM, T_EVEX, T_B32]) 0x3F .none)⟩,
  ⟨1466, n!"vpmaxuw", [.xmm, .xmm, .op], 0, .leaf (.avx3 (.a 0) (.a 1) (.a 2) (fl [T_66, T_0F38, T_YMM, T_EVEX]) 0x3E .none)⟩,
  ⟨1467, n!"vpminsb", [.xmm, .xmm, .op], 0, .leaf (.avx3 (.a 0) (.a 1) (.a 2) (fl [T_66, T_0F38, T_YMM, T_EVEX]) 0x38 .none)⟩,
  ⟨1468, n!"vpminsd", [.xmm, .xmm, .op], 0, .leaf (.avx3 (.a 0) (.a 1) (.a 2) (fl [T_66, T_0F38, T_EW0, T_YMM, T_EVEX, T_B32]) 0x39 .none)⟩,
  ⟨1469, n!"vpminsw", [.xmm, .xmm, .op], 0, .leaf (.avx3 (.a 0) (.a 1) (.a 2) (fl [T_66, T_0F, T_YMM, T_EVEX]) 0xEA .none)⟩,
  ⟨1470, n!"vpminub", [.xmm, .xmm, .op], 0, .leaf (.avx3 (.a 0) (.a 1) (.a 2) (fl [T_66, T_0F, T_YMM, T_EVEX]) 0xDA .none)⟩,
  ⟨1471, n!"vpminud", [.xmm, .xmm, .op], 0, .leaf (.avx3 (.a 0) (.a 1) (.a 2) (fl [T_66, T_0F38, T_EW0, T_YMM, T_EVEX, T_B32]) 0x3B .none)⟩,
  ⟨1472, n!"vpminuw", [.xmm, .xmm, .op], 0, .leaf (.avx3 (.a 0) (.a 1) (.a 2) (fl [T_66, T_0F38, T_YMM, T_EVEX]) 0x3A .none)⟩,
  ⟨1473, n!"vpmovmskb", [.reg32e, .xmm], 0, .guard (fun g => !((g.reg 1).isXMM || (g.reg 1).isYMM)) .BAD_COMBINATION (.ite (fun g => (g.reg 1).isYMM) (.leaf (.vex (.ymmOf 0) none (.a 1) (fl [T_0F, T_66, T_YMM]) 0xD7 .none)) (.leaf (.vex (.xmmOf 0) none (.a 1) (fl [T_0F, T_66, T_YMM]) 0xD7 .none)))⟩,
  ⟨1474, n!"vpmovsxbd", [.xmm, .op], 0, .leaf (.avx2 (.a 0) (.a 1) (fl [T_N4, T_N_VL, T_66, T_0F38, T_YMM, T_EVEX]) 0x21 .none)⟩,
  ⟨1475, n!"vpmovsxbq", [.xmm, .op], 0, .leaf (.avx2 (.a 0) (.a 1) (fl [T_N2, T_N_VL, T_66, T_0F38, T_YMM, T_EVEX]) 0x22 .none)⟩,
  ⟨1476, n!"vpmovsxbw", [.xmm, .op], 0, .leaf (.avx2 (.a 0) (.a 1) (fl [T_N8, T_N_VL, T_66, T_0F38, T_YMM, T_EVEX]) 0x20 .none)⟩,
  ⟨1477, n!"vpmovsxdq", [.xmm, .op], 0, .leaf (.avx2 (.a 0) (.a 1) (fl [T_N8, T_N_VL, T_66, T_0F38, T_EW0, T_YMM, T_EVEX]) 0x25 .none)⟩,
  ⟨1478, n!"vpmovsxwd", [.xmm, .op], 0, .leaf (.avx2 (.a 0) (.a 1) (fl [T_N8, T_N_VL, T_66, T_0F38, T_YMM, T_EVEX]) 0x23 .none)⟩,
  ⟨1479, n!"vpmovsxwq", [.xmm, .op], 0, .leaf (.avx2 (.a 0) (.a 1) (fl [T_N4, T_N_VL, T_66, T_0F38, T_YMM, T_EVEX]) 0x24 .none)⟩,
  ⟨1480, n!"vpmovzxbd", [.xmm, .op], 0, .leaf (.avx2 (.a 0) (.a 1) (fl [T_N4, T_N_VL, T_66, T_0F38, T_YMM, T_EVEX]) 0x31 .none)⟩,
  ⟨1481, n!"vpmovzxbq", [.xmm, .op], 0, .leaf (.avx2 (.a 0) (.a 1) (fl [T_N2, T_N_VL, T_66, T_0F38, T_YMM, T_EVEX]) 0x32 .none)⟩,
  ⟨1482, n!"vpmovzxbw", [.xmm, .op], 0, .leaf (.avx2 (.a 0) (.a 1) (fl [T_N8, T_N_VL, T_66, T_0F38, T_YMM, T_EVEX]) 0x30 .none)⟩,
  ⟨1483, n!"vpmovzxdq", [.xmm, .op], 0, .leaf (.avx2 (.a 0) (.a 1) (fl [T_N8, T_N_VL, T_66, T_0F38, T_EW0, T_YMM, T_EVEX]) 0x35 .none)⟩,
  ⟨1484, n!"vpmovzxwd", [.xmm, .op], 0, .leaf (.avx2 (.a 0) (.a 1) (fl [T_N8, T_N_VL, T_66, T_0F38, T_YMM, T_EVEX]) 0x33 .none)⟩,
  ⟨1485, n!"vpmovzxwq", [.xmm, .op], 0, .leaf (.avx2 (.a 0) (.a 1) (fl [T_N4, T_N_VL, T_66, T_0F38, T_YMM, T_EVEX]) 0x34 .none)⟩,
  ⟨1486, n!"vpmuldq", [.xmm, .xmm, .op], 0, .leaf (.avx3 (.a 0) (.a 1) (.a 2) (fl [T_66, T_0F38, T_EW1, T_YMM, T_EVEX, T_B64]) 0x28 .none)⟩,
  ⟨1487, n!"vpmulhrsw", [.xmm, .xmm, .op], 0, .leaf (.avx3 (.a 0) (.a 1) (.a 2) (fl [T_66, T_0F38, T_YMM, T_EVEX]) 0x0B .none)⟩,
  ⟨1488, n!"vpmulhuw", [.xmm, .xmm, .op], 0, .leaf (.avx3 (.a 0) (.a 1) (.a 2) (fl [T_66, T_0F, T_YMM, T_EVEX]) 0xE4 .none)⟩,
  ⟨1489, n!"vpmulhw", [.xmm, .xmm, .op], 0, .leaf (.avx3 (.a 0) (.a 1) (.a 2) (fl [T_66, T_0F, T_YMM, T_EVEX]) 0xE5 .none)⟩,
  ⟨1490, n!"vpmulld", [.xmm, .xmm, .op], 0, .leaf (.avx3 (.a 0) (.a 1) (.a 2) (fl [T_66, T_0F38, T_EW0, T_YMM, T_EVEX, T_B32]) 0x40 .none)⟩,
  ⟨1491, n!"vpmullw", [.xmm, .xmm, .op], 0, .leaf (.avx3 (.a 0) (.a 1) (.a 2) (fl [T_66, T_0F, T_YMM, T_EVEX]) 0xD5 .none)⟩,
  ⟨1492, n!"vpmuludq", [.xmm, .xmm, .op], 0, .leaf (.avx3 (.a 0) (.a 1) (.a 2) (fl [T_66, T_0F, T_EW1, T_YMM, T_EVEX, T_B64]) 0xF4 .none)⟩,
  ⟨1493, n!"vpor", [.xmm, .xmm, .op], 0, .leaf (.avx3 (.a 0) (.a 1) (.a 2) (fl [T_66, T_0F, T_YMM]) 0xEB .none)⟩,
  ⟨1494, n!"vpsadbw", [.xmm, .xmm, .op], 0, .leaf (.avx3 (.a 0) (.a 1) (.a 2) (fl [T_66, T_0F, T_YMM, T_EVEX]) 0xF6 .none)⟩,
  ⟨1495, n!"vpshufb", [.xmm, .xmm, .op], 0, .leaf (.avx3 (.a 0) (.a 1) (.a 2) (fl [T_66, T_0F38, T_YMM, T_EVEX]) 0x00 .none)⟩,
  ⟨1496, n!"vpshufd", [.xmm, .op, .int], 0, .leaf (.avx2 (.a 0) (.a 1) (fl [T_66, T_0F, T_EW0, T_YMM, T_EVEX, T_B32]) 0x70 (.i 0))⟩,
  ⟨1497, n!"vpshufhw", [.xmm, .op, .int], 0, .leaf (.avx2 (.a 0) (.a 1) (fl [T_F3, T_0F, T_YMM, T_EVEX]) 0x70 (.i 0))⟩,
  ⟨1498, n!"vpshuflw", [.xmm, .op, .int], 0, .leaf (.avx2 (.a 0) (.a 1) (fl [T_F2, T_0F, T_YMM, T_EVEX]) 0x70 (.i 0))⟩,
  ⟨1499, n!"vpsignb", [.xmm, .xmm, .op], 0, .leaf (.avx3 (.a 0) (.a 1) (.a 2) (fl [T_66, T_0F38, T_YMM]) 0x08 .none)⟩,
  ⟨1500, n!"vpsignd", [.xmm, .xmm, .op], 0, .leaf (.avx3 (.a 0) (.a 1) (.a 2) (fl [T_66, T_0F38, T_YMM]) 0x0A .none)⟩,
  ⟨1501, n!"vpsignw", [.xmm, .xmm, .op], 0, .leaf (.avx3 (.a 0) (.a 1) (.a 2) (fl [T_66, T_0F38, T_YMM]) 0x09 .none)⟩,
  ⟨1502, n!"vpslld", [.xmm, .op, .int], 0, .leaf (.avx3 (.kindOf 0 6) (.a 0) (.a 1) (fl [T_66, T_0F, T_EW0, T_YMM, T_EVEX, T_B32, T_MEM_EVEX]) 0x72 (.i 0))⟩,
  ⟨1503, n!"vpslld", [.xmm, .xmm, .op], 0, .leaf (.avx3 (.a 0) (.a 1) (.a 2) (fl [T_N16, T_66, T_0F, T_EW0, T_YMM, T_EVEX]) 0xF2 .none)⟩,
  ⟨1504, n!"vpslldq", [.xmm, .op, .int], 0, .leaf (.avx3 (.kindOf 0 7) (.a 0) (.a 1) (fl [T_66, T_0F, T_YMM, T_EVEX, T_MEM_EVEX]) 0x73 (.i 0))⟩,
  ⟨1505, n!"vpsllq", [.xmm, .op, .int], 0, .leaf (.avx3 (.kindOf 0 6) (.a 0) (.a 1) (fl [T_66, T_0F, T_EW1, T_YMM, T_EVEX, T_B64, T_MEM_EVEX]) 0x73 (.i 0))⟩,
  ⟨1506, n!"vpsllq", [.xmm, .xmm, .op], 0, .leaf (.avx3 (.a 0) (.a 1) (.a 2) (fl [T_N16, T_66, T_0F, T_EW1, T_YMM, T_EVEX]) 0xF3 .none)⟩,
  ⟨1507, n!"vpsllvd", [.xmm, .xmm, .op], 0, .leaf (.avx3 (.a 0) (.a 1) (.a 2) (fl [T_66, T_0F38, T_W0, T_EW0, T_YMM, T_EVEX, T_B32]) 0x47 .none)⟩,
  ⟨1508, n!"vpsllvq", [.xmm, .xmm, .op], 0, .leaf (.avx3 (.a 0) (.a 1) (.a 2) (fl [T_66, T_0F38, T_W1, T_EW1, T_YMM, T_EVEX, T_B64]) 0x47 .none)⟩,
  ⟨1509, n!"vpsllw", [.xmm, .op, .int], 0, .leaf (.avx3 (.kindOf 0 6) (.a 0) (.a 1) (fl [T_66, T_0F, T_YMM, T_EVEX, T_MEM_EVEX]) 0x71 (.i 0))⟩,
  ⟨1510, n!"vpsllw", [.xmm, .xmm, .op], 0, .leaf (.avx3 (.a 0) (.a 1) (.a 2) (fl [T_N16, T_66, T_0F, T_YMM, T_EVEX]) 0xF1 .none)⟩,
  ⟨1511, n!"vpsrad", [.xmm, .op, .int], 0, .leaf (.avx3 (.kindOf 0 4) (.a 0) (.a 1) (fl [T_66, T_0F, T_EW0, T_YMM, T_EVEX, T_B32, T_MEM_EVEX]) 0x72 (.i 0))⟩,
  ⟨1512, n!"vpsrad", [.xmm, .xmm, .op], 0, .leaf (.avx3 (.a 0) (.a 1) (.a 2) (fl [T_N16, T_66, T_0F, T_EW0, T_YMM, T_EVEX]) 0xE2 .none)⟩,
  ⟨1513, n!"vpsravd", [.xmm, .xmm, .op], 0, .leaf (.avx3 (.a 0) (.a 1) (.a 2) (fl [T_66, T_0F38, T_W0, T_EW0, T_YMM, T_EVEX, T_B32]) 0x46 .none)⟩,
  ⟨1514, n!"vpsraw", [.xmm, .op, .int], 0, .leaf (.avx3 (.kindOf 0 4) (.a 0) (.a 1) (fl [T_66, T_0F, T_YMM, T_EVEX, T_MEM_EVEX]) 0x71 (.i 0))⟩,
  ⟨1515, n!"vpsraw", [.xmm, .xmm, .op], 0, .leaf (.avx3 (.a 0) (.a 1) (.a 2) (fl [T_N16, T_66, T_0F, T_YMM, T_EVEX]) 0xE1 .none)⟩,
  ⟨1516, n!"vpsrld", [.xmm, .op, .int], 0, .leaf (.avx3 (.kindOf 0 2) (.a 0) (.a 1) (fl [T_66, T_0F, T_EW0, T_YMM, T_EVEX, T_B32, T_MEM_EVEX]) 0x72 (.i 0))⟩,
  ⟨1517, n!"vpsrld", [.xmm, .xmm, .op], 0, .leaf (.avx3 (.a 0) (.a 1) (.a 2) (fl [T_N16, T_66, T_0F, T_EW0, T_YMM, T_EVEX]) 0xD2 .none)⟩,
  ⟨1518, n!"vpsrldq", [.xmm, .op, .int], 0, .leaf (.avx3 (.kindOf 0 3) (.a 0) (.a 1) (fl [T_66, T_0F, T_YMM, T_EVEX, T_MEM_EVEX]) 0x73 (.i 0))⟩,
  ⟨1519, n!"vpsrlq", [.xmm, .op, .int], 0, .leaf (.avx3 (.kindOf 0 2) (.a 0) (.a 1) (fl [T_66, T_0F, T_EW1, T_YMM, T_EVEX, T_B64, T_MEM_EVEX]) 0x73 (.i 0))⟩,
  ⟨1520, n!"vpsrlq", [.xmm, .xmm, .op], 0, .leaf (.avx3 (.a 0) (.a 1) (.a 2) (fl [T_N16, T_66, T_0F, T_EW1, T_YMM, T_EVEX]) 0xD3 .none)⟩,
  ⟨1521, n!"vpsrlvd", [.xmm, .xmm, .op], 0, .leaf (.avx3 (.a 0) (.a 1) (.a 2) (fl [T_66, T_0F38, T_W0, T_EW0, T_YMM, T_EVEX, T_B32]) 0x45 .none)⟩,
  ⟨1522, n!"vpsrlvq", [.xmm, .xmm, .op], 0, .leaf (.avx3 (.a 0) (.a 1) (.a 2) (fl [T_66, T_0F38, T_W1, T_EW1, T_YMM, T_EVEX, T_B64]) 0x45 .none)⟩,
  ⟨1523, n!"vpsrlw", [.xmm, .op, .int], 0, .leaf (.avx3 (.kindOf 0 2) (.a 0) (.a 1) (fl [T_66, T_0F, T_YMM, T_EVEX, T_MEM_EVEX]) 0x71 (.i 0))⟩,
  ⟨1524, n!"vpsrlw", [.xmm, .xmm, .op], 0, .leaf (.avx3 (.a 0) (.a 1) (.a 2) (fl [T_N16, T_66, T_0F, T_YMM, T_EVEX]) 0xD1 .none)⟩,
  ⟨1525, n!"vpsubb", [.xmm, .xmm, .op], 0, .leaf (.avx3 (.a 0) (.a 1) (.a 2) (fl [T_66, T_0F, T_YMM, T_EVEX]) 0xF8 .none)⟩,
  ⟨1526, n!"vpsubd", [.xmm, .xmm, .op], 0, .leaf (.avx3 (.a 0) (.a 1) (.a 2) (fl [T_66, T_0F, T_EW0, T_YMM, T_EVEX, T_B32]) 0xFA .none)⟩,
  ⟨1527, n!"vpsubq", [.xmm, .xmm, .op], 0, .leaf (.avx3 (.a 0) (.a 1) (.a 2) (fl [T_66, T_0F, T_EW1, T_YMM, T_EVEX, T_B64]) 0xFB .none)⟩,
  ⟨1528, n!"vpsubsb", [.xmm, .xmm, .op], 0, .leaf (.avx3 (.a 0) (.a 1) (.a 2) (fl [T_66, T_0F, T_YMM, T_EVEX]) 0xE8 .none)⟩,
  ⟨1529, n!"vpsubsw", [.xmm, .xmm, .op], 0, .leaf (.avx3 (.a 0) (.a 1) (.a 2) (fl [T_66, T_0F, T_YMM, T_EVEX]) 0xE9 .none)⟩,
  ⟨1530, n!"vpsubusb", [.xmm, .xmm, .op], 0, .leaf (.avx3 (.a 0) (.a 1) (.a 2) (fl [T_66, T_0F, T_YMM, T_EVEX]) 0xD8 .none)⟩,
  ⟨1531, n!"vpsubusw", [.xmm, .xmm, .op], 0, .leaf (.avx3 (.a 0) (.a 1) (.a 2) (fl [T_66, T_0F, T_YMM, T_EVEX]) 0xD9 .none)⟩,
  ⟨1532, n!"vpsubw", [.xmm, .xmm, .op], 0, .leaf (.avx3 (.a 0) (.a 1) (.a 2) (fl [T_66, T_0F, T_YMM, T_EVEX]) 0xF9 .none)⟩,
  ⟨1533, n!"vptest", [.xmm, .op], 0, .leaf (.avx2 (.a 0) (.a 1) (fl [T_66, T_0F38, T_YMM]) 0x17 .none)⟩,
  ⟨1534, n!"vpunpckhbw", [.xmm, .xmm, .op], 0, .leaf (.avx3 (.a 0) (.a 1) (.a 2) (fl [T_66, T_0F, T_YMM, T_EVEX]) 0x68 .none)⟩,
  ⟨1535, n!"vpunpckhdq", [.xmm, .xmm, .op], 0, .leaf (.avx3 (.a 0) (.a 1) (.a 2) (fl [T_66, T_0F, T_EW0, T_YMM, T_EVEX, T_B32]) 0x6A .none)⟩,
  ⟨1536, n!"vpunpckhqdq", [.xmm, .xmm, .op], 0, .leaf (.avx3 (.a 0) (.a 1) (.a 2) (fl [T_66, T_0F, T_EW1, T_YMM, T_EVEX, T_B64]) 0x6D .none)⟩,
  ⟨1537, n!"vpunpckhwd", [.xmm, .xmm, .op], 0, .leaf (.avx3 (.a 0) (.a 1) (.a 2) (fl [T_66, T_0F, T_YMM, T_EVEX]) 0x69 .none)⟩,
  ⟨1538, n!"vpunpcklbw", [.xmm, .xmm, .op], 0, .leaf (.avx3 (.a 0) (.a 1) (.a 2) (fl [T_66, T_0F, T_YMM, T_EVEX]) 0x60 .none)⟩,
  ⟨1539, n!"vpunpckldq", [.xmm, .xmm, .op], 0, .leaf (.avx3 (.a 0) (.a 1) (.a 2) (fl [T_66, T_0F, T_EW0, T_YMM, T_EVEX, T_B32]) 0x62 .none)⟩,
  ⟨1540, n!"vpunpcklqdq", [.xmm, .xmm, .op], 0, .leaf (.avx3 (.a 0) (.a 1) (.a 2) (fl [T_66, T_0F, T_EW1, T_YMM, T_EVEX, T_B64]) 0x6C .none)⟩,
  ⟨1541, n!"vpunpcklwd", [.xmm, .xmm, .op], 0, .leaf (.avx3 (.a 0) (.a 1) (.a 2) (fl [T_66, T_0F, T_YMM, T_EVEX]) 0x61 .none)⟩,
  ⟨1542, n!"vpxor", [.xmm, .xmm, .op], 0, .leaf (.avx3 (.a 0) (.a 1) (.a 2) (fl [T_66, T_0F, T_YMM]) 0xEF .none)⟩,
  ⟨1543, n!"vrcpps", [.xmm, .op], 0, .leaf (.avx2 (.a 0) (.a 1) (fl [T_0F, T_YMM]) 0x53 .none)⟩,
  ⟨1544, n!"vrcpss", [.xmm, .xmm, .op], 0, .leaf (.avx3 (.a 0) (.a 1) (.a 2) (fl [T_F3, T_0F]) 0x53 .none)⟩,
  ⟨1545, n!"vroundpd", [.xmm, .op, .int], 0, .leaf (.avx2 (.a 0) (.a 1) (fl [T_66, T_0F3A, T_YMM]) 0x09 (.i 0))⟩,
  ⟨1546, n!"vroundps", [.xmm, .op, .int], 0, .leaf (.avx2 (.a 0) (.a 1) (fl [T_66, T_0F3A, T_YMM]) 0x08 (.i 0))⟩,
  ⟨1547, n!"vroundsd", [.xmm, .xmm, .op, .int], 0, .leaf (.avx3 (.a 0) (.a 1) (.a 2) (fl [T_66, T_0F3A, T_W0]) 0x0B (.i 0))⟩,
  ⟨1548, n!"vroundss", [.xmm, .xmm, .op, .int], 0, .leaf (.avx3 (.a 0) (.a 1) (.a 2) (fl [T_66, T_0F3A, T_W0]) 0x0A (.i 0))⟩,
  ⟨1549, n!"vrsqrtps", [.xmm, .op], 0, .leaf (.avx2 (.a 0) (.a 1) (fl [T_0F, T_YMM]) 0x52 .none)⟩,
  ⟨1550, n!"vrsqrtss", [.xmm, .xmm, .op], 0, .leaf (.avx3 (.a 0) (.a 1) (.a 2) (fl [T_F3, T_0F]) 0x52 .none)⟩,
  ⟨1551, n!"vsha512msg1", [.ymm, .xmm], 0, .guard (fun g => !((g.reg 0).isYMM && (g.reg 1).isXMM)) .BAD_PARAMETER (.leaf (.vex (.a 0) none (.a 1) (fl [T_F2, T_0F38, T_W0, T_YMM]) 0xCC .none))⟩,
  ⟨1552, n!"vsha512msg2", [.ymm, .ymm], 0, .guard (fun g => !((g.reg 0).isYMM && (g.reg 1).isYMM)) .BAD_PARAMETER (.leaf (.vex (.a 0) none (.a 1) (fl [T_F2, T_0F38, T_W0, T_YMM]) 0xCD .none))⟩,
  ⟨1553, n!"vsha512rnds2", [.ymm, .ymm, .xmm], 0, .guard (fun g => !((g.reg 0).isYMM && (g.reg 1).isYMM && (g.reg 2).isXMM)) .BAD_PARAMETER (.leaf (.vex (.a 0) (some (.a 1)) (.a 2) (fl [T_F2, T_0F38, T_W0, T_YMM]) 0xCB .none))⟩,
  ⟨1554, n!"vshufpd", [.xmm, .xmm, .op, .int], 0, .leaf (.avx3 (.a 0) (.a 1) (.a 2) (fl [T_66, T_0F, T_EW1, T_YMM, T_EVEX, T_B64]) 0xC6 (.i 0))⟩,
  ⟨1555, n!"vshufps", [.xmm, .xmm, .op, .int], 0, .leaf (.avx3 (.a 0) (.a 1) (.a 2) (fl [T_0F, T_EW0, T_YMM, T_EVEX, T_B32]) 0xC6 (.i 0))⟩,
  ⟨1556, n!"vsm3msg1", [.xmm, .xmm, .op], 0, .leaf (.avx3 (.a 0) (.a 1) (.a 2) (fl [T_0F38, T_W0, T_EW0, T_EVEX]) 0xDA .none)⟩,
  ⟨1557, n!"vsm3msg2", [.xmm, .xmm, .op], 0, .leaf (.avx3 (.a 0) (.a 1) (.a 2) (fl [T_66, T_0F38, T_W0, T_EW0, T_EVEX]) 0xDA .none)⟩,
  ⟨1558, n!"vsm3rnds2", [.xmm, .xmm, .op, .int], 0, .leaf (.avx3 (.a 0) (.a 1) (.a 2) (fl [T_66, T_0F3A, T_W0, T_EW0, T_EVEX]) 0xDE (.i 0))⟩,
  ⟨1559, n!"vsm4key4", [.xmm, .xmm, .op], 0, .leaf (.avx3 (.a 0) (.a 1) (.a 2) (fl [T_F3, T_0F38, T_W0, T_EW0, T_EVEX]) 0xDA .none)⟩,
  ⟨1560, n!"vsm4rnds4", [.xmm, .xmm, .op], 0, .leaf (.avx3 (.a 0) (.a 1) (.a 2) (fl [T_F2, T_0F38, T_W0, T_EW0, T_EVEX]) 0xDA .none)⟩,
  ⟨1561, n!"vsqrtpd", [.xmm, .op], 0, .leaf (.avx2 (.a 0) (.a 1) (fl [T_66, T_0F, T_EW1, T_YMM, T_EVEX, T_ER_Z, T_B64]) 0x51 .none)⟩,
  ⟨1562, n!"vsqrtps", [.xmm, .op], 0, .leaf (.avx2 (.a 0) (.a 1) (fl [T_0F, T_EW0, T_YMM, T_EVEX, T_ER_Z, T_B32]) 0x51 .none)⟩,
  ⟨1563, n!"vsqrtsd", [.xmm, .xmm, .op], 0, .leaf (.avx3 (.a 0) (.a 1) (.a 2) (fl [T_N8, T_F2, T_0F, T_EW1, T_EVEX, T_ER_X]) 0x51 .none)⟩,
  ⟨1564, n!"vsqrtss", [.xmm, .xmm, .op], 0, .leaf (.avx3 (.a 0) (.a 1) (.a 2) (fl [T_N4, T_F3, T_0F, T_EW0, T_EVEX, T_ER_X]) 0x51 .none)⟩,
  ⟨1565, n!"vstmxcsr", [.addr], 0, .leaf (.avx3 (.r (.xmm 3)) (.r (.xmm 0)) (.a 0) T_0F 0xAE .none)⟩,
  ⟨1566, n!"vsubpd", [.xmm, .op, .op], 1, .leaf (.avx3 (.a 0) (.a 1) (.a 2) (fl [T_0F, T_66, T_EW1, T_YMM, T_EVEX, T_ER_Z, T_B64]) 0x5C .none)⟩,
  ⟨1567, n!"vsubps", [.xmm, .op, .op], 1, .leaf (.avx3 (.a 0) (.a 1) (.a 2) (fl [T_0F, T_EW0, T_YMM, T_EVEX, T_ER_Z, T_B32]) 0x5C .none)⟩,
  ⟨1568, n!"vsubsd", [.xmm, .op, .op], 1, .leaf (.avx3 (.a 0) (.a 1) (.a 2) (fl [T_0F, T_F2, T_EW1, T_EVEX, T_ER_X, T_N8]) 0x5C .none)⟩,
  ⟨1569, n!"vsubss", [.xmm, .op, .op], 1, .leaf (.avx3 (.a 0) (.a 1) (.a 2) (fl [T_0F, T_F3, T_EW0, T_EVEX, T_ER_X, T_N4]) 0x5C .none)⟩,
  ⟨1570, n!"vtestpd", [.xmm, .op], 0, .leaf (.avx2 (.a 0) (.a 1) (fl [T_66, T_0F38, T_YMM]) 0x0F .none)⟩,
  ⟨1571, n!"vtestps", [.xmm, .op], 0, .leaf (.avx2 (.a 0) (.a 1) (fl [T_66, T_0F38, T_YMM]) 0x0E .none)⟩,
  ⟨1572, n!"vucomisd", [.xmm, .op], 0, .leaf (.avx2 (.a 0) (.a 1) (fl [T_N8, T_66, T_0F, T_EW1, T_EVEX, T_SAE_X]) 0x2E .none)⟩,
  ⟨1573, n!"vucomiss", [.xmm, .op], 0, .leaf (.avx2 (.a 0) (.a 1) (fl [T_N4, T_0F, T_EW0, T_EVEX, T_SAE_X]) 0x2E .none)⟩,
  ⟨1574, n!"vunpckhpd", [.xmm, .xmm, .op], 0, .leaf (.avx3 (.a 0) (.a 1) (.a 2) (fl [T_66, T_0F, T_EW1, T_YMM, T_EVEX, T_B64]) 0x15 .none)⟩,
  ⟨1575, n!"vunpckhps", [.xmm, .xmm, .op], 0, .leaf (.avx3 (.a 0) (.a 1) (.a 2) (fl [T_0F, T_EW0, T_YMM, T_EVEX, T_B32]) 0x15 .none)⟩,
  ⟨1576, n!"vunpcklpd", [.xmm, .xmm, .op], 0, .leaf (.avx3 (.a 0) (.a 1) (.a 2) (fl [T_66, T_0F, T_EW1, T_YMM, T_EVEX, T_B64]) 0x14 .none)⟩,
  ⟨1577, n!"vunpcklps", [.xmm, .xmm, .op], 0, .leaf (.avx3 (.a 0) (.a 1) (.a 2) (fl [T_0F, T_EW0, T_YMM, T_EVEX, T_B32]) 0x14 .none)⟩,
  ⟨1578, n!"vxorpd", [.xmm, .op, .op], 1, .leaf (.avx3 (.a 0) (.a 1) (.a 2) (fl [T_0F, T_66, T_EW1, T_YMM, T_EVEX, T_B64]) 0x57 .none)⟩,
  ⟨1579, n!"vxorps", [.xmm, .op, .op], 1, .leaf (.avx3 (.a 0) (.a 1) (.a 2) (fl [T_0F, T_EW0, T_YMM, T_EVEX, T_B32]) 0x57 .none)⟩,
  ⟨1580, n!"vzeroall", [], 0, .leaf (.bytes [0xC5, 0xFC, 0x77])⟩,
  ⟨1581, n!"vzeroupper", [], 0, .leaf (.bytes [0xC5, 0xF8, 0x77])⟩,
  ⟨1582, n!"wait", [], 0, .leaf (.bytes [0x9B])⟩,
  ⟨1583, n!"wbinvd", [], 0, .leaf (.bytes [0x0F, 0x09])⟩,
  ⟨1584, n!"wrmsr", [], 0, .leaf (.bytes [0x0F, 0x30])⟩,
  ⟨1585, n!"xabort", [.int], 0, .leaf (.raw .xabort)⟩,
  ⟨1586, n!"xadd", [.op, .reg], 0, .ite (fun g => (g.reg 1).isBit 8) (.leaf (.ro (.a 1) (.a 0) T_0F 0xC0 (.bits 0 1))) (.leaf (.ro (.a 1) (.a 0) T_0F 0xC1 (.bits 0 1)))⟩,
  ⟨1587, n!"xbegin", [.int], 0, .leaf (.raw .xbegin)⟩,
  ⟨1588, n!"xend", [], 0, .leaf (.bytes [0x0F, 0x01, 0xD5])⟩,
  ⟨1589, n!"xgetbv", [], 0, .leaf (.bytes [0x0F, 0x01, 0xD0])⟩,
  ⟨1590, n!"xlatb", [], 0, .leaf (.bytes [0xD7])⟩,
  ⟨1591, n!"xor_", [.op, .int], 0, .leaf (.oi (.a 0) 0 0x30 6)⟩,
  ⟨1592, n!"xor_", [.op, .op], 0, .leaf (.roMr (.a 0) (.a 1) 0x30)⟩,
  ⟨1593, n!"xor_", [.reg, .op, .int], 0, .leaf (.roi (.a 0) (.a 1) 0 (fl [T_NF, T_CODE1_IF1]) 6)⟩,
  ⟨1594, n!"xor_", [.reg, .op, .op], 0, .leaf (.roo (.a 0) (.a 1) (.a 2) (fl [T_NF, T_CODE1_IF1]) 0x30)⟩,
  ⟨1595, n!"xorpd", [.xmm, .op], 0, .leaf (.sse (.a 0) (.a 1) (fl [T_0F, T_66]) 0x57 .xmm_xmm .none)⟩,
  ⟨1596, n!"xorps", [.xmm, .op], 0, .leaf (.sse (.a 0) (.a 1) T_0F 0x57 .xmm_xmm .none)⟩,
  ⟨1597, n!"xresldtrk", [], 0, .leaf (.bytes [0xF2, 0x0F, 0x01, 0xE9])⟩,
  ⟨1598, n!"xsusldtrk", [], 0, .leaf (.bytes [0xF2, 0x0F, 0x01, 0xE8])⟩,
  ⟨1600, n!"vblendpd", [.xmm, .op, .int], 0, .leaf (.avx3 (.a 0) (.a 0) (.a 1) (fl [T_66, T_0F3A, T_W0, T_YMM]) 0x0D (.i 0))⟩,
  ⟨1601, n!"vblendps", [.xmm, .op, .int], 0, .leaf (.avx3 (.a 0) (.a 0) (.a 1) (fl [T_66, T_0F3A, T_W0, T_YMM]) 0x0C (.i 0))⟩,
  ⟨1602, n!"vblendvpd", [.xmm, .op, .xmm], 0, .leaf (.avx3 (.a 0) (.a 0) (.a 1) (fl [T_0F3A, T_66, T_YMM]) 0x4B (.is4 2))⟩,
  ⟨1603, n!"vblendvps", [.xmm, .op, .xmm], 0, .leaf (.avx3 (.a 0) (.a 0) (.a 1) (fl [T_0F3A, T_66, T_YMM]) 0x4A (.is4 2))⟩,
  ⟨1604, n!"vcmpeq_ospd", [.xmm, .op], 0, .leaf (.avx3 (.a 0) (.a 0) (.a 1) (fl [T_66, T_0F, T_YMM]) 0xC2 (.c 0x10))⟩,
  ⟨1605, n!"vcmpeq_osps", [.xmm, .op], 0, .leaf (.avx3 (.a 0) (.a 0) (.a 1) (fl [T_0F, T_YMM]) 0xC2 (.c 0x10))⟩,
  ⟨1606, n!"vcmpeq_ossd", [.xmm, .op], 0, .leaf (.avx3 (.a 0) (.a 0) (.a 1) (fl [T_F2, T_0F]) 0xC2 (.c 0x10))⟩,
  ⟨1607, n!"vcmpeq_osss", [.xmm, .op], 0, .leaf (.avx3 (.a 0) (.a 0) (.a 1) (fl [T_F3, T_0F]) 0xC2 (.c 0x10))⟩,
  ⟨1608, n!"vcmpeq_uqpd", [.xmm, .op], 0, .leaf (.avx3 (.a 0) (.a 0) (.a 1) (fl [T_66, T_0F, T_YMM]) 0xC2 (.c 0x08))⟩,
  ⟨1609, n!"vcmpeq_uqps", [.xmm, .op], 0, .leaf (.avx3 (.a 0) (.a 0) (.a 1) (fl [T_0F, T_YMM]) 0xC2 (.c 0x08))⟩,
  ⟨1610, n!"vcmpeq_uqsd", [.xmm, .op], 0, .leaf (.avx3 (.a 0) (.a 0) (.a 1) (fl [T_F2, T_0F]) 0xC2 (.c 0x08))⟩,
  ⟨1611, n!"vcmpeq_uqss", [.xmm, .op], 0, .leaf (.avx3 (.a 0) (.a 0) (.a 1) (fl [T_F3, T_0F]) 0xC2 (.c 0x08))⟩,
  ⟨1612, n!"vcmpeq_uspd", [.xmm, .op], 0, .leaf (.avx3 (.a 0) (.a 0) (.a 1) (fl [T_66, T_0F, T_YMM]) 0xC2 (.c 0x18))⟩,
  ⟨1613, n!"vcmpeq_usps", [.xmm, .op], 0, .leaf (.avx3 (.a 0) (.a 0) (.a 1) (fl [T_0F, T_YMM]) 0xC2 (.c 0x18))⟩,
  ⟨1614, n!"vcmpeq_ussd", [.xmm, .op], 0, .leaf (.avx3 (.a 0) (.a 0) (.a 1) (fl [T_F2, T_0F]) 0xC2 (.c 0x18))⟩,
  ⟨1615, n!"vcmpeq_usss", [.xmm, .op], 0, .leaf (.avx3 (.a 0) (.a 0) (.a 1) (fl [T_F3, T_0F]) 0xC2 (.c 0x18))⟩,
  ⟨1616, n!"vcmpeqpd", [.xmm, .op], 0, .leaf (.avx3 (.a 0) (.a 0) (.a 1) (fl [T_66, T_0F, T_YMM]) 0xC2 (.c 0x00))⟩,
  ⟨1617, n!"vcmpeqps", [.xmm, .op], 0, .leaf (.avx3 (.a 0) (.a 0) (.a 1) (fl [T_0F, T_YMM]) 0xC2 (.c 0x00))⟩,
  ⟨1618, n!"vcmpeqsd", [.xmm, .op], 0, .leaf (.avx3 (.a 0) (.a 0) (.a 1) (fl [T_F2, T_0F]) 0xC2 (.c 0x00))⟩,
  ⟨1619, n!"vcmpeqss", [.xmm, .op], 0, .leaf (.avx3 (.a 0) (.a 0) (.a 1) (fl [T_F3, T_0F]) 0xC2 (.c 0x00))⟩,
  ⟨1620, n!"vcmpfalse_ospd", [.xmm, .op], 0, .leaf (.avx3 (.a 0) (.a 0) (.a 1) (fl [T_66, T_0F, T_YMM]) 0xC2 (.c 0x1B))⟩,
  ⟨1621, n!"vcmpfalse_osps", [.xmm, .op], 0, .leaf (.avx3 (.a 0) (.a 0) (.a 1) (fl [T_0F, T_YMM]) 0xC2 (.c 0x1B))⟩,
  ⟨1622, n!"vcmpfalse_ossd", [.xmm, .op], 0, .leaf (.avx3 (.a 0) (.a 0) (.a 1) (fl [T_F2, T_0F]) 0xC2 (.c 0x1B))⟩,
  ⟨1623, n!"vcmpfalse_osss", [.xmm, .op], 0, .leaf (.avx3 (.a 0) (.a 0) (.a 1) (fl [T_F3, T_0F]) 0xC2 (.c 0x1B))⟩,
  ⟨1624, n!"vcmpfalsepd", [.xmm, .op], 0, .leaf (.avx3 (.a 0) (.a 0) (.a 1) (fl [T_66, T_0F, T_YMM]) 0xC2 (.c 0x0B))⟩,
  ⟨1625, n!"vcmpfalseps", [.xmm, .op], 0, .leaf (.avx3 (.a 0) (.a 0) (.a 1) (fl [T_0F, T_YMM]) 0xC2 (.c 0x0B))⟩,
  ⟨1626, n!"vcmpfalsesd", [.xmm, .op], 0, .leaf (.avx3 (.a 0) (.a 0) (.a 1) (fl [T_F2, T_0F]) 0xC2 (.c 0x0B))⟩,
  ⟨1627, n!"vcmpfalsess", [.xmm, .op], 0, .leaf (.avx3 (.a 0) (.a 0) (.a 1) (fl [T_F3, T_0F]) 0xC2 (.c 0x0B))⟩,
  ⟨1628, n!"vcmpge_oqpd", [.xmm, .op], 0, .leaf (.avx3 (.a 0) (.a 0) (.a 1) (fl [T_66, T_0F, T_YMM]) 0xC2 (.c 0x1D))⟩,
  ⟨1629, n!"vcmpge_oqps", [.xmm, .op], 0, .leaf (.avx3 (.a 0) (.a 0) (.a 1) (fl [T_0F, T_YMM]) 0xC2 (.c 0x1D))⟩,
  ⟨1630, n!"vcmpge_oqsd", [.xmm, .op], 0, .leaf (.avx3 (.a 0) (.a 0) (.a 1) (fl [T_F2, T_0F]) 0xC2 (.c 0x1D))⟩,
  ⟨1631, n!"vcmpge_oqss", [.xmm, .op], 0, .leaf (.avx3 (.a 0) (.a 0) (.a 1) (fl [T_F3, T_0F]) 0xC2 (.c 0x1D))⟩,
  ⟨1632, n!"vcmpgepd", [.xmm, .op], 0, .leaf (.avx3 (.a 0) (.a 0) (.a 1) (fl [T_66, T_0F, T_YMM]) 0xC2 (.c 0x0D))⟩,
  ⟨1633, n!"vcmpgeps", [.xmm, .op], 0, .leaf (.avx3 (.a 0) (.a 0) (.a 1) (fl [T_0F, T_YMM]) 0xC2 (.c 0x0D))⟩,
  ⟨1634, n!"vcmpgesd", [.xmm, .op], 0, .leaf (.avx3 (.a 0) (.a 0) (.a 1) (fl [T_F2, T_0F]) 0xC2 (.c 0x0D))⟩,
  ⟨1635, n!"vcmpgess", [.xmm, .op], 0, .leaf (.avx3 (.a 0) (.a 0) (.a 1) (fl [T_F3, T_0F]) 0xC2 (.c 0x0D))⟩,
  ⟨1636, n!"vcmpgt_oqpd", [.xmm, .op], 0, .leaf (.avx3 (.a 0) (.a 0) (.a 1) (fl [T_66, T_0F, T_YMM]) 0xC2 (.c 0x1E))⟩,
  ⟨1637, n!"vcmpgt_oqps", [.xmm, .op], 0, .leaf (.avx3 (.a 0) (.a 0) (.a 1) (fl [T_0F, T_YMM]) 0xC2 (.c 0x1E))⟩,
  ⟨1638, n!"vcmpgt_oqsd", [.xmm, .op], 0, .leaf (.avx3 (.a 0) (.a 0) (.a 1) (fl [T_F2, T_0F]) 0xC2 (.c 0x1E))⟩,
  ⟨1639, n!"vcmpgt_oqss", [.xmm, .op], 0, .leaf (.avx3 (.a 0) (.a 0) (.a 1) (fl [T_F3, T_0F]) 0xC2 (.c 0x1E))⟩,
  ⟨1640, n!"vcmpgtpd", [.xmm, .op], 0, .leaf (.avx3 (.a 0) (.a 0) (.a 1) (fl [T_66, T_0F, T_YMM]) 0xC2 (.c 0x0E))⟩,
  ⟨1641, n!"vcmpgtps", [.xmm, .op], 0, .leaf (.avx3 (.a 0) (.a 0) (.a 1) (fl [T_0F, T_YMM]) 0xC2 (.c 0x0E))⟩,
  ⟨1642, n!"vcmpgtsd", [.xmm, .op], 0, .leaf (.avx3 (.a 0) (.a 0) (.a 1) (fl [T_F2, T_0F]) 0xC2 (.c 0x0E))⟩,
  ⟨1643, n!"vcmpgtss", [.xmm, .op], 0, .leaf (.avx3 (.a 0) (.a 0) (.a 1) (fl [T_F3, T_0F]) 0xC2 (.c 0x0E))⟩,
  ⟨1644, n!"vcmple_oqpd", [.xmm, .op], 0, .leaf (.avx3 (.a 0) (.a 0) (.a 1) (fl [T_66, T_0F, T_YMM]) 0xC2 (.c 0x12))⟩,
  ⟨1645, n!"vcmple_oqps", [.xmm, .op], 0, .leaf (.avx3 (.a 0) (.a 0) (.a 1) (fl [T_0F, T_YMM]) 0xC2 (.c 0x12))⟩,
  ⟨1646, n!"vcmple_oqsd", [.xmm, .op], 0, .leaf (.avx3 (.a 0) (.a 0) (.a 1) (fl [T_F2, T_0F]) 0xC2 (.c 0x12))⟩,
  ⟨1647, n!"vcmple_oqss", [.xmm, .op], 0, .leaf (.avx3 (.a 0) (.a 0) (.a 1) (fl [T_F3, T_0F]) 0xC2 (.c 0x12))⟩,
  ⟨1648, n!"vcmplepd", [.xmm, .op], 0, .leaf (.avx3 (.a 0) (.a 0) (.a 1) (fl [T_66, T_0F, T_YMM]) 0xC2 (.c 0x02))⟩,
  ⟨1649, n!"vcmpleps", [.xmm, .op], 0, .leaf (.avx3 (.a 0) (.a 0) (.a 1) (fl [T_0F, T_YMM]) 0xC2 (.c 0x02))⟩,
  ⟨1650, n!"vcmplesd", [.xmm, .op], 0, .leaf (.avx3 (.a 0) (.a 0) (.a 1) (fl [T_F2, T_0F]) 0xC2 (.c 0x02))⟩,
  ⟨1651, n!"vcmpless", [.xmm, .op], 0, .leaf (.avx3 (.a 0) (.a 0) (.a 1) (fl [T_F3, T_0F]) 0xC2 (.c 0x02))⟩,
  ⟨1652, n!"vcmplt_oqpd", [.xmm, .op], 0, .leaf (.avx3 (.a 0) (.a 0) (.a 1) (fl [T_66, T_0F, T_YMM]) 0xC2 (.c 0x11))⟩,
  ⟨1653, n!"vcmplt_oqps", [.xmm, .op], 0, .leaf (.avx3 (.a 0) (.a 0) (.a 1) (fl [T_0F, T_YMM]) 0xC2 (.c 0x11))⟩,
  ⟨1654, n!"vcmplt_oqsd", [.xmm, .op], 0, .leaf (.avx3 (.a 0) (.a 0) (.a 1) (fl [T_F2, T_0F]) 0xC2 (.c 0x11))⟩,
  ⟨1655, n!"vcmplt_oqss", [.xmm, .op], 0, .leaf (.avx3 (.a 0) (.a 0) (.a 1) (fl [T_F3, T_0F]) 0xC2 (.c 0x11))⟩,
  ⟨1656, n!"vcmpltpd", [.xmm, .op], 0, .leaf (.avx3 (.a 0) (.a 0) (.a 1) (fl [T_66, T_0F, T_YMM]) 0xC2 (.c 0x01))⟩,
  ⟨1657, n!"vcmpltps", [.xmm, .op], 0, .leaf (.avx3 (.a 0) (.a 0) (.a 1) (fl [T_0F, T_YMM]) 0xC2 (.c 0x01))⟩,
  ⟨1658, n!"vcmpltsd", [.xmm, .op], 0, .leaf (.avx3 (.a 0) (.a 0) (.a 1) (fl [T_F2, T_0F]) 0xC2 (.c 0x01))⟩,
  ⟨1659, n!"vcmpltss", [.xmm, .op], 0, .leaf (.avx3 (.a 0) (.a 0) (.a 1) (fl [T_F3, T_0F]) 0xC2 (.c 0x01))⟩,
  ⟨1660, n!"vcmpneq_oqpd", [.xmm, .op], 0, .leaf (.avx3 (.a 0) (.a 0) (.a 1) (fl [T_66, T_0F, T_YMM]) 0xC2 (.c 0x0C))⟩,
  ⟨1661, n!"vcmpneq_oqps", [.xmm, .op], 0, .leaf (.avx3 (.a 0) (.a 0) (.a 1) (fl [T_0F, T_YMM]) 0xC2 (.c 0x0C))⟩,
  ⟨1662, n!"vcmpneq_oqsd", [.xmm, .op], 0, .leaf (.avx3 (.a 0) (.a 0) (.a 1) (fl [T_F2, T_0F]) 0xC2 (.c 0x0C))⟩,
  ⟨1663, n!"vcmpneq_oqss", [.xmm, .op], 0, .leaf (.avx3 (.a 0) (.a 0) (.a 1) (fl [T_F3, T_0F]) 0xC2 (.c 0x0C))⟩,
  ⟨1664, n!"vcmpneq_ospd", [.xmm, .op], 0, .leaf (.avx3 (.a 0) (.a 0) (.a 1) (fl [T_66, T_0F, T_YMM]) 0xC2 (.c 0x1C))⟩,
  ⟨1665, n!"vcmpneq_osps", [.xmm, .op], 0, .leaf (.avx3 (.a 0) (.a 0) (.a 1) (fl [T_0F, T_YMM]) 0xC2 (.c 0x1C))⟩,
  ⟨1666, n!"vcmpneq_ossd", [.xmm, .op], 0, .leaf (.avx3 (.a 0) (.a 0) (.a 1) (fl [T_F2, T_0F]) 0xC2 (.c 0x1C))⟩,
  ⟨1667, n!"vcmpneq_osss", [.xmm, .op], 0, .leaf (.avx3 (.a 0) (.a 0) (.a 1) (fl [T_F3, T_0F]) 0xC2 (.c 0x1C))⟩,
  ⟨1668, n!"vcmpneq_uspd", [.xmm, .op], 0, .leaf (.avx3 (.a 0) (.a 0) (.a 1) (fl [T_66, T_0F, T_YMM]) 0xC2 (.c 0x14))⟩,
  ⟨1669, n!"vcmpneq_usps", [.xmm, .op], 0, .leaf (.avx3 (.a 0) (.a 0) (.a 1) (fl [T_0F, T_YMM]) 0xC2 (.c 0x14))⟩,
  ⟨1670, n!"vcmpneq_ussd", [.xmm, .op], 0, .leaf (.avx3 (.a 0) (.a 0) (.a 1) (fl [T_F2, T_0F]) 0xC2 (.c 0x14))⟩,
  ⟨1671, n!"vcmpneq_usss", [.xmm, .op], 0, .leaf (.avx3 (.a 0) (.a 0) (.a 1) (fl [T_F3, T_0F]) 0xC2 (.c 0x14))⟩,
  ⟨1672, n!"vcmpneqpd", [.xmm, .op], 0, .leaf (.avx3 (.a 0) (.a 0) (.a 1) (fl [T_66, T_0F, T_YMM]) 0xC2 (.c 0x04))⟩,
  ⟨1673, n!"vcmpneqps", [.xmm, .op], 0, .leaf (.avx3 (.a 0) (.a 0) (.a 1) (fl [T_0F, T_YMM]) 0xC2 (.c 0x04))⟩,
  ⟨1674, n!"vcmpneqsd", [.xmm, .op], 0, .leaf (.avx3 (.a 0) (.a 0) (.a 1) (fl [T_F2, T_0F]) 0xC2 (.c 0x04))⟩,
  ⟨1675, n!"vcmpneqss", [.xmm, .op], 0, .leaf (.avx3 (.a 0) (.a 0) (.a 1) (fl [T_F3, T_0F]) 0xC2 (.c 0x04))⟩,
  ⟨1676, n!"vcmpnge_uqpd", [.xmm, .op], 0, .leaf (.avx3 (.a 0) (.a 0) (.a 1) (fl [T_66, T_0F, T_YMM]) 0xC2 (.c 0x19))⟩,
  ⟨1677, n!"vcmpnge_uqps", [.xmm, .op], 0, .leaf (.avx3 (.a 0) (.a 0) (.a 1) (fl [T_0F, T_YMM]) 0xC2 (.c 0x19))⟩,
  ⟨1678, n!"vcmpnge_uqsd", [.xmm, .op], 0, .leaf (.avx3 (.a 0) (.a 0) (.a 1) (fl [T_F2, T_0F]) 0xC2 (.c 0x19))⟩,
  ⟨1679, n!"vcmpnge_uqss", [.xmm, .op], 0, .leaf (.avx3 (.a 0) (.a 0) (.a 1) (fl [T_F3, T_0F]) 0xC2 (.c 0x19))⟩,
  ⟨1680, n!"vcmpngepd", [.xmm, .op], 0, .leaf (.avx3 (.a 0) (.a 0) (.a 1) (fl [T_66, T_0F, T_YMM]) 0xC2 (.c 0x09))⟩,
  ⟨1681, n!"vcmpngeps", [.xmm, .op], 0, .leaf (.avx3 (.a 0) (.a 0) (.a 1) (fl [T_0F, T_YMM]) 0xC2 (.c 0x09))⟩,
  ⟨1682, n!"vcmpngesd", [.xmm, .op], 0, .leaf (.avx3 (.a 0) (.a 0) (.a 1) (fl [T_F2, T_0F]) 0xC2 (.c 0x09))⟩,
  ⟨1683, n!"vcmpngess", [.xmm, .op], 0, .leaf (.avx3 (.a 0) (.a 0) (.a 1) (fl [T_F3, T_0F]) 0xC2 (.c 0x09))⟩,
  ⟨1684, n!"vcmpngt_uqpd", [.xmm, .op], 0, .leaf (.avx3 (.a 0) (.a 0) (.a 1) (fl [T_66, T_0F, T_YMM]) 0xC2 (.c 0x1A))⟩,
  ⟨1685, n!"vcmpngt_uqps", [.xmm, .op], 0, .leaf (.avx3 (.a 0) (.a 0) (.a 1) (fl [T_0F, T_YMM]) 0xC2 (.c 0x1A))⟩,
  ⟨1686, n!"vcmpngt_uqsd", [.xmm, .op], 0, .leaf (.avx3 (.a 0) (.a 0) (.a 1) (fl [T_F2, T_0F]) 0xC2 (.c 0x1A))⟩,
  ⟨1687, n!"vcmpngt_uqss", [.xmm, .op], 0, .leaf (.avx3 (.a 0) (.a 0) (.a 1) (fl [T_F3, T_0F]) 0xC2 (.c 0x1A))⟩,
  ⟨1688, n!"vcmpngtpd", [.xmm, .op], 0, .leaf (.avx3 (.a 0) (.a 0) (.a 1) (fl [T_66, T_0F, T_YMM]) 0xC2 (.c 0x0A))⟩,
  ⟨1689, n!"vcmpngtps", [.xmm, .op], 0, .leaf (.avx3 (.a 0) (.a 0) (.a 1) (fl [T_0F, T_YMM]) 0xC2 (.c 0x0A))⟩,
  ⟨1690, n!"vcmpngtsd", [.xmm, .op], 0, .leaf (.avx3 (.a 0) (.a 0) (.a 1) (fl [T_F2, T_0F]) 0xC2 (.c 0x0A))⟩,
  ⟨1691, n!"vcmpngtss", [.xmm, .op], 0, .leaf (.avx3 (.a 0) (.a 0) (.a 1) (fl [T_F3, T_0F]) 0xC2 (.c 0x0A))⟩,
  ⟨1692, n!"vcmpnle_uqpd", [.xmm, .op], 0, .leaf (.avx3 (.a 0) (.a 0) (.a 1) (fl [T_66, T_0F, T_YMM]) 0xC2 (.c 0x16))⟩,
  ⟨1693, n!"vcmpnle_uqps", [.xmm, .op], 0, .leaf (.avx3 (.a 0) (.a 0) (.a 1) (fl [T_0F, T_YMM]) 0xC2 (.c 0x16))⟩,
  ⟨1694, n!"vcmpnle_uqsd", [.xmm, .op], 0, .leaf (.avx3 (.a 0) (.a 0) (.a 1) (fl [T_F2, T_0F]) 0xC2 (.c 0x16))⟩,
  ⟨1695, n!"vcmpnle_uqss", [.xmm, .op], 0, .leaf (.avx3 (.a 0) (.a 0) (.a 1) (fl [T_F3, T_0F]) 0xC2 (.c 0x16))⟩,
  ⟨1696, n!"vcmpnlepd", [.xmm, .op], 0, .leaf (.avx3 (.a 0) (.a 0) (.a 1) (fl [T_66, T_0F, T_YMM]) 0xC2 (.c 0x06))⟩,
  ⟨1697, n!"vcmpnleps", [.xmm, .op], 0, .leaf (.avx3 (.a 0) (.a 0) (.a 1) (fl [T_0F, T_YMM]) 0xC2 (.c 0x06))⟩,
  ⟨1698, n!"vcmpnlesd", [.xmm, .op], 0, .leaf (.avx3 (.a 0) (.a 0) (.a 1) (fl [T_F2, T_0F]) 0xC2 (.c 0x06))⟩,
  ⟨1699, n!"vcmpnless", [.xmm, .op], 0, .leaf (.avx3 (.a 0) (.a 0) (.a 1) (fl [T_F3, T_0F]) 0xC2 (.c 0x06))⟩,
  ⟨1700, n!"vcmpnlt_uqpd", [.xmm, .op], 0, .leaf (.avx3 (.a 0) (.a 0) (.a 1) (fl [T_66, T_0F, T_YMM]) 0xC2 (.c 0x15))⟩,
  ⟨1701, n!"vcmpnlt_uqps", [.xmm, .op], 0, .leaf (.avx3 (.a 0) (.a 0) (.a 1) (fl [T_0F, T_YMM]) 0xC2 (.c 0x15))⟩,
  ⟨1702, n!"vcmpnlt_uqsd", [.xmm, .op], 0, .leaf (.avx3 (.a 0) (.a 0) (.a 1) (fl [T_F2, T_0F]) 0xC2 (.c 0x15))⟩]

end Mn
end Xbyak
