import Verif.Mnemonic.Basic
/-! Mnemonic table, `xbyak_mnemonic.h` lines 2409-2662.  Each entry cites its line; an alias (a line calling another mnemonic) has the
body of the function it calls, with the arguments substituted. -/
namespace Xbyak
namespace Mn
open E

/-- `xbyak_mnemonic.h` 2409-2662 -/
def t08 : List Entry := [
  ⟨2409, n!"vmovdqa32", [.xmm, .op], 0, .leaf (.avx2 (.a 0) (.a 1) (fl [T_66, T_0F, T_EW0, T_YMM, T_ER_X, T_ER_Y, T_ER_Z, T_MUST_EVEX]) 0x6F .none)⟩,
  ⟨2410, n!"vmovdqa64", [.addr, .xmm], 0, .leaf (.avx2 (.a 1) (.a 0) (fl [T_66, T_0F, T_EW1, T_YMM, T_ER_X, T_ER_Y, T_ER_Z, T_MUST_EVEX, T_M_K]) 0x7F .none)⟩,
  ⟨2411, n!"vmovdqa64", [.xmm, .op], 0, .leaf (.avx2 (.a 0) (.a 1) (fl [T_66, T_0F, T_EW1, T_YMM, T_ER_X, T_ER_Y, T_ER_Z, T_MUST_EVEX]) 0x6F .none)⟩,
  ⟨2412, n!"vmovdqu16", [.addr, .xmm], 0, .leaf (.avx2 (.a 1) (.a 0) (fl [T_F2, T_0F, T_EW1, T_YMM, T_ER_X, T_ER_Y, T_ER_Z, T_MUST_EVEX, T_M_K]) 0x7F .none)⟩,
  ⟨2413, n!"vmovdqu16", [.xmm, .op], 0, .leaf (.avx2 (.a 0) (.a 1) (fl [T_F2, T_0F, T_EW1, T_YMM, T_ER_X, T_ER_Y, T_ER_Z, T_MUST_EVEX]) 0x6F .none)⟩,
  ⟨2414, n!"vmovdqu32", [.addr, .xmm], 0, .leaf (.avx2 (.a 1) (.a 0) (fl [T_F3, T_0F, T_EW0, T_YMM, T_ER_X, T_ER_Y, T_ER_Z, T_MUST_EVEX, T_M_K]) 0x7F .none)⟩,
  ⟨2415, n!"vmovdqu32", [.xmm, .op], 0, .leaf (.avx2 (.a 0) (.a 1) (fl [T_F3, T_0F, T_EW0, T_YMM, T_ER_X, T_ER_Y, T_ER_Z, T_MUST_EVEX]) 0x6F .none)⟩,
  ⟨2416, n!"vmovdqu64", [.addr, .xmm], 0, .leaf (.avx2 (.a 1) (.a 0) (fl [T_F3, T_0F, T_EW1, T_YMM, T_ER_X, T_ER_Y, T_ER_Z, T_MUST_EVEX, T_M_K]) 0x7F .none)⟩,
  ⟨2417, n!"vmovdqu64", [.xmm, .op], 0, .leaf (.avx2 (.a 0) (.a 1) (fl [T_F3, T_0F, T_EW1, T_YMM, T_ER_X, T_ER_Y, T_ER_Z, T_MUST_EVEX]) 0x6F .none)⟩,
  ⟨2418, n!"vmovdqu8", [.addr, .xmm], 0, .leaf (.avx2 (.a 1) (.a 0) (fl [T_F2, T_0F, T_EW0, T_YMM, T_ER_X, T_ER_Y, T_ER_Z, T_MUST_EVEX, T_M_K]) 0x7F .none)⟩,
  ⟨2419, n!"vmovdqu8", [.xmm, .op], 0, .leaf (.avx2 (.a 0) (.a 1) (fl [T_F2, T_0F, T_EW0, T_YMM, T_ER_X, T_ER_Y, T_ER_Z, T_MUST_EVEX]) 0x6F .none)⟩,
  ⟨2420, n!"vmovsh", [.addr, .xmm], 0, .leaf (.avx2 (.a 1) (.a 0) (fl [T_N2, T_F3, T_MAP5, T_EW0, T_MUST_EVEX, T_M_K]) 0x11 .none)⟩,
  ⟨2421, n!"vmovsh", [.xmm, .addr], 0, .leaf (.avx3 (.a 0) (.r (.xmm 0)) (.a 1) (fl [T_N2, T_F3, T_MAP5, T_EW0, T_MUST_EVEX]) 0x10 .none)⟩,
  ⟨2422, n!"vmovsh", [.xmm, .xmm, .xmm], 0, .leaf (.avx3 (.a 0) (.a 1) (.a 2) (fl [T_N2, T_F3, T_MAP5, T_EW0, T_MUST_EVEX]) 0x10 .none)⟩,
  ⟨2423, n!"vmpsadbw", [.xmm, .xmm, .op, .int, .enc], 0, .leaf (.encoding (.a 0) (.a 1) (.a 2) (fl [T_0F3A, T_YMM]) 0x42 (.i 0) (fl [T_66, T_W0, T_YMM]) (fl [T_F3, T_0F3A, T_EW0, T_B32]) 1)⟩,
  ⟨2424, n!"vmulnepbf16", [.xmm, .xmm, .op], 0, .leaf (.avx3 (.a 0) (.a 1) (.a 2) (fl [T_66, T_MAP5, T_EW0, T_YMM, T_MUST_EVEX, T_B16]) 0x59 .none)⟩,
  ⟨2425, n!"vmulph", [.xmm, .op, .op], 1, .leaf (.avx3 (.a 0) (.a 1) (.a 2) (fl [T_MAP5, T_EW0, T_YMM, T_MUST_EVEX, T_ER_Z, T_B16]) 0x59 .none)⟩,
  ⟨2426, n!"vmulsh", [.xmm, .op, .op], 1, .leaf (.avx3 (.a 0) (.a 1) (.a 2) (fl [T_MAP5, T_F3, T_EW0, T_MUST_EVEX, T_ER_X, T_N2]) 0x59 .none)⟩,
  ⟨2427, n!"vp2intersectd", [.opmask, .xmm, .op], 0, .guard (fun g => decide ((g.reg 0).mask ≠ 0)) .OPMASK_IS_ALREADY_SET (.leaf (.avxK (.a 0) (.a 1) (.a 2) (fl [T_F2, T_0F38, T_YMM, T_EVEX, T_EW0, T_B32]) 0x68 .none))⟩,
  ⟨2428, n!"vp2intersectq", [.opmask, .xmm, .op], 0, .guard (fun g => decide ((g.reg 0).mask ≠ 0)) .OPMASK_IS_ALREADY_SET (.leaf (.avxK (.a 0) (.a 1) (.a 2) (fl [T_F2, T_0F38, T_YMM, T_EVEX, T_EW1, T_B64]) 0x68 .none))⟩,
  ⟨2429, n!"vp4dpwssd", [.zmm, .zmm, .addr], 0, .leaf (.avx3 (.a 0) (.a 1) (.a 2) (fl [T_0F38, T_F2, T_EW0, T_YMM, T_MUST_EVEX, T_N16]) 0x52 .none)⟩,
  ⟨2430, n!"vp4dpwssds", [.zmm, .zmm, .addr], 0, .leaf (.avx3 (.a 0) (.a 1) (.a 2) (fl [T_0F38, T_F2, T_EW0, T_YMM, T_MUST_EVEX, T_N16]) 0x53 .none)⟩,
  ⟨2431, n!"vpabsq", [.xmm, .op], 0, .leaf (.avx2 (.a 0) (.a 1) (fl [T_66, T_0F38, T_MUST_EVEX, T_EW1, T_B64, T_YMM]) 0x1F .none)⟩,
  ⟨2432, n!"vpandd", [.xmm, .xmm, .op], 0, .leaf (.avx3 (.a 0) (.a 1) (.a 2) (fl [T_66, T_0F, T_EW0, T_YMM, T_MUST_EVEX, T_B32]) 0xDB .none)⟩,
  ⟨2433, n!"vpandnd", [.xmm, .xmm, .op], 0, .leaf (.avx3 (.a 0) (.a 1) (.a 2) (fl [T_66, T_0F, T_EW0, T_YMM, T_MUST_EVEX, T_B32]) 0xDF .none)⟩,
  ⟨2434, n!"vpandnq", [.xmm, .xmm, .op], 0, .leaf (.avx3 (.a 0) (.a 1) (.a 2) (fl [T_66, T_0F, T_EW1, T_YMM, T_MUST_EVEX, T_B64]) 0xDF .none)⟩,
  ⟨2435, n!"vpandq", [.xmm, .xmm, .op], 0, .leaf (.avx3 (.a 0) (.a 1) (.a 2) (fl [T_66, T_0F, T_EW1, T_YMM, T_MUST_EVEX, T_B64]) 0xDB .none)⟩,
  ⟨2436, n!"vpblendmb", [.xmm, .xmm, .op], 0, .leaf (.avx3 (.a 0) (.a 1) (.a 2) (fl [T_66, T_0F38, T_EW0, T_YMM, T_MUST_EVEX]) 0x66 .none)⟩,
  ⟨2437, n!"vpblendmd", [.xmm, .xmm, .op], 0, .leaf (.avx3 (.a 0) (.a 1) (.a 2) (fl [T_66, T_0F38, T_EW0, T_YMM, T_MUST_EVEX, T_B32]) 0x64 .none)⟩,
  ⟨2438, n!"vpblendmq", [.xmm, .xmm, .op], 0, .leaf (.avx3 (.a 0) (.a 1) (.a 2) (fl [T_66, T_0F38, T_EW1, T_YMM, T_MUST_EVEX, T_B64]) 0x64 .none)⟩,
  ⟨2439, n!"vpblendmw", [.xmm, .xmm, .op], 0, .leaf (.avx3 (.a 0) (.a 1) (.a 2) (fl [T_66, T_0F38, T_EW1, T_YMM, T_MUST_EVEX]) 0x66 .none)⟩,
  ⟨2440, n!"vpbroadcastb", [.xmm, .reg8], 0, .leaf (.vex (.a 0) none (.a 1) (fl [T_66, T_0F38, T_EW0, T_YMM, T_MUST_EVEX]) 0x7A .none)⟩,
  ⟨2441, n!"vpbroadcastd", [.xmm, .reg32], 0, .leaf (.vex (.a 0) none (.a 1) (fl [T_66, T_0F38, T_EW0, T_YMM, T_MUST_EVEX]) 0x7C .none)⟩,
  ⟨2442, n!"vpbroadcastmb2q", [.xmm, .opmask], 0, .leaf (.vex (.a 0) none (.a 1) (fl [T_F3, T_0F38, T_YMM, T_MUST_EVEX, T_EW1]) 0x2A .none)⟩,
  ⟨2443, n!"vpbroadcastmw2d", [.xmm, .opmask], 0, .leaf (.vex (.a 0) none (.a 1) (fl [T_F3, T_0F38, T_YMM, T_MUST_EVEX, T_EW0]) 0x3A .none)⟩,
  ⟨2444, n!"vpbroadcastw", [.xmm, .reg16], 0, .leaf (.vex (.a 0) none (.a 1) (fl [T_66, T_0F38, T_EW0, T_YMM, T_MUST_EVEX]) 0x7B .none)⟩,
  ⟨2445, n!"vpcmpb", [.opmask, .xmm, .op, .int], 0, .leaf (.avxK (.a 0) (.a 1) (.a 2) (fl [T_66, T_0F3A, T_EW0, T_YMM, T_MUST_EVEX]) 0x3F (.i 0))⟩,
  ⟨2446, n!"vpcmpd", [.opmask, .xmm, .op, .int], 0, .leaf (.avxK (.a 0) (.a 1) (.a 2) (fl [T_66, T_0F3A, T_EW0, T_YMM, T_MUST_EVEX, T_B32]) 0x1F (.i 0))⟩,
  ⟨2447, n!"vpcmpeqb", [.opmask, .xmm, .op], 0, .leaf (.avxK (.a 0) (.a 1) (.a 2) (fl [T_66, T_0F, T_YMM, T_MUST_EVEX]) 0x74 .none)⟩,
  ⟨2448, n!"vpcmpeqd", [.opmask, .xmm, .op], 0, .leaf (.avxK (.a 0) (.a 1) (.a 2) (fl [T_66, T_0F, T_YMM, T_MUST_EVEX, T_B32]) 0x76 .none)⟩,
  ⟨2449, n!"vpcmpeqq", [.opmask, .xmm, .op], 0, .leaf (.avxK (.a 0) (.a 1) (.a 2) (fl [T_66, T_0F38, T_EW1, T_YMM, T_MUST_EVEX, T_B64]) 0x29 .none)⟩,
  ⟨2450, n!"vpcmpeqw", [.opmask, .xmm, .op], 0, .leaf (.avxK (.a 0) (.a 1) (.a 2) (fl [T_66, T_0F, T_YMM, T_MUST_EVEX]) 0x75 .none)⟩,
  ⟨2451, n!"vpcmpgtb", [.opmask, .xmm, .op], 0, .leaf (.avxK (.a 0) (.a 1) (.a 2) (fl [T_66, T_0F, T_YMM, T_MUST_EVEX]) 0x64 .none)⟩,
  ⟨2452, n!"vpcmpgtd", [.opmask, .xmm, .op], 0, .leaf (.avxK (.a 0) (.a 1) (.a 2) (fl [T_66, T_0F, T_EW0, T_YMM, T_MUST_EVEX, T_B32]) 0x66 .none)⟩,
  ⟨2453, n!"vpcmpgtq", [.opmask, .xmm, .op], 0, .leaf (.avxK (.a 0) (.a 1) (.a 2) (fl [T_66, T_0F38, T_EW1, T_YMM, T_MUST_EVEX, T_B64]) 0x37 .none)⟩,
  ⟨2454, n!"vpcmpgtw", [.opmask, .xmm, .op], 0, .leaf (.avxK (.a 0) (.a 1) (.a 2) (fl [T_66, T_0F, T_YMM, T_MUST_EVEX]) 0x65 .none)⟩,
  ⟨2455, n!"vpcmpq", [.opmask, .xmm, .op, .int], 0, .leaf (.avxK (.a 0) (.a 1) (.a 2) (fl [T_66, T_0F3A, T_EW1, T_YMM, T_MUST_EVEX, T_B64]) 0x1F (.i 0))⟩,
  ⟨2456, n!"vpcmpub", [.opmask, .xmm, .op, .int], 0, .leaf (.avxK (.a 0) (.a 1) (.a 2) (fl [T_66, T_0F3A, T_EW0, T_YMM, T_MUST_EVEX]) 0x3E (.i 0))⟩,
  ⟨2457, n!"vpcmpud", [.opmask, .xmm, .op, .int], 0, .leaf (.avxK (.a 0) (.a 1) (.a 2) (fl [T_66, T_0F3A, T_EW0, T_YMM, T_MUST_EVEX, T_B32]) 0x1E (.i 0))⟩,
  ⟨2458, n!"vpcmpuq", [.opmask, .xmm, .op, .int], 0, .leaf (.avxK (.a 0) (.a 1) (.a 2) (fl [T_66, T_0F3A, T_EW1, T_YMM, T_MUST_EVEX, T_B64]) 0x1E (.i 0))⟩,
  ⟨2459, n!"vpcmpuw", [.opmask, .xmm, .op, .int], 0, .leaf (.avxK (.a 0) (.a 1) (.a 2) (fl [T_66, T_0F3A, T_EW1, T_YMM, T_MUST_EVEX]) 0x3E (.i 0))⟩,
  ⟨2460, n!"vpcmpw", [.opmask, .xmm, .op, .int], 0, .leaf (.avxK (.a 0) (.a 1) (.a 2) (fl [T_66, T_0F3A, T_EW1, T_YMM, T_MUST_EVEX]) 0x3F (.i 0))⟩,
  ⟨2461, n!"vpcompressb", [.op, .xmm], 0, .leaf (.avx2 (.a 1) (.a 0) (fl [T_N1, T_66, T_0F38, T_EW0, T_YMM, T_MUST_EVEX]) 0x63 .none)⟩,
  ⟨2462, n!"vpcompressd", [.op, .xmm], 0, .leaf (.avx2 (.a 1) (.a 0) (fl [T_N4, T_66, T_0F38, T_EW0, T_YMM, T_MUST_EVEX]) 0x8B .none)⟩,
  ⟨2463, n!"vpcompressq", [.op, .xmm], 0, .leaf (.avx2 (.a 1) (.a 0) (fl [T_N8, T_66, T_0F38, T_EW1, T_YMM, T_MUST_EVEX]) 0x8B .none)⟩,
  ⟨2464, n!"vpcompressw", [.op, .xmm], 0, .leaf (.avx2 (.a 1) (.a 0) (fl [T_N2, T_66, T_0F38, T_EW1, T_YMM, T_MUST_EVEX]) 0x63 .none)⟩,
  ⟨2465, n!"vpconflictd", [.xmm, .op], 0, .leaf (.avx2 (.a 0) (.a 1) (fl [T_66, T_0F38, T_EW0, T_YMM, T_MUST_EVEX, T_B32]) 0xC4 .none)⟩,
  ⟨2466, n!"vpconflictq", [.xmm, .op], 0, .leaf (.avx2 (.a 0) (.a 1) (fl [T_66, T_0F38, T_EW1, T_YMM, T_MUST_EVEX, T_B64]) 0xC4 .none)⟩,
  ⟨2467, n!"vpdpbssd", [.xmm, .xmm, .op, .enc], 0, .leaf (.encoding (.a 0) (.a 1) (.a 2) (fl [T_F2, T_0F38, T_YMM]) 0x50 .none T_W0 (fl [T_EW0, T_B32]) 1)⟩,
  ⟨2468, n!"vpdpbssds", [.xmm, .xmm, .op, .enc], 0, .leaf (.encoding (.a 0) (.a 1) (.a 2) (fl [T_F2, T_0F38, T_YMM]) 0x51 .none T_W0 (fl [T_EW0, T_B32]) 1)⟩,
  ⟨2469, n!"vpdpbsud", [.xmm, .xmm, .op, .enc], 0, .leaf (.encoding (.a 0) (.a 1) (.a 2) (fl [T_F3, T_0F38, T_YMM]) 0x50 .none T_W0 (fl [T_EW0, T_B32]) 1)⟩,
  ⟨2470, n!"vpdpbsuds", [.xmm, .xmm, .op, .enc], 0, .leaf (.encoding (.a 0) (.a 1) (.a 2) (fl [T_F3, T_0F38, T_YMM]) 0x51 .none T_W0 (fl [T_EW0, T_B32]) 1)⟩,
  ⟨2471, n!"vpdpbuud", [.xmm, .xmm, .op, .enc], 0, .leaf (.encoding (.a 0) (.a 1) (.a 2) (fl [T_0F38, T_YMM]) 0x50 .none T_W0 (fl [T_EW0, T_B32]) 1)⟩,
  ⟨2472, n!"vpdpbuuds", [.xmm, .xmm, .op, .enc], 0, .leaf (.encoding (.a 0) (.a 1) (.a 2) (fl [T_0F38, T_YMM]) 0x51 .none T_W0 (fl [T_EW0, T_B32]) 1)⟩,
  ⟨2473, n!"vpdpwsud", [.xmm, .xmm, .op, .enc], 0, .leaf (.encoding (.a 0) (.a 1) (.a 2) (fl [T_F3, T_0F38, T_YMM]) 0xD2 .none T_W0 (fl [T_EW0, T_B32]) 1)⟩,
  ⟨2474, n!"vpdpwsuds", [.xmm, .xmm, .op, .enc], 0, .leaf (.encoding (.a 0) (.a 1) (.a 2) (fl [T_F3, T_0F38, T_YMM]) 0xD3 .none T_W0 (fl [T_EW0, T_B32]) 1)⟩,
  ⟨2475, n!"vpdpwusd", [.xmm, .xmm, .op, .enc], 0, .leaf (.encoding (.a 0) (.a 1) (.a 2) (fl [T_66, T_0F38, T_YMM]) 0xD2 .none T_W0 (fl [T_EW0, T_B32]) 1)⟩,
  ⟨2476, n!"vpdpwusds", [.xmm, .xmm, .op, .enc], 0, .leaf (.encoding (.a 0) (.a 1) (.a 2) (fl [T_66, T_0F38, T_YMM]) 0xD3 .none T_W0 (fl [T_EW0, T_B32]) 1)⟩,
  ⟨2477, n!"vpdpwuud", [.xmm, .xmm, .op, .enc], 0, .leaf (.encoding (.a 0) (.a 1) (.a 2) (fl [T_0F38, T_YMM]) 0xD2 .none T_W0 (fl [T_EW0, T_B32]) 1)⟩,
  ⟨2478, n!"vpdpwuuds", [.xmm, .xmm, .op, .enc], 0, .leaf (.encoding (.a 0) (.a 1) (.a 2) (fl [T_0F38, T_YMM]) 0xD3 .none T_W0 (fl [T_EW0, T_B32]) 1)⟩,
  ⟨2479, n!"vpermb", [.xmm, .xmm, .op], 0, .leaf (.avx3 (.a 0) (.a 1) (.a 2) (fl [T_66, T_0F38, T_EW0, T_YMM, T_MUST_EVEX]) 0x8D .none)⟩,
  ⟨2480, n!"vpermi2b", [.xmm, .xmm, .op], 0, .leaf (.avx3 (.a 0) (.a 1) (.a 2) (fl [T_66, T_0F38, T_EW0, T_YMM, T_MUST_EVEX]) 0x75 .none)⟩,
  ⟨2481, n!"vpermi2d", [.xmm, .xmm, .op], 0, .leaf (.avx3 (.a 0) (.a 1) (.a 2) (fl [T_66, T_0F38, T_EW0, T_YMM, T_MUST_EVEX, T_B32]) 0x76 .none)⟩,
  ⟨2482, n!"vpermi2pd", [.xmm, .xmm, .op], 0, .leaf (.avx3 (.a 0) (.a 1) (.a 2) (fl [T_66, T_0F38, T_EW1, T_YMM, T_MUST_EVEX, T_B64]) 0x77 .none)⟩,
  ⟨2483, n!"vpermi2ps", [.xmm, .xmm, .op], 0, .leaf (.avx3 (.a 0) (.a 1) (.a 2) (fl [T_66, T_0F38, T_EW0, T_YMM, T_MUST_EVEX, T_B32]) 0x77 .none)⟩,
  ⟨2484, n!"vpermi2q", [.xmm, .xmm, .op], 0, .leaf (.avx3 (.a 0) (.a 1) (.a 2) (fl [T_66, T_0F38, T_EW1, T_YMM, T_MUST_EVEX, T_B64]) 0x76 .none)⟩,
  ⟨2485, n!"vpermi2w", [.xmm, .xmm, .op], 0, .leaf (.avx3 (.a 0) (.a 1) (.a 2) (fl [T_66, T_0F38, T_EW1, T_YMM, T_MUST_EVEX]) 0x75 .none)⟩,
  ⟨2486, n!"vpermt2b", [.xmm, .xmm, .op], 0, .leaf (.avx3 (.a 0) (.a 1) (.a 2) (fl [T_66, T_0F38, T_EW0, T_YMM, T_MUST_EVEX]) 0x7D .none)⟩,
  ⟨2487, n!"vpermt2d", [.xmm, .xmm, .op], 0, .leaf (.avx3 (.a 0) (.a 1) (.a 2) (fl [T_66, T_0F38, T_EW0, T_YMM, T_MUST_EVEX, T_B32]) 0x7E .none)⟩,
  ⟨2488, n!"vpermt2pd", [.xmm, .xmm, .op], 0, .leaf (.avx3 (.a 0) (.a 1) (.a 2) (fl [T_66, T_0F38, T_EW1, T_YMM, T_MUST_EVEX, T_B64]) 0x7F .none)⟩,
  ⟨2489, n!"vpermt2ps", [.xmm, .xmm, .op], 0, .leaf (.avx3 (.a 0) (.a 1) (.a 2) (fl [T_66, T_0F38, T_EW0, T_YMM, T_MUST_EVEX, T_B32]) 0x7F .none)⟩,
  ⟨2490, n!"vpermt2q", [.xmm, .xmm, .op], 0, .leaf (.avx3 (.a 0) (.a 1) (.a 2) (fl [T_66, T_0F38, T_EW1, T_YMM, T_MUST_EVEX, T_B64]) 0x7E .none)⟩,
  ⟨2491, n!"vpermt2w", [.xmm, .xmm, .op], 0, .leaf (.avx3 (.a 0) (.a 1) (.a 2) (fl [T_66, T_0F38, T_EW1, T_YMM, T_MUST_EVEX]) 0x7D .none)⟩,
  ⟨2492, n!"vpermw", [.xmm, .xmm, .op], 0, .leaf (.avx3 (.a 0) (.a 1) (.a 2) (fl [T_66, T_0F38, T_EW1, T_YMM, T_MUST_EVEX]) 0x8D .none)⟩,
  ⟨2493, n!"vpexpandb", [.xmm, .op], 0, .leaf (.avx2 (.a 0) (.a 1) (fl [T_N1, T_66, T_0F38, T_EW0, T_YMM, T_SAE_Z, T_MUST_EVEX]) 0x62 .none)⟩,
  ⟨2494, n!"vpexpandd", [.xmm, .op], 0, .leaf (.avx2 (.a 0) (.a 1) (fl [T_N4, T_66, T_0F38, T_EW0, T_YMM, T_MUST_EVEX]) 0x89 .none)⟩,
  ⟨2495, n!"vpexpandq", [.xmm, .op], 0, .leaf (.avx2 (.a 0) (.a 1) (fl [T_N8, T_66, T_0F38, T_EW1, T_YMM, T_MUST_EVEX]) 0x89 .none)⟩,
  ⟨2496, n!"vpexpandw", [.xmm, .op], 0, .leaf (.avx2 (.a 0) (.a 1) (fl [T_N2, T_66, T_0F38, T_EW1, T_YMM, T_SAE_Z, T_MUST_EVEX]) 0x62 .none)⟩,
  ⟨2497, n!"vpgatherdd", [.xmm, .addr], 0, .leaf (.gather2 (.a 0) (.a 1) (fl [T_N4, T_66, T_0F38, T_EW0, T_YMM, T_MUST_EVEX, T_VSIB]) 0x90 0)⟩,
  ⟨2498, n!"vpgatherdq", [.xmm, .addr], 0, .leaf (.gather2 (.a 0) (.a 1) (fl [T_N8, T_66, T_0F38, T_EW1, T_YMM, T_MUST_EVEX, T_VSIB]) 0x90 1)⟩,
  ⟨2499, n!"vpgatherqd", [.xmm, .addr], 0, .leaf (.gather2 (.a 0) (.a 1) (fl [T_N4, T_66, T_0F38, T_EW0, T_YMM, T_MUST_EVEX, T_VSIB]) 0x91 2)⟩,
  ⟨2500, n!"vpgatherqq", [.xmm, .addr], 0, .leaf (.gather2 (.a 0) (.a 1) (fl [T_N8, T_66, T_0F38, T_EW1, T_YMM, T_MUST_EVEX, T_VSIB]) 0x91 0)⟩,
  ⟨2501, n!"vplzcntd", [.xmm, .op], 0, .leaf (.avx2 (.a 0) (.a 1) (fl [T_66, T_0F38, T_EW0, T_YMM, T_MUST_EVEX, T_B32]) 0x44 .none)⟩,
  ⟨2502, n!"vplzcntq", [.xmm, .op], 0, .leaf (.avx2 (.a 0) (.a 1) (fl [T_66, T_0F38, T_EW1, T_YMM, T_MUST_EVEX, T_B64]) 0x44 .none)⟩,
  ⟨2503, n!"vpmadd52huq", [.xmm, .xmm, .op], 0, .leaf (.avx3 (.a 0) (.a 1) (.a 2) (fl [T_66, T_0F38, T_EW1, T_YMM, T_MUST_EVEX, T_B64]) 0xB5 .none)⟩,
  ⟨2504, n!"vpmadd52luq", [.xmm, .xmm, .op], 0, .leaf (.avx3 (.a 0) (.a 1) (.a 2) (fl [T_66, T_0F38, T_EW1, T_YMM, T_MUST_EVEX, T_B64]) 0xB4 .none)⟩,
  ⟨2505, n!"vpmaxsq", [.xmm, .xmm, .op], 0, .leaf (.avx3 (.a 0) (.a 1) (.a 2) (fl [T_66, T_0F38, T_EW1, T_YMM, T_MUST_EVEX, T_B64]) 0x3D .none)⟩,
  ⟨2506, n!"vpmaxuq", [.xmm, .xmm, .op], 0, .leaf (.avx3 (.a 0) (.a 1) (.a 2) (fl [T_66, T_0F38, T_EW1, T_YMM, T_MUST_EVEX, T_B64]) 0x3F .none)⟩,
  ⟨2507, n!"vpminsq", [.xmm, .xmm, .op], 0, .leaf (.avx3 (.a 0) (.a 1) (.a 2) (fl [T_66, T_0F38, T_EW1, T_YMM, T_MUST_EVEX, T_B64]) 0x39 .none)⟩,
  ⟨2508, n!"vpminuq", [.xmm, .xmm, .op], 0, .leaf (.avx3 (.a 0) (.a 1) (.a 2) (fl [T_66, T_0F38, T_EW1, T_YMM, T_MUST_EVEX, T_B64]) 0x3B .none)⟩,
  ⟨2509, n!"vpmovb2m", [.opmask, .xmm], 0, .leaf (.vex (.a 0) none (.a 1) (fl [T_F3, T_0F38, T_MUST_EVEX, T_YMM, T_EW0]) 0x29 .none)⟩,
  ⟨2510, n!"vpmovd2m", [.opmask, .xmm], 0, .leaf (.vex (.a 0) none (.a 1) (fl [T_F3, T_0F38, T_MUST_EVEX, T_YMM, T_EW0]) 0x39 .none)⟩,
  ⟨2511, n!"vpmovdb", [.op, .xmm], 0, .leaf (.vmov (.a 0) (.a 1) (fl [T_N4, T_N_VL, T_F3, T_0F38, T_EW0, T_YMM, T_MUST_EVEX, T_M_K]) 0x31 false)⟩,
  ⟨2512, n!"vpmovdw", [.op, .xmm], 0, .leaf (.vmov (.a 0) (.a 1) (fl [T_N8, T_N_VL, T_F3, T_0F38, T_EW0, T_YMM, T_MUST_EVEX, T_M_K]) 0x33 true)⟩,
  ⟨2513, n!"vpmovm2b", [.xmm, .opmask], 0, .leaf (.vex (.a 0) none (.a 1) (fl [T_F3, T_0F38, T_MUST_EVEX, T_YMM, T_EW0]) 0x28 .none)⟩,
  ⟨2514, n!"vpmovm2d", [.xmm, .opmask], 0, .leaf (.vex (.a 0) none (.a 1) (fl [T_F3, T_0F38, T_MUST_EVEX, T_YMM, T_EW0]) 0x38 .none)⟩,
  ⟨2515, n!"vpmovm2q", [.xmm, .opmask], 0, .leaf (.vex (.a 0) none (.a 1) (fl [T_F3, T_0F38, T_MUST_EVEX, T_YMM, T_EW1]) 0x38 .none)⟩,
  ⟨2516, n!"vpmovm2w", [.xmm, .opmask], 0, .leaf (.vex (.a 0) none (.a 1) (fl [T_F3, T_0F38, T_MUST_EVEX, T_YMM, T_EW1]) 0x28 .none)⟩,
  ⟨2517, n!"vpmovq2m", [.opmask, .xmm], 0, .leaf (.vex (.a 0) none (.a 1) (fl [T_F3, T_0F38, T_MUST_EVEX, T_YMM, T_EW1]) 0x39 .none)⟩,
  ⟨2518, n!"vpmovqb", [.op, .xmm], 0, .leaf (.vmov (.a 0) (.a 1) (fl [T_N2, T_N_VL, T_F3, T_0F38, T_EW0, T_YMM, T_MUST_EVEX, T_M_K]) 0x32 false)⟩,
  ⟨2519, n!"vpmovqd", [.op, .xmm], 0, .leaf (.vmov (.a 0) (.a 1) (fl [T_N8, T_N_VL, T_F3, T_0F38, T_EW0, T_YMM, T_MUST_EVEX, T_M_K]) 0x35 true)⟩,
  ⟨2520, n!"vpmovqw", [.op, .xmm], 0, .leaf (.vmov (.a 0) (.a 1) (fl [T_N4, T_N_VL, T_F3, T_0F38, T_EW0, T_YMM, T_MUST_EVEX, T_M_K]) 0x34 false)⟩,
  ⟨2521, n!"vpmovsdb", [.op, .xmm], 0, .leaf (.vmov (.a 0) (.a 1) (fl [T_N4, T_N_VL, T_F3, T_0F38, T_EW0, T_YMM, T_MUST_EVEX, T_M_K]) 0x21 false)⟩,
  ⟨2522, n!"vpmovsdw", [.op, .xmm], 0, .leaf (.vmov (.a 0) (.a 1) (fl [T_N8, T_N_VL, T_F3, T_0F38, T_EW0, T_YMM, T_MUST_EVEX, T_M_K]) 0x23 true)⟩,
  ⟨2523, n!"vpmovsqb", [.op, .xmm], 0, .leaf (.vmov (.a 0) (.a 1) (fl [T_N2, T_N_VL, T_F3, T_0F38, T_EW0, T_YMM, T_MUST_EVEX, T_M_K]) 0x22 false)⟩,
  ⟨2524, n!"vpmovsqd", [.op, .xmm], 0, .leaf (.vmov (.a 0) (.a 1) (fl [T_N8, T_N_VL, T_F3, T_0F38, T_EW0, T_YMM, T_MUST_EVEX, T_M_K]) 0x25 true)⟩,
  ⟨2525, n!"vpmovsqw", [.op, .xmm], 0, .leaf (.vmov (.a 0) (.a 1) (fl [T_N4, T_N_VL, T_F3, T_0F38, T_EW0, T_YMM, T_MUST_EVEX, T_M_K]) 0x24 false)⟩,
  ⟨2526, n!"vpmovswb", [.op, .xmm], 0, .leaf (.vmov (.a 0) (.a 1) (fl [T_N8, T_N_VL, T_F3, T_0F38, T_EW0, T_YMM, T_MUST_EVEX, T_M_K]) 0x20 true)⟩,
  ⟨2527, n!"vpmovusdb", [.op, .xmm], 0, .leaf (.vmov (.a 0) (.a 1) (fl [T_N4, T_N_VL, T_F3, T_0F38, T_EW0, T_YMM, T_MUST_EVEX, T_M_K]) 0x11 false)⟩,
  ⟨2528, n!"vpmovusdw", [.op, .xmm], 0, .leaf (.vmov (.a 0) (.a 1) (fl [T_N8, T_N_VL, T_F3, T_0F38, T_EW0, T_YMM, T_MUST_EVEX, T_M_K]) 0x13 true)⟩,
  ⟨2529, n!"vpmovusqb", [.op, .xmm], 0, .leaf (.vmov (.a 0) (.a 1) (fl [T_N2, T_N_VL, T_F3, T_0F38, T_EW0, T_YMM, T_MUST_EVEX, T_M_K]) 0x12 false)⟩,
  ⟨2530, n!"vpmovusqd", [.op, .xmm], 0, .leaf (.vmov (.a 0) (.a 1) (fl [T_N8, T_N_VL, T_F3, T_0F38, T_EW0, T_YMM, T_MUST_EVEX, T_M_K]) 0x15 true)⟩,
  ⟨2531, n!"vpmovusqw", [.op, .xmm], 0, .leaf (.vmov (.a 0) (.a 1) (fl [T_N4, T_N_VL, T_F3, T_0F38, T_EW0, T_YMM, T_MUST_EVEX, T_M_K]) 0x14 false)⟩,
  ⟨2532, n!"vpmovuswb", [.op, .xmm], 0, .leaf (.vmov (.a 0) (.a 1) (fl [T_N8, T_N_VL, T_F3, T_0F38, T_EW0, T_YMM, T_MUST_EVEX, T_M_K]) 0x10 true)⟩,
  ⟨2533, n!"vpmovw2m", [.opmask, .xmm], 0, .leaf (.vex (.a 0) none (.a 1) (fl [T_F3, T_0F38, T_MUST_EVEX, T_YMM, T_EW1]) 0x29 .none)⟩,
  ⟨2534, n!"vpmovwb", [.op, .xmm], 0, .leaf (.vmov (.a 0) (.a 1) (fl [T_N8, T_N_VL, T_F3, T_0F38, T_EW0, T_YMM, T_MUST_EVEX, T_M_K]) 0x30 true)⟩,
  ⟨2535, n!"vpmullq", [.xmm, .xmm, .op], 0, .leaf (.avx3 (.a 0) (.a 1) (.a 2) (fl [T_66, T_0F38, T_EW1, T_YMM, T_MUST_EVEX, T_B64]) 0x40 .none)⟩,
  ⟨2536, n!"vpmultishiftqb", [.xmm, .xmm, .op], 0, .leaf (.avx3 (.a 0) (.a 1) (.a 2) (fl [T_66, T_0F38, T_EW1, T_YMM, T_MUST_EVEX, T_B64]) 0x83 .none)⟩,
  ⟨2537, n!"vpopcntb", [.xmm, .op], 0, .leaf (.avx2 (.a 0) (.a 1) (fl [T_66, T_0F38, T_EW0, T_YMM, T_SAE_Z, T_MUST_EVEX]) 0x54 .none)⟩,
  ⟨2538, n!"vpopcntd", [.xmm, .op], 0, .leaf (.avx2 (.a 0) (.a 1) (fl [T_66, T_0F38, T_EW0, T_YMM, T_SAE_Z, T_MUST_EVEX, T_B32]) 0x55 .none)⟩,
  ⟨2539, n!"vpopcntq", [.xmm, .op], 0, .leaf (.avx2 (.a 0) (.a 1) (fl [T_66, T_0F38, T_EW1, T_YMM, T_SAE_Z, T_MUST_EVEX, T_B64]) 0x55 .none)⟩,
  ⟨2540, n!"vpopcntw", [.xmm, .op], 0, .leaf (.avx2 (.a 0) (.a 1) (fl [T_66, T_0F38, T_EW1, T_YMM, T_SAE_Z, T_MUST_EVEX]) 0x54 .none)⟩,
  ⟨2541, n!"vpord", [.xmm, .xmm, .op], 0, .leaf (.avx3 (.a 0) (.a 1) (.a 2) (fl [T_66, T_0F, T_EW0, T_YMM, T_MUST_EVEX, T_B32]) 0xEB .none)⟩,
  ⟨2542, n!"vporq", [.xmm, .xmm, .op], 0, .leaf (.avx3 (.a 0) (.a 1) (.a 2) (fl [T_66, T_0F, T_EW1, T_YMM, T_MUST_EVEX, T_B64]) 0xEB .none)⟩,
  ⟨2543, n!"vprold", [.xmm, .op, .int], 0, .leaf (.avx3 (.kindOf 0 1) (.a 0) (.a 1) (fl [T_66, T_0F, T_EW0, T_YMM, T_MUST_EVEX, T_B32]) 0x72 (.i 0))⟩,
  ⟨2544, n!"vprolq", [.xmm, .op, .int], 0, .leaf (.avx3 (.kindOf 0 1) (.a 0) (.a 1) (fl [T_66, T_0F, T_EW1, T_YMM, T_MUST_EVEX, T_B64]) 0x72 (.i 0))⟩,
  ⟨2545, n!"vprolvd", [.xmm, .xmm, .op], 0, .leaf (.avx3 (.a 0) (.a 1) (.a 2) (fl [T_66, T_0F38, T_EW0, T_YMM, T_MUST_EVEX, T_B32]) 0x15 .none)⟩,
  ⟨2546, n!"vprolvq", [.xmm, .xmm, .op], 0, .leaf (.avx3 (.a 0) (.a 1) (.a 2) (fl [T_66, T_0F38, T_EW1, T_YMM, T_MUST_EVEX, T_B64]) 0x15 .none)⟩,
  ⟨2547, n!"vprord", [.xmm, .op, .int], 0, .leaf (.avx3 (.kindOf 0 0) (.a 0) (.a 1) (fl [T_66, T_0F, T_EW0, T_YMM, T_MUST_EVEX, T_B32]) 0x72 (.i 0))⟩,
  ⟨2548, n!"vprorq", [.xmm, .op, .int], 0, .leaf (.avx3 (.kindOf 0 0) (.a 0) (.a 1) (fl [T_66, T_0F, T_EW1, T_YMM, T_MUST_EVEX, T_B64]) 0x72 (.i 0))⟩,
  ⟨2549, n!"vprorvd", [.xmm, .xmm, .op], 0, .leaf (.avx3 (.a 0) (.a 1) (.a 2) (fl [T_66, T_0F38, T_EW0, T_YMM, T_MUST_EVEX, T_B32]) 0x14 .none)⟩,
  ⟨2550, n!"vprorvq", [.xmm, .xmm, .op], 0, .leaf (.avx3 (.a 0) (.a 1) (.a 2) (fl [T_66, T_0F38, T_EW1, T_YMM, T_MUST_EVEX, T_B64]) 0x14 .none)⟩,
  ⟨2551, n!"vpscatterdd", [.addr, .xmm], 0, .leaf (.gather2 (.a 1) (.a 0) (fl [T_N4, T_66, T_0F38, T_EW0, T_YMM, T_MUST_EVEX, T_M_K, T_VSIB]) 0xA0 0)⟩,
  ⟨2552, n!"vpscatterdq", [.addr, .xmm], 0, .leaf (.gather2 (.a 1) (.a 0) (fl [T_N8, T_66, T_0F38, T_EW1, T_YMM, T_MUST_EVEX, T_M_K, T_VSIB]) 0xA0 1)⟩,
  ⟨2553, n!"vpscatterqd", [.addr, .xmm], 0, .leaf (.gather2 (.a 1) (.a 0) (fl [T_N4, T_66, T_0F38, T_EW0, T_YMM, T_MUST_EVEX, T_M_K, T_VSIB]) 0xA1 2)⟩,
  ⟨2554, n!"vpscatterqq", [.addr, .xmm], 0, .leaf (.gather2 (.a 1) (.a 0) (fl [T_N8, T_66, T_0F38, T_EW1, T_YMM, T_MUST_EVEX, T_M_K, T_VSIB]) 0xA1 0)⟩,
  ⟨2555, n!"vpshldd", [.xmm, .xmm, .op, .int], 0, .leaf (.avx3 (.a 0) (.a 1) (.a 2) (fl [T_66, T_0F3A, T_EW0, T_YMM, T_SAE_Z, T_MUST_EVEX, T_B32]) 0x71 (.i 0))⟩,
  ⟨2556, n!"vpshldq", [.xmm, .xmm, .op, .int], 0, .leaf (.avx3 (.a 0) (.a 1) (.a 2) (fl [T_66, T_0F3A, T_EW1, T_YMM, T_SAE_Z, T_MUST_EVEX, T_B64]) 0x71 (.i 0))⟩,
  ⟨2557, n!"vpshldvd", [.xmm, .xmm, .op], 0, .leaf (.avx3 (.a 0) (.a 1) (.a 2) (fl [T_66, T_0F38, T_EW0, T_YMM, T_SAE_Z, T_MUST_EVEX, T_B32]) 0x71 .none)⟩,
  ⟨2558, n!"vpshldvq", [.xmm, .xmm, .op], 0, .leaf (.avx3 (.a 0) (.a 1) (.a 2) (fl [T_66, T_0F38, T_EW1, T_YMM, T_SAE_Z, T_MUST_EVEX, T_B64]) 0x71 .none)⟩,
  ⟨2559, n!"vpshldvw", [.xmm, .xmm, .op], 0, .leaf (.avx3 (.a 0) (.a 1) (.a 2) (fl [T_66, T_0F38, T_EW1, T_YMM, T_SAE_Z, T_MUST_EVEX]) 0x70 .none)⟩,
  ⟨2560, n!"vpshldw", [.xmm, .xmm, .op, .int], 0, .leaf (.avx3 (.a 0) (.a 1) (.a 2) (fl [T_66, T_0F3A, T_EW1, T_YMM, T_SAE_Z, T_MUST_EVEX]) 0x70 (.i 0))⟩,
  ⟨2561, n!"vpshrdd", [.xmm, .xmm, .op, .int], 0, .leaf (.avx3 (.a 0) (.a 1) (.a 2) (fl [T_66, T_0F3A, T_EW0, T_YMM, T_SAE_Z, T_MUST_EVEX, T_B32]) 0x73 (.i 0))⟩,
  ⟨2562, n!"vpshrdq", [.xmm, .xmm, .op, .int], 0, .leaf (.avx3 (.a 0) (.a 1) (.a 2) (fl [T_66, T_0F3A, T_EW1, T_YMM, T_SAE_Z, T_MUST_EVEX, T_B64]) 0x73 (.i 0))⟩,
  ⟨2563, n!"vpshrdvd", [.xmm, .xmm, .op], 0, .leaf (.avx3 (.a 0) (.a 1) (.a 2) (fl [T_66, T_0F38, T_EW0, T_YMM, T_SAE_Z, T_MUST_EVEX, T_B32]) 0x73 .none)⟩,
  ⟨2564, n!"vpshrdvq", [.xmm, .xmm, .op], 0, .leaf (.avx3 (.a 0) (.a 1) (.a 2) (fl [T_66, T_0F38, T_EW1, T_YMM, T_SAE_Z, T_MUST_EVEX, T_B64]) 0x73 .none)⟩,
  ⟨2565, n!"vpshrdvw", [.xmm, .xmm, .op], 0, .leaf (.avx3 (.a 0) (.a 1) (.a 2) (fl [T_66, T_0F38, T_EW1, T_YMM, T_SAE_Z, T_MUST_EVEX]) 0x72 .none)⟩,
  ⟨2566, n!"vpshrdw", [.xmm, .xmm, .op, .int], 0, .leaf (.avx3 (.a 0) (.a 1) (.a 2) (fl [T_66, T_0F3A, T_EW1, T_YMM, T_SAE_Z, T_MUST_EVEX]) 0x72 (.i 0))⟩,
  ⟨2567, n!"vpshufbitqmb", [.opmask, .xmm, .op], 0, .leaf (.vex (.a 0) (some (.a 1)) (.a 2) (fl [T_66, T_0F38, T_EW0, T_YMM, T_MUST_EVEX]) 0x8F .none)⟩,
  ⟨2568, n!"vpsllvw", [.xmm, .xmm, .op], 0, .leaf (.avx3 (.a 0) (.a 1) (.a 2) (fl [T_66, T_0F38, T_EW1, T_YMM, T_MUST_EVEX]) 0x12 .none)⟩,
  ⟨2569, n!"vpsraq", [.xmm, .op, .int], 0, .leaf (.avx3 (.kindOf 0 4) (.a 0) (.a 1) (fl [T_66, T_0F, T_EW1, T_YMM, T_MUST_EVEX, T_B64]) 0x72 (.i 0))⟩,
  ⟨2570, n!"vpsraq", [.xmm, .xmm, .op], 0, .leaf (.avx3 (.a 0) (.a 1) (.a 2) (fl [T_N16, T_66, T_0F, T_EW1, T_YMM, T_MUST_EVEX]) 0xE2 .none)⟩,
  ⟨2571, n!"vpsravq", [.xmm, .xmm, .op], 0, .leaf (.avx3 (.a 0) (.a 1) (.a 2) (fl [T_66, T_0F38, T_EW1, T_YMM, T_MUST_EVEX, T_B64]) 0x46 .none)⟩,
  ⟨2572, n!"vpsravw", [.xmm, .xmm, .op], 0, .leaf (.avx3 (.a 0) (.a 1) (.a 2) (fl [T_66, T_0F38, T_EW1, T_YMM, T_MUST_EVEX]) 0x11 .none)⟩,
  ⟨2573, n!"vpsrlvw", [.xmm, .xmm, .op], 0, .leaf (.avx3 (.a 0) (.a 1) (.a 2) (fl [T_66, T_0F38, T_EW1, T_YMM, T_MUST_EVEX]) 0x10 .none)⟩,
  ⟨2574, n!"vpternlogd", [.xmm, .xmm, .op, .int], 0, .leaf (.avx3 (.a 0) (.a 1) (.a 2) (fl [T_66, T_0F3A, T_EW0, T_YMM, T_MUST_EVEX, T_B32]) 0x25 (.i 0))⟩,
  ⟨2575, n!"vpternlogq", [.xmm, .xmm, .op, .int], 0, .leaf (.avx3 (.a 0) (.a 1) (.a 2) (fl [T_66, T_0F3A, T_EW1, T_YMM, T_MUST_EVEX, T_B64]) 0x25 (.i 0))⟩,
  ⟨2576, n!"vptestmb", [.opmask, .xmm, .op], 0, .leaf (.avxK (.a 0) (.a 1) (.a 2) (fl [T_66, T_0F38, T_EW0, T_YMM, T_MUST_EVEX]) 0x26 .none)⟩,
  ⟨2577, n!"vptestmd", [.opmask, .xmm, .op], 0, .leaf (.avxK (.a 0) (.a 1) (.a 2) (fl [T_66, T_0F38, T_EW0, T_YMM, T_MUST_EVEX, T_B32]) 0x27 .none)⟩,
  ⟨2578, n!"vptestmq", [.opmask, .xmm, .op], 0, .leaf (.avxK (.a 0) (.a 1) (.a 2) (fl [T_66, T_0F38, T_EW1, T_YMM, T_MUST_EVEX, T_B64]) 0x27 .none)⟩,
  ⟨2579, n!"vptestmw", [.opmask, .xmm, .op], 0, .leaf (.avxK (.a 0) (.a 1) (.a 2) (fl [T_66, T_0F38, T_EW1, T_YMM, T_MUST_EVEX]) 0x26 .none)⟩,
  ⟨2580, n!"vptestnmb", [.opmask, .xmm, .op], 0, .leaf (.avxK (.a 0) (.a 1) (.a 2) (fl [T_F3, T_0F38, T_EW0, T_YMM, T_MUST_EVEX]) 0x26 .none)⟩,
  ⟨2581, n!"vptestnmd", [.opmask, .xmm, .op], 0, .leaf (.avxK (.a 0) (.a 1) (.a 2) (fl [T_F3, T_0F38, T_EW0, T_YMM, T_MUST_EVEX, T_B32]) 0x27 .none)⟩,
  ⟨2582, n!"vptestnmq", [.opmask, .xmm, .op], 0, .leaf (.avxK (.a 0) (.a 1) (.a 2) (fl [T_F3, T_0F38, T_EW1, T_YMM, T_MUST_EVEX, T_B64]) 0x27 .none)⟩,
  ⟨2583, n!"vptestnmw", [.opmask, .xmm, .op], 0, .leaf (.avxK (.a 0) (.a 1) (.a 2) (fl [T_F3, T_0F38, T_EW1, T_YMM, T_MUST_EVEX]) 0x26 .none)⟩,
  ⟨2584, n!"vpxord", [.xmm, .xmm, .op], 0, .leaf (.avx3 (.a 0) (.a 1) (.a 2) (fl [T_66, T_0F, T_EW0, T_YMM, T_MUST_EVEX, T_B32]) 0xEF .none)⟩,
  ⟨2585, n!"vpxorq", [.xmm, .xmm, .op], 0, .leaf (.avx3 (.a 0) (.a 1) (.a 2) (fl [T_66, T_0F, T_EW1, T_YMM, T_MUST_EVEX, T_B64]) 0xEF .none)⟩,
  ⟨2586, n!"vrangepd", [.xmm, .xmm, .op, .int], 0, .leaf (.avx3 (.a 0) (.a 1) (.a 2) (fl [T_66, T_0F3A, T_EW1, T_YMM, T_SAE_Z, T_MUST_EVEX, T_B64]) 0x50 (.i 0))⟩,
  ⟨2587, n!"vrangeps", [.xmm, .xmm, .op, .int], 0, .leaf (.avx3 (.a 0) (.a 1) (.a 2) (fl [T_66, T_0F3A, T_EW0, T_YMM, T_SAE_Z, T_MUST_EVEX, T_B32]) 0x50 (.i 0))⟩,
  ⟨2588, n!"vrangesd", [.xmm, .xmm, .op, .int], 0, .leaf (.avx3 (.a 0) (.a 1) (.a 2) (fl [T_N8, T_66, T_0F3A, T_EW1, T_SAE_X, T_MUST_EVEX]) 0x51 (.i 0))⟩,
  ⟨2589, n!"vrangess", [.xmm, .xmm, .op, .int], 0, .leaf (.avx3 (.a 0) (.a 1) (.a 2) (fl [T_N4, T_66, T_0F3A, T_EW0, T_SAE_X, T_MUST_EVEX]) 0x51 (.i 0))⟩,
  ⟨2590, n!"vrcp14pd", [.xmm, .op], 0, .leaf (.avx2 (.a 0) (.a 1) (fl [T_66, T_0F38, T_EW1, T_YMM, T_MUST_EVEX, T_B64]) 0x4C .none)⟩,
  ⟨2591, n!"vrcp14ps", [.xmm, .op], 0, .leaf (.avx2 (.a 0) (.a 1) (fl [T_66, T_0F38, T_EW0, T_YMM, T_MUST_EVEX, T_B32]) 0x4C .none)⟩,
  ⟨2592, n!"vrcp14sd", [.xmm, .xmm, .op], 0, .leaf (.avx3 (.a 0) (.a 1) (.a 2) (fl [T_N8, T_66, T_0F38, T_EW1, T_MUST_EVEX]) 0x4D .none)⟩,
  ⟨2593, n!"vrcp14ss", [.xmm, .xmm, .op], 0, .leaf (.avx3 (.a 0) (.a 1) (.a 2) (fl [T_N4, T_66, T_0F38, T_EW0, T_MUST_EVEX]) 0x4D .none)⟩,
  ⟨2594, n!"vrcp28pd", [.zmm, .op], 0, .leaf (.avx2 (.a 0) (.a 1) (fl [T_66, T_0F38, T_MUST_EVEX, T_YMM, T_EW1, T_B64, T_SAE_Z]) 0xCA .none)⟩,
  ⟨2595, n!"vrcp28ps", [.zmm, .op], 0, .leaf (.avx2 (.a 0) (.a 1) (fl [T_66, T_0F38, T_MUST_EVEX, T_YMM, T_EW0, T_B32, T_SAE_Z]) 0xCA .none)⟩,
  ⟨2596, n!"vrcp28sd", [.xmm, .xmm, .op], 0, .leaf (.avx3 (.a 0) (.a 1) (.a 2) (fl [T_N8, T_66, T_0F38, T_EW1, T_SAE_X, T_MUST_EVEX]) 0xCB .none)⟩,
  ⟨2597, n!"vrcp28ss", [.xmm, .xmm, .op], 0, .leaf (.avx3 (.a 0) (.a 1) (.a 2) (fl [T_N4, T_66, T_0F38, T_EW0, T_SAE_X, T_MUST_EVEX]) 0xCB .none)⟩,
  ⟨2598, n!"vrcppbf16", [.xmm, .op], 0, .leaf (.avx2 (.a 0) (.a 1) (fl [T_MAP6, T_EW0, T_YMM, T_MUST_EVEX, T_B16]) 0x4C .none)⟩,
  ⟨2599, n!"vrcpph", [.xmm, .op], 0, .leaf (.avx2 (.a 0) (.a 1) (fl [T_66, T_MAP6, T_EW0, T_YMM, T_MUST_EVEX, T_B16]) 0x4C .none)⟩,
  ⟨2600, n!"vrcpsh", [.xmm, .xmm, .op], 0, .leaf (.avx3 (.a 0) (.a 1) (.a 2) (fl [T_N2, T_66, T_MAP6, T_EW0, T_MUST_EVEX]) 0x4D .none)⟩,
  ⟨2601, n!"vreducenepbf16", [.xmm, .op, .int], 0, .leaf (.avx2 (.a 0) (.a 1) (fl [T_F2, T_0F3A, T_EW0, T_YMM, T_MUST_EVEX, T_B16]) 0x56 (.i 0))⟩,
  ⟨2602, n!"vreducepd", [.xmm, .op, .int], 0, .leaf (.avx2 (.a 0) (.a 1) (fl [T_66, T_0F3A, T_EW1, T_YMM, T_SAE_Z, T_MUST_EVEX, T_B64]) 0x56 (.i 0))⟩,
  ⟨2603, n!"vreduceph", [.xmm, .op, .int], 0, .leaf (.avx2 (.a 0) (.a 1) (fl [T_0F3A, T_EW0, T_YMM, T_SAE_Z, T_MUST_EVEX, T_B16]) 0x56 (.i 0))⟩,
  ⟨2604, n!"vreduceps", [.xmm, .op, .int], 0, .leaf (.avx2 (.a 0) (.a 1) (fl [T_66, T_0F3A, T_EW0, T_YMM, T_SAE_Z, T_MUST_EVEX, T_B32]) 0x56 (.i 0))⟩,
  ⟨2605, n!"vreducesd", [.xmm, .xmm, .op, .int], 0, .leaf (.avx3 (.a 0) (.a 1) (.a 2) (fl [T_N8, T_66, T_0F3A, T_EW1, T_SAE_X, T_MUST_EVEX]) 0x57 (.i 0))⟩,
  ⟨2606, n!"vreducesh", [.xmm, .xmm, .op, .int], 0, .leaf (.avx3 (.a 0) (.a 1) (.a 2) (fl [T_N2, T_0F3A, T_EW0, T_SAE_X, T_MUST_EVEX]) 0x57 (.i 0))⟩,
  ⟨2607, n!"vreducess", [.xmm, .xmm, .op, .int], 0, .leaf (.avx3 (.a 0) (.a 1) (.a 2) (fl [T_N4, T_66, T_0F3A, T_EW0, T_SAE_X, T_MUST_EVEX]) 0x57 (.i 0))⟩,
  ⟨2608, n!"vrndscalenepbf16", [.xmm, .op, .int], 0, .leaf (.avx2 (.a 0) (.a 1) (fl [T_F2, T_0F3A, T_EW0, T_YMM, T_MUST_EVEX, T_B16]) 0x08 (.i 0))⟩,
  ⟨2609, n!"vrndscalepd", [.xmm, .op, .int], 0, .leaf (.avx2 (.a 0) (.a 1) (fl [T_66, T_0F3A, T_EW1, T_YMM, T_SAE_Z, T_MUST_EVEX, T_B64]) 0x09 (.i 0))⟩,
  ⟨2610, n!"vrndscaleph", [.xmm, .op, .int], 0, .leaf (.avx2 (.a 0) (.a 1) (fl [T_0F3A, T_EW0, T_YMM, T_SAE_Z, T_MUST_EVEX, T_B16]) 0x08 (.i 0))⟩,
  ⟨2611, n!"vrndscaleps", [.xmm, .op, .int], 0, .leaf (.avx2 (.a 0) (.a 1) (fl [T_66, T_0F3A, T_EW0, T_YMM, T_SAE_Z, T_MUST_EVEX, T_B32]) 0x08 (.i 0))⟩,
  ⟨2612, n!"vrndscalesd", [.xmm, .xmm, .op, .int], 0, .leaf (.avx3 (.a 0) (.a 1) (.a 2) (fl [T_N8, T_66, T_0F3A, T_EW1, T_SAE_X, T_MUST_EVEX]) 0x0B (.i 0))⟩,
  ⟨2613, n!"vrndscalesh", [.xmm, .xmm, .op, .int], 0, .leaf (.avx3 (.a 0) (.a 1) (.a 2) (fl [T_N2, T_0F3A, T_EW0, T_SAE_X, T_MUST_EVEX]) 0x0A (.i 0))⟩,
  ⟨2614, n!"vrndscaless", [.xmm, .xmm, .op, .int], 0, .leaf (.avx3 (.a 0) (.a 1) (.a 2) (fl [T_N4, T_66, T_0F3A, T_EW0, T_SAE_X, T_MUST_EVEX]) 0x0A (.i 0))⟩,
  ⟨2615, n!"vrsqrt14pd", [.xmm, .op], 0, .leaf (.avx2 (.a 0) (.a 1) (fl [T_66, T_0F38, T_EW1, T_YMM, T_MUST_EVEX, T_B64]) 0x4E .none)⟩,
  ⟨2616, n!"vrsqrt14ps", [.xmm, .op], 0, .leaf (.avx2 (.a 0) (.a 1) (fl [T_66, T_0F38, T_EW0, T_YMM, T_MUST_EVEX, T_B32]) 0x4E .none)⟩,
  ⟨2617, n!"vrsqrt14sd", [.xmm, .xmm, .op], 0, .leaf (.avx3 (.a 0) (.a 1) (.a 2) (fl [T_N8, T_66, T_0F38, T_EW1, T_YMM, T_MUST_EVEX]) 0x4F .none)⟩,
  ⟨2618, n!"vrsqrt14ss", [.xmm, .xmm, .op], 0, .leaf (.avx3 (.a 0) (.a 1) (.a 2) (fl [T_N4, T_66, T_0F38, T_EW0, T_YMM, T_MUST_EVEX]) 0x4F .none)⟩,
  ⟨2619, n!"vrsqrt28pd", [.zmm, .op], 0, .leaf (.avx2 (.a 0) (.a 1) (fl [T_66, T_0F38, T_MUST_EVEX, T_YMM, T_EW1, T_B64, T_SAE_Z]) 0xCC .none)⟩,
  ⟨2620, n!"vrsqrt28ps", [.zmm, .op], 0, .leaf (.avx2 (.a 0) (.a 1) (fl [T_66, T_0F38, T_MUST_EVEX, T_YMM, T_EW0, T_B32, T_SAE_Z]) 0xCC .none)⟩,
  ⟨2621, n!"vrsqrt28sd", [.xmm, .xmm, .op], 0, .leaf (.avx3 (.a 0) (.a 1) (.a 2) (fl [T_N8, T_66, T_0F38, T_EW1, T_SAE_X, T_MUST_EVEX]) 0xCD .none)⟩,
  ⟨2622, n!"vrsqrt28ss", [.xmm, .xmm, .op], 0, .leaf (.avx3 (.a 0) (.a 1) (.a 2) (fl [T_N4, T_66, T_0F38, T_EW0, T_SAE_X, T_MUST_EVEX]) 0xCD .none)⟩,
  ⟨2623, n!"vrsqrtpbf16", [.xmm, .op], 0, .leaf (.avx2 (.a 0) (.a 1) (fl [T_MAP6, T_EW0, T_YMM, T_MUST_EVEX, T_B16]) 0x4E .none)⟩,
  ⟨2624, n!"vrsqrtph", [.xmm, .op], 0, .leaf (.avx2 (.a 0) (.a 1) (fl [T_66, T_MAP6, T_EW0, T_YMM, T_MUST_EVEX, T_B16]) 0x4E .none)⟩,
  ⟨2625, n!"vrsqrtsh", [.xmm, .xmm, .op], 0, .leaf (.avx3 (.a 0) (.a 1) (.a 2) (fl [T_N2, T_66, T_MAP6, T_EW0, T_MUST_EVEX]) 0x4F .none)⟩,
  ⟨2626, n!"vscalefpbf16", [.xmm, .op], 0, .leaf (.avx2 (.a 0) (.a 1) (fl [T_MAP6, T_EW0, T_YMM, T_MUST_EVEX, T_B16]) 0x2C .none)⟩,
  ⟨2627, n!"vscalefpbf16", [.xmm, .xmm, .op], 0, .leaf (.avx3 (.a 0) (.a 1) (.a 2) (fl [T_MAP6, T_EW0, T_YMM, T_MUST_EVEX, T_B16]) 0x2C .none)⟩,
  ⟨2628, n!"vscalefpd", [.xmm, .xmm, .op], 0, .leaf (.avx3 (.a 0) (.a 1) (.a 2) (fl [T_66, T_0F38, T_EW1, T_YMM, T_ER_Z, T_MUST_EVEX, T_B64]) 0x2C .none)⟩,
  ⟨2629, n!"vscalefph", [.xmm, .xmm, .op], 0, .leaf (.avx3 (.a 0) (.a 1) (.a 2) (fl [T_66, T_MAP6, T_EW0, T_YMM, T_ER_Z, T_MUST_EVEX, T_B16]) 0x2C .none)⟩,
  ⟨2630, n!"vscalefps", [.xmm, .xmm, .op], 0, .leaf (.avx3 (.a 0) (.a 1) (.a 2) (fl [T_66, T_0F38, T_EW0, T_YMM, T_ER_Z, T_MUST_EVEX, T_B32]) 0x2C .none)⟩,
  ⟨2631, n!"vscalefsd", [.xmm, .xmm, .op], 0, .leaf (.avx3 (.a 0) (.a 1) (.a 2) (fl [T_N8, T_66, T_0F38, T_EW1, T_ER_X, T_MUST_EVEX]) 0x2D .none)⟩,
  ⟨2632, n!"vscalefsh", [.xmm, .xmm, .op], 0, .leaf (.avx3 (.a 0) (.a 1) (.a 2) (fl [T_N2, T_66, T_MAP6, T_EW0, T_ER_X, T_MUST_EVEX]) 0x2D .none)⟩,
  ⟨2633, n!"vscalefss", [.xmm, .xmm, .op], 0, .leaf (.avx3 (.a 0) (.a 1) (.a 2) (fl [T_N4, T_66, T_0F38, T_EW0, T_ER_X, T_MUST_EVEX]) 0x2D .none)⟩,
  ⟨2634, n!"vscatterdpd", [.addr, .xmm], 0, .leaf (.gather2 (.a 1) (.a 0) (fl [T_N8, T_66, T_0F38, T_EW1, T_YMM, T_MUST_EVEX, T_M_K, T_VSIB]) 0xA2 1)⟩,
  ⟨2635, n!"vscatterdps", [.addr, .xmm], 0, .leaf (.gather2 (.a 1) (.a 0) (fl [T_N4, T_66, T_0F38, T_EW0, T_YMM, T_MUST_EVEX, T_M_K, T_VSIB]) 0xA2 0)⟩,
  ⟨2636, n!"vscatterpf0dpd", [.addr], 0, .leaf (.gatherFetch (.a 0) (.r (.zmm 5)) (fl [T_N8, T_66, T_0F38, T_EW1, T_MUST_EVEX, T_M_K, T_VSIB]) 0xC6 .ymm)⟩,
  ⟨2637, n!"vscatterpf0dps", [.addr], 0, .leaf (.gatherFetch (.a 0) (.r (.zmm 5)) (fl [T_N4, T_66, T_0F38, T_EW0, T_MUST_EVEX, T_M_K, T_VSIB]) 0xC6 .zmm)⟩,
  ⟨2638, n!"vscatterpf0qpd", [.addr], 0, .leaf (.gatherFetch (.a 0) (.r (.zmm 5)) (fl [T_N8, T_66, T_0F38, T_EW1, T_MUST_EVEX, T_M_K, T_VSIB]) 0xC7 .zmm)⟩,
  ⟨2639, n!"vscatterpf0qps", [.addr], 0, .leaf (.gatherFetch (.a 0) (.r (.zmm 5)) (fl [T_N4, T_66, T_0F38, T_EW0, T_MUST_EVEX, T_M_K, T_VSIB]) 0xC7 .zmm)⟩,
  ⟨2640, n!"vscatterpf1dpd", [.addr], 0, .leaf (.gatherFetch (.a 0) (.r (.zmm 6)) (fl [T_N8, T_66, T_0F38, T_EW1, T_MUST_EVEX, T_M_K, T_VSIB]) 0xC6 .ymm)⟩,
  ⟨2641, n!"vscatterpf1dps", [.addr], 0, .leaf (.gatherFetch (.a 0) (.r (.zmm 6)) (fl [T_N4, T_66, T_0F38, T_EW0, T_MUST_EVEX, T_M_K, T_VSIB]) 0xC6 .zmm)⟩,
  ⟨2642, n!"vscatterpf1qpd", [.addr], 0, .leaf (.gatherFetch (.a 0) (.r (.zmm 6)) (fl [T_N8, T_66, T_0F38, T_EW1, T_MUST_EVEX, T_M_K, T_VSIB]) 0xC7 .zmm)⟩,
  ⟨2643, n!"vscatterpf1qps", [.addr], 0, .leaf (.gatherFetch (.a 0) (.r (.zmm 6)) (fl [T_N4, T_66, T_0F38, T_EW0, T_MUST_EVEX, T_M_K, T_VSIB]) 0xC7 .zmm)⟩,
  ⟨2644, n!"vscatterqpd", [.addr, .xmm], 0, .leaf (.gather2 (.a 1) (.a 0) (fl [T_N8, T_66, T_0F38, T_EW1, T_YMM, T_MUST_EVEX, T_M_K, T_VSIB]) 0xA3 0)⟩,
  ⟨2645, n!"vscatterqps", [.addr, .xmm], 0, .leaf (.gather2 (.a 1) (.a 0) (fl [T_N4, T_66, T_0F38, T_EW0, T_YMM, T_MUST_EVEX, T_M_K, T_VSIB]) 0xA3 2)⟩,
  ⟨2646, n!"vshuff32x4", [.ymm, .ymm, .op, .int], 0, .leaf (.avx3 (.a 0) (.a 1) (.a 2) (fl [T_66, T_0F3A, T_YMM, T_MUST_EVEX, T_EW0, T_B32]) 0x23 (.i 0))⟩,
  ⟨2647, n!"vshuff64x2", [.ymm, .ymm, .op, .int], 0, .leaf (.avx3 (.a 0) (.a 1) (.a 2) (fl [T_66, T_0F3A, T_YMM, T_MUST_EVEX, T_EW1, T_B64]) 0x23 (.i 0))⟩,
  ⟨2648, n!"vshufi32x4", [.ymm, .ymm, .op, .int], 0, .leaf (.avx3 (.a 0) (.a 1) (.a 2) (fl [T_66, T_0F3A, T_YMM, T_MUST_EVEX, T_EW0, T_B32]) 0x43 (.i 0))⟩,
  ⟨2649, n!"vshufi64x2", [.ymm, .ymm, .op, .int], 0, .leaf (.avx3 (.a 0) (.a 1) (.a 2) (fl [T_66, T_0F3A, T_YMM, T_MUST_EVEX, T_EW1, T_B64]) 0x43 (.i 0))⟩,
  ⟨2650, n!"vsqrtnepbf16", [.xmm, .op], 0, .leaf (.avx2 (.a 0) (.a 1) (fl [T_66, T_MAP5, T_EW0, T_YMM, T_MUST_EVEX, T_B16]) 0x51 .none)⟩,
  ⟨2651, n!"vsqrtph", [.xmm, .op], 0, .leaf (.avx2 (.a 0) (.a 1) (fl [T_MAP5, T_EW0, T_YMM, T_ER_Z, T_MUST_EVEX, T_B16]) 0x51 .none)⟩,
  ⟨2652, n!"vsqrtsh", [.xmm, .xmm, .op], 0, .leaf (.avx3 (.a 0) (.a 1) (.a 2) (fl [T_N2, T_F3, T_MAP5, T_EW0, T_ER_X, T_MUST_EVEX]) 0x51 .none)⟩,
  ⟨2653, n!"vsubnepbf16", [.xmm, .xmm, .op], 0, .leaf (.avx3 (.a 0) (.a 1) (.a 2) (fl [T_66, T_MAP5, T_EW0, T_YMM, T_MUST_EVEX, T_B16]) 0x5C .none)⟩,
  ⟨2654, n!"vsubph", [.xmm, .op, .op], 1, .leaf (.avx3 (.a 0) (.a 1) (.a 2) (fl [T_MAP5, T_EW0, T_YMM, T_MUST_EVEX, T_ER_Z, T_B16]) 0x5C .none)⟩,
  ⟨2655, n!"vsubsh", [.xmm, .op, .op], 1, .leaf (.avx3 (.a 0) (.a 1) (.a 2) (fl [T_MAP5, T_F3, T_EW0, T_MUST_EVEX, T_ER_X, T_N2]) 0x5C .none)⟩,
  ⟨2656, n!"vucomish", [.xmm, .op], 0, .leaf (.avx2 (.a 0) (.a 1) (fl [T_N2, T_MAP5, T_EW0, T_SAE_X, T_MUST_EVEX]) 0x2E .none)⟩,
  ⟨2657, n!"vucomxsd", [.xmm, .op], 0, .leaf (.avx2 (.a 0) (.a 1) (fl [T_N8, T_F2, T_0F, T_EW1, T_SAE_X, T_MUST_EVEX]) 0x2E .none)⟩,
  ⟨2658, n!"vucomxsh", [.xmm, .op], 0, .leaf (.avx2 (.a 0) (.a 1) (fl [T_N2, T_F3, T_MAP5, T_EW0, T_SAE_X, T_MUST_EVEX]) 0x2E .none)⟩,
  ⟨2659, n!"vucomxss", [.xmm, .op], 0, .leaf (.avx2 (.a 0) (.a 1) (fl [T_N4, T_F3, T_0F, T_EW0, T_SAE_X, T_MUST_EVEX]) 0x2E .none)⟩,
  ⟨2661, n!"kmovq", [.reg64, .opmask], 0, .leaf (.kmov (.a 1) (.a 0) true 64)⟩,
  ⟨2662, n!"vpbroadcastq", [.xmm, .reg64], 0, .leaf (.vex (.a 0) none (.a 1) (fl [T_66, T_0F38, T_EW1, T_YMM, T_MUST_EVEX]) 0x7C .none)⟩]

end Mn
end Xbyak
