import Verif.Mnemonic.Basic
/-! Mnemonic table, `xbyak_mnemonic.h` lines 342-681.  Each entry cites its line; an alias (a line calling another mnemonic) has the
body of the function it calls, with the arguments substituted. -/
namespace Xbyak
namespace Mn
open E

/-- `xbyak_mnemonic.h` 342-681 -/
def t02 : List Entry := [
  ⟨342, n!"cvtsi2ss", [.reg, .op], 0, .leaf (.sse (.a 0) (.a 1) (fl [T_F3, T_0F]) 0x2A .xmm_r32 .none)⟩,
  ⟨343, n!"cvtss2sd", [.xmm, .op], 0, .leaf (.sse (.a 0) (.a 1) (fl [T_F3, T_0F]) 0x5A .xmm_xmm .none)⟩,
  ⟨344, n!"cvtss2si", [.reg, .op], 0, .leaf (.sse (.a 0) (.a 1) (fl [T_F3, T_0F]) 0x2D .r32_xmm .none)⟩,
  ⟨345, n!"cvttpd2dq", [.xmm, .op], 0, .leaf (.sse (.a 0) (.a 1) (fl [T_66, T_0F]) 0xE6 .xmm_xmm .none)⟩,
  ⟨346, n!"cvttpd2pi", [.reg, .op], 0, .leaf (.sse (.a 0) (.a 1) (fl [T_66, T_0F]) 0x2C .mmx_xmm .none)⟩,
  ⟨347, n!"cvttps2dq", [.xmm, .op], 0, .leaf (.sse (.a 0) (.a 1) (fl [T_F3, T_0F]) 0x5B .xmm_xmm .none)⟩,
  ⟨348, n!"cvttps2pi", [.reg, .op], 0, .leaf (.sse (.a 0) (.a 1) T_0F 0x2C .mmx_xmm .none)⟩,
  ⟨349, n!"cvttsd2si", [.reg, .op], 0, .leaf (.sse (.a 0) (.a 1) (fl [T_F2, T_0F]) 0x2C .r32_xmm .none)⟩,
  ⟨350, n!"cvttss2si", [.reg, .op], 0, .leaf (.sse (.a 0) (.a 1) (fl [T_F3, T_0F]) 0x2C .r32_xmm .none)⟩,
  ⟨351, n!"cwd", [], 0, .leaf (.bytes [0x66, 0x99])⟩,
  ⟨352, n!"cwde", [], 0, .leaf (.bytes [0x98])⟩,
  ⟨353, n!"dec", [.op], 0, .leaf (.incDec (.r .nil) (.a 0) 1)⟩,
  ⟨354, n!"dec", [.reg, .op], 0, .leaf (.incDec (.a 0) (.a 1) 1)⟩,
  ⟨355, n!"div", [.op], 0, .leaf (.rext (.a 0) 0 6 (fl [T_APX, T_NF, T_CODE1_IF1]) 0xF6)⟩,
  ⟨356, n!"divpd", [.xmm, .op], 0, .leaf (.sse (.a 0) (.a 1) (fl [T_0F, T_66]) 0x5E .xmm_xmm .none)⟩,
  ⟨357, n!"divps", [.xmm, .op], 0, .leaf (.sse (.a 0) (.a 1) T_0F 0x5E .xmm_xmm .none)⟩,
  ⟨358, n!"divsd", [.xmm, .op], 0, .leaf (.sse (.a 0) (.a 1) (fl [T_0F, T_F2]) 0x5E .xmm_xmm .none)⟩,
  ⟨359, n!"divss", [.xmm, .op], 0, .leaf (.sse (.a 0) (.a 1) (fl [T_0F, T_F3]) 0x5E .xmm_xmm .none)⟩,
  ⟨360, n!"dppd", [.xmm, .op, .int], 0, .leaf (.sse (.a 0) (.a 1) (fl [T_66, T_0F3A]) 0x41 .xmm_xmm (.i 0))⟩,
  ⟨361, n!"dpps", [.xmm, .op, .int], 0, .leaf (.sse (.a 0) (.a 1) (fl [T_66, T_0F3A]) 0x40 .xmm_xmm (.i 0))⟩,
  ⟨362, n!"emms", [], 0, .leaf (.bytes [0x0F, 0x77])⟩,
  ⟨363, n!"endbr32", [], 0, .leaf (.bytes [0xF3, 0x0F, 0x1E, 0xFB])⟩,
  ⟨364, n!"endbr64", [], 0, .leaf (.bytes [0xF3, 0x0F, 0x1E, 0xFA])⟩,
  ⟨365, n!"enter", [.int, .int], 0, .leaf (.raw .enter)⟩,
  ⟨366, n!"extractps", [.op, .xmm, .int], 0, .leaf (.ext (.a 0) (.a 1) 0x17 0 false)⟩,
  ⟨367, n!"f2xm1", [], 0, .leaf (.bytes [0xD9, 0xF0])⟩,
  ⟨368, n!"fabs", [], 0, .leaf (.bytes [0xD9, 0xE1])⟩,
  ⟨369, n!"fadd", [.addr], 0, .leaf (.fpuMem (.a 0) 0x00 0xD8 0xDC 0x00 0x00)⟩,
  ⟨370, n!"fadd", [.fpu], 0, .leaf (.fpuFpu (.r (.st 0)) (.a 0) 0xD8C0 0xDCC0)⟩,
  ⟨371, n!"fadd", [.fpu, .fpu], 0, .leaf (.fpuFpu (.a 0) (.a 1) 0xD8C0 0xDCC0)⟩,
  ⟨372, n!"faddp", [], 0, .leaf (.bytes [0xDE, 0xC1])⟩,
  ⟨373, n!"faddp", [.fpu], 0, .leaf (.fpuFpu (.a 0) (.r (.st 0)) 0x0000 0xDEC0)⟩,
  ⟨374, n!"faddp", [.fpu, .fpu], 0, .leaf (.fpuFpu (.a 0) (.a 1) 0x0000 0xDEC0)⟩,
  ⟨375, n!"fbld", [.addr], 0, .leaf (.mr (.a 0) (.r (.gp 4 32)) 0 0xDF 0 none)⟩,
  ⟨376, n!"fbstp", [.addr], 0, .leaf (.mr (.a 0) (.r (.gp 6 32)) 0 0xDF 0 none)⟩,
  ⟨377, n!"fchs", [], 0, .leaf (.bytes [0xD9, 0xE0])⟩,
  ⟨378, n!"fclex", [], 0, .leaf (.bytes [0x9B, 0xDB, 0xE2])⟩,
  ⟨379, n!"fcmovb", [.fpu], 0, .leaf (.fpuFpu (.r (.st 0)) (.a 0) 0xDAC0 0x00C0)⟩,
  ⟨380, n!"fcmovb", [.fpu, .fpu], 0, .leaf (.fpuFpu (.a 0) (.a 1) 0xDAC0 0x00C0)⟩,
  ⟨381, n!"fcmovbe", [.fpu], 0, .leaf (.fpuFpu (.r (.st 0)) (.a 0) 0xDAD0 0x00D0)⟩,
  ⟨382, n!"fcmovbe", [.fpu, .fpu], 0, .leaf (.fpuFpu (.a 0) (.a 1) 0xDAD0 0x00D0)⟩,
  ⟨383, n!"fcmove", [.fpu], 0, .leaf (.fpuFpu (.r (.st 0)) (.a 0) 0xDAC8 0x00C8)⟩,
  ⟨384, n!"fcmove", [.fpu, .fpu], 0, .leaf (.fpuFpu (.a 0) (.a 1) 0xDAC8 0x00C8)⟩,
  ⟨385, n!"fcmovnb", [.fpu], 0, .leaf (.fpuFpu (.r (.st 0)) (.a 0) 0xDBC0 0x00C0)⟩,
  ⟨386, n!"fcmovnb", [.fpu, .fpu], 0, .leaf (.fpuFpu (.a 0) (.a 1) 0xDBC0 0x00C0)⟩,
  ⟨387, n!"fcmovnbe", [.fpu], 0, .leaf (.fpuFpu (.r (.st 0)) (.a 0) 0xDBD0 0x00D0)⟩,
  ⟨388, n!"fcmovnbe", [.fpu, .fpu], 0, .leaf (.fpuFpu (.a 0) (.a 1) 0xDBD0 0x00D0)⟩,
  ⟨389, n!"fcmovne", [.fpu], 0, .leaf (.fpuFpu (.r (.st 0)) (.a 0) 0xDBC8 0x00C8)⟩,
  ⟨390, n!"fcmovne", [.fpu, .fpu], 0, .leaf (.fpuFpu (.a 0) (.a 1) 0xDBC8 0x00C8)⟩,
  ⟨391, n!"fcmovnu", [.fpu], 0, .leaf (.fpuFpu (.r (.st 0)) (.a 0) 0xDBD8 0x00D8)⟩,
  ⟨392, n!"fcmovnu", [.fpu, .fpu], 0, .leaf (.fpuFpu (.a 0) (.a 1) 0xDBD8 0x00D8)⟩,
  ⟨393, n!"fcmovu", [.fpu], 0, .leaf (.fpuFpu (.r (.st 0)) (.a 0) 0xDAD8 0x00D8)⟩,
  ⟨394, n!"fcmovu", [.fpu, .fpu], 0, .leaf (.fpuFpu (.a 0) (.a 1) 0xDAD8 0x00D8)⟩,
  ⟨395, n!"fcom", [], 0, .leaf (.bytes [0xD8, 0xD1])⟩,
  ⟨396, n!"fcom", [.addr], 0, .leaf (.fpuMem (.a 0) 0x00 0xD8 0xDC 0x02 0x00)⟩,
  ⟨397, n!"fcom", [.fpu], 0, .leaf (.fpu (.a 0) 0xD8 0xD0)⟩,
  ⟨398, n!"fcomi", [.fpu], 0, .leaf (.fpuFpu (.r (.st 0)) (.a 0) 0xDBF0 0x00F0)⟩,
  ⟨399, n!"fcomi", [.fpu, .fpu], 0, .leaf (.fpuFpu (.a 0) (.a 1) 0xDBF0 0x00F0)⟩,
  ⟨400, n!"fcomip", [.fpu], 0, .leaf (.fpuFpu (.r (.st 0)) (.a 0) 0xDFF0 0x00F0)⟩,
  ⟨401, n!"fcomip", [.fpu, .fpu], 0, .leaf (.fpuFpu (.a 0) (.a 1) 0xDFF0 0x00F0)⟩,
  ⟨402, n!"fcomp", [], 0, .leaf (.bytes [0xD8, 0xD9])⟩,
  ⟨403, n!"fcomp", [.addr], 0, .leaf (.fpuMem (.a 0) 0x00 0xD8 0xDC 0x03 0x00)⟩,
  ⟨404, n!"fcomp", [.fpu], 0, .leaf (.fpu (.a 0) 0xD8 0xD8)⟩,
  ⟨405, n!"fcompp", [], 0, .leaf (.bytes [0xDE, 0xD9])⟩,
  ⟨406, n!"fcos", [], 0, .leaf (.bytes [0xD9, 0xFF])⟩,
  ⟨407, n!"fdecstp", [], 0, .leaf (.bytes [0xD9, 0xF6])⟩,
  ⟨408, n!"fdiv", [.addr], 0, .leaf (.fpuMem (.a 0) 0x00 0xD8 0xDC 0x06 0x00)⟩,
  ⟨409, n!"fdiv", [.fpu], 0, .leaf (.fpuFpu (.r (.st 0)) (.a 0) 0xD8F0 0xDCF8)⟩,
  ⟨410, n!"fdiv", [.fpu, .fpu], 0, .leaf (.fpuFpu (.a 0) (.a 1) 0xD8F0 0xDCF8)⟩,
  ⟨411, n!"fdivp", [], 0, .leaf (.bytes [0xDE, 0xF9])⟩,
  ⟨412, n!"fdivp", [.fpu], 0, .leaf (.fpuFpu (.a 0) (.r (.st 0)) 0x0000 0xDEF8)⟩,
  ⟨413, n!"fdivp", [.fpu, .fpu], 0, .leaf (.fpuFpu (.a 0) (.a 1) 0x0000 0xDEF8)⟩,
  ⟨414, n!"fdivr", [.addr], 0, .leaf (.fpuMem (.a 0) 0x00 0xD8 0xDC 0x07 0x00)⟩,
  ⟨415, n!"fdivr", [.fpu], 0, .leaf (.fpuFpu (.r (.st 0)) (.a 0) 0xD8F8 0xDCF0)⟩,
  ⟨416, n!"fdivr", [.fpu, .fpu], 0, .leaf (.fpuFpu (.a 0) (.a 1) 0xD8F8 0xDCF0)⟩,
  ⟨417, n!"fdivrp", [], 0, .leaf (.bytes [0xDE, 0xF1])⟩,
  ⟨418, n!"fdivrp", [.fpu], 0, .leaf (.fpuFpu (.a 0) (.r (.st 0)) 0x0000 0xDEF0)⟩,
  ⟨419, n!"fdivrp", [.fpu, .fpu], 0, .leaf (.fpuFpu (.a 0) (.a 1) 0x0000 0xDEF0)⟩,
  ⟨420, n!"ffree", [.fpu], 0, .leaf (.fpu (.a 0) 0xDD 0xC0)⟩,
  ⟨421, n!"fiadd", [.addr], 0, .leaf (.fpuMem (.a 0) 0xDE 0xDA 0x00 0x00 0x00)⟩,
  ⟨422, n!"ficom", [.addr], 0, .leaf (.fpuMem (.a 0) 0xDE 0xDA 0x00 0x02 0x00)⟩,
  ⟨423, n!"ficomp", [.addr], 0, .leaf (.fpuMem (.a 0) 0xDE 0xDA 0x00 0x03 0x00)⟩,
  ⟨424, n!"fidiv", [.addr], 0, .leaf (.fpuMem (.a 0) 0xDE 0xDA 0x00 0x06 0x00)⟩,
  ⟨425, n!"fidivr", [.addr], 0, .leaf (.fpuMem (.a 0) 0xDE 0xDA 0x00 0x07 0x00)⟩,
  ⟨426, n!"fild", [.addr], 0, .leaf (.fpuMem (.a 0) 0xDF 0xDB 0xDF 0x00 0x05)⟩,
  ⟨427, n!"fimul", [.addr], 0, .leaf (.fpuMem (.a 0) 0xDE 0xDA 0x00 0x01 0x00)⟩,
  ⟨428, n!"fincstp", [], 0, .leaf (.bytes [0xD9, 0xF7])⟩,
  ⟨429, n!"finit", [], 0, .leaf (.bytes [0x9B, 0xDB, 0xE3])⟩,
  ⟨430, n!"fist", [.addr], 0, .leaf (.fpuMem (.a 0) 0xDF 0xDB 0x00 0x02 0x00)⟩,
  ⟨431, n!"fistp", [.addr], 0, .leaf (.fpuMem (.a 0) 0xDF 0xDB 0xDF 0x03 0x07)⟩,
  ⟨432, n!"fisttp", [.addr], 0, .leaf (.fpuMem (.a 0) 0xDF 0xDB 0xDD 0x01 0x00)⟩,
  ⟨433, n!"fisub", [.addr], 0, .leaf (.fpuMem (.a 0) 0xDE 0xDA 0x00 0x04 0x00)⟩,
  ⟨434, n!"fisubr", [.addr], 0, .leaf (.fpuMem (.a 0) 0xDE 0xDA 0x00 0x05 0x00)⟩,
  ⟨435, n!"fld", [.addr], 0, .leaf (.fpuMem (.a 0) 0x00 0xD9 0xDD 0x00 0x00)⟩,
  ⟨436, n!"fld", [.fpu], 0, .leaf (.fpu (.a 0) 0xD9 0xC0)⟩,
  ⟨437, n!"fld1", [], 0, .leaf (.bytes [0xD9, 0xE8])⟩,
  ⟨438, n!"fldcw", [.addr], 0, .leaf (.mr (.a 0) (.r (.gp 5 32)) 0 0xD9 0 none)⟩,
  ⟨439, n!"fldenv", [.addr], 0, .leaf (.mr (.a 0) (.r (.gp 4 32)) 0 0xD9 0 none)⟩,
  ⟨440, n!"fldl2e", [], 0, .leaf (.bytes [0xD9, 0xEA])⟩,
  ⟨441, n!"fldl2t", [], 0, .leaf (.bytes [0xD9, 0xE9])⟩,
  ⟨442, n!"fldlg2", [], 0, .leaf (.bytes [0xD9, 0xEC])⟩,
  ⟨443, n!"fldln2", [], 0, .leaf (.bytes [0xD9, 0xED])⟩,
  ⟨444, n!"fldpi", [], 0, .leaf (.bytes [0xD9, 0xEB])⟩,
  ⟨445, n!"fldz", [], 0, .leaf (.bytes [0xD9, 0xEE])⟩,
  ⟨446, n!"fmul", [.addr], 0, .leaf (.fpuMem (.a 0) 0x00 0xD8 0xDC 0x01 0x00)⟩,
  ⟨447, n!"fmul", [.fpu], 0, .leaf (.fpuFpu (.r (.st 0)) (.a 0) 0xD8C8 0xDCC8)⟩,
  ⟨448, n!"fmul", [.fpu, .fpu], 0, .leaf (.fpuFpu (.a 0) (.a 1) 0xD8C8 0xDCC8)⟩,
  ⟨449, n!"fmulp", [], 0, .leaf (.bytes [0xDE, 0xC9])⟩,
  ⟨450, n!"fmulp", [.fpu], 0, .leaf (.fpuFpu (.a 0) (.r (.st 0)) 0x0000 0xDEC8)⟩,
  ⟨451, n!"fmulp", [.fpu, .fpu], 0, .leaf (.fpuFpu (.a 0) (.a 1) 0x0000 0xDEC8)⟩,
  ⟨452, n!"fnclex", [], 0, .leaf (.bytes [0xDB, 0xE2])⟩,
  ⟨453, n!"fninit", [], 0, .leaf (.bytes [0xDB, 0xE3])⟩,
  ⟨454, n!"fnop", [], 0, .leaf (.bytes [0xD9, 0xD0])⟩,
  ⟨455, n!"fnsave", [.addr], 0, .leaf (.mr (.a 0) (.r (.gp 6 32)) 0 0xDD 0 none)⟩,
  ⟨456, n!"fnstcw", [.addr], 0, .leaf (.mr (.a 0) (.r (.gp 7 32)) 0 0xD9 0 none)⟩,
  ⟨457, n!"fnstenv", [.addr], 0, .leaf (.mr (.a 0) (.r (.gp 6 32)) 0 0xD9 0 none)⟩,
  ⟨458, n!"fnstsw", [.addr], 0, .leaf (.mr (.a 0) (.r (.gp 7 32)) 0 0xDD 0 none)⟩,
  ⟨459, n!"fnstsw", [.reg16], 0, .guard (fun g => decide ((g.reg 0).idx.toNat ≠ 0)) .BAD_PARAMETER (.leaf (.bytes [0xDF, 0xE0]))⟩,
  ⟨460, n!"fpatan", [], 0, .leaf (.bytes [0xD9, 0xF3])⟩,
  ⟨461, n!"fprem", [], 0, .leaf (.bytes [0xD9, 0xF8])⟩,
  ⟨462, n!"fprem1", [], 0, .leaf (.bytes [0xD9, 0xF5])⟩,
  ⟨463, n!"fptan", [], 0, .leaf (.bytes [0xD9, 0xF2])⟩,
  ⟨464, n!"frndint", [], 0, .leaf (.bytes [0xD9, 0xFC])⟩,
  ⟨465, n!"frstor", [.addr], 0, .leaf (.mr (.a 0) (.r (.gp 4 32)) 0 0xDD 0 none)⟩,
  ⟨466, n!"fsave", [.addr], 0, .pre (fun _ => true) 0x9B (.leaf (.mr (.a 0) (.r (.gp 6 32)) 0 0xDD 0 none))⟩,
  ⟨467, n!"fscale", [], 0, .leaf (.bytes [0xD9, 0xFD])⟩,
  ⟨468, n!"fsin", [], 0, .leaf (.bytes [0xD9, 0xFE])⟩,
  ⟨469, n!"fsincos", [], 0, .leaf (.bytes [0xD9, 0xFB])⟩,
  ⟨470, n!"fsqrt", [], 0, .leaf (.bytes [0xD9, 0xFA])⟩,
  ⟨471, n!"fst", [.addr], 0, .leaf (.fpuMem (.a 0) 0x00 0xD9 0xDD 0x02 0x00)⟩,
  ⟨472, n!"fst", [.fpu], 0, .leaf (.fpu (.a 0) 0xDD 0xD0)⟩,
  ⟨473, n!"fstcw", [.addr], 0, .pre (fun _ => true) 0x9B (.leaf (.mr (.a 0) (.r (.gp 7 32)) 0 0xD9 0 none))⟩,
  ⟨474, n!"fstenv", [.addr], 0, .pre (fun _ => true) 0x9B (.leaf (.mr (.a 0) (.r (.gp 6 32)) 0 0xD9 0 none))⟩,
  ⟨475, n!"fstp", [.addr], 0, .leaf (.fpuMem (.a 0) 0x00 0xD9 0xDD 0x03 0x00)⟩,
  ⟨476, n!"fstp", [.fpu], 0, .leaf (.fpu (.a 0) 0xDD 0xD8)⟩,
  ⟨477, n!"fstsw", [.addr], 0, .pre (fun _ => true) 0x9B (.leaf (.mr (.a 0) (.r (.gp 7 32)) 0 0xDD 0 none))⟩,
  ⟨478, n!"fstsw", [.reg16], 0, .guard (fun g => decide ((g.reg 0).idx.toNat ≠ 0)) .BAD_PARAMETER (.leaf (.bytes [0x9B, 0xDF, 0xE0]))⟩,
  ⟨479, n!"fsub", [.addr], 0, .leaf (.fpuMem (.a 0) 0x00 0xD8 0xDC 0x04 0x00)⟩,
  ⟨480, n!"fsub", [.fpu], 0, .leaf (.fpuFpu (.r (.st 0)) (.a 0) 0xD8E0 0xDCE8)⟩,
  ⟨481, n!"fsub", [.fpu, .fpu], 0, .leaf (.fpuFpu (.a 0) (.a 1) 0xD8E0 0xDCE8)⟩,
  ⟨482, n!"fsubp", [], 0, .leaf (.bytes [0xDE, 0xE9])⟩,
  ⟨483, n!"fsubp", [.fpu], 0, .leaf (.fpuFpu (.a 0) (.r (.st 0)) 0x0000 0xDEE8)⟩,
  ⟨484, n!"fsubp", [.fpu, .fpu], 0, .leaf (.fpuFpu (.a 0) (.a 1) 0x0000 0xDEE8)⟩,
  ⟨485, n!"fsubr", [.addr], 0, .leaf (.fpuMem (.a 0) 0x00 0xD8 0xDC 0x05 0x00)⟩,
  ⟨486, n!"fsubr", [.fpu], 0, .leaf (.fpuFpu (.r (.st 0)) (.a 0) 0xD8E8 0xDCE0)⟩,
  ⟨487, n!"fsubr", [.fpu, .fpu], 0, .leaf (.fpuFpu (.a 0) (.a 1) 0xD8E8 0xDCE0)⟩,
  ⟨488, n!"fsubrp", [], 0, .leaf (.bytes [0xDE, 0xE1])⟩,
  ⟨489, n!"fsubrp", [.fpu], 0, .leaf (.fpuFpu (.a 0) (.r (.st 0)) 0x0000 0xDEE0)⟩,
  ⟨490, n!"fsubrp", [.fpu, .fpu], 0, .leaf (.fpuFpu (.a 0) (.a 1) 0x0000 0xDEE0)⟩,
  ⟨491, n!"ftst", [], 0, .leaf (.bytes [0xD9, 0xE4])⟩,
  ⟨492, n!"fucom", [], 0, .leaf (.bytes [0xDD, 0xE1])⟩,
  ⟨493, n!"fucom", [.fpu], 0, .leaf (.fpu (.a 0) 0xDD 0xE0)⟩,
  ⟨494, n!"fucomi", [.fpu], 0, .leaf (.fpuFpu (.r (.st 0)) (.a 0) 0xDBE8 0x00E8)⟩,
  ⟨495, n!"fucomi", [.fpu, .fpu], 0, .leaf (.fpuFpu (.a 0) (.a 1) 0xDBE8 0x00E8)⟩,
  ⟨496, n!"fucomip", [.fpu], 0, .leaf (.fpuFpu (.r (.st 0)) (.a 0) 0xDFE8 0x00E8)⟩,
  ⟨497, n!"fucomip", [.fpu, .fpu], 0, .leaf (.fpuFpu (.a 0) (.a 1) 0xDFE8 0x00E8)⟩,
  ⟨498, n!"fucomp", [], 0, .leaf (.bytes [0xDD, 0xE9])⟩,
  ⟨499, n!"fucomp", [.fpu], 0, .leaf (.fpu (.a 0) 0xDD 0xE8)⟩,
  ⟨500, n!"fucompp", [], 0, .leaf (.bytes [0xDA, 0xE9])⟩,
  ⟨501, n!"fwait", [], 0, .leaf (.bytes [0x9B])⟩,
  ⟨502, n!"fxam", [], 0, .leaf (.bytes [0xD9, 0xE5])⟩,
  ⟨503, n!"fxch", [], 0, .leaf (.bytes [0xD9, 0xC9])⟩,
  ⟨504, n!"fxch", [.fpu], 0, .leaf (.fpu (.a 0) 0xD9 0xC8)⟩,
  ⟨505, n!"fxrstor", [.addr], 0, .leaf (.mr (.a 0) (.r (.gp 1 32)) T_0F 0xAE 0 none)⟩,
  ⟨506, n!"fxtract", [], 0, .leaf (.bytes [0xD9, 0xF4])⟩,
  ⟨507, n!"fyl2x", [], 0, .leaf (.bytes [0xD9, 0xF1])⟩,
  ⟨508, n!"fyl2xp1", [], 0, .leaf (.bytes [0xD9, 0xF9])⟩,
  ⟨509, n!"gf2p8affineinvqb", [.xmm, .op, .int], 0, .leaf (.sse (.a 0) (.a 1) (fl [T_66, T_0F3A]) 0xCF .xmm_xmm (.i 0))⟩,
  ⟨510, n!"gf2p8affineqb", [.xmm, .op, .int], 0, .leaf (.sse (.a 0) (.a 1) (fl [T_66, T_0F3A]) 0xCE .xmm_xmm (.i 0))⟩,
  ⟨511, n!"gf2p8mulb", [.xmm, .op], 0, .leaf (.sse (.a 0) (.a 1) (fl [T_66, T_0F38]) 0xCF .xmm_xmm .none)⟩,
  ⟨512, n!"haddpd", [.xmm, .op], 0, .leaf (.sse (.a 0) (.a 1) (fl [T_66, T_0F, T_YMM]) 0x7C .xmm_xmm .none)⟩,
  ⟨513, n!"haddps", [.xmm, .op], 0, .leaf (.sse (.a 0) (.a 1) (fl [T_F2, T_0F, T_YMM]) 0x7C .xmm_xmm .none)⟩,
  ⟨514, n!"hlt", [], 0, .leaf (.bytes [0xF4])⟩,
  ⟨515, n!"hsubpd", [.xmm, .op], 0, .leaf (.sse (.a 0) (.a 1) (fl [T_66, T_0F, T_YMM]) 0x7D .xmm_xmm .none)⟩,
  ⟨516, n!"hsubps", [.xmm, .op], 0, .leaf (.sse (.a 0) (.a 1) (fl [T_F2, T_0F, T_YMM]) 0x7D .xmm_xmm .none)⟩,
  ⟨517, n!"idiv", [.op], 0, .leaf (.rext (.a 0) 0 7 (fl [T_APX, T_NF, T_CODE1_IF1]) 0xF6)⟩,
  ⟨518, n!"imul", [.op], 0, .leaf (.rext (.a 0) 0 5 (fl [T_APX, T_NF, T_CODE1_IF1]) 0xF6)⟩,
  ⟨519, n!"imul", [.reg, .reg, .op], 0, .leaf (.roo (.a 0) (.a 2) (.a 1) (fl [T_APX, T_ND1, T_NF]) 0xAF)⟩,
  ⟨520, n!"imul", [.reg, .op], 0, .apx (.r .nil) (.a 1) (.a 0) (fl [T_APX, T_NF]) 0xAF (.leaf (.ro (.a 0) (.a 1) T_0F 0xAF (.kinds 0 1)))⟩,
  ⟨521, n!"in_", [.reg, .reg], 0, .leaf (.inOutDX (.a 0) (.a 1) 0xEC)⟩,
  ⟨522, n!"in_", [.reg, .int], 0, .leaf (.inOutImm (.a 0) 0xE4 0)⟩,
  ⟨523, n!"inc", [.op], 0, .leaf (.incDec (.r .nil) (.a 0) 0)⟩,
  ⟨524, n!"inc", [.reg, .op], 0, .leaf (.incDec (.a 0) (.a 1) 0)⟩,
  ⟨525, n!"insertps", [.xmm, .op, .int], 0, .leaf (.sse (.a 0) (.a 1) (fl [T_66, T_0F3A]) 0x21 .xmm_xmm (.i 0))⟩,
  ⟨526, n!"int3", [], 0, .leaf (.bytes [0xCC])⟩,
  ⟨527, n!"int_", [.int], 0, .leaf (.raw .int_)⟩,
  ⟨528, n!"ja", [.label], 0, .jmp [] .param 0x77 0x87 0x0F⟩,
  ⟨529, n!"ja", [.label], 0, .jmp [] .param 0x77 0x87 0x0F⟩,
  ⟨530, n!"ja", [.absAddr], 0, .jmpAbs 0x77 0x87 0x0F⟩,
  ⟨531, n!"ja", [.label], 0, .jmp [] .param 0x77 0x87 0x0F⟩,
  ⟨532, n!"jae", [.label], 0, .jmp [] .param 0x73 0x83 0x0F⟩,
  ⟨533, n!"jae", [.label], 0, .jmp [] .param 0x73 0x83 0x0F⟩,
  ⟨534, n!"jae", [.absAddr], 0, .jmpAbs 0x73 0x83 0x0F⟩,
  ⟨535, n!"jae", [.label], 0, .jmp [] .param 0x73 0x83 0x0F⟩,
  ⟨536, n!"jb", [.label], 0, .jmp [] .param 0x72 0x82 0x0F⟩,
  ⟨537, n!"jb", [.label], 0, .jmp [] .param 0x72 0x82 0x0F⟩,
  ⟨538, n!"jb", [.absAddr], 0, .jmpAbs 0x72 0x82 0x0F⟩,
  ⟨539, n!"jb", [.label], 0, .jmp [] .param 0x72 0x82 0x0F⟩,
  ⟨540, n!"jbe", [.label], 0, .jmp [] .param 0x76 0x86 0x0F⟩,
  ⟨541, n!"jbe", [.label], 0, .jmp [] .param 0x76 0x86 0x0F⟩,
  ⟨542, n!"jbe", [.absAddr], 0, .jmpAbs 0x76 0x86 0x0F⟩,
  ⟨543, n!"jbe", [.label], 0, .jmp [] .param 0x76 0x86 0x0F⟩,
  ⟨544, n!"jc", [.label], 0, .jmp [] .param 0x72 0x82 0x0F⟩,
  ⟨545, n!"jc", [.label], 0, .jmp [] .param 0x72 0x82 0x0F⟩,
  ⟨546, n!"jc", [.absAddr], 0, .jmpAbs 0x72 0x82 0x0F⟩,
  ⟨547, n!"jc", [.label], 0, .jmp [] .param 0x72 0x82 0x0F⟩,
  ⟨548, n!"je", [.label], 0, .jmp [] .param 0x74 0x84 0x0F⟩,
  ⟨549, n!"je", [.label], 0, .jmp [] .param 0x74 0x84 0x0F⟩,
  ⟨550, n!"je", [.absAddr], 0, .jmpAbs 0x74 0x84 0x0F⟩,
  ⟨551, n!"je", [.label], 0, .jmp [] .param 0x74 0x84 0x0F⟩,
  ⟨552, n!"jg", [.label], 0, .jmp [] .param 0x7F 0x8F 0x0F⟩,
  ⟨553, n!"jg", [.label], 0, .jmp [] .param 0x7F 0x8F 0x0F⟩,
  ⟨554, n!"jg", [.absAddr], 0, .jmpAbs 0x7F 0x8F 0x0F⟩,
  ⟨555, n!"jg", [.label], 0, .jmp [] .param 0x7F 0x8F 0x0F⟩,
  ⟨556, n!"jge", [.label], 0, .jmp [] .param 0x7D 0x8D 0x0F⟩,
  ⟨557, n!"jge", [.label], 0, .jmp [] .param 0x7D 0x8D 0x0F⟩,
  ⟨558, n!"jge", [.absAddr], 0, .jmpAbs 0x7D 0x8D 0x0F⟩,
  ⟨559, n!"jge", [.label], 0, .jmp [] .param 0x7D 0x8D 0x0F⟩,
  ⟨560, n!"jl", [.label], 0, .jmp [] .param 0x7C 0x8C 0x0F⟩,
  ⟨561, n!"jl", [.label], 0, .jmp [] .param 0x7C 0x8C 0x0F⟩,
  ⟨562, n!"jl", [.absAddr], 0, .jmpAbs 0x7C 0x8C 0x0F⟩,
  ⟨563, n!"jl", [.label], 0, .jmp [] .param 0x7C 0x8C 0x0F⟩,
  ⟨564, n!"jle", [.label], 0, .jmp [] .param 0x7E 0x8E 0x0F⟩,
  ⟨565, n!"jle", [.label], 0, .jmp [] .param 0x7E 0x8E 0x0F⟩,
  ⟨566, n!"jle", [.absAddr], 0, .jmpAbs 0x7E 0x8E 0x0F⟩,
  ⟨567, n!"jle", [.label], 0, .jmp [] .param 0x7E 0x8E 0x0F⟩,
  ⟨568, n!"jna", [.label], 0, .jmp [] .param 0x76 0x86 0x0F⟩,
  ⟨569, n!"jna", [.label], 0, .jmp [] .param 0x76 0x86 0x0F⟩,
  ⟨570, n!"jna", [.absAddr], 0, .jmpAbs 0x76 0x86 0x0F⟩,
  ⟨571, n!"jna", [.label], 0, .jmp [] .param 0x76 0x86 0x0F⟩,
  ⟨572, n!"jnae", [.label], 0, .jmp [] .param 0x72 0x82 0x0F⟩,
  ⟨573, n!"jnae", [.label], 0, .jmp [] .param 0x72 0x82 0x0F⟩,
  ⟨574, n!"jnae", [.absAddr], 0, .jmpAbs 0x72 0x82 0x0F⟩,
  ⟨575, n!"jnae", [.label], 0, .jmp [] .param 0x72 0x82 0x0F⟩,
  ⟨576, n!"jnb", [.label], 0, .jmp [] .param 0x73 0x83 0x0F⟩,
  ⟨577, n!"jnb", [.label], 0, .jmp [] .param 0x73 0x83 0x0F⟩,
  ⟨578, n!"jnb", [.absAddr], 0, .jmpAbs 0x73 0x83 0x0F⟩,
  ⟨579, n!"jnb", [.label], 0, .jmp [] .param 0x73 0x83 0x0F⟩,
  ⟨580, n!"jnbe", [.label], 0, .jmp [] .param 0x77 0x87 0x0F⟩,
  ⟨581, n!"jnbe", [.label], 0, .jmp [] .param 0x77 0x87 0x0F⟩,
  ⟨582, n!"jnbe", [.absAddr], 0, .jmpAbs 0x77 0x87 0x0F⟩,
  ⟨583, n!"jnbe", [.label], 0, .jmp [] .param 0x77 0x87 0x0F⟩,
  ⟨584, n!"jnc", [.label], 0, .jmp [] .param 0x73 0x83 0x0F⟩,
  ⟨585, n!"jnc", [.label], 0, .jmp [] .param 0x73 0x83 0x0F⟩,
  ⟨586, n!"jnc", [.absAddr], 0, .jmpAbs 0x73 0x83 0x0F⟩,
  ⟨587, n!"jnc", [.label], 0, .jmp [] .param 0x73 0x83 0x0F⟩,
  ⟨588, n!"jne", [.label], 0, .jmp [] .param 0x75 0x85 0x0F⟩,
  ⟨589, n!"jne", [.label], 0, .jmp [] .param 0x75 0x85 0x0F⟩,
  ⟨590, n!"jne", [.absAddr], 0, .jmpAbs 0x75 0x85 0x0F⟩,
  ⟨591, n!"jne", [.label], 0, .jmp [] .param 0x75 0x85 0x0F⟩,
  ⟨592, n!"jng", [.label], 0, .jmp [] .param 0x7E 0x8E 0x0F⟩,
  ⟨593, n!"jng", [.label], 0, .jmp [] .param 0x7E 0x8E 0x0F⟩,
  ⟨594, n!"jng", [.absAddr], 0, .jmpAbs 0x7E 0x8E 0x0F⟩,
  ⟨595, n!"jng", [.label], 0, .jmp [] .param 0x7E 0x8E 0x0F⟩,
  ⟨596, n!"jnge", [.label], 0, .jmp [] .param 0x7C 0x8C 0x0F⟩,
  ⟨597, n!"jnge", [.label], 0, .jmp [] .param 0x7C 0x8C 0x0F⟩,
  ⟨598, n!"jnge", [.absAddr], 0, .jmpAbs 0x7C 0x8C 0x0F⟩,
  ⟨599, n!"jnge", [.label], 0, .jmp [] .param 0x7C 0x8C 0x0F⟩,
  ⟨600, n!"jnl", [.label], 0, .jmp [] .param 0x7D 0x8D 0x0F⟩,
  ⟨601, n!"jnl", [.label], 0, .jmp [] .param 0x7D 0x8D 0x0F⟩,
  ⟨602, n!"jnl", [.absAddr], 0, .jmpAbs 0x7D 0x8D 0x0F⟩,
  ⟨603, n!"jnl", [.label], 0, .jmp [] .param 0x7D 0x8D 0x0F⟩,
  ⟨604, n!"jnle", [.label], 0, .jmp [] .param 0x7F 0x8F 0x0F⟩,
  ⟨605, n!"jnle", [.label], 0, .jmp [] .param 0x7F 0x8F 0x0F⟩,
  ⟨606, n!"jnle", [.absAddr], 0, .jmpAbs 0x7F 0x8F 0x0F⟩,
  ⟨607, n!"jnle", [.label], 0, .jmp [] .param 0x7F 0x8F 0x0F⟩,
  ⟨608, n!"jno", [.label], 0, .jmp [] .param 0x71 0x81 0x0F⟩,
  ⟨609, n!"jno", [.label], 0, .jmp [] .param 0x71 0x81 0x0F⟩,
  ⟨610, n!"jno", [.absAddr], 0, .jmpAbs 0x71 0x81 0x0F⟩,
  ⟨611, n!"jno", [.label], 0, .jmp [] .param 0x71 0x81 0x0F⟩,
  ⟨612, n!"jnp", [.label], 0, .jmp [] .param 0x7B 0x8B 0x0F⟩,
  ⟨613, n!"jnp", [.label], 0, .jmp [] .param 0x7B 0x8B 0x0F⟩,
  ⟨614, n!"jnp", [.absAddr], 0, .jmpAbs 0x7B 0x8B 0x0F⟩,
  ⟨615, n!"jnp", [.label], 0, .jmp [] .param 0x7B 0x8B 0x0F⟩,
  ⟨616, n!"jns", [.label], 0, .jmp [] .param 0x79 0x89 0x0F⟩,
  ⟨617, n!"jns", [.label], 0, .jmp [] .param 0x79 0x89 0x0F⟩,
  ⟨618, n!"jns", [.absAddr], 0, .jmpAbs 0x79 0x89 0x0F⟩,
  ⟨619, n!"jns", [.label], 0, .jmp [] .param 0x79 0x89 0x0F⟩,
  ⟨620, n!"jnz", [.label], 0, .jmp [] .param 0x75 0x85 0x0F⟩,
  ⟨621, n!"jnz", [.label], 0, .jmp [] .param 0x75 0x85 0x0F⟩,
  ⟨622, n!"jnz", [.absAddr], 0, .jmpAbs 0x75 0x85 0x0F⟩,
  ⟨623, n!"jnz", [.label], 0, .jmp [] .param 0x75 0x85 0x0F⟩,
  ⟨624, n!"jo", [.label], 0, .jmp [] .param 0x70 0x80 0x0F⟩,
  ⟨625, n!"jo", [.label], 0, .jmp [] .param 0x70 0x80 0x0F⟩,
  ⟨626, n!"jo", [.absAddr], 0, .jmpAbs 0x70 0x80 0x0F⟩,
  ⟨627, n!"jo", [.label], 0, .jmp [] .param 0x70 0x80 0x0F⟩,
  ⟨628, n!"jp", [.label], 0, .jmp [] .param 0x7A 0x8A 0x0F⟩,
  ⟨629, n!"jp", [.label], 0, .jmp [] .param 0x7A 0x8A 0x0F⟩,
  ⟨630, n!"jp", [.absAddr], 0, .jmpAbs 0x7A 0x8A 0x0F⟩,
  ⟨631, n!"jp", [.label], 0, .jmp [] .param 0x7A 0x8A 0x0F⟩,
  ⟨632, n!"jpe", [.label], 0, .jmp [] .param 0x7A 0x8A 0x0F⟩,
  ⟨633, n!"jpe", [.label], 0, .jmp [] .param 0x7A 0x8A 0x0F⟩,
  ⟨634, n!"jpe", [.absAddr], 0, .jmpAbs 0x7A 0x8A 0x0F⟩,
  ⟨635, n!"jpe", [.label], 0, .jmp [] .param 0x7A 0x8A 0x0F⟩,
  ⟨636, n!"jpo", [.label], 0, .jmp [] .param 0x7B 0x8B 0x0F⟩,
  ⟨637, n!"jpo", [.label], 0, .jmp [] .param 0x7B 0x8B 0x0F⟩,
  ⟨638, n!"jpo", [.absAddr], 0, .jmpAbs 0x7B 0x8B 0x0F⟩,
  ⟨639, n!"jpo", [.label], 0, .jmp [] .param 0x7B 0x8B 0x0F⟩,
  ⟨640, n!"js", [.label], 0, .jmp [] .param 0x78 0x88 0x0F⟩,
  ⟨641, n!"js", [.label], 0, .jmp [] .param 0x78 0x88 0x0F⟩,
  ⟨642, n!"js", [.absAddr], 0, .jmpAbs 0x78 0x88 0x0F⟩,
  ⟨643, n!"js", [.label], 0, .jmp [] .param 0x78 0x88 0x0F⟩,
  ⟨644, n!"jz", [.label], 0, .jmp [] .param 0x74 0x84 0x0F⟩,
  ⟨645, n!"jz", [.label], 0, .jmp [] .param 0x74 0x84 0x0F⟩,
  ⟨646, n!"jz", [.absAddr], 0, .jmpAbs 0x74 0x84 0x0F⟩,
  ⟨647, n!"jz", [.label], 0, .jmp [] .param 0x74 0x84 0x0F⟩,
  ⟨648, n!"lahf", [], 0, .leaf (.bytes [0x9F])⟩,
  ⟨649, n!"lddqu", [.xmm, .addr], 0, .leaf (.sse (.a 0) (.a 1) (fl [T_F2, T_0F]) 0xF0 .any .none)⟩,
  ⟨650, n!"ldmxcsr", [.addr], 0, .leaf (.mr (.a 0) (.r (.gp 2 32)) T_0F 0xAE 0 none)⟩,
  ⟨651, n!"lea", [.reg, .addr], 0, .guard (fun g => !((g.reg 0).isBit 112)) .BAD_SIZE_OF_REGISTER (.leaf (.mr (.a 1) (.a 0) 0 0x8D 0 none))⟩,
  ⟨652, n!"leave", [], 0, .leaf (.bytes [0xC9])⟩,
  ⟨653, n!"lfence", [], 0, .leaf (.bytes [0x0F, 0xAE, 0xE8])⟩,
  ⟨654, n!"lfs", [.reg, .addr], 0, .leaf (.loadSeg (.a 1) (.a 0) T_0F 0xB4)⟩,
  ⟨655, n!"lgs", [.reg, .addr], 0, .leaf (.loadSeg (.a 1) (.a 0) T_0F 0xB5)⟩,
  ⟨656, n!"lock", [], 0, .leaf (.bytes [0xF0])⟩,
  ⟨657, n!"lodsb", [], 0, .leaf (.bytes [0xAC])⟩,
  ⟨658, n!"lodsd", [], 0, .leaf (.bytes [0xAD])⟩,
  ⟨659, n!"lodsw", [], 0, .leaf (.bytes [0x66, 0xAD])⟩,
  ⟨660, n!"loop", [.label], 0, .jmp [] .short 0xE2 0x00 0x00⟩,
  ⟨661, n!"loop", [.label], 0, .jmp [] .short 0xE2 0x00 0x00⟩,
  ⟨662, n!"loop", [.label], 0, .jmp [] .short 0xE2 0x00 0x00⟩,
  ⟨663, n!"loope", [.label], 0, .jmp [] .short 0xE1 0x00 0x00⟩,
  ⟨664, n!"loope", [.label], 0, .jmp [] .short 0xE1 0x00 0x00⟩,
  ⟨665, n!"loope", [.label], 0, .jmp [] .short 0xE1 0x00 0x00⟩,
  ⟨666, n!"loopne", [.label], 0, .jmp [] .short 0xE0 0x00 0x00⟩,
  ⟨667, n!"loopne", [.label], 0, .jmp [] .short 0xE0 0x00 0x00⟩,
  ⟨668, n!"loopne", [.label], 0, .jmp [] .short 0xE0 0x00 0x00⟩,
  ⟨669, n!"lss", [.reg, .addr], 0, .leaf (.loadSeg (.a 1) (.a 0) T_0F 0xB2)⟩,
  ⟨670, n!"lzcnt", [.reg, .op], 0, .apx (.r .nil) (.a 1) (.a 0) (fl [T_APX, T_NF]) 0xF5 (.leaf (.cnt (.a 0) (.a 1) 0xBD))⟩,
  ⟨671, n!"maskmovdqu", [.xmm, .xmm], 0, .leaf (.sse (.a 0) (.a 1) (fl [T_66, T_0F]) 0xF7 .any .none)⟩,
  ⟨672, n!"maskmovq", [.mmx, .mmx], 0, .leaf (.sse (.a 0) (.a 1) T_0F 0xF7 .any .none)⟩,
  ⟨673, n!"maxpd", [.xmm, .op], 0, .leaf (.sse (.a 0) (.a 1) (fl [T_0F, T_66]) 0x5F .xmm_xmm .none)⟩,
  ⟨674, n!"maxps", [.xmm, .op], 0, .leaf (.sse (.a 0) (.a 1) T_0F 0x5F .xmm_xmm .none)⟩,
  ⟨675, n!"maxsd", [.xmm, .op], 0, .leaf (.sse (.a 0) (.a 1) (fl [T_0F, T_F2]) 0x5F .xmm_xmm .none)⟩,
  ⟨676, n!"maxss", [.xmm, .op], 0, .leaf (.sse (.a 0) (.a 1) (fl [T_0F, T_F3]) 0x5F .xmm_xmm .none)⟩,
  ⟨677, n!"mfence", [], 0, .leaf (.bytes [0x0F, 0xAE, 0xF0])⟩,
  ⟨678, n!"minpd", [.xmm, .op], 0, .leaf (.sse (.a 0) (.a 1) (fl [T_0F, T_66]) 0x5D .xmm_xmm .none)⟩,
  ⟨679, n!"minps", [.xmm, .op], 0, .leaf (.sse (.a 0) (.a 1) T_0F 0x5D .xmm_xmm .none)⟩,
  ⟨680, n!"minsd", [.xmm, .op], 0, .leaf (.sse (.a 0) (.a 1) (fl [T_0F, T_F2]) 0x5D .xmm_xmm .none)⟩,
  ⟨681, n!"minss", [.xmm, .op], 0, .leaf (.sse (.a 0) (.a 1) (fl [T_0F, T_F3]) 0x5D .xmm_xmm .none)⟩]

end Mn
end Xbyak
