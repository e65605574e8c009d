import Verif.Mnemonic.Basic
/-! Mnemonic table, `xbyak_mnemonic.h` lines 2-341.  Each entry cites its line; an alias (a line calling another mnemonic) has the
body of the function it calls, with the arguments substituted. -/
namespace Xbyak
namespace Mn
open E

/-- `xbyak_mnemonic.h` 2-341 -/
def t01 : List Entry := [
  ⟨2, n!"aadd", [.addr, .reg32e], 0, .leaf (.mr (.a 0) (.a 1) T_0F38 0xFC T_APX none)⟩,
  ⟨3, n!"aand", [.addr, .reg32e], 0, .leaf (.mr (.a 0) (.a 1) (fl [T_0F38, T_66]) 0xFC (fl [T_APX, T_66]) none)⟩,
  ⟨4, n!"adc", [.op, .int], 0, .leaf (.oi (.a 0) 0 0x10 2)⟩,
  ⟨5, n!"adc", [.op, .op], 0, .leaf (.roMr (.a 0) (.a 1) 0x10)⟩,
  ⟨6, n!"adc", [.reg, .op, .int], 0, .leaf (.roi (.a 0) (.a 1) 0 0 2)⟩,
  ⟨7, n!"adc", [.reg, .op, .op], 0, .leaf (.roo (.a 0) (.a 1) (.a 2) 0 0x10)⟩,
  ⟨8, n!"adcx", [.reg32e, .reg32e, .op], 0, .leaf (.roo (.a 0) (.a 2) (.a 1) T_66 0x66)⟩,
  ⟨9, n!"adcx", [.reg32e, .op], 0, .guard (fun g => !((g.reg 0).isREG 112) && decide ((g.reg 0).bit = (g.reg 1).bit)) .BAD_SIZE_OF_REGISTER (.apx (.r .nil) (.a 1) (.a 0) T_66 0x66 (.leaf (.ro (.a 0) (.a 1) (fl [T_66, T_0F38]) 0xF6 .any)))⟩,
  ⟨10, n!"add", [.op, .int], 0, .leaf (.oi (.a 0) 0 0x00 0)⟩,
  ⟨11, n!"add", [.op, .op], 0, .leaf (.roMr (.a 0) (.a 1) 0x00)⟩,
  ⟨12, n!"add", [.reg, .op, .int], 0, .leaf (.roi (.a 0) (.a 1) 0 (fl [T_NF, T_CODE1_IF1]) 0)⟩,
  ⟨13, n!"add", [.reg, .op, .op], 0, .leaf (.roo (.a 0) (.a 1) (.a 2) (fl [T_NF, T_CODE1_IF1]) 0x00)⟩,
  ⟨14, n!"addpd", [.xmm, .op], 0, .leaf (.sse (.a 0) (.a 1) (fl [T_0F, T_66]) 0x58 .xmm_xmm .none)⟩,
  ⟨15, n!"addps", [.xmm, .op], 0, .leaf (.sse (.a 0) (.a 1) T_0F 0x58 .xmm_xmm .none)⟩,
  ⟨16, n!"addsd", [.xmm, .op], 0, .leaf (.sse (.a 0) (.a 1) (fl [T_0F, T_F2]) 0x58 .xmm_xmm .none)⟩,
  ⟨17, n!"addss", [.xmm, .op], 0, .leaf (.sse (.a 0) (.a 1) (fl [T_0F, T_F3]) 0x58 .xmm_xmm .none)⟩,
  ⟨18, n!"addsubpd", [.xmm, .op], 0, .leaf (.sse (.a 0) (.a 1) (fl [T_66, T_0F, T_YMM]) 0xD0 .xmm_xmm .none)⟩,
  ⟨19, n!"addsubps", [.xmm, .op], 0, .leaf (.sse (.a 0) (.a 1) (fl [T_F2, T_0F, T_YMM]) 0xD0 .xmm_xmm .none)⟩,
  ⟨20, n!"adox", [.reg32e, .reg32e, .op], 0, .leaf (.roo (.a 0) (.a 2) (.a 1) T_F3 0x66)⟩,
  ⟨21, n!"adox", [.reg32e, .op], 0, .guard (fun g => !((g.reg 0).isREG 112) && decide ((g.reg 0).bit = (g.reg 1).bit)) .BAD_SIZE_OF_REGISTER (.apx (.r .nil) (.a 1) (.a 0) T_F3 0x66 (.leaf (.ro (.a 0) (.a 1) (fl [T_F3, T_0F38]) 0xF6 .any)))⟩,
  ⟨22, n!"aesdec", [.xmm, .op], 0, .leaf (.sse (.a 0) (.a 1) (fl [T_66, T_0F38, T_YMM, T_EVEX]) 0xDE .xmm_xmm .none)⟩,
  ⟨23, n!"aesdeclast", [.xmm, .op], 0, .leaf (.sse (.a 0) (.a 1) (fl [T_66, T_0F38, T_YMM, T_EVEX]) 0xDF .xmm_xmm .none)⟩,
  ⟨24, n!"aesenc", [.xmm, .op], 0, .leaf (.sse (.a 0) (.a 1) (fl [T_66, T_0F38, T_YMM, T_EVEX]) 0xDC .xmm_xmm .none)⟩,
  ⟨25, n!"aesenclast", [.xmm, .op], 0, .leaf (.sse (.a 0) (.a 1) (fl [T_66, T_0F38, T_YMM, T_EVEX]) 0xDD .xmm_xmm .none)⟩,
  ⟨26, n!"aesimc", [.xmm, .op], 0, .leaf (.sse (.a 0) (.a 1) (fl [T_66, T_0F38, T_W0]) 0xDB .xmm_xmm .none)⟩,
  ⟨27, n!"aeskeygenassist", [.xmm, .op, .int], 0, .leaf (.sse (.a 0) (.a 1) (fl [T_66, T_0F3A]) 0xDF .xmm_xmm (.i 0))⟩,
  ⟨28, n!"and_", [.op, .int], 0, .leaf (.oi (.a 0) 0 0x20 4)⟩,
  ⟨29, n!"and_", [.op, .op], 0, .leaf (.roMr (.a 0) (.a 1) 0x20)⟩,
  ⟨30, n!"and_", [.reg, .op, .int], 0, .leaf (.roi (.a 0) (.a 1) 0 (fl [T_NF, T_CODE1_IF1]) 4)⟩,
  ⟨31, n!"and_", [.reg, .op, .op], 0, .leaf (.roo (.a 0) (.a 1) (.a 2) (fl [T_NF, T_CODE1_IF1]) 0x20)⟩,
  ⟨32, n!"andn", [.reg32e, .reg32e, .op], 0, .leaf (.rro (.a 0) (.a 1) (.a 2) (fl [T_APX, T_0F38, T_NF]) 0xF2 .none)⟩,
  ⟨33, n!"andnpd", [.xmm, .op], 0, .leaf (.sse (.a 0) (.a 1) (fl [T_0F, T_66]) 0x55 .xmm_xmm .none)⟩,
  ⟨34, n!"andnps", [.xmm, .op], 0, .leaf (.sse (.a 0) (.a 1) T_0F 0x55 .xmm_xmm .none)⟩,
  ⟨35, n!"andpd", [.xmm, .op], 0, .leaf (.sse (.a 0) (.a 1) (fl [T_0F, T_66]) 0x54 .xmm_xmm .none)⟩,
  ⟨36, n!"andps", [.xmm, .op], 0, .leaf (.sse (.a 0) (.a 1) T_0F 0x54 .xmm_xmm .none)⟩,
  ⟨37, n!"aor", [.addr, .reg32e], 0, .leaf (.mr (.a 0) (.a 1) (fl [T_0F38, T_F2]) 0xFC (fl [T_APX, T_F2]) none)⟩,
  ⟨38, n!"axor", [.addr, .reg32e], 0, .leaf (.mr (.a 0) (.a 1) (fl [T_0F38, T_F3]) 0xFC (fl [T_APX, T_F3]) none)⟩,
  ⟨39, n!"bextr", [.reg32e, .op, .reg32e], 0, .leaf (.rro (.a 0) (.a 2) (.a 1) (fl [T_APX, T_0F38, T_NF]) 0xF7 .none)⟩,
  ⟨40, n!"blendpd", [.xmm, .op, .int], 0, .leaf (.sse (.a 0) (.a 1) (fl [T_66, T_0F3A]) 0x0D .xmm_xmm (.i 0))⟩,
  ⟨41, n!"blendps", [.xmm, .op, .int], 0, .leaf (.sse (.a 0) (.a 1) (fl [T_66, T_0F3A]) 0x0C .xmm_xmm (.i 0))⟩,
  ⟨42, n!"blendvpd", [.xmm, .op], 0, .leaf (.sse (.a 0) (.a 1) (fl [T_66, T_0F38]) 0x15 .xmm_xmm .none)⟩,
  ⟨43, n!"blendvps", [.xmm, .op], 0, .leaf (.sse (.a 0) (.a 1) (fl [T_66, T_0F38]) 0x14 .xmm_xmm .none)⟩,
  ⟨44, n!"blsi", [.reg32e, .op], 0, .leaf (.rro (.bitOf 0 3) (.a 0) (.a 1) (fl [T_APX, T_0F38, T_NF]) 0xF3 .none)⟩,
  ⟨45, n!"blsmsk", [.reg32e, .op], 0, .leaf (.rro (.bitOf 0 2) (.a 0) (.a 1) (fl [T_APX, T_0F38, T_NF]) 0xF3 .none)⟩,
  ⟨46, n!"blsr", [.reg32e, .op], 0, .leaf (.rro (.bitOf 0 1) (.a 0) (.a 1) (fl [T_APX, T_0F38, T_NF]) 0xF3 .none)⟩,
  ⟨47, n!"bnd", [], 0, .leaf (.bytes [0xF2])⟩,
  ⟨48, n!"bndcl", [.bnd, .op], 0, .leaf (.rextBnd (.a 1) (.a 0) (fl [T_F3, T_0F]) 0x1A)⟩,
  ⟨49, n!"bndcn", [.bnd, .op], 0, .leaf (.rextBnd (.a 1) (.a 0) (fl [T_F2, T_0F]) 0x1B)⟩,
  ⟨50, n!"bndcu", [.bnd, .op], 0, .leaf (.rextBnd (.a 1) (.a 0) (fl [T_F2, T_0F]) 0x1A)⟩,
  ⟨51, n!"bndldx", [.bnd, .addr], 0, .leaf (.mib (.a 1) (.a 0) T_0F 0x1A)⟩,
  ⟨52, n!"bndmk", [.bnd, .addr], 0, .leaf (.mr (.a 1) (.a 0) (fl [T_F3, T_0F]) 0x1B 0 none)⟩,
  ⟨53, n!"bndmov", [.addr, .bnd], 0, .leaf (.mr (.a 0) (.a 1) (fl [T_66, T_0F]) 0x1B 0 none)⟩,
  ⟨54, n!"bndmov", [.bnd, .op], 0, .leaf (.ro (.a 0) (.a 1) (fl [T_66, T_0F]) 0x1A (.isBND 1))⟩,
  ⟨55, n!"bndstx", [.addr, .bnd], 0, .leaf (.mib (.a 0) (.a 1) T_0F 0x1B)⟩,
  ⟨56, n!"bsf", [.reg, .op], 0, .leaf (.ro (.a 0) (.a 1) T_0F 0xBC (.isREG 1 112))⟩,
  ⟨57, n!"bsr", [.reg, .op], 0, .leaf (.ro (.a 0) (.a 1) T_0F 0xBD (.isREG 1 112))⟩,
  ⟨58, n!"bt", [.op, .reg], 0, .leaf (.ro (.a 1) (.a 0) T_0F 0xA3 (.isREGbits 0 112 1))⟩,
  ⟨59, n!"bt", [.op, .int], 0, .leaf (.rextI (.a 0) 112 4 T_0F 0xBA 0)⟩,
  ⟨60, n!"btc", [.op, .reg], 0, .leaf (.ro (.a 1) (.a 0) T_0F 0xBB (.isREGbits 0 112 1))⟩,
  ⟨61, n!"btc", [.op, .int], 0, .leaf (.rextI (.a 0) 112 7 T_0F 0xBA 0)⟩,
  ⟨62, n!"btr", [.op, .reg], 0, .leaf (.ro (.a 1) (.a 0) T_0F 0xB3 (.isREGbits 0 112 1))⟩,
  ⟨63, n!"btr", [.op, .int], 0, .leaf (.rextI (.a 0) 112 6 T_0F 0xBA 0)⟩,
  ⟨64, n!"bts", [.op, .reg], 0, .leaf (.ro (.a 1) (.a 0) T_0F 0xAB (.isREGbits 0 112 1))⟩,
  ⟨65, n!"bts", [.op, .int], 0, .leaf (.rextI (.a 0) 112 5 T_0F 0xBA 0)⟩,
  ⟨66, n!"bzhi", [.reg32e, .op, .reg32e], 0, .leaf (.rro (.a 0) (.a 2) (.a 1) (fl [T_APX, T_0F38, T_NF]) 0xF5 .none)⟩,
  ⟨67, n!"cbw", [], 0, .leaf (.bytes [0x66, 0x98])⟩,
  ⟨68, n!"ccmpa", [.op, .int, .int], 0, .leaf (.ccmpi (.a 0) 0 1 7)⟩,
  ⟨69, n!"ccmpa", [.op, .op, .int], 0, .leaf (.ccmp (.a 0) (.a 1) 0 0x38 7)⟩,
  ⟨70, n!"ccmpae", [.op, .int, .int], 0, .leaf (.ccmpi (.a 0) 0 1 3)⟩,
  ⟨71, n!"ccmpae", [.op, .op, .int], 0, .leaf (.ccmp (.a 0) (.a 1) 0 0x38 3)⟩,
  ⟨72, n!"ccmpb", [.op, .int, .int], 0, .leaf (.ccmpi (.a 0) 0 1 2)⟩,
  ⟨73, n!"ccmpb", [.op, .op, .int], 0, .leaf (.ccmp (.a 0) (.a 1) 0 0x38 2)⟩,
  ⟨74, n!"ccmpbe", [.op, .int, .int], 0, .leaf (.ccmpi (.a 0) 0 1 6)⟩,
  ⟨75, n!"ccmpbe", [.op, .op, .int], 0, .leaf (.ccmp (.a 0) (.a 1) 0 0x38 6)⟩,
  ⟨76, n!"ccmpc", [.op, .int, .int], 0, .leaf (.ccmpi (.a 0) 0 1 2)⟩,
  ⟨77, n!"ccmpc", [.op, .op, .int], 0, .leaf (.ccmp (.a 0) (.a 1) 0 0x38 2)⟩,
  ⟨78, n!"ccmpe", [.op, .int, .int], 0, .leaf (.ccmpi (.a 0) 0 1 4)⟩,
  ⟨79, n!"ccmpe", [.op, .op, .int], 0, .leaf (.ccmp (.a 0) (.a 1) 0 0x38 4)⟩,
  ⟨80, n!"ccmpf", [.op, .int, .int], 0, .leaf (.ccmpi (.a 0) 0 1 11)⟩,
  ⟨81, n!"ccmpf", [.op, .op, .int], 0, .leaf (.ccmp (.a 0) (.a 1) 0 0x38 11)⟩,
  ⟨82, n!"ccmpg", [.op, .int, .int], 0, .leaf (.ccmpi (.a 0) 0 1 15)⟩,
  ⟨83, n!"ccmpg", [.op, .op, .int], 0, .leaf (.ccmp (.a 0) (.a 1) 0 0x38 15)⟩,
  ⟨84, n!"ccmpge", [.op, .int, .int], 0, .leaf (.ccmpi (.a 0) 0 1 13)⟩,
  ⟨85, n!"ccmpge", [.op, .op, .int], 0, .leaf (.ccmp (.a 0) (.a 1) 0 0x38 13)⟩,
  ⟨86, n!"ccmpl", [.op, .int, .int], 0, .leaf (.ccmpi (.a 0) 0 1 12)⟩,
  ⟨87, n!"ccmpl", [.op, .op, .int], 0, .leaf (.ccmp (.a 0) (.a 1) 0 0x38 12)⟩,
  ⟨88, n!"ccmple", [.op, .int, .int], 0, .leaf (.ccmpi (.a 0) 0 1 14)⟩,
  ⟨89, n!"ccmple", [.op, .op, .int], 0, .leaf (.ccmp (.a 0) (.a 1) 0 0x38 14)⟩,
  ⟨90, n!"ccmpna", [.op, .int, .int], 0, .leaf (.ccmpi (.a 0) 0 1 6)⟩,
  ⟨91, n!"ccmpna", [.op, .op, .int], 0, .leaf (.ccmp (.a 0) (.a 1) 0 0x38 6)⟩,
  ⟨92, n!"ccmpnae", [.op, .int, .int], 0, .leaf (.ccmpi (.a 0) 0 1 2)⟩,
  ⟨93, n!"ccmpnae", [.op, .op, .int], 0, .leaf (.ccmp (.a 0) (.a 1) 0 0x38 2)⟩,
  ⟨94, n!"ccmpnb", [.op, .int, .int], 0, .leaf (.ccmpi (.a 0) 0 1 3)⟩,
  ⟨95, n!"ccmpnb", [.op, .op, .int], 0, .leaf (.ccmp (.a 0) (.a 1) 0 0x38 3)⟩,
  ⟨96, n!"ccmpnbe", [.op, .int, .int], 0, .leaf (.ccmpi (.a 0) 0 1 7)⟩,
  ⟨97, n!"ccmpnbe", [.op, .op, .int], 0, .leaf (.ccmp (.a 0) (.a 1) 0 0x38 7)⟩,
  ⟨98, n!"ccmpnc", [.op, .int, .int], 0, .leaf (.ccmpi (.a 0) 0 1 3)⟩,
  ⟨99, n!"ccmpnc", [.op, .op, .int], 0, .leaf (.ccmp (.a 0) (.a 1) 0 0x38 3)⟩,
  ⟨100, n!"ccmpne", [.op, .int, .int], 0, .leaf (.ccmpi (.a 0) 0 1 5)⟩,
  ⟨101, n!"ccmpne", [.op, .op, .int], 0, .leaf (.ccmp (.a 0) (.a 1) 0 0x38 5)⟩,
  ⟨102, n!"ccmpng", [.op, .int, .int], 0, .leaf (.ccmpi (.a 0) 0 1 14)⟩,
  ⟨103, n!"ccmpng", [.op, .op, .int], 0, .leaf (.ccmp (.a 0) (.a 1) 0 0x38 14)⟩,
  ⟨104, n!"ccmpnge", [.op, .int, .int], 0, .leaf (.ccmpi (.a 0) 0 1 12)⟩,
  ⟨105, n!"ccmpnge", [.op, .op, .int], 0, .leaf (.ccmp (.a 0) (.a 1) 0 0x38 12)⟩,
  ⟨106, n!"ccmpnl", [.op, .int, .int], 0, .leaf (.ccmpi (.a 0) 0 1 13)⟩,
  ⟨107, n!"ccmpnl", [.op, .op, .int], 0, .leaf (.ccmp (.a 0) (.a 1) 0 0x38 13)⟩,
  ⟨108, n!"ccmpnle", [.op, .int, .int], 0, .leaf (.ccmpi (.a 0) 0 1 15)⟩,
  ⟨109, n!"ccmpnle", [.op, .op, .int], 0, .leaf (.ccmp (.a 0) (.a 1) 0 0x38 15)⟩,
  ⟨110, n!"ccmpno", [.op, .int, .int], 0, .leaf (.ccmpi (.a 0) 0 1 1)⟩,
  ⟨111, n!"ccmpno", [.op, .op, .int], 0, .leaf (.ccmp (.a 0) (.a 1) 0 0x38 1)⟩,
  ⟨112, n!"ccmpns", [.op, .int, .int], 0, .leaf (.ccmpi (.a 0) 0 1 9)⟩,
  ⟨113, n!"ccmpns", [.op, .op, .int], 0, .leaf (.ccmp (.a 0) (.a 1) 0 0x38 9)⟩,
  ⟨114, n!"ccmpnz", [.op, .int, .int], 0, .leaf (.ccmpi (.a 0) 0 1 5)⟩,
  ⟨115, n!"ccmpnz", [.op, .op, .int], 0, .leaf (.ccmp (.a 0) (.a 1) 0 0x38 5)⟩,
  ⟨116, n!"ccmpo", [.op, .int, .int], 0, .leaf (.ccmpi (.a 0) 0 1 0)⟩,
  ⟨117, n!"ccmpo", [.op, .op, .int], 0, .leaf (.ccmp (.a 0) (.a 1) 0 0x38 0)⟩,
  ⟨118, n!"ccmps", [.op, .int, .int], 0, .leaf (.ccmpi (.a 0) 0 1 8)⟩,
  ⟨119, n!"ccmps", [.op, .op, .int], 0, .leaf (.ccmp (.a 0) (.a 1) 0 0x38 8)⟩,
  ⟨120, n!"ccmpt", [.op, .int, .int], 0, .leaf (.ccmpi (.a 0) 0 1 10)⟩,
  ⟨121, n!"ccmpt", [.op, .op, .int], 0, .leaf (.ccmp (.a 0) (.a 1) 0 0x38 10)⟩,
  ⟨122, n!"ccmpz", [.op, .int, .int], 0, .leaf (.ccmpi (.a 0) 0 1 4)⟩,
  ⟨123, n!"ccmpz", [.op, .op, .int], 0, .leaf (.ccmp (.a 0) (.a 1) 0 0x38 4)⟩,
  ⟨124, n!"cdq", [], 0, .leaf (.bytes [0x99])⟩,
  ⟨125, n!"cfcmovb", [.op, .op], 0, .leaf (.cfcmov (.r .nil) (.a 0) (.a 1) 0x42)⟩,
  ⟨126, n!"cfcmovb", [.reg, .reg, .op], 0, .leaf (.cfcmov (.nfOf 0) (.a 2) (.a 1) 0x42)⟩,
  ⟨127, n!"cfcmovbe", [.op, .op], 0, .leaf (.cfcmov (.r .nil) (.a 0) (.a 1) 0x46)⟩,
  ⟨128, n!"cfcmovbe", [.reg, .reg, .op], 0, .leaf (.cfcmov (.nfOf 0) (.a 2) (.a 1) 0x46)⟩,
  ⟨129, n!"cfcmovl", [.op, .op], 0, .leaf (.cfcmov (.r .nil) (.a 0) (.a 1) 0x4C)⟩,
  ⟨130, n!"cfcmovl", [.reg, .reg, .op], 0, .leaf (.cfcmov (.nfOf 0) (.a 2) (.a 1) 0x4C)⟩,
  ⟨131, n!"cfcmovle", [.op, .op], 0, .leaf (.cfcmov (.r .nil) (.a 0) (.a 1) 0x4E)⟩,
  ⟨132, n!"cfcmovle", [.reg, .reg, .op], 0, .leaf (.cfcmov (.nfOf 0) (.a 2) (.a 1) 0x4E)⟩,
  ⟨133, n!"cfcmovnb", [.op, .op], 0, .leaf (.cfcmov (.r .nil) (.a 0) (.a 1) 0x43)⟩,
  ⟨134, n!"cfcmovnb", [.reg, .reg, .op], 0, .leaf (.cfcmov (.nfOf 0) (.a 2) (.a 1) 0x43)⟩,
  ⟨135, n!"cfcmovnbe", [.op, .op], 0, .leaf (.cfcmov (.r .nil) (.a 0) (.a 1) 0x47)⟩,
  ⟨136, n!"cfcmovnbe", [.reg, .reg, .op], 0, .leaf (.cfcmov (.nfOf 0) (.a 2) (.a 1) 0x47)⟩,
  ⟨137, n!"cfcmovnl", [.op, .op], 0, .leaf (.cfcmov (.r .nil) (.a 0) (.a 1) 0x4D)⟩,
  ⟨138, n!"cfcmovnl", [.reg, .reg, .op], 0, .leaf (.cfcmov (.nfOf 0) (.a 2) (.a 1) 0x4D)⟩,
  ⟨139, n!"cfcmovnle", [.op, .op], 0, .leaf (.cfcmov (.r .nil) (.a 0) (.a 1) 0x4F)⟩,
  ⟨140, n!"cfcmovnle", [.reg, .reg, .op], 0, .leaf (.cfcmov (.nfOf 0) (.a 2) (.a 1) 0x4F)⟩,
  ⟨141, n!"cfcmovno", [.op, .op], 0, .leaf (.cfcmov (.r .nil) (.a 0) (.a 1) 0x41)⟩,
  ⟨142, n!"cfcmovno", [.reg, .reg, .op], 0, .leaf (.cfcmov (.nfOf 0) (.a 2) (.a 1) 0x41)⟩,
  ⟨143, n!"cfcmovnp", [.op, .op], 0, .leaf (.cfcmov (.r .nil) (.a 0) (.a 1) 0x4B)⟩,
  ⟨144, n!"cfcmovnp", [.reg, .reg, .op], 0, .leaf (.cfcmov (.nfOf 0) (.a 2) (.a 1) 0x4B)⟩,
  ⟨145, n!"cfcmovns", [.op, .op], 0, .leaf (.cfcmov (.r .nil) (.a 0) (.a 1) 0x49)⟩,
  ⟨146, n!"cfcmovns", [.reg, .reg, .op], 0, .leaf (.cfcmov (.nfOf 0) (.a 2) (.a 1) 0x49)⟩,
  ⟨147, n!"cfcmovnz", [.op, .op], 0, .leaf (.cfcmov (.r .nil) (.a 0) (.a 1) 0x45)⟩,
  ⟨148, n!"cfcmovnz", [.reg, .reg, .op], 0, .leaf (.cfcmov (.nfOf 0) (.a 2) (.a 1) 0x45)⟩,
  ⟨149, n!"cfcmovo", [.op, .op], 0, .leaf (.cfcmov (.r .nil) (.a 0) (.a 1) 0x40)⟩,
  ⟨150, n!"cfcmovo", [.reg, .reg, .op], 0, .leaf (.cfcmov (.nfOf 0) (.a 2) (.a 1) 0x40)⟩,
  ⟨151, n!"cfcmovp", [.op, .op], 0, .leaf (.cfcmov (.r .nil) (.a 0) (.a 1) 0x4A)⟩,
  ⟨152, n!"cfcmovp", [.reg, .reg, .op], 0, .leaf (.cfcmov (.nfOf 0) (.a 2) (.a 1) 0x4A)⟩,
  ⟨153, n!"cfcmovs", [.op, .op], 0, .leaf (.cfcmov (.r .nil) (.a 0) (.a 1) 0x48)⟩,
  ⟨154, n!"cfcmovs", [.reg, .reg, .op], 0, .leaf (.cfcmov (.nfOf 0) (.a 2) (.a 1) 0x48)⟩,
  ⟨155, n!"cfcmovz", [.op, .op], 0, .leaf (.cfcmov (.r .nil) (.a 0) (.a 1) 0x44)⟩,
  ⟨156, n!"cfcmovz", [.reg, .reg, .op], 0, .leaf (.cfcmov (.nfOf 0) (.a 2) (.a 1) 0x44)⟩,
  ⟨157, n!"clc", [], 0, .leaf (.bytes [0xF8])⟩,
  ⟨158, n!"cld", [], 0, .leaf (.bytes [0xFC])⟩,
  ⟨159, n!"cldemote", [.addr], 0, .leaf (.mr (.a 0) (.r (.gp 0 32)) T_0F 0x1C 0 none)⟩,
  ⟨160, n!"clflush", [.addr], 0, .leaf (.mr (.a 0) (.r (.gp 7 32)) T_0F 0xAE 0 none)⟩,
  ⟨161, n!"clflushopt", [.addr], 0, .leaf (.mr (.a 0) (.r (.gp 7 32)) (fl [T_66, T_0F]) 0xAE 0 none)⟩,
  ⟨162, n!"cli", [], 0, .leaf (.bytes [0xFA])⟩,
  ⟨163, n!"clwb", [.addr], 0, .leaf (.mr (.a 0) (.r (.gp 6 32)) (fl [T_66, T_0F]) 0xAE 0 none)⟩,
  ⟨164, n!"clzero", [], 0, .leaf (.bytes [0x0F, 0x01, 0xFC])⟩,
  ⟨165, n!"cmc", [], 0, .leaf (.bytes [0xF5])⟩,
  ⟨166, n!"cmova", [.reg, .reg, .op], 0, .leaf (.roo (.a 0) (.a 2) (.a 1) (fl [T_APX, T_ND1]) 0x47)⟩,
  ⟨167, n!"cmova", [.reg, .op], 0, .leaf (.ro (.a 0) (.a 1) T_0F 0x47 (.isREG 1 112))⟩,
  ⟨168, n!"cmovae", [.reg, .reg, .op], 0, .leaf (.roo (.a 0) (.a 2) (.a 1) (fl [T_APX, T_ND1]) 0x43)⟩,
  ⟨169, n!"cmovae", [.reg, .op], 0, .leaf (.ro (.a 0) (.a 1) T_0F 0x43 (.isREG 1 112))⟩,
  ⟨170, n!"cmovb", [.reg, .reg, .op], 0, .leaf (.roo (.a 0) (.a 2) (.a 1) (fl [T_APX, T_ND1]) 0x42)⟩,
  ⟨171, n!"cmovb", [.reg, .op], 0, .leaf (.ro (.a 0) (.a 1) T_0F 0x42 (.isREG 1 112))⟩,
  ⟨172, n!"cmovbe", [.reg, .reg, .op], 0, .leaf (.roo (.a 0) (.a 2) (.a 1) (fl [T_APX, T_ND1]) 0x46)⟩,
  ⟨173, n!"cmovbe", [.reg, .op], 0, .leaf (.ro (.a 0) (.a 1) T_0F 0x46 (.isREG 1 112))⟩,
  ⟨174, n!"cmovc", [.reg, .reg, .op], 0, .leaf (.roo (.a 0) (.a 2) (.a 1) (fl [T_APX, T_ND1]) 0x42)⟩,
  ⟨175, n!"cmovc", [.reg, .op], 0, .leaf (.ro (.a 0) (.a 1) T_0F 0x42 (.isREG 1 112))⟩,
  ⟨176, n!"cmove", [.reg, .reg, .op], 0, .leaf (.roo (.a 0) (.a 2) (.a 1) (fl [T_APX, T_ND1]) 0x44)⟩,
  ⟨177, n!"cmove", [.reg, .op], 0, .leaf (.ro (.a 0) (.a 1) T_0F 0x44 (.isREG 1 112))⟩,
  ⟨178, n!"cmovg", [.reg, .reg, .op], 0, .leaf (.roo (.a 0) (.a 2) (.a 1) (fl [T_APX, T_ND1]) 0x4F)⟩,
  ⟨179, n!"cmovg", [.reg, .op], 0, .leaf (.ro (.a 0) (.a 1) T_0F 0x4F (.isREG 1 112))⟩,
  ⟨180, n!"cmovge", [.reg, .reg, .op], 0, .leaf (.roo (.a 0) (.a 2) (.a 1) (fl [T_APX, T_ND1]) 0x4D)⟩,
  ⟨181, n!"cmovge", [.reg, .op], 0, .leaf (.ro (.a 0) (.a 1) T_0F 0x4D (.isREG 1 112))⟩,
  ⟨182, n!"cmovl", [.reg, .reg, .op], 0, .leaf (.roo (.a 0) (.a 2) (.a 1) (fl [T_APX, T_ND1]) 0x4C)⟩,
  ⟨183, n!"cmovl", [.reg, .op], 0, .leaf (.ro (.a 0) (.a 1) T_0F 0x4C (.isREG 1 112))⟩,
  ⟨184, n!"cmovle", [.reg, .reg, .op], 0, .leaf (.roo (.a 0) (.a 2) (.a 1) (fl [T_APX, T_ND1]) 0x4E)⟩,
  ⟨185, n!"cmovle", [.reg, .op], 0, .leaf (.ro (.a 0) (.a 1) T_0F 0x4E (.isREG 1 112))⟩,
  ⟨186, n!"cmovna", [.reg, .reg, .op], 0, .leaf (.roo (.a 0) (.a 2) (.a 1) (fl [T_APX, T_ND1]) 0x46)⟩,
  ⟨187, n!"cmovna", [.reg, .op], 0, .leaf (.ro (.a 0) (.a 1) T_0F 0x46 (.isREG 1 112))⟩,
  ⟨188, n!"cmovnae", [.reg, .reg, .op], 0, .leaf (.roo (.a 0) (.a 2) (.a 1) (fl [T_APX, T_ND1]) 0x42)⟩,
  ⟨189, n!"cmovnae", [.reg, .op], 0, .leaf (.ro (.a 0) (.a 1) T_0F 0x42 (.isREG 1 112))⟩,
  ⟨190, n!"cmovnb", [.reg, .reg, .op], 0, .leaf (.roo (.a 0) (.a 2) (.a 1) (fl [T_APX, T_ND1]) 0x43)⟩,
  ⟨191, n!"cmovnb", [.reg, .op], 0, .leaf (.ro (.a 0) (.a 1) T_0F 0x43 (.isREG 1 112))⟩,
  ⟨192, n!"cmovnbe", [.reg, .reg, .op], 0, .leaf (.roo (.a 0) (.a 2) (.a 1) (fl [T_APX, T_ND1]) 0x47)⟩,
  ⟨193, n!"cmovnbe", [.reg, .op], 0, .leaf (.ro (.a 0) (.a 1) T_0F 0x47 (.isREG 1 112))⟩,
  ⟨194, n!"cmovnc", [.reg, .reg, .op], 0, .leaf (.roo (.a 0) (.a 2) (.a 1) (fl [T_APX, T_ND1]) 0x43)⟩,
  ⟨195, n!"cmovnc", [.reg, .op], 0, .leaf (.ro (.a 0) (.a 1) T_0F 0x43 (.isREG 1 112))⟩,
  ⟨196, n!"cmovne", [.reg, .reg, .op], 0, .leaf (.roo (.a 0) (.a 2) (.a 1) (fl [T_APX, T_ND1]) 0x45)⟩,
  ⟨197, n!"cmovne", [.reg, .op], 0, .leaf (.ro (.a 0) (.a 1) T_0F 0x45 (.isREG 1 112))⟩,
  ⟨198, n!"cmovng", [.reg, .reg, .op], 0, .leaf (.roo (.a 0) (.a 2) (.a 1) (fl [T_APX, T_ND1]) 0x4E)⟩,
  ⟨199, n!"cmovng", [.reg, .op], 0, .leaf (.ro (.a 0) (.a 1) T_0F 0x4E (.isREG 1 112))⟩,
  ⟨200, n!"cmovnge", [.reg, .reg, .op], 0, .leaf (.roo (.a 0) (.a 2) (.a 1) (fl [T_APX, T_ND1]) 0x4C)⟩,
  ⟨201, n!"cmovnge", [.reg, .op], 0, .leaf (.ro (.a 0) (.a 1) T_0F 0x4C (.isREG 1 112))⟩,
  ⟨202, n!"cmovnl", [.reg, .reg, .op], 0, .leaf (.roo (.a 0) (.a 2) (.a 1) (fl [T_APX, T_ND1]) 0x4D)⟩,
  ⟨203, n!"cmovnl", [.reg, .op], 0, .leaf (.ro (.a 0) (.a 1) T_0F 0x4D (.isREG 1 112))⟩,
  ⟨204, n!"cmovnle", [.reg, .reg, .op], 0, .leaf (.roo (.a 0) (.a 2) (.a 1) (fl [T_APX, T_ND1]) 0x4F)⟩,
  ⟨205, n!"cmovnle", [.reg, .op], 0, .leaf (.ro (.a 0) (.a 1) T_0F 0x4F (.isREG 1 112))⟩,
  ⟨206, n!"cmovno", [.reg, .reg, .op], 0, .leaf (.roo (.a 0) (.a 2) (.a 1) (fl [T_APX, T_ND1]) 0x41)⟩,
  ⟨207, n!"cmovno", [.reg, .op], 0, .leaf (.ro (.a 0) (.a 1) T_0F 0x41 (.isREG 1 112))⟩,
  ⟨208, n!"cmovnp", [.reg, .reg, .op], 0, .leaf (.roo (.a 0) (.a 2) (.a 1) (fl [T_APX, T_ND1]) 0x4B)⟩,
  ⟨209, n!"cmovnp", [.reg, .op], 0, .leaf (.ro (.a 0) (.a 1) T_0F 0x4B (.isREG 1 112))⟩,
  ⟨210, n!"cmovns", [.reg, .reg, .op], 0, .leaf (.roo (.a 0) (.a 2) (.a 1) (fl [T_APX, T_ND1]) 0x49)⟩,
  ⟨211, n!"cmovns", [.reg, .op], 0, .leaf (.ro (.a 0) (.a 1) T_0F 0x49 (.isREG 1 112))⟩,
  ⟨212, n!"cmovnz", [.reg, .reg, .op], 0, .leaf (.roo (.a 0) (.a 2) (.a 1) (fl [T_APX, T_ND1]) 0x45)⟩,
  ⟨213, n!"cmovnz", [.reg, .op], 0, .leaf (.ro (.a 0) (.a 1) T_0F 0x45 (.isREG 1 112))⟩,
  ⟨214, n!"cmovo", [.reg, .reg, .op], 0, .leaf (.roo (.a 0) (.a 2) (.a 1) (fl [T_APX, T_ND1]) 0x40)⟩,
  ⟨215, n!"cmovo", [.reg, .op], 0, .leaf (.ro (.a 0) (.a 1) T_0F 0x40 (.isREG 1 112))⟩,
  ⟨216, n!"cmovp", [.reg, .reg, .op], 0, .leaf (.roo (.a 0) (.a 2) (.a 1) (fl [T_APX, T_ND1]) 0x4A)⟩,
  ⟨217, n!"cmovp", [.reg, .op], 0, .leaf (.ro (.a 0) (.a 1) T_0F 0x4A (.isREG 1 112))⟩,
  ⟨218, n!"cmovpe", [.reg, .reg, .op], 0, .leaf (.roo (.a 0) (.a 2) (.a 1) (fl [T_APX, T_ND1]) 0x4A)⟩,
  ⟨219, n!"cmovpe", [.reg, .op], 0, .leaf (.ro (.a 0) (.a 1) T_0F 0x4A (.isREG 1 112))⟩,
  ⟨220, n!"cmovpo", [.reg, .reg, .op], 0, .leaf (.roo (.a 0) (.a 2) (.a 1) (fl [T_APX, T_ND1]) 0x4B)⟩,
  ⟨221, n!"cmovpo", [.reg, .op], 0, .leaf (.ro (.a 0) (.a 1) T_0F 0x4B (.isREG 1 112))⟩,
  ⟨222, n!"cmovs", [.reg, .reg, .op], 0, .leaf (.roo (.a 0) (.a 2) (.a 1) (fl [T_APX, T_ND1]) 0x48)⟩,
  ⟨223, n!"cmovs", [.reg, .op], 0, .leaf (.ro (.a 0) (.a 1) T_0F 0x48 (.isREG 1 112))⟩,
  ⟨224, n!"cmovz", [.reg, .reg, .op], 0, .leaf (.roo (.a 0) (.a 2) (.a 1) (fl [T_APX, T_ND1]) 0x44)⟩,
  ⟨225, n!"cmovz", [.reg, .op], 0, .leaf (.ro (.a 0) (.a 1) T_0F 0x44 (.isREG 1 112))⟩,
  ⟨226, n!"cmp", [.op, .int], 0, .leaf (.oi (.a 0) 0 0x38 7)⟩,
  ⟨227, n!"cmp", [.op, .op], 0, .leaf (.roMr (.a 0) (.a 1) 0x38)⟩,
  ⟨228, n!"cmpeqpd", [.xmm, .op], 0, .leaf (.sse (.a 0) (.a 1) (fl [T_0F, T_66]) 0xC2 .xmm_xmm (.c 0x00))⟩,
  ⟨229, n!"cmpeqps", [.xmm, .op], 0, .leaf (.sse (.a 0) (.a 1) T_0F 0xC2 .xmm_xmm (.c 0x00))⟩,
  ⟨230, n!"cmpeqsd", [.xmm, .op], 0, .leaf (.sse (.a 0) (.a 1) (fl [T_0F, T_F2]) 0xC2 .xmm_xmm (.c 0x00))⟩,
  ⟨231, n!"cmpeqss", [.xmm, .op], 0, .leaf (.sse (.a 0) (.a 1) (fl [T_0F, T_F3]) 0xC2 .xmm_xmm (.c 0x00))⟩,
  ⟨232, n!"cmplepd", [.xmm, .op], 0, .leaf (.sse (.a 0) (.a 1) (fl [T_0F, T_66]) 0xC2 .xmm_xmm (.c 0x02))⟩,
  ⟨233, n!"cmpleps", [.xmm, .op], 0, .leaf (.sse (.a 0) (.a 1) T_0F 0xC2 .xmm_xmm (.c 0x02))⟩,
  ⟨234, n!"cmplesd", [.xmm, .op], 0, .leaf (.sse (.a 0) (.a 1) (fl [T_0F, T_F2]) 0xC2 .xmm_xmm (.c 0x02))⟩,
  ⟨235, n!"cmpless", [.xmm, .op], 0, .leaf (.sse (.a 0) (.a 1) (fl [T_0F, T_F3]) 0xC2 .xmm_xmm (.c 0x02))⟩,
  ⟨236, n!"cmpltpd", [.xmm, .op], 0, .leaf (.sse (.a 0) (.a 1) (fl [T_0F, T_66]) 0xC2 .xmm_xmm (.c 0x01))⟩,
  ⟨237, n!"cmpltps", [.xmm, .op], 0, .leaf (.sse (.a 0) (.a 1) T_0F 0xC2 .xmm_xmm (.c 0x01))⟩,
  ⟨238, n!"cmpltsd", [.xmm, .op], 0, .leaf (.sse (.a 0) (.a 1) (fl [T_0F, T_F2]) 0xC2 .xmm_xmm (.c 0x01))⟩,
  ⟨239, n!"cmpltss", [.xmm, .op], 0, .leaf (.sse (.a 0) (.a 1) (fl [T_0F, T_F3]) 0xC2 .xmm_xmm (.c 0x01))⟩,
  ⟨240, n!"cmpneqpd", [.xmm, .op], 0, .leaf (.sse (.a 0) (.a 1) (fl [T_0F, T_66]) 0xC2 .xmm_xmm (.c 0x04))⟩,
  ⟨241, n!"cmpneqps", [.xmm, .op], 0, .leaf (.sse (.a 0) (.a 1) T_0F 0xC2 .xmm_xmm (.c 0x04))⟩,
  ⟨242, n!"cmpneqsd", [.xmm, .op], 0, .leaf (.sse (.a 0) (.a 1) (fl [T_0F, T_F2]) 0xC2 .xmm_xmm (.c 0x04))⟩,
  ⟨243, n!"cmpneqss", [.xmm, .op], 0, .leaf (.sse (.a 0) (.a 1) (fl [T_0F, T_F3]) 0xC2 .xmm_xmm (.c 0x04))⟩,
  ⟨244, n!"cmpnlepd", [.xmm, .op], 0, .leaf (.sse (.a 0) (.a 1) (fl [T_0F, T_66]) 0xC2 .xmm_xmm (.c 0x06))⟩,
  ⟨245, n!"cmpnleps", [.xmm, .op], 0, .leaf (.sse (.a 0) (.a 1) T_0F 0xC2 .xmm_xmm (.c 0x06))⟩,
  ⟨246, n!"cmpnlesd", [.xmm, .op], 0, .leaf (.sse (.a 0) (.a 1) (fl [T_0F, T_F2]) 0xC2 .xmm_xmm (.c 0x06))⟩,
  ⟨247, n!"cmpnless", [.xmm, .op], 0, .leaf (.sse (.a 0) (.a 1) (fl [T_0F, T_F3]) 0xC2 .xmm_xmm (.c 0x06))⟩,
  ⟨248, n!"cmpnltpd", [.xmm, .op], 0, .leaf (.sse (.a 0) (.a 1) (fl [T_0F, T_66]) 0xC2 .xmm_xmm (.c 0x05))⟩,
  ⟨249, n!"cmpnltps", [.xmm, .op], 0, .leaf (.sse (.a 0) (.a 1) T_0F 0xC2 .xmm_xmm (.c 0x05))⟩,
  ⟨250, n!"cmpnltsd", [.xmm, .op], 0, .leaf (.sse (.a 0) (.a 1) (fl [T_0F, T_F2]) 0xC2 .xmm_xmm (.c 0x05))⟩,
  ⟨251, n!"cmpnltss", [.xmm, .op], 0, .leaf (.sse (.a 0) (.a 1) (fl [T_0F, T_F3]) 0xC2 .xmm_xmm (.c 0x05))⟩,
  ⟨252, n!"cmpordpd", [.xmm, .op], 0, .leaf (.sse (.a 0) (.a 1) (fl [T_0F, T_66]) 0xC2 .xmm_xmm (.c 0x07))⟩,
  ⟨253, n!"cmpordps", [.xmm, .op], 0, .leaf (.sse (.a 0) (.a 1) T_0F 0xC2 .xmm_xmm (.c 0x07))⟩,
  ⟨254, n!"cmpordsd", [.xmm, .op], 0, .leaf (.sse (.a 0) (.a 1) (fl [T_0F, T_F2]) 0xC2 .xmm_xmm (.c 0x07))⟩,
  ⟨255, n!"cmpordss", [.xmm, .op], 0, .leaf (.sse (.a 0) (.a 1) (fl [T_0F, T_F3]) 0xC2 .xmm_xmm (.c 0x07))⟩,
  ⟨256, n!"cmppd", [.xmm, .op, .int], 0, .leaf (.sse (.a 0) (.a 1) (fl [T_0F, T_66]) 0xC2 .xmm_xmm (.i 0))⟩,
  ⟨257, n!"cmpps", [.xmm, .op, .int], 0, .leaf (.sse (.a 0) (.a 1) T_0F 0xC2 .xmm_xmm (.i 0))⟩,
  ⟨258, n!"cmpsb", [], 0, .leaf (.bytes [0xA6])⟩,
  ⟨259, n!"cmpsd", [], 0, .leaf (.bytes [0xA7])⟩,
  ⟨260, n!"cmpsd", [.xmm, .op, .int], 0, .leaf (.sse (.a 0) (.a 1) (fl [T_0F, T_F2]) 0xC2 .xmm_xmm (.i 0))⟩,
  ⟨261, n!"cmpss", [.xmm, .op, .int], 0, .leaf (.sse (.a 0) (.a 1) (fl [T_0F, T_F3]) 0xC2 .xmm_xmm (.i 0))⟩,
  ⟨262, n!"cmpsw", [], 0, .leaf (.bytes [0x66, 0xA7])⟩,
  ⟨263, n!"cmpunordpd", [.xmm, .op], 0, .leaf (.sse (.a 0) (.a 1) (fl [T_0F, T_66]) 0xC2 .xmm_xmm (.c 0x03))⟩,
  ⟨264, n!"cmpunordps", [.xmm, .op], 0, .leaf (.sse (.a 0) (.a 1) T_0F 0xC2 .xmm_xmm (.c 0x03))⟩,
  ⟨265, n!"cmpunordsd", [.xmm, .op], 0, .leaf (.sse (.a 0) (.a 1) (fl [T_0F, T_F2]) 0xC2 .xmm_xmm (.c 0x03))⟩,
  ⟨266, n!"cmpunordss", [.xmm, .op], 0, .leaf (.sse (.a 0) (.a 1) (fl [T_0F, T_F3]) 0xC2 .xmm_xmm (.c 0x03))⟩,
  ⟨267, n!"cmpxchg", [.op, .reg], 0, .ite (fun g => (g.reg 1).isBit 8) (.leaf (.ro (.a 1) (.a 0) T_0F 0xB0 (.bits 0 1))) (.leaf (.ro (.a 1) (.a 0) T_0F 0xB1 (.bits 0 1)))⟩,
  ⟨268, n!"cmpxchg8b", [.addr], 0, .leaf (.mr (.a 0) (.r (.gp 1 32)) T_0F 0xC7 0 none)⟩,
  ⟨269, n!"comisd", [.xmm, .op], 0, .leaf (.sse (.a 0) (.a 1) (fl [T_66, T_0F]) 0x2F .xmm_xmm .none)⟩,
  ⟨270, n!"comiss", [.xmm, .op], 0, .leaf (.sse (.a 0) (.a 1) T_0F 0x2F .xmm_xmm .none)⟩,
  ⟨271, n!"cpuid", [], 0, .leaf (.bytes [0x0F, 0xA2])⟩,
  ⟨272, n!"crc32", [.reg32e, .op], 0, .guard (fun g => !(((g.reg 0).isBit 32 && (g.reg 1).isBit 56) || ((g.reg 0).isBit 64 && (g.reg 1).isBit 72))) .BAD_SIZE_OF_REGISTER
    (.ite (fun g => (g.reg 1).isBit 8)
      (.apx (.r .nil) (.a 1) (.a 0) (fl [T_APX, T_ALLOW_DIFF_SIZE]) 0xF0 (.leaf (.ro (.a 0) (.a 1) (fl [T_F2, T_0F38, T_ALLOW_DIFF_SIZE]) 0xF0 .any)))
      (.ite (fun g => (g.reg 1).isBit 16)
        (.apx (.r .nil) (.a 1) (.a 0) (fl [T_APX, T_66, T_ALLOW_DIFF_SIZE]) 0xF1
          (.leaf (.ro (.a 0) (.a 1) (fl [T_F2, T_0F38, T_66, T_ALLOW_DIFF_SIZE]) 0xF1 .any)))
        (.apx (.r .nil) (.a 1) (.a 0) (fl [T_APX, T_ALLOW_DIFF_SIZE]) 0xF1
          (.leaf (.ro (.a 0) (.a 1) (fl [T_F2, T_0F38, T_ALLOW_DIFF_SIZE]) 0xF1 .any)))))⟩,
  ⟨273, n!"ctesta", [.op, .reg, .int], 0, .leaf (.ccmp (.a 0) (.a 1) 0 0x84 7)⟩,
  ⟨274, n!"ctesta", [.op, .int, .int], 0, .leaf (.testi (.a 0) 0 1 7)⟩,
  ⟨275, n!"ctestae", [.op, .reg, .int], 0, .leaf (.ccmp (.a 0) (.a 1) 0 0x84 3)⟩,
  ⟨276, n!"ctestae", [.op, .int, .int], 0, .leaf (.testi (.a 0) 0 1 3)⟩,
  ⟨277, n!"ctestb", [.op, .reg, .int], 0, .leaf (.ccmp (.a 0) (.a 1) 0 0x84 2)⟩,
  ⟨278, n!"ctestb", [.op, .int, .int], 0, .leaf (.testi (.a 0) 0 1 2)⟩,
  ⟨279, n!"ctestbe", [.op, .reg, .int], 0, .leaf (.ccmp (.a 0) (.a 1) 0 0x84 6)⟩,
  ⟨280, n!"ctestbe", [.op, .int, .int], 0, .leaf (.testi (.a 0) 0 1 6)⟩,
  ⟨281, n!"ctestc", [.op, .reg, .int], 0, .leaf (.ccmp (.a 0) (.a 1) 0 0x84 2)⟩,
  ⟨282, n!"ctestc", [.op, .int, .int], 0, .leaf (.testi (.a 0) 0 1 2)⟩,
  ⟨283, n!"cteste", [.op, .reg, .int], 0, .leaf (.ccmp (.a 0) (.a 1) 0 0x84 4)⟩,
  ⟨284, n!"cteste", [.op, .int, .int], 0, .leaf (.testi (.a 0) 0 1 4)⟩,
  ⟨285, n!"ctestf", [.op, .reg, .int], 0, .leaf (.ccmp (.a 0) (.a 1) 0 0x84 11)⟩,
  ⟨286, n!"ctestf", [.op, .int, .int], 0, .leaf (.testi (.a 0) 0 1 11)⟩,
  ⟨287, n!"ctestg", [.op, .reg, .int], 0, .leaf (.ccmp (.a 0) (.a 1) 0 0x84 15)⟩,
  ⟨288, n!"ctestg", [.op, .int, .int], 0, .leaf (.testi (.a 0) 0 1 15)⟩,
  ⟨289, n!"ctestge", [.op, .reg, .int], 0, .leaf (.ccmp (.a 0) (.a 1) 0 0x84 13)⟩,
  ⟨290, n!"ctestge", [.op, .int, .int], 0, .leaf (.testi (.a 0) 0 1 13)⟩,
  ⟨291, n!"ctestl", [.op, .reg, .int], 0, .leaf (.ccmp (.a 0) (.a 1) 0 0x84 12)⟩,
  ⟨292, n!"ctestl", [.op, .int, .int], 0, .leaf (.testi (.a 0) 0 1 12)⟩,
  ⟨293, n!"ctestle", [.op, .reg, .int], 0, .leaf (.ccmp (.a 0) (.a 1) 0 0x84 14)⟩,
  ⟨294, n!"ctestle", [.op, .int, .int], 0, .leaf (.testi (.a 0) 0 1 14)⟩,
  ⟨295, n!"ctestna", [.op, .reg, .int], 0, .leaf (.ccmp (.a 0) (.a 1) 0 0x84 6)⟩,
  ⟨296, n!"ctestna", [.op, .int, .int], 0, .leaf (.testi (.a 0) 0 1 6)⟩,
  ⟨297, n!"ctestnae", [.op, .reg, .int], 0, .leaf (.ccmp (.a 0) (.a 1) 0 0x84 2)⟩,
  ⟨298, n!"ctestnae", [.op, .int, .int], 0, .leaf (.testi (.a 0) 0 1 2)⟩,
  ⟨299, n!"ctestnb", [.op, .reg, .int], 0, .leaf (.ccmp (.a 0) (.a 1) 0 0x84 3)⟩,
  ⟨300, n!"ctestnb", [.op, .int, .int], 0, .leaf (.testi (.a 0) 0 1 3)⟩,
  ⟨301, n!"ctestnbe", [.op, .reg, .int], 0, .leaf (.ccmp (.a 0) (.a 1) 0 0x84 7)⟩,
  ⟨302, n!"ctestnbe", [.op, .int, .int], 0, .leaf (.testi (.a 0) 0 1 7)⟩,
  ⟨303, n!"ctestnc", [.op, .reg, .int], 0, .leaf (.ccmp (.a 0) (.a 1) 0 0x84 3)⟩,
  ⟨304, n!"ctestnc", [.op, .int, .int], 0, .leaf (.testi (.a 0) 0 1 3)⟩,
  ⟨305, n!"ctestne", [.op, .reg, .int], 0, .leaf (.ccmp (.a 0) (.a 1) 0 0x84 5)⟩,
  ⟨306, n!"ctestne", [.op, .int, .int], 0, .leaf (.testi (.a 0) 0 1 5)⟩,
  ⟨307, n!"ctestng", [.op, .reg, .int], 0, .leaf (.ccmp (.a 0) (.a 1) 0 0x84 14)⟩,
  ⟨308, n!"ctestng", [.op, .int, .int], 0, .leaf (.testi (.a 0) 0 1 14)⟩,
  ⟨309, n!"ctestnge", [.op, .reg, .int], 0, .leaf (.ccmp (.a 0) (.a 1) 0 0x84 12)⟩,
  ⟨310, n!"ctestnge", [.op, .int, .int], 0, .leaf (.testi (.a 0) 0 1 12)⟩,
  ⟨311, n!"ctestnl", [.op, .reg, .int], 0, .leaf (.ccmp (.a 0) (.a 1) 0 0x84 13)⟩,
  ⟨312, n!"ctestnl", [.op, .int, .int], 0, .leaf (.testi (.a 0) 0 1 13)⟩,
  ⟨313, n!"ctestnle", [.op, .reg, .int], 0, .leaf (.ccmp (.a 0) (.a 1) 0 0x84 15)⟩,
  ⟨314, n!"ctestnle", [.op, .int, .int], 0, .leaf (.testi (.a 0) 0 1 15)⟩,
  ⟨315, n!"ctestno", [.op, .reg, .int], 0, .leaf (.ccmp (.a 0) (.a 1) 0 0x84 1)⟩,
  ⟨316, n!"ctestno", [.op, .int, .int], 0, .leaf (.testi (.a 0) 0 1 1)⟩,
  ⟨317, n!"ctestns", [.op, .reg, .int], 0, .leaf (.ccmp (.a 0) (.a 1) 0 0x84 9)⟩,
  ⟨318, n!"ctestns", [.op, .int, .int], 0, .leaf (.testi (.a 0) 0 1 9)⟩,
  ⟨319, n!"ctestnz", [.op, .reg, .int], 0, .leaf (.ccmp (.a 0) (.a 1) 0 0x84 5)⟩,
  ⟨320, n!"ctestnz", [.op, .int, .int], 0, .leaf (.testi (.a 0) 0 1 5)⟩,
  ⟨321, n!"ctesto", [.op, .reg, .int], 0, .leaf (.ccmp (.a 0) (.a 1) 0 0x84 0)⟩,
  ⟨322, n!"ctesto", [.op, .int, .int], 0, .leaf (.testi (.a 0) 0 1 0)⟩,
  ⟨323, n!"ctests", [.op, .reg, .int], 0, .leaf (.ccmp (.a 0) (.a 1) 0 0x84 8)⟩,
  ⟨324, n!"ctests", [.op, .int, .int], 0, .leaf (.testi (.a 0) 0 1 8)⟩,
  ⟨325, n!"ctestt", [.op, .reg, .int], 0, .leaf (.ccmp (.a 0) (.a 1) 0 0x84 10)⟩,
  ⟨326, n!"ctestt", [.op, .int, .int], 0, .leaf (.testi (.a 0) 0 1 10)⟩,
  ⟨327, n!"ctestz", [.op, .reg, .int], 0, .leaf (.ccmp (.a 0) (.a 1) 0 0x84 4)⟩,
  ⟨328, n!"ctestz", [.op, .int, .int], 0, .leaf (.testi (.a 0) 0 1 4)⟩,
  ⟨329, n!"cvtdq2pd", [.xmm, .op], 0, .leaf (.sse (.a 0) (.a 1) (fl [T_F3, T_0F]) 0xE6 .xmm_xmm .none)⟩,
  ⟨330, n!"cvtdq2ps", [.xmm, .op], 0, .leaf (.sse (.a 0) (.a 1) T_0F 0x5B .xmm_xmm .none)⟩,
  ⟨331, n!"cvtpd2dq", [.xmm, .op], 0, .leaf (.sse (.a 0) (.a 1) (fl [T_F2, T_0F]) 0xE6 .xmm_xmm .none)⟩,
  ⟨332, n!"cvtpd2pi", [.reg, .op], 0, .leaf (.sse (.a 0) (.a 1) (fl [T_66, T_0F]) 0x2D .mmx_xmm .none)⟩,
  ⟨333, n!"cvtpd2ps", [.xmm, .op], 0, .leaf (.sse (.a 0) (.a 1) (fl [T_66, T_0F]) 0x5A .xmm_xmm .none)⟩,
  ⟨334, n!"cvtpi2pd", [.reg, .op], 0, .leaf (.sse (.a 0) (.a 1) (fl [T_66, T_0F]) 0x2A .xmm_mmx .none)⟩,
  ⟨335, n!"cvtpi2ps", [.reg, .op], 0, .leaf (.sse (.a 0) (.a 1) T_0F 0x2A .xmm_mmx .none)⟩,
  ⟨336, n!"cvtps2dq", [.xmm, .op], 0, .leaf (.sse (.a 0) (.a 1) (fl [T_66, T_0F]) 0x5B .xmm_xmm .none)⟩,
  ⟨337, n!"cvtps2pd", [.xmm, .op], 0, .leaf (.sse (.a 0) (.a 1) T_0F 0x5A .xmm_xmm .none)⟩,
  ⟨338, n!"cvtps2pi", [.reg, .op], 0, .leaf (.sse (.a 0) (.a 1) T_0F 0x2D .mmx_xmm .none)⟩,
  ⟨339, n!"cvtsd2si", [.reg, .op], 0, .leaf (.sse (.a 0) (.a 1) (fl [T_F2, T_0F]) 0x2D .r32_xmm .none)⟩,
  ⟨340, n!"cvtsd2ss", [.xmm, .op], 0, .leaf (.sse (.a 0) (.a 1) (fl [T_F2, T_0F]) 0x5A .xmm_xmm .none)⟩,
  ⟨341, n!"cvtsi2sd", [.reg, .op], 0, .leaf (.sse (.a 0) (.a 1) (fl [T_F2, T_0F]) 0x2A .xmm_r32 .none)⟩]

end Mn
end Xbyak
