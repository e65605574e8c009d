import Verif.EncOps
/-!
# The language of the mnemonic table

Every function of `xbyak/xbyak_mnemonic.h` is one line that passes its arguments and some literals to an `op*` helper of
`CodeGenerator` (model: `Verif.EncOps`).  Here such a line is a value: a `Leaf` is a call of a helper, a `Body` adds the checks, prefix
bytes and case distinctions written in the line itself.  The table itself is in `Verif.Mnemonic.T*`.
-/
namespace Xbyak
namespace Mn
open E
open Enc (throwIf db dbIf dbN lift)

/-- The name of a mnemonic as a number: its ASCII characters in base 256 (numbers are compared faster than strings). -/
def encodeName (s : String) : Nat := s.toList.foldl (fun n c => n * 256 + c.toNat) 0

/-- `n!"vaddps"` is the literal `encodeName "vaddps"`. -/
macro:max "n!" s:str : term => return Lean.Syntax.mkNumLit (toString (encodeName s.getString))

/-- Bitwise or of flags. -/
def fl (l : List Ty) : Ty := l.foldl (· ||| ·) 0

/-- The type of a parameter (xbyak.h 822-900: `Zmm` derives from `Ymm` from `Xmm` from `Mmx` from `Reg` from `Operand`, `Reg32` and `Reg64`
from `Reg32e`). -/
inductive Param | op | reg | reg8 | reg16 | reg32 | reg64 | reg32e | mmx | xmm | ymm | zmm | tmm | opmask | bnd | fpu | addr | int | label
  | absAddr | enc
  deriving DecidableEq, Repr

/-- Which operands C++ lets a caller pass for a parameter. -/
def Param.takes : Param → Operand → Bool
  | .addr, o => o.isMEM
  | .op, _ => true
  | .reg, o => !o.isMEM
  | .reg8, o => !o.isMEM && o.isREG 8
  | .reg16, o => !o.isMEM && o.isREG 16
  | .reg32, o => !o.isMEM && o.isREG 32
  | .reg64, o => !o.isMEM && o.isREG 64
  | .reg32e, o => !o.isMEM && o.isREG 96
  | .mmx, o => !o.isMEM && (o.hd.isMMX || o.hd.isSIMD)
  | .xmm, o => !o.isMEM && o.hd.isSIMD
  | .ymm, o => !o.isMEM && (o.hd.isYMM || o.hd.isZMM)
  | .zmm, o => !o.isMEM && o.hd.isZMM
  | .tmm, o => !o.isMEM && o.hd.isTMM
  | .opmask, o => !o.isMEM && o.hd.isOPMASK
  | .bnd, o => !o.isMEM && o.hd.isBNDREG
  | .fpu, o => !o.isMEM && decide (o.hd.kind = .fpu)
  | _, _ => false

/-- The parameter is an operand (and not an integer, label, address or encoding preference). -/
def Param.isOperand : Param → Bool
  | .int | .label | .absAddr | .enc => false
  | _ => true

/-- The arguments of a call: operands and integers in order of appearance, the encoding preference, and `defaultEncoding_` of the generator. -/
structure Args where
  ops : List Operand
  ints : List Word := []
  enc : PrefEnc := .default
  dflt : Nat → PrefEnc := fun sel => if sel = 0 then .evex else .preAVX10v2

instance : Inhabited Addr := ⟨{ o := Addr.memOp 0, e := .ofDisp 0 }⟩

namespace Args

/-- The operands fit the parameter list; trailing operands may be left out where the header gives a default argument (`opt`). -/
def Fits (a : Args) (ps : List Param) (opt : Nat) : Prop :=
  let os := ps.filter Param.isOperand
  a.ops.length ≤ os.length ∧ os.length ≤ a.ops.length + opt ∧ ∀ (i : Nat) (p : Param) (o : Operand), os[i]? = some p → a.ops[i]? = some o → p.takes o = true

/-- The `i`-th operand; a missing one is the default argument `Operand()`. -/
def op (a : Args) (i : Nat) : Operand := (a.ops[i]?).getD (.reg .nil)
def reg (a : Args) (i : Nat) : Reg := (a.op i).hd
/-- The `i`-th operand, which has type `Address`. -/
def mem (a : Args) (i : Nat) : Addr := match a.op i with | .mem m => m | .reg _ => default
def int (a : Args) (i : Nat) : Word := (a.ints[i]?).getD 0
def i32 (a : Args) (i : Nat) : BitVec 32 := (a.int i).setWidth 32
def i8 (a : Args) (i : Nat) : Byte := (a.int i).setWidth 8

end Args

/-- An operand passed to a helper. -/
inductive Slot
  /-- the `i`-th operand argument -/
  | a (i : Nat)
  /-- a constant register -/
  | r (q : Reg)
  /-- `Xmm(r.getIdx())` -/
  | xmmOf (i : Nat)
  /-- `Ymm(r.getIdx())` -/
  | ymmOf (i : Nat)
  /-- `Reg16(x.getIdx())` -/
  | gp16Of (i : Nat)
  /-- `Reg64(x.getIdx())` -/
  | gp64Of (i : Nat)
  /-- `Xmm(x.getKind(), n)` (xbyak.h 849) -/
  | kindOf (i : Nat) (n : BitVec 5)
  /-- `cvtIdx0(x)` -/
  | zeroOf (i : Nat)
  /-- `Reg(n, Operand::REG, r.getBit())`, `Reg32e(n, r.getBit())` -/
  | bitOf (i : Nat) (n : BitVec 5)
  /-- `d|T_nf` -/
  | nfOf (i : Nat)
  deriving DecidableEq, Repr

/-- xbyak.h 849 `Xmm(Kind kind, int idx)` -/
def vecOf (k : Kind) (n : BitVec 5) : Reg :=
  { idx := n, ext8 := false, kind := k, bit := if k = .xmm then 128 else if k = .ymm then 256 else 512 }

namespace Slot

def op (a : Args) : Slot → Operand
  | .a i => a.op i
  | .r q => .reg q
  | .xmmOf i => .reg (.xmm (a.reg i).idx)
  | .ymmOf i => .reg (.ymm (a.reg i).idx)
  | .gp16Of i => .reg (.gp (a.reg i).idx 16)
  | .gp64Of i => .reg (.gp (a.reg i).idx 64)
  | .kindOf i n => .reg (vecOf (a.reg i).kind n)
  | .zeroOf i => .reg (cvtIdx0 (a.reg i))
  | .bitOf i n => .reg (.gp n (a.reg i).bit)
  | .nfOf i => .reg (a.reg i).setNF

def reg (a : Args) (s : Slot) : Reg := (s.op a).hd

/-- The argument, unless it was left out. -/
def opt (a : Args) : Slot → Option Operand
  | .a i => a.ops[i]?
  | s => some (s.op a)

/-- The argument of type `Address`. -/
def mem (a : Args) : Slot → Addr
  | .a i => a.mem i
  | _ => default

end Slot

/-- An 8-bit immediate passed to a helper. -/
inductive Imm
  | none
  /-- the `i`-th integer argument -/
  | i (n : Nat)
  | c (b : Byte)
  /-- `x.getIdx() << 4` -/
  | is4 (n : Nat)
  deriving DecidableEq, Repr

def Imm.val (a : Args) : Imm → Option Byte
  | .none => Option.none
  | .i n => some (a.i8 n)
  | .c b => some b
  | .is4 n => some ((a.reg n).idx.setWidth 8 <<< 4)

/-- The operand predicates passed to `opSSE`. -/
inductive Valid | any | xmm_xmm | mmx_xmm | xmm_mmx | xmm_r32 | r32_xmm | r32_r32
  deriving DecidableEq, Repr

def Valid.fn : Valid → Option (Operand → Operand → Bool)
  | .any => none
  | .xmm_xmm => some isXMM_XMMorMEM
  | .mmx_xmm => some isMMX_XMMorMEM
  | .xmm_mmx => some isXMM_MMXorMEM
  | .xmm_r32 => some isXMM_REG32orMEM
  | .r32_xmm => some isREG32_XMMorMEM
  | .r32_r32 => some isREG32_REG32orMEM

/-- The checks of operands passed to `opRO`. -/
inductive Chk
  | any
  /-- `op.isREG(mask)` -/
  | isREG (i mask : Nat)
  /-- `op.isREG(mask) && op.getBit() == r.getBit()` -/
  | isREGbits (i mask j : Nat)
  /-- `op.getBit() == r.getBit()` -/
  | bits (i j : Nat)
  /-- `op.getKind() == r.getKind()` -/
  | kinds (i j : Nat)
  /-- `op.isBNDREG()` -/
  | isBND (i : Nat)
  deriving DecidableEq, Repr

def Chk.fn (g : Args) : Chk → Bool
  | .any => true
  | .isREG i m => (g.reg i).isREG m
  | .isREGbits i m j => (g.reg i).isREG m && decide ((g.reg i).bit = (g.reg j).bit)
  | .bits i j => decide ((g.reg i).bit = (g.reg j).bit)
  | .kinds i j => decide ((g.reg i).kind = (g.reg j).kind)
  | .isBND i => (g.reg i).isBNDREG

/-- The lines of the header that call no helper, or call one with computed arguments. -/
inductive Raw | enter | int_ | movdir64b | ret | retf | tpause | umonitor | umwait | xabort | xbegin | senduipi | jmpabs
  deriving DecidableEq, Repr

/-- The translation of those lines of xbyak_mnemonic.h (the line is given with each). -/
def Raw.run (g : Args) : Raw → Enc Unit
  /- 365 -/
  | enter => do Enc.db 0xC8; Enc.dbN (g.int 0) 2; Enc.db (g.i8 1)
  /- 527 -/
  | int_ => do Enc.db 0xCD; Enc.db (g.i8 0)
  /- 693 -/
  | movdir64b => do let q ← Enc.lift ((g.reg 0).cvtGp 32); opMR (g.mem 1) q (fl [T_66, T_0F38]) 0xF8 (fl [T_APX, T_66])
  /- 923 -/
  | ret => if g.i32 0 ≠ 0 then do Enc.db 0xC2; Enc.dbN (g.int 0) 2 else Enc.db 0xC3
  /- 924 -/
  | retf => if g.i32 0 ≠ 0 then do Enc.db 0xCA; Enc.dbN (g.int 0) 2 else Enc.db 0xCB
  /- 1038 -/
  | tpause => do Enc.throwIf (decide ((g.reg 0).idx.toNat > 7)) .BAD_PARAMETER; Enc.db 0x66; Enc.db 0x0F; Enc.db 0xAE; setModRM 3 6 (g.reg 0).idx
  /- 1043 -/
  | umonitor => do
    Enc.throwIf (decide ((g.reg 0).idx.toNat > 7)) .BAD_PARAMETER
    Enc.throwIf (decide ((g.reg 0).bit ≠ 64 ∧ (g.reg 0).bit ≠ 32)) .BAD_SIZE_OF_REGISTER
    Enc.dbIf (decide ((g.reg 0).bit = 32)) 0x67
    Enc.db 0xF3; Enc.db 0x0F; Enc.db 0xAE; setModRM 3 6 (g.reg 0).idx
  /- 1044 -/
  | umwait => do Enc.throwIf (decide ((g.reg 0).idx.toNat > 7)) .BAD_PARAMETER; Enc.db 0xF2; Enc.db 0x0F; Enc.db 0xAE; setModRM 3 6 (g.reg 0).idx
  /- 1585 -/
  | xabort => do Enc.db 0xC6; Enc.db 0xF8; Enc.db (g.i8 0)
  /- 1587 -/
  | xbegin => do Enc.db 0xC7; Enc.db 0xF8; Enc.dbN (g.int 0) 4
  /- 1884 -/
  | senduipi => do let q ← Enc.lift ((g.reg 0).cvtGp 32); opRR (.gp 6 32) q (fl [T_F3, T_0F]) 0xC7
  /- 1891 -/
  | jmpabs => do Enc.db 0xD5; Enc.db 0x00; Enc.db 0xA1; Enc.dbN (g.int 0) 8

/-- The checks called before a helper (xbyak.h 2566-2569 `checkCvt1`, 2593-2596 `checkCvt4`). -/
inductive Check | cvt1 | cvt4
  deriving DecidableEq, Repr

def Check.run : Check → Reg → Operand → Enc Unit
  | cvt1 => checkCvt1
  | cvt4 => checkCvt4

/-- A call of an `op*` helper. -/
inductive Leaf
  | bytes (l : List Byte)
  | avx3 (x1 op1 op2 : Slot) (type : Ty) (code : Byte) (imm : Imm)
  | avx2 (x op : Slot) (type : Ty) (code : Byte) (imm : Imm)
  | avxK (k x op : Slot) (type : Ty) (code : Byte) (imm : Imm)
  | vex (r : Slot) (v : Option Slot) (op : Slot) (type : Ty) (code : Byte) (imm : Imm)
  /-- `opVex(k.changeBit(op.getBit()), 0, op, type, code, imm)` -/
  | vexCB (k op : Slot) (type : Ty) (code : Byte) (imm : Imm)
  | cvt (x op : Slot) (type : Ty) (code : Byte)
  | cvt2 (x op : Slot) (type : Ty) (code : Byte)
  | cvt3 (x1 x2 op : Slot) (type type64 type32 : Ty) (code : Byte)
  | cvt5 (x op : Slot) (type : Ty) (code : Byte)
  | cvt6 (x1 x2 op : Slot) (type : Ty) (code : Byte)
  | encoding (x1 x2 op : Slot) (type : Ty) (code : Byte) (imm : Imm) (typeVex typeEvex : Ty) (sel : Nat)
  /-- `opCvt2` with `orEvexIf(encoding, typeVex, typeEvex, 0)` in the flags (`vcvtneps2bf16`) -/
  | cvt2Enc (x op : Slot) (type : Ty) (code : Byte) (typeVex typeEvex : Ty) (sel : Nat)
  | vmov (op x : Slot) (type : Ty) (code : Byte) (mode : Bool)
  | gather (x1 addr x2 : Slot) (type : Ty) (code : Byte) (mode : Nat)
  | gather2 (x addr : Slot) (type : Ty) (code : Byte) (mode : Nat)
  | gatherFetch (addr x : Slot) (type : Ty) (code : Byte) (kind : Kind)
  | kmov (k op : Slot) (rev : Bool) (size : Nat)
  | amx (t addr : Slot) (type : Ty) (code : Byte)
  | sse (r op : Slot) (type : Ty) (code : Byte) (valid : Valid) (imm : Imm)
  | sseApx (x op : Slot) (type1 : Ty) (code1 : Byte) (type2 : Ty) (code2 : Byte) (imm : Imm)
  | mmx (r op : Slot) (code : Byte) (type pref : Ty) (imm : Imm)
  | mmxImm (r : Slot) (imm : Nat) (code : Byte) (ext : BitVec 5)
  | movXmm (op1 op2 : Slot) (type : Ty) (code : Byte)
  | ext (op r : Slot) (code : Byte) (imm : Nat) (mmx2 : Bool)
  | encodeKey (r1 r2 : Slot) (code1 code2 : Byte)
  | rr (r1 r2 : Slot) (type : Ty) (code : Byte)
  | ro (r op : Slot) (type : Ty) (code : Byte) (cond : Chk)
  | mr (addr r : Slot) (type : Ty) (code : Byte) (type2 : Ty) (code2 : Option Byte)
  | mib (addr r : Slot) (type : Ty) (code : Byte)
  | loadSeg (addr r : Slot) (type : Ty) (code : Byte)
  | rext (op : Slot) (bit : Nat) (e : BitVec 5) (type : Ty) (code : Byte)
  /-- `opRext(op, bit, e, type, code, false, 1); db(imm);` -/
  | rextI (op : Slot) (bit : Nat) (e : BitVec 5) (type : Ty) (code : Byte) (imm : Nat)
  /-- `opRext(op, i32e, bnd.getIdx(), type, code, !op.isMEM())` -/
  | rextBnd (op bnd : Slot) (type : Ty) (code : Byte)
  | roo (d op1 op2 : Slot) (type : Ty) (code : Byte)
  | rro (d r1 op : Slot) (type : Ty) (code : Byte) (imm : Imm)
  | roMr (op1 op2 : Slot) (code : Byte)
  | oi (op : Slot) (imm : Nat) (code : Byte) (e : BitVec 5)
  | roi (d op : Slot) (imm : Nat) (type : Ty) (e : BitVec 5)
  | incDec (d op : Slot) (e : BitVec 5)
  | shiftI (op : Slot) (imm : Nat) (e : BitVec 4) (d : Option Slot)
  | shiftCL (op cl : Slot) (e : BitVec 4) (d : Option Slot)
  | shxd (d op r : Slot) (imm : Nat) (code code2 : Byte)
  | shxdCL (d op r cl : Slot) (code code2 : Byte)
  | setcc (op : Slot) (cc : Byte)
  | ccmp (op1 op2 : Slot) (dfv : Nat) (code : Byte) (sc : BitVec 4)
  | ccmpi (op : Slot) (imm dfv : Nat) (sc : BitVec 4)
  | testi (op : Slot) (imm dfv : Nat) (sc : BitVec 4)
  | cfcmov (d op1 op2 : Slot) (code : Byte)
  | movxx (r op : Slot) (code : Byte)
  | cnt (r op : Slot) (code : Byte)
  | inOutDX (x d : Slot) (code : Byte)
  | inOutImm (x : Slot) (code : Byte) (imm : Nat)
  | fpuMem (addr : Slot) (m16 m32 m64 e m64e : Byte)
  | fpuFpu (r1 r2 : Slot) (code1 code2 : BitVec 16)
  | fpu (r : Slot) (code1 code2 : Byte)
  /-- a line that calls no helper or calls it with computed arguments -/
  | raw (r : Raw)

/-- What the call emits. -/
def Leaf.run (g : Args) : Leaf → Enc Unit
  | bytes l => ⟨l.map .byte, .ok ()⟩
  | avx3 x1 op1 op2 t c i => opAVX_X_X_XM (x1.reg g) (op1.op g) (op2.opt g) t c (i.val g)
  | avx2 x op t c i => opAVX_X_XM_IMM (x.reg g) (op.op g) t c (i.val g)
  | avxK k x op t c i => opAVX_K_X_XM (k.reg g) (x.reg g) (op.op g) t c (i.val g)
  | vex r v op t c i => opVex (r.reg g) (v.map (·.reg g)) (op.op g) t c (i.val g)
  | vexCB k op t c i => do
    let r ← lift ((k.reg g).changeBit (op.op g).bit)
    opVex r none (op.op g) t c (i.val g)
  | cvt x op t c => opCvt (x.reg g) (op.op g) t c
  | cvt2 x op t c => opCvt2 (x.reg g) (op.op g) t c
  | cvt3 x1 x2 op t t64 t32 c => opCvt3 (x1.reg g) (x2.reg g) (op.op g) t t64 t32 c
  | cvt5 x op t c => opCvt5 (x.reg g) (op.op g) t c
  | cvt6 x1 x2 op t c => opCvt6 (x1.reg g) (x2.reg g) (op.op g) t c
  | encoding x1 x2 op t c i tv te s => opEncoding (g.dflt s) (x1.reg g) (x2.reg g) (op.opt g) t c g.enc (i.val g) tv te s
  | cvt2Enc x op t c tv te s => do
    let u ← lift (orEvexIf (g.dflt s) g.enc tv te s)
    opCvt2 (x.reg g) (op.op g) (t ||| u) c
  | vmov op x t c m => opVmov (op.op g) (x.reg g) t c m
  | gather x1 m x2 t c md => opGather (x1.reg g) (m.mem g) (x2.reg g) t c md
  | gather2 x m t c md => opGather2 (x.reg g) (m.mem g) t c md
  | gatherFetch m x t c k => opGatherFetch (m.mem g) (x.reg g) t c k
  | kmov k op rv sz => opKmov (k.reg g) (op.op g) rv sz
  | amx x m t c => opAMX (x.reg g) (m.mem g) t c
  | sse r op t c v i => opSSE (r.reg g) (op.op g) t c v.fn (i.val g)
  | sseApx x op t1 c1 t2 c2 i => opSSE_APX (x.reg g) (op.op g) t1 c1 t2 c2 (i.val g)
  | mmx r op c t p i => opMMX (r.reg g) (op.op g) c t p (i.val g)
  | mmxImm r i c e => opMMX_IMM (r.reg g) (g.i8 i) c e
  | movXmm a b t c => opMovXMM (a.op g) (b.op g) t c
  | ext op r c i m => opExt (op.op g) (r.reg g) c (g.i8 i) m
  | encodeKey a b c1 c2 => opEncodeKey (a.reg g) (b.reg g) c1 c2
  | rr a b t c => opRR (a.reg g) (b.reg g) t c
  | ro r op t c cond => opRO (r.reg g) (op.op g) t c (cond.fn g)
  | mr m r t c t2 c2 => opMR (m.mem g) (r.reg g) t c t2 c2
  | mib m r t c => opMIB (m.mem g) (r.reg g) t c
  | loadSeg m r t c => opLoadSeg (m.mem g) (r.reg g) t c
  | rext op b e t c => opRext (op.op g) b e t c
  | rextI op b e t c i => do opRext (op.op g) b e t c false 1; db (g.i8 i)
  | rextBnd op q t c => opRext (op.op g) 96 (q.reg g).idx t c (!(op.op g).isMEM)
  | roo d a b t c => do let _ ← opROO (d.reg g) (a.op g) (b.op g) t c; pure ()
  | rro d r op t c i => opRRO (d.reg g) (r.reg g) (op.op g) t c (i.val g)
  | roMr a b c => opRO_MR (a.op g) (b.op g) c
  | oi op i c e => opOI (op.op g) (g.i32 i) c e
  | roi d op i t e => opROI (d.reg g) (op.op g) (g.i32 i) t e
  | incDec d op e => opIncDec (d.reg g) (op.op g) e
  | shiftI op i e d => opShiftI (op.op g) (g.i32 i) e (d.map (·.reg g))
  | shiftCL op cl e d => opShiftCL (op.op g) (cl.reg g) e (d.map (·.reg g))
  | shxd d op r i c c2 => opShxd (d.reg g) (op.op g) (r.reg g) (g.i8 i) c c2
  | shxdCL d op r cl c c2 => opShxd (d.reg g) (op.op g) (r.reg g) 0 c c2 (some (cl.reg g))
  | setcc op cc => opSetCC (op.op g) cc
  | ccmp a b d c sc => opCcmp (a.op g) (b.op g) (g.i32 d).toInt c sc
  | ccmpi op i d sc => opCcmpi (op.op g) (g.i32 i) (g.i32 d).toInt sc
  | testi op i d sc => opTesti (op.op g) (g.i32 i) (g.i32 d).toInt sc
  | cfcmov d a b c => opCfcmov (d.reg g) (a.op g) (b.op g) c
  | movxx r op c => opMovxx (r.reg g) (op.op g) c
  | cnt r op c => opCnt (r.reg g) (op.op g) c
  | inOutDX x d c => opInOutDX (x.reg g) (d.reg g) c
  | inOutImm x c i => opInOutImm (x.reg g) c (g.i8 i)
  | fpuMem m a b c e f => opFpuMem (m.mem g) a b c e f
  | fpuFpu a b c d => opFpuFpu (a.reg g) (b.reg g) c d
  | fpu r c d => opFpu (r.reg g) c d
  | raw r => r.run g

/-- The jump width requested by the caller or fixed by the line. -/
inductive JmpTy | param | short | auto | near
  deriving DecidableEq, Repr

/-- The body of a function of the header. -/
inductive Body
  | leaf (l : Leaf)
  /-- `if (bad) XBYAK_THROW(err) …` -/
  | guard (bad : Args → Bool) (err : Err) (b : Body)
  /-- `check(…); …` -/
  | check (c : Check) (x op : Slot) (b : Body)
  /-- `if (c) db(x); …` -/
  | pre (c : Args → Bool) (x : Byte) (b : Body)
  /-- `c ? … : …` -/
  | ite (c : Args → Bool) (t e : Body)
  /-- `if (opROO(d, op1, op2, type, code)) return; …` -/
  | apx (d op1 op2 : Slot) (type : Ty) (code : Byte) (b : Body)
  /-- `opJmp(label, type, short, near, pref)` after the bytes `l`; model: `Verif.Gen` -/
  | jmp (l : List Byte) (type : JmpTy) (short near pref : Byte)
  /-- `opJmpAbs(addr, T_NEAR, short, near, pref)` -/
  | jmpAbs (short near pref : Byte)

/-- What the function emits; jumps to labels go through the label manager and are not operand encodings. -/
def Body.run (g : Args) : Body → Option (Enc Unit)
  | leaf l => some (l.run g)
  | guard bad err b => (b.run g).map fun m => do throwIf (bad g) err; m
  | check c x op b => (b.run g).map fun m => do c.run (x.reg g) (op.op g); m
  | pre c x b => (b.run g).map fun m => do dbIf (c g) x; m
  | ite c t e => if c g then t.run g else e.run g
  | apx d a b' t c b => (b.run g).map fun m => do
    let done ← opROO (d.reg g) (a.op g) (b'.op g) t c
    if done then pure () else m
  | jmp .. => none
  | jmpAbs .. => none

/-- The calls a body can make. -/
def Body.leaves : Body → List Leaf
  | leaf l => [l]
  | guard _ _ b | check _ _ _ b | pre _ _ b | apx _ _ _ _ _ b => b.leaves
  | ite _ t e => t.leaves ++ e.leaves
  | jmp .. | jmpAbs .. => []

/-- One function of the header: the line of `xbyak_mnemonic.h`, the name, the parameters, how many trailing operands have a default, and
the body. -/
structure Entry where
  line : Nat
  name : Nat
  params : List Param
  opt : Nat
  body : Body

end Mn
end Xbyak
