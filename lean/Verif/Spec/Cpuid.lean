import Verif.Cpu
/-!
# What the manuals say about CPUID feature bits

Written from the Intel SDM (vol. 2, CPUID; vol. 1, 13-14) and the AMD APM (vol. 3, appendix E) independently of xbyak_util.h; only the input
type `Env` and the list of feature names are shared with the model.
-/
namespace Xbyak
namespace Cpu
open Feature

/-- A register written by `cpuid`. -/
inductive Out4
  | a | b | c | d

/-- One documented bit. -/
structure Bit where
  leaf : BitVec 32
  sub : BitVec 32
  reg : Out4
  n : Nat

/-- The bit is set. -/
def Bit.set (e : Env) (x : Bit) : Bool :=
  let r := e.cpuid x.leaf x.sub
  match x.reg with
  | .a => r.eax.getLsbD x.n
  | .b => r.ebx.getLsbD x.n
  | .c => r.ecx.getLsbD x.n
  | .d => r.edx.getLsbD x.n

/-- The CPU reports that the leaf of this bit exists: basic leaves up to `cpuid(0).eax`, extended leaves up to `cpuid(80000000h).eax`,
sub-leaves of leaf 7 up to `cpuid(7, 0).eax`. -/
def Bit.exists_ (e : Env) (x : Bit) : Bool :=
  (if x.leaf.getLsbD 31 then decide (x.leaf.toNat ≤ (e.cpuid 0x80000000 0).eax.toNat) else decide (x.leaf.toNat ≤ (e.cpuid 0 0).eax.toNat))
    && (x.sub == 0 || decide (x.sub.toNat ≤ (e.cpuid 7 0).eax.toNat))

/-- Registers the operating system has to save. -/
inductive State
  | none | avx | avx512 | amx | apx
  deriving DecidableEq

/-- CR4.OSXSAVE is set. -/
def osxsave (e : Env) : Bool := (e.cpuid 1 0).ecx.getLsbD 27

/-- XCR0: SSE and AVX state (bits 1, 2), opmask and ZMM state (5, 6, 7), tile state (17, 18), extended registers (19). -/
def State.ok (e : Env) : State → Bool
  | .none => true
  | .avx => osxsave e && e.xcr0.getLsbD 1 && e.xcr0.getLsbD 2
  | .avx512 => osxsave e && e.xcr0.getLsbD 1 && e.xcr0.getLsbD 2 && e.xcr0.getLsbD 5 && e.xcr0.getLsbD 6 && e.xcr0.getLsbD 7
  | .amx => osxsave e && e.xcr0.getLsbD 17 && e.xcr0.getLsbD 18
  | .apx => osxsave e && e.xcr0.getLsbD 19

/-- CPUID.(7,0):EBX.AVX512F -/
def avx512f : Bit := ⟨7, 0, .b, 16⟩

/-- The vendor string, in the order EBX, EDX, ECX. -/
def vendor (e : Env) : List (BitVec 32) := [(e.cpuid 0 0).ebx, (e.cpuid 0 0).edx, (e.cpuid 0 0).ecx]

/-- "AuthenticAMD" in ASCII, little endian -/
def amd (e : Env) : Bool := vendor e == [0x68747541, 0x69746e65, 0x444d4163]
/-- "GenuineIntel" in ASCII, little endian -/
def intel (e : Env) : Bool := vendor e == [0x756e6547, 0x49656e69, 0x6c65746e]

/-- The bits that announce a feature: alternatives, each a list of bits that must all be set. -/
def bits : Feature → List (List Bit)
  | tMMX => [[⟨1, 0, .d, 23⟩]]
  | tMMX2 => [[⟨1, 0, .d, 25⟩], [⟨0x80000001, 0, .d, 22⟩]]
  | tCMOV => [[⟨1, 0, .d, 15⟩], [⟨0x80000001, 0, .d, 15⟩]]
  | tSSE => [[⟨1, 0, .d, 25⟩]]
  | tSSE2 => [[⟨1, 0, .d, 26⟩]]
  | tSSE3 => [[⟨1, 0, .c, 0⟩]]
  | tSSSE3 => [[⟨1, 0, .c, 9⟩]]
  | tSSE41 => [[⟨1, 0, .c, 19⟩]]
  | tSSE42 => [[⟨1, 0, .c, 20⟩]]
  | tPOPCNT => [[⟨1, 0, .c, 23⟩]]
  | tAESNI => [[⟨1, 0, .c, 25⟩]]
  | tAVX512_FP16 => [[avx512f, ⟨7, 0, .b, 30⟩, ⟨7, 0, .d, 23⟩]]
  | tOSXSAVE => [[⟨1, 0, .c, 27⟩]]
  | tPCLMULQDQ => [[⟨1, 0, .c, 1⟩]]
  | tAVX => [[⟨1, 0, .c, 28⟩]]
  | tFMA => [[⟨1, 0, .c, 12⟩]]
  | t3DN => [[⟨0x80000001, 0, .d, 31⟩]]
  | tE3DN => [[⟨0x80000001, 0, .d, 30⟩]]
  | tWAITPKG => [[⟨7, 0, .c, 5⟩]]
  | tRDTSCP => [[⟨0x80000001, 0, .d, 27⟩]]
  | tAVX2 => [[⟨1, 0, .c, 28⟩, ⟨7, 0, .b, 5⟩]]
  | tBMI1 => [[⟨7, 0, .b, 3⟩]]
  | tBMI2 => [[⟨7, 0, .b, 8⟩]]
  | tLZCNT => [[⟨0x80000001, 0, .c, 5⟩]]
  | tINTEL => []
  | tAMD => []
  | tENHANCED_REP => [[⟨7, 0, .b, 9⟩]]
  | tRDRAND => [[⟨1, 0, .c, 30⟩]]
  | tADX => [[⟨7, 0, .b, 19⟩]]
  | tRDSEED => [[⟨7, 0, .b, 18⟩]]
  | tSMAP => [[⟨7, 0, .b, 20⟩]]
  | tHLE => [[⟨7, 0, .b, 4⟩]]
  | tRTM => [[⟨7, 0, .b, 11⟩]]
  | tF16C => [[⟨1, 0, .c, 29⟩]]
  | tMOVBE => [[⟨1, 0, .c, 22⟩]]
  | tAVX512F => [[avx512f]]
  | tAVX512DQ => [[avx512f, ⟨7, 0, .b, 17⟩]]
  | tAVX512_IFMA => [[avx512f, ⟨7, 0, .b, 21⟩]]
  | tAVX512PF => [[avx512f, ⟨7, 0, .b, 26⟩]]
  | tAVX512ER => [[avx512f, ⟨7, 0, .b, 27⟩]]
  | tAVX512CD => [[avx512f, ⟨7, 0, .b, 28⟩]]
  | tAVX512BW => [[avx512f, ⟨7, 0, .b, 30⟩]]
  | tAVX512VL => [[avx512f, ⟨7, 0, .b, 31⟩]]
  | tAVX512_VBMI => [[avx512f, ⟨7, 0, .c, 1⟩]]
  | tAVX512_4VNNIW => [[avx512f, ⟨7, 0, .d, 2⟩]]
  | tAVX512_4FMAPS => [[avx512f, ⟨7, 0, .d, 3⟩]]
  | tPREFETCHWT1 => [[⟨7, 0, .c, 0⟩]]
  | tPREFETCHW => [[⟨0x80000001, 0, .c, 8⟩]]
  | tSHA => [[⟨7, 0, .b, 29⟩]]
  | tMPX => [[⟨7, 0, .b, 14⟩]]
  | tAVX512_VBMI2 => [[avx512f, ⟨7, 0, .c, 6⟩]]
  | tGFNI => [[⟨7, 0, .c, 8⟩]]
  | tVAES => [[⟨7, 0, .c, 9⟩]]
  | tVPCLMULQDQ => [[⟨7, 0, .c, 10⟩]]
  | tAVX512_VNNI => [[avx512f, ⟨7, 0, .c, 11⟩]]
  | tAVX512_BITALG => [[avx512f, ⟨7, 0, .c, 12⟩]]
  | tAVX512_VPOPCNTDQ => [[avx512f, ⟨7, 0, .c, 14⟩]]
  | tAVX512_BF16 => [[avx512f, ⟨7, 1, .a, 5⟩]]
  | tAVX512_VP2INTERSECT => [[avx512f, ⟨7, 0, .d, 8⟩]]
  | tAMX_TILE => [[⟨7, 0, .d, 24⟩]]
  | tAMX_INT8 => [[⟨7, 0, .d, 25⟩]]
  | tAMX_BF16 => [[⟨7, 0, .d, 22⟩]]
  | tAVX_VNNI => [[⟨7, 1, .a, 4⟩]]
  | tCLFLUSHOPT => [[⟨7, 0, .b, 23⟩]]
  | tCLDEMOTE => [[⟨7, 0, .c, 25⟩]]
  | tMOVDIRI => [[⟨7, 0, .c, 27⟩]]
  | tMOVDIR64B => [[⟨7, 0, .c, 28⟩]]
  | tCLZERO => [[⟨0x80000008, 0, .b, 0⟩]]
  | tAMX_FP16 => [[⟨7, 1, .a, 21⟩]]
  | tAVX_VNNI_INT8 => [[⟨7, 1, .d, 4⟩]]
  | tAVX_NE_CONVERT => [[⟨7, 1, .d, 5⟩]]
  | tAVX_IFMA => [[⟨7, 1, .a, 23⟩]]
  | tRAO_INT => [[⟨7, 1, .a, 3⟩]]
  | tCMPCCXADD => [[⟨7, 1, .a, 7⟩]]
  | tPREFETCHITI => [[⟨7, 1, .d, 14⟩]]
  | tSERIALIZE => [[⟨7, 0, .d, 14⟩]]
  | tUINTR => [[⟨7, 0, .d, 5⟩]]
  | tXSAVE => [[⟨1, 0, .c, 26⟩]]
  | tSHA512 => [[⟨7, 1, .a, 0⟩]]
  | tSM3 => [[⟨7, 1, .a, 1⟩]]
  | tSM4 => [[⟨7, 1, .a, 2⟩]]
  | tAVX_VNNI_INT16 => [[⟨7, 1, .d, 10⟩]]
  | tAPX_F => [[⟨7, 1, .d, 21⟩]]
  | tAVX10 => [[⟨7, 1, .d, 19⟩]]
  | tAESKLE => [[⟨0x19, 0, .b, 0⟩]]
  | tWIDE_KL => [[⟨0x19, 0, .b, 2⟩]]
  | tKEYLOCKER => [[⟨7, 0, .c, 23⟩]]
  | tKEYLOCKER_WIDE => [[⟨7, 0, .c, 23⟩, ⟨0x19, 0, .b, 0⟩, ⟨0x19, 0, .b, 2⟩]]
  | tSSE4a => [[⟨0x80000001, 0, .c, 6⟩]]
  | tCLWB => [[⟨7, 0, .b, 24⟩]]
  | tTSXLDTRK => [[⟨7, 0, .d, 16⟩]]

/-- AMD announces PREFETCHW also by 3DNow! and by long mode. -/
def amdBits : Feature → List (List Bit)
  | tPREFETCHW => [[⟨0x80000001, 0, .d, 31⟩], [⟨0x80000001, 0, .d, 29⟩]]
  | _ => []

/-- The state the instructions of a feature use. -/
def state : Feature → State
  | tAVX | tFMA | tAVX2 | tF16C | tVAES | tVPCLMULQDQ | tSHA512 | tSM3 | tSM4 | tAVX_VNNI | tAVX_IFMA | tAVX_VNNI_INT8 | tAVX_VNNI_INT16
  | tAVX_NE_CONVERT | tAVX10 => .avx
  | tAVX512F | tAVX512DQ | tAVX512_IFMA | tAVX512PF | tAVX512ER | tAVX512CD | tAVX512BW | tAVX512VL | tAVX512_VBMI | tAVX512_4VNNIW
  | tAVX512_4FMAPS | tAVX512_VBMI2 | tAVX512_VNNI | tAVX512_BITALG | tAVX512_VPOPCNTDQ | tAVX512_BF16 | tAVX512_VP2INTERSECT
  | tAVX512_FP16 => .avx512
  | tAMX_TILE | tAMX_INT8 | tAMX_BF16 | tAMX_FP16 => .amx
  | tAPX_F => .apx
  | _ => .none

/-- The CPU announces the feature. -/
def announced (e : Env) : Feature → Bool
  | tINTEL => intel e
  | tAMD => amd e
  | f => (bits f).any (fun l => l.all fun b => b.exists_ e && b.set e) ||
    (amd e && (amdBits f).any (fun l => l.all fun b => b.exists_ e && b.set e))

/-- The feature can be used. -/
def usable (e : Env) (f : Feature) : Bool := announced e f && (state f).ok e

end Cpu
end Xbyak
