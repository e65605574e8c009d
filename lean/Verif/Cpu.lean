import Verif.Basic
/-!
# CPU detection

Models `util::Cpu` of xbyak_util.h 117-740: the feature bits, the family fields the topology code needs, the number of cores and the cache
hierarchy.  `cpuid` and `xgetbv` are an arbitrary environment: any function from leaf and sub-leaf to four 32-bit words and any 64-bit value
(a fixed function: the CPU does not change its answers during construction; macOS, where the AVX-512 state is not checked, is left out).
`putFamily` is left out.
-/
namespace Xbyak
namespace Cpu

/-- The four registers written by `cpuid`. -/
structure Regs where
  eax : BitVec 32
  ebx : BitVec 32
  ecx : BitVec 32
  edx : BitVec 32

/-- What the CPU and the operating system answer. -/
structure Env where
  /-- leaf, sub-leaf -/
  cpuid : BitVec 32 → BitVec 32 → Regs
  /-- `xgetbv` with ecx = 0, `getXfeature` 435-450 -/
  xcr0 : BitVec 64

/-- xbyak_util.h 119-137 `Cpu::Type` -/
structure Ty where
  L : BitVec 64
  H : BitVec 64
  deriving DecidableEq, Repr

/-- xbyak_util.h 127, 129 -/
def Ty.or (a b : Ty) : Ty := ⟨a.L ||| b.L, a.H ||| b.H⟩
/-- xbyak_util.h 126, 128 -/
def Ty.and (a b : Ty) : Ty := ⟨a.L &&& b.L, a.H &&& b.H⟩
/-- xbyak_util.h 133 `operator bool` -/
def Ty.nonzero (a : Ty) : Bool := (a.H ||| a.L) != 0
/-- xbyak_util.h 735-738 `has` -/
def Ty.has (t a : Ty) : Bool := (a.and t) == a

/-- The feature constants of xbyak_util.h 458-550, in order of their ids.  `tAVX512IFMA` and `tAVX512VBMI` are second names of `tAVX512_IFMA` and
`tAVX512_VBMI`. -/
inductive Feature
  | tMMX | tMMX2 | tCMOV | tSSE | tSSE2 | tSSE3 | tSSSE3 | tSSE41 | tSSE42 | tPOPCNT | tAESNI | tAVX512_FP16 | tOSXSAVE | tPCLMULQDQ | tAVX
  | tFMA | t3DN | tE3DN | tWAITPKG | tRDTSCP | tAVX2 | tBMI1 | tBMI2 | tLZCNT | tINTEL | tAMD | tENHANCED_REP | tRDRAND | tADX | tRDSEED
  | tSMAP | tHLE | tRTM | tF16C | tMOVBE | tAVX512F | tAVX512DQ | tAVX512_IFMA | tAVX512PF | tAVX512ER | tAVX512CD | tAVX512BW | tAVX512VL
  | tAVX512_VBMI | tAVX512_4VNNIW | tAVX512_4FMAPS | tPREFETCHWT1 | tPREFETCHW | tSHA | tMPX | tAVX512_VBMI2 | tGFNI | tVAES | tVPCLMULQDQ
  | tAVX512_VNNI | tAVX512_BITALG | tAVX512_VPOPCNTDQ | tAVX512_BF16 | tAVX512_VP2INTERSECT | tAMX_TILE | tAMX_INT8 | tAMX_BF16 | tAVX_VNNI
  | tCLFLUSHOPT | tCLDEMOTE | tMOVDIRI | tMOVDIR64B | tCLZERO | tAMX_FP16 | tAVX_VNNI_INT8 | tAVX_NE_CONVERT | tAVX_IFMA | tRAO_INT
  | tCMPCCXADD | tPREFETCHITI | tSERIALIZE | tUINTR | tXSAVE | tSHA512 | tSM3 | tSM4 | tAVX_VNNI_INT16 | tAPX_F | tAVX10 | tAESKLE
  | tWIDE_KL | tKEYLOCKER | tKEYLOCKER_WIDE | tSSE4a | tCLWB | tTSXLDTRK
  deriving DecidableEq, Repr

/-- xbyak_util.h 452 `XBYAK_SPLIT_ID` with the ids of 458-550 -/
def Feature.ty (f : Feature) : Ty :=
  let id := f.ctorIdx
  ⟨if id < 64 then (1 : BitVec 64) <<< (id % 64) else 0, if id ≥ 64 then (1 : BitVec 64) <<< (id % 64) else 0⟩

/-- `if (cond) type_ |= feature;` for each entry -/
def Ty.apply (t : Ty) (l : List (Bool × Feature)) : Ty := l.foldl (fun t e => if e.1 then t.or e.2.ty else t) t

/-- `type_ & feature` as a condition -/
def Ty.test (t : Ty) (f : Feature) : Bool := (t.and f.ty).nonzero

/-- xbyak_util.h 149-152 `get32bitAsBE` on ASCII characters -/
def get32 (a b c d : Char) : BitVec 32 :=
  BitVec.ofNat 32 a.toNat ||| BitVec.ofNat 32 b.toNat <<< 8 ||| BitVec.ofNat 32 c.toNat <<< 16 ||| BitVec.ofNat 32 d.toNat <<< 24

/-- xbyak_util.h 158-161 `isEqualStr` with "AuthenticAMD" -/
def isAMD (r : Regs) : Bool := get32 'A' 'u' 't' 'h' == r.ebx && get32 'e' 'n' 't' 'i' == r.edx && get32 'c' 'A' 'M' 'D' == r.ecx
/-- xbyak_util.h 158-161 `isEqualStr` with "GenuineIntel" -/
def isIntel (r : Regs) : Bool := get32 'G' 'e' 'n' 'u' == r.ebx && get32 'i' 'n' 'e' 'I' == r.edx && get32 'n' 't' 'e' 'l' == r.ecx

open Feature

/-- xbyak_util.h 570-586 -/
def vendorRules (e : Env) : List (Bool × Feature) :=
  if isAMD (e.cpuid 0 0) then
    let d := e.cpuid 0x80000001 0
    [(true, tAMD), (d.edx.getLsbD 31, t3DN), (d.edx.getLsbD 31, tPREFETCHW), (d.edx.getLsbD 29, tPREFETCHW)]
  else if isIntel (e.cpuid 0 0) then [(true, tINTEL)]
  else []

/-- xbyak_util.h 588-606 -/
def extRules (e : Env) : List (Bool × Feature) :=
  let max := (e.cpuid 0x80000000 0).eax
  (if max ≥ 0x80000001 then
    let d := e.cpuid 0x80000001 0
    [(d.ecx.getLsbD 5, tLZCNT), (d.ecx.getLsbD 6, tSSE4a), (d.ecx.getLsbD 8, tPREFETCHW), (d.edx.getLsbD 15, tCMOV), (d.edx.getLsbD 22, tMMX2),
      (d.edx.getLsbD 27, tRDTSCP), (d.edx.getLsbD 30, tE3DN), (d.edx.getLsbD 31, t3DN)]
  else []) ++
  (if max ≥ 0x80000008 then [((e.cpuid 0x80000008 0).ebx.getLsbD 0, tCLZERO)] else [])

/-- xbyak_util.h 608-625 -/
def leaf1Rules (e : Env) : List (Bool × Feature) :=
  let d := e.cpuid 1 0
  [(d.ecx.getLsbD 0, tSSE3), (d.ecx.getLsbD 1, tPCLMULQDQ), (d.ecx.getLsbD 9, tSSSE3), (d.ecx.getLsbD 19, tSSE41), (d.ecx.getLsbD 20, tSSE42),
    (d.ecx.getLsbD 22, tMOVBE), (d.ecx.getLsbD 23, tPOPCNT), (d.ecx.getLsbD 25, tAESNI), (d.ecx.getLsbD 26, tXSAVE),
    (d.ecx.getLsbD 27, tOSXSAVE), (d.ecx.getLsbD 29, tF16C), (d.ecx.getLsbD 30, tRDRAND), (d.edx.getLsbD 15, tCMOV), (d.edx.getLsbD 23, tMMX),
    (d.edx.getLsbD 25, tMMX2), (d.edx.getLsbD 25, tSSE), (d.edx.getLsbD 26, tSSE2)]

/-- xbyak_util.h 630 -/
def avxState (e : Env) : Bool := e.xcr0 &&& 6 == 6
/-- xbyak_util.h 635 -/
def avx512State (e : Env) : Bool := (e.xcr0 >>> 5) &&& 7 == 7

/-- xbyak_util.h 631-632 -/
def avxRules (e : Env) : List (Bool × Feature) :=
  let d := e.cpuid 1 0
  [(d.ecx.getLsbD 12, tFMA), (d.ecx.getLsbD 28, tAVX)]

/-- xbyak_util.h 641-655 -/
def avx512Rules (e : Env) : List (Bool × Feature) :=
  let d := e.cpuid 7 0
  [(d.ebx.getLsbD 17, tAVX512DQ), (d.ebx.getLsbD 21, tAVX512_IFMA), (d.ebx.getLsbD 26, tAVX512PF), (d.ebx.getLsbD 27, tAVX512ER),
    (d.ebx.getLsbD 28, tAVX512CD), (d.ebx.getLsbD 30, tAVX512BW), (d.ebx.getLsbD 31, tAVX512VL), (d.ecx.getLsbD 1, tAVX512_VBMI),
    (d.ecx.getLsbD 6, tAVX512_VBMI2), (d.ecx.getLsbD 11, tAVX512_VNNI), (d.ecx.getLsbD 12, tAVX512_BITALG),
    (d.ecx.getLsbD 14, tAVX512_VPOPCNTDQ), (d.edx.getLsbD 2, tAVX512_4VNNIW), (d.edx.getLsbD 3, tAVX512_4FMAPS),
    (d.edx.getLsbD 8, tAVX512_VP2INTERSECT)]

/-- xbyak_util.h 627-660 -/
def osRules (e : Env) (t : Ty) : Ty :=
  if t.test tOSXSAVE && avxState e then
    let t := t.apply (avxRules e)
    if avx512State e then
      let d := e.cpuid 7 0
      let t := t.apply [(d.ebx.getLsbD 16, tAVX512F)]
      if t.test tAVX512F then
        let t := t.apply (avx512Rules e)
        t.apply [(t.test tAVX512BW && d.edx.getLsbD 23, tAVX512_FP16)]
      else t
    else t
  else t

/-- xbyak_util.h 664-691 -/
def leaf7Rules (e : Env) (t : Ty) : List (Bool × Feature) :=
  let d := e.cpuid 7 0
  [(t.test tAVX && d.ebx.getLsbD 5, tAVX2), (d.ebx.getLsbD 3, tBMI1), (d.ebx.getLsbD 4, tHLE), (d.ebx.getLsbD 8, tBMI2),
    (d.ebx.getLsbD 9, tENHANCED_REP), (d.ebx.getLsbD 11, tRTM), (d.ebx.getLsbD 14, tMPX), (d.ebx.getLsbD 18, tRDSEED), (d.ebx.getLsbD 19, tADX),
    (d.ebx.getLsbD 20, tSMAP), (d.ebx.getLsbD 23, tCLFLUSHOPT), (d.ebx.getLsbD 24, tCLWB), (d.ebx.getLsbD 29, tSHA),
    (d.ecx.getLsbD 0, tPREFETCHWT1), (d.ecx.getLsbD 5, tWAITPKG), (d.ecx.getLsbD 8, tGFNI), (d.ecx.getLsbD 9, tVAES),
    (d.ecx.getLsbD 10, tVPCLMULQDQ), (d.ecx.getLsbD 23, tKEYLOCKER), (d.ecx.getLsbD 25, tCLDEMOTE), (d.ecx.getLsbD 27, tMOVDIRI),
    (d.ecx.getLsbD 28, tMOVDIR64B), (d.edx.getLsbD 5, tUINTR), (d.edx.getLsbD 14, tSERIALIZE), (d.edx.getLsbD 16, tTSXLDTRK),
    (d.edx.getLsbD 22, tAMX_BF16), (d.edx.getLsbD 24, tAMX_TILE), (d.edx.getLsbD 25, tAMX_INT8)]

/-- xbyak_util.h 693-710 -/
def leaf71Rules (e : Env) (t : Ty) : List (Bool × Feature) :=
  let d := e.cpuid 7 1
  [(d.eax.getLsbD 0, tSHA512), (d.eax.getLsbD 1, tSM3), (d.eax.getLsbD 2, tSM4), (d.eax.getLsbD 3, tRAO_INT), (d.eax.getLsbD 4, tAVX_VNNI),
    (t.test tAVX512F && d.eax.getLsbD 5, tAVX512_BF16), (d.eax.getLsbD 7, tCMPCCXADD), (d.eax.getLsbD 21, tAMX_FP16),
    (d.eax.getLsbD 23, tAVX_IFMA), (d.edx.getLsbD 4, tAVX_VNNI_INT8), (d.edx.getLsbD 5, tAVX_NE_CONVERT), (d.edx.getLsbD 10, tAVX_VNNI_INT16),
    (d.edx.getLsbD 14, tPREFETCHITI), (d.edx.getLsbD 19, tAVX10), (d.edx.getLsbD 21, tAPX_F)]

/-- xbyak_util.h 661-712 -/
def leaf7 (e : Env) (t : Ty) : Ty :=
  if (e.cpuid 0 0).eax ≥ 7 then
    let t := t.apply (leaf7Rules e t)
    if (e.cpuid 7 0).eax ≥ 1 then t.apply (leaf71Rules e t) else t
  else t

/-- xbyak_util.h 713-718 -/
def leaf19 (e : Env) (t : Ty) : Ty :=
  if (e.cpuid 0 0).eax ≥ 0x19 then
    let d := e.cpuid 0x19 0
    let t := t.apply [(d.ebx.getLsbD 0, tAESKLE), (d.ebx.getLsbD 2, tWIDE_KL)]
    t.apply [((t.and ((tKEYLOCKER.ty.or tAESKLE.ty).or tWIDE_KL.ty)).nonzero, tKEYLOCKER_WIDE)]
  else t

/-- The member `type_` after the constructor, xbyak_util.h 555-718. -/
def features (e : Env) : Ty :=
  leaf19 e (leaf7 e (osRules e (((Ty.mk 0 0).apply (vendorRules e)).apply (extRules e) |>.apply (leaf1Rules e))))

/-- xbyak_util.h 153-156 `mask` -/
def mask (n : Nat) : BitVec 32 := ((1 : BitVec 32) <<< n) - 1

/-- xbyak_util.h 719-722: `avx10version_` -/
def avx10version (e : Env) : BitVec 32 :=
  if (features e).has tAVX10.ty && decide ((e.cpuid 0 0).eax ≥ 0x24) then (e.cpuid 0x24 0).ebx &&& mask 7 else 0

/-- xbyak_util.h 162-165 `extractBit` -/
def extractBit (val : BitVec 32) (base end_ : Nat) : BitVec 32 := (val >>> base) &&& (((1 : BitVec 32) <<< (end_ + 1 - base)) - 1)

/-- How a computation ends. -/
inductive Out (α : Type)
  | ok (a : α)
  /-- a thrown error -/
  | err (e : Err)
  /-- integer division by zero -/
  | divZero
  /-- signed integer overflow -/
  | overflow
  /-- access outside of an array -/
  | oob
  deriving Repr, DecidableEq

/-- bind -/
def Out.bind {α β : Type} (x : Out α) (f : α → Out β) : Out β :=
  match x with
  | .ok a => f a
  | .err e => .err e
  | .divZero => .divZero
  | .overflow => .overflow
  | .oob => .oob

instance : Monad Out where
  pure := Out.ok
  bind := Out.bind

/-- non-negative integer division -/
def Out.div (a b : Nat) : Out Nat := if b = 0 then .divZero else .ok (a / b)

/-- xbyak_util.h 166-186 `setFamily`: `displayFamily` -/
def displayFamily (e : Env) : Nat :=
  let d := (e.cpuid 1 0).eax
  let family := extractBit d 8 11
  let extFamily := extractBit d 20 27
  if family == 0x0f then family.toNat + extFamily.toNat else family.toNat

/-- `numCores_` -/
structure Cores where
  smt : Nat
  core : Nat
  deriving DecidableEq, Repr

/-- the body of the loop of xbyak_util.h 203-209 -/
def levelB (e : Env) (i : BitVec 32) (c : Cores) : Cores :=
  let d := e.cpuid 0xB i
  let level := extractBit d.ecx 8 15
  if level == 1 then { c with smt := (extractBit d.ebx 0 15).toNat }
  else if level == 2 then { c with core := (extractBit d.ebx 0 15).toNat }
  else c

/-- `uint32_t data[4]` holds usable leaf 0xB data, xbyak_util.h 193-196 -/
def hasB (e : Env) : Bool :=
  decide ((e.cpuid 0 0).eax ≥ 0xB) && ((e.cpuid 0xB 0).eax != 0 || (e.cpuid 0xB 0).ebx != 0)

/-- xbyak_util.h 187-273 `setNumCores` -/
def numCores (e : Env) : Out Cores :=
  let t := features e
  if !t.has tINTEL.ty && !t.has tAMD.ty then .ok ⟨0, 0⟩
  else if hasB e then
    let c := levelB e 1 (levelB e 0 ⟨0, 0⟩)
    let smt := max 1 c.smt
    .ok ⟨smt, max smt c.core⟩
  else
    let d1 := e.cpuid 1 0
    let logical := (extractBit d1.ebx 16 23).toNat
    let htt := extractBit d1.edx 28 28
    if t.has tAMD.ty then
      let ext := (e.cpuid 0x80000000 0).eax
      let phys := if ext ≥ 0x80000008 then (extractBit (e.cpuid 0x80000008 0).ecx 0 7).toNat + 1 else 0
      if htt == 0 then .ok ⟨1, 1⟩
      else if phys > 1 then do
        let phys ← if displayFamily e ≥ 0x17 ∧ ext ≥ 0x8000001E
          then Out.div phys ((extractBit (e.cpuid 0x8000001E 0).ebx 8 15).toNat + 1) else pure phys
        let smt ← Out.div logical phys
        return ⟨smt, logical⟩
      else .ok ⟨1, if logical > 1 then logical else 2⟩
    else
      let phys := if (e.cpuid 0 0).eax ≥ 4 then (extractBit (e.cpuid 4 0).eax 26 31).toNat + 1 else 0
      if htt == 0 then .ok ⟨1, 1⟩
      else if phys > 1 then do
        let smt ← Out.div logical phys
        return ⟨smt, logical⟩
      else .ok ⟨1, if logical > 0 then logical else 1⟩

/-- xbyak_util.h 394-400 `getNumCores` -/
def Cores.get (c : Cores) (level : Int) : Out Nat :=
  if level = 1 then .ok c.smt
  else if level = 2 then Out.div c.core c.smt
  else .err .X2APIC_IS_NOT_SUPPORTED

/-- `dataCacheSize_`, `coresSharingDataCache_` (both with room for 10 levels, xbyak_util.h 143-146) and `dataCacheLevels_` -/
structure Caches where
  size : List (BitVec 32)
  sharing : List (BitVec 32)
  levels : Nat
  deriving DecidableEq, Repr

/-- xbyak_util.h 143 -/
def maxNumberCacheLevels : Nat := 10

/-- the members before `setCacheHierarchy` -/
def Caches.init : Caches := ⟨List.replicate 10 0, List.replicate 10 0, 0⟩

/-- write entry `i` of both arrays -/
def Caches.put (c : Caches) (i : Nat) (size sharing : BitVec 32) : Out Caches :=
  if i < c.size.length ∧ i < c.sharing.length then .ok { c with size := c.size.set i size, sharing := c.sharing.set i sharing } else .oob

/-- read `coresSharingDataCache_[0]` -/
def Caches.sharing0 (c : Caches) : BitVec 32 := c.sharing.headD 0

/-- one round of the loop of xbyak_util.h 282-312 for a sub-leaf that describes a data or unified cache -/
def amdLevel (e : Env) (cores : Cores) (subLeaf : BitVec 32) (c : Caches) : Out Caches :=
  let d := e.cpuid 0x8000001D subLeaf
  let fullyAssociative := extractBit d.eax 9 9
  let numSharing := (extractBit d.eax 14 25).toNat + 1
  let ways := (extractBit d.ebx 22 31).toNat + 1
  let partitions := (extractBit d.ebx 12 21).toNat + 1
  let line := (extractBit d.ebx 0 11).toNat + 1
  if line * partitions * ways ≥ 2 ^ 31 then .overflow
  else do
    let size := BitVec.ofNat 32 (line * partitions * ways)
    let size := if fullyAssociative == 0 then size * (d.ecx + 1) else size
    let sharing ← if subLeaf > 0 then Out.div (min numSharing cores.core) (max 1 c.sharing0.toNat) else pure numSharing
    let c ← c.put c.levels size (BitVec.ofNat 32 sharing)
    return { c with levels := c.levels + 1 }

/-- the loop of xbyak_util.h 282-312; `none`: not finished after `fuel` rounds -/
def amdLoop (e : Env) (cores : Cores) : Nat → BitVec 32 → Caches → Option (Out Caches)
  | 0, _, _ => none
  | fuel + 1, subLeaf, c =>
    if c.levels < maxNumberCacheLevels then
      let type := extractBit (e.cpuid 0x8000001D subLeaf).eax 0 4
      if type == 0 then some (.ok c)
      else if type == 2 then amdLoop e cores fuel (subLeaf + 1) c
      else match amdLevel e cores subLeaf c with
        | .ok c => amdLoop e cores fuel (subLeaf + 1) c
        | o => some o
    else some (.ok c)

/-- xbyak_util.h 314-339: older AMD CPUs -/
def amdLegacy (e : Env) (cores : Cores) : Out Caches := do
  let d5 := e.cpuid 0x80000005 0
  let d6 := e.cpuid 0x80000006 0
  let c ← Caches.init.put 0 ((extractBit d5.ecx 24 31) * 1024) 1
  let c := { c with levels := 1 }
  let c ← if extractBit d6.ecx 12 15 > 0 then do
      let c ← c.put 1 ((extractBit d6.ecx 16 31) * 1024) 1
      pure { c with levels := 2 }
    else pure c
  if extractBit d6.edx 12 15 > 0 then
    let l3 := (extractBit d6.edx 18 31).toNat
    if l3 * 512 * 1024 ≥ 2 ^ 31 then Out.overflow
    else do
      let c ← c.put 2 (BitVec.ofNat 32 (l3 * 512 * 1024)) (BitVec.ofNat 32 cores.core)
      pure { c with levels := 3 }
  else pure c

/-- one round of the loop of xbyak_util.h 361-382 for a data or unified cache; the result has the new `smt_width`.
`assert(smt_width != 0)` is taken as the division by zero it guards. -/
def intelLevel (e : Env) (cores : Cores) (i : Nat) (smtWidth : Nat) (c : Caches) : Out (Nat × Caches) := do
  let d := e.cpuid 4 (BitVec.ofNat 32 i)
  let actual := (extractBit d.eax 14 25).toNat + 1
  let actual := if cores.core ≠ 0 then min actual cores.core else actual
  let size := (extractBit d.ebx 22 31 + 1) * (extractBit d.ebx 12 21 + 1) * (extractBit d.ebx 0 11 + 1) * (d.ecx + 1)
  let smtWidth := if extractBit d.eax 0 4 == 1 && smtWidth == 0 then actual else smtWidth
  let q ← Out.div actual smtWidth
  let c ← c.put c.levels size (BitVec.ofNat 32 (max q 1))
  return (smtWidth, { c with levels := c.levels + 1 })

/-- the loop of xbyak_util.h 361-382; `i` is an `int`; `none`: not finished after `fuel` rounds -/
def intelLoop (e : Env) (cores : Cores) : Nat → Nat → Nat → Caches → Option (Out Caches)
  | 0, _, _, _ => none
  | fuel + 1, i, smtWidth, c =>
    if i ≥ 2 ^ 31 then some .overflow
    else if c.levels < maxNumberCacheLevels then
      let type := extractBit (e.cpuid 4 (BitVec.ofNat 32 i)).eax 0 4
      if type == 0 then some (.ok c)
      else if type == 1 || type == 3 then
        match intelLevel e cores i smtWidth c with
        | .ok (w, c) => intelLoop e cores fuel (i + 1) w c
        | .err x => some (.err x)
        | .divZero => some .divZero
        | .overflow => some .overflow
        | .oob => some .oob
      else intelLoop e cores fuel (i + 1) smtWidth c
    else some (.ok c)

/-- xbyak_util.h 313: after the loop -/
def Caches.first (c : Caches) : Caches := { c with sharing := c.sharing.set 0 (if 1 < c.sharing0 then 1 else c.sharing0) }

/-- xbyak_util.h 274-384 `setCacheHierarchy`; `none`: a loop has not finished after `fuel` rounds -/
def caches (e : Env) (cores : Cores) (fuel : Nat) : Option (Out Caches) :=
  let t := features e
  if t.has tAMD.ty then
    let max := (e.cpuid 0x80000000 0).eax
    if max ≥ 0x8000001D then (amdLoop e cores fuel 0 Caches.init).map fun o => o.bind fun c => .ok c.first
    else if max ≥ 0x80000006 then some (amdLegacy e cores)
    else some (.ok Caches.init)
  else if t.has tINTEL.ty then intelLoop e cores fuel 0 cores.smt Caches.init
  else some (.ok Caches.init)

/-- The object after the constructor, xbyak_util.h 723-725. -/
def construct (e : Env) (fuel : Nat) : Option (Out (Cores × Caches)) :=
  match numCores e with
  | .ok c => (caches e c fuel).map fun o => o.bind fun k => .ok (c, k)
  | .err x => some (.err x)
  | .divZero => some .divZero
  | .overflow => some .overflow
  | .oob => some .oob

/-- xbyak_util.h 403-407 `getCoresSharingDataCache` -/
def Caches.getSharing (c : Caches) (i : BitVec 32) : Out (BitVec 32) :=
  if i.toNat ≥ c.levels then .err .BAD_PARAMETER
  else match c.sharing[i.toNat]? with
    | some v => .ok v
    | none => .oob

/-- xbyak_util.h 408-412 `getDataCacheSize` -/
def Caches.getSize (c : Caches) (i : BitVec 32) : Out (BitVec 32) :=
  if i.toNat ≥ c.levels then .err .BAD_PARAMETER
  else match c.size[i.toNat]? with
    | some v => .ok v
    | none => .oob

end Cpu
end Xbyak
