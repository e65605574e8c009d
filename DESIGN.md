# Formal model of xbyak (pinned in /repo)

## 1. Trusted base

* Lean 4.33.0 kernel, and the statement files being what they say.
* Axioms: at most `propext`, `Classical.choice`, `Quot.sound`; section 5 lists them for every claimed theorem.
  No own axioms, no `sorry`/`admit`, no `native_decide`, no `bv_decide`.
* The hand transcription of the C++ into Lean definitions.  Each definition cites the file and lines it models.
* The independent specifications in `Verif/Spec/`: an x86-64 decoder and effective-address semantics (`X86`, `X86Ops`, `Apx`, `Group`, `Cond`,
  `Vec`), a symbolic assembler (`Asm`), a small CPU for prologues and epilogues (`Machine`), the CPUID feature bits (`Cpuid`), the opcode
  tables of the vector instructions and pseudo-ops (`Manual`, `Pseudo`), of SSE operand classes, integer, fixed and x87, and segment register
  instructions (`Kinds`, `Gp`, `Fixed`, `Seg`, `Movd`), of vector lengths, gathers and instructions with two encodings (`VecLen`, `Gather`, `Encoding`).  They are written
  from the Intel/AMD manuals and do not mention the encoders.

## 2. What is modelled

Configuration: `XBYAK64`, Linux/GCC, exceptions enabled, AVX-512 and APX enabled, default `Allocator` or
`MmapAllocator` without MAP_JIT (with and without memfd).  The no-exception build is modelled separately for the parts C57 and C62 talk about.

| area | C++ | Lean module |
|---|---|---|
| error codes, results | xbyak.h 182-355 | `Verif/Basic.lean` |
| error messages, no-exception mode | xbyak.h 240-341 | `Verif/Errors.lean` |
| range predicates | xbyak.h 414-423 | `Verif/Arith.lean` |
| MmapAllocator, protect, getAlignedAddress | xbyak.h 469-534, 1265-1312 | `Verif/Mem.lean` |
| MmapAllocator with XBYAK_USE_MEMFD | xbyak.h 469-534 | `Verif/Memfd.lean` |
| operands, registers, changing their size | xbyak.h 551-963 | `Verif/Operand.lean` |
| register names | xbyak.h 669-727 | `Verif/Names.lean` |
| address expressions | xbyak.h 899-1078, 1318-1411 | `Verif/RegExp.lean` |
| code buffer | xbyak.h 1084-1316 | `Verif/CodeArray.lean` |
| labels | xbyak.h 1413-1696 | `Verif/Label.lean` |
| jumps, putL, align, nop, reset, ready | xbyak.h 2121-2200, 2447-2466, 2919-2960, 3208-3340 | `Verif/Gen.lean` |
| encoder primitives (prefixes, ModRM, SIB, displacement) | xbyak.h 1720-2110, 2184-2202 | `Verif/Enc.lean` |
| instruction families `op*`, and push, pop, mov, test, imul, xchg, jmp/call, segment registers | xbyak.h 2087-2118, 2172-2183, 2203-2852, 2938-3140 | `Verif/EncOps.lean` |
| all functions of xbyak_mnemonic.h | xbyak_mnemonic.h 2-1938, 1960-2664 | `Verif/Mnemonic/*.lean` |
| bswap, vmovd, vmovw | xbyak.h 3256-3285 | `Verif/EncMore.lean` |
| default encodings | xbyak.h 2917, 3203-3254 | `Verif/EncMode.lean` |
| Pack | xbyak_util.h 786-879 | `Verif/Pack.lean` |
| StackFrame | xbyak_util.h 883-1016 | `Verif/StackFrame.lean` |
| code of StackFrame | xbyak_util.h 883-1016 | `Verif/StackCode.lean` |
| 32-bit build, integer core | xbyak.h 1779-1824, 2011-2073, 2087-2114, 2172-2202, 2274-2418; xbyak_mnemonic.h 1944-1958 (with XBYAK32) | `Verif/X32.lean` |
| Cpu | xbyak_util.h 117-740 | `Verif/Cpu.lean` |
| Cpu::setFamily, Clock, Profiler (perf build) | xbyak_util.h 166-186, 743-780, 1019-1147 | `Verif/Util.lean` |
| dump | xbyak.h 1225-1246, 3231-3235 | `Verif/Dump.lean` |

Conventions of the model:

* Bytes are `BitVec 8`, addresses and `size_t` differences used as displacements are `BitVec 64` (they wrap exactly as in
  C++), sizes and offsets are `Nat` (assumption: sizes stay below 2^63, see each definition).
* A call returns `ok`, `err e` (exception with code `e`) or `ub` (out-of-bounds access, use after free, …).  The state after
  an exception is kept, so histories continue after failures.
* The allocator is an arbitrary oracle: it may fail at any call and returns arbitrary addresses and junk contents.
* `unordered_multimap` insertion order of pending references is an arbitrary oracle.
* Label objects live at abstract addresses and can be destroyed; writing through a stale pointer is `ub`.
* Encoders are writers of acts (a byte, the field of a `[rip + label]` operand, the field of a `[rip + &variable]` operand) with an `Except`
  result.  `Verif/Props/Rip.lean` runs the acts on the generator, inside arbitrary programs.
* A function of xbyak_mnemonic.h is a value of a small language (`Verif/Mnemonic/Basic.lean`): the calls of `op*` helpers with their literal
  arguments, the checks and prefixes written in the function, and its parameter types.  The table has 2633 entries.
  Statements about "every function" quantify over this table.

Not modelled: XBYAK32 but for the integer instructions of C93 (`Verif/X32.lean`), Windows/macOS specifics of memory protection, MAP_JIT, thread-local details, stream output,
the VTune mode of `Profiler`, `Cpu::putFamily`, the
execution of generated code by real hardware.

Modules that contain lemmas only: `CodeArrayLemmas`, `GenChar`, `GenSafe`, `StepSafe`, `Life`, `Keep`, `Cells`, `Refine*`, `SpecRun`, `ScopeRun`,
`Lands` (labels); `Sib`, `OpAddr`, `Head`, `Legacy`, `Vex`, `Apx`, `Sel`, `SelTable`, `High`, `Lower`, `LowerS`, `LowerG`, `Reads`, `Called`, `VecLen`, `Skip` (decoding); `Emit`, `Puts` (shape and length of what every encoder emits);
`Like`, `LikeEnc`, `LikeOps`, `LikeLeaf`, `LikeTab`, `Accept*`, `Plain`, `PlainLeaf`, `PlainWeak`, `SoundVec*`, `LowerA` (which operands are accepted); `Dec32` (decoding in 32-bit mode); `ProgMem` (memory operands of the programs of C102).

## 3. Properties

See `properties.jsonl` for the statements and `MANIFEST.json` for theorem names.  How each is expressed:

* C01-C07: functional specification of the buffer state machine; induction over the list of directives.
* C08-C11, C13, C20: refinement of the generator to a symbolic (two-pass) assembler by an invariant over all histories.
* C12, C58: frame theorems, state before = state after on failure (or prefix preserved).
* C14, C23: case analysis on `makeJmp` against a jump decoder.
* C15, C16: simulation of the string-label tables by a specification with unbounded fresh names.
* C17, C18: reference counting invariant over lifecycle histories; use-after-free is `ub` in the model.
* C19: observational equivalence of a reset generator and a fresh one.
* C21, C22, C24: consequences of the same invariant; where the code violates the property a concrete counterexample is proved
  together with a `_partial` theorem.
* C25, C26: arithmetic plus an independent NOP decoder.
* C27, C28, C32: semantics of address expressions over register files.
* C29, C30, C33-C41, C46-C48, C61, C64: encoder model composed with the independent decoder is the identity on operands; finite bit-field
  facts by exhaustive kernel evaluation over complete finite domains, lifted to symbolic displacements/immediates.
* C31: position of every field inside the emitted acts (`Emit`, `Puts`) composed with the label refinement.
* C42 (every leaf of the table with a register or index from 16 on ends in EVEX or an error), C44, C65: theorems over the complete mnemonic table.
* C45: a decoder recovers a selector (space, map, prefixes, opcode, W, extension, register/memory, immediate) from what any function writes;
  the selectors of all functions are compared pairwise in the kernel.
* C66: the same selectors compared with an opcode table written from the manual (`Verif/Spec/Manual.lean`).
* C67: every body is reduced to the calls of `opVex` it makes (`Lower`), each call is decoded completely (`Reads`), and for every function the
  slots it fills are compared with the operand roles of the manual's form in the kernel (`Props/Roles.lean`).
* C68: the same for the calls of `opSSE` (`LowerS`), together with the operand classes of the manual (`Spec/Kinds.lean`).
* C69: the helpers for integer instructions are reduced to `opRO` (`LowerG`); which call that is depends on kinds and sizes of the arguments only,
  and all combinations of those are compared in the kernel with the forms of the manual (`Spec/Gp.lean`).
* C70, C71: byte lists and x87 forms compared with tables written from the manual (`Spec/Fixed.lean`); the memory forms are reduced to `opMR`.
* C72-C74: the helpers are decoded with readers for TEST, IMUL, BSWAP and segment register instructions (`Spec/Group.lean`, `Spec/Seg.lean`); an
  override prefix is put in front of any instruction.  C76: the readers are `Spec/Movd.lean`.  C78: the modifiers of the operands are compared with the fields of the prefix that
  `Spec/Head.lean` reads (`Says`).  C77: the same for the length field, against `Spec/VecLen.lean`.  C79: C67 and C77 put together for gathers and scatters, against
  `Spec/Gather.lean`.  C80: a state machine for the two defaults, and the head of the bytes for every function of `Spec/Encoding.lean`.  C81: lists of the mnemonics with `{er}` and `{sae}` and the width of their source, `Spec/Round.lean`.  C82: forms with operand sizes transcribed from the APX specification, `Spec/ApxForms.lean`.  C83: a decoder of its own for these instructions, `Spec/Misc.lean`.  C84: base, index, scale and displacement of the decoded operand,
  not only their sum (`RegExp.Parts`).  C85: an equivalence of operands (`Reg.Like`, `Addr.Like`: the number only
  within classes, displacement by range, scale by being 2); every encoder treats equivalent operands alike.  C86: C85 reduces all operands of a kind to finitely many
  representatives, on which the complete table is evaluated in the kernel against the forms of `Spec/Gp.lean`, `Spec/Manual.lean`, `Spec/Kinds.lean` and `Spec/Sizes.lean`.  C87: whether a vector function accepts undecorated operands depends on kinds, sizes and bit 4 of the
  numbers (`Body.quick`, proved equal to the model's outcome); evaluated in the kernel against `Spec/VecForms.lean`.  C88: the converse; the condition of acceptance of the five most frequent
  helpers is inverted (which classes of registers the flags allow), the other functions are evaluated on representatives of all kinds of operands.  C89: the text printed is a list of characters; the reader skips line ends and
  takes two digits per byte.  C90: `eax` of leaf 1 as a number in its fields; the time measured as an integer sum.  C91: who owns which open file; a reader of "START SIZE NAME" lines.  C92: the lists of instructions without `{k1}` and of lines with `mNNbcst` (`Spec/Masks.lean`), operands as in C87.  C93: a decoder for 32-bit mode written from the opcode maps (one-byte map, 0F B6/B7/BE/BF, optional 66), memory operands as base, index*scale and displacement modulo 2^32.  C94: the mnemonics, index and data widths of `Spec/Gather.lean` (also C79), addresses as programs write them.  C95: the forms of `Spec/ApxForms.lean` (also C82) with their operand kinds and sizes.  C96: general registers and memory of one size (`GpIs`); the suffix lists of C44 and the names of C46 and C64.  C97: `X86.skip` (`Spec/Skip.lean`), a length decoder from the opcode maps, and the relation `X86.Stream`.  C98: `X86.direct` (`Spec/Direct.lean`), a decoder of relative jumps; the state machine of C08-C11.  C99: the open descriptors as a set, with the rest of the program as another set that may change at any time.  C101: `X86.mov` (`Spec/Mov.lean`), a decoder of 88-8B and A0-A3.  C75: list semantics of `Pack`, an access outside its table is a separate outcome.
* C43: a length bound for every helper, then over the complete mnemonic table.
* C49-C51: StackFrame model over all configurations and a small CPU for push/pop/mov/add/sub.
* C100: the same CPU fetching and decoding its instructions from memory (`Spec/Run.lean`), so that the theorems go from the bytes the encoders write to the state after the return.
* C102: two semantics that do not know each other (`Spec/Prog.lean`): the program as written (position in the list of statements, registers, flags, memory; a label is found by
  its own rule for objects, strings, `@b`/`@f` and dot labels), and a processor that fetches and decodes; they share only what an arithmetic or stack operation does to its operands.  The
  program, which may have data between its instructions, stands between arbitrary legal calls; the layout connects statement positions with addresses and is proved to exist and to be unique.  Returns and
  jumps through registers or memory go to the statement whose address is there, so the meaning of a program depends on the layout exactly where the program looks at addresses.
* C52, C53: allocator history invariant; bit arithmetic.
* C54, C55, C63: Cpu feature detection as a function of an arbitrary CPUID response.
* C56, C59, C60: complete finite tables.
* C57, C62: small state machine for the no-exception build.

"Partial" in MANIFEST.json means that the property as stated is false for the pinned code or that a hypothesis is needed; the
`_partial` theorem says which, and the counterexamples are theorems too (section 4).

## 4. Findings

Places where the pinned code does not do what the property says.  Each has a machine-checked counterexample in the model unless it is
marked "(read)", which means noticed while transcribing and not stated as a theorem.

Labels and buffer:

1. `assignL` with pending absolute references to the destination in a fixed buffer patches them with the current position instead of the
   source's (xbyak.h 1622-1629; `c10_refuted`).
2. `assignL` onto a label that was never used binds nothing: later jumps to it stay undefined (`c08_refuted`, `c11_refuted`), and a pointer to the
   label stays in the manager after the label is destroyed (`c17_assignL_fresh_dst_dangles`).
3. `reset()` does not clear the identity of labels that are used but undefined, so they alias labels created later (`c19_refuted`).
4. `makeJmp`/`opJmpAbs` check the range before subtracting the instruction length: targets at the lower end wrap around (`c23_refuted`).
5. Code added after a first `ready()` in AutoGrow mode is never completed (`c24_refuted`).
6. A definition that fails with LABEL_IS_TOO_FAR stays registered, with some references already patched (read).
7. Copying a referenced but undefined `Label` gives a copy that is not registered (read).
8. No-exception build: when growing fails the next `db` writes past the buffer, when the constructor cannot allocate it writes through a
   null pointer (`NoEx.c62_refuted_grow`, `NoEx.c62_refuted_null`).
9. `ConvertErrorToString` of a negative value reads in front of the table (`c59_refuted_negative`).

Encoders:

10. APX shifts/rotates by an immediate and APX `rorx` with `[rip + label]`: the immediate byte is not counted, the operand is off by one
    (xbyak.h 2279, 2540; `c46_refuted_rip`, `c31_refuted_rorx`; `c31_where`: no other function).
11. VEX gathers with index registers 16-31 encode the index modulo 16 (`c38_refuted_vsib`).
12. `mov(ah, ptr[r8])`, `movzx(rax, ah)` and the APX forms with ah..bh encode spl..dil (`c35_refuted_mov`, `c35_refuted_movzx`, `c41_refuted_high`,
    `c46_refuted_high`).
13. 8-bit operations and `mov(reg, imm)` truncate immediates silently (`c36_refuted_byte`).
14. A tile register as index is encoded as a general register (`c32_refuted_tile`).
15. `ptr[uint64_t]` with VEX or APX instructions writes no ModRM byte (`c38_refuted_disp64`, `c41_refuted_disp64`).
16. The APX forms never write the 67 prefix for 32-bit addressing (`c41_refuted_addr32`).
17. The APX forms do not compare operand sizes (`c41_refuted_size`, `c44_refuted_ccmp`); setcc and cmovcc accept wrong sizes
    (`c44_refuted_setcc`, `c44_refuted_cmov`).
18. Three-operand forms with a destination that is not a general register emit nothing, or the immediate only (`c41_refuted_empty`,
    `c64_refuted_empty`).
19. `setBit` returns at once when the size fits and accepts opmask registers: `k4.cvt8()` is ah (`Reg.c56_refuted_class`).
20. `push`/`pop` of r16w, r16d, r16b are 64-bit operations (`c47_refuted_size`).
21. The one-byte `xchg` does not compare sizes and takes ah; `xchg(xmm1, ptr[rax])` is accepted (`c48_refuted_size`, `c48_refuted_high`,
    `c48_refuted_xmm`).
22. EVEX rounding: accepted with a memory operand by vcvtsi2sh/vcvtusi2sh, accepted on 128-bit operands; rounding, zeroing and a second
    opmask attached to an address are dropped (`c39_refuted_mem_rounding`, `_xmm_sae`, `_xmm_cvt`, `_addr_rounding`, `_addr_zero`, `_two_masks`).
23. `jmp(qword[..])` is refused while `jmp(dword[..])`, `jmp(eax)` are accepted and `jmp(ax)` emits the 66 form (`c61_refuted_size`).
24. Shifts and one-operand instructions: MMX/XMM destination or operand accepted, the destination dropped, 128-bit memory treated as 32-bit,
    memory without a size treated as 32-bit (`c46_refuted_kind`, `_dst`, `_size`, `_unsized`, `c64_refuted_kind`, `_unsized`).
25. `putSeg` emits the prefixes es, cs, ss, ds rotated by one: 2E/36/3E/26 instead of 26/2E/36/3E (`c74_refuted_put`; xbyak.h 3119-3131).
    `push`/`pop` of es, cs, ss, ds write opcodes that are invalid in 64-bit mode, `mov(cs, ax)` writes 8E C8 (`c74_refuted_stack`, `_cs`).
    `lss(r16d, [rax])` writes REX2.M0 and a further 0F byte; `lss(ax, dword[rcx])` has no 66 (`c74_refuted_rex2`, `_size`).
26. Wrong EVEX displacement unit: vcvtsd2si/vcvttsd2si scale disp8 by 4 and vcvtss2si/vcvttss2si by 8, the wrong way round (xbyak_mnemonic.h
    1222-1231, 1885-1888; reached with a base from r16 on); vcvthf82ph and vcvtne2ph2bf8, -bf8s, -hf8, -hf8s do not scale at all (2197-2201), so
    `vcvtne2ph2bf8(xmm1, xmm2, ptr[rax+16])` reads rax+256 (`Mn.c67_refuted_unit`).
27. General registers passed as `Xmm(r.getIdx())` (`vmovq(xmm, r64)`, `opCvt3`): r16-r31 set EVEX.X instead of B4 (`Mn.c67_refuted_gpr`).
36. `vmpsadbw` with EVEX accepts a broadcast (`Mn.c67_refuted_bcast`); `vscalefpbf16(x, op)` has two operands, the first source becomes
    register 0 (2626; `Mn.c67_refuted_vscalef`).
37. Missing operand checks in SSE functions: ymm and zmm registers are taken for xmm or mm ones (`movapd([m], ymm)` stores 16 bytes, `psllw(ymm, i)`
    shifts an mm register; `Mn.c68_refuted_ymm`); `maskmovq`, `movdq2q`, `movq2dq` and `pshufw` take xmm registers for mm ones (`Mn.c68_refuted_mm`).
38. Missing operand checks in integer functions: register kinds (`add(xmm1, xmm2)` is `add ecx, edx`, `Mn.c69_refuted_kind`), byte registers
    (`imul(al, cl)` is `imul eax, ecx`, `bsf(al, [m])`, `movzx(al, [m])`; `Mn.c69_refuted_byte`); memory sizes are compared with the register that
    stands for the ModRM.reg extension, so `cmpxchg8b(qword[..])`, `cmpxchg16b(xword[..])`, `fldcw(word[..])` are refused while
    `cmpxchg8b(dword[..])`, `cmpxchg16b(qword[..])`, `fldcw(dword[..])` are accepted (`Mn.c69_refuted_size`); `bndcl(bnd, r32)` is written as with
    the 64-bit register, and 16-bit memory operands put 66 in front of the mandatory prefix (`Mn.c69_refuted_bound`).
39. `fcmovb(st1, st0)` and the other FCMOVcc, `fcomi`, `fcomip`, `fucomi`, `fucomip` with ST(0) as second operand are accepted: the second code
    passed to `opFpuFpu` is 0x00C0 etc. where 0 would refuse it, so `fcmovb(st1, st0)` writes `add cl, al` (`Mn.c71_refuted_st0`, `Mn.c71_first0`).
40. `imul(al, cl, 3)` is `imul eax, ecx, 3`; `imul(r16d, rcx, 3)` is accepted (`c72_refuted_byte`, `_width`).
28. vmovdqa32 and others carry rounding flags, so meaningless rounding is accepted (read).
29. Some functions write another instruction than the one they are named after (`Mn.c45_refuted_*`): `vpermq(ymm, ymm, ymm)` is VEX `vpermd`
    (no T_MUST_EVEX, line 1435); `vp2intersectd` and `vp2intersectq` are written with the same, undefined, VEX bytes (2427, 2428);
    `pshufd`/`pshufhw`/`pshuflw` with mmx registers are `pshufw` (858-860); `vmovhps(xmm, xmm)` is `vmovlhps`, `vmovlps(xmm, xmm)` is
    `vmovhlps`; `pinsrd`/`pextrd` with a 64-bit register are `pinsrq`/`pextrq`; `addps(xmm, word[...])` and the other SSE instructions
    without mandatory prefix get the prefix 66, so `addps` becomes `addpd`.
30. Vector registers 16-31 are truncated instead of refused: ymm16-ymm31 (and zmm) by SSE functions that only ask `isXMM`, the fourth operand of
    vblendvps and the like, and the index of AVX2 gathers (`Mn.c42_refuted_ymm`, `_is4`, `_index`).
35. Encodings no manual has: `pslldq(ymm, imm)`/`psrldq(ymm, imm)` become 0F 73 /7 and /3 without 66 (867, 878); `vsm3msg1`, `vsm3msg2`, `vsm3rnds2`
    with xmm16-31 are written with EVEX (1556-1558) (`Mn.c66_refuted_*`).
31. An error in the middle of an instruction leaves the bytes already written (read).

Util:

32. `Cpu::getNumCores(CoreLevel)` divides by zero on CPUs that are neither Intel nor AMD, and for some AMD and Intel answers; the loop over
    leaf 0xB need not end, and products of the topology fields overflow (`Cpu.c55_refuted_*`).
33. AVX512 features are read from leaf 7 without `maxNum >= 7`; KEYLOCKER_WIDE from the wrong place; 17 features without the
    operating-system state check; AVX10 version cut to 7 bits; AVX512F does not imply AVX (`Cpu.c63_refuted_*`, `Cpu.c54_refuted_avx`).
34. `StackFrame` with a stack size near INT_MAX overflows a signed int (modelled as a separate outcome).
41. `Pack::sub(pos)` with pos beyond the size, and `sub(pos, num)` with a wrapping pos + num, read and write outside the tables
    (`Pack.c75_refuted_pos`, `Pack.c75_refuted_num`; xbyak_util.h 786-879).
42. `vmovd`/`vmovw` accept an opmask on their operands although no form has one; the bytes written are no instruction (`c76_refuted_mask`).
43. Modifiers (opmask, `T_z`) put on some operands are silently dropped instead of encoded or refused: on a general register that is passed on as `Xmm(idx)` (`c78_refuted_gpr`), on the
    fourth register of `vblendvps` and the like (`c78_refuted_is4`), on the registers of a gather with VEX and a ymm index (`c78_refuted_gather`), `T_z` on an address (`c78_refuted_zero`), and the
    register's opmask when the address has a different one (`c78_refuted_masks`).
44. Operands of different widths are accepted and encoded with the width of the first: `vaddps(xmm1, xmm2, ymm3)` (`c77_refuted_narrow`), `vblendvps` with a ymm mask (`c77_refuted_is4`),
    `vgatherqps(zmm1, [rax+ymm2], xmm3)` (`c77_refuted_gather`); `vcvtpd2ps(xmm1, zword[rax])` converts 128 bits (`c77_refuted_small`), `vcvtpd2ps(ymm1, yword[rax])` 512
    (`c77_refuted_large`); a tile register as source clears the length (`c77_refuted_tile`); `vp2intersectd/q` are written with VEX.128 for low registers (`c77_refuted_vp2intersect`).
45. `vgatherdps(xmm1, [rax+xmm17], xmm2)` (VEX) passes the check for distinct registers and is then encoded with index xmm1, which is undefined (`c79_refuted_high`); the prefetches
    `vgatherpf0dps` etc. are accepted without an opmask, which is undefined (`c79_refuted_prefetch`).
46. **Rounding where the manual has none** (xbyak_mnemonic.h, flags `T_ER_*`, `T_SAE_*`).  `vmovddup`, `vmovdqa32/64` and `vmovdqu8/16/32/64` accept a rounding
    mode (`c81_refuted_er`); `vcvttph2ibs/iubs`, `vcvttps2ibs/iubs` accept a rounding mode and refuse `T_sae`, which they have (`c81_refuted_trunc`);
    28 integer and bf16 instructions accept `T_sae` (`c81_refuted_sae`).  The processor raises #UD.
47. **Rounding with other widths** (xbyak.h 1900-1913).  `vcvtps2pd(xmm1, xmm2|T_sae)` becomes the form that writes ymm1 (`c81_refuted_xmm`);
    `vaddpd(zmm1, zmm2, ymm3|T_rn_sae)` becomes the 256-bit form (`c81_refuted_mixed`).
48. **`T_sae` refused** for `vcmp*sd`, `vcmp*ss`, `vfixupimmsd` and `vfixupimmss` with xmm registers: they have the flag of the vector forms (`c81_refuted_scalar`).
49. **`T_nf` dropped** by `blsi`, `blsmsk`, `blsr` without a register 16–31, and by BMI instructions when it is on another operand than the first: `opRRO` (xbyak.h 2541) looks only at its first argument (`c82_refuted_nf`).
50. **General registers 16–31 taken as vector registers** by the SHA instructions: `sha1msg1(xmm1, r16)` is written, `sha1msg1(xmm1, rax)` refused (`c82_refuted_sha`).
51. **RET truncates**: `ret(65536)` is written as C2 00 00 (release nothing), `ret(-1)` as `ret 65535`; same for `retf` (`c83_refuted_ret`).
52. **Register kinds unchecked**: `in_(st0, dx)` is written as `in eax, dx`; `umonitor(mm1)`, `umonitor(k1)` as `umonitor(rcx)` (`c83_refuted_in`, `c83_refuted_umonitor`).
53. **MOVDIR64B** takes any register (`xmm1`, `cx` like `rcx`), takes `dword` memory and refuses `zword`, the size it has (`c83_refuted_movdir`).
54. **TILESTORED changes the stride**: it does not use `opAMX`, so `tilestored([rax*2], tmm1)` is written as `[rax+rax]` and `[rax]` without SIB byte (`c84_refuted_store`).
55. **BNDLDX becomes BNDMOV** with a `word` memory operand (`c84_refuted_word`).
56. **Documented memory sizes are refused**: `cvtsd2si(eax, qword[..])`, `cvttsd2si(eax, qword[..])`, `cvtss2si(rax, dword[..])`, `cvttss2si(rax, dword[..])`,
    `cvtpd2pi`/`cvttpd2pi(mm, xword[..])`, `pinsrw(mm, word[..], i)`, `punpcklbw/wd/dq(mm, dword[..])`, `movntdq`/`movntpd(xword[..], xmm)` (these two accept a word),
    `fbld`/`fbstp(tword)`, `fnstcw`/`fnstsw(word)` and those of finding on `c69_refuted_size`: the size is compared with that of the other register
    (`c86_refuted_gp`, `c86_refuted_sse`).  Without a size they are accepted.
57. **VSM4KEY4, VSM4RNDS4 with ymm and zmm registers are refused** although documented: `T_YMM` is missing in xbyak_mnemonic.h 1559, 1560 (`c87_refuted_sm4`).
58. `vextractps(rax, xmm1, i)` is refused while `extractps(rax, xmm1, i)` is accepted; the manual has `reg/m32` for both (`c87_refuted_vextractps`).
59. `vpbroadcastb(xmm1, ah)` is written as `vpbroadcastb(xmm1, spl)` (`c35_refuted_vpbroadcastb`).
60. **VSM3MSG1, VSM3MSG2, VSM3RNDS2 have no EVEX form** in the table of the specification (unlike VSM4KEY4 and VSM4RNDS4), but 1556–1558 have `T_EVEX`: `vsm3msg1(xmm17, xmm2, xmm3)` is written (`c88_refuted_sm3`).
61. **Scalar instructions with ymm and zmm registers**: `vrsqrt14sd(ymm1, ymm2, ymm3)` (2617, 2618 have `T_YMM`) and `vcmpsd(k1, ymm2, ymm3, i)` (all scalar compares to a mask) are written
    (`c88_refuted_vrsqrt14sd`, `c88_refuted_vcmpsd`).
62. **`vblendvpd(xmm1, xmm2, xmm3, xmm16)` is written as with xmm0** (1069, 1070, 1397): the fourth operand is not looked at (`c88_refuted_vblendvpd`).
63. `vmovmskpd(mm1, xmm2)`, also with `k1` or `st1`, is written as `vmovmskpd(ecx, xmm2)`; `vmaskmovdqu(xmm1, ymm2)` as with xmm2 (`c88_refuted_vmovmskpd`, `c88_refuted_vmaskmovdqu`).
64. Most vector functions take any register for their last `Operand` (`vaddps(xmm1, xmm2, eax)`, `vcvtss2usi(eax, ecx)`, `vfpclasspbf16(k1, ecx, 0)`, …), and none looks at the size of memory
    (`c88_refuted_operand`, `c88_refuted_size`).
65. `dump` prints at most 64 bytes, without a sign that more follow (`c89_truncates`).
66. **`CodeGenerator::dump()` of the test build clears the size but not the labels** (3231–3235): a jump of the dropped code that waits for its label is patched into the new code
    (`c89_refuted_clear`).
67. **`Profiler` can be copied** (1019–1147): it has a destructor that closes its file and no copy constructor of its own, so the file is closed twice (`c91_refuted_copy`).
68. **`vcompressps(ptr[rax]|k1, zmm1)` is refused**: `T_M_K` is missing at the compressing stores (xbyak_mnemonic.h 2185–2186, 2461–2464) and the extracting ones (2296–2303), though a masked store is what the former are for (`c92_refuted_compress`, `c92_refuted_extract`).
69. **`valignd` and `valignq` have no broadcast** (2035, 2036): `T_B32`, `T_B64` are missing (`c92_refuted_valign`).
70. **Opmasks are not checked on registers**: `vaesenc(xmm1|k1, xmm2, xmm3)`, `vpsadbw`, `vcomiss` and the others without `{k1}` are written with EVEX.aaa ≠ 0 and fault (`c92_refuted_reg`); so is `vcvtsi2sh(xmm1, xmm2, dword[rax]|k1)`, which has `T_M_K` (2238, 2282) (`c92_refuted_source`); `vpcmpeqd(k1|k2|T_z, zmm1, zmm2)` is written with EVEX.z (`c92_refuted_zero`).
71. **32-bit build: the moffs forms of `mov` do not compare sizes** (the accumulator branch): `mov(ax, dword[0x1000])` is accepted and loads all of eax (no 66), `mov(dword[0x1000], ax)` stores four bytes of eax,
    `mov(al, dword[0x1000])` loads one byte; any other register is refused (`c93_refuted_mov`).
72. **`xchg` with eax or ax does not compare sizes in the 32-bit build either** (finding 21): `xchg(eax, cx)` exchanges eax and ecx, `xchg(ax, ah)` exchanges ax and sp (`c93_refuted_xchg`).
73. **32-bit build: sizes of memory operands**: `jmp(byte[eax])` is accepted and reads four bytes; `les(ax, dword[ecx])`, whose operand has 32 bits, loads eax; `movzx(al, ptr[eax])` is accepted and writes eax
    (`c93_refuted_jmp`, `c93_refuted_loadSeg`, `c93_refuted_movxx`).
74. **INC and DEC with NF need a destination**: the APX specification has `{nf} inc r/m`, but `inc(eax|T_nf)` throws ERR_INVALID_NF: the one-operand branch of `opIncDec` (xbyak.h 2387-2395) passes type 0 to `opRext`; `inc(eax|T_nf, eax)` works (`c96_refuted_inc`).
75. **FADDP ST(0), ST(0) cannot be written**: `faddp(st0, st0)` and `faddp(st0)` throw ERR_BAD_ST_COMBINATION, though DE C0 is an instruction of the manual; likewise fmulp, fsubp, fsubrp, fdivp, fdivrp. `opFpuFpu` (xbyak.h 2486-2492) takes the code for a first operand ST(0), which these instructions do not have, even if the second one is ST(0) too (`c86_x87_refuted`).
76. **mov takes vector registers**: `mov(xmm1, xmm2)` is accepted and writes 89 D1, `mov ecx, edx`; `mov(ptr[rax], xmm1)` writes `mov [rax], ecx`. `opRO_MR` compares only the kinds of two registers and does not look at the kind of a register stored to memory (xbyak.h 2333-2341; `c101_refuted_xmm`). The same holds for add, or, adc, sbb, and, sub, xor, cmp (same function).

## 5. Axioms of the claimed theorems

(`#print axioms`; names without the leading `Xbyak.`)

**none**: `NoEx.c62_refuted_grow`

**propext**: `Mem.c52_unknown`, `Mn.c65_pred_inj`, `Reg.c56_refuted_class`, `c05_alloc_failure_loses_nothing`, `c06_rewrite_refuses`,
`c59_message`, `c89_truncates`

**propext, Quot.sound**: `Clock.c90_clock`, `Clock.c90_intervals`, `Cpu.c54_has`, `Cpu.c54_refuted_avx`, `Cpu.c55_bounds`, `Cpu.c55_levels`,
`Cpu.c55_refuted_amd`, `Cpu.c55_refuted_cores`, `Cpu.c55_refuted_hang`, `Cpu.c55_refuted_intel`, `Cpu.c55_refuted_overflow`,
`Cpu.c63_refuted_avx10`, `Cpu.c63_refuted_keylocker`, `Cpu.c63_refuted_leaf`, `Cpu.c63_refuted_state`, `E32.c93_example`, `E32.c93_fixed`,
`E32.c93_jmp_accepts`, `E32.c93_loadSeg_accepts`, `E32.c93_pushI_accepts`, `E32.c93_refuted_jmp`, `E32.c93_refuted_loadSeg`,
`E32.c93_refuted_mov`, `E32.c93_refuted_movxx`, `E32.c93_refuted_xchg`, `Memfd.c99_failed`, `Memfd.c99_free`, `Memfd.c99_maps`,
`Mn.c35_refuted_vpbroadcastb`, `Mn.c42_refuted_index`, `Mn.c42_refuted_is4`, `Mn.c42_refuted_ymm`, `Mn.c45_family`, `Mn.c45_refuted`,
`Mn.c45_refuted_pextrd`, `Mn.c45_refuted_pinsrd`, `Mn.c45_refuted_pshuf`, `Mn.c45_refuted_vmovhps`, `Mn.c45_refuted_vmovlps`,
`Mn.c45_refuted_vp2intersect`, `Mn.c45_refuted_vpermq`, `Mn.c45_refuted_word`, `Mn.c65_avx`, `Mn.c65_clmul`, `Mn.c65_sse`, `Mn.c66_refuted`,
`Mn.c66_refuted_pslldq`, `Mn.c66_refuted_sse`, `Mn.c66_refuted_vex`, `Mn.c66_refuted_vsm3`, `Mn.c68_refuted_mm`, `Mn.c68_refuted_ymm`,
`Mn.c69_cover`, `Mn.c69_refuted_bound`, `Mn.c69_refuted_byte`, `Mn.c69_refuted_kind`, `Mn.c69_refuted_size`, `Mn.c70_cover`, `Mn.c70_fixed`,
`Mn.c71_cover_mem`, `Mn.c71_cover_reg`, `Mn.c71_first0`, `Mn.c71_refuted_st0`, `Mn.c71_reg_partial`, `Mn.c74_load_table`,
`Mn.c77_refuted_gather`, `Mn.c77_refuted_is4`, `Mn.c77_refuted_large`, `Mn.c77_refuted_narrow`, `Mn.c77_refuted_small`,
`Mn.c77_refuted_tile`, `Mn.c77_refuted_vp2intersect`, `Mn.c79_refuted_high`, `Mn.c79_refuted_prefetch`, `Mn.c79_refuted_zmm`,
`Mn.c80_error`, `Mn.c80_last`, `Mn.c80_space`, `Mn.c81_admits`, `Mn.c81_refuted_er`, `Mn.c81_refuted_mixed`, `Mn.c81_refuted_sae`,
`Mn.c81_refuted_trunc`, `Mn.c81_refuted_xmm`, `Mn.c82_cover`, `Mn.c82_refuted_nf`, `Mn.c82_refuted_sha`, `Mn.c83_refuted_in`,
`Mn.c83_refuted_movdir`, `Mn.c83_refuted_ret`, `Mn.c83_refuted_umonitor`, `Mn.c84_refuted_store`, `Mn.c84_refuted_word`, `Mn.c85_boundary`,
`Mn.c85_compare`, `Mn.c86_refuted_gp`, `Mn.c86_refuted_sse`, `Mn.c86_x87_partial`, `Mn.c86_x87_refuted`, `Mn.c87_refuted_sm4`,
`Mn.c87_refuted_vextractps`, `Mn.c88_refuted_operand`, `Mn.c88_refuted_size`, `Mn.c88_refuted_sm3`, `Mn.c88_refuted_vblendvpd`,
`Mn.c88_refuted_vcmpsd`, `Mn.c88_refuted_vmaskmovdqu`, `Mn.c88_refuted_vmovmskpd`, `Mn.c88_refuted_vrsqrt14sd`, `Mn.c92_bcast_has_mem`,
`Mn.c92_refuted_compress`, `Mn.c92_refuted_extract`, `Mn.c92_refuted_valign`, `Mn.c96_refuted_inc`, `Mn.c97_fixed_partial`,
`Mn.c97_fpu_reg_partial`, `Mn.c97_prefix`, `Mn.c97_refuted`, `Mn.c97_rep`, `Mn.c97_same`, `Mn.c97_seg`, `Mn.c97_stack_seg_partial`,
`Mn.c97_stream`, `Mn.c97_unique`, `NoEx.c57_first`, `NoEx.c62_refuted_null`, `Pack.c75_append`, `Pack.c75_get`, `Pack.c75_init`,
`Pack.c75_make`, `Prof.c91_files_partial`, `Prof.c91_line`, `Prof.c91_off`, `Prof.c91_refuted_copy`, `Reg.c60_distinct`, `Reg.c60_manual`,
`SF.c49_regs`, `c01_data_directives`, `c02_fixed_never_overrun`, `c06_rewrite_exact`, `c07_setSize`, `c101_refuted_xmm`, `c26_nop`,
`c28_encodable`, `c28_value`, `c30_factors`, `c31_refuted_rorx`, `c31_where`, `c32_refuted_tile`, `c35_mr_partial`, `c35_refuted_mov`,
`c35_refuted_movzx`, `c36_refuted_byte`, `c38_refuted_disp64`, `c38_refuted_vsib`, `c38_reg`, `c39_length`, `c39_length_rounding_partial`,
`c39_refuted_addr_rounding`, `c39_refuted_addr_zero`, `c39_refuted_mem_rounding`, `c39_refuted_two_masks`, `c39_refuted_xmm_cvt`,
`c39_refuted_xmm_sae`, `c41_refuted_addr32`, `c41_refuted_disp64`, `c41_refuted_empty`, `c41_refuted_high`, `c41_refuted_size`, `c44_alias`,
`c44_jcc_names`, `c44_negate`, `c44_refuted_ccmp`, `c44_refuted_cmov`, `c44_refuted_setcc`, `c44_unique`, `c46_only_cl`, `c46_refuted_dst`,
`c46_refuted_high`, `c46_refuted_kind`, `c46_refuted_rip`, `c46_refuted_size`, `c46_refuted_unsized`, `c47_refuted_size`,
`c48_refuted_high`, `c48_refuted_size`, `c48_refuted_xmm`, `c59_distinct`, `c59_refuted_negative`, `c59_total_partial`, `c59_what`,
`c61_refuted_size`, `c64_refuted_empty`, `c64_refuted_kind`, `c64_refuted_unsized`, `c72_refuted_byte`, `c72_refuted_width`,
`c74_put_partial`, `c74_refuted_cs`, `c74_refuted_put`, `c74_refuted_rex2`, `c74_refuted_size`, `c74_refuted_stack`, `c74_stack_partial`,
`c76_refuted_mask`, `c80_default`, `c80_default_error`

**propext, Classical.choice, Quot.sound**: `Asm.c08_fixed_buffer_partial`, `Asm.c08_refuted`, `Asm.c09_autogrow_partial`,
`Asm.c10_absolute_partial`, `Asm.c10_refuted`, `Asm.c11_refuted`, `Asm.c11_undefined_partial`, `Asm.c13_forward_anonymous`,
`Asm.c13_forward_local`, `Asm.c13_forward_name`, `Asm.c13_forward_object`, `Asm.c13_success_object`, `Asm.c15_back`, `Asm.c15_forward`,
`Asm.c15_no_back`, `Asm.c15_not_definable`, `Asm.c16_back`, `Asm.c16_forward`, `Asm.c16_fresh_scope`, `Asm.c16_global_back`,
`Asm.c16_global_forward`, `Asm.c16_no_capture`, `Asm.c16_out`, `Asm.c16_out_under`, `Asm.c18_bound_jump`, `Asm.c19_refuted`,
`Asm.c19_reset_partial`, `Asm.c20_definition_partial`, `Asm.c20_no_alias_partial`, `Asm.c21_future_partial`, `Asm.c21_past_partial`,
`Asm.c23_partial`, `Asm.c23_refuted`, `Asm.c23_too_far`, `Asm.c24_partial`, `Asm.c24_refuted`, `Asm.c44_jcc`, `Asm.c44_jcc_addr`,
`Asm.c97_jcc`, `Asm.c97_label`, `Asm.c98_addr_partial`, `Asm.c98_label`, `CA.c89_read`, `CA.c89_text`, `Cpu.c54_avx512`,
`Cpu.c54_avx_partial`, `Cpu.c55_division_partial`, `Cpu.c55_ends`, `Cpu.c55_refuted_vendor`, `Cpu.c63_announced_partial`,
`Cpu.c63_avx10_partial`, `Cpu.c63_usable_partial`, `Cpu.c90_display`, `Cpu.c90_fields`, `E32.c93_alu`, `E32.c93_aluI`,
`E32.c93_aluI_accepts`, `E32.c93_alu_accepts`, `E32.c93_incdec`, `E32.c93_incdec_accepts`, `E32.c93_jmp_far`, `E32.c93_jmp_partial`,
`E32.c93_lea`, `E32.c93_lea_accepts`, `E32.c93_loadSeg_partial`, `E32.c93_movI`, `E32.c93_movI_accepts`, `E32.c93_mov_accepts`,
`E32.c93_mov_partial`, `E32.c93_movxx_accepts`, `E32.c93_movxx_partial`, `E32.c93_pushI`, `E32.c93_pushpop`, `E32.c93_pushpop_accepts`,
`E32.c93_shiftCL`, `E32.c93_shiftI`, `E32.c93_shift_accepts`, `E32.c93_test`, `E32.c93_testI`, `E32.c93_testI_accepts`,
`E32.c93_test_accepts`, `E32.c93_unary`, `E32.c93_unary_accepts`, `E32.c93_xchg_accepts`, `E32.c93_xchg_partial`, `G.c89_clear`,
`G.c89_refuted_clear`, `Mem.c52_alloc`, `Mem.c52_double`, `Mem.c52_exact`, `Mem.c52_free`, `Mem.c53_aligned`, `Mem.c53_protect`,
`Memfd.c99_exact`, `Memfd.c99_none_left`, `Mn.c42_index_partial`, `Mn.c42_noEvex`, `Mn.c42_refuses`, `Mn.c42_xmm_partial`,
`Mn.c42_ymm_partial`, `Mn.c45_partial`, `Mn.c45_reads`, `Mn.c66_partial`, `Mn.c67_partial`, `Mn.c67_refuted_bcast`, `Mn.c67_refuted_gpr`,
`Mn.c67_refuted_unit`, `Mn.c67_refuted_vscalef`, `Mn.c68_partial`, `Mn.c69_partial`, `Mn.c70_stsw`, `Mn.c71_mem`, `Mn.c71_wait`,
`Mn.c77_partial`, `Mn.c78_partial`, `Mn.c78_refuted_gather`, `Mn.c78_refuted_gpr`, `Mn.c78_refuted_is4`, `Mn.c78_refuted_masks`,
`Mn.c78_refuted_zero`, `Mn.c79_partial`, `Mn.c81_partial`, `Mn.c81_refuted_scalar`, `Mn.c82_partial`, `Mn.c83_movdir_partial`,
`Mn.c83_partial`, `Mn.c84_load`, `Mn.c84_mib_partial`, `Mn.c84_store_partial`, `Mn.c85_accepted`, `Mn.c85_example`, `Mn.c85_functions`,
`Mn.c85_outcome`, `Mn.c85_refused`, `Mn.c86_example`, `Mn.c86_example_sse`, `Mn.c86_gp_partial`, `Mn.c86_gp_unsized`, `Mn.c86_sse_partial`,
`Mn.c87_complete`, `Mn.c87_example`, `Mn.c87_partial`, `Mn.c88_checked_partial`, `Mn.c88_example`, `Mn.c88_partial`, `Mn.c92_bcast_partial`,
`Mn.c92_example`, `Mn.c92_mask_partial`, `Mn.c92_refuted_reg`, `Mn.c92_refuted_source`, `Mn.c92_refuted_zero`, `Mn.c94_evex`,
`Mn.c94_prefetch`, `Mn.c94_scatter`, `Mn.c94_vex`, `Mn.c95_accepts`, `Mn.c96_ccmp`, `Mn.c96_ccmpi`, `Mn.c96_cfcmov2`, `Mn.c96_cfcmov3`,
`Mn.c96_cmov`, `Mn.c96_ctest`, `Mn.c96_ctesti`, `Mn.c96_incdec_partial`, `Mn.c96_set`, `Mn.c96_shift_cl`, `Mn.c96_shift_imm`,
`Mn.c96_unary`, `Mn.c96_unary_nd`, `Mn.c97_alu`, `Mn.c97_apx_partial`, `Mn.c97_branch_partial`, `Mn.c97_bswap`, `Mn.c97_call_partial`,
`Mn.c97_calls_partial`, `Mn.c97_ccmp_partial`, `Mn.c97_cfcmov_partial`, `Mn.c97_cmov_partial`, `Mn.c97_ctest_partial`, `Mn.c97_fpu_mem`,
`Mn.c97_gp_partial`, `Mn.c97_imul_partial`, `Mn.c97_misc_partial`, `Mn.c97_mov`, `Mn.c97_mov_mem`, `Mn.c97_mov_rm_partial`,
`Mn.c97_mov_seg`, `Mn.c97_push`, `Mn.c97_push_imm`, `Mn.c97_push_mem`, `Mn.c97_set_partial`, `Mn.c97_shift_partial`, `Mn.c97_sse_partial`,
`Mn.c97_test`, `Mn.c97_unary_partial`, `Mn.c97_vec_partial`, `Mn.c97_xchg_partial`, `NoEx.c62_fixed_partial`, `NoEx.c62_grow_partial`,
`Pack.c75_refuted_num`, `Pack.c75_refuted_pos`, `Pack.c75_rest_partial`, `Pack.c75_sub_partial`, `Prof.c91_tile`, `Prog.c102_accepts`,
`Prog.c102_data`, `Prog.c102_exit`, `Prog.c102_forever`, `Prog.c102_function`, `Prog.c102_layout`, `Prog.c102_length`, `Prog.c102_only`,
`Prog.c102_run`, `Prog.c102_simulation`, `Prog.c102_table`, `Reg.c56_accept`, `Reg.c56_cvt`, `Reg.c56_kind`, `Reg.c56_roundtrip`,
`Reg.c56_view`, `SF.c100_close`, `SF.c100_enter`, `SF.c100_return`, `SF.c100_written`, `SF.c49_accept`, `SF.c50_align`, `SF.c50_locals`,
`SF.c50_preserve`, `SF.c51_params`, `c03_autogrow_progress`, `c03_autogrow_transparent`, `c04_all_writes_inside`,
`c05_failed_emission_keeps_code`, `c101_accept_abs`, `c101_accept_mem`, `c101_accept_rr`, `c101_partial`, `c12_defined_once`,
`c12_redefine_object`, `c12_redefine_string`, `c14_backward_form`, `c17_assignL_fresh_dst_dangles`, `c17_lifecycle_partial`,
`c18_copy_assign`, `c18_copy_construct`, `c22_getAddress`, `c25_align`, `c25_bad_align`, `c25_page`, `c25_succeeds`, `c27_accepts_iff`,
`c27_denotes`, `c29_setSIB`, `c30_compressed`, `c31_direct`, `c31_table_partial`, `c32_displacement_iff`, `c32_operand_iff`, `c33_byte`,
`c33_rr`, `c33_size`, `c34_mr`, `c34_rext`, `c34_ro`, `c34_size`, `c36_alu`, `c36_refuses16`, `c37_mem`, `c37_mov`, `c38_mem_partial`,
`c39_mem_partial`, `c39_reg`, `c39_unit`, `c40_refused`, `c40_rex2`, `c41_alu_partial`, `c41_alui_partial`, `c41_roo`, `c43_direct`,
`c43_jump`, `c43_table`, `c44_ccmp_names_partial`, `c44_cfcmov_names_partial`, `c44_cmov_names_partial`, `c44_compare`,
`c44_ctest_names_partial`, `c44_set_names_partial`, `c46_cl_partial`, `c46_imm_partial`, `c46_names_partial`, `c47_imm`, `c47_mem`,
`c47_reg_partial`, `c48_partial`, `c58_failing_call`, `c61_far`, `c61_near_partial`, `c64_incdec_partial`, `c64_names_partial`,
`c64_ndd_partial`, `c64_one_partial`, `c72_imul_apx_partial`, `c72_imul_partial`, `c72_test`, `c73_bswap`, `c74_from`, `c74_load_partial`,
`c74_to_partial`, `c76_vmovd_partial`, `c76_vmovw_partial`
