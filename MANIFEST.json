{
 "claims": [
  {
   "property": "C01",
   "status": "proved",
   "theorems": [
    "Xbyak.c01_data_directives"
   ],
   "note": ""
  },
  {
   "property": "C02",
   "status": "proved",
   "theorems": [
    "Xbyak.c02_fixed_never_overrun"
   ],
   "note": ""
  },
  {
   "property": "C03",
   "status": "proved",
   "theorems": [
    "Xbyak.c03_autogrow_transparent",
    "Xbyak.c03_autogrow_progress"
   ],
   "note": ""
  },
  {
   "property": "C05",
   "status": "proved",
   "theorems": [
    "Xbyak.c05_alloc_failure_loses_nothing",
    "Xbyak.c05_failed_emission_keeps_code"
   ],
   "note": ""
  },
  {
   "property": "C06",
   "status": "proved",
   "theorems": [
    "Xbyak.c06_rewrite_exact",
    "Xbyak.c06_rewrite_refuses"
   ],
   "note": ""
  },
  {
   "property": "C07",
   "status": "proved",
   "theorems": [
    "Xbyak.c07_setSize"
   ],
   "note": ""
  },
  {
   "property": "C04",
   "status": "proved",
   "theorems": [
    "Xbyak.c04_all_writes_inside"
   ],
   "note": ""
  },
  {
   "property": "C12",
   "status": "proved",
   "theorems": [
    "Xbyak.c12_redefine_object",
    "Xbyak.c12_redefine_string",
    "Xbyak.c12_defined_once"
   ],
   "note": ""
  },
  {
   "property": "C17",
   "status": "partial",
   "theorems": [
    "Xbyak.c17_lifecycle_partial",
    "Xbyak.c17_assignL_fresh_dst_dangles"
   ],
   "note": "assignL on a never referenced destination leaves a dangling pointer (counterexample proved); everything else is covered"
  },
  {
   "property": "C08",
   "status": "partial",
   "theorems": [
    "Xbyak.Asm.c08_fixed_buffer_partial",
    "Xbyak.Asm.c08_refuted"
   ],
   "note": "proved for all histories except assignL on a never used destination, where the claim is false (counterexample proved), and code beyond 2 GiB"
  },
  {
   "property": "C09",
   "status": "partial",
   "theorems": [
    "Xbyak.Asm.c09_autogrow_partial"
   ],
   "note": "proved for all histories except assignL on a never used destination (same finding as C08)"
  },
  {
   "property": "C10",
   "status": "partial",
   "theorems": [
    "Xbyak.Asm.c10_absolute_partial",
    "Xbyak.Asm.c10_refuted"
   ],
   "note": "false for assignL on a destination with pending absolute references in a fixed buffer (counterexample proved); proved otherwise"
  },
  {
   "property": "C11",
   "status": "partial",
   "theorems": [
    "Xbyak.Asm.c11_undefined_partial",
    "Xbyak.Asm.c11_refuted"
   ],
   "note": "false after assignL on a never used destination (counterexample proved); proved otherwise"
  },
  {
   "property": "C15",
   "status": "proved",
   "theorems": [
    "Xbyak.Asm.c15_back",
    "Xbyak.Asm.c15_forward",
    "Xbyak.Asm.c15_no_back",
    "Xbyak.Asm.c15_not_definable"
   ],
   "note": "for histories satisfying CallOk: code below 2 GiB - 6, no setSize/rewrite, no definition that fails because of distance"
  },
  {
   "property": "C16",
   "status": "proved",
   "theorems": [
    "Xbyak.Asm.c16_back",
    "Xbyak.Asm.c16_forward",
    "Xbyak.Asm.c16_global_back",
    "Xbyak.Asm.c16_global_forward",
    "Xbyak.Asm.c16_out_under",
    "Xbyak.Asm.c16_out",
    "Xbyak.Asm.c16_no_capture",
    "Xbyak.Asm.c16_fresh_scope"
   ],
   "note": "for histories satisfying CallOk"
  },
  {
   "property": "C18",
   "status": "proved",
   "theorems": [
    "Xbyak.c18_copy_construct",
    "Xbyak.c18_copy_assign",
    "Xbyak.Asm.c18_bound_jump"
   ],
   "note": "for histories satisfying CallOk"
  },
  {
   "property": "C19",
   "status": "partial",
   "theorems": [
    "Xbyak.Asm.c19_reset_partial",
    "Xbyak.Asm.c19_refuted"
   ],
   "note": "false when a label is used but undefined at the time of reset (counterexample proved); proved otherwise"
  },
  {
   "property": "C20",
   "status": "partial",
   "theorems": [
    "Xbyak.Asm.c20_no_alias_partial",
    "Xbyak.Asm.c20_definition_partial",
    "Xbyak.Asm.c19_refuted"
   ],
   "note": "false after reset with a used but undefined label (counterexample proved); proved otherwise"
  },
  {
   "property": "C21",
   "status": "partial",
   "theorems": [
    "Xbyak.Asm.c21_past_partial",
    "Xbyak.Asm.c21_future_partial",
    "Xbyak.Asm.c08_refuted",
    "Xbyak.Asm.c10_refuted"
   ],
   "note": "false for a never used destination and for pending absolute references in a fixed buffer (counterexamples proved); proved otherwise"
  },
  {
   "property": "C13",
   "status": "proved",
   "theorems": [
    "Xbyak.Asm.c13_forward_object",
    "Xbyak.Asm.c13_forward_name",
    "Xbyak.Asm.c13_forward_local",
    "Xbyak.Asm.c13_forward_anonymous",
    "Xbyak.Asm.c13_success_object",
    "Xbyak.Asm.c16_global_forward",
    "Xbyak.Asm.c16_forward",
    "Xbyak.Asm.c15_forward",
    "Xbyak.c14_backward_form"
   ],
   "note": "forward references of every kind of label; backward references in c14_backward_form"
  },
  {
   "property": "C14",
   "status": "proved",
   "theorems": [
    "Xbyak.c14_backward_form"
   ],
   "note": ""
  },
  {
   "property": "C22",
   "status": "proved",
   "theorems": [
    "Xbyak.c22_getAddress"
   ],
   "note": ""
  },
  {
   "property": "C23",
   "status": "partial",
   "theorems": [
    "Xbyak.Asm.c23_partial",
    "Xbyak.Asm.c23_too_far",
    "Xbyak.Asm.c23_refuted"
   ],
   "note": "false for targets within 6 bytes of the lower end of the 32-bit range (counterexample proved); proved otherwise"
  },
  {
   "property": "C24",
   "status": "partial",
   "theorems": [
    "Xbyak.Asm.c24_partial",
    "Xbyak.Asm.c24_refuted",
    "Xbyak.Asm.c09_autogrow_partial"
   ],
   "note": "code added after a first ready() is never completed (counterexample proved); the rest is proved"
  },
  {
   "property": "C25",
   "status": "proved",
   "theorems": [
    "Xbyak.c25_align",
    "Xbyak.c25_succeeds",
    "Xbyak.c25_bad_align",
    "Xbyak.c25_page"
   ],
   "note": ""
  },
  {
   "property": "C26",
   "status": "proved",
   "theorems": [
    "Xbyak.c26_nop"
   ],
   "note": ""
  },
  {
   "property": "C58",
   "status": "proved",
   "theorems": [
    "Xbyak.c58_failing_call"
   ],
   "note": ""
  },
  {
   "property": "C27",
   "status": "proved",
   "theorems": [
    "Xbyak.c27_denotes",
    "Xbyak.c27_accepts_iff"
   ],
   "note": ""
  },
  {
   "property": "C28",
   "status": "proved",
   "theorems": [
    "Xbyak.c28_value",
    "Xbyak.c28_encodable"
   ],
   "note": ""
  },
  {
   "property": "C29",
   "status": "proved",
   "theorems": [
    "Xbyak.c29_setSIB",
    "Xbyak.c34_mr"
   ],
   "note": "address bytes decode to the effective address given matching extension bits; the legacy encoders supply them"
  },
  {
   "property": "C30",
   "status": "proved",
   "theorems": [
    "Xbyak.c30_compressed",
    "Xbyak.c30_factors",
    "Xbyak.c29_setSIB"
   ],
   "note": ""
  },
  {
   "property": "C32",
   "status": "partial",
   "theorems": [
    "Xbyak.c32_operand_iff",
    "Xbyak.c32_displacement_iff",
    "Xbyak.c32_refuted_tile"
   ],
   "note": "acceptance of address expressions and displacements characterised exactly; refuted in full: a tile register used as index is silently encoded as a general register"
  },
  {
   "property": "C33",
   "status": "proved",
   "theorems": [
    "Xbyak.c33_rr",
    "Xbyak.c33_size",
    "Xbyak.c33_byte",
    "Xbyak.c34_ro",
    "Xbyak.c34_rext"
   ],
   "note": ""
  },
  {
   "property": "C34",
   "status": "proved",
   "theorems": [
    "Xbyak.c34_mr",
    "Xbyak.c34_size",
    "Xbyak.c34_ro",
    "Xbyak.c34_rext"
   ],
   "note": ""
  },
  {
   "property": "C35",
   "status": "partial",
   "theorems": [
    "Xbyak.c33_byte",
    "Xbyak.c35_mr_partial",
    "Xbyak.c35_refuted_mov",
    "Xbyak.c35_refuted_movzx",
    "Xbyak.Mn.c35_refuted_vpbroadcastb"
   ],
   "note": "register-register forms proved; refuted for mov(ah, ptr[r8]), movzx(rax, ah) and vpbroadcastb(xmm1, ah), which encode spl"
  },
  {
   "property": "C40",
   "status": "proved",
   "theorems": [
    "Xbyak.c40_rex2",
    "Xbyak.c40_refused"
   ],
   "note": ""
  },
  {
   "property": "C36",
   "status": "partial",
   "theorems": [
    "Xbyak.c36_alu",
    "Xbyak.c36_refuses16",
    "Xbyak.c36_refuted_byte"
   ],
   "note": "accepted forms carry the value modulo the operand size; 16-bit overflow refused; refuted in full: 8-bit operands accept immediates that do not fit"
  },
  {
   "property": "C37",
   "status": "proved",
   "theorems": [
    "Xbyak.c37_mov",
    "Xbyak.c37_mem"
   ],
   "note": ""
  },
  {
   "property": "C47",
   "status": "partial",
   "theorems": [
    "Xbyak.c47_reg_partial",
    "Xbyak.c47_mem",
    "Xbyak.c47_imm",
    "Xbyak.c47_refuted_size"
   ],
   "note": "operand and immediate always as requested; refuted for the operand size of r16..r31 in narrower views, which push and pop 64 bits"
  },
  {
   "property": "C48",
   "status": "partial",
   "theorems": [
    "Xbyak.c48_partial",
    "Xbyak.c48_refuted_size",
    "Xbyak.c48_refuted_high",
    "Xbyak.c48_refuted_xmm"
   ],
   "note": "proved for general registers of equal size and memory; refuted: the one-byte form does not compare sizes, and vector registers are accepted with memory"
  },
  {
   "property": "C38",
   "status": "partial",
   "theorems": [
    "Xbyak.c38_reg",
    "Xbyak.c38_mem_partial",
    "Xbyak.c38_refuted_disp64",
    "Xbyak.c38_refuted_vsib"
   ],
   "note": "proved for register operands and for well-formed memory operands; refuted for 64-bit absolute addresses (no ModRM byte is written) and for VSIB index registers 16-31"
  },
  {
   "property": "C39",
   "status": "partial",
   "theorems": [
    "Xbyak.c39_reg",
    "Xbyak.c39_mem_partial",
    "Xbyak.c39_length",
    "Xbyak.c39_length_rounding_partial",
    "Xbyak.c39_unit",
    "Xbyak.c39_refuted_xmm_sae",
    "Xbyak.c39_refuted_xmm_cvt",
    "Xbyak.c39_refuted_mem_rounding",
    "Xbyak.c39_refuted_addr_rounding",
    "Xbyak.c39_refuted_addr_zero",
    "Xbyak.c39_refuted_two_masks"
   ],
   "note": "operands, masks, broadcast and length proved; refuted for the length with SAE/rounding on 128-bit operands, rounding with a memory operand, and modifiers attached to an address"
  },
  {
   "property": "C49",
   "status": "proved",
   "theorems": [
    "Xbyak.SF.c49_regs",
    "Xbyak.SF.c49_accept"
   ],
   "note": "both calling conventions"
  },
  {
   "property": "C50",
   "status": "proved",
   "theorems": [
    "Xbyak.SF.c50_preserve",
    "Xbyak.SF.c50_locals",
    "Xbyak.SF.c50_align"
   ],
   "note": "on a machine model with push/pop/add/sub/mov/ret; the body is an arbitrary state transformer"
  },
  {
   "property": "C51",
   "status": "proved",
   "theorems": [
    "Xbyak.SF.c51_params"
   ],
   "note": ""
  },
  {
   "property": "C56",
   "status": "partial",
   "theorems": [
    "Xbyak.Reg.c56_view",
    "Xbyak.Reg.c56_accept",
    "Xbyak.Reg.c56_kind",
    "Xbyak.Reg.c56_roundtrip",
    "Xbyak.Reg.c56_cvt",
    "Xbyak.Reg.c56_refuted_class"
   ],
   "note": "proved for general, vector and tile registers; refuted for opmask, MMX and FPU registers: k4.cvt8() is ah"
  },
  {
   "property": "C61",
   "status": "partial",
   "theorems": [
    "Xbyak.c61_near_partial",
    "Xbyak.c61_far",
    "Xbyak.c61_refuted_size"
   ],
   "note": "operand always as requested; refuted for the operand size: jmp(qword[..]) is refused, jmp(dword[..]) and jmp(eax) are accepted as 64-bit jumps, jmp(ax) gives an unsupported form"
  },
  {
   "property": "C52",
   "status": "proved",
   "theorems": [
    "Xbyak.Mem.c52_exact",
    "Xbyak.Mem.c52_alloc",
    "Xbyak.Mem.c52_free",
    "Xbyak.Mem.c52_unknown",
    "Xbyak.Mem.c52_double"
   ],
   "note": "for every kernel answer; without memfd and MAP_JIT"
  },
  {
   "property": "C53",
   "status": "proved",
   "theorems": [
    "Xbyak.Mem.c53_protect",
    "Xbyak.Mem.c53_aligned"
   ],
   "note": "getAlignedAddress: as long as addr + alignment does not exceed 2^64"
  },
  {
   "property": "C57",
   "status": "proved",
   "theorems": [
    "Xbyak.NoEx.c57_first"
   ],
   "note": ""
  },
  {
   "property": "C59",
   "status": "partial",
   "theorems": [
    "Xbyak.c59_message",
    "Xbyak.c59_total_partial",
    "Xbyak.c59_refuted_negative",
    "Xbyak.c59_what",
    "Xbyak.c59_distinct"
   ],
   "note": "proved for every non-negative int; a negative int reads in front of the table"
  },
  {
   "property": "C60",
   "status": "proved",
   "theorems": [
    "Xbyak.Reg.c60_manual",
    "Xbyak.Reg.c60_distinct"
   ],
   "note": ""
  },
  {
   "property": "C62",
   "status": "partial",
   "theorems": [
    "Xbyak.NoEx.c62_fixed_partial",
    "Xbyak.NoEx.c62_grow_partial",
    "Xbyak.NoEx.c62_refuted_grow",
    "Xbyak.NoEx.c62_refuted_null"
   ],
   "note": "proved for fixed buffers and for AutoGrow as long as no allocation fails; refuted when growing fails (the next db writes past the buffer) and when the constructor cannot allocate (write through a null pointer)"
  },
  {
   "property": "C54",
   "status": "partial",
   "theorems": [
    "Xbyak.Cpu.c54_has",
    "Xbyak.Cpu.c54_avx512",
    "Xbyak.Cpu.c54_avx_partial",
    "Xbyak.Cpu.c54_refuted_avx"
   ],
   "note": "proved except that AVX512F implies AVX only on CPUs whose AVX512F bit implies the AVX bit; refuted for arbitrary responses"
  },
  {
   "property": "C55",
   "status": "partial",
   "theorems": [
    "Xbyak.Cpu.c55_levels",
    "Xbyak.Cpu.c55_bounds",
    "Xbyak.Cpu.c55_ends",
    "Xbyak.Cpu.c55_division_partial",
    "Xbyak.Cpu.c55_refuted_vendor",
    "Xbyak.Cpu.c55_refuted_amd",
    "Xbyak.Cpu.c55_refuted_intel",
    "Xbyak.Cpu.c55_refuted_cores",
    "Xbyak.Cpu.c55_refuted_hang",
    "Xbyak.Cpu.c55_refuted_overflow"
   ],
   "note": "bounds and queries proved; no division by zero proved for Intel and AMD CPUs with leaf 0xB; refuted otherwise: getNumCores(CoreLevel) divides by zero on any other vendor's CPU"
  },
  {
   "property": "C63",
   "status": "partial",
   "theorems": [
    "Xbyak.Cpu.c63_usable_partial",
    "Xbyak.Cpu.c63_announced_partial",
    "Xbyak.Cpu.c63_avx10_partial",
    "Xbyak.Cpu.c63_refuted_state",
    "Xbyak.Cpu.c63_refuted_keylocker",
    "Xbyak.Cpu.c63_refuted_leaf",
    "Xbyak.Cpu.c63_refuted_avx10"
   ],
   "note": "proved for all features but KEYLOCKER_WIDE and 17 features whose operating system support is not checked (F16C, VAES, AVX-VNNI, AMX, APX, ...), which are refuted"
  },
  {
   "property": "C41",
   "status": "partial",
   "theorems": [
    "Xbyak.c41_roo",
    "Xbyak.c41_alu_partial",
    "Xbyak.c41_alui_partial",
    "Xbyak.c41_refuted_size",
    "Xbyak.c41_refuted_high",
    "Xbyak.c41_refuted_empty",
    "Xbyak.c41_refuted_addr32",
    "Xbyak.c41_refuted_disp64"
   ],
   "note": "fields decode as requested for every register and memory operand (c41_roo); the arithmetic family decodes to the requested sources and destination when operand sizes agree, no high byte register and no 32-bit address or 64-bit absolute address is used; each exception is refuted"
  },
  {
   "property": "C44",
   "status": "partial",
   "theorems": [
    "Xbyak.c44_unique",
    "Xbyak.c44_negate",
    "Xbyak.c44_alias",
    "Xbyak.c44_compare",
    "Xbyak.Asm.c44_jcc",
    "Xbyak.Asm.c44_jcc_addr",
    "Xbyak.c44_jcc_names",
    "Xbyak.c44_set_names_partial",
    "Xbyak.c44_cmov_names_partial",
    "Xbyak.c44_cfcmov_names_partial",
    "Xbyak.c44_ccmp_names_partial",
    "Xbyak.c44_ctest_names_partial",
    "Xbyak.c44_refuted_setcc",
    "Xbyak.c44_refuted_cmov",
    "Xbyak.c44_refuted_ccmp"
   ],
   "note": "for every suffix of every family the function's code tests exactly what the suffix says; decoded instruction proved for operands of one size, without 32-bit or 64-bit absolute addresses in the APX forms (refuted otherwise: sizes are not checked)"
  },
  {
   "property": "C46",
   "status": "partial",
   "theorems": [
    "Xbyak.c46_imm_partial",
    "Xbyak.c46_cl_partial",
    "Xbyak.c46_only_cl",
    "Xbyak.c46_names_partial",
    "Xbyak.c46_refuted_kind",
    "Xbyak.c46_refuted_dst",
    "Xbyak.c46_refuted_high",
    "Xbyak.c46_refuted_size",
    "Xbyak.c46_refuted_unsized",
    "Xbyak.c46_refuted_rip"
   ],
   "note": "every shift and rotate function decodes to operation, operand, size, destination and count, and only cl is accepted as count register; refuted outside the operand hypotheses (sizes and kinds are not checked, rip-relative operands of the APX form with an immediate are off by one)"
  },
  {
   "property": "C64",
   "status": "partial",
   "theorems": [
    "Xbyak.c64_one_partial",
    "Xbyak.c64_ndd_partial",
    "Xbyak.c64_incdec_partial",
    "Xbyak.c64_names_partial",
    "Xbyak.c64_refuted_unsized",
    "Xbyak.c64_refuted_empty",
    "Xbyak.c64_refuted_kind"
   ],
   "note": "proved for general registers of one size and sized memory operands; refuted outside (not checked)"
  },
  {
   "property": "C43",
   "status": "proved",
   "theorems": [
    "Xbyak.c43_table",
    "Xbyak.c43_direct",
    "Xbyak.c43_jump"
   ],
   "note": "every entry of the mnemonic table, every xbyak.h instruction and every jump; all operands, only assuming addresses come from the public constructors"
  },
  {
   "property": "C31",
   "status": "partial",
   "theorems": [
    "Xbyak.c31_table_partial",
    "Xbyak.c31_direct",
    "Xbyak.c31_where",
    "Xbyak.c31_refuted_rorx",
    "Xbyak.c46_refuted_rip"
   ],
   "note": "For every function of xbyak_mnemonic.h and every instruction of xbyak.h, in any program: each displacement field reaches its operand from the end of the whole instruction, and the operand has a field. Does not hold for APX shifts/rotates by an immediate and APX rorx (refuted; c31_where shows these are the only functions), nor for calls with a non-general destination that emit nothing."
  },
  {
   "property": "C45",
   "status": "partial",
   "theorems": [
    "Xbyak.Mn.c45_partial",
    "Xbyak.Mn.c45_family",
    "Xbyak.Mn.c45_reads",
    "Xbyak.Mn.c45_refuted",
    "Xbyak.Mn.c45_refuted_vpermq",
    "Xbyak.Mn.c45_refuted_vp2intersect",
    "Xbyak.Mn.c45_refuted_vmovhps",
    "Xbyak.Mn.c45_refuted_vmovlps",
    "Xbyak.Mn.c45_refuted_pinsrd",
    "Xbyak.Mn.c45_refuted_pextrd",
    "Xbyak.Mn.c45_refuted_pshuf",
    "Xbyak.Mn.c45_refuted_word"
   ],
   "note": "any two functions of the families, any operands: the bytes differ, proved through a decoder that recovers the selector, and a kernel comparison of all 2542 selectors. Refuted for exactly the twelve listed pairs, and for 16-bit memory operands of prefix-less SSE instructions; 64-bit absolute addresses excluded (C38)"
  },
  {
   "property": "C65",
   "status": "proved",
   "theorems": [
    "Xbyak.Mn.c65_sse",
    "Xbyak.Mn.c65_avx",
    "Xbyak.Mn.c65_clmul",
    "Xbyak.Mn.c65_pred_inj"
   ],
   "note": "all 168 pseudo-ops, every overload and operand"
  },
  {
   "property": "C42",
   "status": "partial",
   "theorems": [
    "Xbyak.Mn.c42_xmm_partial",
    "Xbyak.Mn.c42_ymm_partial",
    "Xbyak.Mn.c42_index_partial",
    "Xbyak.Mn.c42_noEvex",
    "Xbyak.Mn.c42_refuses",
    "Xbyak.Mn.c42_refuted_ymm",
    "Xbyak.Mn.c42_refuted_is4",
    "Xbyak.Mn.c42_refuted_index"
   ],
   "note": "Every vector function of the table that returns with xmm16-31 (or ymm/zmm 16-31 outside the SSE functions, or a VSIB index outside the AVX2 gathers) wrote an EVEX instruction; functions without an EVEX form refuse them. Missing because the code truncates: ymm/zmm 16-31 in SSE functions, the fourth operand in the immediate byte, indices of AVX2 gathers (refuted by witnesses)."
  },
  {
   "property": "C66",
   "status": "partial",
   "theorems": [
    "Xbyak.Mn.c66_partial",
    "Xbyak.Mn.c66_refuted",
    "Xbyak.Mn.c66_refuted_pslldq",
    "Xbyak.Mn.c66_refuted_vsm3",
    "Xbyak.Mn.c66_refuted_vex",
    "Xbyak.Mn.c66_refuted_sse"
   ],
   "note": "Every accepted call of the vector families has a form of the manual's opcode table (1200 forms), except the encodings listed in `odd`, each of which is refuted by a witness; seven AVX10.2 compare mnemonics and vgetexppbf16 are not in the table; the addresses and operand sizes excluded in C45 are excluded here."
  },
  {
   "property": "C67",
   "status": "partial",
   "theorems": [
    "Xbyak.Mn.c67_partial",
    "Xbyak.Mn.c67_refuted_unit",
    "Xbyak.Mn.c67_refuted_bcast",
    "Xbyak.Mn.c67_refuted_gpr",
    "Xbyak.Mn.c67_refuted_vscalef"
   ],
   "note": "All 1526 functions with VEX or EVEX bodies and a form in the table: the whole instruction is decoded with the form's displacement unit and every argument is in the place its role has. Excluded, each with a witness: the functions with a wrong displacement unit (memory operands only), the vmpsadbw broadcast, general registers 16-31 passed as Xmm, two-operand vscalefpbf16; and what C38, C42, C66 already exclude."
  },
  {
   "property": "C68",
   "status": "partial",
   "theorems": [
    "Xbyak.Mn.c68_partial",
    "Xbyak.Mn.c68_refuted_ymm",
    "Xbyak.Mn.c68_refuted_mm"
   ],
   "note": "All 328 functions: decoded completely, arguments in place, of a class the form takes, xmm numbers below 16, no stray immediate. Excluded, each with a witness: ymm and zmm registers in functions that do not check the kind, xmm registers in mm-only instructions, mm registers in pshufd/pshufhw/pshuflw, 64-bit registers in pextrd/pinsrd, 16-bit memory operands of instructions without mandatory prefix. APX registers of the key locker functions take other encodings (C45)."
  },
  {
   "property": "C69",
   "status": "partial",
   "theorems": [
    "Xbyak.Mn.c69_partial",
    "Xbyak.Mn.c69_cover",
    "Xbyak.Mn.c69_refuted_kind",
    "Xbyak.Mn.c69_refuted_byte",
    "Xbyak.Mn.c69_refuted_size",
    "Xbyak.Mn.c69_refuted_bound"
   ],
   "note": "All 85 functions (every mnemonic of Spec/Gp, c69_cover), all registers, addresses, sizes and immediates. Excluded, each with a witness: registers of another kind, byte registers where there is no byte form, memory sizes compared with the wrong register, 32-bit registers and sized memory in bound checks; and the APX alternatives of the functions that have one (C41). Which byte register is meant: provided no REX is used with ah-dh (C35)."
  },
  {
   "property": "C70",
   "status": "proved",
   "theorems": [
    "Xbyak.Mn.c70_fixed",
    "Xbyak.Mn.c70_cover",
    "Xbyak.Mn.c70_stsw"
   ],
   "note": "All functions whose body is a list of bytes, and fnstsw/fstsw ax; the reference table is Verif/Spec/Fixed.lean. Every name of the table has a function without parameters (c70_cover)."
  },
  {
   "property": "C71",
   "status": "partial",
   "theorems": [
    "Xbyak.Mn.c71_reg_partial",
    "Xbyak.Mn.c71_mem",
    "Xbyak.Mn.c71_wait",
    "Xbyak.Mn.c71_cover_reg",
    "Xbyak.Mn.c71_cover_mem",
    "Xbyak.Mn.c71_first0",
    "Xbyak.Mn.c71_refuted_st0"
   ],
   "note": "All functions ending in opFpuFpu, opFpu and opFpuMem and the four waiting ones. Excluded, with a witness: FCMOVcc, FCOMI, FCOMIP, FUCOMI, FUCOMIP (sti, st0), which are accepted and write an add instruction; c71_first0 lists the functions."
  },
  {
   "property": "C72",
   "status": "partial",
   "theorems": [
    "Xbyak.c72_test",
    "Xbyak.c72_imul_partial",
    "Xbyak.c72_imul_apx_partial",
    "Xbyak.c72_refuted_byte",
    "Xbyak.c72_refuted_width"
   ],
   "note": "test in full. imul for 16, 32 and 64-bit destinations, legacy and extended (EVEX) encoding. Excluded, with witnesses: byte registers, which are accepted and become 32-bit, and operands of different width, which the extended encoding accepts."
  },
  {
   "property": "C73",
   "status": "proved",
   "theorems": [
    "Xbyak.c73_bswap"
   ],
   "note": "All 32 and 64-bit registers including r16-r31."
  },
  {
   "property": "C74",
   "status": "partial",
   "theorems": [
    "Xbyak.c74_put_partial",
    "Xbyak.c74_refuted_put",
    "Xbyak.c74_stack_partial",
    "Xbyak.c74_refuted_stack",
    "Xbyak.c74_from",
    "Xbyak.c74_to_partial",
    "Xbyak.c74_refuted_cs",
    "Xbyak.c74_load_partial",
    "Xbyak.c74_refuted_rex2",
    "Xbyak.c74_refuted_size",
    "Xbyak.Mn.c74_load_table"
   ],
   "note": "mov from a segment register in full. Excluded, with witnesses: putSeg of es, cs, ss, ds (rotated), push/pop of es, cs, ss, ds (opcodes invalid in 64-bit mode), mov to cs, lfs/lgs/lss with an extended register or a memory operand with a size."
  },
  {
   "property": "C75",
   "status": "partial",
   "theorems": [
    "Xbyak.Pack.c75_make",
    "Xbyak.Pack.c75_init",
    "Xbyak.Pack.c75_append",
    "Xbyak.Pack.c75_get",
    "Xbyak.Pack.c75_sub_partial",
    "Xbyak.Pack.c75_rest_partial",
    "Xbyak.Pack.c75_refuted_pos",
    "Xbyak.Pack.c75_refuted_num"
   ],
   "note": "Excluded, with a proof that it is undefined behaviour: sub(pos) with pos beyond the size, and sub(pos, num) with pos + num wrapping."
  },
  {
   "property": "C76",
   "status": "partial",
   "theorems": [
    "Xbyak.c76_vmovd_partial",
    "Xbyak.c76_vmovw_partial",
    "Xbyak.c76_refuted_mask"
   ],
   "note": "Excluded: operands with an opmask, zeroing or rounding decoration (accepted although no form has one, with a witness) and ptr[uint64_t] addresses."
  },
  {
   "property": "C78",
   "status": "partial",
   "theorems": [
    "Xbyak.Mn.c78_partial",
    "Xbyak.Mn.c78_refuted_gpr",
    "Xbyak.Mn.c78_refuted_is4",
    "Xbyak.Mn.c78_refuted_gather",
    "Xbyak.Mn.c78_refuted_zero",
    "Xbyak.Mn.c78_refuted_masks"
   ],
   "note": "Excluded, each with a witness that the library drops the modifier: modifiers of general registers passed on by number, of the register in an is4 immediate, of the registers of VEX gathers, zeroing or rounding put on an address, and an opmask on a register beside a different one on the address."
  },
  {
   "property": "C77",
   "status": "partial",
   "theorems": [
    "Xbyak.Mn.c77_partial",
    "Xbyak.Mn.c77_refuted_tile",
    "Xbyak.Mn.c77_refuted_narrow",
    "Xbyak.Mn.c77_refuted_is4",
    "Xbyak.Mn.c77_refuted_gather",
    "Xbyak.Mn.c77_refuted_small",
    "Xbyak.Mn.c77_refuted_large",
    "Xbyak.Mn.c77_refuted_vp2intersect"
   ],
   "note": "Excluded, each with a witness that the library accepts the operands and writes another length: tile registers where not declared, a vector register wider than the first one, zmm registers in VEX gathers, stated memory sizes that do not fit the destination of a narrowing conversion, vp2intersectd/q. Static rounding (which replaces the length) is C78."
  },
  {
   "property": "C79",
   "status": "partial",
   "theorems": [
    "Xbyak.Mn.c79_partial",
    "Xbyak.Mn.c79_refuted_high",
    "Xbyak.Mn.c79_refuted_zmm",
    "Xbyak.Mn.c79_refuted_prefetch"
   ],
   "note": "Excluded, each with a witness: VEX gathers with an index register above 15 (encoded as another register after the check), zmm registers in VEX gathers, prefetches without opmask. Modifiers and widths are restricted as for C67, C77 and C78."
  },
  {
   "property": "C80",
   "status": "proved",
   "theorems": [
    "Xbyak.c80_default",
    "Xbyak.c80_default_error",
    "Xbyak.Mn.c80_space",
    "Xbyak.Mn.c80_last",
    "Xbyak.Mn.c80_error"
   ],
   "note": "All functions with a PreferredEncoding argument except vmovd and vmovw (C76), which have no VEX form of the AVX10.2 instructions."
  },
  {
   "property": "C81",
   "status": "partial",
   "theorems": [
    "Xbyak.Mn.c81_partial",
    "Xbyak.Mn.c81_admits",
    "Xbyak.Mn.c81_refuted_er",
    "Xbyak.Mn.c81_refuted_trunc",
    "Xbyak.Mn.c81_refuted_sae",
    "Xbyak.Mn.c81_refuted_xmm",
    "Xbyak.Mn.c81_refuted_mixed",
    "Xbyak.Mn.c81_refuted_scalar"
   ],
   "note": "Excluded, each with a witness: 11 functions that accept a rounding mode and 28 that accept T_sae without having it, register widths that no form has (they are silently changed). c81_admits: the documented forms are not refused, except T_sae for scalar comparisons and vfixupimmsd/ss with xmm registers (c81_refuted_scalar, for all registers) and for four truncating conversions (c81_refuted_trunc)."
  },
  {
   "property": "C82",
   "status": "partial",
   "theorems": [
    "Xbyak.Mn.c82_partial",
    "Xbyak.Mn.c82_cover",
    "Xbyak.Mn.c82_refuted_nf",
    "Xbyak.Mn.c82_refuted_sha"
   ],
   "note": "Proved for operands of the kinds and sizes of a form, for calls that ask for APX (new data destination, a register 16-31, or T_nf on the first operand).  Refuted: BLSI/BLSMSK/BLSR drop T_nf, SHA instructions take general registers 16-31.  Left out with the refutations of C41 and C31: other sizes, 32-bit addresses, high bytes, [rip] for RORX."
  },
  {
   "property": "C83",
   "status": "partial",
   "theorems": [
    "Xbyak.Mn.c83_partial",
    "Xbyak.Mn.c83_movdir_partial",
    "Xbyak.Mn.c83_refuted_ret",
    "Xbyak.Mn.c83_refuted_in",
    "Xbyak.Mn.c83_refuted_umonitor",
    "Xbyak.Mn.c83_refuted_movdir"
   ],
   "note": "Refuted, each with a witness: ret/retf truncate their immediate, in_/out_ and umonitor do not check the register kind, movdir64b neither kind nor width.  Proved outside of these: general-purpose registers, ret/retf immediates of 16 bits."
  },
  {
   "property": "C84",
   "status": "partial",
   "theorems": [
    "Xbyak.Mn.c84_load",
    "Xbyak.Mn.c84_store_partial",
    "Xbyak.Mn.c84_mib_partial",
    "Xbyak.Mn.c84_refuted_store",
    "Xbyak.Mn.c84_refuted_word"
   ],
   "note": "Tile loads in full.  Refuted: tilestored rewrites [reg*2] to [reg+reg] and accepts addresses without index; bndldx with a word operand is written as bndmov.  Proved for tilestored with base and index, and for bndldx/bndstx without word."
  },
  {
   "property": "C85",
   "status": "proved",
   "theorems": [
    "Xbyak.Mn.c85_outcome",
    "Xbyak.Mn.c85_accepted",
    "Xbyak.Mn.c85_refused",
    "Xbyak.Mn.c85_functions",
    "Xbyak.Mn.c85_compare",
    "Xbyak.Mn.c85_example",
    "Xbyak.Mn.c85_boundary"
   ],
   "note": "For all entries of the table but the 24 gathers and scatters (listed by c85_compare), and for the functions written by hand."
  },
  {
   "property": "C86",
   "status": "partial",
   "theorems": [
    "Xbyak.Mn.c86_gp_partial",
    "Xbyak.Mn.c86_gp_unsized",
    "Xbyak.Mn.c86_sse_partial",
    "Xbyak.Mn.c86_refuted_gp",
    "Xbyak.Mn.c86_refuted_sse",
    "Xbyak.Mn.c86_example",
    "Xbyak.Mn.c86_example_sse",
    "Xbyak.Mn.c86_x87_partial",
    "Xbyak.Mn.c86_x87_refuted"
   ],
   "note": "Holds but for 7 integer/x87 and 12 SSE/MMX mnemonics that refuse a memory operand with the size the manual gives it (refutations); these accept the operand without a size (c86_gp_unsized, c86_sse_partial with m = 0). x87 instructions on registers: all forms but FADDP ST(0), ST(0) and its likes, which are refused (c86_x87_refuted)."
  },
  {
   "property": "C87",
   "status": "partial",
   "theorems": [
    "Xbyak.Mn.c87_partial",
    "Xbyak.Mn.c87_complete",
    "Xbyak.Mn.c87_refuted_sm4",
    "Xbyak.Mn.c87_refuted_vextractps",
    "Xbyak.Mn.c87_example"
   ],
   "note": "Holds for operands without mask and rounding, but for vsm4key4/vsm4rnds4 with ymm and zmm registers and vextractps with a 64-bit register, which are refused (refutations). c87_complete: the table covers every function of the library in scope."
  },
  {
   "property": "C88",
   "status": "partial",
   "theorems": [
    "Xbyak.Mn.c88_partial",
    "Xbyak.Mn.c88_checked_partial",
    "Xbyak.Mn.c88_refuted_sm3",
    "Xbyak.Mn.c88_refuted_vrsqrt14sd",
    "Xbyak.Mn.c88_refuted_vcmpsd",
    "Xbyak.Mn.c88_refuted_vblendvpd",
    "Xbyak.Mn.c88_refuted_vmovmskpd",
    "Xbyak.Mn.c88_refuted_vmaskmovdqu",
    "Xbyak.Mn.c88_refuted_operand",
    "Xbyak.Mn.c88_refuted_size",
    "Xbyak.Mn.c88_example"
   ],
   "note": "The library violates it in four ways, each refuted: memory sizes are not looked at; a register passed for the last parameter of type Operand is mostly not looked at; and 87 lines take further operands (looseLines). Proved but for these, for operands without mask and rounding and not for kmovb/w/d/q."
  },
  {
   "property": "C89",
   "status": "proved",
   "theorems": [
    "Xbyak.CA.c89_text",
    "Xbyak.CA.c89_read",
    "Xbyak.c89_truncates",
    "Xbyak.G.c89_clear",
    "Xbyak.G.c89_refuted_clear"
   ],
   "note": "Model in Verif/Dump.lean. c89_truncates and c89_refuted_clear record two limits of the function outside the statement: longer code is cut off silently, and clearing keeps the labels."
  },
  {
   "property": "C90",
   "status": "proved",
   "theorems": [
    "Xbyak.Cpu.c90_fields",
    "Xbyak.Cpu.c90_display",
    "Xbyak.Clock.c90_clock",
    "Xbyak.Clock.c90_intervals"
   ],
   "note": "Model in Verif/Util.lean; cpuid and rdtsc arbitrary."
  },
  {
   "property": "C91",
   "status": "partial",
   "theorems": [
    "Xbyak.Prof.c91_files_partial",
    "Xbyak.Prof.c91_refuted_copy",
    "Xbyak.Prof.c91_line",
    "Xbyak.Prof.c91_tile",
    "Xbyak.Prof.c91_off"
   ],
   "note": "Profilers can be copied, and then a file is closed twice (c91_refuted_copy); proved for histories without copies. The lines and the adjacent ranges are proved without restriction."
  },
  {
   "property": "C92",
   "status": "partial",
   "theorems": [
    "Xbyak.Mn.c92_mask_partial",
    "Xbyak.Mn.c92_bcast_partial",
    "Xbyak.Mn.c92_bcast_has_mem",
    "Xbyak.Mn.c92_refuted_compress",
    "Xbyak.Mn.c92_refuted_extract",
    "Xbyak.Mn.c92_refuted_valign",
    "Xbyak.Mn.c92_refuted_reg",
    "Xbyak.Mn.c92_refuted_source",
    "Xbyak.Mn.c92_refuted_zero",
    "Xbyak.Mn.c92_example"
   ],
   "note": "Masked and broadcast forms are accepted for all lines, lengths, registers, addresses and masks, but for 14 stores without mask and valignd/valignq without broadcast (refuted). That undocumented masks are refused does not hold (three refutations)."
  },
  {
   "property": "C93",
   "status": "partial",
   "theorems": [
    "Xbyak.E32.c93_alu",
    "Xbyak.E32.c93_alu_accepts",
    "Xbyak.E32.c93_aluI",
    "Xbyak.E32.c93_mov_partial",
    "Xbyak.E32.c93_movI",
    "Xbyak.E32.c93_test",
    "Xbyak.E32.c93_testI",
    "Xbyak.E32.c93_xchg_partial",
    "Xbyak.E32.c93_lea",
    "Xbyak.E32.c93_movxx_partial",
    "Xbyak.E32.c93_unary",
    "Xbyak.E32.c93_shiftI",
    "Xbyak.E32.c93_shiftCL",
    "Xbyak.E32.c93_incdec",
    "Xbyak.E32.c93_pushpop",
    "Xbyak.E32.c93_pushI",
    "Xbyak.E32.c93_jmp_partial",
    "Xbyak.E32.c93_jmp_far",
    "Xbyak.E32.c93_loadSeg_partial",
    "Xbyak.E32.c93_fixed",
    "Xbyak.E32.c93_aluI_accepts",
    "Xbyak.E32.c93_mov_accepts",
    "Xbyak.E32.c93_movI_accepts",
    "Xbyak.E32.c93_test_accepts",
    "Xbyak.E32.c93_testI_accepts",
    "Xbyak.E32.c93_xchg_accepts",
    "Xbyak.E32.c93_lea_accepts",
    "Xbyak.E32.c93_movxx_accepts",
    "Xbyak.E32.c93_unary_accepts",
    "Xbyak.E32.c93_shift_accepts",
    "Xbyak.E32.c93_incdec_accepts",
    "Xbyak.E32.c93_pushpop_accepts",
    "Xbyak.E32.c93_pushI_accepts",
    "Xbyak.E32.c93_jmp_accepts",
    "Xbyak.E32.c93_loadSeg_accepts",
    "Xbyak.E32.c93_refuted_mov",
    "Xbyak.E32.c93_refuted_xchg",
    "Xbyak.E32.c93_refuted_movxx",
    "Xbyak.E32.c93_refuted_loadSeg",
    "Xbyak.E32.c93_refuted_jmp",
    "Xbyak.E32.c93_example"
   ],
   "note": "Full statement for arithmetic, test, lea, unary, shifts, inc/dec, push/pop, far jumps, immediates and the instructions without operands.  Violated by the moffs forms of mov and the one-byte form of xchg (sizes not compared, c93_refuted_mov, c93_refuted_xchg), movzx/movsx to an 8-bit register from memory without size (c93_refuted_movxx), lds/les of a 16-bit register from dword memory (c93_refuted_loadSeg) and jmp/call through byte memory (c93_refuted_jmp); the _partial theorems exclude these operands."
  },
  {
   "property": "C94",
   "status": "proved",
   "theorems": [
    "Xbyak.Mn.c94_vex",
    "Xbyak.Mn.c94_evex",
    "Xbyak.Mn.c94_scatter",
    "Xbyak.Mn.c94_prefetch"
   ],
   "note": "Acceptance; that the bytes are the instruction asked for is C79.  The addresses have no stated size (ptr[...])."
  },
  {
   "property": "C95",
   "status": "proved",
   "theorems": [
    "Xbyak.Mn.c95_accepts"
   ],
   "note": "For all forms of Spec/ApxForms (the table C82 decodes against), operand sizes, registers, addresses and immediates. CRC32 with memory needs a stated size, TILESTORED base and index. NF alone (without another reason for the extended form) on BLSI, BLSMSK, BLSR is excluded: accepted, but NF is dropped, see c82_refuted_nf."
  },
  {
   "property": "C96",
   "status": "partial",
   "theorems": [
    "Xbyak.Mn.c96_shift_imm",
    "Xbyak.Mn.c96_shift_cl",
    "Xbyak.Mn.c96_unary",
    "Xbyak.Mn.c96_unary_nd",
    "Xbyak.Mn.c96_incdec_partial",
    "Xbyak.Mn.c96_set",
    "Xbyak.Mn.c96_cmov",
    "Xbyak.Mn.c96_cfcmov2",
    "Xbyak.Mn.c96_cfcmov3",
    "Xbyak.Mn.c96_ccmp",
    "Xbyak.Mn.c96_ccmpi",
    "Xbyak.Mn.c96_ctest",
    "Xbyak.Mn.c96_ctesti",
    "Xbyak.Mn.c96_refuted_inc"
   ],
   "note": "Holds but for INC and DEC with one operand and NF, which are refused (c96_refuted_inc; the form with a destination takes NF). The name not without underscore has no form with a destination."
  },
  {
   "property": "C97",
   "status": "partial",
   "theorems": [
    "Xbyak.Mn.c97_vec_partial",
    "Xbyak.Mn.c97_sse_partial",
    "Xbyak.Mn.c97_gp_partial",
    "Xbyak.Mn.c97_apx_partial",
    "Xbyak.Mn.c97_fpu_reg_partial",
    "Xbyak.Mn.c97_fpu_mem",
    "Xbyak.Mn.c97_fixed_partial",
    "Xbyak.Mn.c97_misc_partial",
    "Xbyak.Mn.c97_shift_partial",
    "Xbyak.Mn.c97_unary_partial",
    "Xbyak.Mn.c97_set_partial",
    "Xbyak.Mn.c97_cmov_partial",
    "Xbyak.Mn.c97_cfcmov_partial",
    "Xbyak.Mn.c97_ccmp_partial",
    "Xbyak.Mn.c97_ctest_partial",
    "Xbyak.Mn.c97_alu",
    "Xbyak.Mn.c97_mov",
    "Xbyak.Mn.c97_mov_mem",
    "Xbyak.Mn.c97_push",
    "Xbyak.Mn.c97_push_mem",
    "Xbyak.Mn.c97_push_imm",
    "Xbyak.Mn.c97_xchg_partial",
    "Xbyak.Mn.c97_test",
    "Xbyak.Mn.c97_imul_partial",
    "Xbyak.Mn.c97_branch_partial",
    "Xbyak.Mn.c97_mov_seg",
    "Xbyak.Mn.c97_bswap",
    "Xbyak.Mn.c97_stack_seg_partial",
    "Xbyak.Mn.c97_mov_rm_partial",
    "Xbyak.Mn.c97_seg",
    "Xbyak.Mn.c97_rep",
    "Xbyak.Mn.c97_prefix",
    "Xbyak.Mn.c97_call_partial",
    "Xbyak.Mn.c97_calls_partial",
    "Xbyak.Mn.c97_stream",
    "Xbyak.Mn.c97_unique",
    "Xbyak.Mn.c97_same",
    "Xbyak.Mn.c97_refuted",
    "Xbyak.Asm.c97_label",
    "Xbyak.Asm.c97_jcc"
   ],
   "note": "Violated by neg(xmm1, rax), which appends nothing (c97_refuted). The theorems take over the hypotheses of C36, C37, C44, C46-C48, C61, C64, C67-C74, C82, C83 and C101 about the arguments; displacements of labels are arbitrary (fill). Jumps to labels are stated for the finished code (c97_label, c97_jcc). LOCK, REP and segment prefixes are not instructions of their own: c97_seg, c97_rep and c97_prefix say that with one in front an instruction remains one."
  },
  {
   "property": "C98",
   "status": "partial",
   "theorems": [
    "Xbyak.Asm.c98_label",
    "Xbyak.Asm.c98_addr_partial",
    "Xbyak.Asm.c23_refuted"
   ],
   "note": "Labels: full statement, for all functions (c98_label; that the displacement leads to the label is C08-C10, Reaches). Addresses: partial for the same reason as C23 (targets at the lower end of the 32-bit range from a fixed buffer wrap around, c23_refuted)."
  },
  {
   "property": "C99",
   "status": "proved",
   "theorems": [
    "Xbyak.Memfd.c99_exact",
    "Xbyak.Memfd.c99_maps",
    "Xbyak.Memfd.c99_failed",
    "Xbyak.Memfd.c99_free",
    "Xbyak.Memfd.c99_none_left"
   ],
   "note": "for every answer of the kernel; inserting into allocList_ is assumed not to throw"
  },
  {
   "property": "C100",
   "status": "proved",
   "theorems": [
    "Xbyak.SF.c100_written",
    "Xbyak.SF.c100_enter",
    "Xbyak.SF.c100_return",
    "Xbyak.SF.c100_close"
   ],
   "note": "joins the encoders (push, pop, add, sub, mov, ret) with C50 and C51 through a processor that fetches bytes (Spec/Run.lean); flags and segment bases are not part of the machine"
  },
  {
   "property": "C101",
   "status": "partial",
   "theorems": [
    "Xbyak.c101_partial",
    "Xbyak.c101_accept_rr",
    "Xbyak.c101_accept_mem",
    "Xbyak.c101_accept_abs",
    "Xbyak.c101_refuted_xmm",
    "Xbyak.c35_refuted_mov"
   ],
   "note": "Violated by mov(ah, ptr[r8]), which is mov spl, [r8] (c35_refuted_mov), and by mov(xmm1, xmm2) and mov(ptr[rax], xmm1), which are accepted and move general registers (c101_refuted_xmm); c101_partial has the hypotheses that registers are general and that ah..bh come with an address that needs no REX."
  },
  {
   "property": "C102",
   "status": "proved",
   "theorems": [
    "Xbyak.Prog.c102_simulation",
    "Xbyak.Prog.c102_only",
    "Xbyak.Prog.c102_exit",
    "Xbyak.Prog.c102_function",
    "Xbyak.Prog.c102_forever",
    "Xbyak.Prog.c102_layout",
    "Xbyak.Prog.c102_run",
    "Xbyak.Prog.c102_length",
    "Xbyak.Prog.c102_data",
    "Xbyak.Prog.c102_table",
    "Xbyak.Prog.c102_accepts"
   ],
   "note": "joins the encoders, the label machinery and the buffer in one statement (Spec/Prog.lean has both semantics). 64-bit registers; Label objects used by the program stay alive; no reset after the program; no statement starts beyond 2 GiB; executions that overwrite the code are excluded; the auxiliary carry flag is not part of the machine. The overflow flag after a shift by more than one bit is an arbitrary function of operation, operand and count. Beside it, a loop proved to compute a sum from its eight bytes for every count, a loop over an array proved to leave the sum in rax, a subroutine, a call through a register that holds the address of a label, a jump table reached by [rip + label], the absolute value without a jump, a function that returns the sum of its arguments to any caller, and a program with anonymous and dot labels in two scopes."
  }
 ]
}