{"id": "C01", "title": "Data directives append exactly the requested little-endian bytes", "statement": "After any sequence of successful db/dw/dd/dq calls on a fixed-size generator, getSize() has grown by the sum of the requested widths, the bytes at [old size, new size) are the concatenation of the little-endian encodings of the requested values, and every byte below the old size is unchanged.", "quantifier": "every buffer state, every finite sequence of data directives with arbitrary 64-bit values", "why_tests_cant": "the set of sequences and values is unbounded; a test sees a few literals", "anchors": ["xbyak/xbyak.h:CodeArray::db", "xbyak/xbyak.h:CodeArray::dw", "xbyak/xbyak.h:CodeArray::dd", "xbyak/xbyak.h:CodeArray::dq", "xbyak/xbyak.h:CodeArray::getSize"]}
{"id": "C02", "title": "A fixed-size buffer is never overrun", "statement": "On a user-supplied or allocated (non AutoGrow) buffer of maxSize bytes, emitting a byte sequence succeeds if and only if size + length <= maxSize; otherwise the call ends with ERR_CODE_IS_TOO_BIG, the prefix that fits is stored, nothing beyond maxSize is written and the bytes already emitted are intact.", "quantifier": "every maxSize, every current size and every byte sequence", "why_tests_cant": "the boundary must hold for every fill level and every sequence; out-of-bounds writes are silent in a test", "anchors": ["xbyak/xbyak.h:CodeArray::db", "xbyak/xbyak.h:CodeArray::CodeArray"]}
{"id": "C03", "title": "AutoGrow is transparent to emitted data", "statement": "In AutoGrow mode, if no allocation fails, the bytes readable at [0, getSize()) after any sequence of data directives are the same as if the buffer had been large enough from the start, for every initial size and whatever addresses and uninitialised contents the allocator returns.", "quantifier": "every directive sequence, every initial maxSize (including 0), every allocator behaviour that does not fail", "why_tests_cant": "growth points, allocator addresses and stale heap contents are an adversarial schedule that tests do not control", "anchors": ["xbyak/xbyak.h:CodeArray::growMemory", "xbyak/xbyak.h:CodeArray::db"]}
{"id": "C04", "title": "Every write of the generator stays inside its current memory block", "statement": "For every history of generator calls (data, labels, jumps, putL, assignL, local scopes, setSize, reset, ready) starting from construction, no call writes outside the memory block currently owned by the generator, including deferred label fix-ups applied later or at ready().", "quantifier": "every finite history, every allocator behaviour, every buffer kind", "why_tests_cant": "memory safety over all histories; fix-up offsets are recorded at one time and used at another", "anchors": ["xbyak/xbyak.h:CodeArray::db", "xbyak/xbyak.h:CodeArray::rewrite", "xbyak/xbyak.h:CodeArray::calcJmpAddress", "xbyak/xbyak.h:LabelManager::define_inner", "xbyak/xbyak.h:CodeGenerator::opJmp"]}
{"id": "C05", "title": "Allocation failure while growing loses nothing", "statement": "If growing an AutoGrow buffer fails, the call ends with ERR_CANT_ALLOC and buffer address, capacity, size, contents, labels and pending references are exactly those before the growth attempt, so the history can be continued or the code emitted so far still used.", "quantifier": "every AutoGrow state and every failing allocation", "why_tests_cant": "requires failure injection at every possible growth point of every history", "anchors": ["xbyak/xbyak.h:CodeArray::growMemory", "xbyak/xbyak.h:CodeArray::db"]}
{"id": "C06", "title": "rewrite changes exactly the addressed bytes", "statement": "rewrite(offset, v, n) with n in {1,2,4,8} stores the n-byte little-endian value v at offset and changes no other byte and not the size; any other n is refused with ERR_BAD_PARAMETER and changes nothing.", "quantifier": "every buffer content, offset, 64-bit value and width", "why_tests_cant": "frame conditions quantify over all other bytes of all buffers", "anchors": ["xbyak/xbyak.h:CodeArray::rewrite"]}
{"id": "C07", "title": "setSize only moves the cursor and refuses to leave the buffer", "statement": "setSize(n) succeeds iff n <= maxSize, after which the next byte is emitted at n and no byte of the buffer has changed; otherwise ERR_OFFSET_IS_TOO_BIG and nothing changes.", "quantifier": "every state and every n", "why_tests_cant": "frame condition over all buffers", "anchors": ["xbyak/xbyak.h:CodeArray::setSize"]}
{"id": "C08", "title": "Every relative label reference reaches its label (fixed buffers)", "statement": "For every history on a non-AutoGrow generator in which all calls succeed, each jump, call, loop or [rip+label] reference whose label has been defined (before or after the reference, by L on the object, by string label, or by assignL) holds the displacement such that, executed by the CPU, it addresses exactly the offset where the label was defined plus the requested constant.", "quantifier": "every finite history of definitions, references and data, any interleaving, any number of references per label, any address of the buffer", "why_tests_cant": "the interleavings of forward and backward references are unbounded; the fix-up list order is unspecified (unordered_multimap)", "anchors": ["xbyak/xbyak.h:LabelManager::define_inner", "xbyak/xbyak.h:CodeGenerator::opJmp", "xbyak/xbyak.h:CodeGenerator::putL_inner", "xbyak/xbyak.h:CodeGenerator::makeJmp"]}
{"id": "C09", "title": "Every relative label reference reaches its label in AutoGrow mode after ready()", "statement": "Same as C08 for AutoGrow generators once ready() has returned: regardless of how many times and where the buffer was moved between the reference, the definition and ready().", "quantifier": "every finite history and every allocator behaviour", "why_tests_cant": "relocation schedule is chosen by the allocator and by code size", "anchors": ["xbyak/xbyak.h:CodeArray::save", "xbyak/xbyak.h:CodeArray::calcJmpAddress", "xbyak/xbyak.h:CodeArray::AddrInfo::getVal", "xbyak/xbyak.h:LabelManager::define_inner", "xbyak/xbyak.h:CodeGenerator::ready"]}
{"id": "C10", "title": "putL / mov reg,label store the run-time address of the label", "statement": "After a history in which every call succeeded (and ready() in AutoGrow mode), each absolute label reference holds the 64-bit value getCode() + offset of the label, where getCode() is the final address of the buffer.", "quantifier": "every finite history, every buffer address, every relocation schedule", "why_tests_cant": "absolute references go through three different representations (immediate, pending absolute, pending add-top)", "anchors": ["xbyak/xbyak.h:CodeGenerator::putL_inner", "xbyak/xbyak.h:LabelManager::define_inner", "xbyak/xbyak.h:CodeArray::AddrInfo::getVal", "xbyak/xbyak.h:LabelManager::assign"]}
{"id": "C11", "title": "Undefined labels are detected exactly", "statement": "hasUndefinedLabel() is true iff some reference emitted since construction/reset names a label that has not been defined; ready() fails with ERR_LABEL_IS_NOT_FOUND exactly in that case and otherwise no reference in the buffer is left unresolved.", "quantifier": "every finite history", "why_tests_cant": "a missed reference would only show up as a wild jump in the one program that uses it", "anchors": ["xbyak/xbyak.h:CodeGenerator::hasUndefinedLabel", "xbyak/xbyak.h:CodeGenerator::ready", "xbyak/xbyak.h:LabelManager::hasUndefClabel", "xbyak/xbyak.h:LabelManager::hasUndefSlabel"]}
{"id": "C12", "title": "A label can be defined only once", "statement": "L on a label object or string that is already defined (same scope) fails with ERR_LABEL_IS_REDEFINED and changes neither the buffer, nor any label, nor any pending reference.", "quantifier": "every reachable state and label", "why_tests_cant": "requires state equality after the failure for all states", "anchors": ["xbyak/xbyak.h:LabelManager::define_inner", "xbyak/xbyak.h:LabelManager::defineClabel", "xbyak/xbyak.h:LabelManager::defineSlabel"]}
{"id": "C13", "title": "Short references are never silently truncated", "statement": "If a 1-byte reference (T_SHORT jump, default forward jump, loop, jecxz) cannot reach its label, the call that would fix the distance fails (ERR_LABEL_IS_TOO_FAR or ERR_OFFSET_IS_TOO_BIG) instead of storing a truncated displacement; when it succeeds the sign-extended byte reaches the label.", "quantifier": "every distance, forward and backward, every buffer size and every history of calls in between (code below 2 GiB - 6, no setSize/rewrite, no earlier definition that failed because of distance)", "why_tests_cant": "the truncation boundary must hold for every distance including those beyond 2 GiB", "anchors": ["xbyak/xbyak.h:CodeGenerator::makeJmp", "xbyak/xbyak.h:LabelManager::define_inner"]}
{"id": "C14", "title": "Backward jumps use the short form exactly when it fits", "statement": "For a jump to an already defined label, T_AUTO emits the two-byte form iff the displacement fits in a signed byte, T_NEAR always emits the long form, T_SHORT fails with ERR_LABEL_IS_TOO_FAR iff it does not fit.", "quantifier": "every distance and every jump kind, code below 2 GiB - 6 with 16 bytes of room", "why_tests_cant": "boundary over all distances", "anchors": ["xbyak/xbyak.h:CodeGenerator::makeJmp", "xbyak/xbyak.h:CodeGenerator::opJmp"]}
{"id": "C15", "title": "Anonymous labels @@/@f/@b bind to the nearest definition", "statement": "In every history, a jump to \"@b\" reaches the most recent preceding L(\"@@\") and a jump to \"@f\" reaches the next following L(\"@@\"); \"@b\" without a preceding @@ fails with ERR_LABEL_IS_NOT_FOUND; \"@b\" and \"@f\" cannot be defined directly.", "quantifier": "every finite interleaving of L(\"@@\"), jumps to @f, jumps to @b and other calls (code below 2 GiB - 6, no setSize/rewrite, no definition that failed because of distance)", "why_tests_cant": "the implementation alternates two hidden names; correctness depends on the whole parity history", "anchors": ["xbyak/xbyak.h:LabelManager::defineSlabel", "xbyak/xbyak.h:LabelManager::getOffset"]}
{"id": "C16", "title": "Local (dot) labels are confined to their inLocalLabel/outLocalLabel scope", "statement": "A reference to a dot label binds to a definition in the same innermost scope instance only; equal dot names in different scopes never interfere; outLocalLabel fails with ERR_UNDER_LOCAL_LABEL outside any scope and with ERR_LABEL_IS_NOT_FOUND when a dot label used in the scope is undefined; non-dot labels are unaffected by scopes.", "quantifier": "every nesting and interleaving of scopes, definitions and references (code below 2 GiB - 6, no setSize/rewrite, no definition that failed because of distance)", "why_tests_cant": "unbounded nesting", "anchors": ["xbyak/xbyak.h:LabelManager::enterLocal", "xbyak/xbyak.h:LabelManager::leaveLocal", "xbyak/xbyak.h:LabelManager::defineSlabel", "xbyak/xbyak.h:LabelManager::addUndefinedLabel"]}
{"id": "C17", "title": "Label objects may be created, copied and destroyed in any order", "statement": "For every history of Label construction, copy, assignment, destruction, L, jumps and generator reset/destruction, the generator never writes through a pointer to a destroyed Label object and never keeps more or fewer references than there are live Label objects bound to a defined label.", "quantifier": "every lifecycle history and every order of destruction", "why_tests_cant": "use-after-free depends on the whole lifecycle history", "anchors": ["xbyak/xbyak.h:LabelManager::incRefCount", "xbyak/xbyak.h:LabelManager::decRefCount", "xbyak/xbyak.h:LabelManager::resetLabelPtrList", "xbyak/xbyak.h:Label::~Label", "xbyak/xbyak.h:Label::operator="]}
{"id": "C18", "title": "Copies of a defined label denote the same address", "statement": "If a defined Label is copied (constructor or assignment) then, as long as any of the copies is alive, jumping to or taking the address of any of them denotes the offset of the original definition, whatever happens to the others.", "quantifier": "every history of copies and destructions (code below 2 GiB - 6, no setSize/rewrite, no definition that failed because of distance)", "why_tests_cant": "reference counting over all orders of destruction", "anchors": ["xbyak/xbyak.h:Label::Label", "xbyak/xbyak.h:Label::operator=", "xbyak/xbyak.h:LabelManager::decRefCount", "xbyak/xbyak.h:LabelManager::incRefCount"]}
{"id": "C19", "title": "reset() makes the generator as good as new", "statement": "After reset() the generator accepts any program exactly as a freshly constructed generator over the same buffer: same bytes, same errors, no reference to labels of the previous program.", "quantifier": "every history before reset and every history after it", "why_tests_cant": "quantifies over two arbitrary histories", "anchors": ["xbyak/xbyak.h:CodeGenerator::reset", "xbyak/xbyak.h:CodeArray::resetSize", "xbyak/xbyak.h:LabelManager::reset"]}
{"id": "C20", "title": "Distinct labels never alias", "statement": "Two Label objects that are not copies of each other never receive the same identity within one generator generation: a definition of one never resolves a reference to the other.", "quantifier": "every history", "why_tests_cant": "aliasing depends on the whole allocation history of identities", "anchors": ["xbyak/xbyak.h:LabelManager::getId", "xbyak/xbyak.h:LabelManager::defineClabel"]}
{"id": "C21", "title": "assignL makes dst an alias of src", "statement": "After a successful assignL(dst, src), past and future references to dst address the definition of src.", "quantifier": "every history, dst used before or not, any buffer mode", "why_tests_cant": "aliasing through pending references of every kind", "anchors": ["xbyak/xbyak.h:LabelManager::assign", "xbyak/xbyak.h:CodeGenerator::assignL"]}
{"id": "C22", "title": "Label::getAddress is exact or null", "statement": "getAddress() returns getCode()+offset of the definition when the label is defined and the code is ready, and null in every other case.", "quantifier": "every reachable state", "why_tests_cant": "all states", "anchors": ["xbyak/xbyak.h:Label::getAddress", "xbyak/xbyak.h:LabelManager::isReady"]}
{"id": "C23", "title": "Jumps and calls to an absolute address land on it", "statement": "If jmp/call/jcc(const void *addr) succeeds (and ready() in AutoGrow mode), the emitted instruction transfers control to addr for the final position of the code; if the distance is not encodable an error is raised.", "quantifier": "every 64-bit target, every buffer address and fill level", "why_tests_cant": "2^64 targets times all buffer positions; wrap-around at the ends of the range", "anchors": ["xbyak/xbyak.h:CodeGenerator::opJmpAbs", "xbyak/xbyak.h:CodeGenerator::makeJmp", "xbyak/xbyak.h:CodeArray::AddrInfo::getVal"]}
{"id": "C24", "title": "ready() completes the code", "statement": "After ready() succeeds in AutoGrow mode, every displacement in the buffer is final; a second ready() changes nothing unless code was added in between, in which case it completes the added code too.", "quantifier": "every history including several ready() calls", "why_tests_cant": "needs all histories between two ready() calls", "anchors": ["xbyak/xbyak.h:CodeGenerator::ready", "xbyak/xbyak.h:CodeArray::calcJmpAddress"]}
{"id": "C25", "title": "align pads to the requested alignment and stays aligned after relocation", "statement": "align(x) for a power of two x makes the next instruction address a multiple of x using fewer than x bytes of NOPs; other x are refused with ERR_BAD_ALIGN; in AutoGrow mode the alignment still holds after any later relocation to page-aligned memory.", "quantifier": "every x, every buffer address, every later relocation", "why_tests_cant": "all addresses and relocation schedules", "anchors": ["xbyak/xbyak.h:CodeGenerator::align", "xbyak/xbyak.h:CodeGenerator::nop"]}
{"id": "C26", "title": "nop(n) is exactly n bytes of no-operation instructions", "statement": "nop(n) emits exactly n bytes and an x86-64 decoder reads them as a sequence of NOP instructions, for both values of useMultiByteNop.", "quantifier": "every n", "why_tests_cant": "n is unbounded", "anchors": ["xbyak/xbyak.h:CodeGenerator::nop"]}
{"id": "C27", "title": "Address expressions denote the sum the user wrote", "statement": "For every expression built from registers, reg*scale, +, - and constants, if the expression is accepted its base, index, scale and displacement describe exactly the arithmetic sum of the terms (mod 2^64) for every assignment of register values; inexpressible sums are refused.", "quantifier": "every expression tree and every register file", "why_tests_cant": "unbounded expression trees and 2^64 register values", "anchors": ["xbyak/xbyak.h:RegExp::RegExp", "xbyak/xbyak.h:operator+(const RegExp&, const RegExp&)", "xbyak/xbyak.h:operator-(const RegExp&, size_t)", "xbyak/xbyak.h:operator*(const Reg&, int)"]}
{"id": "C28", "title": "The [reg*2] to [reg+reg] rewriting preserves the effective address", "statement": "The automatic optimisation of an address never changes the effective address, and never turns an encodable address into one that is not.", "quantifier": "every address and register file", "why_tests_cant": "all addresses and register values", "anchors": ["xbyak/xbyak.h:RegExp::optimize", "xbyak/xbyak.h:Address::getRegExp"]}
{"id": "C29", "title": "ModRM/SIB/displacement bytes decode to the requested effective address", "statement": "For every accepted 32/64-bit base/index/scale/displacement combination, the emitted ModRM, SIB and displacement bytes, read by an independent x86-64 decoder together with the emitted REX/REX2/EVEX extension bits, give the same effective address for every register file, and the same reg field.", "quantifier": "every base (32 registers or none), index, scale, 32-bit displacement, reg field and register file", "why_tests_cant": "combinatorially many operand combinations including the rsp/rbp/r12/r13 special cases times all register values", "anchors": ["xbyak/xbyak.h:CodeGenerator::setSIB", "xbyak/xbyak.h:CodeGenerator::setModRM", "xbyak/xbyak.h:CodeGenerator::opAddr"]}
{"id": "C30", "title": "Compressed disp8*N displacements are exact", "statement": "With EVEX disp8*N compression the stored byte times N equals the requested displacement, the compressed form is used only when N divides it and the quotient fits in a signed byte, and otherwise a 32-bit displacement is stored.", "quantifier": "every 32-bit displacement and every N in use", "why_tests_cant": "all displacements and scaling factors", "anchors": ["xbyak/xbyak.h:CodeGenerator::setSIB", "xbyak/xbyak.h:CodeGenerator::evex"]}
{"id": "C31", "title": "RIP-relative operands address label + constant even with trailing immediates", "statement": "For an instruction with a [rip+label+d] or [rip+&var] operand and a trailing immediate, the displacement field is such that address of the end of the whole instruction + displacement equals label + d (or &var).", "quantifier": "every instruction family with immediates, every label position, d and immediate", "why_tests_cant": "the immediate size must be threaded through every emission path; a test exercises only some", "anchors": ["xbyak/xbyak.h:CodeGenerator::opAddr", "xbyak/xbyak.h:Operand::getAddress", "xbyak/xbyak.h:CodeGenerator::opRext", "xbyak/xbyak.h:CodeGenerator::opRRO", "xbyak/xbyak.h:CodeGenerator::opVex"]}
{"id": "C32", "title": "Unencodable addresses are refused", "statement": "rsp as an index, scale not in {1,2,4,8}, displacement not representable as a sign-extended 32-bit value, mixed register widths, vector registers as base and 16/8-bit registers are all refused with an error; nothing inexpressible is silently encoded as something else.", "quantifier": "every address expression", "why_tests_cant": "completeness of rejection over all expressions", "anchors": ["xbyak/xbyak.h:RegExp::verify", "xbyak/xbyak.h:RegExp::RegExp", "xbyak/xbyak.h:CodeGenerator::setSIB", "xbyak/xbyak.h:inner::VerifyInInt32"]}
{"id": "C33", "title": "Two-register integer instructions decode to the requested registers", "statement": "For every legacy-encoded reg,reg instruction (8/16/32/64 bit, registers 0-31, maps 0F/0F38/0F3A) that is accepted, an independent decoder recovers operation code, operand size and both registers, including the distinction spl/bpl/sil/dil versus ah/ch/dh/bh.", "quantifier": "every pair of general registers, every opcode and prefix type", "why_tests_cant": "all combinations of registers, widths, maps and prefixes", "anchors": ["xbyak/xbyak.h:CodeGenerator::opRR", "xbyak/xbyak.h:CodeGenerator::rex", "xbyak/xbyak.h:CodeGenerator::rex2", "xbyak/xbyak.h:CodeGenerator::writeCode"]}
{"id": "C34", "title": "Register-memory integer instructions decode to the requested register and address", "statement": "For every legacy-encoded reg,mem instruction that is accepted, an independent decoder recovers opcode, operand size, register and effective address.", "quantifier": "every register, address, opcode and prefix type", "why_tests_cant": "all combinations", "anchors": ["xbyak/xbyak.h:CodeGenerator::opMR", "xbyak/xbyak.h:CodeGenerator::opRO", "xbyak/xbyak.h:CodeGenerator::rex", "xbyak/xbyak.h:CodeGenerator::opAddr"]}
{"id": "C35", "title": "ah/ch/dh/bh are never silently turned into other registers", "statement": "An instruction naming ah, ch, dh or bh either encodes that register or is refused with ERR_CANT_USE_ABCDH; it never encodes spl/bpl/sil/dil.", "quantifier": "every instruction family and every partner operand", "why_tests_cant": "the need for a REX prefix arises in many independent ways", "anchors": ["xbyak/xbyak.h:CodeGenerator::isBadCombination", "xbyak/xbyak.h:CodeGenerator::opRR", "xbyak/xbyak.h:CodeGenerator::opMR", "xbyak/xbyak.h:CodeGenerator::opMovxx"]}
{"id": "C36", "title": "ALU immediates keep their value", "statement": "add/or/adc/sbb/and/sub/xor/cmp with an immediate: the emitted immediate, sign-extended to the operand size as the CPU does, equals the requested value modulo the operand size, whichever of the imm8/imm32/accumulator forms is chosen; values that do not fit are refused.", "quantifier": "every immediate and operand size", "why_tests_cant": "2^32 immediates times operand forms", "anchors": ["xbyak/xbyak.h:CodeGenerator::opOI", "xbyak/xbyak.h:CodeGenerator::opROI", "xbyak/xbyak.h:CodeGenerator::getImmBit"]}
{"id": "C37", "title": "mov reg,imm loads exactly the requested value", "statement": "mov(reg, imm) emits one of three encodings; executed, the destination 64-bit register holds imm (64-bit destination, every imm) or the low bits of imm for narrower destinations.", "quantifier": "every 64-bit immediate and register", "why_tests_cant": "2^64 immediates", "anchors": ["xbyak/xbyak.h:CodeGenerator::mov_imm", "xbyak/xbyak.h:CodeGenerator::mov"]}
{"id": "C38", "title": "VEX instructions decode to the requested operands", "statement": "For every accepted VEX-encoded three-operand instruction, an independent decoder recovers map, pp, W, L, the destination, the vvvv source and the register or memory source; the 2-byte form is used only when it carries the same information.", "quantifier": "every register triple, every type flag combination, every address", "why_tests_cant": "all combinations", "anchors": ["xbyak/xbyak.h:CodeGenerator::vex", "xbyak/xbyak.h:CodeGenerator::opVex"]}
{"id": "C39", "title": "EVEX instructions decode to the requested operands and modifiers", "statement": "For every accepted EVEX-encoded instruction, an independent decoder recovers map, pp, W, vector length, destination, vvvv source, register or memory source (all 32 registers), opmask, zeroing, broadcast, embedded rounding and SAE as requested.", "quantifier": "every operand, mask, rounding and broadcast combination", "why_tests_cant": "all combinations", "anchors": ["xbyak/xbyak.h:CodeGenerator::evex", "xbyak/xbyak.h:CodeGenerator::opVex", "xbyak/xbyak.h:CodeGenerator::verifySAE", "xbyak/xbyak.h:CodeGenerator::verifyER"]}
{"id": "C40", "title": "Registers 16-31 survive REX2", "statement": "Legacy map-0 and map-0F instructions that use r16-r31 as register, base or index decode (REX2) to exactly those registers, and instructions of other maps are refused with ERR_CANT_USE_REX2 instead of being truncated.", "quantifier": "every placement of extended registers", "why_tests_cant": "all combinations", "anchors": ["xbyak/xbyak.h:CodeGenerator::rex2", "xbyak/xbyak.h:CodeGenerator::rex"]}
{"id": "C41", "title": "APX extended-EVEX instructions decode to the requested operands", "statement": "For every accepted APX promoted instruction (NDD, NF, ZU), the decoder recovers the new data destination, both sources, ND, NF, operand size and opcode.", "quantifier": "every register combination and memory operand", "why_tests_cant": "all combinations", "anchors": ["xbyak/xbyak.h:CodeGenerator::evexLeg", "xbyak/xbyak.h:CodeGenerator::opROO"]}
{"id": "C42", "title": "Vector registers 16-31 are refused where they cannot be encoded", "statement": "SSE and VEX-only instructions given xmm/ymm16-31 in any operand position (including VSIB index) are refused; no register number is truncated modulo 16.", "quantifier": "every instruction family and operand position", "why_tests_cant": "all positions", "anchors": ["xbyak/xbyak.h:CodeGenerator::isValidSSE", "xbyak/xbyak.h:CodeGenerator::opSSE", "xbyak/xbyak.h:CodeGenerator::opVex", "xbyak/xbyak.h:CodeGenerator::opGather"]}
{"id": "C43", "title": "No instruction exceeds 15 bytes", "statement": "Every single integer, SSE, VEX or EVEX instruction the generator accepts is at most 15 bytes long.", "quantifier": "every instruction family and operand combination", "why_tests_cant": "all combinations of prefixes, SIB, disp32 and imm", "anchors": ["xbyak/xbyak.h:CodeGenerator::opRR", "xbyak/xbyak.h:CodeGenerator::opMR", "xbyak/xbyak.h:CodeGenerator::opVex", "xbyak/xbyak.h:CodeGenerator::opOI"]}
{"id": "C44", "title": "Condition codes are consistent across jcc, setcc, cmovcc and their aliases", "statement": "For each of the 30 condition mnemonics, jcc (short and near), setcc, cmovcc, ccmpcc, cfcmovcc and ctestcc carry the same 4-bit condition, aliases agree, and negated mnemonics differ exactly in bit 0.", "quantifier": "every condition mnemonic and every family", "why_tests_cant": "cross-table consistency; tests compare single encodings against nasm", "anchors": ["xbyak/xbyak_mnemonic.h:ja", "xbyak/xbyak_mnemonic.h:seta", "xbyak/xbyak_mnemonic.h:cmova", "xbyak/xbyak_mnemonic.h:ccmpa", "xbyak/xbyak_mnemonic.h:cfcmova", "xbyak/xbyak_mnemonic.h:ctesta"]}
{"id": "C45", "title": "Different instructions never share an encoding", "statement": "Within the SSE/AVX/AVX-512 operand families, two mnemonics that are not documented aliases have different (map, prefix, opcode, W, extension) selectors, so no two instructions are confused.", "quantifier": "every pair of mnemonics", "why_tests_cant": "pairwise over the whole instruction list", "anchors": ["xbyak/xbyak_mnemonic.h:opAVX_X_X_XM", "xbyak/xbyak_mnemonic.h:opSSE", "xbyak/xbyak_mnemonic.h:opVex"]}
{"id": "C46", "title": "Shift/rotate instructions carry the requested count", "statement": "shl/shr/sar/rol/ror/rcl/rcr by an immediate or by cl decode to the requested operation, operand and count; a count register other than cl is refused.", "quantifier": "every operand, count and operation", "why_tests_cant": "all combinations", "anchors": ["xbyak/xbyak.h:CodeGenerator::opShift", "xbyak/xbyak.h:CodeGenerator::xchg", "xbyak/xbyak.h:CodeGenerator::opRext"]}
{"id": "C47", "title": "push/pop decode to the requested register, address or immediate", "statement": "push/pop of registers and memory, and push of immediates, decode to the requested operand; pushed immediates sign-extend to the requested value.", "quantifier": "every register, address and immediate", "why_tests_cant": "all immediates", "anchors": ["xbyak/xbyak.h:CodeGenerator::opPushPop", "xbyak/xbyak.h:CodeGenerator::push"]}
{"id": "C48", "title": "xchg uses the short accumulator form only when it is equivalent", "statement": "xchg of two registers or register and memory exchanges exactly the two operands; in particular xchg eax,eax is not emitted as the no-op 0x90 in 64-bit mode.", "quantifier": "every operand pair", "why_tests_cant": "all operand pairs", "anchors": ["xbyak/xbyak.h:CodeGenerator::xchg"]}
{"id": "C49", "title": "StackFrame hands out distinct registers that the caller does not own", "statement": "For every accepted (pNum, tNum, UseRCX, UseRDX), the parameter and temporary registers are pairwise distinct, never rsp, and avoid rcx/rdx when these are reserved.", "quantifier": "every configuration", "why_tests_cant": "cross product of configurations and both ABIs", "anchors": ["xbyak/xbyak_util.h:StackFrame::StackFrame", "xbyak/xbyak_util.h:StackFrame::getRegIdx", "xbyak/xbyak_util.h:StackFrame::getOrderTbl"]}
{"id": "C50", "title": "StackFrame preserves callee-saved registers and the stack pointer", "statement": "Executing prologue, any body that restores rsp and leaves the save area alone, then the epilogue, restores rsp and every callee-saved register to its entry value; locals are stackSizeByte bytes, and with alignment requested rsp is 16-byte aligned in the body.", "quantifier": "every configuration, every stackSize, every entry register file and every body", "why_tests_cant": "all entry states and body behaviours", "anchors": ["xbyak/xbyak_util.h:StackFrame::StackFrame", "xbyak/xbyak_util.h:StackFrame::close"]}
{"id": "C51", "title": "StackFrame passes parameters in the requested registers", "statement": "On entry to the body p[i] holds the i-th integer argument of the ABI, even when rcx/rdx are reserved and parameters are moved.", "quantifier": "every configuration and argument values", "why_tests_cant": "register permutation over all configurations", "anchors": ["xbyak/xbyak_util.h:StackFrame::StackFrame"]}
{"id": "C52", "title": "MmapAllocator frees exactly what it allocated", "statement": "For every history of alloc/free, each successful free unmaps exactly one live mapping with its page-rounded size; freeing an unknown or already freed pointer is refused; requested sizes are covered.", "quantifier": "every alloc/free history and every kernel choice of addresses", "why_tests_cant": "histories unbounded", "anchors": ["xbyak/xbyak.h:MmapAllocator::alloc", "xbyak/xbyak.h:MmapAllocator::free"]}
{"id": "C53", "title": "protect covers the whole buffer and getAlignedAddress is the least aligned address", "statement": "The page range passed to mprotect is page aligned and contains [addr, addr+size); getAlignedAddress returns the smallest multiple of the power-of-two alignment not below addr.", "quantifier": "every address, size and power-of-two page size", "why_tests_cant": "all addresses", "anchors": ["xbyak/xbyak.h:CodeArray::protect", "xbyak/xbyak.h:CodeArray::getAlignedAddress"]}
{"id": "C54", "title": "CPU feature reports are consistent", "statement": "For every CPUID/XGETBV response, a reported AVX-512 sub-feature implies AVX512F, AVX and OS support of the state; has(a|b) iff has(a) and has(b).", "quantifier": "every possible CPUID response", "why_tests_cant": "the response space is astronomically large; a test sees one machine", "anchors": ["xbyak/xbyak_util.h:Cpu::Cpu", "xbyak/xbyak_util.h:Cpu::has"]}
{"id": "C55", "title": "Cache topology queries stay within bounds", "statement": "For every CPUID response, the detected number of cache levels is at most 10, getDataCacheSize/getCoresSharingDataCache(i) succeed iff i is below it, and no division by zero occurs.", "quantifier": "every possible CPUID response", "why_tests_cant": "one machine per test", "anchors": ["xbyak/xbyak_util.h:Cpu::setCacheHierarchy", "xbyak/xbyak_util.h:Cpu::getDataCacheSize", "xbyak/xbyak_util.h:Cpu::getCoresSharingDataCache"]}
{"id": "C56", "title": "Register views keep identity", "statement": "changeBit/cvt8/cvt16/cvt32/cvt64 either return the register of the requested width with the same hardware number or fail; round trips are the identity; ah..bh are never converted to a different register silently.", "quantifier": "every register and width", "why_tests_cant": "all registers and widths", "anchors": ["xbyak/xbyak.h:Reg::changeBit", "xbyak/xbyak.h:Reg::cvt8", "xbyak/xbyak.h:Operand::setBit"]}
{"id": "C57", "title": "First error wins in no-exception mode", "statement": "With XBYAK_NO_EXCEPTION, GetError() returns the first error raised since ClearError(), whatever calls follow.", "quantifier": "every sequence of failing and succeeding calls", "why_tests_cant": "all sequences", "anchors": ["xbyak/xbyak.h:local::SetError", "xbyak/xbyak.h:GetError", "xbyak/xbyak.h:ClearError"]}
{"id": "C58", "title": "Failed calls keep previously emitted code intact", "statement": "Whatever call fails with an exception, the code is not shortened and every byte emitted by earlier calls that does not belong to a still incomplete reference (label undefined, or waiting for ready() in AutoGrow mode) is unchanged.", "quantifier": "every history and every failing call", "why_tests_cant": "failure points in all histories", "anchors": ["xbyak/xbyak.h:CodeArray::db", "xbyak/xbyak.h:CodeGenerator::opJmp", "xbyak/xbyak.h:LabelManager::define_inner"]}
{"id": "C59", "title": "Error codes map to their own message", "statement": "ConvertErrorToString returns for each error code the message at its own index, never reads outside the table for any int, and distinct codes have distinct messages.", "quantifier": "every int", "why_tests_cant": "all ints, including negative ones", "anchors": ["xbyak/xbyak.h:ConvertErrorToString", "xbyak/xbyak.h:Error"]}
{"id": "C60", "title": "Register names are unambiguous", "statement": "toString gives different names to different general, vector, mask, fpu, mmx, bound and tile registers.", "quantifier": "every pair of registers", "why_tests_cant": "all pairs", "anchors": ["xbyak/xbyak.h:Operand::toString"]}
{"id": "C61", "title": "Indirect jumps and calls go through the requested operand", "statement": "jmp(op) and call(op), near and far, decode to the indirect branch through exactly the requested register or address; the operand size accepted is the one the instruction uses in 64-bit mode (64 bits for near branches, the memory operand's for far ones).", "quantifier": "every register, address and branch kind", "why_tests_cant": "all operands; a wrong accepted size is only visible at run time", "anchors": ["xbyak/xbyak.h:CodeGenerator::opJmpOp", "xbyak/xbyak.h:CodeGenerator::opRext"]}
{"id": "C62", "title": "In no-exception mode a failed call never leads to a write outside the buffer", "statement": "With XBYAK_NO_EXCEPTION, whatever fails (allocation in the constructor, growing, a full buffer), later emissions write only inside allocated memory.", "quantifier": "every buffer kind and size, every allocation outcome, every sequence of emissions", "why_tests_cant": "needs failing allocations at every point", "anchors": ["xbyak/xbyak.h:CodeArray::CodeArray", "xbyak/xbyak.h:CodeArray::growMemory", "xbyak/xbyak.h:CodeArray::db"]}
{"id": "C63", "title": "Every CPU feature flag reflects its documented CPUID bits", "statement": "For every feature name, Cpu::has reports it iff the manuals' CPUID bits are set in an existing leaf and the operating system saves the register state its instructions use; the AVX10 version is CPUID.(24h,0):EBX[7:0].", "quantifier": "every possible CPUID/XGETBV response and every feature", "why_tests_cant": "a test sees one machine", "anchors": ["xbyak/xbyak_util.h:Cpu::Cpu", "xbyak/xbyak_util.h:Cpu::has", "xbyak/xbyak_util.h:Cpu::getAVX10version"]}
{"id": "C64", "title": "One-operand arithmetic instructions decode to what was requested", "statement": "not, neg, mul, div, idiv, inc and dec, with one operand or with an APX destination, decode to the operation the function is named after, with the requested operand, size, destination and no-flags modifier.", "quantifier": "every function of the family, every register and address", "why_tests_cant": "all registers, sizes and the promoted forms", "anchors": ["xbyak/xbyak.h:CodeGenerator::opRext", "xbyak/xbyak.h:CodeGenerator::opIncDec", "xbyak/xbyak.h:CodeGenerator::opROO", "xbyak/xbyak_mnemonic.h:neg", "xbyak/xbyak_mnemonic.h:inc", "xbyak/xbyak_mnemonic.h:mul"]}
{"id": "C65", "title": "Comparison and carry-less multiplication pseudo-ops carry the manual's immediate", "statement": "Every cmp<pred>{pd,ps,sd,ss}, vcmp<pred>..., pclmul<halves>dq and vpclmul<halves>dq function, in every overload, emits exactly what the base instruction emits with the immediate whose documented meaning is the one in the name.", "quantifier": "all 8 and 32 predicates, four formats, all overloads, all operands", "why_tests_cant": "168 names with near-identical meanings; a test compares the table against itself", "anchors": ["xbyak/xbyak_mnemonic.h:cmpeqps", "xbyak/xbyak_mnemonic.h:vcmpeqps", "xbyak/xbyak_mnemonic.h:pclmullqlqdq", "xbyak/xbyak_mnemonic.h:vpclmullqlqdq"]}
{"id": "C66", "title": "Vector instructions have the encodings the manual lists for their mnemonic", "statement": "Every accepted call of an SSE, AVX, AVX-512, mask, tile or BMI function writes a mandatory prefix, opcode map, opcode, W bit and opcode extension that the Intel manual lists for the mnemonic the function is named after.", "quantifier": "all 2400 functions of the families, every operand", "why_tests_cant": "the reference assembler of the test suite covers the operands someone listed; the header's flags are written by hand for each function", "anchors": ["xbyak/xbyak_mnemonic.h:vaddps", "xbyak/xbyak_mnemonic.h:vpermq", "xbyak/xbyak_mnemonic.h:pslldq", "xbyak/xbyak_mnemonic.h:vsm3msg1", "xbyak/xbyak.h:CodeGenerator::opVex", "xbyak/xbyak.h:CodeGenerator::opSSE"]}
{"id": "C67", "title": "Every operand of a vector instruction is where the manual puts it", "statement": "Every accepted call of an AVX, AVX-512, mask, tile or BMI function is read, with the manual's rules (including the EVEX displacement unit of the form and its broadcast), as a form of its mnemonic whose operands - in ModRM.reg, VEX.vvvv, ModRM.rm and the immediate byte - are exactly the arguments in the order of the mnemonic; fields no operand uses are zero and the immediate is the one given.", "quantifier": "all 1526 functions of the families, every register, address, modifier and immediate", "why_tests_cant": "the order and place of operands and the displacement unit are flags written by hand per function; the test suite uses a few registers and displacements each", "anchors": ["xbyak/xbyak_mnemonic.h:vaddps", "xbyak/xbyak_mnemonic.h:vcvtne2ph2bf8", "xbyak/xbyak_mnemonic.h:vscalefpbf16", "xbyak/xbyak_mnemonic.h:vmovss", "xbyak/xbyak.h:CodeGenerator::opVex", "xbyak/xbyak.h:CodeGenerator::opAVX_X_X_XM"]}
{"id": "C68", "title": "SSE and MMX instructions have their operands in place and of the right kind", "statement": "Every accepted call of an SSE or MMX function is read, with the manual's rules, as a form of its mnemonic whose ModRM.reg and ModRM.rm operands are exactly the arguments in the order of the mnemonic; each argument is of a class (mm, xmm 0-15, 32-bit or 64-bit general register, memory) that the form takes, and the immediate is the one given.", "quantifier": "all 328 functions of the family, every register, address and immediate", "why_tests_cant": "the operand checks are chosen by hand per function; a test has to think of passing an mm, ymm or general register where none belongs", "anchors": ["xbyak/xbyak_mnemonic.h:movapd", "xbyak/xbyak_mnemonic.h:psllw", "xbyak/xbyak_mnemonic.h:movdq2q", "xbyak/xbyak_mnemonic.h:pextrw", "xbyak/xbyak_mnemonic.h:movq", "xbyak/xbyak.h:CodeGenerator::opSSE", "xbyak/xbyak.h:CodeGenerator::opMMX", "xbyak/xbyak.h:CodeGenerator::opMMX_IMM", "xbyak/xbyak.h:CodeGenerator::opMovXMM", "xbyak/xbyak.h:CodeGenerator::opExt"]}
{"id": "C69", "title": "Integer instructions are the ones the manual has for the mnemonic", "statement": "Every accepted call of an integer function with a ModRM byte (two-operand arithmetic, bit tests and scans, cmpxchg, xadd, crc32, movsx/movzx/movbe, shld/shrd, lzcnt/tzcnt/popcnt, prefetches and cache control, bound checks, x87 environment, fs/gs base, random numbers, adcx/adox, remote atomics) is read, with the manual's rules, as a form of that mnemonic: opcode, map, mandatory prefix, W, ModRM.reg extension, every operand of the kind and size the form has and at its place, and the immediate given.", "quantifier": "all 85 functions, every register, address, stated or unstated memory size, and immediate", "why_tests_cant": "opcode, extension, prefix and size checks are written by hand per function; the product of functions, operand sizes, byte registers and REX combinations is not enumerated by the tests", "anchors": ["xbyak/xbyak_mnemonic.h:add", "xbyak/xbyak_mnemonic.h:bsf", "xbyak/xbyak_mnemonic.h:bt", "xbyak/xbyak_mnemonic.h:cmpxchg", "xbyak/xbyak_mnemonic.h:cmpxchg8b", "xbyak/xbyak_mnemonic.h:crc32", "xbyak/xbyak_mnemonic.h:lea", "xbyak/xbyak_mnemonic.h:movzx", "xbyak/xbyak_mnemonic.h:shld", "xbyak/xbyak_mnemonic.h:xadd", "xbyak/xbyak_mnemonic.h:bndcl", "xbyak/xbyak_mnemonic.h:fldcw", "xbyak/xbyak.h:CodeGenerator::opRO", "xbyak/xbyak.h:CodeGenerator::opMR", "xbyak/xbyak.h:CodeGenerator::opRR", "xbyak/xbyak.h:CodeGenerator::opRO_MR", "xbyak/xbyak.h:CodeGenerator::opRext", "xbyak/xbyak.h:CodeGenerator::opMovxx", "xbyak/xbyak.h:CodeGenerator::opShxd", "xbyak/xbyak.h:CodeGenerator::opCnt"]}
{"id": "C70", "title": "Instructions without operands are the manual's bytes", "statement": "Every function that writes fixed bytes (string, flag, system, x87 constant and control instructions, prefixes, vzeroupper, tilerelease, ...) writes exactly the prefix byte or the complete instruction - prefixes, map, opcode, W, the byte in the place of ModRM, WAIT - that the manual gives for the mnemonic, and each such mnemonic has a function.", "quantifier": "all 138 functions; whatever code follows", "why_tests_cant": "each byte sequence is written by hand; the tests compare a subset with an assembler", "anchors": ["xbyak/xbyak_mnemonic.h:cqo", "xbyak/xbyak_mnemonic.h:rdtscp", "xbyak/xbyak_mnemonic.h:xend", "xbyak/xbyak_mnemonic.h:fsincos", "xbyak/xbyak_mnemonic.h:fstsw", "xbyak/xbyak_mnemonic.h:vzeroupper", "xbyak/xbyak_mnemonic.h:tilerelease"]}
{"id": "C71", "title": "x87 instructions are the forms the manual has", "statement": "Every accepted call of an x87 function with operands is read as the form of its mnemonic: ESC opcode and ModRM.reg for the register order (ST(0) or ST(i) as destination) or for the size of the memory operand, the register or address given, no other prefix; the waiting forms write WAIT before the non-waiting instruction.", "quantifier": "all 84 functions, every register pair, memory size and address", "why_tests_cant": "the two codes per function are written by hand; operand orders that should be refused are not tried by tests", "anchors": ["xbyak/xbyak_mnemonic.h:fadd", "xbyak/xbyak_mnemonic.h:fsubp", "xbyak/xbyak_mnemonic.h:fcmovb", "xbyak/xbyak_mnemonic.h:fild", "xbyak/xbyak_mnemonic.h:fstsw", "xbyak/xbyak.h:CodeGenerator::opFpuMem", "xbyak/xbyak.h:CodeGenerator::opFpuFpu", "xbyak/xbyak.h:CodeGenerator::opFpu"]}
{"id": "C72", "title": "test and imul with an immediate compute with the value given", "statement": "Every accepted test(op, imm) and imul(r, op, imm) is read, with the manual's rules, as TEST or the three-operand IMUL on exactly those operands with the operand width of the register, and the immediate, extended as the instruction extends it, agrees with the given value to the operand width; register and register/memory operand have the same width.", "quantifier": "every register, address, memory size and 32-bit immediate", "why_tests_cant": "short and long immediate forms, accumulator forms and byte registers are chosen by tests on value and width", "anchors": ["xbyak/xbyak.h:CodeGenerator::test", "xbyak/xbyak.h:CodeGenerator::imul"]}
{"id": "C73", "title": "bswap swaps the bytes of the register given", "statement": "bswap(r) for every 32-bit or 64-bit general register is read, with the manual's rules, as BSWAP of exactly that register and width.", "quantifier": "all 64 registers; whatever code follows", "why_tests_cant": "the register number is spread over opcode, REX and REX2 bits", "anchors": ["xbyak/xbyak.h:CodeGenerator::bswap"]}
{"id": "C74", "title": "Segment register functions name the segment given", "statement": "putSeg(seg) writes the override prefix of that segment; push/pop(seg) are PUSH/POP of it; mov between a segment register and an operand moves exactly these; lfs, lgs, lss load the segment they are named after and exactly the register given with its width.", "quantifier": "all six segment registers, every register and address, every instruction following the prefix", "why_tests_cant": "the tests cover a few segment and operand combinations", "anchors": ["xbyak/xbyak.h:CodeGenerator::putSeg", "xbyak/xbyak.h:CodeGenerator::push", "xbyak/xbyak.h:CodeGenerator::pop", "xbyak/xbyak.h:CodeGenerator::mov", "xbyak/xbyak.h:CodeGenerator::opLoadSeg", "xbyak/xbyak_mnemonic.h:lfs", "xbyak/xbyak_mnemonic.h:lss"]}
{"id": "C75", "title": "Pack holds the registers it was given", "statement": "A Pack made from registers holds exactly these in the documented order; append adds one at the end or refuses; operator[] gives the register at the position or refuses; sub(pos, num) holds the registers from pos on, num of them, or refuses; nothing outside the table is read or written.", "quantifier": "every list of registers, every position and count", "why_tests_cant": "out-of-range positions and counts are not tried", "anchors": ["xbyak/xbyak_util.h:Pack"]}
{"id": "C76", "title": "vmovd and vmovw move between the operands given", "statement": "Every accepted vmovd(a, b) and vmovw(a, b) is read, with the manual's rules, as a form of that mnemonic - opcode, map, prefix, W, length 128, no opmask, zeroing or rounding - whose destination and source are exactly a and b (a general register only in a form that has one there), under every default encoding setting.", "quantifier": "every register, address and memory size, both default and explicit encodings", "why_tests_cant": "the AVX10.2 zero-extending forms are chosen by operand kinds and by an encoding setting; the tests try a few", "anchors": ["xbyak/xbyak.h:CodeGenerator::vmovd", "xbyak/xbyak.h:CodeGenerator::vmovw", "xbyak/xbyak.h:CodeGenerator::opAVX10ZeroExt"]}
{"id": "C78", "title": "Opmask, zeroing, broadcast and rounding are encoded as given", "statement": "The prefix of every accepted call of an AVX, AVX-512, mask, tile or BMI function has exactly the opmask, zeroing, broadcast bit and static rounding mode given with its operands (an operand's modifier is never dropped, and none appears that was not given); a set of modifiers that one instruction cannot have is refused.", "quantifier": "all 1526 functions of the families, every operand with every modifier", "why_tests_cant": "modifiers can be put on every operand; the tests put them on the destination of a few instructions", "anchors": ["xbyak/xbyak.h:CodeGenerator::evex", "xbyak/xbyak.h:CodeGenerator::opVex", "xbyak/xbyak.h:CodeGenerator::checkGather2", "xbyak/xbyak_mnemonic.h:vaddps", "xbyak/xbyak_mnemonic.h:vmovups"]}
{"id": "C77", "title": "The vector length is the one the operands define", "statement": "The length field (VEX.L, EVEX.L'L) of every accepted call of an AVX, AVX-512, mask, tile or BMI function, without static rounding, is the length the manual defines for the operands: the width of the widest vector register (the index of a gather included), of the stated memory source for narrowing conversions, VEX.L1 for the three-operand opmask instructions and 512 for the AVX512_PF prefetches; operands of widths that no one length fits are refused.", "quantifier": "all 1526 functions of the families, every combination of register widths, memory sizes and index registers", "why_tests_cant": "a length field that is wrong for one combination of widths processes half or twice the data; the tests have the usual combinations only", "anchors": ["xbyak/xbyak.h:CodeGenerator::opVex", "xbyak/xbyak.h:CodeGenerator::evex", "xbyak/xbyak.h:CodeGenerator::opCvt2", "xbyak/xbyak.h:CodeGenerator::opGather", "xbyak/xbyak_mnemonic.h:vaddps", "xbyak/xbyak_mnemonic.h:vcvtpd2ps"]}
{"id": "C79", "title": "Accepted gathers and scatters are defined", "statement": "Every accepted gather, scatter or prefetch is, as the manual reads its bytes, an instruction that does not fault as undefined: with VEX the destination, index and mask registers are different; with EVEX the opmask is not k0, there is no zeroing or broadcast, and the destination of a gather is not its index.  Data, mask and index registers have the widths that the mnemonic has at the vector length encoded.", "quantifier": "all 40 functions, every register, index, opmask and address", "why_tests_cant": "which combinations are undefined depends on three register numbers and widths at once; tests try one of each", "anchors": ["xbyak/xbyak.h:CodeGenerator::opGather", "xbyak/xbyak.h:CodeGenerator::checkGather2", "xbyak/xbyak.h:CodeGenerator::opGather2", "xbyak/xbyak.h:CodeGenerator::opGatherFetch", "xbyak/xbyak_mnemonic.h:vgatherdps", "xbyak/xbyak_mnemonic.h:vgatherpf0dps"]}
{"id": "C80", "title": "The encoding asked for is the one used", "statement": "For every function that has both a VEX and an EVEX encoding, an accepted call writes the encoding chosen by its argument or, without one, by the last valid call of setDefaultEncoding (VNNI group) or setDefaultEncodingAVX10 (AVX10.2 group), EVEX and pre-AVX10.2 at first.  A choice of the other group is refused with ERR_BAD_ENCODING_MODE and nothing is written; a refused setting leaves the default.", "quantifier": "all functions with a PreferredEncoding argument, all operands, every history of settings", "why_tests_cant": "tests check a few operands with each setting, not every history, argument and operand combination", "anchors": ["xbyak/xbyak.h:CodeGenerator::getEncoding", "xbyak/xbyak.h:CodeGenerator::orEvexIf", "xbyak/xbyak.h:CodeGenerator::opEncoding", "xbyak/xbyak.h:CodeGenerator::setDefaultEncoding", "xbyak/xbyak.h:CodeGenerator::setDefaultEncodingAVX10", "xbyak/xbyak_mnemonic.h:vpdpbusd", "xbyak/xbyak_mnemonic.h:vcvtneps2bf16", "xbyak/xbyak_mnemonic.h:vmpsadbw"]}
{"id": "C81", "title": "Static rounding is accepted where the manual has it", "statement": "An accepted AVX-512 call with a rounding mode or T_sae on an operand is of a mnemonic for which the manual lists {er} or {sae}, has register operands only, and is encoded with EVEX.b and the vector length of the manual's form (that of the widest register; 256 by EVEX.U = 0).  The documented forms are not refused.", "quantifier": "all 1526 functions of the families, every register, width and rounding mode", "why_tests_cant": "the flags that admit rounding are written by hand for each function; the tests try the instructions that have it", "anchors": ["xbyak/xbyak.h:CodeGenerator::verifySAE", "xbyak/xbyak.h:CodeGenerator::verifyER", "xbyak/xbyak.h:CodeGenerator::evex", "xbyak/xbyak_mnemonic.h:vcvtps2pd", "xbyak/xbyak_mnemonic.h:vmovdqa32", "xbyak/xbyak_mnemonic.h:vpopcntd"]}
{"id": "C82", "title": "Extended EVEX integer instructions are those of the APX specification", "statement": "Every function that can write an extended EVEX form of an integer instruction (three-operand arithmetic, SHLD/SHRD, BMI, ADCX/ADOX, CRC32, MOVBE, key locker, SHA, KMOV, tile configuration and others), called with APX operands of the kinds and sizes of a form and accepted, writes that form: opcode, map, embedded prefix, W, ND, opcode extension, every operand at its place with its size, NF iff T_nf is given, and the immediate.", "quantifier": "every such function of mnemonic.h, all registers, addresses, sizes and immediates", "why_tests_cant": "these encodings are reached only with registers 16 to 31, T_nf or a new data destination; the tests compare some of them with an external disassembler", "anchors": ["xbyak/xbyak.h:CodeGenerator::opROO", "xbyak/xbyak.h:CodeGenerator::opRRO", "xbyak/xbyak.h:CodeGenerator::opSSE_APX", "xbyak/xbyak.h:CodeGenerator::opEncodeKey", "xbyak/xbyak.h:CodeGenerator::opShxd", "xbyak/xbyak.h:CodeGenerator::evexLeg", "xbyak/xbyak_mnemonic.h:blsi", "xbyak/xbyak_mnemonic.h:sha1msg1"]}
{"id": "C83", "title": "Instructions of their own shape are those asked for", "statement": "An accepted call of in_, out_, int_, ret, retf, enter, xabort, xbegin, jmpabs, tpause, umwait, umonitor, senduipi, encodekey128/256 (registers 0-7) or movdir64b writes exactly that instruction with the operands given: the accumulator width and port, the immediates in full, the register numbers and the address width; nothing else is written.", "quantifier": "every overload of these functions, all registers, addresses and immediates", "why_tests_cant": "these functions write their bytes by hand, each on its own path; the tests call each once or not at all, and never with an immediate that does not fit", "anchors": ["xbyak/xbyak.h:CodeGenerator::opInOut", "xbyak/xbyak.h:CodeGenerator::opEncodeKey", "xbyak/xbyak_mnemonic.h:ret", "xbyak/xbyak_mnemonic.h:retf", "xbyak/xbyak_mnemonic.h:enter", "xbyak/xbyak_mnemonic.h:umonitor", "xbyak/xbyak_mnemonic.h:movdir64b", "xbyak/xbyak_mnemonic.h:jmpabs"]}
{"id": "C84", "title": "Base and index keep their roles where they are operands of their own", "statement": "In tile loads and stores (the index is the row stride) and in BNDLDX/BNDSTX (the index is the pointer value) the decoded memory operand has the base, the index, the scale and the displacement given, in these roles: [reg*2] is not rewritten to [reg+reg], and a tile load without a base or an index is refused.", "quantifier": "tileloadd, tileloaddt1, tilestored, bndldx, bndstx, all addresses and registers", "why_tests_cant": "elsewhere only the sum of base and scaled index matters, so checks by effective address cannot see the difference", "anchors": ["xbyak/xbyak.h:CodeGenerator::opAMX", "xbyak/xbyak.h:CodeGenerator::opMIB", "xbyak/xbyak.h:RegExp::optimize", "xbyak/xbyak_mnemonic.h:tilestored", "xbyak/xbyak_mnemonic.h:bndldx"]}
{"id": "C85", "title": "Which register is used does not decide whether an instruction is accepted", "statement": "A call of any function of the mnemonic header (other than gathers and scatters, whose registers must differ) that returns normally for one choice of operands returns normally for every other choice that differs only in register numbers (general and mask registers within 0, 1, 2, 3, 4-7, 8-15, 16-31, vector and tile registers within 0-7, 8-15, 16-31, base and index within 0-15, 16-31), displacement (both within the signed 32-bit range or both outside), scale (unless one of them is [reg*2]) and, unless the function looks at it, immediate; a call that throws throws the same error.  The same for mov, xchg, test, imul, push, pop and bswap.", "quantifier": "all functions of xbyak_mnemonic.h but 24, all operands of the same shape", "why_tests_cant": "the shapes times the registers of all operands of some 2400 functions; tests pick one or two registers per instruction", "anchors": ["xbyak/xbyak.h:CodeGenerator::opRO", "xbyak/xbyak.h:CodeGenerator::opROO", "xbyak/xbyak.h:CodeGenerator::opAVX_X_X_XM", "xbyak/xbyak.h:CodeGenerator::opSSE", "xbyak/xbyak.h:CodeGenerator::rex", "xbyak/xbyak.h:CodeGenerator::evex", "xbyak/xbyak.h:CodeGenerator::mov", "xbyak/xbyak.h:CodeGenerator::xchg", "xbyak/xbyak_mnemonic.h:add", "xbyak/xbyak_mnemonic.h:vaddps", "xbyak/xbyak_mnemonic.h:movzx"]}
{"id": "C86", "title": "Instructions the manual lists are accepted", "statement": "For every integer instruction with a ModRM byte (the mnemonics of C69), every x87 instruction on registers (C71) and every SSE/MMX instruction (C68), every form in the manual, every combination of operand sizes of the form, every register of the kinds listed (general registers below r16, without AH/CH/DH/BH beside a register that needs REX), every address [base+index*scale+disp32] or [rip+disp32] with the size the manual gives and any immediate, the library has a function with that name that takes the operands and returns normally.", "quantifier": "all forms, all registers and addresses, all immediates", "why_tests_cant": "finding the one refused combination needs the product of forms, sizes, registers and address shapes; tests list accepted combinations only", "anchors": ["xbyak/xbyak.h:CodeGenerator::opRO", "xbyak/xbyak.h:CodeGenerator::opMR", "xbyak/xbyak.h:CodeGenerator::opSSE", "xbyak/xbyak.h:CodeGenerator::opRext", "xbyak/xbyak.h:CodeGenerator::opMMX", "xbyak/xbyak.h:CodeGenerator::verifyMemHasSize", "xbyak/xbyak_mnemonic.h:cvtsd2si", "xbyak/xbyak_mnemonic.h:movntdq", "xbyak/xbyak_mnemonic.h:cmpxchg8b", "xbyak/xbyak_mnemonic.h:shrd"]}
{"id": "C87", "title": "Vector instructions the manual lists are accepted", "statement": "For every VEX and EVEX encoded instruction without vector index (all mnemonics of the library that begin with v or k but gathers and scatters), every line of the manual for it, every vector length of the line, every register of the kinds listed (vector registers 0-15 with VEX, 0-31 with EVEX), every address [base+index*scale+disp32] or [rip+disp32] with the size the manual gives and any immediate, the library has a function with that name that takes the operands and returns normally.", "quantifier": "all mnemonics, lines and vector lengths, all registers and addresses, all immediates", "why_tests_cant": "a missing flag in one of 1400 table lines refuses one length of one instruction; tests list a few combinations per mnemonic", "anchors": ["xbyak/xbyak.h:CodeGenerator::opVex", "xbyak/xbyak.h:CodeGenerator::opAVX_X_X_XM", "xbyak/xbyak.h:CodeGenerator::opAVX_K_X_XM", "xbyak/xbyak.h:CodeGenerator::opAVX_X_XM_IMM", "xbyak/xbyak.h:CodeGenerator::opCvt", "xbyak/xbyak.h:CodeGenerator::opCvt2", "xbyak/xbyak.h:CodeGenerator::opCvt3", "xbyak/xbyak.h:CodeGenerator::opCvt5", "xbyak/xbyak.h:CodeGenerator::opCvt6", "xbyak/xbyak.h:CodeGenerator::checkCvt1", "xbyak/xbyak.h:CodeGenerator::checkCvt4", "xbyak/xbyak.h:CodeGenerator::opVmov", "xbyak/xbyak.h:CodeGenerator::opEncoding", "xbyak/xbyak_mnemonic.h:vsm4key4", "xbyak/xbyak_mnemonic.h:vextractps", "xbyak/xbyak_mnemonic.h:vpmovzxbd", "xbyak/xbyak_mnemonic.h:vaddps"]}
{"id": "C88", "title": "Vector functions take only operands the manual lists", "statement": "Whenever a function for a VEX or EVEX encoded instruction without vector index returns normally, for any operands (registers of any kind, addresses of any size), the operands are those of a line of the manual for that mnemonic and a vector length of that line, possibly after repeating the first operand where the library offers the short form.", "quantifier": "all functions, all operands of all kinds, all sizes of memory, all encoding preferences", "why_tests_cant": "tests of refusals list a handful of wrong operands per helper; a superfluous flag in a table line lets instructions through that do not exist", "anchors": ["xbyak/xbyak.h:CodeGenerator::opVex", "xbyak/xbyak.h:CodeGenerator::opAVX_X_X_XM", "xbyak/xbyak.h:CodeGenerator::opAVX_K_X_XM", "xbyak/xbyak.h:CodeGenerator::opAVX_X_XM_IMM", "xbyak/xbyak.h:CodeGenerator::opCvt", "xbyak/xbyak.h:CodeGenerator::opCvt2", "xbyak/xbyak.h:CodeGenerator::opCvt3", "xbyak/xbyak.h:CodeGenerator::opCvt5", "xbyak/xbyak.h:CodeGenerator::opCvt6", "xbyak/xbyak.h:CodeGenerator::checkCvt1", "xbyak/xbyak.h:CodeGenerator::checkCvt4", "xbyak/xbyak.h:CodeGenerator::opVmov", "xbyak/xbyak.h:CodeGenerator::opEncoding", "xbyak/xbyak_mnemonic.h:vsm3msg1", "xbyak/xbyak_mnemonic.h:vrsqrt14sd", "xbyak/xbyak_mnemonic.h:vcmpsd", "xbyak/xbyak_mnemonic.h:vblendvpd", "xbyak/xbyak_mnemonic.h:vmovmskpd", "xbyak/xbyak_mnemonic.h:vaddps", "xbyak/xbyak_mnemonic.h:vpermd"]}
{"id": "C89", "title": "dump prints the code", "statement": "CodeArray::dump() reads only bytes of the code and prints the first min(getSize(), 64) of them in order, two upper-case hexadecimal digits per byte, sixteen bytes per line; reading the text back gives these bytes. The dump() of the test build changes nothing but the size, and only if asked to.", "quantifier": "all buffer contents and sizes", "why_tests_cant": "a test looks at one buffer; the split into lines has its own boundary at every multiple of sixteen", "anchors": ["xbyak/xbyak.h:CodeArray::dump", "xbyak/xbyak.h:CodeGenerator::dump"]}
{"id": "C90", "title": "CPU signature and clock", "statement": "The fields set by setFamily are the digits of eax of CPUID leaf 1 in the layout of the manual, displayFamily and displayModel follow the manual's rule for Intel and other CPUs. Clock holds, modulo 2^64, the sum of the counter at end() minus the sum at begin() since the last clear(), and the number of end() since then.", "quantifier": "all answers of cpuid; all histories of calls and all values of the counter", "why_tests_cant": "a test sees the CPU it runs on; the time stamp counter is not reproducible", "anchors": ["xbyak/xbyak_util.h:Cpu::setFamily", "xbyak/xbyak_util.h:Cpu::extractBit", "xbyak/xbyak_util.h:Clock::begin", "xbyak/xbyak_util.h:Clock::end", "xbyak/xbyak_util.h:Clock::clear"]}
{"id": "C91", "title": "Profiler: files and lines", "statement": "Whatever fopen answers and however profilers are created, copied, initialised, closed and destroyed, no closed file is written to or closed again, and all files are closed when all profilers are destroyed. Each set() writes one line that reads back as start address, size and name (at least three characters); continuous set() calls with ascending ends record adjacent ranges: every address up to the last end is in exactly one.", "quantifier": "all histories of calls on any number of profilers; all addresses, sizes and names", "why_tests_cant": "double closing shows up only with particular orders of destruction; the map file is read by another program", "anchors": ["xbyak/xbyak_util.h:Profiler::init", "xbyak/xbyak_util.h:Profiler::close", "xbyak/xbyak_util.h:Profiler::set", "xbyak/xbyak_util.h:Profiler::setStartAddr", "xbyak/xbyak_util.h:Profiler::setNameSuffix"]}
{"id": "C92", "title": "Opmasks and broadcasts are accepted where the manual has them", "statement": "For every EVEX instruction of C87 and every line and vector length of it: if the manual has {k1} for it, every opmask k1-k7, with T_z or without, is accepted on the destination, a register or memory; if it has m16bcst, m32bcst or m64bcst, every address with broadcast (ptr_b, xword_b, yword_b, zword_b) is accepted, together with a mask.  An opmask, zeroing or broadcast the manual does not have is refused.", "quantifier": "all mnemonics, lines and vector lengths, all registers, addresses and masks", "why_tests_cant": "the flags that admit a mask on memory and a broadcast are written by hand in each of 900 table lines; the tests mask register destinations", "anchors": ["xbyak/xbyak.h:CodeGenerator::opVex", "xbyak/xbyak.h:CodeGenerator::evex", "xbyak/xbyak.h:CodeGenerator::opVmov", "xbyak/xbyak_mnemonic.h:vcompressps", "xbyak/xbyak_mnemonic.h:vextractf32x4", "xbyak/xbyak_mnemonic.h:valignd", "xbyak/xbyak_mnemonic.h:vcvtsi2sh", "xbyak/xbyak_mnemonic.h:vaesenc"]}
{"id": "C93", "title": "Integer instructions of the 32-bit build are the ones asked for", "statement": "In the XBYAK32 build, every accepted call of the arithmetic, mov, test, xchg, lea, movzx/movsx, unary, shift, inc/dec, push/pop, jmp/call (through an operand), lds/les and BCD/pusha functions, with registers 0-7 of 8, 16 or 32 bits, addresses of 32-bit registers and any immediate, writes bytes that 32-bit mode reads as one instruction: that operation, with the size of its operands (memory without size takes the other operand's size, or 32 bits when there is none), exactly the registers, base, index, scale, displacement and immediate given; operands of different sizes are refused, operands of the documented kinds and sizes are accepted.", "quantifier": "all registers, addresses, displacements, sizes and immediates; whatever code follows", "why_tests_cant": "the 32-bit build has its own branches (one-byte inc/dec, moffs forms, no REX, no SIB for absolute addresses), and the test suite compares sampled operands with an assembler", "anchors": ["xbyak/xbyak.h:CodeGenerator::rex", "xbyak/xbyak.h:CodeGenerator::setSIB", "xbyak/xbyak.h:CodeGenerator::opIncDec", "xbyak/xbyak.h:CodeGenerator::opPushPop", "xbyak/xbyak.h:CodeGenerator::mov", "xbyak/xbyak.h:CodeGenerator::xchg", "xbyak/xbyak.h:CodeGenerator::lea", "xbyak/xbyak.h:CodeGenerator::opJmpOp", "xbyak/xbyak_mnemonic.h:aaa", "xbyak/xbyak_mnemonic.h:lds", "xbyak/xbyak_mnemonic.h:les"]}
{"id": "C94", "title": "Gathers, scatters and their prefetches take all operands of the manual", "statement": "For every gather, scatter and gather/scatter prefetch mnemonic and every vector length: with data and index registers of the widths the manual gives, with any base register or none, any scale and any 32-bit displacement, the call is accepted whenever the instruction is defined: with VEX for three different registers below 16, with EVEX for every opmask but k0 and, for gathers, destination other than index.", "quantifier": "all 32 mnemonics, vector lengths, registers 0-31 (bases r0-r31 with EVEX), opmasks, scales and displacements", "why_tests_cant": "the widths follow from a hand-written mode number per table line and a comparison of register numbers; a wrong mode for one length would refuse a legal combination the tests do not contain", "anchors": ["xbyak/xbyak.h:CodeGenerator::opGather", "xbyak/xbyak.h:CodeGenerator::opGather2", "xbyak/xbyak.h:CodeGenerator::checkGather2", "xbyak/xbyak.h:CodeGenerator::opGatherFetch", "xbyak/xbyak_mnemonic.h:vgatherdpd", "xbyak/xbyak_mnemonic.h:vpgatherqd", "xbyak/xbyak_mnemonic.h:vpscatterqd", "xbyak/xbyak_mnemonic.h:vgatherpf0dpd"]}
{"id": "C95", "title": "Every extended EVEX form of the APX specification can be written", "statement": "For every mnemonic and form of the APX integer instructions (new data destination, registers 16-31, NF; arithmetic, shifts by two registers, bit counts, BMI, CMPccXADD, SHA, Key Locker, PUSH2/POP2, KMOV, tile configuration): operands of the kinds and sizes of the form, with any registers, any 64-bit addresses and displacements, and NF where the form has it, are accepted by a function of that name, with an immediate exactly if the form has one.", "quantifier": "all forms, operand sizes, registers r0-r31, addresses, immediates (16-bit operands: those that fit)", "why_tests_cant": "the functions choose between three encodings by inspecting operands; a guard on a size, or a missing flag for one form, shows only with that combination of form, size and APX register", "anchors": ["xbyak/xbyak.h:CodeGenerator::opROO", "xbyak/xbyak.h:CodeGenerator::evexLeg", "xbyak/xbyak.h:CodeGenerator::opROI", "xbyak/xbyak.h:CodeGenerator::opRRO", "xbyak/xbyak.h:CodeGenerator::opShxd", "xbyak/xbyak.h:CodeGenerator::opKmov", "xbyak/xbyak.h:CodeGenerator::opSSE_APX", "xbyak/xbyak_mnemonic.h:add", "xbyak/xbyak_mnemonic.h:kmovq", "xbyak/xbyak_mnemonic.h:bextr", "xbyak/xbyak_mnemonic.h:push2"]}
{"id": "C96", "title": "APX forms of shifts, one-operand arithmetic and conditional instructions can be written", "statement": "Every shift and rotate, NOT, NEG, MUL, IMUL, DIV, IDIV, INC and DEC, every SETcc, CMOVcc, CFCMOVcc, CCMPcc and CTESTcc accepts its APX operands: a new destination where there is one, registers 16-31 in operands and addresses, NF and ZU where the manual has them, immediates that fit, and default flags 0-15.", "quantifier": "all mnemonics and condition suffixes, operand sizes, registers r0-r31, 64-bit addresses and displacements, immediates and default flags", "why_tests_cant": "more than 150 functions share six helpers that guard sizes and modifiers; the tests use a few operands each", "anchors": ["xbyak/xbyak.h:CodeGenerator::opRext", "xbyak/xbyak.h:CodeGenerator::opSetCC", "xbyak/xbyak.h:CodeGenerator::opShift", "xbyak/xbyak.h:CodeGenerator::opIncDec", "xbyak/xbyak.h:CodeGenerator::opCcmp", "xbyak/xbyak.h:CodeGenerator::opCcmpi", "xbyak/xbyak.h:CodeGenerator::opTesti", "xbyak/xbyak.h:CodeGenerator::opCfcmov", "xbyak/xbyak_mnemonic.h:ccmpb", "xbyak/xbyak_mnemonic.h:cfcmovb", "xbyak/xbyak_mnemonic.h:ctestb", "xbyak/xbyak_mnemonic.h:sar"]}
{"id": "C97", "title": "Generated instructions end where the processor ends them", "statement": "The bytes a successful call appends are one instruction for a decoder that knows only the opcode maps (which opcodes have a ModRM byte, how long displacement and immediate are), whatever follows: no byte too many and none missing. So the code of a sequence of calls is divided by the decoder into the calls' instructions, and no other division exists.", "quantifier": "all sequences of calls, all functions of the covered families, operands, immediates and following bytes", "why_tests_cant": "a stray or missing immediate byte shifts every following instruction; the tests compare single instructions with another assembler, for a few operands each", "anchors": ["xbyak/xbyak.h:CodeGenerator::opRO", "xbyak/xbyak.h:CodeGenerator::opVex", "xbyak/xbyak.h:CodeGenerator::opSSE", "xbyak/xbyak.h:CodeGenerator::opOI", "xbyak/xbyak.h:CodeGenerator::opRext", "xbyak/xbyak.h:CodeGenerator::opAVX_X_X_XM", "xbyak/xbyak_mnemonic.h:vpshufd", "xbyak/xbyak_mnemonic.h:imul", "xbyak/xbyak_mnemonic.h:pshufd", "xbyak/xbyak_mnemonic.h:shld"]}
{"id": "C98", "title": "Jumps, calls and loops to labels are the instruction asked for", "statement": "jmp, call, loop, loope, loopne, jecxz and jrcxz of a label (and jmp and call of an address) are in the finished code the instruction they are named after, in whatever form is chosen: loops and jecxz only in the short form, calls only in the long one. The instruction ends where the next one begins, and its displacement leads to the label.", "quantifier": "all programs before and after the call, labels of every kind, label types, buffer modes", "why_tests_cant": "a wrong opcode of one of the two forms shows only for labels at certain distances or defined later; the tests of these functions use a few small programs", "anchors": ["xbyak/xbyak.h:CodeGenerator::opJmp", "xbyak/xbyak.h:CodeGenerator::makeJmp", "xbyak/xbyak.h:CodeGenerator::opJmpAbs", "xbyak/xbyak.h:CodeGenerator::jmp", "xbyak/xbyak.h:CodeGenerator::call", "xbyak/xbyak_mnemonic.h:loop", "xbyak/xbyak_mnemonic.h:loope", "xbyak/xbyak_mnemonic.h:loopne", "xbyak/xbyak_mnemonic.h:jecxz", "xbyak/xbyak_mnemonic.h:jrcxz"]}
{"id": "C99", "title": "With memfd every descriptor is closed exactly once", "statement": "In the build with XBYAK_USE_MEMFD, after any sequence of alloc and free with any answers of the kernel, the open descriptors of the process are those of the rest of the program plus one per living allocation that has a file; these are all different, each file is as long as its mapping, a failed alloc leaves no descriptor and no mapping, free closes the allocation's descriptor and no other, and no descriptor is closed that is not open. What happens to the mappings is as in the build without memfd (C52).", "quantifier": "for all page sizes that are powers of two, all histories of calls, all outcomes of memfd_create, ftruncate, mmap and munmap, and all descriptors the rest of the program opens and closes in between", "why_tests_cant": "failures of memfd_create, ftruncate and mmap cannot be provoked one by one in a test, and a leaked or doubly closed descriptor shows only much later in an unrelated file", "anchors": ["xbyak/xbyak.h:MmapAllocator::alloc", "xbyak/xbyak.h:MmapAllocator::free"]}
{"id": "C100", "title": "The code of a StackFrame function, fetched and executed, keeps the calling convention", "statement": "The constructor of StackFrame and close() write their code without an error for every configuration they accept. A processor that fetches and decodes the written bytes from memory runs through the prologue to its end, and then p[i] holds the i-th integer argument, rsp is below the room for the locals and aligned, and only the stack below the return address has been written. If a body then arrives at the bytes of close() with rsp, the save area and the callee-saved registers it was not given intact, the processor runs through those bytes too and has returned: rip is the caller's return address, rsp is above it, and all callee-saved registers have the caller's values. close(false) ends behind its bytes with rsp at the return address.", "quantifier": "for both calling conventions, all parameter and temporary counts, flags and stack sizes, all machine states with the code outside of the 64 bytes of stack it writes, and all bodies", "why_tests_cant": "a test runs a few functions on one CPU with one stack; here every configuration, memory content and body is covered, from bytes to machine state", "anchors": ["xbyak/xbyak_util.h:StackFrame::StackFrame", "xbyak/xbyak_util.h:StackFrame::close"]}
{"id": "C101", "title": "mov between registers and memory moves what was asked for", "statement": "An accepted mov of a general register to or from a general register or memory is read by the processor as one MOV with exactly these operands in this direction: the register (ah, ch, dh, bh and spl, bpl, sil, dil told apart), the address (base, index, scale, displacement, address size, no segment), the size of the register. A 64-bit absolute address is loaded and stored by the accumulator only, with all its 64 bits. mov is accepted whenever such an instruction exists: registers of the same size unless ah..bh meets a byte register that needs REX; any address of 64-bit registers with a 32-bit displacement and no other size.", "quantifier": "for all registers, all addresses, all 64-bit absolute addresses and all displacements of labels", "why_tests_cant": "mov has four encodings and three exits in the code, chosen by register number, size and kind of address; tests try a few registers and no address above 32 bits with all sizes", "anchors": ["xbyak/xbyak.h:CodeGenerator::mov", "xbyak/xbyak.h:CodeGenerator::opRO_MR", "xbyak/xbyak.h:CodeGenerator::opRO"]}
{"id": "C102", "title": "A program with labels and jumps does, executed from its bytes, what it says", "statement": "Take any program of labels, mov (register, 64-bit constant, load and store), lea, the eight arithmetic instructions (register, immediate, memory as source or destination), test, inc, dec, not, neg, shl, shr and sar by a constant, xchg, nop, cmovcc, push, pop, jmp, the conditional jumps, loop, jrcxz, call, ret, mov of the address of a label to a register, lea and mov with [rip + label], jmp and call through a register or memory, and data in between (bytes and addresses of labels by putL), where labels are Label objects, strings, anonymous labels (@@, @b, @f) or dot labels in the scopes of inLocalLabel and outLocalLabel, and make the calls of the library for it one after the other, with any other legal calls before and after. Every statement is accepted by the encoders, and if the label calls succeed and the code is finished (a fixed buffer, or AutoGrow after ready()), a processor that fetches the bytes from memory goes from the code of any statement to the code of any other with the same registers, flags and memory as the program as written, where a jump continues at the statement that defines its label and ret, jmp and call through a register or memory at the statement whose address is there; it goes nowhere else. In particular, if the program as written comes to its end, the processor arrives behind the last byte of the program with the same registers, flags and memory. Where the program returns or jumps out of itself, the processor goes to that address: called with the return address on the stack, the code comes back to its caller with the registers and memory the program as written has at its ret. If the program as written runs for ever, so does the processor. The data is where the program says: a byte at the address of its statement, and entry k of a table of label addresses behind a label at 8 k behind the address of that label, holding the address of the statement that defines the label of the entry.", "quantifier": "for all programs of any length with any control flow and any nesting of scopes and subroutines, all surrounding calls, all jump types and forms, both kinds of buffer, all memory operands [base + index * scale + disp] with or without base and index, all constants, all initial registers, flags and memories, all executions of any number of steps that do not overwrite the code", "why_tests_cant": "tests run particular programs on one CPU; here it is a simulation between the meaning of all programs and the execution of all codes, including loops of any number of rounds and jumps patched later", "anchors": ["xbyak/xbyak.h:CodeGenerator::opJmp", "xbyak/xbyak.h:CodeGenerator::L", "xbyak/xbyak.h:LabelManager::defineSlabel", "xbyak/xbyak.h:LabelManager::defineClabel", "xbyak/xbyak.h:LabelManager::enterLocal", "xbyak/xbyak.h:LabelManager::leaveLocal", "xbyak/xbyak.h:CodeGenerator::call", "xbyak/xbyak.h:CodeGenerator::opJmpOp", "xbyak/xbyak.h:CodeGenerator::putL", "xbyak/xbyak.h:CodeGenerator::mov", "xbyak/xbyak.h:CodeGenerator::opOI", "xbyak/xbyak.h:CodeGenerator::opRO_MR", "xbyak/xbyak.h:CodeGenerator::opMR", "xbyak/xbyak.h:CodeGenerator::mov_imm", "xbyak/xbyak.h:CodeGenerator::test", "xbyak/xbyak.h:CodeGenerator::opIncDec", "xbyak/xbyak.h:CodeGenerator::opShift", "xbyak/xbyak.h:CodeGenerator::xchg", "xbyak/xbyak.h:CodeGenerator::opRext", "xbyak/xbyak.h:CodeGenerator::opRO", "xbyak/xbyak.h:RegExp::RegExp", "xbyak/xbyak.h:CodeGenerator::setSIB", "xbyak/xbyak.h:CodeGenerator::ready"]}
