{"id": "C01", "title": "Status register word round trip", "statement": "Converting a 16-bit word to a StatusRegister and back keeps exactly the implemented bits (word & 0xA71F); converting a StatusRegister with interrupt mask <= 7 to a word and back is the identity; and &=, |=, ^= with a word act as the bitwise operation on the 16-bit value restricted to the implemented bits.", "quantifier": "every 16-bit word and every StatusRegister value with interrupt mask 0..7", "why_tests_cant": "2^16 words times 2^10 register values for each operator; a sample misses a swapped bit pair", "anchors": ["m68000/src/status_register.rs: From<u16>, From<StatusRegister>, BitAndAssign, BitOrAssign, BitXorAssign, set_ccr"]}
{"id": "C02", "title": "Condition codes after CMP decide the integer order", "statement": "After CMP/CMPA/CMPI/CMPM of destination d and source s, the sixteen condition codes tested by Bcc/Scc/DBcc mean: EQ d=s, NE d/=s, HI/LS/CC/CS the unsigned order, GT/LE/GE/LT the signed order, and the comparison changes neither the destination nor X.", "quantifier": "all operand values of each of the three sizes and all prior status registers", "why_tests_cant": "2^64 operand pairs for long size", "anchors": ["m68000/src/status_register.rs: condition", "m68000/src/interpreter.rs: execute_cmp, execute_cmpa, execute_cmpi, execute_cmpm", "m68000/src/utils.rs: overflowing/borrowing arithmetic"]}
{"id": "C03", "title": "ADD, ADDI, ADDQ compute the sum and its flags", "statement": "The destination receives (d+s) mod 2^n; C and X are set iff the unsigned sum does not fit n bits, V iff the signed sum does not fit, N is the sign of the result and Z its being zero; the rest of the register and everything else is unchanged. ADDQ counts 0 as 8; ADDA and ADDQ to an address register act on all 32 bits and leave the flags alone.", "quantifier": "all operand values, sizes, register numbers and prior states", "why_tests_cant": "2^64 pairs for long size", "anchors": ["m68000/src/interpreter.rs: execute_add, execute_adda, execute_addi, execute_addq"]}
{"id": "C04", "title": "SUB, SUBI, SUBQ, NEG compute the difference and its flags", "statement": "The destination receives (d-s) mod 2^n; C and X are set iff s>d unsigned, V iff the signed difference does not fit, N and Z from the result; NEG is subtraction from 0. SUBA and SUBQ to an address register leave the flags alone.", "quantifier": "all operand values, sizes, register numbers and prior states", "why_tests_cant": "2^64 pairs for long size", "anchors": ["m68000/src/interpreter.rs: execute_sub, execute_suba, execute_subi, execute_subq, execute_neg"]}
{"id": "C05", "title": "Multi-precision addition and subtraction", "statement": "Chaining ADDX (or SUBX, NEGX) over any number of limbs, least significant first, computes the integer sum (difference, negation) of the whole numbers modulo 2^(total bits), the final X/C is the carry (borrow) out of the whole number, V of the last step is signed overflow of the whole number, and with Z set beforehand the final Z is set iff the whole result is zero.", "quantifier": "limb lists of every length, every limb value, every size and initial X", "why_tests_cant": "unbounded chains; a carry lost only between particular limbs is not found by sampling", "anchors": ["m68000/src/interpreter.rs: execute_addx, execute_subx, execute_negx", "m68000/src/utils.rs: carrying_add, borrowing_sub"]}
{"id": "C06", "title": "Packed decimal arithmetic", "statement": "For valid packed decimal operands ABCD, SBCD and NBCD yield the packed decimal sum/difference of the two-digit numbers with X, X and C are the decimal carry/borrow, Z is only ever cleared, and chains over any number of bytes compute the decimal sum/difference of the whole numbers.", "quantifier": "all valid packed decimal bytes, X values and chain lengths", "why_tests_cant": "chains are unbounded", "anchors": ["m68000/src/interpreter.rs: execute_abcd, execute_sbcd, execute_nbcd"]}
{"id": "C07", "title": "MULU and MULS give the exact product", "statement": "MULU/MULS place the exact 32-bit product of the low 16 bits of the destination and the source word (unsigned/signed) in the destination register; V and C are cleared, N and Z describe the product, X is unchanged.", "quantifier": "all operand values", "why_tests_cant": "2^32 operand pairs per instruction", "anchors": ["m68000/src/interpreter.rs: execute_mulu, execute_muls"]}
{"id": "C08", "title": "DIVU and DIVS", "statement": "With a zero divisor the instruction yields vector 5 and leaves the register unchanged; otherwise, if the truncated quotient fits 16 bits, the low word is the quotient and the high word the remainder with dividend = quotient*divisor+remainder and |remainder|<|divisor| (sign of the dividend for DIVS), V=C=0, N,Z from the quotient; if it does not fit, V is set and the register is unchanged.", "quantifier": "all 2^48 dividend/divisor pairs", "why_tests_cant": "2^48 pairs; the boundary quotient -32768 is one among them", "anchors": ["m68000/src/interpreter.rs: execute_divu, execute_divs"]}
{"id": "C09", "title": "Logical instructions", "statement": "AND, OR, EOR, NOT and their immediate forms compute the bitwise function on exactly the operand size, set N and Z from the result, clear V and C, keep X and leave the other bits of a destination data register unchanged.", "quantifier": "all operand values, sizes and prior states", "why_tests_cant": "2^64 pairs for long size", "anchors": ["m68000/src/interpreter.rs: execute_and, execute_or, execute_eor, execute_not, execute_andi, execute_ori, execute_eori"]}
{"id": "C10", "title": "Register shifts are multiplication and division by powers of two", "statement": "LSL/ASL by k give d*2^k mod 2^n; LSR gives floor(d/2^k) unsigned; ASR gives floor(d/2^k) signed, for every count 0..63; C and X are the last bit shifted out (C clear and X kept for count 0), V of ASL is set iff the sign bit changes at any time during the shift, V is clear otherwise.", "quantifier": "all data values, counts, sizes, register numbers", "why_tests_cant": "2^32*64 combinations per instruction, loop of data-dependent length", "anchors": ["m68000/src/interpreter.rs: execute_asr, execute_lsr"]}
{"id": "C11", "title": "Rotations", "statement": "ROL/ROR by k rotate the n-bit operand by k mod n with C the last bit moved (C clear for count 0) and X unchanged, ROL by k undoes ROR by k; ROXL/ROXR rotate the (n+1)-bit value X:operand by k mod (n+1), and C equals the final X.", "quantifier": "all data values, counts 0..63, sizes, X", "why_tests_cant": "data-dependent loop over 2^32 values", "anchors": ["m68000/src/interpreter.rs: execute_ror, execute_roxr"]}
{"id": "C12", "title": "Bit instructions", "statement": "BTST/BCHG/BCLR/BSET set Z to the complement of the addressed bit before the operation and respectively leave, flip, clear, set exactly that bit; the bit number is taken mod 32 for a data register and mod 8 for memory, all other flags are unchanged, two BCHG restore the operand.", "quantifier": "all operand values, bit numbers (static and dynamic), prior states", "why_tests_cant": "2^40 combinations", "anchors": ["m68000/src/interpreter.rs: execute_btst, execute_bchg, execute_bclr, execute_bset"]}
{"id": "C13", "title": "Register exchange and extension instructions", "statement": "EXG exchanges any two registers and twice is the identity (including with A7); SWAP exchanges register halves and twice is the identity; EXT.W/EXT.L sign-extend byte to word (keeping the high word) and word to long, and set N and Z from the extended operand; MOVEQ sign-extends 8 bits to 32.", "quantifier": "all register values and register numbers", "why_tests_cant": "2^64 states", "anchors": ["m68000/src/interpreter.rs: execute_exg, execute_swap, execute_ext, execute_moveq"]}
{"id": "C14", "title": "Partial register writes", "statement": "An instruction of byte or word size whose destination is a data register changes only the low 8 or 16 bits of that register; a word-size write to an address register sign-extends to 32 bits.", "quantifier": "all values, all data registers", "why_tests_cant": "2^64 states", "anchors": ["m68000/src/lib.rs: Registers::d_byte, d_word", "m68000/src/interpreter.rs: execute_movea, execute_move"]}
{"id": "C15", "title": "MOVE copies and reads back", "statement": "MOVE between any two operands stores the source value at the destination so that reading it back with the same size from byte-addressed memory yields it (big-endian), sets N and Z from it, clears V and C, keeps X, and changes no other memory location.", "quantifier": "all values, sizes and addresses", "why_tests_cant": "2^32 addresses times 2^32 values", "anchors": ["m68000/src/interpreter.rs: execute_move", "m68000/src/memory_access.rs: slice MemoryAccess implementations"]}
{"id": "C16", "title": "Predecrement and postincrement", "statement": "-(An) and (An)+ change An by exactly the operand size (2 for bytes through A7) even if the addressed operand is used by a read-modify-write instruction, and a push followed by a pop of the same size restores both value and An.", "quantifier": "all registers, sizes, address values including wrap-around", "why_tests_cant": "2^32 addresses per register and size", "anchors": ["m68000/src/addressing_modes.rs: ariwpo, ariwpr, get_effective_address"]}
{"id": "C17", "title": "Effective addresses", "statement": "For each memory addressing mode the address used is An, An after/before adjustment, An+d16, An+d8+index (index sign-extended from its low word or taken as long), the sign-extended 16-bit or the 32-bit absolute address, PC+d16 or PC+d8+index with PC the address of the extension word, all modulo 2^32; LEA, PEA, JMP and a memory operand of the same mode use the same address.", "quantifier": "all register contents, extension words and addressing modes", "why_tests_cant": "2^96 register/extension word combinations", "anchors": ["m68000/src/addressing_modes.rs: get_effective_address, get_index_register, BriefExtensionWord", "m68000/src/interpreter.rs: execute_lea, execute_pea, execute_jmp"]}
{"id": "C18", "title": "MOVEM save and restore", "statement": "MOVEM.L of any register list to memory stores the listed registers in ascending addresses D0..D7,A0..A7 for every mode including predecrement, and MOVEM.L of the same list back restores exactly those registers and no others; -(An)/(An)+ restore An.", "quantifier": "all 65536 register lists, register contents and base addresses", "why_tests_cant": "2^16 lists times 2^512 register contents; loop of data-dependent length", "anchors": ["m68000/src/interpreter.rs: execute_movem"]}
{"id": "C19", "title": "MOVEP round trip", "statement": "MOVEP to memory writes the register bytes most significant first to every second address and touches no other address, MOVEP from memory reads them back.", "quantifier": "all values, displacements, sizes", "why_tests_cant": "2^64", "anchors": ["m68000/src/interpreter.rs: execute_movep"]}
{"id": "C20", "title": "LINK and UNLK", "statement": "LINK pushes An, sets An to the new stack pointer and adds the displacement to the stack pointer; UNLK of the same register afterwards restores both the stack pointer and An, whatever happened to the stack pointer between.", "quantifier": "all register values, displacements and stack pointers", "why_tests_cant": "2^80 states", "anchors": ["m68000/src/interpreter.rs: execute_link, execute_unlk"]}
{"id": "C21", "title": "Subroutine calls return", "statement": "BSR/JSR push the address of the next instruction and continue at the target; RTS after any code that restores the stack pointer and the return address continues at the instruction after the call with the stack pointer of before the call.", "quantifier": "all targets, stack pointers and instruction addresses", "why_tests_cant": "2^64 states", "anchors": ["m68000/src/interpreter.rs: execute_bsr, execute_jsr, execute_rts", "m68000/src/memory_access.rs: push_long, pop_long"]}
{"id": "C22", "title": "Branch targets", "statement": "BRA/Bcc/BSR continue at instruction address + 2 + sign-extended displacement (8-bit, or 16-bit when the 8-bit field is 0) when the condition holds and at the following instruction otherwise; no flag changes.", "quantifier": "all displacements, addresses and conditions", "why_tests_cant": "2^32 addresses times 2^16 displacements", "anchors": ["m68000/src/interpreter.rs: execute_bcc, execute_bra, execute_bsr", "m68000/src/instruction.rs: displacement, condition_displacement"]}
{"id": "C23", "title": "DBcc loop count", "statement": "A DBF loop closing on itself with counter word n branches n times and falls through with the counter word 0xFFFF, upper half of the counter unchanged; a true condition ends the loop without changing the counter.", "quantifier": "every initial counter value 0..65535 and every upper half", "why_tests_cant": "65536 iterations times 2^16 upper halves; needs induction", "anchors": ["m68000/src/interpreter.rs: execute_dbcc"]}
{"id": "C24", "title": "Privileged instructions trap in user mode", "statement": "In user mode RESET, STOP, RTE, MOVE to SR, ANDI/ORI/EORI to SR and MOVE USP yield vector 8 without changing any register other than the program counter and without any memory access beyond the instruction words.", "quantifier": "all user-mode states, operands and memories", "why_tests_cant": "all states", "anchors": ["m68000/src/interpreter.rs: check_supervisor, execute_andisr, execute_movesr, execute_stop, execute_rte, execute_reset, execute_moveusp", "m68000/src/isa.rs: is_privileged"]}
{"id": "C25", "title": "User mode cannot enter supervisor mode by itself", "statement": "Starting in user mode with no pending exception, executing any instruction leaves the supervisor bit, trace bit, interrupt mask and supervisor stack pointer unchanged: only exception processing enters supervisor mode.", "quantifier": "all opcodes, all operands, all user-mode states, sequences of any length", "why_tests_cant": "every opcode with every operand and state; induction over program length", "anchors": ["m68000/src/interpreter.rs: all execute_*", "m68000/src/interpreter_fast.rs: interpreter_exception"]}
{"id": "C26", "title": "Exception entry", "statement": "Processing exception vector v pushes the frame of the CPU's stack format (SR above PC, format word for the SCC68070, additional words for access/address errors) on the supervisor stack, sets S, clears T, raises the mask to the interrupt level for interrupts, and continues at the long word at address 4v.", "quantifier": "all vectors, states and memories, both stack formats", "why_tests_cant": "2^8 vectors times all states", "anchors": ["m68000/src/exception.rs: process_exception, process_pending_exceptions"]}
{"id": "C27", "title": "Exception entry followed by RTE resumes", "statement": "If a handler restores the supervisor stack pointer and then executes RTE, the program continues with the program counter and status register of before the exception, for the frames the CPU format supports.", "quantifier": "all states, vectors and both stack formats", "why_tests_cant": "all states", "anchors": ["m68000/src/exception.rs: process_exception", "m68000/src/interpreter.rs: execute_rte"]}
{"id": "C28", "title": "Interrupt masking", "statement": "An interrupt of level 1..6 requested by exception() is processed at the next interpreter call iff its level exceeds the mask in SR, level 7 always; a masked interrupt stays pending and is processed once the mask is lowered.", "quantifier": "all levels, masks, pending sets and histories of calls", "why_tests_cant": "histories are unbounded", "anchors": ["m68000/src/exception.rs: exception, process_pending_exceptions, is_interrupt"]}
{"id": "C29", "title": "Pending exceptions are processed once, in priority order", "statement": "Every exception requested is processed exactly once, lower-priority first so that the handler of the highest-priority one runs first; nothing requested is lost.", "quantifier": "all sequences of requests", "why_tests_cant": "unbounded sequences; two requests with colliding priorities", "anchors": ["m68000/src/exception.rs: Exception Ord, exception, process_pending_exceptions"]}
{"id": "C30", "title": "STOP", "statement": "STOP in supervisor mode loads SR and stops: interpreter calls then change nothing and return 0 cycles until an exception is requested that wakes the core, however often they are called.", "quantifier": "all states and any number of calls", "why_tests_cant": "unbounded number of calls", "anchors": ["m68000/src/interpreter.rs: execute_stop", "m68000/src/interpreter_fast.rs: interpreter_exception, cycle", "m68000/src/exception.rs: exception"]}
{"id": "C31", "title": "Reset", "statement": "A new core processes the reset first: SSP and PC are read from addresses 0 and 4, SR is 0x2700, all other pending exceptions are discarded, and only then the first instruction runs.", "quantifier": "all memories and pending exceptions", "why_tests_cant": "all memories", "anchors": ["m68000/src/exception.rs: reset, process_pending_exceptions", "m68000/src/lib.rs: M68000::new"]}
{"id": "C32", "title": "Trace", "statement": "If T is set before a non-privileged instruction that completes, vector 9 results from it; otherwise an instruction that completes yields no exception.", "quantifier": "all instructions and states", "why_tests_cant": "all opcodes and states", "anchors": ["m68000/src/interpreter_fast.rs: interpreter_exception"]}
{"id": "C33", "title": "Word and long accesses are aligned", "statement": "The core calls the word and long memory callbacks only with even addresses; an odd address yields vector 3 instead.", "quantifier": "all opcodes, states, memories and call sequences", "why_tests_cant": "documented guarantee over every execution", "anchors": ["m68000/src/memory_access.rs: trait MemoryAccess docs, get_next_word, push_*, pop_*", "m68000/src/utils.rs: even"]}
{"id": "C34", "title": "Both interpreters agree", "statement": "interpreter and disassembler_interpreter (and their _exception variants) have the same effect on registers, memory, pending exceptions and cycles for every instruction they can fetch.", "quantifier": "all states, memories and opcodes", "why_tests_cant": "all states and opcodes", "anchors": ["m68000/src/interpreter_fast.rs", "m68000/src/interpreter_disassembler.rs", "m68000/src/instruction.rs: Instruction::from_memory"]}
{"id": "C35", "title": "Cycle accounting", "statement": "cycle(n) returns at least n and the amount beyond n is less than the cost of the last step; cycle_until_exception returns the exact sum of the steps' cycles and stops at the first exception; interpreter adds to the pending set exactly the exception interpreter_exception returns. A call that cannot fetch its opcode executes nothing and returns 0 cycles, unless it has processed pending exceptions before (contrary to its documentation, which says 0 for every such call).", "quantifier": "all n, states and memories", "why_tests_cant": "unbounded n and executions", "anchors": ["m68000/src/interpreter_fast.rs: cycle, cycle_until_exception, loop_until_exception_stop, interpreter"]}
{"id": "C36", "title": "The run loops terminate", "statement": "cycle(n) and cycle_until_exception(n) return for every n.", "quantifier": "all n, states and memories", "why_tests_cant": "termination cannot be observed by running", "anchors": ["m68000/src/interpreter_fast.rs: cycle, cycle_until_exception"]}
{"id": "C37", "title": "The decoder table is the 68000 opcode map", "statement": "For each of the 65536 opcodes the table gives the instruction of the 68000 opcode map with the operand modes legal for it, and Unknown exactly for the rest; the table equals the generator program's output, whose overwrite assertion never fires.", "quantifier": "all 65536 opcodes", "why_tests_cant": "finite, but no test lists an independent expectation for all 65536", "anchors": ["m68000/src/decoder.rs: DECODER", "m68000/src/bin/decoder.rs: generate_isa, generate_opcodes"]}
{"id": "C38", "title": "Unimplemented opcodes trap without effect", "statement": "An opcode with no instruction yields vector 10 (1010 prefix), 11 (1111 prefix) or 4 (any other, and ILLEGAL) with no register changed other than PC advanced by 2 and no memory access but the fetch.", "quantifier": "all unassigned opcodes and states", "why_tests_cant": "all states", "anchors": ["m68000/src/interpreter.rs: execute_unknown_instruction, execute_illegal"]}
{"id": "C39", "title": "Assembler and decoder agree", "statement": "Words produced by an assembler function decode to that instruction with the operands given, and the decoder consumes exactly those words.", "quantifier": "all operand values accepted by the assembler functions", "why_tests_cant": "all extension words, addressing modes and register numbers", "anchors": ["m68000/src/assembler.rs", "m68000/src/instruction.rs", "m68000/src/addressing_modes.rs: assemble, assemble_move_dst, from_memory"]}
{"id": "C40", "title": "Instruction length", "statement": "A completed non-branching instruction advances PC by 2 plus the length of its extension words as determined by its opcode; the Instruction decoder consumes the same number of words.", "quantifier": "all opcodes and states", "why_tests_cant": "all opcodes and extension words", "anchors": ["m68000/src/instruction.rs: decode functions", "m68000/src/interpreter_fast.rs"]}
{"id": "C41", "title": "Register-only instructions do not touch memory", "statement": "Instructions whose operands are registers or immediates access memory only to fetch their own words; comparison and test instructions never write memory.", "quantifier": "all opcodes, states and memories", "why_tests_cant": "all states", "anchors": ["m68000/src/interpreter.rs"]}
{"id": "C42", "title": "No panic on executable code", "statement": "With a memory that can serve the instruction words, executing any opcode does not panic. On a memory that completes every aligned access (no address missing, none refusing writes) no interpreter function and no run loop panics, from any state of the core, with any pending exceptions, however long it runs.", "quantifier": "all opcodes, states, pending exceptions, memories and run lengths", "why_tests_cant": "all opcodes, states and runs of any length", "anchors": ["m68000/src/interpreter.rs", "m68000/src/addressing_modes.rs", "m68000/src/instruction.rs: accessors", "m68000/src/memory_access.rs", "m68000/src/exception.rs: process_pending_exceptions, reset", "m68000/src/interpreter_fast.rs"]}
{"id": "C43", "title": "Provided memory implementations are consistent", "statement": "For byte and word slices as memory: a value written is read back, other addresses are unaffected, words and longs are big-endian compositions of bytes, out-of-range accesses are refused and change nothing, read-only slices refuse every write.", "quantifier": "all slice lengths, contents, addresses and values", "why_tests_cant": "unbounded slice lengths", "anchors": ["m68000/src/memory_access.rs: MemoryAccess for [u8], &[u8], [u16], &[u16], get_long, set_long"]}
{"id": "C44", "title": "Default long accesses are two word accesses", "statement": "A memory implementing only byte and word accesses gets long accesses that are the high word at addr followed by the low word at addr+2, stopping at the first failure.", "quantifier": "all memories, addresses and values", "why_tests_cant": "all user implementations", "anchors": ["m68000/src/memory_access.rs: MemoryAccess::get_long, set_long"]}
{"id": "C45", "title": "Brief extension words and addressing mode fields", "statement": "BriefExtensionWord::new followed by its accessors returns the arguments; AddressingMode::assemble followed by from_memory is the identity on well-formed modes and consumes exactly the assembled words.", "quantifier": "all displacement, register and size values; all addressing modes", "why_tests_cant": "all 32-bit absolute addresses and immediates", "anchors": ["m68000/src/addressing_modes.rs: BriefExtensionWord, AddressingMode::assemble, from_memory"]}
{"id": "C46", "title": "The CPU model only affects timing and frames", "statement": "Replacing the CPU details changes neither the registers nor the memory effects of any instruction other than exception frames and RTE: only cycle counts differ.", "quantifier": "all instructions, states and CpuDetails implementations", "why_tests_cant": "all user-defined CpuDetails", "anchors": ["m68000/src/cpu_details.rs", "m68000/src/interpreter.rs"]}
{"id": "C47", "title": "MOVE/ANDI/ORI/EORI to CCR and SR", "statement": "CCR forms change only X,N,Z,V,C as the bitwise function of the low byte, SR forms change exactly the implemented SR bits, MOVE from SR and RTR move the same bits.", "quantifier": "all immediates and states", "why_tests_cant": "2^16 immediates times all states", "anchors": ["m68000/src/interpreter.rs: execute_andiccr, execute_oriccr, execute_eoriccr, execute_moveccr, execute_movesr, execute_movefsr, execute_rtr"]}
{"id": "C48", "title": "TAS, Scc, CLR, TST and CHK", "statement": "TAS sets N,Z from the old byte and sets bit 7; Scc writes 0xFF or 0x00 by its condition; CLR writes zero; TST only sets flags; CHK yields vector 6 iff the signed low word is negative or greater than the bound.", "quantifier": "all values and states", "why_tests_cant": "2^32 pairs", "anchors": ["m68000/src/interpreter.rs: execute_tas, execute_scc, execute_clr, execute_tst, execute_chk"]}
{"id": "C49", "title": "TRAP, TRAPV", "statement": "TRAP #n yields vector 32+n; TRAPV yields vector 7 iff V is set; neither changes any other state.", "quantifier": "all n and states", "why_tests_cant": "all states", "anchors": ["m68000/src/interpreter.rs: execute_trap, execute_trapv"]}
{"id": "C50", "title": "C callback memory and string buffer", "statement": "Through the C interface a callback result with exception 0 is the access's value and any other an access error; the disassembly copied to a buffer of len >= 1 bytes is NUL-terminated, a prefix of the text, and never writes past len bytes.", "quantifier": "all callback results, strings and buffer lengths", "why_tests_cant": "all strings and lengths", "anchors": ["m68000-ffi/src/lib.rs: MemoryAccess for m68000_callbacks_t, m68000_*_disassembler_interpreter"]}
{"id": "C51", "title": "The exceptions that execution raises", "statement": "The only exceptions that executing instructions raises are access error, address error, illegal instruction, zero divide, CHK, TRAPV, privilege violation, trace, lines A and F, format error and TRAP #0-15: a program never raises a reset or an interrupt by itself.", "quantifier": "all states, memories and programs, both CPU models", "why_tests_cant": "all programs and states", "anchors": ["m68000/src/interpreter_fast.rs: interpreter_exception", "m68000/src/exception.rs: Vector"]}
{"id": "C52", "title": "User and supervisor stack pointers", "statement": "MOVE USP in supervisor mode copies exactly the user stack pointer from or to the named address register, in the direction of its opcode, and changes nothing else; no other instruction executed in supervisor mode changes the user stack pointer, whatever its outcome.", "quantifier": "all supervisor states, memories and opcodes", "why_tests_cant": "all instructions, registers and outcomes including errors", "anchors": ["m68000/src/interpreter.rs: execute_moveusp, execute_rte", "m68000/src/lib.rs: Registers"]}
{"id": "C53", "title": "NOP and RESET", "statement": "NOP changes nothing but the program counter; RESET in supervisor mode calls the memory's reset function once and changes no register but the program counter.", "quantifier": "all states and memories", "why_tests_cant": "all states and memory implementations", "anchors": ["m68000/src/interpreter.rs: execute_nop, execute_reset", "m68000/src/memory_access.rs: reset_instruction"]}
{"id": "C54", "title": "The disassembled text tells the instruction and its operands", "statement": "Instruction::disassemble (and Display) of a decoded instruction returns a non-empty text of printable ASCII characters, and never panics. Reading the text as an assembly line gives back the instruction the opcode stands for and every operand with its value (up to the unused bits of brief extension words and the extension word address of PC-relative modes); a word that is no instruction gives its value and address. Hence two different instructions never have the same text at the same address. disassembler_interpreter returns the address and text of the very instruction it executes, an empty text if it executes none, and the C functions store that text, cut to the buffer size and NUL-terminated. Display and UpperHex of an addressing mode both read back as the mode; LowerHex differs from them only in writing immediate values with lower case digits.", "quantifier": "every opcode, every extension word, every address, every memory; for the interpreters every state; for the C functions every buffer and length", "why_tests_cant": "65536 opcodes times all extension words and addresses; injectivity relates all pairs of instructions", "anchors": ["m68000/src/disassembler.rs: disassemble_*, DLUT", "m68000/src/instruction.rs: Instruction::disassemble, Display for Size/Direction", "m68000/src/addressing_modes.rs: Display, LowerHex, UpperHex for AddressingMode, Display for BriefExtensionWord", "m68000/src/status_register.rs: disassemble_conditional_test", "m68000/src/interpreter_disassembler.rs: disassembler_interpreter, disassembler_interpreter_exception", "m68000-ffi/src/lib.rs: m68000_*_disassembler_interpreter, m68000_*_disassembler_interpreter_exception"]}
{"id": "C55", "title": "An instruction writes only to its destination", "statement": "Every write access an instruction makes to the memory concerns only bytes of its destination operand, whose addresses follow from the opcode, the extension words and the registers before the instruction: the operand of its effective address, the stack slot of a push, the block of a MOVEM, the alternate bytes of a MOVEP, nothing for an instruction without a memory destination. This holds also when the instruction ends with an exception. On a memory that is an array of bytes all other bytes keep their value.", "quantifier": "all opcodes of the 68000, extension words, registers, memories (including ones with side effects) and outcomes of the accesses", "why_tests_cant": "it is a statement about every address not written, for every instruction, addressing mode and register value, including wrap-around and failing accesses", "anchors": ["m68000/src/interpreter.rs: execute_*", "m68000/src/memory_access.rs: set_byte, set_word, set_long, push", "m68000/src/addressing_modes.rs: effective addresses"]}
{"id": "C56", "title": "The memory accesses of an instruction and their order", "statement": "A call of interpreter_exception reads the words of the instruction in ascending order, each once, and then makes exactly the accesses that the instruction's description lists, in that order: whether each is a read or a write, its size and its address follow from the opcode, the extension words and the registers before the instruction. A source is read before a destination is written, the destination of MOVE is not read, long operands are one long access, MOVEM makes one access per register, descending for -(An). If the instruction does not complete, it made the first of these accesses: up to the refused one for an access error, up to the one at an odd address for an address error, none for a privilege violation, all of them for the other exceptions.", "quantifier": "all opcodes of the 68000, extension words, registers, memories (including ones with side effects such as device registers) and outcomes of the accesses, both CPU models", "why_tests_cant": "devices mapped in memory react to each access; the number, kind and order of accesses must be right for every instruction, mode and register value, and for every point at which an access can fail", "anchors": ["m68000/src/interpreter_fast.rs: fast_*", "m68000/src/interpreter.rs: execute_*", "m68000/src/memory_access.rs: get_*, set_*, push, pop", "m68000/src/utils.rs"]}
{"id": "C57", "title": "The execution time of an instruction", "statement": "The number of cycles a call of interpreter_exception returns for a completed instruction follows from the timing table of the CPU and the opcode alone, except for Scc, Bcc and DBcc (the condition, and for DBcc the counter), shifts with a count in a register (the count), MOVEM (the number of registers in the list) and RTE (the stack frame format of the SCC68070). It does not depend on operand values, addresses or the memory system: two executions of the same opcode take the same time, and so do two executions of the same sequence of opcodes, of any length, without one of these exceptions. An instruction that raises an exception returns 0 cycles itself.", "quantifier": "all opcodes of the 68000, extension words, register values, memories and both CPU models (any timing table)", "why_tests_cant": "independence of operand values relates all pairs of states; the timing formulas must hold for every instruction, size and addressing mode", "anchors": ["m68000/src/interpreter.rs: execute_*", "m68000/src/interpreter_fast.rs: fast_*", "m68000/src/cpu_details.rs", "m68000/src/cpu_details/mc68000.rs", "m68000/src/cpu_details/scc68070.rs", "m68000/src/addressing_modes.rs: get_effective_address"]}
{"id": "C58", "title": "Saving and restoring a core", "statement": "The registers, the stop flag and the pending exceptions of a core, together with the memory, determine what follows. A core made with new_no_reset that is given the registers and the stop flag of a core without pending exceptions continues like it: the same cycles, exceptions, register values and memory. The only other state, the opcode of the last instruction, shows in nothing but the frame of an address or access error, and is replaced by the next instruction that is fetched.", "quantifier": "all cores, memories and runs of any length", "why_tests_cant": "all states and all continuations", "anchors": ["m68000/src/lib.rs: M68000, M68000::new_no_reset", "m68000/src/exception.rs: process_exception", "m68000/src/interpreter_fast.rs: interpreter_exception, interpreter"]}
{"id": "C59", "title": "Cores of a C program are independent", "statement": "In the C interface the cores behind different pointers do not influence each other. A new core has a pointer of its own. In any interleaving of calls on several cores, a core that does not share its memory gets the same answers and ends in the same state as if only its own calls were made. Registers that are set are the ones read back, and a deleted core can no longer be used.", "quantifier": "all programs, that is sequences of calls on any number of cores, and all callbacks", "why_tests_cant": "all interleavings of any length", "anchors": ["m68000-ffi/src/lib.rs: cinterface! (m68000_*_new, _new_no_reset, _delete, _get_registers, _set_registers, _registers, _registers_mut, _interpreter, _cycle, ...)"]}
{"id": "C60", "title": "Running in time slices", "statement": "A host that runs a core with cycle in slices, and subtracts what a slice ran over from the following ones as the documentation asks, gets the same as with one call for the whole time, if the core does not stop: the same state of the core and the memory and the same number of cycles. cycle keeps nothing between calls.", "quantifier": "all slice lengths and numbers, states and memories", "why_tests_cant": "unbounded number and length of slices", "anchors": ["m68000/src/interpreter_fast.rs: cycle", "m68000-ffi/src/lib.rs: m68000_*_cycle"]}
{"id": "C61", "title": "Listing a program", "statement": "Repeated calls of Instruction::from_memory on one iterator list a program: a program made of assembled instructions, placed anywhere in a memory, is returned completely and in order, each instruction with its address and operands, and its disassembled text reads as that instruction. An instruction that is no branch leaves the program counter at the next instruction of the listing. from_memory returns an address error exactly at an odd address and an access error exactly if the opcode cannot be read.", "quantifier": "all programs of any length, addresses and memories", "why_tests_cant": "programs of any length at any address", "anchors": ["m68000/src/instruction.rs: Instruction::from_memory, Instruction::disassemble", "m68000/src/memory_access.rs: MemoryIter"]}
{"id": "C62", "title": "Operands of a decoded instruction", "statement": "For every opcode and all extension words, Instruction::from_memory returns exactly the operands that the instruction format defines: registers, sizes, directions, counts, displacements, immediate data and addressing modes. It takes them from the words of the instruction alone, so that any two memories holding the same words at the same address give the same instruction and the same listing.", "quantifier": "all 65536 opcodes, extension words, addresses and memories", "why_tests_cant": "all combinations of opcodes, extension words and memories", "anchors": ["m68000/src/instruction.rs: Instruction::from_memory, Operands and its decoding functions", "m68000/src/addressing_modes.rs: AddressingMode::from_memory"]}
{"id": "C63", "title": "Assembling a decoded instruction again", "statement": "The assembler accepts the operands of every instruction that from_memory returns, except the unknown ones and the opcodes wrongly taken as MOVEM, and yields the words it was decoded from; only a branch gets its short form where possible and the unused high byte of an immediate byte is cleared. The yielded words decode to the same instruction and operands (up to that high byte) and are then assembled to themselves. A listing without such instructions is assembled to the words of the program.", "quantifier": "all opcodes, extension words, addresses, memories and listings of any length", "why_tests_cant": "all combinations of opcodes and extension words, and programs of any length", "anchors": ["m68000/src/assembler.rs: all functions", "m68000/src/instruction.rs: Instruction::from_memory"]}
{"id": "C64", "title": "System calls and faults reach their handlers, and system calls return", "statement": "When a call of interpreter ends with an exception that the program has raised (TRAP #n and the faults of instructions), the next call enters the handler of that exception first, with the status register and the program counter at that moment on the supervisor stack, and interrupts that were held back stay pending. When the handler of TRAP #n executes RTE on an unchanged frame, the program continues behind the TRAP with the status register and supervisor stack pointer of the call.", "quantifier": "all programs, histories, trap numbers, handlers, memories and CPU models", "why_tests_cant": "any program and handler, and any interrupts pending at the moment of the call", "anchors": ["m68000/src/interpreter_fast.rs: interpreter, interpreter_exception", "m68000/src/exception.rs: exception, process_pending_exceptions, process_exception, get_vector_priority", "m68000/src/interpreter.rs: execute_trap, execute_rte"]}
{"id": "C65", "title": "The command line disassembler lists a file", "statement": "For every input file and range, the disassemble program ends. It writes one line for each instruction that begins in the range, in order, each with the address of the instruction and a text that reads as that instruction; a program placed at an even position is listed as it is if its range is given. The lines go to the output file if it can be created and to the standard output otherwise, and no file that the arguments do not name changes.", "quantifier": "all files, ranges, output names and argument lists", "why_tests_cant": "any content, length and range of the file", "anchors": ["m68000/src/bin/disassemble.rs: main", "m68000/src/instruction.rs: Instruction::from_memory", "m68000/src/disassembler.rs: DLUT", "m68000/src/memory_access.rs: MemoryAccess for [u8], iter_u16"]}
{"id": "C66", "title": "The example board boots its ROM", "statement": "The board of bin/scc68070.rs takes the initial supervisor stack pointer and program counter from the first eight bytes of the ROM file and starts with the instruction there. Afterwards, whatever program runs, the memory is never swapped again, the RAM keeps its size, what was printed stays printed, and accesses within the RAM are those of a byte slice.", "quantifier": "all ROM files of at least eight bytes, programs and numbers of turns", "why_tests_cant": "any ROM content and any number of executed instructions", "anchors": ["m68000/src/bin/scc68070.rs: Memory68070, main", "m68000/src/lib.rs: M68000::new", "m68000/src/exception.rs: reset", "m68000/src/interpreter_fast.rs: interpreter"]}
{"id": "C67", "title": "The only panics of a call", "statement": "If the methods of the memory do not panic, a call of interpreter_exception panics exactly if the core is not stopped and one of three things happens: a reset is pending and the memory refuses the long word at 0 or at 4; no reset is pending and the entry of a pending access error meets another refused access; or, the pending exceptions being dealt with, the memory provides the opcode at the program counter and refuses one of its extension words. interpreter and the disassembling interpreter panic in the same situations. A core with neither a reset nor an access error pending panics in the last situation only.", "quantifier": "all memories whose methods do not panic, all states of the core that a host can bring about, both CPU models", "why_tests_cant": "any opcode, register content, set of pending exceptions and set of refused accesses", "anchors": ["m68000/src/exception.rs: process_pending_exceptions, reset", "m68000/src/interpreter_fast.rs: interpreter_exception", "m68000/src/addressing_modes.rs: AddressingMode::from_memory", "m68000/src/decoder.rs"]}
{"id": "C68", "title": "What a program does depends only on the addresses it accesses", "statement": "Take a set of addresses and two memories, of any kind and size, that answer alike to accesses within the set. If a call of interpreter_exception or interpreter, or a run of cycle, cycle_until_exception or loop_until_exception_stop, makes no access outside the set on the first memory, then on the second it takes the same cycles, reports the same exceptions and leaves the same processor state, and the memories again answer alike within the set; bytes outside the set do not change. In particular a run that stays in a byte slice is the same in a longer slice that begins with it.", "quantifier": "all sets of addresses, memories, states, pending exceptions, instructions, cycle budgets and numbers of turns", "why_tests_cant": "any program and any content of the memory outside the set", "anchors": ["m68000/src/interpreter_fast.rs: interpreter_exception, interpreter, cycle, cycle_until_exception, loop_until_exception_stop", "m68000/src/memory_access.rs: MemoryAccess", "m68000/src/exception.rs: process_exception", "m68000/src/interpreter.rs"]}
{"id": "C69", "title": "A loop of MOVE and DBF copies a block of memory of any length", "statement": "The two-instruction program loop: MOVE.sz (Ai)+,(Aj)+; DBF Dn,loop, started with the counter word c in Dn and the addresses of two blocks of c + 1 elements in two different address registers (with byte size neither is A7, which moves by two), executes 2(c + 1) instructions and then is behind the loop. The destination then holds, byte for byte, what the source held at the beginning, also when the blocks overlap with the destination first; no other byte of memory has changed. Both pointers are behind their blocks, the counter word is 0xFFFF, N and Z are those of the last element, V and C are clear, and no other register, and no other part of the status register, has changed.", "quantifier": "all sizes, registers, counters (up to 65536 elements), addresses, contents and kinds of memory, both CPU models", "why_tests_cant": "the number of turns, the contents and the overlap of the blocks are unbounded", "anchors": ["m68000/src/interpreter.rs: instruction_move, instruction_dbcc", "m68000/src/addressing_modes.rs", "m68000/src/interpreter_fast.rs: interpreter_exception"]}
{"id": "C70", "title": "The generated source file defines the decoder table", "statement": "The program that generates decoder.rs: when the file can be created and every write takes its whole buffer, it ends without panic, and the array in the file it leaves, read as Rust source, has 65536 elements, and the element at each opcode is the instruction the library decodes it to. For any other table the text printed reads back as that table as well. The program panics exactly when the file cannot be created or a write reports an error. A short write is not noticed.", "quantifier": "all opcodes, all tables, all outcomes of the file operations", "why_tests_cant": "65536 entries, any table, and all histories of write results", "anchors": ["m68000/src/bin/decoder.rs: main, FILE_BEGIN, FILE_END, generate_isa", "m68000/src/isa.rs: Isa (Debug)", "m68000/src/decoder.rs: DECODER"]}
{"id": "C71", "title": "Interrupts are transparent to the interrupted program", "statement": "A program that, undisturbed, accesses only certain addresses, reports no exception and does not stop, computes the same when exceptions are requested between its instructions, at whatever instructions and however often: if each is served by a handler that restores the registers and the memory of the program it has changed and ends with RTE, if the supervisor stack has room outside the addresses of the program and if the exceptions are not masked when they are requested, then every instruction of the program takes the same cycles as undisturbed, and after it the program has the same registers and the same memory. A call with only masked exceptions pending is the call without them. A timer handler that counts its interrupts is such a handler, and its counter is the number of requests.", "quantifier": "all programs, all memories, all schedules of requests, all handlers that keep the contract, both stack formats", "why_tests_cant": "all schedules of interrupts, all programs and handlers, and runs of any length", "anchors": ["m68000/src/exception.rs: M68000::exception, process_pending_exceptions, process_exception", "m68000/src/interpreter_fast.rs: interpreter_exception", "m68000/src/interpreter.rs: execute_rte"]}
{"id": "C72", "title": "A loop of ADDX, SUBX, ABCD or SBCD and DBF computes with numbers of any length", "statement": "With the processor at `loop: ADDX.sz -(Ay),-(Ax); DBF Dn,loop` (Ax and Ay different, with byte size neither of them A7), and the counter word of Dn being c, the loop ends after 2(c+1) calls with the number of c+1 limbs below Ax replaced by the sum of it, of the number of c+1 limbs below Ay and of X; the condition codes are those of the whole addition (Z if it was set before); no other byte of memory changes; Ax and Ay are at the lowest limbs, the counter word is 0xFFFF, execution is behind the loop, and nothing else changes. Likewise the difference with SUBX and the packed decimal sum and difference with ABCD and SBCD. Without tracing the calls return the times of the two instructions in turn.", "quantifier": "all lengths up to 65536 limbs, all three sizes, all contents, all registers, all memories that are arrays of bytes", "why_tests_cant": "numbers of any length and value", "anchors": ["m68000/src/interpreter.rs: execute_addx, execute_subx, execute_abcd, execute_sbcd, execute_dbcc", "m68000/src/addressing_modes.rs: get_effective_address", "m68000/src/interpreter_fast.rs: interpreter_exception"]}
{"id": "C73", "title": "The time of delay loops and copy loops", "statement": "If consecutive calls of interpreter_exception return the times cs and c, no exception and do not stop the core, then cycle(k) and cycle_until_exception(k), with k above the sum of cs and at most the sum of all, execute exactly these calls and return the sum of all. `DBF Dn,*` with the counter word c takes c times the time of a branching DBF and the time of one that does not branch: with k as above cycle(k) returns exactly this time and leaves the processor behind the loop. Likewise for the loop of MOVE and DBF that copies a block.", "quantifier": "all counters, all CPU timing tables, all memories, all states without pending exception and tracing", "why_tests_cant": "all counters and all states", "anchors": ["m68000/src/interpreter_fast.rs: cycle, cycle_until_exception, interpreter_exception", "m68000/src/interpreter.rs: execute_dbcc, execute_move", "m68000/src/cpu_details.rs: CpuDetails"]}
{"id": "C74", "title": "The cycle counters do not overflow", "statement": "On the two CPUs of the crate a call of interpreter_exception or interpreter returns at most 57600 cycles, however the core has been used before, so the additions to the counters in it do not overflow a usize of 16 bits or more. cycle(n) and cycle_until_exception(n) compute the same with a usize as with natural numbers, in builds with and without overflow checks, if n is at least 57600 below 2^bits; what cycle(n) returns is at least n and less than n + 57600. loop_until_exception_stop, which has no limit, does so for the first 2^bits / 57600 calls.", "quantifier": "all memories, all histories of a core, all n with room above, all widths from 16 bits, builds with and without overflow checks", "why_tests_cant": "all programs, histories and pending exceptions; an overflow is out of reach of a run", "anchors": ["m68000/src/interpreter_fast.rs: cycle, cycle_until_exception, loop_until_exception_stop, interpreter, interpreter_exception", "m68000/src/exception.rs: process_pending_exceptions", "m68000/src/cpu_details.rs: CpuDetails"]}
{"id": "C75", "title": "Nested subroutine calls return to their callers", "statement": "An execution in which the instructions keep the stack pointer and the n bytes above it, or come in pairs of an instruction that allocates k bytes and one that frees them, or in pairs of a BSR or JSR and an RTS, nested in any way, leaves the stack pointer and the n bytes above it as they were. After a call and such an execution of the subroutine, RTS completes and execution continues with the instruction after the call, with the stack pointer of before the call; memory and the other registers are as the subroutine left them. In particular the subroutine `f: SUBQ.W #1,D0; BEQ.S g; BSR.S f; g: ADDQ.L #1,D1; RTS`, called with the counter word n+1, returns after 5n+4 instructions with n+1 added to D1, whatever n is, if the stack has room for n return addresses apart from the program.", "quantifier": "all nestings of calls and frames, all depths, all states, all memories that are arrays of bytes, both CPUs", "why_tests_cant": "executions of any length and depth", "anchors": ["m68000/src/interpreter.rs: execute_bsr, execute_jsr, execute_rts, execute_link, execute_unlk", "m68000/src/memory_access.rs: push_long, pop_long"]}
{"id": "C76", "title": "What an instruction that fails leaves behind", "statement": "When a call of interpreter_exception reports an exception that the instruction raised, the data registers are those of before the call, except the ones that MOVEM or MOVEP was loading. The address registers are too, except those of (An)+ and -(An) operands, the stack pointer of the instructions that push or pop, and the ones that MOVEM was loading. The condition codes are too, unless the instruction computes them before it writes memory (arithmetic, logic, shifts and bit instructions on memory; not MOVE, CLR, NOT, Scc), divides, or is RTR. The system byte, the stop state and the pending exceptions are unchanged. The memory has seen reads and at most one write, the last access, that it refused, except with MOVEM and MOVEP to memory; so in the memories of the library it is unchanged, or a long word was written of which only the first word is in the memory. The program counter is that of the next instruction, except after an RTE on the SCC68070.", "quantifier": "all opcodes, all operands, all register values, all memories, every access that can fail, both CPUs", "why_tests_cant": "every opcode with every addressing mode and every access failing", "anchors": ["m68000/src/interpreter_fast.rs: interpreter_exception", "m68000/src/interpreter.rs: execute_*", "m68000/src/memory_access.rs: MemoryAccess, get_effective_address, set_long"]}
{"id": "C77", "title": "The memory of the C example", "statement": "The memory callbacks of the documented C example make its buffer a big-endian memory of 1 MB: accesses inside read or write just those bytes, accesses that begin behind it are access errors, and nothing outside of the buffer is ever accessed, whatever program the core executes. A program therefore runs on it as on a Rust byte slice of this size.", "quantifier": "all addresses, values, buffer contents, programs, core states and uses of the core by the host", "why_tests_cant": "memory safety must hold for every program that the core may execute and every address it may compute", "anchors": ["CINTERFACE.md: getByte, getWord, getLong, setByte, setWord, setLong, main", "m68000-ffi/src/lib.rs: m68000_callbacks_t, MemoryAccess for m68000_callbacks_t"]}
{"id": "C78", "title": "Instructions that undo each other", "statement": "Adding and then subtracting the same source (ADD, ADDI, ADDQ, SUB, SUBI, SUBQ in either order and any combination), exclusive-or with the same source twice (EOR, EORI, or BCHG of the same bit), NOT twice and NEG twice give an operand in a data register or in memory the value it had at first, if nothing else changes it in between; the second instruction changes no other data register and no other byte of memory. ADD ea,Dn and SUB ea,Dn restore Dn, ADDQ and SUBQ restore an address register whatever their sizes (all registers but the program counter), ADDA and SUBA with sources of equal value restore An.", "quantifier": "all pairs of such opcodes, operand sizes, sources, addressing modes, operand values and states; all memories that behave as memories", "why_tests_cant": "the claim is about all values of operand and source, all modes and all pairs of instructions", "anchors": ["m68000/src/interpreter.rs: execute_add, execute_addi, execute_addq, execute_adda, execute_sub, execute_subi, execute_subq, execute_suba, execute_eor, execute_eori, execute_bchg, execute_not, execute_neg", "m68000/src/memory_access.rs: MemoryAccess"]}
{"id": "C79", "title": "An instruction uses only the registers it names", "statement": "What an instruction does depends only on the data and address registers that its opcode and its extension words name (operands, index registers, the register list of MOVEM), on the stack pointers, the status register, the program counter and the memory, and it changes no other data or address register. If the registers that are not named are given any other values, a call returns the same cycles and the same exception, makes the memory and the rest of the core the same, and leaves the other registers as they were given; exception processing and reset use none of these registers. A program whose instructions name only some registers therefore runs in the same way with any values in the others, and keeps these.", "quantifier": "all opcodes, extension words, memories, core states (also stopped ones and ones with pending exceptions), sets of registers, values of the other registers and numbers of calls", "why_tests_cant": "that something has no influence can only be said about all values it may have, for every instruction and every program", "anchors": ["m68000/src/interpreter.rs: all execute functions", "m68000/src/addressing_modes.rs: EffectiveAddress", "m68000/src/exception.rs: process_pending_exceptions, process_exception, reset", "m68000/src/interpreter_fast.rs: interpreter, interpreter_exception"]}
{"id": "C80", "title": "Invariants of a core", "statement": "However a core is used (made with new or new_no_reset; any exceptions requested; the run methods called with any memory, also after errors; the registers, the stop flag and the memory changed by the host, which writes interrupt masks up to 7), its interrupt mask stays within 0 to 7, its status register is the one that its 16-bit word denotes with the unimplemented bits 0, and at most seven exceptions are pending, no two of the same rank. So a user program keeps the supervisor state (C25) in every such core. A host that writes a larger mask gets a status register that its word does not denote.", "quantifier": "all histories of a core: all programs, memories, requests, host writes and numbers of calls", "why_tests_cant": "an invariant is about every reachable state", "anchors": ["m68000/src/status_register.rs: StatusRegister, From<u16>, Into<u16>, BitAndAssign, BitOrAssign, BitXorAssign", "m68000/src/exception.rs: M68000::exception, process_exception, reset", "m68000/src/lib.rs: M68000::new, M68000::new_no_reset, M68000::regs", "m68000/src/interpreter.rs: execute_movesr, execute_andisr, execute_eorisr, execute_orisr, execute_oriccr, execute_eoriccr, execute_rte, execute_stop"]}
{"id": "C81", "title": "Assembled code does what the calls of the assembler say", "statement": "Whenever a function of the assembler returns words, and these words are put in memory at an even address and executed there by a running core with no pending exception, the core does what the call asked for: the effect of the named instruction with the registers, addressing modes, immediate data, sizes and displacements of the call, its time, its condition codes, its exception if it takes one, with PC relative operands and branches counted from where the words were put. This holds for every function of the assembler and for every line of a program assembled into consecutive words; a program executed line by line takes as many calls of interpreter as it has executed lines, with the sum of their cycles.", "quantifier": "all functions of the assembler, all operands they accept, all addresses, states, memories and CPU timing tables, all programs and numbers of lines executed", "why_tests_cant": "the product of instructions, operands, states and memories, and programs of any length", "anchors": ["m68000/src/assembler.rs: all functions", "m68000/src/addressing_modes.rs: AddressingMode::assemble, assemble_move_dst", "m68000/src/interpreter_fast.rs: interpreter, interpreter_exception", "m68000/src/interpreter.rs: execute_*", "m68000/src/decoder.rs: DECODER"]}
{"id": "C82", "title": "The two example boards run the same", "statement": "A ROM of 8 to 0x100000 bytes runs the same on the Rust example board (bin/scc68070.rs) and on the board of the C interface (bin/scc68070_ffi.rs): both take the stack pointer and the program counter from its first eight bytes, and after any number of turns in which the program accesses words and long words only within the RAM, or outside of it and not at the serial registers (bytes anywhere), they have the same processor state, RAM and printed characters. The condition is needed: a word written to 0x80002018 is printed by the first board only, a word read from the registers is an access error on the second only, and a long word written to the last word of the RAM is half written by the first only. A larger ROM stops the second board at the start; the first takes what fits.", "quantifier": "all ROMs, CPU constants and numbers of turns; all contents of the boards", "why_tests_cant": "A test runs one ROM; that two memories answer alike to every program needs an invariant over all runs.", "anchors": ["m68000/src/bin/scc68070.rs: Memory68070, main", "m68000-ffi/src/bin/scc68070_ffi.rs: get_byte, get_word, get_long, set_byte, set_word, set_long, main"]}
{"id": "C83", "title": "Programs written with the assembler compute what they should", "statement": "Two programs written as calls of the assembler functions do what they are for, for every input, wherever they are placed. Euclid's algorithm (TST, BEQ, DIVU, CLR, SWAP, EXG, BRA) leaves the greatest common divisor of the words in D0 and D1 in D0 and zero in D1, after at most seven calls of the interpreter per unit of D1 and two more, and changes no other register and no memory. The block copy (MOVE.B (A0)+,(A1)+; DBF D0) leaves at A1 the bytes that were at A0, as many as the low word of D0 says plus one, after exactly two calls of the interpreter per byte, and changes no other byte, if it does not overwrite itself or a byte still to be copied.", "quantifier": "all even load addresses, all words in D0 and D1, all contents of memory and other registers, all blocks meeting the conditions, all memories that keep what is written, all CPU constants", "why_tests_cant": "A test runs a program on some inputs; the result for every input needs an induction over the turns of the loop.", "anchors": ["m68000/src/assembler.rs: tst, bcc, divu, clr, swap, exg, bra, move, dbcc", "m68000/src/interpreter_fast.rs: interpreter", "m68000/src/interpreter_fast.rs: fast_tst, fast_bcc, fast_divu, fast_clr, fast_swap, fast_exg, fast_bra, fast_move, fast_dbcc"]}
{"id": "C84", "title": "TAS gives mutual exclusion to cores that share a memory", "statement": "Any number of cores are given the same memory by the host, which calls their interpreters one after another in any order. If every core runs the program that takes a lock with TAS and BMI, reads a counter, adds one, writes it back and gives the lock back with CLR, then whatever the order of the calls no call panics, no two cores are ever between the taking and the giving back of the lock, and no increment is lost: the counter is its first value plus the number of executed writes. The lock does not block: at every point there is a core (the one inside, if there is one) that on its own writes the counter once more within seven calls.", "quantifier": "all sets of cores of any size, all CPU constants of each, all schedules (finite sequences of calls of the interpreters), all even load addresses, all places of the lock and of the counter outside the program and of each other, all contents of the other registers and of memory, all memories that keep what is written", "why_tests_cant": "The interleavings of the cores are unbounded in number and length; a test runs a few. A lost update shows only in the orders where one core is stopped between its read and its write.", "anchors": ["m68000/src/interpreter_fast.rs: fast_tas, fast_bcc, fast_move, fast_addq, fast_clr, fast_bra", "m68000/src/interpreter_fast.rs: interpreter", "m68000/src/assembler.rs: tas, bcc, move, addq, clr, bra"]}
{"id": "C85", "title": "Cores that keep to their own parts of a memory do not disturb each other", "statement": "Any number of cores are given the same memory, and each has a part of it that it may write and a part that it may read; what one core may write no other core may read, while bytes that no core may write, such as a common program, may be read by all. If each core, alone on the memory, makes its calls of the interpreter without leaving its parts, then the host may interleave the calls of the cores in any order: no call panics, every core ends in exactly the processor state that it reaches alone, the bytes it may read are those it has alone, and bytes that no core may write are unchanged. Two schedules with the same number of calls for each core end with the same cores and the same bytes.", "quantifier": "all sets of cores of any size, all CPU constants of each, all divisions of the addresses, all programs, states and pending exceptions, all schedules, all memories that keep what is written", "why_tests_cant": "The interleavings and the programs are unbounded in number; a test runs a few of each.", "anchors": ["m68000/src/interpreter_fast.rs: interpreter", "m68000/src/memory_access.rs: MemoryAccess"]}
{"id": "C86", "title": "The core is the machine of one short description", "statement": "One call of interpreter_exception is one step of a machine that is described on its own: a stopped core does nothing and takes 0 cycles; otherwise the pending exceptions that the interrupt mask does not hold back are entered in order (status register, frame pushed part by part, vector, time; a reset discards the rest; an entry that fails makes the error pending, as a spurious interrupt if the memory refuses the entry of an interrupt, and panics if it refuses that of an access error), then the opcode at PC is fetched, looked up in the opcode map of the manual (plus 32 opcodes taken for MOVEM), and executed as described for that instruction, and trace follows if T was set and the instruction is not privileged. interpreter requests the exception that results. Whatever a host does with a core, over any number of requests, calls and changes of registers, stop flag and memory, the cycles, exceptions, panics, registers and memory accesses are those of the described machine.", "quantifier": "every memory implementation, every set of CPU constants, every state a host can bring a core to, every finite sequence of uses", "why_tests_cant": "a test compares single runs; that no state, opcode, memory answer or history exists in which the code departs from the description needs a proof of equality", "anchors": ["m68000/src/interpreter_fast.rs: interpreter, interpreter_exception", "m68000/src/exception.rs: exception, process_pending_exceptions, process_exception, reset", "m68000/src/decoder.rs: DECODER", "m68000/src/interpreter.rs: execute_*"]}
{"id": "C87", "title": "Programs compiled with the assembler compute what their source means", "statement": "A small structured language (32-bit constants and variables, + - & | ^ negation, complement and the product of the low words; signed and unsigned comparisons joined by not, and, or; assignments, sequences, alternatives and while loops) is compiled by calls of the functions of the assembler. Every program of the language assembles without panic. If its words are in memory at an even address, with its variables at A6 and room below A7, and the three have no byte in common, then repeated calls of interpreter execute it: if the program ends in its source, a number of calls leaves the variables with the values the source gives them, the program counter behind the code, A0-A7, D2-D7 and the system byte as they were, and no other byte of memory changed except below the stack pointer; if it does not end in its source, every number of calls succeeds and leaves the program counter within the code. So the core gets behind the code if and only if the source program ends.", "quantifier": "every program of the language, of any size and depth, every load address, every initial value of the variables, every memory that keeps what is written, every set of CPU constants, any number of calls", "why_tests_cant": "the programs and their inputs are unbounded families, and that a program never ends is not observable by any test", "anchors": ["m68000/src/assembler.rs: r#move, add, sub, and, or, eor, mulu, neg, not, cmp, bcc, jmp", "m68000/src/interpreter_fast.rs: interpreter", "m68000/src/interpreter.rs: execute_move, execute_add, execute_sub, execute_cmp, execute_bcc, execute_jmp"]}
{"id": "C88", "title": "Compiled programs with recursive procedures and local variables compute what their source means", "statement": "The language of C87 with procedures, which may call each other and themselves, and local variables. A call is compiled to JSR, a procedure ends with RTS, and the old value of a local variable is kept on the stack. Every program assembles without panic. If its words are in memory at an even address, with its variables at A6 and a stack of some size below A7, and the three have no byte in common, then: if the program ends in its source and the stack is as large as the source needs (four bytes for each call and local variable that has not ended, and those of the expressions), a number of calls of interpreter leaves the variables with the values the source gives them, the program counter behind the code, A0-A7, D2-D7 and the system byte as they were, and no other byte of memory changed except in the stack; if it does not end in its source and the stack is never too small, every number of calls succeeds and leaves the program counter within the code. So the core gets behind the code if and only if the source program ends. What a program ends with, and the stack it needs, are determined.", "quantifier": "every list of procedures and every program of the language, recursion of any depth, every load address, every initial value of the variables, every size of the stack, every memory that keeps what is written, every set of CPU constants, any number of calls", "why_tests_cant": "the programs, their inputs and the depth of their calls are unbounded families, and that a program never ends is not observable by any test", "anchors": ["m68000/src/assembler.rs: jsr, rts, r#move, jmp, bcc, cmp", "m68000/src/interpreter_fast.rs: interpreter", "m68000/src/interpreter.rs: execute_jsr, execute_rts, execute_move, execute_cmp, execute_bcc, execute_jmp"]}
{"id": "C89", "title": "Compiled programs compute what their source means while the machine serves interrupts", "statement": "A compiled program with recursive procedures (C88) is executed in user mode, and before any of its instructions any number of exceptions is requested. Their handlers are elsewhere in memory, come to their RTE and restore what they change; the vectors, the handlers and the supervisor stack have no byte in common with the code, the variables and the stack of the program, and the interrupt mask lets the exceptions through. Then: if the source program ends and its stack is large enough, there is a number of instructions after which, for every such schedule of exceptions, the variables have the values the source gives them, the program counter is behind the code, A0-A7, D2-D7, the stack pointers and the system byte are as they were, the code is unchanged, and every exception has been served, in order. If the source program does not end, the program is still in its code after any number of its instructions, and every exception has been served. With a timer whose handler counts, the count is the number of requests. The same holds for every program of assembly lines executed line by line that accesses only its own memory and has no ORI or EORI to CCR.", "quantifier": "every list of procedures and every program of the language, recursion of any depth, every load address and every initial value, every schedule of exceptions with any number before each instruction, every set of handlers that meet the contract, every memory that keeps what is written, every set of CPU constants", "why_tests_cant": "the schedules, the programs and the depth of their calls are unbounded families; a test runs one program with one schedule", "anchors": ["m68000/src/exception.rs: exception, process_pending_exceptions, process_exception", "m68000/src/interpreter_fast.rs: interpreter_exception", "m68000/src/interpreter.rs: execute_rte, execute_jsr, execute_rts, execute_move", "m68000/src/assembler.rs: jsr, rts, r#move, jmp, bcc, cmp"]}
{"id": "C90", "title": "The public helpers of utils compute what they say", "statement": "bit tells the named bit and bits returns the bits [beg, end] inclusive of a word, for every range within the 16 bits, in builds with and without overflow checks. is_even and even tell even numbers, even failing with the vector of the address error for odd ones. u32_be, i32_be_sized and get_next_word read the first words of a slice as big-endian integers of the size, sign-extended, and panic exactly when there are not enough words. The carrying operators, signed and unsigned, of every integer type give the exact sum or difference with carry modulo the range of the type, and their flag says exactly whether the exact result is outside the range, intermediate overflows not counting. Chaining the unsigned ones over the digits of two numbers of any length gives the exact sum or difference.", "quantifier": "all words, bit ranges, slices, integers of every width of at least two bits, carries, and numbers of any length", "why_tests_cant": "the pairs of 32-bit integers cannot be enumerated and the length of the numbers is unbounded; the unit tests of the operators check a few literals", "anchors": ["m68000/src/utils.rs: bit, bits, IsEven, SliceAs, CarryingOps", "m68000/tests/operators.rs"]}
{"id": "C91", "title": "The times of the MC68000 are those of its manual", "statement": "The documentation of the Mc68000 type says that it follows the M68000 User's Manual. Every call that executes an instruction without exception on this CPU returns the number of cycles of the manual's tables for the opcode: the move tables for every pair of source and destination, and for the others the base time plus the time of the effective address, depending only on the addressing mode, the operand size, a condition, a shift count or a register list (the maximum where the manual gives a maximum). Entering an exception adds the exception processing time of the manual. A CHK or a division that traps takes the time of its effective address, and the exception processing follows. The code violates this in three ways, which the theorems state exactly: read-modify-write instructions on a long in memory take 4 cycles more, interrupts with vector 15 or 64 to 255 take 4 cycles less, and the effective address of an instruction that traps takes no time.", "quantifier": "all opcodes of all instructions, registers, operands and memories; all vectors in the table of exception times", "why_tests_cant": "the times of tens of thousands of opcodes in every state have to be compared with the printed tables; the tests of the crate ignore the returned times", "anchors": ["m68000/src/cpu_details/mc68000.rs: Mc68000", "m68000/src/memory_access.rs: get_long, set_long", "m68000/src/addressing_modes.rs: get_effective_address", "m68000/src/interpreter.rs: execute_chk, execute_divs, execute_divu", "m68000/src/exception.rs: process_exception"]}
{"id": "C92", "title": "The benchmarks execute what the example programs execute", "statement": "The benchmarks of both crates have their own memory, which prints nothing, tests the serial port before the RAM (in the Rust one) and panics for a ROM that does not fit. For every ROM that fits, every CPU type and every number of turns, the calls of interpreter and interpreter_exception a benchmark makes return the same numbers of cycles and the same exceptions, and leave the same registers, pending exceptions, stop state and RAM, as the same calls on the example program of that crate; they panic if and only if these do. The benchmark starts with 0x500000 bytes of RAM, zero except for the ROM at 0x400000, and setting it up panics exactly for a ROM larger than 0x100000 bytes.", "quantifier": "all ROMs, all CPU types, all numbers of turns, both crates, both methods", "why_tests_cant": "the benchmarks discard what they compute and run one ROM that is not in the repository; a benchmark that takes another path than the emulator measures something else without any sign of it", "anchors": ["m68000/benches/cpudiag.rs: Memory68070, criterion_benchmark", "m68000-ffi/benches/cpudiag_ffi.rs: get_byte, get_word, get_long, set_byte, set_word, set_long, criterion_benchmark", "m68000/src/bin/scc68070.rs", "m68000-ffi/src/bin/scc68070_ffi.rs"]}
{"id": "C93", "title": "The time of a compiled program follows from its source", "statement": "For the programs of C87 the cycles returned by the calls of interpreter that execute the program add up to a number that is computed from the source and the timing table of the CPU alone: each expression has a fixed time, a condition takes the time of the parts that are evaluated and of the branches taken, a loop the sum over its turns. The source, the table and the initial values of the variables determine this number; a program without alternatives and loops takes the same time for all values. A host that calls interpreter until the program counter is behind the code has counted exactly this number. Called with this number, cycle and cycle_until_exception execute the program and nothing else, and return this number; so does a host that divides it into time slices of any lengths and takes what a slice has run over from the following ones. The program that adds up the numbers from x down to 1 takes 314 * x + 78 cycles on the MC68000 for every x below 2^31. The same holds of the programs of C88 with recursive procedures and local variables, if there is enough stack; the recursive program that adds up the numbers takes 328 * x + 114 cycles. When exceptions are served before any instructions of such a program (C89), the calls that execute its own instructions still take exactly this time, taken together.", "quantifier": "every program of the language, of any size and depth, that ends for the given values, every load address, every memory that keeps what is written, every set of CPU constants, any number of turns of its loops", "why_tests_cant": "programs, inputs and numbers of turns are unbounded families; an error of a few cycles in one case of one instruction goes unnoticed in a test that measures other programs", "anchors": ["m68000/src/interpreter_fast.rs: interpreter", "m68000/src/interpreter.rs: execute_move, execute_bcc, execute_jmp, execute_cmp, execute_mulu", "m68000/src/cpu_details/mc68000.rs: Mc68000", "m68000/src/cpu_details/scc68070.rs: Scc68070", "m68000/src/assembler.rs: r#move, bcc, jmp"]}
{"id": "C94", "title": "The time of an interrupted machine is exact", "statement": "When exceptions are requested before any instructions of a program and served by handlers that restore what they change, the cycles of all calls until the program ends are those of the program undisturbed plus, for each exception, the time of its exception processing, of its handler and of its RTE. For a compiled program (C88) the first part is its time in the source (C93). With a timer whose handler is ADDQ.W #1,count; RTE each interrupt costs the same number of cycles, 80 on the MC68000, and count has the number of interrupts. RTE takes its longer time exactly for the long frames of the SCC68070.", "quantifier": "every program that runs undisturbed, every compiled program, every schedule of any number of exceptions before any instructions, every set of CPU constants, every memory that keeps what is written", "why_tests_cant": "schedules and programs are unbounded families; a few cycles lost or counted twice at an entry show up only in the sum over a long run", "anchors": ["m68000/src/interpreter_fast.rs: interpreter_exception", "m68000/src/exception.rs: process_pending_exceptions, process_exception", "m68000/src/interpreter.rs: execute_rte", "m68000/src/cpu_details/mc68000.rs: Mc68000, vector_execution_time"]}
{"id": "C95", "title": "Programs that do not branch on secrets run in constant time", "statement": "Let a compiled program with recursive procedures and local variables (C88) use its secret variables in no condition and in no expression assigned to a public variable. Two machines that run it, at any addresses and with any kinds of memory, with the same values in the public variables and any values in the secret ones, take the same number of cycles: if it ends on one it ends on the other, with the same values in the public variables. A host that calls interpreter until the program counter is behind the code has counted the same number on both. A secret in a condition can be told from the time.", "quantifier": "all programs of the language, all sets of public variables, all values, all load addresses, all memories that keep what is written, every set of CPU constants", "why_tests_cant": "it compares every pair of runs of every program; a test measures a few values of a few secrets", "anchors": ["m68000/src/interpreter_fast.rs: interpreter", "m68000/src/interpreter.rs: execute_move, execute_mulu, execute_bcc, execute_jsr, execute_rts", "m68000/src/cpu_details/mc68000.rs: Mc68000", "m68000/src/cpu_details/scc68070.rs: Scc68070"]}
{"id": "C96", "title": "A clock kept by a timer interrupt tells the time", "statement": "Let a host add up the cycles that the calls return, request an interrupt exception each time another period of T cycles is over, and then call the core until the handler has returned; the handler adds 1 to a word in memory and executes RTE. Let the entry, the handler and the RTE together take less than T cycles. Then a compiled program with recursive procedures (C88) that takes w cycles alone (C93) ends, has done what its source means, and the host has counted x = w + N times the cycles of one interrupt. N interrupts have been served, N periods and no more were over before the last instruction of the program (N*T <= x < (N+1)*T + the cycles of this instruction), and the word in memory is N modulo 2^16. For any program and any handler whose service has a fixed time, the program ends with the same registers and bytes as alone, with the same relation between N and the time.", "quantifier": "all programs of the language that end, all their inputs, all periods longer than the service, all interrupt vectors with a short frame and not masked, all layouts of the handler and the counter, every memory that keeps what is written, every set of CPU constants", "why_tests_cant": "it ranges over every program, every input and every period; when an interrupt comes depends on all the times before it, those of the earlier interrupts among them", "anchors": ["m68000/src/interpreter_fast.rs: interpreter_exception", "m68000/src/interpreter.rs: execute_addq, execute_rte", "m68000/src/exception.rs: exception, process_pending_exceptions, process_exception", "m68000/src/cpu_details.rs: CpuDetails::vector_execution_time"]}
