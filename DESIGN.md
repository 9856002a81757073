# Formal model of Stovent/m68000 in Lean 4

## Layout

| Files | Content |
|---|---|
| `properties.jsonl` | the properties in English |
| `MANIFEST.json` | for each property: status and the exact theorem names |
| `AXIOMS.md` | the axioms of each theorem, printed by Lean (`tools/axioms.py`) |
| `lean/Verif/Model/*` | the code, function by function; each definition cites the file and lines of `/repo` |
| `lean/Verif/Spec/*` | independent specifications: they share only the state types and the memory interface with the model |
| `lean/Verif/Lemmas/*` | helper lemmas only |
| `lean/Verif/Props/*` | the property theorems `Cxx_...`, each with an `example` of a concrete case meeting its hypotheses |
| `lean/Verif/Tests/*` | the unit tests of `/repo/m68000/tests`, transcribed and evaluated on the model (tests of the model, no property theorems) |
| `tools/*` | the scripts that transcribe tables of `/repo`, and that write generated lemma files |
| `seeded/LOG.jsonl` | wrong programs tried against the theorems (see "Wrong programs" below) |

## How the code is modelled

* Integers are `BitVec 8/16/32`; `Wrapping` arithmetic is `BitVec` arithmetic. Rust `usize` cycle counters are `Nat`;
  `Model/Usize.lean` has the run methods with counters of a fixed width, and C74 shows that they agree.
* `M68000<CPU>` is a structure of registers, `current_opcode`, `stop` and the set of pending exceptions
  (`BTreeSet<Exception>` = list sorted by the code's own `Ord`; inserting an element that compares equal is ignored).
* The user's memory is an arbitrary implementation of the `MemoryAccess` trait: a Lean class over an arbitrary state type.
  Every access, also a read, may change the memory state, and may succeed, refuse (`None`) or panic. Theorems quantify over
  all such memories unless the property needs read/write laws; then these are explicit hypotheses (`Spec/Ram.lean`) met by the
  slice memories of the crate.
* A fallible `&mut self` method is a function from the machine state to `ok value state | err vector state | panic`. The state
  at an `Err` is kept, because the Rust code keeps its side effects. `panic` stands for `panic!`, `assert!`, `expect`, indices
  out of range.
* `CpuDetails` is a structure of constants. Theorems quantify over all of them; the two CPUs of the crate are values of it,
  generated from the Rust text.
* `DECODER` (65536 entries) is transcribed by script as run lengths. The program that generates it, `bin/decoder.rs`, is
  modelled separately and proved to give this table (C37_generator).
* The loops of the run functions are functions of a number of turns (`fuel`). Theorems hold for every number of turns, and
  say whether some number of turns is enough (C36).
* Strings are lists of characters. `format!` with `{}`, `{:#X}` and `{:#06X}` is modelled by digit functions.

### Modelled

| File of `/repo` | Model |
|---|---|
| `m68000/src/status_register.rs` | `StatusRegister`, `Text` (names of the conditions) |
| `m68000/src/lib.rs` (registers, constructors) | `Cpu`, `Exception` |
| `m68000/src/memory_access.rs` | `Cpu` (trait), `Types` (iterator), `Access`, `Slices` |
| `m68000/src/addressing_modes.rs` | `Types`, `Access`, `Assembler`, `Text` |
| `m68000/src/instruction.rs` | `Types`, `Decode`, `Disasm` |
| `m68000/src/isa.rs`, `decoder.rs` | `Isa`, `Decode`, `DecoderTable` |
| `m68000/src/bin/decoder.rs` | `Generator`, `GeneratorMain` |
| `m68000/src/interpreter.rs` (all `execute_*`) | `Alu`, `InterpArith/Bit/Control/Logic/Move/Shift` |
| `m68000/src/interpreter_fast.rs` | `Fast`, `Run` |
| `m68000/src/interpreter_disassembler.rs` | `Disasm`, `Run`, `TextRun` |
| `m68000/src/exception.rs` | `Exception` |
| `m68000/src/cpu_details*` | `CpuDetails` |
| `m68000/src/assembler.rs` (all functions) | `Assembler` |
| `m68000/src/disassembler.rs` (all functions) | `Text` |
| `m68000/src/bin/disassemble.rs` | `Tool`: arguments, loop, files (a map from names to contents); not the usage text, links, or failing writes |
| `m68000/src/bin/scc68070.rs` | `Board`: the memory, the loading of the ROM and the loop; not the time measurement. Additions of addresses wrap (a build with overflow checks panics there) |
| `m68000-ffi/src/bin/scc68070_ffi.rs` | `BoardFfi`: the callbacks, the loading of the ROM and the loop, as for `Board` |
| `m68000/benches/cpudiag.rs`, `m68000-ffi/benches/cpudiag_ffi.rs` | `Bench`: the memories, the setup, and the loops with the values they give to `black_box` |
| `m68000/tests/*.rs` | `Tests/*`: all tests of the four files |
| `m68000/src/utils.rs` | `Basic`, `Cpu` |
| `m68000-ffi/src/lib.rs` | `Ffi`, `TextRun`: memory callbacks, interpreter results, reads at the PC, the string buffer; `FfiCores`: all functions on pointers to cores |
| `CINTERFACE.md` (the C example) | `CExample`: its callbacks on a buffer that notes accesses outside of it |

### Not modelled

Derived `Debug`/`Clone`/serde impls; overflow of `usize` in the `execute` functions (they add a few table entries) and in the disassembling interpreter; `#[cfg]` features; the C headers; Criterion, which repeats and times the benchmarks. In the C interface a pointer is a key to a core; the
allocator is any that returns a key not in use, and using a dead pointer has no result (undefined behaviour).

## Trusted base

* Lean's kernel (4.33.0).
* Axioms: `propext`, `Classical.choice`, `Quot.sound`, no others; `AXIOMS.md` lists them for each theorem. No `sorry`, no
  `native_decide`, no `bv_decide`.
* That the model says what the Rust text says. This was done by reading; nothing of `/repo` was compiled or run.
  The model passes the unit tests of the crate (`lean/Verif/Tests`), which cover the assembler, the status register, the slices and the carry operators.
* That the scripts of `tools/` transcribe the decoder table, the CPU constants, the entry tables and the disassembler.
* The semantics of Rust used above: wrapping arithmetic, `BTreeSet`, `Option`/`Result`, evaluation order, array bounds. The arithmetic of the interpreter that is not
  wrapping cannot overflow, so builds with and without overflow checks do the same there: nibbles and carries of BCD, counts modulo 8, 32 or 64, the shift of MOVEP, a
  vector times 4.
* That the definitions of `Spec/` and the statements in `Props/` say what `properties.jsonl` says.

Mathlib is used in `Props/C07` and `Props/C08` only.

## How the proofs go

1. `Spec/Machine`, `Spec/Alu`, `Spec/Instr`, `Spec/Isa`, `Spec/Timing` specify every instruction on integers (`toNat`, `toInt`),
   without the functions of the model. `Spec.exec C isa op` is the effect and the cost of an instruction.
2. `Lemmas/Instr*` prove each `execute_*` equal to its clause; `Lemmas/Refine` has `fastExecute_eq`: for every memory, every state
   and all 85 instructions the executed code equals `Spec.exec`. `Lemmas/Step` lifts it to one call of `interpreter_exception`.
3. The property theorems are about calls of the API (`interpreter_exception`, `interpreter`, `cycle`, the assembler, ...). They do not
   mention `Spec.exec`: results are stated with sums, products, quotients, memory bytes and registers.
4. Properties of all instructions (C14, C25, C33, C35, C40-C42, C46, C51, C52, C55-C57) use predicates closed under sequencing
   (`Lemmas/Traverse`, `AnyStep`, `Simulate`, `Legal*`, `Named*`), proved for each primitive and each clause.
5. Properties of histories (C05, C06, C18, C23, C25, C29, C31, C33, C34, C36, C46) are inductions over lists of limbs, register lists,
   counters, calls or requests.
6. Finite tables (C37, C38, C40, C24) are evaluated completely in the kernel line by line of the opcode map, and lifted to all
   opcodes by a lemma.

Per property: C01 bit extensionality. C02-C04, C07-C17, C19-C22, C47-C49, C53: one call, from step 2. C05, C06: one limb, then induction
over the limbs, in registers and in memory. C18: induction over the register list. C23: induction over the counter. C24, C32, C38:
the privilege and opcode tables. C25, C33, C41, C42, C46, C51, C52: step 4. C26-C31: exception processing, induction over the pending list.
C34: both dispatch tables reach the same `execute_*` after the same decoding. C35, C36: induction over the turns. C37: table evaluation and an
abstract meaning of the generator's formats. C39, C45: field arithmetic of words. C40: extension words of each mode. C43, C44: lists.
C50: the callbacks as a memory, list lemmas for the buffer. C54: a reader of the text (`Spec/Reader.lean`) is a left inverse of the printer.
C55: `Spec/Written.lean` gives the destination addresses; each writing clause is shown to stay inside (`Lemmas/WrittenExec`).
C56: `Spec/Access.lean` lists the accesses; the record of a memory that notes them is followed through each clause (`Lemmas/AccessExec`).
C57: `Spec/Cycles.lean` gives the time by opcode; each clause is shown to return it (`Lemmas/Cycles`).
C42, whole runs: `Lemmas/Total` (exception processing on a memory that completes every access), then induction over the turns.
C58: no action but the long frames uses the last opcode (`Lemmas/Saved`); induction over the calls. C59: induction over the calls of the program.
C60: a longer call passes through the end of a shorter one; induction over the slices.
C61: induction over the lines of the program, from C39 (assembled words decode), C54 (text) and C40 (length). C62: an independent table of the instruction formats (`Spec/Decoded`)
against each of the decoding functions, composed by a small logic of "takes these words and gives this" (`Gives` in `Lemmas/Decoded`).
C63: the fixed bits of every opcode are checked once over the whole table (`Lemmas/Form`); then each assembler function is run on the operands of C62 (`Lemmas/Reassemble*`). Induction
over the listing.
C64: the exception that a call reports has a rank that no ordinary interrupt has, so that it is added to the pending ones; the next call enters it alone (`Lemmas/Pending`). The return is C27 applied to the frame of a TRAP.
C65: induction over the turns of the loop: the iterator stays in the file, each turn takes at least two bytes, and its line reads back by C54. A program in the file is listed by C61, and two listings from one position agree.
C66: the four word reads of the reset are followed one by one; the rest is an invariant of the memory, carried through whole runs by the simulation of `Lemmas/Alike` of the board with itself.
C67: the processing loop ends or meets a double fault (induction over the pending list); the instruction panics exactly if a word is missing, from the no-panic
predicate of C42 on everything after the extension words.
C68: a memory that panics outside the set leads the second memory: the simulation of `Lemmas/Alike` with no claim once the first memory panics (`Lemmas/Fence`).
C69: induction over the turns of the loop, with the invariant that the first k elements are copied, from C15 (MOVE) and C23 (DBF).
C70: the printed text split at its commas, by induction over the entries, and C37 (the generated table is the decoder). The reader is `Spec/SourceTable`.
C71: induction over the instructions of the program: C26 (entry), the contract of the handler (`Service`, Spec/Interrupt) and C27 (RTE) give back the registers and the bytes of the program, C68 gives the next instruction. The counting handler is verified instruction by instruction (C03, C27).
C72: one turn is computed from the specification of the pair instructions (`pair_once`) and C23; by induction over the counter the loop is a `Repeats` of C05 and C06, whose theorems give the value (Lemmas/BigLoop).
C73: the times of the calls are those of C57; `cycle` and `cycle_until_exception` are unfolded over the list of times (Lemmas/LoopTime); the loops by induction over the counter, with the invariant of C69.
C74: `Model/Usize` has the run methods with counters of a fixed width, checked or wrapping. The time of every instruction is bounded from the formula of C57 and the two tables; the pending exceptions have different priorities, so there are at most 256; induction over the turns shows equality with the methods on natural numbers.
C75: `Spec/Nested` says inductively which executions use the stack in a balanced way. Induction over them, with what C21 says of one call and one return. The recursive subroutine: induction over the depth, one lemma for each of its five instructions.
C76: `Spec/Fault` lists by opcode what is done before the last access. A logic of actions that may fail (`Sound`: keeps the rest whether it fails or not; `Final`: only if it fails; `NoFault`: cannot fail), one lemma for each instruction of the specification that C38 proves equal to the code.
C33 (odd addresses): every instruction by its operand size, its places and its use of the stack, listed in `Spec/OddAddress`.
C77: the callbacks one by one on a buffer that notes accesses outside of it; runs by the simulation of `Lemmas/Alike` with the record of C33, and by C68 with a fence that keeps the one bad access away.
C78: the results of C03, C04, C09 and C12 as one function of operand and source, and the algebra of `BitVec`; memories by the `Ram` laws.
C79: `Spec/Registers` lists the registers an instruction names; every clause of `Spec.exec` and the exception processing commute with replacing the others
(`Lemmas/Others*`), and a program by induction on its calls.
C80: every action keeps the mask below 8 (`Lemmas/Masked`), the system instructions one by one; induction over the history. The pending exceptions are those of C29.
C81: `Spec/Source` has one line for each assembler function and what it does, written from its operands. For each function: C39 (the words decode to the operands), C34 (executing decoded
instructions is executing their words) and the refinement of the disassembling interpreter (`Lemmas/SourceStep`, `Lemmas/SourceCases`). Programs: the words of a line are where the lines before it end
(`Lemmas/SourceProgram`); induction over the executed lines.

C82: the two boards answer alike to the accesses of `plainAccess` (`boards_alike`); with C68, a run behind this fence is the same on both. The boot is computed on both, because the swap of the memory counts words.

C83: each line of the two programs is executed by C81, which gives the state after it; one turn of the loop is the composition of its lines, and the runs are by induction on D1 and on the number of bytes left.

C84: the host is modelled as a schedule, a list of the cores whose `interpreter` is called (`Spec/Cores`); the crate has no concurrency of its own, so a call is not divided. The invariant says which core has the lock (`Locked`, `Lemmas/Cores`), that the lock byte is
0x80 exactly if some core has it, and that a core that has read the counter has it in D0. Each line keeps it (`Locked.turn`); induction over the schedule. Progress is by the number of calls a core still needs (`turnsLeft`).

C85: a core alone runs behind a fence with a gate for reads and a gate for writes (`Owned`, `Spec/Territory`); each call behind the fence is followed by the same call on the shared memory (`owned_call`, from the simulation of C68), which changes only the part of that core;
induction over the schedule.

C86: `Spec/Whole` describes a whole call of the interpreter with the actions of the instruction descriptions only. The parts of the model are shown equal to those of the description one by one (`Lemmas/Whole`): the insertion of a request, the entry of an exception, the reset,
the list of pending exceptions (by induction), the fetch, the decoder (C37, C38) and the instructions (`Lemmas/Refine`). The set of pending exceptions is in order in every history (C29). A session is by induction over the uses.

C87: `Spec/Compile` has the language, its meaning (`Performs`, a big-step relation that does not mention the machine) and the compiler, a function from programs to lines of the assembler. It is a stack machine with jumps by `JMP` to absolute addresses, so that the size of a
program is not limited by branch displacements. The proof is by induction over the expression, the condition, and the derivation of `Performs`, with arbitrary code before and after; the lines are executed by C81. For programs that do not end, a bounded
evaluator that is sound for `Performs` fails with every bound, and each turn of a loop executes at least one line, so that there are executions of every length.

C88: `Spec/Routines` adds procedures and local variables to the language of C87. Its meaning `PerformsIn` has the number of bytes of stack that are used, and `ExceedsIn` says that a given number is too small. The proof is by induction over the derivation of `PerformsIn`,
for every stack pointer and every room: the body of a procedure is executed with four bytes of room less, and the return address above it is kept because it is neither in the room nor a variable. For programs that do not end, a bounded interpreter of the source has the
outcomes done, too small and not known; the depth of the calls is bounded by the stack, so that only loops can go on, and each turn executes at least one line.

C89: composes C88 with the transparency of interrupts (C71). A memory behind the fence of C68 (`Fenced (bytesIn P) M`) is itself an array of bytes, of which only those in `P` exist (`Lemmas/Disturbed`), so the theorems about compiled programs hold of it as they are:
a compiled program accesses only its code, its variables and its stack. A program executed line by line in user mode keeps the system byte and the supervisor stack pointer (C25, whose exception, ORI and EORI to CCR, no compiled line is), so what C71 asks for at every interrupt follows from the
state at the start. What is assumed of the handlers is the contract `Service` of C71; `C89_timer` discharges it for a handler that counts.

C90: `Model/Utils` has the public helpers of `utils.rs` with all their arguments and both kinds of build (with and without overflow checks). The operators are proved on integers for every width; the chains by induction over the digits.

C91: `Spec/Manual.lean` has the timing tables of the User's Manual as literal numbers, without the constants of the crate; the two move tables are given in full. C57 says what is returned in terms of the crate's constants; that
both agree is proved instruction by instruction, for all values of the fields of the opcode (`Lemmas/Manual`). The manual is not part of the repository: that the tables are transcribed correctly is part of the trusted base of C91.

C92: `Model/Bench.lean` has the memories, the setup and the loops of the two benchmarks. The memory of a benchmark and that of the example board answer alike to every access as long as the RAM ends
below the serial port (`Alike`, the same relation as for C66 and C82), so every method of the core does the same on both; the loops by induction on the number of turns.

C93: `Spec/CompileTime.lean` gives the language of C87 a time, by recursion over expressions and conditions and with the rules of the meaning of statements. The simulation proof of C87 is repeated with
exact times (`Lemmas/CompileTime`), by induction on the timed execution of the source. The closed form of the example is by induction on the number of turns. `cycle` and the time slices (`Props/C93Cycle`) by induction on
the executed lines, with the positive times of C36 and the slices of C60. `Spec/RoutinesTime`, `Lemmas/RoutinesTime` and `Props/C93Routines` do the same for the procedures and local
variables of C88. `Props/C93Interrupted` carries the time through the proof of C89: the list of the cycles of the program's own calls does not depend on the exceptions.

C94: `Spec/InterruptTime.lean` adds the cycles of all calls to the runs of C71, and to the assumption about a handler the cycles it takes up to its RTE. The proofs of C71 are repeated with these times, by induction on
the undisturbed run; the entry has its time from C26, RTE from C27 (`C27_resumeTime`), the handler of the timer from C57, a compiled program from C93.

C95: `Spec/Secret.lean` says which programs do not let secret variables into conditions and public variables. That two runs of the source have the same time is by induction on the timed execution of the first
one; C93 carries it to the core.

C96: `Spec/Clock.lean` is the host with the clock: one rule that requests the interrupt when a period is over, one for an instruction when none is. It is deterministic up to the calls it makes while a handler runs. That
the due interrupts are served, and that this ends, is by induction on how far the clock is behind (C94_served for each); the program by induction on its undisturbed run, a compiled one with C93.
Simplified: the host looks at its clock only when no handler runs, not while the interrupt is masked by its own handler.

## Disagreements between the code and the properties

Each is proved by a concrete witness; the rest of the property is proved by the `_partial` theorems.

| Property | What the code does | Theorem |
|---|---|---|
| C08 | DIVS with quotient -32768 is reported as an overflow | C08_divs_refuted |
| C13 | EXT.W takes N and Z from all 32 bits of the register | C13_ext_word_refuted |
| C21 | JSR pushes the return address before it computes its target (the processor computes it first): a target given by A7 is 4 too low | C21_jsr_stackPointer |
| C25, C47 | ORI/EORI to CCR use the whole immediate word: a user program can set S, T and the mask | C25_refuted, C47_ori_ccr_refuted, C47_eori_ccr_refuted |
| C27 | the long MC68000 frames of access and address errors are not undone by RTE (as on the real CPU) | C27_longFrames_refuted |
| C29 | pending exceptions are keyed by priority: a request with the priority of a pending one is dropped | C29_dropped, C29_nothingLost_refuted |
| C34 | on a refused opcode fetch the two interpreters leave different program counters | C34_unreadable_refuted |
| C35 | a call that cannot fetch its opcode returns the cycles of the exceptions that it has processed before; the documentation of `interpreter` says 0 | C35_fetch_refuted |
| C36 | `cycle` need not return: an odd PC and odd SSP make every turn take 0 cycles, and so do TRAPs while an on-chip interrupt is held back, since they are dropped | C36_cycle_refuted, C36_held_refuted |
| C37, C38 | the decoder accepts MOVEM registers to (An)+ and -(An) to registers (32 opcodes) | C37_opcodeMap_refuted, C38_refuted, C38_misfits_execute |
| C39 | static BTST with an immediate operand assembles to an opcode that is no instruction | C39_btstStatic_refuted |
| C39 | adda, suba, cmpa, move and movea do not check the register number of the source | C39_register_refuted |
| C43 | a word read at the last byte of an odd-length `[u8]` panics | C43_odd_length_refuted |
| C60 | `m68000_*_cycle` does not subtract the extra cycles in the next call, as its documentation says | C60_carry_refuted |
| C61 | `Instruction::from_memory` panics if an extension word cannot be read; its documentation promises an error | C61_documented_refuted |
| C63 | Words that were decoded are not always the words assembled (short branches, immediate bytes); opcodes wrongly decoded as MOVEM are refused | C63_exact_refuted, C63_misfit |
| C64 | TRAP, and every other exception of rank 255, is lost while an on-chip interrupt is held back | C64_lost_refuted |
| C65 | The disassembler never ends on a file of 4 GiB, because the 32-bit address wraps | C65_huge_refuted |
| C65 | It panics on a file that ends within an instruction | C65_truncated_refuted |
| C65 | It empties the input file if that is also the output file | C65_overwrite_refuted |
| C43 | a refused long write may have written its high word | C43_long_write_refuted |
| C70 | the generator ignores how much each `write` wrote: a short write leaves a file that is not the table, without an error | C70_shortWrite_refuted |
| C77 | the C example tests only the first address of a long: the long at 0xFFFFE crosses the end of its buffer | C77_read_refuted, C77_write_refuted |
| C80 | `interrupt_mask` is a public `u8`: a host may write 8 or more, and then the unused bits of the status word are set | C80_hostMask_refuted |
| C81 | executing the words of a static BTST with an immediate operand, which the assembler accepts, is an illegal instruction | C81_btst_refuted |
| C90 | `bits(d, 0, 15)` panics with overflow checks and is 0 without | C90_bits_refuted |
| C91 | an instruction that modifies a long in memory takes 4 cycles more than in the manual: the second half of the write is counted twice | C91_excess, C91_refuted |
| C91 | an interrupt with vector 15 or 64 to 255 takes 40 cycles, in the manual 44 | C91_interrupt |
| C91 | the effective address of a CHK or of a division by zero takes no time, contrary to the manual and to the comments of `execute_chk`, `execute_divs`, `execute_divu` and `process_exception` | C91_trap, C91_trap_refuted |

Other behaviours a user should know, proved as stated: a masked interrupt wakes a stopped core (C30_maskedWakes); vectors from 64 are
never masked (C28_userVectors); `cycle` returns the requested count when the core stops (C35_cycle); an odd SSP replaces the exception by an
address error (C26_oddStack); an extension word that cannot be read panics (C42_extensionWord); a string buffer of length 0 underflows
(C50_string_zero); a core restored from its registers stores another opcode word in the frame of an address error at its first fetch (C58_fault);
assembler immediates wider than the size are cut (C39_truncated); the 8-bit and 16-bit forms of a branch have the same
text (C54_forms). The clauses of `Spec/Instr.lean` also record two orders that the code has: MOVEP to a register clears the destination
before its reads can fail, and JSR pushes before it computes its address. When CHK traps it leaves N as
it was, while the manual sets or clears it.

## Wrong programs

`seeded/LOG.jsonl` has one line per edit. Each line says what was edited, how it was built and which theorems were seen to fail:

* `level: model`: a definition of `Verif/Model` was edited and the modules of the claim rebuilt.
* `level: clause`: the clause of `Spec.exec` for an instruction was edited, with the refinement proof (`Lemmas/Refine`) replaced by `sorry`
  in the scratch copy. This is the program with the bug, seen after step 2: it tells whether the property theorem is strong enough by
  itself, since an edit of the model alone is already refused by the refinement proof.

A failing lemma or theorem was replaced by `sorry` in the scratch copy and the build repeated, so that the theorems after it were tried too.
