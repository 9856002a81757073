import Verif.Model.Disasm
/-
The public run methods: `m68000/src/interpreter_fast.rs` L11-126 and
`m68000/src/interpreter_disassembler.rs` L11-79.

Cycle counts are natural numbers here; the overflow of the `usize` additions is in `Verif.Model.Usize`. The
disassembled string returned by the disassembling interpreters is in `Verif.Model.TextRun`.
-/
namespace M68k
namespace Exec
variable {M : Type} [MemoryAccess M]

/-- interpreter_fast.rs L112-123 and interpreter_disassembler.rs L65-76: the instruction is executed
and its outcome turned into a cycle count and an exception. -/
def finishStep (isa : Isa) (count : Nat) (x : Exec M Nat) : Exec M (Nat × Option U8) := fun s =>
  let trace := s.cpu.regs.sr.t
  match x s with
  | .ok cycles s' => .ok (count + cycles, if trace && !isa.isPrivileged then some 9 else none) s'
  | .err e s' => .ok (count, some e) s'
  | .panic => .panic

/-- interpreter_fast.rs L101-103 and interpreter_disassembler.rs L52-54: the pending exceptions are
processed if there are some. -/
def pendingCycles (C : CpuDetails) : Exec M Nat := fun s =>
  if s.cpu.exceptions.isEmpty then .ok 0 s else processPendingExceptions C s

/-- interpreter_fast.rs L105-125: fetch, decode and execution of an instruction after `count` cycles
of exception processing. -/
def fastInstruction (C : CpuDetails) (count : Nat) : Exec M (Nat × Option U8) := fun s =>
  match getNextWord s with
  | .ok opcode s1 =>
    let isa := decoder opcode
    finishStep isa count (fastExecute C isa) { s1 with cpu := { s1.cpu with currentOpcode := opcode } }
  | .err e s1 => .ok (count, some e) s1
  | .panic => .panic

/-- interpreter_fast.rs L94-126: `interpreter_exception`. -/
def interpreterException (C : CpuDetails) : Exec M (Nat × Option U8) := fun s =>
  if s.cpu.stop then .ok (0, none) s
  else (do
    let count ← pendingCycles C
    fastInstruction C count) s

/-- The `if let Some(e) = exception { self.exception(..) }` of interpreter_fast.rs L79-81 and
interpreter_disassembler.rs L30-32. -/
def raiseOption : Option U8 → Exec M Unit
  | some e => raise ⟨e⟩
  | none => return ()

/-- interpreter_fast.rs L77-83: `interpreter`. -/
def interpreter (C : CpuDetails) : Exec M Nat := do
  let (cycles, exception) ← interpreterException C
  raiseOption exception
  return cycles

/-- interpreter_disassembler.rs L15-20: `get_next_instruction`. -/
def getNextInstruction : Exec M Instruction := fun s =>
  match Instruction.fromMemory ⟨s.mem, s.cpu.regs.pc⟩ with
  | .ok i it => .ok i { mem := it.mem, cpu := { s.cpu with regs := { s.cpu.regs with pc := it.nextAddr } } }
  | .err e it => .err e { s with mem := it.mem }
  | .panic => .panic

/-- interpreter_disassembler.rs L56-78: fetch, decode and execution of an instruction after `count`
cycles of exception processing. Returns the address, the cycles and the exception. -/
def disassemblerInstruction (C : CpuDetails) (count : Nat) : Exec M (U32 × Nat × Option U8) := fun s =>
  match getNextInstruction s with
  | .ok inst s1 =>
    let isa := decoder inst.opcode
    match finishStep isa count (instructionExecute C isa inst)
        { s1 with cpu := { s1.cpu with currentOpcode := inst.opcode } } with
    | .ok (cycles, e) s2 => .ok (inst.pc, cycles, e) s2
    | .err v s2 => .err v s2
    | .panic => .panic
  | .err e s1 => .ok (0, count, some e) s1
  | .panic => .panic

/-- interpreter_disassembler.rs L45-79: `disassembler_interpreter_exception` (without the string). -/
def disassemblerInterpreterException (C : CpuDetails) : Exec M (U32 × Nat × Option U8) := fun s =>
  if s.cpu.stop then .ok (0, 0, none) s
  else (do
    let count ← pendingCycles C
    disassemblerInstruction C count) s

/-- interpreter_disassembler.rs L28-34: `disassembler_interpreter` (without the string). -/
def disassemblerInterpreter (C : CpuDetails) : Exec M (U32 × Nat) := do
  let (addr, cycles, exception) ← disassemblerInterpreterException C
  raiseOption exception
  return (addr, cycles)

/-- Outcome of at most `fuel` turns of a loop (interpreter_fast.rs L21, L42, L61). -/
inductive LoopRes (M α : Type)
  | done (a : α) (s : St M)
  | panic
  | running (total : Nat) (s : St M)

/-- interpreter_fast.rs L18-30: the loop of `cycle`, for at most `fuel` turns. -/
def cycleLoop (C : CpuDetails) (cycles : Nat) : Nat → Nat → St M → LoopRes M Nat
  | 0, total, s => if total < cycles then .running total s else .done total s
  | fuel + 1, total, s =>
    if total < cycles then
      match interpreter C s with
      | .ok c s' => if s'.cpu.stop then .done cycles s' else cycleLoop C cycles fuel (total + c) s'
      | .err _ _ => .panic
      | .panic => .panic
    else .done total s

/-- interpreter_fast.rs L39-52: the loop of `cycle_until_exception`, for at most `fuel` turns. -/
def cycleUntilExceptionLoop (C : CpuDetails) (cycles : Nat) : Nat → Nat → St M → LoopRes M (Nat × Option U8)
  | 0, total, s => if total < cycles then .running total s else .done (total, none) s
  | fuel + 1, total, s =>
    if total < cycles then
      match interpreterException C s with
      | .ok (c, v) s' =>
        if v.isSome || s'.cpu.stop then .done (total + c, v) s'
        else cycleUntilExceptionLoop C cycles fuel (total + c) s'
      | .err _ _ => .panic
      | .panic => .panic
    else .done (total, none) s

/-- interpreter_fast.rs L58-69: the loop of `loop_until_exception_stop`, for at most `fuel` turns. -/
def loopUntilExceptionStopLoop (C : CpuDetails) : Nat → Nat → St M → LoopRes M (Nat × Option U8)
  | 0, total, s => .running total s
  | fuel + 1, total, s =>
    match interpreterException C s with
    | .ok (c, v) s' =>
      if v.isSome || s'.cpu.stop then .done (total + c, v) s'
      else loopUntilExceptionStopLoop C fuel (total + c) s'
    | .err _ _ => .panic
    | .panic => .panic

end Exec
end M68k
