import Verif.Model.Text
import Verif.Model.Run
import Verif.Model.Ffi
/-
The disassembling interpreters with the text they return, in Rust (`m68000/src/interpreter_disassembler.rs` L28-79) and in the C
interface (`m68000-ffi/src/lib.rs` L333-390). `Model/Run.lean` has the same functions without the text.
-/
namespace M68k
namespace Exec
variable {M : Type} [MemoryAccess M]

/-- interpreter_disassembler.rs L56-78: fetch, decode, disassembly and execution of an instruction after `count` cycles of exception
processing. Returns the address, the text, the cycles and the exception. -/
def disassemblerInstructionText (C : CpuDetails) (count : Nat) : Exec M (U32 × Text × Nat × Option U8) := fun s =>
  match getNextInstruction s with
  | .ok inst s1 =>
    let isa := decoder inst.opcode
    match inst.disassemble with
    | none => .panic
    | some dis =>
      match finishStep isa count (instructionExecute C isa inst)
          { s1 with cpu := { s1.cpu with currentOpcode := inst.opcode } } with
      | .ok (cycles, e) s2 => .ok (inst.pc, dis, cycles, e) s2
      | .err v s2 => .err v s2
      | .panic => .panic
  | .err e s1 => .ok (0, [], count, some e) s1
  | .panic => .panic

/-- interpreter_disassembler.rs L45-79: `disassembler_interpreter_exception`. -/
def disassemblerInterpreterExceptionText (C : CpuDetails) : Exec M (U32 × Text × Nat × Option U8) := fun s =>
  if s.cpu.stop then .ok (0, [], 0, none) s
  else (do
    let count ← pendingCycles C
    disassemblerInstructionText C count) s

/-- interpreter_disassembler.rs L28-34: `disassembler_interpreter`. -/
def disassemblerInterpreterText (C : CpuDetails) : Exec M (U32 × Text × Nat) := do
  let (addr, dis, cycles, exception) ← disassemblerInterpreterExceptionText C
  raiseOption exception
  return (addr, dis, cycles)

end Exec

/-- The bytes of a Rust `String` (m68000-ffi/src/lib.rs L340-350, L370-380). One byte for each character: this is UTF-8 for the characters below 128. -/
def Text.bytes (t : Text) : List U8 := t.map fun c => BitVec.ofNat 8 c.toNat

/-- m68000-ffi/src/lib.rs L338-358: `m68000_*_disassembler_interpreter`; the result is the address, the cycles and the buffer `str`
after the call. A panic or an access outside of the buffer is a `panic`. -/
def ffiDisassemblerInterpreter {U : Type} (C : CpuDetails) (buf : List U8) (len : Nat) : Exec (FfiMemory U) (U32 × Nat × List U8) := do
  let (pc, dis, cycles) ← Exec.disassemblerInterpreterText C
  match copyDisassembly buf len dis.bytes with
  | some buf => return (pc, cycles, buf)
  | none => fun _ => .panic

/-- m68000-ffi/src/lib.rs L368-389: `m68000_*_disassembler_interpreter_exception`; as above, with the vector of the exception, or 0. -/
def ffiDisassemblerInterpreterException {U : Type} (C : CpuDetails) (buf : List U8) (len : Nat) : Exec (FfiMemory U) (U32 × Nat × U8 × List U8) := do
  let (pc, dis, cycles, vector) ← Exec.disassemblerInterpreterExceptionText C
  match copyDisassembly buf len dis.bytes with
  | some buf => return (pc, cycles, ffiException vector, buf)
  | none => fun _ => .panic

end M68k
