import Verif.Spec.Isa
import Verif.Spec.OpcodeMap
import Verif.Model.Run
/-
How the properties speak about one call of `interpreter_exception` (`Exec.interpreterException`).
-/
namespace M68k.Spec
open M68k.Exec
variable {M : Type} [MemoryAccess M]

/-- The state with changed registers. -/
def _root_.M68k.St.withRegs {M : Type} (s : St M) (f : Registers → Registers) : St M :=
  { s with cpu := { s.cpu with regs := f s.cpu.regs } }

/-- The core in state `s` is about to execute the opcode `op`: it is neither stopped nor has a pending
exception, and the word at the even program counter can be read and is `op`. `s1` is the state after
this read: the program counter is 2 further. -/
structure Ready (s : St M) (op : U16) (s1 : St M) : Prop where
  running : s.cpu.stop = false
  idle : s.cpu.exceptions = []
  even : ¬ Odd s.cpu.regs.pc
  opcode : ∃ m, MemoryAccess.getWord s.cpu.regs.pc s.mem = .val op m ∧
    s1 = { mem := m, cpu := { s.cpu with currentOpcode := op, regs := { s.cpu.regs with pc := s.cpu.regs.pc + 2 } } }

/-- The exception reported after an instruction that completes: trace if T was set before it. -/
def traced (s : St M) : Option U8 := if s.cpu.regs.sr.t then some 9 else none

/-- One call of `interpreter_exception` executes an instruction to its end and leaves the state `s'`. -/
def Completes (C : CpuDetails) (s s' : St M) : Prop :=
  ∃ cycles, interpreterException C s = .ok (cycles, traced s) s'

/-- As `Completes`, for the privileged instructions: they are not traced. -/
def CompletesPrivileged (C : CpuDetails) (s s' : St M) : Prop :=
  ∃ cycles, interpreterException C s = .ok (cycles, none) s'

/-- One call of `interpreter_exception` ends with exception `vector`, 0 cycles and the state `s'`. -/
def Raises (C : CpuDetails) (s : St M) (vector : U8) (s' : St M) : Prop :=
  interpreterException C s = .ok (0, some vector) s'

/-- One call of `interpreter_exception` ends as the last action `r` of the instruction: it completes
if the action succeeds, raises the exception of the action if it fails, and panics with it. -/
def EndsWith {α : Type} (C : CpuDetails) (s : St M) (r : Res M α) : Prop :=
  match r with
  | .ok _ s' => Completes C s s'
  | .err v s' => Raises C s v s'
  | .panic => interpreterException C s = .panic

/-- The operand of the effective address field of `op`: fetches its extension words, evaluates the
effective address and reads the operand. -/
def operand (sz : Size) (op : U16) : Exec M (Place × Val sz) := do
  let m ← fetchEa (some sz) op
  read sz m

/-- The size in bits 7-6 of an opcode. -/
def opSize (op : U16) : Option Size :=
  match op.toNat / 64 % 4 with
  | 0 => some .Byte
  | 1 => some .Word
  | 2 => some .Long
  | _ => none

end M68k.Spec
