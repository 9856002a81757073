import Verif.Spec.Step
import Verif.Spec.Exception
import Verif.Spec.Loop
/-
What a host can save of a core: the registers and the stop flag are public, and it knows the exceptions it has requested. The opcode of the last instruction is not
accessible.
-/
namespace M68k.Spec
open M68k.Exec
variable {M : Type} [MemoryAccess M]

/-- The core with another last opcode; everything a host can see is the same. -/
def _root_.M68k.St.withOpcode {M : Type} (s : St M) (w : U16) : St M := { s with cpu := { s.cpu with currentOpcode := w } }

/-- A core made with `new_no_reset` that has got the registers and the stop flag of another, with the memory of the latter. -/
def restored {M : Type} (s : St M) : St M := ⟨{ Cpu.newNoReset with regs := s.cpu.regs, stop := s.cpu.stop }, s.mem⟩

/-- The results of two calls are the same as far as a host can see. -/
def SameToHost {α : Type} : Res M α → Res M α → Prop
  | .ok x s, .ok y t => x = y ∧ ∃ w, t = s.withOpcode w
  | .err x s, .err y t => x = y ∧ ∃ w, t = s.withOpcode w
  | .panic, .panic => True
  | _, _ => False

/-- No address error or access error is pending: their frames have a field for the opcode. -/
def NoFaultPending (s : St M) : Prop := ∀ e ∈ s.cpu.exceptions, e.vector ≠ 2 ∧ e.vector ≠ 3

end M68k.Spec
