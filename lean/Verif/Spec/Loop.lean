import Verif.Spec.Step
/-
The run loops.
-/
namespace M68k.Spec
open M68k.Exec
variable {M : Type} [MemoryAccess M]

/-- A loop, given as its outcome after at most so many turns, returns `r` and leaves the state `s'`. -/
def Returns {M α : Type} (loop : Nat → LoopRes M α) (r : α) (s' : St M) : Prop := ∃ turns, loop turns = .done r s'

/-- `cycle(n)`. -/
def cycle (C : CpuDetails) (n : Nat) (s : St M) (turns : Nat) : LoopRes M Nat := cycleLoop C n turns 0 s
/-- `cycle_until_exception(n)`. -/
def cycleUntilException (C : CpuDetails) (n : Nat) (s : St M) (turns : Nat) : LoopRes M (Nat × Option U8) := cycleUntilExceptionLoop C n turns 0 s
/-- `loop_until_exception_stop()`. -/
def loopUntilExceptionStop (C : CpuDetails) (s : St M) (turns : Nat) : LoopRes M (Nat × Option U8) := loopUntilExceptionStopLoop C turns 0 s

/-- Consecutive calls of `interpreter` and the cycles they return. -/
inductive Ran (C : CpuDetails) : List Nat → St M → St M → Prop
  | nil (s : St M) : Ran C [] s s
  | cons {s t s' : St M} {c : Nat} {cs : List Nat} : interpreter C s = .ok c t → Ran C cs t s' → Ran C (c :: cs) s s'

/-- Consecutive calls of `interpreter_exception` that return no exception and do not stop the core, and the cycles they return. -/
inductive Quiet (C : CpuDetails) : List Nat → St M → St M → Prop
  | nil (s : St M) : Quiet C [] s s
  | cons {s t s' : St M} {c : Nat} {cs : List Nat} : interpreterException C s = .ok (c, none) t → t.cpu.stop = false → Quiet C cs t s' → Quiet C (c :: cs) s s'

/-- The calls take the time `cs`; before each of them less than `n` had passed. -/
def Before (n : Nat) (cs : List Nat) : Prop := ∀ k < cs.length, (cs.take k).sum < n

end M68k.Spec
