import Verif.Spec.Machine
import Verif.Model.Run
/-
When two memory systems behave alike for the processor. Used to state what the processor may and may
not depend on.
-/
namespace M68k.Spec
open M68k.Exec
variable {M N : Type} {α : Type}

/-- Two outcomes of a memory method: same kind, same value, related memories. -/
def SameOutcome (R : M → N → Prop) : MRes M α → MRes N α → Prop
  | .val a m, .val b n => a = b ∧ R m n
  | .none m, .none n => R m n
  | .panic, .panic => True
  | _, _ => False

/-- Related memories answer alike to byte accesses, to word and long accesses **at even addresses**
and to the RESET instruction. Nothing is said about word and long accesses at odd addresses. -/
structure Alike [MemoryAccess M] [MemoryAccess N] (R : M → N → Prop) : Prop where
  getByte : ∀ m n a, R m n → SameOutcome R (MemoryAccess.getByte a m) (MemoryAccess.getByte a n)
  getWord : ∀ m n a, R m n → ¬ Odd a → SameOutcome R (MemoryAccess.getWord a m) (MemoryAccess.getWord a n)
  getLong : ∀ m n a, R m n → ¬ Odd a → SameOutcome R (MemoryAccess.getLong a m) (MemoryAccess.getLong a n)
  setByte : ∀ m n a v, R m n → SameOutcome R (MemoryAccess.setByte a v m) (MemoryAccess.setByte a v n)
  setWord : ∀ m n a v, R m n → ¬ Odd a → SameOutcome R (MemoryAccess.setWord a v m) (MemoryAccess.setWord a v n)
  setLong : ∀ m n a v, R m n → ¬ Odd a → SameOutcome R (MemoryAccess.setLong a v m) (MemoryAccess.setLong a v n)
  resetInstruction : ∀ m n, R m n → R (MemoryAccess.resetInstruction m) (MemoryAccess.resetInstruction n)

/-- The same processor state with related memories. -/
def SameState (R : M → N → Prop) (s : St M) (t : St N) : Prop := s.cpu = t.cpu ∧ R s.mem t.mem

/-- Two outcomes of a method of the core: same kind, same result, same processor state, related
memories. -/
def SameResult (R : M → N → Prop) : Res M α → Res N α → Prop
  | .ok a s, .ok b t => a = b ∧ SameState R s t
  | .err v s, .err w t => v = w ∧ SameState R s t
  | .panic, .panic => True
  | _, _ => False

/-- The same for the run loops. -/
def SameLoop (R : M → N → Prop) : LoopRes M α → LoopRes N α → Prop
  | .done a s, .done b t => a = b ∧ SameState R s t
  | .running k s, .running l t => k = l ∧ SameState R s t
  | .panic, .panic => True
  | _, _ => False

end M68k.Spec

namespace M68k.Spec
open M68k.Exec
variable {M : Type}

/-- A memory system that records the size and the address of every access to `M`. -/
structure Recorded (M : Type) where
  mem : M
  log : List (Size × U32)

/-- Adds an access to the record. -/
def Recorded.note {α : Type} (r : Recorded M) (sz : Size) (a : U32) : MRes M α → MRes (Recorded M) α
  | .val x m => .val x ⟨m, (sz, a) :: r.log⟩
  | .none m => .none ⟨m, (sz, a) :: r.log⟩
  | .panic => .panic

instance [MemoryAccess M] : MemoryAccess (Recorded M) where
  getByte a r := r.note .Byte a (MemoryAccess.getByte a r.mem)
  getWord a r := r.note .Word a (MemoryAccess.getWord a r.mem)
  getLong a r := r.note .Long a (MemoryAccess.getLong a r.mem)
  setByte a v r := r.note .Byte a (MemoryAccess.setByte a v r.mem)
  setWord a v r := r.note .Word a (MemoryAccess.setWord a v r.mem)
  setLong a v r := r.note .Long a (MemoryAccess.setLong a v r.mem)
  resetInstruction r := ⟨MemoryAccess.resetInstruction r.mem, r.log⟩

/-- What a host can do: call `interpreter_exception` again and again, and in between change the
processor as it likes (registers, pending exceptions, stop state). `interpreter` is a call of
`interpreter_exception` followed by such a change; the other run methods repeat these calls. -/
inductive Runs [MemoryAccess M] (C : CpuDetails) : St M → St M → Prop
  | start (s : St M) : Runs C s s
  | call {s s' s'' : St M} {x : Nat × Option U8} : Runs C s s' → interpreterException C s' = .ok x s'' → Runs C s s''
  | host {s s' : St M} (cpu : Cpu) : Runs C s s' → Runs C s { s' with cpu := cpu }

end M68k.Spec
