import Verif.Spec.Length
import Verif.Spec.Exception
/-
The three situations in which a call of `interpreter_exception` panics on a memory whose methods do not (C67).
-/
namespace M68k.Spec
open M68k.Exec
variable {M : Type} [MemoryAccess M]

/-- The memory refuses one of the two reads of a reset, the long words at 0 and 4. -/
def ResetRefused (m : M) : Prop :=
  (∃ m1, MemoryAccess.getLong 0 m = .none m1) ∨ ∃ ssp m1 m2, MemoryAccess.getLong 0 m = .val ssp m1 ∧ MemoryAccess.getLong 4 m1 = .none m2

/-- The processing of the exceptions of a list, none of them a reset, one after the other from `s` to `t`. An exception whose entry fails leaves another one pending:
the one that the entry met, or the spurious interrupt (24) if it is the access error of an interrupt. -/
inductive Attempted (C : CpuDetails) : List Exception → St M → St M → Prop
  | nil (s : St M) : Attempted C [] s s
  | entered {e : Exception} {es : List Exception} {n : Nat} {s t u : St M} :
    e.vector ≠ 0 → processException C e.vector s = .ok n t → Attempted C es t u → Attempted C (e :: es) s u
  | failed {e : Exception} {es : List Exception} {v : U8} {s t u : St M} :
    e.vector ≠ 0 → processException C e.vector s = .err v t → ¬ (v = 2 ∧ e.vector = 2) →
    Attempted C es { t with cpu := t.cpu.exception ⟨if v = 2 ∧ e.isInterrupt = true then 24 else v⟩ } u → Attempted C (e :: es) s u

/-- The pending exceptions of `s` that a call processes, and those it leaves. -/
def taken (s : St M) : List Exception := s.cpu.exceptions.filter fun e => !isHeld s.cpu.regs.sr.interruptMask e
/-- The state without the exceptions that the call processes. -/
def untaken (s : St M) : St M := s.withPending (s.cpu.exceptions.filter fun e => isHeld s.cpu.regs.sr.interruptMask e)

/-- The entry of a pending access error meets another access error. -/
def DoubleFault (C : CpuDetails) (s : St M) : Prop :=
  ∃ es es' t t', taken s = es ++ ⟨2⟩ :: es' ∧ Attempted C es (untaken s) t ∧ processException C 2 t = .err 2 t'

end M68k.Spec
