import Verif.Spec.InterruptTime
/-
A host with a clock (C96).
-/
namespace M68k.Spec
open M68k.Exec
variable {M : Type} [MemoryAccess M]

/-- A host counts the cycles that the calls of `interpreter_exception` return. As soon as another period of `T` cycles is over it requests the exception `v`, and calls the core until the handler
has returned to the program. Otherwise it lets the program execute its next instruction. `N` exceptions have been requested, and `x` cycles counted. The list has the cycles of the calls that
execute the instructions of the program, the last one first. -/
inductive ClockRun (C : CpuDetails) (v : U8) (T : Nat) : List Nat → Nat → Nat → St M → St M → Prop
  | none (s : St M) : ClockRun C v T [] 0 0 s s
  | tick {cs : List Nat} {N x k y : Nat} {s t t' : St M} : ClockRun C v T cs N x s t → (N + 1) * T ≤ x → QuietCallsIn C (k + 1) y { t with cpu := t.cpu.exception ⟨v⟩ } t' →
      t'.cpu.regs = t.cpu.regs → ClockRun C v T cs (N + 1) (x + y) s t'
  | step {cs : List Nat} {N x c : Nat} {s t t' : St M} : ClockRun C v T cs N x s t → x < (N + 1) * T → interpreterException C t = .ok (c, .none) t' →
      ClockRun C v T (c :: cs) N (x + c) s t'

end M68k.Spec
