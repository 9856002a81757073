import Verif.Spec.Interrupt
/-
The time of programs that are interrupted (C94): the relations of Spec/Interrupt.lean with the cycles of all calls.
-/
namespace M68k.Spec
open M68k.Exec
variable {M : Type} [MemoryAccess M]

/-- `k` consecutive calls of `interpreter_exception`, none of which reports an exception, and which return `x` cycles, taken together. -/
inductive QuietCallsIn (C : CpuDetails) : Nat → Nat → St M → St M → Prop
  | none (s : St M) : QuietCallsIn C 0 0 s s
  | more {k x c : Nat} {s s' s'' : St M} : QuietCallsIn C k x s s' → interpreterException C s' = .ok (c, .none) s'' → QuietCallsIn C (k + 1) (x + c) s s''

/-- The exceptions of a list are requested one after the other, the next one when some calls have been made since the last one. All these calls take `x` cycles. -/
inductive InterludeIn (C : CpuDetails) : List U8 → Nat → St M → St M → Prop
  | none (s : St M) : InterludeIn C [] 0 s s
  | more {v : U8} {vs : List U8} {k x y : Nat} {s t s' : St M} : QuietCallsIn C (k + 1) x { s with cpu := s.cpu.exception ⟨v⟩ } t → InterludeIn C vs y t s' →
    InterludeIn C (v :: vs) (x + y) s s'

/-- A program, the exceptions `σ k` being requested before its instruction number `k`. The elements of the list are the cycles of the calls that execute the instructions of the program; all
calls, those that serve the exceptions included, take `x` cycles. -/
inductive InterruptedIn (C : CpuDetails) (σ : Nat → List U8) : List Nat → Nat → St M → St M → Prop
  | none (s : St M) : InterruptedIn C σ [] 0 s s
  | more {cs : List Nat} {x y c : Nat} {s t t1 t2 : St M} : InterruptedIn C σ cs x s t → InterludeIn C (σ cs.length) y t t1 → interpreterException C t1 = .ok (c, .none) t2 →
    InterruptedIn C σ (c :: cs) (x + y + c) s t2

/-- The handler of the exception `v` takes `d` cycles from its entry to its RTE, which is not included. -/
structure ServiceIn [Ram M] (C : CpuDetails) (P F : U32 → Bool) (depth : Nat) (I : List U8 → M → Prop) (v : U8) (d : Nat) : Prop extends Service C P F depth I v where
  timed : ∀ (l : List U8) (s e : St M), I l s.mem → s.cpu.stop = false → s.cpu.exceptions = [] → StackIn F depth s → Entered C v s e →
    ∃ k f, QuietCallsIn C k d e f ∧ Restored C P v e f ∧ I (l ++ [v]) f.mem

/-- The time of an exception whose handler takes `d v` cycles: exception processing, handler and RTE. -/
def serviceTime (C : CpuDetails) (d : U8 → Nat) (v : U8) : Nat := C.vectorExecutionTime v + d v + C.RTE

end M68k.Spec
