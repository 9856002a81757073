import Verif.Spec.Exception
import Verif.Spec.Fence
/-
Programs that are interrupted (C71).
-/
namespace M68k.Spec
open M68k.Exec
variable {M : Type} [MemoryAccess M]

/-- `k` consecutive calls of `interpreter_exception`, none of which reports an exception. -/
inductive QuietCalls (C : CpuDetails) : Nat → St M → St M → Prop
  | none (s : St M) : QuietCalls C 0 s s
  | more {k c : Nat} {s s' s'' : St M} : QuietCalls C k s s' → interpreterException C s' = .ok (c, .none) s'' → QuietCalls C (k + 1) s s''

/-- A program that runs undisturbed: one call of `interpreter_exception` for each element of the list, none of which finds the core stopped or reports an
exception. The elements are the cycles of the calls, the last call first. -/
inductive Undisturbed (C : CpuDetails) : List Nat → St M → St M → Prop
  | none (s : St M) : Undisturbed C [] s s
  | more {cs : List Nat} {c : Nat} {s s' s'' : St M} : Undisturbed C cs s s' → s'.cpu.stop = false → interpreterException C s' = .ok (c, .none) s'' →
    Undisturbed C (c :: cs) s s''

/-- The exceptions of a list are requested one after the other, the next one when some calls have been made since the last one. -/
inductive Interlude (C : CpuDetails) : List U8 → St M → St M → Prop
  | none (s : St M) : Interlude C [] s s
  | more {v : U8} {vs : List U8} {k : Nat} {s t s' : St M} : QuietCalls C (k + 1) { s with cpu := s.cpu.exception ⟨v⟩ } t → Interlude C vs t s' →
    Interlude C (v :: vs) s s'

/-- The same program, the exceptions `σ k` being requested before its instruction number `k`. The elements of the list are the cycles of the calls that execute
the instructions of the program. -/
inductive Interrupted (C : CpuDetails) (σ : Nat → List U8) : List Nat → St M → St M → Prop
  | none (s : St M) : Interrupted C σ [] s s
  | more {cs : List Nat} {c : Nat} {s t t1 t2 : St M} : Interrupted C σ cs s t → Interlude C (σ cs.length) t t1 → interpreterException C t1 = .ok (c, .none) t2 →
    Interrupted C σ (c :: cs) s t2

/-- The exceptions requested before the instructions `0`, .., `n - 1`. -/
def requested (σ : Nat → List U8) : Nat → List U8
  | 0 => []
  | n + 1 => requested σ n ++ σ n

/-- The supervisor stack pointer is even, and the `depth` bytes below it are in the region `F`. -/
def StackIn (F : U32 → Bool) (depth : Nat) (s : St M) : Prop :=
  ¬ Odd s.cpu.regs.ssp ∧ ∀ k < depth, F (at_ (s.cpu.regs.ssp - BitVec.ofNat 32 depth) k) = true

/-- The core in the state `f` is about to execute RTE at the end of a handler that was entered in the state `e`. The handler has restored the data and address
registers and both stack pointers, and it has neither changed the frame nor the bytes of `P`. -/
structure Restored [Ram M] (C : CpuDetails) (P : U32 → Bool) (v : U8) (e f : St M) : Prop where
  rte : ∃ f1, Ready f 0x4E73 f1
  supervisor : f.cpu.regs.sr.s = true
  regs : f.cpu.regs = { e.cpu.regs with pc := f.cpu.regs.pc, sr := f.cpu.regs.sr }
  frame : ∀ k < frameBytes C.STACK_FORMAT v, Ram.peek f.mem (at_ e.cpu.regs.ssp k) = Ram.peek e.mem (at_ e.cpu.regs.ssp k)
  kept : ∀ a, P a = true → Ram.peek f.mem a = Ram.peek e.mem a

/-- The machine serves the exception `v`, if the program is in `P`. The exception is not reset, and not one of those with a long frame. `F` is where the
supervisor stack is, `I l m` says how the rest of the memory is when the exceptions `l` have been served: the vector, the code of the handler and what it
works on. Entered in such a memory, the handler comes to its RTE, and has restored what it has changed. -/
structure Service [Ram M] (C : CpuDetails) (P F : U32 → Bool) (depth : Nat) (I : List U8 → M → Prop) (v : U8) : Prop where
  notReset : v ≠ 0
  short : ¬ LongFrame v
  deep : frameBytes C.STACK_FORMAT v ≤ depth
  apart : ∀ a, F a = true → P a = false
  stack : ∀ l m a, I l m → F a = true → (Ram.peek m a).isSome
  vector : ∀ l m, I l m → Present m (vectorAddress v) 4
  handles : ∀ (l : List U8) (s e : St M), I l s.mem → s.cpu.stop = false → s.cpu.exceptions = [] → StackIn F depth s → Entered C v s e →
    ∃ k f, QuietCalls C k e f ∧ Restored C P v e f ∧ I (l ++ [v]) f.mem

end M68k.Spec
