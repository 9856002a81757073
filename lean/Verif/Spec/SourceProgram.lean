import Verif.Spec.Source
import Verif.Spec.Exception
/-
Assembly programs: lines whose words are one after the other in memory.
-/
namespace M68k.Spec
variable {M : Type} [MemoryAccess M]

/-- The words of a program: those of its lines, one after the other; `none` if a line does not assemble. -/
def Source.program : List Source → Option (List U16)
  | [] => some []
  | l :: ls => match l.assemble, Source.program ls with
    | some ws, some rest => some (ws ++ rest)
    | _, _ => none

/-- The state after the words `ws` at the program counter have been read, the memory being as before. -/
def afterWords (s : St M) (ws : List U16) : St M :=
  { s with cpu := { s.cpu with currentOpcode := ws.headD 0, regs := { s.cpu.regs with pc := at_ s.cpu.regs.pc (2 * ws.length) } } }

/-- The program is in memory at `a`, the core is running with no pending exception, and the program counter is at the line `l`, whose words are `ws`. -/
structure AtLine [Ram M] (p : List Source) (a : U32) (l : Source) (ws : List U16) (s : St M) : Prop where
  held : ∃ all, Source.program p = some all ∧ HoldsWords s.mem a all
  even : ¬ Odd a
  running : s.cpu.stop = false
  idle : s.cpu.exceptions = []
  words : l.assemble = some ws
  here : ∃ before after ws0, p = before ++ l :: after ∧ Source.program before = some ws0 ∧ s.cpu.regs.pc = at_ a (2 * ws0.length)

/-- The program at `a`, executed line by line: `n` lines, `k` cycles, from `s` to `s'`. Each line is executed where the one before it left the
program counter, takes no exception and is not traced. -/
inductive Executes [Ram M] (C : CpuDetails) (p : List Source) (a : U32) : Nat → Nat → St M → St M → Prop
  | done (s : St M) : Executes C p a 0 0 s s
  | line {n c k : Nat} {l : Source} {ws : List U16} {s s1 s' : St M} : AtLine p a l ws s → (∀ b v, l ≠ .btstStatic b (.imm v)) → s.cpu.regs.sr.t = false →
      l.effect C s.cpu.regs.pc (afterWords s ws) = .ok c s1 → Executes C p a n k s1 s' → Executes C p a (n + 1) (c + k) s s'

/-- `n` calls of `interpreter` one after the other; the result is the sum of what they return. -/
def calls (C : CpuDetails) : Nat → Exec M Nat
  | 0 => pure 0
  | n + 1 => Exec.interpreter C >>= fun c => calls C n >>= fun k => pure (c + k)

end M68k.Spec
