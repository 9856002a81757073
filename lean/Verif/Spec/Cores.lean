import Verif.Spec.Programs
/-
Several cores that share a memory, and a spin lock made with TAS (C84, C85).
-/
namespace M68k.Spec
variable {ι M : Type} [MemoryAccess M]

/-- Cores that are given the same memory by the host. -/
structure Cores (ι M : Type) where
  core : ι → Cpu
  mem : M

/-- The core `i` seen with the memory. -/
def Cores.view (w : Cores ι M) (i : ι) : St M := ⟨w.core i, w.mem⟩

/-- The host calls `interpreter` of the core `i`; `none` if this panics. -/
def turn [DecidableEq ι] (C : ι → CpuDetails) (i : ι) (w : Cores ι M) : Option (Cores ι M) :=
  match Exec.interpreter (C i) (w.view i) with
  | .ok _ s => some ⟨fun j => if j = i then s.cpu else w.core j, s.mem⟩
  | _ => none

/-- The host calls `interpreter` of the cores in the order of the schedule. -/
def runTurns [DecidableEq ι] (C : ι → CpuDetails) : List ι → Cores ι M → Option (Cores ι M)
  | [], w => some w
  | i :: is, w => (turn C i w).bind (runTurns C is)

/-- The host calls `interpreter` of the cores in the order of the schedule. The number is how many of the calls found the core at the address `p`. -/
def schedule [DecidableEq ι] (C : ι → CpuDetails) (p : U32) : List ι → Cores ι M → Option (Nat × Cores ι M)
  | [], w => some (0, w)
  | i :: is, w => (turn C i w).bind fun w' => (schedule C p is w').map fun (n, w'') => (if (w.core i).regs.pc = p then n + 1 else n, w'')

/-- A counter of which every core increments its own copy and writes it back, within a lock:
```
enter: TAS    (A0)
       BMI    enter
       MOVE.W (A1),D0
       ADDQ.W #1,D0
       MOVE.W D0,(A1)
       CLR.B  (A0)
       BRA    enter
``` -/
def lockProgram : List Source :=
  [.tas (.ind 0), .bcc .MI 0xFFFC, .move .Word (.dn 0) (.ind 1), .addq .Word 1 (.dn 0), .move .Word (.ind 1) (.dn 0), .clr .Byte (.ind 0), .bra 0xFFF2]

/-- The cores are about to enter the program at `a`: the lock, the byte at `l`, is free; the counter, the word at `k`, is `v`; neither is in the program or in the other. -/
structure LockStart [Ram M] (a l k : U32) (v : U16) (w : Cores ι M) : Prop where
  loaded : ∀ i, Loaded lockProgram a 0 (w.view i)
  lock : ∀ i, (w.core i).regs.a 0 = l
  counter : ∀ i, (w.core i).regs.a 1 = k
  free : Ram.peek w.mem l = some 0
  value : Holds (sz := .Word) w.mem k v
  even : ¬ Odd k
  lockApart : ∀ j < 14, l ≠ at_ a j
  counterApart : ∀ i < 2, ∀ j < 14, at_ k i ≠ at_ a j
  lockCounter : ∀ i < 2, l ≠ at_ k i

/-- The core is between taking the lock and giving it back: at one of the four lines after the branch. -/
def HasLock (a : U32) (c : Cpu) : Prop := ∃ j, 2 ≤ j ∧ j ≤ 5 ∧ c.regs.pc = at_ a (2 * j)

end M68k.Spec
