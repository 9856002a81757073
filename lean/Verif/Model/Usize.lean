import Verif.Model.Run
/-
The run methods with cycle counters of a fixed width: `m68000/src/exception.rs` L174-229 and `m68000/src/interpreter_fast.rs` L18-126 with every `+=` on a `usize` as
the language defines it. `Verif.Model.Run` has the same functions with natural numbers. The additions inside the `execute` and `fast` functions of the instructions, which
add a few constants of the timing table, stay natural numbers.
-/
namespace M68k

/-- The type `usize` of the cycle counts (interpreter.rs L19-20, interpreter_fast.rs L18-67) in a build: its width, and whether the build has overflow checks (debug builds) or wraps (release builds). -/
structure Usize where
  bits : Nat
  checked : Bool

/-- interpreter_fast.rs L18-67, exception.rs L196-228: `a += b` on a `usize` (the Rust reference, "Overflow"): `none` is the panic of a build with overflow checks. -/
def Usize.add (u : Usize) (a b : Nat) : Option Nat :=
  if a + b < 2 ^ u.bits then some (a + b) else if u.checked then none else some ((a + b) % 2 ^ u.bits)

namespace Exec
variable {M : Type} [MemoryAccess M]

/-- exception.rs L196-228: the processing loop of `process_pending_exceptions`, with the addition of L206. -/
def processListU (u : Usize) (C : CpuDetails) : List Exception → Nat → Exec M Nat
  | [], total => return total
  | ex :: rest, total => fun s =>
    if ex.vector = 0 then
      reset C { s with cpu := { s.cpu with exceptions := [] } }
    else
      match processException C ex.vector s with
      | .ok cycles s =>
        match u.add total cycles with
        | some total => processListU u C rest total s
        | none => .panic
      | .err e s =>
        if e = ACCESS_ERROR then
          if ex.vector = ACCESS_ERROR then .panic
          else if ex.isInterrupt then
            processListU u C rest total { s with cpu := s.cpu.exception ⟨24⟩ }
          else
            processListU u C rest total { s with cpu := s.cpu.exception ⟨e⟩ }
        else
          processListU u C rest total { s with cpu := s.cpu.exception ⟨e⟩ }
      | .panic => .panic

/-- exception.rs L174-229: `process_pending_exceptions`. -/
def processPendingExceptionsU (u : Usize) (C : CpuDetails) : Exec M Nat := fun s =>
  let mask := s.cpu.regs.sr.interruptMask
  let toProcess := s.cpu.exceptions.filter (fun ex => !isHeld mask ex)
  let remaining := s.cpu.exceptions.filter (fun ex => !(toProcess.any fun e => e.priority == ex.priority))
  processListU u C toProcess 0 { s with cpu := { s.cpu with exceptions := remaining } }

/-- interpreter_fast.rs L101-103. The addition is to 0. -/
def pendingCyclesU (u : Usize) (C : CpuDetails) : Exec M Nat := fun s =>
  if s.cpu.exceptions.isEmpty then .ok 0 s else processPendingExceptionsU u C s

/-- interpreter_fast.rs L112-125: the execution of an instruction, with the addition of L114. -/
def finishStepU (u : Usize) (isa : Isa) (count : Nat) (x : Exec M Nat) : Exec M (Nat × Option U8) := fun s =>
  let trace := s.cpu.regs.sr.t
  match x s with
  | .ok cycles s' =>
    match u.add count cycles with
    | some count => .ok (count, if trace && !isa.isPrivileged then some 9 else none) s'
    | none => .panic
  | .err e s' => .ok (count, some e) s'
  | .panic => .panic

/-- interpreter_fast.rs L105-125. -/
def fastInstructionU (u : Usize) (C : CpuDetails) (count : Nat) : Exec M (Nat × Option U8) := fun s =>
  match getNextWord s with
  | .ok opcode s1 =>
    let isa := decoder opcode
    finishStepU u isa count (fastExecute C isa) { s1 with cpu := { s1.cpu with currentOpcode := opcode } }
  | .err e s1 => .ok (count, some e) s1
  | .panic => .panic

/-- interpreter_fast.rs L94-126: `interpreter_exception`. -/
def interpreterExceptionU (u : Usize) (C : CpuDetails) : Exec M (Nat × Option U8) := fun s =>
  if s.cpu.stop then .ok (0, none) s
  else (do
    let count ← pendingCyclesU u C
    fastInstructionU u C count) s

/-- interpreter_fast.rs L77-83: `interpreter`. -/
def interpreterU (u : Usize) (C : CpuDetails) : Exec M Nat := do
  let (cycles, exception) ← interpreterExceptionU u C
  raiseOption exception
  return cycles

/-- interpreter_fast.rs L18-30: the loop of `cycle`, for at most `fuel` turns. -/
def cycleLoopU (u : Usize) (C : CpuDetails) (cycles : Nat) : Nat → Nat → St M → LoopRes M Nat
  | 0, total, s => if total < cycles then .running total s else .done total s
  | fuel + 1, total, s =>
    if total < cycles then
      match interpreterU u C s with
      | .ok c s' =>
        match u.add total c with
        | some total => if s'.cpu.stop then .done cycles s' else cycleLoopU u C cycles fuel total s'
        | none => .panic
      | .err _ _ => .panic
      | .panic => .panic
    else .done total s

/-- interpreter_fast.rs L39-52: the loop of `cycle_until_exception`, for at most `fuel` turns. -/
def cycleUntilExceptionLoopU (u : Usize) (C : CpuDetails) (cycles : Nat) : Nat → Nat → St M → LoopRes M (Nat × Option U8)
  | 0, total, s => if total < cycles then .running total s else .done (total, none) s
  | fuel + 1, total, s =>
    if total < cycles then
      match interpreterExceptionU u C s with
      | .ok (c, v) s' =>
        match u.add total c with
        | some total => if v.isSome || s'.cpu.stop then .done (total, v) s' else cycleUntilExceptionLoopU u C cycles fuel total s'
        | none => .panic
      | .err _ _ => .panic
      | .panic => .panic
    else .done (total, none) s

/-- interpreter_fast.rs L58-69: the loop of `loop_until_exception_stop`, for at most `fuel` turns. -/
def loopUntilExceptionStopLoopU (u : Usize) (C : CpuDetails) : Nat → Nat → St M → LoopRes M (Nat × Option U8)
  | 0, total, s => .running total s
  | fuel + 1, total, s =>
    match interpreterExceptionU u C s with
    | .ok (c, v) s' =>
      match u.add total c with
      | some total => if v.isSome || s'.cpu.stop then .done (total, v) s' else loopUntilExceptionStopLoopU u C fuel total s'
      | none => .panic
    | .err _ _ => .panic
    | .panic => .panic

end Exec
end M68k
