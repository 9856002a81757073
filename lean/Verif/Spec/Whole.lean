import Verif.Spec.Exception
/-
The whole machine: a description of one call of the interpreter from the state of the core and the memory, written with the actions of Spec/Machine.lean,
Spec/Instr.lean and Spec/Isa.lean only, and of what a host does with a core. No definition of the model occurs in it but the types of the states and results.
-/
namespace M68k.Spec
open M68k.Exec
variable {M : Type} [MemoryAccess M]

/-! ### Requests -/

/-- Requests of a reset, of a trace and of an interrupt wake a stopped core. -/
def Wakes (v : U8) : Prop := v = 0 ∨ v = 9 ∨ InterruptVector v
instance (v : U8) : Decidable (Wakes v) := inferInstanceAs (Decidable (_ ∨ _))

/-- The pending exceptions after the request of `v`: nothing changes if one of the same rank is pending, otherwise it takes its place in the order of the ranks,
the least rank last. -/
def queue (v : U8) (es : List Exception) : List Exception :=
  if ∃ e ∈ es, rank e.vector = rank v then es
  else (es.takeWhile fun e => rank v < rank e.vector) ++ ⟨v⟩ :: es.dropWhile fun e => rank v < rank e.vector

/-- Exception `v` is requested. -/
def request (v : U8) : Exec M Unit := fun s =>
  .ok () { s with cpu := { s.cpu with stop := if Wakes v then false else s.cpu.stop, exceptions := queue v s.cpu.exceptions } }

/-- The pending exceptions have different ranks, the least rank is last. -/
def Ordered (s : St M) : Prop := s.cpu.exceptions.Pairwise fun a b => rank b.vector < rank a.vector

/-! ### Exceptions -/

/-- The outcome of an action as a value: its result or the exception it ends with. -/
def attempt {α : Type} (x : Exec M α) : Exec M (Except U8 α) := fun s =>
  match x s with
  | .ok a s' => .ok (.ok a) s'
  | .err e s' => .ok (.error e) s'
  | .panic => .panic

/-- Nothing is pending. -/
def discard : Exec M Unit := fun s => .ok () (s.withPending [])
/-- The core is not stopped. -/
def wake : Exec M Unit := fun s => .ok () { s with cpu := { s.cpu with stop := false } }
/-- The opcode that frames of access and address errors show. -/
def setOpcode (op : U16) : Exec M Unit := fun s => .ok () { s with cpu := { s.cpu with currentOpcode := op } }

/-- The reset: the stack pointer is read at 0 and the program counter at 4, the mode is supervisor without trace, all interrupts below level 7 are masked. The
emulator panics if the memory has no vectors. -/
def restart (C : CpuDetails) : Exec M Nat := do
  match ← attempt (load .Long 0) with
  | .error _ => crash
  | .ok sp =>
    match ← attempt (load .Long 4) with
    | .error _ => crash
    | .ok pc =>
      modR fun r => { r with ssp := sp, pc := pc, sr := { r.sr with t := false, s := true, interruptMask := 7 } }
      wake
      pure C.VECTOR_RESET

/-- One push of an exception frame. -/
inductive Push
  | word (w : U16)
  | long (l : U32)

/-- Pushes the parts of a frame, the first of the list first. -/
def pushAll : List Push → Exec M Unit
  | [] => pure ()
  | .word w :: ps => do push .Word w; pushAll ps
  | .long l :: ps => do push .Long l; pushAll ps

/-- The pushes that make the frame of exception `v` (`Spec.frame`), in the order in which the memory sees them. -/
def pushes (format : StackFormat) (v : U8) (sr : U16) (pc : U32) (opcode : U16) : List Push :=
  match format with
  | .MC68000 => [.long pc, .word sr] ++ if LongFrame v then [.word opcode, .long 0, .word 0] else []
  | .SCC68070 =>
    (if LongFrame v then [.word 0, .word opcode, .word opcode, .long 0, .long 0, .long 0, .word 0, .word 0, .word 0, .word 0, .word (BitVec.ofNat 16 (0xF000 + 4 * v.toNat))]
      else [.word (BitVec.ofNat 16 (4 * v.toNat))]) ++ [.long pc, .word sr]

/-- The entry of exception `v`: supervisor mode, the frame, and a jump to the address in the vector. -/
def entry (C : CpuDetails) (v : U8) : Exec M Nat := fun s => (do
  setFlags (entrySr v)
  pushAll (pushes C.STACK_FORMAT v (srWord s.cpu.regs.sr) s.cpu.regs.pc s.cpu.currentOpcode)
  let handler ← load .Long (vectorAddress v)
  jump handler
  pure (C.vectorExecutionTime v) : Exec M Nat) s

/-- The entries of a list of exceptions one after the other, after `n` cycles. A reset discards everything else that is pending, the rest of the list and the
time so far. An entry that fails is given up and the error becomes pending: as a spurious interrupt (24) if the memory refuses the entry of an interrupt. If
the memory refuses the entry of an access error, the emulator panics. -/
def enterAll (C : CpuDetails) : List Exception → Nat → Exec M Nat
  | [], n => pure n
  | e :: es, n =>
    if e.vector = 0 then do
      discard
      restart C
    else do
      match ← attempt (entry C e.vector) with
      | .ok k => enterAll C es (n + k)
      | .error x =>
        if x = 2 ∧ e.vector = 2 then crash
        else do
          request (if x = 2 ∧ InterruptVector e.vector then 24 else x)
          enterAll C es n

/-! ### Instructions -/

/-- The instruction of an opcode: the opcode map of the manual, and the emulator takes MOVEM to `(An)+` and MOVEM from `-(An)`, which the 68000 does not have,
for MOVEM. -/
def decode (op : U16) : Isa := if op.toNat / 8 ∈ [0x4898 / 8, 0x48D8 / 8, 0x4CA0 / 8, 0x4CE0 / 8] then .Movem else instr op

/-- The instructions that trap in user mode. -/
def Privileged (i : Isa) : Prop := i ∈ [Isa.Andisr, .Eorisr, .Orisr, .Movesr, .Moveusp, .Reset, .Rte, .Stop]
instance (i : Isa) : Decidable (Privileged i) := inferInstanceAs (Decidable (_ ∈ _))

/-- The opcode at the program counter, which moves to the next word whether the memory has one or not. -/
def fetchOpcode : Exec M U16 := do
  let pc ← getR fun r => r.pc
  if Odd pc then trap 3
  else do
    jump (pc + 2)
    load .Word pc

/-- An instruction after `n` cycles: the time of it all and the exception that comes of the instruction. An instruction that ends with an exception takes no
time. Trace follows every instruction that completes with T set before, but the privileged ones. -/
def instruction (C : CpuDetails) (n : Nat) : Exec M (Nat × Option U8) := do
  match ← attempt fetchOpcode with
  | .error e => pure (n, some e)
  | .ok op =>
    setOpcode op
    let t ← getR fun r => r.sr.t
    match ← attempt (exec C (decode op) op) with
    | .error e => pure (n, some e)
    | .ok c => pure (n + c, if t ∧ ¬ Privileged (decode op) then some 9 else none)

/-! ### The machine -/

/-- One call of `interpreter_exception`. A stopped core does nothing. Otherwise the pending exceptions that the mask does not hold back are entered and an
instruction is executed. -/
def machine (C : CpuDetails) : Exec M (Nat × Option U8) := fun s =>
  if s.cpu.stop then .ok (0, none) s
  else (do
    let n ← enterAll C (s.cpu.exceptions.filter fun e => ¬ Masked s.cpu.regs.sr.interruptMask e.vector) 0
    instruction C n : Exec M (Nat × Option U8)) (s.withPending (s.cpu.exceptions.filter fun e => Masked s.cpu.regs.sr.interruptMask e.vector))

/-- One call of `interpreter`: the exception that comes of the instruction is requested. -/
def machineStep (C : CpuDetails) : Exec M Nat := do
  match ← machine C with
  | (n, none) => pure n
  | (n, some v) => do request v; pure n

/-! ### The host -/

/-- What a host does with a core: it requests an exception, calls `interpreter_exception` or `interpreter`, and changes the memory, the registers and the stop flag. -/
inductive Use (M : Type)
  | request (v : U8)
  | call
  | run
  | change (f : Registers × Bool × M → Registers × Bool × M)

/-- What the host is told by a call: nothing, the cycles, or the cycles and the exception. -/
inductive Told
  | nothing
  | call (n : Nat) (e : Option U8)
  | run (n : Nat)

/-- The host's change of the registers, the stop flag and the memory. -/
def change (f : Registers × Bool × M → Registers × Bool × M) : Exec M Told := fun s =>
  let x := f (s.cpu.regs, s.cpu.stop, s.mem)
  .ok .nothing { mem := x.2.2, cpu := { s.cpu with regs := x.1, stop := x.2.1 } }

/-- A use of the described machine. -/
def Use.described (C : CpuDetails) : Use M → Exec M Told
  | .request v => do Spec.request v; pure .nothing
  | .call => do let (n, e) ← machine C; pure (.call n e)
  | .run => do let n ← machineStep C; pure (.run n)
  | .change f => Spec.change f

/-- A use of the core. -/
def Use.core (C : CpuDetails) : Use M → Exec M Told
  | .request v => fun s => .ok .nothing { s with cpu := s.cpu.exception ⟨v⟩ }
  | .call => do let (n, e) ← interpreterException C; pure (.call n e)
  | .run => do let n ← interpreter C; pure (.run n)
  | .change f => Spec.change f

/-- A session: uses one after the other, and all that the host is told. -/
def session (use : Use M → Exec M Told) : List (Use M) → Exec M (List Told)
  | [] => pure []
  | u :: us => do
    let x ← use u
    let xs ← session use us
    pure (x :: xs)

end M68k.Spec
