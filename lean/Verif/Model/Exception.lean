import Verif.Model.Alu
/-
Exception processing, `m68000/src/exception.rs`, and the constructors of the core, `m68000/src/lib.rs`.
-/
namespace M68k

/-- exception.rs L80-94: `get_vector_priority`. -/
def getVectorPriority (vector : U8) : U8 :=
  if vector = 3 then 0
  else if vector = 2 then 1
  else if vector = 9 then 2
  else if 24 ≤ vector ∧ vector ≤ 31 then 3
  else if 64 ≤ vector then 3
  else if vector = 4 then 4
  else if vector = 8 then 5
  else 255

/-- exception.rs L96-99: `is_interrupt`. -/
def isInterrupt (vector : U8) : Bool :=
  (25 ≤ vector && vector ≤ 31) || (57 ≤ vector && vector ≤ 63)

/-- exception.rs L122: the `priority` of `Exception::from(vector)`. The field is private and every
`Exception` is built by `From<u8>`, so it is a function of the vector. -/
def Exception.priority (e : Exception) : U8 := getVectorPriority e.vector

/-- exception.rs L112-117: `Exception::is_interrupt`. -/
def Exception.isInterrupt (e : Exception) : Bool := M68k.isInterrupt e.vector

/-- `BTreeSet::insert` with the order of exception.rs L138-147 (a greater priority number comes first,
exceptions of the same priority are equal); an equal element already present is kept. -/
def insertException (ex : Exception) : List Exception → List Exception
  | [] => [ex]
  | e :: es =>
    if ex.priority = e.priority then e :: es
    else if e.priority < ex.priority then ex :: e :: es
    else e :: insertException ex es

/-- exception.rs L151-159: `M68000::exception`. -/
def Cpu.exception (cpu : Cpu) (ex : Exception) : Cpu :=
  let cpu := if ex.vector = 0 || ex.vector = 9 || ex.isInterrupt then { cpu with stop := false } else cpu
  { cpu with exceptions := insertException ex cpu.exceptions }

/-- lib.rs L234-243: `M68000::new_no_reset`. -/
def Cpu.newNoReset : Cpu :=
  { regs := Registers.default, currentOpcode := 0xFFFF, stop := false, exceptions := [] }

/-- lib.rs L223-229: `M68000::new`. -/
def Cpu.new : Cpu := Cpu.newNoReset.exception ⟨0⟩

namespace Exec
variable {M : Type} [MemoryAccess M]

/-- exception.rs L163-164: `memory.f(..).expect(..)`. -/
def memExpect {α : Type} (f : M → MRes M α) : Exec M α := fun s =>
  match f s.mem with
  | .val a m => .ok a { s with mem := m }
  | .none _ => .panic
  | .panic => .panic

/-- `self.exception(ex)`, exception.rs L151-159. -/
def raise (ex : Exception) : Exec M Unit := fun s => .ok () { s with cpu := s.cpu.exception ex }

/-- exception.rs L162-171: `reset`. -/
def reset (C : CpuDetails) : Exec M Nat := do
  let ssp ← memExpect (MemoryAccess.getLong 0)
  modifyRegs fun r => { r with ssp := ssp }
  let pc ← memExpect (MemoryAccess.getLong 4)
  modifyRegs fun r => { r with pc := pc }
  modifySr fun sr => { sr with t := false, s := true, interruptMask := 7 }
  setStop false
  return C.VECTOR_RESET

/-- exception.rs L250-261: the MC68000 stack frame. -/
def pushFrameMC68000 (vector : U8) (sr : U16) : Exec M Unit := do
  let pc ← getPc
  pushLong pc
  pushWord sr
  (if vector = 2 || vector = 3 then do
    let opcode ← getCurrentOpcode
    pushWord opcode
    pushLong 0
    pushWord 0
  else pure ())

/-- exception.rs L262-281: the SCC68070 stack frame. -/
def pushFrameSCC68070 (vector : U8) (sr : U16) : Exec M Unit := do
  (if vector = 2 || vector = 3 then do
    pushWord 0
    let opcode ← getCurrentOpcode
    pushWord opcode
    let opcode ← getCurrentOpcode
    pushWord opcode
    pushLong 0
    pushLong 0
    pushLong 0
    pushWord 0
    pushWord 0
    pushWord 0
    pushWord 0
    pushWord (0xF000 ||| (toU16 vector * 4))
  else pushWord (toU16 vector * 4))
  let pc ← getPc
  pushLong pc
  pushWord sr

/-- exception.rs L241-287: `process_exception`. -/
def processException (C : CpuDetails) (vector : U8) : Exec M Nat := do
  let sr ← getSr
  modifySr fun sr => { sr with t := false, s := true }
  (if isInterrupt vector then modifySr fun sr => { sr with interruptMask := vector &&& 7 } else pure ())
  (match C.STACK_FORMAT with
    | .MC68000 => pushFrameMC68000 vector sr.toU16
    | .SCC68070 => pushFrameSCC68070 vector sr.toU16)
  let pc ← mem (MemoryAccess.getLong (toU32 vector * 4))
  setPc pc
  return C.vectorExecutionTime vector

/-- exception.rs L179-186: whether a pending exception is held back by the interrupt mask. -/
def isHeld (mask : U8) (ex : Exception) : Bool :=
  ex.isInterrupt && (ex.vector &&& 7 != 7 && ex.vector &&& 7 ≤ mask)

/-- exception.rs L200-228: the processing loop of `process_pending_exceptions`. -/
def processList (C : CpuDetails) : List Exception → Nat → Exec M Nat
  | [], total => return total
  | ex :: rest, total => fun s =>
    if ex.vector = 0 then
      reset C { s with cpu := { s.cpu with exceptions := [] } }
    else
      match processException C ex.vector s with
      | .ok cycles s => processList C rest (total + cycles) s
      | .err e s =>
        if e = ACCESS_ERROR then
          if ex.vector = ACCESS_ERROR then .panic
          else if ex.isInterrupt then
            processList C rest total { s with cpu := s.cpu.exception ⟨24⟩ }
          else
            processList C rest total { s with cpu := s.cpu.exception ⟨e⟩ }
        else
          processList C rest total { s with cpu := s.cpu.exception ⟨e⟩ }
      | .panic => .panic

/-- exception.rs L174-229: `process_pending_exceptions`. `exceptions` is sorted and has one element
per priority, so collecting the extracted elements in a new set (L194) gives them back in the same
order, and removing them (L190-192) removes the elements of the same priority. -/
def processPendingExceptions (C : CpuDetails) : Exec M Nat := fun s =>
  let mask := s.cpu.regs.sr.interruptMask
  let toProcess := s.cpu.exceptions.filter (fun ex => !isHeld mask ex)
  let remaining := s.cpu.exceptions.filter (fun ex => !(toProcess.any fun e => e.priority == ex.priority))
  processList C toProcess 0 { s with cpu := { s.cpu with exceptions := remaining } }

end Exec
end M68k
