import Verif.Lemmas.Whole
import Verif.Props.DemoRam
/-
C86: the core is the machine described in Spec/Whole.lean. `machine C` describes one call of `interpreter_exception`, `machineStep C` one of `interpreter`;
`session (Use.described C)` is what a host sees that uses the described machine, and `session (Use.core C)` what it sees with the core.
-/
namespace M68k.Props
open Spec Exec
set_option linter.unusedSectionVars false
variable {M : Type} [MemoryAccess M] {C : CpuDetails} {s : St M}

/-- One call of `interpreter_exception` is one step of the described machine: with any memory, whatever its methods do, any constants of the processor and any
state whose pending exceptions are in their order. Cycles, exception, panic, registers and all accesses to the memory are the same. -/
theorem C86_call (h : Ordered s) : interpreterException C s = machine C s := machine_eq h

/-- One call of `interpreter`. -/
theorem C86_run (h : Ordered s) : interpreter C s = machineStep C s := machineStep_eq h

/-- The condition holds in every state that a host can bring a core to. -/
theorem C86_ordered (h : History C s) : Ordered s := ordered_iff.2 (history_sorted h)

/-- Whatever a host does with a new core, as long as it likes, it is told the same and ends in the same state as with the described machine. -/
theorem C86_session (us : List (Use M)) (m : M) : session (Use.core C) us ⟨Cpu.new, m⟩ = session (Use.described C) us ⟨Cpu.new, m⟩ :=
  session_eq us _ (C86_ordered (.new (C := C) m))

/-- The same with a core made without a reset. -/
theorem C86_session_noReset (us : List (Use M)) (m : M) :
    session (Use.core C) us ⟨Cpu.newNoReset, m⟩ = session (Use.described C) us ⟨Cpu.newNoReset, m⟩ :=
  session_eq us _ (C86_ordered (.newNoReset (C := C) m))

/-- The same from every state in which a host has left a core before. -/
theorem C86_session_after (h : History C s) (us : List (Use M)) : session (Use.core C) us s = session (Use.described C) us s :=
  session_eq us s (C86_ordered h)

/-! ### An example -/

/-- A memory of 256 bytes with the vectors of the reset (stack at 0x100, program at 0x90), of the level 2 interrupt (0xA0) and of TRAP #0 (0x9C). At 0x90: `MOVEQ
#5, D0`, `ANDI #$F8FF, SR`, `TRAP #0`. At 0x9C: `STOP #$2000`. At 0xA0: `ADDQ.W #1, D0`. -/
def wholeDemo : WordSlice :=
  ⟨[0, 0x100, 0, 0x90] ++ List.replicate 48 0 ++ [0, 0xA0] ++ List.replicate 10 0 ++ [0, 0x9C] ++ List.replicate 6 0 ++
    [0x7005, 0x027C, 0xF8FF, 0x4E40, 0, 0, 0x4E72, 0x2000, 0x5240] ++ List.replicate 47 0⟩

/-- The answers and the state that the host can look at in the end. -/
def seen (r : Res WordSlice (List Told)) : Option (List (Nat × Option (Option U8)) × U32 × U32 × U16 × List U8 × List U16) :=
  match r with
  | .ok xs s => some (xs.map fun x => match x with | .nothing => (0, none) | .call n e => (n, some e) | .run n => (n, none),
      s.cpu.regs.d 0, s.cpu.regs.pc, srWord s.cpu.regs.sr, s.cpu.exceptions.map (·.vector), s.mem.words.drop 122)
  | _ => none

set_option synthInstance.maxSize 1024 in
set_option synthInstance.maxHeartbeats 100000 in
/-- The host runs the reset and the first instruction, the other two, STOP, once more while the core is stopped, requests the interrupt, and calls. The frames of
the interrupt and of TRAP #0 are on the stack. -/
example : seen (session (Use.described mc68000) [.run, .run, .run, .run, .run, .request 26, .call] ⟨Cpu.new, wholeDemo⟩) =
    some ([(44, none), (20, none), (0, none), (38, none), (0, none), (0, none), (48, some none)], 6, 0xA2, 0x2200, [], [0x2000, 0, 0xA0, 0x2000, 0, 0x98]) := by decide +kernel

end M68k.Props
