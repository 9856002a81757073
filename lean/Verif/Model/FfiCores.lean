import Verif.Model.TextRun
/-
The functions of the C interface on pointers to cores, `m68000-ffi/src/lib.rs` L244-483. A C program has cores, reached by pointers, and
memories, each given by a pointer to a `m68000_callbacks_t`. The functions are relations: there is no result for a pointer that is not that of a living core of
this kind (undefined behaviour in C), for a panic, and for a loop that does not end.
-/
namespace M68k

/-- A pointer of the C program, as `*mut M68000<..>` in m68000-ffi/src/lib.rs L254-483. -/
abbrev Ptr := BitVec 64

/-- The cores behind pointers, with the kind of the core (`M68000<Mc68000>`, `M68000<Scc68070>`), and the memories (`m68000_callbacks_t`), as the functions of m68000-ffi/src/lib.rs L244-483 reach them. -/
structure Host (U : Type) where
  core : Ptr → Option (CpuDetails × Cpu)
  memory : Ptr → FfiMemory U

/-- What a call of a function of m68000-ffi/src/lib.rs L244-483 returns. -/
inductive Answer
  | none
  | pointer (p : Ptr)
  | cycles (n : Nat)
  | exception (r : ExceptionResult)
  | word (r : MemoryResult)
  | registers (r : Registers)
  | disassembled (pc : U32) (cycles : Nat) (exception : U8) (buf : List U8)

/-- m68000-ffi/src/lib.rs L271-483: the calls with a core, and a memory for those that take one. -/
inductive CoreCall
  | cycle (n : Nat)
  | cycleUntilException (n : Nat)
  | loopUntilExceptionStop
  | interpreter
  | interpreterException
  | disassemblerInterpreter (buf : List U8) (len : Nat)
  | disassemblerInterpreterException (buf : List U8) (len : Nat)
  | exception (v : U8)
  | getNextWord
  | getNextLong
  | peekNextWord
  | getRegisters
  | setRegisters (r : Registers)

/-- m68000-ffi/src/lib.rs L271-483: the effect of a call on the core and the memory given to it. -/
inductive CoreCall.Does {U : Type} (C : CpuDetails) : CoreCall → St (FfiMemory U) → Answer → St (FfiMemory U) → Prop
  /-- m68000-ffi/src/lib.rs L280-284: `m68000_*_cycle`. -/
  | cycle {n fuel r : Nat} {s s' : St (FfiMemory U)} : Exec.cycleLoop C n fuel 0 s = .done r s' → Does C (.cycle n) s (.cycles r) s'
  /-- L294-299: `m68000_*_cycle_until_exception`. -/
  | cycleUntilException {n fuel r : Nat} {v : Option U8} {s s' : St (FfiMemory U)} : Exec.cycleUntilExceptionLoop C n fuel 0 s = .done (r, v) s' →
      Does C (.cycleUntilException n) s (.exception ⟨r, ffiException v⟩) s'
  /-- L306-311: `m68000_*_loop_until_exception_stop`. -/
  | loopUntilExceptionStop {fuel r : Nat} {v : Option U8} {s s' : St (FfiMemory U)} : Exec.loopUntilExceptionStopLoop C fuel 0 s = .done (r, v) s' →
      Does C .loopUntilExceptionStop s (.exception ⟨r, ffiException v⟩) s'
  /-- L315-319: `m68000_*_interpreter`. -/
  | interpreter {r : Nat} {s s' : St (FfiMemory U)} : Exec.interpreter C s = .ok r s' → Does C .interpreter s (.cycles r) s'
  /-- L326-331: `m68000_*_interpreter_exception`. -/
  | interpreterException {r : ExceptionResult} {s s' : St (FfiMemory U)} : ffiInterpreterException C s = .ok r s' → Does C .interpreterException s (.exception r) s'
  /-- L338-358: `m68000_*_disassembler_interpreter`. -/
  | disassemblerInterpreter {buf buf' : List U8} {len n : Nat} {pc : U32} {s s' : St (FfiMemory U)} : ffiDisassemblerInterpreter C buf len s = .ok (pc, n, buf') s' →
      Does C (.disassemblerInterpreter buf len) s (.disassembled pc n 0 buf') s'
  /-- L368-389: `m68000_*_disassembler_interpreter_exception`. -/
  | disassemblerInterpreterException {buf buf' : List U8} {len n : Nat} {pc : U32} {e : U8} {s s' : St (FfiMemory U)} :
      ffiDisassemblerInterpreterException C buf len s = .ok (pc, n, e, buf') s' → Does C (.disassemblerInterpreterException buf len) s (.disassembled pc n e buf') s'
  /-- L393-397: `m68000_*_exception`. -/
  | exception (v : U8) (s : St (FfiMemory U)) : Does C (.exception v) s .none { s with cpu := s.cpu.exception ⟨v⟩ }
  /-- L401-414: `m68000_*_get_next_word`. -/
  | getNextWord {r : MemoryResult} {s s' : St (FfiMemory U)} : ffiGetNextWord s = .ok r s' → Does C .getNextWord s (.word r) s'
  /-- L418-431: `m68000_*_get_next_long`. -/
  | getNextLong {r : MemoryResult} {s s' : St (FfiMemory U)} : ffiGetNextLong s = .ok r s' → Does C .getNextLong s (.word r) s'
  /-- L435-448: `m68000_*_peek_next_word`. -/
  | peekNextWord {r : MemoryResult} {s s' : St (FfiMemory U)} : ffiPeekNextWord s = .ok r s' → Does C .peekNextWord s (.word r) s'
  /-- L468-472: `m68000_*_get_registers`, and L452-456: a read through the pointer of `m68000_*_registers`. -/
  | getRegisters (s : St (FfiMemory U)) : Does C .getRegisters s (.registers s.cpu.regs) s
  /-- L476-480: `m68000_*_set_registers`, and L460-464: a write through the pointer of `m68000_*_registers_mut`. -/
  | setRegisters (r : Registers) (s : St (FfiMemory U)) : Does C (.setRegisters r) s .none { s with cpu := { s.cpu with regs := r } }

/-- m68000-ffi/src/lib.rs L244-483: the calls of a C program. A call with a core `p` is given the memory behind the pointer `m`. -/
inductive HostCall
  | new (C : CpuDetails)
  | newNoReset (C : CpuDetails)
  | delete (p : Ptr)
  | call (p m : Ptr) (c : CoreCall)

/-- The host with another core, or none, behind a pointer (m68000-ffi/src/lib.rs L254-268: `Box::into_raw`, `Box::from_raw`). -/
def Host.setCore {U : Type} (h : Host U) (p : Ptr) (c : Option (CpuDetails × Cpu)) : Host U := { h with core := fun q => if q = p then c else h.core q }

/-- The host with another state of a memory, after the callbacks of m68000-ffi/src/lib.rs L183-242. -/
def Host.setMemory {U : Type} (h : Host U) (m : Ptr) (x : FfiMemory U) : Host U := { h with memory := fun q => if q = m then x else h.memory q }

/-- m68000-ffi/src/lib.rs L244-483: one call. The allocator gives a pointer that is not null and not that of a living core. -/
inductive HostCall.Does {U : Type} : HostCall → Host U → Answer → Host U → Prop
  /-- m68000-ffi/src/lib.rs L254-256: `m68000_*_new`. -/
  | new {C : CpuDetails} {h : Host U} {p : Ptr} : p ≠ 0 → h.core p = .none → Does (.new C) h (.pointer p) (h.setCore p (some (C, Cpu.new)))
  /-- L260-262: `m68000_*_new_no_reset`. -/
  | newNoReset {C : CpuDetails} {h : Host U} {p : Ptr} : p ≠ 0 → h.core p = .none → Does (.newNoReset C) h (.pointer p) (h.setCore p (some (C, Cpu.newNoReset)))
  /-- L266-270: `m68000_*_delete`. -/
  | delete {h : Host U} {p : Ptr} : h.core p ≠ .none → Does (.delete p) h .none (h.setCore p .none)
  /-- The other functions: `(*m68000).f(&mut *memory, ..)`. -/
  | call {h : Host U} {p m : Ptr} {c : CoreCall} {C : CpuDetails} {cpu : Cpu} {a : Answer} {s' : St (FfiMemory U)} : h.core p = some (C, cpu) →
      c.Does C ⟨cpu, h.memory m⟩ a s' → Does (.call p m c) h a ((h.setCore p (some (C, s'.cpu))).setMemory m s'.mem)

/-- A C program: its calls of the functions of m68000-ffi/src/lib.rs L244-483 with their answers. -/
inductive Host.Runs {U : Type} : List (HostCall × Answer) → Host U → Host U → Prop
  | nil (h : Host U) : Runs [] h h
  | cons {c : HostCall} {a : Answer} {cs : List (HostCall × Answer)} {h h' h'' : Host U} : c.Does h a h' → Runs cs h' h'' → Runs ((c, a) :: cs) h h''

end M68k
