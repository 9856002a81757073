import Verif.Spec.Contents
import Verif.Spec.Step
/-
Exception entry and the pending exceptions.
-/
namespace M68k.Spec
open M68k.Exec

/-- The vectors of the interrupts: autovectors 25 to 31, and the on-chip interrupts 57 to 63 of the SCC68070. -/
def InterruptVector (v : U8) : Prop := 25 ≤ v.toNat ∧ v.toNat ≤ 31 ∨ 57 ≤ v.toNat ∧ v.toNat ≤ 63
instance (v : U8) : Decidable (InterruptVector v) := inferInstanceAs (Decidable (_ ∨ _))

/-- The level of an interrupt: 1 to 7. -/
def level (v : U8) : Nat := v.toNat % 8

/-- The interrupt `v` is held back by the mask: level 7 never is. -/
def Masked (mask : U8) (v : U8) : Prop := InterruptVector v ∧ level v ≤ mask.toNat ∧ level v ≠ 7
instance (mask v : U8) : Decidable (Masked mask v) := inferInstanceAs (Decidable (_ ∧ _))

/-- Bus (access) and address errors have longer frames. -/
def LongFrame (v : U8) : Prop := v = 2 ∨ v = 3
instance (v : U8) : Decidable (LongFrame v) := inferInstanceAs (Decidable (_ ∨ _))

/-- The two words of a long word, most significant first. -/
def words (x : U32) : List U16 := [BitVec.ofNat 16 (x.toNat / 65536), BitVec.ofNat 16 x.toNat]

/-- The frame of exception `v`, lowest address first. `sr` and `pc` are the status register and the program counter at the
time of the exception, `opcode` the last opcode. -/
def frame (format : StackFormat) (v : U8) (sr : U16) (pc : U32) (opcode : U16) : List U16 :=
  match format with
  | .MC68000 => if LongFrame v then [0, 0, 0, opcode] ++ [sr] ++ words pc else [sr] ++ words pc
  | .SCC68070 =>
    if LongFrame v then [sr] ++ words pc ++ [BitVec.ofNat 16 (0xF000 + 4 * v.toNat), 0, 0, 0, 0, 0, 0, 0, 0, 0, 0, opcode, opcode, 0]
    else [sr] ++ words pc ++ [BitVec.ofNat 16 (4 * v.toNat)]

/-- The status register in the handler of `v`: supervisor mode, no trace, and for interrupts the level of the interrupt as mask. -/
def entrySr (v : U8) (sr : StatusRegister) : StatusRegister :=
  { sr with t := false, s := true, interruptMask := if InterruptVector v then BitVec.ofNat 8 (level v) else sr.interruptMask }

/-- The address of the vector. -/
def vectorAddress (v : U8) : U32 := BitVec.ofNat 32 (4 * v.toNat)

/-- The length of the frame. -/
def frameBytes (format : StackFormat) (v : U8) : Nat :=
  match format with
  | .MC68000 => if LongFrame v then 14 else 6
  | .SCC68070 => if LongFrame v then 34 else 8

/-- The length of the frames of a list of exceptions. -/
def framesBytes (format : StackFormat) (es : List Exception) : Nat := (es.map fun e => frameBytes format e.vector).sum

/-- The rank of an exception among those pending together, the handler of the least rank runs first: address error, access error, trace, interrupts (spurious, auto-
and user vectors), illegal instruction, privilege violation, all others. -/
def rank (v : U8) : Nat :=
  if v = 3 then 0 else if v = 2 then 1 else if v = 9 then 2 else if 24 ≤ v.toNat ∧ v.toNat ≤ 31 ∨ 64 ≤ v.toNat then 3
  else if v = 4 then 4 else if v = 8 then 5 else 6

/-- The memory holds consecutive words at `a`. -/
def HoldsWords {M : Type} [MemoryAccess M] [Ram M] (m : M) (a : U32) (ws : List U16) : Prop :=
  ∀ k (h : k < ws.length), Holds (sz := .Word) m (at_ a (2 * k)) ws[k]

/-- `s'` is `s` after the entry of exception `v`: the frame is below the old supervisor stack pointer and no other byte of memory has changed, the
supervisor stack pointer is at the frame, the status register is that of the handler, and execution goes on at the address in the vector. Nothing
else is different. -/
structure Entered {M : Type} [MemoryAccess M] [Ram M] (C : CpuDetails) (v : U8) (s s' : St M) : Prop where
  regs : s'.cpu.regs = { s.cpu.regs with
    ssp := s.cpu.regs.ssp - BitVec.ofNat 32 (frameBytes C.STACK_FORMAT v), sr := entrySr v s.cpu.regs.sr, pc := s'.cpu.regs.pc }
  cpu : s'.cpu = { s.cpu with regs := s'.cpu.regs }
  handler : Holds (sz := .Long) s'.mem (vectorAddress v) s'.cpu.regs.pc
  frame : HoldsWords s'.mem s'.cpu.regs.ssp (frame C.STACK_FORMAT v (srWord s.cpu.regs.sr) s.cpu.regs.pc s.cpu.currentOpcode)
  rest : SameExcept s.mem s'.mem s'.cpu.regs.ssp (frameBytes C.STACK_FORMAT v)

/-- `s'` is `s` after the entries of the exceptions of a list one after the other; `n` is the time they take. -/
inductive EnteredAll {M : Type} [MemoryAccess M] [Ram M] (C : CpuDetails) : List Exception → Nat → St M → St M → Prop
  | nil (s : St M) : EnteredAll C [] 0 s s
  | cons {e : Exception} {es : List Exception} {n : Nat} {s t s' : St M} :
    Entered C e.vector s t → EnteredAll C es n t s' → EnteredAll C (e :: es) (C.vectorExecutionTime e.vector + n) s s'

/-- The result of a call that takes `n` cycles more. -/
def later {M : Type} (n : Nat) : Res M (Nat × Option U8) → Res M (Nat × Option U8)
  | .ok (c, e) s => .ok (n + c, e) s
  | .err e s => .err e s
  | .panic => .panic

/-- The state with other pending exceptions. -/
def _root_.M68k.St.withPending {M : Type} (s : St M) (es : List Exception) : St M := { s with cpu := { s.cpu with exceptions := es } }

/-- The result of a call after which the exceptions `es` are pending. -/
def leaving {M : Type} (es : List Exception) : Res M (Nat × Option U8) → Res M (Nat × Option U8)
  | .ok x s => .ok x (s.withPending es)
  | .err e s => .err e (s.withPending es)
  | .panic => .panic

/-- What a host can do with a core: request an exception, call `interpreter_exception` or `interpreter`, and change the memory, the registers and the stop
flag, which are public, as it likes. -/
inductive Act {M : Type} [MemoryAccess M] (C : CpuDetails) : St M → St M → Prop
  | request (s : St M) (v : U8) : Act C s { s with cpu := s.cpu.exception ⟨v⟩ }
  | call {s s' : St M} {x : Nat × Option U8} : interpreterException C s = .ok x s' → Act C s s'
  | run {s s' : St M} {n : Nat} : interpreter C s = .ok n s' → Act C s s'
  | host (s : St M) (r : Registers) (stop : Bool) (m : M) : Act C s ⟨{ s.cpu with regs := r, stop := stop }, m⟩

/-- The states of a core that a host has made with `new` or `new_no_reset` and used in whatever way. -/
inductive History {M : Type} [MemoryAccess M] (C : CpuDetails) : St M → Prop
  | new (m : M) : History C ⟨Cpu.new, m⟩
  | newNoReset (m : M) : History C ⟨Cpu.newNoReset, m⟩
  | act {s s' : St M} : History C s → Act C s s' → History C s'

end M68k.Spec
