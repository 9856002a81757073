import Verif.Model.StatusRegister
import Verif.Model.CpuDetails
/-
Registers and CPU state (`m68000/src/lib.rs`), the memory interface
(`m68000/src/memory_access.rs`) and the execution monad of the model.
-/
namespace M68k

/-- Update of one entry of a register file (array assignment `self.x[i] = v`; lib.rs L123-136: the arrays `d` and `a`). -/
def upd {n : Nat} {α : Type} (f : Fin n → α) (i : Fin n) (v : α) : Fin n → α :=
  fun j => if j = i then v else f j

/-- lib.rs L123-136. -/
structure Registers where
  d : Fin 8 → U32
  a : Fin 7 → U32
  usp : U32
  ssp : U32
  sr : StatusRegister
  pc : U32

namespace Registers

/-- lib.rs L121 (derived `Default`) with `StatusRegister::default`. -/
def default : Registers where
  d := fun _ => 0
  a := fun _ => 0
  usp := 0
  ssp := 0
  sr := StatusRegister.default
  pc := 0

/-- lib.rs L140-145. -/
def withSr (sr : StatusRegister) : Registers := { default with sr := sr }

/-- lib.rs L180-186. -/
def sp (r : Registers) : U32 := if r.sr.s then r.ssp else r.usp

/-- lib.rs L189-195, as the assignment `*sp_mut() = v`. -/
def setSp (r : Registers) (v : U32) : Registers :=
  if r.sr.s then { r with ssp := v } else { r with usp := v }

/-- lib.rs L162-168: any register number above 6 is the active stack pointer. -/
def getA (r : Registers) (reg : U8) : U32 :=
  if h : reg.toNat < 7 then r.a ⟨reg.toNat, h⟩ else r.sp

/-- lib.rs L171-177, as the assignment `*a_mut(reg) = v`. -/
def setA (r : Registers) (reg : U8) (v : U32) : Registers :=
  if h : reg.toNat < 7 then { r with a := upd r.a ⟨reg.toNat, h⟩ v } else r.setSp v

end Registers

/-- exception.rs L106-110: only the vector is kept, the priority is the function
`getVectorPriority` of it (`From<u8>`, L119-124, is the only constructor). -/
structure Exception where
  vector : U8
deriving DecidableEq, Repr

/-- lib.rs L200-214. `exceptions` is the content of the `BTreeSet` in iteration order. -/
structure Cpu where
  regs : Registers
  currentOpcode : U16
  stop : Bool
  exceptions : List Exception

/-- The CPU together with the user's memory system (the `memory: &mut M` argument of the methods of the core, for example interpreter_fast.rs L74). -/
structure St (M : Type) where
  cpu : Cpu
  mem : M

/-- Outcome of a method of the user's `MemoryAccess` implementation (memory_access.rs L31-74): `Some(a)`, `None` or a panic.
The memory system may change in both of the first two cases. -/
inductive MRes (M α : Type)
  | val (a : α) (m : M)
  | none (m : M)
  | panic

/-- memory_access.rs L31-74: trait `MemoryAccess`. `get_long`/`set_long` have the default bodies of
L44-46 and L60-63 but may be overridden. `iter_u16` (L67-73) is modelled by `Iter`. -/
class MemoryAccess (M : Type) where
  getByte : U32 → M → MRes M U8
  getWord : U32 → M → MRes M U16
  setByte : U32 → U8 → M → MRes M Unit
  setWord : U32 → U16 → M → MRes M Unit
  resetInstruction : M → M
  /-- L44-46. -/
  getLong : U32 → M → MRes M U32 := fun addr m =>
    match getWord addr m with
    | .val hi m1 =>
      match getWord (addr + 2) m1 with
      | .val lo m2 => .val (toU32 hi <<< 16 ||| toU32 lo) m2
      | .none m2 => .none m2
      | .panic => .panic
    | .none m1 => .none m1
    | .panic => .panic
  /-- L60-63. -/
  setLong : U32 → U32 → M → MRes M Unit := fun addr value m =>
    match setWord addr (toU16 (value >>> 16)) m with
    | .val _ m1 => setWord (addr + 2) (toU16 value) m1
    | .none m1 => .none m1
    | .panic => .panic

/-- Outcome of a method of the core (interpreter.rs L19-20 `InterpreterResult`, addressing_modes.rs and exception.rs `Result<_, u8>`): `Ok(a)`, `Err(vector)` or a panic. On `Err` the changes made
to the CPU and the memory before the error remain, hence the state. -/
inductive Res (M α : Type)
  | ok (a : α) (s : St M)
  | err (vector : U8) (s : St M)
  | panic

/-- A method of the core taking `&mut self` and `memory: &mut M` and returning `Result<α, u8>` (as all `execute_*`, interpreter.rs L30 and below). -/
def Exec (M α : Type) := St M → Res M α

namespace Exec
variable {M α β : Type}

/-- `Ok(a)`, as in interpreter.rs L545. -/
protected def pure (a : α) : Exec M α := fun s => .ok a s
/-- Sequencing with the `?` operator, as in interpreter.rs L46-73. -/
protected def bind (x : Exec M α) (f : α → Exec M β) : Exec M β := fun s =>
  match x s with
  | .ok a s' => f a s'
  | .err v s' => .err v s'
  | .panic => .panic

/-- The sequencing of the `?` operator above (interpreter.rs L46-73 and everywhere) as a monad. -/
instance : Monad (Exec M) where
  pure := Exec.pure
  bind := Exec.bind

/-- `Err(vector)`, as in interpreter.rs L35. -/
def throw (vector : U8) : Exec M α := fun s => .err vector s
/-- `panic!`, a failed `expect`/`unwrap`/`assert!`, an index out of bounds, ... (interpreter.rs L1382, exception.rs L163-164 and others). -/
def panic : Exec M α := fun _ => .panic

/-- Reads something from the registers (`self.regs`, lib.rs L200-214). -/
def getRegs : Exec M Registers := fun s => .ok s.cpu.regs s
/-- Changes the registers (`self.regs`, lib.rs L200-214). -/
def modifyRegs (f : Registers → Registers) : Exec M Unit :=
  fun s => .ok () { s with cpu := { s.cpu with regs := f s.cpu.regs } }
/-- Reads the status register (`self.regs.sr`, lib.rs L123-136). -/
def getSr : Exec M StatusRegister := fun s => .ok s.cpu.regs.sr s
/-- Changes the status register (`self.regs.sr`, lib.rs L123-136). -/
def modifySr (f : StatusRegister → StatusRegister) : Exec M Unit :=
  fun s => .ok () { s with cpu := { s.cpu with regs := { s.cpu.regs with sr := f s.cpu.regs.sr } } }
/-- Reads the program counter (`self.regs.pc`, lib.rs L123-136). -/
def getPc : Exec M U32 := fun s => .ok s.cpu.regs.pc s
/-- Assigns the program counter (`self.regs.pc`, lib.rs L123-136). -/
def setPc (v : U32) : Exec M Unit :=
  fun s => .ok () { s with cpu := { s.cpu with regs := { s.cpu.regs with pc := v } } }

/-- `self.regs.d[reg as usize]` read (addressing_modes.rs L382, interpreter.rs L1026 and others); panics when out of bounds. -/
def getD (reg : U8) : Exec M U32 := fun s =>
  if h : reg.toNat < 8 then .ok (s.cpu.regs.d ⟨reg.toNat, h⟩) s else .panic
/-- `self.regs.d[reg as usize] = v`; panics when out of bounds (interpreter.rs, for example `execute_moveq`, `execute_swap`; lib.rs L125). -/
def setD (reg : U8) (v : U32) : Exec M Unit := fun s =>
  if h : reg.toNat < 8 then
    .ok () { s with cpu := { s.cpu with regs := { s.cpu.regs with
      d := upd s.cpu.regs.d ⟨reg.toNat, h⟩ v } } }
  else .panic
/-- lib.rs L149-152: `d_byte`. -/
def setDByte (reg : U8) (v : U8) : Exec M Unit := do
  let d ← getD reg
  setD reg (d &&& 0xFFFFFF00)
  let d ← getD reg
  setD reg (d ||| toU32 v)
/-- lib.rs L156-159: `d_word`. -/
def setDWord (reg : U8) (v : U16) : Exec M Unit := do
  let d ← getD reg
  setD reg (d &&& 0xFFFF0000)
  let d ← getD reg
  setD reg (d ||| toU32 v)
/-- `self.regs.a(reg)`, lib.rs L162-168. -/
def getA (reg : U8) : Exec M U32 := fun s => .ok (s.cpu.regs.getA reg) s
/-- `*self.regs.a_mut(reg) = v`, lib.rs L171-177. -/
def setA (reg : U8) (v : U32) : Exec M Unit := fun s =>
  .ok () { s with cpu := { s.cpu with regs := s.cpu.regs.setA reg v } }
/-- `self.regs.sp()`, lib.rs L180-186. -/
def getSp : Exec M U32 := fun s => .ok s.cpu.regs.sp s
/-- `*self.regs.sp_mut() = v`, lib.rs L189-195. -/
def setSp (v : U32) : Exec M Unit := fun s =>
  .ok () { s with cpu := { s.cpu with regs := s.cpu.regs.setSp v } }

/-- A call of a method of the user's memory system followed by `.ok_or(ACCESS_ERROR)?` (interpreter.rs L46, L73, exception.rs L284 and others). -/
def mem (f : M → MRes M α) : Exec M α := fun s =>
  match f s.mem with
  | .val a m => .ok a { s with mem := m }
  | .none m => .err ACCESS_ERROR { s with mem := m }
  | .panic => .panic

/-- utils.rs L38-46, L54-61: `addr.even()?`. -/
def even (addr : U32) : Exec M U32 :=
  if isEven addr then Exec.pure addr else throw ADDRESS_ERROR

end Exec
end M68k
