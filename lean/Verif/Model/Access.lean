import Verif.Model.Decode
/-
Effective addresses and operand accesses: `m68000/src/addressing_modes.rs` L298-400 and
`m68000/src/memory_access.rs` L98-229.

The Rust functions take `ea: &mut EffectiveAddress` and `exec_time: &mut usize`; the model returns
their new values. The callers drop both when the result is `Err`, so they are returned on `Ok` only.
-/
namespace M68k

/-- addressing_modes.rs L298-305. -/
structure EffectiveAddress where
  mode : AddressingMode
  address : Option U32
  size : Option Size
deriving DecidableEq, Repr

/-- addressing_modes.rs L308-314. -/
def EffectiveAddress.new (am : AddressingMode) (size : Option Size) : EffectiveAddress :=
  { mode := am, address := none, size := size }

namespace Exec
variable {M : Type}

/-- The step of `(An)+`/`-(An)`: `if reg == 7 { size.as_word_long() } else { size } as u32`
(addressing_modes.rs L391, L398). -/
def stepOf (reg : U8) (size : Size) : U32 :=
  (if reg = 7 then size.asWordLong else size).asU32

/-- addressing_modes.rs L388-393: `ariwpo`. -/
def ariwpo (reg : U8) (size : Size) : Exec M U32 := do
  let addr ← getA reg
  setA reg (addr + stepOf reg size)
  return addr

/-- addressing_modes.rs L396-400: `ariwpr`. -/
def ariwpr (reg : U8) (size : Size) : Exec M U32 := do
  let a ← getA reg
  setA reg (a - stepOf reg size)
  getA reg

/-- addressing_modes.rs L368-385: `get_index_register`. -/
def getIndexRegister (bew : BriefExtensionWord) : Exec M U32 :=
  if bew.isAddressReg then do
    let a ← getA bew.reg
    return (if bew.isLong then a else sext16 (toU16 a))
  else do
    let d ← getD bew.reg
    return (if bew.isLong then d else sext16 (toU16 d))

/-- The computation of the address in `get_effective_address`, addressing_modes.rs L324-361:
returns the address and the calculation time. -/
def computeAddress (C : CpuDetails) (ea : EffectiveAddress) : Exec M (U32 × Nat) :=
  match ea.mode with
  | .Ari reg => do
    let a ← getA reg
    return (a, C.EA_ARI)
  | .Ariwpo reg =>
    match ea.size with
    | none => panic
    | some size => do
      let a ← ariwpo reg size
      return (a, C.EA_ARIWPO)
  | .Ariwpr reg =>
    match ea.size with
    | none => panic
    | some size => do
      let a ← ariwpr reg size
      return (a, C.EA_ARIWPR)
  | .Ariwd reg disp => do
    let a ← getA reg
    return (a + sext16 disp, C.EA_ARIWD)
  | .Ariwi8 reg bew => do
    let a ← getA reg
    let i ← getIndexRegister bew
    return (a + sext8 bew.disp + i, C.EA_ARIWI8)
  | .AbsShort addr => return (sext16 addr, C.EA_ABSSHORT)
  | .AbsLong addr => return (addr, C.EA_ABSLONG)
  | .Pciwd pc disp => return (pc + sext16 disp, C.EA_PCIWD)
  | .Pciwi8 pc bew => do
    let i ← getIndexRegister bew
    return (pc + sext8 bew.disp + i, C.EA_PCIWI8)
  | .Drd _ => panic
  | .Ard _ => panic
  | .Immediate _ => panic

/-- addressing_modes.rs L322-366: `get_effective_address`. -/
def getEffectiveAddress (C : CpuDetails) (ea : EffectiveAddress) (t : Nat) :
    Exec M (U32 × EffectiveAddress × Nat) :=
  match ea.address with
  | some addr => return (addr, ea, t)
  | none => do
    let (addr, dt) ← computeAddress C ea
    return (addr, { ea with address := some addr }, t + dt)

variable [MemoryAccess M]

/-- memory_access.rs L99-108: `get_byte`. -/
def getByte (C : CpuDetails) (ea : EffectiveAddress) (t : Nat) : Exec M (U8 × EffectiveAddress × Nat) :=
  match ea.mode with
  | .Drd reg => do
    let d ← getD reg
    return (toU8 d, ea, t)
  | .Immediate imm => return (toU8 imm, ea, t + C.EA_IMMEDIATE)
  | _ => do
    let (addr, ea, t) ← getEffectiveAddress C ea t
    let v ← mem (MemoryAccess.getByte addr)
    return (v, ea, t)

/-- memory_access.rs L110-123: `get_word`. -/
def getWord (C : CpuDetails) (ea : EffectiveAddress) (t : Nat) : Exec M (U16 × EffectiveAddress × Nat) :=
  match ea.mode with
  | .Drd reg => do
    let d ← getD reg
    return (toU16 d, ea, t)
  | .Ard reg => do
    let a ← getA reg
    return (toU16 a, ea, t)
  | .Immediate imm => return (toU16 imm, ea, t + C.EA_IMMEDIATE)
  | _ => do
    let (addr, ea, t) ← getEffectiveAddress C ea t
    let addr ← even addr
    let v ← mem (MemoryAccess.getWord addr)
    return (v, ea, t)

/-- memory_access.rs L125-140: `get_long`. -/
def getLong (C : CpuDetails) (ea : EffectiveAddress) (t : Nat) : Exec M (U32 × EffectiveAddress × Nat) :=
  match ea.mode with
  | .Drd reg => do
    let d ← getD reg
    return (d, ea, t)
  | .Ard reg => do
    let a ← getA reg
    return (a, ea, t)
  | .Immediate imm => return (imm, ea, t + (C.EA_IMMEDIATE + 4))
  | _ => do
    let (addr, ea, t) ← getEffectiveAddress C ea t
    let addr ← even addr
    let v ← mem (MemoryAccess.getLong addr)
    return (v, ea, t + 4)

/-- memory_access.rs L142-147: `set_byte`. The new value of `ea` is never used after a write by the
callers, only the time is returned (also for `setWord` and `setLong`). -/
def setByte (C : CpuDetails) (ea : EffectiveAddress) (t : Nat) (value : U8) : Exec M Nat :=
  match ea.mode with
  | .Drd reg => do
    setDByte reg value
    return t
  | _ => do
    let (addr, _, t) ← getEffectiveAddress C ea t
    mem (MemoryAccess.setByte addr value)
    return t

/-- memory_access.rs L149-158: `set_word`. -/
def setWord (C : CpuDetails) (ea : EffectiveAddress) (t : Nat) (value : U16) : Exec M Nat :=
  match ea.mode with
  | .Drd reg => do
    setDWord reg value
    return t
  | .Ard reg => do
    setA reg (sext16 value)
    return t
  | _ => do
    let (addr, _, t) ← getEffectiveAddress C ea t
    let addr ← even addr
    mem (MemoryAccess.setWord addr value)
    return t

/-- memory_access.rs L160-171: `set_long`. -/
def setLong (C : CpuDetails) (ea : EffectiveAddress) (t : Nat) (value : U32) : Exec M Nat :=
  match ea.mode with
  | .Drd reg => do
    setD reg value
    return t
  | .Ard reg => do
    setA reg value
    return t
  | _ => do
    let (addr, _, t) ← getEffectiveAddress C ea t
    let addr ← even addr
    mem (MemoryAccess.setLong addr value)
    return t + 4

/-- memory_access.rs L178-182: `get_next_word`. The program counter is advanced even when the access
fails, but not when it is odd. -/
def getNextWord : Exec M U16 := do
  let pc ← getPc
  let addr ← even pc
  fun s =>
    match MemoryAccess.getWord addr s.mem with
    | .val w m => .ok w { mem := m, cpu := { s.cpu with regs := { s.cpu.regs with pc := s.cpu.regs.pc + 2 } } }
    | .none m => .err ACCESS_ERROR { mem := m, cpu := { s.cpu with regs := { s.cpu.regs with pc := s.cpu.regs.pc + 2 } } }
    | .panic => .panic

/-- memory_access.rs L187-191: `get_next_long`. -/
def getNextLong : Exec M U32 := do
  let pc ← getPc
  let addr ← even pc
  fun s =>
    match MemoryAccess.getLong addr s.mem with
    | .val w m => .ok w { mem := m, cpu := { s.cpu with regs := { s.cpu.regs with pc := s.cpu.regs.pc + 4 } } }
    | .none m => .err ACCESS_ERROR { mem := m, cpu := { s.cpu with regs := { s.cpu.regs with pc := s.cpu.regs.pc + 4 } } }
    | .panic => .panic

/-- memory_access.rs L197-199: `peek_next_word`. -/
def peekNextWord : Exec M U16 := do
  let pc ← getPc
  let addr ← even pc
  mem (MemoryAccess.getWord addr)

/-- memory_access.rs L202-205: `pop_word`. -/
def popWord : Exec M U16 := do
  let addr ← ariwpo 7 .Word
  let addr ← even addr
  mem (MemoryAccess.getWord addr)

/-- memory_access.rs L208-211: `pop_long`. -/
def popLong : Exec M U32 := do
  let addr ← ariwpo 7 .Long
  let addr ← even addr
  mem (MemoryAccess.getLong addr)

/-- memory_access.rs L214-217: `push_word`. -/
def pushWord (value : U16) : Exec M Unit := do
  let addr ← ariwpr 7 .Word
  let addr ← even addr
  mem (MemoryAccess.setWord addr value)

/-- memory_access.rs L220-223: `push_long`. -/
def pushLong (value : U32) : Exec M Unit := do
  let addr ← ariwpr 7 .Long
  let addr ← even addr
  mem (MemoryAccess.setLong addr value)

/-- Runs a decoding function on `self.iter_from_pc(memory)` (memory_access.rs L226-228) and stores
the address reached in the program counter (`self.regs.pc.0 = iter.next_addr`), as every `fast_*`
method of interpreter_fast.rs does. -/
def withIter {α : Type} (f : Dec M α) : Exec M α := fun s =>
  match f ⟨s.mem, s.cpu.regs.pc⟩ with
  | some (a, it) => .ok a { mem := it.mem, cpu := { s.cpu with regs := { s.cpu.regs with pc := it.nextAddr } } }
  | none => .panic

end Exec
end M68k
