import Verif.Model.Access
import Verif.Model.Isa
/-
Specification of the programmer's model of the 68000: registers, operand sizes, addressing modes,
operand reads and writes, and instruction fetch. Nothing here uses the functions of the model that
implement the same things; only the state types, the memory interface and the monad are shared.
-/
namespace M68k.Spec

/-- The width in bits of an operand of the given size. -/
abbrev width : Size → Nat
  | .Byte => 8
  | .Word => 16
  | .Long => 32

/-- The values of an operand of the given size. -/
abbrev Val (sz : Size) := BitVec (width sz)

/-- The number of bytes of an operand. -/
def bytes : Size → Nat
  | .Byte => 1
  | .Word => 2
  | .Long => 4

/-- A register number as the 8-bit number used by the API. -/
def u8 (n : Fin 8) : U8 := BitVec.ofNat 8 n.val

/-- Address register `n`: A7 is the supervisor stack pointer when S is set, else the user's. -/
def areg (r : Registers) (n : Fin 8) : U32 :=
  if h : n.val < 7 then r.a ⟨n.val, h⟩ else if r.sr.s then r.ssp else r.usp

/-- Assignment of address register `n`. -/
def setAreg (r : Registers) (n : Fin 8) (v : U32) : Registers :=
  if h : n.val < 7 then { r with a := fun i => if i = ⟨n.val, h⟩ then v else r.a i }
  else if r.sr.s then { r with ssp := v } else { r with usp := v }

/-- Assignment of data register `n`. -/
def setDreg (r : Registers) (n : Fin 8) (v : U32) : Registers :=
  { r with d := fun i => if i = n then v else r.d i }

/-- The low bits of a register seen as an operand of size `sz`. -/
def low (sz : Size) (x : U32) : Val sz := BitVec.ofNat (width sz) x.toNat

/-- Replaces the low bits of a register and keeps the others: the new value is
`old - old mod 2^w + v`. -/
def insertLow (sz : Size) (old : U32) (v : Val sz) : U32 :=
  BitVec.ofNat 32 (old.toNat / 2 ^ width sz * 2 ^ width sz + v.toNat)

/-- The 32-bit value with the same two's complement value. -/
def signExt {n : Nat} (v : BitVec n) : U32 := BitVec.ofInt 32 v.toInt

/-! ### Primitive actions -/
section
variable {M α : Type}

/-- Reads something from the registers. -/
def getR (f : Registers → α) : Exec M α := fun s => .ok (f s.cpu.regs) s
/-- Changes the registers. -/
def modR (f : Registers → Registers) : Exec M Unit :=
  fun s => .ok () { s with cpu := { s.cpu with regs := f s.cpu.regs } }
/-- Ends the instruction with an exception. -/
def trap (vector : U8) : Exec M α := fun s => .err vector s
/-- The emulator panics. -/
def crash : Exec M α := fun _ => .panic
/-- Computes a result and the new status register from the status register. -/
def compute (f : StatusRegister → α × StatusRegister) : Exec M α := fun s =>
  .ok (f s.cpu.regs.sr).1
    { s with cpu := { s.cpu with regs := { s.cpu.regs with sr := (f s.cpu.regs.sr).2 } } }
/-- Changes the status register. -/
def setFlags (f : StatusRegister → StatusRegister) : Exec M Unit :=
  modR fun r => { r with sr := f r.sr }
/-- A jump. -/
def jump (target : U32) : Exec M Unit := modR fun r => { r with pc := target }
end

/-! ### Memory operands -/
section
variable {M : Type} [MemoryAccess M]

/-- An address is odd. -/
def Odd (a : U32) : Prop := a.toNat % 2 = 1
instance (a : U32) : Decidable (Odd a) := inferInstanceAs (Decidable (_ = _))

/-- The memory method reading an operand. -/
def memGet : (sz : Size) → U32 → M → MRes M (Val sz)
  | .Byte => MemoryAccess.getByte
  | .Word => MemoryAccess.getWord
  | .Long => MemoryAccess.getLong
/-- The memory method writing an operand. -/
def memSet : (sz : Size) → U32 → Val sz → M → MRes M Unit
  | .Byte => MemoryAccess.setByte
  | .Word => MemoryAccess.setWord
  | .Long => MemoryAccess.setLong

/-- A memory access: `None` is an access error (vector 2). -/
def access {α : Type} (f : M → MRes M α) : Exec M α := fun s =>
  match f s.mem with
  | .val a m => .ok a { s with mem := m }
  | .none m => .err 2 { s with mem := m }
  | .panic => .panic

/-- Word and long accesses at an odd address are address errors (vector 3), without any access. -/
def load (sz : Size) (a : U32) : Exec M (Val sz) :=
  if sz ≠ .Byte ∧ Odd a then trap 3 else access (memGet sz a)
/-- As `load`. -/
def store (sz : Size) (a : U32) (v : Val sz) : Exec M Unit :=
  if sz ≠ .Byte ∧ Odd a then trap 3 else access (memSet sz a v)
end

/-! ### Addressing modes -/

/-- The twelve addressing modes of the 68000 with their extension words. The PC relative modes hold
the address of their extension word. -/
inductive Mode
  | dn (n : Fin 8)
  | an (n : Fin 8)
  | ind (n : Fin 8)
  | postinc (n : Fin 8)
  | predec (n : Fin 8)
  | disp (n : Fin 8) (d : U16)
  | index (n : Fin 8) (x : U16)
  | absW (a : U16)
  | absL (a : U32)
  | pcDisp (pc : U32) (d : U16)
  | pcIndex (pc : U32) (x : U16)
  | imm (v : U32)
deriving DecidableEq

namespace Mode
/-- The value of the API denoting the mode. -/
def toAM : Mode → AddressingMode
  | dn n => .Drd (u8 n)
  | an n => .Ard (u8 n)
  | ind n => .Ari (u8 n)
  | postinc n => .Ariwpo (u8 n)
  | predec n => .Ariwpr (u8 n)
  | disp n d => .Ariwd (u8 n) d
  | index n x => .Ariwi8 (u8 n) ⟨x⟩
  | absW a => .AbsShort a
  | absL a => .AbsLong a
  | pcDisp pc d => .Pciwd pc d
  | pcIndex pc x => .Pciwi8 pc ⟨x⟩
  | imm v => .Immediate v

/-- The operand is in memory. -/
def isMem : Mode → Bool
  | dn _ => false
  | an _ => false
  | imm _ => false
  | _ => true
end Mode

/-- The 3-bit register field starting at bit `lo` of a word. -/
def regField (w : U16) (lo : Nat) : Fin 8 := Fin.ofNat 8 (w.toNat / 2 ^ lo)

/-- The index of a brief extension word: bit 15 selects an address or a data register, bits 14-12
its number, bit 11 the whole register or its sign-extended low word. -/
def indexValue (r : Registers) (x : U16) : U32 :=
  let full := if x.toNat / 2 ^ 15 % 2 = 1 then areg r (regField x 12) else r.d (regField x 12)
  if x.toNat / 2 ^ 11 % 2 = 1 then full else signExt (low .Word full)

/-- The 8-bit displacement of a brief extension word. -/
def indexDisp (x : U16) : U32 := signExt (BitVec.ofNat 8 x.toNat)

/-- How much `(An)+` and `-(An)` move the register: the operand size, but A7 stays even. -/
def step (n : Fin 8) (sz : Size) : U32 :=
  if n = 7 ∧ sz = .Byte then 2 else BitVec.ofNat 32 (bytes sz)

/-- Where an operand is. -/
inductive Place
  | dreg (n : Fin 8)
  | areg (n : Fin 8)
  | mem (a : U32)
  | imm (v : U32)
deriving DecidableEq

/-- The place of the operand denoted by a mode, with the registers after the evaluation of the
effective address. -/
def place (sz : Size) (r : Registers) : Mode → Place × Registers
  | .dn n => (.dreg n, r)
  | .an n => (.areg n, r)
  | .ind n => (.mem (areg r n), r)
  | .postinc n => (.mem (areg r n), setAreg r n (areg r n + step n sz))
  | .predec n => (.mem (areg r n - step n sz), setAreg r n (areg r n - step n sz))
  | .disp n d => (.mem (areg r n + signExt d), r)
  | .index n x => (.mem (areg r n + indexDisp x + indexValue r x), r)
  | .absW a => (.mem (signExt a), r)
  | .absL a => (.mem a, r)
  | .pcDisp pc d => (.mem (pc + signExt d), r)
  | .pcIndex pc x => (.mem (pc + indexDisp x + indexValue r x), r)
  | .imm v => (.imm v, r)

section
variable {M : Type} [MemoryAccess M]

/-- Evaluates the effective address. -/
def locate (sz : Size) (m : Mode) : Exec M Place := fun s =>
  .ok (place sz s.cpu.regs m).1 { s with cpu := { s.cpu with regs := (place sz s.cpu.regs m).2 } }

/-- Reads an operand. Byte reads of address registers do not exist. -/
def readAt (sz : Size) : Place → Exec M (Val sz)
  | .dreg n => getR fun r => low sz (r.d n)
  | .areg n => if sz = .Byte then crash else getR fun r => low sz (areg r n)
  | .mem a => load sz a
  | .imm v => pure (low sz v)

/-- Writes an operand: data registers keep their high bits, address registers are written whole,
with the sign-extended value. Byte writes to address registers and writes to immediate operands do
not exist. -/
def writeAt (sz : Size) : Place → Val sz → Exec M Unit
  | .dreg n, v => modR fun r => setDreg r n (insertLow sz (r.d n) v)
  | .areg n, v => if sz = .Byte then crash else modR fun r => setAreg r n (signExt v)
  | .mem a, v => store sz a v
  | .imm _, _ => crash

/-- Evaluates the effective address and reads the operand. -/
def read (sz : Size) (m : Mode) : Exec M (Place × Val sz) := do
  let p ← locate sz m
  let v ← readAt sz p
  pure (p, v)

/-- Evaluates the effective address and writes the operand. -/
def write (sz : Size) (m : Mode) (v : Val sz) : Exec M Unit := do
  let p ← locate sz m
  writeAt sz p v

/-- The address denoted by a memory mode (JMP, JSR, LEA, PEA, MOVEM). -/
def address (sz : Size) (m : Mode) : Exec M U32 := do
  match ← locate sz m with
  | .mem a => pure a
  | _ => crash

/-- Reads the word at the program counter, which moves to the next one. The emulator panics when
an extension word cannot be read. -/
def fetch : Exec M U16 := fun s =>
  if Odd s.cpu.regs.pc then .panic
  else match MemoryAccess.getWord s.cpu.regs.pc s.mem with
    | .val w m => .ok w
        { mem := m, cpu := { s.cpu with regs := { s.cpu.regs with pc := s.cpu.regs.pc + 2 } } }
    | .none _ => .panic
    | .panic => .panic

/-- Reads two words, high word first. -/
def fetchLong : Exec M U32 := do
  let hi ← fetch
  let lo ← fetch
  pure (BitVec.ofNat 32 (hi.toNat * 65536 + lo.toNat))

/-- Reads the extension words of an effective address field. `sz` is the size of an immediate
operand, if the instruction has a size. -/
def fetchMode (sz : Option Size) (mode reg : Fin 8) : Exec M Mode :=
  match mode with
  | 0 => pure (.dn reg)
  | 1 => pure (.an reg)
  | 2 => pure (.ind reg)
  | 3 => pure (.postinc reg)
  | 4 => pure (.predec reg)
  | 5 => .disp reg <$> fetch
  | 6 => .index reg <$> fetch
  | 7 =>
    match reg with
    | 0 => .absW <$> fetch
    | 1 => .absL <$> fetchLong
    | 2 => do
      let pc ← getR (·.pc)
      .pcDisp pc <$> fetch
    | 3 => do
      let pc ← getR (·.pc)
      .pcIndex pc <$> fetch
    | 4 =>
      match sz with
      | none => crash
      | some .Long => .imm <$> fetchLong
      | some _ => (fun w => .imm (w.setWidth 32)) <$> fetch
    | _ => crash

/-- The effective address field in the low six bits of an opcode. -/
def fetchEa (sz : Option Size) (op : U16) : Exec M Mode :=
  fetchMode sz (regField op 3) (regField op 0)
end

end M68k.Spec
