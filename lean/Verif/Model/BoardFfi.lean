import Verif.Model.Board
import Verif.Model.Ffi
/-
The example board for the C interface, `m68000-ffi/src/bin/scc68070_ffi.rs`. The time measurement of `main` is not modelled. Additions of addresses wrap (a build
with overflow checks panics there). The lengths of the RAM minus 1 or 3 are truncated at 0; `main` makes a RAM of 0x500000 bytes.
-/
namespace M68k.FfiBoard

/-- scc68070_ffi.rs L38, L60: an access error. -/
def fault : MemoryResult := { data := 0, exception := 2 }

/-- scc68070_ffi.rs L100, L115: success of a write. -/
def done : MemoryResult := { data := 0, exception := 0 }

/-- scc68070_ffi.rs L23-41: `get_byte`. `Board` is what is behind `user_data`, L18-21 (`Memory68070`), with the bytes printed. -/
def getByte (addr : U32) (b : Board) : MemoryResult × Board :=
  if h : addr.toNat < b.ram.length then ({ data := b.ram[addr.toNat].setWidth 32, exception := 0 }, b)
  else if 0x80002011 ≤ addr.toNat ∧ addr.toNat ≤ 0x8000201B then
    if addr = 0x80002013 then ({ data := 0b00001110, exception := 0 }, b) else ({ data := 0, exception := 0 }, b)
  else (fault, b)

/-- scc68070_ffi.rs L47-52 and L69-74: the address in the RAM, which is swapped for the first words. `n` words are counted. -/
def swapped (n : Nat) (addr : U32) (b : Board) : U32 × Board :=
  if b.swap < 4 then (addr + 0x400000, { b with swap := b.swap + n }) else (addr, b)

/-- scc68070_ffi.rs L43-63: `get_word`. -/
def getWord (addr : U32) (b : Board) : MemoryResult × Board :=
  let (address, b) := swapped 1 addr b
  if h : address.toNat < b.ram.length - 1 then ({ data := (b.ram[address.toNat] ++ b.ram[address.toNat + 1] : U16).setWidth 32, exception := 0 }, b)
  else (fault, b)

/-- scc68070_ffi.rs L65-85: `get_long`. -/
def getLong (addr : U32) (b : Board) : MemoryResult × Board :=
  let (address, b) := swapped 2 addr b
  if h : address.toNat < b.ram.length - 3 then
    ({ data := ((b.ram[address.toNat] ++ b.ram[address.toNat + 1] : U16) ++ (b.ram[address.toNat + 2] ++ b.ram[address.toNat + 3] : U16) : U32), exception := 0 }, b)
  else (fault, b)

/-- scc68070_ffi.rs L87-105: `set_byte`. -/
def setByte (addr : U32) (data : U8) (b : Board) : MemoryResult × Board :=
  if addr.toNat < b.ram.length then (done, { b with ram := b.ram.set addr.toNat data })
  else if 0x80002011 ≤ addr.toNat ∧ addr.toNat ≤ 0x80002019 then
    if addr = 0x80002019 then (done, { b with printed := b.printed ++ [data] }) else (done, b)
  else (fault, b)

/-- scc68070_ffi.rs L107-121: `set_word`. -/
def setWord (addr : U32) (data : U16) (b : Board) : MemoryResult × Board :=
  if addr.toNat < b.ram.length - 1 then (done, { b with ram := (b.ram.set addr.toNat (toU8 (data >>> 8))).set (addr.toNat + 1) (toU8 data) })
  else if 0x80002011 ≤ addr.toNat ∧ addr.toNat ≤ 0x80002019 then (done, b)
  else (fault, b)

/-- scc68070_ffi.rs L123-139: `set_long`. -/
def setLong (addr : U32) (data : U32) (b : Board) : MemoryResult × Board :=
  if addr.toNat < b.ram.length - 3 then
    (done, { b with ram := (((b.ram.set addr.toNat (toU8 (data >>> 24))).set (addr.toNat + 1) (toU8 (data >>> 16))).set (addr.toNat + 2)
      (toU8 (data >>> 8))).set (addr.toNat + 3) (toU8 data) })
  else if 0x80002011 ≤ addr.toNat ∧ addr.toNat ≤ 0x80002019 then (done, b)
  else (fault, b)

/-- scc68070_ffi.rs L172-184: the callbacks; `reset_instruction` (L141) does nothing. -/
def callbacks : Callbacks Board where
  getByte := getByte
  getWord := getWord
  getLong := getLong
  setByte := setByte
  setWord := setWord
  setLong := setLong
  resetInstruction b := b

/-- scc68070_ffi.rs L159-190: the board with the content of the ROM file; `none` is the panic of the slice, L169, when the file does not fit. `m68000_scc68070_new` is `M68000::new`. -/
def load (rom : List U8) : Option (St (FfiMemory Board)) :=
  if 0x400000 + rom.length ≤ 0x500000 then
    some { cpu := Cpu.new,
           mem := { cb := callbacks, user := { swap := 0, printed := [], ram := List.replicate 0x400000 0 ++ rom ++ List.replicate (0x100000 - rom.length) 0 } } }
  else none

/-- scc68070_ffi.rs L194-198: `n` turns of the loop; `m68000_scc68070_interpreter` is `M68000::interpreter` (m68000-ffi/src/lib.rs L314-316). -/
def run (C : CpuDetails) : Nat → Exec (FfiMemory Board) Unit
  | 0 => return ()
  | n + 1 => do
    let _ ← Exec.interpreter C
    run C n

end M68k.FfiBoard
