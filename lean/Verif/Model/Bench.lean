import Verif.Model.BoardFfi
/-
The two benchmarks, `m68000/benches/cpudiag.rs` and `m68000-ffi/benches/cpudiag_ffi.rs`. Criterion, which repeats and times the closures, is not modelled; nor are the pinning of the memory
and the `drop` of the core. Additions of addresses wrap (a build with overflow checks panics there).
-/
namespace M68k

/-- cpudiag.rs L22-25, cpudiag_ffi.rs L23-26: `Memory68070`. -/
structure BenchMemory where
  swap : Nat
  ram : List U8
deriving DecidableEq

namespace Bench

/-- cpudiag.rs L28-40: `get_byte`. -/
def getByte (addr : U32) (b : BenchMemory) : MRes BenchMemory U8 :=
  if 0x80002011 ≤ addr.toNat ∧ addr.toNat ≤ 0x8000201B then
    if addr = 0x80002013 then .val 0b00001110 b else .val 0 b
  else if h : addr.toNat < b.ram.length then .val b.ram[addr.toNat] b
  else .none b

/-- cpudiag.rs L45, L47: two bytes as a word. -/
def twoBytes (hi lo : U32) (b : BenchMemory) : MRes BenchMemory U16 :=
  match getByte hi b with
  | .val h b =>
    match getByte lo b with
    | .val l b => .val (toU16 h <<< 8 ||| toU16 l) b
    | .none b => .none b
    | .panic => .panic
  | .none b => .none b
  | .panic => .panic

/-- cpudiag.rs L42-49: `get_word`. -/
def getWord (addr : U32) (b : BenchMemory) : MRes BenchMemory U16 :=
  if b.swap < 4 then twoBytes (addr + 0x400000) (addr + 0x400001) { b with swap := b.swap + 1 }
  else twoBytes addr (addr + 1) b

/-- cpudiag.rs L51-60: `set_byte`. -/
def setByte (addr : U32) (value : U8) (b : BenchMemory) : MRes BenchMemory Unit :=
  if 0x80002011 ≤ addr.toNat ∧ addr.toNat ≤ 0x80002019 then .val () b
  else if addr.toNat < b.ram.length then .val () { b with ram := b.ram.set addr.toNat value }
  else .none b

/-- cpudiag.rs L62-65: `set_word`. -/
def setWord (addr : U32) (value : U16) (b : BenchMemory) : MRes BenchMemory Unit :=
  match setByte addr (toU8 (value >>> 8)) b with
  | .val _ b => setByte (addr + 1) (toU8 value) b
  | .none b => .none b
  | .panic => .panic

/-- cpudiag.rs L27-68: `impl MemoryAccess for Memory68070`. -/
instance : MemoryAccess BenchMemory where
  getByte := getByte
  getWord := getWord
  setByte := setByte
  setWord := setWord
  resetInstruction b := b

/-- cpudiag.rs L73-81, cpudiag_ffi.rs L160-168: the memory with the ROM; `none` is the panic of the slice when the ROM does not fit. -/
def memory (rom : List U8) : Option BenchMemory :=
  if 0x400000 + rom.length ≤ 0x500000 then some { swap := 0, ram := List.replicate 0x400000 0 ++ rom ++ List.replicate (0x100000 - rom.length) 0 }
  else none

/-- cpudiag.rs L72-87: `setup`. -/
def setup (rom : List U8) : Option (St BenchMemory) := (memory rom).map fun m => { cpu := Cpu.new, mem := m }

/-- cpudiag.rs L91-93, L99-101, cpudiag_ffi.rs L195-197, L205-207: `n` turns of the loop, with the values given to `black_box`. -/
def turns {M α : Type} (x : Exec M α) : Nat → Exec M (List α)
  | 0 => return []
  | n + 1 => do
    let a ← x
    let l ← turns x n
    return a :: l

/-- cpudiag.rs L89-95: "cpudiag interpreter". -/
def interpreterBench (C : CpuDetails) (n : Nat) : Exec BenchMemory (List Nat) := turns (Exec.interpreter C) n
/-- cpudiag.rs L97-103: "cpudiag interpreter_exception". The exception is not processed. -/
def exceptionBench (C : CpuDetails) (n : Nat) : Exec BenchMemory (List (Nat × Option U8)) := turns (Exec.interpreterException C) n

/-! ### The C interface -/

/-- cpudiag_ffi.rs L28-44: `get_byte`. -/
def ffiGetByte (addr : U32) (b : BenchMemory) : MemoryResult × BenchMemory :=
  if h : addr.toNat < b.ram.length then ({ data := b.ram[addr.toNat].setWidth 32, exception := 0 }, b)
  else if 0x80002011 ≤ addr.toNat ∧ addr.toNat ≤ 0x8000201B then
    if addr = 0x80002013 then ({ data := 0b00001110, exception := 0 }, b) else ({ data := 0, exception := 0 }, b)
  else ({ data := 0, exception := 2 }, b)

/-- cpudiag_ffi.rs L50-55, L72-77: the address in the RAM; `n` words are counted. -/
def swapped (n : Nat) (addr : U32) (b : BenchMemory) : U32 × BenchMemory :=
  if b.swap < 4 then (addr + 0x400000, { b with swap := b.swap + n }) else (addr, b)

/-- cpudiag_ffi.rs L46-66: `get_word`. -/
def ffiGetWord (addr : U32) (b : BenchMemory) : MemoryResult × BenchMemory :=
  let (address, b) := swapped 1 addr b
  if h : address.toNat < b.ram.length - 1 then ({ data := (b.ram[address.toNat] ++ b.ram[address.toNat + 1] : U16).setWidth 32, exception := 0 }, b)
  else ({ data := 0, exception := 2 }, b)

/-- cpudiag_ffi.rs L68-88: `get_long`. -/
def ffiGetLong (addr : U32) (b : BenchMemory) : MemoryResult × BenchMemory :=
  let (address, b) := swapped 2 addr b
  if h : address.toNat < b.ram.length - 3 then
    ({ data := ((b.ram[address.toNat] ++ b.ram[address.toNat + 1] : U16) ++ (b.ram[address.toNat + 2] ++ b.ram[address.toNat + 3] : U16) : U32), exception := 0 }, b)
  else ({ data := 0, exception := 2 }, b)

/-- cpudiag_ffi.rs L90-103: `set_byte`. -/
def ffiSetByte (addr : U32) (data : U8) (b : BenchMemory) : MemoryResult × BenchMemory :=
  if addr.toNat < b.ram.length then ({ data := 0, exception := 0 }, { b with ram := b.ram.set addr.toNat data })
  else if 0x80002011 ≤ addr.toNat ∧ addr.toNat ≤ 0x80002019 then ({ data := 0, exception := 0 }, b)
  else ({ data := 0, exception := 2 }, b)

/-- cpudiag_ffi.rs L105-119: `set_word`. -/
def ffiSetWord (addr : U32) (data : U16) (b : BenchMemory) : MemoryResult × BenchMemory :=
  if addr.toNat < b.ram.length - 1 then
    ({ data := 0, exception := 0 }, { b with ram := (b.ram.set addr.toNat (toU8 (data >>> 8))).set (addr.toNat + 1) (toU8 data) })
  else if 0x80002011 ≤ addr.toNat ∧ addr.toNat ≤ 0x80002019 then ({ data := 0, exception := 0 }, b)
  else ({ data := 0, exception := 2 }, b)

/-- cpudiag_ffi.rs L121-137: `set_long`. -/
def ffiSetLong (addr : U32) (data : U32) (b : BenchMemory) : MemoryResult × BenchMemory :=
  if addr.toNat < b.ram.length - 3 then
    ({ data := 0, exception := 0 }, { b with ram := (((b.ram.set addr.toNat (toU8 (data >>> 24))).set (addr.toNat + 1) (toU8 (data >>> 16))).set (addr.toNat + 2)
                                                    (toU8 (data >>> 8))).set (addr.toNat + 3) (toU8 data) })
  else if 0x80002011 ≤ addr.toNat ∧ addr.toNat ≤ 0x80002019 then ({ data := 0, exception := 0 }, b)
  else ({ data := 0, exception := 2 }, b)

/-- cpudiag_ffi.rs L171-183: the callbacks; `reset_instruction` (L139) does nothing. -/
def callbacks : Callbacks BenchMemory where
  getByte := ffiGetByte
  getWord := ffiGetWord
  getLong := ffiGetLong
  setByte := ffiSetByte
  setWord := ffiSetWord
  setLong := ffiSetLong
  resetInstruction b := b

/-- cpudiag_ffi.rs L159-190: `setup`; `m68000_mc68000_new` is `M68000::new` (m68000-ffi/src/lib.rs). -/
def ffiSetup (rom : List U8) : Option (St (FfiMemory BenchMemory)) := (memory rom).map fun m => { cpu := Cpu.new, mem := { cb := callbacks, user := m } }

/-- cpudiag_ffi.rs L192-200: "cpudiag m68000_mc68000_interpreter". -/
def ffiInterpreterBench (C : CpuDetails) (n : Nat) : Exec (FfiMemory BenchMemory) (List Nat) := turns (Exec.interpreter C) n
/-- cpudiag_ffi.rs L202-210: "cpudiag m68000_mc68000_interpreter_exception". -/
def ffiExceptionBench (C : CpuDetails) (n : Nat) : Exec (FfiMemory BenchMemory) (List ExceptionResult) := turns (ffiInterpreterException C) n

end Bench
end M68k
