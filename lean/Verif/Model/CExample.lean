import Verif.Model.Ffi
/-
The C example of `CINTERFACE.md` L52-196: a memory of 1 MB behind the callbacks of the C interface.
-/
namespace M68k

/-- CINTERFACE.md L59: `MEMSIZE`. -/
def MEMSIZE : Nat := 1 <<< 20

/-- What is behind `user_data`, CINTERFACE.md L173: the bytes of the process from the address `memory` on, of which the first `MEMSIZE` are those of the buffer. `stray`
tells whether something outside of the buffer has been accessed, which is undefined behaviour in C. -/
structure CBuffer where
  bytes : Nat → U8
  stray : Bool

/-- CINTERFACE.md L66, L82-83, L99-102: the value of `memory[i]`. -/
def CBuffer.load (i : U32) (u : CBuffer) : U8 × CBuffer :=
  (u.bytes i.toNat, { u with stray := u.stray || !decide (i.toNat < MEMSIZE) })

/-- CINTERFACE.md L122, L139-140, L158-161: `memory[i] = data`. -/
def CBuffer.store (i : U32) (data : U8) (u : CBuffer) : CBuffer :=
  { bytes := fun j => if j = i.toNat then data else u.bytes j, stray := u.stray || !decide (i.toNat < MEMSIZE) }

/-- The result for an address out of range, e.g. CINTERFACE.md L71-74. -/
def exampleError : MemoryResult := { data := 0, exception := 2 }

/-- CINTERFACE.md L61-75: `getByte`. -/
def exampleGetByte (addr : U32) (u : CBuffer) : MemoryResult × CBuffer :=
  if addr.toNat < MEMSIZE then
    let (b, u) := u.load addr
    ({ data := b.setWidth 32, exception := 0 }, u)
  else (exampleError, u)

/-- CINTERFACE.md L77-92: `getWord`. The operands are promoted to `int`; a byte shifted by 8 fits. -/
def exampleGetWord (addr : U32) (u : CBuffer) : MemoryResult × CBuffer :=
  if addr.toNat < MEMSIZE then
    let (b0, u) := u.load addr
    let (b1, u) := u.load (addr + 1)
    ({ data := b0.setWidth 32 <<< 8 ||| b1.setWidth 32, exception := 0 }, u)
  else (exampleError, u)

/-- CINTERFACE.md L94-111: `getLong`. -/
def exampleGetLong (addr : U32) (u : CBuffer) : MemoryResult × CBuffer :=
  if addr.toNat < MEMSIZE then
    let (b0, u) := u.load addr
    let (b1, u) := u.load (addr + 1)
    let (b2, u) := u.load (addr + 2)
    let (b3, u) := u.load (addr + 3)
    ({ data := b0.setWidth 32 <<< 24 ||| b1.setWidth 32 <<< 16 ||| b2.setWidth 32 <<< 8 ||| b3.setWidth 32, exception := 0 }, u)
  else (exampleError, u)

/-- CINTERFACE.md L113-127: `setByte`. -/
def exampleSetByte (addr : U32) (data : U8) (u : CBuffer) : MemoryResult × CBuffer :=
  if addr.toNat < MEMSIZE then ({ data := 0, exception := 0 }, u.store addr data)
  else (exampleError, u)

/-- CINTERFACE.md L129-146: `setWord`. The assignment to an `uint8_t` keeps the low byte. -/
def exampleSetWord (addr : U32) (data : U16) (u : CBuffer) : MemoryResult × CBuffer :=
  if addr.toNat < MEMSIZE then
    let u := u.store addr ((data >>> 8).setWidth 8)
    let u := u.store (addr + 1) (data.setWidth 8)
    ({ data := 0, exception := 0 }, u)
  else (exampleError, u)

/-- CINTERFACE.md L148-167: `setLong`. -/
def exampleSetLong (addr : U32) (data : U32) (u : CBuffer) : MemoryResult × CBuffer :=
  if addr.toNat < MEMSIZE then
    let u := u.store addr ((data >>> 24).setWidth 8)
    let u := u.store (addr + 1) ((data >>> 16).setWidth 8)
    let u := u.store (addr + 2) ((data >>> 8).setWidth 8)
    let u := u.store (addr + 3) (data.setWidth 8)
    ({ data := 0, exception := 0 }, u)
  else (exampleError, u)

/-- CINTERFACE.md L169 and L176-185: `callbacks`. -/
def exampleCallbacks : Callbacks CBuffer where
  getByte := exampleGetByte
  getWord := exampleGetWord
  getLong := exampleGetLong
  setByte := exampleSetByte
  setWord := exampleSetWord
  setLong := exampleSetLong
  resetInstruction u := u

/-- CINTERFACE.md L173-185: the memory of the example, with whatever `malloc` and the loading of the program left in it. -/
def exampleMemory (bytes : Nat → U8) : FfiMemory CBuffer := { cb := exampleCallbacks, user := { bytes := bytes, stray := false } }

end M68k
