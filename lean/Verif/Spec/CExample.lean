import Verif.Model.CExample
import Verif.Spec.Fence
/-
Vocabulary for the memory of the C example (C77).
-/
namespace M68k.Spec

/-- The bytes of the operand are all in the buffer. -/
def Inside (sz : Size) (a : U32) : Prop := a.toNat + bytes sz ≤ 1048576

/-- The one access that the test of the address lets through although its last two bytes are outside. -/
def Crossing (sz : Size) (a : U32) : Prop := sz = .Long ∧ a = 1048574

/-- All accesses but this one. -/
def notCrossing : Region := fun sz a => !(sz == .Long && a == 1048574)

/-- The Rust slice `[u8]` with the same bytes as the C buffer of 1048576 bytes, nothing else having been accessed. -/
structure AsSlice (m : FfiMemory CBuffer) (b : ByteSlice) : Prop where
  cb : m.cb = exampleCallbacks
  clean : m.user.stray = false
  length : b.bytes.length = 1048576
  bytes : ∀ i < 1048576, b.bytes[i]? = some (m.user.bytes i)

end M68k.Spec
