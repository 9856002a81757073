import Verif.Model.Slices
import Verif.Model.Access
/-
The unit test of m68000/tests/memory_access.rs, run on the model of the slices.
-/
namespace M68k.Tests

variable {M : Type} [MemoryAccess M]

/-- The value read, `none` when the read panics or reports an access error (`unwrap` panics then). -/
def read {α : Type} : MRes M α → Option α
  | .val a _ => some a
  | _ => none

/-- The memory after a write, `none` when it panics or reports an access error. -/
def written : MRes M Unit → Option M
  | .val _ m => some m
  | _ => none

/-- The loops of L13-55 on a memory: write, read back with `[T]`, read back with `&[T]`. -/
def loops {R : Type} [MemoryAccess R] (ref : M → R) (m : M) : Option M := do
  let bytes (m : M) (i : U32) : Option M := do
    let m ← written (MemoryAccess.setByte i (i.setWidth 8) m)
    guard (read (MemoryAccess.getByte i m) = some (i.setWidth 8) ∧ read (MemoryAccess.getByte i (ref m)) = some (i.setWidth 8) ∧ (written (MemoryAccess.setByte 0 0 (ref m))).isNone)
    pure m
  let words (m : M) (i : U32) : Option M := do
    let m ← written (MemoryAccess.setWord i (toU16 i) m)
    guard (read (MemoryAccess.getWord i m) = some (toU16 i) ∧ read (MemoryAccess.getWord i (ref m)) = some (toU16 i) ∧ (written (MemoryAccess.setWord 0 0 (ref m))).isNone)
    pure m
  let longs (m : M) (i : U32) : Option M := do
    let m ← written (MemoryAccess.setLong i i m)
    guard (read (MemoryAccess.getLong i m) = some i ∧ read (MemoryAccess.getLong i (ref m)) = some i ∧ (written (MemoryAccess.setLong 0 0 (ref m))).isNone)
    pure m
  let m ← bytes m 0
  let m ← bytes m 1
  let m ← bytes m 2
  let m ← bytes m 3
  let m ← words m 4
  let m ← words m 6
  longs m 8

/-- L11-61: `[u8; 12]` and `[u16; 6]` after the loops. -/
example : loops (fun m : ByteSlice => (⟨m.bytes⟩ : ByteSliceRef)) ⟨List.replicate 12 0xFF⟩ = some ⟨[0, 1, 2, 3, 0, 4, 0, 6, 0, 0, 0, 8]⟩ := by decide +kernel
example : loops (fun m : WordSlice => (⟨m.words⟩ : WordSliceRef)) ⟨List.replicate 6 0xFFFF⟩ = some ⟨[0x0001, 0x0203, 4, 6, 0, 8]⟩ := by decide +kernel

/-- L63-75: the accesses at the end of a slice fail. -/
def fails (m : M) (i : U32) : Bool := (read (MemoryAccess.getByte i m)).isNone && (read (MemoryAccess.getWord i m)).isNone && (read (MemoryAccess.getLong i m)).isNone &&
  (written (MemoryAccess.setByte i 0 m)).isNone && (written (MemoryAccess.setWord i 0 m)).isNone && (written (MemoryAccess.setLong i 0 m)).isNone
example : fails (⟨[0]⟩ : ByteSlice) 1 = true ∧ fails (⟨[0]⟩ : WordSlice) 2 = true := by decide +kernel

end M68k.Tests
