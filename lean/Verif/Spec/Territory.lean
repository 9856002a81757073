import Verif.Spec.Cores
import Verif.Spec.Fence
/-
Cores that keep to their own parts of a memory (C85).
-/
namespace M68k.Spec
open M68k.Exec
variable {ι M : Type}

/-- The memory `M` behind a fence with two gates: a read outside of the bytes where `rd` holds panics, and so does a write outside of those where `wr` holds. All other accesses are those of `M`. A run that does not panic behind the fence has
read only from `rd` and written only to `wr`. -/
structure Owned (rd wr : U32 → Bool) (M : Type) where
  mem : M

/-- The outcome of an access that is let through. -/
def Owned.lift {rd wr : U32 → Bool} {α : Type} : MRes M α → MRes (Owned rd wr M) α
  | .val x m => .val x ⟨m⟩
  | .none m => .none ⟨m⟩
  | .panic => .panic

instance [MemoryAccess M] {rd wr : U32 → Bool} : MemoryAccess (Owned rd wr M) where
  getByte a m := if bytesIn rd .Byte a then Owned.lift (MemoryAccess.getByte a m.mem) else .panic
  getWord a m := if bytesIn rd .Word a then Owned.lift (MemoryAccess.getWord a m.mem) else .panic
  getLong a m := if bytesIn rd .Long a then Owned.lift (MemoryAccess.getLong a m.mem) else .panic
  setByte a v m := if bytesIn wr .Byte a then Owned.lift (MemoryAccess.setByte a v m.mem) else .panic
  setWord a v m := if bytesIn wr .Word a then Owned.lift (MemoryAccess.setWord a v m.mem) else .panic
  setLong a v m := if bytesIn wr .Long a then Owned.lift (MemoryAccess.setLong a v m.mem) else .panic
  resetInstruction m := ⟨MemoryAccess.resetInstruction m.mem⟩

/-- The parts of the cores: what a core may write it may read, it is no other core's to read, and what may be read is there. What no core may write, a program for example, may be read by all. -/
structure Parts [MemoryAccess M] [Ram M] (rd wr : ι → U32 → Bool) (m : M) : Prop where
  own : ∀ i a, wr i a = true → rd i a = true
  apart : ∀ i j, i ≠ j → ∀ a, wr i a = true → rd j a = false
  present : ∀ i a, rd i a = true → (Ram.peek m a).isSome

/-- The core `i` alone: `n` calls of `interpreter` behind its fence, on the memory as it was before any core ran. -/
def alone [MemoryAccess M] (C : ι → CpuDetails) (rd wr : ι → U32 → Bool) (w : Cores ι M) (i : ι) (n : Nat) : Res (Owned (rd i) (wr i) M) Nat := calls (C i) n ⟨w.core i, ⟨w.mem⟩⟩

end M68k.Spec
