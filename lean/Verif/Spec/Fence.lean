import Verif.Spec.Alike
import Verif.Spec.Ram
/-
Accesses within a region (C68).
-/
namespace M68k.Spec
open M68k.Exec
variable {M N : Type} {α : Type}

/-- A region: which accesses, by their size and address, belong to it. -/
abbrev Region := Size → U32 → Bool

/-- The memory `M` behind a fence: an access outside the region `A` panics, all others are those of `M`. A run that does not panic behind the fence has not
accessed anything outside the region. -/
structure Fenced (A : Region) (M : Type) where
  mem : M

/-- The outcome of an access that is in the region. -/
def Fenced.lift {A : Region} : MRes M α → MRes (Fenced A M) α
  | .val x m => .val x ⟨m⟩
  | .none m => .none ⟨m⟩
  | .panic => .panic

instance [MemoryAccess M] {A : Region} : MemoryAccess (Fenced A M) where
  getByte a m := if A .Byte a then Fenced.lift (MemoryAccess.getByte a m.mem) else .panic
  getWord a m := if A .Word a then Fenced.lift (MemoryAccess.getWord a m.mem) else .panic
  getLong a m := if A .Long a then Fenced.lift (MemoryAccess.getLong a m.mem) else .panic
  setByte a v m := if A .Byte a then Fenced.lift (MemoryAccess.setByte a v m.mem) else .panic
  setWord a v m := if A .Word a then Fenced.lift (MemoryAccess.setWord a v m.mem) else .panic
  setLong a v m := if A .Long a then Fenced.lift (MemoryAccess.setLong a v m.mem) else .panic
  resetInstruction m := ⟨MemoryAccess.resetInstruction m.mem⟩

/-- Related memories answer alike to the accesses of the region, those to words and longs at even addresses, and to the RESET instruction. -/
structure AlikeIn [MemoryAccess M] [MemoryAccess N] (A : Region) (R : M → N → Prop) : Prop where
  getByte : ∀ m n a, R m n → A .Byte a = true → SameOutcome R (MemoryAccess.getByte a m) (MemoryAccess.getByte a n)
  getWord : ∀ m n a, R m n → A .Word a = true → ¬ Odd a → SameOutcome R (MemoryAccess.getWord a m) (MemoryAccess.getWord a n)
  getLong : ∀ m n a, R m n → A .Long a = true → ¬ Odd a → SameOutcome R (MemoryAccess.getLong a m) (MemoryAccess.getLong a n)
  setByte : ∀ m n a v, R m n → A .Byte a = true → SameOutcome R (MemoryAccess.setByte a v m) (MemoryAccess.setByte a v n)
  setWord : ∀ m n a v, R m n → A .Word a = true → ¬ Odd a → SameOutcome R (MemoryAccess.setWord a v m) (MemoryAccess.setWord a v n)
  setLong : ∀ m n a v, R m n → A .Long a = true → ¬ Odd a → SameOutcome R (MemoryAccess.setLong a v m) (MemoryAccess.setLong a v n)
  resetInstruction : ∀ m n, R m n → R (MemoryAccess.resetInstruction m) (MemoryAccess.resetInstruction n)

/-- The region of the bytes for which `P` holds: an access belongs to it if all its bytes do. -/
def bytesIn (P : U32 → Bool) : Region := fun sz a => (List.range (bytes sz)).all fun k => P (at_ a k)

/-- Two arrays of bytes that have the same bytes where `P` holds. -/
def AgreeIn [MemoryAccess M] [MemoryAccess N] [Ram M] [Ram N] (P : U32 → Bool) (m : M) (n : N) : Prop :=
  ∀ a, P a = true → ∃ b, Ram.peek m a = some b ∧ Ram.peek n a = some b

/-- An array of bytes changed only where `P` holds. -/
def ChangedIn [MemoryAccess N] [Ram N] (P : U32 → Bool) (n n' : N) : Prop := ∀ a, P a = false → Ram.peek n' a = Ram.peek n a

/-- The same for the run loops, if the first one does not panic. -/
def SameLoopUnlessPanic (R : M → N → Prop) : LoopRes M α → LoopRes N α → Prop
  | .panic, _ => True
  | .done a s, .done b t => a = b ∧ SameState R s t
  | .running k s, .running l t => k = l ∧ SameState R s t
  | _, _ => False

end M68k.Spec
