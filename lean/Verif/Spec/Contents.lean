import Verif.Spec.Ram
/-
The contents of memories that are arrays of bytes.
-/
namespace M68k.Spec
variable {M : Type} [MemoryAccess M] [Ram M]

/-- The memory holds the operand `v` at the address `a`, most significant byte first. -/
def Holds {sz : Size} (m : M) (a : U32) (v : Val sz) : Prop := ∀ k < bytes sz, Ram.peek m (at_ a k) = some (beByte v k)

/-- The two memories have the same bytes except for the `n` bytes at `a`. -/
def SameExcept (m m' : M) (a : U32) (n : Nat) : Prop := ∀ b, (∀ k < n, b ≠ at_ a k) → Ram.peek m' b = Ram.peek m b

/-- The `n` bytes at `a` exist. -/
def Present (m : M) (a : U32) (n : Nat) : Prop := ∀ k < n, (Ram.peek m (at_ a k)).isSome

end M68k.Spec
