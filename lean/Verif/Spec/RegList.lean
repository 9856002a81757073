import Verif.Spec.Instr
import Verif.Spec.Contents
/-
The register lists of MOVEM.
-/
namespace M68k.Spec
variable {M : Type} [MemoryAccess M] [Ram M]

/-- The chosen registers in the order D0, ..., D7, A0, ..., A7. -/
def regList (chosen : Fin 16 → Bool) : List (Fin 16) := (List.finRange 16).filter chosen

/-- The list of all modes but predecrement: bit 0 is D0, bit 15 is A7. -/
def inMask (mask : U16) (i : Fin 16) : Bool := mask.toNat.testBit i.val
/-- The list of predecrement: bit 0 is A7, bit 15 is D0. -/
def inMaskReversed (mask : U16) (i : Fin 16) : Bool := mask.toNat.testBit (15 - i.val)

/-- The chosen registers are in the memory at ascending addresses from `a`, each taking the operand size. -/
def Saved (sz : Size) (m : M) (a : U32) (r : Registers) (chosen : Fin 16 → Bool) : Prop :=
  ∀ k (h : k < (regList chosen).length), Holds m (at_ a (bytes sz * k)) (low sz (regNo r (regList chosen)[k]))

end M68k.Spec
