import Verif.Spec.Step
import Verif.Model.Slices
/-
Concrete states for the `example`s that accompany the property theorems.
-/
namespace M68k.Demo
open M68k

/-- Registers that are all 0, in user mode, with the given data and address registers. -/
def regs (d : List U32) (a : List U32) : Registers :=
  { Registers.default with
    d := fun i => d.getD i.val 0
    a := fun i => a.getD i.val 0
    usp := a.getD 7 0
    sr := { StatusRegister.default with s := false, interruptMask := 0 } }

/-- A running core whose memory is a slice of words. -/
def st (words : List U16) (r : Registers) : St WordSlice :=
  { mem := ⟨words⟩, cpu := { regs := r, currentOpcode := 0, stop := false, exceptions := [] } }

end M68k.Demo
