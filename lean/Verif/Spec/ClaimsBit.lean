import Verif.Spec.Claims
import Verif.Spec.Step
/-
The bit instructions.
-/
namespace M68k.Spec
variable {M : Type} [MemoryAccess M]

/-- What BTST, BCHG, BCLR, BSET make of the addressed bit. -/
def changedBit : Isa → Bool → Option Bool
  | .Btst, b => some b
  | .Bchg, b => some !b
  | .Bclr, _ => some false
  | .Bset, _ => some true
  | _, _ => none

/-- `r` is `v` but for bit `i`, which the instruction changed; Z is the complement of the bit before and no
other flag changed. -/
structure IsBitOp {n : Nat} (isa : Isa) (i : Nat) (v : BitVec n) (sr : StatusRegister) (r : BitVec n) (sr' : StatusRegister) : Prop where
  bit : some (r.getLsbD i) = changedBit isa (v.getLsbD i)
  others : ∀ j, j ≠ i → r.getLsbD j = v.getLsbD j
  flags : sr' = { sr with z := !v.getLsbD i }

/-- The bit number: in a data register (bit 8 of the opcode set), or in the word after the opcode. -/
def bitNumber (op : U16) : Exec M Nat :=
  if flag op 8 then getR fun r => (r.d (regField op 9)).toNat % 256 else (fun w => w.toNat % 256) <$> fetch

end M68k.Spec
