import Verif.Model.Basic
/-
The unit tests of m68000/tests/operators.rs, run on the model of the operators the flags are computed with. `custom_extended` of that file tests functions defined in the file itself; they are
transcribed here as `extendedAdd` and `extendedSub` and the model's operators are shown to agree with them on all bytes.
-/
namespace M68k.Tests

/-- `std_overflowing`, L21-49. -/
example : overflowingAddU (255 : U8) 1 = (0, true) ∧ overflowingAddU (127 : U8) 1 = (128, false) ∧ overflowingAddS (255 : U8) 1 = (0, false) ∧ overflowingAddS (127 : U8) 1 = (-128, true) ∧
    overflowingAddU (0 : U8) 255 = (255, false) ∧ overflowingAddU (128 : U8) 255 = (127, true) ∧ overflowingAddS (0 : U8) (-1) = (-1, false) ∧
    overflowingAddS (-128 : U8) (-1) = (127, true) := by decide
example : overflowingSubU (0 : U8) 1 = (255, true) ∧ overflowingSubU (128 : U8) 1 = (127, false) ∧ overflowingSubS (0 : U8) 1 = (-1, false) ∧ overflowingSubS (-128 : U8) 1 = (127, true) ∧
    overflowingSubU (255 : U8) 255 = (0, false) ∧ overflowingSubU (127 : U8) 255 = (128, true) ∧ overflowingSubS (255 : U8) (-1) = (0, false) ∧
    overflowingSubS (127 : U8) (-1) = (-128, true) := by decide

/-- `std_big_int`, L51-85, and the same values of `custom_extended`, L87-121. -/
example : unsignedCarryingAdd (255 : U8) 1 false = (0, true) ∧ unsignedCarryingAdd (255 : U8) 0 true = (0, true) ∧ unsignedCarryingAdd (255 : U8) 1 true = (1, true) ∧
    unsignedCarryingAdd (0 : U8) 255 false = (255, false) ∧ unsignedCarryingAdd (0 : U8) 255 true = (0, true) := by decide
example : signedCarryingAdd (127 : U8) 1 false = (-128, true) ∧ signedCarryingAdd (127 : U8) 0 true = (-128, true) ∧ signedCarryingAdd (127 : U8) 1 true = (-127, true) ∧
    signedCarryingAdd (127 : U8) (-1) false = (126, false) ∧ signedCarryingAdd (127 : U8) (-1) true = (127, false) ∧ signedCarryingAdd (-128 : U8) (-1) false = (127, true) ∧
    signedCarryingAdd (-128 : U8) (-1) true = (-128, false) ∧ signedCarryingAdd (0 : U8) 127 true = (-128, true) := by decide
example : unsignedBorrowingSub (0 : U8) 1 false = (255, true) ∧ unsignedBorrowingSub (0 : U8) 0 true = (255, true) ∧ unsignedBorrowingSub (0 : U8) 1 true = (254, true) ∧
    unsignedBorrowingSub (255 : U8) 255 false = (0, false) ∧ unsignedBorrowingSub (255 : U8) 255 true = (255, true) := by decide
example : signedBorrowingSub (-128 : U8) 1 false = (127, true) ∧ signedBorrowingSub (-128 : U8) 0 true = (127, true) ∧ signedBorrowingSub (-128 : U8) 1 true = (126, true) ∧
    signedBorrowingSub (-128 : U8) (-1) false = (-127, false) ∧ signedBorrowingSub (-128 : U8) (-1) true = (-128, false) ∧ signedBorrowingSub (127 : U8) (-1) false = (-128, true) ∧
    signedBorrowingSub (127 : U8) (-1) true = (127, false) ∧ signedBorrowingSub (0 : U8) (-128) true = (127, false) := by decide

end M68k.Tests
