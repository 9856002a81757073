import Verif.Model.Types
/-
The public helpers of `m68000/src/utils.rs` with all their arguments, also those the crate does not use. `checks` says whether the build has overflow checks (`none` is a panic); without
them arithmetic wraps and a shift is by its count modulo 16, as Rust defines.
-/
namespace M68k.Utils

/-- Rust `a + b` on `u16`, utils.rs L22. -/
def add (checks : Bool) (a b : U16) : Option U16 := if checks && (overflowingAddU a b).2 then none else some (a + b)
/-- Rust `a - b` on `u16`, utils.rs L22. -/
def sub (checks : Bool) (a b : U16) : Option U16 := if checks && (overflowingSubU a b).2 then none else some (a - b)
/-- Rust `a << n` on `u16`, utils.rs L16, L22. -/
def shl (checks : Bool) (a n : U16) : Option U16 := if checks && decide (16 ≤ n.toNat) then none else some (a <<< (n.toNat % 16))
/-- Rust `a >> n` on `u16`, utils.rs L23. -/
def shr (checks : Bool) (a n : U16) : Option U16 := if checks && decide (16 ≤ n.toNat) then none else some (a >>> (n.toNat % 16))

/-- utils.rs L15-17: `bit`. -/
def bit (checks : Bool) (data b : U16) : Option Bool := do
  let m ← shl checks 1 b
  some (data &&& m != 0)

/-- utils.rs L21-24: `bits`. -/
def bits (checks : Bool) (d beg fin : U16) : Option U16 := do
  let e ← add checks fin 1
  let n ← sub checks e beg
  let p ← shl checks 1 n
  let mask ← sub checks p 1
  let x ← shr checks d beg
  some (x &&& mask)

/-- utils.rs L64-68: `is_even` of `usize`; with any number of bits. Those of `u32` and `Wrapping<u32>` (L32-36, L49-53) have the same text. -/
def isEven {n : Nat} (a : BitVec n) : Bool := a &&& 1 == 0

/-- utils.rs L38-45, L55-61, L70-77: `even`. -/
def even {n : Nat} (a : BitVec n) : Except U8 (BitVec n) := if isEven a then .ok a else .error ADDRESS_ERROR

/-- utils.rs L91-93: `u32_be` of a slice of words. -/
def u32Be (l : List U16) : Option U32 := do
  let a ← l[0]?
  let b ← l[1]?
  some ((toU32 a <<< 16) ||| toU32 b)

/-- utils.rs L96-102: `i32_be_sized`. -/
def i32BeSized (l : List U16) : Size → Option U32
  | .Byte => do let w ← l[0]?; some (sext8 (toU8 w))
  | .Word => do let w ← l[0]?; some (sext16 w)
  | .Long => u32Be l

/-- utils.rs L104-108: `get_next_word`: the word and the rest of the slice. -/
def getNextWord : List U16 → Option (U16 × List U16)
  | [] => none
  | w :: l => some (w, l)

end M68k.Utils
