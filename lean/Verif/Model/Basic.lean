/-
Machine integers, the outcome type of the model and the bit utilities.
Models `m68000/src/utils.rs` and the Rust notions (`Result`, panic) used everywhere.
-/
namespace M68k

/-- Rust `u8`/`i8` (lib.rs L123-136 and everywhere). Signedness is a matter of interpretation of the operations. -/
abbrev U8 := BitVec 8
/-- Rust `u16`/`i16` (memory_access.rs L31-74 and everywhere). -/
abbrev U16 := BitVec 16
/-- Rust `u32`/`i32`/`Wrapping<u32>` (lib.rs L123-136 and everywhere). -/
abbrev U32 := BitVec 32

/-- exception.rs L14: `ACCESS_ERROR` (= `Vector::AccessError as u8`). -/
def ACCESS_ERROR : U8 := 2
/-- exception.rs L16: `ADDRESS_ERROR` (= `Vector::AddressError as u8`). -/
def ADDRESS_ERROR : U8 := 3

/-- utils.rs L15-17: `bit(data, bit)`. The bit number is always a literal below 16 in the code. -/
def bit (data : U16) (b : Nat) : Bool := (data &&& ((1 : U16) <<< b)) != 0

/-- utils.rs L21-24: `bits(d, beg, end)`, inclusive. Arguments are literals with
`end + 1 - beg < 16` in the code, so neither shift overflows. -/
def bits (d : U16) (beg fin : Nat) : U16 :=
  let mask := ((1 : U16) <<< (fin + 1 - beg)) - 1
  (d >>> beg) &&& mask

/-- utils.rs L34-36, L51-53: `IsEven::is_even` for `u32` and `Wrapping<u32>`. -/
def isEven (a : U32) : Bool := (a &&& 1) == 0

/-- Rust `as i16 as u32` on a `u16`/`i16`, i.e. sign extension (addressing_modes.rs L347, L376, L382, interpreter.rs L173 and others). -/
def sext16 (v : U16) : U32 := v.signExtend 32
/-- Rust `as i8 as u32`, i.e. sign extension (instruction.rs L938, L947, interpreter.rs L1026, utils.rs L98). -/
def sext8 (v : U8) : U32 := v.signExtend 32
/-- Rust truncation `as u8` (addressing_modes.rs L278, memory_access.rs L263-264 and others). -/
def toU8 {n} (v : BitVec n) : U8 := v.setWidth 8
/-- Rust truncation/extension `as u16` of an unsigned value (addressing_modes.rs L262, memory_access.rs L244 and others). -/
def toU16 {n} (v : BitVec n) : U16 := v.setWidth 16
/-- Rust extension `as u32` of an unsigned value (addressing_modes.rs L60-61 and others). -/
def toU32 {n} (v : BitVec n) : U32 := v.setWidth 32

/-- Rust `bool as uN` (utils.rs L128, L134, L162, L168: `carry as $t`). -/
def boolTo (n : Nat) (b : Bool) : BitVec n := if b then 1 else 0

/-- Rust `overflowing_add` on an unsigned type (utils.rs L161-162). -/
def overflowingAddU {n} (a b : BitVec n) : BitVec n × Bool := (a + b, BitVec.uaddOverflow a b)
/-- Rust `overflowing_sub` on an unsigned type (utils.rs L167-168). -/
def overflowingSubU {n} (a b : BitVec n) : BitVec n × Bool := (a - b, BitVec.usubOverflow a b)
/-- Rust `overflowing_add` on a signed type (utils.rs L127-128). -/
def overflowingAddS {n} (a b : BitVec n) : BitVec n × Bool := (a + b, BitVec.saddOverflow a b)
/-- Rust `overflowing_sub` on a signed type (utils.rs L133-134). -/
def overflowingSubS {n} (a b : BitVec n) : BitVec n × Bool := (a - b, BitVec.ssubOverflow a b)

/-- utils.rs L126-130 (signed `carryingadd`), reached through `signed_carrying_add` L138-140, L172-174. -/
def signedCarryingAdd {n} (self rhs : BitVec n) (carry : Bool) : BitVec n × Bool :=
  let (a, b) := overflowingAddS self rhs
  let (c, d) := overflowingAddS a (boolTo n carry)
  (c, b != d)

/-- utils.rs L160-164 (unsigned `carryingadd`), reached through `unsigned_carrying_add` L142-144, L176-178. -/
def unsignedCarryingAdd {n} (self rhs : BitVec n) (carry : Bool) : BitVec n × Bool :=
  let (a, b) := overflowingAddU self rhs
  let (c, d) := overflowingAddU a (boolTo n carry)
  (c, b || d)

/-- utils.rs L132-136 (signed `borrowingsub`), reached through `signed_borrowing_sub` L146-148, L180-182. -/
def signedBorrowingSub {n} (self rhs : BitVec n) (borrow : Bool) : BitVec n × Bool :=
  let (a, b) := overflowingSubS self rhs
  let (c, d) := overflowingSubS a (boolTo n borrow)
  (c, b != d)

/-- utils.rs L166-170 (unsigned `borrowingsub`), reached through `unsigned_borrowing_sub` L150-152, L184-186. -/
def unsignedBorrowingSub {n} (self rhs : BitVec n) (borrow : Bool) : BitVec n × Bool :=
  let (a, b) := overflowingSubU self rhs
  let (c, d) := overflowingSubU a (boolTo n borrow)
  (c, b || d)

end M68k
