import Verif.Model.Basic
/-
Models `m68000/src/status_register.rs`.
-/
namespace M68k

/-- status_register.rs L14-31. `interrupt_mask` is a full `u8` as in the Rust structure. -/
structure StatusRegister where
  t : Bool
  s : Bool
  interruptMask : U8
  x : Bool
  n : Bool
  z : Bool
  v : Bool
  c : Bool
deriving DecidableEq, Repr

namespace StatusRegister

/-- status_register.rs L37-99 and the table L101-104 with `condition` L107-109.
`none` models the out-of-bounds panic for `cc > 15`. -/
def condition (sr : StatusRegister) (cc : U8) : Option Bool :=
  match cc.toNat with
  | 0 => some true
  | 1 => some false
  | 2 => some (!sr.c && !sr.z)
  | 3 => some (sr.c || sr.z)
  | 4 => some (!sr.c)
  | 5 => some sr.c
  | 6 => some (!sr.z)
  | 7 => some sr.z
  | 8 => some (!sr.v)
  | 9 => some sr.v
  | 10 => some (!sr.n)
  | 11 => some sr.n
  | 12 => some (sr.n && sr.v || !sr.n && !sr.v)
  | 13 => some (sr.n && !sr.v || !sr.n && sr.v)
  | 14 => some (sr.n && sr.v && !sr.z || !sr.n && !sr.v && !sr.z)
  | 15 => some (sr.z || sr.n && !sr.v || !sr.n && sr.v)
  | _ => none

/-- status_register.rs L112-118. -/
def setCcr (sr : StatusRegister) (w : U16) : StatusRegister :=
  { sr with x := bit w 4, n := bit w 3, z := bit w 2, v := bit w 1, c := bit w 0 }

/-- status_register.rs L128-141: `From<u16>`. -/
def ofU16 (w : U16) : StatusRegister where
  t := bit w 15
  s := bit w 13
  interruptMask := toU8 (bits w 8 10)
  x := bit w 4
  n := bit w 3
  z := bit w 2
  v := bit w 1
  c := bit w 0

/-- status_register.rs L143-154: `From<StatusRegister> for u16`. -/
def toU16 (sr : StatusRegister) : U16 :=
  boolTo 16 sr.t <<< 15 |||
  boolTo 16 sr.s <<< 13 |||
  M68k.toU16 sr.interruptMask <<< 8 |||
  boolTo 16 sr.x <<< 4 |||
  boolTo 16 sr.n <<< 3 |||
  boolTo 16 sr.z <<< 2 |||
  boolTo 16 sr.v <<< 1 |||
  boolTo 16 sr.c

/-- status_register.rs L35: `DEFAULT`. -/
def DEFAULT : U16 := 0x2700
/-- status_register.rs L121-126: `Default`. -/
def default : StatusRegister := ofU16 DEFAULT

/-- status_register.rs L156-167: `BitAndAssign<u16>`. -/
def andAssign (sr : StatusRegister) (rhs : U16) : StatusRegister where
  t := sr.t && bit rhs 15
  s := sr.s && bit rhs 13
  interruptMask := sr.interruptMask &&& toU8 (bits rhs 8 10)
  x := sr.x && bit rhs 4
  n := sr.n && bit rhs 3
  z := sr.z && bit rhs 2
  v := sr.v && bit rhs 1
  c := sr.c && bit rhs 0

/-- status_register.rs L169-180: `BitOrAssign<u16>`. -/
def orAssign (sr : StatusRegister) (rhs : U16) : StatusRegister where
  t := sr.t || bit rhs 15
  s := sr.s || bit rhs 13
  interruptMask := sr.interruptMask ||| toU8 (bits rhs 8 10)
  x := sr.x || bit rhs 4
  n := sr.n || bit rhs 3
  z := sr.z || bit rhs 2
  v := sr.v || bit rhs 1
  c := sr.c || bit rhs 0

/-- status_register.rs L182-193: `BitXorAssign<u16>`. -/
def xorAssign (sr : StatusRegister) (rhs : U16) : StatusRegister where
  t := sr.t != bit rhs 15
  s := sr.s != bit rhs 13
  interruptMask := sr.interruptMask ^^^ toU8 (bits rhs 8 10)
  x := sr.x != bit rhs 4
  n := sr.n != bit rhs 3
  z := sr.z != bit rhs 2
  v := sr.v != bit rhs 1
  c := sr.c != bit rhs 0

end StatusRegister
end M68k
