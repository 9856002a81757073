import Verif.Spec.Alu
/-
What it means, on integers, for a result and condition codes to be those of an operation.
-/
namespace M68k.Spec

/-- T, S and the interrupt mask are the same. -/
def SameSystem (sr sr' : StatusRegister) : Prop :=
  sr'.t = sr.t ∧ sr'.s = sr.s ∧ sr'.interruptMask = sr.interruptMask

/-- `r` is the `n`-bit sum of `d`, `s` and `x`, and the condition codes of `sr'` are those of the
addition. Z is not among them. -/
structure SumCodes {n : Nat} (d s : BitVec n) (x : Nat) (sr : StatusRegister) (r : BitVec n) (sr' : StatusRegister) : Prop where
  value : r.toNat = (d.toNat + s.toNat + x) % 2 ^ n
  carry : sr'.c = true ↔ 2 ^ n ≤ d.toNat + s.toNat + x
  extend : sr'.x = sr'.c
  overflow : sr'.v = true ↔ ¬ FitsS n (d.toInt + s.toInt + x)
  negative : sr'.n = true ↔ r.toInt < 0
  system : SameSystem sr sr'

/-- `r` is the `n`-bit difference `d - s - x`, and the condition codes of `sr'` are those of the
subtraction. Z is not among them. -/
structure DifferenceCodes {n : Nat} (d s : BitVec n) (x : Nat) (sr : StatusRegister) (r : BitVec n) (sr' : StatusRegister) : Prop where
  value : (r.toNat : Int) = ((d.toNat : Int) - s.toNat - x) % 2 ^ n
  borrow : sr'.c = true ↔ d.toNat < s.toNat + x
  extend : sr'.x = sr'.c
  overflow : sr'.v = true ↔ ¬ FitsS n (d.toInt - s.toInt - x)
  negative : sr'.n = true ↔ r.toInt < 0
  system : SameSystem sr sr'

/-- Result and condition codes of the addition `d + s`. -/
def IsSum {n : Nat} (d s : BitVec n) (sr : StatusRegister) (r : BitVec n) (sr' : StatusRegister) : Prop :=
  SumCodes d s 0 sr r sr' ∧ (sr'.z = true ↔ r.toNat = 0)

/-- Result and condition codes of the subtraction `d - s`. -/
def IsDifference {n : Nat} (d s : BitVec n) (sr : StatusRegister) (r : BitVec n) (sr' : StatusRegister) : Prop :=
  DifferenceCodes d s 0 sr r sr' ∧ (sr'.z = true ↔ r.toNat = 0)

/-- The condition codes of a logical operation or a move with result `r`: N and Z from the result,
V and C clear, the rest of the status register as before. -/
structure LogicCodes {n : Nat} (r : BitVec n) (sr sr' : StatusRegister) : Prop where
  negative : sr'.n = true ↔ r.toInt < 0
  zero : sr'.z = true ↔ r.toNat = 0
  overflow : sr'.v = false
  carry : sr'.c = false
  extend : sr'.x = sr.x
  system : SameSystem sr sr'

/-- The conditions tested by Bcc, DBcc and Scc (numbers of `holds`) decide the order of `d` and `s`,
and neither X nor the system byte changed. VC/VS tell whether `d - s` fits and PL/MI the sign of its
`n` low bits. -/
structure OrderCodes {n : Nat} (d s : BitVec n) (sr sr' : StatusRegister) : Prop where
  t : holds 0 sr' = true
  f : holds 1 sr' = false
  hi : holds 2 sr' = true ↔ s.toNat < d.toNat
  ls : holds 3 sr' = true ↔ d.toNat ≤ s.toNat
  cc : holds 4 sr' = true ↔ s.toNat ≤ d.toNat
  cs : holds 5 sr' = true ↔ d.toNat < s.toNat
  ne : holds 6 sr' = true ↔ d ≠ s
  eq : holds 7 sr' = true ↔ d = s
  vc : holds 8 sr' = true ↔ FitsS n (d.toInt - s.toInt)
  vs : holds 9 sr' = true ↔ ¬ FitsS n (d.toInt - s.toInt)
  pl : holds 10 sr' = true ↔ 0 ≤ (d - s).toInt
  mi : holds 11 sr' = true ↔ (d - s).toInt < 0
  ge : holds 12 sr' = true ↔ s.toInt ≤ d.toInt
  lt : holds 13 sr' = true ↔ d.toInt < s.toInt
  gt : holds 14 sr' = true ↔ s.toInt < d.toInt
  le : holds 15 sr' = true ↔ d.toInt ≤ s.toInt
  extend : sr'.x = sr.x
  system : SameSystem sr sr'

end M68k.Spec
