import Verif.Model.Utils
/-
Multi-precision arithmetic with the carrying operators (C90).
-/
namespace M68k.Spec

/-- 1 or 0. -/
def carryNat (c : Bool) : Nat := if c then 1 else 0

/-- The number of the digits `l`, the least significant first, each of `n` bits. -/
def digits {n : Nat} : List (BitVec n) → Nat
  | [] => 0
  | d :: l => d.toNat + 2 ^ n * digits l

/-- An operator applied to the digits of two numbers one after the other, the least significant first, each with the carry of the one before. -/
def chain {n : Nat} (op : BitVec n → BitVec n → Bool → BitVec n × Bool) : List (BitVec n × BitVec n) → Bool → List (BitVec n) × Bool
  | [], c => ([], c)
  | (a, b) :: l, c => ((op a b c).1 :: (chain op l (op a b c).2).1, (chain op l (op a b c).2).2)

/-- The integer is one of the signed integers of `n` bits. -/
def InSigned (n : Nat) (x : Int) : Prop := -2 ^ (n - 1) ≤ x ∧ x < 2 ^ (n - 1)

end M68k.Spec
