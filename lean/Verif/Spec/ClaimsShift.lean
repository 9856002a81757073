import Verif.Spec.Claims
import Verif.Spec.Step
/-
What it means, on integers and bits, for a result and condition codes to be those of a shift or rotation
by `k` bits.
-/
namespace M68k.Spec

/-- The count of a register shift: the low six bits of a data register, or 1 to 8 in the opcode. -/
def countOf {M : Type} (s : St M) (op : U16) : Nat :=
  if flag op 5 then (s.cpu.regs.d (regField op 9)).toNat % 64
  else if regField op 9 = 0 then 8 else (regField op 9).val

/-- The condition codes of a shift by `k` with result `r` and last bit shifted out `out`: a zero count
clears C and keeps X. V is not among them. -/
structure ShiftCodes {n : Nat} (k : Nat) (out : Bool) (r : BitVec n) (sr sr' : StatusRegister) : Prop where
  negative : sr'.n = true ↔ r.toInt < 0
  zero : sr'.z = true ↔ r.toNat = 0
  carry : sr'.c = if k = 0 then false else out
  extend : sr'.x = if k = 0 then sr.x else out
  system : SameSystem sr sr'

/-- LSL. The last bit shifted out is bit `n - k`, a zero if `k > n`. -/
def IsLsl {n : Nat} (k : Nat) (d : BitVec n) (sr : StatusRegister) (r : BitVec n) (sr' : StatusRegister) : Prop :=
  r.toNat = d.toNat * 2 ^ k % 2 ^ n ∧
  ShiftCodes k (decide (k ≤ n) && d.getLsbD (n - k)) r sr sr' ∧ sr'.v = false

/-- ASL: as LSL, but V tells whether the sign changes at any time during the shift. -/
def IsAsl {n : Nat} (k : Nat) (d : BitVec n) (sr : StatusRegister) (r : BitVec n) (sr' : StatusRegister) : Prop :=
  r.toNat = d.toNat * 2 ^ k % 2 ^ n ∧
  ShiftCodes k (decide (k ≤ n) && d.getLsbD (n - k)) r sr sr' ∧
  (sr'.v = true ↔ ∃ j, j ≤ k ∧ (d <<< j).msb ≠ d.msb)

/-- LSR: unsigned division. -/
def IsLsr {n : Nat} (k : Nat) (d : BitVec n) (sr : StatusRegister) (r : BitVec n) (sr' : StatusRegister) : Prop :=
  r.toNat = d.toNat / 2 ^ k ∧ ShiftCodes k (d.getLsbD (k - 1)) r sr sr' ∧ sr'.v = false

/-- ASR: signed division, rounding down. Beyond the sign bit, copies of it are shifted out. -/
def IsAsr {n : Nat} (k : Nat) (d : BitVec n) (sr : StatusRegister) (r : BitVec n) (sr' : StatusRegister) : Prop :=
  r.toInt = d.toInt / 2 ^ k ∧ ShiftCodes k (if k ≤ n then d.getLsbD (k - 1) else d.msb) r sr sr' ∧ sr'.v = false

/-- ROL: bit `i` moves to bit `i + k` modulo `n`. C is the last bit moved, which arrives at bit 0; a zero
count clears it. X is kept. -/
structure IsRol {n : Nat} (k : Nat) (d : BitVec n) (sr : StatusRegister) (r : BitVec n) (sr' : StatusRegister) : Prop where
  bits : ∀ i, i < n → r.getLsbD ((i + k) % n) = d.getLsbD i
  negative : sr'.n = true ↔ r.toInt < 0
  zero : sr'.z = true ↔ r.toNat = 0
  overflow : sr'.v = false
  carry : sr'.c = (decide (k ≠ 0) && r.getLsbD 0)
  extend : sr'.x = sr.x
  system : SameSystem sr sr'

/-- ROR: bit `i + k` modulo `n` moves to bit `i`. The last bit moved arrives at the sign bit. -/
structure IsRor {n : Nat} (k : Nat) (d : BitVec n) (sr : StatusRegister) (r : BitVec n) (sr' : StatusRegister) : Prop where
  bits : ∀ i, i < n → r.getLsbD i = d.getLsbD ((i + k) % n)
  negative : sr'.n = true ↔ r.toInt < 0
  zero : sr'.z = true ↔ r.toNat = 0
  overflow : sr'.v = false
  carry : sr'.c = (decide (k ≠ 0) && r.getLsbD (n - 1))
  extend : sr'.x = sr.x
  system : SameSystem sr sr'

/-- Bit `i` of the `n + 1` bits made of `x` above the operand. -/
def bitX {n : Nat} (x : Bool) (v : BitVec n) (i : Nat) : Bool := if i = n then x else v.getLsbD i

/-- ROXL: among the `n + 1` bits X:operand, bit `i` moves to bit `i + k` modulo `n + 1`. C is the new X. -/
structure IsRoxl {n : Nat} (k : Nat) (d : BitVec n) (sr : StatusRegister) (r : BitVec n) (sr' : StatusRegister) : Prop where
  bits : ∀ i, i ≤ n → bitX sr'.x r ((i + k) % (n + 1)) = bitX sr.x d i
  negative : sr'.n = true ↔ r.toInt < 0
  zero : sr'.z = true ↔ r.toNat = 0
  overflow : sr'.v = false
  carry : sr'.c = sr'.x
  system : SameSystem sr sr'

/-- ROXR: among the `n + 1` bits X:operand, bit `i + k` modulo `n + 1` moves to bit `i`. -/
structure IsRoxr {n : Nat} (k : Nat) (d : BitVec n) (sr : StatusRegister) (r : BitVec n) (sr' : StatusRegister) : Prop where
  bits : ∀ i, i ≤ n → bitX sr'.x r i = bitX sr.x d ((i + k) % (n + 1))
  negative : sr'.n = true ↔ r.toInt < 0
  zero : sr'.z = true ↔ r.toNat = 0
  overflow : sr'.v = false
  carry : sr'.c = sr'.x
  system : SameSystem sr sr'

end M68k.Spec
