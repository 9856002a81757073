import Verif.Model.StatusRegister
/-
Specification of the arithmetic and logic of the 68000 on integers: each operation gives the result
and the new status register, from the operands and the status register. `toNat` and `toInt` are the
unsigned and two's complement values of a bit vector.
-/
namespace M68k.Spec

/-- `z` is the value of an `n`-bit two's complement number. -/
def FitsS (n : Nat) (z : Int) : Prop := -(2 ^ (n - 1) : Int) ≤ z ∧ z < (2 ^ (n - 1) : Int)
instance (n : Nat) (z : Int) : Decidable (FitsS n z) := inferInstanceAs (Decidable (_ ∧ _))

/-- The sign of the two's complement value. -/
def neg {n : Nat} (v : BitVec n) : Bool := decide (v.toInt < 0)
/-- The value is zero. -/
def zero {n : Nat} (v : BitVec n) : Bool := decide (v.toNat = 0)

/-- The X flag as a number, for the extended operations. -/
def carryIn (extended : Bool) (sr : StatusRegister) : Nat := if extended && sr.x then 1 else 0

/-- Binary addition `d + s` (`+ X` when extended). The extended operations only clear Z. -/
def sum {n : Nat} (extended : Bool) (d s : BitVec n) (sr : StatusRegister) : BitVec n × StatusRegister :=
  let x := carryIn extended sr
  let r := BitVec.ofNat n (d.toNat + s.toNat + x)
  let carry := decide (2 ^ n ≤ d.toNat + s.toNat + x)
  (r, { sr with
    x := carry
    n := neg r
    z := zero r && (!extended || sr.z)
    v := decide ¬ FitsS n (d.toInt + s.toInt + x)
    c := carry })

/-- Binary subtraction `d - s` (`- X` when extended). -/
def difference {n : Nat} (extended : Bool) (d s : BitVec n) (sr : StatusRegister) :
    BitVec n × StatusRegister :=
  let x := carryIn extended sr
  let r := BitVec.ofInt n (d.toInt - s.toInt - x)
  let borrow := decide (d.toNat < s.toNat + x)
  (r, { sr with
    x := borrow
    n := neg r
    z := zero r && (!extended || sr.z)
    v := decide ¬ FitsS n (d.toInt - s.toInt - x)
    c := borrow })

/-- The flags of a comparison of `d` with `s`: those of `d - s`, X being kept. -/
def compareFlags {n : Nat} (d s : BitVec n) (sr : StatusRegister) : StatusRegister :=
  { (difference false d s sr).2 with x := sr.x }

/-- N and Z from the result, V and C cleared, X kept. -/
def logicFlags {n : Nat} (r : BitVec n) (sr : StatusRegister) : StatusRegister :=
  { sr with n := neg r, z := zero r, v := false, c := false }

/-! ### Shifts and rotations by `k` -/

/-- The flags common to the shifts: N and Z from the result, C the last bit moved out (clear for a
zero count) and X the same (kept for a zero count). -/
def shiftFlags {n : Nat} (k : Nat) (r : BitVec n) (out v : Bool) (sr : StatusRegister) : StatusRegister :=
  { sr with
    x := if k = 0 then sr.x else out
    n := neg r
    z := zero r
    v := v
    c := if k = 0 then false else out }

/-- Logical shift left: multiplication by `2^k`. -/
def lsl {n : Nat} (k : Nat) (d : BitVec n) (sr : StatusRegister) : BitVec n × StatusRegister :=
  let r := BitVec.ofNat n (d.toNat * 2 ^ k)
  (r, shiftFlags k r (d.toNat * 2 ^ k / 2 ^ n % 2 = 1) false sr)

/-- Arithmetic shift left: as `lsl`, V being set when the sign of an intermediate value differs. -/
def asl {n : Nat} (k : Nat) (d : BitVec n) (sr : StatusRegister) : BitVec n × StatusRegister :=
  let r := BitVec.ofNat n (d.toNat * 2 ^ k)
  let overflow := decide (¬ ∀ j, j ≤ k → neg (BitVec.ofNat n (d.toNat * 2 ^ j)) = neg d)
  (r, shiftFlags k r (d.toNat * 2 ^ k / 2 ^ n % 2 = 1) overflow sr)

/-- Logical shift right: unsigned division by `2^k`. -/
def lsr {n : Nat} (k : Nat) (d : BitVec n) (sr : StatusRegister) : BitVec n × StatusRegister :=
  let r := BitVec.ofNat n (d.toNat / 2 ^ k)
  (r, shiftFlags k r (d.toNat / 2 ^ (k - 1) % 2 = 1) false sr)

/-- Arithmetic shift right: signed division by `2^k`, rounding down. -/
def asr {n : Nat} (k : Nat) (d : BitVec n) (sr : StatusRegister) : BitVec n × StatusRegister :=
  let r := BitVec.ofInt n (d.toInt / 2 ^ k)
  (r, shiftFlags k r (d.toInt / 2 ^ (k - 1) % 2 = 1) false sr)

/-- Rotation left of the `n` bits: C is the last bit moved, which is the low bit of the result. -/
def rol {n : Nat} (k : Nat) (d : BitVec n) (sr : StatusRegister) : BitVec n × StatusRegister :=
  let j := k % n
  let r := BitVec.ofNat n (d.toNat * 2 ^ j + d.toNat / 2 ^ (n - j))
  (r, { sr with n := neg r, z := zero r, v := false, c := decide (k ≠ 0) && decide (r.toNat % 2 = 1) })

/-- Rotation right of the `n` bits: C is the last bit moved, which is the high bit of the result. -/
def ror {n : Nat} (k : Nat) (d : BitVec n) (sr : StatusRegister) : BitVec n × StatusRegister :=
  let j := k % n
  let r := BitVec.ofNat n (d.toNat / 2 ^ j + d.toNat * 2 ^ (n - j))
  (r, { sr with n := neg r, z := zero r, v := false, c := decide (k ≠ 0) && neg r })

/-- The `n+1` bits made of X above the operand. -/
def withX {n : Nat} (d : BitVec n) (sr : StatusRegister) : Nat := (if sr.x then 2 ^ n else 0) + d.toNat

/-- The result of a rotation with X: `w` holds X above the operand; C is the new X. -/
def roxResult (n : Nat) (w : Nat) (sr : StatusRegister) : BitVec n × StatusRegister :=
  let r := BitVec.ofNat n w
  let x := decide (w / 2 ^ n % 2 = 1)
  (r, { sr with x := x, n := neg r, z := zero r, v := false, c := x })

/-- Rotation left of the `n+1` bits X:operand. -/
def roxl {n : Nat} (k : Nat) (d : BitVec n) (sr : StatusRegister) : BitVec n × StatusRegister :=
  let j := k % (n + 1)
  roxResult n (withX d sr * 2 ^ j + withX d sr / 2 ^ (n + 1 - j)) sr

/-- Rotation right of the `n+1` bits X:operand. -/
def roxr {n : Nat} (k : Nat) (d : BitVec n) (sr : StatusRegister) : BitVec n × StatusRegister :=
  let j := k % (n + 1)
  roxResult n (withX d sr / 2 ^ j + withX d sr * 2 ^ (n + 1 - j)) sr

/-! ### Packed decimal -/

/-- Both digits of the byte are decimal. -/
def ValidBcd (b : BitVec 8) : Prop := b.toNat % 16 ≤ 9 ∧ b.toNat / 16 ≤ 9
instance (b : BitVec 8) : Decidable (ValidBcd b) := inferInstanceAs (Decidable (_ ∧ _))
/-- The number written by the two digits. -/
def fromBcd (b : BitVec 8) : Nat := b.toNat / 16 * 10 + b.toNat % 16
/-- The two digits of a number below 100. -/
def toBcd (k : Nat) : BitVec 8 := BitVec.ofNat 8 (k / 10 * 16 + k % 10)

/-! ### Conditions -/

/-- The sixteen conditions by number: T F HI LS CC CS NE EQ VC VS PL MI GE LT GT LE. -/
def holds (cc : Fin 16) (sr : StatusRegister) : Bool :=
  match cc with
  | 0 => true
  | 1 => false
  | 2 => !(sr.c || sr.z)
  | 3 => sr.c || sr.z
  | 4 => !sr.c
  | 5 => sr.c
  | 6 => !sr.z
  | 7 => sr.z
  | 8 => !sr.v
  | 9 => sr.v
  | 10 => !sr.n
  | 11 => sr.n
  | 12 => sr.n == sr.v
  | 13 => sr.n != sr.v
  | 14 => (sr.n == sr.v) && !sr.z
  | _ => (sr.n != sr.v) || sr.z

/-! ### The status register as a word -/

/-- The bits of the status register that exist: T, S, the interrupt mask and XNZVC. -/
def srBits : BitVec 16 := 0xA71F

/-- The 16-bit value of the status register, as a sum of powers of two. -/
def srValue (sr : StatusRegister) : Nat :=
  (if sr.t then 32768 else 0) + (if sr.s then 8192 else 0) + sr.interruptMask.toNat * 256 +
  (if sr.x then 16 else 0) + (if sr.n then 8 else 0) + (if sr.z then 4 else 0) +
  (if sr.v then 2 else 0) + (if sr.c then 1 else 0)

/-- The status register with the given 16-bit value; the bits that do not exist are ignored. -/
def srOf (w : BitVec 16) : StatusRegister where
  t := w.toNat / 32768 % 2 = 1
  s := w.toNat / 8192 % 2 = 1
  interruptMask := BitVec.ofNat 8 (w.toNat / 256 % 8)
  x := w.toNat / 16 % 2 = 1
  n := w.toNat / 8 % 2 = 1
  z := w.toNat / 4 % 2 = 1
  v := w.toNat / 2 % 2 = 1
  c := w.toNat % 2 = 1

/-- The 16-bit word of a status register whose mask may have more than 3 bits: each field is moved to
its place and the results are or-ed. It is `srValue` when the mask is at most 7. -/
def srWord (sr : StatusRegister) : BitVec 16 :=
  BitVec.ofNat 16 ((if sr.t then 32768 else 0) ||| (if sr.s then 8192 else 0) ||| sr.interruptMask.toNat * 256 |||
    (if sr.x then 16 else 0) ||| (if sr.n then 8 else 0) ||| (if sr.z then 4 else 0) |||
    (if sr.v then 2 else 0) ||| (if sr.c then 1 else 0))

/-- A logical operation between the status register and a word, field by field. -/
def srOp (fb : Bool → Bool → Bool) (fm : BitVec 8 → BitVec 8 → BitVec 8) (w : BitVec 16) (sr : StatusRegister) :
    StatusRegister where
  t := fb sr.t (srOf w).t
  s := fb sr.s (srOf w).s
  interruptMask := fm sr.interruptMask (srOf w).interruptMask
  x := fb sr.x (srOf w).x
  n := fb sr.n (srOf w).n
  z := fb sr.z (srOf w).z
  v := fb sr.v (srOf w).v
  c := fb sr.c (srOf w).c

/-- Replaces the five condition codes by the low bits of a word. -/
def withCcr (sr : StatusRegister) (w : BitVec 16) : StatusRegister :=
  { sr with x := (srOf w).x, n := (srOf w).n, z := (srOf w).z, v := (srOf w).v, c := (srOf w).c }

end M68k.Spec
