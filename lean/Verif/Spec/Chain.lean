import Verif.Spec.Step
import Verif.Spec.Contents
import Verif.Spec.Claims
/-
Multi-precision arithmetic: chains of extended instructions over the limbs of large numbers.
-/
namespace M68k.Spec
variable {M : Type} [MemoryAccess M] [Ram M] {sz : Size}

/-- The operand at a data register or at an address is `v`. -/
def Has (s : St M) (p : Place) (v : Val sz) : Prop :=
  match p with
  | .dreg n => low sz (s.cpu.regs.d n) = v
  | .mem a => Holds s.mem a v
  | _ => False

/-- The places of the destination and of the source of ADDX, SUBX, ABCD and SBCD: two data registers, or the operands below
the addresses in Ax and Ay (one after the other if this is the same register). -/
def pairPlaces (sz : Size) (op : U16) (r : Registers) : Place × Place :=
  let x := regField op 9
  let y := regField op 0
  if op.toNat / 8 % 2 = 0 then (.dreg x, .dreg y)
  else (.mem (areg r x - step x sz - if x = y then step y sz else 0), .mem (areg r y - step y sz))

/-- A limb of the destination, of the source and of the result. -/
structure Limb (sz : Size) where
  d : Val sz
  v : Val sz
  r : Val sz

/-- One call of `interpreter_exception` takes `s` to `s'` by executing the instruction `i` (ADDX, SUBX, ABCD or SBCD): `l.d` and
`l.v` are its destination and source operands and `l.r` is what is at the destination afterwards. -/
def Combines (C : CpuDetails) (i : Isa) (s s' : St M) (l : Limb sz) : Prop :=
  ∃ op s1, Ready s op s1 ∧ instr op = i ∧ opSize op = some sz ∧ Completes C s s' ∧
    Has s (pairPlaces sz op s.cpu.regs).1 l.d ∧ Has s (pairPlaces sz op s.cpu.regs).2 l.v ∧
    Has s' (pairPlaces sz op s.cpu.regs).1 l.r

/-- As `Combines`, for the instructions with one operand (NEGX and NBCD): `l.1` is the operand, `l.2` what is there afterwards. -/
def Negates (C : CpuDetails) (i : Isa) (s s' : St M) (l : Val sz × Val sz) : Prop :=
  ∃ op s1 s2 p, Ready s op s1 ∧ instr op = i ∧ opSize op = some sz ∧ Completes C s s' ∧
    operand sz op s1 = .ok (p, l.1) s2 ∧ Has s' p l.2

/-- A chain of steps, one for each element of the list. What happens between two steps is free, but X and Z are at each step
what the previous step left (at the first step: those of `sr`). `sr'` is the status register after the last step. -/
inductive Chain {α : Type} (step : St M → St M → α → Prop) : StatusRegister → List α → StatusRegister → Prop
  | nil {sr : StatusRegister} : Chain step sr [] sr
  | cons {sr sr' : StatusRegister} {s s' : St M} {a : α} {l : List α} : s.cpu.regs.sr.x = sr.x → s.cpu.regs.sr.z = sr.z →
      step s s' a → Chain step s'.cpu.regs.sr l sr' → Chain step sr (a :: l) sr'

/-- The number whose limbs are given, least significant first. -/
def number : List (Val sz) → Nat
  | [] => 0
  | v :: t => v.toNat + 2 ^ width sz * number t

/-- The two's complement value of the `w`-bit number `k`. -/
def signed (w k : Nat) : Int := if 2 * k < 2 ^ w then k else k - 2 ^ w

/-- X as a number. -/
def extend (sr : StatusRegister) : Nat := if sr.x then 1 else 0

/-- `R` is the `w`-bit sum of `D`, `V` and `x`, and the condition codes are those of this addition, Z being that of the result if `z`
is set and clear otherwise. -/
structure WholeSum (w D V x : Nat) (z : Bool) (R : Nat) (sr' : StatusRegister) : Prop where
  value : R = (D + V + x) % 2 ^ w
  carry : sr'.c = true ↔ 2 ^ w ≤ D + V + x
  extend : sr'.x = sr'.c
  overflow : sr'.v = true ↔ ¬ FitsS w (signed w D + signed w V + x)
  negative : sr'.n = true ↔ signed w R < 0
  zero : sr'.z = true ↔ z = true ∧ R = 0

/-- As `WholeSum`, for the difference `D - V - x`. -/
structure WholeDifference (w D V x : Nat) (z : Bool) (R : Nat) (sr' : StatusRegister) : Prop where
  value : (R : Int) = ((D : Int) - V - x) % 2 ^ w
  borrow : sr'.c = true ↔ D < V + x
  extend : sr'.x = sr'.c
  overflow : sr'.v = true ↔ ¬ FitsS w (signed w D - signed w V - x)
  negative : sr'.n = true ↔ signed w R < 0
  zero : sr'.z = true ↔ z = true ∧ R = 0

/-! ### Numbers in memory -/

/-- The limbs, least significant first, are stored from the address `a` downwards: the memory below `a` holds the number,
most significant limb at the lowest address. -/
def LimbsBelow (m : M) (a : U32) (l : List (Val sz)) : Prop :=
  ∀ j (h : j < l.length), Holds m (a - BitVec.ofNat 32 (bytes sz * (j + 1))) l[j]

/-- `b` is one of the `n` addresses below `a`. -/
def Below (a : U32) (n : Nat) (b : U32) : Prop := ∃ o, 1 ≤ o ∧ o ≤ n ∧ b = a - BitVec.ofNat 32 o

/-- The same instruction `op` is executed `n` times. What is executed in between leaves the memory, X, Z and the two address
registers of the instruction (DBcc, for instance). -/
inductive Repeats (C : CpuDetails) (op : U16) : St M → Nat → St M → Prop
  | last {s s1 s' : St M} : Ready s op s1 → Completes C s s' → Repeats C op s 1 s'
  | next {s s1 t u s' : St M} {n : Nat} : Ready s op s1 → Completes C s t → u.mem = t.mem → u.cpu.regs.sr.x = t.cpu.regs.sr.x →
      u.cpu.regs.sr.z = t.cpu.regs.sr.z → areg u.cpu.regs (regField op 9) = areg t.cpu.regs (regField op 9) →
      areg u.cpu.regs (regField op 0) = areg t.cpu.regs (regField op 0) → Repeats C op u n s' → Repeats C op s (n + 1) s'

/-! ### Packed decimal -/

/-- The number whose packed decimal bytes are given, least significant first. -/
def decimal : List (BitVec 8) → Nat
  | [] => 0
  | v :: t => fromBcd v + 100 * decimal t

/-- Z after a chain and the decimal carry or borrow, in X and C. -/
structure DecimalCodes (carry : Prop) (z : Bool) (rs : List (BitVec 8)) (sr' : StatusRegister) : Prop where
  carry : sr'.c = true ↔ carry
  extend : sr'.x = sr'.c
  zero : sr'.z = true ↔ z = true ∧ decimal rs = 0

end M68k.Spec
