import Verif.Spec.ClaimsBit
/-
Instructions that change an operand in a way another instruction undoes.
-/
namespace M68k.Spec
variable {M : Type} [MemoryAccess M]

/-- What an instruction makes of its operand `d`, given its source `x`. -/
inductive Change
  | plus
  | minus
  | differ
  | complement
  | negate

/-- The new value of the operand. -/
def Change.value {n : Nat} : Change → BitVec n → BitVec n → BitVec n
  | .plus, x, d => d + x
  | .minus, x, d => d - x
  | .differ, x, d => d ^^^ x
  | .complement, _, d => ~~~ d
  | .negate, _, d => - d

/-- The change that undoes a change. -/
def Change.inverse : Change → Change
  | .plus => .minus
  | .minus => .plus
  | c => c

/-- The change made by the instruction with opcode `op`. ADD and SUB are meant in the direction from a data register to the operand, ADDQ and SUBQ
not to an address register. -/
def changeOf (op : U16) : Option Change :=
  match instr op with
  | .Add => if flag op 8 then some .plus else none
  | .Sub => if flag op 8 then some .minus else none
  | .Addi => some .plus
  | .Subi => some .minus
  | .Addq => if regField op 3 = 1 then none else some .plus
  | .Subq => if regField op 3 = 1 then none else some .minus
  | .Eor | .Eori | .Bchg => some .differ
  | .Not => some .complement
  | .Neg => some .negate
  | _ => none

/-- The size of the operand: BCHG has long words in registers and bytes in memory. -/
def changeSize (op : U16) : Option Size :=
  if instr op = .Bchg then some (if regField op 3 = 0 then .Long else .Byte) else opSize op

/-- The source of the instruction: immediate data after the opcode, the data 1 to 8 in the opcode, a bit, the data register in the opcode; none for
NOT and NEG. -/
def changeSource (sz : Size) (op : U16) : Exec M (Val sz) :=
  match instr op with
  | .Addi | .Subi | .Eori => low sz <$> fetchImm sz
  | .Addq | .Subq => pure (BitVec.ofNat _ (if regField op 9 = 0 then 8 else (regField op 9).val))
  | .Bchg => (fun k => BitVec.twoPow _ (k % width sz)) <$> bitNumber op
  | .Not | .Neg => pure 0
  | _ => getR fun r => low sz (r.d (regField op 9))

end M68k.Spec
