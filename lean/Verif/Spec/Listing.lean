import Verif.Spec.Words
/-
The listing of a program: what a host gets by calling `Instruction::from_memory` again and again on one iterator.
-/
namespace M68k.Spec
variable {M : Type} [MemoryAccess M]

/-- `Lists it is it'`: successive calls of `Instruction::from_memory` on the iterator `it` return the instructions `is`, and leave the iterator as `it'`. -/
inductive Lists : Iter M → List Instruction → Iter M → Prop
  | nil (it : Iter M) : Lists it [] it
  | cons {it it1 it2 : Iter M} {i : Instruction} {is : List Instruction} : Instruction.fromMemory it = .ok i it1 → Lists it1 is it2 → Lists it (i :: is) it2

/-- One line of a source program: the words it assembles to, the instruction and its operands (at an address). -/
structure Line where
  words : List U16
  isa : Isa
  operands : U32 → Operands

/-- The words of a program, line after line. -/
def programWords (p : List Line) : List U16 := (p.map (·.words)).flatten

/-- What a program placed at the address `a` consists of: each instruction has the address behind the words of the earlier ones. -/
def programAt (a : U32) : List Line → List Instruction
  | [] => []
  | l :: p => ⟨l.words.headD 0, a, l.operands a⟩ :: programAt (a + BitVec.ofNat 32 (2 * l.words.length)) p

end M68k.Spec
