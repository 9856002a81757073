import Verif.Spec.Listing
import Verif.Spec.Reader
import Verif.Model.Slices
/-
What the command line disassembler should write.
-/
namespace M68k.Spec
open Reader

/-- A line of the listing: an address in base 16, a space, and the text of an instruction. -/
def addressed (l : List Char) : Option (Nat × List Char) :=
  match number l with
  | (.hex n, ' ' :: t) => some (n, t)
  | _ => none

/-- How the text of a decoded instruction reads: the word and its address if the decoder does not know the opcode, else the instruction with its operands. -/
def shown (i : Instruction) : Reading :=
  if decoder i.opcode = .Unknown then .unknown i.opcode.toNat i.pc.toNat
  else .instruction (decoder i.opcode) (inRegister (decoder i.opcode) i.opcode) i.operands.canonical

/-- The lines show the instructions, one each, in order: the address of the instruction and a text that reads as it. -/
inductive Shows : List (List Char) → List Instruction → Prop
  | nil : Shows [] []
  | cons {l t : List Char} {ls : List (List Char)} {i : Instruction} {is : List Instruction} :
    addressed l = some (i.pc.toNat, t) → line i.pc t = some (shown i) → Shows ls is → Shows (l :: ls) (i :: is)

/-- The bytes of words, the high byte of each first. -/
def bytesOf (ws : List U16) : List U8 := ws.flatMap fun w => [BitVec.ofNat 8 (w.toNat / 256), BitVec.ofNat 8 w.toNat]

/-- Decimal digits as characters, and their value. -/
def numeral (ds : List (Fin 10)) : List Char := ds.map fun d => Char.ofNat ('0'.toNat + d.val)
def numeralValue (ds : List (Fin 10)) : Nat := ds.foldl (fun n d => 10 * n + d.val) 0

end M68k.Spec
