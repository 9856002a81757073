import Verif.Props.Demo
/-
A concrete state with more memory than the program.
-/
namespace M68k.Demo
open M68k

/-- As `st`, the memory being extended with zeros to `n` words. -/
def ram (words : List U16) (n : Nat) (r : Registers) : St WordSlice := st (words ++ List.replicate (n - words.length) 0) r

end M68k.Demo
