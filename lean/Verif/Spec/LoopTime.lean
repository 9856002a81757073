import Verif.Spec.Loop
/-
The time of loops that end with DBF.
-/
namespace M68k.Spec

/-- The times of the instructions executed by a loop of an instruction that takes `body` and of DBF, with the counter word `c`: `c` times the instruction and DBF that branches,
then the instruction and DBF that does not. -/
def loopTimes (body branch noBranch c : Nat) : List Nat := (List.replicate c [body, branch]).flatten ++ [body, noBranch]

end M68k.Spec
