import Verif.Model.Isa
/-
The array of `Isa` written in a Rust source text.
-/
namespace M68k.Spec

/-- The names of the instructions in Rust sources. -/
def isaNames : List (String × Isa) := [("Unknown", .Unknown), ("Abcd", .Abcd), ("Add", .Add), ("Adda", .Adda), ("Addi", .Addi), ("Addq", .Addq),
  ("Addx", .Addx), ("And", .And), ("Andi", .Andi), ("Andiccr", .Andiccr), ("Andisr", .Andisr), ("Asm", .Asm),
  ("Asr", .Asr), ("Bcc", .Bcc), ("Bchg", .Bchg), ("Bclr", .Bclr), ("Bra", .Bra), ("Bset", .Bset),
  ("Bsr", .Bsr), ("Btst", .Btst), ("Chk", .Chk), ("Clr", .Clr), ("Cmp", .Cmp), ("Cmpa", .Cmpa),
  ("Cmpi", .Cmpi), ("Cmpm", .Cmpm), ("Dbcc", .Dbcc), ("Divs", .Divs), ("Divu", .Divu), ("Eor", .Eor),
  ("Eori", .Eori), ("Eoriccr", .Eoriccr), ("Eorisr", .Eorisr), ("Exg", .Exg), ("Ext", .Ext), ("Illegal", .Illegal),
  ("Jmp", .Jmp), ("Jsr", .Jsr), ("Lea", .Lea), ("Link", .Link), ("Lsm", .Lsm), ("Lsr", .Lsr),
  ("Move", .Move), ("Movea", .Movea), ("Moveccr", .Moveccr), ("Movefsr", .Movefsr), ("Movesr", .Movesr), ("Moveusp", .Moveusp),
  ("Movem", .Movem), ("Movep", .Movep), ("Moveq", .Moveq), ("Muls", .Muls), ("Mulu", .Mulu), ("Nbcd", .Nbcd),
  ("Neg", .Neg), ("Negx", .Negx), ("Nop", .Nop), ("Not", .Not), ("Or", .Or), ("Ori", .Ori),
  ("Oriccr", .Oriccr), ("Orisr", .Orisr), ("Pea", .Pea), ("Reset", .Reset), ("Rom", .Rom), ("Ror", .Ror),
  ("Roxm", .Roxm), ("Roxr", .Roxr), ("Rte", .Rte), ("Rtr", .Rtr), ("Rts", .Rts), ("Sbcd", .Sbcd),
  ("Scc", .Scc), ("Stop", .Stop), ("Sub", .Sub), ("Suba", .Suba), ("Subi", .Subi), ("Subq", .Subq),
  ("Subx", .Subx), ("Swap", .Swap), ("Tas", .Tas), ("Trap", .Trap), ("Trapv", .Trapv), ("Tst", .Tst),
  ("Unlk", .Unlk)]

/-- The instruction of a name. -/
def isaNamed (name : List Char) : Option Isa := (isaNames.find? fun p => p.1.toList == name).map Prod.snd

/-- Without the blanks and line ends on both sides. -/
def trim (l : List Char) : List Char :=
  ((l.dropWhile fun c => c == ' ' || c == '\n').reverse.dropWhile fun c => c == ' ' || c == '\n').reverse

/-- The parts between the commas. -/
def splitCommas : List Char → List (List Char)
  | [] => [[]]
  | c :: rest =>
    if c = ',' then [] :: splitCommas rest
    else match splitCommas rest with
      | [] => [[c]]
      | p :: ps => (c :: p) :: ps

/-- The elements of a list that may end with a comma. -/
def elements (l : List Char) : List (List Char) :=
  let ps := (splitCommas l).map trim
  if ps.getLast? = some [] then ps.dropLast else ps

/-- The array in the last pair of square brackets of a text. -/
def readTable (text : List Char) : Option (List Isa) :=
  (elements ((text.reverse.takeWhile (· ≠ '[')).reverse.takeWhile (· ≠ ']'))).mapM isaNamed

end M68k.Spec
