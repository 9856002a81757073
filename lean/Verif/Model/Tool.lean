import Verif.Model.Text
import Verif.Model.Slices
/-
The command line disassembler, `m68000/src/bin/disassemble.rs`. `usize` has 64 bits.
-/
namespace M68k

/-- disassemble.rs L18-67: how the program ends: exit with the usage text, a panic, the end of `main`, or not within the given number of turns of the loop. -/
inductive ToolEnd
  | usage | panic | done | running
deriving DecidableEq

/-- The digits of a decimal number, for `parse::<usize>` in disassemble.rs L38-39; `none` if there is another character. -/
def decimalDigits : Nat → Text → Option Nat
  | n, [] => some n
  | n, c :: cs => if '0'.toNat ≤ c.toNat ∧ c.toNat ≤ '9'.toNat then decimalDigits (10 * n + (c.toNat - '0'.toNat)) cs else none

/-- disassemble.rs L38-39: `str::parse::<usize>`, from its documentation: an optional `+`, at least one digit, no overflow. -/
def parseUsize (t : Text) : Option Nat :=
  let digits := if t.head? = some '+' then t.tail else t
  if digits = [] then none
  else match decimalDigits 0 digits with
    | some n => if n < 2 ^ 64 then some n else none
    | none => none

/-- disassemble.rs L31-33: the options. -/
structure ToolOptions where
  outname : Text
  beg : Nat
  stop : Nat
deriving DecidableEq

/-- disassemble.rs L31-33: their values at the beginning. -/
def ToolOptions.default : ToolOptions := ⟨[], 0, 2 ^ 64 - 1⟩

/-- disassemble.rs L35-42: the loop over the arguments; `none` is a panic. -/
def toolOptions : List Text → ToolOptions → Option ToolOptions
  | [], o => some o
  | [_], _ => none
  | arg :: value :: args, o =>
    if arg = "-o".toList then toolOptions args { o with outname := value }
    else if arg = "-b".toList then
      match parseUsize value with
      | some n => toolOptions args { o with beg := n }
      | none => none
    else if arg = "-e".toList then
      match parseUsize value with
      | some n => toolOptions args { o with stop := n }
      | none => none
    else none

/-- disassemble.rs L61, L63: the format `{:#X} {}` of a line. -/
def toolLine (i : Nat) (dis : Text) : Text := Text.hex (BitVec.ofNat 64 i) ++ " ".toList ++ dis

/-- disassemble.rs L56-66: the loop; the lines written so far are returned also with a panic. -/
def toolLoop (stop : Nat) : Nat → Nat → Iter ByteSlice → List Text → ToolEnd × List Text
  | 0, i, _, out => if i < stop then (.running, out) else (.done, out)
  | turns + 1, i, it, out =>
    if i < stop then
      match Instruction.fromMemory it with
      | .ok inst it =>
        match Dis.dlut (decoder inst.opcode) inst with
        | some dis => toolLoop stop turns it.nextAddr.toNat it (out ++ [toolLine i dis])
        | none => (.panic, out)
      | .err _ _ => (.panic, out)
      | .panic => (.panic, out)
    else (.done, out)

/-- disassemble.rs L46-66: the listing of the content of a file. -/
def toolListing (data : List U8) (o : ToolOptions) (turns : Nat) : ToolEnd × List Text :=
  let stop := if o.stop > data.length then data.length else o.stop
  toolLoop stop turns o.beg ⟨⟨data⟩, BitVec.ofNat 32 o.beg⟩ []

/-- disassemble.rs L61, L63: the bytes of lines that are written to a file. -/
def linesBytes (ls : List Text) : List U8 := ls.flatMap fun l => (l ++ ['\n']).map fun c => BitVec.ofNat 8 c.toNat

/-- disassemble.rs L18-67: `main`. The files are a function from names to contents, and `creatable` says whether a file of that name can be created or truncated;
other names of the same file (links) are not modelled. `args` are the arguments without the name of the program. The results are the end of the program, the lines on the
standard output (the usage text is not modelled) and the files afterwards. Writes to the output do not fail. -/
def toolMain (creatable : Text → Bool) (files : Text → Option (List U8)) (args : List Text) (turns : Nat) : ToolEnd × List Text × (Text → Option (List U8)) :=
  if args.length < 1 ∨ args.length > 7 then (.usage, [], files)
  else
    let inname := args.headD []
    match files inname with
    | none => (.panic, [], files)
    | some _ =>
      match toolOptions args.tail .default with
      | none => (.panic, [], files)
      | some o =>
        if creatable o.outname then
          let files := fun name => if name = o.outname then some [] else files name
          let (e, out) := toolListing ((files inname).getD []) o turns
          (e, [], fun name => if name = o.outname then some (linesBytes out) else files name)
        else
          let (e, out) := toolListing ((files inname).getD []) o turns
          (e, out, files)

end M68k
