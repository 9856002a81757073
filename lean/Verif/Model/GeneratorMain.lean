import Verif.Model.Generator
import Verif.Model.Text
/-
Model of `main` of m68000/src/bin/decoder.rs, which prints the decoder table as Rust source.

The file is the list of the characters written to it (all ASCII). Each `file.write` returns an error or the number of bytes it has taken; a panic is `none`.
-/
namespace M68k

/-- isa.rs L14: the derived `Debug` of `Isa`, with any width: the name of the variant (the derived implementation of a variant without fields is
`f.write_str`, which does not pad). -/
def Isa.debugText : Isa → Text
  | .Unknown => "Unknown".toList
  | .Abcd => "Abcd".toList
  | .Add => "Add".toList
  | .Adda => "Adda".toList
  | .Addi => "Addi".toList
  | .Addq => "Addq".toList
  | .Addx => "Addx".toList
  | .And => "And".toList
  | .Andi => "Andi".toList
  | .Andiccr => "Andiccr".toList
  | .Andisr => "Andisr".toList
  | .Asm => "Asm".toList
  | .Asr => "Asr".toList
  | .Bcc => "Bcc".toList
  | .Bchg => "Bchg".toList
  | .Bclr => "Bclr".toList
  | .Bra => "Bra".toList
  | .Bset => "Bset".toList
  | .Bsr => "Bsr".toList
  | .Btst => "Btst".toList
  | .Chk => "Chk".toList
  | .Clr => "Clr".toList
  | .Cmp => "Cmp".toList
  | .Cmpa => "Cmpa".toList
  | .Cmpi => "Cmpi".toList
  | .Cmpm => "Cmpm".toList
  | .Dbcc => "Dbcc".toList
  | .Divs => "Divs".toList
  | .Divu => "Divu".toList
  | .Eor => "Eor".toList
  | .Eori => "Eori".toList
  | .Eoriccr => "Eoriccr".toList
  | .Eorisr => "Eorisr".toList
  | .Exg => "Exg".toList
  | .Ext => "Ext".toList
  | .Illegal => "Illegal".toList
  | .Jmp => "Jmp".toList
  | .Jsr => "Jsr".toList
  | .Lea => "Lea".toList
  | .Link => "Link".toList
  | .Lsm => "Lsm".toList
  | .Lsr => "Lsr".toList
  | .Move => "Move".toList
  | .Movea => "Movea".toList
  | .Moveccr => "Moveccr".toList
  | .Movefsr => "Movefsr".toList
  | .Movesr => "Movesr".toList
  | .Moveusp => "Moveusp".toList
  | .Movem => "Movem".toList
  | .Movep => "Movep".toList
  | .Moveq => "Moveq".toList
  | .Muls => "Muls".toList
  | .Mulu => "Mulu".toList
  | .Nbcd => "Nbcd".toList
  | .Neg => "Neg".toList
  | .Negx => "Negx".toList
  | .Nop => "Nop".toList
  | .Not => "Not".toList
  | .Or => "Or".toList
  | .Ori => "Ori".toList
  | .Oriccr => "Oriccr".toList
  | .Orisr => "Orisr".toList
  | .Pea => "Pea".toList
  | .Reset => "Reset".toList
  | .Rom => "Rom".toList
  | .Ror => "Ror".toList
  | .Roxm => "Roxm".toList
  | .Roxr => "Roxr".toList
  | .Rte => "Rte".toList
  | .Rtr => "Rtr".toList
  | .Rts => "Rts".toList
  | .Sbcd => "Sbcd".toList
  | .Scc => "Scc".toList
  | .Stop => "Stop".toList
  | .Sub => "Sub".toList
  | .Suba => "Suba".toList
  | .Subi => "Subi".toList
  | .Subq => "Subq".toList
  | .Subx => "Subx".toList
  | .Swap => "Swap".toList
  | .Tas => "Tas".toList
  | .Trap => "Trap".toList
  | .Trapv => "Trapv".toList
  | .Tst => "Tst".toList
  | .Unlk => "Unlk".toList

/-- bin/decoder.rs L20-38: `FILE_BEGIN`. -/
def fileBegin : Text := "// This Source Code Form is subject to the terms of the Mozilla Public\n// License, v. 2.0. If a copy of the MPL was not distributed with this\n// file, You can obtain one at https://mozilla.org/MPL/2.0/.\n\n//! Instruction decoding module.\n\nuse crate::isa::{Isa, Isa::*};\n\n/// Look up the Isa of the given opcode.\n///\n/// This is a look-up table. Use the raw opcode as the index in the array.\n///\n/// # Example\n///\n/// ```ignore\n/// let opcode = memory.get_word(instruction_address); // get the opcode\n/// let isa = DECODER[opcode as usize];\n/// ```\npub static DECODER: [Isa; 65536] = ".toList ++ ['[']

/-- bin/decoder.rs L40-42: `FILE_END`. -/
def fileEnd : Text := "\n];\n".toList

/-- bin/decoder.rs L55-59: the text of the entry `i`. -/
def entryText (opcodes : OpcodeTable) (i : Nat) : Text :=
  if i % 16 = 0 then "\n    ".toList ++ (opcodes i).debugText ++ ", ".toList else (opcodes i).debugText ++ ", ".toList

/-- bin/decoder.rs L50-68: the buffers written to the file, in order. -/
def mainBuffers (opcodes : OpcodeTable) : List Text := fileBegin :: ((List.range 65536).map (entryText opcodes) ++ [fileEnd])

/-- bin/decoder.rs L50, L61, L66: the calls of `file.write`. `write k buffer` is the result of the `k`-th call: `none` is an error, on which `main` panics,
and `some n` says that the first `n` bytes have been written. `main` does not look at `n`. -/
def writeBuffers (write : Nat → Text → Option Nat) : Nat → List Text → Text → Option Text
  | _, [], file => some file
  | k, b :: rest, file => (write k b).bind fun n => writeBuffers write (k + 1) rest (file ++ b.take n)

/-- bin/decoder.rs L44-69: `main`. `created` tells whether `File::create` succeeds. Returns the contents of the file. -/
def decoderMain (created : Bool) (write : Nat → Text → Option Nat) : Option Text :=
  if created then generatedTable.bind fun opcodes => writeBuffers write 0 (mainBuffers opcodes) [] else none

end M68k
