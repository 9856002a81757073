import Verif.Model.Isa
/-
Model of m68000/src/bin/decoder.rs, the program that generates the decoder table.

The array `[Isa; 65536]` is a function from indices and a failed assertion, an index out of bounds or an
arithmetic overflow, all panics, are `none`. `&str` and `String` are lists of characters (they only hold
ASCII characters). `main` (L44-69) is in `GeneratorMain`.
-/
namespace M68k

/-- bin/decoder.rs L46: `[Isa; 65536]`. -/
abbrev OpcodeTable := Nat → Isa

/-- bin/decoder.rs L361-362: `assert_eq!(opcodes[index], Isa::Unknown); opcodes[index] = isa;`. -/
def OpcodeTable.assign (isa : Isa) (opcodes : OpcodeTable) (index : Nat) : Option OpcodeTable :=
  if index < 65536 ∧ opcodes index = .Unknown then some fun k => if k = index then isa else opcodes k else none

/-- bin/decoder.rs L106 and others: `opcodes[index] = isa;`. -/
def OpcodeTable.set (isa : Isa) (opcodes : OpcodeTable) (index : Nat) : Option OpcodeTable :=
  if index < 65536 then some fun k => if k = index then isa else opcodes k else none

/-- bin/decoder.rs L402-408, the loop of `bin_string_to_int`, on the characters from the last one. -/
def binStringLoop : List Char → (result mask : Nat) → Nat
  | [], result, _ => result
  | c :: rest, result, mask => binStringLoop rest (if c = '1' then result ||| mask else result) (mask <<< 1)

/-- bin/decoder.rs L397-411: `bin_string_to_int`. -/
def binStringToInt (s : List Char) : Nat := binStringLoop s.reverse 0 1

/-- bin/decoder.rs L418-426, the loop of `int_to_bin_string`. -/
def intToBinLoop (val : Nat) : (size mask : Nat) → List Char
  | 0, _ => []
  | size + 1, mask => (if val &&& mask ≠ 0 then '1' else '0') :: intToBinLoop val size (mask >>> 1)

/-- bin/decoder.rs L414-429: `int_to_bin_string`. `1 << (size - 1)` overflows when `size` is 0. -/
def intToBinString (val size : Nat) : Option (List Char) :=
  if size = 0 then none else some (intToBinLoop val size (1 <<< (size - 1)))

/-- bin/decoder.rs L335-349: the scan of the whole format when one list of values is left. `running` is
the variable of the inner loop (L342-345), when it is running. Returns `pos` and `len`. -/
def scanLast : List Char → (i : Nat) → (running : Option Char) → (pos len : Nat) → Nat × Nat
  | [], _, _, pos, len => (pos, len)
  | c :: rest, i, running, pos, len =>
    if running = some c then scanLast rest (i + 1) running pos (len + 1)
    else if c ≠ '0' ∧ c ≠ '1' then scanLast rest (i + 1) (some c) i (len + 1)
    else scanLast rest (i + 1) none pos len

/-- bin/decoder.rs L365-380: the scan for the first variable when several lists of values are left. The
inner loop (L372-375) has no bound: it panics when the variable ends the format. Returns `pos` and `len`. -/
def scanFirst : List Char → (i : Nat) → (running : Option Char) → (pos len : Nat) → Option (Nat × Nat)
  | [], _, none, pos, len => some (pos, len)
  | [], _, some _, _, _ => none
  | c :: rest, i, none, pos, len =>
    if c ≠ '0' ∧ c ≠ '1' then scanFirst rest (i + 1) (some c) i (len + 1) else scanFirst rest (i + 1) none pos len
  | c :: rest, i, some v, pos, len =>
    if c = v then scanFirst rest (i + 1) (some v) pos (len + 1) else some (pos, len)

/-- bin/decoder.rs L352-359 and L383-390: the format with the variable at `pos` replaced by `value`. -/
def substitute (format : List Char) (pos len value : Nat) : Option (List Char) :=
  (intToBinString value len).map fun binStr => format.take pos ++ binStr ++ format.drop (pos + len)

/-- bin/decoder.rs L333-394: `generate_opcodes`. A format of another length than 16 is rejected: the
program reads out of bounds in a shorter one, and its literals all have 16 characters. -/
def generateOpcodes (isa : Isa) : (format : List Char) → (values : List (List Nat)) → OpcodeTable → Option OpcodeTable
  | _, [], _ => none
  | format, [vs], opcodes =>
    if format.length ≠ 16 then none
    else
      vs.foldlM (init := opcodes) fun opcodes value =>
        (substitute format (scanLast format 0 none 0 0).1 (scanLast format 0 none 0 0).2 value).bind fun s =>
          opcodes.assign isa (binStringToInt s)
  | format, vs :: v :: rest, opcodes =>
    if format.length ≠ 16 then none
    else
      (scanFirst format 0 none 0 0).bind fun (pos, len) =>
        vs.foldlM (init := opcodes) fun opcodes value =>
          (substitute format pos len value).bind fun s => generateOpcodes isa s (v :: rest) opcodes

/-- bin/decoder.rs L431. -/
def V0_1 : List Nat := [0, 1]
/-- bin/decoder.rs L432. -/
def V0_2 : List Nat := [0, 1, 2]
/-- bin/decoder.rs L433. -/
def V0__2_6 : List Nat := [0, 2, 3, 4, 5, 6]
/-- bin/decoder.rs L434. -/
def V0_3 : List Nat := [0, 1, 2, 3]
/-- bin/decoder.rs L435. -/
def V0_4 : List Nat := [0, 1, 2, 3, 4]
/-- bin/decoder.rs L436. -/
def V0_6 : List Nat := [0, 1, 2, 3, 4, 5, 6]
/-- bin/decoder.rs L437. -/
def V0_7 : List Nat := [0, 1, 2, 3, 4, 5, 6, 7]
/-- bin/decoder.rs L438. -/
def V0_15 : List Nat := [0, 1, 2, 3, 4, 5, 6, 7, 8, 9, 10, 11, 12, 13, 14, 15]
/-- bin/decoder.rs L439. -/
def V1_2 : List Nat := [1, 2]
/-- bin/decoder.rs L440. -/
def V1_3 : List Nat := [1, 2, 3]
/-- bin/decoder.rs L441. -/
def V2_3 : List Nat := [2, 3]
/-- bin/decoder.rs L442. -/
def V2__5_6 : List Nat := [2, 5, 6]
/-- bin/decoder.rs L443. -/
def V2_6 : List Nat := [2, 3, 4, 5, 6]
/-- bin/decoder.rs L444. -/
def V2_15 : List Nat := [2, 3, 4, 5, 6, 7, 8, 9, 10, 11, 12, 13, 14, 15]
/-- bin/decoder.rs L445. -/
def V4_6 : List Nat := [4, 5, 6]
/-- bin/decoder.rs L446. -/
def V4_7 : List Nat := [4, 5, 6, 7]
/-- bin/decoder.rs L447. -/
def V8_9__17 : List Nat := [8, 9, 17]
/-- bin/decoder.rs L448-454: `VBYTE`, the 256 bytes in order. -/
def VBYTE : List Nat := List.range 256

/-- A statement of `generate_isa`, bin/decoder.rs L72-323. -/
inductive GenStep where
  /-- `generate_opcodes(opcodes, format, values, isa)`. -/
  | opcodes (format : String) (values : List (List Nat)) (isa : Isa)
  /-- `opcodes[index] = isa`. -/
  | single (index : Nat) (isa : Isa)

/-- The effect of a statement of `generate_isa` (bin/decoder.rs L71-324). -/
def GenStep.run (opcodes : OpcodeTable) : GenStep → Option OpcodeTable
  | .opcodes format values isa => generateOpcodes isa format.toList values opcodes
  | .single index isa => opcodes.set isa index

/-- bin/decoder.rs L72-323: the statements of `generate_isa`, in order. -/
def genSteps : List GenStep := [
  .opcodes "1100aaa10000bccc" [V0_7, V0_1, V0_7] .Abcd,
  .opcodes "1101aaabbbcccddd" [V0_7, V0_2, V0__2_6, V0_7] .Add,
  .opcodes "1101aaabbb001ddd" [V0_7, V1_2, V0_7] .Add,
  .opcodes "1101aaabbb111ddd" [V0_7, V0_2, V0_4] .Add,
  .opcodes "1101aaabbbcccddd" [V0_7, V4_6, V2_6, V0_7] .Add,
  .opcodes "1101aaabbb111ddd" [V0_7, V4_6, V0_1] .Add,
  .opcodes "1101aaab11cccddd" [V0_7, V0_1, V0_6, V0_7] .Adda,
  .opcodes "1101aaab11111ddd" [V0_7, V0_1, V0_4] .Adda,
  .opcodes "00000110aabbbccc" [V0_2, V0__2_6, V0_7] .Addi,
  .opcodes "00000110aa111ccc" [V0_2, V0_1] .Addi,
  .opcodes "0101aaa0bbcccddd" [V0_7, V0_2, V0__2_6, V0_7] .Addq,
  .opcodes "0101aaa0bb111ddd" [V0_7, V0_2, V0_1] .Addq,
  .opcodes "0101aaa0bb001ddd" [V0_7, V1_2, V0_7] .Addq,
  .opcodes "1101aaa1bb00cddd" [V0_7, V0_2, V0_1, V0_7] .Addx,
  .opcodes "1100aaa0bbcccddd" [V0_7, V0_2, V0__2_6, V0_7] .And,
  .opcodes "1100aaa0bb111ddd" [V0_7, V0_2, V0_4] .And,
  .opcodes "1100aaa1bbcccddd" [V0_7, V0_2, V2_6, V0_7] .And,
  .opcodes "1100aaa1bb111ddd" [V0_7, V0_2, V0_1] .And,
  .opcodes "00000010aabbbccc" [V0_2, V0__2_6, V0_7] .Andi,
  .opcodes "00000010aa111ccc" [V0_2, V0_1] .Andi,
  .single 0x023C .Andiccr,
  .single 0x027C .Andisr,
  .opcodes "1110000a11bbbccc" [V0_1, V2_6, V0_7] .Asm,
  .opcodes "1110000a11111ccc" [V0_1, V0_1] .Asm,
  .opcodes "1110aaabccd00eee" [V0_7, V0_1, V0_2, V0_1, V0_7] .Asr,
  .opcodes "0110aaaabbbbbbbb" [V2_15, VBYTE] .Bcc,
  .opcodes "0000aaa101bbbccc" [V0_7, V0__2_6, V0_7] .Bchg,
  .opcodes "0000aaa101111ccc" [V0_7, V0_1] .Bchg,
  .opcodes "0000100001aaabbb" [V0__2_6, V0_7] .Bchg,
  .single 0x0878 .Bchg,
  .single 0x0879 .Bchg,
  .opcodes "0000aaa110bbbccc" [V0_7, V0__2_6, V0_7] .Bclr,
  .opcodes "0000aaa110111ccc" [V0_7, V0_1] .Bclr,
  .opcodes "0000100010aaabbb" [V0__2_6, V0_7] .Bclr,
  .single 0x08B8 .Bclr,
  .single 0x08B9 .Bclr,
  .opcodes "01100000aaaaaaaa" [VBYTE] .Bra,
  .opcodes "0000aaa111bbbccc" [V0_7, V0__2_6, V0_7] .Bset,
  .opcodes "0000aaa111111ccc" [V0_7, V0_1] .Bset,
  .opcodes "0000100011aaabbb" [V0__2_6, V0_7] .Bset,
  .single 0x08F8 .Bset,
  .single 0x08F9 .Bset,
  .opcodes "01100001aaaaaaaa" [VBYTE] .Bsr,
  .opcodes "0000aaa100bbbccc" [V0_7, V0__2_6, V0_7] .Btst,
  .opcodes "0000aaa100111ccc" [V0_7, V0_4] .Btst,
  .opcodes "0000100000aaabbb" [V0__2_6, V0_7] .Btst,
  .single 0x0838 .Btst,
  .single 0x0839 .Btst,
  .single 0x083A .Btst,
  .single 0x083B .Btst,
  .opcodes "0100aaa110bbbccc" [V0_7, V0__2_6, V0_7] .Chk,
  .opcodes "0100aaa110111ccc" [V0_7, V0_4] .Chk,
  .opcodes "01000010aabbbccc" [V0_2, V0__2_6, V0_7] .Clr,
  .opcodes "01000010aa111ccc" [V0_2, V0_1] .Clr,
  .opcodes "1011aaa000cccddd" [V0_7, V0__2_6, V0_7] .Cmp,
  .opcodes "1011aaa000111ddd" [V0_7, V0_4] .Cmp,
  .opcodes "1011aaa0bbcccddd" [V0_7, V1_2, V0_6, V0_7] .Cmp,
  .opcodes "1011aaa0bb111ddd" [V0_7, V1_2, V0_4] .Cmp,
  .opcodes "1011aaab11cccddd" [V0_7, V0_1, V0_6, V0_7] .Cmpa,
  .opcodes "1011aaab11111ddd" [V0_7, V0_1, V0_4] .Cmpa,
  .opcodes "00001100aabbbccc" [V0_2, V0__2_6, V0_7] .Cmpi,
  .opcodes "00001100aa111ccc" [V0_2, V0_1] .Cmpi,
  .opcodes "1011aaa1bb001ccc" [V0_7, V0_2, V0_7] .Cmpm,
  .opcodes "0101aaaa11001bbb" [V0_15, V0_7] .Dbcc,
  .opcodes "1000aaa111bbbccc" [V0_7, V0__2_6, V0_7] .Divs,
  .opcodes "1000aaa111111ccc" [V0_7, V0_4] .Divs,
  .opcodes "1000aaa011bbbccc" [V0_7, V0__2_6, V0_7] .Divu,
  .opcodes "1000aaa011111ccc" [V0_7, V0_4] .Divu,
  .opcodes "1011aaa1bbcccddd" [V0_7, V0_2, V0__2_6, V0_7] .Eor,
  .opcodes "1011aaa1bb111ddd" [V0_7, V0_2, V0_1] .Eor,
  .opcodes "00001010aabbbccc" [V0_2, V0__2_6, V0_7] .Eori,
  .opcodes "00001010aa111ccc" [V0_2, V0_1] .Eori,
  .single 0x0A3C .Eoriccr,
  .single 0x0A7C .Eorisr,
  .opcodes "1100aaa1bbbbbccc" [V0_7, V8_9__17, V0_7] .Exg,
  .opcodes "0100100aaa000bbb" [V2_3, V0_7] .Ext,
  .single 0x4AFC .Illegal,
  .opcodes "0100111011aaabbb" [V2__5_6, V0_7] .Jmp,
  .opcodes "0100111011111bbb" [V0_3] .Jmp,
  .opcodes "0100111010aaabbb" [V2__5_6, V0_7] .Jsr,
  .opcodes "0100111010111bbb" [V0_3] .Jsr,
  .opcodes "0100aaa111bbbccc" [V0_7, V2__5_6, V0_7] .Lea,
  .opcodes "0100aaa111111ccc" [V0_7, V0_3] .Lea,
  .opcodes "0100111001010aaa" [V0_7] .Link,
  .opcodes "1110001a11bbbccc" [V0_1, V2_6, V0_7] .Lsm,
  .opcodes "1110001a11111ccc" [V0_1, V0_1] .Lsm,
  .opcodes "1110aaabccd01eee" [V0_7, V0_1, V0_2, V0_1, V0_7] .Lsr,
  .opcodes "00aabbbcccdddeee" [V1_3, V0_7, V0__2_6, V0__2_6, V0_7] .Move,
  .opcodes "00aabbb111dddeee" [V1_3, V0_1, V0__2_6, V0_7] .Move,
  .opcodes "00aabbbccc111eee" [V1_3, V0_7, V0__2_6, V0_4] .Move,
  .opcodes "00aabbb111111eee" [V1_3, V0_1, V0_4] .Move,
  .opcodes "00aabbbccc001eee" [V2_3, V0_7, V0__2_6, V0_7] .Move,
  .opcodes "00aabbb111001eee" [V2_3, V0_1, V0_7] .Move,
  .opcodes "001abbb001cccddd" [V0_1, V0_7, V0_6, V0_7] .Movea,
  .opcodes "001abbb001111ddd" [V0_1, V0_7, V0_4] .Movea,
  .opcodes "0100010011aaabbb" [V0__2_6, V0_7] .Moveccr,
  .opcodes "0100010011111bbb" [V0_4] .Moveccr,
  .opcodes "0100000011aaabbb" [V0__2_6, V0_7] .Movefsr,
  .single 0x40F8 .Movefsr,
  .single 0x40F9 .Movefsr,
  .opcodes "0100011011aaabbb" [V0__2_6, V0_7] .Movesr,
  .opcodes "0100011011111bbb" [V0_4] .Movesr,
  .opcodes "010011100110abbb" [V0_1, V0_7] .Moveusp,
  .opcodes "010010001bcccddd" [V0_1, V2_6, V0_7] .Movem,
  .opcodes "010010001b111ddd" [V0_1, V0_1] .Movem,
  .opcodes "010011001bcccddd" [V0_1, V2_6, V0_7] .Movem,
  .opcodes "010011001b111ddd" [V0_1, V0_3] .Movem,
  .opcodes "0000aaabbb001ccc" [V0_7, V4_7, V0_7] .Movep,
  .opcodes "0111aaa0bbbbbbbb" [V0_7, VBYTE] .Moveq,
  .opcodes "1100aaa111bbbccc" [V0_7, V0__2_6, V0_7] .Muls,
  .opcodes "1100aaa111111ccc" [V0_7, V0_4] .Muls,
  .opcodes "1100aaa011bbbccc" [V0_7, V0__2_6, V0_7] .Mulu,
  .opcodes "1100aaa011111ccc" [V0_7, V0_4] .Mulu,
  .opcodes "0100100000aaabbb" [V0__2_6, V0_7] .Nbcd,
  .single 0x4838 .Nbcd,
  .single 0x4839 .Nbcd,
  .opcodes "01000100aabbbccc" [V0_2, V0__2_6, V0_7] .Neg,
  .opcodes "01000100aa111ccc" [V0_2, V0_1] .Neg,
  .opcodes "01000000aabbbccc" [V0_2, V0__2_6, V0_7] .Negx,
  .opcodes "01000000aa111ccc" [V0_2, V0_1] .Negx,
  .single 0x4E71 .Nop,
  .opcodes "01000110aabbbccc" [V0_2, V0__2_6, V0_7] .Not,
  .opcodes "01000110aa111ccc" [V0_2, V0_1] .Not,
  .opcodes "1000aaa0bbcccddd" [V0_7, V0_2, V0__2_6, V0_7] .Or,
  .opcodes "1000aaa0bb111ddd" [V0_7, V0_2, V0_4] .Or,
  .opcodes "1000aaa1bbcccddd" [V0_7, V0_2, V2_6, V0_7] .Or,
  .opcodes "1000aaa1bb111ddd" [V0_7, V0_2, V0_1] .Or,
  .opcodes "00000000aabbbccc" [V0_2, V0__2_6, V0_7] .Ori,
  .opcodes "00000000aa111ccc" [V0_2, V0_1] .Ori,
  .single 0x003C .Oriccr,
  .single 0x007C .Orisr,
  .opcodes "0100100001aaabbb" [V2__5_6, V0_7] .Pea,
  .opcodes "0100100001111bbb" [V0_3] .Pea,
  .single 0x4E70 .Reset,
  .opcodes "1110011a11bbbccc" [V0_1, V2_6, V0_7] .Rom,
  .opcodes "1110011a11111ccc" [V0_1, V0_1] .Rom,
  .opcodes "1110aaabccd11eee" [V0_7, V0_1, V0_2, V0_1, V0_7] .Ror,
  .opcodes "1110010a11bbbccc" [V0_1, V2_6, V0_7] .Roxm,
  .opcodes "1110010a11111ccc" [V0_1, V0_1] .Roxm,
  .opcodes "1110aaabccd10eee" [V0_7, V0_1, V0_2, V0_1, V0_7] .Roxr,
  .single 0x4E73 .Rte,
  .single 0x4E77 .Rtr,
  .single 0x4E75 .Rts,
  .opcodes "1000aaa10000bccc" [V0_7, V0_1, V0_7] .Sbcd,
  .opcodes "0101aaaa11bbbccc" [V0_15, V0__2_6, V0_7] .Scc,
  .opcodes "0101aaaa11111ccc" [V0_15, V0_1] .Scc,
  .single 0x4E72 .Stop,
  .opcodes "1001aaabbbcccddd" [V0_7, V0_2, V0__2_6, V0_7] .Sub,
  .opcodes "1001aaabbb001ddd" [V0_7, V1_2, V0_7] .Sub,
  .opcodes "1001aaabbb111ddd" [V0_7, V0_2, V0_4] .Sub,
  .opcodes "1001aaabbbcccddd" [V0_7, V4_6, V2_6, V0_7] .Sub,
  .opcodes "1001aaabbb111ddd" [V0_7, V4_6, V0_1] .Sub,
  .opcodes "1001aaab11cccddd" [V0_7, V0_1, V0_6, V0_7] .Suba,
  .opcodes "1001aaab11111ddd" [V0_7, V0_1, V0_4] .Suba,
  .opcodes "00000100aabbbccc" [V0_2, V0__2_6, V0_7] .Subi,
  .opcodes "00000100aa111ccc" [V0_2, V0_1] .Subi,
  .opcodes "0101aaa1bbcccddd" [V0_7, V0_2, V0__2_6, V0_7] .Subq,
  .opcodes "0101aaa1bb111ddd" [V0_7, V0_2, V0_1] .Subq,
  .opcodes "0101aaa1bb001ddd" [V0_7, V1_2, V0_7] .Subq,
  .opcodes "1001aaa1bb00cddd" [V0_7, V0_2, V0_1, V0_7] .Subx,
  .opcodes "0100100001000aaa" [V0_7] .Swap,
  .opcodes "0100101011aaabbb" [V0__2_6, V0_7] .Tas,
  .single 0x4AF8 .Tas,
  .single 0x4AF9 .Tas,
  .opcodes "010011100100aaaa" [V0_15] .Trap,
  .single 0x4E76 .Trapv,
  .opcodes "01001010aabbbccc" [V0_2, V0__2_6, V0_7] .Tst,
  .opcodes "01001010aa111ccc" [V0_2, V0_1] .Tst,
  .opcodes "0100111001011aaa" [V0_7] .Unlk]

/-- bin/decoder.rs L71-324: `generate_isa`. -/
def generateIsa (opcodes : OpcodeTable) : Option OpcodeTable := genSteps.foldlM GenStep.run opcodes

/-- bin/decoder.rs L46-48: the array `main` prints. -/
def generatedTable : Option OpcodeTable := generateIsa fun _ => .Unknown

end M68k
