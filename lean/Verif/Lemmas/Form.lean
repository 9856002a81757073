import Verif.Lemmas.Table
/-
The forms of the opcodes of the decoder table.
-/
namespace M68k.Exec

/-- The fixed bits of each opcode of the table and what the assembler demands of its effective address. -/
def formCheck (i : Isa) (n : Nat) : Bool :=
  let mode := n / 8 % 8
  let reg := n % 8
  let sz := n / 64 % 4
  let bit8 := n / 256 % 2
  let line := n / 4096
  match i with
  | .Add => line == 13 && sz != 3
  | .Sub => line == 9 && sz != 3
  | .And => line == 12 && sz != 3 && (bit8 == 1 || mode != 1)
  | .Or => line == 8 && sz != 3 && (bit8 == 1 || mode != 1)
  | .Cmp => line == 11 && bit8 == 0 && sz != 3
  | .Eor => line == 11 && bit8 == 1 && sz != 3
  | .Adda => line == 13 && sz == 3
  | .Suba => line == 9 && sz == 3
  | .Cmpa => line == 11 && sz == 3
  | .Addi => n / 256 == 6 && sz != 3
  | .Subi => n / 256 == 4 && sz != 3
  | .Andi => n / 256 == 2 && sz != 3
  | .Ori => n / 256 == 0 && sz != 3
  | .Eori => n / 256 == 10 && sz != 3
  | .Cmpi => n / 256 == 12 && sz != 3
  | .Addq => line == 5 && bit8 == 0 && sz != 3 && (sz != 0 || mode != 1)
  | .Subq => line == 5 && bit8 == 1 && sz != 3 && (sz != 0 || mode != 1)
  | .Neg => n / 256 == 0x44 && sz != 3
  | .Negx => n / 256 == 0x40 && sz != 3
  | .Not => n / 256 == 0x46 && sz != 3
  | .Tst => n / 256 == 0x4A && sz != 3
  | .Clr => n / 256 == 0x42 && sz != 3
  | .Nbcd => n / 64 == 0b0100100000
  | .Tas => n / 64 == 0b0100101011
  | .Moveccr => n / 64 == 0b0100010011
  | .Movesr => n / 64 == 0b0100011011
  | .Movefsr => n / 64 == 0b0100000011
  | .Pea => n / 64 == 0b0100100001
  | .Jmp => n / 64 == 0b0100111011
  | .Jsr => n / 64 == 0b0100111010
  | .Scc => line == 5 && sz == 3
  | .Mulu => line == 12 && n / 64 % 8 == 3
  | .Muls => line == 12 && n / 64 % 8 == 7
  | .Divu => line == 8 && n / 64 % 8 == 3
  | .Divs => line == 8 && n / 64 % 8 == 7
  | .Chk => line == 4 && n / 64 % 8 == 6
  | .Lea => line == 4 && n / 64 % 8 == 7
  | .Asm => n / 512 == 0b1110000 && sz == 3 && 2 ≤ mode
  | .Lsm => n / 512 == 0b1110001 && sz == 3 && 2 ≤ mode
  | .Roxm => n / 512 == 0b1110010 && sz == 3 && 2 ≤ mode
  | .Rom => n / 512 == 0b1110011 && sz == 3 && 2 ≤ mode
  | .Btst => if bit8 == 1 then line == 0 && n / 64 % 8 == 4 else n / 64 == 32
  | .Bchg => if bit8 == 1 then line == 0 && n / 64 % 8 == 5 else n / 64 == 33
  | .Bclr => if bit8 == 1 then line == 0 && n / 64 % 8 == 6 else n / 64 == 34
  | .Bset => if bit8 == 1 then line == 0 && n / 64 % 8 == 7 else n / 64 == 35
  | .Move => line < 4
  | .Movea => line < 4 && n / 64 % 8 == 1 && line != 1
  | .Movem => n / 2048 == 9 && n / 128 % 8 == 1 && (n / 1024 % 2 == 1 || mode != 7 || reg ≤ 1)
  | .Movep => line == 0 && bit8 == 1 && mode == 1
  | .Moveq => line == 7 && bit8 == 0
  | .Link => n / 8 == 0x4E50 / 8
  | .Unlk => n / 8 == 0x4E58 / 8
  | .Swap => n / 8 == 0x4840 / 8
  | .Ext => n / 8 == 0x4880 / 8 || n / 8 == 0x48C0 / 8
  | .Exg => line == 12 && bit8 == 1 && (n / 8 % 32 == 8 || n / 8 % 32 == 9 || n / 8 % 32 == 17)
  | .Trap => n / 16 == 0x4E4
  | .Moveusp => n / 16 == 0x4E6
  | .Dbcc => line == 5 && n / 8 % 32 == 25
  | .Bra => n / 256 == 0x60
  | .Bsr => n / 256 == 0x61
  | .Bcc => line == 6 && 2 ≤ n / 256 % 16
  | .Abcd => line == 12 && n / 16 % 32 == 16
  | .Sbcd => line == 8 && n / 16 % 32 == 16
  | .Addx => line == 13 && bit8 == 1 && sz != 3 && n / 16 % 4 == 0
  | .Subx => line == 9 && bit8 == 1 && sz != 3 && n / 16 % 4 == 0
  | .Cmpm => line == 11 && bit8 == 1 && sz != 3 && mode == 1
  | .Asr => line == 14 && sz != 3 && n / 8 % 4 == 0
  | .Lsr => line == 14 && sz != 3 && n / 8 % 4 == 1
  | .Roxr => line == 14 && sz != 3 && n / 8 % 4 == 2
  | .Ror => line == 14 && sz != 3 && n / 8 % 4 == 3
  | .Illegal => n == 0x4AFC
  | .Nop => n == 0x4E71
  | .Reset => n == 0x4E70
  | .Rte => n == 0x4E73
  | .Rtr => n == 0x4E77
  | .Rts => n == 0x4E75
  | .Trapv => n == 0x4E76
  | .Stop => n == 0x4E72
  | .Andiccr => n == 0x023C
  | .Andisr => n == 0x027C
  | .Eoriccr => n == 0x0A3C
  | .Eorisr => n == 0x0A7C
  | .Oriccr => n == 0x003C
  | .Orisr => n == 0x007C
  | .Unknown => true

set_option maxRecDepth 100000 in
set_option maxHeartbeats 4000000 in
theorem formCheck_all : checkTable formCheck = true := by apply checkTable_intro <;> decide +kernel

theorem decoder_form (op : U16) : formCheck (decoder op) op.toNat = true := decoder_of_check formCheck formCheck_all op

end M68k.Exec
