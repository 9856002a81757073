import Verif.Lemmas.GeneratorTable
/-
The check of the generated table, evaluated by the kernel line by line.
-/
namespace M68k.Gen

abbrev b0 : Field := (1, [0])
abbrev b1 : Field := (1, [1])

/-- The statements of the generator as fields. -/
def entries : List Entry := [
  ([b1, b1, b0, b0, (3, V0_7), b1, b0, b0, b0, b0, (1, V0_1), (3, V0_7)], .Abcd),
  ([b1, b1, b0, b1, (3, V0_7), (3, V0_2), (3, V0__2_6), (3, V0_7)], .Add),
  ([b1, b1, b0, b1, (3, V0_7), (3, V1_2), b0, b0, b1, (3, V0_7)], .Add),
  ([b1, b1, b0, b1, (3, V0_7), (3, V0_2), b1, b1, b1, (3, V0_4)], .Add),
  ([b1, b1, b0, b1, (3, V0_7), (3, V4_6), (3, V2_6), (3, V0_7)], .Add),
  ([b1, b1, b0, b1, (3, V0_7), (3, V4_6), b1, b1, b1, (3, V0_1)], .Add),
  ([b1, b1, b0, b1, (3, V0_7), (1, V0_1), b1, b1, (3, V0_6), (3, V0_7)], .Adda),
  ([b1, b1, b0, b1, (3, V0_7), (1, V0_1), b1, b1, b1, b1, b1, (3, V0_4)], .Adda),
  ([b0, b0, b0, b0, b0, b1, b1, b0, (2, V0_2), (3, V0__2_6), (3, V0_7)], .Addi),
  ([b0, b0, b0, b0, b0, b1, b1, b0, (2, V0_2), b1, b1, b1, (3, V0_1)], .Addi),
  ([b0, b1, b0, b1, (3, V0_7), b0, (2, V0_2), (3, V0__2_6), (3, V0_7)], .Addq),
  ([b0, b1, b0, b1, (3, V0_7), b0, (2, V0_2), b1, b1, b1, (3, V0_1)], .Addq),
  ([b0, b1, b0, b1, (3, V0_7), b0, (2, V1_2), b0, b0, b1, (3, V0_7)], .Addq),
  ([b1, b1, b0, b1, (3, V0_7), b1, (2, V0_2), b0, b0, (1, V0_1), (3, V0_7)], .Addx),
  ([b1, b1, b0, b0, (3, V0_7), b0, (2, V0_2), (3, V0__2_6), (3, V0_7)], .And),
  ([b1, b1, b0, b0, (3, V0_7), b0, (2, V0_2), b1, b1, b1, (3, V0_4)], .And),
  ([b1, b1, b0, b0, (3, V0_7), b1, (2, V0_2), (3, V2_6), (3, V0_7)], .And),
  ([b1, b1, b0, b0, (3, V0_7), b1, (2, V0_2), b1, b1, b1, (3, V0_1)], .And),
  ([b0, b0, b0, b0, b0, b0, b1, b0, (2, V0_2), (3, V0__2_6), (3, V0_7)], .Andi),
  ([b0, b0, b0, b0, b0, b0, b1, b0, (2, V0_2), b1, b1, b1, (3, V0_1)], .Andi),
  ([(16, [0x023C])], .Andiccr),
  ([(16, [0x027C])], .Andisr),
  ([b1, b1, b1, b0, b0, b0, b0, (1, V0_1), b1, b1, (3, V2_6), (3, V0_7)], .Asm),
  ([b1, b1, b1, b0, b0, b0, b0, (1, V0_1), b1, b1, b1, b1, b1, (3, V0_1)], .Asm),
  ([b1, b1, b1, b0, (3, V0_7), (1, V0_1), (2, V0_2), (1, V0_1), b0, b0, (3, V0_7)], .Asr),
  ([b0, b1, b1, b0, (4, V2_15), (8, VBYTE)], .Bcc),
  ([b0, b0, b0, b0, (3, V0_7), b1, b0, b1, (3, V0__2_6), (3, V0_7)], .Bchg),
  ([b0, b0, b0, b0, (3, V0_7), b1, b0, b1, b1, b1, b1, (3, V0_1)], .Bchg),
  ([b0, b0, b0, b0, b1, b0, b0, b0, b0, b1, (3, V0__2_6), (3, V0_7)], .Bchg),
  ([(16, [0x0878])], .Bchg),
  ([(16, [0x0879])], .Bchg),
  ([b0, b0, b0, b0, (3, V0_7), b1, b1, b0, (3, V0__2_6), (3, V0_7)], .Bclr),
  ([b0, b0, b0, b0, (3, V0_7), b1, b1, b0, b1, b1, b1, (3, V0_1)], .Bclr),
  ([b0, b0, b0, b0, b1, b0, b0, b0, b1, b0, (3, V0__2_6), (3, V0_7)], .Bclr),
  ([(16, [0x08B8])], .Bclr),
  ([(16, [0x08B9])], .Bclr),
  ([b0, b1, b1, b0, b0, b0, b0, b0, (8, VBYTE)], .Bra),
  ([b0, b0, b0, b0, (3, V0_7), b1, b1, b1, (3, V0__2_6), (3, V0_7)], .Bset),
  ([b0, b0, b0, b0, (3, V0_7), b1, b1, b1, b1, b1, b1, (3, V0_1)], .Bset),
  ([b0, b0, b0, b0, b1, b0, b0, b0, b1, b1, (3, V0__2_6), (3, V0_7)], .Bset),
  ([(16, [0x08F8])], .Bset),
  ([(16, [0x08F9])], .Bset),
  ([b0, b1, b1, b0, b0, b0, b0, b1, (8, VBYTE)], .Bsr),
  ([b0, b0, b0, b0, (3, V0_7), b1, b0, b0, (3, V0__2_6), (3, V0_7)], .Btst),
  ([b0, b0, b0, b0, (3, V0_7), b1, b0, b0, b1, b1, b1, (3, V0_4)], .Btst),
  ([b0, b0, b0, b0, b1, b0, b0, b0, b0, b0, (3, V0__2_6), (3, V0_7)], .Btst),
  ([(16, [0x0838])], .Btst),
  ([(16, [0x0839])], .Btst),
  ([(16, [0x083A])], .Btst),
  ([(16, [0x083B])], .Btst),
  ([b0, b1, b0, b0, (3, V0_7), b1, b1, b0, (3, V0__2_6), (3, V0_7)], .Chk),
  ([b0, b1, b0, b0, (3, V0_7), b1, b1, b0, b1, b1, b1, (3, V0_4)], .Chk),
  ([b0, b1, b0, b0, b0, b0, b1, b0, (2, V0_2), (3, V0__2_6), (3, V0_7)], .Clr),
  ([b0, b1, b0, b0, b0, b0, b1, b0, (2, V0_2), b1, b1, b1, (3, V0_1)], .Clr),
  ([b1, b0, b1, b1, (3, V0_7), b0, b0, b0, (3, V0__2_6), (3, V0_7)], .Cmp),
  ([b1, b0, b1, b1, (3, V0_7), b0, b0, b0, b1, b1, b1, (3, V0_4)], .Cmp),
  ([b1, b0, b1, b1, (3, V0_7), b0, (2, V1_2), (3, V0_6), (3, V0_7)], .Cmp),
  ([b1, b0, b1, b1, (3, V0_7), b0, (2, V1_2), b1, b1, b1, (3, V0_4)], .Cmp),
  ([b1, b0, b1, b1, (3, V0_7), (1, V0_1), b1, b1, (3, V0_6), (3, V0_7)], .Cmpa),
  ([b1, b0, b1, b1, (3, V0_7), (1, V0_1), b1, b1, b1, b1, b1, (3, V0_4)], .Cmpa),
  ([b0, b0, b0, b0, b1, b1, b0, b0, (2, V0_2), (3, V0__2_6), (3, V0_7)], .Cmpi),
  ([b0, b0, b0, b0, b1, b1, b0, b0, (2, V0_2), b1, b1, b1, (3, V0_1)], .Cmpi),
  ([b1, b0, b1, b1, (3, V0_7), b1, (2, V0_2), b0, b0, b1, (3, V0_7)], .Cmpm),
  ([b0, b1, b0, b1, (4, V0_15), b1, b1, b0, b0, b1, (3, V0_7)], .Dbcc),
  ([b1, b0, b0, b0, (3, V0_7), b1, b1, b1, (3, V0__2_6), (3, V0_7)], .Divs),
  ([b1, b0, b0, b0, (3, V0_7), b1, b1, b1, b1, b1, b1, (3, V0_4)], .Divs),
  ([b1, b0, b0, b0, (3, V0_7), b0, b1, b1, (3, V0__2_6), (3, V0_7)], .Divu),
  ([b1, b0, b0, b0, (3, V0_7), b0, b1, b1, b1, b1, b1, (3, V0_4)], .Divu),
  ([b1, b0, b1, b1, (3, V0_7), b1, (2, V0_2), (3, V0__2_6), (3, V0_7)], .Eor),
  ([b1, b0, b1, b1, (3, V0_7), b1, (2, V0_2), b1, b1, b1, (3, V0_1)], .Eor),
  ([b0, b0, b0, b0, b1, b0, b1, b0, (2, V0_2), (3, V0__2_6), (3, V0_7)], .Eori),
  ([b0, b0, b0, b0, b1, b0, b1, b0, (2, V0_2), b1, b1, b1, (3, V0_1)], .Eori),
  ([(16, [0x0A3C])], .Eoriccr),
  ([(16, [0x0A7C])], .Eorisr),
  ([b1, b1, b0, b0, (3, V0_7), b1, (5, V8_9__17), (3, V0_7)], .Exg),
  ([b0, b1, b0, b0, b1, b0, b0, (3, V2_3), b0, b0, b0, (3, V0_7)], .Ext),
  ([(16, [0x4AFC])], .Illegal),
  ([b0, b1, b0, b0, b1, b1, b1, b0, b1, b1, (3, V2__5_6), (3, V0_7)], .Jmp),
  ([b0, b1, b0, b0, b1, b1, b1, b0, b1, b1, b1, b1, b1, (3, V0_3)], .Jmp),
  ([b0, b1, b0, b0, b1, b1, b1, b0, b1, b0, (3, V2__5_6), (3, V0_7)], .Jsr),
  ([b0, b1, b0, b0, b1, b1, b1, b0, b1, b0, b1, b1, b1, (3, V0_3)], .Jsr),
  ([b0, b1, b0, b0, (3, V0_7), b1, b1, b1, (3, V2__5_6), (3, V0_7)], .Lea),
  ([b0, b1, b0, b0, (3, V0_7), b1, b1, b1, b1, b1, b1, (3, V0_3)], .Lea),
  ([b0, b1, b0, b0, b1, b1, b1, b0, b0, b1, b0, b1, b0, (3, V0_7)], .Link),
  ([b1, b1, b1, b0, b0, b0, b1, (1, V0_1), b1, b1, (3, V2_6), (3, V0_7)], .Lsm),
  ([b1, b1, b1, b0, b0, b0, b1, (1, V0_1), b1, b1, b1, b1, b1, (3, V0_1)], .Lsm),
  ([b1, b1, b1, b0, (3, V0_7), (1, V0_1), (2, V0_2), (1, V0_1), b0, b1, (3, V0_7)], .Lsr),
  ([b0, b0, (2, V1_3), (3, V0_7), (3, V0__2_6), (3, V0__2_6), (3, V0_7)], .Move),
  ([b0, b0, (2, V1_3), (3, V0_1), b1, b1, b1, (3, V0__2_6), (3, V0_7)], .Move),
  ([b0, b0, (2, V1_3), (3, V0_7), (3, V0__2_6), b1, b1, b1, (3, V0_4)], .Move),
  ([b0, b0, (2, V1_3), (3, V0_1), b1, b1, b1, b1, b1, b1, (3, V0_4)], .Move),
  ([b0, b0, (2, V2_3), (3, V0_7), (3, V0__2_6), b0, b0, b1, (3, V0_7)], .Move),
  ([b0, b0, (2, V2_3), (3, V0_1), b1, b1, b1, b0, b0, b1, (3, V0_7)], .Move),
  ([b0, b0, b1, (1, V0_1), (3, V0_7), b0, b0, b1, (3, V0_6), (3, V0_7)], .Movea),
  ([b0, b0, b1, (1, V0_1), (3, V0_7), b0, b0, b1, b1, b1, b1, (3, V0_4)], .Movea),
  ([b0, b1, b0, b0, b0, b1, b0, b0, b1, b1, (3, V0__2_6), (3, V0_7)], .Moveccr),
  ([b0, b1, b0, b0, b0, b1, b0, b0, b1, b1, b1, b1, b1, (3, V0_4)], .Moveccr),
  ([b0, b1, b0, b0, b0, b0, b0, b0, b1, b1, (3, V0__2_6), (3, V0_7)], .Movefsr),
  ([(16, [0x40F8])], .Movefsr),
  ([(16, [0x40F9])], .Movefsr),
  ([b0, b1, b0, b0, b0, b1, b1, b0, b1, b1, (3, V0__2_6), (3, V0_7)], .Movesr),
  ([b0, b1, b0, b0, b0, b1, b1, b0, b1, b1, b1, b1, b1, (3, V0_4)], .Movesr),
  ([b0, b1, b0, b0, b1, b1, b1, b0, b0, b1, b1, b0, (1, V0_1), (3, V0_7)], .Moveusp),
  ([b0, b1, b0, b0, b1, b0, b0, b0, b1, (1, V0_1), (3, V2_6), (3, V0_7)], .Movem),
  ([b0, b1, b0, b0, b1, b0, b0, b0, b1, (1, V0_1), b1, b1, b1, (3, V0_1)], .Movem),
  ([b0, b1, b0, b0, b1, b1, b0, b0, b1, (1, V0_1), (3, V2_6), (3, V0_7)], .Movem),
  ([b0, b1, b0, b0, b1, b1, b0, b0, b1, (1, V0_1), b1, b1, b1, (3, V0_3)], .Movem),
  ([b0, b0, b0, b0, (3, V0_7), (3, V4_7), b0, b0, b1, (3, V0_7)], .Movep),
  ([b0, b1, b1, b1, (3, V0_7), b0, (8, VBYTE)], .Moveq),
  ([b1, b1, b0, b0, (3, V0_7), b1, b1, b1, (3, V0__2_6), (3, V0_7)], .Muls),
  ([b1, b1, b0, b0, (3, V0_7), b1, b1, b1, b1, b1, b1, (3, V0_4)], .Muls),
  ([b1, b1, b0, b0, (3, V0_7), b0, b1, b1, (3, V0__2_6), (3, V0_7)], .Mulu),
  ([b1, b1, b0, b0, (3, V0_7), b0, b1, b1, b1, b1, b1, (3, V0_4)], .Mulu),
  ([b0, b1, b0, b0, b1, b0, b0, b0, b0, b0, (3, V0__2_6), (3, V0_7)], .Nbcd),
  ([(16, [0x4838])], .Nbcd),
  ([(16, [0x4839])], .Nbcd),
  ([b0, b1, b0, b0, b0, b1, b0, b0, (2, V0_2), (3, V0__2_6), (3, V0_7)], .Neg),
  ([b0, b1, b0, b0, b0, b1, b0, b0, (2, V0_2), b1, b1, b1, (3, V0_1)], .Neg),
  ([b0, b1, b0, b0, b0, b0, b0, b0, (2, V0_2), (3, V0__2_6), (3, V0_7)], .Negx),
  ([b0, b1, b0, b0, b0, b0, b0, b0, (2, V0_2), b1, b1, b1, (3, V0_1)], .Negx),
  ([(16, [0x4E71])], .Nop),
  ([b0, b1, b0, b0, b0, b1, b1, b0, (2, V0_2), (3, V0__2_6), (3, V0_7)], .Not),
  ([b0, b1, b0, b0, b0, b1, b1, b0, (2, V0_2), b1, b1, b1, (3, V0_1)], .Not),
  ([b1, b0, b0, b0, (3, V0_7), b0, (2, V0_2), (3, V0__2_6), (3, V0_7)], .Or),
  ([b1, b0, b0, b0, (3, V0_7), b0, (2, V0_2), b1, b1, b1, (3, V0_4)], .Or),
  ([b1, b0, b0, b0, (3, V0_7), b1, (2, V0_2), (3, V2_6), (3, V0_7)], .Or),
  ([b1, b0, b0, b0, (3, V0_7), b1, (2, V0_2), b1, b1, b1, (3, V0_1)], .Or),
  ([b0, b0, b0, b0, b0, b0, b0, b0, (2, V0_2), (3, V0__2_6), (3, V0_7)], .Ori),
  ([b0, b0, b0, b0, b0, b0, b0, b0, (2, V0_2), b1, b1, b1, (3, V0_1)], .Ori),
  ([(16, [0x003C])], .Oriccr),
  ([(16, [0x007C])], .Orisr),
  ([b0, b1, b0, b0, b1, b0, b0, b0, b0, b1, (3, V2__5_6), (3, V0_7)], .Pea),
  ([b0, b1, b0, b0, b1, b0, b0, b0, b0, b1, b1, b1, b1, (3, V0_3)], .Pea),
  ([(16, [0x4E70])], .Reset),
  ([b1, b1, b1, b0, b0, b1, b1, (1, V0_1), b1, b1, (3, V2_6), (3, V0_7)], .Rom),
  ([b1, b1, b1, b0, b0, b1, b1, (1, V0_1), b1, b1, b1, b1, b1, (3, V0_1)], .Rom),
  ([b1, b1, b1, b0, (3, V0_7), (1, V0_1), (2, V0_2), (1, V0_1), b1, b1, (3, V0_7)], .Ror),
  ([b1, b1, b1, b0, b0, b1, b0, (1, V0_1), b1, b1, (3, V2_6), (3, V0_7)], .Roxm),
  ([b1, b1, b1, b0, b0, b1, b0, (1, V0_1), b1, b1, b1, b1, b1, (3, V0_1)], .Roxm),
  ([b1, b1, b1, b0, (3, V0_7), (1, V0_1), (2, V0_2), (1, V0_1), b1, b0, (3, V0_7)], .Roxr),
  ([(16, [0x4E73])], .Rte),
  ([(16, [0x4E77])], .Rtr),
  ([(16, [0x4E75])], .Rts),
  ([b1, b0, b0, b0, (3, V0_7), b1, b0, b0, b0, b0, (1, V0_1), (3, V0_7)], .Sbcd),
  ([b0, b1, b0, b1, (4, V0_15), b1, b1, (3, V0__2_6), (3, V0_7)], .Scc),
  ([b0, b1, b0, b1, (4, V0_15), b1, b1, b1, b1, b1, (3, V0_1)], .Scc),
  ([(16, [0x4E72])], .Stop),
  ([b1, b0, b0, b1, (3, V0_7), (3, V0_2), (3, V0__2_6), (3, V0_7)], .Sub),
  ([b1, b0, b0, b1, (3, V0_7), (3, V1_2), b0, b0, b1, (3, V0_7)], .Sub),
  ([b1, b0, b0, b1, (3, V0_7), (3, V0_2), b1, b1, b1, (3, V0_4)], .Sub),
  ([b1, b0, b0, b1, (3, V0_7), (3, V4_6), (3, V2_6), (3, V0_7)], .Sub),
  ([b1, b0, b0, b1, (3, V0_7), (3, V4_6), b1, b1, b1, (3, V0_1)], .Sub),
  ([b1, b0, b0, b1, (3, V0_7), (1, V0_1), b1, b1, (3, V0_6), (3, V0_7)], .Suba),
  ([b1, b0, b0, b1, (3, V0_7), (1, V0_1), b1, b1, b1, b1, b1, (3, V0_4)], .Suba),
  ([b0, b0, b0, b0, b0, b1, b0, b0, (2, V0_2), (3, V0__2_6), (3, V0_7)], .Subi),
  ([b0, b0, b0, b0, b0, b1, b0, b0, (2, V0_2), b1, b1, b1, (3, V0_1)], .Subi),
  ([b0, b1, b0, b1, (3, V0_7), b1, (2, V0_2), (3, V0__2_6), (3, V0_7)], .Subq),
  ([b0, b1, b0, b1, (3, V0_7), b1, (2, V0_2), b1, b1, b1, (3, V0_1)], .Subq),
  ([b0, b1, b0, b1, (3, V0_7), b1, (2, V1_2), b0, b0, b1, (3, V0_7)], .Subq),
  ([b1, b0, b0, b1, (3, V0_7), b1, (2, V0_2), b0, b0, (1, V0_1), (3, V0_7)], .Subx),
  ([b0, b1, b0, b0, b1, b0, b0, b0, b0, b1, b0, b0, b0, (3, V0_7)], .Swap),
  ([b0, b1, b0, b0, b1, b0, b1, b0, b1, b1, (3, V0__2_6), (3, V0_7)], .Tas),
  ([(16, [0x4AF8])], .Tas),
  ([(16, [0x4AF9])], .Tas),
  ([b0, b1, b0, b0, b1, b1, b1, b0, b0, b1, b0, b0, (4, V0_15)], .Trap),
  ([(16, [0x4E76])], .Trapv),
  ([b0, b1, b0, b0, b1, b0, b1, b0, (2, V0_2), (3, V0__2_6), (3, V0_7)], .Tst),
  ([b0, b1, b0, b0, b1, b0, b1, b0, (2, V0_2), b1, b1, b1, (3, V0_1)], .Tst),
  ([b0, b1, b0, b0, b1, b1, b1, b0, b0, b1, b0, b1, b1, (3, V0_7)], .Unlk)]
abbrev t0 : Tok := .oneOf 1 [0]
abbrev t1 : Tok := .oneOf 1 [1]

/-- The same with tokens. -/
def tokEntries : List TokEntry := [
  ([t1, t1, t0, t0, .any 3, t1, t0, t0, t0, t0, .any 1, .any 3], .Abcd),
  ([t1, t1, t0, t1, .any 3, .oneOf 3 V0_2, .oneOf 3 V0__2_6, .any 3], .Add),
  ([t1, t1, t0, t1, .any 3, .oneOf 3 V1_2, t0, t0, t1, .any 3], .Add),
  ([t1, t1, t0, t1, .any 3, .oneOf 3 V0_2, t1, t1, t1, .oneOf 3 V0_4], .Add),
  ([t1, t1, t0, t1, .any 3, .oneOf 3 V4_6, .oneOf 3 V2_6, .any 3], .Add),
  ([t1, t1, t0, t1, .any 3, .oneOf 3 V4_6, t1, t1, t1, .oneOf 3 V0_1], .Add),
  ([t1, t1, t0, t1, .any 3, .any 1, t1, t1, .oneOf 3 V0_6, .any 3], .Adda),
  ([t1, t1, t0, t1, .any 3, .any 1, t1, t1, t1, t1, t1, .oneOf 3 V0_4], .Adda),
  ([t0, t0, t0, t0, t0, t1, t1, t0, .oneOf 2 V0_2, .oneOf 3 V0__2_6, .any 3], .Addi),
  ([t0, t0, t0, t0, t0, t1, t1, t0, .oneOf 2 V0_2, t1, t1, t1, .oneOf 3 V0_1], .Addi),
  ([t0, t1, t0, t1, .any 3, t0, .oneOf 2 V0_2, .oneOf 3 V0__2_6, .any 3], .Addq),
  ([t0, t1, t0, t1, .any 3, t0, .oneOf 2 V0_2, t1, t1, t1, .oneOf 3 V0_1], .Addq),
  ([t0, t1, t0, t1, .any 3, t0, .oneOf 2 V1_2, t0, t0, t1, .any 3], .Addq),
  ([t1, t1, t0, t1, .any 3, t1, .oneOf 2 V0_2, t0, t0, .any 1, .any 3], .Addx),
  ([t1, t1, t0, t0, .any 3, t0, .oneOf 2 V0_2, .oneOf 3 V0__2_6, .any 3], .And),
  ([t1, t1, t0, t0, .any 3, t0, .oneOf 2 V0_2, t1, t1, t1, .oneOf 3 V0_4], .And),
  ([t1, t1, t0, t0, .any 3, t1, .oneOf 2 V0_2, .oneOf 3 V2_6, .any 3], .And),
  ([t1, t1, t0, t0, .any 3, t1, .oneOf 2 V0_2, t1, t1, t1, .oneOf 3 V0_1], .And),
  ([t0, t0, t0, t0, t0, t0, t1, t0, .oneOf 2 V0_2, .oneOf 3 V0__2_6, .any 3], .Andi),
  ([t0, t0, t0, t0, t0, t0, t1, t0, .oneOf 2 V0_2, t1, t1, t1, .oneOf 3 V0_1], .Andi),
  ([.oneOf 16 [0x023C]], .Andiccr),
  ([.oneOf 16 [0x027C]], .Andisr),
  ([t1, t1, t1, t0, t0, t0, t0, .any 1, t1, t1, .oneOf 3 V2_6, .any 3], .Asm),
  ([t1, t1, t1, t0, t0, t0, t0, .any 1, t1, t1, t1, t1, t1, .oneOf 3 V0_1], .Asm),
  ([t1, t1, t1, t0, .any 3, .any 1, .oneOf 2 V0_2, .any 1, t0, t0, .any 3], .Asr),
  ([t0, t1, t1, t0, .oneOf 4 V2_15, .any 8], .Bcc),
  ([t0, t0, t0, t0, .any 3, t1, t0, t1, .oneOf 3 V0__2_6, .any 3], .Bchg),
  ([t0, t0, t0, t0, .any 3, t1, t0, t1, t1, t1, t1, .oneOf 3 V0_1], .Bchg),
  ([t0, t0, t0, t0, t1, t0, t0, t0, t0, t1, .oneOf 3 V0__2_6, .any 3], .Bchg),
  ([.oneOf 16 [0x0878]], .Bchg),
  ([.oneOf 16 [0x0879]], .Bchg),
  ([t0, t0, t0, t0, .any 3, t1, t1, t0, .oneOf 3 V0__2_6, .any 3], .Bclr),
  ([t0, t0, t0, t0, .any 3, t1, t1, t0, t1, t1, t1, .oneOf 3 V0_1], .Bclr),
  ([t0, t0, t0, t0, t1, t0, t0, t0, t1, t0, .oneOf 3 V0__2_6, .any 3], .Bclr),
  ([.oneOf 16 [0x08B8]], .Bclr),
  ([.oneOf 16 [0x08B9]], .Bclr),
  ([t0, t1, t1, t0, t0, t0, t0, t0, .any 8], .Bra),
  ([t0, t0, t0, t0, .any 3, t1, t1, t1, .oneOf 3 V0__2_6, .any 3], .Bset),
  ([t0, t0, t0, t0, .any 3, t1, t1, t1, t1, t1, t1, .oneOf 3 V0_1], .Bset),
  ([t0, t0, t0, t0, t1, t0, t0, t0, t1, t1, .oneOf 3 V0__2_6, .any 3], .Bset),
  ([.oneOf 16 [0x08F8]], .Bset),
  ([.oneOf 16 [0x08F9]], .Bset),
  ([t0, t1, t1, t0, t0, t0, t0, t1, .any 8], .Bsr),
  ([t0, t0, t0, t0, .any 3, t1, t0, t0, .oneOf 3 V0__2_6, .any 3], .Btst),
  ([t0, t0, t0, t0, .any 3, t1, t0, t0, t1, t1, t1, .oneOf 3 V0_4], .Btst),
  ([t0, t0, t0, t0, t1, t0, t0, t0, t0, t0, .oneOf 3 V0__2_6, .any 3], .Btst),
  ([.oneOf 16 [0x0838]], .Btst),
  ([.oneOf 16 [0x0839]], .Btst),
  ([.oneOf 16 [0x083A]], .Btst),
  ([.oneOf 16 [0x083B]], .Btst),
  ([t0, t1, t0, t0, .any 3, t1, t1, t0, .oneOf 3 V0__2_6, .any 3], .Chk),
  ([t0, t1, t0, t0, .any 3, t1, t1, t0, t1, t1, t1, .oneOf 3 V0_4], .Chk),
  ([t0, t1, t0, t0, t0, t0, t1, t0, .oneOf 2 V0_2, .oneOf 3 V0__2_6, .any 3], .Clr),
  ([t0, t1, t0, t0, t0, t0, t1, t0, .oneOf 2 V0_2, t1, t1, t1, .oneOf 3 V0_1], .Clr),
  ([t1, t0, t1, t1, .any 3, t0, t0, t0, .oneOf 3 V0__2_6, .any 3], .Cmp),
  ([t1, t0, t1, t1, .any 3, t0, t0, t0, t1, t1, t1, .oneOf 3 V0_4], .Cmp),
  ([t1, t0, t1, t1, .any 3, t0, .oneOf 2 V1_2, .oneOf 3 V0_6, .any 3], .Cmp),
  ([t1, t0, t1, t1, .any 3, t0, .oneOf 2 V1_2, t1, t1, t1, .oneOf 3 V0_4], .Cmp),
  ([t1, t0, t1, t1, .any 3, .any 1, t1, t1, .oneOf 3 V0_6, .any 3], .Cmpa),
  ([t1, t0, t1, t1, .any 3, .any 1, t1, t1, t1, t1, t1, .oneOf 3 V0_4], .Cmpa),
  ([t0, t0, t0, t0, t1, t1, t0, t0, .oneOf 2 V0_2, .oneOf 3 V0__2_6, .any 3], .Cmpi),
  ([t0, t0, t0, t0, t1, t1, t0, t0, .oneOf 2 V0_2, t1, t1, t1, .oneOf 3 V0_1], .Cmpi),
  ([t1, t0, t1, t1, .any 3, t1, .oneOf 2 V0_2, t0, t0, t1, .any 3], .Cmpm),
  ([t0, t1, t0, t1, .any 4, t1, t1, t0, t0, t1, .any 3], .Dbcc),
  ([t1, t0, t0, t0, .any 3, t1, t1, t1, .oneOf 3 V0__2_6, .any 3], .Divs),
  ([t1, t0, t0, t0, .any 3, t1, t1, t1, t1, t1, t1, .oneOf 3 V0_4], .Divs),
  ([t1, t0, t0, t0, .any 3, t0, t1, t1, .oneOf 3 V0__2_6, .any 3], .Divu),
  ([t1, t0, t0, t0, .any 3, t0, t1, t1, t1, t1, t1, .oneOf 3 V0_4], .Divu),
  ([t1, t0, t1, t1, .any 3, t1, .oneOf 2 V0_2, .oneOf 3 V0__2_6, .any 3], .Eor),
  ([t1, t0, t1, t1, .any 3, t1, .oneOf 2 V0_2, t1, t1, t1, .oneOf 3 V0_1], .Eor),
  ([t0, t0, t0, t0, t1, t0, t1, t0, .oneOf 2 V0_2, .oneOf 3 V0__2_6, .any 3], .Eori),
  ([t0, t0, t0, t0, t1, t0, t1, t0, .oneOf 2 V0_2, t1, t1, t1, .oneOf 3 V0_1], .Eori),
  ([.oneOf 16 [0x0A3C]], .Eoriccr),
  ([.oneOf 16 [0x0A7C]], .Eorisr),
  ([t1, t1, t0, t0, .any 3, t1, .oneOf 5 V8_9__17, .any 3], .Exg),
  ([t0, t1, t0, t0, t1, t0, t0, .oneOf 3 V2_3, t0, t0, t0, .any 3], .Ext),
  ([.oneOf 16 [0x4AFC]], .Illegal),
  ([t0, t1, t0, t0, t1, t1, t1, t0, t1, t1, .oneOf 3 V2__5_6, .any 3], .Jmp),
  ([t0, t1, t0, t0, t1, t1, t1, t0, t1, t1, t1, t1, t1, .oneOf 3 V0_3], .Jmp),
  ([t0, t1, t0, t0, t1, t1, t1, t0, t1, t0, .oneOf 3 V2__5_6, .any 3], .Jsr),
  ([t0, t1, t0, t0, t1, t1, t1, t0, t1, t0, t1, t1, t1, .oneOf 3 V0_3], .Jsr),
  ([t0, t1, t0, t0, .any 3, t1, t1, t1, .oneOf 3 V2__5_6, .any 3], .Lea),
  ([t0, t1, t0, t0, .any 3, t1, t1, t1, t1, t1, t1, .oneOf 3 V0_3], .Lea),
  ([t0, t1, t0, t0, t1, t1, t1, t0, t0, t1, t0, t1, t0, .any 3], .Link),
  ([t1, t1, t1, t0, t0, t0, t1, .any 1, t1, t1, .oneOf 3 V2_6, .any 3], .Lsm),
  ([t1, t1, t1, t0, t0, t0, t1, .any 1, t1, t1, t1, t1, t1, .oneOf 3 V0_1], .Lsm),
  ([t1, t1, t1, t0, .any 3, .any 1, .oneOf 2 V0_2, .any 1, t0, t1, .any 3], .Lsr),
  ([t0, t0, .oneOf 2 V1_3, .any 3, .oneOf 3 V0__2_6, .oneOf 3 V0__2_6, .any 3], .Move),
  ([t0, t0, .oneOf 2 V1_3, .oneOf 3 V0_1, t1, t1, t1, .oneOf 3 V0__2_6, .any 3], .Move),
  ([t0, t0, .oneOf 2 V1_3, .any 3, .oneOf 3 V0__2_6, t1, t1, t1, .oneOf 3 V0_4], .Move),
  ([t0, t0, .oneOf 2 V1_3, .oneOf 3 V0_1, t1, t1, t1, t1, t1, t1, .oneOf 3 V0_4], .Move),
  ([t0, t0, .oneOf 2 V2_3, .any 3, .oneOf 3 V0__2_6, t0, t0, t1, .any 3], .Move),
  ([t0, t0, .oneOf 2 V2_3, .oneOf 3 V0_1, t1, t1, t1, t0, t0, t1, .any 3], .Move),
  ([t0, t0, t1, .any 1, .any 3, t0, t0, t1, .oneOf 3 V0_6, .any 3], .Movea),
  ([t0, t0, t1, .any 1, .any 3, t0, t0, t1, t1, t1, t1, .oneOf 3 V0_4], .Movea),
  ([t0, t1, t0, t0, t0, t1, t0, t0, t1, t1, .oneOf 3 V0__2_6, .any 3], .Moveccr),
  ([t0, t1, t0, t0, t0, t1, t0, t0, t1, t1, t1, t1, t1, .oneOf 3 V0_4], .Moveccr),
  ([t0, t1, t0, t0, t0, t0, t0, t0, t1, t1, .oneOf 3 V0__2_6, .any 3], .Movefsr),
  ([.oneOf 16 [0x40F8]], .Movefsr),
  ([.oneOf 16 [0x40F9]], .Movefsr),
  ([t0, t1, t0, t0, t0, t1, t1, t0, t1, t1, .oneOf 3 V0__2_6, .any 3], .Movesr),
  ([t0, t1, t0, t0, t0, t1, t1, t0, t1, t1, t1, t1, t1, .oneOf 3 V0_4], .Movesr),
  ([t0, t1, t0, t0, t1, t1, t1, t0, t0, t1, t1, t0, .any 1, .any 3], .Moveusp),
  ([t0, t1, t0, t0, t1, t0, t0, t0, t1, .any 1, .oneOf 3 V2_6, .any 3], .Movem),
  ([t0, t1, t0, t0, t1, t0, t0, t0, t1, .any 1, t1, t1, t1, .oneOf 3 V0_1], .Movem),
  ([t0, t1, t0, t0, t1, t1, t0, t0, t1, .any 1, .oneOf 3 V2_6, .any 3], .Movem),
  ([t0, t1, t0, t0, t1, t1, t0, t0, t1, .any 1, t1, t1, t1, .oneOf 3 V0_3], .Movem),
  ([t0, t0, t0, t0, .any 3, .oneOf 3 V4_7, t0, t0, t1, .any 3], .Movep),
  ([t0, t1, t1, t1, .any 3, t0, .any 8], .Moveq),
  ([t1, t1, t0, t0, .any 3, t1, t1, t1, .oneOf 3 V0__2_6, .any 3], .Muls),
  ([t1, t1, t0, t0, .any 3, t1, t1, t1, t1, t1, t1, .oneOf 3 V0_4], .Muls),
  ([t1, t1, t0, t0, .any 3, t0, t1, t1, .oneOf 3 V0__2_6, .any 3], .Mulu),
  ([t1, t1, t0, t0, .any 3, t0, t1, t1, t1, t1, t1, .oneOf 3 V0_4], .Mulu),
  ([t0, t1, t0, t0, t1, t0, t0, t0, t0, t0, .oneOf 3 V0__2_6, .any 3], .Nbcd),
  ([.oneOf 16 [0x4838]], .Nbcd),
  ([.oneOf 16 [0x4839]], .Nbcd),
  ([t0, t1, t0, t0, t0, t1, t0, t0, .oneOf 2 V0_2, .oneOf 3 V0__2_6, .any 3], .Neg),
  ([t0, t1, t0, t0, t0, t1, t0, t0, .oneOf 2 V0_2, t1, t1, t1, .oneOf 3 V0_1], .Neg),
  ([t0, t1, t0, t0, t0, t0, t0, t0, .oneOf 2 V0_2, .oneOf 3 V0__2_6, .any 3], .Negx),
  ([t0, t1, t0, t0, t0, t0, t0, t0, .oneOf 2 V0_2, t1, t1, t1, .oneOf 3 V0_1], .Negx),
  ([.oneOf 16 [0x4E71]], .Nop),
  ([t0, t1, t0, t0, t0, t1, t1, t0, .oneOf 2 V0_2, .oneOf 3 V0__2_6, .any 3], .Not),
  ([t0, t1, t0, t0, t0, t1, t1, t0, .oneOf 2 V0_2, t1, t1, t1, .oneOf 3 V0_1], .Not),
  ([t1, t0, t0, t0, .any 3, t0, .oneOf 2 V0_2, .oneOf 3 V0__2_6, .any 3], .Or),
  ([t1, t0, t0, t0, .any 3, t0, .oneOf 2 V0_2, t1, t1, t1, .oneOf 3 V0_4], .Or),
  ([t1, t0, t0, t0, .any 3, t1, .oneOf 2 V0_2, .oneOf 3 V2_6, .any 3], .Or),
  ([t1, t0, t0, t0, .any 3, t1, .oneOf 2 V0_2, t1, t1, t1, .oneOf 3 V0_1], .Or),
  ([t0, t0, t0, t0, t0, t0, t0, t0, .oneOf 2 V0_2, .oneOf 3 V0__2_6, .any 3], .Ori),
  ([t0, t0, t0, t0, t0, t0, t0, t0, .oneOf 2 V0_2, t1, t1, t1, .oneOf 3 V0_1], .Ori),
  ([.oneOf 16 [0x003C]], .Oriccr),
  ([.oneOf 16 [0x007C]], .Orisr),
  ([t0, t1, t0, t0, t1, t0, t0, t0, t0, t1, .oneOf 3 V2__5_6, .any 3], .Pea),
  ([t0, t1, t0, t0, t1, t0, t0, t0, t0, t1, t1, t1, t1, .oneOf 3 V0_3], .Pea),
  ([.oneOf 16 [0x4E70]], .Reset),
  ([t1, t1, t1, t0, t0, t1, t1, .any 1, t1, t1, .oneOf 3 V2_6, .any 3], .Rom),
  ([t1, t1, t1, t0, t0, t1, t1, .any 1, t1, t1, t1, t1, t1, .oneOf 3 V0_1], .Rom),
  ([t1, t1, t1, t0, .any 3, .any 1, .oneOf 2 V0_2, .any 1, t1, t1, .any 3], .Ror),
  ([t1, t1, t1, t0, t0, t1, t0, .any 1, t1, t1, .oneOf 3 V2_6, .any 3], .Roxm),
  ([t1, t1, t1, t0, t0, t1, t0, .any 1, t1, t1, t1, t1, t1, .oneOf 3 V0_1], .Roxm),
  ([t1, t1, t1, t0, .any 3, .any 1, .oneOf 2 V0_2, .any 1, t1, t0, .any 3], .Roxr),
  ([.oneOf 16 [0x4E73]], .Rte),
  ([.oneOf 16 [0x4E77]], .Rtr),
  ([.oneOf 16 [0x4E75]], .Rts),
  ([t1, t0, t0, t0, .any 3, t1, t0, t0, t0, t0, .any 1, .any 3], .Sbcd),
  ([t0, t1, t0, t1, .any 4, t1, t1, .oneOf 3 V0__2_6, .any 3], .Scc),
  ([t0, t1, t0, t1, .any 4, t1, t1, t1, t1, t1, .oneOf 3 V0_1], .Scc),
  ([.oneOf 16 [0x4E72]], .Stop),
  ([t1, t0, t0, t1, .any 3, .oneOf 3 V0_2, .oneOf 3 V0__2_6, .any 3], .Sub),
  ([t1, t0, t0, t1, .any 3, .oneOf 3 V1_2, t0, t0, t1, .any 3], .Sub),
  ([t1, t0, t0, t1, .any 3, .oneOf 3 V0_2, t1, t1, t1, .oneOf 3 V0_4], .Sub),
  ([t1, t0, t0, t1, .any 3, .oneOf 3 V4_6, .oneOf 3 V2_6, .any 3], .Sub),
  ([t1, t0, t0, t1, .any 3, .oneOf 3 V4_6, t1, t1, t1, .oneOf 3 V0_1], .Sub),
  ([t1, t0, t0, t1, .any 3, .any 1, t1, t1, .oneOf 3 V0_6, .any 3], .Suba),
  ([t1, t0, t0, t1, .any 3, .any 1, t1, t1, t1, t1, t1, .oneOf 3 V0_4], .Suba),
  ([t0, t0, t0, t0, t0, t1, t0, t0, .oneOf 2 V0_2, .oneOf 3 V0__2_6, .any 3], .Subi),
  ([t0, t0, t0, t0, t0, t1, t0, t0, .oneOf 2 V0_2, t1, t1, t1, .oneOf 3 V0_1], .Subi),
  ([t0, t1, t0, t1, .any 3, t1, .oneOf 2 V0_2, .oneOf 3 V0__2_6, .any 3], .Subq),
  ([t0, t1, t0, t1, .any 3, t1, .oneOf 2 V0_2, t1, t1, t1, .oneOf 3 V0_1], .Subq),
  ([t0, t1, t0, t1, .any 3, t1, .oneOf 2 V1_2, t0, t0, t1, .any 3], .Subq),
  ([t1, t0, t0, t1, .any 3, t1, .oneOf 2 V0_2, t0, t0, .any 1, .any 3], .Subx),
  ([t0, t1, t0, t0, t1, t0, t0, t0, t0, t1, t0, t0, t0, .any 3], .Swap),
  ([t0, t1, t0, t0, t1, t0, t1, t0, t1, t1, .oneOf 3 V0__2_6, .any 3], .Tas),
  ([.oneOf 16 [0x4AF8]], .Tas),
  ([.oneOf 16 [0x4AF9]], .Tas),
  ([t0, t1, t0, t0, t1, t1, t1, t0, t0, t1, t0, t0, .any 4], .Trap),
  ([.oneOf 16 [0x4E76]], .Trapv),
  ([t0, t1, t0, t0, t1, t0, t1, t0, .oneOf 2 V0_2, .oneOf 3 V0__2_6, .any 3], .Tst),
  ([t0, t1, t0, t0, t1, t0, t1, t0, .oneOf 2 V0_2, t1, t1, t1, .oneOf 3 V0_1], .Tst),
  ([t0, t1, t0, t0, t1, t1, t1, t0, t0, t1, t0, t1, t1, .any 3], .Unlk)]
/-- The entries for one value of the top four bits. -/
def lineEntries (q : Nat) : List TokEntry :=
  derivs (q % 2) (derivs (q / 2 % 2) (derivs (q / 4 % 2) (derivs (q / 8 % 2) tokEntries)))

set_option maxRecDepth 100000
theorem entries_eq : genSteps.mapM entry = some entries := by decide +kernel
theorem tokEntries_eq : tokEntries = entries.map fun e => (e.1.map tok, e.2) := by decide +kernel
theorem entries_ok : entries.all entryOk = true := by decide +kernel
theorem line0_ok : (descend 12 (lineEntries 0) decoderLine0).isSome = true := by decide +kernel
theorem line1_ok : (descend 12 (lineEntries 1) decoderLine1).isSome = true := by decide +kernel
theorem line2_ok : (descend 12 (lineEntries 2) decoderLine2).isSome = true := by decide +kernel
theorem line3_ok : (descend 12 (lineEntries 3) decoderLine3).isSome = true := by decide +kernel
theorem line4_ok : (descend 12 (lineEntries 4) decoderLine4).isSome = true := by decide +kernel
theorem line5_ok : (descend 12 (lineEntries 5) decoderLine5).isSome = true := by decide +kernel
theorem line6_ok : (descend 12 (lineEntries 6) decoderLine6).isSome = true := by decide +kernel
theorem line7_ok : (descend 12 (lineEntries 7) decoderLine7).isSome = true := by decide +kernel
theorem line8_ok : (descend 12 (lineEntries 8) decoderLine8).isSome = true := by decide +kernel
theorem line9_ok : (descend 12 (lineEntries 9) decoderLine9).isSome = true := by decide +kernel
theorem lineA_ok : (descend 12 (lineEntries 10) decoderLineA).isSome = true := by decide +kernel
theorem lineB_ok : (descend 12 (lineEntries 11) decoderLineB).isSome = true := by decide +kernel
theorem lineC_ok : (descend 12 (lineEntries 12) decoderLineC).isSome = true := by decide +kernel
theorem lineD_ok : (descend 12 (lineEntries 13) decoderLineD).isSome = true := by decide +kernel
theorem lineE_ok : (descend 12 (lineEntries 14) decoderLineE).isSome = true := by decide +kernel
theorem lineF_ok : (descend 12 (lineEntries 15) decoderLineF).isSome = true := by decide +kernel

theorem tokHits_entries (k : Nat) : tokHits tokEntries k = hits entries k := by
  unfold tokHits hits
  rw [tokEntries_eq, List.filter_map, List.map_map]
  rw [show ((fun e : TokEntry => tokFits e.1 k) ∘ fun e : Entry => (e.1.map tok, e.2)) = fun e => fits e.1 k from
    funext fun e => tokFits_map e.1 k]
  rfl

theorem wide_entries : Wide 16 tokEntries := by
  intro e he
  rw [tokEntries_eq] at he
  obtain ⟨f, hf, rfl⟩ := List.mem_map.1 he
  have := List.all_eq_true.1 entries_ok f hf
  simp only [entryOk, Bool.and_eq_true, fieldsOk] at this
  refine ⟨fun g hg => ?_, by rw [tokWidth_map]; exact Nat.eq_of_beq_eq_true this.2⟩
  obtain ⟨x, hx, rfl⟩ := List.mem_map.1 hg
  have hx := List.all_eq_true.1 this.1 x hx
  simp only [Bool.and_eq_true] at hx
  have h0 : 0 < x.1 := Nat.le_of_ble_eq_true hx.1.1
  unfold tok
  split <;> exact h0

theorem line_spec (q : Nat) (hq : q < 16) (l : List (Isa × Nat)) (h : (descend 12 (lineEntries q) l).isSome = true) (k : Nat)
    (hk : k < 4096) : hits entries (4096 * q + k) = writers (lookupRuns l k) := by
  obtain ⟨rest, hr⟩ := Option.isSome_iff_exists.1 h
  obtain ⟨w1, d1⟩ := derivs_spec (q / 8 % 2) 15 (Nat.mod_lt _ (by decide)) _ wide_entries
  obtain ⟨w2, d2⟩ := derivs_spec (q / 4 % 2) 14 (Nat.mod_lt _ (by decide)) _ w1
  obtain ⟨w3, d3⟩ := derivs_spec (q / 2 % 2) 13 (Nat.mod_lt _ (by decide)) _ w2
  obtain ⟨w4, d4⟩ := derivs_spec (q % 2) 12 (Nat.mod_lt _ (by decide)) _ w3
  have := (descend_spec 12 _ w4 l rest hr).1 k hk
  rw [← this]
  show _ = tokHits (derivs (q % 2) _) k
  rw [← d4 k hk, ← d3 _ (by omega), ← d2 _ (by omega), ← d1 _ (by omega), tokHits_entries]
  congr 1
  omega

theorem hits_decoder (op : U16) : hits entries op.toNat = writers (decoder op) := by
  have hlt := op.isLt
  have hm : op.toNat % 4096 < 4096 := Nat.mod_lt _ (by omega)
  have key : ∀ (q : Nat) (l : List (Isa × Nat)), q < 16 → op.toNat / 4096 = q → decoderLine q = l →
      (descend 12 (lineEntries q) l).isSome = true → hits entries op.toNat = writers (decoder op) := by
    intro q l hq16 hq hl hc
    have := line_spec q hq16 l hc _ hm
    rw [show 4096 * q + op.toNat % 4096 = op.toNat by omega] at this
    unfold decoder
    rw [hq, hl]; exact this
  have hq : op.toNat / 4096 < 16 := by omega
  match hh : op.toNat / 4096, hq with
  | 0, _ => exact key 0 _ (by decide) hh rfl line0_ok
  | 1, _ => exact key 1 _ (by decide) hh rfl line1_ok
  | 2, _ => exact key 2 _ (by decide) hh rfl line2_ok
  | 3, _ => exact key 3 _ (by decide) hh rfl line3_ok
  | 4, _ => exact key 4 _ (by decide) hh rfl line4_ok
  | 5, _ => exact key 5 _ (by decide) hh rfl line5_ok
  | 6, _ => exact key 6 _ (by decide) hh rfl line6_ok
  | 7, _ => exact key 7 _ (by decide) hh rfl line7_ok
  | 8, _ => exact key 8 _ (by decide) hh rfl line8_ok
  | 9, _ => exact key 9 _ (by decide) hh rfl line9_ok
  | 10, _ => exact key 10 _ (by decide) hh rfl lineA_ok
  | 11, _ => exact key 11 _ (by decide) hh rfl lineB_ok
  | 12, _ => exact key 12 _ (by decide) hh rfl lineC_ok
  | 13, _ => exact key 13 _ (by decide) hh rfl lineD_ok
  | 14, _ => exact key 14 _ (by decide) hh rfl lineE_ok
  | 15, _ => exact key 15 _ (by decide) hh rfl lineF_ok
  | n + 16, h => exact absurd h (by omega)

end M68k.Gen
