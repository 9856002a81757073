import Verif.Spec.Cycles
/-
The execution times of the MC68000 in the tables of section 8 of the M68000 Microprocessors User's Manual (Ninth Edition) (the 16-bit bus). Nothing here uses the timing
constants of the crate: the numbers are those of the manual. The times of the multiplications, the divisions and of BCHG, BCLR and BSET on a register are the
maxima that the manual gives. Of `Spec/Cycles.lean` only the number of shifted bits and of registers in a list are used.
-/
namespace M68k.Spec.Manual

/-- Table 8-1, effective address calculation times. The columns are byte and word, long; the rows Dn, An, (An), (An)+, -(An), d16(An), d8(An,Xn), xxx.W, xxx.L,
d16(PC), d8(PC,Xn), #data. -/
def eaTable : List (Nat × Nat) :=
  [(0, 0), (0, 0), (4, 8), (4, 8), (6, 10), (8, 12), (10, 14), (8, 12), (12, 16), (8, 12), (10, 14), (4, 8)]

/-- Table 8-2, move byte and word. A row for each source, in the order of `eaTable`, and a column for each destination, Dn to xxx.L. -/
def moveWordTable : List (List Nat) :=
  [[4, 4, 8, 8, 8, 12, 14, 12, 16],
   [4, 4, 8, 8, 8, 12, 14, 12, 16],
   [8, 8, 12, 12, 12, 16, 18, 16, 20],
   [8, 8, 12, 12, 12, 16, 18, 16, 20],
   [10, 10, 14, 14, 14, 18, 20, 18, 22],
   [12, 12, 16, 16, 16, 20, 22, 20, 24],
   [14, 14, 18, 18, 18, 22, 24, 22, 26],
   [12, 12, 16, 16, 16, 20, 22, 20, 24],
   [16, 16, 20, 20, 20, 24, 26, 24, 28],
   [12, 12, 16, 16, 16, 20, 22, 20, 24],
   [14, 14, 18, 18, 18, 22, 24, 22, 26],
   [8, 8, 12, 12, 12, 16, 18, 16, 20]]

/-- Table 8-3, move long. -/
def moveLongTable : List (List Nat) :=
  [[4, 4, 12, 12, 12, 16, 18, 16, 20],
   [4, 4, 12, 12, 12, 16, 18, 16, 20],
   [12, 12, 20, 20, 20, 24, 26, 24, 28],
   [12, 12, 20, 20, 20, 24, 26, 24, 28],
   [14, 14, 22, 22, 22, 26, 28, 26, 30],
   [16, 16, 24, 24, 24, 28, 30, 28, 32],
   [18, 18, 26, 26, 26, 30, 32, 30, 34],
   [16, 16, 24, 24, 24, 28, 30, 28, 32],
   [20, 20, 28, 28, 28, 32, 34, 32, 36],
   [16, 16, 24, 24, 24, 28, 30, 28, 32],
   [18, 18, 26, 26, 26, 30, 32, 30, 34],
   [12, 12, 20, 20, 20, 24, 26, 24, 28]]

/-- The row of an addressing mode. -/
def row (mode reg : Nat) : Nat := if mode < 7 then mode else 7 + reg

/-- The time of an effective address. -/
def ea (long : Bool) (mode reg : Nat) : Nat := let e := eaTable.getD (row mode reg) (0, 0); if long then e.2 else e.1

/-- Table 8-10, one of the instructions JMP, JSR, LEA, PEA and the two directions of MOVEM: the columns (An), (An)+, -(An), d16(An), d8(An,Xn), xxx.W, xxx.L, d16(PC),
d8(PC,Xn); 0 where the instruction does not have the mode. -/
def controlRow (times : List Nat) (mode reg : Nat) : Nat := times.getD (row mode reg - 2) 0

/-- The execution time of the instruction `i` with the opcode `op`, the registers `r` before it and the extension words `ws`. -/
def time (i : Isa) (op : U16) (r : Registers) (ws : List U16) : Nat :=
  let mode := op.toNat / 8 % 8
  let reg := op.toNat % 8
  -- bits 7-6: the operand is a long
  let long := decide (op.toNat / 64 % 4 = 2)
  let dn := mode = 0
  let registerOrImmediate := mode < 2 ∨ (mode = 7 ∧ reg = 4)
  -- an entry of the tables with the four times Dn byte/word, Dn long, memory byte/word, memory long, of which the last two are plus the effective address
  let entry := fun (dnW dnL memW memL : Nat) =>
    if dn then (if long then dnL else dnW) else (if long then memL else memW) + ea long mode reg
  -- the same for an instruction with a byte or word operand only
  let wordEntry := fun (dnW memW : Nat) => if dn then dnW else memW + ea false mode reg
  match i with
  -- Tables 8-2 and 8-3. MOVE and MOVEA have the size in bits 13-12 and the destination in bits 8-6 (mode) and 11-9 (register)
  | .Move | .Movea =>
    ((if op.toNat / 4096 % 4 = 2 then moveLongTable else moveWordTable).getD (row mode reg) []).getD (row (op.toNat / 64 % 8) (op.toNat / 512 % 8)) 0
  -- Table 8-4, standard instructions. Six is increased to eight if the source is a register or immediate
  | .Add | .Sub | .And | .Or =>
    if flag op 8 then (if long then 12 else 8) + ea long mode reg
    else (if long then (if registerOrImmediate then 8 else 6) else 4) + ea long mode reg
  | .Adda | .Suba => if flag op 8 then (if registerOrImmediate then 8 else 6) + ea true mode reg else 8 + ea false mode reg
  | .Cmp => (if long then 6 else 4) + ea long mode reg
  | .Cmpa => 6 + ea (flag op 8) mode reg
  | .Eor => entry 4 8 8 12
  | .Mulu | .Muls => 70 + ea false mode reg
  | .Divu => 140 + ea false mode reg
  | .Divs => 158 + ea false mode reg
  -- Table 8-5, immediate instructions
  | .Addi | .Subi | .Ori | .Eori => entry 8 16 12 20
  | .Andi => entry 8 14 12 20
  | .Cmpi => entry 8 14 8 12
  | .Moveq => 4
  | .Addq => if mode = 1 then (if long then 8 else 4) else entry 4 8 8 12
  | .Subq => if mode = 1 then 8 else entry 4 8 8 12
  -- Table 8-6, single operand instructions
  | .Clr | .Neg | .Negx | .Not => entry 4 6 8 12
  | .Nbcd => wordEntry 6 8
  | .Scc => if holds (ccField op) r.sr then wordEntry 6 8 else wordEntry 4 8
  | .Tas => wordEntry 4 14
  | .Tst => entry 4 4 4 4
  -- Table 8-7, shift and rotate instructions
  | .Asr | .Lsr | .Ror | .Roxr => (if long then 8 else 6) + 2 * shiftBits op r
  | .Asm | .Lsm | .Rom | .Roxm => 8 + ea false mode reg
  -- Table 8-8, bit manipulation instructions; bit 8: the number of the bit is in a register
  | .Btst => if flag op 8 then wordEntry 6 4 else wordEntry 10 8
  | .Bchg | .Bset => if flag op 8 then wordEntry 8 8 else wordEntry 12 12
  | .Bclr => if flag op 8 then wordEntry 10 8 else wordEntry 14 12
  -- Table 8-9, conditional instructions
  | .Bcc => if holds (ccField op) r.sr then 10 else if op.toNat % 256 = 0 then 12 else 8
  | .Bra => 10
  | .Bsr => 18
  | .Dbcc => if holds (ccField op) r.sr then 12 else if (r.d (regField op 0)).toNat % 65536 = 0 then 14 else 10
  -- Table 8-10, JMP, JSR, LEA, PEA and MOVEM; bit 10: from memory to the registers
  | .Jmp => controlRow [8, 0, 0, 10, 14, 10, 12, 10, 14] mode reg
  | .Jsr => controlRow [16, 0, 0, 18, 22, 18, 20, 18, 22] mode reg
  | .Lea => controlRow [4, 0, 0, 8, 12, 8, 12, 8, 12] mode reg
  | .Pea => controlRow [12, 0, 0, 16, 20, 16, 20, 16, 20] mode reg
  | .Movem =>
    (if flag op 10 then controlRow [12, 12, 0, 16, 18, 16, 20, 16, 18] mode reg else controlRow [8, 0, 8, 12, 14, 12, 16, 0, 0] mode reg) +
      (if flag op 6 then 8 else 4) * listCount ws
  -- Table 8-11, multiprecision instructions; bit 3: memory to memory
  | .Addx | .Subx => if flag op 3 then (if long then 30 else 18) else if long then 8 else 4
  | .Cmpm => if long then 20 else 12
  | .Abcd | .Sbcd => if flag op 3 then 18 else 6
  -- Tables 8-12 and 8-13, miscellaneous instructions and move peripheral
  | .Andiccr | .Andisr | .Eoriccr | .Eorisr | .Oriccr | .Orisr => 20
  | .Chk => 10 + ea false mode reg
  | .Exg => 6
  | .Ext => 4
  | .Link => 16
  | .Moveccr | .Movesr => 12 + ea false mode reg
  | .Movefsr => wordEntry 6 8
  | .Moveusp => 4
  | .Movep => if flag op 6 then 24 else 16
  | .Nop => 4
  | .Reset => 132
  | .Rte | .Rtr => 20
  | .Rts => 16
  | .Stop => 4
  | .Swap => 4
  | .Trapv => 4
  | .Unlk => 12
  -- these always raise an exception
  | .Unknown | .Illegal | .Trap => 0

/-- The instructions that read a long in memory, modify it and write it back. -/
def modifiesLong (i : Isa) (op : U16) : Bool :=
  (op.toNat / 64 % 4 == 2) && eaInMemory (op.toNat / 8 % 8) (op.toNat % 8) &&
  match i with
  | .Add | .Sub | .And | .Or => flag op 8
  | .Eor | .Addi | .Subi | .Ori | .Eori | .Andi | .Addq | .Subq | .Neg | .Negx | .Not => true
  | _ => false

/-- Table 8-14, exception processing times: reset, bus error and address error, illegal instruction, divide by zero, CHK, TRAPV, privilege violation and trace, interrupts
(uninitialized, spurious, the seven autovectors and the 192 vectors of peripherals), TRAP. The other vectors do not appear in the table. To the times of divide by zero and CHK the manual adds
the effective address of the instruction, which is not included here. -/
def exceptionTime (v : Nat) : Option Nat :=
  if v = 0 then some 40
  else if v = 2 ∨ v = 3 then some 50
  else if v = 4 then some 34
  else if v = 5 then some 38
  else if v = 6 then some 40
  else if v = 7 ∨ v = 8 ∨ v = 9 then some 34
  else if v = 15 ∨ (24 ≤ v ∧ v ≤ 31) ∨ 64 ≤ v then some 44
  else if 32 ≤ v ∧ v ≤ 47 then some 34
  else none

/-- The interrupts with a vector of their own. -/
def vectoredInterrupt (v : Nat) : Prop := v = 15 ∨ 64 ≤ v
instance (v : Nat) : Decidable (vectoredInterrupt v) := inferInstanceAs (Decidable (_ ∨ _))

end M68k.Spec.Manual
