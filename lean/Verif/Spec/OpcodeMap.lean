import Verif.Model.Isa
/-
The opcode map of the MC68000, written from the instruction formats of the Programmer's Reference
Manual (M68000PM/AD, sections 4 and 8): which instruction each of the 65536 opcode words denotes, and
which addressing modes it accepts. This file uses nothing of the decoder.
-/
namespace M68k.Spec

/-! ### The effective address field: mode in bits 5-3, register in bits 2-0 -/

/-- The effective address field of an opcode. -/
structure EaField where
  mode : Nat
  reg : Nat

namespace EaField
/-- All addressing modes: Dn, An, (An), (An)+, -(An), d16(An), d8(An,Xn), xxx.W, xxx.L, d16(PC),
d8(PC,Xn), #imm. -/
def any (e : EaField) : Bool := e.mode < 7 || e.reg ≤ 4
/-- Data addressing modes: all but An. -/
def data (e : EaField) : Bool := e.any && e.mode != 1
/-- Control addressing modes: (An), d16(An), d8(An,Xn), xxx.W, xxx.L, d16(PC), d8(PC,Xn). -/
def control (e : EaField) : Bool := e.mode == 2 || e.mode == 5 || e.mode == 6 || (e.mode == 7 && e.reg ≤ 3)
/-- Alterable addressing modes: neither PC relative nor immediate. -/
def alterable (e : EaField) : Bool := e.mode < 7 || e.reg ≤ 1
/-- Data alterable addressing modes. -/
def dataAlterable (e : EaField) : Bool := e.data && e.alterable
/-- Memory alterable addressing modes: data alterable but Dn. -/
def memoryAlterable (e : EaField) : Bool := e.dataAlterable && e.mode != 0
/-- Control alterable addressing modes. -/
def controlAlterable (e : EaField) : Bool := e.control && e.alterable
end EaField

/-- The instruction if the condition holds. -/
def only (c : Bool) (i : Isa) : Isa := if c then i else .Unknown

/-- Line 0: bit manipulation, MOVEP, immediate. `r` is bits 11-9, `b8` bit 8, `sz` bits 7-6. -/
def line0 (op r : Nat) (b8 : Bool) (sz : Nat) (e : EaField) : Isa :=
  if op = 0x003C then .Oriccr
  else if op = 0x007C then .Orisr
  else if op = 0x023C then .Andiccr
  else if op = 0x027C then .Andisr
  else if op = 0x0A3C then .Eoriccr
  else if op = 0x0A7C then .Eorisr
  else if b8 && e.mode == 1 then .Movep
  else if b8 then
    match sz with
    | 0 => only e.data .Btst
    | 1 => only e.dataAlterable .Bchg
    | 2 => only e.dataAlterable .Bclr
    | _ => only e.dataAlterable .Bset
  else match r with
    | 0 => only (sz < 3 && e.dataAlterable) .Ori
    | 1 => only (sz < 3 && e.dataAlterable) .Andi
    | 2 => only (sz < 3 && e.dataAlterable) .Subi
    | 3 => only (sz < 3 && e.dataAlterable) .Addi
    | 4 =>
      match sz with
      | 0 => only (e.data && !(e.mode == 7 && e.reg == 4)) .Btst
      | 1 => only e.dataAlterable .Bchg
      | 2 => only e.dataAlterable .Bclr
      | _ => only e.dataAlterable .Bset
    | 5 => only (sz < 3 && e.dataAlterable) .Eori
    | 6 => only (sz < 3 && e.dataAlterable) .Cmpi
    | _ => .Unknown

/-- Lines 1, 2, 3: MOVE and MOVEA. `e` is the source, `d` the destination (bits 8-6 and 11-9).
Address registers are not byte operands. -/
def lineMove (byte : Bool) (e d : EaField) : Isa :=
  if e.any && !(byte && e.mode == 1) then
    if d.mode = 1 then only (!byte) .Movea else only d.dataAlterable .Move
  else .Unknown

/-- Line 4: miscellaneous. -/
def line4 (op r : Nat) (b8 : Bool) (sz : Nat) (e : EaField) : Isa :=
  if b8 then
    match sz with
    | 2 => only e.data .Chk
    | 3 => only e.control .Lea
    | _ => .Unknown
  else match r with
    | 0 => if sz = 3 then only e.dataAlterable .Movefsr else only e.dataAlterable .Negx
    | 1 => if sz = 3 then .Unknown else only e.dataAlterable .Clr
    | 2 => if sz = 3 then only e.data .Moveccr else only e.dataAlterable .Neg
    | 3 => if sz = 3 then only e.data .Movesr else only e.dataAlterable .Not
    | 4 =>
      match sz with
      | 0 => only e.dataAlterable .Nbcd
      | 1 => if e.mode = 0 then .Swap else only e.control .Pea
      | _ => if e.mode = 0 then .Ext else only (e.controlAlterable || e.mode == 4) .Movem
    | 5 =>
      if op = 0x4AFC then .Illegal
      else if sz = 3 then only e.dataAlterable .Tas else only e.dataAlterable .Tst
    | 6 => only (2 ≤ sz && (e.control || e.mode == 3)) .Movem
    | _ =>
      match sz with
      | 0 => .Unknown
      | 1 =>
        if e.mode ≤ 1 then .Trap
        else if e.mode = 2 then .Link
        else if e.mode = 3 then .Unlk
        else if e.mode ≤ 5 then .Moveusp
        else if op = 0x4E70 then .Reset
        else if op = 0x4E71 then .Nop
        else if op = 0x4E72 then .Stop
        else if op = 0x4E73 then .Rte
        else if op = 0x4E75 then .Rts
        else if op = 0x4E76 then .Trapv
        else if op = 0x4E77 then .Rtr
        else .Unknown
      | 2 => only e.control .Jsr
      | _ => only e.control .Jmp

/-- Line 5: ADDQ, SUBQ, Scc, DBcc. -/
def line5 (b8 : Bool) (sz : Nat) (e : EaField) : Isa :=
  if sz = 3 then
    if e.mode = 1 then .Dbcc else only e.dataAlterable .Scc
  else only (e.alterable && !(sz == 0 && e.mode == 1)) (if b8 then .Subq else .Addq)

/-- Lines 9 and D: `x` ADD or SUB, `xa` with an address register, `xx` extended. -/
def lineAdd (x xa xx : Isa) (b8 : Bool) (sz : Nat) (e : EaField) : Isa :=
  if sz = 3 then only e.any xa
  else if b8 then
    if e.mode ≤ 1 then xx else only e.memoryAlterable x
  else only (e.any && !(sz == 0 && e.mode == 1)) x

/-- Lines 8 and C: `x` OR or AND, `unsigned` and `signed` the division or multiplication, `bcd` the
decimal operation. -/
def lineOr (x unsigned signed bcd : Isa) (b8 : Bool) (sz : Nat) (e : EaField) : Isa :=
  if sz = 3 then only e.data (if b8 then signed else unsigned)
  else if b8 then
    if e.mode ≤ 1 then only (sz == 0) bcd else only e.memoryAlterable x
  else only e.data x

/-- Line B: CMP, CMPA, CMPM, EOR. -/
def lineB (b8 : Bool) (sz : Nat) (e : EaField) : Isa :=
  if sz = 3 then only e.any .Cmpa
  else if b8 then
    if e.mode = 1 then .Cmpm else only e.dataAlterable .Eor
  else only (e.any && !(sz == 0 && e.mode == 1)) .Cmp

/-- Line C: EXG, else AND, MUL, ABCD. -/
def lineC (b8 : Bool) (sz : Nat) (e : EaField) : Isa :=
  if b8 && ((sz == 1 && e.mode ≤ 1) || (sz == 2 && e.mode == 1)) then .Exg
  else lineOr .And .Mulu .Muls .Abcd b8 sz e

/-- Line E: shifts and rotations. -/
def lineE (r : Nat) (sz : Nat) (e : EaField) : Isa :=
  if sz = 3 then
    match r with
    | 0 => only e.memoryAlterable .Asm
    | 1 => only e.memoryAlterable .Lsm
    | 2 => only e.memoryAlterable .Roxm
    | 3 => only e.memoryAlterable .Rom
    | _ => .Unknown
  else match e.mode % 4 with
    | 0 => .Asr
    | 1 => .Lsr
    | 2 => .Roxr
    | _ => .Ror

/-- The instruction denoted by an opcode word. `Asr`, `Lsr`, `Roxr`, `Ror` stand for the register
shifts of both directions and `Asm`, `Lsm`, `Roxm`, `Rom` for the memory shifts. Opcodes of later
processors of the family are not instructions. -/
def opcodeMap (op : Nat) : Isa :=
  let r := op / 512 % 8
  let b8 := op / 256 % 2 == 1
  let sz := op / 64 % 4
  let e : EaField := ⟨op / 8 % 8, op % 8⟩
  match op / 4096 with
  | 0x0 => line0 op r b8 sz e
  | 0x1 => lineMove true e ⟨op / 64 % 8, r⟩
  | 0x2 => lineMove false e ⟨op / 64 % 8, r⟩
  | 0x3 => lineMove false e ⟨op / 64 % 8, r⟩
  | 0x4 => line4 op r b8 sz e
  | 0x5 => line5 b8 sz e
  | 0x6 => if op / 256 % 16 = 0 then .Bra else if op / 256 % 16 = 1 then .Bsr else .Bcc
  | 0x7 => only (!b8) .Moveq
  | 0x8 => lineOr .Or .Divu .Divs .Sbcd b8 sz e
  | 0x9 => lineAdd .Sub .Suba .Subx b8 sz e
  | 0xB => lineB b8 sz e
  | 0xC => lineC b8 sz e
  | 0xD => lineAdd .Add .Adda .Addx b8 sz e
  | 0xE => lineE r sz e
  | _ => .Unknown

/-- The instruction denoted by an opcode word. -/
def instr (op : BitVec 16) : Isa := opcodeMap op.toNat

end M68k.Spec
