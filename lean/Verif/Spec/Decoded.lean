import Verif.Spec.Length
import Verif.Spec.Operand
import Verif.Spec.Words
/-
The operands of an instruction, from its opcode and its extension words, as the instruction formats of the Programmer's Reference Manual lay them out. This file uses nothing of
the decoder: only the data types of its result.
-/
namespace M68k.Spec

/-- The addressing mode denoted by a mode and a register field, followed by the extension words `ws`; `pc` is the address of the first of them. An immediate operand is one word, or two
with the high one first. -/
def modeOf (pc : U32) (mode reg : Nat) (ws : List U16) : AddressingMode :=
  match mode, reg, ws with
  | 0, n, _ => .Drd (BitVec.ofNat 8 n)                          -- Dn
  | 1, n, _ => .Ard (BitVec.ofNat 8 n)                          -- An
  | 2, n, _ => .Ari (BitVec.ofNat 8 n)                          -- (An)
  | 3, n, _ => .Ariwpo (BitVec.ofNat 8 n)                       -- (An)+
  | 4, n, _ => .Ariwpr (BitVec.ofNat 8 n)                       -- -(An)
  | 5, n, d :: _ => .Ariwd (BitVec.ofNat 8 n) d                 -- d16(An)
  | 6, n, x :: _ => .Ariwi8 (BitVec.ofNat 8 n) ⟨x⟩              -- d8(An,Xn)
  | 7, 0, w :: _ => .AbsShort w                                 -- xxx.W
  | 7, 1, hi :: lo :: _ => .AbsLong (hi ++ lo)                  -- xxx.L
  | 7, 2, d :: _ => .Pciwd pc d                                 -- d16(PC)
  | 7, 3, x :: _ => .Pciwi8 pc ⟨x⟩                              -- d8(PC,Xn)
  | 7, 4, [w] => .Immediate (w.setWidth 32)                     -- #imm
  | 7, 4, hi :: lo :: _ => .Immediate (hi ++ lo)
  | _, _, _ => .Drd 0

/-- Immediate data of one or two words. -/
def dataOf : List U16 → U32
  | [w] => w.setWidth 32
  | hi :: lo :: _ => hi ++ lo
  | [] => 0

/-- The operands of the instruction `i` with the opcode `op` and the extension words `ws`, which begin at the address `pc`. -/
def operandsOf (i : Isa) (op : U16) (pc : U32) (ws : List U16) : Operands :=
  let low : U8 := BitVec.ofNat 8 (op.toNat % 8)                 -- register in bits 2-0
  let high : U8 := BitVec.ofNat 8 (op.toNat / 512 % 8)          -- register, count or data in bits 11-9
  let cc : U8 := BitVec.ofNat 8 (op.toNat / 256 % 16)           -- condition in bits 11-8
  let size := (opSize op).getD .Byte                            -- size in bits 7-6
  let ea := modeOf pc (op.toNat / 8 % 8) (op.toNat % 8) ws      -- effective address in bits 5-0
  let next (k : Nat) := modeOf (pc + BitVec.ofNat 32 (2 * k)) (op.toNat / 8 % 8) (op.toNat % 8) (ws.drop k)   -- the same, after `k` other extension words
  let word := ws.headD 0
  -- displacement of a branch: the low byte of the opcode, or a word if that is zero
  let disp := if op.toNat % 256 = 0 then word else (op.setWidth 8 : U8).signExtend 16
  match i with
  | .Unknown | .Illegal | .Nop | .Reset | .Rte | .Rtr | .Rts | .Trapv => .NoOperands
  | .Andiccr | .Andisr | .Eoriccr | .Eorisr | .Oriccr | .Orisr | .Stop => .Immediate word
  | .Addi | .Andi | .Cmpi | .Eori | .Ori | .Subi => .SizeEffectiveAddressImmediate size (next (sizedImm op)) (dataOf (ws.take (sizedImm op)))
  -- bit number in a register or in a word
  | .Bchg | .Bclr | .Bset | .Btst => if flag op 8 then .EffectiveAddressCount ea high else .EffectiveAddressCount (next 1) (word.setWidth 8)
  | .Jmp | .Jsr | .Moveccr | .Movefsr | .Movesr | .Nbcd | .Pea | .Tas => .EffectiveAddress ea
  | .Clr | .Neg | .Negx | .Not | .Tst => .SizeEffectiveAddress size ea
  | .Chk | .Divs | .Divu | .Lea | .Muls | .Mulu => .RegisterEffectiveAddress high ea
  | .Movep => .RegisterDirectionSizeRegisterDisplacement high (if flag op 7 then .RegisterToMemory else .MemoryToRegister) (sizeBit op 6) low word
  | .Movea => .SizeRegisterEffectiveAddress ((moveOpSize op).getD .Byte) high ea
  -- the extension words of the source are first
  | .Move =>
    let n := opEaWords (moveImm op) op
    .SizeEffectiveAddressEffectiveAddress ((moveOpSize op).getD .Byte) (modeOf 0 (op.toNat / 64 % 8) (op.toNat / 512 % 8) (ws.drop n))
      (modeOf pc (op.toNat / 8 % 8) (op.toNat % 8) (ws.take n))
  | .Exg => .RegisterOpmodeRegister high
      (if op.toNat / 8 % 32 = 8 then .ExchangeData else if op.toNat / 8 % 32 = 9 then .ExchangeAddress else .ExchangeDataAddress) low
  | .Ext => .OpmodeRegister (BitVec.ofNat 8 (op.toNat / 64 % 8)) low
  | .Trap => .Vector (BitVec.ofNat 8 (op.toNat % 16))
  | .Link => .RegisterDisplacement low word
  | .Swap | .Unlk => .Register low
  | .Moveusp => .DirectionRegister (if flag op 3 then .UspToRegister else .RegisterToUsp) low
  | .Movem => .DirectionSizeEffectiveAddressList (if flag op 10 then .MemoryToRegister else .RegisterToMemory) (sizeBit op 6) (next 1) word
  | .Addq | .Subq => .DataSizeEffectiveAddress high size ea
  | .Scc => .ConditionEffectiveAddress cc ea
  | .Dbcc => .ConditionRegisterDisplacement cc low word
  | .Bra | .Bsr => .Displacement disp
  | .Bcc => .ConditionDisplacement cc disp
  | .Moveq => .RegisterData high (op.setWidth 8)
  | .Add | .And | .Cmp | .Eor | .Or | .Sub => .RegisterDirectionSizeEffectiveAddress high (if flag op 8 then .DstEa else .DstReg) size ea
  | .Adda | .Cmpa | .Suba => .RegisterSizeEffectiveAddress high (sizeBit op 8) ea
  | .Abcd | .Addx | .Sbcd | .Subx => .RegisterSizeModeRegister high size (if flag op 3 then .MemoryToMemory else .RegisterToRegister) low
  | .Cmpm => .RegisterSizeRegister high size low
  | .Asm | .Lsm | .Rom | .Roxm => .DirectionEffectiveAddress (if flag op 8 then .Left else .Right) ea
  | .Asr | .Lsr | .Ror | .Roxr => .RotationDirectionSizeModeRegister high (if flag op 8 then .Left else .Right) size (flag op 5) low

end M68k.Spec
