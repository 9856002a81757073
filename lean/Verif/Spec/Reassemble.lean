import Verif.Spec.Decoded
import Verif.Model.Assembler
/-
Assembling a decoded instruction again: what a host does that reads a program and writes it out with the functions of the assembler.
-/
namespace M68k.Spec

/-- The condition of a number in an opcode. -/
def conditionOf (cc : U8) : Asm.Condition :=
  match cc.toNat with
  | 0 => .T | 1 => .F | 2 => .HI | 3 => .LS | 4 => .CC | 5 => .CS | 6 => .NE | 7 => .EQ
  | 8 => .VC | 9 => .VS | 10 => .PL | 11 => .MI | 12 => .GE | 13 => .LT | 14 => .GT | _ => .LE

/-- Calls the function of the assembler that has the name of the instruction, with its operands. The decoder does not say if the bit number of BTST, BCHG, BCLR and BSET comes from a
register, so that `dynamic`, bit 8 of the opcode, is passed along. The data 0 of ADDQ and SUBQ means 8. -/
def reassemble (i : Isa) (dynamic : Bool) (operands : Operands) : Option (List U16) :=
  match i, operands with
  | .Abcd, .RegisterSizeModeRegister x _ m y => Asm.abcd x m y
  | .Add, .RegisterDirectionSizeEffectiveAddress r d s a => Asm.add r d s a
  | .Adda, .RegisterSizeEffectiveAddress r s a => Asm.adda r s a
  | .Addi, .SizeEffectiveAddressImmediate s a v => Asm.addi s a v
  | .Addq, .DataSizeEffectiveAddress d s a => Asm.addq (if d = 0 then 8 else d) s a
  | .Addx, .RegisterSizeModeRegister x s m y => Asm.addx x s m y
  | .And, .RegisterDirectionSizeEffectiveAddress r d s a => Asm.and r d s a
  | .Andi, .SizeEffectiveAddressImmediate s a v => Asm.andi s a v
  | .Andiccr, .Immediate v => Asm.andiccr v
  | .Andisr, .Immediate v => Asm.andisr v
  | .Asm, .DirectionEffectiveAddress d a => Asm.asm d a
  | .Asr, .RotationDirectionSizeModeRegister c d s m r => Asm.asr (toU16 c) d s m (toU16 r)
  | .Bcc, .ConditionDisplacement c d => Asm.bcc (conditionOf c) d
  | .Bchg, .EffectiveAddressCount a n => if dynamic then Asm.bchgDynamic n a else Asm.bchgStatic a n
  | .Bclr, .EffectiveAddressCount a n => if dynamic then Asm.bclrDynamic n a else Asm.bclrStatic a n
  | .Bra, .Displacement d => Asm.bra d
  | .Bset, .EffectiveAddressCount a n => if dynamic then Asm.bsetDynamic n a else Asm.bsetStatic a n
  | .Bsr, .Displacement d => Asm.bsr d
  | .Btst, .EffectiveAddressCount a n => if dynamic then Asm.btstDynamic n a else Asm.btstStatic a n
  | .Chk, .RegisterEffectiveAddress r a => Asm.chk r a
  | .Clr, .SizeEffectiveAddress s a => Asm.clr s a
  | .Cmp, .RegisterDirectionSizeEffectiveAddress r _ s a => Asm.cmp r s a
  | .Cmpa, .RegisterSizeEffectiveAddress r s a => Asm.cmpa r s a
  | .Cmpi, .SizeEffectiveAddressImmediate s a v => Asm.cmpi s a v
  | .Cmpm, .RegisterSizeRegister x s y => Asm.cmpm x s y
  | .Dbcc, .ConditionRegisterDisplacement c r d => Asm.dbcc (conditionOf c) r d
  | .Divs, .RegisterEffectiveAddress r a => Asm.divs r a
  | .Divu, .RegisterEffectiveAddress r a => Asm.divu r a
  | .Eor, .RegisterDirectionSizeEffectiveAddress r _ s a => Asm.eor r s a
  | .Eori, .SizeEffectiveAddressImmediate s a v => Asm.eori s a v
  | .Eoriccr, .Immediate v => Asm.eoriccr v
  | .Eorisr, .Immediate v => Asm.eorisr v
  | .Exg, .RegisterOpmodeRegister x d y => Asm.exg x d y
  | .Ext, .OpmodeRegister m r => Asm.ext (m == 3) r
  | .Illegal, .NoOperands => Asm.illegal
  | .Jmp, .EffectiveAddress a => Asm.jmp a
  | .Jsr, .EffectiveAddress a => Asm.jsr a
  | .Lea, .RegisterEffectiveAddress r a => Asm.lea r a
  | .Link, .RegisterDisplacement r d => Asm.link r d
  | .Lsm, .DirectionEffectiveAddress d a => Asm.lsm d a
  | .Lsr, .RotationDirectionSizeModeRegister c d s m r => Asm.lsr (toU16 c) d s m (toU16 r)
  | .Move, .SizeEffectiveAddressEffectiveAddress s dst src => Asm.move s dst src
  | .Movea, .SizeRegisterEffectiveAddress s r a => Asm.movea s r a
  | .Moveccr, .EffectiveAddress a => Asm.moveccr a
  | .Movefsr, .EffectiveAddress a => Asm.movefsr a
  | .Movesr, .EffectiveAddress a => Asm.movesr a
  | .Moveusp, .DirectionRegister d r => Asm.moveusp d r
  | .Movem, .DirectionSizeEffectiveAddressList d s a l => Asm.movem d s a l
  | .Movep, .RegisterDirectionSizeRegisterDisplacement x d s y v => Asm.movep x d s y v
  | .Moveq, .RegisterData r d => Asm.moveq r d
  | .Muls, .RegisterEffectiveAddress r a => Asm.muls r a
  | .Mulu, .RegisterEffectiveAddress r a => Asm.mulu r a
  | .Nbcd, .EffectiveAddress a => Asm.nbcd a
  | .Neg, .SizeEffectiveAddress s a => Asm.neg s a
  | .Negx, .SizeEffectiveAddress s a => Asm.negx s a
  | .Nop, .NoOperands => Asm.nop
  | .Not, .SizeEffectiveAddress s a => Asm.not s a
  | .Or, .RegisterDirectionSizeEffectiveAddress r d s a => Asm.or r d s a
  | .Ori, .SizeEffectiveAddressImmediate s a v => Asm.ori s a v
  | .Oriccr, .Immediate v => Asm.oriccr v
  | .Orisr, .Immediate v => Asm.orisr v
  | .Pea, .EffectiveAddress a => Asm.pea a
  | .Reset, .NoOperands => Asm.reset
  | .Rom, .DirectionEffectiveAddress d a => Asm.rom d a
  | .Ror, .RotationDirectionSizeModeRegister c d s m r => Asm.ror (toU16 c) d s m (toU16 r)
  | .Roxm, .DirectionEffectiveAddress d a => Asm.roxm d a
  | .Roxr, .RotationDirectionSizeModeRegister c d s m r => Asm.roxr (toU16 c) d s m (toU16 r)
  | .Rte, .NoOperands => Asm.rte
  | .Rtr, .NoOperands => Asm.rtr
  | .Rts, .NoOperands => Asm.rts
  | .Sbcd, .RegisterSizeModeRegister x _ m y => Asm.sbcd x m y
  | .Scc, .ConditionEffectiveAddress c a => Asm.scc (conditionOf c) a
  | .Stop, .Immediate v => Asm.stop v
  | .Sub, .RegisterDirectionSizeEffectiveAddress r d s a => Asm.sub r d s a
  | .Suba, .RegisterSizeEffectiveAddress r s a => Asm.suba r s a
  | .Subi, .SizeEffectiveAddressImmediate s a v => Asm.subi s a v
  | .Subq, .DataSizeEffectiveAddress d s a => Asm.subq (if d = 0 then 8 else d) s a
  | .Subx, .RegisterSizeModeRegister x s m y => Asm.subx x s m y
  | .Swap, .Register r => Asm.swap r
  | .Tas, .EffectiveAddress a => Asm.tas a
  | .Trap, .Vector v => Asm.trap v
  | .Trapv, .NoOperands => Asm.trapv
  | .Tst, .SizeEffectiveAddress s a => Asm.tst s a
  | .Unlk, .Register r => Asm.unlk r
  | _, _ => none

/-- The same words with the high byte of the first one cleared. -/
def lowByte : List U16 → List U16
  | w :: ws => (w &&& 0xFF) :: ws
  | [] => []

/-- The form in which an instruction with the opcode `op` and the extension words `ws` comes out of the assembler: branches have the short form where it is possible, and the high byte
of a word that holds a byte is zero. All others are unchanged. -/
def canonicalWords (i : Isa) (op : U16) (ws : List U16) : List U16 :=
  match i with
  | .Addi | .Andi | .Cmpi | .Eori | .Ori | .Subi => if op.toNat / 64 % 4 = 0 then op :: lowByte ws else op :: ws
  | .Andiccr | .Eoriccr | .Oriccr => op :: lowByte ws
  | .Bchg | .Bclr | .Bset | .Btst => if flag op 8 then op :: ws else op :: lowByte ws
  | .Bcc | .Bra | .Bsr =>
    match ws with
    | [w] => if w ≠ 0 ∧ -128 ≤ w.toInt ∧ w.toInt ≤ 127 then [op + (w &&& 0xFF)] else [op, w]
    | _ => op :: ws
  | _ => op :: ws

end M68k.Spec
