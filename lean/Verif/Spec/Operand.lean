import Verif.Spec.Step
/-
The size of the operand denoted by the effective address field of an opcode.
-/
namespace M68k.Spec

/-- The size in bits 13-12 of MOVE and MOVEA. -/
def moveOpSize (op : U16) : Option Size :=
  match op.toNat / 4096 % 4 with
  | 1 => some .Byte
  | 3 => some .Word
  | 2 => some .Long
  | _ => none

/-- The size of the memory operand denoted by the effective address field, for the instructions that read or write it: from bits 7-6 for most,
from bit 8 for the address register instructions, else fixed. MOVE to SR, which can exchange the stack pointers, is left out. -/
def eaSize (i : Isa) (op : U16) : Option Size :=
  match i with
  | .Add | .Sub | .And | .Or | .Eor | .Addi | .Subi | .Andi | .Ori | .Eori | .Addq | .Subq | .Cmp | .Cmpi
  | .Neg | .Negx | .Not | .Tst | .Clr => opSize op
  | .Adda | .Suba | .Cmpa => some (if op.toNat / 2 ^ 8 % 2 = 1 then .Long else .Word)
  | .Movea => moveOpSize op
  | .Tas | .Scc | .Nbcd | .Btst | .Bchg | .Bclr | .Bset => some .Byte
  | .Asm | .Lsm | .Rom | .Roxm | .Mulu | .Muls | .Divu | .Divs | .Chk | .Moveccr | .Movefsr => some .Word
  | _ => none

/-- The instructions whose destination is the address register in bits 11-9. -/
def toAddressRegister (i : Isa) : Bool :=
  match i with
  | .Adda | .Suba | .Movea => true
  | _ => false

end M68k.Spec
