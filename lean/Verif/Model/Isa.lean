/-
GENERATED by tools/gen_decoder.py from m68000/src/isa.rs.
-/
import Verif.Model.Basic

namespace M68k

/-- isa.rs L15-102: `Isa` (the `_Size` sentinel, which no table entry uses, is left out). -/
inductive Isa
  | Unknown
  | Abcd
  | Add
  | Adda
  | Addi
  | Addq
  | Addx
  | And
  | Andi
  | Andiccr
  | Andisr
  | Asm
  | Asr
  | Bcc
  | Bchg
  | Bclr
  | Bra
  | Bset
  | Bsr
  | Btst
  | Chk
  | Clr
  | Cmp
  | Cmpa
  | Cmpi
  | Cmpm
  | Dbcc
  | Divs
  | Divu
  | Eor
  | Eori
  | Eoriccr
  | Eorisr
  | Exg
  | Ext
  | Illegal
  | Jmp
  | Jsr
  | Lea
  | Link
  | Lsm
  | Lsr
  | Move
  | Movea
  | Moveccr
  | Movefsr
  | Movesr
  | Moveusp
  | Movem
  | Movep
  | Moveq
  | Muls
  | Mulu
  | Nbcd
  | Neg
  | Negx
  | Nop
  | Not
  | Or
  | Ori
  | Oriccr
  | Orisr
  | Pea
  | Reset
  | Rom
  | Ror
  | Roxm
  | Roxr
  | Rte
  | Rtr
  | Rts
  | Sbcd
  | Scc
  | Stop
  | Sub
  | Suba
  | Subi
  | Subq
  | Subx
  | Swap
  | Tas
  | Trap
  | Trapv
  | Tst
  | Unlk
deriving DecidableEq, Repr

/-- isa.rs L108-111: `is_privileged`. -/
def Isa.isPrivileged : Isa → Bool
  | .Andisr | .Eorisr | .Movesr | .Moveusp | .Orisr | .Reset | .Rte | .Stop => true
  | _ => false

end M68k
