import Verif.Spec.Step
/-
The registers an instruction names as destinations, by opcode. Every other register keeps its value.
-/
namespace M68k.Spec

/-- `n` is the register of an effective address field and the mode is `mode`. -/
def eaIs (mode : Nat) (op : U16) (n : Fin 8) : Bool := op.toNat / 8 % 8 == mode && op.toNat % 8 == n.val
/-- The effective address field is `(An)+` or `-(An)`. -/
def eaSteps (op : U16) (n : Fin 8) : Bool := eaIs 3 op n || eaIs 4 op n

/-- The number of bits of the size in bits 7-6 of an opcode. -/
def sizedBits (op : U16) : Nat := if op.toNat / 64 % 4 = 0 then 8 else if op.toNat / 64 % 4 = 1 then 16 else 32
/-- The number of bits of the size of MOVE. -/
def moveBits (op : U16) : Nat := if op.toNat / 4096 % 4 = 1 then 8 else if op.toNat / 4096 % 4 = 3 then 16 else 32

/-- `k` if the condition holds, else 0. -/
def bitsIf (b : Bool) (k : Nat) : Nat := if b then k else 0

/-- The number of low order bits of data register `n` that the instruction can change. MOVEM to registers can change
every register: which ones depends on its list. -/
def dataBits (i : Isa) (op : U16) (n : Fin 8) : Nat :=
  match i with
  | .Add | .Sub | .And | .Or => if flag op 8 then bitsIf (eaIs 0 op n) (sizedBits op) else bitsIf (n == regField op 9) (sizedBits op)
  | .Addi | .Subi | .Andi | .Ori | .Eori | .Addq | .Subq | .Eor | .Neg | .Negx | .Not | .Clr => bitsIf (eaIs 0 op n) (sizedBits op)
  | .Nbcd | .Tas | .Scc => bitsIf (eaIs 0 op n) 8
  | .Movefsr | .Asm | .Lsm | .Rom | .Roxm => bitsIf (eaIs 0 op n) 16
  | .Bchg | .Bclr | .Bset => bitsIf (eaIs 0 op n) 32
  | .Addx | .Subx => bitsIf (!flag op 3 && n == regField op 9) (sizedBits op)
  | .Abcd | .Sbcd => bitsIf (!flag op 3 && n == regField op 9) 8
  | .Asr | .Lsr | .Ror | .Roxr => bitsIf (n == regField op 0) (sizedBits op)
  | .Move => bitsIf (op.toNat / 64 % 8 == 0 && n == regField op 9) (moveBits op)
  | .Moveq | .Mulu | .Muls | .Divu | .Divs => bitsIf (n == regField op 9) 32
  | .Ext => bitsIf (n == regField op 0) (if op.toNat / 64 % 8 = 2 then 16 else 32)
  | .Swap => bitsIf (n == regField op 0) 32
  | .Dbcc => bitsIf (n == regField op 0) 16
  | .Exg => if op.toNat / 8 % 32 = 8 then bitsIf (n == regField op 0 || n == regField op 9) 32
      else if op.toNat / 8 % 32 = 9 then 0 else bitsIf (n == regField op 9) 32
  | .Movep => if flag op 7 then 0 else bitsIf (n == regField op 9) (if flag op 6 then 32 else 16)
  | .Movem => if flag op 10 then 32 else 0
  | _ => 0

/-- The instruction can change address register `n`; for A7 this stands for both stack pointers. -/
def changesAddress (i : Isa) (op : U16) (n : Fin 8) : Bool :=
  match i with
  | .Add | .Sub | .And | .Or | .Addi | .Subi | .Andi | .Ori | .Eori | .Eor | .Neg | .Negx | .Not | .Clr | .Nbcd | .Tas | .Scc | .Movefsr
  | .Asm | .Lsm | .Rom | .Roxm | .Bchg | .Bclr | .Bset | .Addq | .Subq => eaSteps op n || eaIs 1 op n
  | .Cmp | .Cmpi | .Cmpa | .Tst | .Btst | .Mulu | .Muls | .Divu | .Divs | .Chk | .Moveccr | .Movesr => eaSteps op n
  | .Adda | .Suba | .Movea => eaSteps op n || n == regField op 9
  | .Move => eaSteps op n || ((op.toNat / 64 % 8 == 1 || op.toNat / 64 % 8 == 3 || op.toNat / 64 % 8 == 4) && n == regField op 9)
  | .Addx | .Subx | .Abcd | .Sbcd => flag op 3 && (n == regField op 9 || n == regField op 0)
  | .Cmpm => n == regField op 9 || n == regField op 0
  | .Lea => n == regField op 9
  | .Pea | .Bsr | .Jsr | .Rts | .Rtr | .Rte => n == 7
  | .Link | .Unlk => n == regField op 0 || n == 7
  | .Exg => if op.toNat / 8 % 32 = 8 then false
      else if op.toNat / 8 % 32 = 9 then n == regField op 0 || n == regField op 9 else n == regField op 0
  | .Moveusp => n == 7 || (flag op 3 && n == regField op 0)
  | .Movem => flag op 10 || eaSteps op n
  | _ => false

/-- The registers `r'` differ from `r` only in the low `b n` bits of the data registers `n` and in the address
registers `n` with `c n`, apart from the program counter and the status register. -/
structure OnlyChanges (b : Fin 8 → Nat) (c : Fin 8 → Bool) (r r' : Registers) : Prop where
  data : ∀ n, (r'.d n).toNat / 2 ^ b n = (r.d n).toNat / 2 ^ b n
  address : ∀ n : Fin 7, c ⟨n.val, by omega⟩ = false → r'.a n = r.a n
  stack : c 7 = false → r'.usp = r.usp ∧ r'.ssp = r.ssp

end M68k.Spec
