import Verif.Spec.Access
/-
The registers an instruction uses.
-/
namespace M68k.Spec

/-- A data or an address register. -/
inductive Register
  | d (n : Fin 8)
  | a (n : Fin 8)
deriving DecidableEq

/-- The registers of `t`, except those in `l`, the stack pointers, the status register and the program counter, which are those of `r`. -/
def withOthers (l : List Register) (t r : Registers) : Registers :=
  { r with
    d := fun n => if .d n ∈ l then r.d n else t.d n
    a := fun n => if .a ⟨n.val, by omega⟩ ∈ l then r.a n else t.a n }

/-- The index register of a brief extension word. -/
def indexRegister (x : U16) : Register := if x.toNat / 2 ^ 15 % 2 = 1 then .a (regField x 12) else .d (regField x 12)

/-- The registers of the operand denoted by the fields `mode` and `reg`; `ws` begins with its extension words. -/
def eaRegisters (mode reg : Nat) (ws : List U16) : List Register :=
  match mode with
  | 0 => [.d (Fin.ofNat 8 reg)]
  | 1 | 2 | 3 | 4 | 5 => [.a (Fin.ofNat 8 reg)]
  | 6 => [.a (Fin.ofNat 8 reg), indexRegister (ws.headD 0)]
  | _ => if reg = 3 then [indexRegister (ws.headD 0)] else []

/-- Register `k` of a MOVEM list: D0-D7 then A0-A7. -/
def listRegister (k : Fin 16) : Register := if h : k.val < 8 then .d ⟨k.val, h⟩ else .a ⟨k.val - 8, by omega⟩

/-- The registers in a MOVEM list. For `-(An)` the bits are in the reverse order. -/
def listRegisters (down : Bool) (mask : U16) : List Register :=
  ((List.finRange 16).filter fun k => mask.toNat.testBit k.val).map fun k => listRegister (if down then k.rev else k)

/-- The registers among D0-D7 and A0-A7 that the instruction `i` with the opcode `op` and the extension words `ws` names. The active stack pointer is
not listed where it is not an operand. -/
def registersUsed (i : Isa) (op : U16) (ws : List U16) : List Register :=
  let ea (before : Nat) := eaRegisters (op.toNat / 8 % 8) (op.toNat % 8) (ws.drop before)
  let d9 := Register.d (regField op 9)
  let a9 := Register.a (regField op 9)
  let d0 := Register.d (regField op 0)
  let a0 := Register.a (regField op 0)
  match i with
  | .Add | .Sub | .And | .Or | .Eor | .Cmp | .Mulu | .Muls | .Divu | .Divs | .Chk => d9 :: ea 0
  | .Adda | .Suba | .Cmpa | .Movea | .Lea => a9 :: ea 0
  | .Addi | .Subi | .Andi | .Ori | .Eori | .Cmpi => ea (sizedImm op)
  | .Btst | .Bchg | .Bclr | .Bset => if flag op 8 then d9 :: ea 0 else ea 1
  | .Addq | .Subq | .Neg | .Negx | .Not | .Tst | .Clr | .Nbcd | .Tas | .Scc | .Asm | .Lsm | .Rom | .Roxm | .Moveccr | .Movesr | .Movefsr
  | .Pea | .Jmp | .Jsr => ea 0
  | .Move => ea 0 ++ eaRegisters (op.toNat / 64 % 8) (op.toNat / 512 % 8) (ws.drop (opEaWords (moveImm op) op))
  | .Addx | .Subx | .Abcd | .Sbcd => if flag op 3 then [a9, a0] else [d9, d0]
  | .Cmpm => [a9, a0]
  | .Asr | .Lsr | .Ror | .Roxr => if flag op 5 then [d9, d0] else [d0]
  | .Moveq => [d9]
  | .Movem => listRegisters (op.toNat / 8 % 8 == 4) (ws.headD 0) ++ ea 1
  | .Movep => [d9, a0]
  | .Exg => if op.toNat / 8 % 32 = 8 then [d9, d0] else if op.toNat / 8 % 32 = 9 then [a9, a0] else [d9, a0]
  | .Ext | .Swap | .Dbcc => [d0]
  | .Link | .Unlk | .Moveusp => [a0]
  | _ => []

end M68k.Spec
