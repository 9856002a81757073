/-
GENERATED by tools/gen_decoder.py from m68000/src/decoder.rs L19-4115 (65536 table entries),
run-length encoded, one list per value of the top four bits of the opcode.
-/
import Verif.Model.Isa

namespace M68k

/-- decoder.rs L20-275: entries 0x0000 to 0x0FFF of `DECODER` as (value, repetitions). -/
def decoderLine0 : List (Isa × Nat) := [
  (.Ori, 8), (.Unknown, 8), (.Ori, 42), (.Unknown, 2), (.Oriccr, 1), (.Unknown, 3), (.Ori, 8),
  (.Unknown, 8), (.Ori, 42), (.Unknown, 2), (.Orisr, 1), (.Unknown, 3), (.Ori, 8), (.Unknown, 8),
  (.Ori, 42), (.Unknown, 70), (.Btst, 8), (.Movep, 8), (.Btst, 45), (.Unknown, 3), (.Bchg, 8),
  (.Movep, 8), (.Bchg, 42), (.Unknown, 6), (.Bclr, 8), (.Movep, 8), (.Bclr, 42), (.Unknown, 6),
  (.Bset, 8), (.Movep, 8), (.Bset, 42), (.Unknown, 6), (.Andi, 8), (.Unknown, 8), (.Andi, 42),
  (.Unknown, 2), (.Andiccr, 1), (.Unknown, 3), (.Andi, 8), (.Unknown, 8), (.Andi, 42),
  (.Unknown, 2), (.Andisr, 1), (.Unknown, 3), (.Andi, 8), (.Unknown, 8), (.Andi, 42),
  (.Unknown, 70), (.Btst, 8), (.Movep, 8), (.Btst, 45), (.Unknown, 3), (.Bchg, 8), (.Movep, 8),
  (.Bchg, 42), (.Unknown, 6), (.Bclr, 8), (.Movep, 8), (.Bclr, 42), (.Unknown, 6), (.Bset, 8),
  (.Movep, 8), (.Bset, 42), (.Unknown, 6), (.Subi, 8), (.Unknown, 8), (.Subi, 42), (.Unknown, 6),
  (.Subi, 8), (.Unknown, 8), (.Subi, 42), (.Unknown, 6), (.Subi, 8), (.Unknown, 8), (.Subi, 42),
  (.Unknown, 70), (.Btst, 8), (.Movep, 8), (.Btst, 45), (.Unknown, 3), (.Bchg, 8), (.Movep, 8),
  (.Bchg, 42), (.Unknown, 6), (.Bclr, 8), (.Movep, 8), (.Bclr, 42), (.Unknown, 6), (.Bset, 8),
  (.Movep, 8), (.Bset, 42), (.Unknown, 6), (.Addi, 8), (.Unknown, 8), (.Addi, 42), (.Unknown, 6),
  (.Addi, 8), (.Unknown, 8), (.Addi, 42), (.Unknown, 6), (.Addi, 8), (.Unknown, 8), (.Addi, 42),
  (.Unknown, 70), (.Btst, 8), (.Movep, 8), (.Btst, 45), (.Unknown, 3), (.Bchg, 8), (.Movep, 8),
  (.Bchg, 42), (.Unknown, 6), (.Bclr, 8), (.Movep, 8), (.Bclr, 42), (.Unknown, 6), (.Bset, 8),
  (.Movep, 8), (.Bset, 42), (.Unknown, 6), (.Btst, 8), (.Unknown, 8), (.Btst, 44), (.Unknown, 4),
  (.Bchg, 8), (.Unknown, 8), (.Bchg, 42), (.Unknown, 6), (.Bclr, 8), (.Unknown, 8), (.Bclr, 42),
  (.Unknown, 6), (.Bset, 8), (.Unknown, 8), (.Bset, 42), (.Unknown, 6), (.Btst, 8), (.Movep, 8),
  (.Btst, 45), (.Unknown, 3), (.Bchg, 8), (.Movep, 8), (.Bchg, 42), (.Unknown, 6), (.Bclr, 8),
  (.Movep, 8), (.Bclr, 42), (.Unknown, 6), (.Bset, 8), (.Movep, 8), (.Bset, 42), (.Unknown, 6),
  (.Eori, 8), (.Unknown, 8), (.Eori, 42), (.Unknown, 2), (.Eoriccr, 1), (.Unknown, 3),
  (.Eori, 8), (.Unknown, 8), (.Eori, 42), (.Unknown, 2), (.Eorisr, 1), (.Unknown, 3), (.Eori, 8),
  (.Unknown, 8), (.Eori, 42), (.Unknown, 70), (.Btst, 8), (.Movep, 8), (.Btst, 45),
  (.Unknown, 3), (.Bchg, 8), (.Movep, 8), (.Bchg, 42), (.Unknown, 6), (.Bclr, 8), (.Movep, 8),
  (.Bclr, 42), (.Unknown, 6), (.Bset, 8), (.Movep, 8), (.Bset, 42), (.Unknown, 6), (.Cmpi, 8),
  (.Unknown, 8), (.Cmpi, 42), (.Unknown, 6), (.Cmpi, 8), (.Unknown, 8), (.Cmpi, 42),
  (.Unknown, 6), (.Cmpi, 8), (.Unknown, 8), (.Cmpi, 42), (.Unknown, 70), (.Btst, 8), (.Movep, 8),
  (.Btst, 45), (.Unknown, 3), (.Bchg, 8), (.Movep, 8), (.Bchg, 42), (.Unknown, 6), (.Bclr, 8),
  (.Movep, 8), (.Bclr, 42), (.Unknown, 6), (.Bset, 8), (.Movep, 8), (.Bset, 42), (.Unknown, 262),
  (.Btst, 8), (.Movep, 8), (.Btst, 45), (.Unknown, 3), (.Bchg, 8), (.Movep, 8), (.Bchg, 42),
  (.Unknown, 6), (.Bclr, 8), (.Movep, 8), (.Bclr, 42), (.Unknown, 6), (.Bset, 8), (.Movep, 8),
  (.Bset, 42), (.Unknown, 6)]

/-- decoder.rs L276-531: entries 0x1000 to 0x1FFF of `DECODER` as (value, repetitions). -/
def decoderLine1 : List (Isa × Nat) := [
  (.Move, 8), (.Unknown, 8), (.Move, 45), (.Unknown, 67), (.Move, 8), (.Unknown, 8), (.Move, 45),
  (.Unknown, 3), (.Move, 8), (.Unknown, 8), (.Move, 45), (.Unknown, 3), (.Move, 8),
  (.Unknown, 8), (.Move, 45), (.Unknown, 3), (.Move, 8), (.Unknown, 8), (.Move, 45),
  (.Unknown, 3), (.Move, 8), (.Unknown, 8), (.Move, 45), (.Unknown, 3), (.Move, 8),
  (.Unknown, 8), (.Move, 45), (.Unknown, 3), (.Move, 8), (.Unknown, 8), (.Move, 45),
  (.Unknown, 67), (.Move, 8), (.Unknown, 8), (.Move, 45), (.Unknown, 3), (.Move, 8),
  (.Unknown, 8), (.Move, 45), (.Unknown, 3), (.Move, 8), (.Unknown, 8), (.Move, 45),
  (.Unknown, 3), (.Move, 8), (.Unknown, 8), (.Move, 45), (.Unknown, 3), (.Move, 8),
  (.Unknown, 8), (.Move, 45), (.Unknown, 3), (.Move, 8), (.Unknown, 8), (.Move, 45),
  (.Unknown, 3), (.Move, 8), (.Unknown, 8), (.Move, 45), (.Unknown, 67), (.Move, 8),
  (.Unknown, 8), (.Move, 45), (.Unknown, 3), (.Move, 8), (.Unknown, 8), (.Move, 45),
  (.Unknown, 3), (.Move, 8), (.Unknown, 8), (.Move, 45), (.Unknown, 3), (.Move, 8),
  (.Unknown, 8), (.Move, 45), (.Unknown, 3), (.Move, 8), (.Unknown, 8), (.Move, 45),
  (.Unknown, 67), (.Move, 8), (.Unknown, 8), (.Move, 45), (.Unknown, 67), (.Move, 8),
  (.Unknown, 8), (.Move, 45), (.Unknown, 3), (.Move, 8), (.Unknown, 8), (.Move, 45),
  (.Unknown, 3), (.Move, 8), (.Unknown, 8), (.Move, 45), (.Unknown, 3), (.Move, 8),
  (.Unknown, 8), (.Move, 45), (.Unknown, 3), (.Move, 8), (.Unknown, 8), (.Move, 45),
  (.Unknown, 67), (.Move, 8), (.Unknown, 8), (.Move, 45), (.Unknown, 67), (.Move, 8),
  (.Unknown, 8), (.Move, 45), (.Unknown, 3), (.Move, 8), (.Unknown, 8), (.Move, 45),
  (.Unknown, 3), (.Move, 8), (.Unknown, 8), (.Move, 45), (.Unknown, 3), (.Move, 8),
  (.Unknown, 8), (.Move, 45), (.Unknown, 3), (.Move, 8), (.Unknown, 8), (.Move, 45),
  (.Unknown, 67), (.Move, 8), (.Unknown, 8), (.Move, 45), (.Unknown, 67), (.Move, 8),
  (.Unknown, 8), (.Move, 45), (.Unknown, 3), (.Move, 8), (.Unknown, 8), (.Move, 45),
  (.Unknown, 3), (.Move, 8), (.Unknown, 8), (.Move, 45), (.Unknown, 3), (.Move, 8),
  (.Unknown, 8), (.Move, 45), (.Unknown, 3), (.Move, 8), (.Unknown, 8), (.Move, 45),
  (.Unknown, 67), (.Move, 8), (.Unknown, 8), (.Move, 45), (.Unknown, 67), (.Move, 8),
  (.Unknown, 8), (.Move, 45), (.Unknown, 3), (.Move, 8), (.Unknown, 8), (.Move, 45),
  (.Unknown, 3), (.Move, 8), (.Unknown, 8), (.Move, 45), (.Unknown, 3), (.Move, 8),
  (.Unknown, 8), (.Move, 45), (.Unknown, 3), (.Move, 8), (.Unknown, 8), (.Move, 45),
  (.Unknown, 67), (.Move, 8), (.Unknown, 8), (.Move, 45), (.Unknown, 67), (.Move, 8),
  (.Unknown, 8), (.Move, 45), (.Unknown, 3), (.Move, 8), (.Unknown, 8), (.Move, 45),
  (.Unknown, 3), (.Move, 8), (.Unknown, 8), (.Move, 45), (.Unknown, 3), (.Move, 8),
  (.Unknown, 8), (.Move, 45), (.Unknown, 3), (.Move, 8), (.Unknown, 8), (.Move, 45),
  (.Unknown, 67)]

/-- decoder.rs L532-787: entries 0x2000 to 0x2FFF of `DECODER` as (value, repetitions). -/
def decoderLine2 : List (Isa × Nat) := [
  (.Move, 61), (.Unknown, 3), (.Movea, 61), (.Unknown, 3), (.Move, 61), (.Unknown, 3),
  (.Move, 61), (.Unknown, 3), (.Move, 61), (.Unknown, 3), (.Move, 61), (.Unknown, 3),
  (.Move, 61), (.Unknown, 3), (.Move, 61), (.Unknown, 3), (.Move, 61), (.Unknown, 3),
  (.Movea, 61), (.Unknown, 3), (.Move, 61), (.Unknown, 3), (.Move, 61), (.Unknown, 3),
  (.Move, 61), (.Unknown, 3), (.Move, 61), (.Unknown, 3), (.Move, 61), (.Unknown, 3),
  (.Move, 61), (.Unknown, 3), (.Move, 61), (.Unknown, 3), (.Movea, 61), (.Unknown, 3),
  (.Move, 61), (.Unknown, 3), (.Move, 61), (.Unknown, 3), (.Move, 61), (.Unknown, 3),
  (.Move, 61), (.Unknown, 3), (.Move, 61), (.Unknown, 67), (.Move, 61), (.Unknown, 3),
  (.Movea, 61), (.Unknown, 3), (.Move, 61), (.Unknown, 3), (.Move, 61), (.Unknown, 3),
  (.Move, 61), (.Unknown, 3), (.Move, 61), (.Unknown, 3), (.Move, 61), (.Unknown, 67),
  (.Move, 61), (.Unknown, 3), (.Movea, 61), (.Unknown, 3), (.Move, 61), (.Unknown, 3),
  (.Move, 61), (.Unknown, 3), (.Move, 61), (.Unknown, 3), (.Move, 61), (.Unknown, 3),
  (.Move, 61), (.Unknown, 67), (.Move, 61), (.Unknown, 3), (.Movea, 61), (.Unknown, 3),
  (.Move, 61), (.Unknown, 3), (.Move, 61), (.Unknown, 3), (.Move, 61), (.Unknown, 3),
  (.Move, 61), (.Unknown, 3), (.Move, 61), (.Unknown, 67), (.Move, 61), (.Unknown, 3),
  (.Movea, 61), (.Unknown, 3), (.Move, 61), (.Unknown, 3), (.Move, 61), (.Unknown, 3),
  (.Move, 61), (.Unknown, 3), (.Move, 61), (.Unknown, 3), (.Move, 61), (.Unknown, 67),
  (.Move, 61), (.Unknown, 3), (.Movea, 61), (.Unknown, 3), (.Move, 61), (.Unknown, 3),
  (.Move, 61), (.Unknown, 3), (.Move, 61), (.Unknown, 3), (.Move, 61), (.Unknown, 3),
  (.Move, 61), (.Unknown, 67)]

/-- decoder.rs L788-1043: entries 0x3000 to 0x3FFF of `DECODER` as (value, repetitions). -/
def decoderLine3 : List (Isa × Nat) := [
  (.Move, 61), (.Unknown, 3), (.Movea, 61), (.Unknown, 3), (.Move, 61), (.Unknown, 3),
  (.Move, 61), (.Unknown, 3), (.Move, 61), (.Unknown, 3), (.Move, 61), (.Unknown, 3),
  (.Move, 61), (.Unknown, 3), (.Move, 61), (.Unknown, 3), (.Move, 61), (.Unknown, 3),
  (.Movea, 61), (.Unknown, 3), (.Move, 61), (.Unknown, 3), (.Move, 61), (.Unknown, 3),
  (.Move, 61), (.Unknown, 3), (.Move, 61), (.Unknown, 3), (.Move, 61), (.Unknown, 3),
  (.Move, 61), (.Unknown, 3), (.Move, 61), (.Unknown, 3), (.Movea, 61), (.Unknown, 3),
  (.Move, 61), (.Unknown, 3), (.Move, 61), (.Unknown, 3), (.Move, 61), (.Unknown, 3),
  (.Move, 61), (.Unknown, 3), (.Move, 61), (.Unknown, 67), (.Move, 61), (.Unknown, 3),
  (.Movea, 61), (.Unknown, 3), (.Move, 61), (.Unknown, 3), (.Move, 61), (.Unknown, 3),
  (.Move, 61), (.Unknown, 3), (.Move, 61), (.Unknown, 3), (.Move, 61), (.Unknown, 67),
  (.Move, 61), (.Unknown, 3), (.Movea, 61), (.Unknown, 3), (.Move, 61), (.Unknown, 3),
  (.Move, 61), (.Unknown, 3), (.Move, 61), (.Unknown, 3), (.Move, 61), (.Unknown, 3),
  (.Move, 61), (.Unknown, 67), (.Move, 61), (.Unknown, 3), (.Movea, 61), (.Unknown, 3),
  (.Move, 61), (.Unknown, 3), (.Move, 61), (.Unknown, 3), (.Move, 61), (.Unknown, 3),
  (.Move, 61), (.Unknown, 3), (.Move, 61), (.Unknown, 67), (.Move, 61), (.Unknown, 3),
  (.Movea, 61), (.Unknown, 3), (.Move, 61), (.Unknown, 3), (.Move, 61), (.Unknown, 3),
  (.Move, 61), (.Unknown, 3), (.Move, 61), (.Unknown, 3), (.Move, 61), (.Unknown, 67),
  (.Move, 61), (.Unknown, 3), (.Movea, 61), (.Unknown, 3), (.Move, 61), (.Unknown, 3),
  (.Move, 61), (.Unknown, 3), (.Move, 61), (.Unknown, 3), (.Move, 61), (.Unknown, 3),
  (.Move, 61), (.Unknown, 67)]

/-- decoder.rs L1044-1299: entries 0x4000 to 0x4FFF of `DECODER` as (value, repetitions). -/
def decoderLine4 : List (Isa × Nat) := [
  (.Negx, 8), (.Unknown, 8), (.Negx, 42), (.Unknown, 6), (.Negx, 8), (.Unknown, 8), (.Negx, 42),
  (.Unknown, 6), (.Negx, 8), (.Unknown, 8), (.Negx, 42), (.Unknown, 6), (.Movefsr, 8),
  (.Unknown, 8), (.Movefsr, 42), (.Unknown, 134), (.Chk, 8), (.Unknown, 8), (.Chk, 45),
  (.Unknown, 19), (.Lea, 8), (.Unknown, 16), (.Lea, 20), (.Unknown, 4), (.Clr, 8), (.Unknown, 8),
  (.Clr, 42), (.Unknown, 6), (.Clr, 8), (.Unknown, 8), (.Clr, 42), (.Unknown, 6), (.Clr, 8),
  (.Unknown, 8), (.Clr, 42), (.Unknown, 198), (.Chk, 8), (.Unknown, 8), (.Chk, 45),
  (.Unknown, 19), (.Lea, 8), (.Unknown, 16), (.Lea, 20), (.Unknown, 4), (.Neg, 8), (.Unknown, 8),
  (.Neg, 42), (.Unknown, 6), (.Neg, 8), (.Unknown, 8), (.Neg, 42), (.Unknown, 6), (.Neg, 8),
  (.Unknown, 8), (.Neg, 42), (.Unknown, 6), (.Moveccr, 8), (.Unknown, 8), (.Moveccr, 45),
  (.Unknown, 131), (.Chk, 8), (.Unknown, 8), (.Chk, 45), (.Unknown, 19), (.Lea, 8),
  (.Unknown, 16), (.Lea, 20), (.Unknown, 4), (.Not, 8), (.Unknown, 8), (.Not, 42), (.Unknown, 6),
  (.Not, 8), (.Unknown, 8), (.Not, 42), (.Unknown, 6), (.Not, 8), (.Unknown, 8), (.Not, 42),
  (.Unknown, 6), (.Movesr, 8), (.Unknown, 8), (.Movesr, 45), (.Unknown, 131), (.Chk, 8),
  (.Unknown, 8), (.Chk, 45), (.Unknown, 19), (.Lea, 8), (.Unknown, 16), (.Lea, 20),
  (.Unknown, 4), (.Nbcd, 8), (.Unknown, 8), (.Nbcd, 42), (.Unknown, 6), (.Swap, 8),
  (.Unknown, 8), (.Pea, 8), (.Unknown, 16), (.Pea, 20), (.Unknown, 4), (.Ext, 8), (.Unknown, 8),
  (.Movem, 42), (.Unknown, 6), (.Ext, 8), (.Unknown, 8), (.Movem, 42), (.Unknown, 134),
  (.Chk, 8), (.Unknown, 8), (.Chk, 45), (.Unknown, 19), (.Lea, 8), (.Unknown, 16), (.Lea, 20),
  (.Unknown, 4), (.Tst, 8), (.Unknown, 8), (.Tst, 42), (.Unknown, 6), (.Tst, 8), (.Unknown, 8),
  (.Tst, 42), (.Unknown, 6), (.Tst, 8), (.Unknown, 8), (.Tst, 42), (.Unknown, 6), (.Tas, 8),
  (.Unknown, 8), (.Tas, 42), (.Unknown, 2), (.Illegal, 1), (.Unknown, 131), (.Chk, 8),
  (.Unknown, 8), (.Chk, 45), (.Unknown, 19), (.Lea, 8), (.Unknown, 16), (.Lea, 20),
  (.Unknown, 148), (.Movem, 44), (.Unknown, 20), (.Movem, 44), (.Unknown, 132), (.Chk, 8),
  (.Unknown, 8), (.Chk, 45), (.Unknown, 19), (.Lea, 8), (.Unknown, 16), (.Lea, 20),
  (.Unknown, 68), (.Trap, 16), (.Link, 8), (.Unlk, 8), (.Moveusp, 16), (.Reset, 1), (.Nop, 1),
  (.Stop, 1), (.Rte, 1), (.Unknown, 1), (.Rts, 1), (.Trapv, 1), (.Rtr, 1), (.Unknown, 24),
  (.Jsr, 8), (.Unknown, 16), (.Jsr, 20), (.Unknown, 20), (.Jmp, 8), (.Unknown, 16), (.Jmp, 20),
  (.Unknown, 132), (.Chk, 8), (.Unknown, 8), (.Chk, 45), (.Unknown, 19), (.Lea, 8),
  (.Unknown, 16), (.Lea, 20), (.Unknown, 4)]

/-- decoder.rs L1300-1555: entries 0x5000 to 0x5FFF of `DECODER` as (value, repetitions). -/
def decoderLine5 : List (Isa × Nat) := [
  (.Addq, 8), (.Unknown, 8), (.Addq, 42), (.Unknown, 6), (.Addq, 58), (.Unknown, 6), (.Addq, 58),
  (.Unknown, 6), (.Scc, 8), (.Dbcc, 8), (.Scc, 42), (.Unknown, 6), (.Subq, 8), (.Unknown, 8),
  (.Subq, 42), (.Unknown, 6), (.Subq, 58), (.Unknown, 6), (.Subq, 58), (.Unknown, 6), (.Scc, 8),
  (.Dbcc, 8), (.Scc, 42), (.Unknown, 6), (.Addq, 8), (.Unknown, 8), (.Addq, 42), (.Unknown, 6),
  (.Addq, 58), (.Unknown, 6), (.Addq, 58), (.Unknown, 6), (.Scc, 8), (.Dbcc, 8), (.Scc, 42),
  (.Unknown, 6), (.Subq, 8), (.Unknown, 8), (.Subq, 42), (.Unknown, 6), (.Subq, 58),
  (.Unknown, 6), (.Subq, 58), (.Unknown, 6), (.Scc, 8), (.Dbcc, 8), (.Scc, 42), (.Unknown, 6),
  (.Addq, 8), (.Unknown, 8), (.Addq, 42), (.Unknown, 6), (.Addq, 58), (.Unknown, 6), (.Addq, 58),
  (.Unknown, 6), (.Scc, 8), (.Dbcc, 8), (.Scc, 42), (.Unknown, 6), (.Subq, 8), (.Unknown, 8),
  (.Subq, 42), (.Unknown, 6), (.Subq, 58), (.Unknown, 6), (.Subq, 58), (.Unknown, 6), (.Scc, 8),
  (.Dbcc, 8), (.Scc, 42), (.Unknown, 6), (.Addq, 8), (.Unknown, 8), (.Addq, 42), (.Unknown, 6),
  (.Addq, 58), (.Unknown, 6), (.Addq, 58), (.Unknown, 6), (.Scc, 8), (.Dbcc, 8), (.Scc, 42),
  (.Unknown, 6), (.Subq, 8), (.Unknown, 8), (.Subq, 42), (.Unknown, 6), (.Subq, 58),
  (.Unknown, 6), (.Subq, 58), (.Unknown, 6), (.Scc, 8), (.Dbcc, 8), (.Scc, 42), (.Unknown, 6),
  (.Addq, 8), (.Unknown, 8), (.Addq, 42), (.Unknown, 6), (.Addq, 58), (.Unknown, 6), (.Addq, 58),
  (.Unknown, 6), (.Scc, 8), (.Dbcc, 8), (.Scc, 42), (.Unknown, 6), (.Subq, 8), (.Unknown, 8),
  (.Subq, 42), (.Unknown, 6), (.Subq, 58), (.Unknown, 6), (.Subq, 58), (.Unknown, 6), (.Scc, 8),
  (.Dbcc, 8), (.Scc, 42), (.Unknown, 6), (.Addq, 8), (.Unknown, 8), (.Addq, 42), (.Unknown, 6),
  (.Addq, 58), (.Unknown, 6), (.Addq, 58), (.Unknown, 6), (.Scc, 8), (.Dbcc, 8), (.Scc, 42),
  (.Unknown, 6), (.Subq, 8), (.Unknown, 8), (.Subq, 42), (.Unknown, 6), (.Subq, 58),
  (.Unknown, 6), (.Subq, 58), (.Unknown, 6), (.Scc, 8), (.Dbcc, 8), (.Scc, 42), (.Unknown, 6),
  (.Addq, 8), (.Unknown, 8), (.Addq, 42), (.Unknown, 6), (.Addq, 58), (.Unknown, 6), (.Addq, 58),
  (.Unknown, 6), (.Scc, 8), (.Dbcc, 8), (.Scc, 42), (.Unknown, 6), (.Subq, 8), (.Unknown, 8),
  (.Subq, 42), (.Unknown, 6), (.Subq, 58), (.Unknown, 6), (.Subq, 58), (.Unknown, 6), (.Scc, 8),
  (.Dbcc, 8), (.Scc, 42), (.Unknown, 6), (.Addq, 8), (.Unknown, 8), (.Addq, 42), (.Unknown, 6),
  (.Addq, 58), (.Unknown, 6), (.Addq, 58), (.Unknown, 6), (.Scc, 8), (.Dbcc, 8), (.Scc, 42),
  (.Unknown, 6), (.Subq, 8), (.Unknown, 8), (.Subq, 42), (.Unknown, 6), (.Subq, 58),
  (.Unknown, 6), (.Subq, 58), (.Unknown, 6), (.Scc, 8), (.Dbcc, 8), (.Scc, 42), (.Unknown, 6)]

/-- decoder.rs L1556-1811: entries 0x6000 to 0x6FFF of `DECODER` as (value, repetitions). -/
def decoderLine6 : List (Isa × Nat) := [
  (.Bra, 256), (.Bsr, 256), (.Bcc, 3584)]

/-- decoder.rs L1812-2067: entries 0x7000 to 0x7FFF of `DECODER` as (value, repetitions). -/
def decoderLine7 : List (Isa × Nat) := [
  (.Moveq, 256), (.Unknown, 256), (.Moveq, 256), (.Unknown, 256), (.Moveq, 256), (.Unknown, 256),
  (.Moveq, 256), (.Unknown, 256), (.Moveq, 256), (.Unknown, 256), (.Moveq, 256), (.Unknown, 256),
  (.Moveq, 256), (.Unknown, 256), (.Moveq, 256), (.Unknown, 256)]

/-- decoder.rs L2068-2323: entries 0x8000 to 0x8FFF of `DECODER` as (value, repetitions). -/
def decoderLine8 : List (Isa × Nat) := [
  (.Or, 8), (.Unknown, 8), (.Or, 45), (.Unknown, 3), (.Or, 8), (.Unknown, 8), (.Or, 45),
  (.Unknown, 3), (.Or, 8), (.Unknown, 8), (.Or, 45), (.Unknown, 3), (.Divu, 8), (.Unknown, 8),
  (.Divu, 45), (.Unknown, 3), (.Sbcd, 16), (.Or, 42), (.Unknown, 22), (.Or, 42), (.Unknown, 22),
  (.Or, 42), (.Unknown, 6), (.Divs, 8), (.Unknown, 8), (.Divs, 45), (.Unknown, 3), (.Or, 8),
  (.Unknown, 8), (.Or, 45), (.Unknown, 3), (.Or, 8), (.Unknown, 8), (.Or, 45), (.Unknown, 3),
  (.Or, 8), (.Unknown, 8), (.Or, 45), (.Unknown, 3), (.Divu, 8), (.Unknown, 8), (.Divu, 45),
  (.Unknown, 3), (.Sbcd, 16), (.Or, 42), (.Unknown, 22), (.Or, 42), (.Unknown, 22), (.Or, 42),
  (.Unknown, 6), (.Divs, 8), (.Unknown, 8), (.Divs, 45), (.Unknown, 3), (.Or, 8), (.Unknown, 8),
  (.Or, 45), (.Unknown, 3), (.Or, 8), (.Unknown, 8), (.Or, 45), (.Unknown, 3), (.Or, 8),
  (.Unknown, 8), (.Or, 45), (.Unknown, 3), (.Divu, 8), (.Unknown, 8), (.Divu, 45), (.Unknown, 3),
  (.Sbcd, 16), (.Or, 42), (.Unknown, 22), (.Or, 42), (.Unknown, 22), (.Or, 42), (.Unknown, 6),
  (.Divs, 8), (.Unknown, 8), (.Divs, 45), (.Unknown, 3), (.Or, 8), (.Unknown, 8), (.Or, 45),
  (.Unknown, 3), (.Or, 8), (.Unknown, 8), (.Or, 45), (.Unknown, 3), (.Or, 8), (.Unknown, 8),
  (.Or, 45), (.Unknown, 3), (.Divu, 8), (.Unknown, 8), (.Divu, 45), (.Unknown, 3), (.Sbcd, 16),
  (.Or, 42), (.Unknown, 22), (.Or, 42), (.Unknown, 22), (.Or, 42), (.Unknown, 6), (.Divs, 8),
  (.Unknown, 8), (.Divs, 45), (.Unknown, 3), (.Or, 8), (.Unknown, 8), (.Or, 45), (.Unknown, 3),
  (.Or, 8), (.Unknown, 8), (.Or, 45), (.Unknown, 3), (.Or, 8), (.Unknown, 8), (.Or, 45),
  (.Unknown, 3), (.Divu, 8), (.Unknown, 8), (.Divu, 45), (.Unknown, 3), (.Sbcd, 16), (.Or, 42),
  (.Unknown, 22), (.Or, 42), (.Unknown, 22), (.Or, 42), (.Unknown, 6), (.Divs, 8), (.Unknown, 8),
  (.Divs, 45), (.Unknown, 3), (.Or, 8), (.Unknown, 8), (.Or, 45), (.Unknown, 3), (.Or, 8),
  (.Unknown, 8), (.Or, 45), (.Unknown, 3), (.Or, 8), (.Unknown, 8), (.Or, 45), (.Unknown, 3),
  (.Divu, 8), (.Unknown, 8), (.Divu, 45), (.Unknown, 3), (.Sbcd, 16), (.Or, 42), (.Unknown, 22),
  (.Or, 42), (.Unknown, 22), (.Or, 42), (.Unknown, 6), (.Divs, 8), (.Unknown, 8), (.Divs, 45),
  (.Unknown, 3), (.Or, 8), (.Unknown, 8), (.Or, 45), (.Unknown, 3), (.Or, 8), (.Unknown, 8),
  (.Or, 45), (.Unknown, 3), (.Or, 8), (.Unknown, 8), (.Or, 45), (.Unknown, 3), (.Divu, 8),
  (.Unknown, 8), (.Divu, 45), (.Unknown, 3), (.Sbcd, 16), (.Or, 42), (.Unknown, 22), (.Or, 42),
  (.Unknown, 22), (.Or, 42), (.Unknown, 6), (.Divs, 8), (.Unknown, 8), (.Divs, 45),
  (.Unknown, 3), (.Or, 8), (.Unknown, 8), (.Or, 45), (.Unknown, 3), (.Or, 8), (.Unknown, 8),
  (.Or, 45), (.Unknown, 3), (.Or, 8), (.Unknown, 8), (.Or, 45), (.Unknown, 3), (.Divu, 8),
  (.Unknown, 8), (.Divu, 45), (.Unknown, 3), (.Sbcd, 16), (.Or, 42), (.Unknown, 22), (.Or, 42),
  (.Unknown, 22), (.Or, 42), (.Unknown, 6), (.Divs, 8), (.Unknown, 8), (.Divs, 45), (.Unknown, 3)]

/-- decoder.rs L2324-2579: entries 0x9000 to 0x9FFF of `DECODER` as (value, repetitions). -/
def decoderLine9 : List (Isa × Nat) := [
  (.Sub, 8), (.Unknown, 8), (.Sub, 45), (.Unknown, 3), (.Sub, 61), (.Unknown, 3), (.Sub, 61),
  (.Unknown, 3), (.Suba, 61), (.Unknown, 3), (.Subx, 16), (.Sub, 42), (.Unknown, 6), (.Subx, 16),
  (.Sub, 42), (.Unknown, 6), (.Subx, 16), (.Sub, 42), (.Unknown, 6), (.Suba, 61), (.Unknown, 3),
  (.Sub, 8), (.Unknown, 8), (.Sub, 45), (.Unknown, 3), (.Sub, 61), (.Unknown, 3), (.Sub, 61),
  (.Unknown, 3), (.Suba, 61), (.Unknown, 3), (.Subx, 16), (.Sub, 42), (.Unknown, 6), (.Subx, 16),
  (.Sub, 42), (.Unknown, 6), (.Subx, 16), (.Sub, 42), (.Unknown, 6), (.Suba, 61), (.Unknown, 3),
  (.Sub, 8), (.Unknown, 8), (.Sub, 45), (.Unknown, 3), (.Sub, 61), (.Unknown, 3), (.Sub, 61),
  (.Unknown, 3), (.Suba, 61), (.Unknown, 3), (.Subx, 16), (.Sub, 42), (.Unknown, 6), (.Subx, 16),
  (.Sub, 42), (.Unknown, 6), (.Subx, 16), (.Sub, 42), (.Unknown, 6), (.Suba, 61), (.Unknown, 3),
  (.Sub, 8), (.Unknown, 8), (.Sub, 45), (.Unknown, 3), (.Sub, 61), (.Unknown, 3), (.Sub, 61),
  (.Unknown, 3), (.Suba, 61), (.Unknown, 3), (.Subx, 16), (.Sub, 42), (.Unknown, 6), (.Subx, 16),
  (.Sub, 42), (.Unknown, 6), (.Subx, 16), (.Sub, 42), (.Unknown, 6), (.Suba, 61), (.Unknown, 3),
  (.Sub, 8), (.Unknown, 8), (.Sub, 45), (.Unknown, 3), (.Sub, 61), (.Unknown, 3), (.Sub, 61),
  (.Unknown, 3), (.Suba, 61), (.Unknown, 3), (.Subx, 16), (.Sub, 42), (.Unknown, 6), (.Subx, 16),
  (.Sub, 42), (.Unknown, 6), (.Subx, 16), (.Sub, 42), (.Unknown, 6), (.Suba, 61), (.Unknown, 3),
  (.Sub, 8), (.Unknown, 8), (.Sub, 45), (.Unknown, 3), (.Sub, 61), (.Unknown, 3), (.Sub, 61),
  (.Unknown, 3), (.Suba, 61), (.Unknown, 3), (.Subx, 16), (.Sub, 42), (.Unknown, 6), (.Subx, 16),
  (.Sub, 42), (.Unknown, 6), (.Subx, 16), (.Sub, 42), (.Unknown, 6), (.Suba, 61), (.Unknown, 3),
  (.Sub, 8), (.Unknown, 8), (.Sub, 45), (.Unknown, 3), (.Sub, 61), (.Unknown, 3), (.Sub, 61),
  (.Unknown, 3), (.Suba, 61), (.Unknown, 3), (.Subx, 16), (.Sub, 42), (.Unknown, 6), (.Subx, 16),
  (.Sub, 42), (.Unknown, 6), (.Subx, 16), (.Sub, 42), (.Unknown, 6), (.Suba, 61), (.Unknown, 3),
  (.Sub, 8), (.Unknown, 8), (.Sub, 45), (.Unknown, 3), (.Sub, 61), (.Unknown, 3), (.Sub, 61),
  (.Unknown, 3), (.Suba, 61), (.Unknown, 3), (.Subx, 16), (.Sub, 42), (.Unknown, 6), (.Subx, 16),
  (.Sub, 42), (.Unknown, 6), (.Subx, 16), (.Sub, 42), (.Unknown, 6), (.Suba, 61), (.Unknown, 3)]

/-- decoder.rs L2580-2835: entries 0xA000 to 0xAFFF of `DECODER` as (value, repetitions). -/
def decoderLineA : List (Isa × Nat) := [
  (.Unknown, 4096)]

/-- decoder.rs L2836-3091: entries 0xB000 to 0xBFFF of `DECODER` as (value, repetitions). -/
def decoderLineB : List (Isa × Nat) := [
  (.Cmp, 8), (.Unknown, 8), (.Cmp, 45), (.Unknown, 3), (.Cmp, 61), (.Unknown, 3), (.Cmp, 61),
  (.Unknown, 3), (.Cmpa, 61), (.Unknown, 3), (.Eor, 8), (.Cmpm, 8), (.Eor, 42), (.Unknown, 6),
  (.Eor, 8), (.Cmpm, 8), (.Eor, 42), (.Unknown, 6), (.Eor, 8), (.Cmpm, 8), (.Eor, 42),
  (.Unknown, 6), (.Cmpa, 61), (.Unknown, 3), (.Cmp, 8), (.Unknown, 8), (.Cmp, 45), (.Unknown, 3),
  (.Cmp, 61), (.Unknown, 3), (.Cmp, 61), (.Unknown, 3), (.Cmpa, 61), (.Unknown, 3), (.Eor, 8),
  (.Cmpm, 8), (.Eor, 42), (.Unknown, 6), (.Eor, 8), (.Cmpm, 8), (.Eor, 42), (.Unknown, 6),
  (.Eor, 8), (.Cmpm, 8), (.Eor, 42), (.Unknown, 6), (.Cmpa, 61), (.Unknown, 3), (.Cmp, 8),
  (.Unknown, 8), (.Cmp, 45), (.Unknown, 3), (.Cmp, 61), (.Unknown, 3), (.Cmp, 61), (.Unknown, 3),
  (.Cmpa, 61), (.Unknown, 3), (.Eor, 8), (.Cmpm, 8), (.Eor, 42), (.Unknown, 6), (.Eor, 8),
  (.Cmpm, 8), (.Eor, 42), (.Unknown, 6), (.Eor, 8), (.Cmpm, 8), (.Eor, 42), (.Unknown, 6),
  (.Cmpa, 61), (.Unknown, 3), (.Cmp, 8), (.Unknown, 8), (.Cmp, 45), (.Unknown, 3), (.Cmp, 61),
  (.Unknown, 3), (.Cmp, 61), (.Unknown, 3), (.Cmpa, 61), (.Unknown, 3), (.Eor, 8), (.Cmpm, 8),
  (.Eor, 42), (.Unknown, 6), (.Eor, 8), (.Cmpm, 8), (.Eor, 42), (.Unknown, 6), (.Eor, 8),
  (.Cmpm, 8), (.Eor, 42), (.Unknown, 6), (.Cmpa, 61), (.Unknown, 3), (.Cmp, 8), (.Unknown, 8),
  (.Cmp, 45), (.Unknown, 3), (.Cmp, 61), (.Unknown, 3), (.Cmp, 61), (.Unknown, 3), (.Cmpa, 61),
  (.Unknown, 3), (.Eor, 8), (.Cmpm, 8), (.Eor, 42), (.Unknown, 6), (.Eor, 8), (.Cmpm, 8),
  (.Eor, 42), (.Unknown, 6), (.Eor, 8), (.Cmpm, 8), (.Eor, 42), (.Unknown, 6), (.Cmpa, 61),
  (.Unknown, 3), (.Cmp, 8), (.Unknown, 8), (.Cmp, 45), (.Unknown, 3), (.Cmp, 61), (.Unknown, 3),
  (.Cmp, 61), (.Unknown, 3), (.Cmpa, 61), (.Unknown, 3), (.Eor, 8), (.Cmpm, 8), (.Eor, 42),
  (.Unknown, 6), (.Eor, 8), (.Cmpm, 8), (.Eor, 42), (.Unknown, 6), (.Eor, 8), (.Cmpm, 8),
  (.Eor, 42), (.Unknown, 6), (.Cmpa, 61), (.Unknown, 3), (.Cmp, 8), (.Unknown, 8), (.Cmp, 45),
  (.Unknown, 3), (.Cmp, 61), (.Unknown, 3), (.Cmp, 61), (.Unknown, 3), (.Cmpa, 61),
  (.Unknown, 3), (.Eor, 8), (.Cmpm, 8), (.Eor, 42), (.Unknown, 6), (.Eor, 8), (.Cmpm, 8),
  (.Eor, 42), (.Unknown, 6), (.Eor, 8), (.Cmpm, 8), (.Eor, 42), (.Unknown, 6), (.Cmpa, 61),
  (.Unknown, 3), (.Cmp, 8), (.Unknown, 8), (.Cmp, 45), (.Unknown, 3), (.Cmp, 61), (.Unknown, 3),
  (.Cmp, 61), (.Unknown, 3), (.Cmpa, 61), (.Unknown, 3), (.Eor, 8), (.Cmpm, 8), (.Eor, 42),
  (.Unknown, 6), (.Eor, 8), (.Cmpm, 8), (.Eor, 42), (.Unknown, 6), (.Eor, 8), (.Cmpm, 8),
  (.Eor, 42), (.Unknown, 6), (.Cmpa, 61), (.Unknown, 3)]

/-- decoder.rs L3092-3347: entries 0xC000 to 0xCFFF of `DECODER` as (value, repetitions). -/
def decoderLineC : List (Isa × Nat) := [
  (.And, 8), (.Unknown, 8), (.And, 45), (.Unknown, 3), (.And, 8), (.Unknown, 8), (.And, 45),
  (.Unknown, 3), (.And, 8), (.Unknown, 8), (.And, 45), (.Unknown, 3), (.Mulu, 8), (.Unknown, 8),
  (.Mulu, 45), (.Unknown, 3), (.Abcd, 16), (.And, 42), (.Unknown, 6), (.Exg, 16), (.And, 42),
  (.Unknown, 14), (.Exg, 8), (.And, 42), (.Unknown, 6), (.Muls, 8), (.Unknown, 8), (.Muls, 45),
  (.Unknown, 3), (.And, 8), (.Unknown, 8), (.And, 45), (.Unknown, 3), (.And, 8), (.Unknown, 8),
  (.And, 45), (.Unknown, 3), (.And, 8), (.Unknown, 8), (.And, 45), (.Unknown, 3), (.Mulu, 8),
  (.Unknown, 8), (.Mulu, 45), (.Unknown, 3), (.Abcd, 16), (.And, 42), (.Unknown, 6), (.Exg, 16),
  (.And, 42), (.Unknown, 14), (.Exg, 8), (.And, 42), (.Unknown, 6), (.Muls, 8), (.Unknown, 8),
  (.Muls, 45), (.Unknown, 3), (.And, 8), (.Unknown, 8), (.And, 45), (.Unknown, 3), (.And, 8),
  (.Unknown, 8), (.And, 45), (.Unknown, 3), (.And, 8), (.Unknown, 8), (.And, 45), (.Unknown, 3),
  (.Mulu, 8), (.Unknown, 8), (.Mulu, 45), (.Unknown, 3), (.Abcd, 16), (.And, 42), (.Unknown, 6),
  (.Exg, 16), (.And, 42), (.Unknown, 14), (.Exg, 8), (.And, 42), (.Unknown, 6), (.Muls, 8),
  (.Unknown, 8), (.Muls, 45), (.Unknown, 3), (.And, 8), (.Unknown, 8), (.And, 45), (.Unknown, 3),
  (.And, 8), (.Unknown, 8), (.And, 45), (.Unknown, 3), (.And, 8), (.Unknown, 8), (.And, 45),
  (.Unknown, 3), (.Mulu, 8), (.Unknown, 8), (.Mulu, 45), (.Unknown, 3), (.Abcd, 16), (.And, 42),
  (.Unknown, 6), (.Exg, 16), (.And, 42), (.Unknown, 14), (.Exg, 8), (.And, 42), (.Unknown, 6),
  (.Muls, 8), (.Unknown, 8), (.Muls, 45), (.Unknown, 3), (.And, 8), (.Unknown, 8), (.And, 45),
  (.Unknown, 3), (.And, 8), (.Unknown, 8), (.And, 45), (.Unknown, 3), (.And, 8), (.Unknown, 8),
  (.And, 45), (.Unknown, 3), (.Mulu, 8), (.Unknown, 8), (.Mulu, 45), (.Unknown, 3), (.Abcd, 16),
  (.And, 42), (.Unknown, 6), (.Exg, 16), (.And, 42), (.Unknown, 14), (.Exg, 8), (.And, 42),
  (.Unknown, 6), (.Muls, 8), (.Unknown, 8), (.Muls, 45), (.Unknown, 3), (.And, 8), (.Unknown, 8),
  (.And, 45), (.Unknown, 3), (.And, 8), (.Unknown, 8), (.And, 45), (.Unknown, 3), (.And, 8),
  (.Unknown, 8), (.And, 45), (.Unknown, 3), (.Mulu, 8), (.Unknown, 8), (.Mulu, 45),
  (.Unknown, 3), (.Abcd, 16), (.And, 42), (.Unknown, 6), (.Exg, 16), (.And, 42), (.Unknown, 14),
  (.Exg, 8), (.And, 42), (.Unknown, 6), (.Muls, 8), (.Unknown, 8), (.Muls, 45), (.Unknown, 3),
  (.And, 8), (.Unknown, 8), (.And, 45), (.Unknown, 3), (.And, 8), (.Unknown, 8), (.And, 45),
  (.Unknown, 3), (.And, 8), (.Unknown, 8), (.And, 45), (.Unknown, 3), (.Mulu, 8), (.Unknown, 8),
  (.Mulu, 45), (.Unknown, 3), (.Abcd, 16), (.And, 42), (.Unknown, 6), (.Exg, 16), (.And, 42),
  (.Unknown, 14), (.Exg, 8), (.And, 42), (.Unknown, 6), (.Muls, 8), (.Unknown, 8), (.Muls, 45),
  (.Unknown, 3), (.And, 8), (.Unknown, 8), (.And, 45), (.Unknown, 3), (.And, 8), (.Unknown, 8),
  (.And, 45), (.Unknown, 3), (.And, 8), (.Unknown, 8), (.And, 45), (.Unknown, 3), (.Mulu, 8),
  (.Unknown, 8), (.Mulu, 45), (.Unknown, 3), (.Abcd, 16), (.And, 42), (.Unknown, 6), (.Exg, 16),
  (.And, 42), (.Unknown, 14), (.Exg, 8), (.And, 42), (.Unknown, 6), (.Muls, 8), (.Unknown, 8),
  (.Muls, 45), (.Unknown, 3)]

/-- decoder.rs L3348-3603: entries 0xD000 to 0xDFFF of `DECODER` as (value, repetitions). -/
def decoderLineD : List (Isa × Nat) := [
  (.Add, 8), (.Unknown, 8), (.Add, 45), (.Unknown, 3), (.Add, 61), (.Unknown, 3), (.Add, 61),
  (.Unknown, 3), (.Adda, 61), (.Unknown, 3), (.Addx, 16), (.Add, 42), (.Unknown, 6), (.Addx, 16),
  (.Add, 42), (.Unknown, 6), (.Addx, 16), (.Add, 42), (.Unknown, 6), (.Adda, 61), (.Unknown, 3),
  (.Add, 8), (.Unknown, 8), (.Add, 45), (.Unknown, 3), (.Add, 61), (.Unknown, 3), (.Add, 61),
  (.Unknown, 3), (.Adda, 61), (.Unknown, 3), (.Addx, 16), (.Add, 42), (.Unknown, 6), (.Addx, 16),
  (.Add, 42), (.Unknown, 6), (.Addx, 16), (.Add, 42), (.Unknown, 6), (.Adda, 61), (.Unknown, 3),
  (.Add, 8), (.Unknown, 8), (.Add, 45), (.Unknown, 3), (.Add, 61), (.Unknown, 3), (.Add, 61),
  (.Unknown, 3), (.Adda, 61), (.Unknown, 3), (.Addx, 16), (.Add, 42), (.Unknown, 6), (.Addx, 16),
  (.Add, 42), (.Unknown, 6), (.Addx, 16), (.Add, 42), (.Unknown, 6), (.Adda, 61), (.Unknown, 3),
  (.Add, 8), (.Unknown, 8), (.Add, 45), (.Unknown, 3), (.Add, 61), (.Unknown, 3), (.Add, 61),
  (.Unknown, 3), (.Adda, 61), (.Unknown, 3), (.Addx, 16), (.Add, 42), (.Unknown, 6), (.Addx, 16),
  (.Add, 42), (.Unknown, 6), (.Addx, 16), (.Add, 42), (.Unknown, 6), (.Adda, 61), (.Unknown, 3),
  (.Add, 8), (.Unknown, 8), (.Add, 45), (.Unknown, 3), (.Add, 61), (.Unknown, 3), (.Add, 61),
  (.Unknown, 3), (.Adda, 61), (.Unknown, 3), (.Addx, 16), (.Add, 42), (.Unknown, 6), (.Addx, 16),
  (.Add, 42), (.Unknown, 6), (.Addx, 16), (.Add, 42), (.Unknown, 6), (.Adda, 61), (.Unknown, 3),
  (.Add, 8), (.Unknown, 8), (.Add, 45), (.Unknown, 3), (.Add, 61), (.Unknown, 3), (.Add, 61),
  (.Unknown, 3), (.Adda, 61), (.Unknown, 3), (.Addx, 16), (.Add, 42), (.Unknown, 6), (.Addx, 16),
  (.Add, 42), (.Unknown, 6), (.Addx, 16), (.Add, 42), (.Unknown, 6), (.Adda, 61), (.Unknown, 3),
  (.Add, 8), (.Unknown, 8), (.Add, 45), (.Unknown, 3), (.Add, 61), (.Unknown, 3), (.Add, 61),
  (.Unknown, 3), (.Adda, 61), (.Unknown, 3), (.Addx, 16), (.Add, 42), (.Unknown, 6), (.Addx, 16),
  (.Add, 42), (.Unknown, 6), (.Addx, 16), (.Add, 42), (.Unknown, 6), (.Adda, 61), (.Unknown, 3),
  (.Add, 8), (.Unknown, 8), (.Add, 45), (.Unknown, 3), (.Add, 61), (.Unknown, 3), (.Add, 61),
  (.Unknown, 3), (.Adda, 61), (.Unknown, 3), (.Addx, 16), (.Add, 42), (.Unknown, 6), (.Addx, 16),
  (.Add, 42), (.Unknown, 6), (.Addx, 16), (.Add, 42), (.Unknown, 6), (.Adda, 61), (.Unknown, 3)]

/-- decoder.rs L3604-3859: entries 0xE000 to 0xEFFF of `DECODER` as (value, repetitions). -/
def decoderLineE : List (Isa × Nat) := [
  (.Asr, 8), (.Lsr, 8), (.Roxr, 8), (.Ror, 8), (.Asr, 8), (.Lsr, 8), (.Roxr, 8), (.Ror, 8),
  (.Asr, 8), (.Lsr, 8), (.Roxr, 8), (.Ror, 8), (.Asr, 8), (.Lsr, 8), (.Roxr, 8), (.Ror, 8),
  (.Asr, 8), (.Lsr, 8), (.Roxr, 8), (.Ror, 8), (.Asr, 8), (.Lsr, 8), (.Roxr, 8), (.Ror, 8),
  (.Unknown, 16), (.Asm, 42), (.Unknown, 6), (.Asr, 8), (.Lsr, 8), (.Roxr, 8), (.Ror, 8),
  (.Asr, 8), (.Lsr, 8), (.Roxr, 8), (.Ror, 8), (.Asr, 8), (.Lsr, 8), (.Roxr, 8), (.Ror, 8),
  (.Asr, 8), (.Lsr, 8), (.Roxr, 8), (.Ror, 8), (.Asr, 8), (.Lsr, 8), (.Roxr, 8), (.Ror, 8),
  (.Asr, 8), (.Lsr, 8), (.Roxr, 8), (.Ror, 8), (.Unknown, 16), (.Asm, 42), (.Unknown, 6),
  (.Asr, 8), (.Lsr, 8), (.Roxr, 8), (.Ror, 8), (.Asr, 8), (.Lsr, 8), (.Roxr, 8), (.Ror, 8),
  (.Asr, 8), (.Lsr, 8), (.Roxr, 8), (.Ror, 8), (.Asr, 8), (.Lsr, 8), (.Roxr, 8), (.Ror, 8),
  (.Asr, 8), (.Lsr, 8), (.Roxr, 8), (.Ror, 8), (.Asr, 8), (.Lsr, 8), (.Roxr, 8), (.Ror, 8),
  (.Unknown, 16), (.Lsm, 42), (.Unknown, 6), (.Asr, 8), (.Lsr, 8), (.Roxr, 8), (.Ror, 8),
  (.Asr, 8), (.Lsr, 8), (.Roxr, 8), (.Ror, 8), (.Asr, 8), (.Lsr, 8), (.Roxr, 8), (.Ror, 8),
  (.Asr, 8), (.Lsr, 8), (.Roxr, 8), (.Ror, 8), (.Asr, 8), (.Lsr, 8), (.Roxr, 8), (.Ror, 8),
  (.Asr, 8), (.Lsr, 8), (.Roxr, 8), (.Ror, 8), (.Unknown, 16), (.Lsm, 42), (.Unknown, 6),
  (.Asr, 8), (.Lsr, 8), (.Roxr, 8), (.Ror, 8), (.Asr, 8), (.Lsr, 8), (.Roxr, 8), (.Ror, 8),
  (.Asr, 8), (.Lsr, 8), (.Roxr, 8), (.Ror, 8), (.Asr, 8), (.Lsr, 8), (.Roxr, 8), (.Ror, 8),
  (.Asr, 8), (.Lsr, 8), (.Roxr, 8), (.Ror, 8), (.Asr, 8), (.Lsr, 8), (.Roxr, 8), (.Ror, 8),
  (.Unknown, 16), (.Roxm, 42), (.Unknown, 6), (.Asr, 8), (.Lsr, 8), (.Roxr, 8), (.Ror, 8),
  (.Asr, 8), (.Lsr, 8), (.Roxr, 8), (.Ror, 8), (.Asr, 8), (.Lsr, 8), (.Roxr, 8), (.Ror, 8),
  (.Asr, 8), (.Lsr, 8), (.Roxr, 8), (.Ror, 8), (.Asr, 8), (.Lsr, 8), (.Roxr, 8), (.Ror, 8),
  (.Asr, 8), (.Lsr, 8), (.Roxr, 8), (.Ror, 8), (.Unknown, 16), (.Roxm, 42), (.Unknown, 6),
  (.Asr, 8), (.Lsr, 8), (.Roxr, 8), (.Ror, 8), (.Asr, 8), (.Lsr, 8), (.Roxr, 8), (.Ror, 8),
  (.Asr, 8), (.Lsr, 8), (.Roxr, 8), (.Ror, 8), (.Asr, 8), (.Lsr, 8), (.Roxr, 8), (.Ror, 8),
  (.Asr, 8), (.Lsr, 8), (.Roxr, 8), (.Ror, 8), (.Asr, 8), (.Lsr, 8), (.Roxr, 8), (.Ror, 8),
  (.Unknown, 16), (.Rom, 42), (.Unknown, 6), (.Asr, 8), (.Lsr, 8), (.Roxr, 8), (.Ror, 8),
  (.Asr, 8), (.Lsr, 8), (.Roxr, 8), (.Ror, 8), (.Asr, 8), (.Lsr, 8), (.Roxr, 8), (.Ror, 8),
  (.Asr, 8), (.Lsr, 8), (.Roxr, 8), (.Ror, 8), (.Asr, 8), (.Lsr, 8), (.Roxr, 8), (.Ror, 8),
  (.Asr, 8), (.Lsr, 8), (.Roxr, 8), (.Ror, 8), (.Unknown, 16), (.Rom, 42), (.Unknown, 6),
  (.Asr, 8), (.Lsr, 8), (.Roxr, 8), (.Ror, 8), (.Asr, 8), (.Lsr, 8), (.Roxr, 8), (.Ror, 8),
  (.Asr, 8), (.Lsr, 8), (.Roxr, 8), (.Ror, 8), (.Asr, 8), (.Lsr, 8), (.Roxr, 8), (.Ror, 8),
  (.Asr, 8), (.Lsr, 8), (.Roxr, 8), (.Ror, 8), (.Asr, 8), (.Lsr, 8), (.Roxr, 8), (.Ror, 8),
  (.Unknown, 64), (.Asr, 8), (.Lsr, 8), (.Roxr, 8), (.Ror, 8), (.Asr, 8), (.Lsr, 8), (.Roxr, 8),
  (.Ror, 8), (.Asr, 8), (.Lsr, 8), (.Roxr, 8), (.Ror, 8), (.Asr, 8), (.Lsr, 8), (.Roxr, 8),
  (.Ror, 8), (.Asr, 8), (.Lsr, 8), (.Roxr, 8), (.Ror, 8), (.Asr, 8), (.Lsr, 8), (.Roxr, 8),
  (.Ror, 8), (.Unknown, 64), (.Asr, 8), (.Lsr, 8), (.Roxr, 8), (.Ror, 8), (.Asr, 8), (.Lsr, 8),
  (.Roxr, 8), (.Ror, 8), (.Asr, 8), (.Lsr, 8), (.Roxr, 8), (.Ror, 8), (.Asr, 8), (.Lsr, 8),
  (.Roxr, 8), (.Ror, 8), (.Asr, 8), (.Lsr, 8), (.Roxr, 8), (.Ror, 8), (.Asr, 8), (.Lsr, 8),
  (.Roxr, 8), (.Ror, 8), (.Unknown, 64), (.Asr, 8), (.Lsr, 8), (.Roxr, 8), (.Ror, 8), (.Asr, 8),
  (.Lsr, 8), (.Roxr, 8), (.Ror, 8), (.Asr, 8), (.Lsr, 8), (.Roxr, 8), (.Ror, 8), (.Asr, 8),
  (.Lsr, 8), (.Roxr, 8), (.Ror, 8), (.Asr, 8), (.Lsr, 8), (.Roxr, 8), (.Ror, 8), (.Asr, 8),
  (.Lsr, 8), (.Roxr, 8), (.Ror, 8), (.Unknown, 64), (.Asr, 8), (.Lsr, 8), (.Roxr, 8), (.Ror, 8),
  (.Asr, 8), (.Lsr, 8), (.Roxr, 8), (.Ror, 8), (.Asr, 8), (.Lsr, 8), (.Roxr, 8), (.Ror, 8),
  (.Asr, 8), (.Lsr, 8), (.Roxr, 8), (.Ror, 8), (.Asr, 8), (.Lsr, 8), (.Roxr, 8), (.Ror, 8),
  (.Asr, 8), (.Lsr, 8), (.Roxr, 8), (.Ror, 8), (.Unknown, 64), (.Asr, 8), (.Lsr, 8), (.Roxr, 8),
  (.Ror, 8), (.Asr, 8), (.Lsr, 8), (.Roxr, 8), (.Ror, 8), (.Asr, 8), (.Lsr, 8), (.Roxr, 8),
  (.Ror, 8), (.Asr, 8), (.Lsr, 8), (.Roxr, 8), (.Ror, 8), (.Asr, 8), (.Lsr, 8), (.Roxr, 8),
  (.Ror, 8), (.Asr, 8), (.Lsr, 8), (.Roxr, 8), (.Ror, 8), (.Unknown, 64), (.Asr, 8), (.Lsr, 8),
  (.Roxr, 8), (.Ror, 8), (.Asr, 8), (.Lsr, 8), (.Roxr, 8), (.Ror, 8), (.Asr, 8), (.Lsr, 8),
  (.Roxr, 8), (.Ror, 8), (.Asr, 8), (.Lsr, 8), (.Roxr, 8), (.Ror, 8), (.Asr, 8), (.Lsr, 8),
  (.Roxr, 8), (.Ror, 8), (.Asr, 8), (.Lsr, 8), (.Roxr, 8), (.Ror, 8), (.Unknown, 64), (.Asr, 8),
  (.Lsr, 8), (.Roxr, 8), (.Ror, 8), (.Asr, 8), (.Lsr, 8), (.Roxr, 8), (.Ror, 8), (.Asr, 8),
  (.Lsr, 8), (.Roxr, 8), (.Ror, 8), (.Asr, 8), (.Lsr, 8), (.Roxr, 8), (.Ror, 8), (.Asr, 8),
  (.Lsr, 8), (.Roxr, 8), (.Ror, 8), (.Asr, 8), (.Lsr, 8), (.Roxr, 8), (.Ror, 8), (.Unknown, 64)]

/-- decoder.rs L3860-4115: entries 0xF000 to 0xFFFF of `DECODER` as (value, repetitions). -/
def decoderLineF : List (Isa × Nat) := [
  (.Unknown, 4096)]

/-- Entry number `k` of a run-length encoded list; the array of decoder.rs L19-4116 is written in this way here. -/
def lookupRuns : List (Isa × Nat) → Nat → Isa
  | [], _ => .Unknown
  | (i, n) :: t, k => if Nat.blt k n then i else lookupRuns t (k - n)

/-- decoder.rs L19-4116: the part of the table for the top four bits of the opcode. -/
def decoderLine (k : Nat) : List (Isa × Nat) :=
  match k with
  | 0 => decoderLine0
  | 1 => decoderLine1
  | 2 => decoderLine2
  | 3 => decoderLine3
  | 4 => decoderLine4
  | 5 => decoderLine5
  | 6 => decoderLine6
  | 7 => decoderLine7
  | 8 => decoderLine8
  | 9 => decoderLine9
  | 10 => decoderLineA
  | 11 => decoderLineB
  | 12 => decoderLineC
  | 13 => decoderLineD
  | 14 => decoderLineE
  | _ => decoderLineF

/-- decoder.rs L18-4115: `DECODER[opcode as usize]`; also isa.rs L114-119 (`From<u16> for Isa`). -/
def decoder (opcode : U16) : Isa :=
  lookupRuns (decoderLine (opcode.toNat / 4096)) (opcode.toNat % 4096)

end M68k
