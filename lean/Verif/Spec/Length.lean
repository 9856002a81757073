import Verif.Spec.Step
/-
The words an instruction consists of and the kinds of memory accesses it makes, by opcode.
-/
namespace M68k.Spec
open M68k.Exec
variable {M : Type} [MemoryAccess M]

/-- The number of extension words of an effective address field; `imm` is that of an immediate operand. -/
def eaWords (imm : Nat) (mode reg : Nat) : Nat :=
  match mode, reg with
  | 5, _ => 1          -- d16(An)
  | 6, _ => 1          -- d8(An,Xn)
  | 7, 0 => 1          -- xxx.W
  | 7, 1 => 2          -- xxx.L
  | 7, 2 => 1          -- d16(PC)
  | 7, 3 => 1          -- d8(PC,Xn)
  | 7, 4 => imm        -- #imm
  | _, _ => 0

/-- The effective address field in the low six bits of an opcode. -/
def opEaWords (imm : Nat) (op : U16) : Nat := eaWords imm (op.toNat / 8 % 8) (op.toNat % 8)

/-- The number of words of immediate data for the size in bits 7-6: two for a long. -/
def sizedImm (op : U16) : Nat := if op.toNat / 64 % 4 = 2 then 2 else 1
/-- The number of words of immediate data of MOVE and MOVEA (size in bits 13-12). -/
def moveImm (op : U16) : Nat := if op.toNat / 4096 % 4 = 2 then 2 else 1

/-- The number of words of an instruction after its opcode. -/
def extensionWords (i : Isa) (op : U16) : Nat :=
  match i with
  | .Add | .Sub | .And | .Or | .Cmp | .Addq | .Subq | .Eor | .Neg | .Negx | .Not | .Tst | .Clr => opEaWords (sizedImm op) op
  | .Addi | .Subi | .Andi | .Ori | .Eori | .Cmpi => sizedImm op + opEaWords (sizedImm op) op
  | .Adda | .Suba | .Cmpa => opEaWords (if flag op 8 then 2 else 1) op
  | .Nbcd | .Tas | .Scc | .Mulu | .Muls | .Divu | .Divs | .Chk | .Asm | .Lsm | .Rom | .Roxm | .Moveccr | .Movesr | .Movefsr => opEaWords 1 op
  | .Btst | .Bchg | .Bclr | .Bset => (if flag op 8 then 0 else 1) + opEaWords 1 op
  | .Move => opEaWords (moveImm op) op + eaWords (moveImm op) (op.toNat / 64 % 8) (op.toNat / 512 % 8)
  | .Movea => opEaWords (moveImm op) op
  | .Movem => 1 + opEaWords 1 op
  | .Lea | .Pea | .Jmp | .Jsr => opEaWords 0 op
  | .Movep | .Link | .Dbcc | .Stop | .Andiccr | .Oriccr | .Eoriccr | .Andisr | .Orisr | .Eorisr => 1
  | .Bcc | .Bra | .Bsr => if op.toNat % 256 = 0 then 1 else 0
  | _ => 0

/-- The instructions that can continue elsewhere than at the next instruction. -/
def branches : Isa → Bool
  | .Bcc | .Bra | .Bsr | .Dbcc | .Jmp | .Jsr | .Rts | .Rtr | .Rte => true
  | _ => false

/-- An effective address field that denotes a memory operand. -/
def eaInMemory (mode reg : Nat) : Bool := (2 ≤ mode && mode ≤ 6) || (mode == 7 && reg ≤ 3)
/-- The same for the low six bits of an opcode. -/
def opInMemory (op : U16) : Bool := eaInMemory (op.toNat / 8 % 8) (op.toNat % 8)

/-- The instructions that read operands from memory. -/
def readsMemory (i : Isa) (op : U16) : Bool :=
  match i with
  | .Add | .Sub | .And | .Or | .Cmp | .Addq | .Subq | .Eor | .Neg | .Negx | .Not | .Tst | .Addi | .Subi | .Andi | .Ori | .Eori | .Cmpi
  | .Adda | .Suba | .Cmpa | .Nbcd | .Tas | .Mulu | .Muls | .Divu | .Divs | .Chk | .Asm | .Lsm | .Rom | .Roxm | .Moveccr | .Movesr
  | .Btst | .Bchg | .Bclr | .Bset | .Move | .Movea => opInMemory op
  | .Addx | .Subx | .Abcd | .Sbcd => flag op 3
  | .Cmpm | .Unlk | .Rts | .Rtr | .Rte => true
  | .Movem => flag op 10
  | .Movep => !flag op 7
  | _ => false

/-- The instructions that write operands to memory. For the opcodes of `MOVEM -(An),list`, which the 68000 does not have
and the decoder accepts, the code stores. -/
def writesMemory (i : Isa) (op : U16) : Bool :=
  match i with
  | .Add | .Sub | .And | .Or => flag op 8
  | .Addq | .Subq | .Eor | .Neg | .Negx | .Not | .Clr | .Addi | .Subi | .Andi | .Ori | .Eori
  | .Nbcd | .Tas | .Scc | .Asm | .Lsm | .Rom | .Roxm | .Movefsr | .Bchg | .Bclr | .Bset => opInMemory op
  | .Addx | .Subx | .Abcd | .Sbcd => flag op 3
  | .Move => eaInMemory (op.toNat / 64 % 8) (op.toNat / 512 % 8)
  | .Movem => !flag op 10 || op.toNat / 8 % 8 == 4
  | .Movep => flag op 7
  | .Link | .Pea | .Bsr | .Jsr => true
  | _ => false

/-- Reads `k` words at the program counter, which moves past them. -/
def fetchWords : Nat → Exec M (List U16)
  | 0 => pure []
  | k + 1 => do
    let w ← fetch
    let ws ← fetchWords k
    pure (w :: ws)

/-- `m'` results from `m` by read accesses only, those to words and longs at even addresses. -/
inductive Reads : M → M → Prop
  | refl (m : M) : Reads m m
  | byte {m m' m'' : M} {a : U32} : Reads m m' → (MemoryAccess.getByte a m' = .none m'' ∨ ∃ v, MemoryAccess.getByte a m' = .val v m'') → Reads m m''
  | word {m m' m'' : M} {a : U32} : Reads m m' → ¬ Odd a → (MemoryAccess.getWord a m' = .none m'' ∨ ∃ v, MemoryAccess.getWord a m' = .val v m'') → Reads m m''
  | long {m m' m'' : M} {a : U32} : Reads m m' → ¬ Odd a → (MemoryAccess.getLong a m' = .none m'' ∨ ∃ v, MemoryAccess.getLong a m' = .val v m'') → Reads m m''

/-- An access that does not panic and keeps the memory of the kind `I`. -/
def ServedAs {α : Type} (I : M → Prop) : MRes M α → Prop
  | .val _ m => I m
  | .none m => I m
  | .panic => False

/-- The methods of a memory of the kind `I` do not panic, as long as words and longs are accessed at even addresses only. -/
structure Serves (I : M → Prop) : Prop where
  get : ∀ (sz : Size) (a : U32) (m : M), ¬ (sz ≠ .Byte ∧ Odd a) → I m → ServedAs I (memGet sz a m)
  set : ∀ (sz : Size) (a : U32) (v : Val sz) (m : M), ¬ (sz ≠ .Byte ∧ Odd a) → I m → ServedAs I (memSet sz a v m)
  reset : ∀ m, I m → I (MemoryAccess.resetInstruction m)

/-- A memory of the kind `I` completes every access, as long as words and longs are accessed at even addresses only, and remains of this kind: no address is missing
or refuses writes. -/
structure Answers (I : M → Prop) : Prop where
  get : ∀ (sz : Size) (a : U32) (m : M), ¬ (sz ≠ .Byte ∧ Odd a) → I m → ∃ v m', memGet sz a m = .val v m' ∧ I m'
  set : ∀ (sz : Size) (a : U32) (v : Val sz) (m : M), ¬ (sz ≠ .Byte ∧ Odd a) → I m → ∃ m', memSet sz a v m = .val () m' ∧ I m'
  reset : ∀ m, I m → I (MemoryAccess.resetInstruction m)

end M68k.Spec
