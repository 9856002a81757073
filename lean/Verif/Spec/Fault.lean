import Verif.Spec.Length
import Verif.Spec.Named
import Verif.Spec.Claims
import Verif.Spec.Ram
/-
What an instruction that ends with an exception has done before, by opcode.
-/
namespace M68k.Spec
variable {M : Type} [MemoryAccess M]

/-- The instruction loads data register `n` before its last access. -/
def loadsEarly (i : Isa) (op : U16) (n : Fin 8) : Bool :=
  match i with
  | .Movem => flag op 10 && op.toNat / 8 % 8 != 4
  | .Movep => !flag op 7 && n == regField op 9
  | _ => false

/-- The instruction moves address register `n` before its last access: the registers of `(An)+` and `-(An)`, the stack pointer of the instructions that push and pop, and
the registers that MOVEM loads. For A7 this stands for both stack pointers. -/
def movesEarly (i : Isa) (op : U16) (n : Fin 8) : Bool :=
  match i with
  | .Add | .Sub | .And | .Or | .Addi | .Subi | .Andi | .Ori | .Eori | .Eor | .Neg | .Negx | .Not | .Clr | .Nbcd | .Tas | .Scc | .Movefsr
  | .Asm | .Lsm | .Rom | .Roxm | .Bchg | .Bclr | .Bset | .Btst | .Addq | .Subq | .Cmp | .Cmpi | .Cmpa | .Tst | .Mulu | .Muls | .Divu | .Divs
  | .Chk | .Moveccr | .Movesr | .Adda | .Suba | .Movea => eaSteps op n
  | .Move => eaSteps op n || ((op.toNat / 64 % 8 == 3 || op.toNat / 64 % 8 == 4) && n == regField op 9)
  | .Addx | .Subx | .Abcd | .Sbcd => flag op 3 && (n == regField op 9 || n == regField op 0)
  | .Cmpm => n == regField op 9 || n == regField op 0
  | .Pea | .Bsr | .Jsr | .Rts | .Rtr | .Rte | .Link | .Unlk => n == 7
  | .Movem => flag op 10 && op.toNat / 8 % 8 != 4
  | _ => false

/-- The instruction changes condition codes before its last access. -/
def flagsEarly (i : Isa) (op : U16) : Bool :=
  match i with
  | .Add | .Sub | .And | .Or => flag op 8
  | .Addi | .Subi | .Andi | .Ori | .Eori | .Eor | .Neg | .Negx | .Nbcd | .Tas | .Asm | .Lsm | .Rom | .Roxm | .Bchg | .Bclr | .Bset | .Addq | .Subq
  | .Addx | .Subx | .Abcd | .Sbcd | .Divu | .Divs | .Rtr => true
  | _ => false

/-- The instruction makes several writes. `MOVEM` with `-(An)` stores whatever its direction bit says. -/
def writesEarly (i : Isa) (op : U16) : Bool :=
  match i with
  | .Movem => !flag op 10 || op.toNat / 8 % 8 == 4
  | .Movep => flag op 7
  | _ => false

/-- `m'` is the memory `m` after a write that was refused. -/
def Refused (m m' : M) : Prop := ∃ (sz : Size) (a : U32) (v : Val sz), memSet sz a v m = .none m'

/-- What the permissions `d`, `a`, `f` and `w` are for: data registers, address registers, condition codes and memory that may have changed from `s` to `s'`. The
memory, if it may not have been written, has seen reads and at most a write, the last access, that it refused. -/
structure Left (d a : Fin 8 → Bool) (f w : Bool) (s s' : St M) : Prop where
  data : ∀ n, d n = false → s'.cpu.regs.d n = s.cpu.regs.d n
  address : ∀ n : Fin 7, a ⟨n.val, by omega⟩ = false → s'.cpu.regs.a n = s.cpu.regs.a n
  stack : a 7 = false → s'.cpu.regs.usp = s.cpu.regs.usp ∧ s'.cpu.regs.ssp = s.cpu.regs.ssp
  flags : f = false → s'.cpu.regs.sr = s.cpu.regs.sr
  system : s.cpu.regs.sr.interruptMask.toNat < 8 → SameSystem s.cpu.regs.sr s'.cpu.regs.sr
  running : s'.cpu.stop = s.cpu.stop
  pending : s'.cpu.exceptions = s.cpu.exceptions
  memory : w = false → ∃ m, Reads s.mem m ∧ (s'.mem = m ∨ Refused m s'.mem)

/-- A memory that does nothing when it refuses a byte or a word, and writes the two words of a long word one after the other. -/
class Strict (M : Type) [MemoryAccess M] : Prop where
  byte : ∀ {a : U32} {v : U8} {m m' : M}, MemoryAccess.setByte a v m = .none m' → m' = m
  word : ∀ {a : U32} {v : U16} {m m' : M}, MemoryAccess.setWord a v m = .none m' → m' = m
  long : ∀ {a v : U32} {m m' : M}, MemoryAccess.setLong a v m = .none m' →
    m' = m ∨ MemoryAccess.setWord a (BitVec.ofNat 16 (v.toNat / 65536)) m = .val () m'

/-- Nothing of the instruction is done early, except reads. -/
def AllAtTheEnd (i : Isa) (op : U16) : Prop :=
  (∀ n, loadsEarly i op n = false) ∧ (∀ n, movesEarly i op n = false) ∧ flagsEarly i op = false ∧ writesEarly i op = false
instance (i : Isa) (op : U16) : Decidable (AllAtTheEnd i op) := inferInstanceAs (Decidable (_ ∧ _))

end M68k.Spec
