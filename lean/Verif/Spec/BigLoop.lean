import Verif.Spec.Program
import Verif.Spec.Chain
/-
Loops over the limbs of large numbers.
-/
namespace M68k.Spec
open M68k.Exec
variable {M : Type} [MemoryAccess M]

/-- The opcode of `ADDX.sz -(Ay),-(Ax)`. -/
def addxMinus (sz : Size) (y x : Fin 8) : U16 :=
  BitVec.ofNat 16 (0xD108 + (match sz with | .Byte => 0 | .Word => 1 | .Long => 2) * 64 + x.val * 512 + y.val)
/-- The opcode of `SUBX.sz -(Ay),-(Ax)`. -/
def subxMinus (sz : Size) (y x : Fin 8) : U16 :=
  BitVec.ofNat 16 (0x9108 + (match sz with | .Byte => 0 | .Word => 1 | .Long => 2) * 64 + x.val * 512 + y.val)
/-- The opcode of `ABCD -(Ay),-(Ax)`. -/
def abcdMinus (y x : Fin 8) : U16 := BitVec.ofNat 16 (0xC108 + x.val * 512 + y.val)
/-- The opcode of `SBCD -(Ay),-(Ax)`. -/
def sbcdMinus (y x : Fin 8) : U16 := BitVec.ofNat 16 (0x8108 + x.val * 512 + y.val)

/-- The number of turns of a loop that ends with `DBF Dn,loop`. -/
def turns (n : Fin 8) (s : St M) : Nat := (s.cpu.regs.d n).toNat % 65536 + 1

/-- The processor runs, no exception is pending, and execution is at `loop: op; DBF Dn,loop`, an instruction without extension words that combines the
operands below Ay with those below Ax. The first `len` bytes below Ax do not overlap the loop, and both addresses are aligned as the size demands. -/
structure LoopReady (sz : Size) (op : U16) (y x n : Fin 8) [Ram M] (s : St M) (len : Nat) : Prop where
  running : s.cpu.stop = false
  idle : s.cpu.exceptions = []
  even : ¬ Odd s.cpu.regs.pc
  program : HoldsWords s.mem s.cpu.regs.pc [op, BitVec.ofNat 16 (0x51C8 + n.val), 0xFFFC]
  kept : ∀ k < 6, ¬ Below (areg s.cpu.regs x) len (at_ s.cpu.regs.pc k)
  alignedSrc : AlignedFor sz (areg s.cpu.regs y)
  alignedDst : AlignedFor sz (areg s.cpu.regs x)

/-- `s'` is `s` behind the loop: Ax and Ay are `len` lower and the counter word is 0xFFFF. Except for these, the program counter and the condition codes, all
registers and the state of the core are as before. -/
def LoopDone (y x n : Fin 8) (len : Nat) (s s' : St M) : Prop :=
  SameSystem s.cpu.regs.sr s'.cpu.regs.sr ∧
  s'.cpu = { s.cpu with currentOpcode := BitVec.ofNat 16 (0x51C8 + n.val), regs :=
    { setAreg (setAreg s.cpu.regs y (areg s.cpu.regs y - BitVec.ofNat 32 len)) x (areg s.cpu.regs x - BitVec.ofNat 32 len) with
      pc := s.cpu.regs.pc + 6
      sr := s'.cpu.regs.sr
      d := fun m => if m = n then BitVec.ofNat 32 ((s.cpu.regs.d n).toNat / 65536 * 65536 + 0xFFFF) else s.cpu.regs.d m } }

end M68k.Spec
