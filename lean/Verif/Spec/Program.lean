import Verif.Spec.Step
import Verif.Spec.Exception
/-
Whole programs: how often `interpreter_exception` is called, and the program that copies a block of memory.
-/
namespace M68k.Spec
variable {M : Type} [MemoryAccess M] {C : CpuDetails} {s s' s1 s2 : St M}

/-- `n` consecutive calls of `interpreter_exception`, each of which executes an instruction to its end. -/
inductive Steps (C : CpuDetails) : Nat → St M → St M → Prop
  | none (s : St M) : Steps C 0 s s
  | more {n : Nat} {s s' s'' : St M} : Steps C n s s' → Completes C s' s'' → Steps C (n + 1) s s''

theorem Steps.cons {n : Nat} (h : Completes C s s1) (hs : Steps C n s1 s2) : Steps C (n + 1) s s2 := by
  induction hs with
  | none => exact .more (.none _) h
  | more _ hc ih => exact .more (ih h) hc

theorem Steps.trans {n k : Nat} (h : Steps C n s s1) (hs : Steps C k s1 s2) : Steps C (n + k) s s2 := by
  induction hs with
  | none => exact h
  | more _ hc ih => exact .more (ih h) hc

/-- The opcode of `MOVE.sz (Ai)+,(Aj)+`. -/
def movePlus (sz : Size) (i j : Fin 8) : U16 :=
  BitVec.ofNat 16 ((match sz with | .Byte => 1 | .Word => 3 | .Long => 2) * 4096 + j.val * 512 + 3 * 64 + 3 * 8 + i.val)

/-- `loop: MOVE.sz (Ai)+,(Aj)+` followed by `DBF Dn,loop`. -/
def copyLoop (sz : Size) (i j n : Fin 8) : List U16 := [movePlus sz i j, BitVec.ofNat 16 (0x51C8 + n.val), 0xFFFC]

/-- Block copies upwards, `sz` at a time, from `src` to `dst`: no element of the source is overwritten before it has been read. Overlapping
blocks are allowed when the destination begins before the source. -/
def CopiesUp (sz : Size) (src dst : U32) (len : Nat) : Prop :=
  ∀ k l, k < len → l < len → k / bytes sz < l / bytes sz → at_ dst k ≠ at_ src l

/-- `s` is ready to copy `len` bytes from the address in Ai to the address in Aj: the processor runs, no exception is pending, the program counter is at the
loop, which the destination does not overlap, both blocks exist, and are aligned as the size demands. -/
structure CopyReady (sz : Size) (i j n : Fin 8) [Ram M] (s : St M) (len : Nat) : Prop where
  running : s.cpu.stop = false
  idle : s.cpu.exceptions = []
  even : ¬ Odd s.cpu.regs.pc
  program : HoldsWords s.mem s.cpu.regs.pc (copyLoop sz i j n)
  kept : ∀ k < 6, ∀ l < len, at_ s.cpu.regs.pc k ≠ at_ (areg s.cpu.regs j) l
  alignedSrc : AlignedFor sz (areg s.cpu.regs i)
  alignedDst : AlignedFor sz (areg s.cpu.regs j)
  presentSrc : Present s.mem (areg s.cpu.regs i) len
  presentDst : Present s.mem (areg s.cpu.regs j) len
  upwards : CopiesUp sz (areg s.cpu.regs i) (areg s.cpu.regs j) len

end M68k.Spec
