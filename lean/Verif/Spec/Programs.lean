import Verif.Spec.SourceProgram
/-
Programs written with the assembler, whose results are proved (C83).
-/
namespace M68k.Spec
variable {M : Type} [MemoryAccess M] [Ram M]

/-- The program is in memory at the even address `a`; the core is running, with no pending exception and no trace; the program counter is `2 * k` bytes after `a`. -/
structure Loaded (p : List Source) (a : U32) (k : Nat) (s : St M) : Prop where
  held : ∃ all, Source.program p = some all ∧ HoldsWords s.mem a all
  even : ¬ Odd a
  running : s.cpu.stop = false
  idle : s.cpu.exceptions = []
  untraced : s.cpu.regs.sr.t = false
  here : s.cpu.regs.pc = at_ a (2 * k)

/-- Euclid's algorithm on the words in D0 and D1:
```
loop: TST.W  D1
      BEQ    done
      DIVU.W D1,D0
      CLR.W  D0
      SWAP   D0
      EXG    D0,D1
      BRA    loop
done:
``` -/
def gcdProgram : List Source :=
  [.tst .Word (.dn 1), .bcc .EQ 10, .divu 0 (.dn 1), .clr .Word (.dn 0), .swap 0, .exg .ExchangeData 0 1, .bra 0xFFF2]

/-- A block copy: the low word of D0 is the number of bytes minus one.
```
loop: MOVE.B (A0)+,(A1)+
      DBF    D0,loop
``` -/
def copyProgram : List Source := [.move .Byte (.postinc 1) (.postinc 0), .dbcc .F 0 0xFFFC]

/-- `n + 1` bytes at `src` and at `dst` exist, those at `dst` are not in the program, of `len` bytes at `a`, and no byte is overwritten before it is copied. -/
structure CanCopy (n : Nat) (src dst a : U32) (len : Nat) (m : M) : Prop where
  source : ∀ i ≤ n, (Ram.peek m (at_ src i)).isSome
  room : ∀ i ≤ n, (Ram.peek m (at_ dst i)).isSome
  apart : ∀ i ≤ n, ∀ j < len, at_ dst i ≠ at_ a j
  forward : ∀ i j, i < j → j ≤ n → at_ dst i ≠ at_ src j

end M68k.Spec
