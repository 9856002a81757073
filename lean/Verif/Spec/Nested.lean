import Verif.Spec.Program
import Verif.Spec.Length
import Verif.Spec.Chain
import Verif.Spec.Claims
/-
Programs that use the stack in a balanced way.
-/
namespace M68k.Spec
open M68k.Exec
variable {M : Type} [MemoryAccess M]

/-- `s` and `t` have the same stack pointer, and the `n` bytes of the stack from it on are the same. -/
def Kept [Ram M] (n : Nat) (s t : St M) : Prop :=
  areg t.cpu.regs 7 = areg s.cpu.regs 7 ∧ ∀ k < n, Ram.peek t.mem (at_ (areg s.cpu.regs 7) k) = Ram.peek s.mem (at_ (areg s.cpu.regs 7) k)

/-- The instruction (the call of `interpreter_exception`) from `s` to `t` allocates `k` bytes on the stack, and keeps the `n` bytes above. -/
def Allocates [Ram M] (C : CpuDetails) (n k : Nat) (s t : St M) : Prop :=
  Completes C s t ∧ areg t.cpu.regs 7 = areg s.cpu.regs 7 - BitVec.ofNat 32 k ∧
    ∀ j < n, Ram.peek t.mem (at_ (areg s.cpu.regs 7) j) = Ram.peek s.mem (at_ (areg s.cpu.regs 7) j)

/-- The instruction from `s` to `t` frees `k` bytes on the stack, and keeps the `n` bytes above. -/
def Frees [Ram M] (C : CpuDetails) (n k : Nat) (s t : St M) : Prop :=
  Completes C s t ∧ areg t.cpu.regs 7 = areg s.cpu.regs 7 + BitVec.ofNat 32 k ∧
    ∀ j < n, Ram.peek t.mem (at_ (areg t.cpu.regs 7) j) = Ram.peek s.mem (at_ (areg t.cpu.regs 7) j)

/-- The instruction from `s` to `t` is a BSR or JSR, and `ret` is the address of the instruction after it. -/
def CallsSub (C : CpuDetails) (s t : St M) (ret : U32) : Prop :=
  ∃ op s1, Ready s op s1 ∧ (instr op = .Bsr ∨ instr op = .Jsr) ∧ Completes C s t ∧ ret = s.cpu.regs.pc + 2 + BitVec.ofNat 32 (2 * extensionWords (instr op) op)

/-- The instruction from `s` to `t` is RTS. -/
def ReturnsSub (C : CpuDetails) (s t : St M) : Prop := ∃ op s1, Ready s op s1 ∧ instr op = .Rts ∧ Completes C s t

/-- An execution from `s` to `t` that never changes the `n` bytes at the stack pointer of `s` by an instruction of its own. It is a sequence of
* instructions that leave the stack pointer,
* an instruction that allocates `k` bytes, an execution of the same kind with `n + k` bytes to keep, and an instruction that frees `k` bytes,
* a BSR or JSR, an execution of the same kind with `n + 4` bytes to keep (the return address has four), and an RTS,
nested in any way and to any depth for which the stack has room. Nothing is said of where an RTS returns to. -/
inductive Nested [Ram M] (C : CpuDetails) : Nat → St M → St M → Prop
  | nil (n : Nat) (s : St M) : Nested C n s s
  | plain {n : Nat} {s t u : St M} : Completes C s t → Kept n s t → Nested C n t u → Nested C n s u
  | frame {n k : Nat} {s t u v w : St M} : n + k ≤ 2 ^ 32 → Allocates C n k s t → Nested C (n + k) t u → Frees C n k u v → Nested C n v w → Nested C n s w
  | call {n : Nat} {s t u v w : St M} {ret : U32} : n + 4 ≤ 2 ^ 32 → CallsSub C s t ret → Nested C (n + 4) t u → ReturnsSub C u v → Nested C n v w → Nested C n s w

/-- A subroutine that calls itself as often as the word in D0 says, and counts in D1:
`f: SUBQ.W #1,D0; BEQ.S g; BSR.S f; g: ADDQ.L #1,D1; RTS`. -/
def countDown : List U16 := [0x5340, 0x6702, 0x61FA, 0x5281, 0x4E75]

/-- Execution has come to the subroutine with the counter `n + 1` and the return address `ret` on the stack. The stack has room for the `n` return addresses of the
subroutine's own calls, which does not overlap the subroutine. -/
structure CountReady [Ram M] (s : St M) (n : Nat) (ret : U32) : Prop where
  running : s.cpu.stop = false
  idle : s.cpu.exceptions = []
  even : ¬ Odd s.cpu.regs.pc
  program : HoldsWords s.mem s.cpu.regs.pc countDown
  counter : (s.cpu.regs.d 0).toNat % 65536 = n + 1
  evenSp : ¬ Odd (areg s.cpu.regs 7)
  onStack : Holds (sz := .Long) s.mem (areg s.cpu.regs 7) ret
  room : ∀ b, Below (areg s.cpu.regs 7) (4 * n) b → (Ram.peek s.mem b).isSome
  kept : ∀ k < 10, ¬ Below (areg s.cpu.regs 7) (4 * n) (at_ s.cpu.regs.pc k)

/-- The core of `t` is that of `s`, except for the program counter, the condition codes, D0, D1 and the stack pointer. -/
structure Updated (s t : St M) (pc d0 d1 sp : U32) : Prop where
  pc : t.cpu.regs.pc = pc
  data : t.cpu.regs.d = fun m => if m = 0 then d0 else if m = 1 then d1 else s.cpu.regs.d m
  sp : areg t.cpu.regs 7 = sp
  areg : ∀ i, i ≠ 7 → areg t.cpu.regs i = areg s.cpu.regs i
  system : SameSystem s.cpu.regs.sr t.cpu.regs.sr
  stop : t.cpu.stop = s.cpu.stop
  exceptions : t.cpu.exceptions = s.cpu.exceptions

end M68k.Spec
