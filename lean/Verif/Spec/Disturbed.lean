import Verif.Spec.Routines
import Verif.Spec.Interrupt
/-
Compiled programs that are interrupted (C89).
-/
namespace M68k.Spec
open M68k.Exec
set_option linter.unusedSectionVars false
variable {M : Type} [MemoryAccess M] [Ram M]

/-- The bytes of a compiled program: its code, its variables and its stack. -/
def WholeByte {n : Nat} (ps : List (Cmd n)) (st : Cmd n) (a fp sp : U32) (room : Nat) (b : U32) : Prop :=
  (∃ i < 2 * wholeSize ps st, b = at_ a i) ∨ (∃ j < 4 * n, b = at_ fp j) ∨ StackByte sp room b

/-- The core is in user mode, and the exceptions `τ k` that are requested before instruction `k` of a program in `P` are served: `I l m` says how the rest of the memory is when the
exceptions `l` have been served (`Service`), which the program does not concern. There are `depth` bytes for the supervisor stack in `F`, and the mask lets the exceptions through. -/
structure Served (C : CpuDetails) (P F : U32 → Bool) (depth : Nat) (I : List U8 → M → Prop) (τ : Nat → List U8) (s : St M) : Prop where
  ready : I [] s.mem
  service : ∀ k, ∀ v ∈ τ k, Service C P F depth I v
  own : ∀ l m m', I l m → ChangedIn P m m' → I l m'
  stack : StackIn F depth s
  unmasked : ∀ k, ∀ v ∈ τ k, ¬ Masked s.cpu.regs.sr.interruptMask v

/-- `t` is `s` after the compiled program, whatever else has happened: as `Landed`, without a word about the memory outside the program. -/
structure Completed {n : Nat} (ps : List (Cmd n)) (st : Cmd n) (a : U32) (σ' : Store n) (s t : St M) : Prop where
  pc : t.cpu.regs.pc = at_ a (2 * wholeSize ps st)
  vars : HoldsStore t.mem (s.cpu.regs.a 6) σ'
  code : ∀ i < 2 * wholeSize ps st, Ram.peek t.mem (at_ a i) = Ram.peek s.mem (at_ a i)
  addresses : t.cpu.regs.a = s.cpu.regs.a ∧ t.cpu.regs.usp = s.cpu.regs.usp ∧ t.cpu.regs.ssp = s.cpu.regs.ssp
  data : ∀ j : Fin 8, 2 ≤ j.val → t.cpu.regs.d j = s.cpu.regs.d j
  system : t.cpu.regs.sr.t = s.cpu.regs.sr.t ∧ t.cpu.regs.sr.s = s.cpu.regs.sr.s ∧ t.cpu.regs.sr.interruptMask = s.cpu.regs.sr.interruptMask
  running : t.cpu.stop = false
  idle : t.cpu.exceptions = []

/-- What a fenced memory holds: the bytes inside. -/
def Fenced.peekIn (P : U32 → Bool) (m : Fenced (bytesIn P) M) (a : U32) : Option U8 := if P a then Ram.peek m.mem a else none

/-- The first word of a line is not ORI or EORI to CCR. -/
def Source.Plain (l : Source) : Prop := ∀ ws, l.assemble = some ws → instr (ws.headD 0) ≠ .Oriccr ∧ instr (ws.headD 0) ≠ .Eoriccr

end M68k.Spec
