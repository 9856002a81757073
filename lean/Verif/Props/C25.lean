import Verif.Lemmas.AnyStep
import Verif.Props.Demo
/-
C25: user mode cannot enter supervisor mode by itself.

The code lets ORI and EORI to CCR change the whole status register (`C25_refuted`). The `_partial` theorems
are the property for programs whose ORI/EORI to CCR have the high byte of their immediate word clear, as
assemblers emit them.
-/
namespace M68k.Props
open Spec Exec
variable {M : Type} [MemoryAccess M] {C : CpuDetails} {s s' : St M}

/-- The immediate word of an ORI or EORI to CCR about to be executed has only the bits of the CCR. -/
def CcrImmediates (s : St M) : Prop :=
  ∀ op s1 w s2, Ready s op s1 → instr op = .Oriccr ∨ instr op = .Eoriccr → fetch s1 = .ok w s2 → w.toNat < 256

/-- A call of `interpreter_exception` in user mode without pending exception leaves S, T, the interrupt mask
and the supervisor stack pointer as they were, and no exception becomes pending. -/
theorem C25_step_partial {x : Nat × Option U8} (hu : s.cpu.regs.sr.s = false) (hm : s.cpu.regs.sr.interruptMask.toNat < 8)
    (hi : s.cpu.exceptions = []) (hop : CcrImmediates s) (hx : interpreterException C s = .ok x s') :
    SameSystem s.cpu.regs.sr s'.cpu.regs.sr ∧ s'.cpu.regs.ssp = s.cpu.regs.ssp ∧ s'.cpu.exceptions = [] := by
  have h := userSafe_step hu hm hi hop hx
  exact ⟨h.sys, h.ssp, h.exceptions.trans hi⟩

/-- Any number of consecutive calls of `interpreter_exception`. -/
inductive Calls (C : CpuDetails) : St M → St M → Prop
  | none (s : St M) : Calls C s s
  | more {s s' s'' : St M} {x : Nat × Option U8} : Calls C s s' → interpreterException C s' = .ok x s'' → Calls C s s''

/-- The same for a program of any length. -/
theorem C25_sequence_partial (hu : s.cpu.regs.sr.s = false) (hm : s.cpu.regs.sr.interruptMask.toNat < 8)
    (hi : s.cpu.exceptions = []) (hop : ∀ t, Calls C s t → CcrImmediates t) (hc : Calls C s s') :
    s'.cpu.regs.sr.s = false ∧ SameSystem s.cpu.regs.sr s'.cpu.regs.sr ∧ s'.cpu.regs.ssp = s.cpu.regs.ssp ∧ s'.cpu.exceptions = [] := by
  induction hc with
  | none => exact ⟨hu, ⟨rfl, rfl, rfl⟩, rfl, hi⟩
  | more hc hx ih =>
    obtain ⟨h1, h2, h3, h4⟩ := ih
    obtain ⟨k1, k2, k3⟩ := C25_step_partial h1 (by rw [h2.2.2]; exact hm) h4 (hop _ hc) hx
    exact ⟨k1.2.1.trans h1, ⟨k1.1.trans h2.1, k1.2.1.trans h2.2.1, k1.2.2.trans h2.2.2⟩, k2.trans h3, k3⟩

/-- `RTE` in user mode: the hypotheses hold and the call ends with exception 8. -/
example : ∃ s', interpreterException mc68000 (Demo.st [0x4E73] (Demo.regs [] [])) = .ok (0, some 8) s' ∧
    (Demo.st [0x4E73] (Demo.regs [] [])).cpu.regs.sr.s = false ∧ (Demo.st [0x4E73] (Demo.regs [] [])).cpu.exceptions = [] ∧
    CcrImmediates (Demo.st [0x4E73] (Demo.regs [] [])) := by
  refine ⟨_, rfl, rfl, rfl, ?_⟩
  rintro op s1 w s2 ⟨-, -, -, m, h, -⟩ hi
  cases h
  rcases hi with h | h <;> cases h

/-- `ORI #$2000,CCR` in user mode enters supervisor mode: the property is false of the code. -/
theorem C25_refuted : ∃ c s', interpreterException mc68000 (Demo.st [0x003C, 0x2000] (Demo.regs [] [])) = .ok (c, none) s' ∧
    (Demo.st [0x003C, 0x2000] (Demo.regs [] [])).cpu.regs.sr.s = false ∧
    (Demo.st [0x003C, 0x2000] (Demo.regs [] [])).cpu.exceptions = [] ∧ s'.cpu.regs.sr.s = true :=
  ⟨_, _, rfl, rfl, rfl, rfl⟩

end M68k.Props
