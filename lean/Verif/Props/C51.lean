import Verif.Lemmas.Cost
import Verif.Lemmas.Pending
import Verif.Lemmas.Alike
import Verif.Props.Demo
/-
C51: the exceptions that the execution of instructions raises.
-/
namespace M68k.Props
open Spec Exec
set_option linter.unusedSectionVars false
variable {M : Type} [MemoryAccess M] {C : CpuDetails} {s s' : St M}

/-- Access error (2), address error (3), illegal instruction (4), zero divide (5), CHK (6), TRAPV (7), privilege violation (8), trace (9), line A (10), line F (11),
format error (14) and TRAP #0 to TRAP #15 (32 to 47). -/
def CanRaise (v : U8) : Prop := v.toNat ∈ [2, 3, 4, 5, 6, 7, 8, 9, 10, 11, 14] ∨ (32 ≤ v.toNat ∧ v.toNat ≤ 47)
instance (v : U8) : Decidable (CanRaise v) := inferInstanceAs (Decidable (_ ∨ _))

/-- Whatever is executed, the exception that a call of `interpreter_exception` returns is one of them: never a reset and never an interrupt. -/
theorem C51_raised {c : Nat} {v : U8} (h : interpreterException C s = .ok (c, some v) s') : CanRaise v := by
  unfold interpreterException at h
  split at h
  · cases h
  · obtain ⟨k, t, _, h⟩ := bind_ok h
    unfold fastInstruction at h
    by_cases ho : Spec.Odd t.cpu.regs.pc
    · rw [getNextWord_odd ho] at h
      cases h
      decide
    · rw [getNextWord_even ho] at h
      cases hg : MemoryAccess.getWord t.cpu.regs.pc t.mem with
      | val op m =>
        rw [hg] at h
        dsimp only at h
        unfold finishStep at h
        have h2 := fastExecute_eq C (⟨{ t.cpu with currentOpcode := op, regs := { t.cpu.regs with pc := t.cpu.regs.pc + 2 } }, m⟩ : St M)
        dsimp only at h h2
        rw [h2] at h
        cases hx : Spec.exec C (decoder op) op (⟨{ t.cpu with currentOpcode := op, regs := { t.cpu.regs with pc := t.cpu.regs.pc + 2 } }, m⟩ : St M) with
        | ok d u =>
          rw [hx] at h
          have h := congrArg (fun r => match r with | Res.ok (_, x) _ => x | _ => none) h
          dsimp only at h
          split at h
          · cases h; decide
          · cases h
        | err e u =>
          rw [hx] at h
          cases h
          rcases exec_raises C _ _ hx with rfl | (h | rfl | rfl | rfl) | h
          · decide
          · left
            obtain ⟨h1, h2⟩ := h
            simp only [List.mem_cons]
            omega
          · decide
          · decide
          · decide
          · exact .inr h
        | panic => rw [hx] at h; cases h
      | none m => rw [hg] at h; cases h; decide
      | panic => rw [hg] at h; cases h

/-- TRAP #1. -/
example : ∃ s', interpreterException mc68000 (Demo.st [0x4E41] (Demo.regs [] [])) = .ok (0, some 33) s' := ⟨_, rfl⟩

/-- Each of them is raised by some program: for example address error, line F, privilege violation and trace. -/
example : (∃ s', interpreterException mc68000 (Demo.st [0x3010] (Demo.regs [] [1])) = .ok (0, some 3) s') ∧
    (∃ s', interpreterException mc68000 (Demo.st [0xF000] (Demo.regs [] [])) = .ok (0, some 11) s') ∧
    (∃ s', interpreterException mc68000 (Demo.st [0x4E73] { Demo.regs [] [] with sr := srOf 0 }) = .ok (0, some 8) s') ∧
    (∃ s', interpreterException mc68000 (Demo.st [0x4E71] { Demo.regs [] [] with sr := srOf 0x8000 }) = .ok (4, some 9) s') :=
  ⟨⟨_, rfl⟩, ⟨_, rfl⟩, ⟨_, rfl⟩, ⟨_, rfl⟩⟩

end M68k.Props
