import Verif.Lemmas.EndsControl
import Verif.Props.Demo
/-
C53: NOP does nothing, RESET resets the devices and not the CPU.
-/
namespace M68k.Props
open Spec Exec
variable {M : Type} [MemoryAccess M] {C : CpuDetails} {s s' s1 s2 : St M} {op : U16}

/-- NOP: the state is that after reading its opcode. -/
theorem C53_nop (h : Ready s op s1) (hi : instr op = .Nop) : Completes C s s1 := by
  have hx := step_ends C h hi (by decide) rfl
  simp only [Spec.exec] at hx
  exact hx

/-- RESET in supervisor mode: the memory gets the reset signal, nothing else changes. -/
theorem C53_reset (h : Ready s op s1) (hi : instr op = .Reset) (hs : s.cpu.regs.sr.s = true) :
    CompletesPrivileged C s { s1 with mem := MemoryAccess.resetInstruction s1.mem } := by
  have hx := step_endsPrivileged C h hi (by decide) rfl
  simp only [Spec.exec] at hx
  rw [endsPrivileged_cost, Spec.resetDevices, endsPrivileged_bind_ok (privileged_ok (by rw [h.sr]; exact hs))] at hx
  exact hx

/-- The opcodes of NOP and RESET, and states in which they are executed. -/
example : (∃ s1, Ready (Demo.st [0x4E71] (Demo.regs [] [])) 0x4E71 s1) ∧ instr 0x4E71 = .Nop ∧
    (∃ s1, Ready (Demo.st [0x4E70] { Demo.regs [] [] with sr := srOf 0x2000 }) 0x4E70 s1) ∧ instr 0x4E70 = .Reset ∧ (srOf 0x2000).s = true :=
  ⟨⟨_, rfl, rfl, by decide, _, rfl, rfl⟩, rfl, ⟨_, rfl, rfl, by decide, _, rfl, rfl⟩, rfl, by decide⟩

end M68k.Props
