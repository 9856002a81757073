import Verif.Lemmas.Refine
import Verif.Lemmas.OpcodeMap
import Verif.Spec.Step
/-
One call of `interpreter_exception` in terms of the specification of the instruction set.
-/
namespace M68k
namespace Exec
open Spec
variable {M : Type} [MemoryAccess M]

theorem opcode_fetch {s : St M} {op : U16} {s1 : St M} (h : Ready s op s1) :
    ∃ s0, getNextWord s = .ok op s0 ∧ s1 = { s0 with cpu := { s0.cpu with currentOpcode := op } } := by
  obtain ⟨-, -, h3, m, h4, h5⟩ := h
  refine ⟨{ mem := m, cpu := { s.cpu with regs := { s.cpu.regs with pc := s.cpu.regs.pc + 2 } } }, ?_, ?_⟩
  · have he : isEven s.cpu.regs.pc = true := (isEven_iff _).2 h3
    have hev : (even s.cpu.regs.pc : Exec M U32) s = .ok s.cpu.regs.pc s := by unfold even; rw [if_pos he]; rfl
    unfold getNextWord
    rw [Exec.bind_apply]
    simp only [getPc]
    erw [Exec.bind_apply]
    rw [hev]
    simp only [h4]
  · rw [h5]

/-- The call is the execution of the instruction, its outcome being packed by `finishStep`. -/
theorem step_finish {s : St M} {op : U16} {s1 : St M} (C : CpuDetails) (h : Ready s op s1) :
    interpreterException C s = finishStep (decoder op) 0 (Spec.exec C (decoder op) op) s1 := by
  obtain ⟨s0, h0, h1⟩ := opcode_fetch h
  unfold interpreterException
  rw [if_neg (by simp [h.running])]
  simp only [Exec.bind_apply, pendingCycles, h.idle, List.isEmpty_nil, if_true, fastInstruction, h0]
  have := fastExecute_eq C s1
  rw [h1] at this
  simp only at this
  rw [h1]
  simp only [finishStep]
  rw [this]

theorem _root_.M68k.Spec.Ready.sr {s : St M} {op : U16} {s1 : St M} (h : Ready s op s1) : s1.cpu.regs.sr = s.cpu.regs.sr := by
  obtain ⟨-, -, -, m, -, h5⟩ := h
  rw [h5]

theorem _root_.M68k.Spec.Ready.regs {s : St M} {op : U16} {s1 : St M} (h : Ready s op s1) :
    s1.cpu.regs = { s.cpu.regs with pc := s.cpu.regs.pc + 2 } := by
  obtain ⟨-, -, -, m, -, h5⟩ := h
  rw [h5]

theorem step_ends {s : St M} {op : U16} {s1 : St M} (C : CpuDetails) (h : Ready s op s1) {i : Isa}
    (hi : instr op = i) (hu : i ≠ .Unknown) (hp : i.isPrivileged = false) : EndsWith C s (Spec.exec C i op s1) := by
  subst hi
  have hd := decoder_of_map op hu
  have hf := step_finish C h
  rw [hd] at hf
  unfold EndsWith
  simp only [finishStep] at hf
  generalize Spec.exec C (instr op) op s1 = r at *
  cases r with
  | ok c s' =>
    refine ⟨c, ?_⟩
    rw [hf]
    simp [hp, h.sr, traced]
  | err v s' => exact hf
  | panic => exact hf

theorem step_ends_privileged {s : St M} {op : U16} {s1 : St M} (C : CpuDetails) (h : Ready s op s1) {i : Isa}
    (hi : instr op = i) (hu : i ≠ .Unknown) (hp : i.isPrivileged = true) :
    match Spec.exec C i op s1 with
    | .ok _ s' => CompletesPrivileged C s s'
    | .err v s' => Raises C s v s'
    | .panic => interpreterException C s = .panic := by
  subst hi
  have hd := decoder_of_map op hu
  have hf := step_finish C h
  rw [hd] at hf
  simp only [finishStep] at hf
  generalize Spec.exec C (instr op) op s1 = r at *
  cases r with
  | ok c s' =>
    refine ⟨c, ?_⟩
    rw [hf]
    simp [hp]
  | err v s' => exact hf
  | panic => exact hf

end Exec
end M68k
