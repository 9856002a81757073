import Verif.Lemmas.Pending
import Verif.Lemmas.EndsControl
import Verif.Props.Demo
/-
C30: STOP.
-/
namespace M68k.Props
open Spec Exec
set_option linter.unusedSectionVars false
variable {M : Type} [MemoryAccess M] {C : CpuDetails} {s s' s1 s2 : St M} {v : U8} {w : U16}

/-- STOP #w (0x4E72) in supervisor mode: the status register is `w`, the core is stopped, nothing else changes but the program counter. -/
theorem C30_stop (h : Ready s 0x4E72 s1) (hsup : s.cpu.regs.sr.s = true) (hw : fetch s1 = .ok w s2) :
    CompletesPrivileged C s { s2 with cpu := { s2.cpu with stop := true, regs := { s2.cpu.regs with sr := srOf w } } } := by
  have hx := step_endsPrivileged C h (i := .Stop) (by decide) (by decide) rfl
  simp only [Spec.exec] at hx
  have hsr : s2.cpu.regs.sr = s.cpu.regs.sr := (fetch_regs hw) ▸ h.sr
  rw [endsPrivileged_bind_ok hw, endsPrivileged_cost] at hx
  unfold Spec.stop at hx
  rw [bind_eq (privileged_ok (by rw [hsr]; exact hsup))] at hx
  exact hx

/-- In user mode it is a privilege violation and the core runs on. -/
theorem C30_user (h : Ready s 0x4E72 s1) (hsup : s.cpu.regs.sr.s = false) (hw : fetch s1 = .ok w s2) : Raises C s 8 s2 := by
  have hx := step_endsPrivileged C h (i := .Stop) (by decide) (by decide) rfl
  simp only [Spec.exec] at hx
  have hsr : s2.cpu.regs.sr = s.cpu.regs.sr := (fetch_regs hw) ▸ h.sr
  rw [endsPrivileged_bind_ok hw, endsPrivileged_cost] at hx
  unfold Spec.stop at hx
  rw [Exec.bind_apply, privileged_err (by rw [hsr]; exact hsup)] at hx
  exact hx

example : ∃ s1 s2, Ready (Demo.st [0x4E72, 0x2300] { Demo.regs [] [] with sr := srOf 0x2700 }) 0x4E72 s1 ∧ fetch s1 = .ok 0x2300 s2 :=
  ⟨_, _, ⟨rfl, rfl, by decide, _, rfl, rfl⟩, rfl⟩

/-- A call while stopped changes nothing and takes no time: all four interpreter functions. -/
theorem C30_call (h : s.cpu.stop = true) : interpreterException C s = .ok (0, none) s ∧ interpreter C s = .ok 0 s ∧
    disassemblerInterpreterException C s = .ok (0, 0, none) s ∧ disassemblerInterpreter C s = .ok (0, 0) s := by
  have h1 : interpreterException C s = .ok (0, none) s := by unfold interpreterException; rw [if_pos h]
  have h2 : disassemblerInterpreterException C s = .ok (0, 0, none) s := by unfold disassemblerInterpreterException; rw [if_pos h]
  refine ⟨h1, ?_, h2, ?_⟩
  · unfold interpreter; rw [bind_eq h1]; rfl
  · unfold disassemblerInterpreter; rw [bind_eq h2]; rfl

/-- The exceptions that wake the core. -/
def Wakes (v : U8) : Prop := v = 0 ∨ v = 9 ∨ InterruptVector v

/-- A request wakes the core exactly if it is reset, trace or an interrupt (masked or not); its registers do not change. -/
theorem C30_wake (h : s.cpu.stop = true) : ((s.cpu.exception ⟨v⟩).stop = false ↔ Wakes v) ∧ (s.cpu.exception ⟨v⟩).regs = s.cpu.regs := by
  refine ⟨?_, exception_regs _ _⟩
  have hi := interruptVector_iff (v := v)
  unfold Cpu.exception Wakes
  dsimp only
  split
  · rename_i hc
    simp only [Bool.or_eq_true, decide_eq_true_iff] at hc
    refine ⟨fun _ => ?_, fun _ => rfl⟩
    rcases hc with (h | h) | h
    · exact .inl h
    · exact .inr (.inl h)
    · exact .inr (.inr (hi.1 h))
  · rename_i hc
    simp only [Bool.or_eq_true, decide_eq_true_iff, not_or] at hc
    constructor
    · intro hf
      rw [show ({ s.cpu with exceptions := insertException ⟨v⟩ s.cpu.exceptions } : Cpu).stop = s.cpu.stop from rfl, h] at hf
      cases hf
    · rintro (h | h | h)
      · exact absurd h hc.1.1
      · exact absurd h hc.1.2
      · exact absurd (hi.2 h) hc.2

/-- Calls of `interpreter` and `interpreter_exception` in any number and order, and requests of exceptions that do not wake. `total` is the sum of the cycle counts of the calls. -/
inductive Asleep (C : CpuDetails) : Nat → St M → St M → Prop
  | none (s : St M) : Asleep C 0 s s
  | call {s s' s'' : St M} {total n : Nat} {e : Option U8} : Asleep C total s s' → interpreterException C s' = .ok (n, e) s'' → Asleep C (total + n) s s''
  | run {s s' s'' : St M} {total n : Nat} : Asleep C total s s' → interpreter C s' = .ok n s'' → Asleep C (total + n) s s''
  | request {s s' : St M} {total : Nat} (v : U8) : Asleep C total s s' → ¬ Wakes v → Asleep C total s { s' with cpu := s'.cpu.exception ⟨v⟩ }

/-- However often it is called, a stopped core stays stopped, with the same registers and memory, and no time passes. -/
theorem C30_asleep {total : Nat} (h : s.cpu.stop = true) (ha : Asleep C total s s') :
    s'.cpu.stop = true ∧ s'.cpu.regs = s.cpu.regs ∧ s'.mem = s.mem ∧ total = 0 := by
  induction ha with
  | none => exact ⟨h, rfl, rfl, rfl⟩
  | call ha hc ih =>
    obtain ⟨h1, h2, h3, h4⟩ := ih h
    rw [(C30_call h1).1] at hc
    cases hc
    exact ⟨h1, h2, h3, h4⟩
  | run ha hc ih =>
    obtain ⟨h1, h2, h3, h4⟩ := ih h
    rw [(C30_call h1).2.1] at hc
    cases hc
    exact ⟨h1, h2, h3, h4⟩
  | request v ha hw ih =>
    obtain ⟨h1, h2, h3, h4⟩ := ih h
    refine ⟨?_, ?_, h3, h4⟩
    · exact Bool.of_not_eq_false fun hf => hw ((C30_wake h1).1.1 hf)
    · exact ((C30_wake h1).2).trans h2

example : Asleep mc68000 0 ({ Demo.st [] (Demo.regs [] []) with cpu := { (Demo.st [] (Demo.regs [] [])).cpu with stop := true } } : St WordSlice)
    { Demo.st [] (Demo.regs [] []) with cpu := { (Demo.st [] (Demo.regs [] [])).cpu with stop := true, exceptions := [⟨32⟩] } } :=
  .call (total := 0) (n := 0) (e := none) (.request 32 (.none _) (by unfold Wakes; decide)) rfl

/-- An interrupt wakes the core even if it is masked: it stays pending, and the core goes on with the next instruction. (A 68000 would stay stopped.) -/
theorem C30_maskedWakes : ∃ s s' : St WordSlice, s.cpu.stop = true ∧ Masked s.cpu.regs.sr.interruptMask 26 ∧
    interpreterException mc68000 { s with cpu := s.cpu.exception ⟨26⟩ } = .ok (4, none) s' ∧ s'.cpu.regs.pc = s.cpu.regs.pc + 2 ∧ s'.cpu.exceptions = [⟨26⟩] :=
  ⟨{ Demo.st [0x4E71] { Demo.regs [] [] with sr := srOf 0x2700 } with cpu := { (Demo.st [0x4E71] { Demo.regs [] [] with sr := srOf 0x2700 }).cpu with stop := true } },
    _, rfl, by decide, rfl, rfl, rfl⟩

end M68k.Props
