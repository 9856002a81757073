import Verif.Lemmas.EndsControl
import Verif.Props.Demo
/-
C32: trace. `Spec.exec C i op` is the effect of the instruction `i` with opcode `op` (Spec/Isa.lean) on the state after
the fetch of the opcode.
-/
namespace M68k.Props
open Spec Exec
variable {M : Type} [MemoryAccess M] {C : CpuDetails} {s s' s1 s2 : St M} {op w : U16}

/-- The privileged instructions. -/
def Privileged (i : Isa) : Prop :=
  i = .Andisr ∨ i = .Eorisr ∨ i = .Orisr ∨ i = .Movesr ∨ i = .Moveusp ∨ i = .Reset ∨ i = .Rte ∨ i = .Stop
instance (i : Isa) : Decidable (Privileged i) := inferInstanceAs (Decidable (_ ∨ _))

theorem privileged_iff (i : Isa) : i.isPrivileged = true ↔ Privileged i := by cases i <;> decide

/-- If T is set before an instruction that is not privileged and completes, vector 9 results from it; if T is
clear no exception does. What the instruction does to T itself does not matter. -/
theorem C32_trace {n : Nat} (h : Ready s op s1) (hu : instr op ≠ .Unknown) (hp : ¬ Privileged (instr op))
    (hx : Spec.exec C (instr op) op s1 = .ok n s') :
    interpreterException C s = .ok (n, if s.cpu.regs.sr.t then some 9 else none) s' := by
  rw [step_finish C h, decoder_of_map op hu]
  unfold finishStep
  rw [hx]
  have : (instr op).isPrivileged = false := by
    cases hh : (instr op).isPrivileged
    · rfl
    · exact absurd ((privileged_iff _).1 hh) hp
  simp [this, h.sr]

/-- A privileged instruction that completes is not traced. -/
theorem C32_privileged {n : Nat} (h : Ready s op s1) (hp : Privileged (instr op))
    (hx : Spec.exec C (instr op) op s1 = .ok n s') : interpreterException C s = .ok (n, none) s' := by
  rw [step_finish C h, decoder_of_map op (by intro hc; rw [hc] at hp; revert hp; decide)]
  unfold finishStep
  rw [hx]
  simp [(privileged_iff _).2 hp]

/-- An instruction that ends with an exception is not traced: the exception returned is that one. -/
theorem C32_exception {v : U8} (h : Ready s op s1) (hu : instr op ≠ .Unknown)
    (hx : Spec.exec C (instr op) op s1 = .err v s') : interpreterException C s = .ok (0, some v) s' := by
  rw [step_finish C h, decoder_of_map op hu]
  unfold finishStep
  rw [hx]

/-- With T clear, an exception returned by a call is one of the instruction, and one is returned iff the
instruction did not complete. -/
theorem C32_untraced {n : Nat} {e : Option U8} (h : Ready s op s1) (hu : instr op ≠ .Unknown) (ht : s.cpu.regs.sr.t = false)
    (hx : interpreterException C s = .ok (n, e) s') :
    (e = none ∧ Spec.exec C (instr op) op s1 = .ok n s') ∨ ∃ v, e = some v ∧ n = 0 ∧ Spec.exec C (instr op) op s1 = .err v s' := by
  rw [step_finish C h, decoder_of_map op hu] at hx
  unfold finishStep at hx
  cases hr : Spec.exec C (instr op) op s1 with
  | ok c s2 => rw [hr] at hx; simp [h.sr, ht] at hx; left; exact ⟨hx.1.2.symm, by rw [hx.1.1, hx.2]⟩
  | err v s2 => rw [hr] at hx; simp at hx; right; exact ⟨v, hx.1.2.symm, hx.1.1.symm, by rw [hx.2]⟩
  | panic => rw [hr] at hx; cases hx

/-- In the run method `interpreter` the trace exception becomes pending. -/
theorem C32_interpreter {n : Nat} (h : Ready s op s1) (hu : instr op ≠ .Unknown) (hp : ¬ Privileged (instr op)) (ht : s.cpu.regs.sr.t = true)
    (hx : Spec.exec C (instr op) op s1 = .ok n s') : interpreter C s = .ok n { s' with cpu := s'.cpu.exception ⟨9⟩ } := by
  have := C32_trace h hu hp hx
  unfold interpreter
  rw [Exec.bind_apply, this, ht]
  rfl

/-- `MOVEQ #1,D0` with T set; `MOVE D0,SR` with T set, clearing it; `TRAP #0`. -/
example : (∃ s1 s' n, Ready (Demo.st [0x7001] { Demo.regs [] [] with sr := srOf 0x8000 }) 0x7001 s1 ∧ instr 0x7001 ≠ .Unknown ∧ ¬ Privileged (instr 0x7001) ∧
      Spec.exec mc68000 (instr 0x7001) 0x7001 s1 = .ok n s' ∧ s1.cpu.regs.sr.t = true) ∧
    (∃ s1 s' n, Ready (Demo.st [0x46C0] { Demo.regs [] [] with sr := srOf 0xA000 }) 0x46C0 s1 ∧ Privileged (instr 0x46C0) ∧
      Spec.exec mc68000 (instr 0x46C0) 0x46C0 s1 = .ok n s' ∧ s1.cpu.regs.sr.t = true) ∧
    ∃ s1 s', Ready (Demo.st [0x4E40] (Demo.regs [] [])) 0x4E40 s1 ∧ instr 0x4E40 ≠ .Unknown ∧
      Spec.exec mc68000 (instr 0x4E40) 0x4E40 s1 = .err 32 s' ∧ s1.cpu.regs.sr.t = false :=
  ⟨⟨_, _, _, ⟨rfl, rfl, by decide, _, rfl, rfl⟩, by decide, by decide, rfl, rfl⟩, ⟨_, _, _, ⟨rfl, rfl, by decide, _, rfl, rfl⟩, by decide, rfl, rfl⟩,
   _, _, ⟨rfl, rfl, by decide, _, rfl, rfl⟩, by decide, rfl, rfl⟩

end M68k.Props
