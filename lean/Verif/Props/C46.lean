import Verif.Lemmas.CpuModel
import Verif.Props.Demo
/-
C46: the CPU model only affects timing and exception frames.
-/
namespace M68k.Props
open Spec Exec
variable {M : Type} [MemoryAccess M] {C C' : CpuDetails} {s s' s1 : St M} {op : U16}

/-- Two outcomes of `interpreter_exception` that differ at most in the number of cycles: same exception, same processor
state, same memory. -/
def SameButCycles : Res M (Nat × Option U8) → Res M (Nat × Option U8) → Prop
  | .ok (_, e) s, .ok (_, e') s' => e = e' ∧ s = s'
  | .err v s, .err v' s' => v = v' ∧ s = s'
  | .panic, .panic => True
  | _, _ => False

theorem finish_same {i : Isa} {x y : Exec M Nat} {n n' : Nat} (h : eff x = eff y) (s : St M) :
    SameButCycles (finishStep i n x s) (finishStep i n' y s) := by
  unfold finishStep
  rcases eff_apply h s with ⟨a, b, s', h1, h2⟩ | ⟨v, s', h1, h2⟩ | ⟨h1, h2⟩ <;> rw [h1, h2] <;> first | exact ⟨rfl, rfl⟩ | trivial

/-- Executing an instruction other than RTE has the same effect on every CPU model; RTE on those with the same stack
format. -/
theorem C46_instruction (h : Ready s op s1) (hr : instr op = .Rte → C.STACK_FORMAT = C'.STACK_FORMAT) :
    SameButCycles (interpreterException C s) (interpreterException C' s) := by
  rw [step_finish C h, step_finish C' h]
  apply finish_same
  apply eff_exec
  intro hd
  apply hr
  have := decoder_of_check mapCheck mapCheck_all op
  unfold mapCheck at this
  rw [hd] at this
  split at this
  · simp at this
  · exact (beq_iff_eq.mp this).symm

/-- With the same stack format every call has the same effect, whatever exceptions are pending. -/
theorem C46_call (h : C.STACK_FORMAT = C'.STACK_FORMAT) (s : St M) :
    SameButCycles (interpreterException C s) (interpreterException C' s) := by
  unfold interpreterException
  by_cases hs : s.cpu.stop = true
  · rw [if_pos hs, if_pos hs]; exact ⟨rfl, rfl⟩
  rw [if_neg hs, if_neg hs, Exec.bind_apply, Exec.bind_apply]
  rcases eff_apply (eff_pendingCycles h) s with ⟨a, b, s', h1, h2⟩ | ⟨v, s', h1, h2⟩ | ⟨h1, h2⟩ <;> rw [h1, h2] <;> simp only
  · rw [fastInstruction_eq, fastInstruction_eq]
    cases getNextWord s' with
    | ok op s2 => exact finish_same (eff_exec _ _ _ _ fun _ => h) _
    | err v s2 => exact ⟨rfl, rfl⟩
    | panic => trivial
  · exact ⟨rfl, rfl⟩
  · trivial

/-- The same programs reach the same states, for any number of calls and any intervention of the host between them. -/
theorem C46_runs (h : C.STACK_FORMAT = C'.STACK_FORMAT) (hr : Runs C s s') : Runs C' s s' := by
  induction hr with
  | start => exact .start _
  | call hr hx ih =>
    rename_i s' s'' x
    have := C46_call h s'
    rw [hx] at this
    obtain ⟨n, e⟩ := x
    cases hy : interpreterException C' s' with
    | ok y t => rw [hy] at this; obtain ⟨n', e'⟩ := y; obtain ⟨-, rfl⟩ := this; exact .call ih hy
    | err v t => rw [hy] at this; exact this.elim
    | panic => rw [hy] at this; exact this.elim
  | host cpu hr ih => exact .host cpu ih

/-- The MC68000 and the SCC68070 do not have the same stack format; `ADDI.W #1,(A0)` has the same effect on both in
different times. -/
example : mc68000.STACK_FORMAT ≠ scc68070.STACK_FORMAT ∧
    ∃ s1 s' c c', Ready (Demo.st [0x0650, 1, 7] (Demo.regs [] [4])) 0x0650 s1 ∧ instr 0x0650 ≠ .Rte ∧
      interpreterException mc68000 (Demo.st [0x0650, 1, 7] (Demo.regs [] [4])) = .ok (c, none) s' ∧
      interpreterException scc68070 (Demo.st [0x0650, 1, 7] (Demo.regs [] [4])) = .ok (c', none) s' ∧ c ≠ c' :=
  ⟨by decide, _, _, _, _, ⟨rfl, rfl, by decide, _, rfl, rfl⟩, by decide, rfl, rfl, by decide⟩

/-- Two CPU models with the same stack format and other timings. -/
example : { mc68000 with NOP := 100 }.STACK_FORMAT = mc68000.STACK_FORMAT := rfl

end M68k.Props
