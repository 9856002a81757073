import Verif.Lemmas.Total
import Verif.Spec.Loop
import Verif.Model.Ffi
import Verif.Props.C34
import Verif.Props.C42
/-
C42, whole runs: on a memory that completes every access (`Answers`, Spec/Length.lean) nothing panics, whatever the state of the core.
-/
namespace M68k.Props
open Spec Exec
set_option linter.unusedSectionVars false
variable {M : Type} [MemoryAccess M] {C : CpuDetails} {s s' s1 s2 : St M} {op : U16} {I : M → Prop}

/-- On a memory that completes every access no call of `interpreter_exception` panics: for all registers, pending exceptions (also resets, and address errors while
an address error is processed), stopped or not, and whatever the words at the program counter. -/
theorem C42_total (hM : Answers I) (hs : I s.mem) : ∃ x s', interpreterException C s = .ok x s' ∧ I s'.mem := by
  cases hst : s.cpu.stop with
  | true => exact ⟨(0, none), s, by unfold interpreterException; rw [if_pos hst], hs⟩
  | false =>
    obtain ⟨n, t, hp, ht, hts⟩ := pendingCycles_total (C := C) hM hs hst
    have he : interpreterException C s = fastInstruction C n t := by
      unfold interpreterException
      rw [if_neg (by simp [hst]), bind_eq hp]
    rw [he, instruction_eq hts]
    have key : ∃ x u, interpreterException C (t.withPending []) = .ok x u ∧ I u.mem := by
      by_cases ho : Spec.Odd t.cpu.regs.pc
      · refine ⟨(0, some 3), t.withPending [], ?_, ht⟩
        rw [← instruction_idle (s := t.withPending []) hts rfl]
        unfold fastInstruction
        rw [getNextWord_odd (s := t.withPending []) ho]
      · obtain ⟨op, m, hg, hm⟩ := hM.get .Word t.cpu.regs.pc t.mem (fun h => ho h.2) ht
        have hr : Ready (t.withPending []) op { mem := m, cpu := { (t.withPending []).cpu with currentOpcode := op, regs := { t.cpu.regs with pc := t.cpu.regs.pc + 2 } } } :=
          ⟨hts, rfl, ho, m, hg, rfl⟩
        have hf := fun k => fetchWords_total (s := { mem := m, cpu := { (t.withPending []).cpu with currentOpcode := op, regs := { t.cpu.regs with pc := t.cpu.regs.pc + 2 } } })
          hM k hm (fun h => ho ((odd_two _).1 h))
        by_cases hmis : MovemMisfit op
        · obtain ⟨ws, s2, h⟩ := hf (extensionWords .Movem op)
          exact C42_misfit hM.serves ht hr hmis h
        · obtain ⟨ws, s2, h⟩ := hf (extensionWords (instr op) op)
          exact C42_noPanic hM.serves ht hr hmis h
    obtain ⟨x, u, h, hu⟩ := key
    rw [h]
    exact ⟨_, _, rfl, hu⟩

/-- The same for `interpreter`. -/
theorem C42_total_interpreter (hM : Answers I) (hs : I s.mem) : ∃ n s', interpreter C s = .ok n s' ∧ I s'.mem := by
  obtain ⟨⟨n, e⟩, t, h, ht⟩ := C42_total (C := C) hM hs
  unfold interpreter
  rw [bind_eq h]
  cases e with
  | none => exact ⟨n, t, rfl, ht⟩
  | some v => exact ⟨n, _, rfl, ht⟩

/-- The same for the disassembling interpreter. -/
theorem C42_total_disassembler (hM : Answers I) (hs : I s.mem) : disassemblerInterpreterException C s ≠ .panic := by
  intro h
  obtain ⟨x, t, h', -⟩ := C42_total (C := C) hM hs
  rw [C34_panic.2 h] at h'
  cases h'

/-- A run loop that has not panicked within the turns given to it. -/
def Survives {M α : Type} : LoopRes M α → Prop
  | .panic => False
  | _ => True

/-- `cycle` does not panic, however long it runs. -/
theorem C42_total_cycle (hM : Answers I) (hs : I s.mem) (n turns : Nat) : Survives (cycle C n s turns) := by
  have key : ∀ (turns total : Nat) (s : St M), I s.mem → Survives (cycleLoop C n turns total s) := by
    intro turns
    induction turns with
    | zero => intro total s _; unfold cycleLoop; split <;> trivial
    | succ k ih =>
      intro total s hs
      obtain ⟨c, t, h, ht⟩ := C42_total_interpreter (C := C) hM hs
      unfold cycleLoop
      rw [h]
      split
      · dsimp only
        split
        · trivial
        · exact ih _ _ ht
      · trivial
  exact key turns 0 s hs

/-- Nor does `cycle_until_exception`. -/
theorem C42_total_cycleUntilException (hM : Answers I) (hs : I s.mem) (n turns : Nat) : Survives (cycleUntilException C n s turns) := by
  have key : ∀ (turns total : Nat) (s : St M), I s.mem → Survives (cycleUntilExceptionLoop C n turns total s) := by
    intro turns
    induction turns with
    | zero => intro total s _; unfold cycleUntilExceptionLoop; split <;> trivial
    | succ k ih =>
      intro total s hs
      obtain ⟨⟨c, e⟩, t, h, ht⟩ := C42_total (C := C) hM hs
      unfold cycleUntilExceptionLoop
      rw [h]
      split
      · dsimp only
        split
        · trivial
        · exact ih _ _ ht
      · trivial
  exact key turns 0 s hs

/-- Nor does `loop_until_exception_stop`. -/
theorem C42_total_loopUntilExceptionStop (hM : Answers I) (hs : I s.mem) (turns : Nat) : Survives (loopUntilExceptionStop C s turns) := by
  have key : ∀ (turns total : Nat) (s : St M), I s.mem → Survives (loopUntilExceptionStopLoop C turns total s) := by
    intro turns
    induction turns with
    | zero => intro total s _; unfold loopUntilExceptionStopLoop; trivial
    | succ k ih =>
      intro total s hs
      obtain ⟨⟨c, e⟩, t, h, ht⟩ := C42_total (C := C) hM hs
      unfold loopUntilExceptionStopLoop
      rw [h]
      dsimp only
      split
      · trivial
      · exact ih _ _ ht
  exact key turns 0 s hs

/-- Memories that complete every access: 4 GB of RAM. -/
theorem C42_fullRam : Answers (fun _ : FullRam => True) := by
  refine ⟨fun sz a m _ _ => ?_, fun sz a v m _ _ => ?_, fun _ h => h⟩
  · cases sz <;> exact ⟨_, _, rfl, trivial⟩
  · cases sz <;> exact ⟨_, rfl, trivial⟩

/-- In the C interface: callbacks that report no exception. -/
theorem C42_callbacks {U : Type} {cb : Callbacks U} (hg : ∀ a u, (cb.getByte a u).1.exception = 0 ∧ (cb.getWord a u).1.exception = 0 ∧ (cb.getLong a u).1.exception = 0)
    (hw : ∀ a u, (∀ v, (cb.setByte a v u).1.exception = 0) ∧ (∀ v, (cb.setWord a v u).1.exception = 0) ∧ ∀ v, (cb.setLong a v u).1.exception = 0) :
    Answers (fun m : FfiMemory U => m.cb = cb) := by
  have hres : ∀ {α : Type} {f : U32 → α} {m : FfiMemory U} {r : MemoryResult × U}, m.cb = cb → r.1.exception = 0 →
      ∃ v m', m.result f r = .val v m' ∧ m'.cb = cb := by
    intro α f m r hm h
    unfold FfiMemory.result
    rw [if_pos h]
    exact ⟨_, _, rfl, hm⟩
  refine ⟨fun sz a m _ hm => ?_, fun sz a v m _ hm => ?_, fun _ h => h⟩
  · cases sz
    · exact hres hm (by rw [hm]; exact (hg a m.user).1)
    · exact hres hm (by rw [hm]; exact (hg a m.user).2.1)
    · exact hres hm (by rw [hm]; exact (hg a m.user).2.2)
  · cases sz
    · obtain ⟨_, m', h, h'⟩ := hres (f := fun _ => ()) (r := m.cb.setByte a v m.user) hm (by rw [hm]; exact (hw a m.user).1 v)
      exact ⟨m', h, h'⟩
    · obtain ⟨_, m', h, h'⟩ := hres (f := fun _ => ()) (r := m.cb.setWord a v m.user) hm (by rw [hm]; exact (hw a m.user).2.1 v)
      exact ⟨m', h, h'⟩
    · obtain ⟨_, m', h, h'⟩ := hres (f := fun _ => ()) (r := m.cb.setLong a v m.user) hm (by rw [hm]; exact (hw a m.user).2.2 v)
      exact ⟨m', h, h'⟩

/-- Without the hypothesis it is false: a new core on an empty memory panics in the reset, a pending access error in its processing. -/
theorem C42_missing_refuted : interpreterException mc68000 (⟨Cpu.new, ⟨[]⟩⟩ : St WordSlice) = .panic ∧
    interpreterException mc68000 (⟨Cpu.newNoReset.exception ⟨2⟩, ⟨[]⟩⟩ : St WordSlice) = .panic := ⟨rfl, rfl⟩

/-- A new core on 4 GB of zeros: reset, then `ORI.B #0,D0`. -/
example : ∃ s', interpreterException mc68000 (⟨Cpu.new, ⟨fun _ => 0⟩⟩ : St FullRam) = .ok (48, none) s' := ⟨_, rfl⟩

end M68k.Props
