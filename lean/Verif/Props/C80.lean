import Verif.Lemmas.Masked
import Verif.Props.C01
import Verif.Props.C25
import Verif.Props.C29
import Verif.Spec.Loop
/-
C80: what is true of a core however it is used. `Used` (Spec/Invariant.lean) are the states of a core made with `new` or `new_no_reset`, after any calls of the run methods,
requests of exceptions, and changes of the memory, the registers and the stop flag by the host, which may write any interrupt mask up to 7.
-/
set_option linter.unusedSectionVars false
namespace M68k.Props
open Spec Exec
variable {M : Type} [MemoryAccess M] {C : CpuDetails} {s s' : St M}

/-- The interrupt mask is one of the eight levels. -/
theorem C80_mask (h : Used C s) : s.cpu.regs.sr.interruptMask.toNat ≤ 7 := Nat.le_of_lt_succ (used_mask h)

/-- The status register is the one its word denotes, so that saving it in a stack frame loses nothing; the six bits that the 68000 does not have are 0. -/
theorem C80_word (h : Used C s) : StatusRegister.ofU16 s.cpu.regs.sr.toU16 = s.cpu.regs.sr ∧ s.cpu.regs.sr.toU16 &&& 0x58E0 = 0 := by
  have h1 := C01_sr_round_trip _ (C80_mask h)
  refine ⟨h1, ?_⟩
  have h2 := C01_word_round_trip s.cpu.regs.sr.toU16
  rw [h1] at h2
  rw [h2, BitVec.and_assoc]
  exact BitVec.and_zero

theorem length_le_of_ranks : ∀ (es : List Exception) (m : Nat), es.Pairwise (fun a b => rank b.vector < rank a.vector) → (∀ e ∈ es, rank e.vector < m) → es.length ≤ m
  | [], _, _, _ => Nat.zero_le _
  | e :: es, m, h, hm => by
    obtain ⟨h1, h2⟩ := List.pairwise_cons.1 h
    have h3 := length_le_of_ranks es (rank e.vector) h2 h1
    have h4 := hm e List.mem_cons_self
    rw [List.length_cons]
    omega

/-- At most seven exceptions are pending, no two of the same rank. -/
theorem C80_pending (h : Used C s) : s.cpu.exceptions.length ≤ 7 ∧ s.cpu.exceptions.Pairwise fun a b => rank a.vector ≠ rank b.vector := by
  have h1 := C29_ordered (used_history h)
  refine ⟨length_le_of_ranks _ 7 h1 fun e _ => ?_, h1.imp fun hab => (Nat.ne_of_lt hab).symm⟩
  unfold rank
  split <;> first | omega | skip
  split <;> first | omega | skip
  split <;> first | omega | skip
  split <;> first | omega | skip
  split <;> first | omega | skip
  split <;> omega

/-- The methods that repeat calls lead to such states too. -/
theorem C80_cycle {n r : Nat} (h : Used C s) (hr : Returns (cycle C n s) r s') : Used C s' := by
  obtain ⟨turns, hr⟩ := hr
  unfold cycle at hr
  generalize 0 = total at hr
  induction turns generalizing total s with
  | zero =>
    unfold cycleLoop at hr
    split at hr
    · cases hr
    · cases hr; exact h
  | succ turns ih =>
    unfold cycleLoop at hr
    split at hr
    · cases hx : interpreter C s with
      | ok c t =>
        rw [hx] at hr
        simp only at hr
        split at hr
        · cases hr; exact .run h hx
        · exact ih (.run h hx) _ hr
      | err v t => rw [hx] at hr; cases hr
      | panic => rw [hx] at hr; cases hr
    · cases hr; exact h

theorem C80_cycleUntilException {n : Nat} {r : Nat × Option U8} (h : Used C s) (hr : Returns (cycleUntilException C n s) r s') : Used C s' := by
  obtain ⟨turns, hr⟩ := hr
  unfold cycleUntilException at hr
  generalize 0 = total at hr
  induction turns generalizing total s with
  | zero =>
    unfold cycleUntilExceptionLoop at hr
    split at hr
    · cases hr
    · cases hr; exact h
  | succ turns ih =>
    unfold cycleUntilExceptionLoop at hr
    split at hr
    · cases hx : interpreterException C s with
      | ok c t =>
        rw [hx] at hr
        simp only at hr
        split at hr
        · cases hr; exact .call h hx
        · exact ih (.call h hx) _ hr
      | err v t => rw [hx] at hr; cases hr
      | panic => rw [hx] at hr; cases hr
    · cases hr; exact h

theorem C80_loopUntilExceptionStop {r : Nat × Option U8} (h : Used C s) (hr : Returns (loopUntilExceptionStop C s) r s') : Used C s' := by
  obtain ⟨turns, hr⟩ := hr
  unfold loopUntilExceptionStop at hr
  generalize 0 = total at hr
  induction turns generalizing total s with
  | zero => cases hr
  | succ turns ih =>
    unfold loopUntilExceptionStopLoop at hr
    cases hx : interpreterException C s with
    | ok c t =>
      rw [hx] at hr
      simp only at hr
      split at hr
      · cases hr; exact .call h hx
      · exact ih (.call h hx) _ hr
    | err v t => rw [hx] at hr; cases hr
    | panic => rw [hx] at hr; cases hr

/-- C25 without its hypothesis on the mask: in a core that is used in whatever way a user program keeps S, T, the interrupt mask and the supervisor stack pointer. -/
theorem C80_user (h : Used C s) (hu : s.cpu.regs.sr.s = false) (hi : s.cpu.exceptions = []) (hop : ∀ t, Calls C s t → CcrImmediates t) (hc : Calls C s s') :
    SameSystem s.cpu.regs.sr s'.cpu.regs.sr ∧ s'.cpu.regs.ssp = s.cpu.regs.ssp :=
  ⟨(C25_sequence_partial hu (used_mask h) hi hop hc).2.1, (C25_sequence_partial hu (used_mask h) hi hop hc).2.2.1⟩

/-- A host that writes the mask 8, which the type allows, gets a status register that its word does not denote. -/
theorem C80_hostMask_refuted : ∃ s : St WordSlice, History mc68000 s ∧ StatusRegister.ofU16 s.cpu.regs.sr.toU16 ≠ s.cpu.regs.sr ∧ s.cpu.regs.sr.toU16 &&& 0x58E0 ≠ 0 :=
  ⟨_, .act (.newNoReset ⟨[]⟩) (.host _ { Registers.default with sr := { StatusRegister.default with interruptMask := 8 } } false ⟨[]⟩), by decide, by decide⟩

/-- Several calls of `interpreter`. -/
def runDemo : Nat → St WordSlice → Option (St WordSlice)
  | 0, s => some s
  | k + 1, s => match interpreter mc68000 s with
    | .ok _ s' => runDemo k s'
    | _ => none

theorem used_runDemo : ∀ {k : Nat} {s s' : St WordSlice}, Used mc68000 s → runDemo k s = some s' → Used mc68000 s'
  | 0, _, _, h, e => by cases e; exact h
  | k + 1, s, s', h, e => by
    unfold runDemo at e
    cases hx : interpreter mc68000 s with
    | ok c t => rw [hx] at e; exact used_runDemo (.run h hx) e
    | err v t => rw [hx] at e; cases e
    | panic => rw [hx] at e; cases e

/-- A core after its reset and MOVE #$FFFF,SR, in the handler of the trace exception of the NOP that follows. -/
example : ∃ s : St WordSlice, Used mc68000 s ∧ s.cpu.regs.pc = 14 ∧ s.cpu.regs.sr.interruptMask = 7 ∧ s.cpu.regs.sr.t = false ∧ s.cpu.regs.ssp = 0x5A := by
  have e : (runDemo 3 ⟨Cpu.new, ⟨[0, 0x60, 0, 8, 0x46FC, 0xFFFF, 0x4E71, 0, 0, 0, 0, 0, 0, 0, 0, 0, 0, 0, 0, 12] ++ List.replicate 30 0⟩⟩).map
      (fun s => (s.cpu.regs.pc, s.cpu.regs.sr.interruptMask, s.cpu.regs.sr.t, s.cpu.regs.ssp)) = some (14, 7, false, 0x5A) := by decide +kernel
  cases hr : runDemo 3 ⟨Cpu.new, ⟨[0, 0x60, 0, 8, 0x46FC, 0xFFFF, 0x4E71, 0, 0, 0, 0, 0, 0, 0, 0, 0, 0, 0, 0, 12] ++ List.replicate 30 0⟩⟩ with
  | none => rw [hr] at e; cases e
  | some s =>
    rw [hr] at e
    simp only [Option.map_some, Option.some.injEq, Prod.mk.injEq] at e
    exact ⟨s, used_runDemo (.new _) hr, e.1, e.2.1, e.2.2.1, e.2.2.2⟩

end M68k.Props
