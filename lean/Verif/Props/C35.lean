import Verif.Spec.Loop
import Verif.Lemmas.Pending
import Verif.Props.Demo
/-
C35: cycle accounting.
-/
namespace M68k.Props
open Spec Exec
set_option linter.unusedSectionVars false
variable {M : Type} [MemoryAccess M] {C : CpuDetails} {s s' : St M} {n r : Nat}

theorem before_cons {n total c : Nat} {cs : List Nat} (h0 : total < n) (h : ∀ k < cs.length, total + c + (cs.take k).sum < n) :
    ∀ k < (c :: cs).length, total + ((c :: cs).take k).sum < n := by
  intro k hk
  cases k with
  | zero => simpa using h0
  | succ k =>
    have := h k (by simpa using hk)
    rw [List.take_succ_cons, List.sum_cons]
    omega

theorem cycle_done : ∀ (turns total : Nat) (s : St M), cycleLoop C n turns total s = .done r s' → ∃ cs, Ran C cs s s' ∧
    (∀ k < cs.length, total + (cs.take k).sum < n) ∧ n ≤ r ∧ (r = total + cs.sum ∨ s'.cpu.stop = true ∧ r = n) := by
  intro turns
  induction turns with
  | zero =>
    intro total s h
    unfold cycleLoop at h
    split at h
    · cases h
    · cases h
      exact ⟨[], .nil _, fun k hk => absurd hk (Nat.not_lt_zero _), by omega, .inl (by simp)⟩
  | succ turns ih =>
    intro total s h
    unfold cycleLoop at h
    split at h
    · rename_i ht
      cases hc : interpreter C s with
      | ok c t =>
        rw [hc] at h
        dsimp only at h
        split at h
        · rename_i hs
          cases h
          exact ⟨[c], .cons hc (.nil _), before_cons ht fun k hk => absurd hk (Nat.not_lt_zero _), Nat.le_refl _, .inr ⟨hs, rfl⟩⟩
        · obtain ⟨cs, h1, h2, h3, h4⟩ := ih _ _ h
          refine ⟨c :: cs, .cons hc h1, before_cons ht h2, h3, h4.imp (fun h => ?_) id⟩
          rw [h, List.sum_cons]
          omega
      | err e t => rw [hc] at h; cases h
      | panic => rw [hc] at h; cases h
    · cases h
      exact ⟨[], .nil _, fun k hk => absurd hk (Nat.not_lt_zero _), by omega, .inl (by simp)⟩

/-- `cycle(n)` has called `interpreter` some times, as long as less than `n` cycles had passed. It returns at least `n`: the sum of the cycles of the calls, or `n` if the
core has stopped. -/
theorem C35_cycle (h : Returns (cycle C n s) r s') : ∃ cs, Ran C cs s s' ∧ Before n cs ∧ n ≤ r ∧ (r = cs.sum ∨ s'.cpu.stop = true ∧ r = n) := by
  obtain ⟨turns, h⟩ := h
  obtain ⟨cs, h1, h2, h3, h4⟩ := cycle_done turns 0 s h
  simp only [Nat.zero_add] at h2 h4
  exact ⟨cs, h1, h2, h3, h4⟩

theorem overshoot {cs : List Nat} (h : Before n cs) (hr : n < cs.sum) : ∃ cs' c, cs = cs' ++ [c] ∧ cs.sum < n + c := by
  rcases List.eq_nil_or_concat cs with rfl | ⟨cs', c, rfl⟩
  · simp at hr
  · rw [List.concat_eq_append] at *
    refine ⟨cs', c, rfl, ?_⟩
    have := h cs'.length (by simp)
    rw [List.take_left'] at this
    · rw [List.sum_append]
      simp
      omega
    · rfl

/-- The amount beyond `n` is less than the cycles of the last call. -/
theorem C35_overshoot (h : Returns (cycle C n s) r s') (hr : n < r) : ∃ cs c, Ran C (cs ++ [c]) s s' ∧ r = (cs ++ [c]).sum ∧ r < n + c := by
  obtain ⟨cs, h1, h2, -, h4⟩ := C35_cycle h
  rcases h4 with rfl | ⟨-, rfl⟩
  · obtain ⟨cs', c, rfl, hc⟩ := overshoot h2 hr
    exact ⟨cs', c, h1, rfl, hc⟩
  · omega

/-- Three NOP take 12 cycles: `cycle(9)` returns 12. -/
example : ∃ s', Returns (cycle mc68000 9 (Demo.st [0x4E71, 0x4E71, 0x4E71, 0x4E71] (Demo.regs [] []))) 12 s' ∧ s'.cpu.regs.pc = 6 := ⟨_, ⟨3, rfl⟩, rfl⟩

theorem until_done {v : Option U8} : ∀ (turns total : Nat) (s : St M), cycleUntilExceptionLoop C n turns total s = .done (r, v) s' →
    (∃ cs, Quiet C cs s s' ∧ (∀ k < cs.length, total + (cs.take k).sum < n) ∧ v = none ∧ r = total + cs.sum ∧ n ≤ r) ∨
    (∃ cs c t, Quiet C cs s t ∧ (∀ k < (cs ++ [c]).length, total + ((cs ++ [c]).take k).sum < n) ∧ interpreterException C t = .ok (c, v) s' ∧ (v.isSome ∨ s'.cpu.stop = true) ∧
      r = total + cs.sum + c) := by
  intro turns
  induction turns with
  | zero =>
    intro total s h
    unfold cycleUntilExceptionLoop at h
    split at h
    · cases h
    · cases h
      exact .inl ⟨[], .nil _, fun k hk => absurd hk (Nat.not_lt_zero _), rfl, by simp, by omega⟩
  | succ turns ih =>
    intro total s h
    unfold cycleUntilExceptionLoop at h
    split at h
    · rename_i ht
      cases hc : interpreterException C s with
      | ok x t =>
        obtain ⟨c, e⟩ := x
        rw [hc] at h
        dsimp only at h
        split at h
        · rename_i hs
          cases h
          refine .inr ⟨[], c, s, .nil _, before_cons ht fun k hk => absurd hk (Nat.not_lt_zero _), hc, ?_, by simp⟩
          simpa using hs
        · rename_i hs
          have hs2 : e = none ∧ t.cpu.stop = false := by
            simpa [Option.isSome_iff_ne_none] using hs
          obtain ⟨rfl, hs3⟩ := hs2
          rcases ih _ _ h with ⟨cs, h1, h2, h3, h4, h5⟩ | ⟨cs, c', u, h1, h2, h3, h4, h5⟩
          · refine .inl ⟨c :: cs, .cons hc hs3 h1, before_cons ht h2, h3, ?_, h5⟩
            rw [h4, List.sum_cons]
            omega
          · refine .inr ⟨c :: cs, c', u, .cons hc hs3 h1, before_cons ht h2, h3, h4, ?_⟩
            rw [h5, List.sum_cons]
            omega
      | err e t => rw [hc] at h; cases h
      | panic => rw [hc] at h; cases h
    · cases h
      exact .inl ⟨[], .nil _, fun k hk => absurd hk (Nat.not_lt_zero _), rfl, by simp, by omega⟩

/-- `cycle_until_exception(n)` has called `interpreter_exception` as long as less than `n` cycles had passed and there was no exception and no stop. It returns the exact sum
of the cycles of the calls: either at least `n` and no exception, or the exception of the last call (if that has not just stopped the core). -/
theorem C35_cycleUntilException {v : Option U8} (h : Returns (cycleUntilException C n s) (r, v) s') :
    (∃ cs, Quiet C cs s s' ∧ Before n cs ∧ v = none ∧ r = cs.sum ∧ n ≤ r) ∨
    (∃ cs c t, Quiet C cs s t ∧ Before n (cs ++ [c]) ∧ interpreterException C t = .ok (c, v) s' ∧ (v.isSome ∨ s'.cpu.stop = true) ∧ r = cs.sum + c) := by
  obtain ⟨turns, h⟩ := h
  have := until_done turns 0 s h
  simp only [Nat.zero_add] at this
  exact this

/-- NOP and TRAP #1. -/
example : ∃ s', Returns (cycleUntilException mc68000 100 (Demo.st [0x4E71, 0x4E41] (Demo.regs [] []))) (4, some 33) s' ∧ s'.cpu.regs.pc = 4 := ⟨_, ⟨2, rfl⟩, rfl⟩

theorem loop_done {v : Option U8} : ∀ (turns total : Nat) (s : St M), loopUntilExceptionStopLoop C turns total s = .done (r, v) s' →
    ∃ cs c t, Quiet C cs s t ∧ interpreterException C t = .ok (c, v) s' ∧ (v.isSome ∨ s'.cpu.stop = true) ∧ r = total + cs.sum + c := by
  intro turns
  induction turns with
  | zero => intro total s h; cases h
  | succ turns ih =>
    intro total s h
    unfold loopUntilExceptionStopLoop at h
    cases hc : interpreterException C s with
    | ok x t =>
      obtain ⟨c, e⟩ := x
      rw [hc] at h
      dsimp only at h
      split at h
      · rename_i hs
        cases h
        exact ⟨[], c, s, .nil _, hc, by simpa using hs, by simp⟩
      · rename_i hs
        have hs2 : e = none ∧ t.cpu.stop = false := by
          simpa [Option.isSome_iff_ne_none] using hs
        obtain ⟨rfl, hs3⟩ := hs2
        obtain ⟨cs, c', u, h1, h3, h4, h5⟩ := ih _ _ h
        refine ⟨c :: cs, c', u, .cons hc hs3 h1, h3, h4, ?_⟩
        rw [h5, List.sum_cons]
        omega
    | err e t => rw [hc] at h; cases h
    | panic => rw [hc] at h; cases h

/-- `loop_until_exception_stop()` ends with the first exception or stop and returns the exact sum of the cycles. -/
theorem C35_loopUntilExceptionStop {v : Option U8} (h : Returns (loopUntilExceptionStop C s) (r, v) s') :
    ∃ cs c t, Quiet C cs s t ∧ interpreterException C t = .ok (c, v) s' ∧ (v.isSome ∨ s'.cpu.stop = true) ∧ r = cs.sum + c := by
  obtain ⟨turns, h⟩ := h
  have := loop_done turns 0 s h
  simp only [Nat.zero_add] at this
  exact this

/-- NOP and STOP: 4 and 4 cycles, no exception. -/
example : ∃ s', Returns (loopUntilExceptionStop mc68000 (Demo.st [0x4E71, 0x4E72, 0x2000] { Demo.regs [] [] with sr := srOf 0x2700 })) (8, none) s' ∧ s'.cpu.stop = true :=
  ⟨_, ⟨2, rfl⟩, rfl⟩

/-- `interpreter` is `interpreter_exception` and the request of the exception that it returns. -/
theorem C35_interpreter : interpreter C s =
    match interpreterException C s with
    | .ok (c, none) t => .ok c t
    | .ok (c, some v) t => .ok c { t with cpu := t.cpu.exception ⟨v⟩ }
    | .err e t => .err e t
    | .panic => .panic := by
  unfold interpreter
  rw [Exec.bind_apply]
  cases interpreterException C s with
  | ok x t => obtain ⟨c, _ | v⟩ := x <;> rfl
  | err e t => rfl
  | panic => rfl

/-- TRAP #1: vector 33 is pending afterwards. -/
example : ∃ s', interpreter mc68000 (Demo.st [0x4E41] (Demo.regs [] [])) = .ok 0 s' ∧ s'.cpu.exceptions = [⟨33⟩] := ⟨_, rfl, rfl⟩

end M68k.Props
