import Verif.Lemmas.Bound
import Verif.Props.C35
/-
C74: the cycle counters do not overflow. `Verif.Model.Usize` has the run methods with counters of a fixed width, in builds with and without overflow checks; here they are
compared with the methods on natural numbers, about which the other theorems are.
-/
set_option linter.unusedSectionVars false
namespace M68k.Props
open Spec Exec
variable {M : Type} [MemoryAccess M] {C : CpuDetails} {s s' t : St M} {u : Usize} {n r c : Nat} {e : Option U8}

/-- One call takes at most 57600 cycles on the two CPUs of the crate, however the core has been used before. -/
theorem C74_call (hC : C = mc68000 ∨ C = scc68070) (h : History C s) (hx : interpreterException C s = .ok (c, e) s') : c ≤ 57600 :=
  call_le hC (history_sorted h) hx

/-- So with a counter of at least 16 bits nothing overflows in `interpreter_exception` and `interpreter`. -/
theorem C74_interpreter (hC : C = mc68000 ∨ C = scc68070) (h : History C s) (hu : 16 ≤ u.bits) :
    interpreterExceptionU u C s = interpreterException C s ∧ interpreterU u C s = interpreter C s := by
  have := Nat.pow_le_pow_right (show 0 < 2 by decide) hu
  exact ⟨callU_eq hC this (history_sorted h), interpreterU_eq hC this (history_sorted h)⟩

/-- Nor in `cycle(n)`, if `n` is at least 57600 below the largest counter: every number of turns has the same outcome. -/
theorem C74_cycle_total (hC : C = mc68000 ∨ C = scc68070) (hu : 16 ≤ u.bits) (hn : n + 57600 ≤ 2 ^ u.bits) :
    ∀ (turns total : Nat) (s : St M), History C s → cycleLoopU u C n turns total s = cycleLoop C n turns total s := by
  intro turns
  induction turns with
  | zero => intro total s _; rfl
  | succ turns ih =>
    intro total s h
    unfold cycleLoopU cycleLoop
    rw [(C74_interpreter hC h hu).2]
    split
    · cases hx : interpreter C s with
      | ok c t =>
        have hc := interpreter_le hC (history_sorted h) hx
        simp only [Usize.add_small (u := u) (a := total) (b := c) (by omega), ih (total + c) t (.act h (.run hx))]
      | err v t => rfl
      | panic => rfl
    · rfl

theorem C74_cycle (hC : C = mc68000 ∨ C = scc68070) (h : History C s) (hu : 16 ≤ u.bits) (hn : n + 57600 ≤ 2 ^ u.bits) (turns : Nat) :
    cycleLoopU u C n turns 0 s = cycle C n s turns :=
  C74_cycle_total hC hu hn turns 0 s h

/-- Nor in `cycle_until_exception(n)`. -/
theorem C74_cycleUntilException_total (hC : C = mc68000 ∨ C = scc68070) (hu : 16 ≤ u.bits) (hn : n + 57600 ≤ 2 ^ u.bits) :
    ∀ (turns total : Nat) (s : St M), History C s → cycleUntilExceptionLoopU u C n turns total s = cycleUntilExceptionLoop C n turns total s := by
  intro turns
  induction turns with
  | zero => intro total s _; rfl
  | succ turns ih =>
    intro total s h
    unfold cycleUntilExceptionLoopU cycleUntilExceptionLoop
    rw [(C74_interpreter hC h hu).1]
    split
    · cases hx : interpreterException C s with
      | ok x t =>
        obtain ⟨c, v⟩ := x
        have hc := C74_call hC h hx
        simp only [Usize.add_small (u := u) (a := total) (b := c) (by omega), ih (total + c) t (.act h (.call hx))]
      | err v t => rfl
      | panic => rfl
    · rfl

theorem C74_cycleUntilException (hC : C = mc68000 ∨ C = scc68070) (h : History C s) (hu : 16 ≤ u.bits) (hn : n + 57600 ≤ 2 ^ u.bits) (turns : Nat) :
    cycleUntilExceptionLoopU u C n turns 0 s = cycleUntilException C n s turns :=
  C74_cycleUntilException_total hC hu hn turns 0 s h

theorem loopU_total (hC : C = mc68000 ∨ C = scc68070) (hu : 16 ≤ u.bits) : ∀ (turns total : Nat) (s : St M), History C s → total + turns * 57600 < 2 ^ u.bits →
    loopUntilExceptionStopLoopU u C turns total s = loopUntilExceptionStopLoop C turns total s := by
  intro turns
  induction turns with
  | zero => intro total s _ _; rfl
  | succ turns ih =>
    intro total s h hb
    rw [Nat.succ_mul] at hb
    unfold loopUntilExceptionStopLoopU loopUntilExceptionStopLoop
    rw [(C74_interpreter hC h hu).1]
    cases hx : interpreterException C s with
    | ok x t =>
      obtain ⟨c, v⟩ := x
      have hc := C74_call hC h hx
      simp only [Usize.add_small (u := u) (a := total) (b := c) (by omega), ih (total + c) t (.act h (.call hx)) (by omega)]
    | err v t => rfl
    | panic => rfl

/-- `loop_until_exception_stop` has no limit: its counter cannot overflow before so many calls (320 million million with 64 bits). -/
theorem C74_loopUntilExceptionStop (hC : C = mc68000 ∨ C = scc68070) (h : History C s) (hu : 16 ≤ u.bits) {turns : Nat} (hb : turns * 57600 < 2 ^ u.bits) :
    loopUntilExceptionStopLoopU u C turns 0 s = loopUntilExceptionStop C s turns :=
  loopU_total hC hu turns 0 s h (by omega)

theorem ran_history {cs : List Nat} (h : History C s) (hr : Ran C cs s t) : History C t := by
  induction hr with
  | nil s => exact h
  | cons hx _ ih => exact ih (.act h (.run hx))

/-- What `cycle(n)` returns is at least `n` and less than 57600 more. -/
theorem C74_cycle_returns (hC : C = mc68000 ∨ C = scc68070) (h : History C s) (hn : 0 < n) (hr : Returns (cycle C n s) r s') : n ≤ r ∧ r < n + 57600 := by
  obtain ⟨-, -, -, h1, -⟩ := C35_cycle hr
  refine ⟨h1, ?_⟩
  by_cases h2 : n < r
  · obtain ⟨cs, c, h3, -, h4⟩ := C35_overshoot hr h2
    have h5 : ∀ {cs : List Nat} {s : St M}, History C s → Ran C (cs ++ [c]) s s' → c ≤ 57600 := by
      intro cs
      induction cs with
      | nil =>
        intro s h hr
        cases hr with
        | cons hx _ => exact interpreter_le hC (history_sorted h) hx
      | cons a cs ih =>
        intro s h hr
        cases hr with
        | cons hx hr => exact ih (.act h (.run hx)) hr
    have h6 := h5 h h3
    omega
  · omega

/-- A new core whose registers the host has set, with a program at address 0: `DIVU D1,D0`, NOP, ILLEGAL. -/
def counterDemo : St WordSlice := ⟨{ Cpu.newNoReset with regs := Demo.regs [10, 3] [], stop := false }, ⟨[0x80C1, 0x4E71, 0x4AFC]⟩⟩

/-- Counters of 16 bits in a release build and a debug build: the division, and the loop until the exception. With such a counter an addition can overflow: 65500 + 140
wraps to 104 or panics. -/
example : History mc68000 counterDemo ∧
    (∃ s', Returns (fun turns => cycleLoopU ⟨16, false⟩ mc68000 100 turns 0 counterDemo) 140 s') ∧
    (∃ s', Returns (fun turns => cycleUntilExceptionLoopU ⟨16, true⟩ mc68000 1000 turns 0 counterDemo) (144, some 4) s') ∧
    (⟨16, false⟩ : Usize).add 65500 140 = some 104 ∧ (⟨16, true⟩ : Usize).add 65500 140 = none :=
  ⟨.act (.newNoReset ⟨[]⟩) (.host _ _ _ _), ⟨_, 1, rfl⟩, ⟨_, 3, rfl⟩, by decide, by decide⟩

end M68k.Props
