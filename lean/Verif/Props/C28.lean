import Verif.Props.C29
/-
C28: interrupt masking.
-/
namespace M68k.Props
open Spec Exec
set_option linter.unusedSectionVars false
variable {M : Type} [MemoryAccess M] {C : CpuDetails} {s s' : St M} {v : U8} {x : Nat × Option U8}

/-- The interrupts that are held back: those of levels 1 to 6 not above the mask. -/
theorem C28_levels (mask : U8) (v : U8) : Masked mask v ↔ InterruptVector v ∧ 1 ≤ level v ∧ level v ≤ 6 ∧ level v ≤ mask.toNat := by
  unfold Masked InterruptVector level
  omega

/-- The call of `interpreter_exception` with an interrupt pending, in the situation of `C29_processed`: the interrupt is pending afterwards iff the mask in the status register at
the time of the call holds it back. Otherwise it has been entered. -/
theorem C28_iff [Ram M] [Writable M] (h : History C s) (hr : s.cpu.stop = false) (h0 : ∀ e ∈ s.cpu.exceptions, e.vector ≠ 0)
    (he : ¬ Spec.Odd s.cpu.regs.ssp)
    (hframes : Present s.mem (s.cpu.regs.ssp - BitVec.ofNat 32 (framesBytes C.STACK_FORMAT (s.cpu.exceptions.filter fun e => ¬ Masked s.cpu.regs.sr.interruptMask e.vector)))
      (framesBytes C.STACK_FORMAT (s.cpu.exceptions.filter fun e => ¬ Masked s.cpu.regs.sr.interruptMask e.vector)))
    (hvec : ∀ e ∈ s.cpu.exceptions, Present s.mem (vectorAddress e.vector) 4)
    (hv : ⟨v⟩ ∈ s.cpu.exceptions) (hc : interpreterException C s = .ok x s') :
    (⟨v⟩ ∈ s'.cpu.exceptions ↔ Masked s.cpu.regs.sr.interruptMask v) ∧
    (¬ Masked s.cpu.regs.sr.interruptMask v → ∃ es n t, ⟨v⟩ ∈ es ∧ EnteredAll C es n (s.withPending []) t ∧
      ∃ y t', interpreterException C t = .ok y t' ∧ s' = t'.withPending s'.cpu.exceptions) := by
  obtain ⟨n, t, h1, h2⟩ := C29_processed h hr (List.ne_nil_of_mem hv) h0 he hframes hvec
  rw [h2, leaving_eq] at hc
  cases hi : interpreterException C t with
  | err e u => rw [hi] at hc; cases hc
  | panic => rw [hi] at hc; cases hc
  | ok y u =>
    rw [hi] at hc
    obtain ⟨c, e⟩ := y
    have hs := (Res.ok.inj hc).2
    have hex : s'.cpu.exceptions = s.cpu.exceptions.filter fun e => decide (Masked s.cpu.regs.sr.interruptMask e.vector) := by rw [← hs]; rfl
    refine ⟨?_, fun hm => ⟨_, n, t, ?_, h1, _, u, hi, ?_⟩⟩
    · rw [hex, List.mem_filter, decide_eq_true_iff]
      exact ⟨fun h => h.2, fun h => ⟨hv, h⟩⟩
    · rw [List.mem_filter, decide_eq_true_iff]
      exact ⟨hv, hm⟩
    · rw [hex, ← hs]

theorem call_mem (hs : Sorted s.cpu.exceptions) (h0 : ∀ e ∈ s.cpu.exceptions, e.vector ≠ 0) (hv : ⟨v⟩ ∈ s.cpu.exceptions)
    (hm : s.cpu.stop = true ∨ Masked s.cpu.regs.sr.interruptMask v) (hc : interpreterException C s = .ok x s') : ⟨v⟩ ∈ s'.cpu.exceptions := by
  by_cases hr : s.cpu.stop = true
  · unfold interpreterException at hc
    rw [if_pos hr] at hc
    cases hc
    exact hv
  · have hm := hm.resolve_left hr
    have hr : s.cpu.stop = false := by simpa using hr
    rw [call_pending hr (List.ne_nil_of_mem hv)] at hc
    obtain ⟨n, t, h1, h2⟩ := bind_ok hc
    rw [(Blind.instruction n).keeps h2]
    rw [process_eq hs] at h1
    refine processList_keeps (Q := fun es => ⟨v⟩ ∈ es) (fun _ _ => mem_insert_of_mem) _ _ _ _ _ ?_ ?_ h1
    · exact List.mem_filter.2 ⟨hv, held_iff.2 hm⟩
    · exact fun e he => h0 e (List.mem_filter.1 he).1

/-- A pending interrupt that is masked at the time of the call is pending after it, whatever happens in the call. -/
theorem C28_kept (h : History C s) (h0 : ∀ e ∈ s.cpu.exceptions, e.vector ≠ 0) (hv : ⟨v⟩ ∈ s.cpu.exceptions)
    (hm : Masked s.cpu.regs.sr.interruptMask v) (hc : interpreterException C s = .ok x s') : ⟨v⟩ ∈ s'.cpu.exceptions :=
  call_mem (history_sorted h) h0 hv (.inr hm) hc

/-- Any number of uses of the core by a host, during which the interrupt `v` is masked at each call of an interpreter, or the core stopped, and no reset is pending at a call. -/
inductive Waiting (C : CpuDetails) (v : U8) : St M → St M → Prop
  | none (s : St M) : Waiting C v s s
  | more {s s' s'' : St M} : Waiting C v s s' → Act C s' s'' →
    (s'.cpu.stop = true ∨ Masked s'.cpu.regs.sr.interruptMask v) → (∀ e ∈ s'.cpu.exceptions, e.vector ≠ 0) → Waiting C v s s''

/-- Over any such history the interrupt stays pending (and is processed at the first call at which it is not masked, `C28_iff`). -/
theorem C28_waits (h : History C s) (hv : ⟨v⟩ ∈ s.cpu.exceptions) (hw : Waiting C v s s') : ⟨v⟩ ∈ s'.cpu.exceptions ∧ History C s' := by
  induction hw with
  | none => exact ⟨hv, h⟩
  | @more s' s'' hw ha hm h0 ih =>
    obtain ⟨ih, hh⟩ := ih
    refine ⟨?_, hh.act ha⟩
    cases ha with
    | request w =>
      show _ ∈ (Cpu.exception _ _).exceptions
      rw [exception_exceptions]
      exact mem_insert_of_mem ih
    | call hc => exact call_mem (history_sorted hh) h0 ih hm hc
    | run hc =>
      obtain ⟨e, t, h1, h2⟩ := run_call hc
      have := call_mem (history_sorted hh) h0 ih hm h1
      cases e with
      | none => cases h2; exact this
      | some e =>
        cases h2
        show _ ∈ (Cpu.exception _ _).exceptions
        rw [exception_exceptions]
        exact mem_insert_of_mem this
    | host r stop m => exact ih

/-- A level 2 interrupt with the mask 7 of a new core, during one call: it is still pending. -/
example : ∃ s s' : St WordSlice, History mc68000 s ∧ ⟨26⟩ ∈ s.cpu.exceptions ∧ Waiting mc68000 26 s s' ∧ s'.cpu.exceptions = [⟨26⟩] ∧ s'.cpu.regs.pc = 2 := by
  have hh := (History.newNoReset (C := mc68000) (⟨[0x4E71]⟩ : WordSlice)).act (.request _ 26)
  exact ⟨_, _, hh, by decide, .more (.none _) (.call (x := (4, none)) rfl) (.inr (by decide)) (by decide), rfl, rfl⟩

/-- And the mask lowered to 1: the hypotheses of `C28_iff`, on the MC68000. -/
example : ∃ (s s' : St WordSlice) (x : Nat × Option U8), History mc68000 s ∧ s.cpu.stop = false ∧ s.cpu.exceptions = [⟨26⟩] ∧ ¬ Masked s.cpu.regs.sr.interruptMask 26 ∧
    ¬ Spec.Odd s.cpu.regs.ssp ∧ interpreterException mc68000 s = .ok x s' ∧ s'.cpu.exceptions = [] ∧ s'.cpu.regs.sr = srOf 0x2200 := by
  have hh := (History.newNoReset (C := mc68000) (⟨0x4E71 :: List.replicate 60 0⟩ : WordSlice))
    |>.act (.request _ 26) |>.act (.host _ { Demo.regs [] [] with ssp := 0x78, sr := srOf 0x0100 } false ⟨0x4E71 :: List.replicate 60 0⟩)
  exact ⟨_, _, _, hh, rfl, rfl, by decide, by decide, rfl, rfl, rfl⟩

/-- Level 7 is never held back. -/
example : ¬ Masked 7 31 ∧ Masked 7 30 ∧ ¬ Masked 2 27 := by decide

/-- The user interrupt vectors (64 and above) are not subject to the mask, whatever their level. -/
theorem C28_userVectors (mask : U8) (h : 64 ≤ v.toNat) : ¬ Masked mask v := by
  unfold Masked InterruptVector
  omega

end M68k.Props
