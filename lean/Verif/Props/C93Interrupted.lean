import Verif.Props.C89
import Verif.Props.C93Routines
/-
C93: the time of compiled programs that are interrupted (C89). The list `cs` has the cycles of the calls that execute the instructions of the program, without those that the exceptions need.
-/
namespace M68k.Props
open Spec Exec
set_option linter.unusedSectionVars false
variable {M : Type} [MemoryAccess M] [Ram M] [Writable M] {C : CpuDetails} {s : St M} {n : Nat} {ps : List (Cmd n)} {st : Cmd n} {a : U32} {σ σ' : Store n} {room u w : Nat} {P : U32 → Bool}

/-- Whatever exceptions are requested before the instructions of the program, and however often, its own instructions take exactly the time that it has in the source, and it has done what the
source means. -/
theorem C93_interrupted (h : Launched ps st a σ room s) (hr : PerformsInTimed C ps st σ σ' u w) (hu : u ≤ room) (huser : s.cpu.regs.sr.s = false) (hmask : s.cpu.regs.sr.interruptMask.toNat ≤ 7)
    (hP : ∀ b, WholeByte ps st a (s.cpu.regs.a 6) (areg s.cpu.regs 7) room b → P b = true) (hpres : ∀ b, P b = true → (Ram.peek s.mem b).isSome) :
    ∃ cs, cs.sum = w ∧ ∀ {F : U32 → Bool} {depth : Nat} {I : List U8 → M → Prop} {τ : Nat → List U8}, Served C P F depth I τ s →
      ∃ t, Interrupted C τ cs s t ∧ Completed ps st a σ' s t ∧ I (requested τ cs.length) t.mem := by
  obtain ⟨all, hl, he⟩ := launched_env (launched_fenced h hP)
  obtain ⟨op, d, sr, m', ⟨i, hx⟩, hd, hs, ho, he'⟩ := Timed.cmd_ends (C := C) (placed_routines ps st a) hr he hu h.here (placed_main ps st a)
  obtain ⟨cs, ⟨hlen, hsum⟩, hall⟩ := executes_interrupted (whole_plain ps st a) hx h.idle huser hmask hpres
  refine ⟨cs, hsum, fun hS => ?_⟩
  obtain ⟨t, h1, h2, h3, h4, h5, h6⟩ := hall hS
  have hag : ∀ b, P b = true → Ram.peek t.mem b = Ram.peek m' b := fun b hb => by
    obtain ⟨v, hv, hv'⟩ := h5 b hb
    have : Ram.peek m' b = Ram.peek m'.mem b := peek_in hb
    rw [hv', this]
    exact hv.symm
  refine ⟨t, h1, ⟨by rw [h2]; rfl, fun j k hk => ?_, fun j hj => ?_, by rw [h2]; exact ⟨rfl, rfl, rfl⟩, by rw [h2]; exact hd, by rw [h2]; exact hs, h3.trans he'.running, h4⟩, hlen ▸ h6⟩
  · have hk4 : k < 4 := hk
    have hj := j.isLt
    rw [hag _ (by rw [at_add]; exact hP _ (.inr (.inl ⟨4 * j.val + k, by omega, rfl⟩)))]
    exact he'.vars j k hk
  · have hb := hP _ (.inl ⟨j, hj, rfl⟩)
    rw [hag _ hb]
    refine (ho _ (h.apart.codeStack j hj) fun q hq => h.apart.codeVars j hj q hq).trans (peek_in hb)

/-- 10 + 1 + 2 + 3 by recursion, however often the timer of C89 interrupts it: its own instructions take 1098 cycles. -/
example : ∃ cs σ', cs.sum = 1098 ∧ ∀ τ : Nat → Nat, ∃ t, Interrupted mc68000 (fun k => List.replicate (τ k) 26) cs timedDemo t ∧ Completed [addDown] (.call 0) 0x100 σ' timedDemo t ∧
    Holds (sz := .Word) t.mem 0x1A8 (BitVec.ofNat 16 ((List.range cs.length).map τ).sum) := by
  obtain ⟨σ', hr⟩ := addDown_time 3 addDownStore rfl (by decide)
  obtain ⟨cs, hs, hc⟩ := C93_interrupted (P := timedProgram) timed_launched hr (Nat.le_refl _) rfl (by decide) timed_whole timed_program_present
  refine ⟨cs, σ', hs, fun τ => ?_⟩
  obtain ⟨t, h1, h2, h3⟩ := hc (tick_served (τ := τ) timed_ticks timed_layout (by decide) (by decide) ⟨by decide, by decide +kernel⟩ (by decide))
  exact ⟨t, h1, h2, requested_replicate τ 26 _ ▸ h3.count⟩

end M68k.Props
