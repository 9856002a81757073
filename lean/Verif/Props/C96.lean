import Verif.Spec.Clock
import Verif.Props.C94
/-
C96: a clock that is kept by a timer interrupt tells the time. The host requests the interrupt whenever a period is over; the number that the handler has counted in memory is the number of periods.
-/
namespace M68k.Props
open Spec Exec
set_option linter.unusedSectionVars false
variable {M : Type} [MemoryAccess M] {C : CpuDetails} {s t : St M} {v : U8} {T N x : Nat} {cs : List Nat}

/-- The host does not request more than one exception for each period. -/
theorem clock_notFast (h : ClockRun C v T cs N x s t) : N * T ≤ x := by
  induction h with
  | none => omega
  | tick _ h1 => omega
  | step _ _ _ ih => omega

section
variable [Ram M] [Writable M] {P F : U32 → Bool} {depth : Nat} {I : List U8 → M → Prop} {d : U8 → Nat}

/-- The exceptions that are due are requested and served. -/
theorem clock_serve {A : Nat} (hv : ServiceIn C P F depth I v (d v)) (hT : serviceTime C d v < T) (fuel : Nat) : ∀ {N : Nat} {t : St M}, A + N * serviceTime C d v < (N + 1) * T + fuel →
    ClockRun C v T cs N (A + N * serviceTime C d v) s t → I (List.replicate N v) t.mem → t.cpu.stop = false → t.cpu.exceptions = [] →
    StackIn F depth t → ¬ Masked t.cpu.regs.sr.interruptMask v → t.cpu.regs.sr.interruptMask.toNat ≤ 7 →
    ∃ N' t', ClockRun C v T cs N' (A + N' * serviceTime C d v) s t' ∧ A + N' * serviceTime C d v < (N' + 1) * T ∧ t'.cpu.regs = t.cpu.regs ∧ t'.cpu.stop = false ∧ t'.cpu.exceptions = [] ∧
      (∀ a, P a = true → Ram.peek t'.mem a = Ram.peek t.mem a) ∧ I (List.replicate N' v) t'.mem := by
  induction fuel with
  | zero => exact fun {N t} hf hc hI hr hi hst hm h7 => ⟨N, t, hc, hf, rfl, hr, hi, fun _ _ => rfl, hI⟩
  | succ fuel ih =>
    intro N t hf hc hI hr hi hst hm h7
    by_cases hd : A + N * serviceTime C d v < (N + 1) * T
    · exact ⟨N, t, hc, hd, rfl, hr, hi, fun _ _ => rfl, hI⟩
    · obtain ⟨k, t1, h1, h2, h3, h4, h5, h6⟩ := C94_served (d := d) hv hI hr hi hst hm h7
      have e : A + N * serviceTime C d v + serviceTime C d v = A + (N + 1) * serviceTime C d v := by rw [Nat.succ_mul]; omega
      have hc1 := ClockRun.tick hc (by omega) h1 h2
      rw [e] at hc1
      rw [← List.replicate_succ'] at h6
      obtain ⟨N', t', k1, k2, k3, k4, k5, k6, k7⟩ := ih (N := N + 1) (t := t1) (by rw [← e, Nat.succ_mul (N + 1)]; omega) hc1 h6 h3 h4
        (by unfold StackIn; rw [h2]; exact hst) (by rw [h2]; exact hm) (by rw [h2]; exact h7)
      exact ⟨N', t', k1, k2, k3.trans h2, k4, k5, fun a ha => (k6 a ha).trans (h5 a ha), k7⟩

end

/-- Any program. Undisturbed, it makes no access outside `P`, reports no exception and does not stop. The service of the exception takes less than a period. Then the host with the clock brings the program
to its end, with the same registers and the same bytes in `P`. The time it has counted is that of the program and of the `N` exceptions served, and `N` is the number of the periods, up to the last
instruction. -/
theorem C96_program [Ram M] [Writable M] {P F : U32 → Bool} {depth : Nat} {I : List U8 → M → Prop} {d : U8 → Nat} {c : Cpu} {m n : M}
    {u : St (Fenced (bytesIn P) M)} (hu : Undisturbed C cs ⟨c, ⟨m⟩⟩ u) (hi : c.exceptions = []) (hn : AgreeIn P m n) (hI : I [] n)
    (hv : ServiceIn C P F depth I v (d v)) (hT : serviceTime C d v < T) (hown : ∀ l m m', I l m → ChangedIn P m m' → I l m')
    (hpoints : ∀ (ds : List Nat) (w : St (Fenced (bytesIn P) M)), ds.length < cs.length → Undisturbed C ds ⟨c, ⟨m⟩⟩ w → StackIn F depth w ∧ ¬ Masked w.cpu.regs.sr.interruptMask v ∧
      w.cpu.regs.sr.interruptMask.toNat ≤ 7) :
    ∃ N t, ClockRun C v T cs N (cs.sum + N * serviceTime C d v) ⟨c, n⟩ t ∧ N * T ≤ cs.sum + N * serviceTime C d v ∧ cs.sum + N * serviceTime C d v < (N + 1) * T + cs.headD 0 ∧
      t.cpu.regs = u.cpu.regs ∧ t.cpu.stop = u.cpu.stop ∧ t.cpu.exceptions = [] ∧ AgreeIn P u.mem.mem t.mem ∧ I (List.replicate N v) t.mem := by
  generalize hs : (⟨c, ⟨m⟩⟩ : St (Fenced (bytesIn P) M)) = s at hu
  induction hu with
  | none =>
    subst hs
    refine ⟨0, ⟨c, n⟩, by simpa using .none _, by omega, ?_, rfl, rfl, hi, hn, hI⟩
    simp only [List.sum_nil, List.headD_nil, Nat.zero_mul]
    omega
  | @more cs c' s s' s'' hu hr hx ih =>
    obtain ⟨N0, t0, h1, -, -, h2, h3, h4, h5, h6⟩ := ih (fun ds w hd hw => hpoints ds w (by rw [List.length_cons]; omega) hw) hs
    have hpt := hpoints cs s' (by rw [List.length_cons]; omega) (by rw [hs]; exact hu)
    have hi' := undisturbed_idle hu (by rw [← hs]; exact hi)
    obtain ⟨N, t1, k1, kb, k2, k3, k4, k5, k6⟩ := clock_serve (C := C) (A := cs.sum) (t := t0) (N := N0) hv hT (cs.sum + N0 * serviceTime C d v + 1) (by omega) h1 h6 (h3.trans hr) h4
      (by
        have := hpt.1
        unfold StackIn at *
        rw [h2]
        exact this)
      (by rw [h2]; exact hpt.2.1) (by rw [h2]; exact hpt.2.2)
    have hx' := call_opcode hr hi' hx t1.cpu.currentOpcode
    have hcpu : ({ s'.cpu with currentOpcode := t1.cpu.currentOpcode } : Cpu) = t1.cpu := by
      have e1 : t1.cpu.regs = s'.cpu.regs := k2.trans h2
      have e2 : t1.cpu.stop = s'.cpu.stop := k3.trans hr.symm
      have e3 : t1.cpu.exceptions = s'.cpu.exceptions := k4.trans hi'.symm
      generalize t1.cpu = a at *
      cases a
      simp only at e1 e2 e3
      subst e1 e2 e3
      rfl
    rw [hcpu] at hx'
    have hag : AgreeIn P s'.mem.mem t1.mem := by
      intro a ha
      obtain ⟨b, e1, e2⟩ := h5 a ha
      exact ⟨b, e1, (k5 a ha).trans e2⟩
    obtain ⟨n', j1, j2, j3⟩ := C68_memory (C := C) (c := t1.cpu) (m := s'.mem.mem) (n := t1.mem) hag hx'
    have hfin : s''.cpu.exceptions = [] := undisturbed_idle (.more hu hr hx) (by rw [← hs]; exact hi)
    have hrun := ClockRun.step k1 kb j1
    rw [show cs.sum + N * serviceTime C d v + c' = (c' :: cs).sum + N * serviceTime C d v by rw [List.sum_cons]; omega] at hrun
    refine ⟨N, ⟨s''.cpu, n'⟩, hrun, clock_notFast hrun, ?_, rfl, rfl, hfin, j2, hown _ _ _ k6 j3⟩
    rw [List.sum_cons, List.headD_cons]
    omega

/-! ### Compiled programs -/

section
variable [Ram M] [Writable M] {n : Nat} {ps : List (Cmd n)} {st : Cmd n} {a : U32} {σ σ' : Store n} {room u w : Nat} {P : U32 → Bool}

/-- A compiled program with recursive procedures, in user mode, that takes the time `w` in the source (C93), on a host with the clock. The handler is `ADDQ.W #1,count; RTE`, and its service takes less
than a period. Then the program ends and has done what the source means. The host has counted `w` cycles and those of `N` interrupts, `N` is the number of the periods in this time, up to the last
instruction, which takes `c` cycles, and `count` is `N` (modulo 2^16). -/
theorem C96_clock (h : Launched ps st a σ room s) (hr : PerformsInTimed C ps st σ σ' u w) (hu : u ≤ room) (huser : s.cpu.regs.sr.s = false) (hmask : s.cpu.regs.sr.interruptMask.toNat ≤ 7)
    (hP : ∀ b, WholeByte ps st a (s.cpu.regs.a 6) (areg s.cpu.regs 7) room b → P b = true) (hpres : ∀ b, P b = true → (Ram.peek s.mem b).isSome)
    {F : U32 → Bool} {hd : U32} {e : U16} (hI : Ticks F v hd e [] s.mem) (hl : TickLayout P F v hd e) (h0 : v ≠ 0) (hsf : ¬ LongFrame v)
    (hst : StackIn F (frameBytes C.STACK_FORMAT v) s) (hm : ¬ Masked s.cpu.regs.sr.interruptMask v) (hT : C.vectorExecutionTime v + (C.ADDQ_MEM_BW + C.EA_ABSSHORT) + C.RTE < T) :
    ∃ cs N x c t, ClockRun C v T cs N x s t ∧ x = w + N * (C.vectorExecutionTime v + (C.ADDQ_MEM_BW + C.EA_ABSSHORT) + C.RTE) ∧ N * T ≤ x ∧ x < (N + 1) * T + c ∧ c = cs.headD 0 ∧
      Completed ps st a σ' s t ∧ Holds (sz := .Word) t.mem (signExt e) (BitVec.ofNat 16 N) := by
  obtain ⟨all, hl', he⟩ := launched_env (launched_fenced h hP)
  obtain ⟨op, d, sr, m', ⟨i, hx⟩, hd, hs, ho, he'⟩ := Timed.cmd_ends (C := C) (placed_routines ps st a) hr he hu h.here (placed_main ps st a)
  obtain ⟨cs, ⟨hlen, rfl⟩, hun, hall⟩ := executes_undisturbed (whole_plain ps st a) hx huser (by show s.cpu.regs.sr.interruptMask.toNat < 8; omega)
  have hS := tick_served (C := C) (τ := fun _ => 0) hI hl h0 hsf hst hm
  obtain ⟨N, t, h1, hb1, hb2, h2, h3, h4, h5, h6⟩ := C96_program (v := v) (T := T) (d := fun _ => tickTime C) hun h.idle (fun b hb => by
      obtain ⟨v, hv⟩ := Option.isSome_iff_exists.1 (hpres b hb)
      exact ⟨v, hv, hv⟩) hI (tick_serviceIn hl h0 hsf) hT hS.own (fun ds w hd hw => by
      obtain ⟨hs, hssp⟩ := hall ds w (by omega) hw
      have e1 : w.cpu.regs.ssp = s.cpu.regs.ssp := hssp
      have e2 : w.cpu.regs.sr.interruptMask = s.cpu.regs.sr.interruptMask := hs.2.2
      refine ⟨?_, ?_, ?_⟩
      · unfold StackIn; rw [e1]; exact hst
      · rw [e2]; exact hm
      · rw [e2]; exact hmask)
  have hag : ∀ b, P b = true → Ram.peek t.mem b = Ram.peek m' b := fun b hb => by
    obtain ⟨v, hv, hv'⟩ := h5 b hb
    have : Ram.peek m' b = Ram.peek m'.mem b := peek_in hb
    rw [hv', this]
    exact hv.symm
  refine ⟨cs, N, _, _, t, h1, rfl, hb1, hb2, rfl, ⟨by rw [h2]; rfl, fun j k hk => ?_, fun j hj => ?_, by rw [h2]; exact ⟨rfl, rfl, rfl⟩, by rw [h2]; exact hd, by rw [h2]; exact hs, h3.trans he'.running, h4⟩, List.length_replicate (n := N) (a := v) ▸ h6.count⟩
  · have hk4 : k < 4 := hk
    have hj := j.isLt
    rw [hag _ (by rw [at_add]; exact hP _ (.inr (.inl ⟨4 * j.val + k, by omega, rfl⟩)))]
    exact he'.vars j k hk
  · have hb := hP _ (.inl ⟨j, hj, rfl⟩)
    rw [hag _ hb]
    refine (ho _ (h.apart.codeStack j hj) fun q hq => h.apart.codeVars j hj q hq).trans (peek_in hb)

end

/-- 10 + 1 + 2 + 3 by recursion on the MC68000, with a period of 500 cycles: the interrupt comes at most twice. -/
example : ∃ cs N x c σ' t, ClockRun mc68000 26 500 cs N x timedDemo t ∧ x = 1098 + N * 80 ∧ x < (N + 1) * 500 + c ∧ c = cs.headD 0 ∧ N ≤ 2 ∧ Completed [addDown] (.call 0) 0x100 σ' timedDemo t ∧
    Holds (sz := .Word) t.mem 0x1A8 (BitVec.ofNat 16 N) := by
  obtain ⟨σ', hr⟩ := addDown_time 3 addDownStore rfl (by decide)
  obtain ⟨cs, N, x, c, t, h1, h2, h3, h4, h5, h6, h7⟩ := C96_clock (T := 500) (P := timedProgram) timed_launched hr (Nat.le_refl _) rfl (by decide) timed_whole timed_program_present timed_ticks timed_layout
    (by decide) (by decide) ⟨by decide, by decide +kernel⟩ (by decide) (by decide)
  have h2 : x = 1098 + N * 80 := h2
  exact ⟨cs, N, x, c, σ', t, h1, h2, h4, h5, by omega, h6, h7⟩

end M68k.Props
