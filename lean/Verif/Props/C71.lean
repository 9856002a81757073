import Verif.Spec.Interrupt
import Verif.Props.C26
import Verif.Props.C27
import Verif.Props.C68
import Verif.Lemmas.AnyStep
/-
C71: a program does not notice that it is interrupted, if the handlers restore what they change.
-/
namespace M68k.Props
open Spec Exec
set_option linter.unusedSectionVars false
variable {M : Type} [MemoryAccess M] {C : CpuDetails} {s s' t e : St M} {v : U8}

/-- What a call does that executes an instruction without an exception does not depend on the opcode before. -/
theorem call_opcode {c : Nat} (hr : s.cpu.stop = false) (hi : s.cpu.exceptions = []) (h : interpreterException C s = .ok (c, none) s') (w : U16) :
    interpreterException C { s with cpu := { s.cpu with currentOpcode := w } } = .ok (c, none) s' := by
  rcases step_idle C hr hi with ⟨-, h1⟩ | ⟨-, m, -, h1⟩ | ⟨-, -, h1⟩ | ⟨op, s1, h1⟩
  · rw [h1] at h; cases h
  · rw [h1] at h; cases h
  · rw [h1] at h; cases h
  · have h2 : Ready { s with cpu := { s.cpu with currentOpcode := w } } op s1 := by
      obtain ⟨a, b, c, m, d, e⟩ := h1
      exact ⟨a, b, c, m, d, e⟩
    rw [step_finish C h1] at h
    rw [step_finish C h2]
    exact h

theorem quietCalls_head {k : Nat} (hfirst : ∀ c y, interpreterException C e = .ok (c, none) y → ∃ c', interpreterException C t = .ok (c', none) y)
    (h : QuietCalls C (k + 1) e s') : QuietCalls C (k + 1) t s' := by
  induction k generalizing s' with
  | zero =>
    cases h with
    | more h1 h2 =>
      cases h1
      obtain ⟨c', h3⟩ := hfirst _ _ h2
      exact .more (.none _) h3
  | succ k ih =>
    cases h with
    | more h1 h2 => exact .more (ih h1) h2

theorem undisturbed_idle {cs : List Nat} (h : Undisturbed C cs s s') (hi : s.cpu.exceptions = []) : s'.cpu.exceptions = [] := by
  induction h with
  | none => exact hi
  | @more cs c s s' s'' hu hr hx ih =>
    have ih := ih hi
    rw [← instruction_idle hr ih] at hx
    exact (Blind.instruction (C := C) 0).keeps hx |>.trans ih

/-- Exceptions that are requested while they are masked are not noticed either, until the mask is lowered: a call with masked exceptions pending, and no others, is the
call without them, and they are pending after it. -/
theorem C71_masked (h : History C s) (hr : s.cpu.stop = false) (hm : ∀ x ∈ s.cpu.exceptions, Masked s.cpu.regs.sr.interruptMask x.vector) :
    interpreterException C s = leaving s.cpu.exceptions (interpreterException C (s.withPending [])) := by
  by_cases hp : s.cpu.exceptions = []
  · have h1 : s.withPending [] = s := by rw [← hp]; rfl
    rw [h1, ← instruction_idle hr hp, leaving_eq]
    have := Blind.instruction (C := C) 0 s s.cpu.exceptions
    rw [withPending_self] at this
    exact this
  · have hh : ∀ x ∈ s.cpu.exceptions, isHeld s.cpu.regs.sr.interruptMask x = true := fun x hx => held_iff.2 (hm x hx)
    rw [call_pending hr hp, Exec.bind_apply, process_eq (history_sorted h), List.filter_eq_self.2 hh,
      List.filter_eq_nil_iff.2 fun x hx => by rw [hh x hx]; decide, withPending_self, leaving_eq]
    have h1 := instruction_eq (C := C) hr 0
    rw [later_zero] at h1
    exact h1

/-- Interrupts of levels 2 and 3, requested with the mask 7. -/
example : ∃ s : St WordSlice, History mc68000 s ∧ s.cpu.stop = false ∧ s.cpu.exceptions ≠ [] ∧ ∀ x ∈ s.cpu.exceptions, Masked s.cpu.regs.sr.interruptMask x.vector :=
  ⟨⟨Cpu.newNoReset.exception ⟨26⟩, ⟨[]⟩⟩, .act (.newNoReset _) (.request _ 26), rfl, by decide, by decide⟩

section
variable [Ram M] [Writable M] {P F : U32 → Bool} {depth : Nat} {I : List U8 → M → Prop} {l : List U8}

/-- A requested exception is entered, and when its handler is at its RTE, this brings the program back. -/
theorem served_by (hv : Service C P F depth I v) (hI : I l s.mem) (hr : s.cpu.stop = false) (hi : s.cpu.exceptions = []) (hst : StackIn F depth s)
    (hm : ¬ Masked s.cpu.regs.sr.interruptMask v) (h7 : s.cpu.regs.sr.interruptMask.toNat ≤ 7) :
    ∃ e, Entered C v s e ∧ interpreterException C { s with cpu := s.cpu.exception ⟨v⟩ } = later (C.vectorExecutionTime v) (interpreterException C e) ∧
      ∀ f, Restored C P v e f → I (l ++ [v]) f.mem → ∃ t, interpreterException C f = .ok (C.RTE, none) t ∧ t.cpu.regs = s.cpu.regs ∧ t.cpu.stop = false ∧ t.cpu.exceptions = [] ∧
        (∀ a, P a = true → Ram.peek t.mem a = Ram.peek s.mem a) ∧ I (l ++ [v]) t.mem := by
  have hq : ({ s with cpu := s.cpu.exception ⟨v⟩ } : St M).cpu.exceptions = [⟨v⟩] := by
    show (s.cpu.exception ⟨v⟩).exceptions = _
    rw [exception_exceptions, hi]
    rfl
  have hst' : ({ s with cpu := s.cpu.exception ⟨v⟩ } : St M).cpu.stop = false := by
    show (s.cpu.exception ⟨v⟩).stop = false
    unfold Cpu.exception
    split
    · rfl
    · exact hr
  have hback : ({ s with cpu := s.cpu.exception ⟨v⟩ } : St M).withPending [] = s := by
    obtain ⟨⟨r, o, st, es⟩, m⟩ := s
    simp only at hr hi
    subst hr hi
    unfold Cpu.exception St.withPending
    dsimp only
    split <;> rfl
  have hframe : ∀ k < frameBytes C.STACK_FORMAT v, F (at_ (s.cpu.regs.ssp - BitVec.ofNat 32 (frameBytes C.STACK_FORMAT v)) k) = true := by
    intro k hk
    have hd := hv.deep
    have := hst.2 (depth - frameBytes C.STACK_FORMAT v + k) (by omega)
    rw [← at_add] at this
    rw [show depth = (depth - frameBytes C.STACK_FORMAT v) + frameBytes C.STACK_FORMAT v by omega, Nat.add_sub_cancel, at_sub_le] at this
    exact this
  have hregs : ({ s with cpu := s.cpu.exception ⟨v⟩ } : St M).cpu.regs = s.cpu.regs := exception_regs _ _
  obtain ⟨e, he, hcall⟩ := C26_entry (C := C) (s := { s with cpu := s.cpu.exception ⟨v⟩ }) (v := v) hst' hq hv.notReset (by rw [hregs]; exact hm) (by rw [hregs]; exact hst.1)
    (by
      rw [hregs]
      exact fun k hk => hv.stack l _ _ hI (hframe k hk))
    (hv.vector l _ hI)
  rw [hback] at he
  refine ⟨e, he, hcall, fun f hf hI' => ?_⟩
  obtain ⟨f1, hf1⟩ := hf.rte
  have hx0 : extra C.STACK_FORMAT v = 0 := if_neg fun h => hv.short h.2
  have hc := C27_resumeTime he h7 hst.1 hf1 hf.supervisor (by rw [hx0, at_zero, hf.regs]) hf.frame
  rw [if_neg fun h => hv.short h.2] at hc
  refine ⟨_, hc, ?_, ?_, ?_, ?_, ?_⟩
  · show { f1.cpu.regs with pc := s.cpu.regs.pc, sr := s.cpu.regs.sr, ssp := s.cpu.regs.ssp } = s.cpu.regs
    rw [hf1.regs, hf.regs, he.regs]
  · obtain ⟨h1, -, -, m, -, h2⟩ := hf1
    subst h2
    exact h1
  · obtain ⟨-, h1, -, m, -, h2⟩ := hf1
    subst h2
    exact h1
  · intro a ha
    show Ram.peek f1.mem a = _
    rw [hf1.ram, hf.kept a ha]
    refine he.rest a fun k hk h => ?_
    rw [show e.cpu.regs.ssp = s.cpu.regs.ssp - BitVec.ofNat 32 (frameBytes C.STACK_FORMAT v) by rw [he.regs]] at h
    have := hv.apart _ (hframe k hk)
    rw [← h, ha] at this
    cases this
  · show I _ f1.mem
    rw [hf1.ram]
    exact hI'

/-- One exception is requested and served: all registers are as before, and so are the bytes of the program. -/
theorem C71_served (hv : Service C P F depth I v) (hI : I l s.mem) (hr : s.cpu.stop = false) (hi : s.cpu.exceptions = []) (hst : StackIn F depth s)
    (hm : ¬ Masked s.cpu.regs.sr.interruptMask v) (h7 : s.cpu.regs.sr.interruptMask.toNat ≤ 7) :
    ∃ k t, QuietCalls C (k + 1) { s with cpu := s.cpu.exception ⟨v⟩ } t ∧ t.cpu.regs = s.cpu.regs ∧ t.cpu.stop = false ∧ t.cpu.exceptions = [] ∧
      (∀ a, P a = true → Ram.peek t.mem a = Ram.peek s.mem a) ∧ I (l ++ [v]) t.mem := by
  obtain ⟨e, he, hcall, hback⟩ := served_by (C := C) hv hI hr hi hst hm h7
  obtain ⟨k, f, hk, hf, hI'⟩ := hv.handles l s e hI hr hi hst he
  obtain ⟨t, hc, ht⟩ := hback f hf hI'
  refine ⟨k, t, quietCalls_head (fun c y hy => ⟨C.vectorExecutionTime v + c, ?_⟩) (.more hk hc), ht⟩
  rw [hcall, hy]
  rfl

/-- The same for any number of exceptions, one after the other. -/
theorem C71_interlude {vs : List U8} (hv : ∀ v ∈ vs, Service C P F depth I v) (hI : I l s.mem) (hr : s.cpu.stop = false) (hi : s.cpu.exceptions = [])
    (hst : vs ≠ [] → StackIn F depth s) (hm : ∀ v ∈ vs, ¬ Masked s.cpu.regs.sr.interruptMask v) (h7 : vs ≠ [] → s.cpu.regs.sr.interruptMask.toNat ≤ 7) :
    ∃ t, Interlude C vs s t ∧ t.cpu.regs = s.cpu.regs ∧ t.cpu.stop = false ∧ t.cpu.exceptions = [] ∧
      (∀ a, P a = true → Ram.peek t.mem a = Ram.peek s.mem a) ∧ I (l ++ vs) t.mem := by
  induction vs generalizing s l with
  | nil => exact ⟨s, .none s, rfl, hr, hi, fun _ _ => rfl, by rw [List.append_nil]; exact hI⟩
  | cons v vs ih =>
    obtain ⟨k, t, h1, h2, h3, h4, h5, h6⟩ := C71_served (hv v (List.mem_cons_self ..)) hI hr hi (hst (List.cons_ne_nil _ _)) (hm v (List.mem_cons_self ..)) (h7 (List.cons_ne_nil _ _))
    obtain ⟨t', k1, k2, k3, k4, k5, k6⟩ := ih (fun w hw => hv w (List.mem_cons_of_mem _ hw)) h6 h3 h4
      (fun _ => by unfold StackIn; rw [h2]; exact hst (List.cons_ne_nil _ _)) (fun w hw => by rw [h2]; exact hm w (List.mem_cons_of_mem _ hw))
      (fun _ => by rw [h2]; exact h7 (List.cons_ne_nil _ _))
    refine ⟨t', .more h1 k1, k2.trans h2, k3, k4, fun a ha => (k5 a ha).trans (h5 a ha), ?_⟩
    rw [List.append_assoc] at k6
    exact k6

end

/-- Any program, any schedule. Undisturbed, the program makes no access outside `P` (`Fenced`), reports no exception and does not stop. Let the same program run
in a memory that agrees with the first one on `P`, with the exceptions `σ k` requested before its instruction number `k`. Each of them is served by the machine
(`Service`), and when it is requested there is room on the supervisor stack and it is not masked. Then each instruction of the program takes the same
cycles as undisturbed; after the last one the program has the same registers and the same bytes in `P`, and the handlers have served all the exceptions. -/
theorem C71_transparent [Ram M] [Writable M] {P F : U32 → Bool} {depth : Nat} {I : List U8 → M → Prop} {σ : Nat → List U8} {cs : List Nat} {c : Cpu} {m n : M}
    {u : St (Fenced (bytesIn P) M)} (hu : Undisturbed C cs ⟨c, ⟨m⟩⟩ u) (hi : c.exceptions = []) (hn : AgreeIn P m n) (hI : I [] n)
    (hσ : ∀ k, ∀ v ∈ σ k, Service C P F depth I v) (hown : ∀ l m m', I l m → ChangedIn P m m' → I l m')
    (hpoints : ∀ (ds : List Nat) (w : St (Fenced (bytesIn P) M)), ds.length < cs.length → Undisturbed C ds ⟨c, ⟨m⟩⟩ w → ∀ v ∈ σ ds.length, StackIn F depth w ∧ ¬ Masked w.cpu.regs.sr.interruptMask v ∧
      w.cpu.regs.sr.interruptMask.toNat ≤ 7) :
    ∃ t, Interrupted C σ cs ⟨c, n⟩ t ∧ t.cpu.regs = u.cpu.regs ∧ t.cpu.stop = u.cpu.stop ∧ t.cpu.exceptions = [] ∧ AgreeIn P u.mem.mem t.mem ∧
      I (requested σ cs.length) t.mem := by
  generalize hs : (⟨c, ⟨m⟩⟩ : St (Fenced (bytesIn P) M)) = s at hu
  induction hu with
  | none => subst hs; exact ⟨_, .none _, rfl, rfl, hi, hn, hI⟩
  | @more cs c' s s' s'' hu hr hx ih =>
    obtain ⟨t, h1, h2, h3, h4, h5, h6⟩ := ih (fun ds w hd hw => hpoints ds w (by rw [List.length_cons]; omega) hw) hs
    have hpt := hpoints cs s' (by rw [List.length_cons]; omega) (by rw [hs]; exact hu)
    have hi' := undisturbed_idle hu (by rw [← hs]; exact hi)
    obtain ⟨t1, k1, k2, k3, k4, k5, k6⟩ := C71_interlude (C := C) (s := t) (hσ cs.length) h6 (h3.trans hr) h4
      (fun hne => by
        obtain ⟨v, hv⟩ := List.exists_mem_of_ne_nil _ hne
        have := (hpt v hv).1
        unfold StackIn at *
        rw [h2]
        exact this)
      (fun v hv => by rw [h2]; exact (hpt v hv).2.1)
      (fun hne => by
        obtain ⟨v, hv⟩ := List.exists_mem_of_ne_nil _ hne
        rw [h2]
        exact (hpt v hv).2.2)
    have hx' := call_opcode hr hi' hx t1.cpu.currentOpcode
    have hcpu : ({ s'.cpu with currentOpcode := t1.cpu.currentOpcode } : Cpu) = t1.cpu := by
      have e1 : t1.cpu.regs = s'.cpu.regs := k2.trans h2
      have e2 : t1.cpu.stop = s'.cpu.stop := k3.trans hr.symm
      have e3 : t1.cpu.exceptions = s'.cpu.exceptions := k4.trans hi'.symm
      generalize t1.cpu = a at *
      cases a
      simp only at e1 e2 e3
      subst e1 e2 e3
      rfl
    rw [hcpu] at hx'
    have hag : AgreeIn P s'.mem.mem t1.mem := by
      intro a ha
      obtain ⟨b, e1, e2⟩ := h5 a ha
      exact ⟨b, e1, (k5 a ha).trans e2⟩
    obtain ⟨n', j1, j2, j3⟩ := C68_memory (C := C) (c := t1.cpu) (m := s'.mem.mem) (n := t1.mem) hag hx'
    have hfin : s''.cpu.exceptions = [] := undisturbed_idle (.more hu hr hx) (by rw [← hs]; exact hi)
    exact ⟨_, .more h1 k1 j1, rfl, rfl, hfin, j2, hown _ _ _ k6 j3⟩

end M68k.Props
