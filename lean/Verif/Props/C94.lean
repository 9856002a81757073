import Verif.Spec.InterruptTime
import Verif.Props.C93Interrupted
/-
C94: the time of a machine that is interrupted. The cycles of all calls, taken together, are those of the program and, for each exception served, those of the exception processing, of the handler
and of its RTE.
-/
namespace M68k.Props
open Spec Exec
set_option linter.unusedSectionVars false
variable {M : Type} [MemoryAccess M] {C : CpuDetails} {s s' t e : St M} {v : U8}

theorem quietCallsIn_head {a k x : Nat} (hfirst : ∀ c y, interpreterException C e = .ok (c, none) y → interpreterException C t = .ok (a + c, none) y)
    (h : QuietCallsIn C (k + 1) x e s') : QuietCallsIn C (k + 1) (a + x) t s' := by
  induction k generalizing s' x with
  | zero =>
    cases h with
    | @more _ x c _ _ _ h1 h2 =>
      cases h1
      rw [show a + (0 + c) = 0 + (a + c) by omega]
      exact .more (.none _) (hfirst _ _ h2)
  | succ k ih =>
    cases h with
    | more h1 h2 =>
      rw [← Nat.add_assoc]
      exact .more (ih h1) h2

section
variable [Ram M] [Writable M] {P F : U32 → Bool} {depth : Nat} {I : List U8 → M → Prop} {l : List U8} {d : U8 → Nat}

/-- One exception is requested and served, which takes exactly `serviceTime C d v` cycles. All registers are as before, and so are the bytes of the program. -/
theorem C94_served (hv : ServiceIn C P F depth I v (d v)) (hI : I l s.mem) (hr : s.cpu.stop = false) (hi : s.cpu.exceptions = []) (hst : StackIn F depth s)
    (hm : ¬ Masked s.cpu.regs.sr.interruptMask v) (h7 : s.cpu.regs.sr.interruptMask.toNat ≤ 7) :
    ∃ k t, QuietCallsIn C (k + 1) (serviceTime C d v) { s with cpu := s.cpu.exception ⟨v⟩ } t ∧ t.cpu.regs = s.cpu.regs ∧ t.cpu.stop = false ∧ t.cpu.exceptions = [] ∧
      (∀ a, P a = true → Ram.peek t.mem a = Ram.peek s.mem a) ∧ I (l ++ [v]) t.mem := by
  obtain ⟨e, he, hcall, hback⟩ := served_by (C := C) hv.toService hI hr hi hst hm h7
  obtain ⟨k, f, hk, hf, hI'⟩ := hv.timed l s e hI hr hi hst he
  obtain ⟨t, hc, ht⟩ := hback f hf hI'
  refine ⟨k, t, ?_, ht⟩
  unfold serviceTime
  rw [Nat.add_assoc]
  refine quietCallsIn_head (fun c y hy => ?_) (.more hk hc)
  rw [hcall, hy]
  rfl

/-- The same for any number of exceptions, one after the other. -/
theorem C94_interlude {vs : List U8} (hv : ∀ v ∈ vs, ServiceIn C P F depth I v (d v)) (hI : I l s.mem) (hr : s.cpu.stop = false) (hi : s.cpu.exceptions = [])
    (hst : vs ≠ [] → StackIn F depth s) (hm : ∀ v ∈ vs, ¬ Masked s.cpu.regs.sr.interruptMask v) (h7 : vs ≠ [] → s.cpu.regs.sr.interruptMask.toNat ≤ 7) :
    ∃ t, InterludeIn C vs (vs.map (serviceTime C d)).sum s t ∧ t.cpu.regs = s.cpu.regs ∧ t.cpu.stop = false ∧ t.cpu.exceptions = [] ∧
      (∀ a, P a = true → Ram.peek t.mem a = Ram.peek s.mem a) ∧ I (l ++ vs) t.mem := by
  induction vs generalizing s l with
  | nil => exact ⟨s, .none s, rfl, hr, hi, fun _ _ => rfl, by rw [List.append_nil]; exact hI⟩
  | cons v vs ih =>
    obtain ⟨k, t, h1, h2, h3, h4, h5, h6⟩ := C94_served (d := d) (hv v (List.mem_cons_self ..)) hI hr hi (hst (List.cons_ne_nil _ _)) (hm v (List.mem_cons_self ..)) (h7 (List.cons_ne_nil _ _))
    obtain ⟨t', k1, k2, k3, k4, k5, k6⟩ := ih (fun w hw => hv w (List.mem_cons_of_mem _ hw)) h6 h3 h4
      (fun _ => by unfold StackIn; rw [h2]; exact hst (List.cons_ne_nil _ _)) (fun w hw => by rw [h2]; exact hm w (List.mem_cons_of_mem _ hw))
      (fun _ => by rw [h2]; exact h7 (List.cons_ne_nil _ _))
    refine ⟨t', ?_, k2.trans h2, k3, k4, fun a ha => (k5 a ha).trans (h5 a ha), ?_⟩
    · rw [List.map_cons, List.sum_cons]
      exact .more h1 k1
    · rw [List.append_assoc] at k6
      exact k6

end

/-- Any program, any schedule, as `C71_transparent`. All calls, taken together, take the time that the program takes undisturbed and the times of the exceptions requested. -/
theorem C94_transparent [Ram M] [Writable M] {P F : U32 → Bool} {depth : Nat} {I : List U8 → M → Prop} {d : U8 → Nat} {σ : Nat → List U8} {cs : List Nat} {c : Cpu} {m n : M}
    {u : St (Fenced (bytesIn P) M)} (hu : Undisturbed C cs ⟨c, ⟨m⟩⟩ u) (hi : c.exceptions = []) (hn : AgreeIn P m n) (hI : I [] n)
    (hσ : ∀ k, ∀ v ∈ σ k, ServiceIn C P F depth I v (d v)) (hown : ∀ l m m', I l m → ChangedIn P m m' → I l m')
    (hpoints : ∀ (ds : List Nat) (w : St (Fenced (bytesIn P) M)), ds.length < cs.length → Undisturbed C ds ⟨c, ⟨m⟩⟩ w → ∀ v ∈ σ ds.length, StackIn F depth w ∧ ¬ Masked w.cpu.regs.sr.interruptMask v ∧
      w.cpu.regs.sr.interruptMask.toNat ≤ 7) :
    ∃ t, InterruptedIn C σ cs (cs.sum + ((requested σ cs.length).map (serviceTime C d)).sum) ⟨c, n⟩ t ∧ t.cpu.regs = u.cpu.regs ∧ t.cpu.stop = u.cpu.stop ∧ t.cpu.exceptions = [] ∧
      AgreeIn P u.mem.mem t.mem ∧ I (requested σ cs.length) t.mem := by
  generalize hs : (⟨c, ⟨m⟩⟩ : St (Fenced (bytesIn P) M)) = s at hu
  induction hu with
  | none => subst hs; exact ⟨_, .none _, rfl, rfl, hi, hn, hI⟩
  | @more cs c' s s' s'' hu hr hx ih =>
    obtain ⟨t, h1, h2, h3, h4, h5, h6⟩ := ih (fun ds w hd hw => hpoints ds w (by rw [List.length_cons]; omega) hw) hs
    have hpt := hpoints cs s' (by rw [List.length_cons]; omega) (by rw [hs]; exact hu)
    have hi' := undisturbed_idle hu (by rw [← hs]; exact hi)
    obtain ⟨t1, k1, k2, k3, k4, k5, k6⟩ := C94_interlude (C := C) (s := t) (d := d) (hσ cs.length) h6 (h3.trans hr) h4
      (fun hne => by
        obtain ⟨v, hv⟩ := List.exists_mem_of_ne_nil _ hne
        have := (hpt v hv).1
        unfold StackIn at *
        rw [h2]
        exact this)
      (fun v hv => by rw [h2]; exact (hpt v hv).2.1)
      (fun hne => by
        obtain ⟨v, hv⟩ := List.exists_mem_of_ne_nil _ hne
        rw [h2]
        exact (hpt v hv).2.2)
    have hx' := call_opcode hr hi' hx t1.cpu.currentOpcode
    have hcpu : ({ s'.cpu with currentOpcode := t1.cpu.currentOpcode } : Cpu) = t1.cpu := by
      have e1 : t1.cpu.regs = s'.cpu.regs := k2.trans h2
      have e2 : t1.cpu.stop = s'.cpu.stop := k3.trans hr.symm
      have e3 : t1.cpu.exceptions = s'.cpu.exceptions := k4.trans hi'.symm
      generalize t1.cpu = a at *
      cases a
      simp only at e1 e2 e3
      subst e1 e2 e3
      rfl
    rw [hcpu] at hx'
    have hag : AgreeIn P s'.mem.mem t1.mem := by
      intro a ha
      obtain ⟨b, e1, e2⟩ := h5 a ha
      exact ⟨b, e1, (k5 a ha).trans e2⟩
    obtain ⟨n', j1, j2, j3⟩ := C68_memory (C := C) (c := t1.cpu) (m := s'.mem.mem) (n := t1.mem) hag hx'
    have hfin : s''.cpu.exceptions = [] := undisturbed_idle (.more hu hr hx) (by rw [← hs]; exact hi)
    refine ⟨⟨s''.cpu, n'⟩, ?_, rfl, rfl, hfin, j2, hown _ _ _ k6 j3⟩
    have := InterruptedIn.more h1 k1 j1
    rw [List.sum_cons, List.length_cons, requested, List.map_append, List.sum_append]
    rwa [show cs.sum + ((requested σ cs.length).map (serviceTime C d)).sum + ((σ cs.length).map (serviceTime C d)).sum + c' =
      c' + cs.sum + (((requested σ cs.length).map (serviceTime C d)).sum + ((σ cs.length).map (serviceTime C d)).sum) by omega] at this

theorem quietCallsIn_forget {k x : Nat} (h : QuietCallsIn C k x s t) : QuietCalls C k s t := by
  induction h with
  | none s => exact .none s
  | more _ h2 ih => exact .more ih h2

theorem interludeIn_forget {vs : List U8} {x : Nat} (h : InterludeIn C vs x s t) : Interlude C vs s t := by
  induction h with
  | none s => exact .none s
  | more h1 _ ih => exact .more (quietCallsIn_forget h1) ih

/-- A run with its time is one of the runs of C71 and C89. -/
theorem C94_run {σ : Nat → List U8} {cs : List Nat} {x : Nat} (h : InterruptedIn C σ cs x s t) : Interrupted C σ cs s t := by
  induction h with
  | none s => exact .none s
  | more _ h2 h3 ih => exact .more ih (interludeIn_forget h2) h3

/-! ### Compiled programs -/

section
variable [Ram M] [Writable M] {n : Nat} {ps : List (Cmd n)} {st : Cmd n} {a : U32} {σ σ' : Store n} {room u w : Nat} {P : U32 → Bool}

/-- A compiled program with recursive procedures, in user mode, that takes the time `w` in the source (C93). Whatever exceptions are requested before its instructions, and however often, all
calls of the core until the program ends take `w` cycles and the times of these exceptions, and the program has done what the source means. -/
theorem C94_compiled (h : Launched ps st a σ room s) (hr : PerformsInTimed C ps st σ σ' u w) (hu : u ≤ room) (huser : s.cpu.regs.sr.s = false) (hmask : s.cpu.regs.sr.interruptMask.toNat ≤ 7)
    (hP : ∀ b, WholeByte ps st a (s.cpu.regs.a 6) (areg s.cpu.regs 7) room b → P b = true) (hpres : ∀ b, P b = true → (Ram.peek s.mem b).isSome) :
    ∃ cs, ∀ {F : U32 → Bool} {depth : Nat} {I : List U8 → M → Prop} {τ : Nat → List U8} {d : U8 → Nat}, Served C P F depth I τ s → (∀ k, ∀ v ∈ τ k, ServiceIn C P F depth I v (d v)) →
      ∃ t, InterruptedIn C τ cs (w + ((requested τ cs.length).map (serviceTime C d)).sum) s t ∧ Completed ps st a σ' s t ∧ I (requested τ cs.length) t.mem := by
  obtain ⟨all, hl, he⟩ := launched_env (launched_fenced h hP)
  obtain ⟨op, d, sr, m', ⟨i, hx⟩, hd, hs, ho, he'⟩ := Timed.cmd_ends (C := C) (placed_routines ps st a) hr he hu h.here (placed_main ps st a)
  obtain ⟨cs, ⟨hlen, rfl⟩, hun, hall⟩ := executes_undisturbed (whole_plain ps st a) hx huser (by show s.cpu.regs.sr.interruptMask.toNat < 8; omega)
  refine ⟨cs, fun {F depth I τ d} hS hT => ?_⟩
  obtain ⟨t, h1, h2, h3, h4, h5, h6⟩ := C94_transparent (σ := τ) (d := d) hun h.idle (fun b hb => by
      obtain ⟨v, hv⟩ := Option.isSome_iff_exists.1 (hpres b hb)
      exact ⟨v, hv, hv⟩) hS.ready hT hS.own (fun ds w hd hw v hv => by
      obtain ⟨hs, hssp⟩ := hall ds w (by omega) hw
      have e1 : w.cpu.regs.ssp = s.cpu.regs.ssp := hssp
      have e2 : w.cpu.regs.sr.interruptMask = s.cpu.regs.sr.interruptMask := hs.2.2
      refine ⟨?_, ?_, ?_⟩
      · unfold StackIn; rw [e1]; exact hS.stack
      · rw [e2]; exact hS.unmasked _ v hv
      · rw [e2]; exact hmask)
  have hag : ∀ b, P b = true → Ram.peek t.mem b = Ram.peek m' b := fun b hb => by
    obtain ⟨v, hv, hv'⟩ := h5 b hb
    have : Ram.peek m' b = Ram.peek m'.mem b := peek_in hb
    rw [hv', this]
    exact hv.symm
  refine ⟨t, h1, ⟨by rw [h2]; rfl, fun j k hk => ?_, fun j hj => ?_, by rw [h2]; exact ⟨rfl, rfl, rfl⟩, by rw [h2]; exact hd, by rw [h2]; exact hs, h3.trans he'.running, h4⟩, h6⟩
  · have hk4 : k < 4 := hk
    have hj := j.isLt
    rw [hag _ (by rw [at_add]; exact hP _ (.inr (.inl ⟨4 * j.val + k, by omega, rfl⟩)))]
    exact he'.vars j k hk
  · have hb := hP _ (.inl ⟨j, hj, rfl⟩)
    rw [hag _ hb]
    refine (ho _ (h.apart.codeStack j hj) fun q hq => h.apart.codeVars j hj q hq).trans (peek_in hb)

/-! ### With a timer -/

/-- The handler of the timer of C71, `ADDQ.W #1,count`, has always the same time. -/
theorem tick_serviceIn {F : U32 → Bool} {h : U32} {c : U16} (hl : TickLayout P F v h c) (h0 : v ≠ 0) (hs : ¬ LongFrame v) :
    ServiceIn (M := M) C P F (frameBytes C.STACK_FORMAT v) (Ticks F v h c) v (tickTime C) where
  toService := C71_tick_service hl h0 hs
  timed l s e hI hr hi hst he := by
    obtain ⟨f, h1, h2⟩ := tick_handles hl hI hr hi hst he
    have := QuietCallsIn.more (.none _) h1
    rw [Nat.zero_add (tickTime C)] at this
    exact ⟨1, f, this, h2⟩

theorem sum_same {l : List U8} {f : U8 → Nat} (h : ∀ x ∈ l, x = v) : (l.map f).sum = l.length * f v := by
  induction l with
  | nil => simp
  | cons x l ih =>
    rw [List.map_cons, List.sum_cons, ih fun y hy => h y (List.mem_cons_of_mem _ hy), h x (List.mem_cons_self ..), List.length_cons, Nat.succ_mul, Nat.add_comm]

theorem requested_same (τ : Nat → Nat) (k : Nat) : ∀ x ∈ requested (fun k => List.replicate (τ k) v) k, x = v := by
  induction k with
  | zero => exact fun x hx => nomatch hx
  | succ k ih =>
    intro x hx
    rcases List.mem_append.1 hx with hx | hx
    · exact ih x hx
    · exact List.eq_of_mem_replicate hx

/-- A compiled program and the timer: all calls take the time of the program in the source and the same number of cycles for each interrupt, of which `count` has the number. -/
theorem C94_timer (h : Launched ps st a σ room s) (hr : PerformsInTimed C ps st σ σ' u w) (hu : u ≤ room) (huser : s.cpu.regs.sr.s = false) (hmask : s.cpu.regs.sr.interruptMask.toNat ≤ 7)
    (hP : ∀ b, WholeByte ps st a (s.cpu.regs.a 6) (areg s.cpu.regs 7) room b → P b = true) (hpres : ∀ b, P b = true → (Ram.peek s.mem b).isSome)
    {F : U32 → Bool} {hd : U32} {c : U16} (hI : Ticks F v hd c [] s.mem) (hl : TickLayout P F v hd c) (h0 : v ≠ 0) (hs : ¬ LongFrame v)
    (hst : StackIn F (frameBytes C.STACK_FORMAT v) s) (hm : ¬ Masked s.cpu.regs.sr.interruptMask v) :
    ∃ cs, ∀ τ : Nat → Nat, ∃ N t, N = ((List.range cs.length).map τ).sum ∧
      InterruptedIn C (fun k => List.replicate (τ k) v) cs (w + N * (C.vectorExecutionTime v + (C.ADDQ_MEM_BW + C.EA_ABSSHORT) + C.RTE)) s t ∧ Completed ps st a σ' s t ∧
      Holds (sz := .Word) t.mem (signExt c) (BitVec.ofNat 16 N) := by
  obtain ⟨cs, hc⟩ := C94_compiled (C := C) h hr hu huser hmask hP hpres
  refine ⟨cs, fun τ => ?_⟩
  obtain ⟨t, h1, h2, h3⟩ := hc (d := fun _ => tickTime C) (tick_served (τ := τ) hI hl h0 hs hst hm) (fun k x hx => by rw [List.eq_of_mem_replicate hx]; exact tick_serviceIn hl h0 hs)
  rw [sum_same (requested_same τ _), requested_replicate] at h1
  exact ⟨_, t, rfl, h1, h2, requested_replicate τ v _ ▸ h3.count⟩
end

/-- 10 + 1 + 2 + 3 by recursion takes 1098 cycles and 80 more for each time the timer interrupts it. -/
example : ∃ cs σ', ∀ τ : Nat → Nat, ∃ N t, N = ((List.range cs.length).map τ).sum ∧
    InterruptedIn mc68000 (fun k => List.replicate (τ k) 26) cs (1098 + N * 80) timedDemo t ∧ Completed [addDown] (.call 0) 0x100 σ' timedDemo t ∧ Holds (sz := .Word) t.mem 0x1A8 (BitVec.ofNat 16 N) := by
  obtain ⟨σ', hr⟩ := addDown_time 3 addDownStore rfl (by decide)
  obtain ⟨cs, hc⟩ := C94_timer (P := timedProgram) timed_launched hr (Nat.le_refl _) rfl (by decide) timed_whole timed_program_present timed_ticks timed_layout (by decide) (by decide)
    ⟨by decide, by decide +kernel⟩ (by decide)
  exact ⟨cs, σ', hc⟩

/-- The hypotheses of `C94_compiled` about the exceptions. -/
example (τ : Nat → Nat) : ∀ k, ∀ v ∈ List.replicate (τ k) (26 : U8), ServiceIn (M := WordSlice) mc68000 timedProgram timedStack 6 (Ticks timedStack 26 0x1A0 0x1A8) v 16 := fun k v hv => by
  rw [List.eq_of_mem_replicate hv]
  exact tick_serviceIn timed_layout (by decide) (by decide)

end M68k.Props
