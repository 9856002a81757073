import Verif.Spec.Loop
import Verif.Lemmas.Cost
import Verif.Lemmas.Alike
import Verif.Props.C51
import Verif.Props.C26
import Verif.Props.C29
import Verif.Props.C49
/-
C36: termination of the run loops.
-/
namespace M68k.Props
open Spec Exec
set_option linter.unusedSectionVars false
variable {M : Type} [MemoryAccess M] {C : CpuDetails} {s s' : St M} {n : Nat}

/-- The loop has ended, by returning or by a panic, after at most `turns` turns. -/
def Ended {M α : Type} : LoopRes M α → Prop
  | .running _ _ => False
  | _ => True

theorem instruction_pos (hC : C = mc68000 ∨ C = scc68070) {k c : Nat} (h : fastInstruction C k s = .ok (c, none) s') : k < c := by
  unfold fastInstruction at h
  cases hg : getNextWord s with
  | ok op t =>
    rw [hg] at h
    dsimp only at h
    unfold finishStep at h
    have h2 := fastExecute_eq C ({ t with cpu := { t.cpu with currentOpcode := op } } : St M)
    dsimp only at h h2
    rw [h2] at h
    cases hx : Spec.exec C (decoder op) op ({ t with cpu := { t.cpu with currentOpcode := op } } : St M) with
    | ok d u =>
      rw [hx] at h
      have := exec_pos hC _ _ _ _ _ hx
      have h := congrArg (fun r => match r with | Res.ok (x, _) _ => x | _ => 0) h
      dsimp only at h
      omega
    | err e u => rw [hx] at h; cases h
    | panic => rw [hx] at h; cases h
  | err e t => rw [hg] at h; cases h
  | panic => rw [hg] at h; cases h

/-- A call that returns no exception and does not find the core stopped takes time. -/
theorem quiet_pos (hC : C = mc68000 ∨ C = scc68070) {c : Nat} (hr : s.cpu.stop = false) (h : interpreterException C s = .ok (c, none) s') : 0 < c := by
  unfold interpreterException at h
  rw [if_neg (by simp [hr])] at h
  obtain ⟨k, t, _, h2⟩ := bind_ok h
  have := instruction_pos hC h2
  omega

/-- `cycle_until_exception(n)` ends after at most `n` calls, whatever the state and the memory. -/
theorem C36_cycleUntilException (hC : C = mc68000 ∨ C = scc68070) (n : Nat) (s : St M) : Ended (cycleUntilException C n s n) := by
  have key : ∀ (turns total : Nat) (s : St M), n ≤ total + turns → Ended (cycleUntilExceptionLoop C n turns total s) := by
    intro turns
    induction turns with
    | zero =>
      intro total s h
      unfold cycleUntilExceptionLoop
      rw [if_neg (by omega)]
      trivial
    | succ turns ih =>
      intro total s h
      unfold cycleUntilExceptionLoop
      split
      · cases hc : interpreterException C s with
        | ok x t =>
          obtain ⟨c, e⟩ := x
          dsimp only
          split
          · trivial
          · rename_i hs
            have hs2 : e = none ∧ t.cpu.stop = false := by simpa [Option.isSome_iff_ne_none] using hs
            obtain ⟨rfl, hs3⟩ := hs2
            have hr : s.cpu.stop = false := by
              cases hst : s.cpu.stop with
              | false => rfl
              | true =>
                unfold interpreterException at hc
                rw [if_pos hst] at hc
                cases hc
                rw [hst] at hs3
                cases hs3
            have := quiet_pos hC hr hc
            exact ih _ _ (by omega)
        | err e t => trivial
        | panic => trivial
      · trivial
  exact key n 0 s (by omega)

example : Ended (cycleUntilException mc68000 3 (Demo.st [0x60FE] (Demo.regs [] [])) 3) ∧ ¬ Ended (cycleUntilException mc68000 30 (Demo.st [0x60FE] (Demo.regs [] [])) 2) :=
  ⟨trivial, id⟩

/-! ### `cycle` -/

/-- States in which the core can neither fetch an instruction nor enter an exception. -/
structure Stuck (s : St M) : Prop where
  running : s.cpu.stop = false
  pending : s.cpu.exceptions = [] ∨ s.cpu.exceptions = [⟨3⟩]
  ssp : Spec.Odd s.cpu.regs.ssp
  pc : Spec.Odd s.cpu.regs.pc

theorem stuck_idle (h : Stuck s) (hp : s.cpu.exceptions = []) : interpreterException C s = .ok (0, some 3) s := by
  rw [← instruction_idle h.running hp]
  unfold fastInstruction
  rw [getNextWord_odd h.pc]

theorem odd_firstPush {a : U32} (f : StackFormat) (h : Spec.Odd a) : Spec.Odd (a - firstPush f) := by
  have key : ∀ k : Nat, k % 2 = 0 → Spec.Odd (a - BitVec.ofNat 32 k) := fun k hk => (odd_at hk).1 (by rw [at_sub]; exact h)
  cases f
  · exact key 4 rfl
  · exact key 2 rfl

theorem stuck_step (h : Stuck s) : ∃ s', interpreter C s = .ok 0 s' ∧ Stuck s' := by
  have hc : ∃ t, interpreterException C s = .ok (0, some 3) t ∧ Stuck t := by
    rcases h.pending with hp | hp
    · exact ⟨s, stuck_idle h hp, h⟩
    · have := C26_oddStack (C := C) (v := 3) h.running hp (by decide) (fun hm => absurd hm.1 (by decide)) h.ssp
      have hst : Stuck ((s.withRegs fun r => { r with sr := entrySr 3 r.sr, ssp := r.ssp - firstPush C.STACK_FORMAT }).withPending []) :=
        ⟨h.running, .inl rfl, odd_firstPush _ h.ssp, h.pc⟩
      rw [stuck_idle hst rfl] at this
      exact ⟨_, this, ⟨h.running, .inr rfl, odd_firstPush _ h.ssp, h.pc⟩⟩
  obtain ⟨t, h1, h2⟩ := hc
  refine ⟨{ t with cpu := t.cpu.exception ⟨3⟩ }, ?_, ?_⟩
  · unfold interpreter
    rw [bind_eq h1]
    rfl
  · refine ⟨?_, .inr ?_, h2.ssp, h2.pc⟩
    · exact h2.running
    · show (t.cpu.exception ⟨3⟩).exceptions = _
      rw [exception_exceptions]
      rcases h2.pending with hp | hp <;> rw [hp] <;> rfl

/-- `cycle(n)` does not return if both the supervisor stack pointer and the program counter are odd: each call ends with an address error and 0 cycles, however
often it is repeated. -/
theorem C36_cycle_refuted (hn : 0 < n) (hr : s.cpu.stop = false) (hp : s.cpu.exceptions = []) (h1 : Spec.Odd s.cpu.regs.ssp) (h2 : Spec.Odd s.cpu.regs.pc) (turns : Nat) :
    ¬ Ended (cycle C n s turns) := by
  have key : ∀ (turns : Nat) (s : St M), Stuck s → ¬ Ended (cycleLoop C n turns 0 s) := by
    intro turns
    induction turns with
    | zero =>
      intro s h
      unfold cycleLoop
      rw [if_pos hn]
      exact id
    | succ turns ih =>
      intro s h
      obtain ⟨t, h1, h2⟩ := stuck_step (C := C) h
      unfold cycleLoop
      rw [if_pos hn, h1]
      dsimp only
      rw [if_neg (by rw [h2.running]; decide)]
      exact ih t h2
  exact key turns s ⟨hr, .inl hp, h1, h2⟩

/-- Such a state is reached by a host that sets both registers. -/
example : ∃ s : St WordSlice, History mc68000 s ∧ s.cpu.stop = false ∧ s.cpu.exceptions = [] ∧ Spec.Odd s.cpu.regs.ssp ∧ Spec.Odd s.cpu.regs.pc :=
  ⟨_, (History.newNoReset (⟨[]⟩ : WordSlice)).act (.host _ { Demo.regs [] [] with ssp := 1, pc := 1 } false ⟨[]⟩), rfl, rfl, by decide, by decide⟩

/-- States in which every word is the instruction TRAP #0 and an on-chip interrupt is held back. -/
structure Trapping (v : U8) (s : St M) : Prop where
  running : s.cpu.stop = false
  pending : s.cpu.exceptions = [⟨v⟩]
  onChip : 57 ≤ v.toNat ∧ v.toNat ≤ 63
  masked : Masked s.cpu.regs.sr.interruptMask v
  pc : ¬ Spec.Odd s.cpu.regs.pc
  words : ∀ a, MemoryAccess.getWord a s.mem = .val 0x4E40 s.mem

theorem onChip_priority {v : U8} (h : 57 ≤ v.toNat ∧ v.toNat ≤ 63) : (⟨v⟩ : Exception).priority = 255 := by
  have key : ∀ v : U8, 57 ≤ v.toNat ∧ v.toNat ≤ 63 → getVectorPriority v = 255 := by decide +kernel
  exact key v h

theorem trapping_step {v : U8} (h : Trapping v s) : ∃ s', interpreter C s = .ok 0 s' ∧ Trapping v s' := by
  have hpend : pendingCycles C s = .ok 0 s := by
    unfold pendingCycles
    rw [if_neg (by rw [h.pending]; exact fun h => nomatch h), process_eq (by rw [h.pending]; exact List.pairwise_singleton _ _), h.pending]
    have hh : isHeld s.cpu.regs.sr.interruptMask ⟨v⟩ = true := held_iff.2 h.masked
    rw [List.filter_cons_of_neg (by simp [hh]), List.filter_cons_of_pos (by simp [hh]), List.filter_nil, List.filter_nil, ← h.pending]
    rfl
  have hready : Ready (s.withPending []) 0x4E40 { (s.withPending []) with cpu := { (s.withPending []).cpu with currentOpcode := 0x4E40, regs := { s.cpu.regs with pc := s.cpu.regs.pc + 2 } } } :=
    ⟨h.running, rfl, h.pc, s.mem, h.words _, rfl⟩
  have hraise := C49_trap (C := C) 0 hready
  let t : St M := { s with cpu := { s.cpu with currentOpcode := 0x4E40, regs := { s.cpu.regs with pc := s.cpu.regs.pc + 2 } } }
  have hcall : interpreterException C s = .ok (0, some 32) t := by
    unfold interpreterException
    rw [if_neg (by simp [h.running]), bind_eq hpend, instruction_eq h.running, show interpreterException C (s.withPending []) = _ from hraise]
    rfl
  have hsame : (t.cpu.exception ⟨32⟩).exceptions = s.cpu.exceptions := by
    rw [exception_exceptions]
    show insertException ⟨32⟩ s.cpu.exceptions = _
    rw [h.pending]
    unfold insertException
    rw [if_pos (by rw [onChip_priority h.onChip]; rfl)]
  refine ⟨{ t with cpu := t.cpu.exception ⟨32⟩ }, ?_, ?_⟩
  · unfold interpreter
    rw [bind_eq hcall]
    rfl
  · refine ⟨h.running, by rw [← h.pending]; exact hsame, h.onChip, h.masked, ?_, h.words⟩
    intro ho
    exact h.pc ((odd_at (k := 2) rfl).1 ho)

/-- `cycle(n)` does not return, even if both the supervisor stack pointer and the program counter are even and every address can be read and written, if each word is the instruction
TRAP #0 and an on-chip interrupt is held back by the mask: it has the rank of the trap, so that each trap is dropped, and the calls take 0 cycles. -/
theorem C36_held_refuted {v : U8} (hn : 0 < n) (hr : s.cpu.stop = false) (hp : s.cpu.exceptions = [⟨v⟩]) (hv : 57 ≤ v.toNat ∧ v.toNat ≤ 63)
    (hm : Masked s.cpu.regs.sr.interruptMask v) (hpc : ¬ Spec.Odd s.cpu.regs.pc) (hw : ∀ a, MemoryAccess.getWord a s.mem = .val 0x4E40 s.mem) (turns : Nat) :
    ¬ Ended (cycle C n s turns) := by
  have key : ∀ (turns : Nat) (s : St M), Trapping v s → ¬ Ended (cycleLoop C n turns 0 s) := by
    intro turns
    induction turns with
    | zero =>
      intro s h
      unfold cycleLoop
      rw [if_pos hn]
      exact id
    | succ turns ih =>
      intro s h
      obtain ⟨t, h1, h2⟩ := trapping_step (C := C) h
      unfold cycleLoop
      rw [if_pos hn, h1]
      dsimp only
      rw [if_neg (by rw [h2.running]; decide)]
      exact ih t h2
  exact key turns s ⟨hr, hp, hv, hm, hpc, hw⟩

/-- A memory whose every word reads TRAP #0. -/
structure Traps where
instance : MemoryAccess Traps where
  getByte _ m := .val 0x4E m
  getWord _ m := .val 0x4E40 m
  setByte _ _ m := .val () m
  setWord _ _ m := .val () m
  resetInstruction m := m

/-- Such a state is reached by a host that requests the on-chip interrupt of level 2 after setting the mask to 7. -/
example : ∃ s : St Traps, History scc68070 s ∧ s.cpu.stop = false ∧ s.cpu.exceptions = [⟨58⟩] ∧ Masked s.cpu.regs.sr.interruptMask 58 ∧ ¬ Spec.Odd s.cpu.regs.pc ∧
    ¬ Spec.Odd s.cpu.regs.ssp ∧ ∀ a, MemoryAccess.getWord a s.mem = .val 0x4E40 s.mem :=
  ⟨_, ((History.newNoReset Traps.mk).act (.host _ { Demo.regs [] [] with sr := { (Demo.regs [] []).sr with interruptMask := 7 } } false Traps.mk)).act (.request _ 58),
    rfl, rfl, by decide, by decide, by decide, fun _ => rfl⟩

/-! ### When `cycle` does end -/

theorem vector_pos (hC : C = mc68000 ∨ C = scc68070) (v : U8) : 0 < C.vectorExecutionTime v := by
  rcases hC with rfl | rfl
  · show 0 < mc68000VectorExecutionTime v
    unfold mc68000VectorExecutionTime
    dsimp only
    repeat' split
    all_goals decide
  · show 0 < scc68070VectorExecutionTime v
    unfold scc68070VectorExecutionTime
    dsimp only
    repeat' split
    all_goals decide

/-- No on-chip interrupt of the SCC68070 (vectors 57 to 63) is pending. -/
def NoOnChip (s : St M) : Prop := ∀ e ∈ s.cpu.exceptions, ¬ (57 ≤ e.vector.toNat ∧ e.vector.toNat ≤ 63)

/-- A computation in supervisor mode with an even stack pointer keeps both, and fails with access errors only. -/
def OnEven {α : Type} (x : Exec M α) : Prop := ∀ s : St M, s.cpu.regs.sr.s = true → ¬ Spec.Odd s.cpu.regs.ssp →
  match x s with
  | .ok _ t => t.cpu.regs.sr.s = true ∧ ¬ Spec.Odd t.cpu.regs.ssp
  | .err e t => e = 2 ∧ t.cpu.regs.sr.s = true ∧ ¬ Spec.Odd t.cpu.regs.ssp
  | .panic => True

theorem OnEven.bind {α β : Type} {x : Exec M α} {f : α → Exec M β} (hx : OnEven x) (hf : ∀ a, OnEven (f a)) : OnEven (x >>= f) := by
  intro s h1 h2
  have := hx s h1 h2
  rw [Exec.bind_apply]
  cases hc : x s with
  | ok a t => rw [hc] at this; exact hf a t this.1 this.2
  | err e t => rw [hc] at this; exact this
  | panic => trivial

theorem OnEven.access {α : Type} (f : M → MRes M α) : OnEven (access f) := by
  intro s h1 h2
  unfold Spec.access
  cases f s.mem with
  | val a m => exact ⟨h1, h2⟩
  | none m => exact ⟨rfl, h1, h2⟩
  | panic => trivial

theorem OnEven.push {sz : Size} (hsz : sz ≠ .Byte) (x : Val sz) : OnEven (Spec.push sz x : Exec M Unit) := by
  intro s h1 h2
  have hp : Spec.push sz x s = store sz (areg s.cpu.regs 7 - Spec.step 7 sz) x (s.withRegs fun r => setAreg r 7 (areg r 7 - Spec.step 7 sz)) := rfl
  have hodd : ¬ Spec.Odd (s.cpu.regs.ssp - BitVec.ofNat 32 (bytes sz)) := by
    cases sz with
    | Byte => exact absurd rfl hsz
    | Word => exact even_sub h2 1
    | Long => exact even_sub h2 2
  rw [hp]
  unfold store
  rw [areg7_s _ h1, step7 hsz, if_neg (fun h => hodd h.2)]
  refine OnEven.access _ _ ?_ ?_
  · show (setAreg s.cpu.regs 7 (areg s.cpu.regs 7 - BitVec.ofNat 32 (bytes sz))).sr.s = true
    rw [setAreg7_s _ h1]
    exact h1
  · show ¬ Spec.Odd (setAreg s.cpu.regs 7 (areg s.cpu.regs 7 - BitVec.ofNat 32 (bytes sz))).ssp
    rw [setAreg7_s _ h1, areg7_s _ h1]
    exact hodd

theorem OnEven.pushItems (is : List Item) : OnEven (Exec.pushItems is : Exec M Unit) := by
  induction is with
  | nil => exact fun s h1 h2 => ⟨h1, h2⟩
  | cons i is ih =>
    refine OnEven.bind ?_ fun _ => ih
    cases i with
    | w x => exact OnEven.push (sz := .Word) (by decide) x
    | l x => exact OnEven.push (sz := .Long) (by decide) x

/-- The entry of an exception keeps an even stack pointer even, and the only failure is an access error. -/
theorem process_even (v : U8) (he : ¬ Spec.Odd s.cpu.regs.ssp) :
    match processException C v s with
    | .ok n t => ¬ Spec.Odd t.cpu.regs.ssp ∧ n = C.vectorExecutionTime v
    | .err e t => e = 2 ∧ ¬ Spec.Odd t.cpu.regs.ssp
    | .panic => True := by
  rw [processException_eq]
  unfold enter
  rw [bind_eq (x := setFlags (entrySr v)) (s' := s.withRegs fun r => { r with sr := entrySr v r.sr }) rfl]
  have h1 := OnEven.pushItems (M := M) (frameItems C.STACK_FORMAT v (srWord s.cpu.regs.sr) s.cpu.regs.pc s.cpu.currentOpcode)
    (s.withRegs fun r => { r with sr := entrySr v r.sr }) rfl he
  rw [Exec.bind_apply]
  split at h1
  · rename_i u t ht
    rw [ht]
    dsimp only
    have h2 := OnEven.access (M := M) (MemoryAccess.getLong (vectorAddress v)) t h1.1 h1.2
    rw [Exec.bind_apply]
    split at h2
    · rename_i pc w hw
      rw [hw]
      exact ⟨h2.2, rfl⟩
    · rename_i e w hw
      rw [hw]
      exact ⟨h2.1, h2.2.2⟩
    · rename_i hw
      rw [hw]
      trivial
  · rename_i e t ht
    rw [ht]
    exact ⟨h1.1, h1.2.2⟩
  · rename_i ht
    rw [ht]
    trivial

theorem reset_time {k : Nat} (h : reset C s = .ok k s') : k = C.VECTOR_RESET := by
  unfold reset at h
  obtain ⟨a, t1, h1, h⟩ := bind_ok h
  obtain ⟨_, t2, h2, h⟩ := bind_ok h
  obtain ⟨b, t3, h3, h⟩ := bind_ok h
  obtain ⟨_, t4, h4, h⟩ := bind_ok h
  obtain ⟨_, t5, h5, h⟩ := bind_ok h
  obtain ⟨_, t6, h6, h⟩ := bind_ok h
  cases h
  rfl

theorem priority_two {x : Exception} (h : x.priority = (⟨2⟩ : Exception).priority) : x = ⟨2⟩ := by
  obtain ⟨v⟩ := x
  have key : ∀ v : U8, getVectorPriority v = 1 → v = 2 := by decide +kernel
  rw [key v h]

theorem two_mem (es : List Exception) : ⟨2⟩ ∈ insertException ⟨2⟩ es := by
  by_cases h : ⟨2⟩ ∈ es
  · exact mem_insert_of_mem h
  · exact mem_insert_self fun x hx hp => h (priority_two hp ▸ hx)

/-- The processing of a list of exceptions: if it took no time, then none was entered. Those that are not interrupts have left an access error pending. -/
theorem processList_progress (hC : C = mc68000 ∨ C = scc68070) : ∀ (es : List Exception) (n k : Nat) (s s' : St M), ¬ Spec.Odd s.cpu.regs.ssp →
    processList C es n s = .ok k s' →
    (0 < n → 0 < k) ∧ (⟨2⟩ ∈ es → 0 < k) ∧ (∀ x ∈ s'.cpu.exceptions, x ∈ s.cpu.exceptions ∨ x = ⟨2⟩ ∨ x = ⟨24⟩) ∧
    (k = 0 → (∀ x ∈ s.cpu.exceptions, x ∈ s'.cpu.exceptions) ∧ ((∃ e ∈ es, ¬ InterruptVector e.vector) → ⟨2⟩ ∈ s'.cpu.exceptions))
  | [], n, k, s, s', he, h => by
    cases h
    exact ⟨id, (fun h => by cases h), (fun x hx => .inl hx), fun _ => ⟨fun x hx => hx, fun ⟨x, hx, _⟩ => by cases hx⟩⟩
  | e :: es, n, k, s, s', he, h => by
    unfold processList at h
    dsimp only at h
    split at h
    · have hk := reset_time h
      have hx := reset_pending h rfl
      have hpos : 0 < k := by rw [hk]; rcases hC with rfl | rfl <;> decide
      refine ⟨fun _ => hpos, fun _ => hpos, fun x hx' => ?_, fun h0 => by omega⟩
      rw [hx] at hx'
      cases hx'
    · have hev := process_even (C := C) e.vector he
      cases hx : processException C e.vector s with
      | ok c t =>
        rw [hx] at h hev
        have hc : 0 < c := by rw [hev.2]; exact vector_pos hC _
        obtain ⟨i1, i2, i3, i4⟩ := processList_progress hC es _ _ _ _ hev.1 h
        have hk : 0 < k := i1 (by omega)
        have hkeep : t.cpu.exceptions = s.cpu.exceptions := Blind.processException.keeps hx
        rw [hkeep] at i3
        exact ⟨fun _ => hk, fun _ => hk, i3, fun h0 => by omega⟩
      | err x t =>
        rw [hx] at h hev
        obtain ⟨rfl, hev⟩ := hev
        have hkeep : t.cpu.exceptions = s.cpu.exceptions := Blind.processException.keeps_err hx
        dsimp only at h
        rw [if_pos (show (2 : U8) = ACCESS_ERROR from rfl)] at h
        split at h
        · cases h
        · rename_i hne
          have hne2 : e ≠ ⟨2⟩ := fun h => hne (by rw [h]; rfl)
          split at h
          · rename_i hint
            obtain ⟨i1, i2, i3, i4⟩ := processList_progress hC es n k ({ t with cpu := t.cpu.exception ⟨24⟩ } : St M) s' hev h
            have hins : ({ t with cpu := t.cpu.exception ⟨24⟩ } : St M).cpu.exceptions = insertException ⟨24⟩ s.cpu.exceptions := by
              show (t.cpu.exception ⟨24⟩).exceptions = _
              rw [exception_exceptions, hkeep]
            rw [hins] at i3 i4
            refine ⟨i1, fun hm => ?_, fun x hx => ?_, fun h0 => ⟨fun x hx => (i4 h0).1 x (mem_insert_of_mem hx), ?_⟩⟩
            · rcases List.mem_cons.1 hm with h2 | h2
              · exact absurd h2.symm hne2
              · exact i2 h2
            · rcases i3 x hx with h2 | h2
              · rcases mem_insert h2 with h2 | h2
                · exact .inr (.inr h2)
                · exact .inl h2
              · exact .inr h2
            · rintro ⟨y, hy, hyv⟩
              rcases List.mem_cons.1 hy with rfl | hy
              · exact absurd (interruptVector_iff.1 hint) hyv
              · exact (i4 h0).2 ⟨y, hy, hyv⟩
          · obtain ⟨i1, i2, i3, i4⟩ := processList_progress hC es n k ({ t with cpu := t.cpu.exception ⟨2⟩ } : St M) s' hev h
            have hins : ({ t with cpu := t.cpu.exception ⟨2⟩ } : St M).cpu.exceptions = insertException ⟨2⟩ s.cpu.exceptions := by
              show (t.cpu.exception ⟨2⟩).exceptions = _
              rw [exception_exceptions, hkeep]
            rw [hins] at i3 i4
            refine ⟨i1, fun hm => ?_, fun x hx => ?_, fun h0 => ⟨fun x hx => (i4 h0).1 x (mem_insert_of_mem hx), fun _ => (i4 h0).1 _ (two_mem _)⟩⟩
            · rcases List.mem_cons.1 hm with h2 | h2
              · exact absurd h2.symm hne2
              · exact i2 h2
            · rcases i3 x hx with h2 | h2
              · rcases mem_insert h2 with h2 | h2
                · exact .inr (.inl h2)
                · exact .inl h2
              · exact .inr h2
      | panic => rw [hx] at h; cases h

open Classical in
/-- How many calls without any time can follow: none if an access error is pending, one if another exception that cannot be held back, else two. -/
noncomputable def patience (s : St M) : Nat :=
  if ⟨2⟩ ∈ s.cpu.exceptions then 0 else if ∃ e ∈ s.cpu.exceptions, ¬ InterruptVector e.vector then 1 else 2

theorem canRaise_facts {v : U8} (h : CanRaise v) : ¬ InterruptVector v ∧ ¬ (57 ≤ v.toNat ∧ v.toNat ≤ 63) ∧ rank v ≠ 3 := by
  have key : ∀ v : U8, CanRaise v → ¬ InterruptVector v ∧ ¬ (57 ≤ v.toNat ∧ v.toNat ≤ 63) ∧ rank v ≠ 3 := by
    unfold InterruptVector
    decide +kernel
  exact key v h

theorem interrupt_rank {v : U8} (h : InterruptVector v) (h2 : ¬ (57 ≤ v.toNat ∧ v.toNat ≤ 63)) : rank v = 3 := by
  have key : ∀ v : U8, InterruptVector v → ¬ (57 ≤ v.toNat ∧ v.toNat ≤ 63) → rank v = 3 := by
    unfold InterruptVector
    decide +kernel
  exact key v h h2

/-- What one call makes of the exceptions pending before it. -/
theorem pending_progress (hC : C = mc68000 ∨ C = scc68070) (h : History C s) (he : ¬ Spec.Odd s.cpu.regs.ssp) {k : Nat} {t : St M}
    (hk : pendingCycles C s = .ok k t) :
    (∀ x ∈ t.cpu.exceptions, x ∈ s.cpu.exceptions ∨ x = ⟨2⟩ ∨ x = ⟨24⟩) ∧ (⟨2⟩ ∈ s.cpu.exceptions → 0 < k) ∧
    (k = 0 → (∃ e ∈ s.cpu.exceptions, ¬ InterruptVector e.vector) → ⟨2⟩ ∈ t.cpu.exceptions) := by
  unfold pendingCycles at hk
  split at hk
  · rename_i hp
    have hp : s.cpu.exceptions = [] := by simpa using hp
    cases hk
    exact ⟨fun x hx => .inl hx, (fun h => by rw [hp] at h; cases h), fun _ ⟨x, hx, _⟩ => by rw [hp] at hx; cases hx⟩
  · rw [process_eq (history_sorted h)] at hk
    have hfree : ∀ x ∈ s.cpu.exceptions, ¬ InterruptVector x.vector → x ∈ s.cpu.exceptions.filter fun e => !isHeld s.cpu.regs.sr.interruptMask e := by
      intro x hx hv
      refine List.mem_filter.2 ⟨hx, ?_⟩
      cases hh : isHeld s.cpu.regs.sr.interruptMask x with
      | false => rfl
      | true => exact absurd (held_iff.1 hh).1 hv
    obtain ⟨-, i2, i3, i4⟩ := processList_progress hC _ _ _ _ _ (by exact he) hk
    refine ⟨fun x hx => ?_, fun h2 => i2 (hfree _ h2 (by unfold InterruptVector; decide)), fun h0 ⟨x, hx, hv⟩ => (i4 h0).2 ⟨x, hfree x hx hv, hv⟩⟩
    rcases i3 x hx with h2 | h2
    · exact .inl (List.mem_filter.1 h2).1
    · exact .inr h2

theorem step_progress (hC : C = mc68000 ∨ C = scc68070) (h : History C s)
    (hr : s.cpu.stop = false) (hn : NoOnChip s) (he : ¬ Spec.Odd s.cpu.regs.ssp) {c : Nat} (hc : interpreter C s = .ok c s') :
    NoOnChip s' ∧ (0 < c ∨ patience s' < patience s) := by
  obtain ⟨e, t, h1, h2⟩ := run_call hc
  have hcan : ∀ v, e = some v → CanRaise v := by
    rintro v rfl
    exact C51_raised h1
  have hquiet : e = none → 0 < c := by
    rintro rfl
    exact quiet_pos hC hr h1
  unfold interpreterException at h1
  rw [if_neg (by simp [hr])] at h1
  obtain ⟨k, u, h3, h4⟩ := bind_ok h1
  obtain ⟨i1, i2, i3⟩ := pending_progress hC h he h3
  have hkeep : t.cpu.exceptions = u.cpu.exceptions := (Blind.instruction k).keeps h4
  have hkc : c = 0 → k = 0 := by
    intro h0
    rw [instruction_later] at h4
    cases hf : fastInstruction C 0 u with
    | ok x w =>
      rw [hf] at h4
      have h4 := congrArg (fun r => match r with | Res.ok (x, _) _ => x | _ => 0) h4
      have h4 : k + x.1 = c := h4
      omega
    | err e w => rw [hf] at h4; cases h4
    | panic => rw [hf] at h4; cases h4
  have hu : ∀ x ∈ u.cpu.exceptions, ¬ (57 ≤ x.vector.toNat ∧ x.vector.toNat ≤ 63) := by
    intro x hx
    rcases i1 x hx with h | rfl | rfl
    · exact hn x h
    · decide
    · decide
  cases e with
  | none =>
    cases h2
    refine ⟨fun x hx => ?_, .inl (hquiet rfl)⟩
    rw [hkeep] at hx
    exact hu x hx
  | some v =>
    cases h2
    obtain ⟨f1, f2, f3⟩ := canRaise_facts (hcan v rfl)
    have hins : ({ t with cpu := t.cpu.exception ⟨v⟩ } : St M).cpu.exceptions = insertException ⟨v⟩ u.cpu.exceptions := by
      show (t.cpu.exception ⟨v⟩).exceptions = _
      rw [exception_exceptions, hkeep]
    refine ⟨fun x hx => ?_, ?_⟩
    · rw [hins] at hx
      rcases mem_insert hx with rfl | hx
      · exact f2
      · exact hu x hx
    · by_cases h0 : c = 0
      · refine .inr ?_
        have hk := hkc h0
        unfold patience
        rw [hins]
        by_cases c1 : ⟨2⟩ ∈ s.cpu.exceptions
        · exact absurd (i2 c1) (by omega)
        · rw [if_neg c1]
          by_cases c2 : ∃ e ∈ s.cpu.exceptions, ¬ InterruptVector e.vector
          · rw [if_pos c2, if_pos (mem_insert_of_mem (i3 hk c2))]
            decide
          · rw [if_neg c2]
            split
            · decide
            · rename_i c3
              rw [if_pos]
              · decide
              · refine ⟨⟨v⟩, mem_insert_self fun x hx hp => ?_, f1⟩
                have hrank := rank_eq.1 hp
                rcases i1 x hx with h | rfl | rfl
                · have hint : InterruptVector x.vector := by
                    by_cases hi : InterruptVector x.vector
                    · exact hi
                    · exact absurd ⟨x, h, hi⟩ c2
                  exact f3 (by rw [← interrupt_rank hint (hn x h)]; exact hrank.symm)
                · exact c3 (mem_insert_of_mem hx)
                · exact f3 hrank.symm
      · exact .inl (by omega)

/-- `cycle(n)` ends after at most `3 n + 2` calls, whatever the memory does and whatever instructions it holds, if the supervisor stack pointer is even before each of the calls and no
on-chip interrupt is pending at the beginning. The full property would have no such conditions, but both are needed: see `C36_cycle_refuted` and `C36_held_refuted`. -/
theorem C36_cycle_partial (hC : C = mc68000 ∨ C = scc68070) (h : History C s)
    (hn : NoOnChip s) (he : ∀ cs t, Ran C cs s t → ¬ Spec.Odd t.cpu.regs.ssp) (n : Nat) : Ended (cycle C n s (3 * n + 2)) := by
  have hle : ∀ t : St M, patience t ≤ 2 := by
    intro t
    unfold patience
    split
    · decide
    · split <;> decide
  have key : ∀ (turns total : Nat) (s : St M), History C s → NoOnChip s → (∀ cs t, Ran C cs s t → ¬ Spec.Odd t.cpu.regs.ssp) →
      3 * (n - total) + patience s ≤ turns → Ended (cycleLoop C n turns total s) := by
    intro turns
    induction turns with
    | zero =>
      intro total s _ _ _ h
      unfold cycleLoop
      rw [if_neg (by omega)]
      trivial
    | succ turns ih =>
      intro total s hh hn he h
      unfold cycleLoop
      split
      · rename_i ht
        cases hc : interpreter C s with
        | ok c t =>
          dsimp only
          split
          · trivial
          · rename_i hst
            have hr : s.cpu.stop = false := by
              cases hs : s.cpu.stop with
              | false => rfl
              | true =>
                obtain ⟨e, u, h1, h2⟩ := run_call hc
                unfold interpreterException at h1
                rw [if_pos hs] at h1
                cases h1
                cases h2
                exact absurd hs hst
            obtain ⟨h1, h2⟩ := step_progress hC hh hr hn (he [] s (.nil s)) hc
            refine ih _ _ (hh.act (.run hc)) h1 (fun cs u hu => he (c :: cs) u (.cons hc hu)) ?_
            have := hle t
            rcases h2 with h2 | h2 <;> omega
        | err e t => trivial
        | panic => trivial
      · trivial
  have := hle s
  exact key _ 0 s h hn he (by omega)

namespace Held
def r : Registers := { Demo.regs [] [] with sr := { (Demo.regs [] []).sr with interruptMask := 7 } }
def s0 : St WordSlice := ⟨⟨r, 0xFFFF, false, [⟨26⟩]⟩, ⟨[0x60FE]⟩⟩
def s1 : St WordSlice := ⟨⟨r, 0x60FE, false, [⟨26⟩]⟩, ⟨[0x60FE]⟩⟩
theorem h0 : interpreter mc68000 s0 = .ok 10 s1 := rfl
theorem h1 : interpreter mc68000 s1 = .ok 10 s1 := rfl
end Held

/-- `BRA` to itself, with the interrupt of level 2 held back. -/
example : ∃ s : St WordSlice, History mc68000 s ∧ s.cpu.exceptions = [⟨26⟩] ∧ NoOnChip s ∧ ∀ cs t, Ran mc68000 cs s t → ¬ Spec.Odd t.cpu.regs.ssp := by
  have key : ∀ cs (s t : St WordSlice), Ran mc68000 cs s t → (s = Held.s0 ∨ s = Held.s1) → ¬ Spec.Odd t.cpu.regs.ssp := by
    intro cs s t hran
    induction hran with
    | nil s => rintro (rfl | rfl) <;> decide
    | cons hc _ ih =>
      rintro (rfl | rfl)
      · rw [Held.h0] at hc; cases hc; exact ih (.inr rfl)
      · rw [Held.h1] at hc; cases hc; exact ih (.inr rfl)
  refine ⟨Held.s0, ((History.newNoReset (⟨[0x60FE]⟩ : WordSlice)).act (.request _ 26)).act (.host _ Held.r false _), rfl, ?_, fun cs t h => key cs _ t h (.inl rfl)⟩
  intro e he
  obtain rfl := List.mem_singleton.1 he
  decide

end M68k.Props
