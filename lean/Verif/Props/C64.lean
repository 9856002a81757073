import Verif.Props.C27
import Verif.Props.C29
import Verif.Props.C36
import Verif.Lemmas.Total
/-
C64: exceptions that a program raises reach their handlers, and a system call returns.
-/
namespace M68k.Props
open Spec Exec
set_option linter.unusedSectionVars false
variable {M : Type} [MemoryAccess M] {C : CpuDetails} {s s' s1 t t1 : St M} {v : U8}

theorem filter_insert_only {p : Exception → Bool} {e : Exception} {es : List Exception} (he : p e = true) (hes : ∀ x ∈ es, p x = false)
    (hne : ∀ x ∈ es, x.priority ≠ e.priority) : (insertException e es).filter p = [e] ∧ (insertException e es).filter (fun x => !p x) = es := by
  induction es with
  | nil => exact ⟨by unfold insertException; simp [he], by unfold insertException; simp [he]⟩
  | cons y es ih =>
    have hy := hes y List.mem_cons_self
    obtain ⟨i1, i2⟩ := ih (fun x hx => hes x (List.mem_cons_of_mem _ hx)) (fun x hx => hne x (List.mem_cons_of_mem _ hx))
    unfold insertException
    rw [if_neg (fun h => hne y List.mem_cons_self h.symm)]
    split
    · constructor
      · rw [List.filter_cons_of_pos he, List.filter_eq_nil_iff.2]
        intro x hx
        rw [hes x hx]
        decide
      · rw [List.filter_cons_of_neg (by simp [he]), List.filter_eq_self]
        intro x hx
        rw [hes x hx]
        rfl
    · constructor
      · rw [List.filter_cons_of_neg (by simp [hy])]
        exact i1
      · rw [List.filter_cons_of_pos (by simp [hy]), i2]

/-- Whatever instruction a call of `interpreter` ends with an exception `v`, in the state `t`: the exception is entered at the beginning of the next call, and the handler goes on
in the state `s'`, the status register and the program counter of `t` being on the stack. Interrupts that were held back remain pending. They must not be on-chip interrupts, and
the supervisor stack pointer must be even and memory be present for the frame and the vector. The full property would allow on-chip interrupts: see `C64_lost_refuted`. -/
theorem C64_raised_partial [Ram M] [Writable M] (h : History C s) {c : Nat} (hc : interpreterException C s = .ok (c, some v) t)
    (hr : t.cpu.stop = false) (hheld : ∀ e ∈ t.cpu.exceptions, Masked t.cpu.regs.sr.interruptMask e.vector ∧ ¬ (57 ≤ e.vector.toNat ∧ e.vector.toNat ≤ 63))
    (he : ¬ Spec.Odd t.cpu.regs.ssp)
    (hframe : Present t.mem (t.cpu.regs.ssp - BitVec.ofNat 32 (frameBytes C.STACK_FORMAT v)) (frameBytes C.STACK_FORMAT v))
    (hvec : Present t.mem (vectorAddress v) 4) :
    ∃ u s', interpreter C s = .ok c u ∧ Entered C v (t.withPending []) s' ∧
      interpreterException C u = leaving t.cpu.exceptions (later (C.vectorExecutionTime v) (interpreterException C s')) := by
  have hcan := C51_raised hc
  obtain ⟨f1, f2, f3⟩ := canRaise_facts hcan
  have hv0 : v ≠ 0 := by rintro rfl; exact absurd hcan (by decide)
  have hun : ¬ Masked t.cpu.regs.sr.interruptMask v := fun hm => f1 hm.1
  have hu : interpreter C s = .ok c { t with cpu := t.cpu.exception ⟨v⟩ } := by
    unfold interpreter
    rw [bind_eq hc]
    rfl
  have hregs : (t.cpu.exception ⟨v⟩).regs = t.cpu.regs := by unfold Cpu.exception; dsimp only; split <;> rfl
  have hstop : (t.cpu.exception ⟨v⟩).stop = false := exception_stop _ _ hr
  have hop : (t.cpu.exception ⟨v⟩).currentOpcode = t.cpu.currentOpcode := by unfold Cpu.exception; dsimp only; split <;> rfl
  have hne : ∀ x ∈ t.cpu.exceptions, x.priority ≠ (⟨v⟩ : Exception).priority := by
    intro x hx hp
    refine f3 ?_
    rw [← interrupt_rank (hheld x hx).1.1 (hheld x hx).2]
    exact (rank_eq.1 hp).symm
  obtain ⟨g1, g2⟩ := filter_insert_only (p := fun e => decide (¬ Masked t.cpu.regs.sr.interruptMask e.vector)) (e := ⟨v⟩) (es := t.cpu.exceptions)
    (decide_eq_true hun) (fun x hx => decide_eq_false (fun hn => hn (hheld x hx).1)) hne
  have g3 : ((insertException ⟨v⟩ t.cpu.exceptions).filter fun e => decide (Masked t.cpu.regs.sr.interruptMask e.vector)) = t.cpu.exceptions := by
    rw [← g2]
    congr 1
    · funext e
      simp
    · rw [g2]
  have hsum : framesBytes C.STACK_FORMAT [⟨v⟩] = frameBytes C.STACK_FORMAT v := rfl
  have hex := exception_exceptions t.cpu ⟨v⟩
  have hs := history_sorted (h.act (.run hu))
  have hd : ∀ e : Exception, isHeld t.cpu.regs.sr.interruptMask e = decide (Masked t.cpu.regs.sr.interruptMask e.vector) := by
    intro e
    rw [Bool.eq_iff_iff, decide_eq_true_iff]
    exact held_iff
  let u : St M := { t with cpu := t.cpu.exception ⟨v⟩ }
  have hpe : u.cpu.exceptions = insertException ⟨v⟩ t.cpu.exceptions := hex
  have hnil : u.cpu.exceptions ≠ [] := by
    rw [hpe]
    exact List.ne_nil_of_mem (mem_insert_self hne)
  have hur : u.cpu.regs = t.cpu.regs := hregs
  have hwp : ∀ es, u.withPending es = t.withPending es := by
    intro es
    have : ({ u.cpu with exceptions := es } : Cpu) = { t.cpu with exceptions := es } := by
      show (⟨u.cpu.regs, u.cpu.currentOpcode, u.cpu.stop, es⟩ : Cpu) = ⟨t.cpu.regs, t.cpu.currentOpcode, t.cpu.stop, es⟩
      rw [hur, show u.cpu.stop = t.cpu.stop from hstop.trans hr.symm, show u.cpu.currentOpcode = t.cpu.currentOpcode from hop]
    unfold St.withPending
    rw [this]
  obtain ⟨k, s', h1, h2⟩ := processList_enters (C := C) [⟨v⟩] 0 (t.withPending t.cpu.exceptions)
    (fun e he => by rw [List.mem_singleton.1 he]; exact hv0) he (by rw [hsum]; exact hframe) (fun e he => by rw [List.mem_singleton.1 he]; exact hvec)
  have hk : k = C.vectorExecutionTime v := by
    cases h1 with
    | cons ha hb => cases hb; rfl
  have hent : Entered C v (t.withPending []) (s'.withPending []) := by
    have h1' := enteredAll_withPending h1 []
    cases h1' with
    | cons ha hb => cases hb; exact ha
  obtain ⟨hex', hst⟩ := enteredAll_exceptions h1
  refine ⟨u, s'.withPending [], hu, hent, ?_⟩
  have hp2 : processPendingExceptions C u = .ok (0 + k) s' := by
    rw [process_eq (s := u) hs, hpe, hur, hwp]
    rw [show (fun e => !isHeld t.cpu.regs.sr.interruptMask e) = fun e => decide (¬ Masked t.cpu.regs.sr.interruptMask e.vector) by
        funext e; rw [hd, decide_not], g1,
      show (fun e => isHeld t.cpu.regs.sr.interruptMask e) = fun e => decide (Masked t.cpu.regs.sr.interruptMask e.vector) by funext e; rw [hd], g3]
    exact h2
  rw [call_pending (s := u) hstop hnil, Exec.bind_apply, hp2, leaving_eq]
  dsimp only
  rw [Nat.zero_add, instruction_eq (hst.trans hr), hex', hk]
  rfl

/-- A system call: TRAP #n with at most ordinary interrupts pending, all held back. The first call of `interpreter` executes the TRAP in 0 cycles; the second enters the exception 32 + n, which
stacks the address after the TRAP, and goes on with the handler. The full property would allow on-chip interrupts. -/
theorem C64_trap_partial [Ram M] [Writable M] (n : Fin 16) (h : History C s) (hready : Ready (s.withPending []) (BitVec.ofNat 16 (0x4E40 + n.val)) s1)
    (hheld : ∀ e ∈ s.cpu.exceptions, Masked s.cpu.regs.sr.interruptMask e.vector ∧ ¬ (57 ≤ e.vector.toNat ∧ e.vector.toNat ≤ 63))
    (he : ¬ Spec.Odd s.cpu.regs.ssp)
    (hframe : Present s1.mem (s.cpu.regs.ssp - BitVec.ofNat 32 (frameBytes C.STACK_FORMAT (BitVec.ofNat 8 (32 + n.val)))) (frameBytes C.STACK_FORMAT (BitVec.ofNat 8 (32 + n.val))))
    (hvec : Present s1.mem (vectorAddress (BitVec.ofNat 8 (32 + n.val))) 4) :
    ∃ u s', interpreter C s = .ok 0 u ∧ Entered C (BitVec.ofNat 8 (32 + n.val)) s1 s' ∧
      interpreterException C u = leaving s.cpu.exceptions (later (C.vectorExecutionTime (BitVec.ofNat 8 (32 + n.val))) (interpreterException C s')) := by
  have hr : s.cpu.stop = false := hready.running
  have hpend : pendingCycles C s = .ok 0 s := by
    unfold pendingCycles
    split
    · rfl
    · rw [process_eq (history_sorted h)]
      have hh : ∀ e ∈ s.cpu.exceptions, isHeld s.cpu.regs.sr.interruptMask e = true := fun e he => held_iff.2 (hheld e he).1
      rw [List.filter_eq_nil_iff.2 (fun e he => by rw [hh e he]; decide), List.filter_eq_self.2 hh]
      rfl
  have hcall : interpreterException C s = .ok (0, some (BitVec.ofNat 8 (32 + n.val))) (s1.withPending s.cpu.exceptions) := by
    unfold interpreterException
    rw [if_neg (by simp [hr]), bind_eq hpend, instruction_eq hr, show interpreterException C (s.withPending []) = _ from C49_trap (C := C) n hready]
    rfl
  have hregs := hready.regs
  have hex : s1.cpu.exceptions = [] := by
    obtain ⟨m, -, h2⟩ := hready.opcode
    rw [h2]
    rfl
  have hst : s1.cpu.stop = false := by
    obtain ⟨m, -, h2⟩ := hready.opcode
    rw [h2]
    exact hr
  have hssp : s1.cpu.regs.ssp = s.cpu.regs.ssp := by rw [hregs]; rfl
  have hsr : s1.cpu.regs.sr = s.cpu.regs.sr := by rw [hregs]; rfl
  obtain ⟨u, s', h1, h2, h3⟩ := C64_raised_partial h hcall hst
    (by
      intro e he
      have he : e ∈ s.cpu.exceptions := he
      show Masked s1.cpu.regs.sr.interruptMask _ ∧ _
      rw [hsr]
      exact hheld e he)
    (by show ¬ Spec.Odd s1.cpu.regs.ssp; rw [hssp]; exact he)
    (by show Present s1.mem (s1.cpu.regs.ssp - _) _; rw [hssp]; exact hframe) hvec
  refine ⟨u, s', h1, ?_, h3⟩
  have : (s1.withPending s.cpu.exceptions).withPending [] = s1 := by
    have := withPending_self s1
    rw [hex] at this
    rw [withPending_withPending]
    exact this
  rw [this] at h2
  exact h2

/-- The return from a system call: `s1` and `s'` as in `C64_trap_partial`. Later, in the state `t`, the handler is about to execute RTE with its stack pointer where it was at the entry and the frame
as it was. Then the program continues behind the TRAP, in the mode and with the flags and the supervisor stack pointer of the call, and with the other registers as the handler leaves them. -/
theorem C64_return [Ram M] (n : Fin 16) (hready : Ready (s.withPending []) (BitVec.ofNat 16 (0x4E40 + n.val)) s1)
    (h : Entered C (BitVec.ofNat 8 (32 + n.val)) s1 s') (hm : s.cpu.regs.sr.interruptMask.toNat ≤ 7) (he : ¬ Spec.Odd s.cpu.regs.ssp)
    (hr : Ready t 0x4E73 t1) (hs : t.cpu.regs.sr.s = true) (hsp : t.cpu.regs.ssp = s'.cpu.regs.ssp)
    (hf : ∀ k < frameBytes C.STACK_FORMAT (BitVec.ofNat 8 (32 + n.val)), Ram.peek t.mem (at_ s'.cpu.regs.ssp k) = Ram.peek s'.mem (at_ s'.cpu.regs.ssp k)) :
    CompletesPrivileged C t (t1.withRegs fun r => { r with pc := s.cpu.regs.pc + 2, sr := s.cpu.regs.sr, ssp := s.cpu.regs.ssp }) := by
  have hregs := hready.regs
  have hssp : s1.cpu.regs.ssp = s.cpu.regs.ssp := by rw [hregs]; rfl
  have hsr : s1.cpu.regs.sr = s.cpu.regs.sr := by rw [hregs]; rfl
  have hpc : s1.cpu.regs.pc = s.cpu.regs.pc + 2 := by rw [hregs]; rfl
  have hx : extra C.STACK_FORMAT (BitVec.ofNat 8 (32 + n.val)) = 0 := by
    unfold extra
    rw [if_neg]
    rintro ⟨-, hl⟩
    have key : ∀ n : Fin 16, ¬ LongFrame (BitVec.ofNat 8 (32 + n.val)) := by
      unfold LongFrame
      decide
    exact key n hl
  have := C27_resume h (by rw [hsr]; exact hm) (by rw [hssp]; exact he) hr hs (by rw [hx, hsp]; exact (BitVec.add_zero _).symm) hf
  rw [hssp, hsr, hpc] at this
  exact this

/-- That every system call reaches its handler is false. While an on-chip interrupt is held back by the mask, a TRAP does nothing: it takes 0 cycles, no exception is added to those pending,
and the program continues behind it. -/
theorem C64_lost_refuted (n : Fin 16) (hready : Ready (s.withPending []) (BitVec.ofNat 16 (0x4E40 + n.val)) s1)
    (hp : s.cpu.exceptions = [⟨v⟩]) (hv : 57 ≤ v.toNat ∧ v.toNat ≤ 63) (hm : Masked s.cpu.regs.sr.interruptMask v) :
    interpreter C s = .ok 0 (s1.withPending s.cpu.exceptions) := by
  have hr : s.cpu.stop = false := hready.running
  have hpend : pendingCycles C s = .ok 0 s := by
    unfold pendingCycles
    rw [if_neg (by rw [hp]; exact fun h => nomatch h), process_eq (by rw [hp]; exact List.pairwise_singleton _ _), hp]
    have hh : isHeld s.cpu.regs.sr.interruptMask ⟨v⟩ = true := held_iff.2 hm
    rw [List.filter_cons_of_neg (by simp [hh]), List.filter_cons_of_pos (by simp [hh]), List.filter_nil, List.filter_nil, ← hp]
    rfl
  have hcall : interpreterException C s = .ok (0, some (BitVec.ofNat 8 (32 + n.val))) (s1.withPending s.cpu.exceptions) := by
    unfold interpreterException
    rw [if_neg (by simp [hr]), bind_eq hpend, instruction_eq hr, show interpreterException C (s.withPending []) = _ from C49_trap (C := C) n hready]
    rfl
  unfold interpreter
  rw [bind_eq hcall]
  have hcpu : (s1.withPending s.cpu.exceptions).cpu.exception ⟨BitVec.ofNat 8 (32 + n.val)⟩ = (s1.withPending s.cpu.exceptions).cpu := by
    have hq : ∀ n : Fin 16, (⟨BitVec.ofNat 8 (32 + n.val)⟩ : Exception).priority = 255 ∧
        ((⟨BitVec.ofNat 8 (32 + n.val)⟩ : Exception).vector = 0 || (⟨BitVec.ofNat 8 (32 + n.val)⟩ : Exception).vector = 9 || (⟨BitVec.ofNat 8 (32 + n.val)⟩ : Exception).isInterrupt) = false := by
      decide
    replace hq := hq n
    unfold Cpu.exception
    rw [hq.2]
    dsimp only
    rw [if_neg (by decide)]
    have : insertException ⟨BitVec.ofNat 8 (32 + n.val)⟩ (s1.withPending s.cpu.exceptions).cpu.exceptions = s.cpu.exceptions := by
      show insertException _ s.cpu.exceptions = _
      rw [hp]
      unfold insertException
      rw [if_pos (by rw [onChip_priority hv]; exact hq.1)]
    rw [this]
    rfl
  exact congrArg (fun c => Res.ok 0 (⟨c, s1.mem⟩ : St M)) hcpu

namespace Call
def r : Registers := { Demo.regs [] [] with ssp := 0x98, pc := 2, sr := srOf 0x0715 }
/-- The handler at address 0 is RTE. The program at address 2 is `TRAP #0`, `NOP`. -/
def m : WordSlice := ⟨[0x4E73, 0x4E40, 0x4E71] ++ List.replicate 77 0⟩
/-- The interrupt `v` is pending. -/
def start (v : U8) : St WordSlice := ⟨⟨r, 0xFFFF, false, [⟨v⟩]⟩, m⟩
def fetched : St WordSlice := ⟨⟨{ r with pc := 4 }, 0x4E40, false, []⟩, m⟩
end Call

/-- The hypotheses of `C64_trap_partial` and `C64_raised_partial`, with a level 2 interrupt that is held back. -/
example : History mc68000 (Call.start 26) ∧ Ready ((Call.start 26).withPending []) (BitVec.ofNat 16 (0x4E40 + (0 : Fin 16).val)) Call.fetched ∧
    (∀ e ∈ (Call.start 26).cpu.exceptions, Masked (Call.start 26).cpu.regs.sr.interruptMask e.vector ∧ ¬ (57 ≤ e.vector.toNat ∧ e.vector.toNat ≤ 63)) ∧
    ¬ Spec.Odd (Call.start 26).cpu.regs.ssp ∧ Present Call.fetched.mem ((Call.start 26).cpu.regs.ssp - BitVec.ofNat 32 (frameBytes mc68000.STACK_FORMAT 32)) (frameBytes mc68000.STACK_FORMAT 32) ∧
    Present Call.fetched.mem (vectorAddress 32) 4 := by
  refine ⟨((History.newNoReset Call.m).act (.request _ 26)).act (.host _ Call.r false Call.m), ⟨rfl, rfl, by decide, _, rfl, rfl⟩, ?_, by decide, ?_, ?_⟩
  · intro e he
    obtain rfl := List.mem_singleton.1 he
    decide
  · intro k hk
    have hk : k < 6 := hk
    obtain e | e | e | e | e | e : k = 0 ∨ k = 1 ∨ k = 2 ∨ k = 3 ∨ k = 4 ∨ k = 5 := by omega
    all_goals (subst e; rfl)
  · intro k hk
    obtain e | e | e | e : k = 0 ∨ k = 1 ∨ k = 2 ∨ k = 3 := by omega
    all_goals (subst e; rfl)

/-- What a call of `interpreter` leaves: cycles, program counter, status register, supervisor stack pointer and pending exceptions. -/
def Call.left : Res WordSlice Nat → Option (Nat × U32 × U16 × U32 × List U8)
  | .ok n t => some (n, t.cpu.regs.pc, srWord t.cpu.regs.sr, t.cpu.regs.ssp, t.cpu.exceptions.map fun e => e.vector)
  | _ => none
def Call.trapped : St WordSlice := ⟨⟨{ Call.r with pc := 4 }, 0x4E40, false, [⟨32⟩, ⟨26⟩]⟩, Call.m⟩
def Call.lost : St WordSlice := ⟨⟨{ Call.r with pc := 4 }, 0x4E40, false, [⟨58⟩]⟩, Call.m⟩

/-- The same machine: two calls, and the handler has returned behind the TRAP. -/
example : interpreter mc68000 (Call.start 26) = .ok 0 Call.trapped ∧ Call.left (interpreter mc68000 Call.trapped) = some (54, 4, 0x0715, 0x98, [26]) :=
  ⟨rfl, by decide +kernel⟩

/-- With an on-chip interrupt instead, the handler is not called: the second call executes the NOP behind the TRAP. -/
example : interpreter scc68070 (Call.start 58) = .ok 0 Call.lost ∧ Call.left (interpreter scc68070 Call.lost) = some (7, 6, 0x0715, 0x98, [58]) ∧
    Masked (Call.start 58).cpu.regs.sr.interruptMask 58 :=
  ⟨rfl, by decide +kernel, by decide⟩

end M68k.Props
