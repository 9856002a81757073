import Verif.Lemmas.Pending
import Verif.Props.DemoRam
/-
C29: pending exceptions.
-/
namespace M68k.Props
open Spec Exec
set_option linter.unusedSectionVars false
variable {M : Type} [MemoryAccess M] {C : CpuDetails} {s s' : St M} {v : U8}

theorem rank_eq {a b : Exception} : a.priority = b.priority ↔ rank a.vector = rank b.vector := by
  have h1 := rank_lt (a := a) (b := b)
  have h2 := rank_lt (a := b) (b := a)
  rw [BitVec.lt_def] at h1 h2
  constructor
  · intro h; rw [h] at h1 h2; omega
  · intro h; apply BitVec.eq_of_toNat_eq; omega

/-- Whatever a host does with a core, the pending exceptions have different ranks and are kept in the order in which they will be processed, the least rank
last. -/
theorem C29_ordered (h : History C s) : s.cpu.exceptions.Pairwise fun a b => rank b.vector < rank a.vector :=
  (history_sorted h).imp fun h => rank_lt.1 h

/-- Four requests, in the order of their ranks afterwards. -/
example : ((((Cpu.newNoReset.exception ⟨26⟩).exception ⟨32⟩).exception ⟨9⟩).exception ⟨8⟩).exceptions = [⟨32⟩, ⟨8⟩, ⟨26⟩, ⟨9⟩] := by decide

/-- A request adds the exception to those pending, if none of the same rank is pending. The full property would not have this condition: see `C29_dropped`. -/
theorem C29_request_partial (hn : ∀ e ∈ s.cpu.exceptions, rank e.vector ≠ rank v) (e : Exception) :
    e ∈ (s.cpu.exception ⟨v⟩).exceptions ↔ e = ⟨v⟩ ∨ e ∈ s.cpu.exceptions := by
  rw [exception_exceptions]
  constructor
  · exact mem_insert
  · rintro (rfl | h)
    · exact mem_insert_self fun x hx hp => hn x hx (rank_eq.1 hp)
    · exact mem_insert_of_mem h

example : ∀ e ∈ (Cpu.newNoReset.exception ⟨26⟩).exceptions, rank e.vector ≠ rank 32 := by decide

theorem insert_same {e : Exception} {es : List Exception} (hs : Sorted es) (h : ∃ x ∈ es, x.priority = e.priority) : insertException e es = es := by
  induction es with
  | nil => obtain ⟨x, hx, -⟩ := h; cases hx
  | cons y es ih =>
    obtain ⟨h1, h2⟩ := List.pairwise_cons.1 hs
    unfold insertException
    split
    · rfl
    · rename_i hne
      obtain ⟨x, hx, hp⟩ := h
      rcases List.mem_cons.1 hx with rfl | hx
      · exact absurd hp.symm hne
      · have := h1 x hx
        rw [hp] at this
        rw [if_neg (fun h => by rw [BitVec.lt_def] at *; omega), ih h2 ⟨x, hx, hp⟩]

/-- While an exception is pending, requests of others of the same rank are dropped: the pending exceptions do not change. -/
theorem C29_dropped (h : History C s) (hp : ∃ e ∈ s.cpu.exceptions, rank e.vector = rank v) : (s.cpu.exception ⟨v⟩).exceptions = s.cpu.exceptions := by
  rw [exception_exceptions]
  refine insert_same (history_sorted h) ?_
  obtain ⟨e, he, hr⟩ := hp
  exact ⟨e, he, rank_eq.2 hr⟩

/-- That nothing requested is lost is false: the request of the level 3 interrupt after that of level 2 is lost, and a reset requested after TRAP #0. -/
theorem C29_nothingLost_refuted : ⟨27⟩ ∉ ((Cpu.newNoReset.exception ⟨26⟩).exception ⟨27⟩).exceptions ∧
    ⟨0⟩ ∉ ((Cpu.newNoReset.exception ⟨32⟩).exception ⟨0⟩).exceptions := by decide

theorem enteredAll_withPending [Ram M] {es : List Exception} {n : Nat} (h : EnteredAll C es n s s') (fs : List Exception) :
    EnteredAll C es n (s.withPending fs) (s'.withPending fs) := by
  induction h with
  | nil s => exact .nil _
  | @cons e es n s t s' h1 h2 ih =>
    refine .cons (t := t.withPending fs) ⟨h1.regs, ?_, h1.handler, h1.frame, h1.rest⟩ ih
    have := h1.cpu
    show ({ t.cpu with exceptions := fs } : Cpu) = _
    rw [this]
    rfl

/-- A running core, with pending exceptions none of which is a reset. The supervisor stack pointer is even and there is writable memory for the frames and
vectors. The call of `interpreter_exception` enters those that are not held back by the mask, each once, in the order in which they are kept (`C29_ordered`), so that the
last entered, whose handler goes on, is the one of least rank. The others are pending afterwards, and no more: the instruction at the end runs without looking
at them. -/
theorem C29_processed [Ram M] [Writable M] (h : History C s) (hr : s.cpu.stop = false) (hp : s.cpu.exceptions ≠ []) (h0 : ∀ e ∈ s.cpu.exceptions, e.vector ≠ 0)
    (he : ¬ Spec.Odd s.cpu.regs.ssp)
    (hframes : Present s.mem (s.cpu.regs.ssp - BitVec.ofNat 32 (framesBytes C.STACK_FORMAT (s.cpu.exceptions.filter fun e => ¬ Masked s.cpu.regs.sr.interruptMask e.vector)))
      (framesBytes C.STACK_FORMAT (s.cpu.exceptions.filter fun e => ¬ Masked s.cpu.regs.sr.interruptMask e.vector)))
    (hvec : ∀ e ∈ s.cpu.exceptions, Present s.mem (vectorAddress e.vector) 4) :
    ∃ n s', EnteredAll C (s.cpu.exceptions.filter fun e => ¬ Masked s.cpu.regs.sr.interruptMask e.vector) n (s.withPending []) s' ∧
      interpreterException C s = leaving (s.cpu.exceptions.filter fun e => Masked s.cpu.regs.sr.interruptMask e.vector) (later n (interpreterException C s')) := by
  have hs := history_sorted h
  have hd : ∀ e : Exception, isHeld s.cpu.regs.sr.interruptMask e = decide (Masked s.cpu.regs.sr.interruptMask e.vector) := by
    intro e
    rw [Bool.eq_iff_iff, decide_eq_true_iff]
    exact held_iff
  have hf1 : (s.cpu.exceptions.filter fun e => !isHeld s.cpu.regs.sr.interruptMask e) =
      s.cpu.exceptions.filter fun e => decide (¬ Masked s.cpu.regs.sr.interruptMask e.vector) := by
    congr 1
    funext e
    rw [hd, decide_not]
  have hf2 : (s.cpu.exceptions.filter fun e => isHeld s.cpu.regs.sr.interruptMask e) =
      s.cpu.exceptions.filter fun e => decide (Masked s.cpu.regs.sr.interruptMask e.vector) := by
    congr 1
    funext e
    rw [hd]
  obtain ⟨n, s', h1, h2⟩ := processList_enters (C := C) (s.cpu.exceptions.filter fun e => decide (¬ Masked s.cpu.regs.sr.interruptMask e.vector)) 0
    (s.withPending (s.cpu.exceptions.filter fun e => decide (Masked s.cpu.regs.sr.interruptMask e.vector)))
    (fun e he => h0 e (List.mem_filter.1 he).1) he hframes (fun e he => hvec e (List.mem_filter.1 he).1)
  refine ⟨n, s'.withPending [], enteredAll_withPending h1 [], ?_⟩
  obtain ⟨hex, hst⟩ := enteredAll_exceptions h1
  rw [call_pending hr hp, Exec.bind_apply, process_eq hs, hf1, hf2, h2, leaving_eq]
  dsimp only
  rw [Nat.zero_add, instruction_eq (hst.trans hr), hex]
  rfl

/-- The hypotheses, on the MC68000: TRAP #0, a level 2 interrupt and trace, the mask being 2, so that the interrupt is held back. -/
example : ∃ s : St WordSlice, History mc68000 s ∧ s.cpu.stop = false ∧ s.cpu.exceptions = [⟨32⟩, ⟨26⟩, ⟨9⟩] ∧ ¬ Spec.Odd s.cpu.regs.ssp ∧
    (s.cpu.exceptions.filter fun e => ¬ Masked s.cpu.regs.sr.interruptMask e.vector) = [⟨32⟩, ⟨9⟩] ∧
    Present s.mem (s.cpu.regs.ssp - BitVec.ofNat 32 (framesBytes mc68000.STACK_FORMAT [⟨32⟩, ⟨9⟩])) (framesBytes mc68000.STACK_FORMAT [⟨32⟩, ⟨9⟩]) ∧
    ∀ e ∈ s.cpu.exceptions, Present s.mem (vectorAddress e.vector) 4 := by
  have hh := (History.newNoReset (C := mc68000) (⟨List.replicate 80 0⟩ : WordSlice))
    |>.act (.request _ 9) |>.act (.request _ 32) |>.act (.request _ 26)
    |>.act (.host _ { Demo.regs [] [] with ssp := 0x98, sr := srOf 0x2200 } false ⟨List.replicate 80 0⟩)
  refine ⟨_, hh, rfl, by decide, by decide, by decide, ?_, ?_⟩
  · intro k hk
    have hk : k < 12 := hk
    obtain e | e | e | e | e | e | e | e | e | e | e | e : k = 0 ∨ k = 1 ∨ k = 2 ∨ k = 3 ∨ k = 4 ∨ k = 5 ∨ k = 6 ∨ k = 7 ∨ k = 8 ∨ k = 9 ∨ k = 10 ∨ k = 11 := by omega
    all_goals (subst e; rfl)
  · intro e he k hk
    have he : e ∈ [(⟨32⟩ : Exception), ⟨26⟩, ⟨9⟩] := he
    simp only [List.mem_cons, List.not_mem_nil, or_false] at he
    obtain e | e | e | e : k = 0 ∨ k = 1 ∨ k = 2 ∨ k = 3 := by omega
    all_goals (subst e; rcases he with rfl | rfl | rfl <;> rfl)

end M68k.Props
