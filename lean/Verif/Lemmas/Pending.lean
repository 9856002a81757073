import Verif.Lemmas.Entry
import Verif.Lemmas.AnyStep
import Verif.Lemmas.Commute
import Verif.Lemmas.Step
/-
The pending exceptions.
-/
namespace M68k
namespace Exec
open Spec
set_option linter.unusedSectionVars false
variable {M : Type} [MemoryAccess M] {s s' : St M} {C : CpuDetails} {v : U8} {α β : Type}

/-! ### Actions that do not look at the pending exceptions -/

/-- The action neither uses nor changes the pending exceptions. -/
def Blind {α : Type} (x : Exec M α) : Prop := ∀ s es, x (s.withPending es) = (x s).after fun t => t.withPending es

namespace Blind
theorem bind {x : Exec M α} {f : α → Exec M β} (hx : Blind x) (hf : ∀ a, Blind (f a)) : Blind (x >>= f) := by
  intro s es
  rw [Exec.bind_apply, Exec.bind_apply, hx s es]
  cases x s with
  | ok a t => exact hf a t es
  | err e t => rfl
  | panic => rfl
theorem access (f : M → MRes M α) : Blind (access f) := by
  intro s es
  have hm : (s.withPending es).mem = s.mem := rfl
  unfold Spec.access
  rw [hm]
  cases f s.mem <;> rfl
theorem load (sz : Size) (a : U32) : Blind (load sz a : Exec M _) := by
  unfold Spec.load
  split
  · exact fun _ _ => rfl
  · exact access _
theorem store (sz : Size) (a : U32) (v : Val sz) : Blind (store sz a v : Exec M _) := by
  unfold Spec.store
  split
  · exact fun _ _ => rfl
  · exact access _
theorem fetch : Blind (fetch : Exec M U16) := by
  intro s es
  have hm : (s.withPending es).mem = s.mem := rfl
  have hc : (s.withPending es).cpu.regs = s.cpu.regs := rfl
  unfold Spec.fetch
  rw [hm, hc]
  split
  · rfl
  · cases MemoryAccess.getWord s.cpu.regs.pc s.mem <;> rfl

theorem prims : SysPrims (M := M) Blind where
  pure _ := fun _ _ => rfl
  bind _ _ hx hf := hx.bind hf
  crash := fun _ _ => rfl
  trap _ _ := fun _ _ => rfl
  getR _ := fun _ _ => rfl
  load := load
  store := store
  movemLoad sz a _ _ := by
    intro s es
    unfold Spec.movemLoad
    rw [Exec.map_apply, Exec.map_apply, access _ s es]
    cases Spec.access (memGet sz a) s <;> rfl
  movemStore _ _ _ _ _ := access _
  dreg _ _ := fun _ _ => rfl
  areg _ _ := fun _ _ => rfl
  flags _ _ := fun _ _ => rfl
  fetch := fetch
  jump _ := fun _ _ => rfl
  anyFlags _ := fun _ _ => rfl
  halt := fun _ _ => rfl
  signalReset := fun _ _ => rfl
  usp _ := fun _ _ => rfl

theorem item (i : Item) : Blind (i.push : Exec M Unit) := by
  cases i with
  | w x => exact prims.toPrims.push .Word x
  | l x => exact prims.toPrims.push .Long x

theorem pushItems (is : List Item) : Blind (pushItems is : Exec M Unit) := by
  induction is with
  | nil => exact fun _ _ => rfl
  | cons i is ih => exact (item i).bind fun _ => ih

theorem enter : Blind (enter C v : Exec M Nat) := by
  intro s es
  unfold Exec.enter
  exact Blind.bind (x := setFlags (entrySr v)) (fun _ _ => rfl) (fun _ => (pushItems _).bind fun _ => (access _).bind fun _ => fun _ _ => rfl) s es

theorem processException : Blind (processException C v : Exec M Nat) := by
  intro s es
  rw [processException_eq, processException_eq]
  exact enter s es

theorem getNextWord : Blind (getNextWord : Exec M U16) := by
  intro s es
  unfold Exec.getNextWord
  rw [getPc_eq, getR_bind_apply, getR_bind_apply]
  refine Blind.bind ?_ ?_ s es
  · unfold even
    split
    · exact fun _ _ => rfl
    · exact fun _ _ => rfl
  · intro a s es
    have hm : (s.withPending es).mem = s.mem := rfl
    dsimp only
    rw [hm]
    cases MemoryAccess.getWord a s.mem <;> rfl

theorem instruction (n : Nat) : Blind (fastInstruction C n : Exec M (Nat × Option U8)) := by
  intro s es
  unfold fastInstruction
  rw [getNextWord s es]
  cases Exec.getNextWord s with
  | ok op t =>
    show finishStep _ n (fastExecute C _) (({ t with cpu := { t.cpu with currentOpcode := op } } : St M).withPending es) = _
    unfold finishStep
    have h1 := fastExecute_eq C (({ t with cpu := { t.cpu with currentOpcode := op } } : St M).withPending es)
    have h2 := fastExecute_eq C ({ t with cpu := { t.cpu with currentOpcode := op } } : St M)
    have h3 := prims.exec C (decoder op) op ({ t with cpu := { t.cpu with currentOpcode := op } } : St M) es
    dsimp only at h1 h2 ⊢
    have h1' : fastExecute C (decoder op) (({ t with cpu := { t.cpu with currentOpcode := op } } : St M).withPending es) = 
      Spec.exec C (decoder op) op (({ t with cpu := { t.cpu with currentOpcode := op } } : St M).withPending es) := h1
    rw [h1', h3, h2]
    cases Spec.exec C (decoder op) op ({ t with cpu := { t.cpu with currentOpcode := op } } : St M) <;> rfl
  | err e t => rfl
  | panic => rfl

end Blind

theorem withPending_self (s : St M) : s.withPending s.cpu.exceptions = s := rfl
theorem withPending_withPending (s : St M) (es fs : List Exception) : (s.withPending es).withPending fs = s.withPending fs := rfl

/-- A blind action leaves the pending exceptions. -/
theorem Blind.keeps {x : Exec M α} (hx : Blind x) {a : α} (h : x s = .ok a s') : s'.cpu.exceptions = s.cpu.exceptions := by
  have := hx s s.cpu.exceptions
  rw [withPending_self, h] at this
  have := (Res.ok.inj this).2
  rw [this]
  rfl
theorem Blind.keeps_err {x : Exec M α} (hx : Blind x) {e : U8} (h : x s = .err e s') : s'.cpu.exceptions = s.cpu.exceptions := by
  have := hx s s.cpu.exceptions
  rw [withPending_self, h] at this
  have := (Res.err.inj this).2
  rw [this]
  rfl

theorem instruction_later (n : Nat) : fastInstruction C n s = later n (fastInstruction C 0 s) := by
  unfold fastInstruction
  cases getNextWord s with
  | ok op t =>
    dsimp only
    unfold finishStep
    dsimp only
    cases fastExecute C (decoder op) { t with cpu := { t.cpu with currentOpcode := op } } with
    | ok c u => show _ = Res.ok _ _; rw [Nat.zero_add]
    | err e u => rfl
    | panic => rfl
  | err e t => rfl
  | panic => rfl

theorem instruction_idle (hr : s.cpu.stop = false) (hi : s.cpu.exceptions = []) : fastInstruction C 0 s = interpreterException C s := by
  unfold interpreterException
  rw [if_neg (by simp [hr]), Exec.bind_apply]
  have : pendingCycles C s = .ok 0 s := by unfold pendingCycles; simp [hi]
  rw [this]

/-- The instruction after the exceptions: as a call without pending exceptions. -/
theorem instruction_eq (hr : s.cpu.stop = false) (n : Nat) :
    fastInstruction C n s = (later n (interpreterException C (s.withPending []))).after fun t => t.withPending s.cpu.exceptions := by
  have h := Blind.instruction (C := C) n (s.withPending []) s.cpu.exceptions
  rw [withPending_withPending, withPending_self] at h
  rw [h, instruction_later, instruction_idle (s := s.withPending []) hr rfl]

/-! ### The set of pending exceptions -/

/-- At most one of each priority, the greatest number first. -/
def Sorted (es : List Exception) : Prop := es.Pairwise fun a b => b.priority < a.priority

theorem mem_insert_of_mem {e x : Exception} {es : List Exception} (h : x ∈ es) : x ∈ insertException e es := by
  induction es with
  | nil => cases h
  | cons y es ih =>
    unfold insertException
    split
    · exact h
    · split
      · exact List.mem_cons_of_mem _ h
      · rcases List.mem_cons.1 h with rfl | h
        · exact List.mem_cons_self
        · exact List.mem_cons_of_mem _ (ih h)

theorem mem_insert {e x : Exception} {es : List Exception} (h : x ∈ insertException e es) : x = e ∨ x ∈ es := by
  induction es with
  | nil => exact .inl (List.mem_singleton.1 h)
  | cons y es ih =>
    unfold insertException at h
    split at h
    · exact .inr h
    · split at h
      · exact List.mem_cons.1 h
      · rcases List.mem_cons.1 h with rfl | h
        · exact .inr List.mem_cons_self
        · rcases ih h with h | h
          · exact .inl h
          · exact .inr (List.mem_cons_of_mem _ h)

theorem lt_of_not {a b : U8} (h1 : ¬ a = b) (h2 : ¬ b < a) : a < b := by
  rw [BitVec.lt_def] at *
  have : a.toNat ≠ b.toNat := fun h => h1 (BitVec.eq_of_toNat_eq h)
  omega

theorem sorted_insert {e : Exception} {es : List Exception} (h : Sorted es) : Sorted (insertException e es) := by
  induction es with
  | nil => exact List.pairwise_singleton _ _
  | cons y es ih =>
    obtain ⟨h1, h2⟩ := List.pairwise_cons.1 h
    unfold insertException
    split
    · exact h
    · rename_i hne
      split
      · rename_i hlt
        refine List.pairwise_cons.2 ⟨fun z hz => ?_, h⟩
        rcases List.mem_cons.1 hz with rfl | hz
        · exact hlt
        · exact BitVec.lt_trans (h1 z hz) hlt
      · rename_i hlt
        refine List.pairwise_cons.2 ⟨fun z hz => ?_, ih h2⟩
        rcases mem_insert hz with rfl | hz
        · exact lt_of_not hne hlt
        · exact h1 z hz

/-- A request is recorded unless one of the same priority is pending. -/
theorem mem_insert_self {e : Exception} {es : List Exception} (h : ∀ x ∈ es, x.priority ≠ e.priority) : e ∈ insertException e es := by
  induction es with
  | nil => exact List.mem_singleton.2 rfl
  | cons y es ih =>
    unfold insertException
    rw [if_neg (fun h' => h y List.mem_cons_self h'.symm)]
    split
    · exact List.mem_cons_self
    · exact List.mem_cons_of_mem _ (ih fun x hx => h x (List.mem_cons_of_mem _ hx))

theorem sorted_unique {es : List Exception} (h : Sorted es) {x y : Exception} (hx : x ∈ es) (hy : y ∈ es) (hp : x.priority = y.priority) : x = y := by
  induction es with
  | nil => cases hx
  | cons z es ih =>
    obtain ⟨h1, h2⟩ := List.pairwise_cons.1 h
    rcases List.mem_cons.1 hx with rfl | hx'
    · rcases List.mem_cons.1 hy with rfl | hy'
      · rfl
      · have := h1 y hy'
        rw [hp, BitVec.lt_def] at this
        omega
    · rcases List.mem_cons.1 hy with rfl | hy'
      · have := h1 x hx'
        rw [hp, BitVec.lt_def] at this
        omega
      · exact ih h2 hx' hy'

theorem exception_exceptions (c : Cpu) (e : Exception) : (c.exception e).exceptions = insertException e c.exceptions := by
  unfold Cpu.exception
  dsimp only
  split <;> rfl
theorem exception_regs (c : Cpu) (e : Exception) : (c.exception e).regs = c.regs := by
  unfold Cpu.exception
  dsimp only
  split <;> rfl

/-- The exceptions that stay pending. -/
theorem remaining_eq {es : List Exception} (hs : Sorted es) (mask : U8) :
    es.filter (fun ex => !((es.filter fun ex => !isHeld mask ex).any fun e => e.priority == ex.priority)) = es.filter fun ex => isHeld mask ex := by
  apply List.filter_congr
  intro x hx
  cases hh : isHeld mask x with
  | true =>
    rw [Bool.not_eq_true', Bool.eq_false_iff]
    intro h
    obtain ⟨y, hy, hp⟩ := List.any_eq_true.1 h
    obtain ⟨hy1, hy2⟩ := List.mem_filter.1 hy
    have := sorted_unique hs hy1 hx (beq_iff_eq.1 hp)
    subst this
    rw [hh] at hy2
    cases hy2
  | false =>
    rw [Bool.not_eq_false']
    exact List.any_eq_true.2 ⟨x, List.mem_filter.2 ⟨hx, by rw [hh]; rfl⟩, beq_self_eq_true _⟩

/-- What the processing of exceptions keeps. -/
theorem processList_keeps {Q : List Exception → Prop} (hins : ∀ e es, Q es → Q (insertException e es)) :
    ∀ (es : List Exception) (n : Nat) (s s' : St M) (k : Nat), Q s.cpu.exceptions → (∀ e ∈ es, e.vector ≠ 0) →
      processList C es n s = .ok k s' → Q s'.cpu.exceptions
  | [], n, s, s', k, hq, _, h => by cases h; exact hq
  | e :: es, n, s, s', k, hq, h0, h => by
    have h0' : ∀ e ∈ es, e.vector ≠ 0 := fun x hx => h0 x (List.mem_cons_of_mem _ hx)
    have hraise : ∀ (e : U8) (t : St M), Q t.cpu.exceptions → Q ({ t with cpu := t.cpu.exception ⟨e⟩ } : St M).cpu.exceptions := by
      intro e t ht
      show Q (t.cpu.exception ⟨e⟩).exceptions
      rw [exception_exceptions]
      exact hins _ _ ht
    unfold processList at h
    dsimp only at h
    rw [if_neg (h0 e List.mem_cons_self)] at h
    cases hx : processException C e.vector s with
    | ok c t =>
      rw [hx] at h
      exact processList_keeps hins es _ t s' k (by rw [Blind.processException.keeps hx]; exact hq) h0' h
    | err x t =>
      have hq' : Q t.cpu.exceptions := by rw [Blind.processException.keeps_err hx]; exact hq
      rw [hx] at h
      dsimp only at h
      split at h
      · split at h
        · cases h
        · split at h
          · exact processList_keeps hins es _ _ s' k (hraise _ _ hq') h0' h
          · exact processList_keeps hins es _ _ s' k (hraise _ _ hq') h0' h
      · exact processList_keeps hins es _ _ s' k (hraise _ _ hq') h0' h
    | panic => rw [hx] at h; cases h

theorem reset_pending {n : Nat} (h : reset C s = .ok n s') (hs : s.cpu.exceptions = []) : s'.cpu.exceptions = [] := by
  unfold reset at h
  obtain ⟨a, t1, h1, h⟩ := bind_ok h
  obtain ⟨_, t2, h2, h⟩ := bind_ok h
  obtain ⟨b, t3, h3, h⟩ := bind_ok h
  obtain ⟨_, t4, h4, h⟩ := bind_ok h
  obtain ⟨_, t5, h5, h⟩ := bind_ok h
  obtain ⟨_, t6, h6, h⟩ := bind_ok h
  have hm : ∀ {α : Type} {f : M → MRes M α} {x : α} {u u' : St M}, memExpect f u = .ok x u' → u'.cpu = u.cpu := by
    intro α f x u u' h
    unfold memExpect at h
    split at h
    · cases h; rfl
    · cases h
    · cases h
  cases h; cases h6; cases h5; cases h4; cases h2
  show t3.cpu.exceptions = []
  rw [hm h3]
  show t1.cpu.exceptions = []
  rw [hm h1]
  exact hs

/-- As above with resets, which discard all. -/
theorem processList_keeps' {Q : List Exception → Prop} (hins : ∀ e es, Q es → Q (insertException e es)) (hnil : Q []) :
    ∀ (es : List Exception) (n : Nat) (s s' : St M) (k : Nat), Q s.cpu.exceptions →
      processList C es n s = .ok k s' → Q s'.cpu.exceptions
  | [], n, s, s', k, hq, h => by cases h; exact hq
  | e :: es, n, s, s', k, hq, h => by
    have hraise : ∀ (e : U8) (t : St M), Q t.cpu.exceptions → Q ({ t with cpu := t.cpu.exception ⟨e⟩ } : St M).cpu.exceptions := by
      intro e t ht
      show Q (t.cpu.exception ⟨e⟩).exceptions
      rw [exception_exceptions]
      exact hins _ _ ht
    unfold processList at h
    dsimp only at h
    split at h
    · rw [reset_pending h rfl]; exact hnil
    cases hx : processException C e.vector s with
    | ok c t =>
      rw [hx] at h
      exact processList_keeps' hins hnil es _ t s' k (by rw [Blind.processException.keeps hx]; exact hq) h
    | err x t =>
      have hq' : Q t.cpu.exceptions := by rw [Blind.processException.keeps_err hx]; exact hq
      rw [hx] at h
      dsimp only at h
      split at h
      · split at h
        · cases h
        · split at h
          · exact processList_keeps' hins hnil es _ _ s' k (hraise _ _ hq') h
          · exact processList_keeps' hins hnil es _ _ s' k (hraise _ _ hq') h
      · exact processList_keeps' hins hnil es _ _ s' k (hraise _ _ hq') h
    | panic => rw [hx] at h; cases h

theorem leaving_eq (es : List Exception) (r : Res M (Nat × Option U8)) : leaving es r = r.after fun t => t.withPending es := by cases r <;> rfl

theorem call_pending (hr : s.cpu.stop = false) (hp : s.cpu.exceptions ≠ []) :
    interpreterException C s = (processPendingExceptions C >>= fun n => fastInstruction C n) s := by
  unfold interpreterException
  rw [if_neg (by simp [hr]), Exec.bind_apply, Exec.bind_apply]
  have : pendingCycles C s = processPendingExceptions C s := by
    unfold pendingCycles
    rw [if_neg (by simpa using hp)]
  rw [this]

theorem process_eq (hs : Sorted s.cpu.exceptions) :
    processPendingExceptions C s = processList C (s.cpu.exceptions.filter fun e => !isHeld s.cpu.regs.sr.interruptMask e) 0
      (s.withPending (s.cpu.exceptions.filter fun e => isHeld s.cpu.regs.sr.interruptMask e)) := by
  unfold processPendingExceptions
  dsimp only
  rw [remaining_eq hs]
  rfl

section
variable [Ram M]

theorem entered_even (h : Entered C v s s') (he : ¬ Spec.Odd s.cpu.regs.ssp) : ¬ Spec.Odd s'.cpu.regs.ssp := by
  rw [h.regs]
  have : frameBytes C.STACK_FORMAT v = 2 * (frameBytes C.STACK_FORMAT v / 2) := by
    unfold frameBytes
    cases C.STACK_FORMAT <;> dsimp only <;> split <;> rfl
  dsimp only
  rw [this]
  exact even_sub he _

theorem enter_samePresent {n : Nat} (h : enter C v s = .ok n s') : SamePresent s.mem s'.mem := by
  unfold enter at h
  obtain ⟨_, t, h1, h2⟩ := bind_ok h
  obtain ⟨_, u, h3, h4⟩ := bind_ok h2
  obtain ⟨pc, w, h5, h6⟩ := bind_ok h4
  have ht : t.mem = s.mem := by cases h1; rfl
  have := pushItems_samePresent h3
  rw [ht] at this
  obtain ⟨g1, g2⟩ := access_ok h5
  obtain ⟨g3, -⟩ := Ram.get_val (sz := .Long) vector_aligned g1
  have hw : w = u := by rw [g2, g3]
  have : s'.mem = u.mem := by cases h6; rw [← hw];
  rw [this]
  assumption

theorem processList_enters [Writable M] : ∀ (es : List Exception) (k : Nat) (s : St M), (∀ e ∈ es, e.vector ≠ 0) → ¬ Spec.Odd s.cpu.regs.ssp →
    Present s.mem (s.cpu.regs.ssp - BitVec.ofNat 32 (framesBytes C.STACK_FORMAT es)) (framesBytes C.STACK_FORMAT es) →
    (∀ e ∈ es, Present s.mem (vectorAddress e.vector) 4) → ∃ n s', EnteredAll C es n s s' ∧ processList C es k s = .ok (k + n) s'
  | [], k, s, _, _, _, _ => ⟨0, s, .nil s, rfl⟩
  | e :: es, k, s, h0, he, hp, hv => by
    have hsum : framesBytes C.STACK_FORMAT (e :: es) = framesBytes C.STACK_FORMAT es + frameBytes C.STACK_FORMAT e.vector := by
      unfold framesBytes
      rw [List.map_cons, List.sum_cons, Nat.add_comm]
    rw [hsum] at hp
    have hp1 : Present s.mem (s.cpu.regs.ssp - BitVec.ofNat 32 (frameBytes C.STACK_FORMAT e.vector)) (frameBytes C.STACK_FORMAT e.vector) := by
      intro j hj
      have := hp (framesBytes C.STACK_FORMAT es + j) (by omega)
      rw [← at_add, at_sub_le] at this
      exact this
    obtain ⟨t, ht⟩ := enter_present (C := C) (v := e.vector) he hp1 (hv e List.mem_cons_self)
    obtain ⟨hent, -⟩ := enter_done ht
    have hsame := enter_samePresent ht
    have hp2 : Present t.mem (t.cpu.regs.ssp - BitVec.ofNat 32 (framesBytes C.STACK_FORMAT es)) (framesBytes C.STACK_FORMAT es) := by
      intro j hj
      rw [hsame, hent.regs]
      have := hp j (by omega)
      rw [Nat.add_comm, BitVec.ofNat_add, ← BitVec.sub_sub] at this
      exact this
    obtain ⟨n, s', h1, h2⟩ := processList_enters es (k + C.vectorExecutionTime e.vector) t (fun x hx => h0 x (List.mem_cons_of_mem _ hx))
      (entered_even hent he) hp2 (fun x hx j hj => by rw [hsame]; exact hv x (List.mem_cons_of_mem _ hx) j hj)
    refine ⟨_, s', .cons hent h1, ?_⟩
    unfold processList
    dsimp only
    rw [if_neg (h0 e List.mem_cons_self), processException_eq, ht]
    dsimp only
    rw [h2, Nat.add_assoc]

theorem entered_exceptions (h : Entered C v s s') : s'.cpu.exceptions = s.cpu.exceptions ∧ s'.cpu.stop = s.cpu.stop := by
  rw [h.cpu]; exact ⟨rfl, rfl⟩
theorem enteredAll_exceptions {es : List Exception} {n : Nat} (h : EnteredAll C es n s s') : s'.cpu.exceptions = s.cpu.exceptions ∧ s'.cpu.stop = s.cpu.stop := by
  induction h with
  | nil s => exact ⟨rfl, rfl⟩
  | cons h1 _ ih => exact ⟨ih.1.trans (entered_exceptions h1).1, ih.2.trans (entered_exceptions h1).2⟩

end

/-! ### Histories -/

theorem rank_lt {a b : Exception} : b.priority < a.priority ↔ rank b.vector < rank a.vector := by
  have key : ∀ v w : Fin 256, Nat.blt (getVectorPriority (BitVec.ofFin (w := 8) w)).toNat (getVectorPriority (BitVec.ofFin (w := 8) v)).toNat =
      Nat.blt (rank (BitVec.ofFin (w := 8) w)) (rank (BitVec.ofFin (w := 8) v)) := by decide +kernel
  have := key a.vector.toFin b.vector.toFin
  unfold Exception.priority
  rw [BitVec.lt_def]
  have h := congrArg (· = true) this
  simp only [Nat.blt_eq] at h
  exact Iff.of_eq h

theorem call_sorted {x : Nat × Option U8} (hs : Sorted s.cpu.exceptions) (h : interpreterException C s = .ok x s') : Sorted s'.cpu.exceptions := by
  by_cases hr : s.cpu.stop = true
  · unfold interpreterException at h
    rw [if_pos hr] at h
    cases h
    exact hs
  · have hr : s.cpu.stop = false := by simpa using hr
    by_cases hp : s.cpu.exceptions = []
    · rw [← instruction_idle hr hp] at h
      rw [(Blind.instruction 0).keeps h]
      exact hs
    · rw [call_pending hr hp] at h
      obtain ⟨n, t, h1, h2⟩ := bind_ok h
      rw [(Blind.instruction n).keeps h2]
      rw [process_eq hs] at h1
      refine processList_keeps' (Q := Sorted) (fun _ _ => sorted_insert) List.Pairwise.nil _ _ _ _ _ ?_ h1
      exact List.Pairwise.filter _ hs

theorem run_call {n : Nat} (h : interpreter C s = .ok n s') : ∃ e t, interpreterException C s = .ok (n, e) t ∧ raiseOption e t = .ok () s' := by
  unfold interpreter at h
  obtain ⟨⟨k, e⟩, t, h1, h⟩ := bind_ok h
  obtain ⟨_, u, h2, h⟩ := bind_ok h
  cases h
  exact ⟨e, t, h1, h2⟩

theorem raise_sorted {e : Option U8} (hs : Sorted s.cpu.exceptions) (h : raiseOption e s = .ok () s') : Sorted s'.cpu.exceptions := by
  cases e with
  | none => cases h; exact hs
  | some e =>
    cases h
    show Sorted (s.cpu.exception ⟨e⟩).exceptions
    rw [exception_exceptions]
    exact sorted_insert hs

theorem history_sorted (h : History C s) : Sorted s.cpu.exceptions := by
  induction h with
  | new m => exact sorted_insert List.Pairwise.nil
  | newNoReset m => exact List.Pairwise.nil
  | act h ha ih =>
    cases ha with
    | request v =>
      show Sorted (Cpu.exception _ _).exceptions
      rw [exception_exceptions]
      exact sorted_insert ih
    | call h => exact call_sorted ih h
    | run h =>
      obtain ⟨e, t, h1, h2⟩ := run_call h
      exact raise_sorted (call_sorted ih h1) h2
    | host r stop m => exact ih

end Exec
end M68k
