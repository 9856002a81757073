import Verif.Spec.Panic
import Verif.Props.C31
import Verif.Props.C42Runs
/-
C67: the three situations in which a call panics, on a memory whose methods do not panic (`Serves I`, Spec/Length.lean). The situations are in Spec/Panic.lean.
-/
namespace M68k.Props
open Spec Exec
set_option linter.unusedSectionVars false
variable {M : Type} [MemoryAccess M] {C : CpuDetails} {s s' s1 s2 t u : St M} {op : U16} {I : M → Prop}

instance : Decidable (MovemMisfit op) := by unfold MovemMisfit; infer_instance

/-- The number of extension words that are read behind an opcode: those of the instruction, and those of a MOVEM for the 32 opcodes that are taken as MOVEM
(C38). -/
def wordsAfter (op : U16) : Nat := if MovemMisfit op then extensionWords .Movem op else extensionWords (instr op) op

/-- The memory provides the opcode at the program counter but refuses one of its extension words: it provides the first `k` and not the next one. -/
def MissingWord (t : St M) : Prop :=
  ∃ op t1 k ws t2 m, Ready (t.withPending []) op t1 ∧ k < wordsAfter op ∧ fetchWords k t1 = .ok ws t2 ∧ MemoryAccess.getWord t2.cpu.regs.pc t2.mem = .none m

/-- The state in which a call of a running core turns to the instruction: after the reset if one is pending, else after the processing of the pending exceptions
that are not held back. -/
def Begins (C : CpuDetails) (s t : St M) : Prop :=
  (⟨0⟩ ∈ s.cpu.exceptions ∧ ∃ ssp pc m1 m2, MemoryAccess.getLong 0 s.mem = .val ssp m1 ∧ MemoryAccess.getLong 4 m1 = .val pc m2 ∧
    t = afterReset { s with mem := m2 } ssp pc) ∨
  (⟨0⟩ ∉ s.cpu.exceptions ∧ Attempted C (taken s) (untaken s) t)

theorem wordsAfter_eq (op : U16) : wordsAfter op = extensionWords (decoder op) op := by
  unfold wordsAfter
  split
  · rw [decoder_of_misfit ‹_›]
  · rw [decoder_of_not_misfit ‹_›]

theorem noPanic_processException (hM : Serves I) (v : U8) : NoPanic I (processException C v : Exec M Nat) := by
  have hL := legal_noPanic hM
  intro s hs
  rw [processException_eq]
  unfold enter
  have hpush : ∀ (sz : Size) (x : Val sz), NoPanic I (Spec.push sz x : Exec M Unit) := fun sz x s hs =>
    hL.store trivial sz (areg s.cpu.regs 7 - Spec.step 7 sz) x (s.withRegs fun r => setAreg r 7 (areg r 7 - Spec.step 7 sz)) hs
  have hitems : ∀ is : List Item, NoPanic I (pushItems is : Exec M Unit) := by
    intro is
    induction is with
    | nil => exact hL.pure _
    | cons i is ih =>
      refine hL.bind _ _ ?_ fun _ => ih
      cases i with
      | w x => exact hpush .Word x
      | l x => exact hpush .Long x
  have hj : ∀ pc : U32, NoPanic I (do jump pc; Pure.pure (C.vectorExecutionTime v) : Exec M Nat) := fun _ _ hs => hs
  exact hL.bind (setFlags (entrySr v)) _ (fun _ hs => hs) (fun _ => hL.bind _ _ (hitems _) fun _ =>
    hL.bind _ _ (noPanic_access fun m hm => hM.get .Long _ m vector_aligned hm) hj) s hs

/-- The action does not stop the core or let it continue. -/
def Calm {α : Type} (x : Exec M α) : Prop := ∀ s, match x s with
  | .ok _ t => t.cpu.stop = s.cpu.stop
  | .err _ t => t.cpu.stop = s.cpu.stop
  | .panic => True

theorem Calm.bind {α β : Type} {x : Exec M α} {f : α → Exec M β} (hx : Calm x) (hf : ∀ a, Calm (f a)) : Calm (x >>= f) := by
  intro s
  have h1 := hx s
  rw [Exec.bind_apply]
  cases hxs : x s with
  | ok a t =>
    rw [hxs] at h1
    have h2 := hf a t
    dsimp only
    cases hfs : f a t with
    | ok b u => rw [hfs] at h2; exact h2.trans h1
    | err v u => rw [hfs] at h2; exact h2.trans h1
    | panic => trivial
  | err v t => rw [hxs] at h1; exact h1
  | panic => trivial

theorem Calm.access {α : Type} (f : M → MRes M α) : Calm (access f) := by
  intro s
  unfold Spec.access
  cases f s.mem <;> trivial

theorem processException_stop (v : U8) : Calm (processException C v : Exec M Nat) := by
  intro s
  rw [processException_eq]
  unfold enter
  have hpush : ∀ (sz : Size) (x : Val sz), Calm (Spec.push sz x : Exec M Unit) := by
    intro sz x s
    have : Calm (Spec.store sz (areg s.cpu.regs 7 - Spec.step 7 sz) x : Exec M Unit) := by
      unfold Spec.store
      split
      · exact fun _ => rfl
      · exact Calm.access _
    exact this (s.withRegs fun r => setAreg r 7 (areg r 7 - Spec.step 7 sz))
  have hitems : ∀ is : List Item, Calm (pushItems is : Exec M Unit) := by
    intro is
    induction is with
    | nil => exact fun _ => rfl
    | cons i is ih =>
      refine Calm.bind ?_ fun _ => ih
      cases i with
      | w x => exact hpush .Word x
      | l x => exact hpush .Long x
  have hj : ∀ pc : U32, Calm (do jump pc; Pure.pure (C.vectorExecutionTime v) : Exec M Nat) := fun _ _ => rfl
  exact Calm.bind (x := setFlags (entrySr v)) (fun _ => rfl) (fun _ => Calm.bind (hitems _) fun _ => Calm.bind (Calm.access _) hj) s

/-- One turn of the processing loop. -/
theorem processList_cons {e : Exception} {es : List Exception} {n : Nat} (h0 : e.vector ≠ 0) :
    processList C (e :: es) n s = match processException C e.vector s with
      | .ok c t => processList C es (n + c) t
      | .err v t => if v = 2 ∧ e.vector = 2 then .panic
        else processList C es n { t with cpu := t.cpu.exception ⟨if v = 2 ∧ e.isInterrupt = true then 24 else v⟩ }
      | .panic => .panic := by
  show (if e.vector = 0 then _ else _) = _
  rw [if_neg h0]
  cases hx : processException C e.vector s with
  | ok c t => rfl
  | panic => rfl
  | err v t =>
    dsimp only
    by_cases hv : v = ACCESS_ERROR
    · subst hv
      rw [if_pos rfl]
      by_cases he : e.vector = ACCESS_ERROR
      · rw [if_pos he, if_pos (⟨rfl, he⟩ : ACCESS_ERROR = 2 ∧ e.vector = 2)]
      · rw [if_neg he, if_neg (fun h : ACCESS_ERROR = 2 ∧ e.vector = 2 => he h.2)]
        by_cases hi : e.isInterrupt = true
        · rw [if_pos hi, if_pos (⟨rfl, hi⟩ : ACCESS_ERROR = 2 ∧ e.isInterrupt = true)]
        · rw [if_neg hi, if_neg (fun h : ACCESS_ERROR = 2 ∧ e.isInterrupt = true => hi h.2)]
    · rw [if_neg hv, if_neg (fun h => hv h.1), if_neg (fun h => hv h.1)]

theorem attempted_keeps (hM : Serves I) {es : List Exception} (h : Attempted C es s t) (hs : I s.mem) (hst : s.cpu.stop = false) : I t.mem ∧ t.cpu.stop = false := by
  induction h with
  | nil => exact ⟨hs, hst⟩
  | @entered e es n s t u h0 hp _ ih =>
    have h1 := noPanic_processException (C := C) hM e.vector s hs
    have h2 := processException_stop (C := C) e.vector s
    rw [hp] at h1 h2
    exact ih h1 (h2.trans hst)
  | @failed e es v s t u h0 hp _ _ ih =>
    have h1 := noPanic_processException (C := C) hM e.vector s hs
    have h2 := processException_stop (C := C) e.vector s
    rw [hp] at h1 h2
    exact ih h1 (exception_stop _ _ (h2.trans hst))

/-- The processing of a list without a reset ends, unless it meets a double fault. -/
theorem processList_cases (hM : Serves I) : ∀ (es : List Exception) (n : Nat) (s : St M), (∀ e ∈ es, e.vector ≠ 0) → I s.mem →
    (∃ k t, processList C es n s = .ok k t ∧ Attempted C es s t) ∨
    (processList C es n s = .panic ∧ ∃ es1 es2 t t', es = es1 ++ ⟨2⟩ :: es2 ∧ Attempted C es1 s t ∧ processException C 2 t = .err 2 t')
  | [], n, s, _, _ => .inl ⟨n, s, rfl, .nil s⟩
  | e :: es, n, s, h0, hs => by
    have he := h0 e List.mem_cons_self
    have hes := fun x hx => h0 x (List.mem_cons_of_mem _ hx)
    have h1 := noPanic_processException (C := C) hM e.vector s hs
    rw [processList_cons he]
    cases hx : processException C e.vector s with
    | ok c t =>
      rw [hx] at h1
      rcases processList_cases hM es (n + c) t hes h1 with ⟨k, u, h2, h3⟩ | ⟨h2, es1, es2, u, u', rfl, h4, h5⟩
      · exact .inl ⟨k, u, h2, .entered he hx h3⟩
      · exact .inr ⟨h2, e :: es1, es2, u, u', rfl, .entered he hx h4, h5⟩
    | panic => rw [hx] at h1; exact h1.elim
    | err v t =>
      rw [hx] at h1
      dsimp only
      by_cases hd : v = 2 ∧ e.vector = 2
      · rw [if_pos hd]
        obtain ⟨rfl, h2⟩ := hd
        rw [h2] at hx
        obtain ⟨v⟩ := e
        cases h2
        exact .inr ⟨rfl, [], es, s, t, rfl, .nil s, hx⟩
      · rw [if_neg hd]
        rcases processList_cases hM es n { t with cpu := t.cpu.exception ⟨if v = 2 ∧ e.isInterrupt = true then 24 else v⟩ } hes h1 with ⟨k, u, h2, h3⟩ | ⟨h2, es1, es2, u, u', rfl, h4, h5⟩
        · exact .inl ⟨k, u, h2, .failed he hx hd h3⟩
        · exact .inr ⟨h2, e :: es1, es2, u, u', rfl, .failed he hx hd h4, h5⟩

/-- The processing of a list is determined: it ends at a state or meets a double fault, not both. -/
theorem processList_attempted {es : List Exception} (h : Attempted C es s t) : ∀ n, ∃ k, processList C es n s = .ok k t := by
  induction h with
  | nil => exact fun n => ⟨n, rfl⟩
  | entered h0 hp _ ih =>
    intro n
    rw [processList_cons h0, hp]
    exact ih _
  | failed h0 hp hd _ ih =>
    intro n
    rw [processList_cons h0, hp]
    dsimp only
    rw [if_neg hd]
    exact ih _

theorem processList_fault {es1 es2 : List Exception} {t' : St M} (h : Attempted C es1 s t) (hf : processException C 2 t = .err 2 t') : ∀ n,
    processList C (es1 ++ ⟨2⟩ :: es2) n s = .panic := by
  induction h with
  | nil =>
    intro n
    rw [List.nil_append, processList_cons (by decide), hf]
    rfl
  | entered h0 hp _ ih =>
    intro n
    rw [List.cons_append, processList_cons h0, hp]
    exact ih hf _
  | failed h0 hp hd _ ih =>
    intro n
    rw [List.cons_append, processList_cons h0, hp]
    dsimp only
    rw [if_neg hd]
    exact ih hf _

/-- The instruction: on a memory whose methods do not panic it panics exactly if an extension word is missing. -/
theorem instruction_panics (hM : Serves I) (ht : I t.mem) (hst : t.cpu.stop = false) (n : Nat) : fastInstruction C n t = .panic ↔ MissingWord t := by
  rw [instruction_eq hst]
  have hp : ((later n (interpreterException C (t.withPending []))).after fun u => u.withPending t.cpu.exceptions) = .panic ↔
      interpreterException C (t.withPending []) = .panic := by
    cases interpreterException C (t.withPending []) <;> simp [later, Res.after]
  rw [hp]
  -- the words
  have words : ∀ (k : Nat) (s : St M), I s.mem → ¬ Spec.Odd s.cpu.regs.pc →
      (fetchWords k s = .panic ↔ ∃ j ws s2 m, j < k ∧ fetchWords j s = .ok ws s2 ∧ MemoryAccess.getWord s2.cpu.regs.pc s2.mem = .none m) := by
    intro k
    induction k with
    | zero => intro s _ _; exact ⟨(fun h => nomatch h), fun ⟨j, _, _, _, h, _⟩ => absurd h (Nat.not_lt_zero j)⟩
    | succ k ih =>
      intro s hs ho
      have hg := hM.get .Word s.cpu.regs.pc s.mem (fun h => ho h.2) hs
      have hg : ServedAs I (MemoryAccess.getWord s.cpu.regs.pc s.mem : MRes M U16) := hg
      cases hw : (MemoryAccess.getWord s.cpu.regs.pc s.mem : MRes M U16) with
      | panic => rw [hw] at hg; exact hg.elim
      | none m =>
        have hf : (fetch : Exec M U16) s = .panic := by unfold Spec.fetch; rw [if_neg ho, hw]
        refine ⟨fun _ => ⟨0, [], s, m, Nat.succ_pos k, rfl, hw⟩, fun _ => ?_⟩
        unfold fetchWords
        rw [Exec.bind_apply, hf]
      | val w m =>
        rw [hw] at hg
        have hf : (fetch : Exec M U16) s = .ok w { mem := m, cpu := { s.cpu with regs := { s.cpu.regs with pc := s.cpu.regs.pc + 2 } } } := by
          unfold Spec.fetch; rw [if_neg ho, hw]
        have ih := ih { mem := m, cpu := { s.cpu with regs := { s.cpu.regs with pc := s.cpu.regs.pc + 2 } } } hg (fun h => ho ((odd_two _).1 h))
        have e1 : ∀ j, fetchWords (j + 1) s = (fetchWords j >>= fun ws => pure (w :: ws) : Exec M (List U16))
            { mem := m, cpu := { s.cpu with regs := { s.cpu.regs with pc := s.cpu.regs.pc + 2 } } } := by
          intro j
          show (fetch >>= fun w => fetchWords j >>= fun ws => pure (w :: ws) : Exec M (List U16)) s = _
          rw [bind_eq hf]
        rw [e1, Exec.bind_apply]
        constructor
        · intro h
          have : fetchWords k { mem := m, cpu := { s.cpu with regs := { s.cpu.regs with pc := s.cpu.regs.pc + 2 } } } = .panic := by
            cases hk : fetchWords k { mem := m, cpu := { s.cpu with regs := { s.cpu.regs with pc := s.cpu.regs.pc + 2 } } } with
            | panic => rfl
            | ok a b => rw [hk] at h; cases h
            | err a b => rw [hk] at h; cases h
          obtain ⟨j, ws, s2, m', hj, h1, h2⟩ := ih.1 this
          exact ⟨j + 1, w :: ws, s2, m', Nat.succ_lt_succ hj, by rw [e1, bind_eq h1]; rfl, h2⟩
        · rintro ⟨j, ws, s2, m', hj, h1, h2⟩
          cases j with
          | zero => cases h1; rw [hw] at h2; cases h2
          | succ j =>
            rw [e1] at h1
            obtain ⟨ws', s3, h3, h4⟩ := bind_ok h1
            cases h4
            rw [ih.2 ⟨j, ws', s2, m', Nat.lt_of_succ_lt_succ hj, h3, h2⟩]
  rcases step_idle C (s := t.withPending []) hst rfl with ⟨ho, h⟩ | ⟨ho, m, hg, h⟩ | ⟨ho, hg, h⟩ | ⟨op, t1, hr⟩
  · rw [h]
    refine ⟨(fun h => nomatch h), fun ⟨_, _, _, _, _, _, hr, _⟩ => absurd ho hr.even⟩
  · rw [h]
    refine ⟨(fun h => nomatch h), fun ⟨_, _, _, _, _, _, hr, _⟩ => ?_⟩
    obtain ⟨-, -, -, m', h4, -⟩ := hr
    rw [hg] at h4
    cases h4
  · have := hM.get .Word t.cpu.regs.pc t.mem (fun h => ho h.2) ht
    have hg : memGet .Word t.cpu.regs.pc t.mem = .panic := hg
    rw [hg] at this
    exact this.elim
  · have hr0 := hr
    obtain ⟨-, -, he, m, h4, h5⟩ := hr0
    have h1 : I t1.mem := by
      subst h5
      have := hM.get .Word t.cpu.regs.pc t.mem (fun h => he h.2) ht
      have h4' : memGet .Word t.cpu.regs.pc t.mem = .val op m := h4
      rw [h4'] at this
      exact this
    have ho1 : ¬ Spec.Odd t1.cpu.regs.pc := by subst h5; exact fun h => he ((odd_two _).1 h)
    have hw := words (wordsAfter op) t1 h1 ho1
    have hx : interpreterException C (t.withPending []) = .panic ↔ fetchWords (wordsAfter op) t1 = .panic := by
      rw [wordsAfter_eq]
      rcases step_split (legal_noPanic hM) C hr (fun _ => trivial) (fun _ => trivial) (fun _ => trivial) (fun _ => trivial) with
        ⟨ws, s2, z, hf, hz, hx⟩ | ⟨hf, hp⟩
      · rw [hf]
        refine ⟨fun h => ?_, (fun h => nomatch h)⟩
        have h2 := hz s2 (fetchWords_served hM hf h1)
        rw [step_finish C hr] at h
        unfold finishStep at h
        rw [hx] at h
        cases hr : z s2 with
        | ok a s' => rw [hr] at h; cases h
        | err v s' => rw [hr] at h; cases h
        | panic => rw [hr] at h2; exact h2.elim
      · rw [hf, hp]
        exact ⟨fun _ => rfl, fun _ => rfl⟩
    rw [hx, hw]
    constructor
    · rintro ⟨j, ws, s2, m', h⟩
      exact ⟨op, t1, j, ws, s2, m', hr, h⟩
    · rintro ⟨op', t1', j, ws, s2, m', hr', h⟩
      obtain ⟨-, -, -, m2, h4', h5'⟩ := hr'
      rw [h4] at h4'
      cases h4'
      subst h5 h5'
      exact ⟨j, ws, s2, m', h⟩

theorem vector_zero {e : Exception} (h : e.vector = 0) : e = ⟨0⟩ := by cases e; cases h; rfl

/-- A pending reset is the first of the pending exceptions. -/
theorem reset_head {es : List Exception} (hs : Sorted es) (h : ⟨0⟩ ∈ es) : ∃ es', es = ⟨0⟩ :: es' := by
  cases es with
  | nil => cases h
  | cons e es =>
    rcases List.mem_cons.1 h with rfl | h
    · exact ⟨es, rfl⟩
    · exfalso
      have h1 := (List.pairwise_cons.1 hs).1 ⟨0⟩ h
      have : ∀ v : U8, ¬ (⟨0⟩ : Exception).priority < (⟨v⟩ : Exception).priority := by decide +kernel
      exact this e.vector h1

theorem memExpect_val {α : Type} {f : M → MRes M α} {a : α} {m m' : M} {c : Cpu} (h : f m = .val a m') : memExpect f ⟨c, m⟩ = .ok a ⟨c, m'⟩ := by
  unfold memExpect
  dsimp only
  rw [h]

theorem memExpect_none {α : Type} {f : M → MRes M α} {m m' : M} {c : Cpu} (h : f m = .none m') : memExpect f ⟨c, m⟩ = .panic := by
  unfold memExpect
  dsimp only
  rw [h]

/-- A reset panics exactly if one of its reads is refused. -/
theorem reset_cases (hM : Serves I) (hs : I s.mem) : (ResetRefused s.mem ∧ reset C (s.withPending []) = .panic) ∨
    ∃ ssp pc m1 m2, MemoryAccess.getLong 0 s.mem = .val ssp m1 ∧ MemoryAccess.getLong 4 m1 = .val pc m2 ∧ I m2 ∧
      reset C (s.withPending []) = .ok C.VECTOR_RESET (afterReset { s with mem := m2 } ssp pc) := by
  obtain ⟨c, m⟩ := s
  have h0 : ServedAs I (MemoryAccess.getLong 0 m : MRes M U32) := hM.get .Long 0 m (by decide) hs
  cases h : (MemoryAccess.getLong 0 m : MRes M U32) with
  | panic => rw [h] at h0; exact h0.elim
  | none m1 =>
    refine .inl ⟨.inl ⟨m1, h⟩, ?_⟩
    unfold reset
    rw [Exec.bind_apply, show (⟨c, m⟩ : St M).withPending [] = ⟨{ c with exceptions := [] }, m⟩ from rfl, memExpect_none h]
  | val ssp m1 =>
    rw [h] at h0
    have h4 : ServedAs I (MemoryAccess.getLong 4 m1 : MRes M U32) := hM.get .Long 4 m1 (by decide) h0
    have e0 := memExpect_val (c := { c with exceptions := [] }) h
    have hr : reset C ((⟨c, m⟩ : St M).withPending []) = (do
        let pc ← memExpect (MemoryAccess.getLong 4)
        modifyRegs fun r => { r with pc := pc }
        modifySr fun sr => { sr with t := false, s := true, interruptMask := 7 }
        setStop false
        return C.VECTOR_RESET : Exec M Nat) ⟨{ c with exceptions := [], regs := { c.regs with ssp := ssp } }, m1⟩ := by
      unfold reset
      rw [show (⟨c, m⟩ : St M).withPending [] = ⟨{ c with exceptions := [] }, m⟩ from rfl, bind_eq e0]
      rfl
    cases h' : (MemoryAccess.getLong 4 m1 : MRes M U32) with
    | panic => rw [h'] at h4; exact h4.elim
    | none m2 =>
      refine .inl ⟨.inr ⟨ssp, m1, m2, h, h'⟩, ?_⟩
      rw [hr, Exec.bind_apply, memExpect_none h']
    | val pc m2 =>
      rw [h'] at h4
      refine .inr ⟨ssp, pc, m1, m2, rfl, h', h4, ?_⟩
      rw [hr, bind_eq (memExpect_val h')]
      rfl

theorem call_taken (hr : s.cpu.stop = false) (hs : Sorted s.cpu.exceptions) :
    interpreterException C s = (processList C (taken s) 0 >>= fun n => fastInstruction C n) (untaken s) := by
  by_cases hp : s.cpu.exceptions = []
  · have h1 : taken s = [] := by unfold taken; rw [hp]; rfl
    have h2 : untaken s = s := by
      unfold untaken
      rw [hp]
      exact (congrArg s.withPending hp.symm).trans (withPending_self s)
    rw [h1, h2, bind_eq (show processList C [] 0 s = .ok 0 s from rfl), instruction_idle hr hp]
  · rw [call_pending hr hp, Exec.bind_apply, Exec.bind_apply, process_eq hs]
    rfl

/-- A call of `interpreter_exception` on a memory whose methods do not panic panics in three situations and in no other. The core is not stopped, and
* a reset is pending and the memory refuses the long word at 0 or at 4;
* no reset is pending, and while a pending access error is entered the memory refuses an access, so that there is an access error again;
* the pending exceptions are dealt with, the memory provides the opcode at the program counter and refuses one of its extension words. -/
theorem C67_panics (hM : Serves I) (hs : I s.mem) (h : History C s) : interpreterException C s = .panic ↔ s.cpu.stop = false ∧
    ((⟨0⟩ ∈ s.cpu.exceptions ∧ ResetRefused s.mem) ∨ (⟨0⟩ ∉ s.cpu.exceptions ∧ DoubleFault C s) ∨ ∃ t, Begins C s t ∧ MissingWord t) := by
  cases hst : s.cpu.stop with
  | true =>
    have : interpreterException C s = .ok (0, none) s := by unfold interpreterException; rw [if_pos hst]
    rw [this]
    exact ⟨(fun h => nomatch h), fun h => nomatch h.1⟩
  | false =>
    have hso := history_sorted h
    rw [call_taken hst hso, Exec.bind_apply]
    by_cases h0 : ⟨0⟩ ∈ s.cpu.exceptions
    · obtain ⟨es, he⟩ := reset_head hso h0
      have ht : ∃ es', taken s = ⟨0⟩ :: es' := by
        refine ⟨es.filter fun e => !isHeld s.cpu.regs.sr.interruptMask e, ?_⟩
        unfold taken
        rw [he, List.filter_cons_of_pos (by rw [show isHeld s.cpu.regs.sr.interruptMask ⟨0⟩ = false from rfl]; rfl)]
      obtain ⟨es', ht⟩ := ht
      have hl : processList C (taken s) 0 (untaken s) = reset C (s.withPending []) := by
        rw [ht]
        unfold processList
        dsimp only
        rw [if_pos rfl]
        rfl
      rw [hl]
      rcases reset_cases (C := C) hM hs with ⟨hf, hp⟩ | ⟨ssp, pc, m1, m2, r0, r4, hm, hp⟩
      · rw [hp]
        exact ⟨fun _ => ⟨rfl, .inl ⟨h0, hf⟩⟩, fun _ => rfl⟩
      · rw [hp]
        dsimp only
        rw [instruction_panics hM (t := afterReset { s with mem := m2 } ssp pc) hm rfl]
        constructor
        · exact fun hw => ⟨rfl, .inr (.inr ⟨_, .inl ⟨h0, ssp, pc, m1, m2, r0, r4, rfl⟩, hw⟩)⟩
        · rintro ⟨-, ⟨-, ⟨m, hf⟩ | ⟨a, m, m', hf, hf'⟩⟩ | ⟨hn, -⟩ | ⟨t, ⟨-, a, b, c, d, ha, hb, rfl⟩ | ⟨hn, -⟩, hw⟩⟩
          · rw [r0] at hf; cases hf
          · rw [r0] at hf; cases hf; rw [r4] at hf'; cases hf'
          · exact absurd h0 hn
          · rw [r0] at ha
            cases ha
            rw [r4] at hb
            cases hb
            exact hw
          · exact absurd h0 hn
    · have hv : ∀ e ∈ taken s, e.vector ≠ 0 := fun e he hz => h0 (vector_zero hz ▸ (List.mem_filter.1 he).1)
      rcases processList_cases (C := C) hM (taken s) 0 (untaken s) hv hs with ⟨k, t, hk, ha⟩ | ⟨hk, es1, es2, t, t', he, ha, hf⟩
      · rw [hk]
        dsimp only
        obtain ⟨hm, hr⟩ := attempted_keeps hM ha hs hst
        rw [instruction_panics hM hm hr]
        constructor
        · exact fun hw => ⟨rfl, .inr (.inr ⟨t, .inr ⟨h0, ha⟩, hw⟩)⟩
        · rintro ⟨-, ⟨hn, -⟩ | ⟨-, es1, es2, t1, t', he, ha', hf⟩ | ⟨u, ⟨hn, -⟩ | ⟨-, ha'⟩, hw⟩⟩
          · exact absurd hn h0
          · have := processList_fault (es2 := es2) ha' hf 0
            rw [← he, hk] at this
            cases this
          · exact absurd hn h0
          · obtain ⟨k', hk'⟩ := processList_attempted ha' 0
            rw [hk] at hk'
            cases hk'
            exact hw
      · rw [hk]
        exact ⟨fun _ => ⟨rfl, .inr (.inl ⟨h0, es1, es2, t, t', he, ha, hf⟩)⟩, fun _ => rfl⟩

/-- In particular, a core with neither a reset nor an access error pending panics only because of a missing extension word. -/
theorem C67_quiet (hM : Serves I) (hs : I s.mem) (h : History C s) (h0 : ⟨0⟩ ∉ s.cpu.exceptions) (h2 : ⟨2⟩ ∉ s.cpu.exceptions) :
    interpreterException C s = .panic ↔ s.cpu.stop = false ∧ ∃ t, Attempted C (taken s) (untaken s) t ∧ MissingWord t := by
  rw [C67_panics hM hs h]
  constructor
  · rintro ⟨hr, ⟨hn, -⟩ | ⟨-, es1, es2, t1, t', he, -⟩ | ⟨u, ⟨hn, -⟩ | ⟨-, ha⟩, hw⟩⟩
    · exact absurd hn h0
    · refine absurd ?_ h2
      have : (⟨2⟩ : Exception) ∈ taken s := by rw [he]; simp
      exact (List.mem_filter.1 this).1
    · exact absurd hn h0
    · exact ⟨hr, u, ha, hw⟩
  · rintro ⟨hr, t, ha, hw⟩
    exact ⟨hr, .inr (.inr ⟨t, .inr ⟨h0, ha⟩, hw⟩)⟩

/-- The calls of `interpreter`, and of the disassembling interpreter, panic in the same situations. -/
theorem C67_interpreter : (interpreter C s = .panic ↔ interpreterException C s = .panic) ∧
    (disassemblerInterpreterException C s = .panic ↔ interpreterException C s = .panic) := by
  refine ⟨?_, C34_panic.symm⟩
  unfold interpreter
  rw [Exec.bind_apply]
  cases interpreterException C s with
  | panic => exact ⟨fun _ => rfl, fun _ => rfl⟩
  | err v t => exact ⟨(fun h => nomatch h), (fun h => nomatch h)⟩
  | ok x t =>
    obtain ⟨n, e⟩ := x
    refine ⟨fun h => ?_, (fun h => nomatch h)⟩
    cases e <;> cases h

/-- A reset whose vector is missing. -/
example : ⟨0⟩ ∈ Cpu.new.exceptions ∧ ResetRefused (⟨[1, 2, 3]⟩ : WordSlice) ∧ interpreterException mc68000 (⟨Cpu.new, ⟨[1, 2, 3]⟩⟩ : St WordSlice) = .panic := by
  have hr : ResetRefused (⟨[1, 2, 3]⟩ : WordSlice) := .inr ⟨_, _, _, rfl, rfl⟩
  exact ⟨List.mem_singleton.2 rfl, hr, (C67_panics C42_words trivial (.new _)).2 ⟨rfl, .inl ⟨List.mem_singleton.2 rfl, hr⟩⟩⟩

/-- An access error on a memory without a stack. -/
example : DoubleFault mc68000 (⟨Cpu.newNoReset.exception ⟨2⟩, ⟨[1, 2]⟩⟩ : St WordSlice) := ⟨[], [], _, _, rfl, .nil _, rfl⟩

/-- `MOVE.W #imm,D0` at the end of the memory. -/
example : MissingWord (⟨Cpu.newNoReset, ⟨[0x303C]⟩⟩ : St WordSlice) :=
  ⟨0x303C, _, 0, [], _, _, ⟨rfl, rfl, by decide, _, rfl, rfl⟩, by decide +kernel, rfl, rfl⟩

end M68k.Props
