import Verif.Spec.Whole
import Verif.Props.C29
import Verif.Props.C40
/-
The interpreter is the machine described in Spec/Whole.lean.
-/
namespace M68k
namespace Exec
open Spec
set_option linter.unusedSectionVars false
variable {M : Type} [MemoryAccess M] {s s' : St M} {C : CpuDetails} {v : U8}

theorem ordered_iff : Ordered s ↔ Sorted s.cpu.exceptions :=
  ⟨fun h => h.imp fun h => rank_lt.2 h, fun h => h.imp fun h => rank_lt.1 h⟩

theorem queue_eq {es : List Exception} (h : Sorted es) : insertException ⟨v⟩ es = queue v es := by
  induction es with
  | nil => rfl
  | cons e es ih =>
    obtain ⟨h1, h2⟩ := List.pairwise_cons.1 h
    have ih := ih h2
    unfold insertException
    by_cases he : (⟨v⟩ : Exception).priority = e.priority
    · rw [if_pos he]
      unfold queue
      rw [if_pos ⟨e, List.mem_cons_self, (Props.rank_eq.1 he).symm⟩]
    · have hr : rank e.vector ≠ rank v := fun h => he (Props.rank_eq.2 h.symm)
      rw [if_neg he]
      by_cases hl : e.priority < (⟨v⟩ : Exception).priority
      · rw [if_pos hl]
        have hl' : rank e.vector < rank v := rank_lt.1 hl
        unfold queue
        rw [if_neg, List.takeWhile_cons_of_neg (by simp; omega), List.dropWhile_cons_of_neg (by simp; omega)]
        · rfl
        · rintro ⟨x, hx, hr'⟩
          rcases List.mem_cons.1 hx with rfl | hx
          · exact hr hr'
          · have := rank_lt.1 (h1 x hx)
            omega
      · rw [if_neg hl, ih]
        have hl' : rank v < rank e.vector := by
          have : ¬ rank e.vector < rank v := fun h => hl ((rank_lt (a := ⟨v⟩) (b := e)).2 h)
          omega
        unfold queue
        by_cases hx : ∃ x ∈ es, rank x.vector = rank v
        · obtain ⟨x, hx, hr'⟩ := hx
          rw [if_pos ⟨x, hx, hr'⟩, if_pos ⟨x, List.mem_cons_of_mem _ hx, hr'⟩]
        · rw [if_neg hx, if_neg, List.takeWhile_cons_of_pos (by simpa using hl'), List.dropWhile_cons_of_pos (by simpa using hl')]
          · rfl
          · rintro ⟨x, hm, hr'⟩
            rcases List.mem_cons.1 hm with rfl | hm
            · exact hr hr'
            · exact hx ⟨x, hm, hr'⟩

theorem request_eq (h : Sorted s.cpu.exceptions) : raise ⟨v⟩ s = request v s := by
  unfold raise request Cpu.exception
  rw [← queue_eq h]
  have hw : (⟨v⟩ : Exception).isInterrupt = decide (InterruptVector v) := by
    have := interruptVector_iff (v := v)
    by_cases hi : InterruptVector v
    · rw [decide_eq_true hi]; exact this.2 hi
    · rw [decide_eq_false hi]
      exact Bool.eq_false_iff.2 fun h => hi (this.1 h)
  rw [hw]
  by_cases hk : Wakes v
  · have : (v = 0 || v = 9 || InterruptVector v : Bool) = true := by
      unfold Wakes at hk
      simpa [or_assoc] using hk
    dsimp only
    rw [if_pos (by simpa using this), if_pos hk]
  · have : ¬ (v = 0 || v = 9 || InterruptVector v : Bool) = true := by
      unfold Wakes at hk
      simpa [or_assoc] using hk
    dsimp only
    rw [if_neg (by simpa using this), if_neg hk]

theorem pushAll_items (is : List Item) : (pushItems is : Exec M Unit) = pushAll (is.map fun i => match i with | .w x => .word x | .l x => .long x) := by
  induction is with
  | nil => rfl
  | cons i is ih =>
    cases i <;> (unfold pushItems; rw [ih]; rfl)

theorem frameItems_pushes (format : StackFormat) (sr : U16) (pc : U32) (opcode : U16) :
    (frameItems format v sr pc opcode).map (fun i => match i with | .w x => .word x | .l x => .long x) = pushes format v sr pc opcode := by
  unfold frameItems pushes
  cases format <;> by_cases h : LongFrame v <;> simp [h]

theorem vectorAddress_even : ¬ Spec.Odd (vectorAddress v) := by
  unfold Spec.Odd vectorAddress
  have := v.isLt
  rw [BitVec.toNat_ofNat]
  omega

theorem load_even {a : U32} (h : ¬ Spec.Odd a) : (load .Long a : Exec M U32) = access (MemoryAccess.getLong a) := by
  unfold load
  rw [if_neg fun h' => h h'.2]
  rfl

theorem entry_eq : processException C v s = entry C v s := by
  rw [processException_eq]
  unfold enter entry
  rw [pushAll_items, frameItems_pushes, load_even vectorAddress_even]

theorem attempt_memExpect {a : U32} (h : ¬ Spec.Odd a) {α : Type} (f : U32 → Exec M α) :
    (memExpect (MemoryAccess.getLong a) >>= f) = (attempt (load .Long a) >>= fun r => match r with | .error _ => crash | .ok x => f x) := by
  funext s
  rw [load_even h, Exec.bind_apply, Exec.bind_apply]
  unfold memExpect attempt access
  cases MemoryAccess.getLong a s.mem <;> rfl

theorem restart_eq : reset C s = restart C s := by
  unfold reset restart
  rw [attempt_memExpect (by decide)]
  refine bind_congr_at rfl fun r t _ => ?_
  cases r with
  | error e => rfl
  | ok sp =>
    simp only []
    rw [attempt_memExpect (by decide)]
    show (attempt (load .Long 4) >>= _) (t.withRegs fun r => { r with ssp := sp }) = _
    rw [load_even (by decide), Exec.bind_apply, Exec.bind_apply]
    unfold attempt access
    have hm : (t.withRegs fun r => { r with ssp := sp }).mem = t.mem := rfl
    rw [hm]
    cases MemoryAccess.getLong 4 t.mem <;> rfl

theorem attempt_bind {α β : Type} (x : Exec M α) (f : Except U8 α → Exec M β) :
    (attempt x >>= f) s = match x s with | .ok a t => f (.ok a) t | .err e t => f (.error e) t | .panic => .panic := by
  rw [Exec.bind_apply]
  unfold attempt
  cases x s <;> rfl

theorem enterAll_eq : ∀ (es : List Exception) (n : Nat) (s : St M), Sorted s.cpu.exceptions → processList C es n s = enterAll C es n s
  | [], n, s, _ => rfl
  | e :: es, n, s, hs => by
    unfold processList enterAll
    by_cases h0 : e.vector = 0
    · rw [if_pos h0]
      rw [if_pos h0]
      exact restart_eq (s := s.withPending [])
    · rw [if_neg h0]
      rw [if_neg h0, attempt_bind, ← entry_eq]
      cases hx : processException C e.vector s with
      | ok k t => exact enterAll_eq es _ t (by rw [Blind.processException.keeps hx]; exact hs)
      | panic => rfl
      | err x t =>
        have ht : Sorted t.cpu.exceptions := by rw [Blind.processException.keeps_err hx]; exact hs
        have key : ∀ w : U8, processList C es n { t with cpu := t.cpu.exception ⟨w⟩ } = (request w >>= fun _ => enterAll C es n) t := by
          intro w
          have h1 : request w t = .ok () { t with cpu := t.cpu.exception ⟨w⟩ } := (request_eq ht).symm
          rw [bind_eq h1]
          refine enterAll_eq es n _ ?_
          show Sorted (t.cpu.exception ⟨w⟩).exceptions
          rw [exception_exceptions]
          exact sorted_insert ht
        dsimp only
        by_cases hx2 : x = 2
        · have hx2' : x = ACCESS_ERROR := hx2
          rw [if_pos hx2']
          by_cases he2 : e.vector = 2
          · have he2' : e.vector = ACCESS_ERROR := he2
            rw [if_pos he2', if_pos ⟨hx2, he2⟩]; rfl
          · have he2' : ¬ e.vector = ACCESS_ERROR := he2
            have hn : ¬ (x = 2 ∧ e.vector = 2) := fun h => he2 h.2
            rw [if_neg he2', if_neg hn]
            by_cases hi : InterruptVector e.vector
            · rw [if_pos (show e.isInterrupt = true from interruptVector_iff.2 hi), if_pos ⟨hx2, hi⟩]
              exact key 24
            · have hn' : ¬ (x = 2 ∧ InterruptVector e.vector) := fun h => hi h.2
              rw [if_neg (show ¬ e.isInterrupt = true from fun h => hi (interruptVector_iff.1 h)), if_neg hn']
              exact key x
        · have hx2' : ¬ x = ACCESS_ERROR := hx2
          have hn : ¬ (x = 2 ∧ e.vector = 2) := fun h => hx2 h.1
          have hn' : ¬ (x = 2 ∧ InterruptVector e.vector) := fun h => hx2 h.1
          rw [if_neg hx2', if_neg hn, if_neg hn']
          exact key x

theorem decode_eq (op : U16) : decoder op = decode op := by
  unfold decode
  have hm : Props.MovemMisfit op ↔ op.toNat / 8 ∈ [0x4898 / 8, 0x48D8 / 8, 0x4CA0 / 8, 0x4CE0 / 8] := by
    unfold Props.MovemMisfit
    simp only [BitVec.le_def, BitVec.ofNat_eq_ofNat, BitVec.reduceToNat, List.mem_cons, List.not_mem_nil, or_false]
    omega
  by_cases h : Props.MovemMisfit op
  · rw [Props.decoder_of_misfit h, if_pos (hm.1 h)]
  · rw [Props.decoder_of_not_misfit h, if_neg fun h' => h (hm.2 h')]

theorem privileged_eq (i : Isa) : i.isPrivileged = decide (Privileged i) := by cases i <;> rfl

theorem fetchOpcode_eq : (getNextWord : Exec M U16) s = fetchOpcode s := by
  unfold fetchOpcode
  rw [getR_bind_apply]
  by_cases h : Spec.Odd s.cpu.regs.pc
  · rw [getNextWord_odd h, if_pos h]; rfl
  · rw [getNextWord_even h, if_neg h]
    have h1 : jump (s.cpu.regs.pc + 2) s = .ok () (s.withRegs fun r => { r with pc := s.cpu.regs.pc + 2 }) := rfl
    rw [bind_eq h1]
    unfold load
    rw [if_neg fun h' => h h'.2]
    unfold access
    have hm : (s.withRegs fun r => { r with pc := s.cpu.regs.pc + 2 }).mem = s.mem := rfl
    dsimp only [memGet]
    rw [hm]
    cases MemoryAccess.getWord s.cpu.regs.pc s.mem <;> rfl

theorem instruction_described (n : Nat) : fastInstruction C n s = instruction C n s := by
  rw [fastInstruction_eq, fetchOpcode_eq]
  unfold instruction
  rw [attempt_bind]
  cases fetchOpcode s with
  | panic => rfl
  | err e t => rfl
  | ok op t =>
    dsimp only
    have ho : setOpcode op t = .ok () { t with cpu := { t.cpu with currentOpcode := op } } := rfl
    rw [bind_eq ho, getR_bind_apply, attempt_bind, ← decode_eq]
    unfold finishStep
    cases Spec.exec C (decoder op) op { t with cpu := { t.cpu with currentOpcode := op } } with
    | panic => rfl
    | err e u => rfl
    | ok c u =>
      have hp := privileged_eq (decoder op)
      have : (if t.cpu.regs.sr.t && !(decoder op).isPrivileged then some (9 : U8) else none) =
          if t.cpu.regs.sr.t = true ∧ ¬ Privileged (decoder op) then some 9 else none := by
        rw [hp]
        by_cases h1 : t.cpu.regs.sr.t = true <;> by_cases h2 : Privileged (decoder op) <;> simp [h1, h2]
      exact congrArg (fun e => Res.ok (n + c, e) u) this

theorem machine_eq (h : Ordered s) : interpreterException C s = machine C s := by
  have hs := ordered_iff.1 h
  unfold machine
  by_cases hr : s.cpu.stop = true
  · unfold interpreterException
    rw [if_pos hr, if_pos hr]
  · rw [if_neg hr]
    have hr' : s.cpu.stop = false := by simpa using hr
    have h1 : (s.cpu.exceptions.filter fun e => decide ¬ Masked s.cpu.regs.sr.interruptMask e.vector) = s.cpu.exceptions.filter fun e => !isHeld s.cpu.regs.sr.interruptMask e := by
      refine List.filter_congr fun e _ => ?_
      rw [decide_not]
      congr 1
      exact Bool.eq_iff_iff.2 (by rw [decide_eq_true_eq]; exact held_iff.symm)
    have h2 : (s.cpu.exceptions.filter fun e => decide (Masked s.cpu.regs.sr.interruptMask e.vector)) = s.cpu.exceptions.filter fun e => isHeld s.cpu.regs.sr.interruptMask e := by
      refine List.filter_congr fun e _ => ?_
      exact Bool.eq_iff_iff.2 (by rw [decide_eq_true_eq]; exact held_iff.symm)
    rw [h1, h2]
    have h3 : interpreterException C s = (processPendingExceptions C >>= fun n => fastInstruction C n) s := by
      by_cases hp : s.cpu.exceptions = []
      · rw [← instruction_idle hr' hp]
        have : processPendingExceptions C s = .ok 0 s := by
          rw [process_eq hs, hp]
          show Res.ok 0 (s.withPending []) = _
          rw [← hp, withPending_self]
        rw [bind_eq this]
      · exact call_pending hr' hp
    rw [h3, Exec.bind_apply, process_eq hs, enterAll_eq _ _ _ (show Sorted (List.filter _ _) from List.Pairwise.filter _ hs), Exec.bind_apply]
    cases enterAll C (s.cpu.exceptions.filter fun e => !isHeld s.cpu.regs.sr.interruptMask e) 0
        (s.withPending (s.cpu.exceptions.filter fun e => isHeld s.cpu.regs.sr.interruptMask e)) with
    | ok n t => exact instruction_described n
    | err e t => rfl
    | panic => rfl

theorem machineStep_eq (h : Ordered s) : interpreter C s = machineStep C s := by
  unfold interpreter machineStep
  rw [Exec.bind_apply, Exec.bind_apply, ← machine_eq h]
  cases hx : interpreterException C s with
  | err e t => rfl
  | panic => rfl
  | ok x t =>
    obtain ⟨n, e⟩ := x
    cases e with
    | none => rfl
    | some v =>
      have hs := call_sorted (ordered_iff.1 h) hx
      show (raise ⟨v⟩ >>= fun _ => pure n) t = (request v >>= fun _ => pure n) t
      rw [Exec.bind_apply, Exec.bind_apply, request_eq hs]

theorem use_eq (h : Ordered s) (u : Use M) : u.core C s = u.described C s := by
  cases u with
  | request v =>
    show _ = (Spec.request v >>= fun _ => pure Told.nothing) s
    rw [Exec.bind_apply, ← request_eq (ordered_iff.1 h)]
    rfl
  | call =>
    show (interpreterException C >>= _) s = (machine C >>= _) s
    rw [Exec.bind_apply, Exec.bind_apply, machine_eq h]
  | run =>
    show (interpreter C >>= _) s = (machineStep C >>= _) s
    rw [Exec.bind_apply, Exec.bind_apply, machineStep_eq h]
  | change f => rfl

theorem use_ordered {u : Use M} {x : Told} (h : Ordered s) (hu : u.core C s = .ok x s') : Ordered s' := by
  rw [ordered_iff] at h ⊢
  cases u with
  | request v =>
    cases hu
    show Sorted (s.cpu.exception ⟨v⟩).exceptions
    rw [exception_exceptions]
    exact sorted_insert h
  | call =>
    obtain ⟨⟨n, e⟩, t, h1, h2⟩ := bind_ok hu
    cases h2
    exact call_sorted h h1
  | run =>
    obtain ⟨n, t, h1, h2⟩ := bind_ok hu
    cases h2
    obtain ⟨e, t', h3, h4⟩ := run_call h1
    exact raise_sorted (call_sorted h h3) h4
  | change f => cases hu; exact h

theorem session_eq : ∀ (us : List (Use M)) (s : St M), Ordered s → session (Use.core C) us s = session (Use.described C) us s
  | [], _, _ => rfl
  | u :: us, s, h => by
    unfold session
    rw [Exec.bind_apply, Exec.bind_apply, ← use_eq h]
    cases hu : u.core C s with
    | ok x t =>
      dsimp only
      rw [Exec.bind_apply, Exec.bind_apply, session_eq us t (use_ordered h hu)]
    | err e t => rfl
    | panic => rfl

end Exec
end M68k
