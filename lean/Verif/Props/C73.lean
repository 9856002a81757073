import Verif.Lemmas.LoopTime
import Verif.Props.C69
/-
C73: the time of a program, of delay loops and of copy loops, and what the run loops return for it.
-/
namespace M68k.Props
open Spec Exec
set_option linter.unusedSectionVars false
variable {M : Type} [MemoryAccess M] {C : CpuDetails} {s s' s1 s2 t t' : St M} {op w : U16} {sz : Size} {i j n : Fin 8}

/-- Consecutive calls take the times `cs` and `c`, without exception and without stopping the core: `cycle(k)`, for a `k` that is reached by the last of them, executes exactly these
calls and returns the sum. -/
theorem C73_cycle {cs : List Nat} {c k : Nat} (h : Quiet C (cs ++ [c]) s s') (h1 : cs.sum < k) (h2 : k ≤ cs.sum + c) : Returns (cycle C k s) (cs.sum + c) s' := by
  refine ⟨_, (quiet_cycle h 0 (before_last h1) (by simpa using h2)).trans ?_⟩
  simp

/-- The same for `cycle_until_exception`. -/
theorem C73_cycleUntilException {cs : List Nat} {c k : Nat} (h : Quiet C (cs ++ [c]) s s') (h1 : cs.sum < k) (h2 : k ≤ cs.sum + c) :
    Returns (cycleUntilException C k s) (cs.sum + c, none) s' := by
  refine ⟨_, (quiet_until h 0 (before_last h1) (by simpa using h2)).trans ?_⟩
  simp

/-- `DBF Dn,*` with the counter word `c` branches `c` times and falls through once; the calls return these times. Only the counter, the program counter and the last
opcode change. -/
theorem C73_delay_times {a : U32} (hl : LoopAt s.mem a n) (hpc : s.cpu.regs.pc = a) (hr : s.cpu.stop = false) (he : s.cpu.exceptions = []) (ht : s.cpu.regs.sr.t = false) :
    Quiet C (List.replicate ((s.cpu.regs.d n).toNat % 65536) C.DBCC_FALSE_BRANCH ++ [C.DBCC_FALSE_NO_BRANCH]) s
      { s with cpu := { s.cpu with currentOpcode := BitVec.ofNat 16 (0x51C8 + n.val), regs := { s.cpu.regs with
        pc := a + 4, d := fun i => if i = n then BitVec.ofNat 32 ((s.cpu.regs.d n).toNat / 65536 * 65536 + 0xFFFF) else s.cpu.regs.d i } } } := by
  generalize hc : (s.cpu.regs.d n).toNat % 65536 = c
  induction c generalizing s with
  | zero =>
    obtain ⟨s1, s2, h, hw, h2⟩ := loop_ready hl hpc hr he
    obtain ⟨hi, hcc, hreg⟩ := dbf_op n
    have hx := (C23_expired (C := C) h hi hw (by rw [hcc]; rfl) (by rw [hreg]; exact hc)).1
    rw [hreg] at hx
    have hv : s.cpu.regs.d n + 0xFFFF = BitVec.ofNat 32 ((s.cpu.regs.d n).toNat / 65536 * 65536 + 0xFFFF) := by
      generalize s.cpu.regs.d n = z at *
      apply BitVec.eq_of_toNat_eq
      rw [BitVec.toNat_add, BitVec.toNat_ofNat]
      simp only [BitVec.ofNat_eq_ofNat, BitVec.reduceToNat]
      omega
    rw [hv, h2] at hx
    have := quiet_dbf h hw ht hx hr (.nil _)
    rw [if_pos hc] at this
    exact this
  | succ c ih =>
    obtain ⟨s1, s2, h, hw, h2⟩ := loop_ready hl hpc hr he
    have hx := dbf_turn (C := C) hl hpc hr he (by rw [hc]; omega)
    have hd : (s.cpu.regs.d n - 1).toNat % 65536 = c ∧ (s.cpu.regs.d n - 1).toNat / 65536 = (s.cpu.regs.d n).toNat / 65536 := by
      rw [BitVec.toNat_sub]
      simp only [BitVec.ofNat_eq_ofNat, BitVec.reduceToNat]
      have := (s.cpu.regs.d n).isLt
      omega
    have hq := ih (s := { s with cpu := { s.cpu with currentOpcode := BitVec.ofNat 16 (0x51C8 + n.val), regs := setDreg s.cpu.regs n (s.cpu.regs.d n - 1) } })
      hl hpc hr he ht (by simp only [setDreg, if_true]; exact hd.1)
    have := quiet_dbf h hw ht hx hr hq
    rw [if_neg (by rw [hc]; omega)] at this
    have e : (setDreg s.cpu.regs n (s.cpu.regs.d n - 1)).d n = s.cpu.regs.d n - 1 := if_pos rfl
    simp only [e, hd.2] at this
    have e2 : (fun i => if i = n then BitVec.ofNat 32 ((s.cpu.regs.d n).toNat / 65536 * 65536 + 0xFFFF) else (setDreg s.cpu.regs n (s.cpu.regs.d n - 1)).d i) =
        fun i => if i = n then BitVec.ofNat 32 ((s.cpu.regs.d n).toNat / 65536 * 65536 + 0xFFFF) else s.cpu.regs.d i := by
      funext i
      by_cases hi : i = n
      · rw [if_pos hi, if_pos hi]
      · rw [if_neg hi, if_neg hi]; exact if_neg hi
    rw [e2] at this
    exact this

/-- The delay loop on the run loop: `cycle(k)`, for a `k` that the last DBF reaches, returns the whole time of the loop and leaves execution behind it. -/
theorem C73_delay {a : U32} {k : Nat} (hl : LoopAt s.mem a n) (hpc : s.cpu.regs.pc = a) (hr : s.cpu.stop = false) (he : s.cpu.exceptions = []) (ht : s.cpu.regs.sr.t = false)
    (h1 : (s.cpu.regs.d n).toNat % 65536 * C.DBCC_FALSE_BRANCH < k)
    (h2 : k ≤ (s.cpu.regs.d n).toNat % 65536 * C.DBCC_FALSE_BRANCH + C.DBCC_FALSE_NO_BRANCH) :
    Returns (cycle C k s) ((s.cpu.regs.d n).toNat % 65536 * C.DBCC_FALSE_BRANCH + C.DBCC_FALSE_NO_BRANCH)
      { s with cpu := { s.cpu with currentOpcode := BitVec.ofNat 16 (0x51C8 + n.val), regs := { s.cpu.regs with
        pc := a + 4, d := fun i => if i = n then BitVec.ofNat 32 ((s.cpu.regs.d n).toNat / 65536 * 65536 + 0xFFFF) else s.cpu.regs.d i } } } := by
  have hq := C73_delay_times (C := C) hl hpc hr he ht
  have hs : (List.replicate ((s.cpu.regs.d n).toNat % 65536) C.DBCC_FALSE_BRANCH).sum = (s.cpu.regs.d n).toNat % 65536 * C.DBCC_FALSE_BRANCH := by simp
  have := C73_cycle hq (by rw [hs]; exact h1) (by rw [hs]; exact h2)
  rwa [hs] at this

theorem steps_unique {k : Nat} {a b : St M} (h : Steps C k s a) (h' : Steps C k s b) : a = b := by
  induction h generalizing b with
  | none => cases h'; rfl
  | more _ hc ih =>
    cases h' with
    | more h' hc' =>
      obtain ⟨c, hc⟩ := hc
      obtain ⟨c', hc'⟩ := hc'
      rw [← ih h', hc] at hc'
      cases hc'
      rfl

theorem movePlus_time (r : Registers) : ¬ MovemMisfit (movePlus sz i j) ∧ extensionWords (instr (movePlus sz i j)) (movePlus sz i j) = 0 ∧
    cycles C (instr (movePlus sz i j)) (movePlus sz i j) r [] = C.MOVE_OTHER + 2 * (C.EA_ARIWPO + if sz = .Long then 4 else 0) := by
  obtain ⟨f1, f2, f3, f4, f5, f6⟩ := movePlus_fields sz i j
  have hm : ¬ MovemMisfit (movePlus sz i j) ∧ extensionWords .Move (movePlus sz i j) = 0 ∧ (movePlus sz i j).toNat / 8 % 8 = 3 ∧ (movePlus sz i j).toNat / 64 % 8 = 3 ∧
      moveOpSize (movePlus sz i j) = some sz := by
    unfold MovemMisfit; cases sz <;> revert i j <;> decide +kernel
  obtain ⟨m1, m2, m3, m4, m5⟩ := hm
  refine ⟨m1, by rw [f1]; exact m2, ?_⟩
  rw [f1]
  simp only [cycles, m3, m4, m5, Option.getD_some, eaCycles, longReadCycles, longWriteCycles, show ∀ k, eaInMemory 3 k = true from fun _ => rfl]
  cases sz <;> simp <;> omega

variable [Ram M] [Writable M]

/-- The copy loop of C69: its calls return the times of MOVE and DBF. -/
theorem C73_copy_times (hij : i ≠ j) (h7 : sz = .Byte → i ≠ 7 ∧ j ≠ 7) (hc : CopyReady sz i j n s (bytes sz * ((s.cpu.regs.d n).toNat % 65536 + 1)))
    (ht : s.cpu.regs.sr.t = false) (h : Steps C (2 * ((s.cpu.regs.d n).toNat % 65536 + 1)) s s') :
    Quiet C (loopTimes (C.MOVE_OTHER + 2 * (C.EA_ARIWPO + if sz = .Long then 4 else 0)) C.DBCC_FALSE_BRANCH C.DBCC_FALSE_NO_BRANCH ((s.cpu.regs.d n).toNat % 65536)) s s' := by
  have h4 := bytes_le sz
  have hlen : bytes sz * ((s.cpu.regs.d n).toNat % 65536 + 1) ≤ 2 ^ 32 :=
    Nat.le_trans (Nat.mul_le_mul h4 (show (s.cpu.regs.d n).toNat % 65536 + 1 ≤ 65536 by omega)) (by decide)
  -- the MOVE of a turn
  have move : ∀ {k : Nat} {t t' : St M} {ds : List Nat} {u : St M}, k ≤ (s.cpu.regs.d n).toNat % 65536 → Progress sz i j n s k k s.cpu.regs.pc t → Completes C t t' → t'.cpu.stop = false →
      Quiet C ds t' u → Quiet C ((C.MOVE_OTHER + 2 * (C.EA_ARIWPO + if sz = .Long then 4 else 0)) :: ds) t u := by
    intro k t t' ds u hk hp hx hr hq
    have hle : bytes sz * k ≤ bytes sz * ((s.cpu.regs.d n).toNat % 65536 + 1) := Nat.mul_le_mul_left _ (by omega)
    have hpc : t.cpu.regs.pc = s.cpu.regs.pc := by rw [hp.cpu]; rfl
    have hw := progress_word hc hle hp (show 0 < 3 by omega)
    rw [Nat.mul_zero, at_zero, ← hpc] at hw
    have hr1 := loadWord_ready (t := t) (by rw [hp.cpu]; exact hc.running) (by rw [hp.cpu]; exact hc.idle) (by rw [hpc]; exact hc.even) hw
    obtain ⟨f1, -, -, -, -, -⟩ := movePlus_fields sz i j
    obtain ⟨m1, m2, m3⟩ := movePlus_time (C := C) (sz := sz) (i := i) (j := j) t.cpu.regs
    have := quiet_cons hr1 m1 (by rw [show ((copyLoop sz i j n)[0]'(show 0 < 3 by omega)) = movePlus sz i j from rfl, f1]; decide) (by
      rw [show ((copyLoop sz i j n)[0]'(show 0 < 3 by omega)) = movePlus sz i j from rfl, m2]; rfl) (hp.system.1.trans ht) hx hr hq
    rw [show ((copyLoop sz i j n)[0]'(show 0 < 3 by omega)) = movePlus sz i j from rfl, m3] at this
    exact this
  have key : ∀ k, k ≤ (s.cpu.regs.d n).toNat % 65536 → ∃ t, Quiet C (List.replicate k [C.MOVE_OTHER + 2 * (C.EA_ARIWPO + if sz = .Long then 4 else 0), C.DBCC_FALSE_BRANCH]).flatten s t ∧
      Steps C (2 * k) s t ∧ Progress sz i j n s k k s.cpu.regs.pc t := by
    intro k
    induction k with
    | zero => exact fun _ => ⟨s, .nil s, .none s, progress_start⟩
    | succ k ih =>
      intro hk
      obtain ⟨t, hq, hs, hp⟩ := ih (by omega)
      have hle : bytes sz * (k + 1) ≤ bytes sz * ((s.cpu.regs.d n).toNat % 65536 + 1) := Nat.mul_le_mul_left _ (by omega)
      obtain ⟨u, v, h1, hp1, -, -⟩ := progress_move (C := C) hij h7 hc hlen hle hp
      obtain ⟨w, h2, hp2⟩ := progress_turn (C := C) hc hle (by omega) hp1
      obtain ⟨u1, u2, hr1, hw1, -⟩ := progress_dbf hc hle hp1
      have q2 := quiet_dbf hr1 hw1 (hp1.system.1.trans ht) h2 (by rw [hp2.cpu]; exact hc.running) (.nil _)
      rw [if_neg (by
        rw [show u.cpu.regs.d n = s.cpu.regs.d n - BitVec.ofNat 32 k by rw [hp1.cpu]; exact if_pos rfl, BitVec.toNat_sub, BitVec.toNat_ofNat]
        have := (s.cpu.regs.d n).isLt
        omega)] at q2
      have q1 := move (by omega) hp h1 (by rw [hp1.cpu]; exact hc.running) q2
      refine ⟨w, ?_, .more (.more hs h1) h2, hp2⟩
      rw [List.replicate_succ', List.flatten_append]
      exact quiet_append hq q1
  obtain ⟨t, hq, hs, hp⟩ := key _ (Nat.le_refl _)
  obtain ⟨u, v, h1, hp1, -, -⟩ := progress_move (C := C) hij h7 hc hlen (Nat.le_refl _) hp
  obtain ⟨w, h2, hm, hcpu⟩ := progress_end (C := C) hc (Nat.le_refl _) hp1
  obtain ⟨u1, u2, hr1, hw1, -⟩ := progress_dbf hc (Nat.le_refl _) hp1
  have hrw : w.cpu.stop = false := by rw [hcpu]; exact hc.running
  have q2 := quiet_dbf hr1 hw1 (hp1.system.1.trans ht) h2 hrw (.nil _)
  rw [if_pos (by
    rw [show u.cpu.regs.d n = s.cpu.regs.d n - BitVec.ofNat 32 ((s.cpu.regs.d n).toNat % 65536) by rw [hp1.cpu]; exact if_pos rfl, BitVec.toNat_sub, BitVec.toNat_ofNat]
    have := (s.cpu.regs.d n).isLt
    omega)] at q2
  have q1 := move (Nat.le_refl _) hp h1 (by rw [hp1.cpu]; exact hc.running) q2
  rw [steps_unique h (.more (.more hs h1) h2)]
  exact quiet_append hq q1

/-- The copy loop on the run loop: `cycle(k)`, for a `k` that the last DBF reaches, copies the whole block (`s'` is the state of C69_copy) and returns the time of it. -/
theorem C73_copy {k : Nat} (hij : i ≠ j) (h7 : sz = .Byte → i ≠ 7 ∧ j ≠ 7) (hc : CopyReady sz i j n s (bytes sz * ((s.cpu.regs.d n).toNat % 65536 + 1)))
    (ht : s.cpu.regs.sr.t = false) (h : Steps C (2 * ((s.cpu.regs.d n).toNat % 65536 + 1)) s s')
    (h1 : ((s.cpu.regs.d n).toNat % 65536 + 1) * (C.MOVE_OTHER + 2 * (C.EA_ARIWPO + if sz = .Long then 4 else 0)) + (s.cpu.regs.d n).toNat % 65536 * C.DBCC_FALSE_BRANCH < k)
    (h2 : k ≤ ((s.cpu.regs.d n).toNat % 65536 + 1) * (C.MOVE_OTHER + 2 * (C.EA_ARIWPO + if sz = .Long then 4 else 0)) + (s.cpu.regs.d n).toNat % 65536 * C.DBCC_FALSE_BRANCH + C.DBCC_FALSE_NO_BRANCH) :
    Returns (cycle C k s)
      (((s.cpu.regs.d n).toNat % 65536 + 1) * (C.MOVE_OTHER + 2 * (C.EA_ARIWPO + if sz = .Long then 4 else 0)) + (s.cpu.regs.d n).toNat % 65536 * C.DBCC_FALSE_BRANCH + C.DBCC_FALSE_NO_BRANCH) s' := by
  have hq := C73_copy_times hij h7 hc ht h
  have hs := loopTimes_sum (C.MOVE_OTHER + 2 * (C.EA_ARIWPO + if sz = .Long then 4 else 0)) C.DBCC_FALSE_BRANCH C.DBCC_FALSE_NO_BRANCH ((s.cpu.regs.d n).toNat % 65536)
  obtain ⟨cs, e⟩ := loopTimes_last (C.MOVE_OTHER + 2 * (C.EA_ARIWPO + if sz = .Long then 4 else 0)) C.DBCC_FALSE_BRANCH C.DBCC_FALSE_NO_BRANCH ((s.cpu.regs.d n).toNat % 65536)
  rw [e] at hq hs
  rw [List.sum_append] at hs
  simp only [List.sum_cons, List.sum_nil, Nat.add_zero] at hs
  have hs' := Nat.add_right_cancel hs
  have := C73_cycle hq (by rw [hs']; exact h1) (by rw [hs']; exact h2)
  rwa [hs'] at this

/-- `DBF D1,*` at 0 with the counter word 2: 10 + 10 + 14 cycles on the MC68000. -/
example : LoopAt (Demo.st [0x51C9, 0xFFFE] (Demo.regs [0, 2] [])).mem 0 1 ∧
    ∃ s', Returns (cycle mc68000 21 (Demo.st [0x51C9, 0xFFFE] (Demo.regs [0, 2] []))) 34 s' ∧ s'.cpu.regs.pc = 4 ∧ s'.cpu.regs.d 1 = 0xFFFF :=
  ⟨⟨by decide, rfl, rfl⟩, _, ⟨3, rfl⟩, rfl, rfl⟩

/-- The loop of `copyDemo`, 3 words: 3 * 12 + 2 * 10 + 14 cycles. -/
example : copyDemo.cpu.regs.sr.t = false ∧ ∃ s', Returns (cycle mc68000 57 copyDemo) 70 s' ∧ s'.mem.words = [0x32D8, 0x51CA, 0xFFFC, 0, 1, 2, 3, 3] :=
  ⟨rfl, _, ⟨6, rfl⟩, rfl⟩

end M68k.Props
