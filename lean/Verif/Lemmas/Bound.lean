import Verif.Lemmas.Cycles
import Verif.Lemmas.Pending
import Verif.Model.Usize
import Verif.Props.C40
/-
Bounds on the execution times of the two CPUs.
-/
namespace M68k.Exec
open Spec
set_option linter.unusedSectionVars false
variable {M : Type} [MemoryAccess M] {C : CpuDetails} {s s' s1 s2 : St M} {op : U16}

/-! ### The instructions -/

/-- A sum of at most `2 ^ d` entries of a table with entries up to 200. -/
def Small (d x : Nat) : Prop := x ≤ 200 * 2 ^ d

theorem Small.leaf {d x : Nat} (h : x ≤ 200) : Small d x := by
  unfold Small
  have := Nat.pow_le_pow_right (show 0 < 2 by decide) (Nat.zero_le d)
  omega
theorem Small.add {d x y : Nat} (hx : Small d x) (hy : Small d y) : Small (d + 1) (x + y) := by
  unfold Small at *
  rw [Nat.pow_succ]
  omega
theorem Small.ite {d x y : Nat} {p : Prop} [Decidable p] (hx : Small d x) (hy : Small d y) : Small d (if p then x else y) := by
  split <;> assumption
theorem Small.bySize {d x y : Nat} {sz : Size} (hx : Small d x) (hy : Small d y) : Small d (bySize sz x y) := Small.ite hy hx
theorem Small.mul {d x y : Nat} (hx : x ≤ 3) (hy : y ≤ 63) : Small d (x * y) :=
  Small.leaf (Nat.le_trans (Nat.mul_le_mul hx hy) (by decide))
theorem Small.mulList {d x y : Nat} (hx : x ≤ 16) (hy : y ≤ 11) : Small d (x * y) :=
  Small.leaf (Nat.le_trans (Nat.mul_le_mul hx hy) (by decide))

theorem shiftBits_le (op : U16) (r : Registers) : shiftBits op r ≤ 63 := by
  unfold shiftBits
  split
  · omega
  · split <;> omega

theorem listCount_le (ws : List U16) : listCount ws ≤ 16 := by
  unfold listCount listed
  refine Nat.le_trans (List.length_filter_le _ _) ?_
  rw [List.length_finRange]
  exact Nat.le_refl _

theorem Small.longRead {d : Nat} {sz : Size} {mode : Nat} : Small d (longReadCycles sz mode) := by
  unfold longReadCycles
  exact Small.ite (Small.leaf (by decide)) (Small.leaf (by decide))
theorem Small.longWrite {d : Nat} {sz : Size} {mode reg : Nat} : Small d (longWriteCycles sz mode reg) := by
  unfold longWriteCycles
  exact Small.ite (Small.leaf (by decide)) (Small.leaf (by decide))
theorem Small.control {d a b c e f g h mode reg : Nat} (ha : Small d a) (hb : Small d b) (hc : Small d c) (he : Small d e) (hf : Small d f) (hg : Small d g)
    (hh : Small d h) : Small d (controlCycles a b c e f g h mode reg) := by
  unfold controlCycles
  split <;> first | assumption | exact Small.leaf (by decide)

/-- The two CPUs of the crate. -/
def Known (C : CpuDetails) : Prop := C = mc68000 ∨ C = scc68070

theorem Small.ea {d mode reg : Nat} (hC : Known C) : Small d (eaCycles C mode reg) := by
  rcases hC with rfl | rfl <;> (unfold eaCycles; split <;> exact Small.leaf (by decide))
theorem Small.movem {d mode reg : Nat} (hC : Known C) : Small d (movemCycles C mode reg) := by
  rcases hC with rfl | rfl <;> (unfold movemCycles; split <;> exact Small.leaf (by decide))

macro "small" h:ident : tactic => `(tactic|
  repeat (first
    | with_reducible exact Small.ea $h | with_reducible exact Small.movem $h | with_reducible exact Small.longRead | with_reducible exact Small.longWrite
    | with_reducible apply Small.add | with_reducible apply Small.ite | with_reducible apply Small.bySize | with_reducible apply Small.control
    | with_reducible exact Small.mul (by decide) (shiftBits_le _ _)
    | exact Small.leaf (by decide)))

theorem cycles_small_mc {i : Isa} {r : Registers} {ws : List U16} : Small 5 (cycles mc68000 i op r ws) := by
  have h : Known mc68000 := .inl rfl
  cases i <;> simp only [cycles] <;> small h
  exact Small.mulList (listCount_le _) (by unfold bySize; split <;> decide)
theorem cycles_small_scc {i : Isa} {r : Registers} {ws : List U16} : Small 5 (cycles scc68070 i op r ws) := by
  have h : Known scc68070 := .inr rfl
  cases i <;> simp only [cycles] <;> small h
  exact Small.mulList (listCount_le _) (by unfold bySize; split <;> decide)

theorem cycles_le (hC : Known C) {i : Isa} {r : Registers} {ws : List U16} : cycles C i op r ws ≤ 6400 := by
  rcases hC with rfl | rfl
  · exact cycles_small_mc
  · exact cycles_small_scc

theorem vector_le (hC : Known C) (v : U8) : C.vectorExecutionTime v ≤ 200 := by
  rcases hC with rfl | rfl
  · revert v; decide +kernel
  · revert v; decide +kernel
theorem reset_le (hC : Known C) : C.VECTOR_RESET ≤ 200 := by
  rcases hC with rfl | rfl <;> decide
theorem rte_le (hC : Known C) : C.RTE ≤ 200 := by
  rcases hC with rfl | rfl <;> decide

/-- The time of an instruction. -/
theorem exec_le (hC : Known C) {n : Nat} (h : Spec.exec C (decoder op) op s = .ok n s') : n ≤ 6400 := by
  by_cases hi : decoder op = .Rte
  · rw [hi] at h
    have := rte_le hC
    rcases timed_Rte h with h1 | ⟨-, h1⟩ <;> omega
  · have hx := timed (M := M) (C := C) (decoder_legal op) hi s
    cases hf : fetchWords (extensionWords (decoder op) op) s with
    | ok ws s2 =>
      rw [hf] at hx
      obtain ⟨z, hz, hx⟩ := hx
      rw [h] at hx
      rw [hz s2 _ _ hx.symm]
      exact cycles_le hC
    | err v s2 => rw [hf] at hx; exact hx.elim
    | panic => rw [hf] at hx; rw [h] at hx; cases hx

/-! ### The exceptions -/

theorem sorted_length_lt : ∀ (es : List Exception) (m : Nat), Sorted es → (∀ e ∈ es, e.priority.toNat < m) → es.length ≤ m := by
  intro es
  induction es with
  | nil => intro m _ _; exact Nat.zero_le _
  | cons e es ih =>
    intro m h hm
    obtain ⟨h1, h2⟩ := List.pairwise_cons.1 h
    have h3 := ih e.priority.toNat h2 fun x hx => BitVec.lt_def.1 (h1 x hx)
    have h4 := hm e List.mem_cons_self
    rw [List.length_cons]
    omega

/-- There are at most as many pending exceptions as priorities. -/
theorem sorted_length {es : List Exception} (h : Sorted es) : es.length ≤ 256 :=
  sorted_length_lt es 256 h fun e _ => e.priority.isLt

theorem enter_le (hC : Known C) {v : U8} {n : Nat} (h : processException C v s = .ok n s') : n ≤ 200 := by
  rw [processException_eq] at h
  unfold enter at h
  obtain ⟨_, _, _, h1⟩ := bind_ok h
  obtain ⟨_, _, _, h2⟩ := bind_ok h1
  obtain ⟨_, _, _, h3⟩ := bind_ok h2
  obtain ⟨_, _, _, h4⟩ := bind_ok h3
  cases h4
  exact vector_le hC v

theorem reset_time {n : Nat} (h : reset C s = .ok n s') : n = C.VECTOR_RESET := by
  unfold reset at h
  obtain ⟨_, _, _, h1⟩ := bind_ok h
  obtain ⟨_, _, _, h2⟩ := bind_ok h1
  obtain ⟨_, _, _, h3⟩ := bind_ok h2
  obtain ⟨_, _, _, h4⟩ := bind_ok h3
  obtain ⟨_, _, _, h5⟩ := bind_ok h4
  obtain ⟨_, _, _, h6⟩ := bind_ok h5
  cases h6
  rfl

theorem processList_le (hC : Known C) : ∀ (es : List Exception) (k : Nat) (s : St M) {n : Nat} {s' : St M}, processList C es k s = .ok n s' →
    n ≤ k + 200 * es.length := by
  intro es
  induction es with
  | nil => intro k s n s' h; cases h; exact Nat.le_refl _
  | cons e es ih =>
    intro k s n s' h
    unfold processList at h
    rw [List.length_cons]
    split at h
    · have := reset_le hC
      rw [reset_time h]
      omega
    · cases hx : processException C e.vector s with
      | ok c t =>
        rw [hx] at h
        have h1 := ih _ _ h
        have h2 := enter_le hC hx
        omega
      | err v t =>
        rw [hx] at h
        dsimp only at h
        repeat' split at h
        all_goals first | cases h; done | (have h1 := ih _ _ h; omega)
      | panic => rw [hx] at h; cases h

theorem pending_le (hC : Known C) (hs : Sorted s.cpu.exceptions) {n : Nat} (h : pendingCycles C s = .ok n s') : n ≤ 51200 := by
  unfold pendingCycles at h
  split at h
  · cases h; exact Nat.zero_le _
  · unfold processPendingExceptions at h
    have h1 := processList_le hC _ _ _ h
    have h2 := List.length_filter_le (fun ex => !isHeld s.cpu.regs.sr.interruptMask ex) s.cpu.exceptions
    have h3 := sorted_length hs
    omega

theorem fastInstruction_le (hC : Known C) {k n : Nat} {e : Option U8} (h : fastInstruction C k s = .ok (n, e) s') : n ≤ k + 6400 := by
  unfold fastInstruction at h
  cases hw : getNextWord s with
  | ok op t =>
    rw [hw] at h
    dsimp only at h
    unfold finishStep at h
    dsimp only at h
    have hq := fastExecute_eq C ({ t with cpu := { t.cpu with currentOpcode := op } } : St M)
    dsimp only at hq
    rw [hq] at h
    cases hx : Spec.exec C (decoder op) op ({ t with cpu := { t.cpu with currentOpcode := op } } : St M) with
    | ok c u =>
      rw [hx] at h
      have h1 := exec_le hC hx
      simp only [Res.ok.injEq, Prod.mk.injEq] at h
      omega
    | err v u =>
      rw [hx] at h
      simp only [Res.ok.injEq, Prod.mk.injEq] at h
      omega
    | panic => rw [hx] at h; cases h
  | err v t =>
    rw [hw] at h
    simp only [Res.ok.injEq, Prod.mk.injEq] at h
    omega
  | panic => rw [hw] at h; cases h

/-- One call. -/
theorem call_le (hC : Known C) (hs : Sorted s.cpu.exceptions) {n : Nat} {e : Option U8} (h : interpreterException C s = .ok (n, e) s') : n ≤ 57600 := by
  unfold interpreterException at h
  split at h
  · cases h; exact Nat.zero_le _
  · obtain ⟨k, t, h1, h2⟩ := bind_ok h
    have h3 := pending_le hC hs h1
    have h4 := fastInstruction_le hC h2
    omega

/-! ### The counters of a fixed width -/

variable {u : Usize}

theorem Usize.add_small {a b : Nat} (h : a + b < 2 ^ u.bits) : u.add a b = some (a + b) := if_pos h

theorem processListU_eq (hC : Known C) : ∀ (es : List Exception) (k : Nat) (s : St M), k + 200 * es.length < 2 ^ u.bits →
    processListU u C es k s = processList C es k s := by
  intro es
  induction es with
  | nil => intro k s _; rfl
  | cons e es ih =>
    intro k s h
    rw [List.length_cons] at h
    unfold processListU processList
    have hk : ∀ t : St M, processListU u C es k t = processList C es k t := fun t => ih k t (by omega)
    simp only [hk]
    cases hx : processException C e.vector s with
    | ok c t =>
      have hc := enter_le hC hx
      simp only [Usize.add_small (u := u) (a := k) (b := c) (by omega), ih (k + c) t (by omega)]
    | err v t => rfl
    | panic => rfl

theorem callU_eq (hC : Known C) (hu : 2 ^ 16 ≤ 2 ^ u.bits) (hs : Sorted s.cpu.exceptions) : interpreterExceptionU u C s = interpreterException C s := by
  unfold interpreterExceptionU interpreterException
  split
  · rfl
  have hp : pendingCyclesU u C s = pendingCycles C s := by
    unfold pendingCyclesU pendingCycles
    split
    · rfl
    · unfold processPendingExceptionsU processPendingExceptions
      have h2 := List.length_filter_le (fun ex => !isHeld s.cpu.regs.sr.interruptMask ex) s.cpu.exceptions
      have h3 := sorted_length hs
      exact processListU_eq hC _ _ _ (by omega)
  rw [Exec.bind_apply, Exec.bind_apply, hp]
  cases hx : pendingCycles C s with
  | ok k t =>
    have hk := pending_le hC hs hx
    dsimp only
    unfold fastInstructionU fastInstruction
    cases hw : (getNextWord : Exec M U16) t with
    | ok op t1 =>
      dsimp only
      unfold finishStepU finishStep
      dsimp only
      have hq := fastExecute_eq C ({ t1 with cpu := { t1.cpu with currentOpcode := op } } : St M)
      dsimp only at hq
      rw [hq]
      cases hy : Spec.exec C (decoder op) op ({ t1 with cpu := { t1.cpu with currentOpcode := op } } : St M) with
      | ok c t2 =>
        have hc := exec_le hC hy
        simp only [Usize.add_small (u := u) (a := k) (b := c) (by omega)]
      | err v t2 => rfl
      | panic => rfl
    | err v t1 => rfl
    | panic => rfl
  | err v t => rfl
  | panic => rfl

theorem interpreterU_eq (hC : Known C) (hu : 2 ^ 16 ≤ 2 ^ u.bits) (hs : Sorted s.cpu.exceptions) : interpreterU u C s = interpreter C s := by
  unfold interpreterU interpreter
  rw [Exec.bind_apply, Exec.bind_apply, callU_eq hC hu hs]

theorem interpreter_le (hC : Known C) (hs : Sorted s.cpu.exceptions) {n : Nat} (h : interpreter C s = .ok n s') : n ≤ 57600 := by
  unfold interpreter at h
  obtain ⟨⟨c, e⟩, t, h1, h2⟩ := bind_ok h
  obtain ⟨_, _, _, h3⟩ := bind_ok h2
  cases h3
  exact call_le hC hs h1

end M68k.Exec
