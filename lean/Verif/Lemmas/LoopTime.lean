import Verif.Spec.LoopTime
import Verif.Props.C35
import Verif.Props.C57
import Verif.Props.C23
/-
The time of a sequence of instructions, and of the run loops that execute it.
-/
namespace M68k.Exec
open Spec Props
set_option linter.unusedSectionVars false
variable {M : Type} [MemoryAccess M] {C : CpuDetails} {s s' s1 s2 t : St M} {op : U16} {n : Nat} {cs : List Nat}

theorem loopTimes_succ (body branch noBranch c : Nat) : loopTimes body branch noBranch (c + 1) = body :: branch :: loopTimes body branch noBranch c := rfl

theorem loopTimes_sum (body branch noBranch c : Nat) : (loopTimes body branch noBranch c).sum = (c + 1) * body + c * branch + noBranch := by
  induction c with
  | zero => simp [loopTimes]
  | succ c ih => simp only [loopTimes_succ, List.sum_cons, ih, Nat.succ_mul]; omega

theorem loopTimes_last (body branch noBranch c : Nat) : ∃ cs, loopTimes body branch noBranch c = cs ++ [noBranch] := by
  refine ⟨(List.replicate c [body, branch]).flatten ++ [body], ?_⟩
  unfold loopTimes
  rw [List.append_assoc]
  rfl

theorem quiet_append {ds : List Nat} (h : Quiet C cs s t) (h' : Quiet C ds t s') : Quiet C (cs ++ ds) s s' := by
  induction h with
  | nil => exact h'
  | cons hc hr _ ih => exact .cons hc hr (ih h')

/-- An instruction that completes takes its time. -/
theorem quiet_cons {ws : List U16} (h : Ready s op s1) (hm : ¬ MovemMisfit op) (hi : instr op ≠ .Rte)
    (hf : fetchWords (extensionWords (instr op) op) s1 = .ok ws s2) (ht : s.cpu.regs.sr.t = false) (hc : Completes C s t) (hr : t.cpu.stop = false)
    (hq : Quiet C cs t s') : Quiet C (cycles C (instr op) op s.cpu.regs ws :: cs) s s' := by
  obtain ⟨c, hc⟩ := hc
  have hn : traced s = none := by unfold traced; rw [ht]; rfl
  rw [hn] at hc
  rw [← C57_completed h hm hi hf hc]
  exact .cons hc hr hq

theorem quiet_cycle (h : Quiet C cs s s') : ∀ total, (∀ k < cs.length, total + (cs.take k).sum < n) → n ≤ total + cs.sum →
    cycleLoop C n cs.length total s = .done (total + cs.sum) s' := by
  induction h with
  | nil s =>
    intro total _ hn
    simp only [List.sum_nil, Nat.add_zero] at hn
    simp only [List.length_nil, cycleLoop, List.sum_nil, Nat.add_zero]
    rw [if_neg (by omega)]
  | @cons s t s' c cs hc hr hq ih =>
    intro total hb hn
    have h0 := hb 0 (by simp)
    simp only [List.take_zero, List.sum_nil, Nat.add_zero] at h0
    have hi : interpreter C s = .ok c t := by rw [C35_interpreter, hc]
    simp only [List.length_cons, cycleLoop]
    rw [if_pos h0, hi]
    simp only [hr, Bool.false_eq_true, if_false]
    rw [ih (total + c) (fun k hk => by
      have := hb (k + 1) (by simpa using hk)
      rw [List.take_succ_cons, List.sum_cons] at this
      omega) (by rw [List.sum_cons] at hn; omega), List.sum_cons, Nat.add_assoc]

theorem quiet_until (h : Quiet C cs s s') : ∀ total, (∀ k < cs.length, total + (cs.take k).sum < n) → n ≤ total + cs.sum →
    cycleUntilExceptionLoop C n cs.length total s = .done (total + cs.sum, none) s' := by
  induction h with
  | nil s =>
    intro total _ hn
    simp only [List.sum_nil, Nat.add_zero] at hn
    simp only [List.length_nil, cycleUntilExceptionLoop, List.sum_nil, Nat.add_zero]
    rw [if_neg (by omega)]
  | @cons s t s' c cs hc hr hq ih =>
    intro total hb hn
    have h0 := hb 0 (by simp)
    simp only [List.take_zero, List.sum_nil, Nat.add_zero] at h0
    simp only [List.length_cons, cycleUntilExceptionLoop]
    rw [if_pos h0, hc]
    simp only [hr, Option.isSome_none, Bool.or_self, Bool.false_eq_true, if_false]
    rw [ih (total + c) (fun k hk => by
      have := hb (k + 1) (by simpa using hk)
      rw [List.take_succ_cons, List.sum_cons] at this
      omega) (by rw [List.sum_cons] at hn; omega), List.sum_cons, Nat.add_assoc]

theorem before_last {c : Nat} (h : cs.sum < n) : ∀ k < (cs ++ [c]).length, 0 + ((cs ++ [c]).take k).sum < n := by
  intro k hk
  have hk : k ≤ cs.length := by simpa [Nat.lt_succ_iff] using hk
  rw [List.take_append_of_le_length hk, Nat.zero_add]
  have := congrArg List.sum (List.take_append_drop k cs)
  rw [List.sum_append] at this
  omega

theorem dbf_words (n : Fin 8) : ¬ MovemMisfit (BitVec.ofNat 16 (0x51C8 + n.val)) ∧ extensionWords .Dbcc (BitVec.ofNat 16 (0x51C8 + n.val)) = 1 := by
  refine ⟨?_, rfl⟩
  unfold MovemMisfit
  revert n
  decide

/-- The time of DBF. -/
theorem quiet_dbf {n : Fin 8} {w : U16} (h : Ready s (BitVec.ofNat 16 (0x51C8 + n.val)) s1) (hw : fetch s1 = .ok w s2) (ht : s.cpu.regs.sr.t = false) (hc : Completes C s t)
    (hr : t.cpu.stop = false) (hq : Quiet C cs t s') :
    Quiet C ((if (s.cpu.regs.d n).toNat % 65536 = 0 then C.DBCC_FALSE_NO_BRANCH else C.DBCC_FALSE_BRANCH) :: cs) s s' := by
  obtain ⟨hi, hcc, hreg⟩ := dbf_op n
  obtain ⟨h1, h2⟩ := dbf_words n
  have hf : fetchWords (extensionWords (instr (BitVec.ofNat 16 (0x51C8 + n.val))) (BitVec.ofNat 16 (0x51C8 + n.val))) s1 = .ok [w] s2 := by
    rw [hi, h2]
    unfold fetchWords
    rw [Exec.bind_apply, hw]
    rfl
  have := quiet_cons h h1 (by rw [hi]; decide) hf ht hc hr hq
  rw [hi] at this
  simp only [cycles, hcc, hreg] at this
  exact this

end M68k.Exec
