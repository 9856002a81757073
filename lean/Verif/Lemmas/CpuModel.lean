import Verif.Lemmas.Alike
/-
The effect of an instruction without its execution time.
-/
set_option linter.unusedSectionVars false
namespace M68k
namespace Exec
open Spec
variable {M : Type} [MemoryAccess M]

/-- The action without its result. -/
def eff {α : Type} (x : Exec M α) : Exec M Unit := (fun _ => ()) <$> x

theorem eff_map {α β : Type} (f : α → β) (x : Exec M α) : eff (f <$> x) = eff x := by
  funext s; unfold eff; rw [Exec.map_apply, Exec.map_apply, Exec.map_apply]; cases x s <;> rfl
theorem eff_cost {α : Type} (x : Exec M α) (t : Nat) : eff (cost x t) = eff x := eff_map _ x
theorem eff_bind {α β : Type} (x : Exec M α) (f : α → Exec M β) : eff (x >>= f) = (x >>= fun a => eff (f a)) := by
  funext s; unfold eff; rw [Exec.map_apply, Exec.bind_apply, Exec.bind_apply]; cases x s <;> rfl
theorem eff_ite {α : Type} (p : Prop) [Decidable p] (x y : Exec M α) : eff (if p then x else y) = if p then eff x else eff y := by
  split <;> rfl
theorem eff_pure {α : Type} (a : α) : eff (pure a : Exec M α) = pure () := rfl
theorem eff_crash {α : Type} : eff (crash : Exec M α) = crash := rfl
theorem eff_sized (op : U16) (k : Size → Exec M Nat) : eff (sized op k) =
    if op.toNat / 64 % 4 = 0 then eff (k .Byte) else if op.toNat / 64 % 4 = 1 then eff (k .Word)
    else if op.toNat / 64 % 4 = 2 then eff (k .Long) else crash := by
  unfold sized; rw [eff_ite, eff_ite, eff_ite, eff_crash]
theorem eff_moveSized (op : U16) (k : Size → Exec M Nat) : eff (moveSized op k) =
    if op.toNat / 4096 % 4 = 1 then eff (k .Byte) else if op.toNat / 4096 % 4 = 3 then eff (k .Word)
    else if op.toNat / 4096 % 4 = 2 then eff (k .Long) else crash := by
  unfold moveSized; rw [eff_ite, eff_ite, eff_ite, eff_crash]

/-- The effect of an instruction depends on the CPU model only through the stack format, and only for RTE. -/
theorem eff_exec (C C' : CpuDetails) (i : Isa) (op : U16) (h : i = .Rte → C.STACK_FORMAT = C'.STACK_FORMAT) :
    eff (Spec.exec C i op : Exec M Nat) = eff (Spec.exec C' i op) := by
  cases i
  case Rte => simp only [Spec.exec, eff_map, h rfl]
  all_goals
    simp only [Spec.exec, binary, immediate, unary, bitInstr, shiftInstr, shiftMem, wordToDn, eff_map, eff_cost, eff_sized, eff_moveSized, eff_bind, eff_ite, eff_pure]

end Exec
end M68k

namespace M68k
namespace Exec
open Spec
variable {M : Type} [MemoryAccess M] {C C' : CpuDetails}

theorem eff_processException (h : C.STACK_FORMAT = C'.STACK_FORMAT) (v : U8) :
    eff (processException C v : Exec M Nat) = eff (processException C' v) := by
  unfold processException
  simp only [eff_bind, h, eff_pure]

theorem eff_reset : eff (reset C : Exec M Nat) = eff (reset C') := by
  unfold reset
  simp only [eff_bind, eff_pure]

theorem eff_apply {α β : Type} {x : Exec M α} {y : Exec M β} (h : eff x = eff y) (s : St M) :
    (∃ a b s', x s = .ok a s' ∧ y s = .ok b s') ∨ (∃ v s', x s = .err v s' ∧ y s = .err v s') ∨ (x s = .panic ∧ y s = .panic) := by
  have h := congrFun h s
  unfold eff at h
  rw [Exec.map_apply, Exec.map_apply] at h
  cases hx : x s <;> cases hy : y s <;> rw [hx, hy] at h <;> cases h
  · exact .inl ⟨_, _, _, rfl, rfl⟩
  · exact .inr (.inl ⟨_, _, rfl, rfl⟩)
  · exact .inr (.inr ⟨rfl, rfl⟩)

theorem eff_of_apply {α β : Type} {x : Exec M α} {y : Exec M β}
    (h : ∀ s, (∃ a b s', x s = .ok a s' ∧ y s = .ok b s') ∨ (∃ v s', x s = .err v s' ∧ y s = .err v s') ∨ (x s = .panic ∧ y s = .panic)) : eff x = eff y := by
  funext s
  unfold eff
  rw [Exec.map_apply, Exec.map_apply]
  rcases h s with ⟨a, b, s', h1, h2⟩ | ⟨v, s', h1, h2⟩ | ⟨h1, h2⟩ <;> rw [h1, h2]

theorem eff_processList (h : C.STACK_FORMAT = C'.STACK_FORMAT) (l : List Exception) :
    ∀ n n' : Nat, eff (processList C l n : Exec M Nat) = eff (processList C' l n') := by
  induction l with
  | nil => intro n n'; rfl
  | cons ex rest ih =>
    intro n n'
    apply eff_of_apply
    intro s
    unfold processList
    by_cases h0 : ex.vector = 0
    · rw [if_pos h0, if_pos h0]; exact eff_apply eff_reset _
    · rw [if_neg h0, if_neg h0]
      rcases eff_apply (eff_processException h ex.vector) s with ⟨a, b, s', h1, h2⟩ | ⟨v, s', h1, h2⟩ | ⟨h1, h2⟩ <;> rw [h1, h2] <;> simp only
      · exact eff_apply (ih _ _) _
      · split
        · split
          · exact .inr (.inr ⟨rfl, rfl⟩)
          · split <;> exact eff_apply (ih _ _) _
        · exact eff_apply (ih _ _) _
      · exact .inr (.inr (by simp))

theorem eff_pendingCycles (h : C.STACK_FORMAT = C'.STACK_FORMAT) : eff (pendingCycles C : Exec M Nat) = eff (pendingCycles C') := by
  apply eff_of_apply
  intro s
  unfold pendingCycles processPendingExceptions
  split
  · exact .inl ⟨_, _, _, rfl, rfl⟩
  · exact eff_apply (eff_processList h _ _ _) _

end Exec
end M68k
