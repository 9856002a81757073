import Verif.Lemmas.AnyStep
import Verif.Lemmas.Ends
/-
Instructions take time.
-/
namespace M68k
namespace Exec
open Spec
set_option linter.unusedSectionVars false
set_option linter.unusedSimpArgs false
variable {M : Type} [MemoryAccess M] {α β : Type}

/-- If the action ends without error, it takes some time. -/
def Pos (x : Exec M Nat) : Prop := ∀ s n s', x s = .ok n s' → 0 < n

namespace Pos
theorem bind {x : Exec M α} {f : α → Exec M Nat} (h : ∀ a, Pos (f a)) : Pos (x >>= f) := by
  intro s n s' hx
  obtain ⟨a, t, _, h2⟩ := bind_ok hx
  exact h a t n s' h2
theorem map {x : Exec M α} {f : α → Nat} (h : ∀ a, 0 < f a) : Pos (f <$> x) := by
  intro s n s' hx
  rw [Exec.map_apply] at hx
  cases hxs : x s with
  | ok a t => rw [hxs] at hx; cases hx; exact h a
  | err v t => rw [hxs] at hx; cases hx
  | panic => rw [hxs] at hx; cases hx
theorem cost {x : Exec M α} {t : Nat} (h : 0 < t) : Pos (cost x t) := map fun _ => h
theorem ret {n : Nat} (h : 0 < n) : Pos (pure n : Exec M Nat) := fun _ _ _ hx => (by cases hx; exact h)
theorem crash : Pos (crash : Exec M Nat) := fun _ _ _ hx => (by cases hx)
theorem trap (v : U8) : Pos (trap v : Exec M Nat) := fun _ _ _ hx => (by cases hx)
theorem costTrap (v : U8) (t : Nat) : Pos (Spec.cost (Spec.trap v : Exec M α) t) := fun _ _ _ hx => (by cases hx)
theorem ite {c : Prop} [Decidable c] {x y : Exec M Nat} (hx : Pos x) (hy : Pos y) : Pos (if c then x else y) := by split <;> assumption
theorem sized {op : U16} {k : Size → Exec M Nat} (h : ∀ sz, Pos (k sz)) : Pos (sized op k) :=
  ite (h _) (ite (h _) (ite (h _) crash))
theorem moveSized {op : U16} {k : Size → Exec M Nat} (h : ∀ sz, Pos (k sz)) : Pos (moveSized op k) :=
  ite (h _) (ite (h _) (ite (h _) crash))
end Pos

theorem pos_bySize {sz : Size} {a b : Nat} (ha : 0 < a) (hb : 0 < b) : 0 < bySize sz a b := by unfold bySize; split <;> assumption
theorem pos_byPlace {m : Mode} {a b : Nat} (ha : 0 < a) (hb : 0 < b) : 0 < byPlace m a b := by unfold byPlace; split <;> assumption
theorem pos_ite {c : Prop} [Decidable c] {a b : Nat} (ha : 0 < a) (hb : 0 < b) : 0 < if c then a else b := by split <;> assumption

theorem Pos.control {m : Mode} {f : U32 → Exec M α} {a b c d e g h : Nat} (ha : 0 < a) (hb : 0 < b) (hc : 0 < c) (hd : 0 < d) (he : 0 < e)
    (hg : 0 < g) (hh : 0 < h) : Pos (Spec.control m >>= fun x => Spec.cost (f x) (controlTime a b c d e g h m)) := by
  cases m
  case dn n => intro s n s' hx; cases hx
  case an n => intro s n s' hx; cases hx
  case postinc n => intro s n s' hx; cases hx
  case predec n => intro s n s' hx; cases hx
  case imm v => intro s n s' hx; cases hx
  all_goals exact Pos.bind fun _ => Pos.cost (by assumption)

theorem map_ok3 {f : α → β} {x : Exec M α} {b : β} {s s' : St M} (h : (f <$> x) s = .ok b s') : ∃ a, x s = .ok a s' ∧ b = f a := by
  rw [Exec.map_apply] at h
  cases hx : x s with
  | ok a s2 => rw [hx] at h; cases h; exact ⟨a, rfl, rfl⟩
  | err v s2 => rw [hx] at h; cases h
  | panic => rw [hx] at h; cases h

theorem Pos.jsr {m : Mode} {a b c d e g h : Nat} (ha : 0 < a) (hb : 0 < b) (hc : 0 < c) (hd : 0 < d) (he : 0 < e)
    (hg : 0 < g) (hh : 0 < h) : Pos (Spec.cost (Spec.jsr m : Exec M Unit) (controlTime a b c d e g h m)) := by
  have key : (∀ s, (Spec.control m : Exec M U32) s = .panic) → Pos (Spec.cost (Spec.jsr m : Exec M Unit) (controlTime a b c d e g h m)) := by
    intro hp s n s' hx
    unfold Spec.cost at hx
    obtain ⟨x, hx, -⟩ := map_ok3 hx
    unfold Spec.jsr at hx
    obtain ⟨_, t, _, hx⟩ := bind_ok hx
    obtain ⟨_, u, _, hx⟩ := bind_ok hx
    obtain ⟨_, v, hc, hx⟩ := bind_ok hx
    rw [hp] at hc
    cases hc
  cases m
  case dn n => exact key fun _ => rfl
  case an n => exact key fun _ => rfl
  case postinc n => exact key fun _ => rfl
  case predec n => exact key fun _ => rfl
  case imm v => exact key fun _ => rfl
  all_goals exact Pos.cost (by assumption)

theorem Pos.movem {m : Mode} {b : Bool} {sz : Size} {mask : U16} {t : Nat} {C : CpuDetails} (h1 : 0 < C.MOVEM_ARI) (h2 : 0 < C.MOVEM_ARIWPO)
    (h3 : 0 < C.MOVEM_ARIWPR) (h4 : 0 < C.MOVEM_ARIWD) (h5 : 0 < C.MOVEM_ARIWI8) (h6 : 0 < C.MOVEM_ABSSHORT) (h7 : 0 < C.MOVEM_ABSLONG)
    (h8 : 0 < C.MOVEM_PCIWD) (h9 : 0 < C.MOVEM_PCIWI8) : Pos (Spec.cost (Spec.movem b sz m mask : Exec M Unit) (movemModeTime C m + t)) := by
  cases m
  case dn n => intro s n s' hx; cases hx
  case an n => intro s n s' hx; cases hx
  case imm v => intro s n s' hx; cases hx
  all_goals exact Pos.cost (Nat.add_pos_left (by assumption) _)

macro "pos_time" : tactic => `(tactic| repeat' first | decide | apply pos_bySize | apply pos_byPlace | apply pos_ite | apply Nat.add_pos_left | split)
macro "pos_step" : tactic => `(tactic| first
  | exact Pos.crash | exact Pos.trap _ | exact Pos.costTrap _ _ | exact Pos.control (by decide) (by decide) (by decide) (by decide) (by decide) (by decide) (by decide)
  | exact Pos.jsr (by decide) (by decide) (by decide) (by decide) (by decide) (by decide) (by decide)
  | apply Pos.cost | apply Pos.ret | (apply Pos.sized; intro _) | (apply Pos.moveSized; intro _) | apply Pos.ite | (apply Pos.bind; intro _) | (apply Pos.map; intro _))

set_option maxHeartbeats 2000000 in
theorem exec_pos_mc68000 (isa : Isa) (op : U16) : Pos (Spec.exec mc68000 isa op : Exec M Nat) := by
  cases isa
  case Movem =>
    simp only [Spec.exec]
    refine Pos.bind fun _ => Pos.bind fun _ => ?_
    rw [Nat.add_assoc]
    exact Pos.movem (by decide) (by decide) (by decide) (by decide) (by decide) (by decide) (by decide) (by decide) (by decide)
  case Dbcc =>
    simp only [Spec.exec]
    refine Pos.bind fun _ => Pos.bind fun _ => Pos.map fun a => ?_
    cases a <;> decide
  all_goals
    simp only [Spec.exec, binary, immediate, unary, bitInstr, shiftInstr, shiftMem, wordToDn, unimplemented]
    repeat' pos_step
    all_goals pos_time

set_option maxHeartbeats 2000000 in
theorem exec_pos_scc68070 (isa : Isa) (op : U16) : Pos (Spec.exec scc68070 isa op : Exec M Nat) := by
  cases isa
  case Movem =>
    simp only [Spec.exec]
    refine Pos.bind fun _ => Pos.bind fun _ => ?_
    rw [Nat.add_assoc]
    exact Pos.movem (by decide) (by decide) (by decide) (by decide) (by decide) (by decide) (by decide) (by decide) (by decide)
  case Dbcc =>
    simp only [Spec.exec]
    refine Pos.bind fun _ => Pos.bind fun _ => Pos.map fun a => ?_
    cases a <;> decide
  all_goals
    simp only [Spec.exec, binary, immediate, unary, bitInstr, shiftInstr, shiftMem, wordToDn, unimplemented]
    repeat' pos_step
    all_goals pos_time

/-- Every instruction takes time. -/
theorem exec_pos {C : CpuDetails} (hC : C = mc68000 ∨ C = scc68070) (isa : Isa) (op : U16) : Pos (Spec.exec C isa op : Exec M Nat) := by
  rcases hC with rfl | rfl
  · exact exec_pos_mc68000 isa op
  · exact exec_pos_scc68070 isa op

/-- The exceptions an action raises. -/
def RaisesOnly (x : Exec M α) : Prop := ∀ s e s', x s = .err e s' → e = 2 ∨ Raisable e

namespace RaisesOnly
theorem access (f : M → MRes M α) : RaisesOnly (access f) := by
  intro s e s' h
  unfold Spec.access at h
  split at h
  · cases h
  · cases h; exact .inl rfl
  · cases h
theorem prims : SysPrims (M := M) RaisesOnly where
  pure _ := fun _ _ _ h => (by cases h)
  bind _ _ hx hf := by
    intro s e s' h
    rcases bind_err h with h | ⟨a, t, _, h⟩
    · exact hx _ _ _ h
    · exact hf _ _ _ _ h
  crash := fun _ _ _ h => (by cases h)
  trap v hv := fun _ _ _ h => (by cases h; exact .inr hv)
  getR _ := fun _ _ _ h => (by cases h)
  load sz a := by
    unfold Spec.load
    split
    · exact fun _ _ _ h => (by cases h; exact .inr (by decide))
    · exact access _
  store sz a v := by
    unfold Spec.store
    split
    · exact fun _ _ _ h => (by cases h; exact .inr (by decide))
    · exact access _
  movemLoad sz a _ _ := by
    intro s e s' h
    unfold Spec.movemLoad at h
    rw [Exec.map_apply] at h
    cases hx : Spec.access (memGet sz a) s with
    | ok v t => rw [hx] at h; cases h
    | err v t => rw [hx] at h; cases h; exact access _ _ _ _ hx
    | panic => rw [hx] at h; cases h
  movemStore _ _ _ _ _ := access _
  dreg _ _ := fun _ _ _ h => (by cases h)
  areg _ _ := fun _ _ _ h => (by cases h)
  flags _ _ := fun _ _ _ h => (by cases h)
  fetch := by
    intro s e s' h
    unfold Spec.fetch at h
    split at h
    · cases h
    · split at h <;> cases h
  jump _ := fun _ _ _ h => (by cases h)
  anyFlags _ := fun _ _ _ h => (by cases h)
  halt := fun _ _ _ h => (by cases h)
  signalReset := fun _ _ _ h => (by cases h)
  usp _ := fun _ _ _ h => (by cases h)
end RaisesOnly

/-- What an instruction raises. -/
theorem exec_raises (C : CpuDetails) (isa : Isa) (op : U16) {s s' : St M} {e : U8} (h : Spec.exec C isa op s = .err e s') : e = 2 ∨ Raisable e :=
  RaisesOnly.prims.exec C isa op s e s' h

end Exec
end M68k
