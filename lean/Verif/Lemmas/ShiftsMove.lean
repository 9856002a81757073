import Verif.Lemmas.Shifts
import Verif.Lemmas.Legal
import Verif.Lemmas.Step
/-
MOVE and the instructions with two `-(An)` or two `(An)+` operands move their address registers.
-/
set_option linter.unusedSectionVars false
namespace M68k
namespace Exec
open Spec
variable {M : Type} [MemoryAccess M] {α β : Type} {n : Fin 8} {δ ε : U32} {C : CpuDetails} {op : U16} {sz : Size}
namespace Shifts

theorem bindP {x : Exec M α} {f : α → Exec M β} {P : α → Prop} (hx : Shifts n δ x) (hp : ∀ s a s', x s = .ok a s' → P a)
    (hf : ∀ a, P a → Shifts n ε (f a)) : Shifts n (δ + ε) (x >>= f) := by
  intro s
  rw [Exec.bind_apply]
  have h1 := hx s
  cases hxs : x s with
  | ok a s1 =>
    rw [hxs] at h1
    dsimp only at h1 ⊢
    have h2 := hf a (hp _ _ _ hxs) s1
    cases hfs : f a s1 with
    | ok b s2 =>
      rw [hfs] at h2
      dsimp only at h2 ⊢
      rw [h2.1, h1.1, h2.2, h1.2, BitVec.add_assoc]
      exact ⟨rfl, rfl⟩
    | err v s2 => rw [hfs] at h2; exact h2
    | panic => trivial
  | err v s1 => rw [hxs] at h1; exact h1
  | panic => trivial

theorem fetchLong : Shifts n 0 (fetchLong : Exec M U32) := first fetch fun _ => first fetch fun _ => pure _

theorem fetchMode (isz : Option Size) (mode reg : Fin 8) : Shifts n 0 (fetchMode isz mode reg : Exec M Mode) := by
  unfold Spec.fetchMode
  split
  · exact pure _
  · exact pure _
  · exact pure _
  · exact pure _
  · exact pure _
  · exact map _ fetch
  · exact map _ fetch
  · split
    · exact map _ fetch
    · exact map _ fetchLong
    · exact first (getR _) fun _ => map _ fetch
    · exact first (getR _) fun _ => map _ fetch
    · split
      · exact crash
      · exact map _ fetchLong
      · exact map _ fetch
    · exact crash

/-- The change of An by an effective address, from its two fields. -/
def shift (sz : Size) (n mode reg : Fin 8) : U32 :=
  if reg = n then (if mode = 3 then step n sz else if mode = 4 then - step n sz else 0) else 0

theorem fetchMode_delta {isz : Option Size} {mode reg : Fin 8} {s s' : St M} {m : Mode} (h : Spec.fetchMode isz mode reg s = .ok m s') :
    (∀ sz, delta sz n m = shift sz n mode reg) ∧ (mode ≠ 1 → ∀ k, m ≠ .an k) := by
  unfold Spec.fetchMode at h
  split at h
  · cases h; exact ⟨fun sz => by simp [delta, shift], fun _ _ => nofun⟩
  · cases h; exact ⟨fun sz => by simp [delta, shift], fun h => absurd rfl h⟩
  · cases h; exact ⟨fun sz => by simp [delta, shift], fun _ _ => nofun⟩
  · cases h; exact ⟨fun sz => by simp [delta, shift], fun _ _ => nofun⟩
  · cases h; exact ⟨fun sz => by simp [delta, shift], fun _ _ => nofun⟩
  · obtain ⟨_, _, rfl⟩ := map_ok' h; exact ⟨fun sz => by simp [delta, shift], fun _ _ => nofun⟩
  · obtain ⟨_, _, rfl⟩ := map_ok' h; exact ⟨fun sz => by simp [delta, shift], fun _ _ => nofun⟩
  · split at h
    · obtain ⟨_, _, rfl⟩ := map_ok' h; exact ⟨fun sz => by simp [delta, shift], fun _ _ => nofun⟩
    · obtain ⟨_, _, rfl⟩ := map_ok' h; exact ⟨fun sz => by simp [delta, shift], fun _ _ => nofun⟩
    · rw [getR_bind_apply] at h; obtain ⟨_, _, rfl⟩ := map_ok' h; exact ⟨fun sz => by simp [delta, shift], fun _ _ => nofun⟩
    · rw [getR_bind_apply] at h; obtain ⟨_, _, rfl⟩ := map_ok' h; exact ⟨fun sz => by simp [delta, shift], fun _ _ => nofun⟩
    · split at h
      · cases h
      · obtain ⟨_, _, rfl⟩ := map_ok' h; exact ⟨fun sz => by simp [delta, shift], fun _ _ => nofun⟩
      · obtain ⟨_, _, rfl⟩ := map_ok' h; exact ⟨fun sz => by simp [delta, shift], fun _ _ => nofun⟩
    · cases h

theorem bind_mode {isz : Option Size} {mode reg : Fin 8} {f : Mode → Exec M β}
    (hf : ∀ m, (∀ sz, delta sz n m = shift sz n mode reg) → (mode ≠ 1 → ∀ k, m ≠ .an k) → Shifts n δ (f m)) :
    Shifts n δ (Spec.fetchMode isz mode reg >>= f) := by
  have := bindP (n := n) (fetchMode (M := M) isz mode reg)
    (P := fun m => (∀ sz, delta sz n m = shift sz n mode reg) ∧ (mode ≠ 1 → ∀ k, m ≠ .an k))
    (fun s a s' h => fetchMode_delta h) (fun m h => hf m h.1 h.2)
  rwa [zadd] at this

theorem writeAny {m : Mode} (hm : ∀ k, m ≠ .an k) (v : Val sz) : Shifts n (delta sz n m) (Spec.write sz m v : Exec M Unit) := by
  have hp : ∀ r : Registers, ∀ k, (place sz r m).1 ≠ .areg k := by
    intro r k
    cases m <;> first | exact absurd rfl (hm _) | exact nofun
  unfold Spec.write
  have := bindP (n := n) (f := fun p => writeAt sz p v) (locate (M := M) sz m) (P := fun p => ∀ k, p ≠ .areg k)
    (fun s a s' h => by
      cases h
      exact hp _) (fun p h => writeMem sz p h v)
  rwa [add0] at this

theorem move {sz : Size} (hsz : moveOpSize op = some sz) (hd : regField op 6 ≠ 1) :
    Shifts n (shift sz n (regField op 3) (regField op 0) + shift sz n (regField op 6) (regField op 9)) (Spec.exec C .Move op : Exec M Nat) := by
  simp only [Spec.exec]
  refine moveSized hsz ?_
  refine bind_mode fun src h1 _ => bind_mode fun dst h2 h3 => cost _ ?_
  unfold Spec.move
  rw [← h1, ← h2]
  exact bind (read sz src) fun x => first (writeAny (h3 hd) _) fun _ => flags fun _ => rfl

theorem pair {x y : Fin 8} {f : Val sz → Val sz → StatusRegister → Val sz × StatusRegister} (hf : ∀ d s sr, (f d s sr).2.s = sr.s) :
    Shifts n (shift sz n 4 y + shift sz n 4 x) (Spec.pair sz true x y f : Exec M Unit) := by
  unfold Spec.pair
  have e : ∀ k, delta sz n (.predec k) = shift sz n 4 k := fun k => by simp [delta, shift]
  rw [← e, ← e]
  refine bindP (P := fun p => ∀ k, p ≠ .areg k) (locate sz _) (fun s a s' h => by cases h; exact nofun) fun p hp => ?_
  have := bindP (n := n) (P := fun p => ∀ k, p ≠ .areg k)
    (f := fun dst => (Spec.readAt sz p >>= fun s => Spec.readAt sz dst >>= fun d => Spec.compute (f d s) >>= fun r => writeAt sz dst r : Exec M Unit))
    (locate (M := M) sz (.predec x)) (fun s a s' h => by cases h; exact nofun)
    fun q hq => first (readAt sz p) fun s => first (readAt sz q) fun d => first (compute (hf d s)) fun r => writeMem sz q hq r
  rwa [add0] at this

theorem decimalSum_s (d s : Val .Byte) (sr : StatusRegister) : (decimalSum d s sr).2.s = sr.s := by
  unfold decimalSum
  split <;> rfl

theorem cmpm {x y : Fin 8} : Shifts n (shift sz n 3 y + shift sz n 3 x) (Spec.cmpm sz x y : Exec M Unit) := by
  unfold Spec.cmpm
  have e : ∀ k, delta sz n (.postinc k) = shift sz n 3 k := fun k => by simp [delta, shift]
  rw [← e, ← e]
  exact bind (locate sz _) fun p => first (locate sz _) fun q => first (readAt _ _) fun _ => first (readAt _ _) fun _ => flags fun _ => rfl

end Shifts

/-- From the traversal to one step. -/
theorem shifts_step {s s' s1 : St M} {i : Isa} (h : Ready s op s1) (hi : instr op = i) (hu : i ≠ .Unknown) (hp : i.isPrivileged = false)
    (hx : Shifts n δ (Spec.exec C i op : Exec M Nat)) (hc : Completes C s s') :
    areg s'.cpu.regs n = areg s.cpu.regs n + δ ∧ s'.cpu.regs.sr.s = s.cpu.regs.sr.s := by
  have he := step_ends C h hi hu hp
  have hs := hx s1
  have e1 : areg s1.cpu.regs n = areg s.cpu.regs n ∧ s1.cpu.regs.sr.s = s.cpu.regs.sr.s := by
    obtain ⟨m, -, rfl⟩ := h.opcode
    exact ⟨rfl, rfl⟩
  rcases endsWith_completes he hc with ⟨a, ha⟩ | ⟨e, ha, ht⟩
  · rw [ha] at hs
    rw [hs.1, hs.2, e1.1, e1.2]
    exact ⟨rfl, rfl⟩
  · rw [ha] at hs
    unfold traced at ht
    split at ht
    · exact absurd (Option.some.inj ht).symm hs
    · cases ht

end Exec
end M68k
