import Verif.Lemmas.Length
import Verif.Lemmas.Pending
/-
Memories that complete every access: exception processing does not panic.
-/
set_option linter.unusedSectionVars false
namespace M68k
namespace Exec
open Spec
variable {M : Type} [MemoryAccess M] {C : CpuDetails} {s s' s1 s2 : St M} {I : M → Prop} {α β : Type}

theorem _root_.M68k.Spec.Answers.serves (hM : Answers I) : Serves I where
  get sz a m ha hm := by obtain ⟨v, m', h, hm'⟩ := hM.get sz a m ha hm; rw [h]; exact hm'
  set sz a v m ha hm := by obtain ⟨m', h, hm'⟩ := hM.set sz a v m ha hm; rw [h]; exact hm'
  reset := hM.reset

/-- The action ends well or with an address error, and does not stop the core. -/
def Total (I : M → Prop) (x : Exec M α) : Prop := ∀ s, I s.mem →
  match x s with
  | .ok _ s' => I s'.mem ∧ s'.cpu.stop = s.cpu.stop
  | .err e s' => e = 3 ∧ I s'.mem ∧ s'.cpu.stop = s.cpu.stop
  | .panic => False

namespace Total

theorem pure (a : α) : Total I (Pure.pure a : Exec M α) := fun _ hs => ⟨hs, rfl⟩

theorem bind {x : Exec M α} {f : α → Exec M β} (hx : Total I x) (hf : ∀ a, Total I (f a)) : Total I (x >>= f) := by
  intro s hs
  rw [Exec.bind_apply]
  have h1 := hx s hs
  cases hxs : x s with
  | ok a s' =>
    rw [hxs] at h1
    have h2 := hf a s' h1.1
    cases hfs : f a s' with
    | ok b t => rw [hfs] at h2; dsimp only; rw [hfs]; exact ⟨h2.1, h2.2.trans h1.2⟩
    | err v t => rw [hfs] at h2; dsimp only; rw [hfs]; exact ⟨h2.1, h2.2.1, h2.2.2.trans h1.2⟩
    | panic => rw [hfs] at h2; exact h2.elim
  | err v s' => rw [hxs] at h1; exact h1
  | panic => rw [hxs] at h1; exact h1.elim

theorem modR (f : Registers → Registers) : Total I (modR f : Exec M Unit) := fun _ hs => ⟨hs, rfl⟩

theorem access {f : M → MRes M α} (hf : ∀ m, I m → ∃ v m', f m = .val v m' ∧ I m') : Total I (access f) := by
  intro s hs
  obtain ⟨v, m', h, hm⟩ := hf s.mem hs
  unfold Spec.access
  rw [h]
  exact ⟨hm, rfl⟩

theorem store (hM : Answers I) (sz : Size) (a : U32) (v : Val sz) : Total I (store sz a v) := by
  unfold Spec.store
  split
  · exact fun s hs => ⟨rfl, hs, rfl⟩
  · exact access fun m hm => by obtain ⟨m', h, h'⟩ := hM.set sz a v m ‹_› hm; exact ⟨(), m', h, h'⟩

theorem push (hM : Answers I) (sz : Size) (v : Val sz) : Total I (push sz v : Exec M Unit) := by
  intro s hs
  exact store hM sz (areg s.cpu.regs 7 - Spec.step 7 sz) v (s.withRegs fun r => setAreg r 7 (areg r 7 - Spec.step 7 sz)) hs

theorem pushItems (hM : Answers I) (is : List Item) : Total I (pushItems is : Exec M Unit) := by
  induction is with
  | nil => exact pure _
  | cons i is ih =>
    refine bind ?_ fun _ => ih
    cases i with
    | w x => exact push hM .Word x
    | l x => exact push hM .Long x

theorem processException (hM : Answers I) (v : U8) : Total I (processException C v : Exec M Nat) := by
  intro s hs
  rw [processException_eq]
  unfold enter
  have hj : ∀ pc : U32, Total I (do jump pc; Pure.pure (C.vectorExecutionTime v) : Exec M Nat) := fun _ _ hs => ⟨hs, rfl⟩
  exact bind (x := setFlags (entrySr v)) (fun _ hs => ⟨hs, rfl⟩) (fun _ => bind (pushItems hM _) fun _ =>
    bind (access fun m hm => hM.get .Long _ m vector_aligned hm) hj) s hs

end Total

theorem exception_stop (c : Cpu) (e : Exception) (h : c.stop = false) : (c.exception e).stop = false := by
  unfold Cpu.exception
  dsimp only
  split
  · rfl
  · exact h

theorem reset_total (hM : Answers I) (hs : I s.mem) : ∃ n s', reset C s = .ok n s' ∧ I s'.mem ∧ s'.cpu.stop = false := by
  obtain ⟨v, m, h, hm⟩ := hM.get .Long 0 s.mem (by decide) hs
  have h : MemoryAccess.getLong 0 s.mem = .val v m := h
  obtain ⟨w, n, h', hn⟩ := hM.get .Long 4 m (by decide) hm
  have h' : MemoryAccess.getLong 4 m = .val w n := h'
  have h1 : memExpect (MemoryAccess.getLong 0) s = .ok v { s with mem := m } := by unfold memExpect; rw [h]
  have h2 : ∀ c : Cpu, memExpect (MemoryAccess.getLong 4) ⟨c, m⟩ = .ok w (⟨c, n⟩ : St M) := by intro c; unfold memExpect; dsimp only; rw [h']
  have h3 : ∀ c : Cpu, (memExpect (MemoryAccess.getLong 4) >>= fun pc => do
      modifyRegs fun r => { r with pc := pc }
      modifySr fun sr => { sr with t := false, s := true, interruptMask := 7 }
      setStop false
      return C.VECTOR_RESET : Exec M Nat) ⟨c, m⟩ = .ok C.VECTOR_RESET
        ⟨{ c with stop := false, regs := { c.regs with pc := w, sr := { c.regs.sr with t := false, s := true, interruptMask := 7 } } }, n⟩ := by
    intro c
    rw [bind_eq (h2 c)]
    rfl
  unfold reset
  rw [bind_eq h1]
  exact ⟨_, _, h3 _, hn, rfl⟩

theorem processList_total (hM : Answers I) : ∀ (es : List Exception) (n : Nat) (s : St M), I s.mem → s.cpu.stop = false →
    ∃ k s', processList C es n s = .ok k s' ∧ I s'.mem ∧ s'.cpu.stop = false
  | [], n, s, hs, hst => ⟨n, s, rfl, hs, hst⟩
  | e :: es, n, s, hs, hst => by
    unfold processList
    dsimp only
    split
    · exact reset_total hM (s := { s with cpu := { s.cpu with exceptions := [] } }) hs
    · have h1 := Total.processException (C := C) hM e.vector s hs
      cases hx : processException C e.vector s with
      | ok c t =>
        rw [hx] at h1
        exact processList_total hM es _ t h1.1 (h1.2.trans hst)
      | err x t =>
        rw [hx] at h1
        obtain ⟨rfl, h2, h3⟩ := h1
        dsimp only
        rw [if_neg (by decide)]
        exact processList_total hM es _ _ h2 (exception_stop _ _ (h3.trans hst))
      | panic => rw [hx] at h1; exact h1.elim

theorem pendingCycles_total (hM : Answers I) (hs : I s.mem) (hst : s.cpu.stop = false) :
    ∃ k s', pendingCycles C s = .ok k s' ∧ I s'.mem ∧ s'.cpu.stop = false := by
  unfold pendingCycles
  split
  · exact ⟨0, s, rfl, hs, hst⟩
  · exact processList_total hM _ _ _ hs hst

theorem fetchWords_total (hM : Answers I) (k : Nat) (hs : I s.mem) (he : ¬ Spec.Odd s.cpu.regs.pc) : ∃ ws s2, fetchWords k s = .ok ws s2 := by
  induction k generalizing s with
  | zero => exact ⟨_, _, rfl⟩
  | succ k ih =>
    obtain ⟨v, m, h, hm⟩ := hM.get .Word s.cpu.regs.pc s.mem (fun h => he h.2) hs
    have h : MemoryAccess.getWord s.cpu.regs.pc s.mem = .val v m := h
    have hf : (fetch : Exec M U16) s = .ok v { mem := m, cpu := { s.cpu with regs := { s.cpu.regs with pc := s.cpu.regs.pc + 2 } } } := by
      unfold Spec.fetch
      rw [if_neg he, h]
    obtain ⟨ws, s2, hw⟩ := ih (s := { mem := m, cpu := { s.cpu with regs := { s.cpu.regs with pc := s.cpu.regs.pc + 2 } } }) hm
      (fun h => he ((odd_two _).1 h))
    refine ⟨v :: ws, s2, ?_⟩
    unfold Spec.fetchWords
    rw [bind_eq hf, bind_eq hw]
    rfl

end Exec
end M68k
