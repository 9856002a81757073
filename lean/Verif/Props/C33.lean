import Verif.Lemmas.Alike
import Verif.Lemmas.Claims
import Verif.Props.Demo
/-
C33: word and long accesses are aligned. The core calls the word and long memory methods only with even
addresses; an odd address yields vector 3 instead.
-/
namespace M68k.Props
open Spec Exec
variable {M : Type}

/-- Two implementations of the memory methods that agree on byte accesses and on word and long accesses
at even addresses, whatever they do at odd addresses (a panic for example), give the same call. -/
theorem C33_odd_accesses_irrelevant (I J : MemoryAccess M) (hb : I.getByte = J.getByte) (hb' : I.setByte = J.setByte)
    (hr : I.resetInstruction = J.resetInstruction)
    (hw : ∀ a m, ¬ Spec.Odd a → I.getWord a m = J.getWord a m) (hw' : ∀ a v m, ¬ Spec.Odd a → I.setWord a v m = J.setWord a v m)
    (hl : ∀ a m, ¬ Spec.Odd a → I.getLong a m = J.getLong a m) (hl' : ∀ a v m, ¬ Spec.Odd a → I.setLong a v m = J.setLong a v m)
    (C : CpuDetails) (s : St M) : @interpreterException M I C s = @interpreterException M J C s := by
  have same : ∀ {α : Type} (r : MRes M α), SameOutcome Eq r r := by
    intro α r
    cases r <;> first | exact ⟨rfl, rfl⟩ | exact rfl | trivial
  have hR : @Alike M M I J Eq := @Alike.mk M M I J Eq
    (by rintro m _ a rfl; rw [hb]; exact same _)
    (by rintro m _ a rfl h; rw [hw a m h]; exact same _)
    (by rintro m _ a rfl h; rw [hl a m h]; exact same _)
    (by rintro m _ a v rfl; rw [hb']; exact same _)
    (by rintro m _ a v rfl h; rw [hw' a v m h]; exact same _)
    (by rintro m _ a v rfl h; rw [hl' a v m h]; exact same _)
    (by rintro m _ rfl; rw [hr])
  have h := @sim_interpreterException M M I J Eq hR C s s ⟨rfl, rfl⟩
  cases hx : @interpreterException M I C s <;> cases hy : @interpreterException M J C s <;> rw [hx, hy] at h <;>
    first | exact h.elim | rfl | skip
  · obtain ⟨rfl, h1, h2⟩ := h
    rename_i s1 s2
    cases s1; cases s2; cases h1; cases h2; rfl
  · obtain ⟨rfl, h1, h2⟩ := h
    rename_i s1 s2
    cases s1; cases s2; cases h1; cases h2; rfl

variable [MemoryAccess M]

/-- Recording the accesses changes nothing else. -/
theorem C33_recording_transparent (C : CpuDetails) (r : Recorded M) (cpu : Cpu) :
    SameResult (fun r m => r.mem = m) (interpreterException C ({ mem := r, cpu := cpu } : St (Recorded M))) (interpreterException C ({ mem := r.mem, cpu := cpu } : St M)) := by
  have note : ∀ {α : Type} (r : Recorded M) (sz : Size) (a : U32) (x : MRes M α), SameOutcome (fun (r : Recorded M) m => r.mem = m) (r.note sz a x) x := by
    intro α r sz a x
    cases x <;> first | exact ⟨rfl, rfl⟩ | exact rfl | trivial
  have hR : Alike (fun (r : Recorded M) m => r.mem = m) :=
    { getByte := by rintro r _ a rfl; exact note _ _ _ _
      getWord := by rintro r _ a rfl _; exact note _ _ _ _
      getLong := by rintro r _ a rfl _; exact note _ _ _ _
      setByte := by rintro r _ a v rfl; exact note _ _ _ _
      setWord := by rintro r _ a v rfl _; exact note _ _ _ _
      setLong := by rintro r _ a v rfl _; exact note _ _ _ _
      resetInstruction := by rintro r _ rfl; rfl }
  exact sim_interpreterException hR C _ _ ⟨rfl, rfl⟩

/-- Every word or long access recorded during one call is at an even address, if those before it were. -/
theorem C33_call_aligned {C : CpuDetails} {s s' : St (Recorded M)} {x : Nat × Option U8}
    (h0 : ∀ e ∈ s.mem.log, e.1 ≠ .Byte → ¬ Spec.Odd e.2) (h : interpreterException C s = .ok x s') :
    ∀ e ∈ s'.mem.log, e.1 ≠ .Byte → ¬ Spec.Odd e.2 := by
  let R : Recorded M → Recorded M → Prop := fun r r' => r = r' ∧ ∀ e ∈ r.log, e.1 ≠ .Byte → ¬ Spec.Odd e.2
  have note : ∀ {α : Type} (r : Recorded M) (sz : Size) (a : U32) (x : MRes M α), (∀ e ∈ r.log, e.1 ≠ .Byte → ¬ Spec.Odd e.2) →
      (sz ≠ .Byte → ¬ Spec.Odd a) → SameOutcome R (r.note sz a x) (r.note sz a x) := by
    intro α r sz a x hr hs
    have : ∀ e ∈ (sz, a) :: r.log, e.1 ≠ .Byte → ¬ Spec.Odd e.2 := by
      intro e he
      rcases List.mem_cons.1 he with rfl | he
      · exact hs
      · exact hr e he
    cases x
    · exact ⟨rfl, rfl, this⟩
    · exact ⟨rfl, this⟩
    · trivial
  have hR : Alike R :=
    { getByte := by rintro r _ a ⟨rfl, hr⟩; exact note _ _ _ _ hr (fun h => absurd rfl h)
      getWord := by rintro r _ a ⟨rfl, hr⟩ h; exact note _ _ _ _ hr (fun _ => h)
      getLong := by rintro r _ a ⟨rfl, hr⟩ h; exact note _ _ _ _ hr (fun _ => h)
      setByte := by rintro r _ a v ⟨rfl, hr⟩; exact note _ _ _ _ hr (fun h => absurd rfl h)
      setWord := by rintro r _ a v ⟨rfl, hr⟩ h; exact note _ _ _ _ hr (fun _ => h)
      setLong := by rintro r _ a v ⟨rfl, hr⟩ h; exact note _ _ _ _ hr (fun _ => h)
      resetInstruction := by rintro r _ ⟨rfl, hr⟩; exact ⟨rfl, hr⟩ }
  have h1 := sim_interpreterException hR C s s ⟨rfl, rfl, h0⟩
  rw [h] at h1
  exact h1.2.2.2

/-- However the host uses the core, starting from an empty record. -/
theorem C33_runs_aligned {C : CpuDetails} {s s' : St (Recorded M)} (h0 : s.mem.log = []) (h : Runs C s s') :
    ∀ e ∈ s'.mem.log, e.1 ≠ .Byte → ¬ Spec.Odd e.2 := by
  induction h with
  | start => rw [h0]; intro e he; cases he
  | call _ hx ih => exact C33_call_aligned ih hx
  | host cpu _ ih => exact ih

/-- A fetch at an odd program counter is exception 3 and nothing else happens. -/
theorem C33_odd_pc (C : CpuDetails) {s : St M} (hr : s.cpu.stop = false) (hi : s.cpu.exceptions = []) (ho : Spec.Odd s.cpu.regs.pc) :
    Raises C s 3 s := by
  rcases step_idle C hr hi with ⟨-, h⟩ | ⟨h, -⟩ | ⟨h, -⟩ | ⟨op, s1, h⟩
  · exact h
  · exact absurd ho h
  · exact absurd ho h
  · exact absurd ho h.even

/-- A recorded run with word and byte accesses: MOVE.B (A0),(A1) with odd addresses, then a stack push. -/
example : ∃ (s' : St (Recorded WordSlice)) (c : Nat),
    interpreterException mc68000 { mem := ⟨⟨[0x1290, 0, 0, 0]⟩, []⟩, cpu := (Demo.st [] (Demo.regs [] [5, 7])).cpu } = .ok (c, none) s' ∧
    s'.mem.log = [(.Byte, 7), (.Byte, 5), (.Word, 0)] := ⟨_, _, rfl, rfl⟩

end M68k.Props
