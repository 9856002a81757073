import Verif.Props.C35
import Verif.Model.Ffi
/-
C60: running in time slices.
-/
namespace M68k.Props
open Spec Exec
set_option linter.unusedSectionVars false
variable {M : Type} [MemoryAccess M] {C : CpuDetails} {s s' s1 s2 t : St M} {a b n r q : Nat}

theorem cycleLoop_done (k total : Nat) (h : ¬ total < n) (s : St M) : cycleLoop C n k total s = .done total s := by
  cases k <;> unfold cycleLoop <;> rw [if_neg h]

theorem cycleLoop_more : ∀ (k j total : Nat) (s : St M), a ≤ b → cycleLoop C a k total s = .done r t → t.cpu.stop = false →
    cycleLoop C b (k + j) total s = cycleLoop C b (k + j) r t ∨ ∃ i, i ≤ k ∧ cycleLoop C b (k + j) total s = cycleLoop C b (i + j) r t
  | 0, j, total, s, hab, h, ht => by
    unfold cycleLoop at h
    split at h
    · cases h
    · cases h; exact .inl rfl
  | k + 1, j, total, s, hab, h, ht => by
    unfold cycleLoop at h
    split at h
    · next hl =>
      have e : k + 1 + j = (k + j) + 1 := by omega
      rw [e]
      rw [show cycleLoop C b (k + j + 1) total s = _ from by rw [cycleLoop]]
      rw [if_pos (by omega)]
      split at h
      · next c s1 h1 =>
        split at h
        · next hst => cases h; rw [hst] at ht; cases ht
        · next hst =>
          rw [if_neg hst]
          rcases cycleLoop_more k j (total + c) s1 hab h ht with h2 | ⟨i, hi, h2⟩
          · exact .inr ⟨k, by omega, h2⟩
          · exact .inr ⟨i, by omega, h2⟩
      · cases h
      · cases h
    · cases h; exact .inl rfl

/-- More turns than are needed give the same outcome. -/
theorem cycleLoop_mono : ∀ (k j total : Nat) (s : St M), cycleLoop C n k total s = .done r t → cycleLoop C n (k + j) total s = .done r t
  | 0, j, total, s, h => by
    unfold cycleLoop at h
    split at h
    · cases h
    · next hl => cases h; exact cycleLoop_done _ _ hl _
  | k + 1, j, total, s, h => by
    have e : k + 1 + j = (k + j) + 1 := by omega
    rw [e]
    unfold cycleLoop at h ⊢
    split at h
    · next hl =>
      rw [if_pos hl]
      split at h
      · next c s1 h1 =>
        split at h
        · next hst => rw [if_pos hst]; exact h
        · next hst => rw [if_neg hst]; exact cycleLoop_mono k j _ _ h
      · cases h
      · cases h
    · next hl => rw [if_neg hl]; exact h

/-- The count of a loop that starts at another total. -/
theorem cycleLoop_shift : ∀ (k d total : Nat) (s : St M), cycleLoop C n k total s = .done q t → cycleLoop C (d + n) k (d + total) s = .done (d + q) t
  | 0, d, total, s, h => by
    unfold cycleLoop at h ⊢
    split at h
    · cases h
    · next hl => cases h; rw [if_neg (by omega)]
  | k + 1, d, total, s, h => by
    unfold cycleLoop at h ⊢
    split at h
    · next hl =>
      rw [if_pos (by omega)]
      split at h
      · next c s1 h1 =>
        split at h
        · next hst => rw [if_pos hst]; cases h; rfl
        · next hst =>
          rw [if_neg hst]
          have := cycleLoop_shift k d (total + c) s1 h
          rw [Nat.add_assoc]
          exact this
      · cases h
      · cases h
    · next hl => cases h; rw [if_neg (by omega)]

/-- `cycle(a)` that returns `r` with the core running, then `cycle(b)` that returns `q`, are one call of `cycle(r + b)` that returns `r + q`: the same state of the
core and the memory. -/
theorem C60_consecutive (h1 : Returns (cycle C a s) r s1) (hrun : s1.cpu.stop = false) (h2 : Returns (cycle C b s1) q s2) :
    Returns (cycle C (r + b) s) (r + q) s2 := by
  obtain ⟨-, -, har, -⟩ := C35_cycle h1 |>.choose_spec
  obtain ⟨k, h1⟩ := h1
  obtain ⟨j, h2⟩ := h2
  unfold cycle at h1 h2
  have h3 := cycleLoop_shift j r 0 s1 h2
  refine ⟨k + j, ?_⟩
  unfold cycle
  rcases cycleLoop_more k j 0 s (by omega : a ≤ r + b) h1 hrun with h4 | ⟨i, hi, h4⟩
  · rw [h4, Nat.add_comm k j]
    exact cycleLoop_mono j k r s1 h3
  · rw [h4, Nat.add_comm i j]
    exact cycleLoop_mono j i r s1 h3

/-- A call that ran over its time has done what a call with more time, up to the returned number, does. -/
theorem C60_overshoot (h1 : Returns (cycle C a s) r s1) (hrun : s1.cpu.stop = false) (hb : a ≤ b) (hr : b ≤ r) : Returns (cycle C b s) r s1 := by
  obtain ⟨k, h1⟩ := h1
  refine ⟨k + 0, ?_⟩
  unfold cycle at h1 ⊢
  rcases cycleLoop_more k 0 0 s hb h1 hrun with h4 | ⟨i, hi, h4⟩
  · rw [h4]; exact cycleLoop_done _ _ (by omega) _
  · rw [h4]; exact cycleLoop_done _ _ (by omega) _

/-- A host that runs the core in slices of the times `ns`, and takes what a slice has run over from the following ones, as the documentation of `cycle` asks. It begins
and ends with the debts `d` and `d'`, and the core does not stop. -/
inductive Sliced (C : CpuDetails) : List Nat → Nat → St M → Nat → St M → Prop
  | nil (d : Nat) (s : St M) : Sliced C [] d s d s
  | cons {n d r d' : Nat} {ns : List Nat} {s t s' : St M} : Returns (cycle C (n - d) s) r t → t.cpu.stop = false → Sliced C ns (d + r - n) t d' s' →
      Sliced C (n :: ns) d s d' s'

theorem cycle_zero {s : St M} (h : Returns (cycle C 0 s) r t) : r = 0 ∧ t = s := by
  obtain ⟨k, h⟩ := h
  unfold cycle at h
  rw [cycleLoop_done k 0 (by omega)] at h
  cases h
  exact ⟨rfl, rfl⟩

theorem sliced_from {ns : List Nat} {d d' S : Nat} {s0 : St M} (hs : Sliced C ns d s d' s') (h : Returns (cycle C S s0) (S + d) s) (hrun : s.cpu.stop = false) :
    Returns (cycle C (S + ns.sum) s0) (S + ns.sum + d') s' := by
  induction hs generalizing S with
  | nil d s => exact h
  | @cons n d r d' ns s t s' h1 h2 h3 ih =>
    have hsum : S + (n :: ns).sum = S + n + ns.sum := by rw [List.sum_cons]; omega
    rw [hsum]
    by_cases hd : n ≤ d
    · have hz : n - d = 0 := by omega
      rw [hz] at h1
      obtain ⟨rfl, rfl⟩ := cycle_zero h1
      refine ih ?_ hrun
      have := C60_overshoot (b := S + n) h hrun (by omega) (by omega)
      rwa [show S + n + (d + 0 - n) = S + d by omega]
    · have har : n - d ≤ r := by obtain ⟨cs, -, -, har, -⟩ := C35_cycle h1; exact har
      refine ih ?_ h2
      have := C60_consecutive h hrun h1
      rw [show S + d + (n - d) = S + n by omega] at this
      rwa [show S + n + (d + r - n) = S + d + r by omega]

/-- Any number of slices of any lengths amount to one call with the sum of the times: the same state of the core and the memory, and the same time, namely the sum and the
remaining debt. -/
theorem C60_slices {ns : List Nat} {d : Nat} (h : Sliced C ns 0 s d s') (hrun : s.cpu.stop = false) : Returns (cycle C ns.sum s) (ns.sum + d) s' := by
  have h0 : Returns (cycle C 0 s) (0 + 0) s := ⟨0, rfl⟩
  have := sliced_from h h0 hrun
  simpa using this

/-- A memory of the C interface: `NOP` at every address. -/
def nops : FfiMemory Unit :=
  ⟨⟨fun _ u => (⟨0x4E, 0⟩, u), fun _ u => (⟨0x4E71, 0⟩, u), fun _ u => (⟨0x4E714E71, 0⟩, u), fun _ _ u => (⟨0, 0⟩, u), fun _ _ u => (⟨0, 0⟩, u), fun _ _ u => (⟨0, 0⟩, u), id⟩, ()⟩

/-- The documentation of the C function `m68000_*_cycle` says otherwise: that the extra cycles of a call "will be subtracted in the next call". They are not: of
two calls with 2 cycles each, each executes a `NOP` of 4 cycles. -/
theorem C60_carry_refuted : ∃ (s s1 s2 : St (FfiMemory Unit)), Returns (cycle mc68000 2 s) 4 s1 ∧ Returns (cycle mc68000 2 s1) 4 s2 ∧
    s1.cpu.regs.pc = 2 ∧ s2.cpu.regs.pc = 4 :=
  ⟨⟨Cpu.newNoReset, nops⟩, _, _, ⟨2, rfl⟩, ⟨2, rfl⟩, rfl, rfl⟩

/-- Slices of 3, 3, 2 and 1 cycles: a `NOP` of 4 cycles in each of the first two, nothing in the third because of the debt of 2, and another `NOP`. -/
example : ∃ s', Sliced mc68000 [3, 3, 2, 1] 0 (⟨Cpu.newNoReset, nops⟩ : St (FfiMemory Unit)) 3 s' ∧ s'.cpu.regs.pc = 6 :=
  ⟨_, .cons ⟨1, rfl⟩ rfl (.cons ⟨1, rfl⟩ rfl (.cons ⟨0, rfl⟩ rfl (.cons ⟨1, rfl⟩ rfl (.nil _ _)))), rfl⟩

end M68k.Props
