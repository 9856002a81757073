import Verif.Lemmas.Pending
import Verif.Lemmas.Alike
import Verif.Spec.Invariant
/-
The interrupt mask stays a number of three bits.
-/
set_option linter.unusedSectionVars false
namespace M68k
namespace Exec
open Spec
variable {M : Type} [MemoryAccess M] {α β : Type} {C : CpuDetails} {s s' : St M}

/-- The interrupt mask has three bits. -/
abbrev Mask3 (s : St M) : Prop := s.cpu.regs.sr.interruptMask.toNat < 8

/-- The interrupt mask has three bits after an action. -/
def MaskRes : Res M α → Prop
  | .ok _ s' => Mask3 s'
  | .err _ s' => Mask3 s'
  | .panic => True

/-- The action keeps the interrupt mask a number of three bits. -/
def Masked (x : Exec M α) : Prop := ∀ s, Mask3 s → MaskRes (x s)

namespace Masked
theorem bind {x : Exec M α} {f : α → Exec M β} (hx : Masked x) (hf : ∀ a, Masked (f a)) : Masked (x >>= f) := by
  intro s hs
  have h1 := hx s hs
  rw [Exec.bind_apply]
  cases hxs : x s with
  | ok a s' => rw [hxs] at h1; exact hf a s' h1
  | err v s' => rw [hxs] at h1; exact h1
  | panic => trivial

theorem access (f : M → MRes M α) : Masked (Spec.access f) := by
  intro s h
  unfold Spec.access
  cases f s.mem <;> first | exact h | trivial

theorem flags {f : StatusRegister → StatusRegister} (hf : ∀ sr : StatusRegister, sr.interruptMask.toNat < 8 → (f sr).interruptMask.toNat < 8) : Masked (M := M) (setFlags f) :=
  fun s h => hf _ h

theorem prims : Prims (M := M) Masked where
  pure _ s h := h
  bind _ _ := bind
  crash _ _ := trivial
  trap _ _ s h := h
  getR _ s h := h
  fetch := by
    intro s hs
    unfold Spec.fetch
    by_cases h : Spec.Odd s.cpu.regs.pc
    · rw [if_pos h]; trivial
    · rw [if_neg h]
      cases MemoryAccess.getWord s.cpu.regs.pc s.mem <;> first | exact hs | trivial
  load sz a := by
    unfold Spec.load
    split
    · intro s h; exact h
    · exact access _
  store sz a v := by
    unfold Spec.store
    split
    · intro s h; exact h
    · exact access _
  movemLoad sz a _ _ := by
    intro s hs
    unfold Spec.movemLoad
    rw [Exec.map_apply]
    have := access (memGet sz a) s hs
    cases h : Spec.access (memGet sz a) s <;> rw [h] at this <;> exact this
  movemStore sz a v _ _ := access _
  dreg _ _ _ h := h
  areg n f s h := by
    show Mask3 _
    unfold Mask3
    simp only [setAreg_sr]
    exact h
  flags f hf := flags fun sr h => by rw [(hf sr h).2.2]; exact h
  jump _ _ h := h

theorem srOf (w : U16) : (Spec.srOf w).interruptMask.toNat < 8 := by
  simp only [Spec.srOf, BitVec.toNat_ofNat]
  omega

theorem privileged : Masked (M := M) Spec.privileged := by
  refine prims.bind _ _ (prims.getR _) fun s => ?_
  split
  · exact prims.pure _
  · exact prims.trap _ (by decide)

theorem rte (f : StackFormat) : Masked (M := M) (Spec.rte f) := by
  refine bind privileged fun _ => bind (prims.pop .Word) fun w => bind (prims.pop .Long) fun pc =>
    bind (prims.jump _) fun _ => bind ?_ fun _ => bind (flags fun _ _ => srOf _) fun _ => prims.pure _
  split
  · refine bind (prims.pop .Word) fun f => ?_
    split
    · exact bind (prims.updateA _ _) fun _ => prims.pure _
    · split
      · exact prims.pure _
      · exact prims.trap _ (by decide)
  · exact prims.pure _

theorem and_lt {a b : BitVec 8} (ha : a.toNat < 8) : (a &&& b).toNat < 8 := by
  rw [BitVec.toNat_and]
  exact Nat.lt_of_le_of_lt Nat.and_le_left ha
theorem or_lt {a b : BitVec 8} (ha : a.toNat < 8) (hb : b.toNat < 8) : (a ||| b).toNat < 8 := by
  rw [BitVec.toNat_or]
  exact Nat.or_lt_two_pow (n := 3) ha hb
theorem xor_lt {a b : BitVec 8} (ha : a.toNat < 8) (hb : b.toNat < 8) : (a ^^^ b).toNat < 8 := by
  rw [BitVec.toNat_xor]
  exact Nat.xor_lt_two_pow (n := 3) ha hb

theorem exec (i : Isa) (op : U16) : Masked (M := M) (Spec.exec C i op) := by
  have hP := prims (M := M)
  by_cases hi : isSystem i = false
  · exact hP.exec C i op hi
  · cases i <;> try exact absurd rfl hi
    all_goals simp only [Spec.exec]
    · exact bind hP.fetch fun w => bind privileged fun _ => hP.cost _ (flags fun sr h => and_lt h)
    · exact bind hP.fetch fun w => hP.cost _ (flags fun sr h => xor_lt h (srOf _))
    · exact bind hP.fetch fun w => bind privileged fun _ => hP.cost _ (flags fun sr h => xor_lt h (srOf _))
    · exact bind (hP.fetchEa _ _) fun _ => bind privileged fun _ => bind (hP.read _ _) fun _ => hP.cost _ (flags fun _ _ => srOf _)
    · refine hP.cost _ (bind privileged fun _ => ?_)
      split
      · exact hP.areg _ fun r => r.usp
      · exact fun s h => h
    · exact bind hP.fetch fun w => hP.cost _ (flags fun sr h => or_lt h (srOf _))
    · exact bind hP.fetch fun w => bind privileged fun _ => hP.cost _ (flags fun sr h => or_lt h (srOf _))
    · exact hP.cost _ (bind privileged fun _ => fun s h => h)
    · exact hP.map _ (rte _)
    · exact bind hP.fetch fun _ => hP.cost _ (bind privileged fun _ => bind (flags fun _ _ => srOf _) fun _ => fun s h => h)

theorem getNextWord : Masked (M := M) Exec.getNextWord := by
  intro s hs
  by_cases h : Spec.Odd s.cpu.regs.pc
  · rw [getNextWord_odd h]; exact hs
  · rw [getNextWord_even h]
    cases MemoryAccess.getWord s.cpu.regs.pc s.mem <;> first | exact hs | trivial

theorem fastInstruction (k : Nat) : Masked (M := M) (Exec.fastInstruction C k) := by
  intro s hs
  rw [fastInstruction_eq]
  have h1 := getNextWord s hs
  cases h : Exec.getNextWord s with
  | ok op s1 =>
    rw [h] at h1
    have h2 := exec (C := C) (decoder op) op { s1 with cpu := { s1.cpu with currentOpcode := op } } h1
    simp only [finishStep]
    generalize Spec.exec C (decoder op) op { s1 with cpu := { s1.cpu with currentOpcode := op } } = r at *
    cases r <;> exact h2
  | err v s1 => rw [h] at h1; exact h1
  | panic => trivial

theorem mem (f : M → MRes M α) : Masked (Exec.mem f) := by
  intro s h
  unfold Exec.mem
  cases f s.mem <;> first | exact h | trivial
theorem memExpect (f : M → MRes M α) : Masked (Exec.memExpect f) := by
  intro s h
  unfold Exec.memExpect
  cases f s.mem <;> first | exact h | trivial
theorem ite {c : Prop} [Decidable c] {x y : Exec M α} (hx : Masked x) (hy : Masked y) : Masked (if c then x else y) := by
  split
  · exact hx
  · exact hy
theorem pushWord (v : U16) : Masked (M := M) (Exec.pushWord v) := by rw [pushWord_eq]; exact prims.push .Word v
theorem pushLong (v : U32) : Masked (M := M) (Exec.pushLong v) := by rw [pushLong_eq]; exact prims.push .Long v
theorem getPc : Masked (M := M) Exec.getPc := fun _ h => h
theorem getOpcode : Masked (M := M) Exec.getCurrentOpcode := fun _ h => h
theorem setPc (v : U32) : Masked (M := M) (Exec.setPc v) := fun _ h => h
theorem modifySr {f : StatusRegister → StatusRegister} (hf : ∀ sr : StatusRegister, sr.interruptMask.toNat < 8 → (f sr).interruptMask.toNat < 8) : Masked (M := M) (Exec.modifySr f) :=
  fun s h => hf _ h
theorem nothing (a : α) : Masked (M := M) (pure a) := fun _ h => h

theorem reset : Masked (M := M) (Exec.reset C) :=
  bind (memExpect _) fun _ => bind (fun _ h => h) fun _ => bind (memExpect _) fun _ => bind (fun _ h => h) fun _ =>
    bind (modifySr fun _ _ => show (7 : U8).toNat < 8 by decide) fun _ => bind (fun _ h => h) fun _ => nothing _

theorem frame68000 (v : U8) (w : U16) : Masked (M := M) (pushFrameMC68000 v w) :=
  bind getPc fun _ => bind (pushLong _) fun _ => bind (pushWord _) fun _ =>
    ite (bind getOpcode fun _ => bind (pushWord _) fun _ => bind (pushLong _) fun _ => pushWord _) (nothing _)

theorem frame68070 (v : U8) (w : U16) : Masked (M := M) (pushFrameSCC68070 v w) :=
  bind (ite (bind (pushWord _) fun _ => bind getOpcode fun _ => bind (pushWord _) fun _ => bind getOpcode fun _ => bind (pushWord _) fun _ =>
      bind (pushLong _) fun _ => bind (pushLong _) fun _ => bind (pushLong _) fun _ => bind (pushWord _) fun _ => bind (pushWord _) fun _ =>
      bind (pushWord _) fun _ => bind (pushWord _) fun _ => pushWord _) (pushWord _)) fun _ =>
    bind getPc fun _ => bind (pushLong _) fun _ => pushWord _

theorem processException (v : U8) : Masked (M := M) (Exec.processException C v) := by
  refine bind (fun _ h => h) fun _ => bind (modifySr fun _ h => h) fun _ => bind (ite (modifySr fun _ _ => ?_) (nothing _)) fun _ => bind ?_ fun _ =>
    bind (mem _) fun _ => bind (setPc _) fun _ => nothing _
  · show (v &&& 7).toNat < 8
    rw [BitVec.and_comm]
    exact and_lt (by decide)
  · cases C.STACK_FORMAT
    · exact frame68000 _ _
    · exact frame68070 _ _

theorem exception {s : St M} (h : Mask3 s) (e : Exception) : Mask3 { s with cpu := s.cpu.exception e } := by
  unfold Mask3 Cpu.exception
  dsimp only
  split <;> exact h

theorem processList (es : List Exception) (k : Nat) : Masked (M := M) (Exec.processList C es k) := by
  induction es generalizing k with
  | nil => exact nothing _
  | cons ex es ih =>
    intro s hs
    simp only [Exec.processList]
    by_cases h0 : ex.vector = 0
    · rw [if_pos h0]
      exact reset { s with cpu := { s.cpu with exceptions := [] } } hs
    · rw [if_neg h0]
      have h1 := processException (C := C) ex.vector s hs
      cases hx : Exec.processException C ex.vector s with
      | ok c s' => rw [hx] at h1; exact ih _ s' h1
      | err e s' =>
        rw [hx] at h1
        simp only
        split
        · split
          · trivial
          · split <;> exact ih _ _ (exception h1 _)
        · exact ih _ _ (exception h1 _)
      | panic => trivial

theorem pendingCycles : Masked (M := M) (Exec.pendingCycles C) := by
  intro s h
  unfold Exec.pendingCycles processPendingExceptions
  split
  · exact h
  · dsimp only
    exact processList _ _ _ h

theorem interpreterException : Masked (M := M) (Exec.interpreterException C) := by
  intro s h
  unfold Exec.interpreterException
  split
  · exact h
  · exact bind pendingCycles (fun k => fastInstruction k) s h

theorem interpreter : Masked (M := M) (Exec.interpreter C) := by
  refine bind interpreterException fun a => bind ?_ fun _ => nothing _
  cases a.2 with
  | none => exact nothing _
  | some e => exact fun s h => exception h _
end Masked

theorem used_mask {s : St M} (h : Used C s) : Mask3 s := by
  induction h with
  | new m => show Mask3 (M := M) _; unfold Mask3; dsimp only; decide
  | newNoReset m => show Mask3 (M := M) _; unfold Mask3; dsimp only; decide
  | request v _ ih => exact Masked.exception ih _
  | call _ h ih => have := Masked.interpreterException (C := C) _ ih; rw [h] at this; exact this
  | run _ h ih => have := Masked.interpreter (C := C) _ ih; rw [h] at this; exact this
  | host r stop m _ h _ => exact Nat.lt_succ_of_le h

theorem used_history {s : St M} (h : Used C s) : History C s := by
  induction h with
  | new m => exact .new m
  | newNoReset m => exact .newNoReset m
  | request v _ ih => exact .act ih (.request _ v)
  | call _ h ih => exact .act ih (.call h)
  | run _ h ih => exact .act ih (.run h)
  | host r stop m _ h ih => exact .act ih (.host _ r stop m)

end Exec
end M68k
