import Verif.Lemmas.Traverse
/-
Facts about one call of `interpreter_exception`, whatever the opcode; the system instructions.
-/
set_option linter.unusedSectionVars false
namespace M68k
namespace Exec
open Spec
variable {M : Type} [MemoryAccess M]

/-- The outcomes of one call without pending exception. -/
theorem step_idle (C : CpuDetails) {s : St M} (hr : s.cpu.stop = false) (hi : s.cpu.exceptions = []) :
    (Spec.Odd s.cpu.regs.pc ∧ interpreterException C s = .ok (0, some 3) s) ∨
    (¬ Spec.Odd s.cpu.regs.pc ∧ ∃ m, MemoryAccess.getWord s.cpu.regs.pc s.mem = .none m ∧
      interpreterException C s = .ok (0, some 2) { mem := m, cpu := { s.cpu with regs := { s.cpu.regs with pc := s.cpu.regs.pc + 2 } } }) ∨
    (¬ Spec.Odd s.cpu.regs.pc ∧ MemoryAccess.getWord s.cpu.regs.pc s.mem = .panic ∧ interpreterException C s = .panic) ∨
    ∃ op s1, Ready s op s1 := by
  by_cases ho : Spec.Odd s.cpu.regs.pc
  · refine .inl ⟨ho, ?_⟩
    have he : isEven s.cpu.regs.pc = false := by
      cases h : isEven s.cpu.regs.pc
      · rfl
      · exact absurd ho ((isEven_iff _).1 h)
    have hev : (even s.cpu.regs.pc : Exec M U32) s = .err 3 s := by unfold even; rw [if_neg (by simp [he])]; rfl
    have hg : (getNextWord : Exec M U16) s = .err 3 s := by
      unfold getNextWord
      rw [Exec.bind_apply]
      simp only [getPc]
      erw [Exec.bind_apply]
      rw [hev]
    unfold interpreterException
    rw [if_neg (by simp [hr])]
    simp only [Exec.bind_apply, pendingCycles, hi, List.isEmpty_nil, if_true, fastInstruction, hg]
  · have he : isEven s.cpu.regs.pc = true := (isEven_iff _).2 ho
    have hev : (even s.cpu.regs.pc : Exec M U32) s = .ok s.cpu.regs.pc s := by unfold even; rw [if_pos he]; rfl
    have hg : (getNextWord : Exec M U16) s = match MemoryAccess.getWord s.cpu.regs.pc s.mem with
        | .val w m => .ok w { mem := m, cpu := { s.cpu with regs := { s.cpu.regs with pc := s.cpu.regs.pc + 2 } } }
        | .none m => .err ACCESS_ERROR { mem := m, cpu := { s.cpu with regs := { s.cpu.regs with pc := s.cpu.regs.pc + 2 } } }
        | .panic => .panic := by
      unfold getNextWord
      rw [Exec.bind_apply]
      simp only [getPc]
      erw [Exec.bind_apply]
      rw [hev]
      rfl
    cases hm : MemoryAccess.getWord s.cpu.regs.pc s.mem with
    | val w m => exact .inr (.inr (.inr ⟨w, _, hr, hi, ho, m, hm, rfl⟩))
    | none m =>
      refine .inr (.inl ⟨ho, m, rfl, ?_⟩)
      rw [hm] at hg
      unfold interpreterException
      rw [if_neg (by simp [hr])]
      simp only [Exec.bind_apply, pendingCycles, hi, List.isEmpty_nil, if_true, fastInstruction, hg]
      rfl
    | panic =>
      refine .inr (.inr (.inl ⟨ho, rfl, ?_⟩))
      rw [hm] at hg
      unfold interpreterException
      rw [if_neg (by simp [hr])]
      simp only [Exec.bind_apply, pendingCycles, hi, List.isEmpty_nil, if_true, fastInstruction, hg]

/-- As `Prims`, with the actions of the system instructions. -/
structure SysPrims (P : ∀ {α : Type}, Exec M α → Prop) : Prop extends Prims P where
  anyFlags : ∀ f, P (setFlags f : Exec M Unit)
  halt : P (halt : Exec M Unit)
  signalReset : P (signalReset : Exec M Unit)
  usp : ∀ n : Fin 8, P (modR fun r => { r with usp := Spec.areg r n } : Exec M Unit)

namespace SysPrims
variable {P : ∀ {α : Type}, Exec M α → Prop} (hP : SysPrims P)
include hP

theorem privileged : P (privileged : Exec M Unit) := by
  refine hP.bind _ _ (hP.getR _) fun s => ?_
  split
  · exact hP.pure _
  · exact hP.trap _ (by decide)

theorem rte (f : StackFormat) : P (rte f : Exec M Bool) := by
  refine hP.bind _ _ hP.privileged fun _ => hP.bind _ _ (hP.toPrims.pop .Word) fun w => hP.bind _ _ (hP.toPrims.pop .Long) fun pc =>
    hP.bind _ _ (hP.jump _) fun _ => hP.bind _ _ ?_ fun _ => hP.bind _ _ (hP.anyFlags _) fun _ => hP.pure _
  split
  · refine hP.bind _ _ (hP.toPrims.pop .Word) fun f => ?_
    split
    · exact hP.bind _ _ (hP.toPrims.updateA _ _) fun _ => hP.pure _
    · split
      · exact hP.pure _
      · exact hP.trap _ (by decide)
  · exact hP.pure _

theorem moveUsp (b : Bool) (n : Fin 8) : P (moveUsp b n : Exec M Unit) := by
  refine hP.bind _ _ hP.privileged fun _ => ?_
  split
  · exact hP.areg n fun r => r.usp
  · exact hP.usp n

theorem exec (C : CpuDetails) (i : Isa) (op : U16) : P (Spec.exec C i op : Exec M Nat) := by
  by_cases hi : isSystem i = false
  · exact hP.toPrims.exec C i op hi
  · cases i <;> try exact absurd rfl hi
    all_goals simp only [Spec.exec]
    · exact hP.bind _ _ hP.fetch fun _ => hP.bind _ _ hP.privileged fun _ => hP.toPrims.cost _ (hP.anyFlags _)
    · exact hP.bind _ _ hP.fetch fun _ => hP.toPrims.cost _ (hP.anyFlags _)
    · exact hP.bind _ _ hP.fetch fun _ => hP.bind _ _ hP.privileged fun _ => hP.toPrims.cost _ (hP.anyFlags _)
    · refine hP.bind _ _ (hP.toPrims.fetchEa _ _) fun _ => hP.bind _ _ hP.privileged fun _ => hP.bind _ _ (hP.toPrims.read _ _) fun _ => ?_
      exact hP.toPrims.cost _ (hP.anyFlags _)
    · exact hP.toPrims.cost _ (hP.moveUsp _ _)
    · exact hP.bind _ _ hP.fetch fun _ => hP.toPrims.cost _ (hP.anyFlags _)
    · exact hP.bind _ _ hP.fetch fun _ => hP.bind _ _ hP.privileged fun _ => hP.toPrims.cost _ (hP.anyFlags _)
    · exact hP.toPrims.cost _ (hP.bind _ _ hP.privileged fun _ => hP.signalReset)
    · exact hP.toPrims.map _ (hP.rte _)
    · exact hP.bind _ _ hP.fetch fun _ => hP.toPrims.cost _ (hP.bind _ _ hP.privileged fun _ => hP.bind _ _ (hP.anyFlags _) fun _ => hP.halt)

end SysPrims

/-! ### User mode -/

/-- The parts of the state that user programs must not change. -/
structure SameSupervisor (s s' : St M) : Prop where
  sys : SameSystem s.cpu.regs.sr s'.cpu.regs.sr
  ssp : s'.cpu.regs.ssp = s.cpu.regs.ssp
  stop : s'.cpu.stop = s.cpu.stop
  exceptions : s'.cpu.exceptions = s.cpu.exceptions

theorem SameSupervisor.refl (s : St M) : SameSupervisor s s := ⟨⟨rfl, rfl, rfl⟩, rfl, rfl, rfl⟩
theorem SameSupervisor.trans {s s' s'' : St M} (h : SameSupervisor s s') (h' : SameSupervisor s' s'') : SameSupervisor s s'' :=
  ⟨⟨h'.sys.1.trans h.sys.1, h'.sys.2.1.trans h.sys.2.1, h'.sys.2.2.trans h.sys.2.2⟩, h'.ssp.trans h.ssp, h'.stop.trans h.stop, h'.exceptions.trans h.exceptions⟩

/-- From user mode with a 3-bit mask the action keeps the supervisor state. -/
def UserSafe {α : Type} (x : Exec M α) : Prop := ∀ s, s.cpu.regs.sr.s = false → s.cpu.regs.sr.interruptMask.toNat < 8 →
  match x s with
  | .ok _ s' => SameSupervisor s s'
  | .err _ s' => SameSupervisor s s'
  | .panic => True

theorem UserSafe.bind {α β : Type} {x : Exec M α} {f : α → Exec M β} (hx : UserSafe x) (hf : ∀ a, UserSafe (f a)) : UserSafe (x >>= f) := by
  intro s hs hm
  have h1 := hx s hs hm
  rw [Exec.bind_apply]
  cases hxs : x s with
  | ok a s' =>
    rw [hxs] at h1
    have h2 := hf a s' (by rw [h1.sys.2.1]; exact hs) (by rw [h1.sys.2.2]; exact hm)
    simp only
    cases hs2 : f a s' with
    | ok b s'' => rw [hs2] at h2; exact h1.trans h2
    | err v s'' => rw [hs2] at h2; exact h1.trans h2
    | panic => trivial
  | err v s' => rw [hxs] at h1; exact h1
  | panic => trivial

theorem UserSafe.access {α : Type} (f : M → MRes M α) : UserSafe (access f) := by
  intro s _ _
  unfold Spec.access
  cases f s.mem <;> first | exact ⟨⟨rfl, rfl, rfl⟩, rfl, rfl, rfl⟩ | trivial

theorem userSafe_prims : Prims (M := M) UserSafe where
  pure _ s _ _ := .refl s
  bind _ _ := UserSafe.bind
  crash _ _ _ := trivial
  trap _ _ s _ _ := .refl s
  getR _ s _ _ := .refl s
  fetch := by
    intro s _ _
    unfold Spec.fetch
    by_cases h : Spec.Odd s.cpu.regs.pc
    · rw [if_pos h]; trivial
    · rw [if_neg h]
      cases MemoryAccess.getWord s.cpu.regs.pc s.mem <;> first | exact ⟨⟨rfl, rfl, rfl⟩, rfl, rfl, rfl⟩ | trivial
  load sz a := by
    unfold Spec.load
    split
    · intro s _ _; exact .refl s
    · exact .access _
  store sz a v := by
    unfold Spec.store
    split
    · intro s _ _; exact .refl s
    · exact .access _
  movemLoad sz a _ _ := by
    intro s hs hm
    unfold Spec.movemLoad
    rw [Exec.map_apply]
    have := UserSafe.access (memGet sz a) s hs hm
    cases h : Spec.access (memGet sz a) s <;> rw [h] at this <;> exact this
  movemStore sz a v _ _ := .access _
  dreg _ _ _ _ _ := ⟨⟨rfl, rfl, rfl⟩, rfl, rfl, rfl⟩
  areg n f s hs _ := by
    refine ⟨?_, ?_, rfl, rfl⟩
    · simp only [setAreg_sr]; exact ⟨rfl, rfl, rfl⟩
    · simp only [setAreg]
      split
      · rfl
      · rw [if_neg (by simp [hs])]
  flags f hf s _ hm := ⟨hf _ hm, rfl, rfl, rfl⟩
  jump _ _ _ _ := ⟨⟨rfl, rfl, rfl⟩, rfl, rfl, rfl⟩

theorem userSafe_privileged {α : Type} (f : Unit → Exec M α) : UserSafe (privileged >>= f) := by
  intro s hs _
  have : (privileged >>= f) s = .err 8 s := by
    unfold Spec.privileged
    rw [Exec.bind_apply, getR_bind_apply, hs]
    rfl
  rw [this]
  exact .refl s

/-- ORI and EORI to CCR. -/
def setsSystemBits (i : Isa) : Bool := i == .Oriccr || i == .Eoriccr

theorem userSafe_exec (C : CpuDetails) (i : Isa) (op : U16) (hi : setsSystemBits i = false) : UserSafe (Spec.exec C i op : Exec M Nat) := by
  have hP := userSafe_prims (M := M)
  by_cases hs : isSystem i = false
  · exact hP.exec C i op hs
  · cases i <;> try exact absurd rfl hs
    all_goals first | (exact absurd hi (by decide)) | simp only [Spec.exec]
    · exact hP.bind _ _ hP.fetch fun _ => userSafe_privileged _
    · exact hP.bind _ _ hP.fetch fun _ => userSafe_privileged _
    · exact hP.bind _ _ (hP.fetchEa _ _) fun _ => userSafe_privileged _
    · exact hP.cost _ (userSafe_privileged _)
    · exact hP.bind _ _ hP.fetch fun _ => userSafe_privileged _
    · exact hP.cost _ (userSafe_privileged _)
    · exact hP.map _ (userSafe_privileged _)
    · exact hP.bind _ _ hP.fetch fun _ => hP.cost _ (userSafe_privileged _)

theorem srOf_low {w : U16} (hw : w.toNat < 256) : (srOf w).t = false ∧ (srOf w).s = false ∧ (srOf w).interruptMask = 0 := by
  refine ⟨?_, ?_, ?_⟩
  · simp only [srOf, decide_eq_false_iff_not]; omega
  · simp only [srOf, decide_eq_false_iff_not]; omega
  · simp only [srOf]
    rw [show w.toNat / 256 % 8 = 0 by omega]
    rfl

/-- One call from user mode without pending exception, if the immediate word of an ORI or EORI to CCR
has only condition code bits. -/
theorem userSafe_step {C : CpuDetails} {s s' : St M} {x : Nat × Option U8} (hu : s.cpu.regs.sr.s = false)
    (hm : s.cpu.regs.sr.interruptMask.toNat < 8) (hi : s.cpu.exceptions = [])
    (hop : ∀ op s1 w s2, Ready s op s1 → instr op = .Oriccr ∨ instr op = .Eoriccr → fetch s1 = .ok w s2 → w.toNat < 256)
    (hx : interpreterException C s = .ok x s') : SameSupervisor s s' := by
  by_cases hr : s.cpu.stop = true
  · unfold interpreterException at hx
    rw [if_pos hr] at hx
    cases hx
    exact .refl s
  rcases step_idle C (by simpa using hr) hi with ⟨-, h⟩ | ⟨-, m, -, h⟩ | ⟨-, -, h⟩ | ⟨op, s1, h⟩
  · rw [hx] at h; cases h; exact .refl s
  · rw [hx] at h; cases h; exact ⟨⟨rfl, rfl, rfl⟩, rfl, rfl, rfl⟩
  · rw [hx] at h; cases h
  · have hf := step_finish C h
    have h01 : SameSupervisor s s1 := by
      obtain ⟨-, -, -, m, -, h5⟩ := h
      rw [h5]; exact ⟨⟨rfl, rfl, rfl⟩, rfl, rfl, rfl⟩
    refine h01.trans ?_
    have key : match Spec.exec C (decoder op) op s1 with
        | .ok _ s' => SameSupervisor s1 s'
        | .err _ s' => SameSupervisor s1 s'
        | .panic => True := by
      by_cases hs : setsSystemBits (decoder op) = false
      · have := userSafe_exec C _ op hs s1 (by rw [h01.sys.2.1]; exact hu) (by rw [h01.sys.2.2]; exact hm)
        generalize Spec.exec C (decoder op) op s1 = r at *
        cases r <;> exact this
      · have hs' : decoder op = .Oriccr ∨ decoder op = .Eoriccr := by
          unfold setsSystemBits at hs
          simp only [Bool.not_eq_false, Bool.or_eq_true, beq_iff_eq] at hs
          exact hs
        have hi' : instr op = .Oriccr ∨ instr op = .Eoriccr := by
          have := decoder_of_check mapCheck mapCheck_all op
          unfold mapCheck at this
          split at this
          · simp only [Bool.and_eq_true, beq_iff_eq] at this
            rw [this.1] at hs'
            rcases hs' with h | h <;> cases h
          · rw [beq_iff_eq.mp this] at hs'
            exact hs'
        have hw := fun w s2 => hop op s1 w s2 h hi'
        have hfetch := userSafe_prims.fetch s1 (by rw [h01.sys.2.1]; exact hu) (by rw [h01.sys.2.2]; exact hm)
        rcases hs' with e | e
        · rw [e]
          simp only [Spec.exec]
          rw [Exec.bind_apply]
          cases hft : (Spec.fetch : Exec M U16) s1 with
          | ok w s2 =>
            have hl := srOf_low (hw w s2 hft)
            rw [hft] at hfetch
            refine SameSupervisor.trans hfetch ?_
            refine ⟨⟨?_, ?_, ?_⟩, rfl, rfl, rfl⟩
            · simp [srOp, hl.1]
            · simp [srOp, hl.2.1]
            · simp [srOp, hl.2.2]
          | err v s2 => rw [hft] at hfetch; exact hfetch
          | panic => trivial
        · rw [e]
          simp only [Spec.exec]
          rw [Exec.bind_apply]
          cases hft : (Spec.fetch : Exec M U16) s1 with
          | ok w s2 =>
            have hl := srOf_low (hw w s2 hft)
            rw [hft] at hfetch
            refine SameSupervisor.trans hfetch ?_
            refine ⟨⟨?_, ?_, ?_⟩, rfl, rfl, rfl⟩
            · simp [srOp, hl.1]
            · simp [srOp, hl.2.1]
            · simp [srOp, hl.2.2]
          | err v s2 => rw [hft] at hfetch; exact hfetch
          | panic => trivial
    rw [hx] at hf
    simp only [finishStep] at hf
    generalize Spec.exec C (decoder op) op s1 = r at *
    cases r with
    | ok c s2 => simp only [Res.ok.injEq] at hf; rw [hf.2]; exact key
    | err v s2 => simp only [Res.ok.injEq] at hf; rw [hf.2]; exact key
    | panic => cases hf

end Exec
end M68k
