import Verif.Props.C40
import Verif.Lemmas.AnyStep
import Verif.Props.DemoRam
/-
C52: the two stack pointers.

A7 is the supervisor stack pointer in supervisor mode and the user stack pointer in user mode. MOVE USP copies the
user stack pointer, and it is the only instruction that changes it in supervisor mode. That user mode leaves the
supervisor stack pointer is part of C25.
-/
namespace M68k.Props
open Spec Exec
variable {M : Type} [MemoryAccess M] {C : CpuDetails} {s s' s1 s2 : St M} {op : U16}
set_option linter.unusedSectionVars false

/-- `MOVE USP,An`: the address register is the user stack pointer, nothing else changes. -/
theorem C52_usp_to_register (h : Ready s op s1) (hi : instr op = .Moveusp) (hs : s.cpu.regs.sr.s = true) (hd : op.toNat / 8 % 2 = 1) :
    CompletesPrivileged C s (s1.withRegs fun r => setAreg r ⟨op.toNat % 8, by omega⟩ s.cpu.regs.usp) := by
  have hx := step_endsPrivileged C h hi (by decide) rfl
  simp only [Spec.exec] at hx
  rw [endsPrivileged_cost, Spec.moveUsp, endsPrivileged_bind_ok (privileged_ok (by rw [h.sr]; exact hs))] at hx
  rw [if_pos (by unfold flag; simp [hd])] at hx
  have hu : s1.cpu.regs.usp = s.cpu.regs.usp := by obtain ⟨-, -, -, m, -, h5⟩ := h; rw [h5]
  have : (modR (fun r => setAreg r (regField op 0) r.usp) : Exec M Unit) s1 =
      .ok () (s1.withRegs fun r => setAreg r ⟨op.toNat % 8, by omega⟩ s.cpu.regs.usp) := by
    rw [modR_apply]
    unfold St.withRegs
    simp only [hu]
    congr 6
    unfold regField
    simp [Fin.ofNat]
  rw [this] at hx
  exact hx

/-- `MOVE An,USP`: the user stack pointer is the address register, nothing else changes. -/
theorem C52_register_to_usp (h : Ready s op s1) (hi : instr op = .Moveusp) (hs : s.cpu.regs.sr.s = true) (hd : op.toNat / 8 % 2 = 0) :
    CompletesPrivileged C s (s1.withRegs fun r => { r with usp := areg s.cpu.regs ⟨op.toNat % 8, by omega⟩ }) := by
  have hx := step_endsPrivileged C h hi (by decide) rfl
  simp only [Spec.exec] at hx
  rw [endsPrivileged_cost, Spec.moveUsp, endsPrivileged_bind_ok (privileged_ok (by rw [h.sr]; exact hs))] at hx
  rw [if_neg (by unfold flag; simp [hd])] at hx
  have hu : areg s1.cpu.regs (regField op 0) = areg s.cpu.regs ⟨op.toNat % 8, by omega⟩ := by
    obtain ⟨-, -, -, m, -, h5⟩ := h
    rw [h5]
    unfold regField
    simp [areg]
  have : (modR (fun r => { r with usp := areg r (regField op 0) }) : Exec M Unit) s1 =
      .ok () (s1.withRegs fun r => { r with usp := areg s.cpu.regs ⟨op.toNat % 8, by omega⟩ }) := by
    rw [modR_apply]
    unfold St.withRegs
    simp only [hu]
  rw [this] at hx
  exact hx

/-- `MOVE USP,A2` and `MOVE A3,USP`. -/
example : (∃ s1, Ready (Demo.st [0x4E6A] { Demo.regs [] [] with sr := srOf 0x2000 }) 0x4E6A s1) ∧ instr 0x4E6A = .Moveusp ∧
    (∃ s1, Ready (Demo.st [0x4E63] { Demo.regs [] [] with sr := srOf 0x2000 }) 0x4E63 s1) ∧ instr 0x4E63 = .Moveusp ∧
    (0x4E6A : U16).toNat / 8 % 2 = 1 ∧ (0x4E63 : U16).toNat / 8 % 2 = 0 ∧ (srOf 0x2000).s = true :=
  ⟨⟨_, rfl, rfl, by decide, _, rfl, rfl⟩, rfl, ⟨_, rfl, rfl, by decide, _, rfl, rfl⟩, rfl, by decide, by decide, by decide⟩

/-! ### Supervisor mode does not change the user stack pointer by itself -/

/-- From supervisor mode with a 3-bit mask the action stays in supervisor mode and keeps the user stack pointer. -/
def KeepsUsp {α : Type} (x : Exec M α) : Prop := ∀ s, s.cpu.regs.sr.s = true → s.cpu.regs.sr.interruptMask.toNat < 8 →
  match x s with
  | .ok _ s' => s'.cpu.regs.usp = s.cpu.regs.usp ∧ SameSystem s.cpu.regs.sr s'.cpu.regs.sr
  | .err _ s' => s'.cpu.regs.usp = s.cpu.regs.usp
  | .panic => True

/-- The same for a last action, that may change the mode. -/
def EndsUsp {α : Type} (x : Exec M α) : Prop := ∀ s, s.cpu.regs.sr.s = true → s.cpu.regs.sr.interruptMask.toNat < 8 →
  match x s with
  | .ok _ s' => s'.cpu.regs.usp = s.cpu.regs.usp
  | .err _ s' => s'.cpu.regs.usp = s.cpu.regs.usp
  | .panic => True

theorem KeepsUsp.ends {α : Type} {x : Exec M α} (h : KeepsUsp x) : EndsUsp x := by
  intro s hs hm
  have := h s hs hm
  cases hx : x s <;> rw [hx] at this <;> first | exact this.1 | exact this

theorem KeepsUsp.bind {α β : Type} {x : Exec M α} {f : α → Exec M β} (hx : KeepsUsp x) (hf : ∀ a, KeepsUsp (f a)) : KeepsUsp (x >>= f) := by
  intro s hs hm
  have h1 := hx s hs hm
  rw [Exec.bind_apply]
  cases hxs : x s with
  | ok a s' =>
    rw [hxs] at h1
    have h2 := hf a s' (by rw [h1.2.2.1]; exact hs) (by rw [h1.2.2.2]; exact hm)
    simp only
    cases hs2 : f a s' with
    | ok b s'' =>
      rw [hs2] at h2
      exact ⟨h2.1.trans h1.1, h2.2.1.trans h1.2.1, h2.2.2.1.trans h1.2.2.1, h2.2.2.2.trans h1.2.2.2⟩
    | err v s'' => rw [hs2] at h2; exact h2.trans h1.1
    | panic => trivial
  | err v s' => rw [hxs] at h1; exact h1
  | panic => trivial

theorem KeepsUsp.then {α β : Type} {x : Exec M α} {f : α → Exec M β} (hx : KeepsUsp x) (hf : ∀ a, EndsUsp (f a)) : EndsUsp (x >>= f) := by
  intro s hs hm
  have h1 := hx s hs hm
  rw [Exec.bind_apply]
  cases hxs : x s with
  | ok a s' =>
    rw [hxs] at h1
    have h2 := hf a s' (by rw [h1.2.2.1]; exact hs) (by rw [h1.2.2.2]; exact hm)
    simp only
    cases hs2 : f a s' with
    | ok b s'' => rw [hs2] at h2; exact h2.trans h1.1
    | err v s'' => rw [hs2] at h2; exact h2.trans h1.1
    | panic => trivial
  | err v s' => rw [hxs] at h1; exact h1
  | panic => trivial

theorem EndsUsp.map {α β : Type} {x : Exec M α} (g : α → β) (hx : EndsUsp x) : EndsUsp (g <$> x) := by
  intro s hs hm
  have h1 := hx s hs hm
  rw [Exec.map_apply]
  cases hxs : x s <;> rw [hxs] at h1 <;> exact h1

theorem EndsUsp.cost {α : Type} {x : Exec M α} (n : Nat) (hx : EndsUsp x) : EndsUsp (cost x n) := hx.map _

theorem KeepsUsp.access {α : Type} (f : M → MRes M α) : KeepsUsp (access f) := by
  intro s _ _
  unfold Spec.access
  cases f s.mem <;> first | exact ⟨rfl, rfl, rfl, rfl⟩ | exact rfl | trivial

theorem keepsUsp_prims : Prims (M := M) KeepsUsp where
  pure _ s _ _ := ⟨rfl, rfl, rfl, rfl⟩
  bind _ _ := KeepsUsp.bind
  crash _ _ _ := trivial
  trap _ _ s _ _ := rfl
  getR _ s _ _ := ⟨rfl, rfl, rfl, rfl⟩
  fetch := by
    intro s _ _
    unfold Spec.fetch
    by_cases h : Spec.Odd s.cpu.regs.pc
    · rw [if_pos h]; trivial
    · rw [if_neg h]
      cases MemoryAccess.getWord s.cpu.regs.pc s.mem <;> first | exact ⟨rfl, rfl, rfl, rfl⟩ | trivial
  load sz a := by
    unfold Spec.load
    split
    · intro s _ _; exact rfl
    · exact .access _
  store sz a v := by
    unfold Spec.store
    split
    · intro s _ _; exact rfl
    · exact .access _
  movemLoad sz a _ _ := by
    intro s hs hm
    unfold Spec.movemLoad
    rw [Exec.map_apply]
    have := KeepsUsp.access (memGet sz a) s hs hm
    cases h : Spec.access (memGet sz a) s <;> rw [h] at this <;> exact this
  movemStore sz a v _ _ := .access _
  dreg _ _ _ _ _ := ⟨rfl, rfl, rfl, rfl⟩
  areg n f s hs _ := by
    refine ⟨?_, ?_⟩
    · simp only [setAreg, hs, if_true]
      split <;> rfl
    · simp only [setAreg_sr]; exact ⟨rfl, rfl, rfl⟩
  flags f hf s _ hm := ⟨rfl, hf _ hm⟩
  jump _ _ _ _ := ⟨rfl, rfl, rfl, rfl⟩

theorem keepsUsp_privileged : KeepsUsp (privileged : Exec M Unit) := by
  refine KeepsUsp.bind (keepsUsp_prims.getR _) fun b => ?_
  split
  · exact keepsUsp_prims.pure _
  · exact keepsUsp_prims.trap _ (by decide)

theorem endsUsp_flags (f : StatusRegister → StatusRegister) : EndsUsp (setFlags f : Exec M Unit) := fun _ _ _ => rfl

theorem endsUsp_flags_then {α : Type} (f : StatusRegister → StatusRegister) (x : Exec M α)
    (hx : ∀ s, match x s with | .ok _ s' => s'.cpu.regs.usp = s.cpu.regs.usp | .err _ s' => s'.cpu.regs.usp = s.cpu.regs.usp | .panic => True) :
    EndsUsp (setFlags f >>= fun _ => x : Exec M α) := fun s _ _ => by
  rw [Exec.bind_apply]
  exact hx _

theorem endsUsp_exec (C : CpuDetails) (i : Isa) (op : U16) (hi : i ≠ .Moveusp) : EndsUsp (Spec.exec C i op : Exec M Nat) := by
  have hP := keepsUsp_prims (M := M)
  by_cases hs : isSystem i = false
  · exact (hP.exec C i op hs).ends
  · cases i <;> try exact absurd rfl hs
    all_goals first | (exact absurd rfl hi) | simp only [Spec.exec]
    · exact hP.fetch.then fun _ => keepsUsp_privileged.then fun _ => (endsUsp_flags _).cost _
    · exact hP.fetch.then fun _ => (endsUsp_flags _).cost _
    · exact hP.fetch.then fun _ => keepsUsp_privileged.then fun _ => (endsUsp_flags _).cost _
    · exact (hP.fetchEa _ _).then fun _ => keepsUsp_privileged.then fun _ => (hP.read _ _).then fun _ => (endsUsp_flags _).cost _
    · exact hP.fetch.then fun _ => (endsUsp_flags _).cost _
    · exact hP.fetch.then fun _ => keepsUsp_privileged.then fun _ => (endsUsp_flags _).cost _
    · refine EndsUsp.cost _ (keepsUsp_privileged.then fun _ => ?_)
      exact fun _ _ _ => rfl
    · refine EndsUsp.map _ (keepsUsp_privileged.then fun _ => (hP.pop .Word).then fun w => (hP.pop .Long).then fun pc => (hP.jump _).then fun _ => ?_)
      refine KeepsUsp.then ?_ fun b => endsUsp_flags_then _ _ fun s => rfl
      split
      · refine (hP.pop .Word).bind fun f => ?_
        split
        · exact (hP.updateA _ _).bind fun _ => hP.pure _
        · split
          · exact hP.pure _
          · exact hP.trap _ (by decide)
      · exact hP.pure _
    · exact hP.fetch.then fun _ => EndsUsp.cost _ (keepsUsp_privileged.then fun _ => endsUsp_flags_then _ _ fun s => rfl)

/-- An instruction other than MOVE USP leaves the user stack pointer when it is executed in supervisor mode, whatever
its outcome, including those that end supervisor mode. -/
theorem C52_usp_kept {x : Nat × Option U8} (h : Ready s op s1) (hi : instr op ≠ .Moveusp) (hs : s.cpu.regs.sr.s = true)
    (hm : s.cpu.regs.sr.interruptMask.toNat < 8) (hx : interpreterException C s = .ok x s') : s'.cpu.regs.usp = s.cpu.regs.usp := by
  have hd : decoder op ≠ .Moveusp := by
    by_cases hm : MovemMisfit op
    · rw [decoder_of_misfit hm]; decide
    · rw [decoder_of_not_misfit hm]; exact hi
  have hf := step_finish C h
  have hu : s1.cpu.regs.usp = s.cpu.regs.usp := by obtain ⟨-, -, -, m, -, h5⟩ := h; rw [h5]
  have key := endsUsp_exec C _ op hd s1 (by rw [h.sr]; exact hs) (by rw [h.sr]; exact hm)
  rw [hx] at hf
  simp only [finishStep] at hf
  generalize Spec.exec C (decoder op) op s1 = r at *
  cases r with
  | ok c s2 => simp only [Res.ok.injEq] at hf; rw [hf.2]; exact key.trans hu
  | err v s2 => simp only [Res.ok.injEq] at hf; rw [hf.2]; exact key.trans hu
  | panic => cases hf

/-- `RTE` to user mode: the user stack pointer is that from before, and A7 is it. -/
example : ∃ s1 s', Ready (Demo.ram [0x4E73, 0, 0x0000, 0x0000, 0x0100] 8 { Demo.regs [] [] with sr := srOf 0x2000, ssp := 4, usp := 0x1234 }) 0x4E73 s1 ∧
    interpreterException mc68000 (Demo.ram [0x4E73, 0, 0x0000, 0x0000, 0x0100] 8 { Demo.regs [] [] with sr := srOf 0x2000, ssp := 4, usp := 0x1234 }) =
      .ok (20, none) s' ∧ s'.cpu.regs.sr.s = false ∧ s'.cpu.regs.pc = 0x100 ∧ areg s'.cpu.regs 7 = 0x1234 :=
  ⟨_, _, ⟨rfl, rfl, by decide, _, rfl, rfl⟩, rfl, rfl, rfl, rfl⟩

end M68k.Props
