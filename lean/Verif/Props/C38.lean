import Verif.Lemmas.EndsControl
import Verif.Props.Demo
/-
C38: opcodes without instruction trap without effect.

The decoder takes 32 of them as MOVEM (C37): MOVEM of registers to `(An)+` and MOVEM from `-(An)` to registers.
The property fails for these (`C38_refuted`); the theorem named `_partial` is about all others.
-/
namespace M68k.Props
open Spec Exec
variable {M : Type} [MemoryAccess M] {C : CpuDetails} {s s' s1 s2 : St M} {op : U16}

/-- The vector of an opcode without instruction: line A, line F, or illegal. -/
def lineVector (op : U16) : U8 := if op.toNat / 4096 = 0xA then 10 else if op.toNat / 4096 = 0xF then 11 else 4

/-- MOVEM registers to `(An)+` (0x4898-0x489F, 0x48D8-0x48DF) and MOVEM `-(An)` to registers (0x4CA0-0x4CA7,
0x4CE0-0x4CE7), which the 68000 does not have. -/
def MovemMisfit (op : U16) : Prop :=
  (0x4898 ≤ op ∧ op ≤ 0x489F) ∨ (0x48D8 ≤ op ∧ op ≤ 0x48DF) ∨ (0x4CA0 ≤ op ∧ op ≤ 0x4CA7) ∨ (0x4CE0 ≤ op ∧ op ≤ 0x4CE7)

theorem movemMisfit_of_extra (h : movemExtra op.toNat = true) : MovemMisfit op := by
  unfold movemExtra at h
  unfold MovemMisfit
  simp only [BitVec.le_def, BitVec.ofNat_eq_ofNat, BitVec.reduceToNat]
  simp only [Bool.or_eq_true, Bool.and_eq_true, beq_iff_eq] at h
  omega

/-- An opcode that is not an instruction of the 68000 yields the vector of its line and changes nothing but the
program counter. -/
theorem C38_unimplemented_partial (h : Ready s op s1) (hi : instr op = .Unknown) (hm : ¬ MovemMisfit op) :
    Raises C s (lineVector op) s1 := by
  have hd := decoder_of_check mapCheck mapCheck_all op
  unfold mapCheck at hd
  rw [if_neg fun hc => hm (movemMisfit_of_extra hc)] at hd
  have hd : decoder op = .Unknown := (beq_iff_eq.mp hd).trans hi
  have hf := step_finish C h
  rw [hd] at hf
  exact hf

/-- ILLEGAL, opcode 0x4AFC. -/
theorem C38_illegal (h : Ready s 0x4AFC s1) : Raises C s 4 s1 := by
  have hx := step_ends C h (i := .Illegal) rfl (by decide) rfl
  exact hx

/-- What "nothing but the program counter" means for the state `s1` of the theorems above. -/
theorem C38_state (h : Ready s op s1) :
    s1.cpu = { s.cpu with currentOpcode := op, regs := { s.cpu.regs with pc := s.cpu.regs.pc + 2 } } ∧
    MemoryAccess.getWord s.cpu.regs.pc s.mem = .val op s1.mem := by
  obtain ⟨-, -, -, m, h4, h5⟩ := h
  subst h5
  exact ⟨rfl, h4⟩

/-- `MOVEM.L D0,(A0)+`, opcode 0x48D8 and list 0x0001, is not an instruction of the 68000 but it stores D0. -/
theorem C38_refuted : ∃ c s', instr 0x48D8 = .Unknown ∧
    interpreterException mc68000 (Demo.st [0x48D8, 1, 0, 0] (Demo.regs [0x12345678] [4])) = .ok (c, none) s' ∧
    s'.mem.words = [0x48D8, 1, 0x1234, 0x5678] := ⟨_, _, rfl, rfl, rfl⟩

theorem extra_of_misfit (h : MovemMisfit op) : movemExtra op.toNat = true := by
  unfold movemExtra
  unfold MovemMisfit at h
  simp only [BitVec.le_def, BitVec.ofNat_eq_ofNat, BitVec.reduceToNat] at h
  simp only [Bool.or_eq_true, Bool.and_eq_true, beq_iff_eq]
  omega

/-- All of the 32 opcodes are executed as MOVEM, in every state. -/
theorem C38_misfits_execute (h : Ready s op s1) (hm : MovemMisfit op) : instr op = .Unknown ∧ EndsWith C s (Spec.exec C .Movem op s1) := by
  have hd := decoder_of_check mapCheck mapCheck_all op
  unfold mapCheck at hd
  rw [if_pos (extra_of_misfit hm)] at hd
  simp only [Bool.and_eq_true, beq_iff_eq] at hd
  refine ⟨hd.2, ?_⟩
  have hf := step_finish C h
  rw [hd.1] at hf
  unfold EndsWith
  simp only [finishStep] at hf
  generalize Spec.exec C .Movem op s1 = r at *
  cases r with
  | ok c s' => exact ⟨c, by rw [hf]; simp [Isa.isPrivileged, h.sr, traced]⟩
  | err v s' => exact hf
  | panic => exact hf

/-- `0xA000`, `0xFFFF` and `0x4AFA` are such opcodes, `0x4AFC` is ILLEGAL. -/
example : (∃ s1, Ready (Demo.st [0xA000] (Demo.regs [] [])) 0xA000 s1 ∧ instr 0xA000 = .Unknown ∧ ¬ MovemMisfit 0xA000 ∧ lineVector 0xA000 = 10) ∧
    (∃ s1, Ready (Demo.st [0xFFFF] (Demo.regs [] [])) 0xFFFF s1 ∧ instr 0xFFFF = .Unknown ∧ ¬ MovemMisfit 0xFFFF ∧ lineVector 0xFFFF = 11) ∧
    (∃ s1, Ready (Demo.st [0x4AFA] (Demo.regs [] [])) 0x4AFA s1 ∧ instr 0x4AFA = .Unknown ∧ ¬ MovemMisfit 0x4AFA ∧ lineVector 0x4AFA = 4) ∧
    ∃ s1, Ready (Demo.st [0x4AFC] (Demo.regs [] [])) 0x4AFC s1 :=
  ⟨⟨_, ⟨rfl, rfl, by decide, _, rfl, rfl⟩, rfl, by unfold MovemMisfit; decide, rfl⟩,
   ⟨_, ⟨rfl, rfl, by decide, _, rfl, rfl⟩, rfl, by unfold MovemMisfit; decide, rfl⟩,
   ⟨_, ⟨rfl, rfl, by decide, _, rfl, rfl⟩, rfl, by unfold MovemMisfit; decide, rfl⟩,
   _, ⟨rfl, rfl, by decide, _, rfl, rfl⟩⟩

end M68k.Props
