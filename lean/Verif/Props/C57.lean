import Verif.Lemmas.Cycles
import Verif.Props.C40
import Verif.Props.Demo
/-
C57: the execution time of an instruction. `cycles` (Spec/Cycles.lean) gives it from the entries of the CPU's timing table, the opcode, and for a few
instructions a condition, a shift count or a register list; it does not depend on anything else, such as the values of the operands, the addresses or the memory.
-/
set_option linter.unusedSectionVars false
namespace M68k.Props
open Spec Exec
variable {M : Type} [MemoryAccess M] {C : CpuDetails} {s s' s1 s2 : St M} {op : U16} {c : Nat} {e : Option U8}

/-- A call that executes an instruction other than RTE returns the time of the instruction if it completes, and 0 if it raises an exception, the time of
which is counted when the exception is processed. -/
theorem C57_cycles {ws : List U16} (h : Ready s op s1) (hm : ¬ MovemMisfit op) (hi : instr op ≠ .Rte)
    (hf : fetchWords (extensionWords (instr op) op) s1 = .ok ws s2) (hr : interpreterException C s = .ok (c, e) s') :
    c = cycles C (instr op) op s.cpu.regs ws ∨ (c = 0 ∧ e.isSome = true) := by
  have hd := decoder_of_not_misfit hm
  rw [← hd] at hf hi ⊢
  have hx := timed (M := M) (C := C) (decoder_legal op) hi s1
  rw [hf] at hx
  obtain ⟨z, hz, hx⟩ := hx
  have h5 : cycles C (decoder op) op s2.cpu.regs ws = cycles C (decoder op) op s.cpu.regs ws := by
    rw [fetchWords_cpu hf]
    obtain ⟨-, -, -, m, -, rfl⟩ := h
    rw [cycles_withPc]
    exact cycles_withPc _ _ _ _
  rw [step_finish C h] at hr
  unfold finishStep at hr
  cases hy : Spec.exec C (decoder op) op s1 with
  | ok c' s3 =>
    rw [hy] at hr hx
    cases hr
    left
    rw [Nat.zero_add, hz s2 _ _ hx.symm, h5]
  | err v s3 => rw [hy] at hr; cases hr; exact .inr ⟨rfl, rfl⟩
  | panic => rw [hy] at hr; cases hr

/-- Without exception. -/
theorem C57_completed {ws : List U16} (h : Ready s op s1) (hm : ¬ MovemMisfit op) (hi : instr op ≠ .Rte)
    (hf : fetchWords (extensionWords (instr op) op) s1 = .ok ws s2) (hr : interpreterException C s = .ok (c, none) s') :
    c = cycles C (instr op) op s.cpu.regs ws := by
  rcases C57_cycles h hm hi hf hr with h1 | ⟨-, h1⟩
  · exact h1
  · cases h1

/-- RTE has one time on the MC68000 and two on the SCC68070, for short and long stack frames. -/
theorem C57_rte (h : Ready s op s1) (hi : instr op = .Rte) (hr : interpreterException C s = .ok (c, none) s') :
    c = C.RTE ∨ (C.STACK_FORMAT = .SCC68070 ∧ c = C.RTE + 101) := by
  have hd : decoder op = .Rte := (decoder_of_map op (by rw [hi]; decide)).trans hi
  rw [step_finish C h, hd] at hr
  unfold finishStep at hr
  cases hy : Spec.exec C .Rte op s1 with
  | ok c' s3 =>
    rw [hy] at hr
    simp only [Nat.zero_add, Res.ok.injEq, Prod.mk.injEq] at hr
    rw [← hr.1.1]
    exact timed_Rte hy
  | err v s3 => rw [hy] at hr; cases hr
  | panic => rw [hy] at hr; cases hr

/-- The instructions whose time depends on more than the opcode. -/
def VariableTime (i : Isa) (op : U16) : Prop :=
  i = .Scc ∨ i = .Bcc ∨ i = .Dbcc ∨ i = .Movem ∨ i = .Rte ∨ (flag op 5 = true ∧ (i = .Asr ∨ i = .Lsr ∨ i = .Ror ∨ i = .Roxr))
instance (i : Isa) (op : U16) : Decidable (VariableTime i op) := inferInstanceAs (Decidable (_ ∨ _))

theorem cycles_fixed {i : Isa} (h : ¬ VariableTime i op) (r r' : Registers) (ws ws' : List U16) : cycles C i op r ws = cycles C i op r' ws' := by
  have hs : (i = .Asr ∨ i = .Lsr ∨ i = .Ror ∨ i = .Roxr) → shiftBits op r = shiftBits op r' := by
    intro hi
    have h5 : ¬ flag op 5 = true := fun h5 => h (.inr (.inr (.inr (.inr (.inr ⟨h5, hi⟩)))))
    unfold shiftBits
    rw [if_neg h5, if_neg h5]
  cases i <;> first | rfl | (exfalso; apply h; unfold VariableTime; simp; done) | (simp only [cycles, hs (by decide)])

/-- The other instructions take the same time whenever they complete: two executions of the same opcode, in different states and different memory systems,
return the same number of cycles. -/
theorem C57_same {M' : Type} [MemoryAccess M'] {t t' t1 : St M'} {c' : Nat} (hm : ¬ MovemMisfit op) (hv : ¬ VariableTime (instr op) op) (h : Ready s op s1)
    (h' : Ready t op t1) (hr : interpreterException C s = .ok (c, none) s') (hr' : interpreterException C t = .ok (c', none) t') : c = c' := by
  have hi : instr op ≠ .Rte := fun hi => hv (by rw [hi]; unfold VariableTime; simp)
  have words : ∀ {N : Type} [MemoryAccess N] {s s1 s' : St N} {c : Nat}, Ready s op s1 → interpreterException C s = .ok (c, none) s' →
      ∃ ws s2, fetchWords (extensionWords (instr op) op) s1 = .ok ws s2 := by
    intro N _ s s1 s' c h hr
    obtain ⟨ws, s2, hf, -⟩ := C40_branch h hm hr
    exact ⟨ws, s2, hf⟩
  obtain ⟨ws, s2, hf⟩ := words h hr
  obtain ⟨ws', t2, hf'⟩ := words h' hr'
  rw [C57_completed h hm hi hf hr, C57_completed h' hm hi hf' hr']
  exact cycles_fixed hv _ _ _ _

/-- `MOVE.L (A0)+,-(A1)`, `ADD.W #5,D0`, `LSL.W #3,D1`, `MOVEM.L (A7)+,D0-D7/A0-A6`, `DBRA D0` with D0 = 0x10000 and 1, on the MC68000. -/
example : cycles mc68000 .Move 0x2318 (Demo.regs [] []) [] = 20 ∧ cycles mc68000 .Add 0xD07C (Demo.regs [] []) [5] = 8 ∧
    cycles mc68000 .Lsr 0xE749 (Demo.regs [] []) [] = 12 ∧ cycles mc68000 .Movem 0x4CDF (Demo.regs [] []) [0x7FFF] = 132 ∧
    cycles mc68000 .Dbcc 0x51C8 (Demo.regs [0x10000] []) [0] = 14 ∧ cycles mc68000 .Dbcc 0x51C8 (Demo.regs [1] []) [0] = 10 := by decide
/-- `ADD.W (A0),D1` in memory, in two states with different registers. -/
example : ∃ s1 s2 s' t1 t', Ready (Demo.st [0xD250, 5] (Demo.regs [1] [0])) 0xD250 s1 ∧ ¬ MovemMisfit 0xD250 ∧ ¬ VariableTime (instr 0xD250) 0xD250 ∧
    fetchWords (extensionWords (instr 0xD250) 0xD250) s1 = .ok [] s2 ∧
    interpreterException mc68000 (Demo.st [0xD250, 5] (Demo.regs [1] [0])) = .ok (8, none) s' ∧ Ready (Demo.st [0xD250, 5] (Demo.regs [7] [2])) 0xD250 t1 ∧
    interpreterException mc68000 (Demo.st [0xD250, 5] (Demo.regs [7] [2])) = .ok (8, none) t' :=
  ⟨_, _, _, _, _, ⟨rfl, rfl, by decide, _, rfl, rfl⟩, by unfold MovemMisfit; decide, by decide, rfl, rfl, ⟨rfl, rfl, by decide, _, rfl, rfl⟩, rfl⟩
/-- RTE with a short frame. -/
example : ∃ s1 s', Ready (Demo.st [0x4E73, 0x2000, 0, 8] { Demo.regs [] [0, 0, 0, 0, 0, 0, 0, 2] with sr := srOf 0x2700, ssp := 2 }) 0x4E73 s1 ∧ instr 0x4E73 = .Rte ∧
    interpreterException mc68000 (Demo.st [0x4E73, 0x2000, 0, 8] { Demo.regs [] [0, 0, 0, 0, 0, 0, 0, 2] with sr := srOf 0x2700, ssp := 2 }) = .ok (20, none) s' :=
  ⟨_, _, ⟨rfl, rfl, by decide, _, rfl, rfl⟩, rfl, rfl⟩

end M68k.Props
