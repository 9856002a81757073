import Verif.Spec.Opcodes
import Verif.Props.C57
/-
C57, continued: the time of a sequence of instructions. What a program computes with has no influence on its time, as long as it does not change which instructions are executed and
none of these is of variable time.
-/
set_option linter.unusedSectionVars false
namespace M68k.Props
open Spec Exec
variable {M M' : Type} [MemoryAccess M] [MemoryAccess M'] {C : CpuDetails} {s s' : St M} {t t' : St M'} {ops : List U16} {cs ds : List Nat}

/-- Two executions of the same opcodes, of any number, in any states and memory systems take the same time: each instruction, and so the whole. -/
theorem C57_trace (hf : ∀ op ∈ ops, ¬ MovemMisfit op ∧ ¬ VariableTime (instr op) op) (hs : Opcodes C ops cs s s') (ht : Opcodes C ops ds t t') : cs = ds := by
  induction hs generalizing ds t with
  | nil s => cases ht; rfl
  | cons h hr _ ih =>
    cases ht with
    | cons h' hr' hn' =>
      have hop := hf _ List.mem_cons_self
      rw [C57_same hop.1 hop.2 h h' hr hr', ih (fun op ho => hf op (List.mem_cons_of_mem _ ho)) hn']

/-- `ADD.W (A0),D1`, `MULU D1,D2` and `MOVE.L D2,(A0)` in two states with different registers and memories: 8, 70 and 12 cycles. -/
example : (∀ op ∈ [(0xD250 : U16), 0xC4C1, 0x2082], ¬ MovemMisfit op ∧ ¬ VariableTime (instr op) op) ∧
    (∃ s', Opcodes mc68000 [0xD250, 0xC4C1, 0x2082] [8, 70, 12] (Demo.st [0xD250, 0xC4C1, 0x2082, 5, 6] (Demo.regs [1, 2, 3] [6])) s') ∧
    ∃ t', Opcodes mc68000 [0xD250, 0xC4C1, 0x2082] [8, 70, 12] (Demo.st [0xD250, 0xC4C1, 0x2082, 0xFFFF, 0] (Demo.regs [0, 0, 0xFFFF] [6])) t' := by
  refine ⟨?_, ⟨_, .cons ⟨rfl, rfl, by decide, _, rfl, rfl⟩ rfl (.cons ⟨rfl, rfl, by decide, _, rfl, rfl⟩ rfl (.cons ⟨rfl, rfl, by decide, _, rfl, rfl⟩ rfl (.nil _)))⟩,
    ⟨_, .cons ⟨rfl, rfl, by decide, _, rfl, rfl⟩ rfl (.cons ⟨rfl, rfl, by decide, _, rfl, rfl⟩ rfl (.cons ⟨rfl, rfl, by decide, _, rfl, rfl⟩ rfl (.nil _)))⟩⟩
  · intro op h
    rcases List.mem_cons.1 h with rfl | h
    · exact ⟨by unfold MovemMisfit; decide, by decide⟩
    rcases List.mem_cons.1 h with rfl | h
    · exact ⟨by unfold MovemMisfit; decide, by decide⟩
    rw [List.mem_singleton.1 h]
    exact ⟨by unfold MovemMisfit; decide, by decide⟩

/-- The condition is necessary: the time of a shift by a register tells the count. `LSL.L D0,D1` with D0 = 0 and D0 = 63. -/
theorem C57_trace_shift : ∃ s s' t t' : St WordSlice, s.mem = t.mem ∧ s.cpu = { t.cpu with regs := { t.cpu.regs with d := s.cpu.regs.d } } ∧ Opcodes mc68000 [0xE1A9] [8] s s' ∧ Opcodes mc68000 [0xE1A9] [134] t t' :=
  ⟨Demo.st [0xE1A9] (Demo.regs [0, 1] []), _, Demo.st [0xE1A9] (Demo.regs [63, 1] []), _, rfl, rfl,
    .cons ⟨rfl, rfl, by decide, _, rfl, rfl⟩ rfl (.nil _), .cons ⟨rfl, rfl, by decide, _, rfl, rfl⟩ rfl (.nil _)⟩

end M68k.Props
