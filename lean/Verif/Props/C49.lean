import Verif.Lemmas.EndsControl
import Verif.Props.Demo
/-
C49: TRAP and TRAPV. `s1` is the state after the fetch of the opcode: only the program counter, 2 further,
the current opcode and the effect of the read on the memory distinguish it from `s`.
-/
namespace M68k.Props
open Spec Exec
variable {M : Type} [MemoryAccess M] {C : CpuDetails} {s s' s1 s2 : St M}

/-- TRAP #n, opcode 0x4E40 + n, yields vector 32 + n and changes nothing else. -/
theorem C49_trap (n : Fin 16) (h : Ready s (BitVec.ofNat 16 (0x4E40 + n.val)) s1) : Raises C s (BitVec.ofNat 8 (32 + n.val)) s1 := by
  have hi : instr (BitVec.ofNat 16 (0x4E40 + n.val)) = .Trap := by clear h; revert n; decide
  have hx := step_ends C h hi (by decide) rfl
  simp only [Spec.exec] at hx
  rw [endsWith_cost] at hx
  rw [show (BitVec.ofNat 16 (0x4E40 + n.val)).toNat % 16 = n.val by
    rw [BitVec.toNat_ofNat]; have := n.isLt; omega] at hx
  exact hx

set_option maxRecDepth 100000 in
set_option maxHeartbeats 4000000 in
theorem trapTable : checkTable (fun _ k => (opcodeMap k == .Trap) == (k / 16 == 0x4E4)) = true := by apply checkTable_intro <;> decide +kernel

/-- The opcodes 0x4E40 to 0x4E4F are all of the TRAP opcodes. -/
theorem C49_trap_opcodes (op : U16) : instr op = .Trap ↔ ∃ n : Fin 16, op = BitVec.ofNat 16 (0x4E40 + n.val) := by
  have := decoder_of_check (fun _ k => (opcodeMap k == .Trap) == (k / 16 == 0x4E4)) trapTable op
  rw [beq_iff_eq] at this
  constructor
  · intro h
    rw [show opcodeMap op.toNat = .Trap from h] at this
    have hk : op.toNat / 16 = 0x4E4 := by simpa using this.symm
    refine ⟨⟨op.toNat % 16, by omega⟩, ?_⟩
    apply BitVec.eq_of_toNat_eq
    simp only [BitVec.toNat_ofNat]
    omega
  · rintro ⟨n, rfl⟩
    revert n; decide

/-- TRAPV with V set yields vector 7 and changes nothing else. -/
theorem C49_trapv_set (h : Ready s 0x4E76 s1) (hv : s.cpu.regs.sr.v = true) : Raises C s 7 s1 := by
  have hx := step_ends C h (i := .Trapv) rfl (by decide) rfl
  simp only [Spec.exec] at hx
  rw [getR_bind_apply, h.sr, hv, if_pos rfl] at hx
  exact hx

/-- TRAPV with V clear does nothing. -/
theorem C49_trapv_clear (h : Ready s 0x4E76 s1) (hv : s.cpu.regs.sr.v = false) : Completes C s s1 := by
  have hx := step_ends C h (i := .Trapv) rfl (by decide) rfl
  simp only [Spec.exec] at hx
  rw [getR_bind_apply, h.sr, hv, if_neg (by decide)] at hx
  exact hx

/-- `TRAP #15`. -/
example : ∃ s1, Ready (Demo.st [0x4E4F] (Demo.regs [1] [2])) (BitVec.ofNat 16 (0x4E40 + (15 : Fin 16).val)) s1 ∧ Raises mc68000 (Demo.st [0x4E4F] (Demo.regs [1] [2])) 47 s1 :=
  ⟨_, ⟨rfl, rfl, by decide, _, rfl, rfl⟩, rfl⟩

/-- `TRAPV` with V clear and set. -/
example : (∃ s1, Ready (Demo.st [0x4E76] (Demo.regs [] [])) 0x4E76 s1 ∧ (Demo.st [0x4E76] (Demo.regs [] [])).cpu.regs.sr.v = false) ∧
    ∃ (s s1 : St WordSlice), Ready s 0x4E76 s1 ∧ s.cpu.regs.sr.v = true :=
  ⟨⟨_, ⟨rfl, rfl, by decide, _, rfl, rfl⟩, rfl⟩,
   Demo.st [0x4E76] { Demo.regs [] [] with sr := srOf 2 }, _, ⟨rfl, rfl, by decide, _, rfl, rfl⟩, rfl⟩

end M68k.Props
