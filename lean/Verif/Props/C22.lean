import Verif.Lemmas.EndsControl
import Verif.Props.Demo
/-
C22: branch targets. BRA, Bcc and BSR continue at instruction address + 2 + sign-extended displacement (the
low byte of the opcode, or the following word if that byte is 0) when the condition holds and at the
following instruction otherwise; nothing else changes (BSR also pushes the return address, see C21).
-/
namespace M68k.Props
open Spec Exec
variable {M : Type} [MemoryAccess M] {C : CpuDetails} {s s' s1 s2 : St M} {op : U16} {w : U16}

/-- Bcc with an 8-bit displacement. -/
theorem C22_bcc_short (h : Ready s op s1) (hi : instr op = .Bcc) (hd : op.toNat % 256 ≠ 0) :
    Completes C s (s1.withRegs fun r => { r with
      pc := if holds (ccField op) s.cpu.regs.sr then s.cpu.regs.pc + 2 + signExt (BitVec.ofNat 8 op.toNat) else s.cpu.regs.pc + 2 }) := by
  have hx := step_ends C h hi (by decide) rfl
  simp only [Spec.exec] at hx
  rw [getR_bind_apply, endsWith_bind_ok (fetchDisp_short hd)] at hx
  have := ends_bcc hx
  rwa [disp8, h.sr, h.pc] at this

/-- Bcc with a 16-bit displacement, the word `w` after the opcode. -/
theorem C22_bcc_word (h : Ready s op s1) (hi : instr op = .Bcc) (hd : op.toNat % 256 = 0) (hw : fetch s1 = .ok w s2) :
    Completes C s (s2.withRegs fun r => { r with
      pc := if holds (ccField op) s.cpu.regs.sr then s.cpu.regs.pc + 2 + signExt w else s.cpu.regs.pc + 4 }) := by
  have hx := step_ends C h hi (by decide) rfl
  simp only [Spec.exec] at hx
  rw [getR_bind_apply, endsWith_bind_ok (fetchDisp_word hd hw)] at hx
  have := ends_bcc hx
  rw [fetch_regs hw, h.regs, BitVec.add_assoc s.cpu.regs.pc 2 2] at this
  exact this

/-- BRA with an 8-bit displacement. -/
theorem C22_bra_short (h : Ready s op s1) (hi : instr op = .Bra) (hd : op.toNat % 256 ≠ 0) :
    Completes C s (s1.withRegs fun r => { r with pc := s.cpu.regs.pc + 2 + signExt (BitVec.ofNat 8 op.toNat) }) := by
  have hx := step_ends C h hi (by decide) rfl
  simp only [Spec.exec] at hx
  rw [getR_bind_apply, endsWith_bind_ok (fetchDisp_short hd), endsWith_cost, disp8, h.regs] at hx
  exact hx

/-- BRA with a 16-bit displacement. -/
theorem C22_bra_word (h : Ready s op s1) (hi : instr op = .Bra) (hd : op.toNat % 256 = 0) (hw : fetch s1 = .ok w s2) :
    Completes C s (s2.withRegs fun r => { r with pc := s.cpu.regs.pc + 2 + signExt w }) := by
  have hx := step_ends C h hi (by decide) rfl
  simp only [Spec.exec] at hx
  rw [getR_bind_apply, endsWith_bind_ok (fetchDisp_word hd hw), endsWith_cost, h.regs] at hx
  exact hx

/-- BSR with an 8-bit displacement: it pushes the address of the next instruction; if this succeeds
execution continues at the target. -/
theorem C22_bsr_short (h : Ready s op s1) (hi : instr op = .Bsr) (hd : op.toNat % 256 ≠ 0)
    (hp : push .Long (s.cpu.regs.pc + 2) s1 = .ok () s2) :
    Completes C s (s2.withRegs fun r => { r with pc := s.cpu.regs.pc + 2 + signExt (BitVec.ofNat 8 op.toNat) }) := by
  have hx := step_ends C h hi (by decide) rfl
  simp only [Spec.exec] at hx
  rw [getR_bind_apply, endsWith_bind_ok (fetchDisp_short hd), endsWith_cost] at hx
  unfold bsr at hx
  rw [getR_bind_apply, disp8, h.pc, endsWith_bind_ok hp] at hx
  exact hx

/-- BSR with a 16-bit displacement. -/
theorem C22_bsr_word {s3 : St M} (h : Ready s op s1) (hi : instr op = .Bsr) (hd : op.toNat % 256 = 0) (hw : fetch s1 = .ok w s2)
    (hp : push .Long (s.cpu.regs.pc + 4) s2 = .ok () s3) :
    Completes C s (s3.withRegs fun r => { r with pc := s.cpu.regs.pc + 2 + signExt w }) := by
  have hx := step_ends C h hi (by decide) rfl
  simp only [Spec.exec] at hx
  rw [getR_bind_apply, endsWith_bind_ok (fetchDisp_word hd hw), endsWith_cost] at hx
  unfold bsr at hx
  have hpc : s2.cpu.regs.pc = s.cpu.regs.pc + 4 := by
    rw [fetch_regs hw, h.regs]; exact BitVec.add_assoc s.cpu.regs.pc 2 2
  rw [getR_bind_apply, h.pc, hpc, endsWith_bind_ok hp] at hx
  exact hx

/-- BSR whose return address cannot be pushed raises the exception of the push. -/
theorem C22_bsr_fails {v : U8} {ret : U32} (h : Ready s op s1) (hi : instr op = .Bsr) (d : U16)
    (hd : fetchDisp op s1 = .ok d s2) (hret : s2.cpu.regs.pc = ret)
    (hp : push .Long ret s2 = .err v s') : Raises C s v s' := by
  have hx := step_ends C h hi (by decide) rfl
  simp only [Spec.exec] at hx
  rw [getR_bind_apply, endsWith_bind_ok hd, endsWith_cost] at hx
  unfold bsr at hx
  rw [getR_bind_apply, hret, endsWith_bind_err hp] at hx
  exact hx

/-- The condition codes, the other registers and the pending exceptions are as before in all the cases above:
the state of the conclusions differs from `s` only in the memory, the current opcode and the program counter. -/
theorem C22_state (h : Ready s op s1) (hd : fetchDisp op s1 = .ok w s2) (target : U32) :
    (s2.withRegs fun r => { r with pc := target }).cpu =
      { s.cpu with currentOpcode := op, regs := { s.cpu.regs with pc := target } } := by
  have hs2 : s2.cpu = { s1.cpu with regs := { s1.cpu.regs with pc := s2.cpu.regs.pc } } := by
    unfold fetchDisp at hd
    split at hd
    · have := congrArg St.cpu (fetch_ok hd)
      rw [this]
    · cases hd; rfl
  obtain ⟨-, -, -, m, -, h5⟩ := h
  unfold St.withRegs
  rw [hs2, h5]

/-! ### Instances -/

/-- `BNE *-4` with Z clear branches, `BNE` with Z set does not. -/
example : ∃ s1, Ready (Demo.st [0, 0, 0, 0x66F8] { Demo.regs [] [] with pc := 6 }) 0x66F8 s1 ∧ instr 0x66F8 = .Bcc ∧ (0x66F8 : U16).toNat % 256 ≠ 0 ∧
    (holds (ccField 0x66F8) (Demo.st [0, 0, 0, 0x66F8] { Demo.regs [] [] with pc := 6 }).cpu.regs.sr = true) ∧
    (6 : U32) + 2 + signExt (BitVec.ofNat 8 (0x66F8 : U16).toNat) = 0 :=
  ⟨_, ⟨rfl, rfl, by decide, _, rfl, rfl⟩, rfl, by decide, rfl, by decide⟩

/-- `BEQ.W *+0x100` with Z clear. -/
example : ∃ s1 s2, Ready (Demo.st [0x6700, 0xFE] (Demo.regs [] [])) 0x6700 s1 ∧ instr 0x6700 = .Bcc ∧ (0x6700 : U16).toNat % 256 = 0 ∧
    fetch s1 = .ok 0xFE s2 ∧ holds (ccField 0x6700) (Demo.st [0x6700, 0xFE] (Demo.regs [] [])).cpu.regs.sr = false :=
  ⟨_, _, ⟨rfl, rfl, by decide, _, rfl, rfl⟩, rfl, by decide, rfl, rfl⟩

/-- `BRA *` and `BRA.W *-2`. -/
example : (∃ s1, Ready (Demo.st [0x60FE] (Demo.regs [] [])) 0x60FE s1 ∧ instr 0x60FE = .Bra ∧ (0x60FE : U16).toNat % 256 ≠ 0) ∧
    ∃ s1 s2, Ready (Demo.st [0x6000, 0xFFFC] (Demo.regs [] [])) 0x6000 s1 ∧ instr 0x6000 = .Bra ∧ (0x6000 : U16).toNat % 256 = 0 ∧ fetch s1 = .ok 0xFFFC s2 :=
  ⟨⟨_, ⟨rfl, rfl, by decide, _, rfl, rfl⟩, rfl, by decide⟩, _, _, ⟨rfl, rfl, by decide, _, rfl, rfl⟩, rfl, by decide, rfl⟩

/-- `BSR.S *+8` and `BSR.W *+8` with a stack, and `BSR` with an odd stack pointer. -/
example : (∃ s1 s2, Ready (Demo.st [0x6106, 0, 0, 0] (Demo.regs [] [0, 0, 0, 0, 0, 0, 0, 8])) 0x6106 s1 ∧ instr 0x6106 = .Bsr ∧
      (0x6106 : U16).toNat % 256 ≠ 0 ∧ push .Long 2 s1 = .ok () s2) ∧
    (∃ s1 s2 s3, Ready (Demo.st [0x6100, 6, 0, 0] (Demo.regs [] [0, 0, 0, 0, 0, 0, 0, 8])) 0x6100 s1 ∧ instr 0x6100 = .Bsr ∧
      (0x6100 : U16).toNat % 256 = 0 ∧ fetch s1 = .ok 6 s2 ∧ push .Long 4 s2 = .ok () s3) ∧
    ∃ s1 s2 s3, Ready (Demo.st [0x6100, 6, 0, 0] (Demo.regs [] [0, 0, 0, 0, 0, 0, 0, 7])) 0x6100 s1 ∧ instr 0x6100 = .Bsr ∧
      fetchDisp 0x6100 s1 = .ok 6 s2 ∧ s2.cpu.regs.pc = 4 ∧ push .Long 4 s2 = .err 3 s3 :=
  ⟨⟨_, _, ⟨rfl, rfl, by decide, _, rfl, rfl⟩, rfl, by decide, rfl⟩,
   ⟨_, _, _, ⟨rfl, rfl, by decide, _, rfl, rfl⟩, rfl, by decide, rfl, rfl⟩,
   _, _, _, ⟨rfl, rfl, by decide, _, rfl, rfl⟩, rfl, rfl, rfl, rfl⟩

end M68k.Props
