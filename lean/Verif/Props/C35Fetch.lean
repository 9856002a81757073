import Verif.Lemmas.Alike
import Verif.Props.Demo
/-
C35, continued: the cycles of a call that cannot fetch its opcode.
-/
namespace M68k.Props
open Spec Exec
set_option linter.unusedSectionVars false
variable {M : Type} [MemoryAccess M] {C : CpuDetails} {s : St M}

theorem idle_call (hs : s.cpu.stop = false) (hp : s.cpu.exceptions = []) : interpreterException C s = fastInstruction C 0 s := by
  have h0 : pendingCycles C s = .ok 0 s := by
    unfold pendingCycles
    rw [hp]
    rfl
  unfold interpreterException
  rw [if_neg (by simp [hs])]
  erw [Exec.bind_apply]
  rw [h0]

/-- A call on a core that is neither stopped nor has pending exceptions, the program counter of which is at a word that the memory does not serve: no instruction is executed, the call
returns 0 cycles and the access error. Nothing but the program counter changes (and what the memory itself changes when it refuses). -/
theorem C35_fetch {m : M} (hs : s.cpu.stop = false) (hp : s.cpu.exceptions = []) (he : ¬ Odd s.cpu.regs.pc)
    (hw : MemoryAccess.getWord s.cpu.regs.pc s.mem = .none m) :
    interpreterException C s = .ok (0, some 2) ⟨{ s.cpu with regs := { s.cpu.regs with pc := s.cpu.regs.pc + 2 } }, m⟩ := by
  rw [idle_call hs hp, fastInstruction_eq, getNextWord_even he, hw]
  rfl

/-- An address beyond the memory. -/
example : ¬ Odd (Demo.st [] (Demo.regs [] [])).cpu.regs.pc ∧ MemoryAccess.getWord (0 : U32) (⟨[]⟩ : WordSlice) = .none ⟨[]⟩ ∧
    ∃ s', interpreterException mc68000 (Demo.st [] (Demo.regs [] [])) = .ok (0, some 2) s' ∧ s'.cpu.regs.pc = 2 := ⟨by decide, rfl, _, rfl, rfl⟩

/-- At an odd program counter the memory is not asked: the call returns 0 cycles and the address error, and nothing changes. -/
theorem C35_fetch_odd (hs : s.cpu.stop = false) (hp : s.cpu.exceptions = []) (ho : Odd s.cpu.regs.pc) :
    interpreterException C s = .ok (0, some 3) s := by
  rw [idle_call hs hp, fastInstruction_eq, getNextWord_odd ho]

/-- The program counter 1. -/
example : interpreterException mc68000 (Demo.st [0x4E71, 0x4E71] { Demo.regs [] [] with pc := 1 }) =
    .ok (0, some 3) (Demo.st [0x4E71, 0x4E71] { Demo.regs [] [] with pc := 1 }) := C35_fetch_odd rfl rfl (by decide)

/-- With an exception pending the call does not return 0, although the documentation of `interpreter` says so for every access error during the instruction fetch: TRAP #0 is
pending and its vector is an address that cannot be read. No instruction is executed and the access error is returned, with the 34 cycles of the TRAP. -/
theorem C35_fetch_refuted : ∃ s s' : St WordSlice, s.cpu.stop = false ∧ s.cpu.exceptions = [⟨32⟩] ∧
    interpreterException mc68000 s = .ok (34, some 2) s' ∧ s'.cpu.regs.pc = 0x10002 ∧ s'.cpu.exceptions = [] :=
  ⟨⟨{ (Demo.st [] { Demo.regs [] [] with ssp := 0x7C, sr := srOf 0x0100 }).cpu with exceptions := [⟨32⟩] }, ⟨List.replicate 64 0 ++ [1, 0]⟩⟩, _, rfl, rfl, rfl, rfl, rfl⟩

end M68k.Props
