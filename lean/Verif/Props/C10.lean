import Verif.Lemmas.EndsShift
import Verif.Props.Demo
/-
C10: register and memory shifts.

`IsLsl`, `IsAsl`, `IsLsr`, `IsAsr` (Spec/ClaimsShift.lean) say on integers what the result and the flags of
a shift by `k` are. `countOf` is the count of a register shift: 0 to 63 from a data register, 1 to 8 from
the opcode. In `Isa`, `Asr` and `Lsr` stand for the register shifts of both directions.
-/
namespace M68k.Props
open Spec Exec
variable {M : Type} [MemoryAccess M] {C : CpuDetails} {s s1 s2 s3 : St M} {op : U16} {sz : Size}

/-- LSL Dn: multiplication by a power of two. -/
theorem C10_lsl (h : Ready s op s1) (hi : instr op = .Lsr) (hdir : flag op 8 = true) (hsz : opSize op = some sz) :
    ∃ r sr', IsLsl (countOf s op) (low sz (s.cpu.regs.d (regField op 0))) s.cpu.regs.sr r sr' ∧
      Completes C s (s1.withRegs fun g =>
        { setDreg g (regField op 0) (insertLow sz (g.d (regField op 0)) r) with sr := sr' }) := by
  have hx := step_ends C h hi (by decide) rfl
  simp only [Spec.exec] at hx
  have := ends_shift h hsz (fun n => if_pos hdir) hx
  exact ⟨_, _, isLsl_lsl _ _ _, this⟩

/-- `LSL.L D1,D0` with D1 = 33. -/
example : ∃ s1, Ready (Demo.st [0xE3A8] (Demo.regs [0x80000001, 33] [])) 0xE3A8 s1 ∧ instr 0xE3A8 = .Lsr ∧
    flag 0xE3A8 8 = true ∧ opSize 0xE3A8 = some .Long :=
  ⟨_, ⟨rfl, rfl, by decide, _, rfl, rfl⟩, rfl, rfl, rfl⟩

/-- LSR Dn: unsigned division by a power of two. -/
theorem C10_lsr (h : Ready s op s1) (hi : instr op = .Lsr) (hdir : flag op 8 = false) (hsz : opSize op = some sz) :
    ∃ r sr', IsLsr (countOf s op) (low sz (s.cpu.regs.d (regField op 0))) s.cpu.regs.sr r sr' ∧
      Completes C s (s1.withRegs fun g =>
        { setDreg g (regField op 0) (insertLow sz (g.d (regField op 0)) r) with sr := sr' }) := by
  have hx := step_ends C h hi (by decide) rfl
  simp only [Spec.exec] at hx
  have := ends_shift h hsz (fun n => if_neg (by rw [hdir]; decide)) hx
  exact ⟨_, _, isLsr_lsr _ _ _, this⟩

/-- `LSR.B #8,D0`. -/
example : ∃ s1, Ready (Demo.st [0xE008] (Demo.regs [0x180] [])) 0xE008 s1 ∧ instr 0xE008 = .Lsr ∧
    flag 0xE008 8 = false ∧ opSize 0xE008 = some .Byte :=
  ⟨_, ⟨rfl, rfl, by decide, _, rfl, rfl⟩, rfl, rfl, rfl⟩

/-- ASL Dn: multiplication by a power of two, V telling whether the sign changed on the way. -/
theorem C10_asl (h : Ready s op s1) (hi : instr op = .Asr) (hdir : flag op 8 = true) (hsz : opSize op = some sz) :
    ∃ r sr', IsAsl (countOf s op) (low sz (s.cpu.regs.d (regField op 0))) s.cpu.regs.sr r sr' ∧
      Completes C s (s1.withRegs fun g =>
        { setDreg g (regField op 0) (insertLow sz (g.d (regField op 0)) r) with sr := sr' }) := by
  have hx := step_ends C h hi (by decide) rfl
  simp only [Spec.exec] at hx
  have := ends_shift h hsz (fun n => if_pos hdir) hx
  exact ⟨_, _, isAsl_asl _ _ _, this⟩

/-- `ASL.W D1,D0` with D1 = 2: the sign changes and changes back. -/
example : ∃ s1, Ready (Demo.st [0xE360] (Demo.regs [0x4000, 2] [])) 0xE360 s1 ∧ instr 0xE360 = .Asr ∧
    flag 0xE360 8 = true ∧ opSize 0xE360 = some .Word :=
  ⟨_, ⟨rfl, rfl, by decide, _, rfl, rfl⟩, rfl, rfl, rfl⟩

/-- ASR Dn: signed division by a power of two, rounding down. -/
theorem C10_asr (h : Ready s op s1) (hi : instr op = .Asr) (hdir : flag op 8 = false) (hsz : opSize op = some sz) :
    ∃ r sr', IsAsr (countOf s op) (low sz (s.cpu.regs.d (regField op 0))) s.cpu.regs.sr r sr' ∧
      Completes C s (s1.withRegs fun g =>
        { setDreg g (regField op 0) (insertLow sz (g.d (regField op 0)) r) with sr := sr' }) := by
  have hx := step_ends C h hi (by decide) rfl
  simp only [Spec.exec] at hx
  have := ends_shift h hsz (fun n => if_neg (by rw [hdir]; decide)) hx
  exact ⟨_, _, isAsr_asr _ _ _, this⟩

/-- `ASR.W D1,D0` with D1 = 63. -/
example : ∃ s1, Ready (Demo.st [0xE260] (Demo.regs [0x8001, 63] [])) 0xE260 s1 ∧ instr 0xE260 = .Asr ∧
    flag 0xE260 8 = false ∧ opSize 0xE260 = some .Word :=
  ⟨_, ⟨rfl, rfl, by decide, _, rfl, rfl⟩, rfl, rfl, rfl⟩

/-- LSL of a word in memory, by one. -/
theorem C10_lsl_memory {p : Place} {v : Val .Word} (h : Ready s op s1) (hi : instr op = .Lsm) (hdir : flag op 8 = true)
    (hv : operand .Word op s1 = .ok (p, v) s2) :
    ∃ r sr', IsLsl 1 v s.cpu.regs.sr r sr' ∧ EndsWith C s (writeAt .Word p r (s2.withRegs fun g => { g with sr := sr' })) := by
  have hx := step_ends C h hi (by decide) rfl
  simp only [Spec.exec] at hx
  have := ends_shiftMem h (if_pos hdir) hv hx
  exact ⟨_, _, isLsl_lsl _ _ _, this⟩

/-- `LSL (A0)`. -/
example : ∃ s1 s2 p v, Ready (Demo.st [0xE3D0, 0x8001] (Demo.regs [] [2])) 0xE3D0 s1 ∧ instr 0xE3D0 = .Lsm ∧
    flag 0xE3D0 8 = true ∧ operand .Word 0xE3D0 s1 = .ok (p, v) s2 ∧ p = .mem 2 ∧ v = 0x8001 :=
  ⟨_, _, _, _, ⟨rfl, rfl, by decide, _, rfl, rfl⟩, rfl, rfl, rfl, rfl, rfl⟩

/-- LSR of a word in memory, by one. -/
theorem C10_lsr_memory {p : Place} {v : Val .Word} (h : Ready s op s1) (hi : instr op = .Lsm) (hdir : flag op 8 = false)
    (hv : operand .Word op s1 = .ok (p, v) s2) :
    ∃ r sr', IsLsr 1 v s.cpu.regs.sr r sr' ∧ EndsWith C s (writeAt .Word p r (s2.withRegs fun g => { g with sr := sr' })) := by
  have hx := step_ends C h hi (by decide) rfl
  simp only [Spec.exec] at hx
  have := ends_shiftMem h (if_neg (by rw [hdir]; decide)) hv hx
  exact ⟨_, _, isLsr_lsr _ _ _, this⟩

/-- `LSR (A0)`. -/
example : ∃ s1 s2 p v, Ready (Demo.st [0xE2D0, 0x8001] (Demo.regs [] [2])) 0xE2D0 s1 ∧ instr 0xE2D0 = .Lsm ∧
    flag 0xE2D0 8 = false ∧ operand .Word 0xE2D0 s1 = .ok (p, v) s2 ∧ p = .mem 2 ∧ v = 0x8001 :=
  ⟨_, _, _, _, ⟨rfl, rfl, by decide, _, rfl, rfl⟩, rfl, rfl, rfl, rfl, rfl⟩

/-- ASL of a word in memory, by one. -/
theorem C10_asl_memory {p : Place} {v : Val .Word} (h : Ready s op s1) (hi : instr op = .Asm) (hdir : flag op 8 = true)
    (hv : operand .Word op s1 = .ok (p, v) s2) :
    ∃ r sr', IsAsl 1 v s.cpu.regs.sr r sr' ∧ EndsWith C s (writeAt .Word p r (s2.withRegs fun g => { g with sr := sr' })) := by
  have hx := step_ends C h hi (by decide) rfl
  simp only [Spec.exec] at hx
  have := ends_shiftMem h (if_pos hdir) hv hx
  exact ⟨_, _, isAsl_asl _ _ _, this⟩

/-- `ASL (A0)`. -/
example : ∃ s1 s2 p v, Ready (Demo.st [0xE1D0, 0x4001] (Demo.regs [] [2])) 0xE1D0 s1 ∧ instr 0xE1D0 = .Asm ∧
    flag 0xE1D0 8 = true ∧ operand .Word 0xE1D0 s1 = .ok (p, v) s2 ∧ p = .mem 2 ∧ v = 0x4001 :=
  ⟨_, _, _, _, ⟨rfl, rfl, by decide, _, rfl, rfl⟩, rfl, rfl, rfl, rfl, rfl⟩

/-- ASR of a word in memory, by one. -/
theorem C10_asr_memory {p : Place} {v : Val .Word} (h : Ready s op s1) (hi : instr op = .Asm) (hdir : flag op 8 = false)
    (hv : operand .Word op s1 = .ok (p, v) s2) :
    ∃ r sr', IsAsr 1 v s.cpu.regs.sr r sr' ∧ EndsWith C s (writeAt .Word p r (s2.withRegs fun g => { g with sr := sr' })) := by
  have hx := step_ends C h hi (by decide) rfl
  simp only [Spec.exec] at hx
  have := ends_shiftMem h (if_neg (by rw [hdir]; decide)) hv hx
  exact ⟨_, _, isAsr_asr _ _ _, this⟩

/-- `ASR (A0)`. -/
example : ∃ s1 s2 p v, Ready (Demo.st [0xE0D0, 0x8001] (Demo.regs [] [2])) 0xE0D0 s1 ∧ instr 0xE0D0 = .Asm ∧
    flag 0xE0D0 8 = false ∧ operand .Word 0xE0D0 s1 = .ok (p, v) s2 ∧ p = .mem 2 ∧ v = 0x8001 :=
  ⟨_, _, _, _, ⟨rfl, rfl, by decide, _, rfl, rfl⟩, rfl, rfl, rfl, rfl, rfl⟩

/-- A memory operand that cannot be read raises the exception of the access; nothing else changes. -/
theorem C10_operand_error {e : U8} (h : Ready s op s1) (hi : instr op = .Asm ∨ instr op = .Lsm)
    (hv : operand .Word op s1 = .err e s2) : Raises C s e s2 := by
  rcases hi with hi | hi <;>
  · have hx := step_ends C h hi (by decide) rfl
    simp only [Spec.exec] at hx
    exact ends_shiftMem_err hv hx

/-- An odd address. -/
example : ∃ s1 s2, Ready (Demo.st [0xE0D0] (Demo.regs [0] [1])) 0xE0D0 s1 ∧ instr 0xE0D0 = .Asm ∧
    operand .Word 0xE0D0 s1 = .err 3 s2 :=
  ⟨_, _, ⟨rfl, rfl, by decide, _, rfl, rfl⟩, rfl, rfl⟩

end M68k.Props
