import Verif.Lemmas.AccessExec
import Verif.Props.C24
import Verif.Props.C41
/-
C56: the memory accesses of an instruction. A call of `interpreter_exception` reads the words of the instruction in order and then makes the accesses
that `accesses` (Spec/Access.lean) lists, in that order: their kinds, sizes and addresses are functions of the opcode, the extension words and the
registers before the instruction. `Traced M` is any memory with a record of the accesses, the latest first.
-/
set_option linter.unusedSectionVars false
namespace M68k.Props
open Spec Exec
variable {M : Type} [MemoryAccess M] {C : CpuDetails} {s s' s1 s2 : St (Traced M)} {op : U16} {c : Nat} {e : Option U8}

theorem traced_fetch {w : U16} (h : Spec.fetch s = .ok w s2) : s2.mem.log = ⟨false, .Word, s.cpu.regs.pc⟩ :: s.mem.log := by
  obtain ⟨-, m, h4, rfl⟩ := fetch_ok' h
  have h5 : s.mem.note ⟨false, .Word, s.cpu.regs.pc⟩ (MemoryAccess.getWord s.cpu.regs.pc s.mem.mem) = .val w m := h4
  cases hg : MemoryAccess.getWord s.cpu.regs.pc s.mem.mem <;> rw [hg] at h5 <;> cases h5 <;> rfl

theorem wordAccesses_succ (pc : U32) (n : Nat) : wordAccesses pc (n + 1) = ⟨false, .Word, pc⟩ :: wordAccesses (pc + 2) n := by
  unfold wordAccesses
  rw [List.range_succ_eq_map, List.map_cons, List.map_map]
  congr 1
  · simp
  · apply List.map_congr_left
    intro k _
    simp only [Function.comp, BitVec.add_assoc]
    congr 2
    apply BitVec.eq_of_toNat_eq
    simp only [BitVec.toNat_add, BitVec.toNat_ofNat, BitVec.ofNat_eq_ofNat]
    omega

theorem traced_words {k : Nat} {ws : List U16} (h : fetchWords k s = .ok ws s2) :
    s2.mem.log.reverse = s.mem.log.reverse ++ wordAccesses s.cpu.regs.pc k := by
  induction k generalizing s ws with
  | zero => cases h; simp [wordAccesses]
  | succ k ih =>
    simp only [fetchWords] at h
    obtain ⟨w, s3, h1, h2⟩ := bind_ok h
    obtain ⟨ws', s4, h3, h4⟩ := bind_ok h2
    cases h4
    have hpc : s3.cpu.regs.pc = s.cpu.regs.pc + 2 := by obtain ⟨-, m, -, rfl⟩ := fetch_ok' h1; rfl
    rw [ih h3, traced_fetch h1, hpc, wordAccesses_succ]
    simp

/-- The opcode and the extension words. -/
theorem traced_instruction {k : Nat} {ws : List U16} (h : Ready s op s1) (hf : fetchWords k s1 = .ok ws s2) :
    s2.mem.log.reverse = s.mem.log.reverse ++ wordAccesses s.cpu.regs.pc (k + 1) := by
  rw [traced_words hf]
  obtain ⟨-, -, -, m, h4, rfl⟩ := h
  have h5 : s.mem.note ⟨false, .Word, s.cpu.regs.pc⟩ (MemoryAccess.getWord s.cpu.regs.pc s.mem.mem) = .val op m := h4
  have h6 : m.log = ⟨false, .Word, s.cpu.regs.pc⟩ :: s.mem.log := by
    cases hg : MemoryAccess.getWord s.cpu.regs.pc s.mem.mem <;> rw [hg] at h5 <;> cases h5 <;> rfl
  rw [wordAccesses_succ]
  simp [h6]

/-- The accesses of an instruction, except those of a privileged instruction in user mode: the words of the instruction, then the listed accesses,
all of them unless one is refused by the memory or would be at an odd address. -/
theorem C56_accesses {ws : List U16} (h : Ready s op s1) (hm : ¬ MovemMisfit op) (hp : Privileged (instr op) → s.cpu.regs.sr.s = true)
    (hf : fetchWords (extensionWords (instr op) op) s1 = .ok ws s2) (hr : interpreterException C s = .ok (c, e) s') :
    ∃ d, s'.mem.log.reverse = s.mem.log.reverse ++ wordAccesses s.cpu.regs.pc (extensionWords (instr op) op + 1) ++ d ∧
      EndsAfter (accesses C.STACK_FORMAT (instr op) op (s.cpu.regs.pc + 2) s.cpu.regs ws) d e := by
  have h0 := traced_instruction h hf
  have hd := decoder_of_not_misfit hm
  rw [← h0]
  rw [← hd] at hf hp ⊢
  have hx := acc (M := M) (C := C) (decoder_legal op) s1
  rw [hf] at hx
  obtain ⟨z, hz, hx⟩ := hx
  have hc : s2.cpu = { s1.cpu with regs := { s1.cpu.regs with pc := s1.cpu.regs.pc + BitVec.ofNat 32 (2 * extensionWords (decoder op) op) } } := fetchWords_cpu hf
  have h4 := hz s2 (fun hi => by
    rw [hc]
    obtain ⟨-, -, -, m, -, rfl⟩ := h
    exact hp ((privileged_iff _).1 hi))
  have h5 : accesses C.STACK_FORMAT (decoder op) op s1.cpu.regs.pc s2.cpu.regs ws = accesses C.STACK_FORMAT (decoder op) op (s.cpu.regs.pc + 2) s.cpu.regs ws := by
    rw [hc]
    obtain ⟨-, -, -, m, -, rfl⟩ := h
    rw [accesses_withPc]
    exact accesses_withPc _ _ _ _ _ _ _
  rw [h5] at h4
  unfold AccAt at h4
  rw [← hx] at h4
  rw [step_finish C h] at hr
  unfold finishStep at hr
  cases hy : Spec.exec C (decoder op) op s1 with
  | ok c' s3 =>
    rw [hy] at h4 hr
    cases hr
    exact ⟨_, by rw [h4]; simp, .inr (.inr rfl)⟩
  | err v s3 =>
    rw [hy] at h4 hr
    cases hr
    obtain ⟨d, h6, h7⟩ := h4
    refine ⟨d, by rw [h7]; simp, ?_⟩
    rcases h6 with ⟨h8, h9⟩ | ⟨h8, h9⟩ | ⟨-, h9⟩
    · exact .inl ⟨by rw [h8], h9⟩
    · exact .inr (.inl ⟨by rw [h8], h9⟩)
    · exact .inr (.inr h9)
  | panic => rw [hy] at hr; cases hr

/-- A completed instruction makes all of its accesses. -/
theorem C56_completed {ws : List U16} (h : Ready s op s1) (hm : ¬ MovemMisfit op) (hp : Privileged (instr op) → s.cpu.regs.sr.s = true)
    (hf : fetchWords (extensionWords (instr op) op) s1 = .ok ws s2) (hr : interpreterException C s = .ok (c, none) s') :
    s'.mem.log.reverse = s.mem.log.reverse ++ wordAccesses s.cpu.regs.pc (extensionWords (instr op) op + 1) ++
      accesses C.STACK_FORMAT (instr op) op (s.cpu.regs.pc + 2) s.cpu.regs ws := by
  obtain ⟨d, h1, h2⟩ := C56_accesses h hm hp hf hr
  rcases h2 with ⟨h2, -⟩ | ⟨h2, -⟩ | h2
  · cases h2
  · cases h2
  · rw [h1, h2]

/-- A privileged instruction in user mode makes none but the reads of its words. -/
theorem C56_privileged {ws : List U16} (h : Ready s op s1) (hp : Privileged (instr op)) (hu : s.cpu.regs.sr.s = false)
    (hf : fetchWords (extensionWords (instr op) op) s1 = .ok ws s2) (hr : interpreterException C s = .ok (c, e) s') :
    s'.mem.log.reverse = s.mem.log.reverse ++ wordAccesses s.cpu.regs.pc (extensionWords (instr op) op + 1) := by
  have h1 : interpreterException C s = .ok (0, some 8) s2 := C24_traps h hp hu hf
  rw [hr] at h1
  cases h1
  exact traced_instruction h hf

/-- `MOVE.W (A0)+,4(A0)`; `ADDX.B -(A1),-(A1)`; `MOVEM.W D0/D1/D7,-(A7)`; `CLR.L d16(A0)`, which does not read; `BSET D0,(A0)`; RTE on both processors. -/
example : accesses .MC68000 .Move 0x3158 2 (Demo.regs [] [0x100]) [4] = [⟨false, .Word, 0x100⟩, ⟨true, .Word, 0x106⟩] ∧
    accesses .MC68000 .Addx 0xD309 2 (Demo.regs [] [0, 0x100]) [] = [⟨false, .Byte, 0xFF⟩, ⟨false, .Byte, 0xFE⟩, ⟨true, .Byte, 0xFE⟩] ∧
    accesses .MC68000 .Movem 0x48A7 2 (Demo.regs [] [0, 0, 0, 0, 0, 0, 0, 0x1000]) [0xC100] = [⟨true, .Word, 0xFFE⟩, ⟨true, .Word, 0xFFC⟩, ⟨true, .Word, 0xFFA⟩] ∧
    accesses .MC68000 .Clr 0x42A8 2 (Demo.regs [] [0x100]) [0xFFFE] = [⟨true, .Long, 0xFE⟩] ∧
    accesses .MC68000 .Bset 0x01D0 2 (Demo.regs [] [0x100]) [] = [⟨false, .Byte, 0x100⟩, ⟨true, .Byte, 0x100⟩] ∧
    accesses .MC68000 .Rte 0x4E73 2 (Demo.regs [] []) [] = [⟨false, .Word, 0⟩, ⟨false, .Long, 2⟩] ∧
    accesses .SCC68070 .Rte 0x4E73 2 (Demo.regs [] []) [] = [⟨false, .Word, 0⟩, ⟨false, .Long, 2⟩, ⟨false, .Word, 6⟩] := by decide
/-- `MOVE.W 6(PC),D0` at 0 reads the word at 2 + 6; `MOVEM.W 6(PC),D0/D1` at 0 reads from 4 + 6. -/
example : accesses .MC68000 .Move 0x303A 2 (Demo.regs [] []) [6] = [⟨false, .Word, 8⟩] ∧ accesses .MC68000 .Movem 0x4CBA 2 (Demo.regs [] []) [3, 6] =
    [⟨false, .Word, 10⟩, ⟨false, .Word, 12⟩] := by decide
/-- `ADDI.W #5,(8).W` in memory; and `MOVE.W (8).W,(9).W`, whose write would be at an odd address. -/
example : (∃ s1 s2 c s', Ready (M := Traced WordSlice) { Demo.st [] (Demo.regs [] []) with mem := ⟨⟨[0x0678, 5, 8, 0, 0x1234]⟩, []⟩ } 0x0678 s1 ∧
      ¬ MovemMisfit 0x0678 ∧ (Privileged (instr 0x0678) → (Demo.regs [] []).sr.s = true) ∧ fetchWords (extensionWords (instr 0x0678) 0x0678) s1 = .ok [5, 8] s2 ∧
      interpreterException (M := Traced WordSlice) mc68000 { Demo.st [] (Demo.regs [] []) with mem := ⟨⟨[0x0678, 5, 8, 0, 0x1234]⟩, []⟩ } = .ok (c, none) s' ∧
      s'.mem.log.reverse = [⟨false, .Word, 0⟩, ⟨false, .Word, 2⟩, ⟨false, .Word, 4⟩, ⟨false, .Word, 8⟩, ⟨true, .Word, 8⟩]) ∧
    ∃ s1 s2 c s', Ready (M := Traced WordSlice) { Demo.st [] (Demo.regs [] []) with mem := ⟨⟨[0x31F8, 8, 9, 0, 0x1234]⟩, []⟩ } 0x31F8 s1 ∧
      ¬ MovemMisfit 0x31F8 ∧ (Privileged (instr 0x31F8) → (Demo.regs [] []).sr.s = true) ∧ fetchWords (extensionWords (instr 0x31F8) 0x31F8) s1 = .ok [8, 9] s2 ∧
      interpreterException (M := Traced WordSlice) mc68000 { Demo.st [] (Demo.regs [] []) with mem := ⟨⟨[0x31F8, 8, 9, 0, 0x1234]⟩, []⟩ } = .ok (c, some 3) s' ∧
      s'.mem.log.reverse = [⟨false, .Word, 0⟩, ⟨false, .Word, 2⟩, ⟨false, .Word, 4⟩, ⟨false, .Word, 8⟩] :=
  ⟨⟨_, _, _, _, ⟨rfl, rfl, by decide, _, rfl, rfl⟩, by unfold MovemMisfit; decide, by decide, rfl, rfl, rfl⟩,
   _, _, _, _, ⟨rfl, rfl, by decide, _, rfl, rfl⟩, by unfold MovemMisfit; decide, by decide, rfl, rfl, rfl⟩

end M68k.Props
