import Verif.Lemmas.Manual
import Verif.Props.C26
import Verif.Props.C57
import Verif.Props.C66
/-
C91: the execution times of the MC68000 are those of its User's Manual, which `mc68000.rs` names as its source. `Spec/Manual.lean` has the tables of the manual.
Three families of times differ: the instructions that modify a long in memory take 4 cycles too many, interrupts with a vector of their own 4 cycles too few, and the operand of a CHK or
a division that traps takes no time.
-/
set_option linter.unusedSectionVars false
namespace M68k.Props
open Spec Exec
variable {M : Type} [MemoryAccess M] {C : CpuDetails} {s s' s1 s2 : St M} {op : U16} {c : Nat} {v : U8}

theorem not_extra_of_not_misfit (h : ¬ MovemMisfit op) : movemExtra op.toNat = false := by
  rw [Bool.eq_false_iff]
  exact fun h' => h (movemMisfit_of_extra h')

theorem manual_returned {ws : List U16} (h : Ready s op s1) (hm : ¬ MovemMisfit op) (hf : fetchWords (extensionWords (instr op) op) s1 = .ok ws s2)
    (hr : interpreterException mc68000 s = .ok (c, none) s') :
    c = Manual.time (instr op) op s.cpu.regs ws + 4 * (Manual.modifiesLong (instr op) op).toNat := by
  have hd := decoder_of_not_misfit hm
  by_cases hi : instr op = .Rte
  · rcases C57_rte h hi hr with h1 | ⟨h1, -⟩
    · rw [h1, hi]
      simp only [Manual.time, Manual.modifiesLong, Bool.and_false]
      rfl
    · cases h1
  · rw [C57_completed h hm hi hf hr, ← hd]
    exact as_manual op s.cpu.regs ws (not_extra_of_not_misfit hm)

/-- An instruction that completes takes the time of the manual, unless it modifies a long in memory. All opcodes (but the 32 that are no instruction and are taken for MOVEM, C37), operands and
memories. -/
theorem C91_times_partial {ws : List U16} (h : Ready s op s1) (hm : ¬ MovemMisfit op) (hf : fetchWords (extensionWords (instr op) op) s1 = .ok ws s2)
    (hl : Manual.modifiesLong (instr op) op = false) (hr : interpreterException mc68000 s = .ok (c, none) s') :
    c = Manual.time (instr op) op s.cpu.regs ws := by
  rw [manual_returned h hm hf hr, hl]
  rfl

/-- ADD, SUB, AND, OR, EOR, ADDI, SUBI, ANDI, ORI, EORI, ADDQ, SUBQ, NEG, NEGX and NOT of a long in memory always take 4 cycles more than in the manual: the time of the
second half of the write, which the base time of the manual includes, is added once more. -/
theorem C91_excess {ws : List U16} (h : Ready s op s1) (hm : ¬ MovemMisfit op) (hf : fetchWords (extensionWords (instr op) op) s1 = .ok ws s2)
    (hl : Manual.modifiesLong (instr op) op = true) (hr : interpreterException mc68000 s = .ok (c, none) s') :
    c = Manual.time (instr op) op s.cpu.regs ws + 4 := by
  rw [manual_returned h hm hf hr, hl]
  rfl

/-- `ADD.L D0,(A0)`: 20 cycles in the manual, 24 returned. -/
theorem C91_refuted : ∃ s' : St WordSlice, instr 0xD190 = .Add ∧ Manual.time .Add 0xD190 (Demo.regs [1] [2]) [] = 20 ∧
    interpreterException mc68000 (Demo.st [0xD190, 0, 7] (Demo.regs [1] [2])) = .ok (24, none) s' := ⟨_, rfl, rfl, rfl⟩

/-- An instruction that raises an exception, of any kind but trace, takes no time itself, whatever its operand. -/
theorem C91_trap (h : Ready s op s1) (hv : v ≠ 9) (hr : interpreterException C s = .ok (c, some v) s') : c = 0 := by
  rw [step_finish C h] at hr
  unfold finishStep at hr
  cases hx : Spec.exec C (decoder op) op s1 with
  | ok n t =>
    rw [hx] at hr
    injection hr with h1 _
    injection h1 with _ h2
    split at h2
    · exact absurd (Option.some.inj h2).symm hv
    · cases h2
  | err e t =>
    rw [hx] at hr
    injection hr with h1 _
    injection h1 with h2 _
    exact h2.symm
  | panic => rw [hx] at hr; cases hr

/-- The manual adds the time of the operand to the exception processing of CHK and of a division by zero, and the comments of `execute_chk`, `execute_divs` and `execute_divu` say that it is returned.
`DIVU (A0),D0`, `DIVS (A0),D0` and `CHK (A0),D0`: 4 cycles for `(A0)`, 0 returned. -/
theorem C91_trap_refuted : Manual.ea false 2 0 = 4 ∧ ∃ s1 s2 s3 : St WordSlice, instr 0x80D0 = .Divu ∧ instr 0x81D0 = .Divs ∧ instr 0x4190 = .Chk ∧
    interpreterException mc68000 (Demo.st [0x80D0, 0] (Demo.regs [5] [2])) = .ok (0, some 5) s1 ∧
    interpreterException mc68000 (Demo.st [0x81D0, 0] (Demo.regs [5] [2])) = .ok (0, some 5) s2 ∧
    interpreterException mc68000 (Demo.st [0x4190, 0] (Demo.regs [5] [2])) = .ok (0, some 6) s3 := ⟨rfl, _, _, _, rfl, rfl, rfl, rfl, rfl, rfl⟩

theorem vector_fin : ∀ n : Fin 256, Manual.exceptionTime n.val = none ∨
    Manual.exceptionTime n.val = some (mc68000.vectorExecutionTime (BitVec.ofNat 8 n.val) + if Manual.vectoredInterrupt n.val then 4 else 0) := by decide +kernel

theorem vector_time (v : U8) (t : Nat) (h : Manual.exceptionTime v.toNat = some t) :
    t = mc68000.vectorExecutionTime v + if Manual.vectoredInterrupt v.toNat then 4 else 0 := by
  have hv : BitVec.ofNat 8 v.toNat = v := by rw [BitVec.ofNat_toNat, BitVec.setWidth_eq]
  rcases vector_fin ⟨v.toNat, v.isLt⟩ with h1 | h1
  · rw [h] at h1; cases h1
  · rw [h, hv] at h1; injection h1

/-- The processing of an exception takes the time of the manual, unless it is an interrupt with a vector of its own: the call that enters the exception returns this time
and that of the first instruction of the handler. -/
theorem C91_exception_partial [Ram M] [Writable M] {t : Nat} (ht : Manual.exceptionTime v.toNat = some t) (hv : ¬ Manual.vectoredInterrupt v.toNat)
    (hr : s.cpu.stop = false) (hp : s.cpu.exceptions = [⟨v⟩]) (h0 : v ≠ 0) (hm : ¬ Masked s.cpu.regs.sr.interruptMask v) (he : ¬ Spec.Odd s.cpu.regs.ssp)
    (hframe : Present s.mem (s.cpu.regs.ssp - BitVec.ofNat 32 (frameBytes .MC68000 v)) (frameBytes .MC68000 v)) (hvec : Present s.mem (vectorAddress v) 4) :
    ∃ s', Entered mc68000 v (s.withPending []) s' ∧ interpreterException mc68000 s = later t (interpreterException mc68000 s') := by
  obtain ⟨s', h1, h2⟩ := C26_entry (C := mc68000) hr hp h0 hm he hframe hvec
  refine ⟨s', h1, ?_⟩
  rw [vector_time v t ht, if_neg hv]
  exact h2

/-- The interrupts with a vector of their own, 15 and 64 to 255, take 40 cycles, and 44 in the manual. -/
theorem C91_interrupt [Ram M] [Writable M] (hv : Manual.vectoredInterrupt v.toNat) (hr : s.cpu.stop = false) (hp : s.cpu.exceptions = [⟨v⟩])
    (hm : ¬ Masked s.cpu.regs.sr.interruptMask v) (he : ¬ Spec.Odd s.cpu.regs.ssp)
    (hframe : Present s.mem (s.cpu.regs.ssp - BitVec.ofNat 32 (frameBytes .MC68000 v)) (frameBytes .MC68000 v)) (hvec : Present s.mem (vectorAddress v) 4) :
    Manual.exceptionTime v.toNat = some 44 ∧
    ∃ s', Entered mc68000 v (s.withPending []) s' ∧ interpreterException mc68000 s = later 40 (interpreterException mc68000 s') := by
  have h44 : Manual.exceptionTime v.toNat = some 44 := by
    unfold Manual.exceptionTime
    unfold Manual.vectoredInterrupt at hv
    repeat' split
    all_goals first | rfl | omega
  refine ⟨h44, ?_⟩
  have h0 : v ≠ 0 := by rintro rfl; revert hv; decide
  obtain ⟨s', h1, h2⟩ := C26_entry (C := mc68000) hr hp h0 hm he hframe hvec
  refine ⟨s', h1, ?_⟩
  have := vector_time v 44 h44
  rw [if_pos hv] at this
  rw [show (40 : Nat) = mc68000.vectorExecutionTime v by omega]
  exact h2

/-- The first call on a new core resets it, in the time of the manual, and executes the first instruction. -/
theorem C91_reset {m m1 m2 : M} {ssp pc : U32} {t : Nat} (ht : Manual.exceptionTime 0 = some t) (h0 : MemoryAccess.getLong 0 m = .val ssp m1)
    (h4 : MemoryAccess.getLong 4 m1 = .val pc m2) :
    interpreterException mc68000 ⟨Cpu.new, m⟩ = later t (interpreterException mc68000 (afterReset ⟨Cpu.new, m2⟩ ssp pc)) := by
  injection ht with ht
  subst ht
  exact reset_reads h0 h4

/-- Times of the manual: `MOVE.L (A0)+,-(A1)`, `MOVE.W 4(A0),0x1234.L`, `ADDI.L #1,D0`, `LSL.L #3,D1`, `MOVEM.L (A7)+,D0-D7/A0-A6`, `ADDQ.L #1,(A0)`, `CLR.L (A0)`. -/
example : Manual.time .Move 0x2318 (Demo.regs [] []) [] = 20 ∧ Manual.time .Move 0x33E8 (Demo.regs [] []) [4, 0, 0x1234] = 24 ∧
    Manual.time .Addi 0x0680 (Demo.regs [] []) [0, 1] = 16 ∧ Manual.time .Lsr 0xE789 (Demo.regs [] []) [] = 14 ∧
    Manual.time .Movem 0x4CDF (Demo.regs [] []) [0x7FFF] = 132 ∧ Manual.time .Addq 0x5290 (Demo.regs [] []) [] = 20 ∧ Manual.time .Clr 0x4290 (Demo.regs [] []) [] = 20 := by decide
/-- The hypotheses of `C91_times_partial`: `MOVE.L (A0),-(A1)`, and of `C91_excess`: `NEG.L (A0)`. -/
example : ∃ s1 s2 s', Ready (Demo.st [0x2310, 0, 7, 0, 0] (Demo.regs [] [2, 10])) 0x2310 s1 ∧ ¬ MovemMisfit 0x2310 ∧
    fetchWords (extensionWords (instr 0x2310) 0x2310) s1 = .ok [] s2 ∧ Manual.modifiesLong (instr 0x2310) 0x2310 = false ∧
    interpreterException mc68000 (Demo.st [0x2310, 0, 7, 0, 0] (Demo.regs [] [2, 10])) = .ok (20, none) s' :=
  ⟨_, _, _, ⟨rfl, rfl, by decide, _, rfl, rfl⟩, by unfold MovemMisfit; decide, rfl, rfl, rfl⟩
example : ∃ s1 s2 s', Ready (Demo.st [0x4490, 0, 7] (Demo.regs [] [2])) 0x4490 s1 ∧ ¬ MovemMisfit 0x4490 ∧
    fetchWords (extensionWords (instr 0x4490) 0x4490) s1 = .ok [] s2 ∧ Manual.modifiesLong (instr 0x4490) 0x4490 = true ∧
    interpreterException mc68000 (Demo.st [0x4490, 0, 7] (Demo.regs [] [2])) = .ok (24, none) s' :=
  ⟨_, _, _, ⟨rfl, rfl, by decide, _, rfl, rfl⟩, by unfold MovemMisfit; decide, rfl, rfl, rfl⟩
/-- The hypotheses of `C91_exception_partial`: TRAP #0, and of `C91_interrupt`: vector 64. -/
example : Manual.exceptionTime (32 : U8).toNat = some 34 ∧ ¬ Manual.vectoredInterrupt (32 : U8).toNat ∧ Manual.vectoredInterrupt (64 : U8).toNat ∧
    ∀ v : U8, v = 32 ∨ v = 64 → ∃ s : St WordSlice, s.cpu.stop = false ∧ s.cpu.exceptions = [⟨v⟩] ∧ ¬ Masked s.cpu.regs.sr.interruptMask v ∧ ¬ Spec.Odd s.cpu.regs.ssp ∧
      Present s.mem (s.cpu.regs.ssp - BitVec.ofNat 32 (frameBytes .MC68000 v)) (frameBytes .MC68000 v) ∧ Present s.mem (vectorAddress v) 4 := by
  refine ⟨rfl, by decide, by decide, ?_⟩
  rintro v (rfl | rfl)
  all_goals
    refine ⟨(Demo.ram [0, 0] 140 { Demo.regs [] [] with ssp := 0x98 }).withPending [⟨_⟩], rfl, rfl, by decide, by decide, ?_, ?_⟩
    · intro k hk
      have hk : k < 6 := hk
      obtain e | e | e | e | e | e : k = 0 ∨ k = 1 ∨ k = 2 ∨ k = 3 ∨ k = 4 ∨ k = 5 := by omega
      all_goals (subst e; rfl)
    · intro k hk
      obtain e | e | e | e : k = 0 ∨ k = 1 ∨ k = 2 ∨ k = 3 := by omega
      all_goals (subst e; rfl)
/-- The hypotheses of `C91_reset`. -/
example : Manual.exceptionTime 0 = some 40 ∧ MemoryAccess.getLong 0 (Demo.st [0, 0x100, 0, 8, 0x4E71] (Demo.regs [] [])).mem =
      .val 0x100 (Demo.st [0, 0x100, 0, 8, 0x4E71] (Demo.regs [] [])).mem ∧
    MemoryAccess.getLong 4 (Demo.st [0, 0x100, 0, 8, 0x4E71] (Demo.regs [] [])).mem = .val 8 (Demo.st [0, 0x100, 0, 8, 0x4E71] (Demo.regs [] [])).mem := ⟨rfl, rfl, rfl⟩

end M68k.Props
