import Verif.Lemmas.FaultExec
import Verif.Props.C55
import Verif.Props.DemoRam
/-
C76: what an instruction that ends with an exception leaves behind. `loadsEarly`, `movesEarly`, `flagsEarly`, `writesEarly` and `Left` (Spec/Fault.lean) say by
opcode which registers, condition codes and bytes of memory may already have changed.
-/
namespace M68k.Props
open Spec Exec
variable {M : Type} [MemoryAccess M] {C : CpuDetails} {s s' s1 : St M} {op : U16} {v : U8}

/-- A call that reports no trace exception and takes no time is one of an instruction that failed. -/
theorem exec_of_raises (h : Ready s op s1) (hr : Raises C s v s') (hv : v ≠ 9) : Spec.exec C (decoder op) op s1 = .err v s' := by
  unfold Raises at hr
  rw [step_finish C h] at hr
  unfold finishStep at hr
  cases hx : Spec.exec C (decoder op) op s1 with
  | ok c' s2 =>
    rw [hx] at hr
    injection hr with h1 h2
    injection h1 with h3 h4
    exfalso
    revert h4
    split
    · intro h4; injection h4 with h4; exact hv h4.symm
    · intro h4; cases h4
  | err v' s2 => rw [hx] at hr; cases hr; rfl
  | panic => rw [hx] at hr; cases hr

theorem before_opcode {d a : Fin 8 → Bool} {f w : Bool} (h : Ready s op s1) : Before d a f w s s1 := by
  obtain ⟨m, h1, rfl⟩ := h.opcode
  exact ⟨fun _ _ => rfl, fun _ _ => rfl, fun _ => ⟨rfl, rfl⟩, fun _ => rfl, fun _ => ⟨rfl, rfl, rfl⟩, rfl, rfl, fun _ => .word (.refl _) h.even (.inr ⟨_, h1⟩)⟩

theorem raises_left (h : Ready s op s1) (hr : Raises C s v s') (hv : v ≠ 9) :
    Left (loadsEarly (decoder op) op) (movesEarly (decoder op) op) (flagsEarly (decoder op) op) (writesEarly (decoder op) op) s s' := by
  have h1 := final_exec (M := M) C op (decoder op) s1
  rw [exec_of_raises h hr hv] at h1
  exact (before_opcode h).left h1

/-- An instruction that ends with an exception has changed no data register, no address register, no condition code and no byte of memory but those listed
for its opcode. Everywhere else the last access, which is the one that failed, came first. -/
theorem C76_left (h : Ready s op s1) (hm : ¬ MovemMisfit op) (hr : Raises C s v s') (hv : v ≠ 9) :
    Left (loadsEarly (instr op) op) (movesEarly (instr op) op) (flagsEarly (instr op) op) (writesEarly (instr op) op) s s' := by
  rw [← decoder_of_not_misfit hm]
  exact raises_left h hr hv

/-- The 32 opcodes that the decoder takes as MOVEM fail as MOVEM does. -/
theorem C76_misfit (h : Ready s op s1) (hm : MovemMisfit op) (hr : Raises C s v s') (hv : v ≠ 9) :
    Left (loadsEarly .Movem op) (movesEarly .Movem op) (flagsEarly .Movem op) (writesEarly .Movem op) s s' := by
  have := raises_left h hr hv
  rwa [decoder_of_misfit hm] at this

/-- The program counter is the one of the next instruction, also if it is a branch, a call or a return that failed. RTE on an SCC68070, which loads it before it
reads the last word of the frame, is the exception. -/
theorem C76_pc (h : Ready s op s1) (hm : ¬ MovemMisfit op) (hr : Raises C s v s') (hv : v ≠ 9) (hf : instr op = .Rte → C.STACK_FORMAT = .MC68000) :
    s'.cpu.regs.pc = s.cpu.regs.pc + 2 + BitVec.ofNat 32 (2 * extensionWords (instr op) op) := by
  cases hb : branches (instr op) with
  | false => exact C40_length h hm hb hr
  | true =>
    have hx := exec_of_raises h hr hv
    rw [← decoder_of_not_misfit hm] at hb hf ⊢
    have h1 := ErrPc.exec (M := M) C op (decoder op) hb (decoder_legal op) hf s1
    cases hw : fetchWords (extensionWords (decoder op) op) s1 with
    | ok ws s2 =>
      rw [hw] at h1
      obtain ⟨z, h2, h3⟩ := h1
      have h4 := h2 s2
      rw [← h3, hx] at h4
      rw [h4, fetchWords_cpu hw]
      simp [h.pc]
    | err v' s2 => rw [hw] at h1; exact h1.elim
    | panic => rw [hw] at h1; simp only at h1; rw [hx] at h1; cases h1

/-- If nothing is done early, all registers but the program counter are as before the instruction. -/
theorem C76_registers (h : Ready s op s1) (hm : ¬ MovemMisfit op) (hr : Raises C s v s') (hv : v ≠ 9) (he : AllAtTheEnd (instr op) op) :
    s'.cpu.regs = { s.cpu.regs with pc := s'.cpu.regs.pc } := by
  have hl := C76_left h hm hr hv
  obtain ⟨h1, h2, h3, -⟩ := he
  have e (r r' : Registers) (e1 : ∀ n, r'.d n = r.d n) (e2 : ∀ n, r'.a n = r.a n) (e3 : r'.usp = r.usp ∧ r'.ssp = r.ssp) (e4 : r'.sr = r.sr) :
      r' = { r with pc := r'.pc } := by
    rw [← funext e1, ← funext e2, ← e3.1, ← e3.2, ← e4]
  exact e _ _ (fun n => hl.data n (h1 n)) (fun n => hl.address n (h2 _)) (hl.stack (h2 7)) (hl.flags h3)

/-- In the memories of the library the memory is then as before the instruction, or the instruction wrote a long word of which only the first word is there. -/
theorem C76_memory [Ram M] [Strict M] (h : Ready s op s1) (hm : ¬ MovemMisfit op) (hr : Raises C s v s') (hv : v ≠ 9) (hw : writesEarly (instr op) op = false) :
    s'.mem = s.mem ∨ ∃ a x, MemoryAccess.setLong a x s.mem = .none s'.mem ∧ MemoryAccess.setWord a (BitVec.ofNat 16 (x.toNat / 65536)) s.mem = .val () s'.mem := by
  obtain ⟨m, h1, h2⟩ := (C76_left h hm hr hv).memory hw
  have h3 := reads_ram h1
  subst h3
  rcases h2 with h2 | ⟨sz, a, x, h2⟩
  · exact .inl h2
  · cases sz with
    | Byte => exact .inl (Strict.byte h2)
    | Word => exact .inl (Strict.word h2)
    | Long => exact (Strict.long h2).imp id fun h4 => ⟨a, x, h2, h4⟩

theorem strictOfDefault (hb : ∀ {a : U32} {v : U8} {m m' : M}, MemoryAccess.setByte a v m = .none m' → m' = m)
    (hw : ∀ {a : U32} {v : U16} {m m' : M}, MemoryAccess.setWord a v m = .none m' → m' = m)
    (hl : ∀ (a v : U32) (m : M), MemoryAccess.setLong a v m = match MemoryAccess.setWord a (toU16 (v >>> 16)) m with
      | .val _ m1 => MemoryAccess.setWord (a + 2) (toU16 v) m1
      | .none m1 => .none m1
      | .panic => .panic) : Strict M where
  byte := hb
  word := hw
  long {a v m m'} h := by
    rw [hl] at h
    have hv : toU16 (v >>> 16) = BitVec.ofNat 16 (v.toNat / 65536) := by
      apply BitVec.eq_of_toNat_eq
      simp [toU16, Nat.shiftRight_eq_div_pow]
    rw [hv] at h
    cases hs : MemoryAccess.setWord a (BitVec.ofNat 16 (v.toNat / 65536)) m with
    | val u m1 => rw [hs] at h; exact .inr (by rw [hw h])
    | none m1 => rw [hs] at h; cases h; exact .inl (hw hs)
    | panic => rw [hs] at h; cases h

instance : Strict FullRam := strictOfDefault (fun h => by cases h) (fun h => by cases h) fun _ _ _ => rfl
instance : Strict ByteSlice := strictOfDefault
  (fun h => by
    simp only [MemoryAccess.setByte, byteSliceSetByte] at h
    split at h <;> cases h
    rfl)
  (fun h => by
    simp only [MemoryAccess.setWord, byteSliceSetWord] at h
    split at h
    · split at h <;> cases h
      try rfl
    · cases h; rfl)
  fun _ _ _ => rfl
instance : Strict WordSlice := strictOfDefault
  (fun h => by
    simp only [MemoryAccess.setByte, wordSliceSetByte] at h
    split at h
    · split at h <;> cases h
    · cases h; rfl)
  (fun h => by
    simp only [MemoryAccess.setWord, wordSliceSetWord] at h
    split at h <;> cases h
    rfl)
  fun _ _ _ => rfl

/-- `TRAP #3` changes nothing, `CHK (A0)+,D1` with D1 negative moves A0. -/
example : (∃ s1 s', Ready (Demo.st [0x4E43] (Demo.regs [7] [8])) 0x4E43 s1 ∧ ¬ MovemMisfit 0x4E43 ∧ Raises mc68000 (Demo.st [0x4E43] (Demo.regs [7] [8])) 35 s' ∧
      AllAtTheEnd (instr 0x4E43) 0x4E43 ∧ s'.cpu.regs.pc = 2 ∧ s'.cpu.regs.d 0 = 7) ∧
    ∃ s1 s', Ready (Demo.st [0x4398, 5] (Demo.regs [0, 0xFFFF] [2])) 0x4398 s1 ∧ Raises mc68000 (Demo.st [0x4398, 5] (Demo.regs [0, 0xFFFF] [2])) 6 s' ∧
      movesEarly (instr 0x4398) 0x4398 0 = true ∧ movesEarly (instr 0x4398) 0x4398 1 = false ∧ s'.cpu.regs.a 0 = 4 :=
  ⟨⟨_, _, ⟨rfl, rfl, by decide, _, rfl, rfl⟩, by unfold MovemMisfit; decide, rfl, by decide, rfl, rfl⟩,
   _, _, ⟨rfl, rfl, by decide, _, rfl, rfl⟩, rfl, by decide, by decide, rfl⟩

/-- `MOVE.L D0,(A0)` with A0 at the last word of the memory: access error, but the first word is written. -/
example : ∃ s1 s', Ready (Demo.st [0x2080, 0] (Demo.regs [0x12345678] [2])) 0x2080 s1 ∧ ¬ MovemMisfit 0x2080 ∧
    Raises mc68000 (Demo.st [0x2080, 0] (Demo.regs [0x12345678] [2])) 2 s' ∧ writesEarly (instr 0x2080) 0x2080 = false ∧ s'.mem.words = [0x2080, 0x1234] :=
  ⟨_, _, ⟨rfl, rfl, by decide, _, rfl, rfl⟩, by unfold MovemMisfit; decide, rfl, by decide, rfl⟩

/-- `MOVEM.W (A0)+,D0-D1` with A0 at the last word of the memory: D0 is loaded, D1 and A0 are as before. -/
example : ∃ s1 s', Ready (Demo.st [0x4C98, 3, 0x1234] (Demo.regs [7, 8] [4])) 0x4C98 s1 ∧ ¬ MovemMisfit 0x4C98 ∧
    Raises mc68000 (Demo.st [0x4C98, 3, 0x1234] (Demo.regs [7, 8] [4])) 2 s' ∧ loadsEarly (instr 0x4C98) 0x4C98 0 = true ∧ s'.cpu.regs.d 0 = 0x1234 ∧ s'.cpu.regs.d 1 = 8 ∧
    s'.cpu.regs.a 0 = 4 :=
  ⟨_, _, ⟨rfl, rfl, by decide, _, rfl, rfl⟩, by unfold MovemMisfit; decide, rfl, by decide, rfl, rfl, rfl⟩

/-- `BSR` with the stack outside the memory: the program counter is the one of the next instruction and the stack pointer is decremented. -/
example : ∃ s1 s', Ready (Demo.st [0x6100, 0x10] { Demo.regs [] [] with usp := 0x100 }) 0x6100 s1 ∧ ¬ MovemMisfit 0x6100 ∧
    Raises mc68000 (Demo.st [0x6100, 0x10] { Demo.regs [] [] with usp := 0x100 }) 2 s' ∧ branches (instr 0x6100) = true ∧ s'.cpu.regs.pc = 4 ∧ s'.cpu.regs.usp = 0xFC :=
  ⟨_, _, ⟨rfl, rfl, by decide, _, rfl, rfl⟩, by unfold MovemMisfit; decide, rfl, rfl, rfl, rfl⟩

/-- `RTE` on an SCC68070 with a frame of format 1: the program counter is already the one of the frame. -/
example : ∃ s1 s', Ready (Demo.st [0x4E73, 0x2000, 0, 0x40, 0x1000] { Demo.regs [] [] with ssp := 2, sr := StatusRegister.default }) 0x4E73 s1 ∧
    Raises scc68070 (Demo.st [0x4E73, 0x2000, 0, 0x40, 0x1000] { Demo.regs [] [] with ssp := 2, sr := StatusRegister.default }) 14 s' ∧ s'.cpu.regs.pc = 0x40 ∧ s'.cpu.regs.ssp = 10 :=
  ⟨_, _, ⟨rfl, rfl, by decide, _, rfl, rfl⟩, rfl, rfl, rfl⟩

/-- `MOVEM.L (A0)+,D0` written with the opcode of a store, `$48D8`, to a missing address. -/
example : ∃ s1 s', MovemMisfit 0x48D8 ∧ Ready (Demo.st [0x48D8, 1] (Demo.regs [7] [0x100])) 0x48D8 s1 ∧ Raises mc68000 (Demo.st [0x48D8, 1] (Demo.regs [7] [0x100])) 2 s' ∧
    s'.cpu.regs.a 0 = 0x100 :=
  ⟨_, _, by unfold MovemMisfit; decide, ⟨rfl, rfl, by decide, _, rfl, rfl⟩, rfl, rfl⟩

end M68k.Props
