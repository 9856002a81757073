import Verif.Lemmas.Length
import Verif.Props.C38
import Verif.Lemmas.Takes
/-
C40: the length of an instruction. `extensionWords i op` (Spec/Length.lean) is the number of words after the opcode;
`Feeds` (Spec/Words.lean) are the words that an iterator over the memory reads.
-/
namespace M68k.Props
open Spec Exec
variable {M : Type} [MemoryAccess M] {C : CpuDetails} {s s' s1 s2 : St M} {op : U16} {c : Nat} {e : Option U8}

theorem decoder_of_not_misfit (hm : ¬ MovemMisfit op) : decoder op = instr op := by
  have hd := decoder_of_check mapCheck mapCheck_all op
  unfold mapCheck at hd
  rw [if_neg fun hc => hm (movemMisfit_of_extra hc)] at hd
  exact beq_iff_eq.mp hd

theorem decoder_of_misfit (hm : MovemMisfit op) : decoder op = .Movem := by
  have hd := decoder_of_check mapCheck mapCheck_all op
  unfold mapCheck at hd
  rw [if_pos (extra_of_misfit hm), Bool.and_eq_true] at hd
  exact beq_iff_eq.mp hd.1

theorem step_pc (h : Ready s op s1) (hb : branches (decoder op) = false) (hr : interpreterException C s = .ok (c, e) s') :
    s'.cpu.regs.pc = s.cpu.regs.pc + 2 + BitVec.ofNat 32 (2 * extensionWords (decoder op) op) := by
  rcases step_split legal_keepsPc C h (fun _ => trivial) (fun _ => trivial) (fun h => by rw [hb] at h; cases h) (fun _ => trivial) with
    ⟨ws, s2, z, hf, hz, hx⟩ | ⟨-, hp⟩
  · have h2 := hz s2
    rw [← hx] at h2
    have h3 := fetchWords_cpu hf
    rcases step_result h hr with ⟨c', h4⟩ | ⟨v, h4⟩ <;> rw [h4] at h2 <;> rw [h2, h3] <;> simp [h.pc]
  · rw [hp] at hr; cases hr

/-- After an instruction that is not a branch, whether it completes or ends with an exception, the program counter is
past the opcode and its extension words: it is at the next instruction. -/
theorem C40_length (h : Ready s op s1) (hm : ¬ MovemMisfit op) (hb : branches (instr op) = false)
    (hr : interpreterException C s = .ok (c, e) s') :
    s'.cpu.regs.pc = s.cpu.regs.pc + 2 + BitVec.ofNat 32 (2 * extensionWords (instr op) op) := by
  have hd := decoder_of_not_misfit hm
  rw [← hd] at hb ⊢
  exact step_pc h hb hr

/-- The 32 opcodes that the decoder takes as MOVEM have the length of a MOVEM. -/
theorem C40_misfit (h : Ready s op s1) (hm : MovemMisfit op) (hr : interpreterException C s = .ok (c, e) s') :
    s'.cpu.regs.pc = s.cpu.regs.pc + 2 + BitVec.ofNat 32 (2 * extensionWords .Movem op) := by
  have hd := decoder_of_misfit hm
  have := step_pc h (by rw [hd]; rfl) hr
  rwa [hd] at this

/-- No instruction is longer than five words. -/
theorem C40_bounded (op : U16) : extensionWords (instr op) op ≤ 4 := by
  have he : ∀ imm mode reg, imm ≤ 2 → eaWords imm mode reg ≤ 2 := by
    intro imm mode reg h
    unfold eaWords
    split <;> omega
  have h1 : ∀ imm, imm ≤ 2 → opEaWords imm op ≤ 2 := fun imm h => he _ _ _ h
  have h2 : sizedImm op ≤ 2 := by unfold sizedImm; split <;> omega
  have h3 : moveImm op ≤ 2 := by unfold moveImm; split <;> omega
  have h4 := h1 _ h2
  have h5 := h1 _ h3
  have h6 := h1 1 (by omega)
  have h7 := h1 0 (by omega)
  have h8 := he (moveImm op) (op.toNat / 64 % 8) (op.toNat / 512 % 8) h3
  have h9 := h1 (if flag op 8 = true then 2 else 1) (by split <;> omega)
  unfold extensionWords
  split <;> first | omega | (split <;> omega)

/-- The program counter after the extension words are read is the one of the next instruction, also for a branch. -/
theorem C40_branch (h : Ready s op s1) (hm : ¬ MovemMisfit op) (hr : interpreterException C s = .ok (c, e) s') :
    ∃ ws s2, fetchWords (extensionWords (instr op) op) s1 = .ok ws s2 ∧
      s2.cpu.regs.pc = s.cpu.regs.pc + 2 + BitVec.ofNat 32 (2 * extensionWords (instr op) op) := by
  have hd := decoder_of_not_misfit hm
  rcases step_split (legal_noPanic (M := M) (I := fun _ => False) ⟨fun _ _ _ _ h => h.elim, fun _ _ _ _ _ h => h.elim, fun _ h => h⟩) C h
    (fun _ => trivial) (fun _ => trivial) (fun h => trivial) (fun _ => trivial) with ⟨ws, s2, z, hf, -, -⟩ | ⟨-, hp⟩
  · rw [hd] at hf
    refine ⟨ws, s2, hf, ?_⟩
    rw [fetchWords_cpu hf]
    simp [h.pc]
  · rw [hp] at hr; cases hr

/-- `MOVE.L #$12345678,$10(A0)`, `ADDI.W #1,$10.L` on a missing address, `MULU #3,D0`. -/
example : (∃ s1 c e s', Ready (Demo.st [0x217C, 0x1234, 0x5678, 0x10, 0, 0, 0, 0, 0, 0] (Demo.regs [] [])) 0x217C s1 ∧ ¬ MovemMisfit 0x217C ∧
      branches (instr 0x217C) = false ∧ interpreterException mc68000 (Demo.st [0x217C, 0x1234, 0x5678, 0x10, 0, 0, 0, 0, 0, 0] (Demo.regs [] [])) = .ok (c, e) s' ∧
      extensionWords (instr 0x217C) 0x217C = 3 ∧ s'.cpu.regs.pc = 8) ∧
    (∃ s1 c s', Ready (Demo.st [0x0679, 1, 0, 0x10] (Demo.regs [] [])) 0x0679 s1 ∧
      interpreterException mc68000 (Demo.st [0x0679, 1, 0, 0x10] (Demo.regs [] [])) = .ok (c, some 2) s' ∧
      extensionWords (instr 0x0679) 0x0679 = 3 ∧ s'.cpu.regs.pc = 8) ∧
    ∃ s1 c e s', Ready (Demo.st [0xC0FC, 3] (Demo.regs [7] [])) 0xC0FC s1 ∧ interpreterException scc68070 (Demo.st [0xC0FC, 3] (Demo.regs [7] [])) = .ok (c, e) s' ∧
      extensionWords (instr 0xC0FC) 0xC0FC = 1 ∧ s'.cpu.regs.pc = 4 :=
  ⟨⟨_, _, _, _, ⟨rfl, rfl, by decide, _, rfl, rfl⟩, by unfold MovemMisfit; decide, rfl, rfl, rfl, rfl⟩,
   ⟨_, _, _, ⟨rfl, rfl, by decide, _, rfl, rfl⟩, rfl, rfl, rfl⟩, _, _, _, _, ⟨rfl, rfl, by decide, _, rfl, rfl⟩, rfl, rfl, rfl⟩
/-- `MOVEM.L D0,(A0)+`. -/
example : ∃ s1 c e s', MovemMisfit 0x48D8 ∧ Ready (Demo.st [0x48D8, 1, 0, 0] (Demo.regs [0x12345678] [4])) 0x48D8 s1 ∧
    interpreterException mc68000 (Demo.st [0x48D8, 1, 0, 0] (Demo.regs [0x12345678] [4])) = .ok (c, e) s' :=
  ⟨_, _, _, _, by unfold MovemMisfit; decide, ⟨rfl, rfl, by decide, _, rfl, rfl⟩, rfl⟩

/-- The instruction decoder, used by the disassembling interpreter, reads the opcode and exactly its extension words. -/
theorem C40_decoder {it it' : Iter M} {i : Instruction} (h : Instruction.fromMemory it = .ok i it') (hm : ¬ MovemMisfit i.opcode) :
    ∃ ws, Feeds it (i.opcode :: ws) it' ∧ ws.length = extensionWords (instr i.opcode) i.opcode ∧ i.pc = it.nextAddr := by
  rw [← decoder_of_not_misfit hm]
  exact fromMemory_words h

/-- So the iterator is left at the next instruction. -/
theorem C40_decoder_next {it it' : Iter M} {i : Instruction} (h : Instruction.fromMemory it = .ok i it') (hm : ¬ MovemMisfit i.opcode) :
    it'.nextAddr = it.nextAddr + 2 + BitVec.ofNat 32 (2 * extensionWords (instr i.opcode) i.opcode) := by
  obtain ⟨ws, h1, h2, -⟩ := C40_decoder h hm
  rw [Feeds.addr h1, List.length_cons, h2, BitVec.add_assoc]
  congr 1
  apply BitVec.eq_of_toNat_eq
  rw [BitVec.toNat_add]
  simp only [BitVec.toNat_ofNat, show (2 : U32).toNat = 2 from rfl]
  omega

/-- It decodes whenever those words can be read, whatever the opcode. -/
theorem C40_decodes {it it' : Iter M} {ws : List U16} (h : Feeds it (op :: ws) it') (hm : ¬ MovemMisfit op) (hl : ws.length = extensionWords (instr op) op) :
    ∃ ops, Instruction.fromMemory it = .ok ⟨op, it.nextAddr, ops⟩ it' := by
  rw [← decoder_of_not_misfit hm] at hl
  exact words_fromMemory h hl

/-- The opcodes that the decoder takes as MOVEM also have that length there. -/
theorem C40_decoder_misfit {it it' : Iter M} {i : Instruction} (h : Instruction.fromMemory it = .ok i it') (hm : MovemMisfit i.opcode) :
    ∃ ws, Feeds it (i.opcode :: ws) it' ∧ ws.length = extensionWords .Movem i.opcode ∧ i.pc = it.nextAddr := by
  rw [← decoder_of_misfit hm]
  exact fromMemory_words h

/-- `MOVE.L #$12345678,$10(A0)` is four words. -/
example : ∃ i it', Instruction.fromMemory ⟨(Demo.st [0x217C, 0x1234, 0x5678, 0x10] (Demo.regs [] [])).mem, 0⟩ = .ok i it' ∧ ¬ MovemMisfit i.opcode ∧
    i.operands = .SizeEffectiveAddressEffectiveAddress .Long (.Ariwd 0 0x10) (.Immediate 0x12345678) ∧ it'.nextAddr = 8 :=
  ⟨_, _, rfl, by unfold MovemMisfit; decide, rfl, rfl⟩

end M68k.Props
