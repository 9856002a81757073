import Verif.Lemmas.Decoded
import Verif.Props.C40
import Verif.Spec.Listing
/-
C62: the operands of a decoded instruction. `operandsOf` and `modeOf` (Spec/Decoded.lean) give them from the opcode and the extension words.
-/
namespace M68k.Props
open Spec Exec
set_option linter.unusedSectionVars false
variable {M N : Type} [MemoryAccess M] [MemoryAccess N] {it it' : Iter M} {op : U16} {ws : List U16} {i : Instruction}

/-- Decoding an opcode and its extension words yields exactly the operands of the instruction format. -/
theorem C62_operands (h : Feeds it (op :: ws) it') (hm : ¬ MovemMisfit op) (hl : ws.length = extensionWords (instr op) op) :
    Instruction.fromMemory it = .ok ⟨op, it.nextAddr, operandsOf (instr op) op (it.nextAddr + 2) ws⟩ it' := by
  have hd := decoder_of_not_misfit hm
  rw [← hd] at hl ⊢
  exact fromMemory_operands h hl

/-- Every decoded instruction is of this kind. -/
theorem C62_decoded (h : Instruction.fromMemory it = .ok i it') (hm : ¬ MovemMisfit i.opcode) :
    ∃ ws, Feeds it (i.opcode :: ws) it' ∧ ws.length = extensionWords (instr i.opcode) i.opcode ∧ i.pc = it.nextAddr ∧
      i.operands = operandsOf (instr i.opcode) i.opcode (it.nextAddr + 2) ws := by
  obtain ⟨ws, h1, h2, h3⟩ := C40_decoder h hm
  refine ⟨ws, h1, h2, h3, ?_⟩
  rw [C62_operands h1 hm h2] at h
  injection h with h _
  rw [← h]

/-- The opcodes that the decoder takes as MOVEM have the operands of a MOVEM. -/
theorem C62_misfit (h : Feeds it (op :: ws) it') (hm : MovemMisfit op) (hl : ws.length = extensionWords .Movem op) :
    Instruction.fromMemory it = .ok ⟨op, it.nextAddr, operandsOf .Movem op (it.nextAddr + 2) ws⟩ it' := by
  have hd := decoder_of_misfit hm
  rw [← hd] at hl ⊢
  exact fromMemory_operands h hl

/-- What is decoded depends only on the words and their address, not on the memory that holds them: two memories with the same words give the same instruction. -/
theorem C62_words {jt jt' : Iter N} (h : Instruction.fromMemory it = .ok i it') (ha : jt.nextAddr = it.nextAddr) :
    ∃ ws, Feeds it (i.opcode :: ws) it' ∧ (Feeds jt (i.opcode :: ws) jt' → Instruction.fromMemory jt = .ok i jt') := by
  obtain ⟨ws, h1, h2, h3⟩ := fromMemory_words h
  refine ⟨ws, h1, fun hj => ?_⟩
  rw [fromMemory_operands h1 h2] at h
  rw [fromMemory_operands hj h2, ha]
  injection h with h _
  rw [h]

/-- The same for a listing: `ws` are the words that all of its instructions consist of. -/
theorem C62_listing {is : List Instruction} (h : Lists it is it') : ∃ ws, Feeds it ws it' ∧
    ∀ (jt jt' : Iter N), jt.nextAddr = it.nextAddr → Feeds jt ws jt' → Lists jt is jt' := by
  induction h with
  | nil it => exact ⟨[], .nil _, fun jt jt' _ hj => by cases hj; exact .nil _⟩
  | cons h1 _ ih =>
    obtain ⟨ws1, f1, h2, h3⟩ := fromMemory_words h1
    obtain ⟨ws2, f2, hall⟩ := ih
    refine ⟨_, Feeds.append f1 f2, fun jt jt' ha hj => ?_⟩
    obtain ⟨jt1, g1, g2⟩ := feeds_append hj
    refine .cons (it1 := jt1) ?_ (hall jt1 jt' ?_ g2)
    · rw [fromMemory_operands f1 h2] at h1
      rw [fromMemory_operands g1 h2, ha]
      injection h1 with h1 _
      rw [h1]
    · rw [Feeds.addr g1, Feeds.addr f1, ha]

/-- `MOVE.L $12345678.L,-4(A3)`, `ADDI.L #$00010002,(A2)`, `BTST #5,8(PC)`, `CMPA.W #-1,A4`, `MOVEM.L D0-D1/A6,-(A7)` and `BEQ` with a word displacement. -/
example : operandsOf (instr 0x2779) 0x2779 2 [0x1234, 0x5678, 0xFFFC] = .SizeEffectiveAddressEffectiveAddress .Long (.Ariwd 3 0xFFFC) (.AbsLong 0x12345678) ∧
    operandsOf (instr 0x0692) 0x0692 2 [1, 2] = .SizeEffectiveAddressImmediate .Long (.Ari 2) 0x00010002 ∧
    operandsOf (instr 0x083A) 0x083A 2 [5, 8] = .EffectiveAddressCount (.Pciwd 4 8) 5 ∧
    operandsOf (instr 0xB8FC) 0xB8FC 2 [0xFFFF] = .RegisterSizeEffectiveAddress 4 .Word (.Immediate 0xFFFF) ∧
    operandsOf (instr 0x48E7) 0x48E7 2 [0xC002] = .DirectionSizeEffectiveAddressList .RegisterToMemory .Long (.Ariwpr 7) 0xC002 ∧
    operandsOf (instr 0x6700) 0x6700 2 [0x1000] = .ConditionDisplacement 7 0x1000 := by decide
example : ∃ it', Feeds (⟨⟨[0x2779, 0x1234, 0x5678, 0xFFFC]⟩, 0⟩ : Iter WordSlice) [0x2779, 0x1234, 0x5678, 0xFFFC] it' ∧ ¬ MovemMisfit 0x2779 ∧
    ([0x1234, 0x5678, 0xFFFC] : List U16).length = extensionWords (instr 0x2779) 0x2779 :=
  ⟨_, .cons (by decide) rfl (.cons (by decide) rfl (.cons (by decide) rfl (.cons (by decide) rfl (.nil _)))), by unfold MovemMisfit; decide, rfl⟩

end M68k.Props
