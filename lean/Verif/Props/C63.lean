import Verif.Lemmas.ReassembleFixed
import Verif.Props.C62
/-
C63: every decoded instruction can be assembled again. `reassemble` calls the function of the assembler for an instruction and its operands, `canonicalWords` is the form in which it comes
out (Spec/Reassemble.lean).
-/
namespace M68k.Props
open Spec Exec
set_option linter.unusedSectionVars false
variable {M N : Type} [MemoryAccess M] [MemoryAccess N] {it it' : Iter M} {op : U16} {ws : List U16} {i : Instruction}

theorem misfit_mode (hm : ¬ MovemMisfit op) (h : decoder op = .Movem) : op.toNat / 8 % 8 ≠ if flag op 10 then 4 else 3 := by
  have hf := decoder_form op
  rw [h] at hf
  simp only [formCheck, Bool.and_eq_true, Bool.or_eq_true, beq_iff_eq, bne_iff_ne, decide_eq_true_eq] at hf
  unfold MovemMisfit at hm
  simp only [BitVec.le_def, BitVec.ofNat_eq_ofNat, BitVec.reduceToNat] at hm
  intro hc
  cases h10 : flag op 10 with
  | true =>
    rw [h10] at hc
    unfold flag at h10
    simp only [decide_eq_true_eq] at h10
    simp only [if_true] at hc
    omega
  | false =>
    rw [h10] at hc
    unfold flag at h10
    simp only [decide_eq_false_iff_not] at h10
    simp only [Bool.false_eq_true, if_false] at hc
    omega

/-- The assembler accepts the operands of every decoded instruction, and yields the words that were decoded, in the form of `canonicalWords`. -/
theorem C63_reassemble (h : Instruction.fromMemory it = .ok i it') (hu : instr i.opcode ≠ .Unknown) (hm : ¬ MovemMisfit i.opcode) :
    ∃ ws, Feeds it (i.opcode :: ws) it' ∧ reassemble (instr i.opcode) (flag i.opcode 8) i.operands = some (canonicalWords (instr i.opcode) i.opcode ws) := by
  obtain ⟨ws, h1, h2, h3, h4⟩ := C62_decoded h hm
  refine ⟨ws, h1, ?_⟩
  rw [h4]
  have hd := decoder_of_not_misfit hm
  rw [← hd] at hu h2 ⊢
  exact reassemble_eq hu (misfit_mode hm) h2

/-- The instructions whose words are unchanged: all but the branches and those with an immediate byte. -/
def keepsWords (i : Isa) (op : U16) : Bool :=
  match i with
  | .Addi | .Andi | .Cmpi | .Eori | .Ori | .Subi => op.toNat / 64 % 4 != 0
  | .Andiccr | .Eoriccr | .Oriccr | .Bcc | .Bra | .Bsr => false
  | .Bchg | .Bclr | .Bset | .Btst => flag op 8
  | _ => true

/-- For these, what comes out is what was decoded, word for word. -/
theorem C63_same (h : Instruction.fromMemory it = .ok i it') (hu : instr i.opcode ≠ .Unknown) (hm : ¬ MovemMisfit i.opcode) (hk : keepsWords (instr i.opcode) i.opcode = true) :
    ∃ ws, Feeds it ws it' ∧ reassemble (instr i.opcode) (flag i.opcode 8) i.operands = some ws := by
  obtain ⟨ws, h1, h2⟩ := C63_reassemble h hu hm
  refine ⟨_, h1, h2.trans (congrArg some ?_)⟩
  generalize instr i.opcode = j at hk
  cases j <;> first | rfl | exact absurd hk (by decide) | exact if_pos hk | exact if_neg (by simpa [keepsWords] using hk)

/-- The operands with the high byte of an immediate byte cleared. -/
def trimmed (i : Isa) : Operands → Operands
  | .Immediate v => .Immediate (if i = .Andiccr ∨ i = .Eoriccr ∨ i = .Oriccr then v &&& 0xFF else v)
  | .SizeEffectiveAddressImmediate .Byte a v => .SizeEffectiveAddressImmediate .Byte a (v &&& 0xFF)
  | o => o

theorem line6 (h : op.toNat / 4096 = 6) : decoder op = if op.toNat / 256 % 16 = 0 then .Bra else if op.toNat / 256 % 16 = 1 then .Bsr else .Bcc := by
  have hm : ¬ MovemMisfit op := by
    unfold MovemMisfit
    simp only [BitVec.le_def, BitVec.ofNat_eq_ofNat, BitVec.reduceToNat]
    omega
  rw [decoder_of_not_misfit hm]
  unfold instr opcodeMap
  dsimp only
  rw [h]
  rfl

theorem sext_byte {w : U16} (h1 : -128 ≤ w.toInt) (h2 : w.toInt ≤ 127) : (w.setWidth 8 : U8).signExtend 16 = w := by
  apply BitVec.eq_of_toInt_eq
  rw [BitVec.toInt_signExtend_of_le (by decide), BitVec.toInt_eq_toNat_bmod, BitVec.toNat_setWidth]
  rw [BitVec.toInt_eq_toNat_bmod] at h1 h2 ⊢
  have := w.isLt
  simp only [Int.bmod_def] at *
  omega

/-- What a branch becomes. -/
theorem branch_again {j : Isa} (hj : j = .Bra ∨ j = .Bsr ∨ j = .Bcc) (hd : decoder op = j) (hl : ws.length = extensionWords j op) :
    ∃ op' ws', canonicalWords j op ws = op' :: ws' ∧ decoder op' = j ∧ ws'.length = extensionWords j op' ∧
      canonicalWords j op' ws' = op' :: ws' ∧ ∀ pc, operandsOf j op' pc ws' = operandsOf j op pc ws := by
  have hf := decoder_form op
  rw [hd] at hf
  have h6 : op.toNat / 4096 = 6 := by
    rcases hj with rfl | rfl | rfl <;> simp only [formCheck, Bool.and_eq_true, beq_iff_eq] at hf <;> omega
  have hl : ws.length = if op.toNat % 256 = 0 then 1 else 0 := by rcases hj with rfl | rfl | rfl <;> exact hl
  have hcan : ∀ op ws, canonicalWords j op ws = canonicalWords .Bcc op ws := by rcases hj with rfl | rfl | rfl <;> intros <;> rfl
  have hext : ∀ op, extensionWords j op = if op.toNat % 256 = 0 then 1 else 0 := by rcases hj with rfl | rfl | rfl <;> intro <;> rfl
  by_cases h0 : op.toNat % 256 = 0
  · rw [if_pos h0] at hl
    obtain ⟨w, rfl⟩ := List.length_eq_one_iff.1 hl
    rw [hcan]
    show ∃ op' ws', (if w ≠ 0 ∧ -128 ≤ w.toInt ∧ w.toInt ≤ 127 then [op + (w &&& 0xFF)] else [op, w]) = op' :: ws' ∧ _
    by_cases hp : w ≠ 0 ∧ -128 ≤ w.toInt ∧ w.toInt ≤ 127
    · rw [if_pos hp]
      have hb : (w &&& 0xFF).toNat = w.toNat % 256 := by
        rw [BitVec.toNat_and, show (0xFF : U16).toNat = 2 ^ 8 - 1 from rfl, Nat.and_two_pow_sub_one_eq_mod]
      have hn : (op + (w &&& 0xFF)).toNat = op.toNat + w.toNat % 256 := by
        rw [BitVec.toNat_add, hb]
        have := op.isLt
        omega
      have hw : w.toNat % 256 ≠ 0 := by
        intro hz
        have hz : (w.setWidth 8 : U8) = 0 := BitVec.eq_of_toNat_eq (by rw [BitVec.toNat_setWidth]; exact hz)
        have := sext_byte hp.2.1 hp.2.2
        rw [hz] at this
        exact hp.1 this.symm
      have hbyte : ((op + (w &&& 0xFF)).setWidth 8 : U8) = w.setWidth 8 := by
        apply BitVec.eq_of_toNat_eq
        rw [BitVec.toNat_setWidth, BitVec.toNat_setWidth, hn]
        omega
      refine ⟨op + (w &&& 0xFF), [], rfl, ?_, ?_, hcan _ _, fun pc => ?_⟩
      · rw [line6 (by rw [hn]; omega), hn, show (op.toNat + w.toNat % 256) / 256 % 16 = op.toNat / 256 % 16 by omega, ← line6 h6, hd]
      · rw [hext, if_neg (by rw [hn]; omega)]
        rfl
      · have hdisp : (if (op + (w &&& 0xFF)).toNat % 256 = 0 then ([] : List U16).headD 0 else ((op + (w &&& 0xFF)).setWidth 8 : U8).signExtend 16) =
            if op.toNat % 256 = 0 then [w].headD 0 else (op.setWidth 8 : U8).signExtend 16 := by
          rw [if_neg (by rw [hn]; omega), if_pos h0, hbyte]
          exact sext_byte hp.2.1 hp.2.2
        have hcc : (op + (w &&& 0xFF)).toNat / 256 % 16 = op.toNat / 256 % 16 := by rw [hn]; omega
        rcases hj with rfl | rfl | rfl
        · exact congrArg Operands.Displacement hdisp
        · exact congrArg Operands.Displacement hdisp
        · show Operands.ConditionDisplacement (BitVec.ofNat 8 ((op + (w &&& 0xFF)).toNat / 256 % 16)) _ = _
          rw [hcc]
          exact congrArg (Operands.ConditionDisplacement _) hdisp
    · rw [if_neg hp]
      exact ⟨op, [w], rfl, hd, by rw [hext, if_pos h0]; rfl, (hcan _ _).trans (if_neg hp), fun _ => rfl⟩
  · rw [if_neg h0] at hl
    obtain rfl := List.length_eq_zero_iff.1 hl
    rw [hcan]
    exact ⟨op, [], rfl, hd, by rw [hext, if_neg h0]; rfl, hcan _ _, fun _ => rfl⟩

/-- What an instruction with immediate data becomes. -/
theorem imm_again {k : Nat} {pc : U32} (hs : op.toNat / 64 % 4 = 0) (hl : ws.length = sizedImm op + k) :
    Operands.SizeEffectiveAddressImmediate ((opSize op).getD .Byte)
        (modeOf (pc + BitVec.ofNat 32 (2 * sizedImm op)) (op.toNat / 8 % 8) (op.toNat % 8) ((lowByte ws).drop (sizedImm op))) (dataOf ((lowByte ws).take (sizedImm op))) =
      trimmed .Addi (.SizeEffectiveAddressImmediate ((opSize op).getD .Byte)
        (modeOf (pc + BitVec.ofNat 32 (2 * sizedImm op)) (op.toNat / 8 % 8) (op.toNat % 8) (ws.drop (sizedImm op))) (dataOf (ws.take (sizedImm op)))) := by
  have h1 : sizedImm op = 1 := by unfold sizedImm; rw [if_neg (by omega)]
  have h2 : (opSize op).getD .Byte = .Byte := by unfold opSize; rw [hs]; rfl
  rw [h1] at hl ⊢
  rw [h2]
  match ws, hl with
  | [], hl => exact absurd hl (by simp only [List.length_nil]; omega)
  | w :: ws, _ =>
    show Operands.SizeEffectiveAddressImmediate .Byte (modeOf _ _ _ ws) (((w &&& 0xFF).setWidth 32 : U32)) = .SizeEffectiveAddressImmediate .Byte (modeOf _ _ _ ws) ((w.setWidth 32 : U32) &&& 0xFF)
    congr 1

theorem lowByte_length (ws : List U16) : (lowByte ws).length = ws.length := by cases ws <;> rfl

theorem trimmed_other {j : Isa} (hu : op.toNat / 64 % 4 ≠ 3) (hs : op.toNat / 64 % 4 ≠ 0) (a : AddressingMode) (v : U32) :
    trimmed j (.SizeEffectiveAddressImmediate ((opSize op).getD .Byte) a v) = .SizeEffectiveAddressImmediate ((opSize op).getD .Byte) a v := by
  have := opSize_no hu
  generalize (opSize op).getD .Byte = sz at this
  cases sz with
  | Byte => exact absurd this.symm hs
  | Word => rfl
  | Long => rfl

theorem lowByte_twice (ws : List U16) : lowByte (lowByte ws) = lowByte ws := by
  cases ws with
  | nil => rfl
  | cons w ws =>
    show (w &&& 0xFF &&& 0xFF) :: ws = _
    rw [BitVec.and_assoc]
    rfl

/-- The assembled words `op' :: ws'` of an instruction `op :: ws`. -/
def Again (j : Isa) (op : U16) (pc : U32) (ws : List U16) : Prop :=
  ∃ op' ws', canonicalWords j op ws = op' :: ws' ∧ decoder op' = j ∧ ws'.length = extensionWords j op' ∧ (j = .Movem → op' = op) ∧ canonicalWords j op' ws' = op' :: ws' ∧
    operandsOf j op' pc ws' = trimmed j (operandsOf j op pc ws)

theorem again {j : Isa} {pc : U32} (hu : j ≠ .Unknown) (hd : decoder op = j) (h2 : ws.length = extensionWords j op) : Again j op pc ws := by
  have hf := decoder_form op
  have same : canonicalWords j op ws = op :: ws → operandsOf j op pc ws = trimmed j (operandsOf j op pc ws) →
      Again j op pc ws := fun a b => ⟨op, ws, a, hd, h2, fun _ => rfl, a, b⟩
  have low : canonicalWords j op ws = op :: lowByte ws → canonicalWords j op (lowByte ws) = op :: lowByte ws → operandsOf j op pc (lowByte ws) = trimmed j (operandsOf j op pc ws) →
      Again j op pc ws := fun a a' b => ⟨op, lowByte ws, a, hd, by rw [lowByte_length]; exact h2, fun _ => rfl, a', b⟩
  have branch : (j = .Bra ∨ j = .Bsr ∨ j = .Bcc) → (∀ pc, trimmed j (operandsOf j op pc ws) = operandsOf j op pc ws) →
      Again j op pc ws := by
    intro hb ht
    obtain ⟨op', ws', e1, e2, e3, e4, e5⟩ := branch_again hb hd h2
    exact ⟨op', ws', e1, e2, e3, fun e => by rcases hb with rfl | rfl | rfl <;> exact absurd e (by decide), e4, by rw [e5, ht]⟩
  have bits : (∀ ws, canonicalWords j op ws = if flag op 8 then op :: ws else op :: lowByte ws) → j = .Bchg ∨ j = .Bclr ∨ j = .Bset ∨ j = .Btst →
      Again j op pc ws := by
    intro e1 e2
    have eo : ∀ ws, operandsOf j op pc ws = if flag op 8 then .EffectiveAddressCount (modeOf pc (op.toNat / 8 % 8) (op.toNat % 8) ws) (BitVec.ofNat 8 (op.toNat / 512 % 8))
        else .EffectiveAddressCount (modeOf (pc + BitVec.ofNat 32 2) (op.toNat / 8 % 8) (op.toNat % 8) (ws.drop 1)) ((ws.headD 0).setWidth 8) := by
      rcases e2 with rfl | rfl | rfl | rfl <;> intro <;> rfl
    cases hf8 : flag op 8 with
    | true =>
      rw [hf8] at e1 eo
      exact same (e1 ws) (by rw [eo]; rfl)
    | false =>
      rw [hf8] at e1 eo
      refine low (e1 ws) ((e1 _).trans (congrArg (op :: ·) (lowByte_twice ws))) ?_
      rw [eo, eo]
      simp only [Bool.false_eq_true, if_false]
      cases ws with
      | nil => rfl
      | cons w ws =>
        show Operands.EffectiveAddressCount _ ((w &&& 0xFF).setWidth 8) = Operands.EffectiveAddressCount _ (w.setWidth 8)
        congr 1
        apply BitVec.eq_of_toNat_eq
        simp only [BitVec.toNat_setWidth, BitVec.toNat_and]
        rw [show (0xFF : U16).toNat = 2 ^ 8 - 1 from rfl, Nat.and_two_pow_sub_one_eq_mod]
        omega
  have imms : (∀ ws, canonicalWords j op ws = if op.toNat / 64 % 4 = 0 then op :: lowByte ws else op :: ws) → op.toNat / 64 % 4 ≠ 3 → (∀ o : Size × AddressingMode × U32, trimmed j (.SizeEffectiveAddressImmediate o.1 o.2.1 o.2.2) = trimmed .Addi (.SizeEffectiveAddressImmediate o.1 o.2.1 o.2.2)) →
      (∀ ws, operandsOf j op pc ws = operandsOf .Addi op pc ws) → extensionWords j op = sizedImm op + opEaWords (sizedImm op) op →
      Again j op pc ws := by
    intro e1 e2 e3 e4 e5
    by_cases h0 : op.toNat / 64 % 4 = 0
    · simp only [if_pos h0] at e1
      refine low (e1 ws) ((e1 _).trans (congrArg _ (lowByte_twice ws))) ?_
      rw [e4, e4]
      exact (imm_again h0 (h2.trans e5)).trans (e3 (_, _, _)).symm
    · simp only [if_neg h0] at e1
      refine same (e1 ws) ?_
      rw [e4]
      exact (trimmed_other e2 h0 _ _).symm
  have ccr : (∀ ws, canonicalWords j op ws = op :: lowByte ws) → (∀ ws, trimmed j (operandsOf j op pc ws) = .Immediate (ws.headD 0 &&& 0xFF)) → (∀ ws, operandsOf j op pc ws = .Immediate (ws.headD 0)) →
      Again j op pc ws := by
    intro e1 e2 e3
    refine low (e1 ws) ((e1 _).trans (congrArg _ (lowByte_twice ws))) ?_
    rw [e2, e3]
    cases ws <;> rfl
  rw [hd] at hf
  cases j with
  | Unknown => exact absurd rfl hu
  | Bra => exact branch (.inl rfl) fun _ => rfl
  | Bsr => exact branch (.inr (.inl rfl)) fun _ => rfl
  | Bcc => exact branch (.inr (.inr rfl)) fun _ => rfl
  | Bchg => exact bits (fun _ => rfl) (.inl rfl)
  | Bclr => exact bits (fun _ => rfl) (.inr (.inl rfl))
  | Bset => exact bits (fun _ => rfl) (.inr (.inr (.inl rfl)))
  | Btst => exact bits (fun _ => rfl) (.inr (.inr (.inr rfl)))
  | Addi | Andi | Cmpi | Eori | Ori | Subi =>
    simp only [formCheck, Bool.and_eq_true, bne_iff_ne] at hf
    exact imms (fun _ => rfl) hf.2 (fun o => by obtain ⟨s, a, v⟩ := o; cases s <;> rfl) (fun _ => rfl) rfl
  | Andiccr | Eoriccr | Oriccr => exact ccr (fun _ => rfl) (fun _ => rfl) fun _ => rfl
  | _ => exact same rfl rfl

/-- The assembled words of a decoded instruction decode to the same instruction with the same operands, but for the high byte of an immediate byte, which is cleared; and assembling that
yields the same words once more. -/
theorem C63_decodes {jt jt' : Iter N} {words : List U16} (h : Instruction.fromMemory it = .ok i it') (hu : instr i.opcode ≠ .Unknown) (hm : ¬ MovemMisfit i.opcode)
    (hr : reassemble (instr i.opcode) (flag i.opcode 8) i.operands = some words) (ha : jt.nextAddr = it.nextAddr) (hj : Feeds jt words jt') :
    ∃ op, instr op = instr i.opcode ∧ Instruction.fromMemory jt = .ok ⟨op, i.pc, trimmed (instr i.opcode) i.operands⟩ jt' ∧
      reassemble (instr op) (flag op 8) (trimmed (instr i.opcode) i.operands) = some words := by
  obtain ⟨ws, h1, h2, h3, h4⟩ := C62_decoded h hm
  have hd := decoder_of_not_misfit hm
  have hw : words = canonicalWords (instr i.opcode) i.opcode ws := by
    rw [h4, ← hd, reassemble_eq (by rw [hd]; exact hu) (misfit_mode hm) (by rw [hd]; exact h2), hd] at hr
    exact (Option.some.inj hr).symm
  obtain ⟨op', ws', e1, e2, e3, e4, e5, e6⟩ := again (pc := it.nextAddr + 2) hu hd h2
  have hmm : decoder op' = .Movem → op'.toNat / 8 % 8 ≠ if flag op' 10 then 4 else 3 := by
    intro e
    rw [e4 (e2.symm.trans e)]
    exact misfit_mode hm (hd.trans (e2.symm.trans e))
  have hm' : ¬ MovemMisfit op' := by
    intro hx
    have := decoder_of_misfit hx
    have := hmm this
    unfold MovemMisfit flag at *
    simp only [BitVec.le_def, BitVec.ofNat_eq_ofNat, BitVec.reduceToNat, decide_eq_true_eq] at *
    split at this <;> omega
  rw [hw, e1] at hj
  refine ⟨op', ?_, ?_, ?_⟩
  · rw [← decoder_of_not_misfit hm', e2]
  · rw [fromMemory_operands hj (by rw [e2]; exact e3), e2, ha, e6, h3, h4]
  · rw [← decoder_of_not_misfit hm', h4, ← e6, hw, e1, ← e2, reassemble_eq (by rw [e2]; exact hu) hmm (by rw [e2]; exact e3), e2, e5]

/-- The opcodes that only the decoder takes as MOVEM are refused by the assembler. -/
theorem C63_misfit {pc : U32} {d : Bool} (hm : MovemMisfit op) : reassemble .Movem d (operandsOf .Movem op pc ws) = none := by
  show Asm.movem (if flag op 10 then .MemoryToRegister else .RegisterToMemory) (sizeBit op 6) (modeOf (pc + BitVec.ofNat 32 2) (op.toNat / 8 % 8) (op.toNat % 8) (ws.drop 1)) (ws.headD 0) = none
  unfold Asm.movem
  rw [guard_then (by cases flag op 10 <;> simp), guard_then (by unfold sizeBit; cases flag op 6 <;> decide)]
  unfold MovemMisfit at hm
  simp only [BitVec.le_def, BitVec.ofNat_eq_ofNat, BitVec.reduceToNat] at hm
  have h : (flag op 10 = true ∧ op.toNat / 8 % 8 = 4) ∨ (flag op 10 = false ∧ op.toNat / 8 % 8 = 3) := by
    unfold flag
    simp only [decide_eq_true_eq, decide_eq_false_iff_not]
    omega
  have h3 : ∀ pc r ws, modeOf pc 3 r ws = .Ariwpo (BitVec.ofNat 8 r) := fun _ _ _ => by simp only [modeOf]
  have h4 : ∀ pc r ws, modeOf pc 4 r ws = .Ariwpr (BitVec.ofNat 8 r) := fun _ _ _ => by simp only [modeOf]
  rcases h with ⟨h1, h2⟩ | ⟨h1, h2⟩ <;> rw [h1, h2]
  · have hv : ∀ x, (AddressingMode.Ariwpr x).verify [2, 3, 5, 6, 7] [0, 1, 2, 3] = false := fun _ => Bool.and_false _
    rw [h4, if_pos rfl]
    dsimp only
    rw [if_pos rfl, hv]
    rfl
  · have hv : ∀ x, (AddressingMode.Ariwpo x).verify [2, 4, 5, 6, 7] [0, 1] = false := fun _ => Bool.and_false _
    rw [h3, if_neg (by decide)]
    dsimp only
    rw [if_neg (by decide), hv]
    rfl

/-- The words of a whole listing. -/
def reassembleAll : List Instruction → Option (List U16)
  | [] => some []
  | i :: is => do return (← reassemble (instr i.opcode) (flag i.opcode 8) i.operands) ++ (← reassembleAll is)

/-- A listing of such instructions is assembled to the words of the program. -/
theorem C63_program {is : List Instruction} (h : Lists it is it')
    (hall : ∀ i ∈ is, instr i.opcode ≠ .Unknown ∧ ¬ MovemMisfit i.opcode ∧ keepsWords (instr i.opcode) i.opcode = true) :
    ∃ ws, Feeds it ws it' ∧ reassembleAll is = some ws := by
  induction h with
  | nil it => exact ⟨[], .nil _, rfl⟩
  | @cons it it1 it' i is h1 _ ih =>
    obtain ⟨a1, a2, a3⟩ := hall i (.head _)
    obtain ⟨ws1, f1, r1⟩ := C63_same h1 a1 a2 a3
    obtain ⟨ws2, f2, r2⟩ := ih fun j hj => hall j (.tail _ hj)
    refine ⟨ws1 ++ ws2, Feeds.append f1 f2, ?_⟩
    show (reassemble _ _ _ >>= fun a => reassembleAll is >>= fun b => some (a ++ b)) = _
    rw [r1, r2]
    rfl

/-- The words are not always those that were decoded: `BRA.W *+18` becomes `BRA.S *+18`, which is one word shorter, `ADDI.B #$1234, D0` becomes `ADDI.B #$34, D0`. -/
theorem C63_exact_refuted :
    reassemble (instr 0x6000) false (operandsOf (instr 0x6000) 0x6000 2 [0x10]) = some [0x6010] ∧ reassemble (instr 0x0600) false (operandsOf (instr 0x0600) 0x0600 2 [0x1234]) = some [0x0600, 0x34] := by
  decide +kernel

example : ∃ it' is, Lists (⟨⟨[0x2779, 0x1234, 0x5678, 0xFFFC, 0x5040, 0x4E75]⟩, 0⟩ : Iter WordSlice) is it' ∧ is.length = 3 ∧
    ∀ i ∈ is, instr i.opcode ≠ .Unknown ∧ ¬ MovemMisfit i.opcode ∧ keepsWords (instr i.opcode) i.opcode = true := by
  refine ⟨_, _, .cons rfl (.cons rfl (.cons rfl (.nil _))), rfl, ?_⟩
  simp only [List.mem_cons, List.not_mem_nil, or_false, forall_eq_or_imp, forall_eq]
  unfold MovemMisfit
  decide +kernel
example : ∃ i it' jt', Instruction.fromMemory (⟨⟨[0x6700, 0xFFF0]⟩, 0⟩ : Iter WordSlice) = .ok i it' ∧ instr i.opcode ≠ .Unknown ∧ ¬ MovemMisfit i.opcode ∧
    reassemble (instr i.opcode) (flag i.opcode 8) i.operands = some [0x67F0] ∧ Feeds (⟨⟨[0x67F0]⟩, 0⟩ : Iter WordSlice) [0x67F0] jt' :=
  ⟨_, _, _, rfl, by decide +kernel, by unfold MovemMisfit; decide, by decide +kernel, .cons (by decide) rfl (.nil _)⟩
example : MovemMisfit 0x4898 := by unfold MovemMisfit; decide

end M68k.Props
