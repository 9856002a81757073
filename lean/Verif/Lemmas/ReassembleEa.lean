import Verif.Lemmas.Reassemble
import Verif.Lemmas.LegalExec
/-
Each instruction is assembled to the words it was decoded from.
-/
set_option linter.unusedSectionVars false
namespace M68k.Exec
open Spec Decode
variable {op : U16} {ws : List U16} {pc : U32}

theorem sizedImm_or (op : U16) : sizedImm op = 1 ∨ sizedImm op = 2 := by unfold sizedImm; split <;> omega

theorem guard_some {p : Prop} [Decidable p] (h : p) : (guard p : Option Unit) = some () := by
  show (if p then pure () else failure) = _
  rw [if_pos h]
  rfl

theorem isByte_no (h : op.toNat / 64 % 4 ≠ 3) (h0 : op.toNat / 64 % 4 ≠ 0) : ((opSize op).getD .Byte).isByte = false := by
  have := opSize_no h
  generalize (opSize op).getD .Byte = sz at this
  cases sz with
  | Byte => exact absurd this.symm h0
  | Word => rfl
  | Long => rfl

/-- A byte operand is no address register. -/
theorem an_byte {m r : Nat} (h : op.toNat / 64 % 4 ≠ 3) (ho : op.toNat / 64 % 4 ≠ 0 ∨ m ≠ 1) :
    ¬ ((modeOf pc m r ws).isArd = true ∧ ((opSize op).getD .Byte).isByte = true) := by
  rintro ⟨h1, h2⟩
  rcases ho with h0 | h0
  · rw [isByte_no h h0] at h2; cases h2
  · rw [modeOf_isArd h0] at h1; cases h1

theorem flag8 (op : U16) : flag op 8 = decide (op.toNat / 256 % 2 = 1) := rfl

theorem ea_flag : (op.toNat / 256 % 2 = if (if flag op 8 = true then Direction.DstEa else Direction.DstReg) = Direction.DstEa then 1 else 0) := by
  rw [flag8]
  by_cases h : op.toNat / 256 % 2 = 1
  · simp [h]
  · simp [h]; omega

theorem cc_ok : ∀ c : Fin 16, (conditionOf (BitVec.ofNat 8 c.val)).toU16 = BitVec.ofNat 16 c.val := by decide

macro "facts" hf:ident hc:ident : tactic => `(tactic| (
  simp only [formCheck, Bool.and_eq_true, Bool.or_eq_true, beq_iff_eq, bne_iff_ne, decide_eq_true_eq] at $hf:ident
  simp only [legalCheck, eaInMemory, Bool.and_eq_true, Bool.or_eq_true, beq_iff_eq, bne_iff_ne, decide_eq_true_eq] at $hc:ident))


theorem re_Add (hf : formCheck .Add op.toNat = true) (hc : legalCheck .Add op.toNat = true) (hl : ws.length = extensionWords .Add op) :
    reassemble .Add (flag op 8) (operandsOf .Add op pc ws) = some (canonicalWords .Add op ws) := by
  facts hf hc
  show Asm.add _ (if flag op 8 then .DstEa else .DstReg) _ _ = some (op :: ws)
  unfold Asm.add
  rw [guard_then (reg_ok _), guard_then (by cases flag op 8 <;> simp)]
  have hw := re_regDirSizeEa (pc := pc) (L := 13) (dir := if flag op 8 then .DstEa else .DstReg) hf.1 hf.2 ea_flag (by omega) hl
  have key : ∀ x : Option Unit, x = some () → (x >>= fun _ => (pure (Asm.registerDirectionSizeEffectiveAddress (BitVec.ofNat 16 13) (BitVec.ofNat 8 (op.toNat / 512 % 8))
      (if flag op 8 then .DstEa else .DstReg) ((opSize op).getD .Byte) (modeOf pc (op.toNat / 8 % 8) (op.toNat % 8) ws)) : Option (List U16))) = some (op :: ws) := by
    rintro _ rfl
    exact congrArg some hw
  apply key
  by_cases h8 : op.toNat / 256 % 2 = 1
  · have e : flag op 8 = true := by rw [flag8]; simp [h8]
    simp only [e, if_true]
    exact guard_some (ok_memoryAlterable (by omega) (by omega) (by omega) (by omega) hl)
  · have e : flag op 8 = false := by rw [flag8]; simp [h8]
    simp only [e, Bool.false_eq_true, if_false, reduceCtorEq]
    rw [guard_then (an_byte hf.2 hc.1.2)]
    exact guard_some (ok_any (by omega) (by omega) (by omega) hl (sizedImm_or op))

theorem re_Sub (hf : formCheck .Sub op.toNat = true) (hc : legalCheck .Sub op.toNat = true) (hl : ws.length = extensionWords .Sub op) :
    reassemble .Sub (flag op 8) (operandsOf .Sub op pc ws) = some (canonicalWords .Sub op ws) := by
  facts hf hc
  show Asm.sub _ (if flag op 8 then .DstEa else .DstReg) _ _ = some (op :: ws)
  unfold Asm.sub
  rw [guard_then (reg_ok _), guard_then (by cases flag op 8 <;> simp)]
  have hw := re_regDirSizeEa (pc := pc) (L := 9) (dir := if flag op 8 then .DstEa else .DstReg) hf.1 hf.2 ea_flag (by omega) hl
  have key : ∀ x : Option Unit, x = some () → (x >>= fun _ => (pure (Asm.registerDirectionSizeEffectiveAddress (BitVec.ofNat 16 9) (BitVec.ofNat 8 (op.toNat / 512 % 8))
      (if flag op 8 then .DstEa else .DstReg) ((opSize op).getD .Byte) (modeOf pc (op.toNat / 8 % 8) (op.toNat % 8) ws)) : Option (List U16))) = some (op :: ws) := by
    rintro _ rfl
    exact congrArg some hw
  apply key
  by_cases h8 : op.toNat / 256 % 2 = 1
  · have e : flag op 8 = true := by rw [flag8]; simp [h8]
    simp only [e, if_true]
    exact guard_some (ok_memoryAlterable (by omega) (by omega) (by omega) (by omega) hl)
  · have e : flag op 8 = false := by rw [flag8]; simp [h8]
    simp only [e, Bool.false_eq_true, if_false, reduceCtorEq]
    rw [guard_then (an_byte hf.2 hc.1.2)]
    exact guard_some (ok_any (by omega) (by omega) (by omega) hl (sizedImm_or op))

theorem re_And (hf : formCheck .And op.toNat = true) (hc : legalCheck .And op.toNat = true) (hl : ws.length = extensionWords .And op) :
    reassemble .And (flag op 8) (operandsOf .And op pc ws) = some (canonicalWords .And op ws) := by
  facts hf hc
  show Asm.and _ (if flag op 8 then .DstEa else .DstReg) _ _ = some (op :: ws)
  unfold Asm.and
  rw [guard_then (reg_ok _), guard_then (by cases flag op 8 <;> simp)]
  have hw := re_regDirSizeEa (pc := pc) (L := 12) (dir := if flag op 8 then .DstEa else .DstReg) hf.1.1 hf.1.2 ea_flag (by omega) hl
  have key : ∀ x : Option Unit, x = some () → (x >>= fun _ => (pure (Asm.registerDirectionSizeEffectiveAddress (BitVec.ofNat 16 12) (BitVec.ofNat 8 (op.toNat / 512 % 8))
      (if flag op 8 then .DstEa else .DstReg) ((opSize op).getD .Byte) (modeOf pc (op.toNat / 8 % 8) (op.toNat % 8) ws)) : Option (List U16))) = some (op :: ws) := by
    rintro _ rfl
    exact congrArg some hw
  apply key
  by_cases h8 : op.toNat / 256 % 2 = 1
  · have e : flag op 8 = true := by rw [flag8]; simp [h8]
    simp only [e, if_true]
    exact guard_some (ok_memoryAlterable (by omega) (by omega) (by omega) (by omega) hl)
  · have e : flag op 8 = false := by rw [flag8]; simp [h8]
    simp only [e, Bool.false_eq_true, if_false, reduceCtorEq]
    exact guard_some (ok_data (by omega) (by omega) (by omega) (by omega) hl (sizedImm_or op))

theorem re_Or (hf : formCheck .Or op.toNat = true) (hc : legalCheck .Or op.toNat = true) (hl : ws.length = extensionWords .Or op) :
    reassemble .Or (flag op 8) (operandsOf .Or op pc ws) = some (canonicalWords .Or op ws) := by
  facts hf hc
  show Asm.or _ (if flag op 8 then .DstEa else .DstReg) _ _ = some (op :: ws)
  unfold Asm.or
  rw [guard_then (reg_ok _), guard_then (by cases flag op 8 <;> simp)]
  have hw := re_regDirSizeEa (pc := pc) (L := 8) (dir := if flag op 8 then .DstEa else .DstReg) hf.1.1 hf.1.2 ea_flag (by omega) hl
  have key : ∀ x : Option Unit, x = some () → (x >>= fun _ => (pure (Asm.registerDirectionSizeEffectiveAddress (BitVec.ofNat 16 8) (BitVec.ofNat 8 (op.toNat / 512 % 8))
      (if flag op 8 then .DstEa else .DstReg) ((opSize op).getD .Byte) (modeOf pc (op.toNat / 8 % 8) (op.toNat % 8) ws)) : Option (List U16))) = some (op :: ws) := by
    rintro _ rfl
    exact congrArg some hw
  apply key
  by_cases h8 : op.toNat / 256 % 2 = 1
  · have e : flag op 8 = true := by rw [flag8]; simp [h8]
    simp only [e, if_true]
    exact guard_some (ok_memoryAlterable (by omega) (by omega) (by omega) (by omega) hl)
  · have e : flag op 8 = false := by rw [flag8]; simp [h8]
    simp only [e, Bool.false_eq_true, if_false, reduceCtorEq]
    exact guard_some (ok_data (by omega) (by omega) (by omega) (by omega) hl (sizedImm_or op))

theorem re_Cmp (hf : formCheck .Cmp op.toNat = true) (hc : legalCheck .Cmp op.toNat = true) (hl : ws.length = extensionWords .Cmp op) :
    reassemble .Cmp (flag op 8) (operandsOf .Cmp op pc ws) = some (canonicalWords .Cmp op ws) := by
  facts hf hc
  show Asm.cmp _ _ _ = some (op :: ws)
  unfold Asm.cmp
  rw [guard_then (reg_ok _), guard_then (an_byte hf.2 hc.2), guard_then (ok_any (by omega) (by omega) (by omega) hl (sizedImm_or op))]
  exact congrArg some (re_regDirSizeEa (dir := .DstReg) hf.1.1 hf.2 (by rw [hf.1.2]; rfl) (by omega) hl)

theorem re_Eor (hf : formCheck .Eor op.toNat = true) (hc : legalCheck .Eor op.toNat = true) (hl : ws.length = extensionWords .Eor op) :
    reassemble .Eor (flag op 8) (operandsOf .Eor op pc ws) = some (canonicalWords .Eor op ws) := by
  facts hf hc
  show Asm.eor _ _ _ = some (op :: ws)
  unfold Asm.eor
  rw [guard_then (reg_ok _), guard_then (ok_dataAlterable (by omega) (by omega) (by omega) (by omega) hl)]
  exact congrArg some (re_regDirSizeEa (dir := .DstEa) hf.1.1 hf.2 (by rw [hf.1.2]; rfl) (by omega) hl)

theorem re_Adda (hf : formCheck .Adda op.toNat = true) (hc : legalCheck .Adda op.toNat = true) (hl : ws.length = extensionWords .Adda op) :
    reassemble .Adda (flag op 8) (operandsOf .Adda op pc ws) = some (canonicalWords .Adda op ws) := by
  facts hf hc
  show Asm.adda _ _ _ = some (op :: ws)
  unfold Asm.adda
  rw [guard_then (reg_ok _), guard_then (by unfold sizeBit; cases flag op 8 <;> decide)]
  exact re_regSizeEa hf.1 hf.2 (by omega) hl

theorem re_Suba (hf : formCheck .Suba op.toNat = true) (hc : legalCheck .Suba op.toNat = true) (hl : ws.length = extensionWords .Suba op) :
    reassemble .Suba (flag op 8) (operandsOf .Suba op pc ws) = some (canonicalWords .Suba op ws) := by
  facts hf hc
  show Asm.suba _ _ _ = some (op :: ws)
  unfold Asm.suba
  rw [guard_then (reg_ok _), guard_then (by unfold sizeBit; cases flag op 8 <;> decide)]
  exact re_regSizeEa hf.1 hf.2 (by omega) hl

theorem re_Cmpa (hf : formCheck .Cmpa op.toNat = true) (hc : legalCheck .Cmpa op.toNat = true) (hl : ws.length = extensionWords .Cmpa op) :
    reassemble .Cmpa (flag op 8) (operandsOf .Cmpa op pc ws) = some (canonicalWords .Cmpa op ws) := by
  facts hf hc
  show Asm.cmpa _ _ _ = some (op :: ws)
  unfold Asm.cmpa
  rw [guard_then (reg_ok _), guard_then (by unfold sizeBit; cases flag op 8 <;> decide)]
  exact re_regSizeEa hf.1 hf.2 (by omega) hl

theorem re_Addi (hf : formCheck .Addi op.toNat = true) (hc : legalCheck .Addi op.toNat = true) (hl : ws.length = extensionWords .Addi op) :
    reassemble .Addi (flag op 8) (operandsOf .Addi op pc ws) = some (canonicalWords .Addi op ws) := by
  facts hf hc
  have h1 : (ws.take (sizedImm op)).length = sizedImm op := by
    rw [List.length_take, hl]
    exact Nat.min_eq_left (Nat.le_add_right _ _)
  have h2 : (ws.drop (sizedImm op)).length = opEaWords (sizedImm op) op := by
    rw [List.length_drop, hl]
    exact Nat.add_sub_cancel_left ..
  show Asm.addi _ (modeOf _ _ _ (ws.drop (sizedImm op))) (dataOf (ws.take (sizedImm op))) = some (if op.toNat / 64 % 4 = 0 then op :: lowByte ws else op :: ws)
  unfold Asm.addi
  rw [guard_then (ok_dataAlterable (by omega) (by omega) (by omega) (by omega) h2)]
  have hw := re_sizeEaImm (pc := pc + BitVec.ofNat 32 (2 * sizedImm op)) hf.1 hf.2 (by omega) h1 h2
  rw [List.take_append_drop] at hw
  exact congrArg some hw

theorem re_Subi (hf : formCheck .Subi op.toNat = true) (hc : legalCheck .Subi op.toNat = true) (hl : ws.length = extensionWords .Subi op) :
    reassemble .Subi (flag op 8) (operandsOf .Subi op pc ws) = some (canonicalWords .Subi op ws) := by
  facts hf hc
  have h1 : (ws.take (sizedImm op)).length = sizedImm op := by
    rw [List.length_take, hl]
    exact Nat.min_eq_left (Nat.le_add_right _ _)
  have h2 : (ws.drop (sizedImm op)).length = opEaWords (sizedImm op) op := by
    rw [List.length_drop, hl]
    exact Nat.add_sub_cancel_left ..
  show Asm.subi _ (modeOf _ _ _ (ws.drop (sizedImm op))) (dataOf (ws.take (sizedImm op))) = some (if op.toNat / 64 % 4 = 0 then op :: lowByte ws else op :: ws)
  unfold Asm.subi
  rw [guard_then (ok_dataAlterable (by omega) (by omega) (by omega) (by omega) h2)]
  have hw := re_sizeEaImm (pc := pc + BitVec.ofNat 32 (2 * sizedImm op)) hf.1 hf.2 (by omega) h1 h2
  rw [List.take_append_drop] at hw
  exact congrArg some hw

theorem re_Andi (hf : formCheck .Andi op.toNat = true) (hc : legalCheck .Andi op.toNat = true) (hl : ws.length = extensionWords .Andi op) :
    reassemble .Andi (flag op 8) (operandsOf .Andi op pc ws) = some (canonicalWords .Andi op ws) := by
  facts hf hc
  have h1 : (ws.take (sizedImm op)).length = sizedImm op := by
    rw [List.length_take, hl]
    exact Nat.min_eq_left (Nat.le_add_right _ _)
  have h2 : (ws.drop (sizedImm op)).length = opEaWords (sizedImm op) op := by
    rw [List.length_drop, hl]
    exact Nat.add_sub_cancel_left ..
  show Asm.andi _ (modeOf _ _ _ (ws.drop (sizedImm op))) (dataOf (ws.take (sizedImm op))) = some (if op.toNat / 64 % 4 = 0 then op :: lowByte ws else op :: ws)
  unfold Asm.andi
  rw [guard_then (ok_dataAlterable (by omega) (by omega) (by omega) (by omega) h2)]
  have hw := re_sizeEaImm (pc := pc + BitVec.ofNat 32 (2 * sizedImm op)) hf.1 hf.2 (by omega) h1 h2
  rw [List.take_append_drop] at hw
  exact congrArg some hw

theorem re_Ori (hf : formCheck .Ori op.toNat = true) (hc : legalCheck .Ori op.toNat = true) (hl : ws.length = extensionWords .Ori op) :
    reassemble .Ori (flag op 8) (operandsOf .Ori op pc ws) = some (canonicalWords .Ori op ws) := by
  facts hf hc
  have h1 : (ws.take (sizedImm op)).length = sizedImm op := by
    rw [List.length_take, hl]
    exact Nat.min_eq_left (Nat.le_add_right _ _)
  have h2 : (ws.drop (sizedImm op)).length = opEaWords (sizedImm op) op := by
    rw [List.length_drop, hl]
    exact Nat.add_sub_cancel_left ..
  show Asm.ori _ (modeOf _ _ _ (ws.drop (sizedImm op))) (dataOf (ws.take (sizedImm op))) = some (if op.toNat / 64 % 4 = 0 then op :: lowByte ws else op :: ws)
  unfold Asm.ori
  rw [guard_then (ok_dataAlterable (by omega) (by omega) (by omega) (by omega) h2)]
  have hw := re_sizeEaImm (pc := pc + BitVec.ofNat 32 (2 * sizedImm op)) hf.1 hf.2 (by omega) h1 h2
  rw [List.take_append_drop] at hw
  exact congrArg some hw

theorem re_Eori (hf : formCheck .Eori op.toNat = true) (hc : legalCheck .Eori op.toNat = true) (hl : ws.length = extensionWords .Eori op) :
    reassemble .Eori (flag op 8) (operandsOf .Eori op pc ws) = some (canonicalWords .Eori op ws) := by
  facts hf hc
  have h1 : (ws.take (sizedImm op)).length = sizedImm op := by
    rw [List.length_take, hl]
    exact Nat.min_eq_left (Nat.le_add_right _ _)
  have h2 : (ws.drop (sizedImm op)).length = opEaWords (sizedImm op) op := by
    rw [List.length_drop, hl]
    exact Nat.add_sub_cancel_left ..
  show Asm.eori _ (modeOf _ _ _ (ws.drop (sizedImm op))) (dataOf (ws.take (sizedImm op))) = some (if op.toNat / 64 % 4 = 0 then op :: lowByte ws else op :: ws)
  unfold Asm.eori
  rw [guard_then (ok_dataAlterable (by omega) (by omega) (by omega) (by omega) h2)]
  have hw := re_sizeEaImm (pc := pc + BitVec.ofNat 32 (2 * sizedImm op)) hf.1 hf.2 (by omega) h1 h2
  rw [List.take_append_drop] at hw
  exact congrArg some hw

theorem re_Cmpi (hf : formCheck .Cmpi op.toNat = true) (hc : legalCheck .Cmpi op.toNat = true) (hl : ws.length = extensionWords .Cmpi op) :
    reassemble .Cmpi (flag op 8) (operandsOf .Cmpi op pc ws) = some (canonicalWords .Cmpi op ws) := by
  facts hf hc
  have h1 : (ws.take (sizedImm op)).length = sizedImm op := by
    rw [List.length_take, hl]
    exact Nat.min_eq_left (Nat.le_add_right _ _)
  have h2 : (ws.drop (sizedImm op)).length = opEaWords (sizedImm op) op := by
    rw [List.length_drop, hl]
    exact Nat.add_sub_cancel_left ..
  show Asm.cmpi _ (modeOf _ _ _ (ws.drop (sizedImm op))) (dataOf (ws.take (sizedImm op))) = some (if op.toNat / 64 % 4 = 0 then op :: lowByte ws else op :: ws)
  unfold Asm.cmpi
  rw [guard_then (ok_dataAlterable (by omega) (by omega) (by omega) (by omega) h2)]
  have hw := re_sizeEaImm (pc := pc + BitVec.ofNat 32 (2 * sizedImm op)) hf.1 hf.2 (by omega) h1 h2
  rw [List.take_append_drop] at hw
  exact congrArg some hw

theorem re_Addq (hf : formCheck .Addq op.toNat = true) (hc : legalCheck .Addq op.toNat = true) (hl : ws.length = extensionWords .Addq op) :
    reassemble .Addq (flag op 8) (operandsOf .Addq op pc ws) = some (canonicalWords .Addq op ws) := by
  facts hf hc
  show Asm.addq (if BitVec.ofNat 8 (op.toNat / 512 % 8) = 0 then 8 else BitVec.ofNat 8 (op.toNat / 512 % 8)) _ _ = some (op :: ws)
  have hw := re_dataSizeEa (pc := pc) hf.1.1.1 hf.1.1.2 hf.1.2 (by omega) hl
  have hk : ∀ k : Fin 8, ((if BitVec.ofNat 8 k.val = 0 then 8 else BitVec.ofNat 8 k.val : U8) ≥ 1 ∧ (if BitVec.ofNat 8 k.val = 0 then 8 else BitVec.ofNat 8 k.val : U8) ≤ 8) ∧
      (if (if BitVec.ofNat 8 k.val = 0 then 8 else BitVec.ofNat 8 k.val : U8) = 8 then 0 else (if BitVec.ofNat 8 k.val = 0 then 8 else BitVec.ofNat 8 k.val : U8)) = BitVec.ofNat 8 k.val := by decide
  have hk := hk ⟨op.toNat / 512 % 8, by omega⟩
  unfold Asm.addq
  rw [guard_then (ok_alterable (by omega) (by omega) (by omega) hl), guard_then (an_byte hf.1.2 hf.2), guard_then hk.1]
  dsimp only
  rw [hk.2]
  exact congrArg some hw

theorem re_Subq (hf : formCheck .Subq op.toNat = true) (hc : legalCheck .Subq op.toNat = true) (hl : ws.length = extensionWords .Subq op) :
    reassemble .Subq (flag op 8) (operandsOf .Subq op pc ws) = some (canonicalWords .Subq op ws) := by
  facts hf hc
  show Asm.subq (if BitVec.ofNat 8 (op.toNat / 512 % 8) = 0 then 8 else BitVec.ofNat 8 (op.toNat / 512 % 8)) _ _ = some (op :: ws)
  have hw := re_dataSizeEa (pc := pc) hf.1.1.1 hf.1.1.2 hf.1.2 (by omega) hl
  have hk : ∀ k : Fin 8, ((if BitVec.ofNat 8 k.val = 0 then 8 else BitVec.ofNat 8 k.val : U8) ≥ 1 ∧ (if BitVec.ofNat 8 k.val = 0 then 8 else BitVec.ofNat 8 k.val : U8) ≤ 8) ∧
      (if (if BitVec.ofNat 8 k.val = 0 then 8 else BitVec.ofNat 8 k.val : U8) = 8 then 0 else (if BitVec.ofNat 8 k.val = 0 then 8 else BitVec.ofNat 8 k.val : U8)) = BitVec.ofNat 8 k.val := by decide
  have hk := hk ⟨op.toNat / 512 % 8, by omega⟩
  unfold Asm.subq
  rw [guard_then (ok_alterable (by omega) (by omega) (by omega) hl), guard_then (an_byte hf.1.2 hf.2), guard_then hk.1]
  dsimp only
  rw [hk.2]
  exact congrArg some hw

theorem re_Neg (hf : formCheck .Neg op.toNat = true) (hc : legalCheck .Neg op.toNat = true) (hl : ws.length = extensionWords .Neg op) :
    reassemble .Neg (flag op 8) (operandsOf .Neg op pc ws) = some (canonicalWords .Neg op ws) := by
  facts hf hc
  show Asm.neg _ _ = some (op :: ws)
  unfold Asm.neg
  rw [guard_then (ok_dataAlterable (by omega) (by omega) (by omega) (by omega) hl)]
  exact congrArg some (re_sizeEa hf.1 hf.2 (by omega) hl)

theorem re_Negx (hf : formCheck .Negx op.toNat = true) (hc : legalCheck .Negx op.toNat = true) (hl : ws.length = extensionWords .Negx op) :
    reassemble .Negx (flag op 8) (operandsOf .Negx op pc ws) = some (canonicalWords .Negx op ws) := by
  facts hf hc
  show Asm.negx _ _ = some (op :: ws)
  unfold Asm.negx
  rw [guard_then (ok_dataAlterable (by omega) (by omega) (by omega) (by omega) hl)]
  exact congrArg some (re_sizeEa hf.1 hf.2 (by omega) hl)

theorem re_Not (hf : formCheck .Not op.toNat = true) (hc : legalCheck .Not op.toNat = true) (hl : ws.length = extensionWords .Not op) :
    reassemble .Not (flag op 8) (operandsOf .Not op pc ws) = some (canonicalWords .Not op ws) := by
  facts hf hc
  show Asm.not _ _ = some (op :: ws)
  unfold Asm.not
  rw [guard_then (ok_dataAlterable (by omega) (by omega) (by omega) (by omega) hl)]
  exact congrArg some (re_sizeEa hf.1 hf.2 (by omega) hl)

theorem re_Tst (hf : formCheck .Tst op.toNat = true) (hc : legalCheck .Tst op.toNat = true) (hl : ws.length = extensionWords .Tst op) :
    reassemble .Tst (flag op 8) (operandsOf .Tst op pc ws) = some (canonicalWords .Tst op ws) := by
  facts hf hc
  show Asm.tst _ _ = some (op :: ws)
  unfold Asm.tst
  rw [guard_then (ok_dataAlterable (by omega) (by omega) (by omega) (by omega) hl)]
  exact congrArg some (re_sizeEa hf.1 hf.2 (by omega) hl)

theorem re_Clr (hf : formCheck .Clr op.toNat = true) (hc : legalCheck .Clr op.toNat = true) (hl : ws.length = extensionWords .Clr op) :
    reassemble .Clr (flag op 8) (operandsOf .Clr op pc ws) = some (canonicalWords .Clr op ws) := by
  facts hf hc
  show Asm.clr _ _ = some (op :: ws)
  unfold Asm.clr
  rw [guard_then (ok_dataAlterable (by omega) (by omega) (by omega) (by omega) hl)]
  exact congrArg some (re_sizeEa hf.1 hf.2 (by omega) hl)

theorem re_Nbcd (hf : formCheck .Nbcd op.toNat = true) (hc : legalCheck .Nbcd op.toNat = true) (hl : ws.length = extensionWords .Nbcd op) :
    reassemble .Nbcd (flag op 8) (operandsOf .Nbcd op pc ws) = some (canonicalWords .Nbcd op ws) := by
  facts hf hc
  show Asm.nbcd _ = some (op :: ws)
  unfold Asm.nbcd
  rw [guard_then (ok_dataAlterable (by omega) (by omega) (by omega) (by omega) hl)]
  exact congrArg some (re_ea hf (by omega) hl fun _ _ => rfl)

theorem re_Tas (hf : formCheck .Tas op.toNat = true) (hc : legalCheck .Tas op.toNat = true) (hl : ws.length = extensionWords .Tas op) :
    reassemble .Tas (flag op 8) (operandsOf .Tas op pc ws) = some (canonicalWords .Tas op ws) := by
  facts hf hc
  show Asm.tas _ = some (op :: ws)
  unfold Asm.tas
  rw [guard_then (ok_dataAlterable (by omega) (by omega) (by omega) (by omega) hl)]
  exact congrArg some (re_ea hf (by omega) hl fun _ _ => rfl)

theorem re_Movefsr (hf : formCheck .Movefsr op.toNat = true) (hc : legalCheck .Movefsr op.toNat = true) (hl : ws.length = extensionWords .Movefsr op) :
    reassemble .Movefsr (flag op 8) (operandsOf .Movefsr op pc ws) = some (canonicalWords .Movefsr op ws) := by
  facts hf hc
  show Asm.movefsr _ = some (op :: ws)
  unfold Asm.movefsr
  rw [guard_then (ok_dataAlterable (by omega) (by omega) (by omega) (by omega) hl)]
  exact congrArg some (re_ea hf (by omega) hl fun _ _ => rfl)

theorem re_Moveccr (hf : formCheck .Moveccr op.toNat = true) (hc : legalCheck .Moveccr op.toNat = true) (hl : ws.length = extensionWords .Moveccr op) :
    reassemble .Moveccr (flag op 8) (operandsOf .Moveccr op pc ws) = some (canonicalWords .Moveccr op ws) := by
  facts hf hc
  show Asm.moveccr _ = some (op :: ws)
  unfold Asm.moveccr
  rw [guard_then (ok_data (by omega) (by omega) (by omega) (by omega) hl (.inl rfl))]
  exact congrArg some (re_ea hf (by omega) hl fun _ _ => rfl)

theorem re_Movesr (hf : formCheck .Movesr op.toNat = true) (hc : legalCheck .Movesr op.toNat = true) (hl : ws.length = extensionWords .Movesr op) :
    reassemble .Movesr (flag op 8) (operandsOf .Movesr op pc ws) = some (canonicalWords .Movesr op ws) := by
  facts hf hc
  show Asm.movesr _ = some (op :: ws)
  unfold Asm.movesr
  rw [guard_then (ok_data (by omega) (by omega) (by omega) (by omega) hl (.inl rfl))]
  exact congrArg some (re_ea hf (by omega) hl fun _ _ => rfl)

theorem re_Pea (hf : formCheck .Pea op.toNat = true) (hc : legalCheck .Pea op.toNat = true) (hl : ws.length = extensionWords .Pea op) :
    reassemble .Pea (flag op 8) (operandsOf .Pea op pc ws) = some (canonicalWords .Pea op ws) := by
  facts hf hc
  show Asm.pea _ = some (op :: ws)
  unfold Asm.pea
  rw [guard_then (ok_control (by omega) (by omega) (by omega) (by omega) hl)]
  exact congrArg some (re_ea hf (by omega) hl (by omega))

theorem re_Jmp (hf : formCheck .Jmp op.toNat = true) (hc : legalCheck .Jmp op.toNat = true) (hl : ws.length = extensionWords .Jmp op) :
    reassemble .Jmp (flag op 8) (operandsOf .Jmp op pc ws) = some (canonicalWords .Jmp op ws) := by
  facts hf hc
  show Asm.jmp _ = some (op :: ws)
  unfold Asm.jmp
  rw [guard_then (ok_control (by omega) (by omega) (by omega) (by omega) hl)]
  exact congrArg some (re_ea hf (by omega) hl (by omega))

theorem re_Jsr (hf : formCheck .Jsr op.toNat = true) (hc : legalCheck .Jsr op.toNat = true) (hl : ws.length = extensionWords .Jsr op) :
    reassemble .Jsr (flag op 8) (operandsOf .Jsr op pc ws) = some (canonicalWords .Jsr op ws) := by
  facts hf hc
  show Asm.jsr _ = some (op :: ws)
  unfold Asm.jsr
  rw [guard_then (ok_control (by omega) (by omega) (by omega) (by omega) hl)]
  exact congrArg some (re_ea hf (by omega) hl (by omega))

theorem re_Mulu (hf : formCheck .Mulu op.toNat = true) (hc : legalCheck .Mulu op.toNat = true) (hl : ws.length = extensionWords .Mulu op) :
    reassemble .Mulu (flag op 8) (operandsOf .Mulu op pc ws) = some (canonicalWords .Mulu op ws) := by
  facts hf hc
  show Asm.mulu _ _ = some (op :: ws)
  unfold Asm.mulu
  rw [guard_then (reg_ok _), guard_then (ok_data (by omega) (by omega) (by omega) (by omega) hl (.inl rfl))]
  exact congrArg some (re_regEa hf.1 hf.2 (by omega) hl fun _ _ => rfl)

theorem re_Muls (hf : formCheck .Muls op.toNat = true) (hc : legalCheck .Muls op.toNat = true) (hl : ws.length = extensionWords .Muls op) :
    reassemble .Muls (flag op 8) (operandsOf .Muls op pc ws) = some (canonicalWords .Muls op ws) := by
  facts hf hc
  show Asm.muls _ _ = some (op :: ws)
  unfold Asm.muls
  rw [guard_then (reg_ok _), guard_then (ok_data (by omega) (by omega) (by omega) (by omega) hl (.inl rfl))]
  exact congrArg some (re_regEa hf.1 hf.2 (by omega) hl fun _ _ => rfl)

theorem re_Divu (hf : formCheck .Divu op.toNat = true) (hc : legalCheck .Divu op.toNat = true) (hl : ws.length = extensionWords .Divu op) :
    reassemble .Divu (flag op 8) (operandsOf .Divu op pc ws) = some (canonicalWords .Divu op ws) := by
  facts hf hc
  show Asm.divu _ _ = some (op :: ws)
  unfold Asm.divu
  rw [guard_then (reg_ok _), guard_then (ok_data (by omega) (by omega) (by omega) (by omega) hl (.inl rfl))]
  exact congrArg some (re_regEa hf.1 hf.2 (by omega) hl fun _ _ => rfl)

theorem re_Divs (hf : formCheck .Divs op.toNat = true) (hc : legalCheck .Divs op.toNat = true) (hl : ws.length = extensionWords .Divs op) :
    reassemble .Divs (flag op 8) (operandsOf .Divs op pc ws) = some (canonicalWords .Divs op ws) := by
  facts hf hc
  show Asm.divs _ _ = some (op :: ws)
  unfold Asm.divs
  rw [guard_then (reg_ok _), guard_then (ok_data (by omega) (by omega) (by omega) (by omega) hl (.inl rfl))]
  exact congrArg some (re_regEa hf.1 hf.2 (by omega) hl fun _ _ => rfl)

theorem re_Chk (hf : formCheck .Chk op.toNat = true) (hc : legalCheck .Chk op.toNat = true) (hl : ws.length = extensionWords .Chk op) :
    reassemble .Chk (flag op 8) (operandsOf .Chk op pc ws) = some (canonicalWords .Chk op ws) := by
  facts hf hc
  show Asm.chk _ _ = some (op :: ws)
  unfold Asm.chk
  rw [guard_then (reg_ok _), guard_then (ok_data (by omega) (by omega) (by omega) (by omega) hl (.inl rfl))]
  exact congrArg some (re_regEa hf.1 hf.2 (by omega) hl fun _ _ => rfl)

theorem re_Lea (hf : formCheck .Lea op.toNat = true) (hc : legalCheck .Lea op.toNat = true) (hl : ws.length = extensionWords .Lea op) :
    reassemble .Lea (flag op 8) (operandsOf .Lea op pc ws) = some (canonicalWords .Lea op ws) := by
  facts hf hc
  show Asm.lea _ _ = some (op :: ws)
  unfold Asm.lea
  rw [guard_then (reg_ok _), guard_then (ok_control (by omega) (by omega) (by omega) (by omega) hl)]
  exact congrArg some (re_regEa hf.1 hf.2 (by omega) hl (by omega))

theorem re_Asm (hf : formCheck .Asm op.toNat = true) (hc : legalCheck .Asm op.toNat = true) (hl : ws.length = extensionWords .Asm op) :
    reassemble .Asm (flag op 8) (operandsOf .Asm op pc ws) = some (canonicalWords .Asm op ws) := by
  facts hf hc
  show Asm.asm (if flag op 8 then .Left else .Right) _ = some (op :: ws)
  unfold Asm.asm
  rw [guard_then (by cases flag op 8 <;> simp), guard_then (ok_memoryAlterable (by omega) (by omega) (by omega) (by omega) hl)]
  exact congrArg some (re_dirEa (r := 0) (by omega) hf.1.1 hf.1.2 (by omega) hl)

theorem re_Lsm (hf : formCheck .Lsm op.toNat = true) (hc : legalCheck .Lsm op.toNat = true) (hl : ws.length = extensionWords .Lsm op) :
    reassemble .Lsm (flag op 8) (operandsOf .Lsm op pc ws) = some (canonicalWords .Lsm op ws) := by
  facts hf hc
  show Asm.lsm (if flag op 8 then .Left else .Right) _ = some (op :: ws)
  unfold Asm.lsm
  rw [guard_then (by cases flag op 8 <;> simp), guard_then (ok_memoryAlterable (by omega) (by omega) (by omega) (by omega) hl)]
  exact congrArg some (re_dirEa (r := 1) (by omega) hf.1.1 hf.1.2 (by omega) hl)

theorem re_Roxm (hf : formCheck .Roxm op.toNat = true) (hc : legalCheck .Roxm op.toNat = true) (hl : ws.length = extensionWords .Roxm op) :
    reassemble .Roxm (flag op 8) (operandsOf .Roxm op pc ws) = some (canonicalWords .Roxm op ws) := by
  facts hf hc
  show Asm.roxm (if flag op 8 then .Left else .Right) _ = some (op :: ws)
  unfold Asm.roxm
  rw [guard_then (by cases flag op 8 <;> simp), guard_then (ok_memoryAlterable (by omega) (by omega) (by omega) (by omega) hl)]
  exact congrArg some (re_dirEa (r := 2) (by omega) hf.1.1 hf.1.2 (by omega) hl)

theorem re_Rom (hf : formCheck .Rom op.toNat = true) (hc : legalCheck .Rom op.toNat = true) (hl : ws.length = extensionWords .Rom op) :
    reassemble .Rom (flag op 8) (operandsOf .Rom op pc ws) = some (canonicalWords .Rom op ws) := by
  facts hf hc
  show Asm.rom (if flag op 8 then .Left else .Right) _ = some (op :: ws)
  unfold Asm.rom
  rw [guard_then (by cases flag op 8 <;> simp), guard_then (ok_memoryAlterable (by omega) (by omega) (by omega) (by omega) hl)]
  exact congrArg some (re_dirEa (r := 3) (by omega) hf.1.1 hf.1.2 (by omega) hl)

theorem re_Btst (hf : formCheck .Btst op.toNat = true) (hc : legalCheck .Btst op.toNat = true) (hl : ws.length = extensionWords .Btst op) :
    reassemble .Btst (flag op 8) (operandsOf .Btst op pc ws) = some (canonicalWords .Btst op ws) := by
  facts hf hc
  have hl : ws.length = (if flag op 8 then 0 else 1) + opEaWords 1 op := hl
  show reassemble .Btst _ (if flag op 8 then .EffectiveAddressCount (modeOf pc (op.toNat / 8 % 8) (op.toNat % 8) ws) (BitVec.ofNat 8 (op.toNat / 512 % 8))
    else .EffectiveAddressCount (modeOf (pc + BitVec.ofNat 32 2) (op.toNat / 8 % 8) (op.toNat % 8) (ws.drop 1)) ((ws.headD 0).setWidth 8)) = some (if flag op 8 then op :: ws else op :: lowByte ws)
  by_cases h8 : op.toNat / 256 % 2 = 1
  · have e : flag op 8 = true := by rw [flag8]; simp [h8]
    rw [if_pos h8] at hf
    simp only [e, if_true, Nat.zero_add] at hl ⊢
    simp only [Bool.and_eq_true, beq_iff_eq] at hf
    show Asm.btstDynamic (BitVec.ofNat 8 (op.toNat / 512 % 8)) (modeOf _ _ _ ws) = _
    unfold Asm.btstDynamic
    rw [guard_then (reg_ok _), guard_then (ok_data (by omega) (by omega) (by omega) (by omega) hl (.inl rfl))]
    exact congrArg some (re_regEa hf.1 hf.2 (by omega) hl fun _ _ => rfl)
  · have e : flag op 8 = false := by rw [flag8]; simp [h8]
    rw [if_neg h8] at hf
    simp only [e, Bool.false_eq_true, if_false] at hl ⊢
    simp only [beq_iff_eq] at hf
    match ws, hl with
    | [], hl => exact absurd hl (by simp only [List.length_nil]; omega)
    | w :: ws, hl =>
      have hl : ws.length = opEaWords 1 op := by
        have : ws.length + 1 = 1 + opEaWords 1 op := hl
        omega
      show Asm.btstStatic (modeOf _ _ _ ws) (w.setWidth 8) = _
      unfold Asm.btstStatic
      rw [guard_then (ok_data (by omega) (by omega) (by omega) (by omega) hl (.inl rfl))]
      exact congrArg some (re_eaCount hf (by omega) hl)

theorem re_Bchg (hf : formCheck .Bchg op.toNat = true) (hc : legalCheck .Bchg op.toNat = true) (hl : ws.length = extensionWords .Bchg op) :
    reassemble .Bchg (flag op 8) (operandsOf .Bchg op pc ws) = some (canonicalWords .Bchg op ws) := by
  facts hf hc
  have hl : ws.length = (if flag op 8 then 0 else 1) + opEaWords 1 op := hl
  show reassemble .Bchg _ (if flag op 8 then .EffectiveAddressCount (modeOf pc (op.toNat / 8 % 8) (op.toNat % 8) ws) (BitVec.ofNat 8 (op.toNat / 512 % 8))
    else .EffectiveAddressCount (modeOf (pc + BitVec.ofNat 32 2) (op.toNat / 8 % 8) (op.toNat % 8) (ws.drop 1)) ((ws.headD 0).setWidth 8)) = some (if flag op 8 then op :: ws else op :: lowByte ws)
  by_cases h8 : op.toNat / 256 % 2 = 1
  · have e : flag op 8 = true := by rw [flag8]; simp [h8]
    rw [if_pos h8] at hf
    simp only [e, if_true, Nat.zero_add] at hl ⊢
    simp only [Bool.and_eq_true, beq_iff_eq] at hf
    show Asm.bchgDynamic (BitVec.ofNat 8 (op.toNat / 512 % 8)) (modeOf _ _ _ ws) = _
    unfold Asm.bchgDynamic
    rw [guard_then (reg_ok _), guard_then (ok_dataAlterable (by omega) (by omega) (by omega) (by omega) hl)]
    exact congrArg some (re_regEa hf.1 hf.2 (by omega) hl fun _ _ => rfl)
  · have e : flag op 8 = false := by rw [flag8]; simp [h8]
    rw [if_neg h8] at hf
    simp only [e, Bool.false_eq_true, if_false] at hl ⊢
    simp only [beq_iff_eq] at hf
    match ws, hl with
    | [], hl => exact absurd hl (by simp only [List.length_nil]; omega)
    | w :: ws, hl =>
      have hl : ws.length = opEaWords 1 op := by
        have : ws.length + 1 = 1 + opEaWords 1 op := hl
        omega
      show Asm.bchgStatic (modeOf _ _ _ ws) (w.setWidth 8) = _
      unfold Asm.bchgStatic
      rw [guard_then (ok_dataAlterable (by omega) (by omega) (by omega) (by omega) hl)]
      exact congrArg some (re_eaCount hf (by omega) hl)

theorem re_Bclr (hf : formCheck .Bclr op.toNat = true) (hc : legalCheck .Bclr op.toNat = true) (hl : ws.length = extensionWords .Bclr op) :
    reassemble .Bclr (flag op 8) (operandsOf .Bclr op pc ws) = some (canonicalWords .Bclr op ws) := by
  facts hf hc
  have hl : ws.length = (if flag op 8 then 0 else 1) + opEaWords 1 op := hl
  show reassemble .Bclr _ (if flag op 8 then .EffectiveAddressCount (modeOf pc (op.toNat / 8 % 8) (op.toNat % 8) ws) (BitVec.ofNat 8 (op.toNat / 512 % 8))
    else .EffectiveAddressCount (modeOf (pc + BitVec.ofNat 32 2) (op.toNat / 8 % 8) (op.toNat % 8) (ws.drop 1)) ((ws.headD 0).setWidth 8)) = some (if flag op 8 then op :: ws else op :: lowByte ws)
  by_cases h8 : op.toNat / 256 % 2 = 1
  · have e : flag op 8 = true := by rw [flag8]; simp [h8]
    rw [if_pos h8] at hf
    simp only [e, if_true, Nat.zero_add] at hl ⊢
    simp only [Bool.and_eq_true, beq_iff_eq] at hf
    show Asm.bclrDynamic (BitVec.ofNat 8 (op.toNat / 512 % 8)) (modeOf _ _ _ ws) = _
    unfold Asm.bclrDynamic
    rw [guard_then (reg_ok _), guard_then (ok_dataAlterable (by omega) (by omega) (by omega) (by omega) hl)]
    exact congrArg some (re_regEa hf.1 hf.2 (by omega) hl fun _ _ => rfl)
  · have e : flag op 8 = false := by rw [flag8]; simp [h8]
    rw [if_neg h8] at hf
    simp only [e, Bool.false_eq_true, if_false] at hl ⊢
    simp only [beq_iff_eq] at hf
    match ws, hl with
    | [], hl => exact absurd hl (by simp only [List.length_nil]; omega)
    | w :: ws, hl =>
      have hl : ws.length = opEaWords 1 op := by
        have : ws.length + 1 = 1 + opEaWords 1 op := hl
        omega
      show Asm.bclrStatic (modeOf _ _ _ ws) (w.setWidth 8) = _
      unfold Asm.bclrStatic
      rw [guard_then (ok_dataAlterable (by omega) (by omega) (by omega) (by omega) hl)]
      exact congrArg some (re_eaCount hf (by omega) hl)

theorem re_Bset (hf : formCheck .Bset op.toNat = true) (hc : legalCheck .Bset op.toNat = true) (hl : ws.length = extensionWords .Bset op) :
    reassemble .Bset (flag op 8) (operandsOf .Bset op pc ws) = some (canonicalWords .Bset op ws) := by
  facts hf hc
  have hl : ws.length = (if flag op 8 then 0 else 1) + opEaWords 1 op := hl
  show reassemble .Bset _ (if flag op 8 then .EffectiveAddressCount (modeOf pc (op.toNat / 8 % 8) (op.toNat % 8) ws) (BitVec.ofNat 8 (op.toNat / 512 % 8))
    else .EffectiveAddressCount (modeOf (pc + BitVec.ofNat 32 2) (op.toNat / 8 % 8) (op.toNat % 8) (ws.drop 1)) ((ws.headD 0).setWidth 8)) = some (if flag op 8 then op :: ws else op :: lowByte ws)
  by_cases h8 : op.toNat / 256 % 2 = 1
  · have e : flag op 8 = true := by rw [flag8]; simp [h8]
    rw [if_pos h8] at hf
    simp only [e, if_true, Nat.zero_add] at hl ⊢
    simp only [Bool.and_eq_true, beq_iff_eq] at hf
    show Asm.bsetDynamic (BitVec.ofNat 8 (op.toNat / 512 % 8)) (modeOf _ _ _ ws) = _
    unfold Asm.bsetDynamic
    rw [guard_then (reg_ok _), guard_then (ok_dataAlterable (by omega) (by omega) (by omega) (by omega) hl)]
    exact congrArg some (re_regEa hf.1 hf.2 (by omega) hl fun _ _ => rfl)
  · have e : flag op 8 = false := by rw [flag8]; simp [h8]
    rw [if_neg h8] at hf
    simp only [e, Bool.false_eq_true, if_false] at hl ⊢
    simp only [beq_iff_eq] at hf
    match ws, hl with
    | [], hl => exact absurd hl (by simp only [List.length_nil]; omega)
    | w :: ws, hl =>
      have hl : ws.length = opEaWords 1 op := by
        have : ws.length + 1 = 1 + opEaWords 1 op := hl
        omega
      show Asm.bsetStatic (modeOf _ _ _ ws) (w.setWidth 8) = _
      unfold Asm.bsetStatic
      rw [guard_then (ok_dataAlterable (by omega) (by omega) (by omega) (by omega) hl)]
      exact congrArg some (re_eaCount hf (by omega) hl)

theorem re_Move (hf : formCheck .Move op.toNat = true) (hc : legalCheck .Move op.toNat = true) (hl : ws.length = extensionWords .Move op) :
    reassemble .Move (flag op 8) (operandsOf .Move op pc ws) = some (canonicalWords .Move op ws) := by
  facts hf hc
  have hl : ws.length = opEaWords (moveImm op) op + eaWords (moveImm op) (op.toNat / 64 % 8) (op.toNat / 512 % 8) := hl
  have h1 : (ws.take (opEaWords (moveImm op) op)).length = opEaWords (moveImm op) op := by
    rw [List.length_take, hl]
    exact Nat.min_eq_left (Nat.le_add_right _ _)
  have h2 : (ws.drop (opEaWords (moveImm op) op)).length = eaWords (moveImm op) (op.toNat / 64 % 8) (op.toNat / 512 % 8) := by
    rw [List.length_drop, hl]
    exact Nat.add_sub_cancel_left ..
  show Asm.move _ (modeOf _ _ _ (ws.drop (opEaWords (moveImm op) op))) (modeOf _ _ _ (ws.take (opEaWords (moveImm op) op))) = some (op :: ws)
  unfold Asm.move
  have hb : ¬ ((modeOf pc (op.toNat / 8 % 8) (op.toNat % 8) (ws.take (opEaWords (moveImm op) op))).isArd = true ∧ ((moveOpSize op).getD .Byte).isByte = true) := by
    rintro ⟨e1, e2⟩
    have hn := moveOpSize_no (op := op) (by omega)
    generalize (moveOpSize op).getD .Byte = sz at hn e2
    cases sz with
    | Byte =>
      have hn : 1 = op.toNat / 4096 % 4 := hn
      rw [modeOf_isArd (by omega)] at e1
      cases e1
    | Word => cases e2
    | Long => cases e2
  rw [guard_then (ok_dataAlterable (by omega) (by omega) (by omega) (by omega) h2), guard_then hb]
  have hw := re_move (pc := pc) (pc' := 0) hf (by omega) (by omega) (by omega) h1 h2
  rw [List.take_append_drop] at hw
  exact hw

theorem re_Movea (hf : formCheck .Movea op.toNat = true) (hc : legalCheck .Movea op.toNat = true) (hl : ws.length = extensionWords .Movea op) :
    reassemble .Movea (flag op 8) (operandsOf .Movea op pc ws) = some (canonicalWords .Movea op ws) := by
  facts hf hc
  show Asm.movea _ _ _ = some (op :: ws)
  unfold Asm.movea
  have hb : (moveOpSize op).getD .Byte ≠ .Byte := by
    have hn := moveOpSize_no (op := op) (by omega)
    generalize (moveOpSize op).getD .Byte = sz at hn
    cases sz with
    | Byte => have hn : 1 = op.toNat / 4096 % 4 := hn; omega
    | Word => decide
    | Long => decide
  rw [guard_then (reg_ok _), guard_then hb]
  have hw := re_move (pc := pc) (pc' := 0) (dws := []) hf.1.1 (by omega) (by omega) (by omega) hl (by rw [hf.1.2]; rfl)
  rw [hf.1.2, List.append_nil] at hw
  exact hw

end M68k.Exec
