import Verif.Lemmas.TextLines
import Verif.Lemmas.Decode
/-
Every instruction is read back from its text. Generated by tools/gen_text_lemmas.py.
-/
namespace M68k.Spec.Reader
open Text Exec

variable {pc : U32} {inst : Instruction}

theorem fin16_cases (n : Fin 16) : n = 0 ∨ n = 1 ∨ n = 2 ∨ n = 3 ∨ n = 4 ∨ n = 5 ∨ n = 6 ∨ n = 7 ∨ n = 8 ∨ n = 9 ∨ n = 10 ∨ n = 11 ∨ n = 12 ∨ n = 13 ∨ n = 14 ∨ n = 15 := by
  revert n; decide

theorem bits_flag (op : U16) : decide (bits op 8 8 ≠ 0) = flag op 8 := by
  rw [← bit_flag op 8 (by omega), bit_eq op 8 (by omega)]
  apply Bool.eq_iff_iff.2
  simp only [decide_eq_true_eq]
  have : ((1 : U16) <<< 1 - 1).toNat = 2 ^ 1 - 1 := rfl
  have e : (bits op 8 8).toNat = op.toNat / 2 ^ 8 % 2 := by
    simp only [bits, BitVec.toNat_and, this, Nat.and_two_pow_sub_one_eq_mod, BitVec.toNat_ushiftRight, Nat.shiftRight_eq_div_pow]
  constructor
  · intro h
    have h : (bits op 8 8).toNat ≠ 0 := fun h' => h (BitVec.eq_of_toNat_eq h')
    omega
  · intro h h'
    rw [h'] at e
    simp at e
    omega

theorem name_add (s : Size) : Name pc ("ADD.".toList ++ s.text) (some s) (binary .Add) := by
  cases s <;> exact name_of 1 (nm := "ADD".toList) (by decide +kernel) rfl

theorem text_add {r : U8} {d : Direction} {s : Size} {am : AddressingMode} (ho : inst.operands = .RegisterDirectionSizeEffectiveAddress r d s am) (hd : d = .DstReg ∨ d = .DstEa ∧ ∀ n, am ≠ .Drd n) :
    ∃ t, Dis.addText inst = some t ∧ line inst.pc t = known .Add inst.operands.canonical := by
  rcases hd with rfl | ⟨rfl, hd⟩
  · exact ⟨"ADD.".toList ++ s.text ++ ' ' :: (am.text ++ ',' :: ' ' :: 'D' :: dec r), by simp [Dis.addText, ho, Operands.registerDirectionSizeEffectiveAddress], by rw [ho]; exact binary_reg r am (name_add s)⟩
  · exact ⟨"ADD.".toList ++ s.text ++ ' ' :: ('D' :: dec r ++ ',' :: ' ' :: am.text), by simp [Dis.addText, ho, Operands.registerDirectionSizeEffectiveAddress], by rw [ho]; exact binary_mem r am (name_add s) hd⟩

theorem name_and (s : Size) : Name pc ("AND.".toList ++ s.text) (some s) (binary .And) := by
  cases s <;> exact name_of 6 (nm := "AND".toList) (by decide +kernel) rfl

theorem text_and {r : U8} {d : Direction} {s : Size} {am : AddressingMode} (ho : inst.operands = .RegisterDirectionSizeEffectiveAddress r d s am) (hd : d = .DstReg ∨ d = .DstEa ∧ ∀ n, am ≠ .Drd n) :
    ∃ t, Dis.andText inst = some t ∧ line inst.pc t = known .And inst.operands.canonical := by
  rcases hd with rfl | ⟨rfl, hd⟩
  · exact ⟨"AND.".toList ++ s.text ++ ' ' :: (am.text ++ ',' :: ' ' :: 'D' :: dec r), by simp [Dis.andText, ho, Operands.registerDirectionSizeEffectiveAddress], by rw [ho]; exact binary_reg r am (name_and s)⟩
  · exact ⟨"AND.".toList ++ s.text ++ ' ' :: ('D' :: dec r ++ ',' :: ' ' :: am.text), by simp [Dis.andText, ho, Operands.registerDirectionSizeEffectiveAddress], by rw [ho]; exact binary_mem r am (name_and s) hd⟩

theorem name_or (s : Size) : Name pc ("OR.".toList ++ s.text) (some s) (binary .Or) := by
  cases s <;> exact name_of 47 (nm := "OR".toList) (by decide +kernel) rfl

theorem text_or {r : U8} {d : Direction} {s : Size} {am : AddressingMode} (ho : inst.operands = .RegisterDirectionSizeEffectiveAddress r d s am) (hd : d = .DstReg ∨ d = .DstEa ∧ ∀ n, am ≠ .Drd n) :
    ∃ t, Dis.orText inst = some t ∧ line inst.pc t = known .Or inst.operands.canonical := by
  rcases hd with rfl | ⟨rfl, hd⟩
  · exact ⟨"OR.".toList ++ s.text ++ ' ' :: (am.text ++ ',' :: ' ' :: 'D' :: dec r), by simp [Dis.orText, ho, Operands.registerDirectionSizeEffectiveAddress], by rw [ho]; exact binary_reg r am (name_or s)⟩
  · exact ⟨"OR.".toList ++ s.text ++ ' ' :: ('D' :: dec r ++ ',' :: ' ' :: am.text), by simp [Dis.orText, ho, Operands.registerDirectionSizeEffectiveAddress], by rw [ho]; exact binary_mem r am (name_or s) hd⟩

theorem name_sub (s : Size) : Name pc ("SUB.".toList ++ s.text) (some s) (binary .Sub) := by
  cases s <;> exact name_of 60 (nm := "SUB".toList) (by decide +kernel) rfl

theorem text_sub {r : U8} {d : Direction} {s : Size} {am : AddressingMode} (ho : inst.operands = .RegisterDirectionSizeEffectiveAddress r d s am) (hd : d = .DstReg ∨ d = .DstEa ∧ ∀ n, am ≠ .Drd n) :
    ∃ t, Dis.subText inst = some t ∧ line inst.pc t = known .Sub inst.operands.canonical := by
  rcases hd with rfl | ⟨rfl, hd⟩
  · exact ⟨"SUB.".toList ++ s.text ++ ' ' :: (am.text ++ ',' :: ' ' :: 'D' :: dec r), by simp [Dis.subText, ho, Operands.registerDirectionSizeEffectiveAddress], by rw [ho]; exact binary_reg r am (name_sub s)⟩
  · exact ⟨"SUB.".toList ++ s.text ++ ' ' :: ('D' :: dec r ++ ',' :: ' ' :: am.text), by simp [Dis.subText, ho, Operands.registerDirectionSizeEffectiveAddress], by rw [ho]; exact binary_mem r am (name_sub s) hd⟩

theorem name_adda (s : Size) : Name pc ("ADDA.".toList ++ s.text) (some s) (toAddress .Adda) := by
  cases s <;> exact name_of 2 (nm := "ADDA".toList) (by decide +kernel) rfl

theorem text_adda {r : U8} {s : Size} {am : AddressingMode} (ho : inst.operands = .RegisterSizeEffectiveAddress r s am) :
    ∃ t, Dis.addaText inst = some t ∧ line inst.pc t = known .Adda inst.operands.canonical := by
  exact ⟨"ADDA.".toList ++ s.text ++ ' ' :: (am.text ++ ',' :: ' ' :: 'A' :: dec r), by simp [Dis.addaText, ho, Operands.registerSizeEffectiveAddress], by rw [ho]; exact toAddress_line r am (name_adda s)⟩

theorem name_cmpa (s : Size) : Name pc ("CMPA.".toList ++ s.text) (some s) (toAddress .Cmpa) := by
  cases s <;> exact name_of 19 (nm := "CMPA".toList) (by decide +kernel) rfl

theorem text_cmpa {r : U8} {s : Size} {am : AddressingMode} (ho : inst.operands = .RegisterSizeEffectiveAddress r s am) :
    ∃ t, Dis.cmpaText inst = some t ∧ line inst.pc t = known .Cmpa inst.operands.canonical := by
  exact ⟨"CMPA.".toList ++ s.text ++ ' ' :: (am.text ++ ',' :: ' ' :: 'A' :: dec r), by simp [Dis.cmpaText, ho, Operands.registerSizeEffectiveAddress], by rw [ho]; exact toAddress_line r am (name_cmpa s)⟩

theorem name_suba (s : Size) : Name pc ("SUBA.".toList ++ s.text) (some s) (toAddress .Suba) := by
  cases s <;> exact name_of 61 (nm := "SUBA".toList) (by decide +kernel) rfl

theorem text_suba {r : U8} {s : Size} {am : AddressingMode} (ho : inst.operands = .RegisterSizeEffectiveAddress r s am) :
    ∃ t, Dis.subaText inst = some t ∧ line inst.pc t = known .Suba inst.operands.canonical := by
  exact ⟨"SUBA.".toList ++ s.text ++ ' ' :: (am.text ++ ',' :: ' ' :: 'A' :: dec r), by simp [Dis.subaText, ho, Operands.registerSizeEffectiveAddress], by rw [ho]; exact toAddress_line r am (name_suba s)⟩

theorem name_addi (s : Size) : Name pc ("ADDI.".toList ++ s.text) (some s) (immediate .Addi none none) := by
  cases s <;> exact name_of 3 (nm := "ADDI".toList) (by decide +kernel) rfl

theorem text_addi {s : Size} {am : AddressingMode} {v : U32} (ho : inst.operands = .SizeEffectiveAddressImmediate s am v) :
    ∃ t, Dis.addiText inst = some t ∧ line inst.pc t = known .Addi inst.operands.canonical := by
  exact ⟨"ADDI.".toList ++ s.text ++ ' ' :: ('#' :: dec v ++ ',' :: ' ' :: am.text), by simp [Dis.addiText, ho, Operands.sizeEffectiveAddressImmediate], by rw [ho]; exact immediate_line am (name_addi s) v⟩

theorem name_andi (s : Size) : Name pc ("ANDI.".toList ++ s.text) (some s) (immediate .Andi (some .Andiccr) (some .Andisr)) := by
  cases s <;> exact name_of 7 (nm := "ANDI".toList) (by decide +kernel) rfl

theorem text_andi {s : Size} {am : AddressingMode} {v : U32} (ho : inst.operands = .SizeEffectiveAddressImmediate s am v) :
    ∃ t, Dis.andiText inst = some t ∧ line inst.pc t = known .Andi inst.operands.canonical := by
  exact ⟨"ANDI.".toList ++ s.text ++ ' ' :: ('#' :: dec v ++ ',' :: ' ' :: am.text), by simp [Dis.andiText, ho, Operands.sizeEffectiveAddressImmediate], by rw [ho]; exact immediate_line am (name_andi s) v⟩

theorem name_andiccr : Name pc "ANDI".toList none (immediate .Andi (some .Andiccr) (some .Andisr)) := name_of 7 (nm := "ANDI".toList) (by decide +kernel) rfl

theorem text_andiccr {v : U16} (ho : inst.operands = .Immediate v) :
    ∃ t, Dis.andiccrText inst = some t ∧ line inst.pc t = known .Andiccr inst.operands.canonical := by
  exact ⟨"ANDI".toList ++ ' ' :: (hex v ++ ',' :: ' ' :: ['C', 'C', 'R']), by simp [Dis.andiccrText, ho, Operands.immediate], by rw [ho]; exact immediate_ccr name_andiccr v⟩

theorem name_andisr : Name pc "ANDI".toList none (immediate .Andi (some .Andiccr) (some .Andisr)) := name_of 7 (nm := "ANDI".toList) (by decide +kernel) rfl

theorem text_andisr {v : U16} (ho : inst.operands = .Immediate v) :
    ∃ t, Dis.andisrText inst = some t ∧ line inst.pc t = known .Andisr inst.operands.canonical := by
  exact ⟨"ANDI".toList ++ ' ' :: (hex v ++ ',' :: ' ' :: ['S', 'R']), by simp [Dis.andisrText, ho, Operands.immediate], by rw [ho]; exact immediate_sr name_andisr v⟩

theorem name_cmpi (s : Size) : Name pc ("CMPI.".toList ++ s.text) (some s) (immediate .Cmpi none none) := by
  cases s <;> exact name_of 20 (nm := "CMPI".toList) (by decide +kernel) rfl

theorem text_cmpi {s : Size} {am : AddressingMode} {v : U32} (ho : inst.operands = .SizeEffectiveAddressImmediate s am v) :
    ∃ t, Dis.cmpiText inst = some t ∧ line inst.pc t = known .Cmpi inst.operands.canonical := by
  exact ⟨"CMPI.".toList ++ s.text ++ ' ' :: ('#' :: dec v ++ ',' :: ' ' :: am.text), by simp [Dis.cmpiText, ho, Operands.sizeEffectiveAddressImmediate], by rw [ho]; exact immediate_line am (name_cmpi s) v⟩

theorem name_eori (s : Size) : Name pc ("EORI.".toList ++ s.text) (some s) (immediate .Eori (some .Eoriccr) (some .Eorisr)) := by
  cases s <;> exact name_of 25 (nm := "EORI".toList) (by decide +kernel) rfl

theorem text_eori {s : Size} {am : AddressingMode} {v : U32} (ho : inst.operands = .SizeEffectiveAddressImmediate s am v) :
    ∃ t, Dis.eoriText inst = some t ∧ line inst.pc t = known .Eori inst.operands.canonical := by
  exact ⟨"EORI.".toList ++ s.text ++ ' ' :: ('#' :: dec v ++ ',' :: ' ' :: am.text), by simp [Dis.eoriText, ho, Operands.sizeEffectiveAddressImmediate], by rw [ho]; exact immediate_line am (name_eori s) v⟩

theorem name_eoriccr : Name pc "EORI".toList none (immediate .Eori (some .Eoriccr) (some .Eorisr)) := name_of 25 (nm := "EORI".toList) (by decide +kernel) rfl

theorem text_eoriccr {v : U16} (ho : inst.operands = .Immediate v) :
    ∃ t, Dis.eoriccrText inst = some t ∧ line inst.pc t = known .Eoriccr inst.operands.canonical := by
  exact ⟨"EORI".toList ++ ' ' :: (hex v ++ ',' :: ' ' :: ['C', 'C', 'R']), by simp [Dis.eoriccrText, ho, Operands.immediate], by rw [ho]; exact immediate_ccr name_eoriccr v⟩

theorem name_eorisr : Name pc "EORI".toList none (immediate .Eori (some .Eoriccr) (some .Eorisr)) := name_of 25 (nm := "EORI".toList) (by decide +kernel) rfl

theorem text_eorisr {v : U16} (ho : inst.operands = .Immediate v) :
    ∃ t, Dis.eorisrText inst = some t ∧ line inst.pc t = known .Eorisr inst.operands.canonical := by
  exact ⟨"EORI".toList ++ ' ' :: (hex v ++ ',' :: ' ' :: ['S', 'R']), by simp [Dis.eorisrText, ho, Operands.immediate], by rw [ho]; exact immediate_sr name_eorisr v⟩

theorem name_ori (s : Size) : Name pc ("ORI.".toList ++ s.text) (some s) (immediate .Ori (some .Oriccr) (some .Orisr)) := by
  cases s <;> exact name_of 48 (nm := "ORI".toList) (by decide +kernel) rfl

theorem text_ori {s : Size} {am : AddressingMode} {v : U32} (ho : inst.operands = .SizeEffectiveAddressImmediate s am v) :
    ∃ t, Dis.oriText inst = some t ∧ line inst.pc t = known .Ori inst.operands.canonical := by
  exact ⟨"ORI.".toList ++ s.text ++ ' ' :: ('#' :: dec v ++ ',' :: ' ' :: am.text), by simp [Dis.oriText, ho, Operands.sizeEffectiveAddressImmediate], by rw [ho]; exact immediate_line am (name_ori s) v⟩

theorem name_oriccr : Name pc "ORI".toList none (immediate .Ori (some .Oriccr) (some .Orisr)) := name_of 48 (nm := "ORI".toList) (by decide +kernel) rfl

theorem text_oriccr {v : U16} (ho : inst.operands = .Immediate v) :
    ∃ t, Dis.oriccrText inst = some t ∧ line inst.pc t = known .Oriccr inst.operands.canonical := by
  exact ⟨"ORI".toList ++ ' ' :: (hex v ++ ',' :: ' ' :: ['C', 'C', 'R']), by simp [Dis.oriccrText, ho, Operands.immediate], by rw [ho]; exact immediate_ccr name_oriccr v⟩

theorem name_orisr : Name pc "ORI".toList none (immediate .Ori (some .Oriccr) (some .Orisr)) := name_of 48 (nm := "ORI".toList) (by decide +kernel) rfl

theorem text_orisr {v : U16} (ho : inst.operands = .Immediate v) :
    ∃ t, Dis.orisrText inst = some t ∧ line inst.pc t = known .Orisr inst.operands.canonical := by
  exact ⟨"ORI".toList ++ ' ' :: (hex v ++ ',' :: ' ' :: ['S', 'R']), by simp [Dis.orisrText, ho, Operands.immediate], by rw [ho]; exact immediate_sr name_orisr v⟩

theorem name_subi (s : Size) : Name pc ("SUBI.".toList ++ s.text) (some s) (immediate .Subi none none) := by
  cases s <;> exact name_of 62 (nm := "SUBI".toList) (by decide +kernel) rfl

theorem text_subi {s : Size} {am : AddressingMode} {v : U32} (ho : inst.operands = .SizeEffectiveAddressImmediate s am v) :
    ∃ t, Dis.subiText inst = some t ∧ line inst.pc t = known .Subi inst.operands.canonical := by
  exact ⟨"SUBI.".toList ++ s.text ++ ' ' :: ('#' :: dec v ++ ',' :: ' ' :: am.text), by simp [Dis.subiText, ho, Operands.sizeEffectiveAddressImmediate], by rw [ho]; exact immediate_line am (name_subi s) v⟩

theorem name_addq (s : Size) : Name pc ("ADDQ.".toList ++ s.text) (some s) (quick .Addq) := by
  cases s <;> exact name_of 4 (nm := "ADDQ".toList) (by decide +kernel) rfl

theorem text_addq {d : U8} {s : Size} {am : AddressingMode} (ho : inst.operands = .DataSizeEffectiveAddress d s am) (hd : d.toNat < 8) :
    ∃ t, Dis.addqText inst = some t ∧ line inst.pc t = known .Addq inst.operands.canonical := by
  exact ⟨"ADDQ.".toList ++ s.text ++ ' ' :: ('#' :: dec (if d = 0 then 8 else d : U8) ++ ',' :: ' ' :: am.text), by simp [Dis.addqText, ho, Operands.dataSizeEffectiveAddress], by rw [ho]; exact quick_line am (name_addq s) hd⟩

theorem name_subq (s : Size) : Name pc ("SUBQ.".toList ++ s.text) (some s) (quick .Subq) := by
  cases s <;> exact name_of 63 (nm := "SUBQ".toList) (by decide +kernel) rfl

theorem text_subq {d : U8} {s : Size} {am : AddressingMode} (ho : inst.operands = .DataSizeEffectiveAddress d s am) (hd : d.toNat < 8) :
    ∃ t, Dis.subqText inst = some t ∧ line inst.pc t = known .Subq inst.operands.canonical := by
  exact ⟨"SUBQ.".toList ++ s.text ++ ' ' :: ('#' :: dec (if d = 0 then 8 else d : U8) ++ ',' :: ' ' :: am.text), by simp [Dis.subqText, ho, Operands.dataSizeEffectiveAddress], by rw [ho]; exact quick_line am (name_subq s) hd⟩

theorem name_addx (s : Size) : Name pc ("ADDX.".toList ++ s.text) (some s) (fun s o => do extended .Addx (← s) o) := by
  cases s <;> exact name_of 5 (nm := "ADDX".toList) (by decide +kernel) rfl

theorem text_addx {rx ry : U8} {s : Size} {d : Direction} (ho : inst.operands = .RegisterSizeModeRegister rx s d ry) (hd : d = .RegisterToRegister ∨ d = .MemoryToMemory) :
    ∃ t, Dis.addxText inst = some t ∧ line inst.pc t = known .Addx inst.operands.canonical := by
  rcases hd with rfl | rfl
  · exact ⟨"ADDX.".toList ++ s.text ++ ' ' :: ('D' :: dec ry ++ ',' :: ' ' :: 'D' :: dec rx), by simp [Dis.addxText, ho, Operands.registerSizeModeRegister], by rw [ho]; exact extended_reg rx ry (name_addx s) rfl⟩
  · exact ⟨"ADDX.".toList ++ s.text ++ ' ' :: (('-' :: '(' :: 'A' :: (dec ry ++ [')'])) ++ ',' :: ' ' :: '-' :: '(' :: 'A' :: (dec rx ++ [')'])), by simp [Dis.addxText, ho, Operands.registerSizeModeRegister], by rw [ho]; exact extended_mem rx ry (name_addx s) rfl⟩

theorem name_subx (s : Size) : Name pc ("SUBX.".toList ++ s.text) (some s) (fun s o => do extended .Subx (← s) o) := by
  cases s <;> exact name_of 64 (nm := "SUBX".toList) (by decide +kernel) rfl

theorem text_subx {rx ry : U8} {s : Size} {d : Direction} (ho : inst.operands = .RegisterSizeModeRegister rx s d ry) (hd : d = .RegisterToRegister ∨ d = .MemoryToMemory) :
    ∃ t, Dis.subxText inst = some t ∧ line inst.pc t = known .Subx inst.operands.canonical := by
  rcases hd with rfl | rfl
  · exact ⟨"SUBX.".toList ++ s.text ++ ' ' :: ('D' :: dec ry ++ ',' :: ' ' :: 'D' :: dec rx), by simp [Dis.subxText, ho, Operands.registerSizeModeRegister], by rw [ho]; exact extended_reg rx ry (name_subx s) rfl⟩
  · exact ⟨"SUBX.".toList ++ s.text ++ ' ' :: (('-' :: '(' :: 'A' :: (dec ry ++ [')'])) ++ ',' :: ' ' :: '-' :: '(' :: 'A' :: (dec rx ++ [')'])), by simp [Dis.subxText, ho, Operands.registerSizeModeRegister], by rw [ho]; exact extended_mem rx ry (name_subx s) rfl⟩

theorem name_abcd : Name pc "ABCD".toList none (fun s o => if s = none then extended .Abcd .Byte o else none) := name_of 0 (nm := "ABCD".toList) (by decide +kernel) rfl

theorem text_abcd {rx ry : U8} {d : Direction} (ho : inst.operands = .RegisterSizeModeRegister rx .Byte d ry) (hd : d = .RegisterToRegister ∨ d = .MemoryToMemory) :
    ∃ t, Dis.abcdText inst = some t ∧ line inst.pc t = known .Abcd inst.operands.canonical := by
  rcases hd with rfl | rfl
  · exact ⟨"ABCD".toList ++ ' ' :: ('D' :: dec ry ++ ',' :: ' ' :: 'D' :: dec rx), by simp [Dis.abcdText, ho, Operands.registerSizeModeRegister], by rw [ho]; exact extended_reg rx ry name_abcd rfl⟩
  · exact ⟨"ABCD".toList ++ ' ' :: (('-' :: '(' :: 'A' :: (dec ry ++ [')'])) ++ ',' :: ' ' :: '-' :: '(' :: 'A' :: (dec rx ++ [')'])), by simp [Dis.abcdText, ho, Operands.registerSizeModeRegister], by rw [ho]; exact extended_mem rx ry name_abcd rfl⟩

theorem name_sbcd : Name pc "SBCD".toList none (fun s o => if s = none then extended .Sbcd .Byte o else none) := name_of 58 (nm := "SBCD".toList) (by decide +kernel) rfl

theorem text_sbcd {rx ry : U8} {d : Direction} (ho : inst.operands = .RegisterSizeModeRegister rx .Byte d ry) (hd : d = .RegisterToRegister ∨ d = .MemoryToMemory) :
    ∃ t, Dis.sbcdText inst = some t ∧ line inst.pc t = known .Sbcd inst.operands.canonical := by
  rcases hd with rfl | rfl
  · exact ⟨"SBCD".toList ++ ' ' :: ('D' :: dec ry ++ ',' :: ' ' :: 'D' :: dec rx), by simp [Dis.sbcdText, ho, Operands.registerSizeModeRegister], by rw [ho]; exact extended_reg rx ry name_sbcd rfl⟩
  · exact ⟨"SBCD".toList ++ ' ' :: (('-' :: '(' :: 'A' :: (dec ry ++ [')'])) ++ ',' :: ' ' :: '-' :: '(' :: 'A' :: (dec rx ++ [')'])), by simp [Dis.sbcdText, ho, Operands.registerSizeModeRegister], by rw [ho]; exact extended_mem rx ry name_sbcd rfl⟩

theorem name_asm_l : Name pc "ASL".toList none (shift .Asm .Asr .Left) := name_of 8 (nm := "ASL".toList) (by decide +kernel) rfl

theorem name_asr_l (s : Size) : Name pc ("ASL.".toList ++ s.text) (some s) (shift .Asm .Asr .Left) := by
  cases s <;> exact name_of 8 (nm := "ASL".toList) (by decide +kernel) rfl

theorem name_asm_r : Name pc "ASR".toList none (shift .Asm .Asr .Right) := name_of 9 (nm := "ASR".toList) (by decide +kernel) rfl

theorem name_asr_r (s : Size) : Name pc ("ASR.".toList ++ s.text) (some s) (shift .Asm .Asr .Right) := by
  cases s <;> exact name_of 9 (nm := "ASR".toList) (by decide +kernel) rfl

theorem text_asm {d : Direction} {am : AddressingMode} (ho : inst.operands = .DirectionEffectiveAddress d am) (hd : d = .Left ∨ d = .Right) :
    ∃ t, Dis.asmText inst = some t ∧ line inst.pc t = known .Asm inst.operands.canonical := by
  rcases hd with rfl | rfl
  · exact ⟨"ASL".toList ++ ' ' :: (am.text), by simp [Dis.asmText, ho, Operands.directionEffectiveAddress, Direction.text], by rw [ho]; exact shift_mem am name_asm_l⟩
  · exact ⟨"ASR".toList ++ ' ' :: (am.text), by simp [Dis.asmText, ho, Operands.directionEffectiveAddress, Direction.text], by rw [ho]; exact shift_mem am name_asm_r⟩

theorem text_asr {rx ry : U8} {s : Size} {d : Direction} {b : Bool} (ho : inst.operands = .RotationDirectionSizeModeRegister rx d s b ry) (hx : rx.toNat < 8) (hd : d = .Left ∨ d = .Right) :
    ∃ t, Dis.asrText inst = some t ∧ line inst.pc t = known .Asr inst.operands.canonical := by
  rcases hd with rfl | rfl <;> cases b
  · exact ⟨"ASL.".toList ++ s.text ++ ' ' :: ('#' :: dec (if rx = 0 then 8 else rx : U8) ++ ',' :: ' ' :: 'D' :: dec ry), by simp [Dis.asrText, ho, Operands.rotationDirectionSizeModeRegister, Direction.text], by rw [ho]; exact shift_imm rx ry (name_asr_l s) hx⟩
  · exact ⟨"ASL.".toList ++ s.text ++ ' ' :: ('D' :: dec rx ++ ',' :: ' ' :: 'D' :: dec ry), by simp [Dis.asrText, ho, Operands.rotationDirectionSizeModeRegister, Direction.text], by rw [ho]; exact shift_reg rx ry (name_asr_l s)⟩
  · exact ⟨"ASR.".toList ++ s.text ++ ' ' :: ('#' :: dec (if rx = 0 then 8 else rx : U8) ++ ',' :: ' ' :: 'D' :: dec ry), by simp [Dis.asrText, ho, Operands.rotationDirectionSizeModeRegister, Direction.text], by rw [ho]; exact shift_imm rx ry (name_asr_r s) hx⟩
  · exact ⟨"ASR.".toList ++ s.text ++ ' ' :: ('D' :: dec rx ++ ',' :: ' ' :: 'D' :: dec ry), by simp [Dis.asrText, ho, Operands.rotationDirectionSizeModeRegister, Direction.text], by rw [ho]; exact shift_reg rx ry (name_asr_r s)⟩

theorem name_lsm_l : Name pc "LSL".toList none (shift .Lsm .Lsr .Left) := name_of 33 (nm := "LSL".toList) (by decide +kernel) rfl

theorem name_lsr_l (s : Size) : Name pc ("LSL.".toList ++ s.text) (some s) (shift .Lsm .Lsr .Left) := by
  cases s <;> exact name_of 33 (nm := "LSL".toList) (by decide +kernel) rfl

theorem name_lsm_r : Name pc "LSR".toList none (shift .Lsm .Lsr .Right) := name_of 34 (nm := "LSR".toList) (by decide +kernel) rfl

theorem name_lsr_r (s : Size) : Name pc ("LSR.".toList ++ s.text) (some s) (shift .Lsm .Lsr .Right) := by
  cases s <;> exact name_of 34 (nm := "LSR".toList) (by decide +kernel) rfl

theorem text_lsm {d : Direction} {am : AddressingMode} (ho : inst.operands = .DirectionEffectiveAddress d am) (hd : d = .Left ∨ d = .Right) :
    ∃ t, Dis.lsmText inst = some t ∧ line inst.pc t = known .Lsm inst.operands.canonical := by
  rcases hd with rfl | rfl
  · exact ⟨"LSL".toList ++ ' ' :: (am.text), by simp [Dis.lsmText, ho, Operands.directionEffectiveAddress, Direction.text], by rw [ho]; exact shift_mem am name_lsm_l⟩
  · exact ⟨"LSR".toList ++ ' ' :: (am.text), by simp [Dis.lsmText, ho, Operands.directionEffectiveAddress, Direction.text], by rw [ho]; exact shift_mem am name_lsm_r⟩

theorem text_lsr {rx ry : U8} {s : Size} {d : Direction} {b : Bool} (ho : inst.operands = .RotationDirectionSizeModeRegister rx d s b ry) (hx : rx.toNat < 8) (hd : d = .Left ∨ d = .Right) :
    ∃ t, Dis.lsrText inst = some t ∧ line inst.pc t = known .Lsr inst.operands.canonical := by
  rcases hd with rfl | rfl <;> cases b
  · exact ⟨"LSL.".toList ++ s.text ++ ' ' :: ('#' :: dec (if rx = 0 then 8 else rx : U8) ++ ',' :: ' ' :: 'D' :: dec ry), by simp [Dis.lsrText, ho, Operands.rotationDirectionSizeModeRegister, Direction.text], by rw [ho]; exact shift_imm rx ry (name_lsr_l s) hx⟩
  · exact ⟨"LSL.".toList ++ s.text ++ ' ' :: ('D' :: dec rx ++ ',' :: ' ' :: 'D' :: dec ry), by simp [Dis.lsrText, ho, Operands.rotationDirectionSizeModeRegister, Direction.text], by rw [ho]; exact shift_reg rx ry (name_lsr_l s)⟩
  · exact ⟨"LSR.".toList ++ s.text ++ ' ' :: ('#' :: dec (if rx = 0 then 8 else rx : U8) ++ ',' :: ' ' :: 'D' :: dec ry), by simp [Dis.lsrText, ho, Operands.rotationDirectionSizeModeRegister, Direction.text], by rw [ho]; exact shift_imm rx ry (name_lsr_r s) hx⟩
  · exact ⟨"LSR.".toList ++ s.text ++ ' ' :: ('D' :: dec rx ++ ',' :: ' ' :: 'D' :: dec ry), by simp [Dis.lsrText, ho, Operands.rotationDirectionSizeModeRegister, Direction.text], by rw [ho]; exact shift_reg rx ry (name_lsr_r s)⟩

theorem name_rom_l : Name pc "ROL".toList none (shift .Rom .Ror .Left) := name_of 51 (nm := "ROL".toList) (by decide +kernel) rfl

theorem name_ror_l (s : Size) : Name pc ("ROL.".toList ++ s.text) (some s) (shift .Rom .Ror .Left) := by
  cases s <;> exact name_of 51 (nm := "ROL".toList) (by decide +kernel) rfl

theorem name_rom_r : Name pc "ROR".toList none (shift .Rom .Ror .Right) := name_of 52 (nm := "ROR".toList) (by decide +kernel) rfl

theorem name_ror_r (s : Size) : Name pc ("ROR.".toList ++ s.text) (some s) (shift .Rom .Ror .Right) := by
  cases s <;> exact name_of 52 (nm := "ROR".toList) (by decide +kernel) rfl

theorem text_rom {d : Direction} {am : AddressingMode} (ho : inst.operands = .DirectionEffectiveAddress d am) (hd : d = .Left ∨ d = .Right) :
    ∃ t, Dis.romText inst = some t ∧ line inst.pc t = known .Rom inst.operands.canonical := by
  rcases hd with rfl | rfl
  · exact ⟨"ROL".toList ++ ' ' :: (am.text), by simp [Dis.romText, ho, Operands.directionEffectiveAddress, Direction.text], by rw [ho]; exact shift_mem am name_rom_l⟩
  · exact ⟨"ROR".toList ++ ' ' :: (am.text), by simp [Dis.romText, ho, Operands.directionEffectiveAddress, Direction.text], by rw [ho]; exact shift_mem am name_rom_r⟩

theorem text_ror {rx ry : U8} {s : Size} {d : Direction} {b : Bool} (ho : inst.operands = .RotationDirectionSizeModeRegister rx d s b ry) (hx : rx.toNat < 8) (hd : d = .Left ∨ d = .Right) :
    ∃ t, Dis.rorText inst = some t ∧ line inst.pc t = known .Ror inst.operands.canonical := by
  rcases hd with rfl | rfl <;> cases b
  · exact ⟨"ROL.".toList ++ s.text ++ ' ' :: ('#' :: dec (if rx = 0 then 8 else rx : U8) ++ ',' :: ' ' :: 'D' :: dec ry), by simp [Dis.rorText, ho, Operands.rotationDirectionSizeModeRegister, Direction.text], by rw [ho]; exact shift_imm rx ry (name_ror_l s) hx⟩
  · exact ⟨"ROL.".toList ++ s.text ++ ' ' :: ('D' :: dec rx ++ ',' :: ' ' :: 'D' :: dec ry), by simp [Dis.rorText, ho, Operands.rotationDirectionSizeModeRegister, Direction.text], by rw [ho]; exact shift_reg rx ry (name_ror_l s)⟩
  · exact ⟨"ROR.".toList ++ s.text ++ ' ' :: ('#' :: dec (if rx = 0 then 8 else rx : U8) ++ ',' :: ' ' :: 'D' :: dec ry), by simp [Dis.rorText, ho, Operands.rotationDirectionSizeModeRegister, Direction.text], by rw [ho]; exact shift_imm rx ry (name_ror_r s) hx⟩
  · exact ⟨"ROR.".toList ++ s.text ++ ' ' :: ('D' :: dec rx ++ ',' :: ' ' :: 'D' :: dec ry), by simp [Dis.rorText, ho, Operands.rotationDirectionSizeModeRegister, Direction.text], by rw [ho]; exact shift_reg rx ry (name_ror_r s)⟩

theorem name_roxm_l : Name pc "ROXL".toList none (shift .Roxm .Roxr .Left) := name_of 53 (nm := "ROXL".toList) (by decide +kernel) rfl

theorem name_roxr_l (s : Size) : Name pc ("ROXL.".toList ++ s.text) (some s) (shift .Roxm .Roxr .Left) := by
  cases s <;> exact name_of 53 (nm := "ROXL".toList) (by decide +kernel) rfl

theorem name_roxm_r : Name pc "ROXR".toList none (shift .Roxm .Roxr .Right) := name_of 54 (nm := "ROXR".toList) (by decide +kernel) rfl

theorem name_roxr_r (s : Size) : Name pc ("ROXR.".toList ++ s.text) (some s) (shift .Roxm .Roxr .Right) := by
  cases s <;> exact name_of 54 (nm := "ROXR".toList) (by decide +kernel) rfl

theorem text_roxm {d : Direction} {am : AddressingMode} (ho : inst.operands = .DirectionEffectiveAddress d am) (hd : d = .Left ∨ d = .Right) :
    ∃ t, Dis.roxmText inst = some t ∧ line inst.pc t = known .Roxm inst.operands.canonical := by
  rcases hd with rfl | rfl
  · exact ⟨"ROXL".toList ++ ' ' :: (am.text), by simp [Dis.roxmText, ho, Operands.directionEffectiveAddress, Direction.text], by rw [ho]; exact shift_mem am name_roxm_l⟩
  · exact ⟨"ROXR".toList ++ ' ' :: (am.text), by simp [Dis.roxmText, ho, Operands.directionEffectiveAddress, Direction.text], by rw [ho]; exact shift_mem am name_roxm_r⟩

theorem text_roxr {rx ry : U8} {s : Size} {d : Direction} {b : Bool} (ho : inst.operands = .RotationDirectionSizeModeRegister rx d s b ry) (hx : rx.toNat < 8) (hd : d = .Left ∨ d = .Right) :
    ∃ t, Dis.roxrText inst = some t ∧ line inst.pc t = known .Roxr inst.operands.canonical := by
  rcases hd with rfl | rfl <;> cases b
  · exact ⟨"ROXL.".toList ++ s.text ++ ' ' :: ('#' :: dec (if rx = 0 then 8 else rx : U8) ++ ',' :: ' ' :: 'D' :: dec ry), by simp [Dis.roxrText, ho, Operands.rotationDirectionSizeModeRegister, Direction.text], by rw [ho]; exact shift_imm rx ry (name_roxr_l s) hx⟩
  · exact ⟨"ROXL.".toList ++ s.text ++ ' ' :: ('D' :: dec rx ++ ',' :: ' ' :: 'D' :: dec ry), by simp [Dis.roxrText, ho, Operands.rotationDirectionSizeModeRegister, Direction.text], by rw [ho]; exact shift_reg rx ry (name_roxr_l s)⟩
  · exact ⟨"ROXR.".toList ++ s.text ++ ' ' :: ('#' :: dec (if rx = 0 then 8 else rx : U8) ++ ',' :: ' ' :: 'D' :: dec ry), by simp [Dis.roxrText, ho, Operands.rotationDirectionSizeModeRegister, Direction.text], by rw [ho]; exact shift_imm rx ry (name_roxr_r s) hx⟩
  · exact ⟨"ROXR.".toList ++ s.text ++ ' ' :: ('D' :: dec rx ++ ',' :: ' ' :: 'D' :: dec ry), by simp [Dis.roxrText, ho, Operands.rotationDirectionSizeModeRegister, Direction.text], by rw [ho]; exact shift_reg rx ry (name_roxr_r s)⟩

theorem name_bchg : Name pc "BCHG".toList none (bitOp .Bchg) := name_of 10 (nm := "BCHG".toList) (by decide +kernel) rfl

theorem text_bchg {r : U8} {am : AddressingMode} (ho : inst.operands = .EffectiveAddressCount am r) :
    ∃ t, Dis.bchgText inst = some t ∧ line inst.pc t = some (.instruction .Bchg (decide (bits inst.opcode 8 8 ≠ 0)) inst.operands.canonical) := by
  by_cases h : bits inst.opcode 8 8 = 0
  · exact ⟨"BCHG".toList ++ ' ' :: ('#' :: dec r ++ ',' :: ' ' :: am.text), by simp [Dis.bchgText, ho, Operands.effectiveAddressCount, h], by rw [ho]; simp only [h, ne_eq, not_true_eq_false, decide_false]; exact bitOp_imm r am name_bchg⟩
  · exact ⟨"BCHG".toList ++ ' ' :: ('D' :: dec r ++ ',' :: ' ' :: am.text), by simp [Dis.bchgText, ho, Operands.effectiveAddressCount]; exact h, by rw [ho]; simp only [h, ne_eq, not_false_eq_true, decide_true]; exact bitOp_reg r am name_bchg⟩

theorem name_bclr : Name pc "BCLR".toList none (bitOp .Bclr) := name_of 11 (nm := "BCLR".toList) (by decide +kernel) rfl

theorem text_bclr {r : U8} {am : AddressingMode} (ho : inst.operands = .EffectiveAddressCount am r) :
    ∃ t, Dis.bclrText inst = some t ∧ line inst.pc t = some (.instruction .Bclr (decide (bits inst.opcode 8 8 ≠ 0)) inst.operands.canonical) := by
  by_cases h : bits inst.opcode 8 8 = 0
  · exact ⟨"BCLR".toList ++ ' ' :: ('#' :: dec r ++ ',' :: ' ' :: am.text), by simp [Dis.bclrText, ho, Operands.effectiveAddressCount, h], by rw [ho]; simp only [h, ne_eq, not_true_eq_false, decide_false]; exact bitOp_imm r am name_bclr⟩
  · exact ⟨"BCLR".toList ++ ' ' :: ('D' :: dec r ++ ',' :: ' ' :: am.text), by simp [Dis.bclrText, ho, Operands.effectiveAddressCount]; exact h, by rw [ho]; simp only [h, ne_eq, not_false_eq_true, decide_true]; exact bitOp_reg r am name_bclr⟩

theorem name_bset : Name pc "BSET".toList none (bitOp .Bset) := name_of 13 (nm := "BSET".toList) (by decide +kernel) rfl

theorem text_bset {r : U8} {am : AddressingMode} (ho : inst.operands = .EffectiveAddressCount am r) :
    ∃ t, Dis.bsetText inst = some t ∧ line inst.pc t = some (.instruction .Bset (decide (bits inst.opcode 8 8 ≠ 0)) inst.operands.canonical) := by
  by_cases h : bits inst.opcode 8 8 = 0
  · exact ⟨"BSET".toList ++ ' ' :: ('#' :: dec r ++ ',' :: ' ' :: am.text), by simp [Dis.bsetText, ho, Operands.effectiveAddressCount, h], by rw [ho]; simp only [h, ne_eq, not_true_eq_false, decide_false]; exact bitOp_imm r am name_bset⟩
  · exact ⟨"BSET".toList ++ ' ' :: ('D' :: dec r ++ ',' :: ' ' :: am.text), by simp [Dis.bsetText, ho, Operands.effectiveAddressCount]; exact h, by rw [ho]; simp only [h, ne_eq, not_false_eq_true, decide_true]; exact bitOp_reg r am name_bset⟩

theorem name_btst : Name pc "BTST".toList none (bitOp .Btst) := name_of 15 (nm := "BTST".toList) (by decide +kernel) rfl

theorem text_btst {r : U8} {am : AddressingMode} (ho : inst.operands = .EffectiveAddressCount am r) :
    ∃ t, Dis.btstText inst = some t ∧ line inst.pc t = some (.instruction .Btst (decide (bits inst.opcode 8 8 ≠ 0)) inst.operands.canonical) := by
  by_cases h : bits inst.opcode 8 8 = 0
  · exact ⟨"BTST".toList ++ ' ' :: ('#' :: dec r ++ ',' :: ' ' :: am.text), by simp [Dis.btstText, ho, Operands.effectiveAddressCount, h], by rw [ho]; simp only [h, ne_eq, not_true_eq_false, decide_false]; exact bitOp_imm r am name_btst⟩
  · exact ⟨"BTST".toList ++ ' ' :: ('D' :: dec r ++ ',' :: ' ' :: am.text), by simp [Dis.btstText, ho, Operands.effectiveAddressCount]; exact h, by rw [ho]; simp only [h, ne_eq, not_false_eq_true, decide_true]; exact bitOp_reg r am name_btst⟩

theorem name_chk : Name pc "CHK.W".toList (some .Word) (wordToData .Chk) := name_of 16 (nm := "CHK".toList) (by decide +kernel) rfl

theorem text_chk {r : U8} {am : AddressingMode} (ho : inst.operands = .RegisterEffectiveAddress r am) :
    ∃ t, Dis.chkText inst = some t ∧ line inst.pc t = known .Chk inst.operands.canonical := by
  exact ⟨"CHK.W".toList ++ ' ' :: (am.text ++ ',' :: ' ' :: 'D' :: dec r), by simp [Dis.chkText, ho, Operands.registerEffectiveAddress], by rw [ho]; exact wordToData_line r am name_chk⟩

theorem name_divs : Name pc "DIVS.W".toList (some .Word) (wordToData .Divs) := name_of 22 (nm := "DIVS".toList) (by decide +kernel) rfl

theorem text_divs {r : U8} {am : AddressingMode} (ho : inst.operands = .RegisterEffectiveAddress r am) :
    ∃ t, Dis.divsText inst = some t ∧ line inst.pc t = known .Divs inst.operands.canonical := by
  exact ⟨"DIVS.W".toList ++ ' ' :: (am.text ++ ',' :: ' ' :: 'D' :: dec r), by simp [Dis.divsText, ho, Operands.registerEffectiveAddress], by rw [ho]; exact wordToData_line r am name_divs⟩

theorem name_divu : Name pc "DIVU.W".toList (some .Word) (wordToData .Divu) := name_of 23 (nm := "DIVU".toList) (by decide +kernel) rfl

theorem text_divu {r : U8} {am : AddressingMode} (ho : inst.operands = .RegisterEffectiveAddress r am) :
    ∃ t, Dis.divuText inst = some t ∧ line inst.pc t = known .Divu inst.operands.canonical := by
  exact ⟨"DIVU.W".toList ++ ' ' :: (am.text ++ ',' :: ' ' :: 'D' :: dec r), by simp [Dis.divuText, ho, Operands.registerEffectiveAddress], by rw [ho]; exact wordToData_line r am name_divu⟩

theorem name_muls : Name pc "MULS.W".toList (some .Word) (wordToData .Muls) := name_of 40 (nm := "MULS".toList) (by decide +kernel) rfl

theorem text_muls {r : U8} {am : AddressingMode} (ho : inst.operands = .RegisterEffectiveAddress r am) :
    ∃ t, Dis.mulsText inst = some t ∧ line inst.pc t = known .Muls inst.operands.canonical := by
  exact ⟨"MULS.W".toList ++ ' ' :: (am.text ++ ',' :: ' ' :: 'D' :: dec r), by simp [Dis.mulsText, ho, Operands.registerEffectiveAddress], by rw [ho]; exact wordToData_line r am name_muls⟩

theorem name_mulu : Name pc "MULU.W".toList (some .Word) (wordToData .Mulu) := name_of 41 (nm := "MULU".toList) (by decide +kernel) rfl

theorem text_mulu {r : U8} {am : AddressingMode} (ho : inst.operands = .RegisterEffectiveAddress r am) :
    ∃ t, Dis.muluText inst = some t ∧ line inst.pc t = known .Mulu inst.operands.canonical := by
  exact ⟨"MULU.W".toList ++ ' ' :: (am.text ++ ',' :: ' ' :: 'D' :: dec r), by simp [Dis.muluText, ho, Operands.registerEffectiveAddress], by rw [ho]; exact wordToData_line r am name_mulu⟩

theorem name_clr (s : Size) : Name pc ("CLR.".toList ++ s.text) (some s) (sized .Clr) := by
  cases s <;> exact name_of 17 (nm := "CLR".toList) (by decide +kernel) rfl

theorem text_clr {s : Size} {am : AddressingMode} (ho : inst.operands = .SizeEffectiveAddress s am) :
    ∃ t, Dis.clrText inst = some t ∧ line inst.pc t = known .Clr inst.operands.canonical := by
  exact ⟨"CLR.".toList ++ s.text ++ ' ' :: (am.text), by simp [Dis.clrText, ho, Operands.sizeEffectiveAddress], by rw [ho]; exact sized_line am (name_clr s)⟩

theorem name_neg (s : Size) : Name pc ("NEG.".toList ++ s.text) (some s) (sized .Neg) := by
  cases s <;> exact name_of 43 (nm := "NEG".toList) (by decide +kernel) rfl

theorem text_neg {s : Size} {am : AddressingMode} (ho : inst.operands = .SizeEffectiveAddress s am) :
    ∃ t, Dis.negText inst = some t ∧ line inst.pc t = known .Neg inst.operands.canonical := by
  exact ⟨"NEG.".toList ++ s.text ++ ' ' :: (am.text), by simp [Dis.negText, ho, Operands.sizeEffectiveAddress], by rw [ho]; exact sized_line am (name_neg s)⟩

theorem name_negx (s : Size) : Name pc ("NEGX.".toList ++ s.text) (some s) (sized .Negx) := by
  cases s <;> exact name_of 44 (nm := "NEGX".toList) (by decide +kernel) rfl

theorem text_negx {s : Size} {am : AddressingMode} (ho : inst.operands = .SizeEffectiveAddress s am) :
    ∃ t, Dis.negxText inst = some t ∧ line inst.pc t = known .Negx inst.operands.canonical := by
  exact ⟨"NEGX.".toList ++ s.text ++ ' ' :: (am.text), by simp [Dis.negxText, ho, Operands.sizeEffectiveAddress], by rw [ho]; exact sized_line am (name_negx s)⟩

theorem name_not (s : Size) : Name pc ("NOT.".toList ++ s.text) (some s) (sized .Not) := by
  cases s <;> exact name_of 46 (nm := "NOT".toList) (by decide +kernel) rfl

theorem text_not {s : Size} {am : AddressingMode} (ho : inst.operands = .SizeEffectiveAddress s am) :
    ∃ t, Dis.notText inst = some t ∧ line inst.pc t = known .Not inst.operands.canonical := by
  exact ⟨"NOT.".toList ++ s.text ++ ' ' :: (am.text), by simp [Dis.notText, ho, Operands.sizeEffectiveAddress], by rw [ho]; exact sized_line am (name_not s)⟩

theorem name_tst (s : Size) : Name pc ("TST.".toList ++ s.text) (some s) (sized .Tst) := by
  cases s <;> exact name_of 69 (nm := "TST".toList) (by decide +kernel) rfl

theorem text_tst {s : Size} {am : AddressingMode} (ho : inst.operands = .SizeEffectiveAddress s am) :
    ∃ t, Dis.tstText inst = some t ∧ line inst.pc t = known .Tst inst.operands.canonical := by
  exact ⟨"TST.".toList ++ s.text ++ ' ' :: (am.text), by simp [Dis.tstText, ho, Operands.sizeEffectiveAddress], by rw [ho]; exact sized_line am (name_tst s)⟩

theorem name_jmp : Name pc "JMP".toList none (single .Jmp) := name_of 29 (nm := "JMP".toList) (by decide +kernel) rfl

theorem text_jmp {am : AddressingMode} (ho : inst.operands = .EffectiveAddress am) :
    ∃ t, Dis.jmpText inst = some t ∧ line inst.pc t = known .Jmp inst.operands.canonical := by
  exact ⟨"JMP".toList ++ ' ' :: (am.text), by simp [Dis.jmpText, ho, Operands.effectiveAddress], by rw [ho]; exact single_line am name_jmp⟩

theorem name_jsr : Name pc "JSR".toList none (single .Jsr) := name_of 30 (nm := "JSR".toList) (by decide +kernel) rfl

theorem text_jsr {am : AddressingMode} (ho : inst.operands = .EffectiveAddress am) :
    ∃ t, Dis.jsrText inst = some t ∧ line inst.pc t = known .Jsr inst.operands.canonical := by
  exact ⟨"JSR".toList ++ ' ' :: (am.text), by simp [Dis.jsrText, ho, Operands.effectiveAddress], by rw [ho]; exact single_line am name_jsr⟩

theorem name_nbcd : Name pc "NBCD".toList none (single .Nbcd) := name_of 42 (nm := "NBCD".toList) (by decide +kernel) rfl

theorem text_nbcd {am : AddressingMode} (ho : inst.operands = .EffectiveAddress am) :
    ∃ t, Dis.nbcdText inst = some t ∧ line inst.pc t = known .Nbcd inst.operands.canonical := by
  exact ⟨"NBCD".toList ++ ' ' :: (am.text), by simp [Dis.nbcdText, ho, Operands.effectiveAddress], by rw [ho]; exact single_line am name_nbcd⟩

theorem name_pea : Name pc "PEA".toList none (single .Pea) := name_of 49 (nm := "PEA".toList) (by decide +kernel) rfl

theorem text_pea {am : AddressingMode} (ho : inst.operands = .EffectiveAddress am) :
    ∃ t, Dis.peaText inst = some t ∧ line inst.pc t = known .Pea inst.operands.canonical := by
  exact ⟨"PEA".toList ++ ' ' :: (am.text), by simp [Dis.peaText, ho, Operands.effectiveAddress], by rw [ho]; exact single_line am name_pea⟩

theorem name_tas : Name pc "TAS".toList none (single .Tas) := name_of 66 (nm := "TAS".toList) (by decide +kernel) rfl

theorem text_tas {am : AddressingMode} (ho : inst.operands = .EffectiveAddress am) :
    ∃ t, Dis.tasText inst = some t ∧ line inst.pc t = known .Tas inst.operands.canonical := by
  exact ⟨"TAS".toList ++ ' ' :: (am.text), by simp [Dis.tasText, ho, Operands.effectiveAddress], by rw [ho]; exact single_line am name_tas⟩

theorem name_illegal : Name pc "ILLEGAL".toList none (alone .Illegal) := name_of 28 (nm := "ILLEGAL".toList) (by decide +kernel) rfl

theorem text_illegal  (ho : inst.operands = .NoOperands) :
    ∃ t, Dis.illegalText inst = some t ∧ line inst.pc t = known .Illegal inst.operands.canonical := by
  exact ⟨"ILLEGAL".toList, by simp [Dis.illegalText, ho], by rw [ho]; exact alone_line name_illegal⟩

theorem name_nop : Name pc "NOP".toList none (alone .Nop) := name_of 45 (nm := "NOP".toList) (by decide +kernel) rfl

theorem text_nop  (ho : inst.operands = .NoOperands) :
    ∃ t, Dis.nopText inst = some t ∧ line inst.pc t = known .Nop inst.operands.canonical := by
  exact ⟨"NOP".toList, by simp [Dis.nopText, ho], by rw [ho]; exact alone_line name_nop⟩

theorem name_reset : Name pc "RESET".toList none (alone .Reset) := name_of 50 (nm := "RESET".toList) (by decide +kernel) rfl

theorem text_reset  (ho : inst.operands = .NoOperands) :
    ∃ t, Dis.resetText inst = some t ∧ line inst.pc t = known .Reset inst.operands.canonical := by
  exact ⟨"RESET".toList, by simp [Dis.resetText, ho], by rw [ho]; exact alone_line name_reset⟩

theorem name_rte : Name pc "RTE".toList none (alone .Rte) := name_of 55 (nm := "RTE".toList) (by decide +kernel) rfl

theorem text_rte  (ho : inst.operands = .NoOperands) :
    ∃ t, Dis.rteText inst = some t ∧ line inst.pc t = known .Rte inst.operands.canonical := by
  exact ⟨"RTE".toList, by simp [Dis.rteText, ho], by rw [ho]; exact alone_line name_rte⟩

theorem name_rtr : Name pc "RTR".toList none (alone .Rtr) := name_of 56 (nm := "RTR".toList) (by decide +kernel) rfl

theorem text_rtr  (ho : inst.operands = .NoOperands) :
    ∃ t, Dis.rtrText inst = some t ∧ line inst.pc t = known .Rtr inst.operands.canonical := by
  exact ⟨"RTR".toList, by simp [Dis.rtrText, ho], by rw [ho]; exact alone_line name_rtr⟩

theorem name_rts : Name pc "RTS".toList none (alone .Rts) := name_of 57 (nm := "RTS".toList) (by decide +kernel) rfl

theorem text_rts  (ho : inst.operands = .NoOperands) :
    ∃ t, Dis.rtsText inst = some t ∧ line inst.pc t = known .Rts inst.operands.canonical := by
  exact ⟨"RTS".toList, by simp [Dis.rtsText, ho], by rw [ho]; exact alone_line name_rts⟩

theorem name_trapv : Name pc "TRAPV".toList none (alone .Trapv) := name_of 68 (nm := "TRAPV".toList) (by decide +kernel) rfl

theorem text_trapv  (ho : inst.operands = .NoOperands) :
    ∃ t, Dis.trapvText inst = some t ∧ line inst.pc t = known .Trapv inst.operands.canonical := by
  exact ⟨"TRAPV".toList, by simp [Dis.trapvText, ho], by rw [ho]; exact alone_line name_trapv⟩

theorem name_bra : Name pc "BRA".toList none (branch .Bra pc) := name_of 12 (nm := "BRA".toList) (by decide +kernel) rfl

theorem text_bra {d : U16} (ho : inst.operands = .Displacement d) :
    ∃ t, Dis.braText inst = some t ∧ line inst.pc t = known .Bra inst.operands.canonical := by
  exact ⟨"BRA".toList ++ ' ' :: (sdec d ++ (' ' :: '<' :: (hex (inst.pc + 2 + d.signExtend 32) ++ ['>']))), by simp [Dis.braText, ho, Operands.displacement], by rw [ho]; exact branch_line name_bra d⟩

theorem name_bsr : Name pc "BSR".toList none (branch .Bsr pc) := name_of 14 (nm := "BSR".toList) (by decide +kernel) rfl

theorem text_bsr {d : U16} (ho : inst.operands = .Displacement d) :
    ∃ t, Dis.bsrText inst = some t ∧ line inst.pc t = known .Bsr inst.operands.canonical := by
  exact ⟨"BSR".toList ++ ' ' :: (sdec d ++ (' ' :: '<' :: (hex (inst.pc + 2 + d.signExtend 32) ++ ['>']))), by simp [Dis.bsrText, ho, Operands.displacement], by rw [ho]; exact branch_line name_bsr d⟩

theorem name_cmp (s : Size) : Name pc ("CMP.".toList ++ s.text) (some s) (cmp) := by
  cases s <;> exact name_of 18 (nm := "CMP".toList) (by decide +kernel) rfl

theorem text_cmp {r : U8} {s : Size} {am : AddressingMode} (ho : inst.operands = .RegisterDirectionSizeEffectiveAddress r .DstReg s am) :
    ∃ t, Dis.cmpText inst = some t ∧ line inst.pc t = known .Cmp inst.operands.canonical := by
  exact ⟨("CMP.".toList ++ s.text) ++ ' ' :: (am.text ++ ',' :: ' ' :: 'D' :: dec r), by simp [Dis.cmpText, ho, Operands.registerDirectionSizeEffectiveAddress], by rw [ho]; exact (line_two (name_cmp s) (reads_mode am) (reads_d r)).trans (by simp [cmp, mode_opndOf, reg, Operands.canonical])⟩

theorem name_cmpm (s : Size) : Name pc ("CMPM.".toList ++ s.text) (some s) (cmpm) := by
  cases s <;> exact name_of 21 (nm := "CMPM".toList) (by decide +kernel) rfl

theorem text_cmpm {rx ry : U8} {s : Size} (ho : inst.operands = .RegisterSizeRegister rx s ry) :
    ∃ t, Dis.cmpmText inst = some t ∧ line inst.pc t = known .Cmpm inst.operands.canonical := by
  exact ⟨("CMPM.".toList ++ s.text) ++ ' ' :: (('(' :: 'A' :: (dec ry ++ [')', '+'])) ++ ',' :: ' ' :: '(' :: 'A' :: (dec rx ++ [')', '+'])), by simp [Dis.cmpmText, ho, Operands.registerSizeRegister], by rw [ho]; exact (line_two (name_cmpm s) (reads_postinc ry) (reads_postinc rx)).trans (by simp [cmpm, mode_opndOf, reg, Operands.canonical])⟩

theorem name_eor (s : Size) : Name pc ("EOR.".toList ++ s.text) (some s) (eor) := by
  cases s <;> exact name_of 24 (nm := "EOR".toList) (by decide +kernel) rfl

theorem text_eor {r : U8} {s : Size} {am : AddressingMode} (ho : inst.operands = .RegisterDirectionSizeEffectiveAddress r .DstEa s am) :
    ∃ t, Dis.eorText inst = some t ∧ line inst.pc t = known .Eor inst.operands.canonical := by
  exact ⟨("EOR.".toList ++ s.text) ++ ' ' :: ('D' :: dec r ++ ',' :: ' ' :: am.text), by simp [Dis.eorText, ho, Operands.registerDirectionSizeEffectiveAddress], by rw [ho]; exact (line_two (name_eor s) (reads_d r) (reads_mode am)).trans (by simp [eor, mode_opndOf, reg, Operands.canonical])⟩

theorem name_exg : Name pc "EXG".toList none (exg) := name_of 26 (nm := "EXG".toList) (by decide +kernel) rfl

theorem text_exg {rx ry : U8} {d : Direction} (ho : inst.operands = .RegisterOpmodeRegister rx d ry) (hd : d = .ExchangeData ∨ d = .ExchangeAddress ∨ d = .ExchangeDataAddress) :
    ∃ t, Dis.exgText inst = some t ∧ line inst.pc t = known .Exg inst.operands.canonical := by
  rcases hd with rfl | rfl | rfl
  · exact ⟨"EXG".toList ++ ' ' :: ('D' :: dec rx ++ ',' :: ' ' :: 'D' :: dec ry), by simp [Dis.exgText, ho, Operands.registerOpmodeRegister], by rw [ho]; exact (line_two name_exg (reads_d rx) (reads_d ry)).trans (by simp [exg, mode_opndOf, reg, Operands.canonical])⟩
  · exact ⟨"EXG".toList ++ ' ' :: ('A' :: dec rx ++ ',' :: ' ' :: 'A' :: dec ry), by simp [Dis.exgText, ho, Operands.registerOpmodeRegister], by rw [ho]; exact (line_two name_exg (reads_a rx) (reads_a ry)).trans (by simp [exg, mode_opndOf, reg, Operands.canonical])⟩
  · exact ⟨"EXG".toList ++ ' ' :: ('D' :: dec rx ++ ',' :: ' ' :: 'A' :: dec ry), by simp [Dis.exgText, ho, Operands.registerOpmodeRegister], by rw [ho]; exact (line_two name_exg (reads_d rx) (reads_a ry)).trans (by simp [exg, mode_opndOf, reg, Operands.canonical])⟩

theorem name_extW : Name pc "EXT.W".toList (some .Word) (ext) := name_of 27 (nm := "EXT".toList) (by decide +kernel) rfl

theorem name_extL : Name pc "EXT.L".toList (some .Long) (ext) := name_of 27 (nm := "EXT".toList) (by decide +kernel) rfl

theorem text_ext {m r : U8} (ho : inst.operands = .OpmodeRegister m r) (hd : m = 2 ∨ m = 3) :
    ∃ t, Dis.extText inst = some t ∧ line inst.pc t = known .Ext inst.operands.canonical := by
  rcases hd with rfl | rfl
  · exact ⟨"EXT.W".toList ++ ' ' :: ('D' :: dec r), by unfold Dis.extText; rw [ho]; rfl, by rw [ho]; exact (line_one name_extW (reads_d r)).trans (by simp [ext, mode_opndOf, reg, Operands.canonical])⟩
  · exact ⟨"EXT.L".toList ++ ' ' :: ('D' :: dec r), by unfold Dis.extText; rw [ho]; rfl, by rw [ho]; exact (line_one name_extL (reads_d r)).trans (by simp [ext, mode_opndOf, reg, Operands.canonical])⟩

theorem name_lea : Name pc "LEA".toList none (lea) := name_of 31 (nm := "LEA".toList) (by decide +kernel) rfl

theorem text_lea {r : U8} {am : AddressingMode} (ho : inst.operands = .RegisterEffectiveAddress r am) :
    ∃ t, Dis.leaText inst = some t ∧ line inst.pc t = known .Lea inst.operands.canonical := by
  exact ⟨"LEA".toList ++ ' ' :: (am.text ++ ',' :: ' ' :: 'A' :: dec r), by simp [Dis.leaText, ho, Operands.registerEffectiveAddress], by rw [ho]; exact (line_two name_lea (reads_mode am) (reads_a r)).trans (by simp [lea, mode_opndOf, reg, Operands.canonical])⟩

theorem name_link : Name pc "LINK.W".toList (some .Word) (link) := name_of 32 (nm := "LINK".toList) (by decide +kernel) rfl

theorem text_link {r : U8} {d : U16} (ho : inst.operands = .RegisterDisplacement r d) :
    ∃ t, Dis.linkText inst = some t ∧ line inst.pc t = known .Link inst.operands.canonical := by
  exact ⟨"LINK.W".toList ++ ' ' :: ('A' :: dec r ++ ',' :: ' ' :: '#' :: sdec d), by simp [Dis.linkText, ho, Operands.registerDisplacement], by rw [ho]; exact (line_two name_link (reads_a r) (reads_simm d (by omega))).trans (by simp [link, mode_opndOf, reg, Operands.canonical])⟩

theorem name_move (s : Size) : Name pc ("MOVE.".toList ++ s.text) (some s) (move) := by
  cases s <;> exact name_of 35 (nm := "MOVE".toList) (by decide +kernel) rfl

theorem text_move {s : Size} {dst src : AddressingMode} (ho : inst.operands = .SizeEffectiveAddressEffectiveAddress s dst src) :
    ∃ t, Dis.moveText inst = some t ∧ line inst.pc t = known .Move inst.operands.canonical := by
  exact ⟨("MOVE.".toList ++ s.text) ++ ' ' :: (src.text ++ ',' :: ' ' :: dst.text), by simp [Dis.moveText, ho, Operands.sizeEffectiveAddressEffectiveAddress], by rw [ho]; exact (line_two (name_move s) (reads_mode src) (reads_mode dst)).trans (by simp [move, mode_opndOf, reg, Operands.canonical])⟩

theorem name_movea (s : Size) : Name pc ("MOVEA.".toList ++ s.text) (some s) (movea) := by
  cases s <;> exact name_of 36 (nm := "MOVEA".toList) (by decide +kernel) rfl

theorem text_movea {s : Size} {r : U8} {am : AddressingMode} (ho : inst.operands = .SizeRegisterEffectiveAddress s r am) :
    ∃ t, Dis.moveaText inst = some t ∧ line inst.pc t = known .Movea inst.operands.canonical := by
  exact ⟨("MOVEA.".toList ++ s.text) ++ ' ' :: (am.hexText ++ ',' :: ' ' :: 'A' :: dec r), by simp [Dis.moveaText, ho, Operands.sizeRegisterEffectiveAddress], by rw [ho]; exact (line_two (name_movea s) (reads_hexMode am) (reads_a r)).trans (by simp [movea, mode_opndOf, reg, Operands.canonical])⟩

theorem name_moveccr : Name pc "MOVE".toList none (move) := name_of 35 (nm := "MOVE".toList) (by decide +kernel) rfl

theorem text_moveccr {am : AddressingMode} (ho : inst.operands = .EffectiveAddress am) :
    ∃ t, Dis.moveccrText inst = some t ∧ line inst.pc t = known .Moveccr inst.operands.canonical := by
  exact ⟨"MOVE".toList ++ ' ' :: (am.hexText ++ ',' :: ' ' :: ['C', 'C', 'R']), by simp [Dis.moveccrText, ho, Operands.effectiveAddress], by rw [ho]; exact (line_two name_moveccr (reads_hexMode am) reads_ccr).trans (by cases am <;> simp [move, opndOf, Opnd.mode, brief_canonical, reg, Operands.canonical, AddressingMode.canonical])⟩

theorem name_movesr : Name pc "MOVE".toList none (move) := name_of 35 (nm := "MOVE".toList) (by decide +kernel) rfl

theorem text_movesr {am : AddressingMode} (ho : inst.operands = .EffectiveAddress am) :
    ∃ t, Dis.movesrText inst = some t ∧ line inst.pc t = known .Movesr inst.operands.canonical := by
  exact ⟨"MOVE".toList ++ ' ' :: (am.hexText ++ ',' :: ' ' :: ['S', 'R']), by simp [Dis.movesrText, ho, Operands.effectiveAddress], by rw [ho]; exact (line_two name_movesr (reads_hexMode am) reads_sr).trans (by cases am <;> simp [move, opndOf, Opnd.mode, brief_canonical, reg, Operands.canonical, AddressingMode.canonical])⟩

theorem name_movefsr : Name pc "MOVE".toList none (move) := name_of 35 (nm := "MOVE".toList) (by decide +kernel) rfl

theorem text_movefsr {am : AddressingMode} (ho : inst.operands = .EffectiveAddress am) :
    ∃ t, Dis.movefsrText inst = some t ∧ line inst.pc t = known .Movefsr inst.operands.canonical := by
  exact ⟨"MOVE".toList ++ ' ' :: (['S', 'R'] ++ ',' :: ' ' :: am.hexText), by simp [Dis.movefsrText, ho, Operands.effectiveAddress], by rw [ho]; exact (line_two name_movefsr reads_sr (reads_hexMode am)).trans (by cases am <;> simp [move, opndOf, Opnd.mode, brief_canonical, reg, Operands.canonical, AddressingMode.canonical])⟩

theorem name_moveusp : Name pc "MOVE".toList none (move) := name_of 35 (nm := "MOVE".toList) (by decide +kernel) rfl

theorem text_moveusp {d : Direction} {r : U8} (ho : inst.operands = .DirectionRegister d r) (hd : d = .UspToRegister ∨ d = .RegisterToUsp) :
    ∃ t, Dis.moveuspText inst = some t ∧ line inst.pc t = known .Moveusp inst.operands.canonical := by
  rcases hd with rfl | rfl
  · exact ⟨"MOVE".toList ++ ' ' :: (['U', 'S', 'P'] ++ ',' :: ' ' :: 'A' :: dec r), by unfold Dis.moveuspText; rw [ho]; rfl, by rw [ho]; exact (line_two name_moveusp reads_usp (reads_a r)).trans (by simp [move, mode_opndOf, reg, Operands.canonical])⟩
  · exact ⟨"MOVE".toList ++ ' ' :: ('A' :: dec r ++ ',' :: ' ' :: ['U', 'S', 'P']), by unfold Dis.moveuspText; rw [ho]; rfl, by rw [ho]; exact (line_two name_moveusp (reads_a r) reads_usp).trans (by simp [move, mode_opndOf, reg, Operands.canonical])⟩

theorem name_movem (s : Size) : Name pc ("MOVEM.".toList ++ s.text) (some s) (movem) := by
  cases s <;> exact name_of 37 (nm := "MOVEM".toList) (by decide +kernel) rfl

theorem text_movem {d : Direction} {s : Size} {am : AddressingMode} {l : U16} (ho : inst.operands = .DirectionSizeEffectiveAddressList d s am l) (hd : d = .MemoryToRegister ∨ d = .RegisterToMemory) :
    ∃ t, Dis.movemText inst = some t ∧ line inst.pc t = known .Movem inst.operands.canonical := by
  rcases hd with rfl | rfl
  · exact ⟨("MOVEM.".toList ++ s.text) ++ ' ' :: (am.text ++ ',' :: ' ' :: hex l), by simp [Dis.movemText, ho, Operands.directionSizeEffectiveAddressList], by rw [ho]; exact (line_two (name_movem s) (reads_mode am) (reads_lit l (by omega))).trans (by cases am <;> simp [movem, opndOf, Opnd.mode, brief_canonical, reg, Operands.canonical, AddressingMode.canonical])⟩
  · exact ⟨("MOVEM.".toList ++ s.text) ++ ' ' :: (hex l ++ ',' :: ' ' :: am.text), by simp [Dis.movemText, ho, Operands.directionSizeEffectiveAddressList], by rw [ho]; exact (line_two (name_movem s) (reads_lit l (by omega)) (reads_mode am)).trans (by simp [movem, mode_opndOf, reg, Operands.canonical])⟩

theorem name_movep (s : Size) : Name pc ("MOVEP.".toList ++ s.text) (some s) (movep) := by
  cases s <;> exact name_of 38 (nm := "MOVEP".toList) (by decide +kernel) rfl

theorem text_movep {r a : U8} {d : Direction} {s : Size} {e : U16} (ho : inst.operands = .RegisterDirectionSizeRegisterDisplacement r d s a e) (hd : d = .MemoryToRegister ∨ d = .RegisterToMemory) :
    ∃ t, Dis.movepText inst = some t ∧ line inst.pc t = known .Movep inst.operands.canonical := by
  rcases hd with rfl | rfl
  · exact ⟨("MOVEP.".toList ++ s.text) ++ ' ' :: (('(' :: (sdec e ++ (',' :: ' ' :: 'A' :: (dec a ++ [')'])))) ++ ',' :: ' ' :: 'D' :: dec r), by simp [Dis.movepText, ho, Operands.registerDirectionSizeRegisterDisplacement], by rw [ho]; exact (line_two (name_movep s) (reads_disp e a) (reads_d r)).trans (by simp [movep, mode_opndOf, reg, Operands.canonical])⟩
  · exact ⟨("MOVEP.".toList ++ s.text) ++ ' ' :: ('D' :: dec r ++ ',' :: ' ' :: '(' :: (sdec e ++ (',' :: ' ' :: 'A' :: (dec a ++ [')'])))), by simp [Dis.movepText, ho, Operands.registerDirectionSizeRegisterDisplacement], by rw [ho]; exact (line_two (name_movep s) (reads_d r) (reads_disp e a)).trans (by simp [movep, mode_opndOf, reg, Operands.canonical])⟩

theorem name_moveq : Name pc "MOVEQ.L".toList (some .Long) (moveq) := name_of 39 (nm := "MOVEQ".toList) (by decide +kernel) rfl

theorem text_moveq {r d : U8} (ho : inst.operands = .RegisterData r d) :
    ∃ t, Dis.moveqText inst = some t ∧ line inst.pc t = known .Moveq inst.operands.canonical := by
  exact ⟨"MOVEQ.L".toList ++ ' ' :: ('#' :: sdec d ++ ',' :: ' ' :: 'D' :: dec r), by simp [Dis.moveqText, ho, Operands.registerData], by rw [ho]; exact (line_two name_moveq (reads_simm d (by omega)) (reads_d r)).trans (by simp [moveq, mode_opndOf, reg, Operands.canonical])⟩

theorem name_stop : Name pc "STOP".toList none (stop) := name_of 59 (nm := "STOP".toList) (by decide +kernel) rfl

theorem text_stop {v : U16} (ho : inst.operands = .Immediate v) :
    ∃ t, Dis.stopText inst = some t ∧ line inst.pc t = known .Stop inst.operands.canonical := by
  exact ⟨"STOP".toList ++ ' ' :: ('#' :: hex v), by simp [Dis.stopText, ho, Operands.immediate], by rw [ho]; exact (line_one name_stop (reads_hexImm v (by omega))).trans (by simp [stop, mode_opndOf, reg, Operands.canonical])⟩

theorem name_swap : Name pc "SWAP".toList none (swap) := name_of 65 (nm := "SWAP".toList) (by decide +kernel) rfl

theorem text_swap {r : U8} (ho : inst.operands = .Register r) :
    ∃ t, Dis.swapText inst = some t ∧ line inst.pc t = known .Swap inst.operands.canonical := by
  exact ⟨"SWAP".toList ++ ' ' :: ('D' :: dec r), by simp [Dis.swapText, ho, Operands.register], by rw [ho]; exact (line_one name_swap (reads_d r)).trans (by simp [swap, mode_opndOf, reg, Operands.canonical])⟩

theorem name_trap : Name pc "TRAP".toList none (trap) := name_of 67 (nm := "TRAP".toList) (by decide +kernel) rfl

theorem text_trap {v : U8} (ho : inst.operands = .Vector v) :
    ∃ t, Dis.trapText inst = some t ∧ line inst.pc t = known .Trap inst.operands.canonical := by
  exact ⟨"TRAP".toList ++ ' ' :: ('#' :: dec v), by simp [Dis.trapText, ho, Operands.vector], by rw [ho]; exact (line_one name_trap (reads_imm v (by omega))).trans (by simp [trap, mode_opndOf, reg, Operands.canonical])⟩

theorem name_unlk : Name pc "UNLK".toList none (unlk) := name_of 70 (nm := "UNLK".toList) (by decide +kernel) rfl

theorem text_unlk {r : U8} (ho : inst.operands = .Register r) :
    ∃ t, Dis.unlkText inst = some t ∧ line inst.pc t = known .Unlk inst.operands.canonical := by
  exact ⟨"UNLK".toList ++ ' ' :: ('A' :: dec r), by simp [Dis.unlkText, ho, Operands.register], by rw [ho]; exact (line_one name_unlk (reads_a r)).trans (by simp [unlk, mode_opndOf, reg, Operands.canonical])⟩

theorem name_bcc {c : U8} (h : c.toNat < 16) : Name pc ("B".toList ++ conditionalTest c) none (bcc pc c) := by
  have hn : ∀ n : Fin 16, ' ' ∉ ("B".toList ++ conditionalTest (BitVec.ofNat 8 n.val)) ∧ ("B".toList ++ conditionalTest (BitVec.ofNat 8 n.val)) ≠ "Unknown".toList ∧
      mnemonic ("B".toList ++ conditionalTest (BitVec.ofNat 8 n.val)) = some ("B".toList ++ conditionalTest (BitVec.ofNat 8 n.val), none) ∧
      names.findIdx? (· == ("B".toList ++ conditionalTest (BitVec.ofNat 8 n.val))) = some (71 + 3 * n.val) := by decide +kernel
  have hc := hn ⟨c.toNat, h⟩
  simp only [BitVec.ofNat_toNat, BitVec.setWidth_eq] at hc
  refine name_of (71 + 3 * c.toNat) hc ?_
  have hm : ∀ n : Fin 16, (mnemonics pc)[71 + 3 * n.val]? = some ("B".toList ++ conditionalTest (BitVec.ofNat 8 n.val), bcc pc (BitVec.ofNat 8 n.val)) := by
    intro n
    rcases fin16_cases n with rfl | rfl | rfl | rfl | rfl | rfl | rfl | rfl | rfl | rfl | rfl | rfl | rfl | rfl | rfl | rfl <;> rfl
  have := hm ⟨c.toNat, h⟩
  simpa using this

theorem text_bcc {c : U8} {d : U16} (ho : inst.operands = .ConditionDisplacement c d) (h : c.toNat < 16) :
    ∃ t, Dis.bccText inst = some t ∧ line inst.pc t = known .Bcc inst.operands.canonical := by
  exact ⟨("B".toList ++ conditionalTest c) ++ ' ' :: (sdec d ++ (' ' :: '<' :: (hex (inst.pc + 2 + d.signExtend 32) ++ ['>']))), by simp [Dis.bccText, ho, Operands.conditionDisplacement], by rw [ho]; exact (line_one (name_bcc h) (reads_rel d _)).trans (by simp only [bcc, leadsTo_disp, if_true, reg, BitVec.ofNat_toNat, BitVec.setWidth_eq, BitVec.ofInt_toInt, mode_opndOf]; rfl)⟩

theorem name_dbcc {c : U8} (h : c.toNat < 16) : Name pc ("DB".toList ++ conditionalTest c) none (dbcc pc c) := by
  have hn : ∀ n : Fin 16, ' ' ∉ ("DB".toList ++ conditionalTest (BitVec.ofNat 8 n.val)) ∧ ("DB".toList ++ conditionalTest (BitVec.ofNat 8 n.val)) ≠ "Unknown".toList ∧
      mnemonic ("DB".toList ++ conditionalTest (BitVec.ofNat 8 n.val)) = some ("DB".toList ++ conditionalTest (BitVec.ofNat 8 n.val), none) ∧
      names.findIdx? (· == ("DB".toList ++ conditionalTest (BitVec.ofNat 8 n.val))) = some (72 + 3 * n.val) := by decide +kernel
  have hc := hn ⟨c.toNat, h⟩
  simp only [BitVec.ofNat_toNat, BitVec.setWidth_eq] at hc
  refine name_of (72 + 3 * c.toNat) hc ?_
  have hm : ∀ n : Fin 16, (mnemonics pc)[72 + 3 * n.val]? = some ("DB".toList ++ conditionalTest (BitVec.ofNat 8 n.val), dbcc pc (BitVec.ofNat 8 n.val)) := by
    intro n
    rcases fin16_cases n with rfl | rfl | rfl | rfl | rfl | rfl | rfl | rfl | rfl | rfl | rfl | rfl | rfl | rfl | rfl | rfl <;> rfl
  have := hm ⟨c.toNat, h⟩
  simpa using this

theorem text_dbcc {c r : U8} {d : U16} (ho : inst.operands = .ConditionRegisterDisplacement c r d) (h : c.toNat < 16) :
    ∃ t, Dis.dbccText inst = some t ∧ line inst.pc t = known .Dbcc inst.operands.canonical := by
  exact ⟨("DB".toList ++ conditionalTest c) ++ ' ' :: ('D' :: dec r ++ ',' :: ' ' :: (sdec d ++ (' ' :: '<' :: (hex (inst.pc + 2 + d.signExtend 32) ++ ['>'])))), by simp [Dis.dbccText, ho, Operands.conditionRegisterDisplacement], by rw [ho]; exact (line_two (name_dbcc h) (reads_d r) (reads_rel d _)).trans (by simp only [dbcc, leadsTo_disp, if_true, reg, BitVec.ofNat_toNat, BitVec.setWidth_eq, BitVec.ofInt_toInt, mode_opndOf]; rfl)⟩

theorem name_scc {c : U8} (h : c.toNat < 16) : Name pc ("S".toList ++ conditionalTest c) none (scc c) := by
  have hn : ∀ n : Fin 16, ' ' ∉ ("S".toList ++ conditionalTest (BitVec.ofNat 8 n.val)) ∧ ("S".toList ++ conditionalTest (BitVec.ofNat 8 n.val)) ≠ "Unknown".toList ∧
      mnemonic ("S".toList ++ conditionalTest (BitVec.ofNat 8 n.val)) = some ("S".toList ++ conditionalTest (BitVec.ofNat 8 n.val), none) ∧
      names.findIdx? (· == ("S".toList ++ conditionalTest (BitVec.ofNat 8 n.val))) = some (73 + 3 * n.val) := by decide +kernel
  have hc := hn ⟨c.toNat, h⟩
  simp only [BitVec.ofNat_toNat, BitVec.setWidth_eq] at hc
  refine name_of (73 + 3 * c.toNat) hc ?_
  have hm : ∀ n : Fin 16, (mnemonics pc)[73 + 3 * n.val]? = some ("S".toList ++ conditionalTest (BitVec.ofNat 8 n.val), scc (BitVec.ofNat 8 n.val)) := by
    intro n
    rcases fin16_cases n with rfl | rfl | rfl | rfl | rfl | rfl | rfl | rfl | rfl | rfl | rfl | rfl | rfl | rfl | rfl | rfl <;> rfl
  have := hm ⟨c.toNat, h⟩
  simpa using this

theorem text_scc {c : U8} {am : AddressingMode} (ho : inst.operands = .ConditionEffectiveAddress c am) (h : c.toNat < 16) :
    ∃ t, Dis.sccText inst = some t ∧ line inst.pc t = known .Scc inst.operands.canonical := by
  exact ⟨("S".toList ++ conditionalTest c) ++ ' ' :: (am.text), by simp [Dis.sccText, ho, Operands.conditionEffectiveAddress], by rw [ho]; exact (line_one (name_scc h) (reads_mode am)).trans (by simp only [scc, leadsTo_disp, if_true, reg, BitVec.ofNat_toNat, BitVec.setWidth_eq, BitVec.ofInt_toInt, mode_opndOf]; rfl)⟩

/-- The operands an instruction is decoded with, as far as its text needs it. -/
def Written (inst : Instruction) : Isa → Prop
  | .Unknown => True
  | .Abcd => ∃ rx ry d, inst.operands = .RegisterSizeModeRegister rx .Byte d ry ∧ (d = .RegisterToRegister ∨ d = .MemoryToMemory)
  | .Add => ∃ r d s am, inst.operands = .RegisterDirectionSizeEffectiveAddress r d s am ∧ (d = .DstReg ∨ d = .DstEa ∧ ∀ n, am ≠ .Drd n)
  | .Adda => ∃ r s am, inst.operands = .RegisterSizeEffectiveAddress r s am
  | .Addi => ∃ s am v, inst.operands = .SizeEffectiveAddressImmediate s am v
  | .Addq => ∃ d s am, inst.operands = .DataSizeEffectiveAddress d s am ∧ d.toNat < 8
  | .Addx => ∃ rx ry s d, inst.operands = .RegisterSizeModeRegister rx s d ry ∧ (d = .RegisterToRegister ∨ d = .MemoryToMemory)
  | .And => ∃ r d s am, inst.operands = .RegisterDirectionSizeEffectiveAddress r d s am ∧ (d = .DstReg ∨ d = .DstEa ∧ ∀ n, am ≠ .Drd n)
  | .Andi => ∃ s am v, inst.operands = .SizeEffectiveAddressImmediate s am v
  | .Andiccr => ∃ v, inst.operands = .Immediate v
  | .Andisr => ∃ v, inst.operands = .Immediate v
  | .Asm => ∃ d am, inst.operands = .DirectionEffectiveAddress d am ∧ (d = .Left ∨ d = .Right)
  | .Asr => ∃ rx ry s d b, inst.operands = .RotationDirectionSizeModeRegister rx d s b ry ∧ rx.toNat < 8 ∧ (d = .Left ∨ d = .Right)
  | .Bcc => ∃ c d, inst.operands = .ConditionDisplacement c d ∧ c.toNat < 16
  | .Bchg => ∃ r am, inst.operands = .EffectiveAddressCount am r
  | .Bclr => ∃ r am, inst.operands = .EffectiveAddressCount am r
  | .Bra => ∃ d, inst.operands = .Displacement d
  | .Bset => ∃ r am, inst.operands = .EffectiveAddressCount am r
  | .Bsr => ∃ d, inst.operands = .Displacement d
  | .Btst => ∃ r am, inst.operands = .EffectiveAddressCount am r
  | .Chk => ∃ r am, inst.operands = .RegisterEffectiveAddress r am
  | .Clr => ∃ s am, inst.operands = .SizeEffectiveAddress s am
  | .Cmp => ∃ r s am, inst.operands = .RegisterDirectionSizeEffectiveAddress r .DstReg s am
  | .Cmpa => ∃ r s am, inst.operands = .RegisterSizeEffectiveAddress r s am
  | .Cmpi => ∃ s am v, inst.operands = .SizeEffectiveAddressImmediate s am v
  | .Cmpm => ∃ rx ry s, inst.operands = .RegisterSizeRegister rx s ry
  | .Dbcc => ∃ c r d, inst.operands = .ConditionRegisterDisplacement c r d ∧ c.toNat < 16
  | .Divs => ∃ r am, inst.operands = .RegisterEffectiveAddress r am
  | .Divu => ∃ r am, inst.operands = .RegisterEffectiveAddress r am
  | .Eor => ∃ r s am, inst.operands = .RegisterDirectionSizeEffectiveAddress r .DstEa s am
  | .Eori => ∃ s am v, inst.operands = .SizeEffectiveAddressImmediate s am v
  | .Eoriccr => ∃ v, inst.operands = .Immediate v
  | .Eorisr => ∃ v, inst.operands = .Immediate v
  | .Exg => ∃ rx ry d, inst.operands = .RegisterOpmodeRegister rx d ry ∧ (d = .ExchangeData ∨ d = .ExchangeAddress ∨ d = .ExchangeDataAddress)
  | .Ext => ∃ m r, inst.operands = .OpmodeRegister m r ∧ (m = 2 ∨ m = 3)
  | .Illegal => inst.operands = .NoOperands
  | .Jmp => ∃ am, inst.operands = .EffectiveAddress am
  | .Jsr => ∃ am, inst.operands = .EffectiveAddress am
  | .Lea => ∃ r am, inst.operands = .RegisterEffectiveAddress r am
  | .Link => ∃ r d, inst.operands = .RegisterDisplacement r d
  | .Lsm => ∃ d am, inst.operands = .DirectionEffectiveAddress d am ∧ (d = .Left ∨ d = .Right)
  | .Lsr => ∃ rx ry s d b, inst.operands = .RotationDirectionSizeModeRegister rx d s b ry ∧ rx.toNat < 8 ∧ (d = .Left ∨ d = .Right)
  | .Move => ∃ s dst src, inst.operands = .SizeEffectiveAddressEffectiveAddress s dst src
  | .Movea => ∃ s r am, inst.operands = .SizeRegisterEffectiveAddress s r am
  | .Moveccr => ∃ am, inst.operands = .EffectiveAddress am
  | .Movefsr => ∃ am, inst.operands = .EffectiveAddress am
  | .Movesr => ∃ am, inst.operands = .EffectiveAddress am
  | .Moveusp => ∃ d r, inst.operands = .DirectionRegister d r ∧ (d = .UspToRegister ∨ d = .RegisterToUsp)
  | .Movem => ∃ d s am l, inst.operands = .DirectionSizeEffectiveAddressList d s am l ∧ (d = .MemoryToRegister ∨ d = .RegisterToMemory)
  | .Movep => ∃ r a d s e, inst.operands = .RegisterDirectionSizeRegisterDisplacement r d s a e ∧ (d = .MemoryToRegister ∨ d = .RegisterToMemory)
  | .Moveq => ∃ r d, inst.operands = .RegisterData r d
  | .Muls => ∃ r am, inst.operands = .RegisterEffectiveAddress r am
  | .Mulu => ∃ r am, inst.operands = .RegisterEffectiveAddress r am
  | .Nbcd => ∃ am, inst.operands = .EffectiveAddress am
  | .Neg => ∃ s am, inst.operands = .SizeEffectiveAddress s am
  | .Negx => ∃ s am, inst.operands = .SizeEffectiveAddress s am
  | .Nop => inst.operands = .NoOperands
  | .Not => ∃ s am, inst.operands = .SizeEffectiveAddress s am
  | .Or => ∃ r d s am, inst.operands = .RegisterDirectionSizeEffectiveAddress r d s am ∧ (d = .DstReg ∨ d = .DstEa ∧ ∀ n, am ≠ .Drd n)
  | .Ori => ∃ s am v, inst.operands = .SizeEffectiveAddressImmediate s am v
  | .Oriccr => ∃ v, inst.operands = .Immediate v
  | .Orisr => ∃ v, inst.operands = .Immediate v
  | .Pea => ∃ am, inst.operands = .EffectiveAddress am
  | .Reset => inst.operands = .NoOperands
  | .Rom => ∃ d am, inst.operands = .DirectionEffectiveAddress d am ∧ (d = .Left ∨ d = .Right)
  | .Ror => ∃ rx ry s d b, inst.operands = .RotationDirectionSizeModeRegister rx d s b ry ∧ rx.toNat < 8 ∧ (d = .Left ∨ d = .Right)
  | .Roxm => ∃ d am, inst.operands = .DirectionEffectiveAddress d am ∧ (d = .Left ∨ d = .Right)
  | .Roxr => ∃ rx ry s d b, inst.operands = .RotationDirectionSizeModeRegister rx d s b ry ∧ rx.toNat < 8 ∧ (d = .Left ∨ d = .Right)
  | .Rte => inst.operands = .NoOperands
  | .Rtr => inst.operands = .NoOperands
  | .Rts => inst.operands = .NoOperands
  | .Sbcd => ∃ rx ry d, inst.operands = .RegisterSizeModeRegister rx .Byte d ry ∧ (d = .RegisterToRegister ∨ d = .MemoryToMemory)
  | .Scc => ∃ c am, inst.operands = .ConditionEffectiveAddress c am ∧ c.toNat < 16
  | .Stop => ∃ v, inst.operands = .Immediate v
  | .Sub => ∃ r d s am, inst.operands = .RegisterDirectionSizeEffectiveAddress r d s am ∧ (d = .DstReg ∨ d = .DstEa ∧ ∀ n, am ≠ .Drd n)
  | .Suba => ∃ r s am, inst.operands = .RegisterSizeEffectiveAddress r s am
  | .Subi => ∃ s am v, inst.operands = .SizeEffectiveAddressImmediate s am v
  | .Subq => ∃ d s am, inst.operands = .DataSizeEffectiveAddress d s am ∧ d.toNat < 8
  | .Subx => ∃ rx ry s d, inst.operands = .RegisterSizeModeRegister rx s d ry ∧ (d = .RegisterToRegister ∨ d = .MemoryToMemory)
  | .Swap => ∃ r, inst.operands = .Register r
  | .Tas => ∃ am, inst.operands = .EffectiveAddress am
  | .Trap => ∃ v, inst.operands = .Vector v
  | .Trapv => inst.operands = .NoOperands
  | .Tst => ∃ s am, inst.operands = .SizeEffectiveAddress s am
  | .Unlk => ∃ r, inst.operands = .Register r

theorem text_reads {isa : Isa} (hu : isa ≠ .Unknown) (h : Written inst isa) :
    ∃ t, Dis.dlut isa inst = some t ∧ line inst.pc t = some (.instruction isa (inRegister isa inst.opcode) inst.operands.canonical) := by
  cases isa
  case Unknown => exact absurd rfl hu
  case Abcd =>
    obtain ⟨rx, ry, d, ho, h⟩ := h
    exact text_abcd ho h
  case Add =>
    obtain ⟨r, d, s, am, ho, h⟩ := h
    exact text_add ho h
  case Adda =>
    obtain ⟨r, s, am, ho⟩ := h
    exact text_adda ho
  case Addi =>
    obtain ⟨s, am, v, ho⟩ := h
    exact text_addi ho
  case Addq =>
    obtain ⟨d, s, am, ho, h⟩ := h
    exact text_addq ho h
  case Addx =>
    obtain ⟨rx, ry, s, d, ho, h⟩ := h
    exact text_addx ho h
  case And =>
    obtain ⟨r, d, s, am, ho, h⟩ := h
    exact text_and ho h
  case Andi =>
    obtain ⟨s, am, v, ho⟩ := h
    exact text_andi ho
  case Andiccr =>
    obtain ⟨v, ho⟩ := h
    exact text_andiccr ho
  case Andisr =>
    obtain ⟨v, ho⟩ := h
    exact text_andisr ho
  case Asm =>
    obtain ⟨d, am, ho, h⟩ := h
    exact text_asm ho h
  case Asr =>
    obtain ⟨rx, ry, s, d, b, ho, h1, h2⟩ := h
    exact text_asr ho h1 h2
  case Bcc =>
    obtain ⟨c, d, ho, h⟩ := h
    exact text_bcc ho h
  case Bchg =>
    obtain ⟨r, am, ho⟩ := h
    have h := text_bchg ho
    rw [bits_flag] at h
    exact h
  case Bclr =>
    obtain ⟨r, am, ho⟩ := h
    have h := text_bclr ho
    rw [bits_flag] at h
    exact h
  case Bra =>
    obtain ⟨d, ho⟩ := h
    exact text_bra ho
  case Bset =>
    obtain ⟨r, am, ho⟩ := h
    have h := text_bset ho
    rw [bits_flag] at h
    exact h
  case Bsr =>
    obtain ⟨d, ho⟩ := h
    exact text_bsr ho
  case Btst =>
    obtain ⟨r, am, ho⟩ := h
    have h := text_btst ho
    rw [bits_flag] at h
    exact h
  case Chk =>
    obtain ⟨r, am, ho⟩ := h
    exact text_chk ho
  case Clr =>
    obtain ⟨s, am, ho⟩ := h
    exact text_clr ho
  case Cmp =>
    obtain ⟨r, s, am, ho⟩ := h
    exact text_cmp ho
  case Cmpa =>
    obtain ⟨r, s, am, ho⟩ := h
    exact text_cmpa ho
  case Cmpi =>
    obtain ⟨s, am, v, ho⟩ := h
    exact text_cmpi ho
  case Cmpm =>
    obtain ⟨rx, ry, s, ho⟩ := h
    exact text_cmpm ho
  case Dbcc =>
    obtain ⟨c, r, d, ho, h⟩ := h
    exact text_dbcc ho h
  case Divs =>
    obtain ⟨r, am, ho⟩ := h
    exact text_divs ho
  case Divu =>
    obtain ⟨r, am, ho⟩ := h
    exact text_divu ho
  case Eor =>
    obtain ⟨r, s, am, ho⟩ := h
    exact text_eor ho
  case Eori =>
    obtain ⟨s, am, v, ho⟩ := h
    exact text_eori ho
  case Eoriccr =>
    obtain ⟨v, ho⟩ := h
    exact text_eoriccr ho
  case Eorisr =>
    obtain ⟨v, ho⟩ := h
    exact text_eorisr ho
  case Exg =>
    obtain ⟨rx, ry, d, ho, h⟩ := h
    exact text_exg ho h
  case Ext =>
    obtain ⟨m, r, ho, h⟩ := h
    exact text_ext ho h
  case Illegal => exact text_illegal h
  case Jmp =>
    obtain ⟨am, ho⟩ := h
    exact text_jmp ho
  case Jsr =>
    obtain ⟨am, ho⟩ := h
    exact text_jsr ho
  case Lea =>
    obtain ⟨r, am, ho⟩ := h
    exact text_lea ho
  case Link =>
    obtain ⟨r, d, ho⟩ := h
    exact text_link ho
  case Lsm =>
    obtain ⟨d, am, ho, h⟩ := h
    exact text_lsm ho h
  case Lsr =>
    obtain ⟨rx, ry, s, d, b, ho, h1, h2⟩ := h
    exact text_lsr ho h1 h2
  case Move =>
    obtain ⟨s, dst, src, ho⟩ := h
    exact text_move ho
  case Movea =>
    obtain ⟨s, r, am, ho⟩ := h
    exact text_movea ho
  case Moveccr =>
    obtain ⟨am, ho⟩ := h
    exact text_moveccr ho
  case Movefsr =>
    obtain ⟨am, ho⟩ := h
    exact text_movefsr ho
  case Movesr =>
    obtain ⟨am, ho⟩ := h
    exact text_movesr ho
  case Moveusp =>
    obtain ⟨d, r, ho, h⟩ := h
    exact text_moveusp ho h
  case Movem =>
    obtain ⟨d, s, am, l, ho, h⟩ := h
    exact text_movem ho h
  case Movep =>
    obtain ⟨r, a, d, s, e, ho, h⟩ := h
    exact text_movep ho h
  case Moveq =>
    obtain ⟨r, d, ho⟩ := h
    exact text_moveq ho
  case Muls =>
    obtain ⟨r, am, ho⟩ := h
    exact text_muls ho
  case Mulu =>
    obtain ⟨r, am, ho⟩ := h
    exact text_mulu ho
  case Nbcd =>
    obtain ⟨am, ho⟩ := h
    exact text_nbcd ho
  case Neg =>
    obtain ⟨s, am, ho⟩ := h
    exact text_neg ho
  case Negx =>
    obtain ⟨s, am, ho⟩ := h
    exact text_negx ho
  case Nop => exact text_nop h
  case Not =>
    obtain ⟨s, am, ho⟩ := h
    exact text_not ho
  case Or =>
    obtain ⟨r, d, s, am, ho, h⟩ := h
    exact text_or ho h
  case Ori =>
    obtain ⟨s, am, v, ho⟩ := h
    exact text_ori ho
  case Oriccr =>
    obtain ⟨v, ho⟩ := h
    exact text_oriccr ho
  case Orisr =>
    obtain ⟨v, ho⟩ := h
    exact text_orisr ho
  case Pea =>
    obtain ⟨am, ho⟩ := h
    exact text_pea ho
  case Reset => exact text_reset h
  case Rom =>
    obtain ⟨d, am, ho, h⟩ := h
    exact text_rom ho h
  case Ror =>
    obtain ⟨rx, ry, s, d, b, ho, h1, h2⟩ := h
    exact text_ror ho h1 h2
  case Roxm =>
    obtain ⟨d, am, ho, h⟩ := h
    exact text_roxm ho h
  case Roxr =>
    obtain ⟨rx, ry, s, d, b, ho, h1, h2⟩ := h
    exact text_roxr ho h1 h2
  case Rte => exact text_rte h
  case Rtr => exact text_rtr h
  case Rts => exact text_rts h
  case Sbcd =>
    obtain ⟨rx, ry, d, ho, h⟩ := h
    exact text_sbcd ho h
  case Scc =>
    obtain ⟨c, am, ho, h⟩ := h
    exact text_scc ho h
  case Stop =>
    obtain ⟨v, ho⟩ := h
    exact text_stop ho
  case Sub =>
    obtain ⟨r, d, s, am, ho, h⟩ := h
    exact text_sub ho h
  case Suba =>
    obtain ⟨r, s, am, ho⟩ := h
    exact text_suba ho
  case Subi =>
    obtain ⟨s, am, v, ho⟩ := h
    exact text_subi ho
  case Subq =>
    obtain ⟨d, s, am, ho, h⟩ := h
    exact text_subq ho h
  case Subx =>
    obtain ⟨rx, ry, s, d, ho, h⟩ := h
    exact text_subx ho h
  case Swap =>
    obtain ⟨r, ho⟩ := h
    exact text_swap ho
  case Tas =>
    obtain ⟨am, ho⟩ := h
    exact text_tas ho
  case Trap =>
    obtain ⟨v, ho⟩ := h
    exact text_trap ho
  case Trapv => exact text_trapv h
  case Tst =>
    obtain ⟨s, am, ho⟩ := h
    exact text_tst ho
  case Unlk =>
    obtain ⟨r, ho⟩ := h
    exact text_unlk ho

end M68k.Spec.Reader
