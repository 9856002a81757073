import Verif.Lemmas.AsmShapes
/-
C39: the assembler and the decoder agree. `Decodes ws isa ops` (Spec/Words.lean) says that the decoder takes exactly the words `ws`, wherever they
are in memory, and yields the instruction `isa` with the operands `ops pc`, `pc` being its address. In the decoded operands a PC relative mode
holds the address of its extension word (`placedAt`), and an immediate operand or immediate data is the part of it that fits the operation size
(`held`, `heldImm`).
-/
set_option linter.unusedSectionVars false
namespace M68k.Props
open Spec Exec
variable {ws : List U16} {reg dst src : U8} {size : Size} {am : AddressingMode} {dir mode : Direction} {imm : U32} {L r b s : Nat} {op : U16}

/-! ### The opcode map on the assembled fields -/

theorem class_any {e : EaField} (h : e.dataAlterable = true) : e.data = true ∧ e.alterable = true ∧ e.mode ≠ 1 := by
  simp only [EaField.dataAlterable, EaField.data, Bool.and_eq_true, bne_iff_ne] at h ⊢
  exact ⟨h.1, h.2, h.1.2⟩

/-- The opcodes that are exceptions in their line of the map. -/
theorem not_special (f : Fields op L r b s am) (h : (Exec.eaOf am).1 = 7 → (Exec.eaOf am).2 ≠ 4) :
    op.toNat ≠ 0x003C ∧ op.toNat ≠ 0x007C ∧ op.toNat ≠ 0x023C ∧ op.toNat ≠ 0x027C ∧ op.toNat ≠ 0x0A3C ∧ op.toNat ≠ 0x0A7C ∧ op.toNat ≠ 0x4AFC := by
  have h1 := f.mode
  have h2 := f.eareg
  refine ⟨?_, ?_, ?_, ?_, ?_, ?_, ?_⟩ <;> (intro hc; rw [hc] at h1 h2; exact h (by omega) (by omega))

theorem not_special' (f : Fields op L r 1 s am) :
    op.toNat ≠ 0x003C ∧ op.toNat ≠ 0x007C ∧ op.toNat ≠ 0x023C ∧ op.toNat ≠ 0x027C ∧ op.toNat ≠ 0x0A3C ∧ op.toNat ≠ 0x0A7C := by
  have h1 := f.bit8
  refine ⟨?_, ?_, ?_, ?_, ?_, ?_⟩ <;> (intro hc; rw [hc] at h1; omega)

theorem sizeNo_ne (size : Size) : sizeNo size ≠ 3 := by cases size <;> decide


theorem C39_add (h : Asm.add reg dir size am = some ws) :
    Decodes ws .Add fun pc => .RegisterDirectionSizeEffectiveAddress reg dir size (placedAt (pc + 2) (held size.isLong am)) := by
  unfold Asm.add at h
  rw [guard_iff, guard_iff] at h
  obtain ⟨h7, hd, h⟩ := h
  rcases hd with rfl | rfl
  · rw [if_pos rfl, guard_iff] at h
    obtain ⟨hv, h⟩ := h
    cases h
    obtain ⟨hr, hc, hi, hm⟩ := v_memoryAlterable hv
    refine asm_regDirSizeEa (L := 13) (by decide) h7 (.inl rfl) hr (by decide) (fun _ _ => rfl) fun op f => ?_
    have hm : ¬ (eaField am).mode ≤ 1 := by show ¬ (Exec.eaOf am).1 ≤ 1; omega
    rw [f.map]
    simp [lineOf, lineAdd, only, sizeNo_ne, hm, hc]
  · rw [if_neg (by decide)] at h
    rw [bind_assoc, guard_iff, guard_iff] at h
    obtain ⟨hb, hv, h⟩ := h
    cases h
    obtain ⟨hr, hc⟩ := v_any hv
    refine asm_regDirSizeEa (L := 13) (by decide) h7 (.inr rfl) hr (by decide) (fun _ _ => rfl) fun op f => ?_
    have hm : ¬ (sizeNo size = 0 ∧ (eaField am).mode = 1) := by
      rintro ⟨h1, h2⟩
      have h2 : (Exec.eaOf am).1 = 1 := h2
      refine hb ⟨?_, ?_⟩
      · cases am <;> first | rfl | (simp [Exec.eaOf] at h2)
      · cases size <;> first | rfl | (simp [sizeNo] at h1)
    rw [f.map]
    simp only [not_and] at hm
    by_cases hz : sizeNo size = 0
    · simp [lineOf, lineAdd, only, hz, hm hz, hc]
    · simp [lineOf, lineAdd, only, sizeNo_ne, hz, hc]

theorem C39_sub (h : Asm.sub reg dir size am = some ws) :
    Decodes ws .Sub fun pc => .RegisterDirectionSizeEffectiveAddress reg dir size (placedAt (pc + 2) (held size.isLong am)) := by
  unfold Asm.sub at h
  rw [guard_iff, guard_iff] at h
  obtain ⟨h7, hd, h⟩ := h
  rcases hd with rfl | rfl
  · rw [if_pos rfl, guard_iff] at h
    obtain ⟨hv, h⟩ := h
    cases h
    obtain ⟨hr, hc, hi, hm⟩ := v_memoryAlterable hv
    refine asm_regDirSizeEa (L := 9) (by decide) h7 (.inl rfl) hr (by decide) (fun _ _ => rfl) fun op f => ?_
    have hm : ¬ (eaField am).mode ≤ 1 := by show ¬ (Exec.eaOf am).1 ≤ 1; omega
    rw [f.map]
    simp [lineOf, lineAdd, only, sizeNo_ne, hm, hc]
  · rw [if_neg (by decide)] at h
    rw [bind_assoc, guard_iff, guard_iff] at h
    obtain ⟨hb, hv, h⟩ := h
    cases h
    obtain ⟨hr, hc⟩ := v_any hv
    refine asm_regDirSizeEa (L := 9) (by decide) h7 (.inr rfl) hr (by decide) (fun _ _ => rfl) fun op f => ?_
    have hm : ¬ (sizeNo size = 0 ∧ (eaField am).mode = 1) := by
      rintro ⟨h1, h2⟩
      have h2 : (Exec.eaOf am).1 = 1 := h2
      refine hb ⟨?_, ?_⟩
      · cases am <;> first | rfl | (simp [Exec.eaOf] at h2)
      · cases size <;> first | rfl | (simp [sizeNo] at h1)
    rw [f.map]
    simp only [not_and] at hm
    by_cases hz : sizeNo size = 0
    · simp [lineOf, lineAdd, only, hz, hm hz, hc]
    · simp [lineOf, lineAdd, only, sizeNo_ne, hz, hc]

theorem C39_and (h : Asm.and reg dir size am = some ws) :
    Decodes ws .And fun pc => .RegisterDirectionSizeEffectiveAddress reg dir size (placedAt (pc + 2) (held size.isLong am)) := by
  unfold Asm.and at h
  rw [guard_iff, guard_iff] at h
  obtain ⟨h7, hd, h⟩ := h
  rcases hd with rfl | rfl
  · rw [if_pos rfl, guard_iff] at h
    obtain ⟨hv, h⟩ := h
    cases h
    obtain ⟨hr, hc, hi, hm⟩ := v_memoryAlterable hv
    refine asm_regDirSizeEa (L := 12) (by decide) h7 (.inl rfl) hr (by decide) (fun _ _ => rfl) fun op f => ?_
    have hm : ¬ (eaField am).mode ≤ 1 := by show ¬ (Exec.eaOf am).1 ≤ 1; omega
    have hm1 : (eaField am).mode ≠ 1 := by omega
    rw [f.map]
    simp [lineOf, lineC, lineOr, only, sizeNo_ne, hm, hm1, hc]
  · rw [if_neg (by decide), guard_iff] at h
    obtain ⟨hv, h⟩ := h
    cases h
    obtain ⟨hr, hc⟩ := v_data hv
    refine asm_regDirSizeEa (L := 12) (by decide) h7 (.inr rfl) hr (by decide) (fun _ _ => rfl) fun op f => ?_
    rw [f.map]
    simp [lineOf, lineC, lineOr, only, sizeNo_ne, hc]

theorem C39_or (h : Asm.or reg dir size am = some ws) :
    Decodes ws .Or fun pc => .RegisterDirectionSizeEffectiveAddress reg dir size (placedAt (pc + 2) (held size.isLong am)) := by
  unfold Asm.or at h
  rw [guard_iff, guard_iff] at h
  obtain ⟨h7, hd, h⟩ := h
  rcases hd with rfl | rfl
  · rw [if_pos rfl, guard_iff] at h
    obtain ⟨hv, h⟩ := h
    cases h
    obtain ⟨hr, hc, hi, hm⟩ := v_memoryAlterable hv
    refine asm_regDirSizeEa (L := 8) (by decide) h7 (.inl rfl) hr (by decide) (fun _ _ => rfl) fun op f => ?_
    have hm : ¬ (eaField am).mode ≤ 1 := by show ¬ (Exec.eaOf am).1 ≤ 1; omega
    have hm1 : (eaField am).mode ≠ 1 := by omega
    rw [f.map]
    simp [lineOf, lineOr, only, sizeNo_ne, hm, hm1, hc]
  · rw [if_neg (by decide), guard_iff] at h
    obtain ⟨hv, h⟩ := h
    cases h
    obtain ⟨hr, hc⟩ := v_data hv
    refine asm_regDirSizeEa (L := 8) (by decide) h7 (.inr rfl) hr (by decide) (fun _ _ => rfl) fun op f => ?_
    rw [f.map]
    simp [lineOf, lineOr, only, sizeNo_ne, hc]

theorem C39_cmp (h : Asm.cmp reg size am = some ws) :
    Decodes ws .Cmp fun pc => .RegisterDirectionSizeEffectiveAddress reg .DstReg size (placedAt (pc + 2) (held size.isLong am)) := by
  unfold Asm.cmp at h
  rw [guard_iff, guard_iff, guard_iff] at h
  obtain ⟨h7, hb, hv, h⟩ := h
  cases h
  obtain ⟨hr, hc⟩ := v_any hv
  refine asm_regDirSizeEa (L := 11) (by decide) h7 (.inr rfl) hr (by decide) (fun _ _ => rfl) fun op f => ?_
  have hm : ¬ (sizeNo size = 0 ∧ (eaField am).mode = 1) := by
    rintro ⟨h1, h2⟩
    have h2 : (Exec.eaOf am).1 = 1 := h2
    refine hb ⟨?_, ?_⟩
    · cases am <;> first | rfl | (simp [Exec.eaOf] at h2)
    · cases size <;> first | rfl | (simp [sizeNo] at h1)
  rw [f.map]
  simp only [not_and] at hm
  by_cases hz : sizeNo size = 0
  · simp [lineOf, lineB, only, hz, hm hz, hc]
  · simp [lineOf, lineB, only, sizeNo_ne, hz, hc]
theorem C39_eor (h : Asm.eor reg size am = some ws) :
    Decodes ws .Eor fun _ => .RegisterDirectionSizeEffectiveAddress reg .DstEa size am := by
  unfold Asm.eor at h
  rw [guard_iff, guard_iff] at h
  obtain ⟨h7, hv, h⟩ := h
  cases h
  obtain ⟨hr, hc, hi⟩ := v_dataAlterable hv
  have := asm_regDirSizeEa (isa := .Eor) (reg := reg) (size := size) (L := 11) (dir := .DstEa) (by decide) h7 (.inl rfl) hr (by decide) (fun _ _ => rfl) fun op f => by
    rw [f.map]
    simp [lineOf, lineB, only, sizeNo_ne, (class_any hc).2.2, hc]
  simp only [placed_alterable hi] at this
  exact this

/-- Missing: the assembler does not check the register of the operand, see `C39_register_refuted`. -/
theorem C39_adda_partial (hr : RegistersOk am) (h : Asm.adda reg size am = some ws) :
    Decodes ws .Adda fun pc => .RegisterSizeEffectiveAddress reg size (placedAt (pc + 2) (held size.isLong am)) := by
  unfold Asm.adda at h
  rw [guard_iff, guard_iff] at h
  obtain ⟨h7, hb, h⟩ := h
  refine asm_regSizeEa (L := 13) (by decide) h7 hr hb (by decide) (fun _ _ => rfl) (fun op f => ?_) h
  rw [f.map]
  simp [lineOf, lineAdd, only, ea_any hr]

/-- Missing: the assembler does not check the register of the operand, see `C39_register_refuted`. -/
theorem C39_suba_partial (hr : RegistersOk am) (h : Asm.suba reg size am = some ws) :
    Decodes ws .Suba fun pc => .RegisterSizeEffectiveAddress reg size (placedAt (pc + 2) (held size.isLong am)) := by
  unfold Asm.suba at h
  rw [guard_iff, guard_iff] at h
  obtain ⟨h7, hb, h⟩ := h
  refine asm_regSizeEa (L := 9) (by decide) h7 hr hb (by decide) (fun _ _ => rfl) (fun op f => ?_) h
  rw [f.map]
  simp [lineOf, lineAdd, only, ea_any hr]

/-- Missing: the assembler does not check the register of the operand, see `C39_register_refuted`. -/
theorem C39_cmpa_partial (hr : RegistersOk am) (h : Asm.cmpa reg size am = some ws) :
    Decodes ws .Cmpa fun pc => .RegisterSizeEffectiveAddress reg size (placedAt (pc + 2) (held size.isLong am)) := by
  unfold Asm.cmpa at h
  rw [guard_iff, guard_iff] at h
  obtain ⟨h7, hb, h⟩ := h
  refine asm_regSizeEa (L := 11) (by decide) h7 hr hb (by decide) (fun _ _ => rfl) (fun op f => ?_) h
  rw [f.map]
  simp [lineOf, lineB, only, ea_any hr]

theorem C39_addi (h : Asm.addi size am imm = some ws) : Decodes ws .Addi fun _ => .SizeEffectiveAddressImmediate size am (heldImm size imm) := by
  unfold Asm.addi at h
  rw [guard_iff] at h
  obtain ⟨hv, h⟩ := h
  cases h
  obtain ⟨hr, hc, hi⟩ := v_dataAlterable hv
  refine asm_sizeEaImm (H := 6) (by decide) hr hi (by decide) (fun _ _ => rfl) fun op f => ?_
  have hs := not_special f (fun h => by have := hi h; omega)
  have hlt := sizeNo_lt size
  rw [f.map]
  simp [lineOf, line0, only, hlt, hs, (class_any hc).2.2, hc]

theorem C39_andi (h : Asm.andi size am imm = some ws) : Decodes ws .Andi fun _ => .SizeEffectiveAddressImmediate size am (heldImm size imm) := by
  unfold Asm.andi at h
  rw [guard_iff] at h
  obtain ⟨hv, h⟩ := h
  cases h
  obtain ⟨hr, hc, hi⟩ := v_dataAlterable hv
  refine asm_sizeEaImm (H := 2) (by decide) hr hi (by decide) (fun _ _ => rfl) fun op f => ?_
  have hs := not_special f (fun h => by have := hi h; omega)
  have hlt := sizeNo_lt size
  rw [f.map]
  simp [lineOf, line0, only, hlt, hs, (class_any hc).2.2, hc]

theorem C39_cmpi (h : Asm.cmpi size am imm = some ws) : Decodes ws .Cmpi fun _ => .SizeEffectiveAddressImmediate size am (heldImm size imm) := by
  unfold Asm.cmpi at h
  rw [guard_iff] at h
  obtain ⟨hv, h⟩ := h
  cases h
  obtain ⟨hr, hc, hi⟩ := v_dataAlterable hv
  refine asm_sizeEaImm (H := 12) (by decide) hr hi (by decide) (fun _ _ => rfl) fun op f => ?_
  have hs := not_special f (fun h => by have := hi h; omega)
  have hlt := sizeNo_lt size
  rw [f.map]
  simp [lineOf, line0, only, hlt, hs, (class_any hc).2.2, hc]

theorem C39_eori (h : Asm.eori size am imm = some ws) : Decodes ws .Eori fun _ => .SizeEffectiveAddressImmediate size am (heldImm size imm) := by
  unfold Asm.eori at h
  rw [guard_iff] at h
  obtain ⟨hv, h⟩ := h
  cases h
  obtain ⟨hr, hc, hi⟩ := v_dataAlterable hv
  refine asm_sizeEaImm (H := 10) (by decide) hr hi (by decide) (fun _ _ => rfl) fun op f => ?_
  have hs := not_special f (fun h => by have := hi h; omega)
  have hlt := sizeNo_lt size
  rw [f.map]
  simp [lineOf, line0, only, hlt, hs, (class_any hc).2.2, hc]

theorem C39_ori (h : Asm.ori size am imm = some ws) : Decodes ws .Ori fun _ => .SizeEffectiveAddressImmediate size am (heldImm size imm) := by
  unfold Asm.ori at h
  rw [guard_iff] at h
  obtain ⟨hv, h⟩ := h
  cases h
  obtain ⟨hr, hc, hi⟩ := v_dataAlterable hv
  refine asm_sizeEaImm (H := 0) (by decide) hr hi (by decide) (fun _ _ => rfl) fun op f => ?_
  have hs := not_special f (fun h => by have := hi h; omega)
  have hlt := sizeNo_lt size
  rw [f.map]
  simp [lineOf, line0, only, hlt, hs, (class_any hc).2.2, hc]

theorem C39_subi (h : Asm.subi size am imm = some ws) : Decodes ws .Subi fun _ => .SizeEffectiveAddressImmediate size am (heldImm size imm) := by
  unfold Asm.subi at h
  rw [guard_iff] at h
  obtain ⟨hv, h⟩ := h
  cases h
  obtain ⟨hr, hc, hi⟩ := v_dataAlterable hv
  refine asm_sizeEaImm (H := 4) (by decide) hr hi (by decide) (fun _ _ => rfl) fun op f => ?_
  have hs := not_special f (fun h => by have := hi h; omega)
  have hlt := sizeNo_lt size
  rw [f.map]
  simp [lineOf, line0, only, hlt, hs, (class_any hc).2.2, hc]

/-- The data 8 is encoded, and decoded, as 0. -/
theorem C39_addq {data : U8} (h : Asm.addq data size am = some ws) :
    Decodes ws .Addq fun _ => .DataSizeEffectiveAddress (if data = 8 then 0 else data) size am := by
  unfold Asm.addq at h
  rw [guard_iff, guard_iff, guard_iff] at h
  obtain ⟨hv, hb, hd, h⟩ := h
  cases h
  obtain ⟨hr, hc, hi⟩ := v_alterable hv
  have h7 : (if data = 8 then 0 else data : U8).toNat ≤ 7 := by
    split
    · decide
    · rename_i hn
      have h8 : data.toNat ≤ 8 := hd.2
      have : data.toNat ≠ 8 := fun hc => hn (BitVec.eq_of_toNat_eq hc)
      omega
  refine asm_dataSizeEa (b := 0) (by decide) h7 hr hi (by decide) (fun _ _ => rfl) fun op f => ?_
  have hm : ¬ (sizeNo size = 0 ∧ (eaField am).mode = 1) := by
    rintro ⟨h1, h2⟩
    have h2 : (Exec.eaOf am).1 = 1 := h2
    refine hb ⟨?_, ?_⟩
    · cases am <;> first | rfl | (simp [Exec.eaOf] at h2)
    · cases size <;> first | rfl | (simp [sizeNo] at h1)
  rw [f.map]
  simp only [not_and] at hm
  by_cases hz : sizeNo size = 0
  · simp [lineOf, line5, only, hz, hm hz, hc]
  · simp [lineOf, line5, only, sizeNo_ne, hz, hc]

/-- The data 8 is encoded, and decoded, as 0. -/
theorem C39_subq {data : U8} (h : Asm.subq data size am = some ws) :
    Decodes ws .Subq fun _ => .DataSizeEffectiveAddress (if data = 8 then 0 else data) size am := by
  unfold Asm.subq at h
  rw [guard_iff, guard_iff, guard_iff] at h
  obtain ⟨hv, hb, hd, h⟩ := h
  cases h
  obtain ⟨hr, hc, hi⟩ := v_alterable hv
  have h7 : (if data = 8 then 0 else data : U8).toNat ≤ 7 := by
    split
    · decide
    · rename_i hn
      have h8 : data.toNat ≤ 8 := hd.2
      have : data.toNat ≠ 8 := fun hc => hn (BitVec.eq_of_toNat_eq hc)
      omega
  refine asm_dataSizeEa (b := 1) (by decide) h7 hr hi (by decide) (fun _ _ => rfl) fun op f => ?_
  have hm : ¬ (sizeNo size = 0 ∧ (eaField am).mode = 1) := by
    rintro ⟨h1, h2⟩
    have h2 : (Exec.eaOf am).1 = 1 := h2
    refine hb ⟨?_, ?_⟩
    · cases am <;> first | rfl | (simp [Exec.eaOf] at h2)
    · cases size <;> first | rfl | (simp [sizeNo] at h1)
  rw [f.map]
  simp only [not_and] at hm
  by_cases hz : sizeNo size = 0
  · simp [lineOf, line5, only, hz, hm hz, hc]
  · simp [lineOf, line5, only, sizeNo_ne, hz, hc]

theorem C39_asm (h : Asm.asm dir am = some ws) : Decodes ws .Asm fun _ => .DirectionEffectiveAddress dir am := by
  unfold Asm.asm at h
  rw [guard_iff, guard_iff] at h
  obtain ⟨hd, hv, h⟩ := h
  cases h
  obtain ⟨hr, hc, hi, hm⟩ := v_memoryAlterable hv
  refine asm_dirEa (r := 0) (by decide) hd hr hi (by decide) (fun _ _ => rfl) fun op f => ?_
  rw [f.map]
  simp [lineOf, lineE, only, hc]

theorem C39_lsm (h : Asm.lsm dir am = some ws) : Decodes ws .Lsm fun _ => .DirectionEffectiveAddress dir am := by
  unfold Asm.lsm at h
  rw [guard_iff, guard_iff] at h
  obtain ⟨hd, hv, h⟩ := h
  cases h
  obtain ⟨hr, hc, hi, hm⟩ := v_memoryAlterable hv
  refine asm_dirEa (r := 1) (by decide) hd hr hi (by decide) (fun _ _ => rfl) fun op f => ?_
  rw [f.map]
  simp [lineOf, lineE, only, hc]

theorem C39_roxm (h : Asm.roxm dir am = some ws) : Decodes ws .Roxm fun _ => .DirectionEffectiveAddress dir am := by
  unfold Asm.roxm at h
  rw [guard_iff, guard_iff] at h
  obtain ⟨hd, hv, h⟩ := h
  cases h
  obtain ⟨hr, hc, hi, hm⟩ := v_memoryAlterable hv
  refine asm_dirEa (r := 2) (by decide) hd hr hi (by decide) (fun _ _ => rfl) fun op f => ?_
  rw [f.map]
  simp [lineOf, lineE, only, hc]

theorem C39_rom (h : Asm.rom dir am = some ws) : Decodes ws .Rom fun _ => .DirectionEffectiveAddress dir am := by
  unfold Asm.rom at h
  rw [guard_iff, guard_iff] at h
  obtain ⟨hd, hv, h⟩ := h
  cases h
  obtain ⟨hr, hc, hi, hm⟩ := v_memoryAlterable hv
  refine asm_dirEa (r := 3) (by decide) hd hr hi (by decide) (fun _ _ => rfl) fun op f => ?_
  rw [f.map]
  simp [lineOf, lineE, only, hc]

theorem C39_bchgDynamic (h : Asm.bchgDynamic reg am = some ws) : Decodes ws .Bchg fun _ => .EffectiveAddressCount am reg := by
  unfold Asm.bchgDynamic at h
  rw [guard_iff, guard_iff] at h
  obtain ⟨h7, hv, h⟩ := h
  cases h
  obtain ⟨hr, hc, hi⟩ := v_dataAlterable hv
  have := asm_dynamic (isa := .Bchg) (reg := reg) (t := 5) (by decide) (by decide) h7 hr (by decide) (fun _ _ => rfl) fun op f => by
    have hs := not_special' f
    rw [f.map]
    simp [lineOf, line0, only, hs, (class_any hc).2.2, hc]
  simp only [placed_alterable hi] at this
  exact this
theorem C39_bchgStatic {count : U8} (h : Asm.bchgStatic am count = some ws) : Decodes ws .Bchg fun _ => .EffectiveAddressCount am count := by
  unfold Asm.bchgStatic at h
  rw [guard_iff] at h
  obtain ⟨hv, h⟩ := h
  cases h
  obtain ⟨hr, hc, hi⟩ := v_dataAlterable hv
  have := asm_static (isa := .Bchg) (count := count) (Q := 33) (by decide) hr (by decide) (fun _ _ => rfl) (by decide) fun op f => by
    have hs := not_special f (fun h => by have := hi h; omega)
    rw [f.map]
    simp [lineOf, line0, only, hs, (class_any hc).2.2, hc]
  simp only [placed_alterable hi] at this
  exact this

theorem C39_bclrDynamic (h : Asm.bclrDynamic reg am = some ws) : Decodes ws .Bclr fun _ => .EffectiveAddressCount am reg := by
  unfold Asm.bclrDynamic at h
  rw [guard_iff, guard_iff] at h
  obtain ⟨h7, hv, h⟩ := h
  cases h
  obtain ⟨hr, hc, hi⟩ := v_dataAlterable hv
  have := asm_dynamic (isa := .Bclr) (reg := reg) (t := 6) (by decide) (by decide) h7 hr (by decide) (fun _ _ => rfl) fun op f => by
    have hs := not_special' f
    rw [f.map]
    simp [lineOf, line0, only, hs, (class_any hc).2.2, hc]
  simp only [placed_alterable hi] at this
  exact this
theorem C39_bclrStatic {count : U8} (h : Asm.bclrStatic am count = some ws) : Decodes ws .Bclr fun _ => .EffectiveAddressCount am count := by
  unfold Asm.bclrStatic at h
  rw [guard_iff] at h
  obtain ⟨hv, h⟩ := h
  cases h
  obtain ⟨hr, hc, hi⟩ := v_dataAlterable hv
  have := asm_static (isa := .Bclr) (count := count) (Q := 34) (by decide) hr (by decide) (fun _ _ => rfl) (by decide) fun op f => by
    have hs := not_special f (fun h => by have := hi h; omega)
    rw [f.map]
    simp [lineOf, line0, only, hs, (class_any hc).2.2, hc]
  simp only [placed_alterable hi] at this
  exact this

theorem C39_bsetDynamic (h : Asm.bsetDynamic reg am = some ws) : Decodes ws .Bset fun _ => .EffectiveAddressCount am reg := by
  unfold Asm.bsetDynamic at h
  rw [guard_iff, guard_iff] at h
  obtain ⟨h7, hv, h⟩ := h
  cases h
  obtain ⟨hr, hc, hi⟩ := v_dataAlterable hv
  have := asm_dynamic (isa := .Bset) (reg := reg) (t := 7) (by decide) (by decide) h7 hr (by decide) (fun _ _ => rfl) fun op f => by
    have hs := not_special' f
    rw [f.map]
    simp [lineOf, line0, only, hs, (class_any hc).2.2, hc]
  simp only [placed_alterable hi] at this
  exact this
theorem C39_bsetStatic {count : U8} (h : Asm.bsetStatic am count = some ws) : Decodes ws .Bset fun _ => .EffectiveAddressCount am count := by
  unfold Asm.bsetStatic at h
  rw [guard_iff] at h
  obtain ⟨hv, h⟩ := h
  cases h
  obtain ⟨hr, hc, hi⟩ := v_dataAlterable hv
  have := asm_static (isa := .Bset) (count := count) (Q := 35) (by decide) hr (by decide) (fun _ _ => rfl) (by decide) fun op f => by
    have hs := not_special f (fun h => by have := hi h; omega)
    rw [f.map]
    simp [lineOf, line0, only, hs, (class_any hc).2.2, hc]
  simp only [placed_alterable hi] at this
  exact this

theorem data_mode {e : EaField} (h : e.data = true) : e.mode ≠ 1 := by
  simp only [EaField.data, Bool.and_eq_true, bne_iff_ne] at h
  exact h.2

theorem C39_btstDynamic (h : Asm.btstDynamic reg am = some ws) : Decodes ws .Btst fun pc => .EffectiveAddressCount (placedAt (pc + 2) (held false am)) reg := by
  unfold Asm.btstDynamic at h
  rw [guard_iff, guard_iff] at h
  obtain ⟨h7, hv, h⟩ := h
  cases h
  obtain ⟨hr, hc⟩ := v_data hv
  refine asm_dynamic (t := 4) (by decide) (by decide) h7 hr (by decide) (fun _ _ => rfl) fun op f => ?_
  have hs := not_special' f
  rw [f.map]
  simp [lineOf, line0, only, hs, data_mode hc, hc]
/-- Missing: an immediate operand is accepted, see `C39_btstStatic_refuted`. -/
theorem C39_btstStatic_partial {count : U8} (hn : ∀ v, am ≠ .Immediate v) (h : Asm.btstStatic am count = some ws) :
    Decodes ws .Btst fun pc => .EffectiveAddressCount (placedAt (pc + 4) am) count := by
  unfold Asm.btstStatic at h
  rw [guard_iff] at h
  obtain ⟨hv, h⟩ := h
  cases h
  obtain ⟨hr, hc⟩ := v_data hv
  have h4 : (Exec.eaOf am).1 = 7 → (Exec.eaOf am).2 ≠ 4 := by
    cases am <;> first | (simp [Exec.eaOf]; done) | (exact absurd rfl (hn _))
  have := asm_static (isa := .Btst) (count := count) (Q := 32) (by decide) hr (by decide) (fun _ _ => rfl) (by decide) fun op f => by
    have hs := not_special f h4
    have h4 : (eaField am).mode = 7 → (eaField am).reg ≠ 4 := h4
    rw [f.map]
    simp [lineOf, line0, only, hs, data_mode hc, hc]
    exact h4
  have hh : held false am = am := by cases am <;> first | rfl | (exact absurd rfl (hn _))
  simp only [hh] at this
  exact this

theorem C39_chk (h : Asm.chk reg am = some ws) : Decodes ws .Chk fun pc => .RegisterEffectiveAddress reg (placedAt (pc + 2) (held false am)) := by
  unfold Asm.chk at h
  rw [guard_iff, guard_iff] at h
  obtain ⟨h7, hv, h⟩ := h
  cases h
  obtain ⟨hr, hc⟩ := v_data hv
  refine asm_regEa (L := 4) (t := 6) (by decide) (by decide) h7 hr (fun h => absurd h (by decide)) (by decide) (fun _ _ => rfl) fun op f => ?_
  rw [f.map]
  simp only [lineOf]; unfold line4; simp [only, hc]

theorem C39_divs (h : Asm.divs reg am = some ws) : Decodes ws .Divs fun pc => .RegisterEffectiveAddress reg (placedAt (pc + 2) (held false am)) := by
  unfold Asm.divs at h
  rw [guard_iff, guard_iff] at h
  obtain ⟨h7, hv, h⟩ := h
  cases h
  obtain ⟨hr, hc⟩ := v_data hv
  refine asm_regEa (L := 8) (t := 7) (by decide) (by decide) h7 hr (fun h => absurd h (by decide)) (by decide) (fun _ _ => rfl) fun op f => ?_
  rw [f.map]
  simp [lineOf, lineOr, only, hc]

theorem C39_divu (h : Asm.divu reg am = some ws) : Decodes ws .Divu fun pc => .RegisterEffectiveAddress reg (placedAt (pc + 2) (held false am)) := by
  unfold Asm.divu at h
  rw [guard_iff, guard_iff] at h
  obtain ⟨h7, hv, h⟩ := h
  cases h
  obtain ⟨hr, hc⟩ := v_data hv
  refine asm_regEa (L := 8) (t := 3) (by decide) (by decide) h7 hr (fun h => absurd h (by decide)) (by decide) (fun _ _ => rfl) fun op f => ?_
  rw [f.map]
  simp [lineOf, lineOr, only, hc]

theorem C39_muls (h : Asm.muls reg am = some ws) : Decodes ws .Muls fun pc => .RegisterEffectiveAddress reg (placedAt (pc + 2) (held false am)) := by
  unfold Asm.muls at h
  rw [guard_iff, guard_iff] at h
  obtain ⟨h7, hv, h⟩ := h
  cases h
  obtain ⟨hr, hc⟩ := v_data hv
  refine asm_regEa (L := 12) (t := 7) (by decide) (by decide) h7 hr (fun h => absurd h (by decide)) (by decide) (fun _ _ => rfl) fun op f => ?_
  rw [f.map]
  simp [lineOf, lineC, lineOr, only, hc]

theorem C39_mulu (h : Asm.mulu reg am = some ws) : Decodes ws .Mulu fun pc => .RegisterEffectiveAddress reg (placedAt (pc + 2) (held false am)) := by
  unfold Asm.mulu at h
  rw [guard_iff, guard_iff] at h
  obtain ⟨h7, hv, h⟩ := h
  cases h
  obtain ⟨hr, hc⟩ := v_data hv
  refine asm_regEa (L := 12) (t := 3) (by decide) (by decide) h7 hr (fun h => absurd h (by decide)) (by decide) (fun _ _ => rfl) fun op f => ?_
  rw [f.map]
  simp [lineOf, lineC, lineOr, only, hc]

theorem held_control (h : (Exec.eaOf am).1 = 7 → (Exec.eaOf am).2 ≤ 3) (long : Bool) : held long am = am := by
  cases am <;> first | rfl | (simp [Exec.eaOf] at h)

theorem C39_lea (h : Asm.lea reg am = some ws) : Decodes ws .Lea fun pc => .RegisterEffectiveAddress reg (placedAt (pc + 2) am) := by
  unfold Asm.lea at h
  rw [guard_iff, guard_iff] at h
  obtain ⟨h7, hv, h⟩ := h
  cases h
  obtain ⟨hr, hc, hi, hm⟩ := v_control hv
  have := asm_regEa (isa := .Lea) (reg := reg) (L := 4) (t := 7) (by decide) (by decide) h7 hr (fun _ => hi) (by decide) (fun _ _ => rfl) fun op f => by
    rw [f.map]
    simp only [lineOf]; unfold line4; simp [only, hc]
  simp only [held_control hi] at this
  exact this

theorem C39_clr (h : Asm.clr size am = some ws) : Decodes ws .Clr fun _ => .SizeEffectiveAddress size am := by
  unfold Asm.clr at h
  rw [guard_iff] at h
  obtain ⟨hv, h⟩ := h
  cases h
  obtain ⟨hr, hc, hi⟩ := v_dataAlterable hv
  have := asm_sizeEa (isa := .Clr) (size := size) (H := 66) (by decide) hr (by decide) (fun _ _ => rfl) fun op f => by
    have hs := not_special f (fun h => by have := hi h; omega)
    rw [f.map]
    simp only [lineOf]; unfold line4; simp [only, sizeNo_ne, hs, hc]
  simp only [placed_alterable hi] at this
  exact this

theorem C39_neg (h : Asm.neg size am = some ws) : Decodes ws .Neg fun _ => .SizeEffectiveAddress size am := by
  unfold Asm.neg at h
  rw [guard_iff] at h
  obtain ⟨hv, h⟩ := h
  cases h
  obtain ⟨hr, hc, hi⟩ := v_dataAlterable hv
  have := asm_sizeEa (isa := .Neg) (size := size) (H := 68) (by decide) hr (by decide) (fun _ _ => rfl) fun op f => by
    have hs := not_special f (fun h => by have := hi h; omega)
    rw [f.map]
    simp only [lineOf]; unfold line4; simp [only, sizeNo_ne, hs, hc]
  simp only [placed_alterable hi] at this
  exact this

theorem C39_negx (h : Asm.negx size am = some ws) : Decodes ws .Negx fun _ => .SizeEffectiveAddress size am := by
  unfold Asm.negx at h
  rw [guard_iff] at h
  obtain ⟨hv, h⟩ := h
  cases h
  obtain ⟨hr, hc, hi⟩ := v_dataAlterable hv
  have := asm_sizeEa (isa := .Negx) (size := size) (H := 64) (by decide) hr (by decide) (fun _ _ => rfl) fun op f => by
    have hs := not_special f (fun h => by have := hi h; omega)
    rw [f.map]
    simp only [lineOf]; unfold line4; simp [only, sizeNo_ne, hs, hc]
  simp only [placed_alterable hi] at this
  exact this

theorem C39_not (h : Asm.not size am = some ws) : Decodes ws .Not fun _ => .SizeEffectiveAddress size am := by
  unfold Asm.not at h
  rw [guard_iff] at h
  obtain ⟨hv, h⟩ := h
  cases h
  obtain ⟨hr, hc, hi⟩ := v_dataAlterable hv
  have := asm_sizeEa (isa := .Not) (size := size) (H := 70) (by decide) hr (by decide) (fun _ _ => rfl) fun op f => by
    have hs := not_special f (fun h => by have := hi h; omega)
    rw [f.map]
    simp only [lineOf]; unfold line4; simp [only, sizeNo_ne, hs, hc]
  simp only [placed_alterable hi] at this
  exact this

theorem C39_tst (h : Asm.tst size am = some ws) : Decodes ws .Tst fun _ => .SizeEffectiveAddress size am := by
  unfold Asm.tst at h
  rw [guard_iff] at h
  obtain ⟨hv, h⟩ := h
  cases h
  obtain ⟨hr, hc, hi⟩ := v_dataAlterable hv
  have := asm_sizeEa (isa := .Tst) (size := size) (H := 74) (by decide) hr (by decide) (fun _ _ => rfl) fun op f => by
    have hs := not_special f (fun h => by have := hi h; omega)
    rw [f.map]
    simp only [lineOf]; unfold line4; simp [only, sizeNo_ne, hs, hc]
  simp only [placed_alterable hi] at this
  exact this

theorem C39_jmp (h : Asm.jmp am = some ws) : Decodes ws .Jmp fun pc => .EffectiveAddress (placedAt (pc + 2) am) := by
  unfold Asm.jmp at h
  rw [guard_iff] at h
  obtain ⟨hv, h⟩ := h
  cases h
  obtain ⟨hr, hc, hi, hm⟩ := v_control hv
  have hm0 : (eaField am).mode ≠ 0 := by show (Exec.eaOf am).1 ≠ 0; omega
  have := asm_ea (isa := .Jmp) (Q := 315) (by decide) hr (by decide) (fun _ _ => rfl) (.inl hi) fun op f => by
    rw [f.map]
    simp only [lineOf]; unfold line4; simp [only, hm0, hc]
  simp only [held_control hi] at this
  exact this

theorem C39_jsr (h : Asm.jsr am = some ws) : Decodes ws .Jsr fun pc => .EffectiveAddress (placedAt (pc + 2) am) := by
  unfold Asm.jsr at h
  rw [guard_iff] at h
  obtain ⟨hv, h⟩ := h
  cases h
  obtain ⟨hr, hc, hi, hm⟩ := v_control hv
  have hm0 : (eaField am).mode ≠ 0 := by show (Exec.eaOf am).1 ≠ 0; omega
  have := asm_ea (isa := .Jsr) (Q := 314) (by decide) hr (by decide) (fun _ _ => rfl) (.inl hi) fun op f => by
    rw [f.map]
    simp only [lineOf]; unfold line4; simp [only, hm0, hc]
  simp only [held_control hi] at this
  exact this

theorem C39_pea (h : Asm.pea am = some ws) : Decodes ws .Pea fun pc => .EffectiveAddress (placedAt (pc + 2) am) := by
  unfold Asm.pea at h
  rw [guard_iff] at h
  obtain ⟨hv, h⟩ := h
  cases h
  obtain ⟨hr, hc, hi, hm⟩ := v_control hv
  have hm0 : (eaField am).mode ≠ 0 := by show (Exec.eaOf am).1 ≠ 0; omega
  have := asm_ea (isa := .Pea) (Q := 289) (by decide) hr (by decide) (fun _ _ => rfl) (.inl hi) fun op f => by
    rw [f.map]
    simp only [lineOf]; unfold line4; simp [only, hm0, hc]
  simp only [held_control hi] at this
  exact this

theorem C39_moveccr (h : Asm.moveccr am = some ws) : Decodes ws .Moveccr fun pc => .EffectiveAddress (placedAt (pc + 2) (held false am)) := by
  unfold Asm.moveccr at h
  rw [guard_iff] at h
  obtain ⟨hv, h⟩ := h
  cases h
  obtain ⟨hr, hc⟩ := v_data hv
  refine asm_ea (isa := .Moveccr) (Q := 275) (by decide) hr (by decide) (fun _ _ => rfl) (.inr (by decide)) fun op f => ?_
  rw [f.map]
  simp only [lineOf]; unfold line4; simp [only, hc]

theorem C39_movesr (h : Asm.movesr am = some ws) : Decodes ws .Movesr fun pc => .EffectiveAddress (placedAt (pc + 2) (held false am)) := by
  unfold Asm.movesr at h
  rw [guard_iff] at h
  obtain ⟨hv, h⟩ := h
  cases h
  obtain ⟨hr, hc⟩ := v_data hv
  refine asm_ea (isa := .Movesr) (Q := 283) (by decide) hr (by decide) (fun _ _ => rfl) (.inr (by decide)) fun op f => ?_
  rw [f.map]
  simp only [lineOf]; unfold line4; simp [only, hc]

theorem C39_movefsr (h : Asm.movefsr am = some ws) : Decodes ws .Movefsr fun _ => .EffectiveAddress am := by
  unfold Asm.movefsr at h
  rw [guard_iff] at h
  obtain ⟨hv, h⟩ := h
  cases h
  obtain ⟨hr, hc, hi⟩ := v_dataAlterable hv
  have := asm_ea (isa := .Movefsr) (Q := 259) (by decide) hr (by decide) (fun _ _ => rfl) (.inr (by decide)) fun op f => by
    have hs := not_special f (fun h => by have := hi h; omega)
    rw [f.map]
    simp only [lineOf]; unfold line4; simp [only, hs, hc]
  simp only [placed_alterable hi] at this
  exact this

theorem C39_nbcd (h : Asm.nbcd am = some ws) : Decodes ws .Nbcd fun _ => .EffectiveAddress am := by
  unfold Asm.nbcd at h
  rw [guard_iff] at h
  obtain ⟨hv, h⟩ := h
  cases h
  obtain ⟨hr, hc, hi⟩ := v_dataAlterable hv
  have := asm_ea (isa := .Nbcd) (Q := 288) (by decide) hr (by decide) (fun _ _ => rfl) (.inr (by decide)) fun op f => by
    have hs := not_special f (fun h => by have := hi h; omega)
    rw [f.map]
    simp only [lineOf]; unfold line4; simp [only, hs, hc]
  simp only [placed_alterable hi] at this
  exact this

theorem C39_tas (h : Asm.tas am = some ws) : Decodes ws .Tas fun _ => .EffectiveAddress am := by
  unfold Asm.tas at h
  rw [guard_iff] at h
  obtain ⟨hv, h⟩ := h
  cases h
  obtain ⟨hr, hc, hi⟩ := v_dataAlterable hv
  have := asm_ea (isa := .Tas) (Q := 299) (by decide) hr (by decide) (fun _ _ => rfl) (.inr (by decide)) fun op f => by
    have hs := not_special f (fun h => by have := hi h; omega)
    rw [f.map]
    simp only [lineOf]; unfold line4; simp [only, hs, hc]
  simp only [placed_alterable hi] at this
  exact this

end M68k.Props
