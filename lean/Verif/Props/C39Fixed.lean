import Verif.Lemmas.AsmFixed
import Verif.Props.DemoRam
/-
C39, continued: the instructions without an effective address, Scc, MOVE and MOVEM, and the assembler calls whose words do not decode to what was
asked.
-/
set_option linter.unusedSectionVars false
namespace M68k.Props
open Spec Exec
variable {ws : List U16} {reg dst src : U8} {size : Size} {am : AddressingMode} {dir mode : Direction} {imm w disp : U16} {op : U16} {cond : Asm.Condition}

theorem C39_abcd (h : Asm.abcd dst mode src = some ws) : Decodes ws .Abcd fun _ => .RegisterSizeModeRegister dst .Byte mode src := by
  unfold Asm.abcd at h
  rw [guard_iff, guard_iff, guard_iff] at h
  obtain ⟨h1, hm, h2, h⟩ := h
  cases h
  obtain ⟨k, rfl⟩ := fin_of_le h1
  obtain ⟨j, rfl⟩ := fin_of_le h2
  refine asm_rsmr (size := .Byte) ?_ (by decide) hm (fun _ _ => rfl)
  rcases hm with rfl | rfl <;> revert k j <;> decide +kernel

theorem C39_sbcd (h : Asm.sbcd dst mode src = some ws) : Decodes ws .Sbcd fun _ => .RegisterSizeModeRegister dst .Byte mode src := by
  unfold Asm.sbcd at h
  rw [guard_iff, guard_iff, guard_iff] at h
  obtain ⟨h1, hm, h2, h⟩ := h
  cases h
  obtain ⟨k, rfl⟩ := fin_of_le h1
  obtain ⟨j, rfl⟩ := fin_of_le h2
  refine asm_rsmr (size := .Byte) ?_ (by decide) hm (fun _ _ => rfl)
  rcases hm with rfl | rfl <;> revert k j <;> decide +kernel

theorem C39_addx (h : Asm.addx dst size mode src = some ws) : Decodes ws .Addx fun _ => .RegisterSizeModeRegister dst size mode src := by
  unfold Asm.addx at h
  rw [guard_iff, guard_iff, guard_iff] at h
  obtain ⟨h1, hm, h2, h⟩ := h
  cases h
  obtain ⟨k, rfl⟩ := fin_of_le h1
  obtain ⟨j, rfl⟩ := fin_of_le h2
  refine asm_rsmr ?_ (by decide) hm (fun _ _ => rfl)
  rcases hm with rfl | rfl <;> cases size <;> revert k j <;> decide +kernel

theorem C39_subx (h : Asm.subx dst size mode src = some ws) : Decodes ws .Subx fun _ => .RegisterSizeModeRegister dst size mode src := by
  unfold Asm.subx at h
  rw [guard_iff, guard_iff, guard_iff] at h
  obtain ⟨h1, hm, h2, h⟩ := h
  cases h
  obtain ⟨k, rfl⟩ := fin_of_le h1
  obtain ⟨j, rfl⟩ := fin_of_le h2
  refine asm_rsmr ?_ (by decide) hm (fun _ _ => rfl)
  rcases hm with rfl | rfl <;> cases size <;> revert k j <;> decide +kernel

theorem C39_cmpm (h : Asm.cmpm dst size src = some ws) : Decodes ws .Cmpm fun _ => .RegisterSizeRegister dst size src := by
  unfold Asm.cmpm at h
  rw [guard_iff, guard_iff] at h
  obtain ⟨h1, h2, h⟩ := h
  cases h
  obtain ⟨k, rfl⟩ := fin_of_le h1
  obtain ⟨j, rfl⟩ := fin_of_le h2
  refine asm_rsr ?_ (by decide) (fun _ _ => rfl)
  cases size <;> revert k j <;> decide +kernel

theorem C39_asr {count r : U16} {byReg : Bool} (h : Asm.asr count dir size byReg r = some ws) :
    Decodes ws .Asr fun _ => .RotationDirectionSizeModeRegister (toU8 count) dir size byReg (toU8 r) := by
  unfold Asm.asr at h
  rw [guard_iff, guard_iff, guard_iff] at h
  obtain ⟨h1, hd, h2, h⟩ := h
  cases h
  obtain ⟨k, rfl⟩ := fin_of_le16 h1
  obtain ⟨j, rfl⟩ := fin_of_le16 h2
  refine asm_rot ?_ (by decide) hd (fun _ _ => rfl)
  rcases hd with rfl | rfl <;> cases size <;> cases byReg <;> revert k j <;> decide +kernel

theorem C39_lsr {count r : U16} {byReg : Bool} (h : Asm.lsr count dir size byReg r = some ws) :
    Decodes ws .Lsr fun _ => .RotationDirectionSizeModeRegister (toU8 count) dir size byReg (toU8 r) := by
  unfold Asm.lsr at h
  rw [guard_iff, guard_iff, guard_iff] at h
  obtain ⟨h1, hd, h2, h⟩ := h
  cases h
  obtain ⟨k, rfl⟩ := fin_of_le16 h1
  obtain ⟨j, rfl⟩ := fin_of_le16 h2
  refine asm_rot ?_ (by decide) hd (fun _ _ => rfl)
  rcases hd with rfl | rfl <;> cases size <;> cases byReg <;> revert k j <;> decide +kernel

theorem C39_roxr {count r : U16} {byReg : Bool} (h : Asm.roxr count dir size byReg r = some ws) :
    Decodes ws .Roxr fun _ => .RotationDirectionSizeModeRegister (toU8 count) dir size byReg (toU8 r) := by
  unfold Asm.roxr at h
  rw [guard_iff, guard_iff, guard_iff] at h
  obtain ⟨h1, hd, h2, h⟩ := h
  cases h
  obtain ⟨k, rfl⟩ := fin_of_le16 h1
  obtain ⟨j, rfl⟩ := fin_of_le16 h2
  refine asm_rot ?_ (by decide) hd (fun _ _ => rfl)
  rcases hd with rfl | rfl <;> cases size <;> cases byReg <;> revert k j <;> decide +kernel

theorem C39_ror {count r : U16} {byReg : Bool} (h : Asm.ror count dir size byReg r = some ws) :
    Decodes ws .Ror fun _ => .RotationDirectionSizeModeRegister (toU8 count) dir size byReg (toU8 r) := by
  unfold Asm.ror at h
  rw [guard_iff, guard_iff, guard_iff] at h
  obtain ⟨h1, hd, h2, h⟩ := h
  cases h
  obtain ⟨k, rfl⟩ := fin_of_le16 h1
  obtain ⟨j, rfl⟩ := fin_of_le16 h2
  refine asm_rot ?_ (by decide) hd (fun _ _ => rfl)
  rcases hd with rfl | rfl <;> cases size <;> cases byReg <;> revert k j <;> decide +kernel

theorem C39_illegal (h : Asm.illegal = some ws) : Decodes ws .Illegal fun _ => .NoOperands := by
  cases h
  exact asm_none (by decide) (by decide) (fun _ _ => rfl)

theorem C39_nop (h : Asm.nop = some ws) : Decodes ws .Nop fun _ => .NoOperands := by
  cases h
  exact asm_none (by decide) (by decide) (fun _ _ => rfl)

theorem C39_reset (h : Asm.reset = some ws) : Decodes ws .Reset fun _ => .NoOperands := by
  cases h
  exact asm_none (by decide) (by decide) (fun _ _ => rfl)

theorem C39_rte (h : Asm.rte = some ws) : Decodes ws .Rte fun _ => .NoOperands := by
  cases h
  exact asm_none (by decide) (by decide) (fun _ _ => rfl)

theorem C39_rtr (h : Asm.rtr = some ws) : Decodes ws .Rtr fun _ => .NoOperands := by
  cases h
  exact asm_none (by decide) (by decide) (fun _ _ => rfl)

theorem C39_rts (h : Asm.rts = some ws) : Decodes ws .Rts fun _ => .NoOperands := by
  cases h
  exact asm_none (by decide) (by decide) (fun _ _ => rfl)

theorem C39_trapv (h : Asm.trapv = some ws) : Decodes ws .Trapv fun _ => .NoOperands := by
  cases h
  exact asm_none (by decide) (by decide) (fun _ _ => rfl)

theorem C39_andisr (h : Asm.andisr w = some ws) : Decodes ws .Andisr fun _ => .Immediate w := by
  cases h
  exact asm_imm (by decide) (by decide) (fun _ _ => rfl)

theorem C39_eorisr (h : Asm.eorisr w = some ws) : Decodes ws .Eorisr fun _ => .Immediate w := by
  cases h
  exact asm_imm (by decide) (by decide) (fun _ _ => rfl)

theorem C39_orisr (h : Asm.orisr w = some ws) : Decodes ws .Orisr fun _ => .Immediate w := by
  cases h
  exact asm_imm (by decide) (by decide) (fun _ _ => rfl)

theorem C39_stop (h : Asm.stop w = some ws) : Decodes ws .Stop fun _ => .Immediate w := by
  cases h
  exact asm_imm (by decide) (by decide) (fun _ _ => rfl)

/-- Only the low byte of the operand is kept. -/
theorem C39_andiccr (h : Asm.andiccr w = some ws) : Decodes ws .Andiccr fun _ => .Immediate (w &&& 0xFF) := by
  cases h
  exact asm_imm (by decide) (by decide) (fun _ _ => rfl)

/-- Only the low byte of the operand is kept. -/
theorem C39_eoriccr (h : Asm.eoriccr w = some ws) : Decodes ws .Eoriccr fun _ => .Immediate (w &&& 0xFF) := by
  cases h
  exact asm_imm (by decide) (by decide) (fun _ _ => rfl)

/-- Only the low byte of the operand is kept. -/
theorem C39_oriccr (h : Asm.oriccr w = some ws) : Decodes ws .Oriccr fun _ => .Immediate (w &&& 0xFF) := by
  cases h
  exact asm_imm (by decide) (by decide) (fun _ _ => rfl)

theorem C39_swap (h : Asm.swap reg = some ws) : Decodes ws .Swap fun _ => .Register reg := by
  unfold Asm.swap at h
  rw [guard_iff] at h
  obtain ⟨h1, h⟩ := h
  cases h
  obtain ⟨k, rfl⟩ := fin_of_le h1
  obtain ⟨t1, t2⟩ : let op := Asm.register (if Isa.Swap = .Swap then 0b0100100001000 else 0b0100111001011) (BitVec.ofNat 8 k.val); instr op = .Swap ∧ toU8 (bits op 0 2) = BitVec.ofNat 8 k.val := by
    revert k; decide +kernel
  refine asm_reg t1 (by decide) fun M _ it => ?_
  show (Decode.newRegister _ : Dec M Operands) it = _
  unfold Decode.newRegister Decode.register
  simp only [dec_bind, dec_pure]
  exact congrArg (fun x => some (Operands.Register x, it)) t2

theorem C39_unlk (h : Asm.unlk reg = some ws) : Decodes ws .Unlk fun _ => .Register reg := by
  unfold Asm.unlk at h
  rw [guard_iff] at h
  obtain ⟨h1, h⟩ := h
  cases h
  obtain ⟨k, rfl⟩ := fin_of_le h1
  obtain ⟨t1, t2⟩ : let op := Asm.register (if Isa.Unlk = .Swap then 0b0100100001000 else 0b0100111001011) (BitVec.ofNat 8 k.val); instr op = .Unlk ∧ toU8 (bits op 0 2) = BitVec.ofNat 8 k.val := by
    revert k; decide +kernel
  refine asm_reg t1 (by decide) fun M _ it => ?_
  show (Decode.newRegister _ : Dec M Operands) it = _
  unfold Decode.newRegister Decode.register
  simp only [dec_bind, dec_pure]
  exact congrArg (fun x => some (Operands.Register x, it)) t2

theorem C39_ext {toLong : Bool} (h : Asm.ext toLong reg = some ws) : Decodes ws .Ext fun _ => .OpmodeRegister (if toLong then 3 else 2) reg := by
  unfold Asm.ext at h
  rw [guard_iff] at h
  obtain ⟨h1, h⟩ := h
  cases h
  obtain ⟨k, rfl⟩ := fin_of_le h1
  obtain ⟨t1, t2, t3⟩ : let op : U16 := 0b010010001 <<< 7 ||| boolTo 16 toLong <<< 6 ||| (toU16 (BitVec.ofNat 8 k.val) &&& 7); instr op = .Ext ∧
      toU8 (bits op 6 8) = (if toLong then 3 else 2) ∧ toU8 (bits op 0 2) = BitVec.ofNat 8 k.val := by
    cases toLong <;> revert k <;> decide +kernel
  refine asm_reg t1 (by decide) fun M _ it => ?_
  show (Decode.newOpmodeRegister _ : Dec M Operands) it = _
  unfold Decode.newOpmodeRegister Decode.opmodeRegister
  simp only [dec_bind, dec_pure, t2, t3]

theorem C39_exg {rx ry : U8} (h : Asm.exg rx dir ry = some ws) : Decodes ws .Exg fun _ => .RegisterOpmodeRegister rx dir ry := by
  unfold Asm.exg at h
  rw [guard_iff, guard_iff, guard_iff] at h
  obtain ⟨hd, h1, h2, h⟩ := h
  cases h
  obtain ⟨k, rfl⟩ := fin_of_le h1
  obtain ⟨j, rfl⟩ := fin_of_le h2
  obtain ⟨t1, t2, t3, t4⟩ : let op : U16 := 0b11000001 <<< 8 ||| toU16 (BitVec.ofNat 8 k.val) <<< 9 |||
      (if dir = .ExchangeData then 0b01000 else if dir = .ExchangeAddress then 0b01001 else 0b10001 : U16) <<< 3 ||| (toU16 (BitVec.ofNat 8 j.val) &&& 7)
      instr op = .Exg ∧ toU8 (bits op 9 11) = BitVec.ofNat 8 k.val ∧
      toU8 (bits op 3 7) = (if dir = .ExchangeData then 0b01000 else if dir = .ExchangeAddress then 0b01001 else 0b10001) ∧ toU8 (bits op 0 2) = BitVec.ofNat 8 j.val := by
    rcases hd with rfl | rfl | rfl <;> revert k j <;> decide +kernel
  refine asm_reg t1 (by decide) fun M _ it => ?_
  show (Decode.newRegisterOpmodeRegister _ : Dec M Operands) it = _
  unfold Decode.newRegisterOpmodeRegister Decode.registerOpmodeRegister
  simp only [dec_bind, dec_pure, t2, t3, t4]
  rcases hd with rfl | rfl | rfl <;> rfl

theorem C39_moveusp (h : Asm.moveusp dir reg = some ws) : Decodes ws .Moveusp fun _ => .DirectionRegister dir reg := by
  unfold Asm.moveusp at h
  rw [guard_iff, guard_iff] at h
  obtain ⟨hd, h1, h⟩ := h
  cases h
  obtain ⟨k, rfl⟩ := fin_of_le h1
  obtain ⟨t1, t2, t3⟩ : let op : U16 := 0b010011100110 <<< 4 ||| (if dir = .UspToRegister then 1 else 0 : U16) <<< 3 ||| (toU16 (BitVec.ofNat 8 k.val) &&& 7)
      instr op = .Moveusp ∧ bit op 3 = decide (dir = .UspToRegister) ∧ toU8 (bits op 0 2) = BitVec.ofNat 8 k.val := by
    rcases hd with rfl | rfl <;> revert k <;> decide +kernel
  refine asm_reg t1 (by decide) fun M _ it => ?_
  show (Decode.newDirectionRegister _ : Dec M Operands) it = _
  unfold Decode.newDirectionRegister Decode.directionRegister
  simp only [dec_bind, dec_pure, t2, t3]
  rcases hd with rfl | rfl <;> rfl

theorem C39_trap {v : U8} (h : Asm.trap v = some ws) : Decodes ws .Trap fun _ => .Vector v := by
  unfold Asm.trap at h
  rw [guard_iff] at h
  obtain ⟨h1, h⟩ := h
  cases h
  have h1 : v.toNat ≤ 15 := h1
  obtain ⟨k, rfl⟩ : ∃ k : Fin 16, v = BitVec.ofNat 8 k.val := ⟨⟨v.toNat, by omega⟩, by simp⟩
  obtain ⟨t1, t2⟩ : let op : U16 := 0b010011100100 <<< 4 ||| toU16 (BitVec.ofNat 8 k.val); instr op = .Trap ∧ toU8 (bits op 0 3) = BitVec.ofNat 8 k.val := by
    revert k; decide +kernel
  refine asm_reg t1 (by decide) fun M _ it => ?_
  show (Decode.newVector _ : Dec M Operands) it = _
  unfold Decode.newVector Decode.vector
  simp only [dec_bind, dec_pure, t2]

theorem C39_moveq {data : U8} (h : Asm.moveq reg data = some ws) : Decodes ws .Moveq fun _ => .RegisterData reg data := by
  unfold Asm.moveq at h
  rw [guard_iff] at h
  obtain ⟨h1, h⟩ := h
  cases h
  obtain ⟨k, rfl⟩ := fin_of_le h1
  obtain ⟨d, rfl⟩ : ∃ d : Fin 256, data = BitVec.ofNat 8 d.val := ⟨⟨data.toNat, data.isLt⟩, by simp⟩
  obtain ⟨t1, t2, t3⟩ : let op : U16 := 0b0111 <<< 12 ||| toU16 (BitVec.ofNat 8 k.val) <<< 9 ||| toU16 (BitVec.ofNat 8 d.val); instr op = .Moveq ∧
      toU8 (bits op 9 11) = BitVec.ofNat 8 k.val ∧ toU8 op = BitVec.ofNat 8 d.val := by
    revert k d; decide +kernel
  refine asm_reg t1 (by decide) fun M _ it => ?_
  show (Decode.newRegisterData _ : Dec M Operands) it = _
  unfold Decode.newRegisterData Decode.registerData
  simp only [dec_bind, dec_pure, t2, t3]

theorem C39_link (h : Asm.link reg disp = some ws) : Decodes ws .Link fun _ => .RegisterDisplacement reg disp := by
  unfold Asm.link at h
  rw [guard_iff] at h
  obtain ⟨h1, h⟩ := h
  cases h
  obtain ⟨k, rfl⟩ := fin_of_le h1
  obtain ⟨t1, t2⟩ : let op : U16 := 0b0100111001010 <<< 3 ||| (toU16 (BitVec.ofNat 8 k.val) &&& 7); instr op = .Link ∧ toU8 (bits op 0 2) = BitVec.ofNat 8 k.val := by
    revert k; decide +kernel
  refine asm_word t1 (by decide) fun M _ it it' hn => ?_
  show (Decode.newRegisterDisplacement _ : Dec M Operands) it = _
  unfold Decode.newRegisterDisplacement Decode.registerDisplacement
  simp only [dec_bind, dec_pure, hn, t2]

theorem C39_dbcc (h : Asm.dbcc cond reg disp = some ws) : Decodes ws .Dbcc fun _ => .ConditionRegisterDisplacement (BitVec.ofNat 8 cond.ctorIdx) reg disp := by
  unfold Asm.dbcc at h
  rw [guard_iff] at h
  obtain ⟨h1, h⟩ := h
  cases h
  obtain ⟨k, rfl⟩ := fin_of_le h1
  obtain ⟨t1, t2, t3⟩ : let op : U16 := 0b0101 <<< 12 ||| cond.toU16 <<< 8 ||| 0b11001 <<< 3 ||| (M68k.toU16 (BitVec.ofNat 8 k.val) &&& 7); instr op = .Dbcc ∧
      toU8 (bits op 8 11) = BitVec.ofNat 8 cond.ctorIdx ∧ toU8 (bits op 0 2) = BitVec.ofNat 8 k.val := by
    cases cond <;> revert k <;> decide +kernel
  refine asm_word t1 (by decide) fun M _ it it' hn => ?_
  show (Decode.newConditionRegisterDisplacement _ : Dec M Operands) it = _
  unfold Decode.newConditionRegisterDisplacement Decode.conditionRegisterDisplacement
  simp only [dec_bind, dec_pure, hn, t2, t3]

theorem C39_movep {dataReg addrReg : U8} (h : Asm.movep dataReg dir size addrReg disp = some ws) :
    Decodes ws .Movep fun _ => .RegisterDirectionSizeRegisterDisplacement dataReg dir size addrReg disp := by
  unfold Asm.movep at h
  rw [guard_iff, guard_iff, guard_iff, guard_iff] at h
  obtain ⟨h1, hd, hb, h2, h⟩ := h
  cases h
  obtain ⟨k, rfl⟩ := fin_of_le h1
  obtain ⟨j, rfl⟩ := fin_of_le h2
  obtain ⟨op, hop⟩ : ∃ op : U16, op = (let opcode := (toU16 (BitVec.ofNat 8 k.val) &&& 7) <<< 9 ||| 0b100001 <<< 3 ||| (toU16 (BitVec.ofNat 8 j.val) &&& 7)
    let opcode := if dir = .RegisterToMemory then opcode ||| 0x0080 else opcode
    if size.isLong then opcode ||| 0x0040 else opcode : U16) := ⟨_, rfl⟩
  obtain ⟨t1, t2, t3, t4, t5⟩ : instr op = .Movep ∧ toU8 (bits op 9 11) = BitVec.ofNat 8 k.val ∧ bit op 7 = decide (dir = .RegisterToMemory) ∧ bit op 6 = size.isLong ∧
      toU8 (bits op 0 2) = BitVec.ofNat 8 j.val := by
    subst hop
    rcases hd with rfl | rfl <;> cases size <;> first | exact absurd rfl hb | (revert k j; decide +kernel)
  have hs : (if size.isLong then Size.Long else Size.Word) = size := by cases size <;> first | exact absurd rfl hb | rfl
  dsimp only at hop
  rw [← hop]
  refine asm_word t1 (by decide) fun M _ it it' hn => ?_
  show (Decode.newRegisterDirectionSizeRegisterDisplacement _ : Dec M Operands) it = _
  unfold Decode.newRegisterDirectionSizeRegisterDisplacement Decode.registerDirectionSizeRegisterDisplacement
  simp only [dec_bind, dec_pure, hn, t2, t3, t4, t5, hs]
  rcases hd with rfl | rfl <;> rfl

/-! ### Branches -/

theorem short_disp (h : ¬ (disp.slt (-128) || (127 : U16).slt disp || disp = 0) = true) : (toU8 disp).signExtend 16 = disp ∧ (toU8 disp).signExtend 16 ≠ (0 : U16) := by
  simp only [Bool.or_eq_true, decide_eq_true_eq, not_or, BitVec.slt_iff_toInt_lt] at h
  obtain ⟨⟨h1, h2⟩, h3⟩ := h
  have e : (toU8 disp).signExtend 16 = disp := by
    apply BitVec.eq_of_toInt_eq
    rw [BitVec.toInt_signExtend_of_le (by omega)]
    have h1 : ¬ disp.toInt < -128 := h1
    have h2 : ¬ (127 : Int) < disp.toInt := h2
    have hd : disp.toInt = if 2 * disp.toNat < 2 ^ 16 then (disp.toNat : Int) else disp.toNat - 2 ^ 16 := BitVec.toInt_eq_toNat_cond disp
    rw [BitVec.toInt_eq_toNat_cond (toU8 disp)]
    unfold toU8
    rw [BitVec.toNat_setWidth]
    have := disp.isLt
    rw [hd] at h1 h2 ⊢
    split at h1 <;> split at h2 <;> split <;> omega
  exact ⟨e, by rw [e]; exact h3⟩

theorem branch_table (c : Fin 16) (b : Fin 256) : let op : U16 := 0b0110 <<< 12 ||| BitVec.ofNat 16 c.val <<< 8 ||| toU16 (BitVec.ofNat 8 b.val)
    instr op = (if c.val = 0 then .Bra else if c.val = 1 then .Bsr else .Bcc) ∧ toU8 op = BitVec.ofNat 8 b.val ∧ toU8 (bits op 8 11) = BitVec.ofNat 8 c.val := by
  revert c b; decide +kernel

theorem branch_word (c : Fin 16) : let op : U16 := 0b0110 <<< 12 ||| BitVec.ofNat 16 c.val <<< 8
    instr op = (if c.val = 0 then .Bra else if c.val = 1 then .Bsr else .Bcc) ∧ toU8 op = 0 ∧ toU8 (bits op 8 11) = BitVec.ofNat 8 c.val := by
  revert c; decide +kernel

/-- The words of a branch: the displacement is in the opcode if it fits in a signed byte and is not zero. -/
theorem branch_decodes {isa : Isa} {ops : U16 → Operands} {c : Asm.Condition} (hu : isa ≠ .Unknown) (hc : (if (ccNo c).val = 0 then Isa.Bra else if (ccNo c).val = 1 then .Bsr else .Bcc) = isa)
    (hk : ∀ (M : Type) [MemoryAccess M] (op : U16) (it : Iter M), toU8 (bits op 8 11) = BitVec.ofNat 8 (ccNo c).val →
      isaEntryDecode isa op it = (do let d ← (if (toU8 op).signExtend 16 = (0 : U16) then nextWord else pure ((toU8 op).signExtend 16)); return ops d : Dec M Operands) it) :
    Decodes (Asm.conditionDisplacement c disp) isa fun _ => ops disp := by
  have hn : c.toU16 = BitVec.ofNat 16 (ccNo c).val := rfl
  unfold Asm.conditionDisplacement
  dsimp only
  by_cases hs : (disp.slt (-128) || (127 : U16).slt disp || disp = 0) = true
  · rw [if_pos hs, hn]
    obtain ⟨t1, t2, t3⟩ := branch_word (ccNo c)
    refine asm_word (by rw [← hc]; exact t1) hu fun M _ it it' hw => ?_
    rw [hk M _ it t3, t2]
    simp only [dec_bind, dec_pure]
    rw [if_pos (by decide), hw]
  · rw [if_neg hs, hn]
    obtain ⟨e1, e2⟩ := short_disp hs
    obtain ⟨b, hb⟩ : ∃ b : Fin 256, toU8 disp = BitVec.ofNat 8 b.val := ⟨⟨(toU8 disp).toNat, (toU8 disp).isLt⟩, by simp⟩
    rw [hb] at e1 e2 ⊢
    obtain ⟨t1, t2, t3⟩ := branch_table (ccNo c) b
    refine asm_reg (by rw [← hc]; exact t1) hu fun M _ it => ?_
    rw [hk M _ it t3, t2]
    simp only [dec_bind]
    rw [if_neg e2]
    simp only [dec_pure, e1]

theorem C39_bra (h : Asm.bra disp = some ws) : Decodes ws .Bra fun _ => .Displacement disp := by
  cases h
  refine branch_decodes (ops := .Displacement) (by decide) (by decide) fun M _ op it _ => ?_
  show (Decode.newDisplacement op : Dec M Operands) it = _
  unfold Decode.newDisplacement Decode.displacement
  rfl
theorem C39_bsr (h : Asm.bsr disp = some ws) : Decodes ws .Bsr fun _ => .Displacement disp := by
  cases h
  refine branch_decodes (ops := .Displacement) (by decide) (by decide) fun M _ op it _ => ?_
  show (Decode.newDisplacement op : Dec M Operands) it = _
  unfold Decode.newDisplacement Decode.displacement
  rfl
theorem C39_bcc (h : Asm.bcc cond disp = some ws) : Decodes ws .Bcc fun _ => .ConditionDisplacement (BitVec.ofNat 8 cond.ctorIdx) disp := by
  unfold Asm.bcc at h
  rw [guard_iff] at h
  obtain ⟨hc, h⟩ := h
  cases h
  refine branch_decodes (ops := .ConditionDisplacement _) (by decide) ?_ fun M _ op it hcc => ?_
  · cases cond <;> first | exact absurd rfl hc.1 | exact absurd rfl hc.2 | decide
  · show (Decode.newConditionDisplacement op : Dec M Operands) it = _
    unfold Decode.newConditionDisplacement Decode.conditionDisplacement
    rw [hcc]
    simp only [dec_bind]
    cases ((if (toU8 op).signExtend 16 = (0 : U16) then nextWord else pure ((toU8 op).signExtend 16) : Dec M U16)) it <;> rfl

/-! ### Scc, MOVEM, MOVE, MOVEA -/

theorem C39_scc (h : Asm.scc cond am = some ws) : Decodes ws .Scc fun _ => .ConditionEffectiveAddress (BitVec.ofNat 8 cond.ctorIdx) am := by
  unfold Asm.scc at h
  rw [guard_iff] at h
  obtain ⟨hv, h⟩ := h
  cases h
  obtain ⟨hr, hc, hi⟩ := v_dataAlterable hv
  exact asm_scc hr hi hc

theorem held_load (h : (Exec.eaOf am).1 = 7 → (Exec.eaOf am).2 ≤ 3) (long : Bool) : held long am = am := by
  cases am <;> first | rfl | (simp [Exec.eaOf] at h)

theorem C39_movem {mask : U16} (h : Asm.movem dir size am mask = some ws) : Decodes ws .Movem fun pc => .DirectionSizeEffectiveAddressList dir size (placedAt (pc + 4) am) mask := by
  unfold Asm.movem at h
  rw [guard_iff, guard_iff] at h
  obtain ⟨hd, hb, h⟩ := h
  have hb' : size ≠ .Byte := by rintro rfl; exact hb rfl
  have hsz : size.intoBit = some (if size.isLong then 1 else 0) := by cases size <;> first | rfl | exact absurd rfl hb
  rcases hd with rfl | rfl
  · dsimp only at h
    rw [if_neg (by decide), guard_iff, hsz] at h
    obtain ⟨hv, h⟩ := h
    cases h
    obtain ⟨hr, hc, hi, hm⟩ := v_movemStore hv
    have := asm_movem (d := false) (mask := mask) hb' hr fun op f => by
      have hm0 : (eaField am).mode ≠ 0 := by show (Exec.eaOf am).1 ≠ 0; omega
      rw [f.map]
      simp only [lineOf]
      unfold line4
      cases size <;> first | exact absurd rfl hb' | (simp [only, hm0, Size.isLong]; exact fun hf => hc.resolve_left (by rw [hf]; decide))
    simp only [held_load (fun h => by have := hi h; omega)] at this
    exact this
  · dsimp only at h
    rw [if_pos rfl, guard_iff, hsz] at h
    obtain ⟨hv, h⟩ := h
    cases h
    obtain ⟨hr, hc, hi, hm⟩ := v_movemLoad hv
    have := asm_movem (d := true) (mask := mask) hb' hr fun op f => by
      rw [f.map]
      simp only [lineOf]
      unfold line4
      cases size <;> first | exact absurd rfl hb' | (simp [only, Size.isLong]; exact fun hf => hc.resolve_left (by rw [hf]; decide))
    simp only [held_load hi] at this
    exact this

theorem verify_dst (h : am.verify Asm.MODES_0234567 [0, 1] = true) : ∃ f dw, am.assembleMoveDst = some (f, dw) := by
  cases am <;> first | exact ⟨_, _, rfl⟩ | (exact absurd h (by simp [AddressingMode.verify]))

/-- Missing: the assembler does not check the register of the source, see `C39_register_refuted`. -/
theorem C39_move_partial {dst src : AddressingMode} (hrs : RegistersOk src) (h : Asm.move size dst src = some ws) :
    Decodes ws .Move fun pc => .SizeEffectiveAddressEffectiveAddress size dst (placedAt (pc + 2) (held size.isLong src)) := by
  unfold Asm.move at h
  rw [guard_iff, guard_iff] at h
  obtain ⟨hv, hb, h⟩ := h
  obtain ⟨f, dw, hf⟩ := verify_dst hv
  obtain ⟨hrd, hc, hi⟩ := v_dataAlterable hv
  unfold Asm.sizeEffectiveAddressEffectiveAddress at h
  dsimp only at h
  rw [hf] at h
  cases h
  have fl := move_fields (size := size) hrd hf hrs
  refine decodes_of ?_ (by decide) fun M _ it it' hfeed => ?_
  · rw [fl.map, lineOf_move _ rfl]
    have h64 : (size.intoMove <<< 12 ||| f ||| (src.assemble size.isLong).1).toNat / 64 % 8 = (Exec.eaOf dst).1 := by
      have := fl.bit8; have := fl.size
      have hd : (Exec.eaOf dst).1 < 8 := by cases dst <;> simp [Exec.eaOf]
      omega
    rw [h64]
    have hbm : ¬ (size.isByte = true ∧ (eaField src).mode = 1) := by
      rintro ⟨h1, h2⟩
      have h2 : (Exec.eaOf src).1 = 1 := h2
      refine hb ⟨?_, h1⟩
      cases src <;> first | rfl | (simp [Exec.eaOf] at h2)
    have hdm : (eaField dst).mode ≠ 1 := by
      simp only [EaField.dataAlterable, EaField.data, Bool.and_eq_true, bne_iff_ne] at hc
      exact hc.1.2
    show lineMove size.isByte (eaField src) (eaField dst) = _
    unfold lineMove
    have hcond : ((eaField src).any && !(size.isByte && (eaField src).mode == 1)) = true := by
      rw [ea_any hrs]
      cases hz : size.isByte with
      | false => rfl
      | true => simpa using fun hc => hbm ⟨hz, hc⟩
    rw [if_pos hcond, if_neg hdm]
    simp [only, hc]
  · show Decode.newSizeEffectiveAddressEffectiveAddress _ it = _
    rw [d_move hrs (size := size) (dst := dst) (by have := fl.line; have := moveNo_pos size; omega) hrd hf (fl.ea _) ?_ hfeed, back2]
    have hw : WellFormed false dst := by
      cases dst <;> first | exact hrd | (simp [AddressingMode.assembleMoveDst] at hf)
    have hd := moveDst_field hw hf
    have := fl.bit8; have := fl.size; have := fl.reg
    omega

/-- Missing: the assembler does not check the register of the source, see `C39_register_refuted`. -/
theorem C39_movea_partial {src : AddressingMode} (hrs : RegistersOk src) (h : Asm.movea size reg src = some ws) :
    Decodes ws .Movea fun pc => .SizeRegisterEffectiveAddress size reg (placedAt (pc + 2) (held size.isLong src)) := by
  unfold Asm.movea at h
  rw [guard_iff, guard_iff] at h
  obtain ⟨h7, hb, h⟩ := h
  have h7 := reg_le h7
  unfold Asm.sizeEffectiveAddressEffectiveAddress at h
  cases h
  have fl := move_fields (size := size) (dst := .Ard reg) h7 rfl hrs
  have hf : ∀ L : List U16, L ++ [] = L := List.append_nil
  dsimp only
  rw [hf]
  refine decodes_of ?_ (by decide) fun M _ it it' hfeed => ?_
  · rw [fl.map, lineOf_move _ rfl]
    obtain ⟨d, hd⟩ : ∃ d : EaField, d = ⟨(size.intoMove <<< 12 ||| (toU16 reg <<< 9 ||| 1 <<< 6) ||| (src.assemble size.isLong).1).toNat / 64 % 8, (Exec.eaOf (.Ard reg)).2⟩ := ⟨_, rfl⟩
    have hm : d.mode = 1 := by
      rw [hd]
      have h1 := fl.bit8; have h2 := fl.size
      simp only [Exec.eaOf] at h1 h2 ⊢
      omega
    rw [← hd]
    unfold lineMove
    have hbb : size.isByte = false := by cases size <;> first | exact absurd rfl hb | rfl
    rw [hbb, if_pos (by simp [ea_any hrs]), if_pos hm]
    rfl
  · show Decode.newSizeRegisterEffectiveAddress _ it = _
    rw [d_movea hrs (size := size) (reg := reg) (by have := fl.line; have := moveNo_pos size; omega) fl.reg (fl.ea _) hfeed, back2]


/-! ### Calls whose words do not decode to what was asked -/

/-- A static BTST of an immediate operand assembles, to an opcode that is no instruction. -/
theorem C39_btstStatic_refuted : ∃ ws op, Asm.btstStatic (.Immediate 0) 0 = some ws ∧ ws.head? = some op ∧ decoder op = .Unknown :=
  ⟨_, _, rfl, rfl, by decide +kernel⟩

/-- ADDA, SUBA, CMPA, MOVE and MOVEA with the source D8 assemble as with the source A0. -/
theorem C39_register_refuted : Asm.adda reg .Word (.Drd 8) = Asm.adda reg .Word (.Ard 0) ∧ Asm.suba reg .Word (.Drd 8) = Asm.suba reg .Word (.Ard 0) ∧
    Asm.cmpa reg .Word (.Drd 8) = Asm.cmpa reg .Word (.Ard 0) ∧ Asm.movea .Word reg (.Drd 8) = Asm.movea .Word reg (.Ard 0) ∧
    Asm.move .Word (.Drd 0) (.Drd 8) = Asm.move .Word (.Drd 0) (.Ard 0) ∧ (Asm.move .Word (.Drd 0) (.Drd 8)).isSome = true ∧ (Asm.adda 0 .Word (.Drd 8)).isSome = true :=
  ⟨rfl, rfl, rfl, rfl, rfl, rfl, rfl⟩

/-- Immediate data that does not fit the size is cut, without a panic. -/
theorem C39_truncated : Asm.addi .Byte (.Drd 0) 0x101 = Asm.addi .Byte (.Drd 0) 1 ∧ (Asm.addi .Byte (.Drd 0) 0x101).isSome = true := ⟨rfl, rfl⟩

/-! ### Concrete calls -/

example : Asm.add 3 .DstReg .Long (.Immediate 0x12345678) = some [0xD6BC, 0x1234, 0x5678] := rfl
example : Asm.move .Word (.Ariwd 2 8) (.Pciwd 0 0x10) = some [0x357A, 0x0010, 0x0008] := rfl
example : Asm.movem .RegisterToMemory .Long (.Ariwpr 7) 0xFFFE = some [0x48E7, 0xFFFE] := rfl
example : Asm.bcc .NE (-2) = some [0x66FE] := rfl
example : Asm.bra 0x1000 = some [0x6000, 0x1000] := rfl
example : Asm.lea 0 (.Drd 0) = none := rfl

/-- The words of the first call, in a RAM: the decoder reads them back. -/
example : ∃ it', Instruction.fromMemory (⟨(Demo.st [0xD6BC, 0x1234, 0x5678] (Demo.regs [] [])).mem, 0⟩ : Iter _) =
    .ok ⟨0xD6BC, 0, .RegisterDirectionSizeEffectiveAddress 3 .DstReg .Long (.Immediate 0x12345678)⟩ it' := ⟨_, rfl⟩

end M68k.Props
