import Verif.Lemmas.Decode
import Verif.Lemmas.Table
/-
Every `fast_*` method of the interpreter has the effect the specification gives to the instruction.
-/
set_option linter.unusedSimpArgs false
namespace M68k
namespace Exec
open Spec
variable {M : Type} [MemoryAccess M]

theorem bit3 (op : U16) : bit op 3 = flag op 3 := bit_flag op 3 (by omega)
theorem bit5 (op : U16) : bit op 5 = flag op 5 := bit_flag op 5 (by omega)
theorem bit6 (op : U16) : bit op 6 = flag op 6 := bit_flag op 6 (by omega)
theorem bit7 (op : U16) : bit op 7 = flag op 7 := bit_flag op 7 (by omega)
theorem bit8 (op : U16) : bit op 8 = flag op 8 := bit_flag op 8 (by omega)
theorem bit10 (op : U16) : bit op 10 = flag op 10 := bit_flag op 10 (by omega)
theorem sizeBit_ne (op : U16) (i : Nat) : sizeBit op i ≠ .Byte := by
  unfold sizeBit; split <;> decide
theorem fromBit_eq (op : U16) (i : Nat) : Size.fromBit (flag op i) = sizeBit op i := rfl
theorem fromBit_ite (op : U16) (i : Nat) : (if flag op i = true then Size.Long else Size.Word) = sizeBit op i := rfl
omit [MemoryAccess M] in
theorem bind_map {α β γ : Type} (f : α → β) (x : Exec M α) (g : β → Exec M γ) : (f <$> x >>= g) = x >>= fun a => g (f a) :=
  bind_map_left f x g
theorem pairDir_ite (b : Bool) : (if b = true then Direction.MemoryToMemory else Direction.RegisterToRegister) = pairDir b := by
  cases b <;> rfl
theorem shiftDir_ite (b : Bool) : (if b = true then Direction.Left else Direction.Right) = shiftDir b := rfl
theorem movemDir_ite (b : Bool) : (if b = true then Direction.MemoryToRegister else Direction.RegisterToMemory) = movemDir b := by
  cases b <;> rfl
theorem movepDir_ite (b : Bool) : (if b = true then Direction.RegisterToMemory else Direction.MemoryToRegister) = movepDir b := by
  cases b <;> rfl

theorem executeAnd_eq (C : CpuDetails) (n : Fin 8) (toEa : Bool) (sz : Size) (m : Mode) :
    (executeAnd C (u8 n) (if toEa then .DstEa else .DstReg) sz m.toAM : Exec M Nat) =
      if toEa then cost (opToEa sz n m (logic (· &&& ·))) (bySize sz C.AND_MEM_BW C.AND_MEM_L + rmwTime C sz m)
      else cost (opToDn sz n m (logic (· &&& ·)))
        (bySize sz C.AND_REG_BW (if isRegOrImm m then C.AND_REG_L_RDIMM else C.AND_REG_L) + readTime C sz m) := by
  cases toEa
  · exact executeAnd_dn C n sz m
  · exact executeAnd_ea C n sz m
theorem executeOr_eq (C : CpuDetails) (n : Fin 8) (toEa : Bool) (sz : Size) (m : Mode) :
    (executeOr C (u8 n) (if toEa then .DstEa else .DstReg) sz m.toAM : Exec M Nat) =
      if toEa then cost (opToEa sz n m (logic (· ||| ·))) (bySize sz C.OR_MEM_BW C.OR_MEM_L + rmwTime C sz m)
      else cost (opToDn sz n m (logic (· ||| ·)))
        (bySize sz C.OR_REG_BW (if isRegOrImm m then C.OR_REG_L_RDIMM else C.OR_REG_L) + readTime C sz m) := by
  cases toEa
  · exact executeOr_dn C n sz m
  · exact executeOr_ea C n sz m

theorem exg_field (op : U16) (k : Nat) (hk : k < 32) : toU8 (bits op 3 7) = BitVec.ofNat 8 k ↔ op.toNat / 8 % 32 = k := by
  rw [← BitVec.toNat_inj, toU8, BitVec.toNat_setWidth, show (7 : Nat) = 3 + 4 from rfl, bits_toNat _ _ _ (by omega),
    BitVec.toNat_ofNat]
  have h : op.toNat / 2 ^ 3 % 2 ^ 5 < 32 := Nat.mod_lt _ (by omega)
  rw [Nat.mod_eq_of_lt (show op.toNat / 2 ^ 3 % 2 ^ (4 + 1) < 2 ^ 8 by omega), Nat.mod_eq_of_lt (show k < 2 ^ 8 by omega)]
theorem exg_field8 (op : U16) : toU8 (bits op 3 7) = 8 ↔ op.toNat / 8 % 32 = 8 := exg_field op 8 (by omega)
theorem exg_field9 (op : U16) : toU8 (bits op 3 7) = 9 ↔ op.toNat / 8 % 32 = 9 := exg_field op 9 (by omega)
theorem ext_field (op : U16) : toU8 (bits op 6 8) = 2 ↔ op.toNat / 64 % 8 = 2 := by
  rw [← BitVec.toNat_inj, toU8, BitVec.toNat_setWidth, bits_toNat op 6 2 (by omega)]
  have h : op.toNat / 2 ^ 6 % 2 ^ 3 < 8 := Nat.mod_lt _ (by omega)
  rw [Nat.mod_eq_of_lt (show op.toNat / 2 ^ 6 % 2 ^ (2 + 1) < 2 ^ 8 by omega)]
  exact Iff.rfl
theorem low_field (op : U16) : toU8 op = BitVec.ofNat 8 op.toNat := by
  apply BitVec.eq_of_toNat_eq; simp [toU8]
omit [MemoryAccess M] in
theorem executeTrap_eq (op : U16) :
    (executeTrap (toU8 (bits op 0 3)) : Exec M Nat) = cost (trap (BitVec.ofNat 8 (32 + op.toNat % 16)) : Exec M Unit) 0 := by
  have : 32 + toU8 (bits op 0 3) = BitVec.ofNat 8 (32 + op.toNat % 16) := by
    apply BitVec.eq_of_toNat_eq
    rw [BitVec.toNat_add, toU8, BitVec.toNat_setWidth, show (3 : Nat) = 0 + 3 from rfl, bits_toNat _ _ _ (by omega),
      BitVec.toNat_ofNat]
    show (32 + _) % _ = _
    omega
  unfold executeTrap
  rw [this]; rfl

open Lean.Parser.Tactic in
/-- Rewrites a decoding function into the fetches of the specification. -/
macro "decode_simp" "[" ls:simpLemma,* "]" : tactic =>
  `(tactic| simp only [withIter_bind, withIter_pure, withIter_nextWord, bind_assoc, pure_bind, reg_field0, reg_field9, ea_field, dst_field,
    bind_map, lift_sized, lift_moveSized, bit3, bit5, bit6, bit7, bit8, bit10, fromBit_eq, fromBit_ite, fetch_imm, cc_field,
    exg_field8, exg_field9, ext_field, ne_eq, pairDir_ite, shiftDir_ite, movemDir_ite, movepDir_ite, $ls,*])

theorem fastAdd_eq (C : CpuDetails) :
    (fastAdd C : Exec M Nat) = getCurrentOpcode >>= fun op => Spec.exec C .Add op := by
  unfold fastAdd
  refine bind_congr fun op => ?_
  decode_simp [Decode.registerDirectionSizeEffectiveAddress, Spec.exec, binary, Spec.immediate, unary, shiftInstr, shiftMem, executeAdd_eq]

theorem fastAdda_eq (C : CpuDetails) :
    (fastAdda C : Exec M Nat) = getCurrentOpcode >>= fun op => Spec.exec C .Adda op := by
  unfold fastAdda
  refine bind_congr fun op => ?_
  decode_simp [Decode.registerSizeEffectiveAddress, Spec.exec, binary, Spec.immediate, unary, shiftInstr, shiftMem, executeAdda_eq C _ _ (sizeBit_ne _ _)]

theorem fastAddi_eq (C : CpuDetails) :
    (fastAddi C : Exec M Nat) = getCurrentOpcode >>= fun op => Spec.exec C .Addi op := by
  unfold fastAddi
  refine bind_congr fun op => ?_
  decode_simp [Decode.sizeEffectiveAddressImmediate, Spec.exec, binary, Spec.immediate, unary, shiftInstr, shiftMem, executeAddi_eq]

theorem fastAddq_eq (C : CpuDetails) :
    (fastAddq C : Exec M Nat) = getCurrentOpcode >>= fun op => Spec.exec C .Addq op := by
  unfold fastAddq
  refine bind_congr fun op => ?_
  decode_simp [Decode.dataSizeEffectiveAddress, Spec.exec, binary, Spec.immediate, unary, shiftInstr, shiftMem, executeAddq_eq]

theorem fastAddx_eq (C : CpuDetails) :
    (fastAddx C : Exec M Nat) = getCurrentOpcode >>= fun op => Spec.exec C .Addx op := by
  unfold fastAddx
  refine bind_congr fun op => ?_
  decode_simp [Decode.registerSizeModeRegister, Spec.exec, binary, Spec.immediate, unary, shiftInstr, shiftMem, executeAddx_eq]

theorem fastAbcd_eq (C : CpuDetails) :
    (fastAbcd C : Exec M Nat) = getCurrentOpcode >>= fun op => Spec.exec C .Abcd op := by
  unfold fastAbcd
  refine bind_congr fun op => ?_
  decode_simp [Decode.registerSizeModeRegister, Spec.exec, binary, Spec.immediate, unary, shiftInstr, shiftMem, executeAbcd_eq]

theorem fastAnd_eq (C : CpuDetails) :
    (fastAnd C : Exec M Nat) = getCurrentOpcode >>= fun op => Spec.exec C .And op := by
  unfold fastAnd
  refine bind_congr fun op => ?_
  decode_simp [Decode.registerDirectionSizeEffectiveAddress, Spec.exec, binary, Spec.immediate, unary, shiftInstr, shiftMem, executeAnd_eq]

theorem fastAndi_eq (C : CpuDetails) :
    (fastAndi C : Exec M Nat) = getCurrentOpcode >>= fun op => Spec.exec C .Andi op := by
  unfold fastAndi
  refine bind_congr fun op => ?_
  decode_simp [Decode.sizeEffectiveAddressImmediate, Spec.exec, binary, Spec.immediate, unary, shiftInstr, shiftMem, executeAndi_eq]

theorem fastAndiccr_eq (C : CpuDetails) :
    (fastAndiccr C : Exec M Nat) = getCurrentOpcode >>= fun op => Spec.exec C .Andiccr op := by
  unfold fastAndiccr
  decode_simp [Decode.immediate, Spec.exec, executeAndiccr_eq]
  rfl

theorem fastAndisr_eq (C : CpuDetails) :
    (fastAndisr C : Exec M Nat) = getCurrentOpcode >>= fun op => Spec.exec C .Andisr op := by
  unfold fastAndisr
  decode_simp [Decode.immediate, Spec.exec, executeAndisr_eq]
  rfl

theorem fastAsm_eq (C : CpuDetails) :
    (fastAsm C : Exec M Nat) = getCurrentOpcode >>= fun op => Spec.exec C .Asm op := by
  unfold fastAsm
  refine bind_congr fun op => ?_
  decode_simp [Decode.directionEffectiveAddress, Spec.exec, binary, Spec.immediate, unary, shiftInstr, shiftMem, executeAsm_eq]

theorem fastAsr_eq (C : CpuDetails) :
    (fastAsr C : Exec M Nat) = getCurrentOpcode >>= fun op => Spec.exec C .Asr op := by
  unfold fastAsr
  refine bind_congr fun op => ?_
  decode_simp [Decode.rotationDirectionSizeModeRegister, Spec.exec, binary, Spec.immediate, unary, shiftInstr, shiftMem, executeAsr_eq]

theorem fastChk_eq (C : CpuDetails) (s : St M) (h : decoder s.cpu.currentOpcode = .Chk) :
    (fastChk C : Exec M Nat) s = Spec.exec C .Chk s.cpu.currentOpcode s := by
  unfold fastChk
  generalize ho : s.cpu.currentOpcode = op at h
  rw [bind_apply]
  simp only [getCurrentOpcode, ho]
  refine congrFun (a := s) ?_
  decode_simp [Decode.registerEffectiveAddress, Spec.exec, wordToDn, h, executeChk_eq]
  rfl

theorem fastClr_eq (C : CpuDetails) :
    (fastClr C : Exec M Nat) = getCurrentOpcode >>= fun op => Spec.exec C .Clr op := by
  unfold fastClr
  refine bind_congr fun op => ?_
  decode_simp [Decode.sizeEffectiveAddress, Spec.exec, binary, Spec.immediate, unary, shiftInstr, shiftMem, executeClr_eq]

theorem fastCmp_eq (C : CpuDetails) :
    (fastCmp C : Exec M Nat) = getCurrentOpcode >>= fun op => Spec.exec C .Cmp op := by
  unfold fastCmp
  refine bind_congr fun op => ?_
  decode_simp [Decode.registerDirectionSizeEffectiveAddress, Spec.exec, binary, Spec.immediate, unary, shiftInstr, shiftMem, executeCmp_eq]

theorem fastCmpa_eq (C : CpuDetails) :
    (fastCmpa C : Exec M Nat) = getCurrentOpcode >>= fun op => Spec.exec C .Cmpa op := by
  unfold fastCmpa
  refine bind_congr fun op => ?_
  decode_simp [Decode.registerSizeEffectiveAddress, Spec.exec, binary, Spec.immediate, unary, shiftInstr, shiftMem, executeCmpa_eq C _ _ (sizeBit_ne _ _)]

theorem fastCmpi_eq (C : CpuDetails) :
    (fastCmpi C : Exec M Nat) = getCurrentOpcode >>= fun op => Spec.exec C .Cmpi op := by
  unfold fastCmpi
  refine bind_congr fun op => ?_
  decode_simp [Decode.sizeEffectiveAddressImmediate, Spec.exec, binary, Spec.immediate, unary, shiftInstr, shiftMem, executeCmpi_eq]

theorem fastCmpm_eq (C : CpuDetails) :
    (fastCmpm C : Exec M Nat) = getCurrentOpcode >>= fun op => Spec.exec C .Cmpm op := by
  unfold fastCmpm
  refine bind_congr fun op => ?_
  decode_simp [Decode.registerSizeRegister, Spec.exec, binary, Spec.immediate, unary, shiftInstr, shiftMem, executeCmpm_eq]

theorem fastDivs_eq (C : CpuDetails) (s : St M) (h : decoder s.cpu.currentOpcode = .Divs) :
    (fastDivs C : Exec M Nat) s = Spec.exec C .Divs s.cpu.currentOpcode s := by
  unfold fastDivs
  generalize ho : s.cpu.currentOpcode = op at h
  rw [bind_apply]
  simp only [getCurrentOpcode, ho]
  refine congrFun (a := s) ?_
  decode_simp [Decode.registerEffectiveAddress, Spec.exec, wordToDn, h, executeDivs_eq]
  rfl

theorem fastDivu_eq (C : CpuDetails) (s : St M) (h : decoder s.cpu.currentOpcode = .Divu) :
    (fastDivu C : Exec M Nat) s = Spec.exec C .Divu s.cpu.currentOpcode s := by
  unfold fastDivu
  generalize ho : s.cpu.currentOpcode = op at h
  rw [bind_apply]
  simp only [getCurrentOpcode, ho]
  refine congrFun (a := s) ?_
  decode_simp [Decode.registerEffectiveAddress, Spec.exec, wordToDn, h, executeDivu_eq]
  rfl

theorem fastEor_eq (C : CpuDetails) :
    (fastEor C : Exec M Nat) = getCurrentOpcode >>= fun op => Spec.exec C .Eor op := by
  unfold fastEor
  refine bind_congr fun op => ?_
  decode_simp [Decode.registerDirectionSizeEffectiveAddress, Spec.exec, binary, Spec.immediate, unary, shiftInstr, shiftMem, executeEor_eq]

theorem fastEori_eq (C : CpuDetails) :
    (fastEori C : Exec M Nat) = getCurrentOpcode >>= fun op => Spec.exec C .Eori op := by
  unfold fastEori
  refine bind_congr fun op => ?_
  decode_simp [Decode.sizeEffectiveAddressImmediate, Spec.exec, binary, Spec.immediate, unary, shiftInstr, shiftMem, executeEori_eq]

theorem fastEoriccr_eq (C : CpuDetails) :
    (fastEoriccr C : Exec M Nat) = getCurrentOpcode >>= fun op => Spec.exec C .Eoriccr op := by
  unfold fastEoriccr
  decode_simp [Decode.immediate, Spec.exec, executeEoriccr_eq]
  rfl

theorem fastEorisr_eq (C : CpuDetails) :
    (fastEorisr C : Exec M Nat) = getCurrentOpcode >>= fun op => Spec.exec C .Eorisr op := by
  unfold fastEorisr
  decode_simp [Decode.immediate, Spec.exec, executeEorisr_eq]
  rfl

theorem fastExg_eq (C : CpuDetails) :
    (fastExg C : Exec M Nat) = getCurrentOpcode >>= fun op => Spec.exec C .Exg op := by
  unfold fastExg
  refine bind_congr fun op => ?_
  decode_simp [Decode.registerOpmodeRegister, Spec.exec, binary, Spec.immediate, unary, shiftInstr, shiftMem, executeExg_eq]

theorem fastExt_eq (C : CpuDetails) :
    (fastExt C : Exec M Nat) = getCurrentOpcode >>= fun op => Spec.exec C .Ext op := by
  unfold fastExt
  refine bind_congr fun op => ?_
  decode_simp [Decode.opmodeRegister, Spec.exec, binary, Spec.immediate, unary, shiftInstr, shiftMem, executeExt_eq]

theorem fastJmp_eq (C : CpuDetails) (s : St M) (h : decoder s.cpu.currentOpcode = .Jmp) :
    (fastJmp C : Exec M Nat) s = Spec.exec C .Jmp s.cpu.currentOpcode s := by
  unfold fastJmp
  generalize ho : s.cpu.currentOpcode = op at h
  rw [bind_apply]
  simp only [getCurrentOpcode, ho]
  refine congrFun (a := s) ?_
  decode_simp [Decode.effectiveAddress, Spec.exec, wordToDn, h, executeJmp_eq]
  rfl

theorem fastJsr_eq (C : CpuDetails) (s : St M) (h : decoder s.cpu.currentOpcode = .Jsr) :
    (fastJsr C : Exec M Nat) s = Spec.exec C .Jsr s.cpu.currentOpcode s := by
  unfold fastJsr
  generalize ho : s.cpu.currentOpcode = op at h
  rw [bind_apply]
  simp only [getCurrentOpcode, ho]
  refine congrFun (a := s) ?_
  decode_simp [Decode.effectiveAddress, Spec.exec, wordToDn, h, executeJsr_eq]
  rfl

theorem fastLea_eq (C : CpuDetails) (s : St M) (h : decoder s.cpu.currentOpcode = .Lea) :
    (fastLea C : Exec M Nat) s = Spec.exec C .Lea s.cpu.currentOpcode s := by
  unfold fastLea
  generalize ho : s.cpu.currentOpcode = op at h
  rw [bind_apply]
  simp only [getCurrentOpcode, ho]
  refine congrFun (a := s) ?_
  decode_simp [Decode.registerEffectiveAddress, Spec.exec, wordToDn, h, executeLea_eq]
  rfl

theorem fastLink_eq (C : CpuDetails) :
    (fastLink C : Exec M Nat) = getCurrentOpcode >>= fun op => Spec.exec C .Link op := by
  unfold fastLink
  refine bind_congr fun op => ?_
  decode_simp [Decode.registerDisplacement, Spec.exec, binary, Spec.immediate, unary, shiftInstr, shiftMem, executeLink_eq]

theorem fastLsm_eq (C : CpuDetails) :
    (fastLsm C : Exec M Nat) = getCurrentOpcode >>= fun op => Spec.exec C .Lsm op := by
  unfold fastLsm
  refine bind_congr fun op => ?_
  decode_simp [Decode.directionEffectiveAddress, Spec.exec, binary, Spec.immediate, unary, shiftInstr, shiftMem, executeLsm_eq]

theorem fastLsr_eq (C : CpuDetails) :
    (fastLsr C : Exec M Nat) = getCurrentOpcode >>= fun op => Spec.exec C .Lsr op := by
  unfold fastLsr
  refine bind_congr fun op => ?_
  decode_simp [Decode.rotationDirectionSizeModeRegister, Spec.exec, binary, Spec.immediate, unary, shiftInstr, shiftMem, executeLsr_eq]

theorem fastMove_eq (C : CpuDetails) :
    (fastMove C : Exec M Nat) = getCurrentOpcode >>= fun op => Spec.exec C .Move op := by
  unfold fastMove
  refine bind_congr fun op => ?_
  decode_simp [Decode.sizeEffectiveAddressEffectiveAddress, Spec.exec, binary, Spec.immediate, unary, shiftInstr, shiftMem, executeMove_eq]
  rfl

theorem fastMoveccr_eq (C : CpuDetails) (s : St M) (h : decoder s.cpu.currentOpcode = .Moveccr) :
    (fastMoveccr C : Exec M Nat) s = Spec.exec C .Moveccr s.cpu.currentOpcode s := by
  unfold fastMoveccr
  generalize ho : s.cpu.currentOpcode = op at h
  rw [bind_apply]
  simp only [getCurrentOpcode, ho]
  refine congrFun (a := s) ?_
  decode_simp [Decode.effectiveAddress, Spec.exec, wordToDn, h, executeMoveccr_eq]
  rfl

theorem fastMovefsr_eq (C : CpuDetails) (s : St M) (h : decoder s.cpu.currentOpcode = .Movefsr) :
    (fastMovefsr C : Exec M Nat) s = Spec.exec C .Movefsr s.cpu.currentOpcode s := by
  unfold fastMovefsr
  generalize ho : s.cpu.currentOpcode = op at h
  rw [bind_apply]
  simp only [getCurrentOpcode, ho]
  refine congrFun (a := s) ?_
  decode_simp [Decode.effectiveAddress, Spec.exec, wordToDn, h, executeMovefsr_eq]
  rfl

theorem fastMovesr_eq (C : CpuDetails) (s : St M) (h : decoder s.cpu.currentOpcode = .Movesr) :
    (fastMovesr C : Exec M Nat) s = Spec.exec C .Movesr s.cpu.currentOpcode s := by
  unfold fastMovesr
  generalize ho : s.cpu.currentOpcode = op at h
  rw [bind_apply]
  simp only [getCurrentOpcode, ho]
  refine congrFun (a := s) ?_
  decode_simp [Decode.effectiveAddress, Spec.exec, wordToDn, h, executeMovesr_eq]
  rfl

theorem fastMoveusp_eq (C : CpuDetails) :
    (fastMoveusp C : Exec M Nat) = getCurrentOpcode >>= fun op => Spec.exec C .Moveusp op := by
  unfold fastMoveusp
  refine bind_congr fun op => ?_
  decode_simp [Decode.directionRegister, Spec.exec, binary, Spec.immediate, unary, shiftInstr, shiftMem, executeMoveusp_eq]

theorem fastMovem_eq (C : CpuDetails) :
    (fastMovem C : Exec M Nat) = getCurrentOpcode >>= fun op => Spec.exec C .Movem op := by
  unfold fastMovem
  refine bind_congr fun op => ?_
  decode_simp [Decode.directionSizeEffectiveAddressList, Spec.exec, binary, Spec.immediate, unary, shiftInstr, shiftMem, executeMovem_eq C _ _ (sizeBit_ne _ _)]

theorem fastMovep_eq (C : CpuDetails) :
    (fastMovep C : Exec M Nat) = getCurrentOpcode >>= fun op => Spec.exec C .Movep op := by
  unfold fastMovep
  refine bind_congr fun op => ?_
  decode_simp [Decode.registerDirectionSizeRegisterDisplacement, Spec.exec, binary, Spec.immediate, unary, shiftInstr, shiftMem, executeMovep_eq C _ _ (sizeBit_ne _ _)]

theorem fastMoveq_eq (C : CpuDetails) :
    (fastMoveq C : Exec M Nat) = getCurrentOpcode >>= fun op => Spec.exec C .Moveq op := by
  unfold fastMoveq
  refine bind_congr fun op => ?_
  decode_simp [Decode.registerData, Spec.exec, binary, Spec.immediate, unary, shiftInstr, shiftMem, executeMoveq_eq, low_field op]

theorem fastMuls_eq (C : CpuDetails) (s : St M) (h : decoder s.cpu.currentOpcode = .Muls) :
    (fastMuls C : Exec M Nat) s = Spec.exec C .Muls s.cpu.currentOpcode s := by
  unfold fastMuls
  generalize ho : s.cpu.currentOpcode = op at h
  rw [bind_apply]
  simp only [getCurrentOpcode, ho]
  refine congrFun (a := s) ?_
  decode_simp [Decode.registerEffectiveAddress, Spec.exec, wordToDn, h, executeMuls_eq]
  rfl

theorem fastMulu_eq (C : CpuDetails) (s : St M) (h : decoder s.cpu.currentOpcode = .Mulu) :
    (fastMulu C : Exec M Nat) s = Spec.exec C .Mulu s.cpu.currentOpcode s := by
  unfold fastMulu
  generalize ho : s.cpu.currentOpcode = op at h
  rw [bind_apply]
  simp only [getCurrentOpcode, ho]
  refine congrFun (a := s) ?_
  decode_simp [Decode.registerEffectiveAddress, Spec.exec, wordToDn, h, executeMulu_eq]
  rfl

theorem fastNbcd_eq (C : CpuDetails) (s : St M) (h : decoder s.cpu.currentOpcode = .Nbcd) :
    (fastNbcd C : Exec M Nat) s = Spec.exec C .Nbcd s.cpu.currentOpcode s := by
  unfold fastNbcd
  generalize ho : s.cpu.currentOpcode = op at h
  rw [bind_apply]
  simp only [getCurrentOpcode, ho]
  refine congrFun (a := s) ?_
  decode_simp [Decode.effectiveAddress, Spec.exec, wordToDn, h, executeNbcd_eq]
  rfl

theorem fastNeg_eq (C : CpuDetails) :
    (fastNeg C : Exec M Nat) = getCurrentOpcode >>= fun op => Spec.exec C .Neg op := by
  unfold fastNeg
  refine bind_congr fun op => ?_
  decode_simp [Decode.sizeEffectiveAddress, Spec.exec, binary, Spec.immediate, unary, shiftInstr, shiftMem, executeNeg_eq]

theorem fastNegx_eq (C : CpuDetails) :
    (fastNegx C : Exec M Nat) = getCurrentOpcode >>= fun op => Spec.exec C .Negx op := by
  unfold fastNegx
  refine bind_congr fun op => ?_
  decode_simp [Decode.sizeEffectiveAddress, Spec.exec, binary, Spec.immediate, unary, shiftInstr, shiftMem, executeNegx_eq]

theorem fastNot_eq (C : CpuDetails) :
    (fastNot C : Exec M Nat) = getCurrentOpcode >>= fun op => Spec.exec C .Not op := by
  unfold fastNot
  refine bind_congr fun op => ?_
  decode_simp [Decode.sizeEffectiveAddress, Spec.exec, binary, Spec.immediate, unary, shiftInstr, shiftMem, executeNot_eq]

theorem fastOr_eq (C : CpuDetails) :
    (fastOr C : Exec M Nat) = getCurrentOpcode >>= fun op => Spec.exec C .Or op := by
  unfold fastOr
  refine bind_congr fun op => ?_
  decode_simp [Decode.registerDirectionSizeEffectiveAddress, Spec.exec, binary, Spec.immediate, unary, shiftInstr, shiftMem, executeOr_eq]

theorem fastOri_eq (C : CpuDetails) :
    (fastOri C : Exec M Nat) = getCurrentOpcode >>= fun op => Spec.exec C .Ori op := by
  unfold fastOri
  refine bind_congr fun op => ?_
  decode_simp [Decode.sizeEffectiveAddressImmediate, Spec.exec, binary, Spec.immediate, unary, shiftInstr, shiftMem, executeOri_eq]

theorem fastOriccr_eq (C : CpuDetails) :
    (fastOriccr C : Exec M Nat) = getCurrentOpcode >>= fun op => Spec.exec C .Oriccr op := by
  unfold fastOriccr
  decode_simp [Decode.immediate, Spec.exec, executeOriccr_eq]
  rfl

theorem fastOrisr_eq (C : CpuDetails) :
    (fastOrisr C : Exec M Nat) = getCurrentOpcode >>= fun op => Spec.exec C .Orisr op := by
  unfold fastOrisr
  decode_simp [Decode.immediate, Spec.exec, executeOrisr_eq]
  rfl

theorem fastPea_eq (C : CpuDetails) (s : St M) (h : decoder s.cpu.currentOpcode = .Pea) :
    (fastPea C : Exec M Nat) s = Spec.exec C .Pea s.cpu.currentOpcode s := by
  unfold fastPea
  generalize ho : s.cpu.currentOpcode = op at h
  rw [bind_apply]
  simp only [getCurrentOpcode, ho]
  refine congrFun (a := s) ?_
  decode_simp [Decode.effectiveAddress, Spec.exec, wordToDn, h, executePea_eq]
  rfl

theorem fastRom_eq (C : CpuDetails) :
    (fastRom C : Exec M Nat) = getCurrentOpcode >>= fun op => Spec.exec C .Rom op := by
  unfold fastRom
  refine bind_congr fun op => ?_
  decode_simp [Decode.directionEffectiveAddress, Spec.exec, binary, Spec.immediate, unary, shiftInstr, shiftMem, executeRom_eq]

theorem fastRor_eq (C : CpuDetails) :
    (fastRor C : Exec M Nat) = getCurrentOpcode >>= fun op => Spec.exec C .Ror op := by
  unfold fastRor
  refine bind_congr fun op => ?_
  decode_simp [Decode.rotationDirectionSizeModeRegister, Spec.exec, binary, Spec.immediate, unary, shiftInstr, shiftMem, executeRor_eq]

theorem fastRoxm_eq (C : CpuDetails) :
    (fastRoxm C : Exec M Nat) = getCurrentOpcode >>= fun op => Spec.exec C .Roxm op := by
  unfold fastRoxm
  refine bind_congr fun op => ?_
  decode_simp [Decode.directionEffectiveAddress, Spec.exec, binary, Spec.immediate, unary, shiftInstr, shiftMem, executeRoxm_eq]

theorem fastRoxr_eq (C : CpuDetails) :
    (fastRoxr C : Exec M Nat) = getCurrentOpcode >>= fun op => Spec.exec C .Roxr op := by
  unfold fastRoxr
  refine bind_congr fun op => ?_
  decode_simp [Decode.rotationDirectionSizeModeRegister, Spec.exec, binary, Spec.immediate, unary, shiftInstr, shiftMem, executeRoxr_eq]

theorem fastSbcd_eq (C : CpuDetails) :
    (fastSbcd C : Exec M Nat) = getCurrentOpcode >>= fun op => Spec.exec C .Sbcd op := by
  unfold fastSbcd
  refine bind_congr fun op => ?_
  decode_simp [Decode.registerSizeModeRegister, Spec.exec, binary, Spec.immediate, unary, shiftInstr, shiftMem, executeSbcd_eq]

theorem fastScc_eq (C : CpuDetails) :
    (fastScc C : Exec M Nat) = getCurrentOpcode >>= fun op => Spec.exec C .Scc op := by
  unfold fastScc
  refine bind_congr fun op => ?_
  decode_simp [Decode.conditionEffectiveAddress, Spec.exec, binary, Spec.immediate, unary, shiftInstr, shiftMem, executeScc_eq]

theorem fastStop_eq (C : CpuDetails) :
    (fastStop C : Exec M Nat) = getCurrentOpcode >>= fun op => Spec.exec C .Stop op := by
  unfold fastStop
  decode_simp [Decode.immediate, Spec.exec, executeStop_eq]
  rfl

theorem fastSub_eq (C : CpuDetails) :
    (fastSub C : Exec M Nat) = getCurrentOpcode >>= fun op => Spec.exec C .Sub op := by
  unfold fastSub
  refine bind_congr fun op => ?_
  decode_simp [Decode.registerDirectionSizeEffectiveAddress, Spec.exec, binary, Spec.immediate, unary, shiftInstr, shiftMem, executeSub_eq]

theorem fastSuba_eq (C : CpuDetails) :
    (fastSuba C : Exec M Nat) = getCurrentOpcode >>= fun op => Spec.exec C .Suba op := by
  unfold fastSuba
  refine bind_congr fun op => ?_
  decode_simp [Decode.registerSizeEffectiveAddress, Spec.exec, binary, Spec.immediate, unary, shiftInstr, shiftMem, executeSuba_eq C _ _ (sizeBit_ne _ _)]

theorem fastSubi_eq (C : CpuDetails) :
    (fastSubi C : Exec M Nat) = getCurrentOpcode >>= fun op => Spec.exec C .Subi op := by
  unfold fastSubi
  refine bind_congr fun op => ?_
  decode_simp [Decode.sizeEffectiveAddressImmediate, Spec.exec, binary, Spec.immediate, unary, shiftInstr, shiftMem, executeSubi_eq]

theorem fastSubq_eq (C : CpuDetails) :
    (fastSubq C : Exec M Nat) = getCurrentOpcode >>= fun op => Spec.exec C .Subq op := by
  unfold fastSubq
  refine bind_congr fun op => ?_
  decode_simp [Decode.dataSizeEffectiveAddress, Spec.exec, binary, Spec.immediate, unary, shiftInstr, shiftMem, executeSubq_eq]

theorem fastSubx_eq (C : CpuDetails) :
    (fastSubx C : Exec M Nat) = getCurrentOpcode >>= fun op => Spec.exec C .Subx op := by
  unfold fastSubx
  refine bind_congr fun op => ?_
  decode_simp [Decode.registerSizeModeRegister, Spec.exec, binary, Spec.immediate, unary, shiftInstr, shiftMem, executeSubx_eq]

theorem fastSwap_eq (C : CpuDetails) :
    (fastSwap C : Exec M Nat) = getCurrentOpcode >>= fun op => Spec.exec C .Swap op := by
  unfold fastSwap
  refine bind_congr fun op => ?_
  decode_simp [Decode.register, Spec.exec, binary, Spec.immediate, unary, shiftInstr, shiftMem, executeSwap_eq]

theorem fastTas_eq (C : CpuDetails) (s : St M) (h : decoder s.cpu.currentOpcode = .Tas) :
    (fastTas C : Exec M Nat) s = Spec.exec C .Tas s.cpu.currentOpcode s := by
  unfold fastTas
  generalize ho : s.cpu.currentOpcode = op at h
  rw [bind_apply]
  simp only [getCurrentOpcode, ho]
  refine congrFun (a := s) ?_
  decode_simp [Decode.effectiveAddress, Spec.exec, wordToDn, h, executeTas_eq]
  rfl

theorem fastTrap_eq (C : CpuDetails) :
    (fastTrap C : Exec M Nat) = getCurrentOpcode >>= fun op => Spec.exec C .Trap op := by
  unfold fastTrap
  refine bind_congr fun op => ?_
  decode_simp [Decode.vector, Spec.exec, binary, Spec.immediate, unary, shiftInstr, shiftMem, executeTrap_eq]

theorem fastTst_eq (C : CpuDetails) :
    (fastTst C : Exec M Nat) = getCurrentOpcode >>= fun op => Spec.exec C .Tst op := by
  unfold fastTst
  refine bind_congr fun op => ?_
  decode_simp [Decode.sizeEffectiveAddress, Spec.exec, binary, Spec.immediate, unary, shiftInstr, shiftMem, executeTst_eq]

theorem fastUnlk_eq (C : CpuDetails) :
    (fastUnlk C : Exec M Nat) = getCurrentOpcode >>= fun op => Spec.exec C .Unlk op := by
  unfold fastUnlk
  refine bind_congr fun op => ?_
  decode_simp [Decode.register, Spec.exec, binary, Spec.immediate, unary, shiftInstr, shiftMem, executeUnlk_eq]

/-! ### Instructions without operands -/
theorem fastUnknown_eq (C : CpuDetails) :
    (fastUnknownInstruction C : Exec M Nat) = getCurrentOpcode >>= fun op => Spec.exec C .Unknown op := executeUnknown_eq
theorem fastIllegal_eq (C : CpuDetails) :
    (fastIllegal C : Exec M Nat) = getCurrentOpcode >>= fun op => Spec.exec C .Illegal op := rfl
theorem fastNop_eq (C : CpuDetails) :
    (fastNop C : Exec M Nat) = getCurrentOpcode >>= fun op => Spec.exec C .Nop op := rfl
theorem fastReset_eq (C : CpuDetails) :
    (fastReset C : Exec M Nat) = getCurrentOpcode >>= fun op => Spec.exec C .Reset op := executeReset_eq C
theorem fastRte_eq (C : CpuDetails) :
    (fastRte C : Exec M Nat) = getCurrentOpcode >>= fun op => Spec.exec C .Rte op := executeRte_eq C
theorem fastRtr_eq (C : CpuDetails) :
    (fastRtr C : Exec M Nat) = getCurrentOpcode >>= fun op => Spec.exec C .Rtr op := executeRtr_eq C
theorem fastRts_eq (C : CpuDetails) :
    (fastRts C : Exec M Nat) = getCurrentOpcode >>= fun op => Spec.exec C .Rts op := executeRts_eq C
theorem fastTrapv_eq (C : CpuDetails) :
    (fastTrapv C : Exec M Nat) = getCurrentOpcode >>= fun op => Spec.exec C .Trapv op := executeTrapv_eq C

/-! ### MOVEA -/
theorem fastMovea_eq (C : CpuDetails) (s : St M) (h : decoder s.cpu.currentOpcode = .Movea) :
    (fastMovea C : Exec M Nat) s = Spec.exec C .Movea s.cpu.currentOpcode s := by
  unfold fastMovea
  generalize ho : s.cpu.currentOpcode = op at h
  rw [bind_apply]
  simp only [getCurrentOpcode, ho]
  refine congrFun (a := s) ?_
  decode_simp [Decode.sizeRegisterEffectiveAddress, Spec.exec]
  unfold moveSized
  rw [if_neg (movea_size op h), if_neg (movea_size op h)]
  simp only [executeMovea_eq C .Word (by decide), executeMovea_eq C .Long (by decide)]
  rfl

/-! ### DBcc -/
theorem fastDbcc_eq (C : CpuDetails) :
    (fastDbcc C : Exec M Nat) = getCurrentOpcode >>= fun op => Spec.exec C .Dbcc op := by
  unfold fastDbcc
  decode_simp [Decode.conditionRegisterDisplacement, Spec.exec, executeDbcc_eq, getPc_eq]
  rfl

/-! ### Instructions that look at the opcode again -/

/-- The action does not change the opcode register. -/
def KeepsOp {α : Type} (x : Exec M α) : Prop := ∀ s a s', x s = .ok a s' → s'.cpu.currentOpcode = s.cpu.currentOpcode

omit [MemoryAccess M] in
theorem KeepsOp.pure {α : Type} (a : α) : KeepsOp (Pure.pure a : Exec M α) := by
  intro s a s' h; cases h; rfl
omit [MemoryAccess M] in
theorem KeepsOp.crash {α : Type} : KeepsOp (Spec.crash : Exec M α) := by
  intro s a s' h; cases h
omit [MemoryAccess M] in
theorem KeepsOp.getR {α : Type} (f : Registers → α) : KeepsOp (Spec.getR f : Exec M α) := by
  intro s a s' h; cases h; rfl
omit [MemoryAccess M] in
theorem KeepsOp.bind {α β : Type} {x : Exec M α} {f : α → Exec M β} (hx : KeepsOp x) (hf : ∀ a, KeepsOp (f a)) : KeepsOp (x >>= f) := by
  intro s a s' h
  rw [bind_apply] at h
  cases hs : x s with
  | ok b t => rw [hs] at h; exact (hf b t a s' h).trans (hx s b t hs)
  | err => rw [hs] at h; cases h
  | panic => rw [hs] at h; cases h
omit [MemoryAccess M] in
theorem KeepsOp.map {α β : Type} {x : Exec M α} (f : α → β) (hx : KeepsOp x) : KeepsOp (f <$> x) := by
  rw [map_eq_pure_bind]; exact hx.bind fun _ => .pure _
theorem KeepsOp.fetch : KeepsOp (Spec.fetch : Exec M U16) := by
  intro s a s' h
  unfold Spec.fetch at h
  split at h
  · cases h
  · cases hg : MemoryAccess.getWord s.cpu.regs.pc s.mem <;> rw [hg] at h <;> cases h
    rfl
theorem KeepsOp.fetchLong : KeepsOp (Spec.fetchLong : Exec M U32) := .bind .fetch fun _ => .bind .fetch fun _ => .pure _
theorem KeepsOp.fetchMode (sz : Option Size) (m r : Fin 8) : KeepsOp (Spec.fetchMode sz m r : Exec M Mode) := by
  unfold Spec.fetchMode
  split <;> first
  | exact .pure _
  | exact .map _ .fetch
  | split <;> first
    | exact .map _ .fetch
    | exact .map _ .fetchLong
    | exact .bind (.getR _) fun _ => .map _ .fetch
    | exact .crash
    | split
      · exact .crash
      · exact .map _ .fetchLong
      · exact .map _ .fetch
theorem KeepsOp.fetchEa (sz : Option Size) (op : U16) : KeepsOp (Spec.fetchEa sz op : Exec M Mode) := KeepsOp.fetchMode _ _ _
theorem KeepsOp.fetchDisp (op : U16) : KeepsOp (Spec.fetchDisp op : Exec M U16) := by
  unfold Spec.fetchDisp
  split
  · exact .fetch
  · exact .pure _

omit [MemoryAccess M] in
/-- What follows an action that keeps the opcode register can be rewritten knowing the opcode. -/
theorem bind_keeps {α β : Type} {x : Exec M α} (hx : KeepsOp x) {f g : α → Exec M β} (s : St M)
    (h : ∀ a s', s'.cpu.currentOpcode = s.cpu.currentOpcode → f a s' = g a s') : (x >>= f) s = (x >>= g) s := by
  rw [bind_apply, bind_apply]
  cases hs : x s with
  | ok a s' => exact h a s' (hx s a s' hs)
  | err => rfl
  | panic => rfl

theorem fastBcc_eq (C : CpuDetails) :
    (fastBcc C : Exec M Nat) = getCurrentOpcode >>= fun op => Spec.exec C .Bcc op := by
  unfold fastBcc
  ext s
  have e : ∀ op : U16, (withIter (Decode.conditionDisplacement op) : Exec M _) = (fun d => (cc8 (ccField op), d)) <$> fetchDisp op := by
    intro op
    rw [← fetch_disp, ← withIter_map]
    unfold Decode.conditionDisplacement Decode.displacement
    rw [cc_field]
    by_cases h : ((toU8 op).signExtend 16 : U16) = 0
    · simp only [if_pos h, map_eq_pure_bind]
    · simp only [if_neg h, map_eq_pure_bind]
  simp only [e, bind_map, executeBcc_eq, Spec.exec, getPc_eq]
  show (fetchDisp s.cpu.currentOpcode >>= _) s = (fetchDisp s.cpu.currentOpcode >>= _) s
  refine bind_keeps (.fetchDisp _) s fun d s' h => ?_
  rw [bind_apply]
  simp only [getCurrentOpcode, h]

theorem fastBra_eq (C : CpuDetails) :
    (fastBra C : Exec M Nat) = getCurrentOpcode >>= fun op => Spec.exec C .Bra op := by
  unfold fastBra
  ext s
  simp only [fetch_disp, executeBra_eq, Spec.exec, getPc_eq]
  show (fetchDisp s.cpu.currentOpcode >>= _) s = (fetchDisp s.cpu.currentOpcode >>= _) s
  refine bind_keeps (.fetchDisp _) s fun d s' h => ?_
  rw [bind_apply]
  simp only [getCurrentOpcode, h]

theorem fastBsr_eq (C : CpuDetails) :
    (fastBsr C : Exec M Nat) = getCurrentOpcode >>= fun op => Spec.exec C .Bsr op := by
  unfold fastBsr
  ext s
  simp only [fetch_disp, executeBsr_eq, Spec.exec, getPc_eq]
  show (fetchDisp s.cpu.currentOpcode >>= _) s = (fetchDisp s.cpu.currentOpcode >>= _) s
  refine bind_keeps (.fetchDisp _) s fun d s' h => ?_
  rw [bind_apply]
  simp only [getCurrentOpcode, h]

theorem ea_bit (op : U16) :
    (withIter (AddressingMode.fromMemory (bits op 3 5) (u8 (regField op 0)) (if bits op 3 5 = 0 then some .Long else some .Byte)) : Exec M _) =
      Mode.toAM <$> fetchEa (some .Byte) op := by
  by_cases h : bits op 3 5 = 0
  · rw [if_pos h, ea_field]
    have := mode_field op 3
    rw [h] at this
    have : regField op 3 = 0 := by ext; exact this.symm
    unfold fetchEa
    rw [this]; rfl
  · rw [if_neg h, ea_field]

theorem bit_refine (C : CpuDetails) (o : Spec.BitOp) (dr dm sr sm : Nat) (tail : AddressingMode → U8 → Nat → Exec M Nat)
    (ht : ∀ m count t, tail (Mode.toAM m) count t = cost (bitOp o count.toNat m) (t + eaTime C m)) :
    (getCurrentOpcode >>= fun op => withIter (Decode.effectiveAddressCount op) >>= fun p =>
      bitHead dr dm sr sm p.1 p.2 (tail p.1)) = getCurrentOpcode >>= fun op => bitInstr C op o dm dr sm sr := by
  ext s
  rw [bind_apply, bind_apply]
  simp only [getCurrentOpcode]
  generalize ho : s.cpu.currentOpcode = op
  unfold Decode.effectiveAddressCount bitInstr
  simp only [bit8, reg_field0, reg_field9]
  cases hf : flag op 8
  · simp only [Bool.false_eq_true, if_false, withIter_bind, withIter_map, withIter_nextWord, bind_assoc, bind_map, ea_bit, withIter_pure, pure_bind]
    refine bind_keeps .fetch s fun w s' h => ?_
    refine bind_keeps (.fetchEa _ _) s' fun m s'' h' => ?_
    rw [bitHead_static _ _ _ _ _ _ _ _ (by rw [h', h, ho]; exact hf), ht]
    simp only [toU8, BitVec.toNat_setWidth, byPlace]
  · simp only [if_true, withIter_bind, withIter_map, withIter_nextWord, bind_assoc, bind_map, ea_bit, withIter_pure, pure_bind]
    refine bind_keeps (.fetchEa _ _) s fun m s'' h' => ?_
    rw [bitHead_dyn _ _ _ _ _ _ _ _ (by rw [h', ho]; exact hf), ht]
    simp only [bind_apply, getR, low_byte, toU8, BitVec.toNat_setWidth]

theorem fastBchg_eq (C : CpuDetails) :
    (fastBchg C : Exec M Nat) = getCurrentOpcode >>= fun op => Spec.exec C .Bchg op :=
  bit_refine C .change _ _ _ _ (bitTail C (· ^^^ ·)) (fun m c t => bitTail_eq C _ .change (by decide) (fun _ _ => rfl) m c t)
theorem fastBclr_eq (C : CpuDetails) :
    (fastBclr C : Exec M Nat) = getCurrentOpcode >>= fun op => Spec.exec C .Bclr op :=
  bit_refine C .clear _ _ _ _ (bitTail C (fun v b => v &&& ~~~b)) (fun m c t => bitTail_eq C _ .clear (by decide) (fun _ _ => rfl) m c t)
theorem fastBset_eq (C : CpuDetails) :
    (fastBset C : Exec M Nat) = getCurrentOpcode >>= fun op => Spec.exec C .Bset op :=
  bit_refine C .set _ _ _ _ (bitTail C (· ||| ·)) (fun m c t => bitTail_eq C _ .set (by decide) (fun _ _ => rfl) m c t)
theorem fastBtst_eq (C : CpuDetails) :
    (fastBtst C : Exec M Nat) = getCurrentOpcode >>= fun op => Spec.exec C .Btst op :=
  bit_refine C .test _ _ _ _ (btstTail C) (fun m c t => btstTail_eq C m c t)

/-- The interpreter's table executes every opcode as specified. -/
theorem fastExecute_eq (C : CpuDetails) (s : St M) :
    (fastExecute C (decoder s.cpu.currentOpcode) : Exec M Nat) s =
      Spec.exec C (decoder s.cpu.currentOpcode) s.cpu.currentOpcode s := by
  cases h : decoder s.cpu.currentOpcode with
  | Unknown => exact congrFun (fastUnknown_eq C) s
  | Abcd => exact congrFun (fastAbcd_eq C) s
  | Add => exact congrFun (fastAdd_eq C) s
  | Adda => exact congrFun (fastAdda_eq C) s
  | Addi => exact congrFun (fastAddi_eq C) s
  | Addq => exact congrFun (fastAddq_eq C) s
  | Addx => exact congrFun (fastAddx_eq C) s
  | And => exact congrFun (fastAnd_eq C) s
  | Andi => exact congrFun (fastAndi_eq C) s
  | Andiccr => exact congrFun (fastAndiccr_eq C) s
  | Andisr => exact congrFun (fastAndisr_eq C) s
  | Asm => exact congrFun (fastAsm_eq C) s
  | Asr => exact congrFun (fastAsr_eq C) s
  | Bcc => exact congrFun (fastBcc_eq C) s
  | Bchg => exact congrFun (fastBchg_eq C) s
  | Bclr => exact congrFun (fastBclr_eq C) s
  | Bra => exact congrFun (fastBra_eq C) s
  | Bset => exact congrFun (fastBset_eq C) s
  | Bsr => exact congrFun (fastBsr_eq C) s
  | Btst => exact congrFun (fastBtst_eq C) s
  | Chk => exact fastChk_eq C s h
  | Clr => exact congrFun (fastClr_eq C) s
  | Cmp => exact congrFun (fastCmp_eq C) s
  | Cmpa => exact congrFun (fastCmpa_eq C) s
  | Cmpi => exact congrFun (fastCmpi_eq C) s
  | Cmpm => exact congrFun (fastCmpm_eq C) s
  | Dbcc => exact congrFun (fastDbcc_eq C) s
  | Divs => exact fastDivs_eq C s h
  | Divu => exact fastDivu_eq C s h
  | Eor => exact congrFun (fastEor_eq C) s
  | Eori => exact congrFun (fastEori_eq C) s
  | Eoriccr => exact congrFun (fastEoriccr_eq C) s
  | Eorisr => exact congrFun (fastEorisr_eq C) s
  | Exg => exact congrFun (fastExg_eq C) s
  | Ext => exact congrFun (fastExt_eq C) s
  | Illegal => exact congrFun (fastIllegal_eq C) s
  | Jmp => exact fastJmp_eq C s h
  | Jsr => exact fastJsr_eq C s h
  | Lea => exact fastLea_eq C s h
  | Link => exact congrFun (fastLink_eq C) s
  | Lsm => exact congrFun (fastLsm_eq C) s
  | Lsr => exact congrFun (fastLsr_eq C) s
  | Move => exact congrFun (fastMove_eq C) s
  | Movea => exact fastMovea_eq C s h
  | Moveccr => exact fastMoveccr_eq C s h
  | Movefsr => exact fastMovefsr_eq C s h
  | Movesr => exact fastMovesr_eq C s h
  | Moveusp => exact congrFun (fastMoveusp_eq C) s
  | Movem => exact congrFun (fastMovem_eq C) s
  | Movep => exact congrFun (fastMovep_eq C) s
  | Moveq => exact congrFun (fastMoveq_eq C) s
  | Muls => exact fastMuls_eq C s h
  | Mulu => exact fastMulu_eq C s h
  | Nbcd => exact fastNbcd_eq C s h
  | Neg => exact congrFun (fastNeg_eq C) s
  | Negx => exact congrFun (fastNegx_eq C) s
  | Nop => exact congrFun (fastNop_eq C) s
  | Not => exact congrFun (fastNot_eq C) s
  | Or => exact congrFun (fastOr_eq C) s
  | Ori => exact congrFun (fastOri_eq C) s
  | Oriccr => exact congrFun (fastOriccr_eq C) s
  | Orisr => exact congrFun (fastOrisr_eq C) s
  | Pea => exact fastPea_eq C s h
  | Reset => exact congrFun (fastReset_eq C) s
  | Rom => exact congrFun (fastRom_eq C) s
  | Ror => exact congrFun (fastRor_eq C) s
  | Roxm => exact congrFun (fastRoxm_eq C) s
  | Roxr => exact congrFun (fastRoxr_eq C) s
  | Rte => exact congrFun (fastRte_eq C) s
  | Rtr => exact congrFun (fastRtr_eq C) s
  | Rts => exact congrFun (fastRts_eq C) s
  | Sbcd => exact congrFun (fastSbcd_eq C) s
  | Scc => exact congrFun (fastScc_eq C) s
  | Stop => exact congrFun (fastStop_eq C) s
  | Sub => exact congrFun (fastSub_eq C) s
  | Suba => exact congrFun (fastSuba_eq C) s
  | Subi => exact congrFun (fastSubi_eq C) s
  | Subq => exact congrFun (fastSubq_eq C) s
  | Subx => exact congrFun (fastSubx_eq C) s
  | Swap => exact congrFun (fastSwap_eq C) s
  | Tas => exact fastTas_eq C s h
  | Trap => exact congrFun (fastTrap_eq C) s
  | Trapv => exact congrFun (fastTrapv_eq C) s
  | Tst => exact congrFun (fastTst_eq C) s
  | Unlk => exact congrFun (fastUnlk_eq C) s

end Exec
end M68k
