import Verif.Model.Fast
/-
Generated by tools/gen_interp_entry.py from m68000/src/interpreter_disassembler.rs (L81-598): the
`instruction_*` methods and the EXECUTE table, and from instruction.rs: the accessors of `Operands`.
-/
namespace M68k

namespace Operands

/-- instruction.rs L327-332: `Operands::immediate`; `none` is a panic. -/
def immediate : Operands → Option (U16)
  | .Immediate i => some i
  | _ => none

/-- instruction.rs L335-340: `Operands::size_effective_address_immediate`; `none` is a panic. -/
def sizeEffectiveAddressImmediate : Operands → Option (Size × AddressingMode × U32)
  | .SizeEffectiveAddressImmediate s e i => some (s, e, i)
  | _ => none

/-- instruction.rs L343-348: `Operands::effective_address_count`; `none` is a panic. -/
def effectiveAddressCount : Operands → Option (AddressingMode × U8)
  | .EffectiveAddressCount e c => some (e, c)
  | _ => none

/-- instruction.rs L351-356: `Operands::effective_address`; `none` is a panic. -/
def effectiveAddress : Operands → Option (AddressingMode)
  | .EffectiveAddress e => some e
  | _ => none

/-- instruction.rs L359-364: `Operands::size_effective_address`; `none` is a panic. -/
def sizeEffectiveAddress : Operands → Option (Size × AddressingMode)
  | .SizeEffectiveAddress s e => some (s, e)
  | _ => none

/-- instruction.rs L367-372: `Operands::register_effective_address`; `none` is a panic. -/
def registerEffectiveAddress : Operands → Option (U8 × AddressingMode)
  | .RegisterEffectiveAddress r e => some (r, e)
  | _ => none

/-- instruction.rs L375-380: `Operands::register_direction_size_register_displacement`; `none` is a panic. -/
def registerDirectionSizeRegisterDisplacement : Operands → Option (U8 × Direction × Size × U8 × U16)
  | .RegisterDirectionSizeRegisterDisplacement r d s rr dd => some (r, d, s, rr, dd)
  | _ => none

/-- instruction.rs L383-388: `Operands::size_register_effective_address`; `none` is a panic. -/
def sizeRegisterEffectiveAddress : Operands → Option (Size × U8 × AddressingMode)
  | .SizeRegisterEffectiveAddress s r e => some (s, r, e)
  | _ => none

/-- instruction.rs L391-396: `Operands::size_effective_address_effective_address`; `none` is a panic. -/
def sizeEffectiveAddressEffectiveAddress : Operands → Option (Size × AddressingMode × AddressingMode)
  | .SizeEffectiveAddressEffectiveAddress s e ee => some (s, e, ee)
  | _ => none

/-- instruction.rs L399-404: `Operands::register_opmode_register`; `none` is a panic. -/
def registerOpmodeRegister : Operands → Option (U8 × Direction × U8)
  | .RegisterOpmodeRegister r o rr => some (r, o, rr)
  | _ => none

/-- instruction.rs L407-412: `Operands::opmode_register`; `none` is a panic. -/
def opmodeRegister : Operands → Option (U8 × U8)
  | .OpmodeRegister o r => some (o, r)
  | _ => none

/-- instruction.rs L415-420: `Operands::vector`; `none` is a panic. -/
def vector : Operands → Option (U8)
  | .Vector v => some v
  | _ => none

/-- instruction.rs L423-428: `Operands::register_displacement`; `none` is a panic. -/
def registerDisplacement : Operands → Option (U8 × U16)
  | .RegisterDisplacement r d => some (r, d)
  | _ => none

/-- instruction.rs L431-436: `Operands::register`; `none` is a panic. -/
def register : Operands → Option (U8)
  | .Register r => some r
  | _ => none

/-- instruction.rs L439-444: `Operands::direction_register`; `none` is a panic. -/
def directionRegister : Operands → Option (Direction × U8)
  | .DirectionRegister d r => some (d, r)
  | _ => none

/-- instruction.rs L447-452: `Operands::direction_size_effective_address_list`; `none` is a panic. -/
def directionSizeEffectiveAddressList : Operands → Option (Direction × Size × AddressingMode × U16)
  | .DirectionSizeEffectiveAddressList d s e l => some (d, s, e, l)
  | _ => none

/-- instruction.rs L455-460: `Operands::data_size_effective_address`; `none` is a panic. -/
def dataSizeEffectiveAddress : Operands → Option (U8 × Size × AddressingMode)
  | .DataSizeEffectiveAddress d s e => some (d, s, e)
  | _ => none

/-- instruction.rs L463-468: `Operands::condition_effective_address`; `none` is a panic. -/
def conditionEffectiveAddress : Operands → Option (U8 × AddressingMode)
  | .ConditionEffectiveAddress c e => some (c, e)
  | _ => none

/-- instruction.rs L471-476: `Operands::condition_register_displacement`; `none` is a panic. -/
def conditionRegisterDisplacement : Operands → Option (U8 × U8 × U16)
  | .ConditionRegisterDisplacement c r d => some (c, r, d)
  | _ => none

/-- instruction.rs L479-484: `Operands::displacement`; `none` is a panic. -/
def displacement : Operands → Option (U16)
  | .Displacement d => some d
  | _ => none

/-- instruction.rs L487-492: `Operands::condition_displacement`; `none` is a panic. -/
def conditionDisplacement : Operands → Option (U8 × U16)
  | .ConditionDisplacement c d => some (c, d)
  | _ => none

/-- instruction.rs L495-500: `Operands::register_data`; `none` is a panic. -/
def registerData : Operands → Option (U8 × U8)
  | .RegisterData r d => some (r, d)
  | _ => none

/-- instruction.rs L503-508: `Operands::register_direction_size_effective_address`; `none` is a panic. -/
def registerDirectionSizeEffectiveAddress : Operands → Option (U8 × Direction × Size × AddressingMode)
  | .RegisterDirectionSizeEffectiveAddress r d s e => some (r, d, s, e)
  | _ => none

/-- instruction.rs L511-516: `Operands::register_size_effective_address`; `none` is a panic. -/
def registerSizeEffectiveAddress : Operands → Option (U8 × Size × AddressingMode)
  | .RegisterSizeEffectiveAddress r s e => some (r, s, e)
  | _ => none

/-- instruction.rs L519-524: `Operands::register_size_mode_register`; `none` is a panic. -/
def registerSizeModeRegister : Operands → Option (U8 × Size × Direction × U8)
  | .RegisterSizeModeRegister r s m rr => some (r, s, m, rr)
  | _ => none

/-- instruction.rs L527-532: `Operands::register_size_register`; `none` is a panic. -/
def registerSizeRegister : Operands → Option (U8 × Size × U8)
  | .RegisterSizeRegister r s rr => some (r, s, rr)
  | _ => none

/-- instruction.rs L535-540: `Operands::direction_effective_address`; `none` is a panic. -/
def directionEffectiveAddress : Operands → Option (Direction × AddressingMode)
  | .DirectionEffectiveAddress d e => some (d, e)
  | _ => none

/-- instruction.rs L543-548: `Operands::rotation_direction_size_mode_register`; `none` is a panic. -/
def rotationDirectionSizeModeRegister : Operands → Option (U8 × Direction × Size × Bool × U8)
  | .RotationDirectionSizeModeRegister r d s m rr => some (r, d, s, m, rr)
  | _ => none

end Operands

namespace Exec
variable {M : Type} [MemoryAccess M]

/-- interpreter_disassembler.rs L81-599: the result of one of the functions of instruction.rs L325-549 on `inst.operands`, whose absence is a panic. -/
def ofOption {α : Type} : Option α → Exec M α
  | some a => return a
  | none => panic

/-- interpreter_disassembler.rs L81-83: `instruction_unknown_instruction`. -/
def instructionUnknownInstruction (_ : CpuDetails) (_ : Instruction) : Exec M Nat := do
  executeUnknownInstruction

/-- interpreter_disassembler.rs L85-88: `instruction_abcd`. -/
def instructionAbcd (C : CpuDetails) (inst : Instruction) : Exec M Nat := do
  let (rx, _, mode, ry) ← ofOption inst.operands.registerSizeModeRegister
  executeAbcd C rx mode ry

/-- interpreter_disassembler.rs L90-93: `instruction_add`. -/
def instructionAdd (C : CpuDetails) (inst : Instruction) : Exec M Nat := do
  let (reg, dir, size, am) ← ofOption inst.operands.registerDirectionSizeEffectiveAddress
  executeAdd C reg dir size am

/-- interpreter_disassembler.rs L95-98: `instruction_adda`. -/
def instructionAdda (C : CpuDetails) (inst : Instruction) : Exec M Nat := do
  let (reg, size, am) ← ofOption inst.operands.registerSizeEffectiveAddress
  executeAdda C reg size am

/-- interpreter_disassembler.rs L100-103: `instruction_addi`. -/
def instructionAddi (C : CpuDetails) (inst : Instruction) : Exec M Nat := do
  let (size, am, imm) ← ofOption inst.operands.sizeEffectiveAddressImmediate
  executeAddi C size am imm

/-- interpreter_disassembler.rs L105-108: `instruction_addq`. -/
def instructionAddq (C : CpuDetails) (inst : Instruction) : Exec M Nat := do
  let (imm, size, am) ← ofOption inst.operands.dataSizeEffectiveAddress
  executeAddq C imm size am

/-- interpreter_disassembler.rs L110-113: `instruction_addx`. -/
def instructionAddx (C : CpuDetails) (inst : Instruction) : Exec M Nat := do
  let (rx, size, mode, ry) ← ofOption inst.operands.registerSizeModeRegister
  executeAddx C rx size mode ry

/-- interpreter_disassembler.rs L115-118: `instruction_and`. -/
def instructionAnd (C : CpuDetails) (inst : Instruction) : Exec M Nat := do
  let (reg, dir, size, am) ← ofOption inst.operands.registerDirectionSizeEffectiveAddress
  executeAnd C reg dir size am

/-- interpreter_disassembler.rs L120-123: `instruction_andi`. -/
def instructionAndi (C : CpuDetails) (inst : Instruction) : Exec M Nat := do
  let (size, am, imm) ← ofOption inst.operands.sizeEffectiveAddressImmediate
  executeAndi C size am imm

/-- interpreter_disassembler.rs L125-128: `instruction_andiccr`. -/
def instructionAndiccr (C : CpuDetails) (inst : Instruction) : Exec M Nat := do
  let imm ← ofOption inst.operands.immediate
  executeAndiccr C imm

/-- interpreter_disassembler.rs L130-133: `instruction_andisr`. -/
def instructionAndisr (C : CpuDetails) (inst : Instruction) : Exec M Nat := do
  let imm ← ofOption inst.operands.immediate
  executeAndisr C imm

/-- interpreter_disassembler.rs L135-138: `instruction_asm`. -/
def instructionAsm (C : CpuDetails) (inst : Instruction) : Exec M Nat := do
  let (dir, am) ← ofOption inst.operands.directionEffectiveAddress
  executeAsm C dir am

/-- interpreter_disassembler.rs L140-143: `instruction_asr`. -/
def instructionAsr (C : CpuDetails) (inst : Instruction) : Exec M Nat := do
  let (rot, dir, size, ir, reg) ← ofOption inst.operands.rotationDirectionSizeModeRegister
  executeAsr C rot dir size ir reg

/-- interpreter_disassembler.rs L145-148: `instruction_bcc`. -/
def instructionBcc (C : CpuDetails) (inst : Instruction) : Exec M Nat := do
  let (condition, displacement) ← ofOption inst.operands.conditionDisplacement
  executeBcc C (inst.pc + 2) condition displacement

/-- interpreter_disassembler.rs L150-153: `instruction_bchg`. -/
def instructionBchg (C : CpuDetails) (inst : Instruction) : Exec M Nat := do
  let (am, count) ← ofOption inst.operands.effectiveAddressCount
  executeBchg C am count

/-- interpreter_disassembler.rs L155-158: `instruction_bclr`. -/
def instructionBclr (C : CpuDetails) (inst : Instruction) : Exec M Nat := do
  let (am, count) ← ofOption inst.operands.effectiveAddressCount
  executeBclr C am count

/-- interpreter_disassembler.rs L160-163: `instruction_bra`. -/
def instructionBra (C : CpuDetails) (inst : Instruction) : Exec M Nat := do
  let disp ← ofOption inst.operands.displacement
  executeBra C (inst.pc + 2) disp

/-- interpreter_disassembler.rs L165-168: `instruction_bset`. -/
def instructionBset (C : CpuDetails) (inst : Instruction) : Exec M Nat := do
  let (am, count) ← ofOption inst.operands.effectiveAddressCount
  executeBset C am count

/-- interpreter_disassembler.rs L170-173: `instruction_bsr`. -/
def instructionBsr (C : CpuDetails) (inst : Instruction) : Exec M Nat := do
  let disp ← ofOption inst.operands.displacement
  executeBsr C (inst.pc + 2) disp

/-- interpreter_disassembler.rs L175-178: `instruction_btst`. -/
def instructionBtst (C : CpuDetails) (inst : Instruction) : Exec M Nat := do
  let (am, count) ← ofOption inst.operands.effectiveAddressCount
  executeBtst C am count

/-- interpreter_disassembler.rs L182-185: `instruction_chk`. -/
def instructionChk (C : CpuDetails) (inst : Instruction) : Exec M Nat := do
  let (reg, am) ← ofOption inst.operands.registerEffectiveAddress
  executeChk C reg am

/-- interpreter_disassembler.rs L187-190: `instruction_clr`. -/
def instructionClr (C : CpuDetails) (inst : Instruction) : Exec M Nat := do
  let (size, am) ← ofOption inst.operands.sizeEffectiveAddress
  executeClr C size am

/-- interpreter_disassembler.rs L192-195: `instruction_cmp`. -/
def instructionCmp (C : CpuDetails) (inst : Instruction) : Exec M Nat := do
  let (reg, _, size, am) ← ofOption inst.operands.registerDirectionSizeEffectiveAddress
  executeCmp C reg size am

/-- interpreter_disassembler.rs L197-200: `instruction_cmpa`. -/
def instructionCmpa (C : CpuDetails) (inst : Instruction) : Exec M Nat := do
  let (reg, size, am) ← ofOption inst.operands.registerSizeEffectiveAddress
  executeCmpa C reg size am

/-- interpreter_disassembler.rs L202-205: `instruction_cmpi`. -/
def instructionCmpi (C : CpuDetails) (inst : Instruction) : Exec M Nat := do
  let (size, am, imm) ← ofOption inst.operands.sizeEffectiveAddressImmediate
  executeCmpi C size am imm

/-- interpreter_disassembler.rs L207-210: `instruction_cmpm`. -/
def instructionCmpm (C : CpuDetails) (inst : Instruction) : Exec M Nat := do
  let (ax, size, ay) ← ofOption inst.operands.registerSizeRegister
  executeCmpm C ax size ay

/-- interpreter_disassembler.rs L212-215: `instruction_dbcc`. -/
def instructionDbcc (C : CpuDetails) (inst : Instruction) : Exec M Nat := do
  let (cc, reg, disp) ← ofOption inst.operands.conditionRegisterDisplacement
  executeDbcc C (inst.pc + 2) cc reg disp

/-- interpreter_disassembler.rs L219-222: `instruction_divs`. -/
def instructionDivs (C : CpuDetails) (inst : Instruction) : Exec M Nat := do
  let (reg, am) ← ofOption inst.operands.registerEffectiveAddress
  executeDivs C reg am

/-- interpreter_disassembler.rs L226-229: `instruction_divu`. -/
def instructionDivu (C : CpuDetails) (inst : Instruction) : Exec M Nat := do
  let (reg, am) ← ofOption inst.operands.registerEffectiveAddress
  executeDivu C reg am

/-- interpreter_disassembler.rs L231-234: `instruction_eor`. -/
def instructionEor (C : CpuDetails) (inst : Instruction) : Exec M Nat := do
  let (reg, _, size, am) ← ofOption inst.operands.registerDirectionSizeEffectiveAddress
  executeEor C reg size am

/-- interpreter_disassembler.rs L236-239: `instruction_eori`. -/
def instructionEori (C : CpuDetails) (inst : Instruction) : Exec M Nat := do
  let (size, am, imm) ← ofOption inst.operands.sizeEffectiveAddressImmediate
  executeEori C size am imm

/-- interpreter_disassembler.rs L241-244: `instruction_eoriccr`. -/
def instructionEoriccr (C : CpuDetails) (inst : Instruction) : Exec M Nat := do
  let imm ← ofOption inst.operands.immediate
  executeEoriccr C imm

/-- interpreter_disassembler.rs L246-249: `instruction_eorisr`. -/
def instructionEorisr (C : CpuDetails) (inst : Instruction) : Exec M Nat := do
  let imm ← ofOption inst.operands.immediate
  executeEorisr C imm

/-- interpreter_disassembler.rs L251-254: `instruction_exg`. -/
def instructionExg (C : CpuDetails) (inst : Instruction) : Exec M Nat := do
  let (rx, mode, ry) ← ofOption inst.operands.registerOpmodeRegister
  executeExg C rx mode ry

/-- interpreter_disassembler.rs L256-259: `instruction_ext`. -/
def instructionExt (C : CpuDetails) (inst : Instruction) : Exec M Nat := do
  let (mode, reg) ← ofOption inst.operands.opmodeRegister
  executeExt C mode reg

/-- interpreter_disassembler.rs L261-263: `instruction_illegal`. -/
def instructionIllegal (_ : CpuDetails) (_ : Instruction) : Exec M Nat := do
  executeIllegal

/-- interpreter_disassembler.rs L265-268: `instruction_jmp`. -/
def instructionJmp (C : CpuDetails) (inst : Instruction) : Exec M Nat := do
  let am ← ofOption inst.operands.effectiveAddress
  executeJmp C am

/-- interpreter_disassembler.rs L270-273: `instruction_jsr`. -/
def instructionJsr (C : CpuDetails) (inst : Instruction) : Exec M Nat := do
  let am ← ofOption inst.operands.effectiveAddress
  executeJsr C am

/-- interpreter_disassembler.rs L275-278: `instruction_lea`. -/
def instructionLea (C : CpuDetails) (inst : Instruction) : Exec M Nat := do
  let (reg, am) ← ofOption inst.operands.registerEffectiveAddress
  executeLea C reg am

/-- interpreter_disassembler.rs L280-283: `instruction_link`. -/
def instructionLink (C : CpuDetails) (inst : Instruction) : Exec M Nat := do
  let (reg, disp) ← ofOption inst.operands.registerDisplacement
  executeLink C reg disp

/-- interpreter_disassembler.rs L285-288: `instruction_lsm`. -/
def instructionLsm (C : CpuDetails) (inst : Instruction) : Exec M Nat := do
  let (dir, am) ← ofOption inst.operands.directionEffectiveAddress
  executeLsm C dir am

/-- interpreter_disassembler.rs L290-293: `instruction_lsr`. -/
def instructionLsr (C : CpuDetails) (inst : Instruction) : Exec M Nat := do
  let (rot, dir, size, ir, reg) ← ofOption inst.operands.rotationDirectionSizeModeRegister
  executeLsr C rot dir size ir reg

/-- interpreter_disassembler.rs L295-298: `instruction_move`. -/
def instructionMove (C : CpuDetails) (inst : Instruction) : Exec M Nat := do
  let (size, amdst, amsrc) ← ofOption inst.operands.sizeEffectiveAddressEffectiveAddress
  executeMove C size amdst amsrc

/-- interpreter_disassembler.rs L300-303: `instruction_movea`. -/
def instructionMovea (C : CpuDetails) (inst : Instruction) : Exec M Nat := do
  let (size, reg, am) ← ofOption inst.operands.sizeRegisterEffectiveAddress
  executeMovea C size reg am

/-- interpreter_disassembler.rs L305-308: `instruction_moveccr`. -/
def instructionMoveccr (C : CpuDetails) (inst : Instruction) : Exec M Nat := do
  let am ← ofOption inst.operands.effectiveAddress
  executeMoveccr C am

/-- interpreter_disassembler.rs L310-313: `instruction_movefsr`. -/
def instructionMovefsr (C : CpuDetails) (inst : Instruction) : Exec M Nat := do
  let am ← ofOption inst.operands.effectiveAddress
  executeMovefsr C am

/-- interpreter_disassembler.rs L315-318: `instruction_movesr`. -/
def instructionMovesr (C : CpuDetails) (inst : Instruction) : Exec M Nat := do
  let am ← ofOption inst.operands.effectiveAddress
  executeMovesr C am

/-- interpreter_disassembler.rs L320-323: `instruction_moveusp`. -/
def instructionMoveusp (C : CpuDetails) (inst : Instruction) : Exec M Nat := do
  let (dir, reg) ← ofOption inst.operands.directionRegister
  executeMoveusp C dir reg

/-- interpreter_disassembler.rs L325-328: `instruction_movem`. -/
def instructionMovem (C : CpuDetails) (inst : Instruction) : Exec M Nat := do
  let (dir, size, am, list) ← ofOption inst.operands.directionSizeEffectiveAddressList
  executeMovem C dir size am list

/-- interpreter_disassembler.rs L330-333: `instruction_movep`. -/
def instructionMovep (C : CpuDetails) (inst : Instruction) : Exec M Nat := do
  let (data, dir, size, addr, disp) ← ofOption inst.operands.registerDirectionSizeRegisterDisplacement
  executeMovep C data dir size addr disp

/-- interpreter_disassembler.rs L335-338: `instruction_moveq`. -/
def instructionMoveq (C : CpuDetails) (inst : Instruction) : Exec M Nat := do
  let (reg, data) ← ofOption inst.operands.registerData
  executeMoveq C reg data

/-- interpreter_disassembler.rs L340-343: `instruction_muls`. -/
def instructionMuls (C : CpuDetails) (inst : Instruction) : Exec M Nat := do
  let (reg, am) ← ofOption inst.operands.registerEffectiveAddress
  executeMuls C reg am

/-- interpreter_disassembler.rs L345-348: `instruction_mulu`. -/
def instructionMulu (C : CpuDetails) (inst : Instruction) : Exec M Nat := do
  let (reg, am) ← ofOption inst.operands.registerEffectiveAddress
  executeMulu C reg am

/-- interpreter_disassembler.rs L350-353: `instruction_nbcd`. -/
def instructionNbcd (C : CpuDetails) (inst : Instruction) : Exec M Nat := do
  let am ← ofOption inst.operands.effectiveAddress
  executeNbcd C am

/-- interpreter_disassembler.rs L355-358: `instruction_neg`. -/
def instructionNeg (C : CpuDetails) (inst : Instruction) : Exec M Nat := do
  let (size, am) ← ofOption inst.operands.sizeEffectiveAddress
  executeNeg C size am

/-- interpreter_disassembler.rs L360-363: `instruction_negx`. -/
def instructionNegx (C : CpuDetails) (inst : Instruction) : Exec M Nat := do
  let (size, am) ← ofOption inst.operands.sizeEffectiveAddress
  executeNegx C size am

/-- interpreter_disassembler.rs L365-367: `instruction_nop`. -/
def instructionNop (C : CpuDetails) (_ : Instruction) : Exec M Nat := do
  executeNop C

/-- interpreter_disassembler.rs L369-372: `instruction_not`. -/
def instructionNot (C : CpuDetails) (inst : Instruction) : Exec M Nat := do
  let (size, am) ← ofOption inst.operands.sizeEffectiveAddress
  executeNot C size am

/-- interpreter_disassembler.rs L374-377: `instruction_or`. -/
def instructionOr (C : CpuDetails) (inst : Instruction) : Exec M Nat := do
  let (reg, dir, size, am) ← ofOption inst.operands.registerDirectionSizeEffectiveAddress
  executeOr C reg dir size am

/-- interpreter_disassembler.rs L379-382: `instruction_ori`. -/
def instructionOri (C : CpuDetails) (inst : Instruction) : Exec M Nat := do
  let (size, am, imm) ← ofOption inst.operands.sizeEffectiveAddressImmediate
  executeOri C size am imm

/-- interpreter_disassembler.rs L384-387: `instruction_oriccr`. -/
def instructionOriccr (C : CpuDetails) (inst : Instruction) : Exec M Nat := do
  let imm ← ofOption inst.operands.immediate
  executeOriccr C imm

/-- interpreter_disassembler.rs L389-392: `instruction_orisr`. -/
def instructionOrisr (C : CpuDetails) (inst : Instruction) : Exec M Nat := do
  let imm ← ofOption inst.operands.immediate
  executeOrisr C imm

/-- interpreter_disassembler.rs L394-397: `instruction_pea`. -/
def instructionPea (C : CpuDetails) (inst : Instruction) : Exec M Nat := do
  let am ← ofOption inst.operands.effectiveAddress
  executePea C am

/-- interpreter_disassembler.rs L399-401: `instruction_reset`. -/
def instructionReset (C : CpuDetails) (_ : Instruction) : Exec M Nat := do
  executeReset C

/-- interpreter_disassembler.rs L403-406: `instruction_rom`. -/
def instructionRom (C : CpuDetails) (inst : Instruction) : Exec M Nat := do
  let (dir, am) ← ofOption inst.operands.directionEffectiveAddress
  executeRom C dir am

/-- interpreter_disassembler.rs L408-411: `instruction_ror`. -/
def instructionRor (C : CpuDetails) (inst : Instruction) : Exec M Nat := do
  let (rot, dir, size, ir, reg) ← ofOption inst.operands.rotationDirectionSizeModeRegister
  executeRor C rot dir size ir reg

/-- interpreter_disassembler.rs L413-416: `instruction_roxm`. -/
def instructionRoxm (C : CpuDetails) (inst : Instruction) : Exec M Nat := do
  let (dir, am) ← ofOption inst.operands.directionEffectiveAddress
  executeRoxm C dir am

/-- interpreter_disassembler.rs L418-421: `instruction_roxr`. -/
def instructionRoxr (C : CpuDetails) (inst : Instruction) : Exec M Nat := do
  let (rot, dir, size, ir, reg) ← ofOption inst.operands.rotationDirectionSizeModeRegister
  executeRoxr C rot dir size ir reg

/-- interpreter_disassembler.rs L423-425: `instruction_rte`. -/
def instructionRte (C : CpuDetails) (_ : Instruction) : Exec M Nat := do
  executeRte C

/-- interpreter_disassembler.rs L427-429: `instruction_rtr`. -/
def instructionRtr (C : CpuDetails) (_ : Instruction) : Exec M Nat := do
  executeRtr C

/-- interpreter_disassembler.rs L431-433: `instruction_rts`. -/
def instructionRts (C : CpuDetails) (_ : Instruction) : Exec M Nat := do
  executeRts C

/-- interpreter_disassembler.rs L435-438: `instruction_sbcd`. -/
def instructionSbcd (C : CpuDetails) (inst : Instruction) : Exec M Nat := do
  let (ry, _, mode, rx) ← ofOption inst.operands.registerSizeModeRegister
  executeSbcd C ry mode rx

/-- interpreter_disassembler.rs L440-443: `instruction_scc`. -/
def instructionScc (C : CpuDetails) (inst : Instruction) : Exec M Nat := do
  let (cc, am) ← ofOption inst.operands.conditionEffectiveAddress
  executeScc C cc am

/-- interpreter_disassembler.rs L445-448: `instruction_stop`. -/
def instructionStop (C : CpuDetails) (inst : Instruction) : Exec M Nat := do
  let imm ← ofOption inst.operands.immediate
  executeStop C imm

/-- interpreter_disassembler.rs L450-453: `instruction_sub`. -/
def instructionSub (C : CpuDetails) (inst : Instruction) : Exec M Nat := do
  let (reg, dir, size, am) ← ofOption inst.operands.registerDirectionSizeEffectiveAddress
  executeSub C reg dir size am

/-- interpreter_disassembler.rs L455-458: `instruction_suba`. -/
def instructionSuba (C : CpuDetails) (inst : Instruction) : Exec M Nat := do
  let (reg, size, am) ← ofOption inst.operands.registerSizeEffectiveAddress
  executeSuba C reg size am

/-- interpreter_disassembler.rs L460-463: `instruction_subi`. -/
def instructionSubi (C : CpuDetails) (inst : Instruction) : Exec M Nat := do
  let (size, am, imm) ← ofOption inst.operands.sizeEffectiveAddressImmediate
  executeSubi C size am imm

/-- interpreter_disassembler.rs L465-468: `instruction_subq`. -/
def instructionSubq (C : CpuDetails) (inst : Instruction) : Exec M Nat := do
  let (imm, size, am) ← ofOption inst.operands.dataSizeEffectiveAddress
  executeSubq C imm size am

/-- interpreter_disassembler.rs L470-473: `instruction_subx`. -/
def instructionSubx (C : CpuDetails) (inst : Instruction) : Exec M Nat := do
  let (ry, size, mode, rx) ← ofOption inst.operands.registerSizeModeRegister
  executeSubx C ry size mode rx

/-- interpreter_disassembler.rs L475-478: `instruction_swap`. -/
def instructionSwap (C : CpuDetails) (inst : Instruction) : Exec M Nat := do
  let reg ← ofOption inst.operands.register
  executeSwap C reg

/-- interpreter_disassembler.rs L480-483: `instruction_tas`. -/
def instructionTas (C : CpuDetails) (inst : Instruction) : Exec M Nat := do
  let am ← ofOption inst.operands.effectiveAddress
  executeTas C am

/-- interpreter_disassembler.rs L485-488: `instruction_trap`. -/
def instructionTrap (_ : CpuDetails) (inst : Instruction) : Exec M Nat := do
  let vector ← ofOption inst.operands.vector
  executeTrap vector

/-- interpreter_disassembler.rs L490-492: `instruction_trapv`. -/
def instructionTrapv (C : CpuDetails) (_ : Instruction) : Exec M Nat := do
  executeTrapv C

/-- interpreter_disassembler.rs L494-497: `instruction_tst`. -/
def instructionTst (C : CpuDetails) (inst : Instruction) : Exec M Nat := do
  let (size, am) ← ofOption inst.operands.sizeEffectiveAddress
  executeTst C size am

/-- interpreter_disassembler.rs L499-502: `instruction_unlk`. -/
def instructionUnlk (C : CpuDetails) (inst : Instruction) : Exec M Nat := do
  let reg ← ofOption inst.operands.register
  executeUnlk C reg

/-- interpreter_disassembler.rs L512-598: the EXECUTE table. -/
def instructionExecute (C : CpuDetails) : Isa → Instruction → Exec M Nat
  | .Unknown => instructionUnknownInstruction C
  | .Abcd => instructionAbcd C
  | .Add => instructionAdd C
  | .Adda => instructionAdda C
  | .Addi => instructionAddi C
  | .Addq => instructionAddq C
  | .Addx => instructionAddx C
  | .And => instructionAnd C
  | .Andi => instructionAndi C
  | .Andiccr => instructionAndiccr C
  | .Andisr => instructionAndisr C
  | .Asm => instructionAsm C
  | .Asr => instructionAsr C
  | .Bcc => instructionBcc C
  | .Bchg => instructionBchg C
  | .Bclr => instructionBclr C
  | .Bra => instructionBra C
  | .Bset => instructionBset C
  | .Bsr => instructionBsr C
  | .Btst => instructionBtst C
  | .Chk => instructionChk C
  | .Clr => instructionClr C
  | .Cmp => instructionCmp C
  | .Cmpa => instructionCmpa C
  | .Cmpi => instructionCmpi C
  | .Cmpm => instructionCmpm C
  | .Dbcc => instructionDbcc C
  | .Divs => instructionDivs C
  | .Divu => instructionDivu C
  | .Eor => instructionEor C
  | .Eori => instructionEori C
  | .Eoriccr => instructionEoriccr C
  | .Eorisr => instructionEorisr C
  | .Exg => instructionExg C
  | .Ext => instructionExt C
  | .Illegal => instructionIllegal C
  | .Jmp => instructionJmp C
  | .Jsr => instructionJsr C
  | .Lea => instructionLea C
  | .Link => instructionLink C
  | .Lsm => instructionLsm C
  | .Lsr => instructionLsr C
  | .Move => instructionMove C
  | .Movea => instructionMovea C
  | .Moveccr => instructionMoveccr C
  | .Movefsr => instructionMovefsr C
  | .Movesr => instructionMovesr C
  | .Moveusp => instructionMoveusp C
  | .Movem => instructionMovem C
  | .Movep => instructionMovep C
  | .Moveq => instructionMoveq C
  | .Muls => instructionMuls C
  | .Mulu => instructionMulu C
  | .Nbcd => instructionNbcd C
  | .Neg => instructionNeg C
  | .Negx => instructionNegx C
  | .Nop => instructionNop C
  | .Not => instructionNot C
  | .Or => instructionOr C
  | .Ori => instructionOri C
  | .Oriccr => instructionOriccr C
  | .Orisr => instructionOrisr C
  | .Pea => instructionPea C
  | .Reset => instructionReset C
  | .Rom => instructionRom C
  | .Ror => instructionRor C
  | .Roxm => instructionRoxm C
  | .Roxr => instructionRoxr C
  | .Rte => instructionRte C
  | .Rtr => instructionRtr C
  | .Rts => instructionRts C
  | .Sbcd => instructionSbcd C
  | .Scc => instructionScc C
  | .Stop => instructionStop C
  | .Sub => instructionSub C
  | .Suba => instructionSuba C
  | .Subi => instructionSubi C
  | .Subq => instructionSubq C
  | .Subx => instructionSubx C
  | .Swap => instructionSwap C
  | .Tas => instructionTas C
  | .Trap => instructionTrap C
  | .Trapv => instructionTrapv C
  | .Tst => instructionTst C
  | .Unlk => instructionUnlk C

end Exec
end M68k
