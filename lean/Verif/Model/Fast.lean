import Verif.Model.Interp
import Verif.Model.Exception
/-
Generated by tools/gen_interp_entry.py from m68000/src/interpreter_fast.rs (L128-771): the `fast_*`
methods and the EXECUTE table.
-/
namespace M68k
namespace Exec
variable {M : Type} [MemoryAccess M]

/-- interpreter_fast.rs L128-130: `fast_unknown_instruction`. -/
def fastUnknownInstruction (_ : CpuDetails) : Exec M Nat := do
  executeUnknownInstruction

/-- interpreter_fast.rs L132-135: `fast_abcd`. -/
def fastAbcd (C : CpuDetails) : Exec M Nat := do
  let opcode ← getCurrentOpcode
  let (rx, _, mode, ry) ← withIter (Decode.registerSizeModeRegister opcode)
  executeAbcd C rx mode ry

/-- interpreter_fast.rs L137-142: `fast_add`. -/
def fastAdd (C : CpuDetails) : Exec M Nat := do
  let opcode ← getCurrentOpcode
  let (reg, dir, size, am) ← withIter (Decode.registerDirectionSizeEffectiveAddress opcode)
  executeAdd C reg dir size am

/-- interpreter_fast.rs L144-149: `fast_adda`. -/
def fastAdda (C : CpuDetails) : Exec M Nat := do
  let opcode ← getCurrentOpcode
  let (reg, size, am) ← withIter (Decode.registerSizeEffectiveAddress opcode)
  executeAdda C reg size am

/-- interpreter_fast.rs L151-156: `fast_addi`. -/
def fastAddi (C : CpuDetails) : Exec M Nat := do
  let opcode ← getCurrentOpcode
  let (size, am, imm) ← withIter (Decode.sizeEffectiveAddressImmediate opcode)
  executeAddi C size am imm

/-- interpreter_fast.rs L158-163: `fast_addq`. -/
def fastAddq (C : CpuDetails) : Exec M Nat := do
  let opcode ← getCurrentOpcode
  let (imm, size, am) ← withIter (Decode.dataSizeEffectiveAddress opcode)
  executeAddq C imm size am

/-- interpreter_fast.rs L165-168: `fast_addx`. -/
def fastAddx (C : CpuDetails) : Exec M Nat := do
  let opcode ← getCurrentOpcode
  let (rx, size, mode, ry) ← withIter (Decode.registerSizeModeRegister opcode)
  executeAddx C rx size mode ry

/-- interpreter_fast.rs L170-175: `fast_and`. -/
def fastAnd (C : CpuDetails) : Exec M Nat := do
  let opcode ← getCurrentOpcode
  let (reg, dir, size, am) ← withIter (Decode.registerDirectionSizeEffectiveAddress opcode)
  executeAnd C reg dir size am

/-- interpreter_fast.rs L177-182: `fast_andi`. -/
def fastAndi (C : CpuDetails) : Exec M Nat := do
  let opcode ← getCurrentOpcode
  let (size, am, imm) ← withIter (Decode.sizeEffectiveAddressImmediate opcode)
  executeAndi C size am imm

/-- interpreter_fast.rs L184-189: `fast_andiccr`. -/
def fastAndiccr (C : CpuDetails) : Exec M Nat := do
  let imm ← withIter Decode.immediate
  executeAndiccr C imm

/-- interpreter_fast.rs L191-196: `fast_andisr`. -/
def fastAndisr (C : CpuDetails) : Exec M Nat := do
  let imm ← withIter Decode.immediate
  executeAndisr C imm

/-- interpreter_fast.rs L198-203: `fast_asm`. -/
def fastAsm (C : CpuDetails) : Exec M Nat := do
  let opcode ← getCurrentOpcode
  let (dir, am) ← withIter (Decode.directionEffectiveAddress opcode)
  executeAsm C dir am

/-- interpreter_fast.rs L205-208: `fast_asr`. -/
def fastAsr (C : CpuDetails) : Exec M Nat := do
  let opcode ← getCurrentOpcode
  let (rot, dir, size, ir, reg) ← withIter (Decode.rotationDirectionSizeModeRegister opcode)
  executeAsr C rot dir size ir reg

/-- interpreter_fast.rs L210-216: `fast_bcc`. -/
def fastBcc (C : CpuDetails) : Exec M Nat := do
  let pc ← getPc
  let opcode ← getCurrentOpcode
  let (condition, displacement) ← withIter (Decode.conditionDisplacement opcode)
  executeBcc C pc condition displacement

/-- interpreter_fast.rs L218-223: `fast_bchg`. -/
def fastBchg (C : CpuDetails) : Exec M Nat := do
  let opcode ← getCurrentOpcode
  let (am, count) ← withIter (Decode.effectiveAddressCount opcode)
  executeBchg C am count

/-- interpreter_fast.rs L225-230: `fast_bclr`. -/
def fastBclr (C : CpuDetails) : Exec M Nat := do
  let opcode ← getCurrentOpcode
  let (am, count) ← withIter (Decode.effectiveAddressCount opcode)
  executeBclr C am count

/-- interpreter_fast.rs L232-238: `fast_bra`. -/
def fastBra (C : CpuDetails) : Exec M Nat := do
  let pc ← getPc
  let opcode ← getCurrentOpcode
  let disp ← withIter (Decode.displacement opcode)
  executeBra C pc disp

/-- interpreter_fast.rs L240-245: `fast_bset`. -/
def fastBset (C : CpuDetails) : Exec M Nat := do
  let opcode ← getCurrentOpcode
  let (am, count) ← withIter (Decode.effectiveAddressCount opcode)
  executeBset C am count

/-- interpreter_fast.rs L247-253: `fast_bsr`. -/
def fastBsr (C : CpuDetails) : Exec M Nat := do
  let pc ← getPc
  let opcode ← getCurrentOpcode
  let disp ← withIter (Decode.displacement opcode)
  executeBsr C pc disp

/-- interpreter_fast.rs L255-260: `fast_btst`. -/
def fastBtst (C : CpuDetails) : Exec M Nat := do
  let opcode ← getCurrentOpcode
  let (am, count) ← withIter (Decode.effectiveAddressCount opcode)
  executeBtst C am count

/-- interpreter_fast.rs L264-269: `fast_chk`. -/
def fastChk (C : CpuDetails) : Exec M Nat := do
  let opcode ← getCurrentOpcode
  let (reg, am) ← withIter (Decode.registerEffectiveAddress opcode)
  executeChk C reg am

/-- interpreter_fast.rs L271-276: `fast_clr`. -/
def fastClr (C : CpuDetails) : Exec M Nat := do
  let opcode ← getCurrentOpcode
  let (size, am) ← withIter (Decode.sizeEffectiveAddress opcode)
  executeClr C size am

/-- interpreter_fast.rs L278-283: `fast_cmp`. -/
def fastCmp (C : CpuDetails) : Exec M Nat := do
  let opcode ← getCurrentOpcode
  let (reg, _, size, am) ← withIter (Decode.registerDirectionSizeEffectiveAddress opcode)
  executeCmp C reg size am

/-- interpreter_fast.rs L285-290: `fast_cmpa`. -/
def fastCmpa (C : CpuDetails) : Exec M Nat := do
  let opcode ← getCurrentOpcode
  let (reg, size, am) ← withIter (Decode.registerSizeEffectiveAddress opcode)
  executeCmpa C reg size am

/-- interpreter_fast.rs L292-297: `fast_cmpi`. -/
def fastCmpi (C : CpuDetails) : Exec M Nat := do
  let opcode ← getCurrentOpcode
  let (size, am, imm) ← withIter (Decode.sizeEffectiveAddressImmediate opcode)
  executeCmpi C size am imm

/-- interpreter_fast.rs L299-302: `fast_cmpm`. -/
def fastCmpm (C : CpuDetails) : Exec M Nat := do
  let opcode ← getCurrentOpcode
  let (ax, size, ay) ← withIter (Decode.registerSizeRegister opcode)
  executeCmpm C ax size ay

/-- interpreter_fast.rs L304-310: `fast_dbcc`. -/
def fastDbcc (C : CpuDetails) : Exec M Nat := do
  let pc ← getPc
  let opcode ← getCurrentOpcode
  let (cc, reg, disp) ← withIter (Decode.conditionRegisterDisplacement opcode)
  executeDbcc C pc cc reg disp

/-- interpreter_fast.rs L314-319: `fast_divs`. -/
def fastDivs (C : CpuDetails) : Exec M Nat := do
  let opcode ← getCurrentOpcode
  let (reg, am) ← withIter (Decode.registerEffectiveAddress opcode)
  executeDivs C reg am

/-- interpreter_fast.rs L323-328: `fast_divu`. -/
def fastDivu (C : CpuDetails) : Exec M Nat := do
  let opcode ← getCurrentOpcode
  let (reg, am) ← withIter (Decode.registerEffectiveAddress opcode)
  executeDivu C reg am

/-- interpreter_fast.rs L330-335: `fast_eor`. -/
def fastEor (C : CpuDetails) : Exec M Nat := do
  let opcode ← getCurrentOpcode
  let (reg, _, size, am) ← withIter (Decode.registerDirectionSizeEffectiveAddress opcode)
  executeEor C reg size am

/-- interpreter_fast.rs L337-342: `fast_eori`. -/
def fastEori (C : CpuDetails) : Exec M Nat := do
  let opcode ← getCurrentOpcode
  let (size, am, imm) ← withIter (Decode.sizeEffectiveAddressImmediate opcode)
  executeEori C size am imm

/-- interpreter_fast.rs L344-349: `fast_eoriccr`. -/
def fastEoriccr (C : CpuDetails) : Exec M Nat := do
  let imm ← withIter Decode.immediate
  executeEoriccr C imm

/-- interpreter_fast.rs L351-356: `fast_eorisr`. -/
def fastEorisr (C : CpuDetails) : Exec M Nat := do
  let imm ← withIter Decode.immediate
  executeEorisr C imm

/-- interpreter_fast.rs L358-361: `fast_exg`. -/
def fastExg (C : CpuDetails) : Exec M Nat := do
  let opcode ← getCurrentOpcode
  let (rx, mode, ry) ← withIter (Decode.registerOpmodeRegister opcode)
  executeExg C rx mode ry

/-- interpreter_fast.rs L363-366: `fast_ext`. -/
def fastExt (C : CpuDetails) : Exec M Nat := do
  let opcode ← getCurrentOpcode
  let (mode, reg) ← withIter (Decode.opmodeRegister opcode)
  executeExt C mode reg

/-- interpreter_fast.rs L368-370: `fast_illegal`. -/
def fastIllegal (_ : CpuDetails) : Exec M Nat := do
  executeIllegal

/-- interpreter_fast.rs L372-377: `fast_jmp`. -/
def fastJmp (C : CpuDetails) : Exec M Nat := do
  let opcode ← getCurrentOpcode
  let am ← withIter (Decode.effectiveAddress opcode)
  executeJmp C am

/-- interpreter_fast.rs L379-384: `fast_jsr`. -/
def fastJsr (C : CpuDetails) : Exec M Nat := do
  let opcode ← getCurrentOpcode
  let am ← withIter (Decode.effectiveAddress opcode)
  executeJsr C am

/-- interpreter_fast.rs L386-391: `fast_lea`. -/
def fastLea (C : CpuDetails) : Exec M Nat := do
  let opcode ← getCurrentOpcode
  let (reg, am) ← withIter (Decode.registerEffectiveAddress opcode)
  executeLea C reg am

/-- interpreter_fast.rs L393-398: `fast_link`. -/
def fastLink (C : CpuDetails) : Exec M Nat := do
  let opcode ← getCurrentOpcode
  let (reg, disp) ← withIter (Decode.registerDisplacement opcode)
  executeLink C reg disp

/-- interpreter_fast.rs L400-405: `fast_lsm`. -/
def fastLsm (C : CpuDetails) : Exec M Nat := do
  let opcode ← getCurrentOpcode
  let (dir, am) ← withIter (Decode.directionEffectiveAddress opcode)
  executeLsm C dir am

/-- interpreter_fast.rs L407-410: `fast_lsr`. -/
def fastLsr (C : CpuDetails) : Exec M Nat := do
  let opcode ← getCurrentOpcode
  let (rot, dir, size, ir, reg) ← withIter (Decode.rotationDirectionSizeModeRegister opcode)
  executeLsr C rot dir size ir reg

/-- interpreter_fast.rs L412-417: `fast_move`. -/
def fastMove (C : CpuDetails) : Exec M Nat := do
  let opcode ← getCurrentOpcode
  let (size, amdst, amsrc) ← withIter (Decode.sizeEffectiveAddressEffectiveAddress opcode)
  executeMove C size amdst amsrc

/-- interpreter_fast.rs L419-424: `fast_movea`. -/
def fastMovea (C : CpuDetails) : Exec M Nat := do
  let opcode ← getCurrentOpcode
  let (size, reg, am) ← withIter (Decode.sizeRegisterEffectiveAddress opcode)
  executeMovea C size reg am

/-- interpreter_fast.rs L426-431: `fast_moveccr`. -/
def fastMoveccr (C : CpuDetails) : Exec M Nat := do
  let opcode ← getCurrentOpcode
  let am ← withIter (Decode.effectiveAddress opcode)
  executeMoveccr C am

/-- interpreter_fast.rs L433-438: `fast_movefsr`. -/
def fastMovefsr (C : CpuDetails) : Exec M Nat := do
  let opcode ← getCurrentOpcode
  let am ← withIter (Decode.effectiveAddress opcode)
  executeMovefsr C am

/-- interpreter_fast.rs L440-445: `fast_movesr`. -/
def fastMovesr (C : CpuDetails) : Exec M Nat := do
  let opcode ← getCurrentOpcode
  let am ← withIter (Decode.effectiveAddress opcode)
  executeMovesr C am

/-- interpreter_fast.rs L447-450: `fast_moveusp`. -/
def fastMoveusp (C : CpuDetails) : Exec M Nat := do
  let opcode ← getCurrentOpcode
  let (dir, reg) ← withIter (Decode.directionRegister opcode)
  executeMoveusp C dir reg

/-- interpreter_fast.rs L452-457: `fast_movem`. -/
def fastMovem (C : CpuDetails) : Exec M Nat := do
  let opcode ← getCurrentOpcode
  let (dir, size, am, list) ← withIter (Decode.directionSizeEffectiveAddressList opcode)
  executeMovem C dir size am list

/-- interpreter_fast.rs L459-464: `fast_movep`. -/
def fastMovep (C : CpuDetails) : Exec M Nat := do
  let opcode ← getCurrentOpcode
  let (data, dir, size, addr, disp) ← withIter (Decode.registerDirectionSizeRegisterDisplacement opcode)
  executeMovep C data dir size addr disp

/-- interpreter_fast.rs L466-469: `fast_moveq`. -/
def fastMoveq (C : CpuDetails) : Exec M Nat := do
  let opcode ← getCurrentOpcode
  let (reg, data) ← withIter (Decode.registerData opcode)
  executeMoveq C reg data

/-- interpreter_fast.rs L471-476: `fast_muls`. -/
def fastMuls (C : CpuDetails) : Exec M Nat := do
  let opcode ← getCurrentOpcode
  let (reg, am) ← withIter (Decode.registerEffectiveAddress opcode)
  executeMuls C reg am

/-- interpreter_fast.rs L478-483: `fast_mulu`. -/
def fastMulu (C : CpuDetails) : Exec M Nat := do
  let opcode ← getCurrentOpcode
  let (reg, am) ← withIter (Decode.registerEffectiveAddress opcode)
  executeMulu C reg am

/-- interpreter_fast.rs L485-490: `fast_nbcd`. -/
def fastNbcd (C : CpuDetails) : Exec M Nat := do
  let opcode ← getCurrentOpcode
  let am ← withIter (Decode.effectiveAddress opcode)
  executeNbcd C am

/-- interpreter_fast.rs L492-497: `fast_neg`. -/
def fastNeg (C : CpuDetails) : Exec M Nat := do
  let opcode ← getCurrentOpcode
  let (size, am) ← withIter (Decode.sizeEffectiveAddress opcode)
  executeNeg C size am

/-- interpreter_fast.rs L499-504: `fast_negx`. -/
def fastNegx (C : CpuDetails) : Exec M Nat := do
  let opcode ← getCurrentOpcode
  let (size, am) ← withIter (Decode.sizeEffectiveAddress opcode)
  executeNegx C size am

/-- interpreter_fast.rs L506-508: `fast_nop`. -/
def fastNop (C : CpuDetails) : Exec M Nat := do
  executeNop C

/-- interpreter_fast.rs L510-515: `fast_not`. -/
def fastNot (C : CpuDetails) : Exec M Nat := do
  let opcode ← getCurrentOpcode
  let (size, am) ← withIter (Decode.sizeEffectiveAddress opcode)
  executeNot C size am

/-- interpreter_fast.rs L517-522: `fast_or`. -/
def fastOr (C : CpuDetails) : Exec M Nat := do
  let opcode ← getCurrentOpcode
  let (reg, dir, size, am) ← withIter (Decode.registerDirectionSizeEffectiveAddress opcode)
  executeOr C reg dir size am

/-- interpreter_fast.rs L524-529: `fast_ori`. -/
def fastOri (C : CpuDetails) : Exec M Nat := do
  let opcode ← getCurrentOpcode
  let (size, am, imm) ← withIter (Decode.sizeEffectiveAddressImmediate opcode)
  executeOri C size am imm

/-- interpreter_fast.rs L531-536: `fast_oriccr`. -/
def fastOriccr (C : CpuDetails) : Exec M Nat := do
  let imm ← withIter Decode.immediate
  executeOriccr C imm

/-- interpreter_fast.rs L538-543: `fast_orisr`. -/
def fastOrisr (C : CpuDetails) : Exec M Nat := do
  let imm ← withIter Decode.immediate
  executeOrisr C imm

/-- interpreter_fast.rs L545-550: `fast_pea`. -/
def fastPea (C : CpuDetails) : Exec M Nat := do
  let opcode ← getCurrentOpcode
  let am ← withIter (Decode.effectiveAddress opcode)
  executePea C am

/-- interpreter_fast.rs L552-554: `fast_reset`. -/
def fastReset (C : CpuDetails) : Exec M Nat := do
  executeReset C

/-- interpreter_fast.rs L556-561: `fast_rom`. -/
def fastRom (C : CpuDetails) : Exec M Nat := do
  let opcode ← getCurrentOpcode
  let (dir, am) ← withIter (Decode.directionEffectiveAddress opcode)
  executeRom C dir am

/-- interpreter_fast.rs L563-566: `fast_ror`. -/
def fastRor (C : CpuDetails) : Exec M Nat := do
  let opcode ← getCurrentOpcode
  let (rot, dir, size, ir, reg) ← withIter (Decode.rotationDirectionSizeModeRegister opcode)
  executeRor C rot dir size ir reg

/-- interpreter_fast.rs L568-573: `fast_roxm`. -/
def fastRoxm (C : CpuDetails) : Exec M Nat := do
  let opcode ← getCurrentOpcode
  let (dir, am) ← withIter (Decode.directionEffectiveAddress opcode)
  executeRoxm C dir am

/-- interpreter_fast.rs L575-578: `fast_roxr`. -/
def fastRoxr (C : CpuDetails) : Exec M Nat := do
  let opcode ← getCurrentOpcode
  let (rot, dir, size, ir, reg) ← withIter (Decode.rotationDirectionSizeModeRegister opcode)
  executeRoxr C rot dir size ir reg

/-- interpreter_fast.rs L580-582: `fast_rte`. -/
def fastRte (C : CpuDetails) : Exec M Nat := do
  executeRte C

/-- interpreter_fast.rs L584-586: `fast_rtr`. -/
def fastRtr (C : CpuDetails) : Exec M Nat := do
  executeRtr C

/-- interpreter_fast.rs L588-590: `fast_rts`. -/
def fastRts (C : CpuDetails) : Exec M Nat := do
  executeRts C

/-- interpreter_fast.rs L592-595: `fast_sbcd`. -/
def fastSbcd (C : CpuDetails) : Exec M Nat := do
  let opcode ← getCurrentOpcode
  let (ry, _, mode, rx) ← withIter (Decode.registerSizeModeRegister opcode)
  executeSbcd C ry mode rx

/-- interpreter_fast.rs L597-602: `fast_scc`. -/
def fastScc (C : CpuDetails) : Exec M Nat := do
  let opcode ← getCurrentOpcode
  let (cc, am) ← withIter (Decode.conditionEffectiveAddress opcode)
  executeScc C cc am

/-- interpreter_fast.rs L604-609: `fast_stop`. -/
def fastStop (C : CpuDetails) : Exec M Nat := do
  let imm ← withIter Decode.immediate
  executeStop C imm

/-- interpreter_fast.rs L611-616: `fast_sub`. -/
def fastSub (C : CpuDetails) : Exec M Nat := do
  let opcode ← getCurrentOpcode
  let (reg, dir, size, am) ← withIter (Decode.registerDirectionSizeEffectiveAddress opcode)
  executeSub C reg dir size am

/-- interpreter_fast.rs L618-623: `fast_suba`. -/
def fastSuba (C : CpuDetails) : Exec M Nat := do
  let opcode ← getCurrentOpcode
  let (reg, size, am) ← withIter (Decode.registerSizeEffectiveAddress opcode)
  executeSuba C reg size am

/-- interpreter_fast.rs L625-630: `fast_subi`. -/
def fastSubi (C : CpuDetails) : Exec M Nat := do
  let opcode ← getCurrentOpcode
  let (size, am, imm) ← withIter (Decode.sizeEffectiveAddressImmediate opcode)
  executeSubi C size am imm

/-- interpreter_fast.rs L632-637: `fast_subq`. -/
def fastSubq (C : CpuDetails) : Exec M Nat := do
  let opcode ← getCurrentOpcode
  let (imm, size, am) ← withIter (Decode.dataSizeEffectiveAddress opcode)
  executeSubq C imm size am

/-- interpreter_fast.rs L639-642: `fast_subx`. -/
def fastSubx (C : CpuDetails) : Exec M Nat := do
  let opcode ← getCurrentOpcode
  let (ry, size, mode, rx) ← withIter (Decode.registerSizeModeRegister opcode)
  executeSubx C ry size mode rx

/-- interpreter_fast.rs L644-647: `fast_swap`. -/
def fastSwap (C : CpuDetails) : Exec M Nat := do
  let opcode ← getCurrentOpcode
  let reg ← withIter (Decode.register opcode)
  executeSwap C reg

/-- interpreter_fast.rs L649-654: `fast_tas`. -/
def fastTas (C : CpuDetails) : Exec M Nat := do
  let opcode ← getCurrentOpcode
  let am ← withIter (Decode.effectiveAddress opcode)
  executeTas C am

/-- interpreter_fast.rs L656-659: `fast_trap`. -/
def fastTrap (_ : CpuDetails) : Exec M Nat := do
  let opcode ← getCurrentOpcode
  let vector ← withIter (Decode.vector opcode)
  executeTrap vector

/-- interpreter_fast.rs L661-663: `fast_trapv`. -/
def fastTrapv (C : CpuDetails) : Exec M Nat := do
  executeTrapv C

/-- interpreter_fast.rs L665-670: `fast_tst`. -/
def fastTst (C : CpuDetails) : Exec M Nat := do
  let opcode ← getCurrentOpcode
  let (size, am) ← withIter (Decode.sizeEffectiveAddress opcode)
  executeTst C size am

/-- interpreter_fast.rs L672-675: `fast_unlk`. -/
def fastUnlk (C : CpuDetails) : Exec M Nat := do
  let opcode ← getCurrentOpcode
  let reg ← withIter (Decode.register opcode)
  executeUnlk C reg

/-- interpreter_fast.rs L685-771: the EXECUTE table. -/
def fastExecute (C : CpuDetails) : Isa → Exec M Nat
  | .Unknown => fastUnknownInstruction C
  | .Abcd => fastAbcd C
  | .Add => fastAdd C
  | .Adda => fastAdda C
  | .Addi => fastAddi C
  | .Addq => fastAddq C
  | .Addx => fastAddx C
  | .And => fastAnd C
  | .Andi => fastAndi C
  | .Andiccr => fastAndiccr C
  | .Andisr => fastAndisr C
  | .Asm => fastAsm C
  | .Asr => fastAsr C
  | .Bcc => fastBcc C
  | .Bchg => fastBchg C
  | .Bclr => fastBclr C
  | .Bra => fastBra C
  | .Bset => fastBset C
  | .Bsr => fastBsr C
  | .Btst => fastBtst C
  | .Chk => fastChk C
  | .Clr => fastClr C
  | .Cmp => fastCmp C
  | .Cmpa => fastCmpa C
  | .Cmpi => fastCmpi C
  | .Cmpm => fastCmpm C
  | .Dbcc => fastDbcc C
  | .Divs => fastDivs C
  | .Divu => fastDivu C
  | .Eor => fastEor C
  | .Eori => fastEori C
  | .Eoriccr => fastEoriccr C
  | .Eorisr => fastEorisr C
  | .Exg => fastExg C
  | .Ext => fastExt C
  | .Illegal => fastIllegal C
  | .Jmp => fastJmp C
  | .Jsr => fastJsr C
  | .Lea => fastLea C
  | .Link => fastLink C
  | .Lsm => fastLsm C
  | .Lsr => fastLsr C
  | .Move => fastMove C
  | .Movea => fastMovea C
  | .Moveccr => fastMoveccr C
  | .Movefsr => fastMovefsr C
  | .Movesr => fastMovesr C
  | .Moveusp => fastMoveusp C
  | .Movem => fastMovem C
  | .Movep => fastMovep C
  | .Moveq => fastMoveq C
  | .Muls => fastMuls C
  | .Mulu => fastMulu C
  | .Nbcd => fastNbcd C
  | .Neg => fastNeg C
  | .Negx => fastNegx C
  | .Nop => fastNop C
  | .Not => fastNot C
  | .Or => fastOr C
  | .Ori => fastOri C
  | .Oriccr => fastOriccr C
  | .Orisr => fastOrisr C
  | .Pea => fastPea C
  | .Reset => fastReset C
  | .Rom => fastRom C
  | .Ror => fastRor C
  | .Roxm => fastRoxm C
  | .Roxr => fastRoxr C
  | .Rte => fastRte C
  | .Rtr => fastRtr C
  | .Rts => fastRts C
  | .Sbcd => fastSbcd C
  | .Scc => fastScc C
  | .Stop => fastStop C
  | .Sub => fastSub C
  | .Suba => fastSuba C
  | .Subi => fastSubi C
  | .Subq => fastSubq C
  | .Subx => fastSubx C
  | .Swap => fastSwap C
  | .Tas => fastTas C
  | .Trap => fastTrap C
  | .Trapv => fastTrapv C
  | .Tst => fastTst C
  | .Unlk => fastUnlk C

end Exec
end M68k
