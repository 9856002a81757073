import Verif.Model.Disasm
/-
The texts of the disassembler: `m68000/src/disassembler.rs`, the `Display` and `UpperHex` implementations of `instruction.rs` and
`addressing_modes.rs` and `disassemble_conditional_test` of `status_register.rs`. The functions of disassembler.rs are generated by
tools/gen_text.py. A Rust `String` is the list of its characters. The formats `{}`, `{:#X}` and `{:04X}` of integers are those of the
standard library, written here from their documentation.
-/
namespace M68k

/-- A text (a `String`, as in disassembler.rs L12-14). -/
abbrev Text := List Char

namespace Text

/-- The digit `d` in base 16 or less, in upper case (the formats `{}`, `{:#X}` and `{:04X}`, as in disassembler.rs L13). -/
def digit (d : Nat) : Char := "0123456789ABCDEF".toList.getD d '?'

/-- The digits of a number in a base, most significant first, at most `fuel` of them (the formats `{}`, `{:#X}` and `{:04X}`, as in disassembler.rs L13). -/
def digitsAux (base : Nat) : Nat → Nat → Text
  | 0, _ => []
  | fuel + 1, n => if n < base then [digit n] else digitsAux base fuel (n / base) ++ [digit (n % base)]

/-- The digits of a number below 2^32 in base 10 or 16 (the formats `{}`, `{:#X}` and `{:04X}`, as in disassembler.rs L13). -/
def digits (base n : Nat) : Text := digitsAux base 32 n

/-- `{}` of an unsigned integer, as in addressing_modes.rs L205-223. -/
def dec {w : Nat} (x : BitVec w) : Text := digits 10 x.toNat

/-- `{}` of a signed integer, as in disassembler.rs L100. -/
def sdec {w : Nat} (x : BitVec w) : Text := if x.msb then '-' :: digits 10 (2 ^ w - x.toNat) else digits 10 x.toNat

/-- `{:#X}` of an unsigned integer, as in disassembler.rs L13. -/
def hex {w : Nat} (x : BitVec w) : Text := "0x".toList ++ digits 16 x.toNat

/-- The hexadecimal digit in lower case (addressing_modes.rs L225-233). -/
def lower (c : Char) : Char := if 'A' ≤ c ∧ c ≤ 'F' then Char.ofNat (c.toNat + 32) else c

/-- `{:#x}` of an unsigned integer, as in addressing_modes.rs L225-233. -/
def lowerHex {w : Nat} (x : BitVec w) : Text := "0x".toList ++ (digits 16 x.toNat).map lower

/-- `{:04X}` of an unsigned integer, disassembler.rs L13. -/
def hex4 {w : Nat} (x : BitVec w) : Text := List.replicate (4 - (digits 16 x.toNat).length) '0' ++ digits 16 x.toNat

end Text
open Text

/-- instruction.rs L248-257: `Display for Size`. -/
def Size.text : Size → Text
  | .Byte => "B".toList
  | .Word => "W".toList
  | .Long => "L".toList

/-- instruction.rs L110-121: `Display for Direction`. -/
def Direction.text : Direction → Text
  | .Left => "L".toList
  | .Right => "R".toList
  | _ => []

/-- addressing_modes.rs L287-295: `Display for BriefExtensionWord`. -/
def BriefExtensionWord.text (b : BriefExtensionWord) : Text :=
  let x := if b.isAddressReg then "A".toList else "D".toList
  let size := if b.isLong then "L".toList else "W".toList
  x ++ dec b.reg ++ ".".toList ++ size

/-- addressing_modes.rs L205-223: `Display for AddressingMode`. -/
def AddressingMode.text : AddressingMode → Text
  | .Drd reg => "D".toList ++ dec reg
  | .Ard reg => "A".toList ++ dec reg
  | .Ari reg => "(A".toList ++ dec reg ++ ")".toList
  | .Ariwpo reg => "(A".toList ++ dec reg ++ ")+".toList
  | .Ariwpr reg => "-(A".toList ++ dec reg ++ ")".toList
  | .Ariwd reg disp => "(".toList ++ sdec disp ++ ", A".toList ++ dec reg ++ ")".toList
  | .Ariwi8 reg bew => "(".toList ++ sdec bew.disp ++ ", A".toList ++ dec reg ++ ", ".toList ++ bew.text ++ ")".toList
  | .AbsShort addr => "(".toList ++ hex addr ++ ").W".toList
  | .AbsLong addr => "(".toList ++ hex addr ++ ").L".toList
  | .Pciwd _ disp => "(".toList ++ sdec disp ++ ", PC)".toList
  | .Pciwi8 _ bew => "(".toList ++ sdec bew.disp ++ ", PC, ".toList ++ bew.text ++ ")".toList
  | .Immediate imm => "#".toList ++ dec imm

/-- addressing_modes.rs L225-233: `LowerHex for AddressingMode`. -/
def AddressingMode.lowerHexText : AddressingMode → Text
  | .Immediate imm => "#".toList ++ lowerHex imm
  | am => am.text

/-- addressing_modes.rs L235-243: `UpperHex for AddressingMode` with the flag `#`. -/
def AddressingMode.hexText : AddressingMode → Text
  | .Immediate imm => "#".toList ++ hex imm
  | am => am.text

/-- status_register.rs L195-215: `disassemble_conditional_test`. -/
def conditionalTest (test : U8) : Text :=
  match test.toNat with
  | 0 => "T".toList
  | 1 => "F".toList
  | 2 => "HI".toList
  | 3 => "LS".toList
  | 4 => "CC".toList
  | 5 => "CS".toList
  | 6 => "NE".toList
  | 7 => "EQ".toList
  | 8 => "VC".toList
  | 9 => "VS".toList
  | 10 => "PL".toList
  | 11 => "MI".toList
  | 12 => "GE".toList
  | 13 => "LT".toList
  | 14 => "GT".toList
  | 15 => "LE".toList
  | _ => "Unknown".toList

namespace Dis

/-- disassembler.rs L12-14: `disassemble_unknown_instruction`. -/
def unknownInstructionText (inst : Instruction) : Option Text := do
  return "Unknown instruction ".toList ++ hex4 inst.opcode ++ " at ".toList ++ hex inst.pc

/-- disassembler.rs L16-23: `disassemble_abcd`. -/
def abcdText (inst : Instruction) : Option Text := do
  let (rx, _, mode, ry) ← inst.operands.registerSizeModeRegister
  if mode = .MemoryToMemory then
    return "ABCD -(A".toList ++ dec ry ++ "), -(A".toList ++ dec rx ++ ")".toList
  else
    return "ABCD D".toList ++ dec ry ++ ", D".toList ++ dec rx

/-- disassembler.rs L25-32: `disassemble_add`. -/
def addText (inst : Instruction) : Option Text := do
  let (r, d, s, am) ← inst.operands.registerDirectionSizeEffectiveAddress
  if d = .DstEa then
    return "ADD.".toList ++ Size.text s ++ " D".toList ++ dec r ++ ", ".toList ++ AddressingMode.text am
  else
    return "ADD.".toList ++ Size.text s ++ " ".toList ++ AddressingMode.text am ++ ", D".toList ++ dec r

/-- disassembler.rs L34-37: `disassemble_adda`. -/
def addaText (inst : Instruction) : Option Text := do
  let (r, s, am) ← inst.operands.registerSizeEffectiveAddress
  return "ADDA.".toList ++ Size.text s ++ " ".toList ++ AddressingMode.text am ++ ", A".toList ++ dec r

/-- disassembler.rs L39-42: `disassemble_addi`. -/
def addiText (inst : Instruction) : Option Text := do
  let (s, am, imm) ← inst.operands.sizeEffectiveAddressImmediate
  return "ADDI.".toList ++ Size.text s ++ " #".toList ++ dec imm ++ ", ".toList ++ AddressingMode.text am

/-- disassembler.rs L44-48: `disassemble_addq`. -/
def addqText (inst : Instruction) : Option Text := do
  let (d, s, am) ← inst.operands.dataSizeEffectiveAddress
  let d : U8 := if d = 0 then 8 else d
  return "ADDQ.".toList ++ Size.text s ++ " #".toList ++ dec d ++ ", ".toList ++ AddressingMode.text am

/-- disassembler.rs L50-57: `disassemble_addx`. -/
def addxText (inst : Instruction) : Option Text := do
  let (rx, s, mode, ry) ← inst.operands.registerSizeModeRegister
  if mode = .MemoryToMemory then
    return "ADDX.".toList ++ Size.text s ++ " -(A".toList ++ dec ry ++ "), -(A".toList ++ dec rx ++ ")".toList
  else
    return "ADDX.".toList ++ Size.text s ++ " D".toList ++ dec ry ++ ", D".toList ++ dec rx

/-- disassembler.rs L59-66: `disassemble_and`. -/
def andText (inst : Instruction) : Option Text := do
  let (r, d, s, am) ← inst.operands.registerDirectionSizeEffectiveAddress
  if d = .DstEa then
    return "AND.".toList ++ Size.text s ++ " D".toList ++ dec r ++ ", ".toList ++ AddressingMode.text am
  else
    return "AND.".toList ++ Size.text s ++ " ".toList ++ AddressingMode.text am ++ ", D".toList ++ dec r

/-- disassembler.rs L68-71: `disassemble_andi`. -/
def andiText (inst : Instruction) : Option Text := do
  let (s, am, imm) ← inst.operands.sizeEffectiveAddressImmediate
  return "ANDI.".toList ++ Size.text s ++ " #".toList ++ dec imm ++ ", ".toList ++ AddressingMode.text am

/-- disassembler.rs L73-76: `disassemble_andiccr`. -/
def andiccrText (inst : Instruction) : Option Text := do
  let imm ← inst.operands.immediate
  return "ANDI ".toList ++ hex imm ++ ", CCR".toList

/-- disassembler.rs L78-81: `disassemble_andisr`. -/
def andisrText (inst : Instruction) : Option Text := do
  let imm ← inst.operands.immediate
  return "ANDI ".toList ++ hex imm ++ ", SR".toList

/-- disassembler.rs L83-86: `disassemble_asm`. -/
def asmText (inst : Instruction) : Option Text := do
  let (d, am) ← inst.operands.directionEffectiveAddress
  return "AS".toList ++ Direction.text d ++ " ".toList ++ AddressingMode.text am

/-- disassembler.rs L88-96: `disassemble_asr`. -/
def asrText (inst : Instruction) : Option Text := do
  let (rot, d, s, ir, reg) ← inst.operands.rotationDirectionSizeModeRegister
  if ir then
    return "AS".toList ++ Direction.text d ++ ".".toList ++ Size.text s ++ " D".toList ++ dec rot ++ ", D".toList ++ dec reg
  else
    let rot : U8 := if rot = 0 then 8 else rot
    return "AS".toList ++ Direction.text d ++ ".".toList ++ Size.text s ++ " #".toList ++ dec rot ++ ", D".toList ++ dec reg

/-- disassembler.rs L98-101: `disassemble_bcc`. -/
def bccText (inst : Instruction) : Option Text := do
  let (cc, disp) ← inst.operands.conditionDisplacement
  return "B".toList ++ (conditionalTest cc) ++ " ".toList ++ sdec disp ++ " <".toList ++ hex (inst.pc + 2 + disp.signExtend 32) ++ ">".toList

/-- disassembler.rs L103-110: `disassemble_bchg`. -/
def bchgText (inst : Instruction) : Option Text := do
  let (am, count) ← inst.operands.effectiveAddressCount
  if bits inst.opcode 8 8 ≠ 0 then
    return "BCHG D".toList ++ dec count ++ ", ".toList ++ AddressingMode.text am
  else
    return "BCHG #".toList ++ dec count ++ ", ".toList ++ AddressingMode.text am

/-- disassembler.rs L112-119: `disassemble_bclr`. -/
def bclrText (inst : Instruction) : Option Text := do
  let (am, count) ← inst.operands.effectiveAddressCount
  if bits inst.opcode 8 8 ≠ 0 then
    return "BCLR D".toList ++ dec count ++ ", ".toList ++ AddressingMode.text am
  else
    return "BCLR #".toList ++ dec count ++ ", ".toList ++ AddressingMode.text am

/-- disassembler.rs L121-124: `disassemble_bra`. -/
def braText (inst : Instruction) : Option Text := do
  let disp ← inst.operands.displacement
  return "BRA ".toList ++ sdec disp ++ " <".toList ++ hex (inst.pc + 2 + disp.signExtend 32) ++ ">".toList

/-- disassembler.rs L126-133: `disassemble_bset`. -/
def bsetText (inst : Instruction) : Option Text := do
  let (am, count) ← inst.operands.effectiveAddressCount
  if bits inst.opcode 8 8 ≠ 0 then
    return "BSET D".toList ++ dec count ++ ", ".toList ++ AddressingMode.text am
  else
    return "BSET #".toList ++ dec count ++ ", ".toList ++ AddressingMode.text am

/-- disassembler.rs L135-138: `disassemble_bsr`. -/
def bsrText (inst : Instruction) : Option Text := do
  let disp ← inst.operands.displacement
  return "BSR ".toList ++ sdec disp ++ " <".toList ++ hex (inst.pc + 2 + disp.signExtend 32) ++ ">".toList

/-- disassembler.rs L140-147: `disassemble_btst`. -/
def btstText (inst : Instruction) : Option Text := do
  let (am, count) ← inst.operands.effectiveAddressCount
  if bits inst.opcode 8 8 ≠ 0 then
    return "BTST D".toList ++ dec count ++ ", ".toList ++ AddressingMode.text am
  else
    return "BTST #".toList ++ dec count ++ ", ".toList ++ AddressingMode.text am

/-- disassembler.rs L149-152: `disassemble_chk`. -/
def chkText (inst : Instruction) : Option Text := do
  let (r, am) ← inst.operands.registerEffectiveAddress
  return "CHK.W ".toList ++ AddressingMode.text am ++ ", D".toList ++ dec r

/-- disassembler.rs L154-157: `disassemble_clr`. -/
def clrText (inst : Instruction) : Option Text := do
  let (s, am) ← inst.operands.sizeEffectiveAddress
  return "CLR.".toList ++ Size.text s ++ " ".toList ++ AddressingMode.text am

/-- disassembler.rs L159-162: `disassemble_cmp`. -/
def cmpText (inst : Instruction) : Option Text := do
  let (r, _, s, am) ← inst.operands.registerDirectionSizeEffectiveAddress
  return "CMP.".toList ++ Size.text s ++ " ".toList ++ AddressingMode.text am ++ ", D".toList ++ dec r

/-- disassembler.rs L164-167: `disassemble_cmpa`. -/
def cmpaText (inst : Instruction) : Option Text := do
  let (r, s, am) ← inst.operands.registerSizeEffectiveAddress
  return "CMPA.".toList ++ Size.text s ++ " ".toList ++ AddressingMode.text am ++ ", A".toList ++ dec r

/-- disassembler.rs L169-172: `disassemble_cmpi`. -/
def cmpiText (inst : Instruction) : Option Text := do
  let (s, am, imm) ← inst.operands.sizeEffectiveAddressImmediate
  return "CMPI.".toList ++ Size.text s ++ " #".toList ++ dec imm ++ ", ".toList ++ AddressingMode.text am

/-- disassembler.rs L174-177: `disassemble_cmpm`. -/
def cmpmText (inst : Instruction) : Option Text := do
  let (rx, s, ry) ← inst.operands.registerSizeRegister
  return "CMPM.".toList ++ Size.text s ++ " (A".toList ++ dec ry ++ ")+, (A".toList ++ dec rx ++ ")+".toList

/-- disassembler.rs L179-182: `disassemble_dbcc`. -/
def dbccText (inst : Instruction) : Option Text := do
  let (cc, r, disp) ← inst.operands.conditionRegisterDisplacement
  return "DB".toList ++ (conditionalTest cc) ++ " D".toList ++ dec r ++ ", ".toList ++ sdec disp ++ " <".toList ++ hex (inst.pc + 2 + disp.signExtend 32) ++ ">".toList

/-- disassembler.rs L184-187: `disassemble_divs`. -/
def divsText (inst : Instruction) : Option Text := do
  let (r, am) ← inst.operands.registerEffectiveAddress
  return "DIVS.W ".toList ++ AddressingMode.text am ++ ", D".toList ++ dec r

/-- disassembler.rs L189-192: `disassemble_divu`. -/
def divuText (inst : Instruction) : Option Text := do
  let (r, am) ← inst.operands.registerEffectiveAddress
  return "DIVU.W ".toList ++ AddressingMode.text am ++ ", D".toList ++ dec r

/-- disassembler.rs L194-197: `disassemble_eor`. -/
def eorText (inst : Instruction) : Option Text := do
  let (r, _, s, am) ← inst.operands.registerDirectionSizeEffectiveAddress
  return "EOR.".toList ++ Size.text s ++ " D".toList ++ dec r ++ ", ".toList ++ AddressingMode.text am

/-- disassembler.rs L199-202: `disassemble_eori`. -/
def eoriText (inst : Instruction) : Option Text := do
  let (s, am, imm) ← inst.operands.sizeEffectiveAddressImmediate
  return "EORI.".toList ++ Size.text s ++ " #".toList ++ dec imm ++ ", ".toList ++ AddressingMode.text am

/-- disassembler.rs L204-207: `disassemble_eoriccr`. -/
def eoriccrText (inst : Instruction) : Option Text := do
  let imm ← inst.operands.immediate
  return "EORI ".toList ++ hex imm ++ ", CCR".toList

/-- disassembler.rs L209-212: `disassemble_eorisr`. -/
def eorisrText (inst : Instruction) : Option Text := do
  let imm ← inst.operands.immediate
  return "EORI ".toList ++ hex imm ++ ", SR".toList

/-- disassembler.rs L214-223: `disassemble_exg`. -/
def exgText (inst : Instruction) : Option Text := do
  let (rx, mode, ry) ← inst.operands.registerOpmodeRegister
  if mode = .ExchangeData then
    return "EXG D".toList ++ dec rx ++ ", D".toList ++ dec ry
  else if mode = .ExchangeAddress then
    return "EXG A".toList ++ dec rx ++ ", A".toList ++ dec ry
  else
    return "EXG D".toList ++ dec rx ++ ", A".toList ++ dec ry

/-- disassembler.rs L225-232: `disassemble_ext`. -/
def extText (inst : Instruction) : Option Text := do
  let (mode, r) ← inst.operands.opmodeRegister
  if mode = 0b010 then
    return "EXT.W D".toList ++ dec r
  else
    return "EXT.L D".toList ++ dec r

/-- disassembler.rs L234-236: `disassemble_illegal`. -/
def illegalText (_ : Instruction) : Option Text := do
  return "ILLEGAL".toList

/-- disassembler.rs L238-241: `disassemble_jmp`. -/
def jmpText (inst : Instruction) : Option Text := do
  let am ← inst.operands.effectiveAddress
  return "JMP ".toList ++ AddressingMode.text am

/-- disassembler.rs L243-246: `disassemble_jsr`. -/
def jsrText (inst : Instruction) : Option Text := do
  let am ← inst.operands.effectiveAddress
  return "JSR ".toList ++ AddressingMode.text am

/-- disassembler.rs L248-251: `disassemble_lea`. -/
def leaText (inst : Instruction) : Option Text := do
  let (r, am) ← inst.operands.registerEffectiveAddress
  return "LEA ".toList ++ AddressingMode.text am ++ ", A".toList ++ dec r

/-- disassembler.rs L253-256: `disassemble_link`. -/
def linkText (inst : Instruction) : Option Text := do
  let (r, disp) ← inst.operands.registerDisplacement
  return "LINK.W A".toList ++ dec r ++ ", #".toList ++ sdec disp

/-- disassembler.rs L258-261: `disassemble_lsm`. -/
def lsmText (inst : Instruction) : Option Text := do
  let (d, am) ← inst.operands.directionEffectiveAddress
  return "LS".toList ++ Direction.text d ++ " ".toList ++ AddressingMode.text am

/-- disassembler.rs L263-271: `disassemble_lsr`. -/
def lsrText (inst : Instruction) : Option Text := do
  let (rot, d, s, ir, reg) ← inst.operands.rotationDirectionSizeModeRegister
  if ir then
    return "LS".toList ++ Direction.text d ++ ".".toList ++ Size.text s ++ " D".toList ++ dec rot ++ ", D".toList ++ dec reg
  else
    let rot : U8 := if rot = 0 then 8 else rot
    return "LS".toList ++ Direction.text d ++ ".".toList ++ Size.text s ++ " #".toList ++ dec rot ++ ", D".toList ++ dec reg

/-- disassembler.rs L273-276: `disassemble_move`. -/
def moveText (inst : Instruction) : Option Text := do
  let (s, dst, src) ← inst.operands.sizeEffectiveAddressEffectiveAddress
  return "MOVE.".toList ++ Size.text s ++ " ".toList ++ AddressingMode.text src ++ ", ".toList ++ AddressingMode.text dst

/-- disassembler.rs L278-281: `disassemble_movea`. -/
def moveaText (inst : Instruction) : Option Text := do
  let (s, r, am) ← inst.operands.sizeRegisterEffectiveAddress
  return "MOVEA.".toList ++ Size.text s ++ " ".toList ++ AddressingMode.hexText am ++ ", A".toList ++ dec r

/-- disassembler.rs L283-286: `disassemble_moveccr`. -/
def moveccrText (inst : Instruction) : Option Text := do
  let am ← inst.operands.effectiveAddress
  return "MOVE ".toList ++ AddressingMode.hexText am ++ ", CCR".toList

/-- disassembler.rs L288-291: `disassemble_movefsr`. -/
def movefsrText (inst : Instruction) : Option Text := do
  let am ← inst.operands.effectiveAddress
  return "MOVE SR, ".toList ++ AddressingMode.hexText am

/-- disassembler.rs L293-296: `disassemble_movesr`. -/
def movesrText (inst : Instruction) : Option Text := do
  let am ← inst.operands.effectiveAddress
  return "MOVE ".toList ++ AddressingMode.hexText am ++ ", SR".toList

/-- disassembler.rs L298-305: `disassemble_moveusp`. -/
def moveuspText (inst : Instruction) : Option Text := do
  let (dir, reg) ← inst.operands.directionRegister
  if dir = .UspToRegister then
    return "MOVE USP, A".toList ++ dec reg
  else
    return "MOVE A".toList ++ dec reg ++ ", USP".toList

/-- disassembler.rs L307-315: `disassemble_movem`. -/
def movemText (inst : Instruction) : Option Text := do
  let (d, s, am, list) ← inst.operands.directionSizeEffectiveAddressList
  if d = .MemoryToRegister then
    return "MOVEM.".toList ++ Size.text s ++ " ".toList ++ AddressingMode.text am ++ ", ".toList ++ hex list
  else
    return "MOVEM.".toList ++ Size.text s ++ " ".toList ++ hex list ++ ", ".toList ++ AddressingMode.text am

/-- disassembler.rs L317-324: `disassemble_movep`. -/
def movepText (inst : Instruction) : Option Text := do
  let (dreg, d, s, areg, disp) ← inst.operands.registerDirectionSizeRegisterDisplacement
  if d = .RegisterToMemory then
    return "MOVEP.".toList ++ Size.text s ++ " D".toList ++ dec dreg ++ ", (".toList ++ sdec disp ++ ", A".toList ++ dec areg ++ ")".toList
  else
    return "MOVEP.".toList ++ Size.text s ++ " (".toList ++ sdec disp ++ ", A".toList ++ dec areg ++ "), D".toList ++ dec dreg

/-- disassembler.rs L326-329: `disassemble_moveq`. -/
def moveqText (inst : Instruction) : Option Text := do
  let (r, d) ← inst.operands.registerData
  return "MOVEQ.L #".toList ++ sdec d ++ ", D".toList ++ dec r

/-- disassembler.rs L331-334: `disassemble_muls`. -/
def mulsText (inst : Instruction) : Option Text := do
  let (r, am) ← inst.operands.registerEffectiveAddress
  return "MULS.W ".toList ++ AddressingMode.text am ++ ", D".toList ++ dec r

/-- disassembler.rs L336-339: `disassemble_mulu`. -/
def muluText (inst : Instruction) : Option Text := do
  let (r, am) ← inst.operands.registerEffectiveAddress
  return "MULU.W ".toList ++ AddressingMode.text am ++ ", D".toList ++ dec r

/-- disassembler.rs L341-344: `disassemble_nbcd`. -/
def nbcdText (inst : Instruction) : Option Text := do
  let am ← inst.operands.effectiveAddress
  return "NBCD ".toList ++ AddressingMode.text am

/-- disassembler.rs L346-349: `disassemble_neg`. -/
def negText (inst : Instruction) : Option Text := do
  let (s, am) ← inst.operands.sizeEffectiveAddress
  return "NEG.".toList ++ Size.text s ++ " ".toList ++ AddressingMode.text am

/-- disassembler.rs L351-354: `disassemble_negx`. -/
def negxText (inst : Instruction) : Option Text := do
  let (s, am) ← inst.operands.sizeEffectiveAddress
  return "NEGX.".toList ++ Size.text s ++ " ".toList ++ AddressingMode.text am

/-- disassembler.rs L356-358: `disassemble_nop`. -/
def nopText (_ : Instruction) : Option Text := do
  return "NOP".toList

/-- disassembler.rs L360-363: `disassemble_not`. -/
def notText (inst : Instruction) : Option Text := do
  let (s, am) ← inst.operands.sizeEffectiveAddress
  return "NOT.".toList ++ Size.text s ++ " ".toList ++ AddressingMode.text am

/-- disassembler.rs L365-372: `disassemble_or`. -/
def orText (inst : Instruction) : Option Text := do
  let (r, d, s, am) ← inst.operands.registerDirectionSizeEffectiveAddress
  if d = .DstEa then
    return "OR.".toList ++ Size.text s ++ " D".toList ++ dec r ++ ", ".toList ++ AddressingMode.text am
  else
    return "OR.".toList ++ Size.text s ++ " ".toList ++ AddressingMode.text am ++ ", D".toList ++ dec r

/-- disassembler.rs L374-377: `disassemble_ori`. -/
def oriText (inst : Instruction) : Option Text := do
  let (s, am, imm) ← inst.operands.sizeEffectiveAddressImmediate
  return "ORI.".toList ++ Size.text s ++ " #".toList ++ dec imm ++ ", ".toList ++ AddressingMode.text am

/-- disassembler.rs L379-382: `disassemble_oriccr`. -/
def oriccrText (inst : Instruction) : Option Text := do
  let imm ← inst.operands.immediate
  return "ORI ".toList ++ hex imm ++ ", CCR".toList

/-- disassembler.rs L384-387: `disassemble_orisr`. -/
def orisrText (inst : Instruction) : Option Text := do
  let imm ← inst.operands.immediate
  return "ORI ".toList ++ hex imm ++ ", SR".toList

/-- disassembler.rs L389-392: `disassemble_pea`. -/
def peaText (inst : Instruction) : Option Text := do
  let am ← inst.operands.effectiveAddress
  return "PEA ".toList ++ AddressingMode.text am

/-- disassembler.rs L394-396: `disassemble_reset`. -/
def resetText (_ : Instruction) : Option Text := do
  return "RESET".toList

/-- disassembler.rs L398-401: `disassemble_rom`. -/
def romText (inst : Instruction) : Option Text := do
  let (d, am) ← inst.operands.directionEffectiveAddress
  return "RO".toList ++ Direction.text d ++ " ".toList ++ AddressingMode.text am

/-- disassembler.rs L403-411: `disassemble_ror`. -/
def rorText (inst : Instruction) : Option Text := do
  let (rot, d, s, ir, reg) ← inst.operands.rotationDirectionSizeModeRegister
  if ir then
    return "RO".toList ++ Direction.text d ++ ".".toList ++ Size.text s ++ " D".toList ++ dec rot ++ ", D".toList ++ dec reg
  else
    let rot : U8 := if rot = 0 then 8 else rot
    return "RO".toList ++ Direction.text d ++ ".".toList ++ Size.text s ++ " #".toList ++ dec rot ++ ", D".toList ++ dec reg

/-- disassembler.rs L413-416: `disassemble_roxm`. -/
def roxmText (inst : Instruction) : Option Text := do
  let (d, am) ← inst.operands.directionEffectiveAddress
  return "ROX".toList ++ Direction.text d ++ " ".toList ++ AddressingMode.text am

/-- disassembler.rs L418-426: `disassemble_roxr`. -/
def roxrText (inst : Instruction) : Option Text := do
  let (rot, d, s, ir, reg) ← inst.operands.rotationDirectionSizeModeRegister
  if ir then
    return "ROX".toList ++ Direction.text d ++ ".".toList ++ Size.text s ++ " D".toList ++ dec rot ++ ", D".toList ++ dec reg
  else
    let rot : U8 := if rot = 0 then 8 else rot
    return "ROX".toList ++ Direction.text d ++ ".".toList ++ Size.text s ++ " #".toList ++ dec rot ++ ", D".toList ++ dec reg

/-- disassembler.rs L428-430: `disassemble_rte`. -/
def rteText (_ : Instruction) : Option Text := do
  return "RTE".toList

/-- disassembler.rs L432-434: `disassemble_rtr`. -/
def rtrText (_ : Instruction) : Option Text := do
  return "RTR".toList

/-- disassembler.rs L436-438: `disassemble_rts`. -/
def rtsText (_ : Instruction) : Option Text := do
  return "RTS".toList

/-- disassembler.rs L440-447: `disassemble_sbcd`. -/
def sbcdText (inst : Instruction) : Option Text := do
  let (ry, _, mode, rx) ← inst.operands.registerSizeModeRegister
  if mode = .MemoryToMemory then
    return "SBCD -(A".toList ++ dec rx ++ "), -(A".toList ++ dec ry ++ ")".toList
  else
    return "SBCD D".toList ++ dec rx ++ ", D".toList ++ dec ry

/-- disassembler.rs L449-452: `disassemble_scc`. -/
def sccText (inst : Instruction) : Option Text := do
  let (cc, am) ← inst.operands.conditionEffectiveAddress
  return "S".toList ++ (conditionalTest cc) ++ " ".toList ++ AddressingMode.text am

/-- disassembler.rs L454-457: `disassemble_stop`. -/
def stopText (inst : Instruction) : Option Text := do
  let imm ← inst.operands.immediate
  return "STOP #".toList ++ hex imm

/-- disassembler.rs L459-466: `disassemble_sub`. -/
def subText (inst : Instruction) : Option Text := do
  let (r, d, s, am) ← inst.operands.registerDirectionSizeEffectiveAddress
  if d = .DstEa then
    return "SUB.".toList ++ Size.text s ++ " D".toList ++ dec r ++ ", ".toList ++ AddressingMode.text am
  else
    return "SUB.".toList ++ Size.text s ++ " ".toList ++ AddressingMode.text am ++ ", D".toList ++ dec r

/-- disassembler.rs L468-471: `disassemble_suba`. -/
def subaText (inst : Instruction) : Option Text := do
  let (r, s, am) ← inst.operands.registerSizeEffectiveAddress
  return "SUBA.".toList ++ Size.text s ++ " ".toList ++ AddressingMode.text am ++ ", A".toList ++ dec r

/-- disassembler.rs L473-476: `disassemble_subi`. -/
def subiText (inst : Instruction) : Option Text := do
  let (s, am, imm) ← inst.operands.sizeEffectiveAddressImmediate
  return "SUBI.".toList ++ Size.text s ++ " #".toList ++ dec imm ++ ", ".toList ++ AddressingMode.text am

/-- disassembler.rs L478-482: `disassemble_subq`. -/
def subqText (inst : Instruction) : Option Text := do
  let (d, s, am) ← inst.operands.dataSizeEffectiveAddress
  let d : U8 := if d = 0 then 8 else d
  return "SUBQ.".toList ++ Size.text s ++ " #".toList ++ dec d ++ ", ".toList ++ AddressingMode.text am

/-- disassembler.rs L484-491: `disassemble_subx`. -/
def subxText (inst : Instruction) : Option Text := do
  let (ry, s, mode, rx) ← inst.operands.registerSizeModeRegister
  if mode = .MemoryToMemory then
    return "SUBX.".toList ++ Size.text s ++ " -(A".toList ++ dec rx ++ "), -(A".toList ++ dec ry ++ ")".toList
  else
    return "SUBX.".toList ++ Size.text s ++ " D".toList ++ dec rx ++ ", D".toList ++ dec ry

/-- disassembler.rs L493-496: `disassemble_swap`. -/
def swapText (inst : Instruction) : Option Text := do
  let r ← inst.operands.register
  return "SWAP D".toList ++ dec r

/-- disassembler.rs L498-501: `disassemble_tas`. -/
def tasText (inst : Instruction) : Option Text := do
  let am ← inst.operands.effectiveAddress
  return "TAS ".toList ++ AddressingMode.text am

/-- disassembler.rs L503-506: `disassemble_trap`. -/
def trapText (inst : Instruction) : Option Text := do
  let v ← inst.operands.vector
  return "TRAP #".toList ++ dec v

/-- disassembler.rs L508-510: `disassemble_trapv`. -/
def trapvText (_ : Instruction) : Option Text := do
  return "TRAPV".toList

/-- disassembler.rs L512-515: `disassemble_tst`. -/
def tstText (inst : Instruction) : Option Text := do
  let (s, am) ← inst.operands.sizeEffectiveAddress
  return "TST.".toList ++ Size.text s ++ " ".toList ++ AddressingMode.text am

/-- disassembler.rs L517-520: `disassemble_unlk`. -/
def unlkText (inst : Instruction) : Option Text := do
  let r ← inst.operands.register
  return "UNLK A".toList ++ dec r

/-- disassembler.rs L539-626: the table `DLUT`, indexed by the `Isa` of the opcode. -/
def dlut (isa : Isa) (inst : Instruction) : Option Text :=
  match isa with
  | .Unknown => unknownInstructionText inst
  | .Abcd => abcdText inst
  | .Add => addText inst
  | .Adda => addaText inst
  | .Addi => addiText inst
  | .Addq => addqText inst
  | .Addx => addxText inst
  | .And => andText inst
  | .Andi => andiText inst
  | .Andiccr => andiccrText inst
  | .Andisr => andisrText inst
  | .Asm => asmText inst
  | .Asr => asrText inst
  | .Bcc => bccText inst
  | .Bchg => bchgText inst
  | .Bclr => bclrText inst
  | .Bra => braText inst
  | .Bset => bsetText inst
  | .Bsr => bsrText inst
  | .Btst => btstText inst
  | .Chk => chkText inst
  | .Clr => clrText inst
  | .Cmp => cmpText inst
  | .Cmpa => cmpaText inst
  | .Cmpi => cmpiText inst
  | .Cmpm => cmpmText inst
  | .Dbcc => dbccText inst
  | .Divs => divsText inst
  | .Divu => divuText inst
  | .Eor => eorText inst
  | .Eori => eoriText inst
  | .Eoriccr => eoriccrText inst
  | .Eorisr => eorisrText inst
  | .Exg => exgText inst
  | .Ext => extText inst
  | .Illegal => illegalText inst
  | .Jmp => jmpText inst
  | .Jsr => jsrText inst
  | .Lea => leaText inst
  | .Link => linkText inst
  | .Lsm => lsmText inst
  | .Lsr => lsrText inst
  | .Move => moveText inst
  | .Movea => moveaText inst
  | .Moveccr => moveccrText inst
  | .Movefsr => movefsrText inst
  | .Movesr => movesrText inst
  | .Moveusp => moveuspText inst
  | .Movem => movemText inst
  | .Movep => movepText inst
  | .Moveq => moveqText inst
  | .Muls => mulsText inst
  | .Mulu => muluText inst
  | .Nbcd => nbcdText inst
  | .Neg => negText inst
  | .Negx => negxText inst
  | .Nop => nopText inst
  | .Not => notText inst
  | .Or => orText inst
  | .Ori => oriText inst
  | .Oriccr => oriccrText inst
  | .Orisr => orisrText inst
  | .Pea => peaText inst
  | .Reset => resetText inst
  | .Rom => romText inst
  | .Ror => rorText inst
  | .Roxm => roxmText inst
  | .Roxr => roxrText inst
  | .Rte => rteText inst
  | .Rtr => rtrText inst
  | .Rts => rtsText inst
  | .Sbcd => sbcdText inst
  | .Scc => sccText inst
  | .Stop => stopText inst
  | .Sub => subText inst
  | .Suba => subaText inst
  | .Subi => subiText inst
  | .Subq => subqText inst
  | .Subx => subxText inst
  | .Swap => swapText inst
  | .Tas => tasText inst
  | .Trap => trapText inst
  | .Trapv => trapvText inst
  | .Tst => tstText inst
  | .Unlk => unlkText inst

end Dis

/-- instruction.rs L56-59: `Instruction::disassemble`; `none` is a panic. -/
def Instruction.disassemble (inst : Instruction) : Option Text := Dis.dlut (decoder inst.opcode) inst

end M68k
