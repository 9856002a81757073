import Verif.Model.Types
/-
The assembler, `m68000/src/assembler.rs` and `AddressingMode::assemble*`/`verify` of
`m68000/src/addressing_modes.rs`. A panic (failed `assert!`) is `none`; every function returns the
list of the words it emits (functions returning `u16` or `[u16; 2]` return lists of one or two words).
-/
namespace M68k

/-- addressing_modes.rs L139-160: `AddressingMode::assemble`. -/
def AddressingMode.assemble (am : AddressingMode) (long : Bool) : U16 × List U16 :=
  match am with
  | .Drd reg => (toU16 reg, [])
  | .Ard reg => (1 <<< 3 ||| toU16 reg, [])
  | .Ari reg => (2 <<< 3 ||| toU16 reg, [])
  | .Ariwpo reg => (3 <<< 3 ||| toU16 reg, [])
  | .Ariwpr reg => (4 <<< 3 ||| toU16 reg, [])
  | .Ariwd reg disp => (5 <<< 3 ||| toU16 reg, [disp])
  | .Ariwi8 reg bew => (6 <<< 3 ||| toU16 reg, [bew.word])
  | .AbsShort addr => (7 <<< 3, [addr])
  | .AbsLong addr => (7 <<< 3 ||| 1, [toU16 (addr >>> 16), toU16 addr])
  | .Pciwd _ disp => (7 <<< 3 ||| 2, [disp])
  | .Pciwi8 _ bew => (7 <<< 3 ||| 3, [bew.word])
  | .Immediate imm =>
    if long then (7 <<< 3 ||| 4, [toU16 (imm >>> 16), toU16 imm])
    else (7 <<< 3 ||| 4, [toU16 imm])

/-- addressing_modes.rs L168-181: `AddressingMode::assemble_move_dst`; `none` is a panic. -/
def AddressingMode.assembleMoveDst (am : AddressingMode) : Option (U16 × List U16) :=
  match am with
  | .Drd reg => some (toU16 reg <<< 9, [])
  | .Ard reg => some (toU16 reg <<< 9 ||| 1 <<< 6, [])
  | .Ari reg => some (toU16 reg <<< 9 ||| 2 <<< 6, [])
  | .Ariwpo reg => some (toU16 reg <<< 9 ||| 3 <<< 6, [])
  | .Ariwpr reg => some (toU16 reg <<< 9 ||| 4 <<< 6, [])
  | .Ariwd reg disp => some (toU16 reg <<< 9 ||| 5 <<< 6, [disp])
  | .Ariwi8 reg bew => some (toU16 reg <<< 9 ||| 6 <<< 6, [bew.word])
  | .AbsShort addr => some (7 <<< 6, [addr])
  | .AbsLong addr => some (1 <<< 9 ||| 7 <<< 6, [toU16 (addr >>> 16), toU16 addr])
  | _ => none

/-- addressing_modes.rs L187-202: `AddressingMode::verify`. -/
def AddressingMode.verify (am : AddressingMode) (modes regs : List Nat) : Bool :=
  match am with
  | .Drd reg => reg ≤ 7 && modes.contains 0
  | .Ard reg => reg ≤ 7 && modes.contains 1
  | .Ari reg => reg ≤ 7 && modes.contains 2
  | .Ariwpo reg => reg ≤ 7 && modes.contains 3
  | .Ariwpr reg => reg ≤ 7 && modes.contains 4
  | .Ariwd reg _ => reg ≤ 7 && modes.contains 5
  | .Ariwi8 reg _ => reg ≤ 7 && modes.contains 6
  | .AbsShort _ => modes.contains 7 && regs.contains 0
  | .AbsLong _ => modes.contains 7 && regs.contains 1
  | .Pciwd _ _ => modes.contains 7 && regs.contains 2
  | .Pciwi8 _ _ => modes.contains 7 && regs.contains 3
  | .Immediate _ => modes.contains 7 && regs.contains 4

namespace Asm

/-- assembler.rs L22-55: `Condition`. -/
inductive Condition
  | T | F | HI | LS | CC | CS | NE | EQ | VC | VS | PL | MI | GE | LT | GT | LE
deriving DecidableEq, Repr

/-- assembler.rs L185, L467, L775: `cond as u16`. -/
def Condition.toU16 (c : Condition) : U16 := BitVec.ofNat 16 c.ctorIdx

/-- assembler.rs L58. -/
def MODES_2567 : List Nat := [2, 5, 6, 7]
/-- assembler.rs L60. -/
def MODES_234567 : List Nat := [2, 3, 4, 5, 6, 7]
/-- assembler.rs L62. -/
def MODES_0234567 : List Nat := [0, 2, 3, 4, 5, 6, 7]
/-- assembler.rs L64. -/
def MODES_01234567 : List Nat := [0, 1, 2, 3, 4, 5, 6, 7]

/-- assembler.rs L67-85: `size_effective_address_immediate`. -/
def sizeEffectiveAddressImmediate (bits8_15 : U16) (size : Size) (am : AddressingMode) (imm : U32) : List U16 :=
  let (eafield, eaext) := am.assemble size.isLong
  let opcode := bits8_15 <<< 8 ||| size.intoU16 <<< 6 ||| eafield
  if size.isLong then [opcode, toU16 (imm >>> 16), toU16 imm] ++ eaext
  else if size.isByte then [opcode, toU16 (imm &&& 0xFF)] ++ eaext
  else [opcode, toU16 imm] ++ eaext

/-- assembler.rs L88-99: `effective_address_count`. -/
def effectiveAddressCount (bits6_15 : U16) (am : AddressingMode) (count : U8) : List U16 :=
  let (eafield, eaext) := am.assemble false
  let opcode := (bits6_15 &&& 0x3FF) <<< 6 ||| eafield
  [opcode, toU16 count] ++ eaext

/-- assembler.rs L102-112: `effective_address`. -/
def effectiveAddress (bits6_15 : U16) (am : AddressingMode) : List U16 :=
  let (eafield, eaext) := am.assemble false
  let opcode := (bits6_15 &&& 0x3FF) <<< 6 ||| eafield
  opcode :: eaext

/-- assembler.rs L115-126: `size_effective_address`. -/
def sizeEffectiveAddress (bits8_15 : U16) (size : Size) (am : AddressingMode) : List U16 :=
  let (eafield, eaext) := am.assemble size.isLong
  let opcode := bits8_15 <<< 8 ||| size.intoU16 <<< 6 ||| eafield
  opcode :: eaext

/-- assembler.rs L129-141: `register_effective_address`. -/
def registerEffectiveAddress (bits12_15 reg bits6_8 : U16) (am : AddressingMode) : List U16 :=
  let (eafield, eaext) := am.assemble false
  let opcode := (bits12_15 &&& 0xF) <<< 12 ||| (reg &&& 7) <<< 9 ||| (bits6_8 &&& 7) <<< 6 ||| eafield
  opcode :: eaext

/-- assembler.rs L144-156: `size_effective_address_effective_address`. -/
def sizeEffectiveAddressEffectiveAddress (size : Size) (dst src : AddressingMode) : Option (List U16) := do
  let src := src.assemble size.isLong
  let dst ← dst.assembleMoveDst
  let opcode := size.intoMove <<< 12 ||| dst.1 ||| src.1
  return opcode :: (src.2 ++ dst.2)

/-- assembler.rs L159-161: `register`. -/
def register (bits3_15 : U16) (reg : U8) : U16 :=
  bits3_15 <<< 3 ||| (toU16 reg &&& 7)

/-- assembler.rs L164-177: `data_size_effective_address`. -/
def dataSizeEffectiveAddress (data : U8) (bit8 : U16) (size : Size) (am : AddressingMode) : List U16 :=
  let (eafield, eaext) := am.assemble size.isLong
  let opcode := 0b0101 <<< 12 ||| (toU16 data &&& 7) <<< 9 ||| (bit8 &&& 1) <<< 8 ||| size.intoU16 <<< 6 ||| eafield
  opcode :: eaext

/-- assembler.rs L182-196: `condition_displacement`. The displacement is an `i16`. -/
def conditionDisplacement (cond : Condition) (disp : U16) : List U16 :=
  let opcode := 0b0110 <<< 12 ||| cond.toU16 <<< 8
  if disp.slt (-128) || (127 : U16).slt disp || disp = 0 then [opcode, disp]
  else [opcode ||| M68k.toU16 (toU8 disp)]

/-- assembler.rs L201-214: `register_direction_size_effective_address`. -/
def registerDirectionSizeEffectiveAddress (bits12_15 : U16) (reg : U8) (dir : Direction) (size : Size) (am : AddressingMode) : List U16 :=
  let (eafield, eaext) := am.assemble size.isLong
  let opcode := bits12_15 <<< 12 ||| toU16 reg <<< 9 ||| (if dir = .DstEa then 1 else 0) <<< 8
    ||| size.intoU16 <<< 6 ||| eafield
  opcode :: eaext

/-- assembler.rs L217-230: `register_size_effective_address`. -/
def registerSizeEffectiveAddress (bits12_15 : U16) (reg : U8) (size : Size) (am : AddressingMode) : Option (List U16) := do
  let (eafield, eaext) := am.assemble size.isLong
  let sizeBit ← size.intoBit
  let opcode := bits12_15 <<< 12 ||| (toU16 reg &&& 7) <<< 9 ||| sizeBit <<< 8 ||| 0b11 <<< 6 ||| eafield
  return opcode :: eaext

/-- assembler.rs L235-247: `register_size_mode_register`. -/
def registerSizeModeRegister (bits12_15 : U16) (dst : U8) (size : Size) (bits4_5 : U16) (mode : Direction) (src : U8) : U16 :=
  let opcode := (bits12_15 &&& 0xF) <<< 12 ||| (toU16 dst &&& 7) <<< 9 ||| 1 <<< 8 ||| size.intoU16 <<< 6
    ||| (bits4_5 &&& 3) <<< 4 ||| (toU16 src &&& 7)
  if mode = .MemoryToMemory then opcode ||| 0x0008 else opcode

/-- assembler.rs L250-264: `direction_effective_address`. -/
def directionEffectiveAddress (bits9_15 : U16) (dir : Direction) (bits6_7 : U16) (am : AddressingMode) : List U16 :=
  let (eafield, eaext) := am.assemble false
  let opcode := (bits9_15 &&& 0x7F) <<< 9 ||| (bits6_7 &&& 3) <<< 6 ||| eafield
  (if dir = .Left then opcode ||| 0x0100 else opcode) :: eaext

/-- assembler.rs L267-279: `rotation_direction_size_mode_register`. -/
def rotationDirectionSizeModeRegister (bits12_15 countReg : U16) (dir : Direction) (size : Size) (ir bits3_4 reg : U16) : U16 :=
  let opcode := (bits12_15 &&& 0xF) <<< 12 ||| (countReg &&& 7) <<< 9 ||| size.intoU16 <<< 6 ||| (ir &&& 1) <<< 5
    ||| (bits3_4 &&& 3) <<< 3 ||| (reg &&& 7)
  if dir = .Left then opcode ||| 0x0100 else opcode

/-- assembler.rs L282-287: `abcd`. -/
def abcd (dst : U8) (mode : Direction) (src : U8) : Option (List U16) := do
  guard (dst ≤ 7)
  guard (mode = .RegisterToRegister ∨ mode = .MemoryToMemory)
  guard (src ≤ 7)
  return [registerSizeModeRegister 0b1100 dst .Byte 0 mode src]

/-- assembler.rs L290-300: `add`. -/
def add (reg : U8) (dir : Direction) (size : Size) (am : AddressingMode) : Option (List U16) := do
  guard (reg ≤ 7)
  guard (dir = .DstEa ∨ dir = .DstReg)
  (if dir = .DstEa then guard (am.verify MODES_234567 [0, 1])
   else do
      guard (¬(am.isArd ∧ size.isByte))
      guard (am.verify MODES_01234567 [0, 1, 2, 3, 4]))
  return registerDirectionSizeEffectiveAddress 0b1101 reg dir size am

/-- assembler.rs L302-306: `adda`. -/
def adda (reg : U8) (size : Size) (am : AddressingMode) : Option (List U16) := do
  guard (reg ≤ 7)
  guard (¬size.isByte)
  registerSizeEffectiveAddress 0b1101 reg size am

/-- assembler.rs L308-311: `addi`. -/
def addi (size : Size) (am : AddressingMode) (imm : U32) : Option (List U16) := do
  guard (am.verify MODES_0234567 [0, 1])
  return sizeEffectiveAddressImmediate 0b00000110 size am imm

/-- assembler.rs L314-320: `addq`. -/
def addq (data : U8) (size : Size) (am : AddressingMode) : Option (List U16) := do
  guard (am.verify MODES_01234567 [0, 1])
  guard (¬(am.isArd ∧ size.isByte))
  guard (data ≥ 1 ∧ data ≤ 8)
  let data : U8 := if data = 8 then 0 else data
  return dataSizeEffectiveAddress data 0 size am

/-- assembler.rs L323-328: `addx`. -/
def addx (dst : U8) (size : Size) (mode : Direction) (src : U8) : Option (List U16) := do
  guard (dst ≤ 7)
  guard (mode = .RegisterToRegister ∨ mode = .MemoryToMemory)
  guard (src ≤ 7)
  return [registerSizeModeRegister 0b1101 dst size 0 mode src]

/-- assembler.rs L331-340: `and`. -/
def and (reg : U8) (dir : Direction) (size : Size) (am : AddressingMode) : Option (List U16) := do
  guard (reg ≤ 7)
  guard (dir = .DstEa ∨ dir = .DstReg)
  (if dir = .DstEa then guard (am.verify MODES_234567 [0, 1])
   else guard (am.verify MODES_0234567 [0, 1, 2, 3, 4]))
  return registerDirectionSizeEffectiveAddress 0b1100 reg dir size am

/-- assembler.rs L342-345: `andi`. -/
def andi (size : Size) (am : AddressingMode) (imm : U32) : Option (List U16) := do
  guard (am.verify MODES_0234567 [0, 1])
  return sizeEffectiveAddressImmediate 0b00000010 size am imm

/-- assembler.rs L347-349: `andiccr`. -/
def andiccr (imm : U16) : Option (List U16) := do
  return [0x023C, imm &&& 0x00FF]

/-- assembler.rs L351-353: `andisr`. -/
def andisr (imm : U16) : Option (List U16) := do
  return [0x027C, imm]

/-- assembler.rs L356-360: `asm`. -/
def asm (dir : Direction) (am : AddressingMode) : Option (List U16) := do
  guard (dir = .Left ∨ dir = .Right)
  guard (am.verify MODES_234567 [0, 1])
  return directionEffectiveAddress 0b1110000 dir 0b11 am

/-- assembler.rs L363-368: `asr`. -/
def asr (countReg : U16) (dir : Direction) (size : Size) (regShift : Bool) (reg : U16) : Option (List U16) := do
  guard (countReg ≤ 7)
  guard (dir = .Left ∨ dir = .Right)
  guard (reg ≤ 7)
  return [rotationDirectionSizeModeRegister 0b1110 countReg dir size (boolTo 16 regShift) 0b00 reg]

/-- assembler.rs L371-374: `bcc`. -/
def bcc (cond : Condition) (disp : U16) : Option (List U16) := do
  guard (cond ≠ .T ∧ cond ≠ .F)
  return conditionDisplacement cond disp

/-- assembler.rs L376-380: `bchg_dynamic`. -/
def bchgDynamic (reg : U8) (am : AddressingMode) : Option (List U16) := do
  guard (reg ≤ 7)
  guard (am.verify MODES_0234567 [0, 1])
  return registerEffectiveAddress 0b0000 (toU16 reg) 0b101 am

/-- assembler.rs L382-385: `bchg_static`. -/
def bchgStatic (am : AddressingMode) (count : U8) : Option (List U16) := do
  guard (am.verify MODES_0234567 [0, 1])
  return effectiveAddressCount 0b0000100001 am count

/-- assembler.rs L387-391: `bclr_dynamic`. -/
def bclrDynamic (reg : U8) (am : AddressingMode) : Option (List U16) := do
  guard (reg ≤ 7)
  guard (am.verify MODES_0234567 [0, 1])
  return registerEffectiveAddress 0b0000 (toU16 reg) 0b110 am

/-- assembler.rs L393-396: `bclr_static`. -/
def bclrStatic (am : AddressingMode) (count : U8) : Option (List U16) := do
  guard (am.verify MODES_0234567 [0, 1])
  return effectiveAddressCount 0b0000100010 am count

/-- assembler.rs L399-401: `bra`. -/
def bra (disp : U16) : Option (List U16) := do
  return conditionDisplacement .T disp

/-- assembler.rs L403-407: `bset_dynamic`. -/
def bsetDynamic (reg : U8) (am : AddressingMode) : Option (List U16) := do
  guard (reg ≤ 7)
  guard (am.verify MODES_0234567 [0, 1])
  return registerEffectiveAddress 0b0000 (toU16 reg) 0b111 am

/-- assembler.rs L409-412: `bset_static`. -/
def bsetStatic (am : AddressingMode) (count : U8) : Option (List U16) := do
  guard (am.verify MODES_0234567 [0, 1])
  return effectiveAddressCount 0b0000100011 am count

/-- assembler.rs L415-417: `bsr`. -/
def bsr (disp : U16) : Option (List U16) := do
  return conditionDisplacement .F disp

/-- assembler.rs L419-423: `btst_dynamic`. -/
def btstDynamic (reg : U8) (am : AddressingMode) : Option (List U16) := do
  guard (reg ≤ 7)
  guard (am.verify MODES_0234567 [0, 1, 2, 3, 4])
  return registerEffectiveAddress 0b0000 (toU16 reg) 0b100 am

/-- assembler.rs L425-428: `btst_static`. -/
def btstStatic (am : AddressingMode) (count : U8) : Option (List U16) := do
  guard (am.verify MODES_0234567 [0, 1, 2, 3, 4])
  return effectiveAddressCount 0b0000100000 am count

/-- assembler.rs L430-434: `chk`. -/
def chk (reg : U8) (am : AddressingMode) : Option (List U16) := do
  guard (reg ≤ 7)
  guard (am.verify MODES_0234567 [0, 1, 2, 3, 4])
  return registerEffectiveAddress 0b0100 (toU16 reg) 0b110 am

/-- assembler.rs L436-439: `clr`. -/
def clr (size : Size) (am : AddressingMode) : Option (List U16) := do
  guard (am.verify MODES_0234567 [0, 1])
  return sizeEffectiveAddress 0b01000010 size am

/-- assembler.rs L441-446: `cmp`. -/
def cmp (reg : U8) (size : Size) (am : AddressingMode) : Option (List U16) := do
  guard (reg ≤ 7)
  guard (¬(am.isArd ∧ size.isByte))
  guard (am.verify MODES_01234567 [0, 1, 2, 3, 4])
  return registerDirectionSizeEffectiveAddress 0b1011 reg .DstReg size am

/-- assembler.rs L448-452: `cmpa`. -/
def cmpa (reg : U8) (size : Size) (am : AddressingMode) : Option (List U16) := do
  guard (reg ≤ 7)
  guard (¬size.isByte)
  registerSizeEffectiveAddress 0b1011 reg size am

/-- assembler.rs L454-457: `cmpi`. -/
def cmpi (size : Size) (am : AddressingMode) (imm : U32) : Option (List U16) := do
  guard (am.verify MODES_0234567 [0, 1])
  return sizeEffectiveAddressImmediate 0b00001100 size am imm

/-- assembler.rs L459-463: `cmpm`. -/
def cmpm (ax : U8) (size : Size) (ay : U8) : Option (List U16) := do
  guard (ax ≤ 7)
  guard (ay ≤ 7)
  return [0b10110001 <<< 8 ||| (toU16 ax &&& 7) <<< 9 ||| size.intoU16 <<< 6 ||| 0b001 <<< 3 ||| (toU16 ay &&& 7)]

/-- assembler.rs L465-468: `dbcc`. -/
def dbcc (cond : Condition) (reg : U8) (disp : U16) : Option (List U16) := do
  guard (reg ≤ 7)
  return [0b0101 <<< 12 ||| cond.toU16 <<< 8 ||| 0b11001 <<< 3 ||| (M68k.toU16 reg &&& 7), disp]

/-- assembler.rs L470-474: `divs`. -/
def divs (reg : U8) (am : AddressingMode) : Option (List U16) := do
  guard (reg ≤ 7)
  guard (am.verify MODES_0234567 [0, 1, 2, 3, 4])
  return registerEffectiveAddress 0b1000 (toU16 reg) 0b111 am

/-- assembler.rs L476-480: `divu`. -/
def divu (reg : U8) (am : AddressingMode) : Option (List U16) := do
  guard (reg ≤ 7)
  guard (am.verify MODES_0234567 [0, 1, 2, 3, 4])
  return registerEffectiveAddress 0b1000 (toU16 reg) 0b011 am

/-- assembler.rs L482-486: `eor`. -/
def eor (reg : U8) (size : Size) (am : AddressingMode) : Option (List U16) := do
  guard (reg ≤ 7)
  guard (am.verify MODES_0234567 [0, 1])
  return registerDirectionSizeEffectiveAddress 0b1011 reg .DstEa size am

/-- assembler.rs L488-491: `eori`. -/
def eori (size : Size) (am : AddressingMode) (imm : U32) : Option (List U16) := do
  guard (am.verify MODES_0234567 [0, 1])
  return sizeEffectiveAddressImmediate 0b00001010 size am imm

/-- assembler.rs L493-495: `eoriccr`. -/
def eoriccr (imm : U16) : Option (List U16) := do
  return [0x0A3C, imm &&& 0x00FF]

/-- assembler.rs L497-499: `eorisr`. -/
def eorisr (imm : U16) : Option (List U16) := do
  return [0x0A7C, imm]

/-- assembler.rs L502-514: `exg`. -/
def exg (rx : U8) (dir : Direction) (ry : U8) : Option (List U16) := do
  guard (dir = .ExchangeData ∨ dir = .ExchangeAddress ∨ dir = .ExchangeDataAddress)
  guard (rx ≤ 7)
  guard (ry ≤ 7)
  let opmode : U16 := if dir = .ExchangeData then 0b01000 else if dir = .ExchangeAddress then 0b01001 else 0b10001
  return [0b11000001 <<< 8 ||| toU16 rx <<< 9 ||| opmode <<< 3 ||| (toU16 ry &&& 7)]

/-- assembler.rs L517-520: `ext`. -/
def ext (wordToLong : Bool) (reg : U8) : Option (List U16) := do
  guard (reg ≤ 7)
  return [0b010010001 <<< 7 ||| boolTo 16 wordToLong <<< 6 ||| (toU16 reg &&& 7)]

/-- assembler.rs L522-524: `illegal`. -/
def illegal : Option (List U16) := do
  return [0x4AFC]

/-- assembler.rs L526-529: `jmp`. -/
def jmp (am : AddressingMode) : Option (List U16) := do
  guard (am.verify MODES_2567 [0, 1, 2, 3])
  return effectiveAddress 0b0100111011 am

/-- assembler.rs L531-534: `jsr`. -/
def jsr (am : AddressingMode) : Option (List U16) := do
  guard (am.verify MODES_2567 [0, 1, 2, 3])
  return effectiveAddress 0b0100111010 am

/-- assembler.rs L536-540: `lea`. -/
def lea (reg : U8) (am : AddressingMode) : Option (List U16) := do
  guard (reg ≤ 7)
  guard (am.verify MODES_2567 [0, 1, 2, 3])
  return registerEffectiveAddress 0b0100 (toU16 reg) 0b111 am

/-- assembler.rs L542-545: `link`. -/
def link (reg : U8) (disp : U16) : Option (List U16) := do
  guard (reg ≤ 7)
  return [0b0100111001010 <<< 3 ||| (toU16 reg &&& 7), disp]

/-- assembler.rs L548-552: `lsm`. -/
def lsm (dir : Direction) (am : AddressingMode) : Option (List U16) := do
  guard (dir = .Left ∨ dir = .Right)
  guard (am.verify MODES_234567 [0, 1])
  return directionEffectiveAddress 0b1110001 dir 0b11 am

/-- assembler.rs L555-560: `lsr`. -/
def lsr (countReg : U16) (dir : Direction) (size : Size) (regShift : Bool) (reg : U16) : Option (List U16) := do
  guard (countReg ≤ 7)
  guard (dir = .Left ∨ dir = .Right)
  guard (reg ≤ 7)
  return [rotationDirectionSizeModeRegister 0b1110 countReg dir size (boolTo 16 regShift) 0b01 reg]

/-- assembler.rs L562-566: `move`. -/
def move (size : Size) (dst : AddressingMode) (src : AddressingMode) : Option (List U16) := do
  guard (dst.verify MODES_0234567 [0, 1])
  guard (¬(src.isArd ∧ size.isByte))
  sizeEffectiveAddressEffectiveAddress size dst src

/-- assembler.rs L568-572: `movea`. -/
def movea (size : Size) (dstReg : U8) (src : AddressingMode) : Option (List U16) := do
  guard (dstReg ≤ 7)
  guard (size ≠ .Byte)
  sizeEffectiveAddressEffectiveAddress size (.Ard dstReg) src

/-- assembler.rs L574-577: `moveccr`. -/
def moveccr (am : AddressingMode) : Option (List U16) := do
  guard (am.verify MODES_0234567 [0, 1, 2, 3, 4])
  return effectiveAddress 0b0100010011 am

/-- assembler.rs L579-582: `movefsr`. -/
def movefsr (am : AddressingMode) : Option (List U16) := do
  guard (am.verify MODES_0234567 [0, 1])
  return effectiveAddress 0b0100000011 am

/-- assembler.rs L584-587: `movesr`. -/
def movesr (am : AddressingMode) : Option (List U16) := do
  guard (am.verify MODES_0234567 [0, 1, 2, 3, 4])
  return effectiveAddress 0b0100011011 am

/-- assembler.rs L590-595: `moveusp`. -/
def moveusp (dir : Direction) (reg : U8) : Option (List U16) := do
  guard (dir = .UspToRegister ∨ dir = .RegisterToUsp)
  guard (reg ≤ 7)
  let d : U16 := if dir = .UspToRegister then 1 else 0
  return [0b010011100110 <<< 4 ||| d <<< 3 ||| (toU16 reg &&& 7)]

/-- assembler.rs L598-623: `movem`. -/
def movem (dir : Direction) (size : Size) (am : AddressingMode) (mask : U16) : Option (List U16) := do
  guard (dir = .RegisterToMemory ∨ dir = .MemoryToRegister)
  guard (¬size.isByte)
  let d : U16 := if dir = .MemoryToRegister then 1 else 0
  (if dir = .MemoryToRegister then guard (am.verify [2, 3, 5, 6, 7] [0, 1, 2, 3])
   else guard (am.verify [2, 4, 5, 6, 7] [0, 1]))
  let (eafield, eaext) := am.assemble size.isLong
  let sizeBit ← size.intoBit
  let opcode := 0b01001 <<< 11 ||| d <<< 10 ||| 0b001 <<< 7 ||| sizeBit <<< 6 ||| eafield
  return opcode :: mask :: eaext

/-- assembler.rs L626-642: `movep`. -/
def movep (dataReg : U8) (dir : Direction) (size : Size) (addrReg : U8) (disp : U16) : Option (List U16) := do
  guard (dataReg ≤ 7)
  guard (dir = .RegisterToMemory ∨ dir = .MemoryToRegister)
  guard (¬size.isByte)
  guard (addrReg ≤ 7)
  let opcode := (toU16 dataReg &&& 7) <<< 9 ||| 0b100001 <<< 3 ||| (toU16 addrReg &&& 7)
  let opcode := if dir = .RegisterToMemory then opcode ||| 0x0080 else opcode
  let opcode := if size.isLong then opcode ||| 0x0040 else opcode
  return [opcode, disp]

/-- assembler.rs L644-647: `moveq`. -/
def moveq (reg : U8) (data : U8) : Option (List U16) := do
  guard (reg ≤ 7)
  return [0b0111 <<< 12 ||| toU16 reg <<< 9 ||| toU16 data]

/-- assembler.rs L649-653: `muls`. -/
def muls (reg : U8) (am : AddressingMode) : Option (List U16) := do
  guard (reg ≤ 7)
  guard (am.verify MODES_0234567 [0, 1, 2, 3, 4])
  return registerEffectiveAddress 0b1100 (toU16 reg) 0b111 am

/-- assembler.rs L655-659: `mulu`. -/
def mulu (reg : U8) (am : AddressingMode) : Option (List U16) := do
  guard (reg ≤ 7)
  guard (am.verify MODES_0234567 [0, 1, 2, 3, 4])
  return registerEffectiveAddress 0b1100 (toU16 reg) 0b011 am

/-- assembler.rs L661-664: `nbcd`. -/
def nbcd (am : AddressingMode) : Option (List U16) := do
  guard (am.verify MODES_0234567 [0, 1])
  return effectiveAddress 0b0100100000 am

/-- assembler.rs L666-669: `neg`. -/
def neg (size : Size) (am : AddressingMode) : Option (List U16) := do
  guard (am.verify MODES_0234567 [0, 1])
  return sizeEffectiveAddress 0b01000100 size am

/-- assembler.rs L671-674: `negx`. -/
def negx (size : Size) (am : AddressingMode) : Option (List U16) := do
  guard (am.verify MODES_0234567 [0, 1])
  return sizeEffectiveAddress 0b01000000 size am

/-- assembler.rs L676-678: `nop`. -/
def nop : Option (List U16) := do
  return [0x4E71]

/-- assembler.rs L680-683: `not`. -/
def not (size : Size) (am : AddressingMode) : Option (List U16) := do
  guard (am.verify MODES_0234567 [0, 1])
  return sizeEffectiveAddress 0b01000110 size am

/-- assembler.rs L686-695: `or`. -/
def or (reg : U8) (dir : Direction) (size : Size) (am : AddressingMode) : Option (List U16) := do
  guard (reg ≤ 7)
  guard (dir = .DstEa ∨ dir = .DstReg)
  (if dir = .DstEa then guard (am.verify MODES_234567 [0, 1])
   else guard (am.verify MODES_0234567 [0, 1, 2, 3, 4]))
  return registerDirectionSizeEffectiveAddress 0b1000 reg dir size am

/-- assembler.rs L697-700: `ori`. -/
def ori (size : Size) (am : AddressingMode) (imm : U32) : Option (List U16) := do
  guard (am.verify MODES_0234567 [0, 1])
  return sizeEffectiveAddressImmediate 0b00000000 size am imm

/-- assembler.rs L702-704: `oriccr`. -/
def oriccr (imm : U16) : Option (List U16) := do
  return [0x003C, imm &&& 0x00FF]

/-- assembler.rs L706-708: `orisr`. -/
def orisr (imm : U16) : Option (List U16) := do
  return [0x007C, imm]

/-- assembler.rs L710-713: `pea`. -/
def pea (am : AddressingMode) : Option (List U16) := do
  guard (am.verify MODES_2567 [0, 1, 2, 3])
  return effectiveAddress 0b0100100001 am

/-- assembler.rs L715-717: `reset`. -/
def reset : Option (List U16) := do
  return [0x4E70]

/-- assembler.rs L720-724: `rom`. -/
def rom (dir : Direction) (am : AddressingMode) : Option (List U16) := do
  guard (dir = .Left ∨ dir = .Right)
  guard (am.verify MODES_234567 [0, 1])
  return directionEffectiveAddress 0b1110011 dir 0b11 am

/-- assembler.rs L727-732: `ror`. -/
def ror (countReg : U16) (dir : Direction) (size : Size) (regShift : Bool) (reg : U16) : Option (List U16) := do
  guard (countReg ≤ 7)
  guard (dir = .Left ∨ dir = .Right)
  guard (reg ≤ 7)
  return [rotationDirectionSizeModeRegister 0b1110 countReg dir size (boolTo 16 regShift) 0b11 reg]

/-- assembler.rs L735-739: `roxm`. -/
def roxm (dir : Direction) (am : AddressingMode) : Option (List U16) := do
  guard (dir = .Left ∨ dir = .Right)
  guard (am.verify MODES_234567 [0, 1])
  return directionEffectiveAddress 0b1110010 dir 0b11 am

/-- assembler.rs L742-747: `roxr`. -/
def roxr (countReg : U16) (dir : Direction) (size : Size) (regShift : Bool) (reg : U16) : Option (List U16) := do
  guard (countReg ≤ 7)
  guard (dir = .Left ∨ dir = .Right)
  guard (reg ≤ 7)
  return [rotationDirectionSizeModeRegister 0b1110 countReg dir size (boolTo 16 regShift) 0b10 reg]

/-- assembler.rs L749-751: `rte`. -/
def rte : Option (List U16) := do
  return [0x4E73]

/-- assembler.rs L753-755: `rtr`. -/
def rtr : Option (List U16) := do
  return [0x4E77]

/-- assembler.rs L757-759: `rts`. -/
def rts : Option (List U16) := do
  return [0x4E75]

/-- assembler.rs L762-767: `sbcd`. -/
def sbcd (dst : U8) (mode : Direction) (src : U8) : Option (List U16) := do
  guard (dst ≤ 7)
  guard (mode = .RegisterToRegister ∨ mode = .MemoryToMemory)
  guard (src ≤ 7)
  return [registerSizeModeRegister 0b1000 dst .Byte 0 mode src]

/-- assembler.rs L769-782: `scc`. -/
def scc (cond : Condition) (am : AddressingMode) : Option (List U16) := do
  guard (am.verify MODES_0234567 [0, 1])
  let (eafield, eaext) := am.assemble false
  let opcode := 0b0101 <<< 12 ||| cond.toU16 <<< 8 ||| 0b11 <<< 6 ||| eafield
  return opcode :: eaext

/-- assembler.rs L784-786: `stop`. -/
def stop (sr : U16) : Option (List U16) := do
  return [0x4E72, sr]

/-- assembler.rs L789-799: `sub`. -/
def sub (reg : U8) (dir : Direction) (size : Size) (am : AddressingMode) : Option (List U16) := do
  guard (reg ≤ 7)
  guard (dir = .DstEa ∨ dir = .DstReg)
  (if dir = .DstEa then guard (am.verify MODES_234567 [0, 1])
   else do
      guard (¬(am.isArd ∧ size.isByte))
      guard (am.verify MODES_01234567 [0, 1, 2, 3, 4]))
  return registerDirectionSizeEffectiveAddress 0b1001 reg dir size am

/-- assembler.rs L801-805: `suba`. -/
def suba (reg : U8) (size : Size) (am : AddressingMode) : Option (List U16) := do
  guard (reg ≤ 7)
  guard (¬size.isByte)
  registerSizeEffectiveAddress 0b1001 reg size am

/-- assembler.rs L807-810: `subi`. -/
def subi (size : Size) (am : AddressingMode) (imm : U32) : Option (List U16) := do
  guard (am.verify MODES_0234567 [0, 1])
  return sizeEffectiveAddressImmediate 0b00000100 size am imm

/-- assembler.rs L813-819: `subq`. -/
def subq (data : U8) (size : Size) (am : AddressingMode) : Option (List U16) := do
  guard (am.verify MODES_01234567 [0, 1])
  guard (¬(am.isArd ∧ size.isByte))
  guard (data ≥ 1 ∧ data ≤ 8)
  let data : U8 := if data = 8 then 0 else data
  return dataSizeEffectiveAddress data 1 size am

/-- assembler.rs L822-827: `subx`. -/
def subx (dst : U8) (size : Size) (mode : Direction) (src : U8) : Option (List U16) := do
  guard (dst ≤ 7)
  guard (mode = .RegisterToRegister ∨ mode = .MemoryToMemory)
  guard (src ≤ 7)
  return [registerSizeModeRegister 0b1001 dst size 0 mode src]

/-- assembler.rs L829-832: `swap`. -/
def swap (reg : U8) : Option (List U16) := do
  guard (reg ≤ 7)
  return [register 0b0100100001000 reg]

/-- assembler.rs L834-837: `tas`. -/
def tas (am : AddressingMode) : Option (List U16) := do
  guard (am.verify MODES_0234567 [0, 1])
  return effectiveAddress 0b0100101011 am

/-- assembler.rs L839-842: `trap`. -/
def trap (vector : U8) : Option (List U16) := do
  guard (vector ≤ 15)
  return [0b010011100100 <<< 4 ||| toU16 vector]

/-- assembler.rs L844-846: `trapv`. -/
def trapv : Option (List U16) := do
  return [0x4E76]

/-- assembler.rs L848-851: `tst`. -/
def tst (size : Size) (am : AddressingMode) : Option (List U16) := do
  guard (am.verify MODES_0234567 [0, 1])
  return sizeEffectiveAddress 0b01001010 size am

/-- assembler.rs L853-856: `unlk`. -/
def unlk (reg : U8) : Option (List U16) := do
  guard (reg ≤ 7)
  return [register 0b0100111001011 reg]

end Asm
end M68k
