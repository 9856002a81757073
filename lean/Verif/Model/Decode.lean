import Verif.Model.Types
import Verif.Model.DecoderTable
/-
Operand decoding: the free functions of `m68000/src/instruction.rs` L718-1030, the constructors
`Operands::new_*` and the table `ISA_ENTRY` of `m68000/src/isa.rs`.
Functions of the opcode alone are also given the type `Dec` since some can panic.
-/
namespace M68k
namespace Decode
variable {M : Type} [MemoryAccess M]

/-- instruction.rs L720-722: `immediate`. -/
def immediate : Dec M U16 := do
  nextWord

/-- instruction.rs L725-741: `size_effective_address_immediate`. -/
def sizeEffectiveAddressImmediate (opcode : U16) : Dec M (Size × AddressingMode × U32) := do
  let size ← Dec.lift (Size.fromU16 (bits opcode 6 7))
  let imm ← (if size.isLong then nextLong else toU32 <$> nextWord)
  let eareg := toU8 (bits opcode 0 2)
  let eamode := bits opcode 3 5
  let am ← AddressingMode.fromMemory eamode eareg (some size)
  return (size, am, imm)

/-- instruction.rs L744-757: `effective_address_count`. -/
def effectiveAddressCount (opcode : U16) : Dec M (AddressingMode × U8) := do
  let count ← (if bit opcode 8 then pure (toU8 (bits opcode 9 11)) else toU8 <$> nextWord)
  let eareg := toU8 (bits opcode 0 2)
  let eamode := bits opcode 3 5
  let size := if eamode = 0 then some Size.Long else some Size.Byte
  let am ← AddressingMode.fromMemory eamode eareg size
  return (am, count)

/-- instruction.rs L760-776: `effective_address`. -/
def effectiveAddress (opcode : U16) : Dec M AddressingMode := do
  let isa := decoder opcode
  let size :=
    if isa = .Nbcd ∨ isa = .Tas then some Size.Byte
    else if isa = .Moveccr ∨ isa = .Movefsr ∨ isa = .Movesr then some Size.Word
    else if isa = .Pea then some Size.Long
    else none
  let eareg := toU8 (bits opcode 0 2)
  let eamode := bits opcode 3 5
  AddressingMode.fromMemory eamode eareg size

/-- instruction.rs L779-785: `size_effective_address`. -/
def sizeEffectiveAddress (opcode : U16) : Dec M (Size × AddressingMode) := do
  let eareg := toU8 (bits opcode 0 2)
  let eamode := bits opcode 3 5
  let size ← Dec.lift (Size.fromU16 (bits opcode 6 7))
  let am ← AddressingMode.fromMemory eamode eareg (some size)
  return (size, am)

/-- instruction.rs L788-802: `register_effective_address`. -/
def registerEffectiveAddress (opcode : U16) : Dec M (U8 × AddressingMode) := do
  let isa := decoder opcode
  let reg := toU8 (bits opcode 9 11)
  let size := if isa = .Lea then some Size.Long else some Size.Word
  let eareg := toU8 (bits opcode 0 2)
  let eamode := bits opcode 3 5
  let am ← AddressingMode.fromMemory eamode eareg size
  return (reg, am)

/-- instruction.rs L805-813: `register_direction_size_register_displacement`. -/
def registerDirectionSizeRegisterDisplacement (opcode : U16) : Dec M (U8 × Direction × Size × U8 × U16) := do
  let dreg := toU8 (bits opcode 9 11)
  let dir := if bit opcode 7 then Direction.RegisterToMemory else Direction.MemoryToRegister
  let size := if bit opcode 6 then Size.Long else Size.Word
  let areg := toU8 (bits opcode 0 2)
  let disp ← nextWord
  return (dreg, dir, size, areg, disp)

/-- instruction.rs L816-824: `size_register_effective_address`. -/
def sizeRegisterEffectiveAddress (opcode : U16) : Dec M (Size × U8 × AddressingMode) := do
  let eareg := toU8 (bits opcode 0 2)
  let eamode := bits opcode 3 5
  let areg := toU8 (bits opcode 9 11)
  let size ← Dec.lift (Size.fromMove (bits opcode 12 13))
  let am ← AddressingMode.fromMemory eamode eareg (some size)
  return (size, areg, am)

/-- instruction.rs L827-840: `size_effective_address_effective_address`. The result is (size, destination, source).-/
def sizeEffectiveAddressEffectiveAddress (opcode : U16) : Dec M (Size × AddressingMode × AddressingMode) := do
  let size ← Dec.lift (Size.fromMove (bits opcode 12 13))
  let eareg := toU8 (bits opcode 0 2)
  let eamode := bits opcode 3 5
  let src ← AddressingMode.fromMemory eamode eareg (some size)
  let eamode := bits opcode 6 8
  let eareg := toU8 (bits opcode 9 11)
  let dst ← AddressingMode.fromMemory eamode eareg (some size)
  return (size, dst, src)

/-- instruction.rs L843-856: `register_opmode_register`. -/
def registerOpmodeRegister (opcode : U16) : Dec M (U8 × Direction × U8) := do
  let regl := toU8 (bits opcode 9 11)
  let opmode := toU8 (bits opcode 3 7)
  let regr := toU8 (bits opcode 0 2)
  let dir :=
    if opmode = 0b01000 then Direction.ExchangeData
    else if opmode = 0b01001 then Direction.ExchangeAddress
    else Direction.ExchangeDataAddress
  return (regl, dir, regr)

/-- instruction.rs L859-864: `opmode_register`. -/
def opmodeRegister (opcode : U16) : Dec M (U8 × U8) := do
  return (toU8 (bits opcode 6 8), toU8 (bits opcode 0 2))

/-- instruction.rs L867-869: `vector`. -/
def vector (opcode : U16) : Dec M U8 := do
  return toU8 (bits opcode 0 3)

/-- instruction.rs L872-877: `register_displacement`. -/
def registerDisplacement (opcode : U16) : Dec M (U8 × U16) := do
  let reg := toU8 (bits opcode 0 2)
  let disp ← nextWord
  return (reg, disp)

/-- instruction.rs L880-882: `register`. -/
def register (opcode : U16) : Dec M U8 := do
  return toU8 (bits opcode 0 2)

/-- instruction.rs L885-890: `direction_register`. -/
def directionRegister (opcode : U16) : Dec M (Direction × U8) := do
  let dir := if bit opcode 3 then Direction.UspToRegister else Direction.RegisterToUsp
  return (dir, toU8 (bits opcode 0 2))

/-- instruction.rs L893-903: `direction_size_effective_address_list`. -/
def directionSizeEffectiveAddressList (opcode : U16) : Dec M (Direction × Size × AddressingMode × U16) := do
  let list ← nextWord
  let dir := if bit opcode 10 then Direction.MemoryToRegister else Direction.RegisterToMemory
  let size := Size.fromBit (bit opcode 6)
  let eareg := toU8 (bits opcode 0 2)
  let eamode := bits opcode 3 5
  let am ← AddressingMode.fromMemory eamode eareg (some size)
  return (dir, size, am, list)

/-- instruction.rs L906-915: `data_size_effective_address`. -/
def dataSizeEffectiveAddress (opcode : U16) : Dec M (U8 × Size × AddressingMode) := do
  let data := toU8 (bits opcode 9 11)
  let size ← Dec.lift (Size.fromU16 (bits opcode 6 7))
  let eareg := toU8 (bits opcode 0 2)
  let eamode := bits opcode 3 5
  let am ← AddressingMode.fromMemory eamode eareg (some size)
  return (data, size, am)

/-- instruction.rs L918-926: `condition_effective_address`. -/
def conditionEffectiveAddress (opcode : U16) : Dec M (U8 × AddressingMode) := do
  let condition := toU8 (bits opcode 8 11)
  let eareg := toU8 (bits opcode 0 2)
  let eamode := bits opcode 3 5
  let am ← AddressingMode.fromMemory eamode eareg (some Size.Byte)
  return (condition, am)

/-- instruction.rs L929-934: `condition_register_displacement`. -/
def conditionRegisterDisplacement (opcode : U16) : Dec M (U8 × U8 × U16) := do
  let disp ← nextWord
  let condition := toU8 (bits opcode 8 11)
  let reg := toU8 (bits opcode 0 2)
  return (condition, reg, disp)

/-- instruction.rs L937-941: `displacement`. -/
def displacement (opcode : U16) : Dec M U16 := do
  let disp : U16 := (toU8 opcode).signExtend 16
  if disp = 0 then nextWord else return disp

/-- instruction.rs L946-950: `condition_displacement`. -/
def conditionDisplacement (opcode : U16) : Dec M (U8 × U16) := do
  let disp : U16 := (toU8 opcode).signExtend 16
  let disp ← (if disp = 0 then nextWord else pure disp)
  let condition := toU8 (bits opcode 8 11)
  return (condition, disp)

/-- instruction.rs L956-961: `register_data`. -/
def registerData (opcode : U16) : Dec M (U8 × U8) := do
  return (toU8 (bits opcode 9 11), toU8 opcode)

/-- instruction.rs L964-974: `register_direction_size_effective_address`. -/
def registerDirectionSizeEffectiveAddress (opcode : U16) : Dec M (U8 × Direction × Size × AddressingMode) := do
  let reg := toU8 (bits opcode 9 11)
  let dir := if bit opcode 8 then Direction.DstEa else Direction.DstReg
  let size ← Dec.lift (Size.fromU16 (bits opcode 6 7))
  let eareg := toU8 (bits opcode 0 2)
  let eamode := bits opcode 3 5
  let am ← AddressingMode.fromMemory eamode eareg (some size)
  return (reg, dir, size, am)

/-- instruction.rs L977-986: `register_size_effective_address`. -/
def registerSizeEffectiveAddress (opcode : U16) : Dec M (U8 × Size × AddressingMode) := do
  let reg := toU8 (bits opcode 9 11)
  let size := Size.fromBit (bit opcode 8)
  let eareg := toU8 (bits opcode 0 2)
  let eamode := bits opcode 3 5
  let am ← AddressingMode.fromMemory eamode eareg (some size)
  return (reg, size, am)

/-- instruction.rs L989-996: `register_size_mode_register`. -/
def registerSizeModeRegister (opcode : U16) : Dec M (U8 × Size × Direction × U8) := do
  let regl := toU8 (bits opcode 9 11)
  let size ← Dec.lift (Size.fromU16 (bits opcode 6 7))
  let mode := if bit opcode 3 then Direction.MemoryToMemory else Direction.RegisterToRegister
  let regr := toU8 (bits opcode 0 2)
  return (regl, size, mode, regr)

/-- instruction.rs L999-1005: `register_size_register`. -/
def registerSizeRegister (opcode : U16) : Dec M (U8 × Size × U8) := do
  let regl := toU8 (bits opcode 9 11)
  let size ← Dec.lift (Size.fromU16 (bits opcode 6 7))
  let regr := toU8 (bits opcode 0 2)
  return (regl, size, regr)

/-- instruction.rs L1008-1015: `direction_effective_address`. -/
def directionEffectiveAddress (opcode : U16) : Dec M (Direction × AddressingMode) := do
  let eareg := toU8 (bits opcode 0 2)
  let eamode := bits opcode 3 5
  let dir := if bit opcode 8 then Direction.Left else Direction.Right
  let am ← AddressingMode.fromMemory eamode eareg (some Size.Byte)
  return (dir, am)

/-- instruction.rs L1018-1026: `rotation_direction_size_mode_register`. -/
def rotationDirectionSizeModeRegister (opcode : U16) : Dec M (U8 × Direction × Size × Bool × U8) := do
  let count := toU8 (bits opcode 9 11)
  let dir := if bit opcode 8 then Direction.Left else Direction.Right
  let size ← Dec.lift (Size.fromU16 (bits opcode 6 7))
  let mode := bit opcode 5
  let reg := toU8 (bits opcode 0 2)
  return (count, dir, size, mode, reg)

/-! `Operands::new_*`, instruction.rs L551-716. -/

/-- instruction.rs L551-553: `Operands::new_no_operands`. -/
def newNoOperands (_ : U16) : Dec M Operands :=
  return .NoOperands

/-- instruction.rs L556-558: `Operands::new_immediate`. -/
def newImmediate (_ : U16) : Dec M Operands := do
  let a ← immediate
  return .Immediate a

/-- instruction.rs L561-564: `Operands::new_size_effective_address_immediate`. -/
def newSizeEffectiveAddressImmediate (opcode : U16) : Dec M Operands := do
  let (a, b, c) ← sizeEffectiveAddressImmediate opcode
  return .SizeEffectiveAddressImmediate a b c

/-- instruction.rs L567-570: `Operands::new_effective_address_count`. -/
def newEffectiveAddressCount (opcode : U16) : Dec M Operands := do
  let (a, b) ← effectiveAddressCount opcode
  return .EffectiveAddressCount a b

/-- instruction.rs L573-575: `Operands::new_effective_address`. -/
def newEffectiveAddress (opcode : U16) : Dec M Operands := do
  let a ← effectiveAddress opcode
  return .EffectiveAddress a

/-- instruction.rs L578-581: `Operands::new_size_effective_address`. -/
def newSizeEffectiveAddress (opcode : U16) : Dec M Operands := do
  let (a, b) ← sizeEffectiveAddress opcode
  return .SizeEffectiveAddress a b

/-- instruction.rs L584-587: `Operands::new_register_effective_address`. -/
def newRegisterEffectiveAddress (opcode : U16) : Dec M Operands := do
  let (a, b) ← registerEffectiveAddress opcode
  return .RegisterEffectiveAddress a b

/-- instruction.rs L590-593: `Operands::new_register_direction_size_register_displacement`. -/
def newRegisterDirectionSizeRegisterDisplacement (opcode : U16) : Dec M Operands := do
  let (a, b, c, d, e) ← registerDirectionSizeRegisterDisplacement opcode
  return .RegisterDirectionSizeRegisterDisplacement a b c d e

/-- instruction.rs L596-599: `Operands::new_size_register_effective_address`. -/
def newSizeRegisterEffectiveAddress (opcode : U16) : Dec M Operands := do
  let (a, b, c) ← sizeRegisterEffectiveAddress opcode
  return .SizeRegisterEffectiveAddress a b c

/-- instruction.rs L602-605: `Operands::new_size_effective_address_effective_address`. -/
def newSizeEffectiveAddressEffectiveAddress (opcode : U16) : Dec M Operands := do
  let (a, b, c) ← sizeEffectiveAddressEffectiveAddress opcode
  return .SizeEffectiveAddressEffectiveAddress a b c

/-- instruction.rs L608-611: `Operands::new_register_opmode_register`. -/
def newRegisterOpmodeRegister (opcode : U16) : Dec M Operands := do
  let (a, b, c) ← registerOpmodeRegister opcode
  return .RegisterOpmodeRegister a b c

/-- instruction.rs L614-617: `Operands::new_opmode_register`. -/
def newOpmodeRegister (opcode : U16) : Dec M Operands := do
  let (a, b) ← opmodeRegister opcode
  return .OpmodeRegister a b

/-- instruction.rs L620-622: `Operands::new_vector`. -/
def newVector (opcode : U16) : Dec M Operands := do
  let a ← vector opcode
  return .Vector a

/-- instruction.rs L625-628: `Operands::new_register_displacement`. -/
def newRegisterDisplacement (opcode : U16) : Dec M Operands := do
  let (a, b) ← registerDisplacement opcode
  return .RegisterDisplacement a b

/-- instruction.rs L631-633: `Operands::new_register`. -/
def newRegister (opcode : U16) : Dec M Operands := do
  let a ← register opcode
  return .Register a

/-- instruction.rs L636-639: `Operands::new_direction_register`. -/
def newDirectionRegister (opcode : U16) : Dec M Operands := do
  let (a, b) ← directionRegister opcode
  return .DirectionRegister a b

/-- instruction.rs L642-645: `Operands::new_direction_size_effective_address_list`. -/
def newDirectionSizeEffectiveAddressList (opcode : U16) : Dec M Operands := do
  let (a, b, c, d) ← directionSizeEffectiveAddressList opcode
  return .DirectionSizeEffectiveAddressList a b c d

/-- instruction.rs L648-651: `Operands::new_data_size_effective_address`. -/
def newDataSizeEffectiveAddress (opcode : U16) : Dec M Operands := do
  let (a, b, c) ← dataSizeEffectiveAddress opcode
  return .DataSizeEffectiveAddress a b c

/-- instruction.rs L654-657: `Operands::new_condition_effective_address`. -/
def newConditionEffectiveAddress (opcode : U16) : Dec M Operands := do
  let (a, b) ← conditionEffectiveAddress opcode
  return .ConditionEffectiveAddress a b

/-- instruction.rs L660-663: `Operands::new_condition_register_displacement`. -/
def newConditionRegisterDisplacement (opcode : U16) : Dec M Operands := do
  let (a, b, c) ← conditionRegisterDisplacement opcode
  return .ConditionRegisterDisplacement a b c

/-- instruction.rs L666-668: `Operands::new_displacement`. -/
def newDisplacement (opcode : U16) : Dec M Operands := do
  let a ← displacement opcode
  return .Displacement a

/-- instruction.rs L671-674: `Operands::new_condition_displacement`. -/
def newConditionDisplacement (opcode : U16) : Dec M Operands := do
  let (a, b) ← conditionDisplacement opcode
  return .ConditionDisplacement a b

/-- instruction.rs L677-680: `Operands::new_register_data`. -/
def newRegisterData (opcode : U16) : Dec M Operands := do
  let (a, b) ← registerData opcode
  return .RegisterData a b

/-- instruction.rs L683-686: `Operands::new_register_direction_size_effective_address`. -/
def newRegisterDirectionSizeEffectiveAddress (opcode : U16) : Dec M Operands := do
  let (a, b, c, d) ← registerDirectionSizeEffectiveAddress opcode
  return .RegisterDirectionSizeEffectiveAddress a b c d

/-- instruction.rs L689-692: `Operands::new_register_size_effective_address`. -/
def newRegisterSizeEffectiveAddress (opcode : U16) : Dec M Operands := do
  let (a, b, c) ← registerSizeEffectiveAddress opcode
  return .RegisterSizeEffectiveAddress a b c

/-- instruction.rs L695-698: `Operands::new_register_size_mode_register`. -/
def newRegisterSizeModeRegister (opcode : U16) : Dec M Operands := do
  let (a, b, c, d) ← registerSizeModeRegister opcode
  return .RegisterSizeModeRegister a b c d

/-- instruction.rs L701-704: `Operands::new_register_size_register`. -/
def newRegisterSizeRegister (opcode : U16) : Dec M Operands := do
  let (a, b, c) ← registerSizeRegister opcode
  return .RegisterSizeRegister a b c

/-- instruction.rs L707-710: `Operands::new_direction_effective_address`. -/
def newDirectionEffectiveAddress (opcode : U16) : Dec M Operands := do
  let (a, b) ← directionEffectiveAddress opcode
  return .DirectionEffectiveAddress a b

/-- instruction.rs L713-716: `Operands::new_rotation_direction_size_mode_register`. -/
def newRotationDirectionSizeModeRegister (opcode : U16) : Dec M Operands := do
  let (a, b, c, d, e) ← rotationDirectionSizeModeRegister opcode
  return .RotationDirectionSizeModeRegister a b c d e

end Decode

variable {M : Type} [MemoryAccess M]

/-- isa.rs L151-237: `IsaEntry::<M>::ISA_ENTRY[isa as usize].decode`. -/
def isaEntryDecode : Isa → U16 → Dec M Operands
  | .Unknown => Decode.newNoOperands
  | .Abcd => Decode.newRegisterSizeModeRegister
  | .Add => Decode.newRegisterDirectionSizeEffectiveAddress
  | .Adda => Decode.newRegisterSizeEffectiveAddress
  | .Addi => Decode.newSizeEffectiveAddressImmediate
  | .Addq => Decode.newDataSizeEffectiveAddress
  | .Addx => Decode.newRegisterSizeModeRegister
  | .And => Decode.newRegisterDirectionSizeEffectiveAddress
  | .Andi => Decode.newSizeEffectiveAddressImmediate
  | .Andiccr => Decode.newImmediate
  | .Andisr => Decode.newImmediate
  | .Asm => Decode.newDirectionEffectiveAddress
  | .Asr => Decode.newRotationDirectionSizeModeRegister
  | .Bcc => Decode.newConditionDisplacement
  | .Bchg => Decode.newEffectiveAddressCount
  | .Bclr => Decode.newEffectiveAddressCount
  | .Bra => Decode.newDisplacement
  | .Bset => Decode.newEffectiveAddressCount
  | .Bsr => Decode.newDisplacement
  | .Btst => Decode.newEffectiveAddressCount
  | .Chk => Decode.newRegisterEffectiveAddress
  | .Clr => Decode.newSizeEffectiveAddress
  | .Cmp => Decode.newRegisterDirectionSizeEffectiveAddress
  | .Cmpa => Decode.newRegisterSizeEffectiveAddress
  | .Cmpi => Decode.newSizeEffectiveAddressImmediate
  | .Cmpm => Decode.newRegisterSizeRegister
  | .Dbcc => Decode.newConditionRegisterDisplacement
  | .Divs => Decode.newRegisterEffectiveAddress
  | .Divu => Decode.newRegisterEffectiveAddress
  | .Eor => Decode.newRegisterDirectionSizeEffectiveAddress
  | .Eori => Decode.newSizeEffectiveAddressImmediate
  | .Eoriccr => Decode.newImmediate
  | .Eorisr => Decode.newImmediate
  | .Exg => Decode.newRegisterOpmodeRegister
  | .Ext => Decode.newOpmodeRegister
  | .Illegal => Decode.newNoOperands
  | .Jmp => Decode.newEffectiveAddress
  | .Jsr => Decode.newEffectiveAddress
  | .Lea => Decode.newRegisterEffectiveAddress
  | .Link => Decode.newRegisterDisplacement
  | .Lsm => Decode.newDirectionEffectiveAddress
  | .Lsr => Decode.newRotationDirectionSizeModeRegister
  | .Move => Decode.newSizeEffectiveAddressEffectiveAddress
  | .Movea => Decode.newSizeRegisterEffectiveAddress
  | .Moveccr => Decode.newEffectiveAddress
  | .Movefsr => Decode.newEffectiveAddress
  | .Movesr => Decode.newEffectiveAddress
  | .Moveusp => Decode.newDirectionRegister
  | .Movem => Decode.newDirectionSizeEffectiveAddressList
  | .Movep => Decode.newRegisterDirectionSizeRegisterDisplacement
  | .Moveq => Decode.newRegisterData
  | .Muls => Decode.newRegisterEffectiveAddress
  | .Mulu => Decode.newRegisterEffectiveAddress
  | .Nbcd => Decode.newEffectiveAddress
  | .Neg => Decode.newSizeEffectiveAddress
  | .Negx => Decode.newSizeEffectiveAddress
  | .Nop => Decode.newNoOperands
  | .Not => Decode.newSizeEffectiveAddress
  | .Or => Decode.newRegisterDirectionSizeEffectiveAddress
  | .Ori => Decode.newSizeEffectiveAddressImmediate
  | .Oriccr => Decode.newImmediate
  | .Orisr => Decode.newImmediate
  | .Pea => Decode.newEffectiveAddress
  | .Reset => Decode.newNoOperands
  | .Rom => Decode.newDirectionEffectiveAddress
  | .Ror => Decode.newRotationDirectionSizeModeRegister
  | .Roxm => Decode.newDirectionEffectiveAddress
  | .Roxr => Decode.newRotationDirectionSizeModeRegister
  | .Rte => Decode.newNoOperands
  | .Rtr => Decode.newNoOperands
  | .Rts => Decode.newNoOperands
  | .Sbcd => Decode.newRegisterSizeModeRegister
  | .Scc => Decode.newConditionEffectiveAddress
  | .Stop => Decode.newImmediate
  | .Sub => Decode.newRegisterDirectionSizeEffectiveAddress
  | .Suba => Decode.newRegisterSizeEffectiveAddress
  | .Subi => Decode.newSizeEffectiveAddressImmediate
  | .Subq => Decode.newDataSizeEffectiveAddress
  | .Subx => Decode.newRegisterSizeModeRegister
  | .Swap => Decode.newRegister
  | .Tas => Decode.newEffectiveAddress
  | .Trap => Decode.newVector
  | .Trapv => Decode.newNoOperands
  | .Tst => Decode.newSizeEffectiveAddress
  | .Unlk => Decode.newRegister

/-- instruction.rs L33-43: `Instruction::from_opcode`. -/
def Instruction.fromOpcode (opcode : U16) (pc : U32) : Dec M Instruction := do
  let isa := decoder opcode
  let operands ← isaEntryDecode isa opcode
  return { opcode, pc, operands }

/-- Outcome of `Instruction::from_memory` (instruction.rs L49-53). -/
inductive FromMemoryRes (M : Type)
  | ok (i : Instruction) (it : Iter M)
  | err (vector : U8) (it : Iter M)
  | panic

/-- instruction.rs L49-53: `Instruction::from_memory`. -/
def Instruction.fromMemory (it : Iter M) : FromMemoryRes M :=
  let pc := it.nextAddr
  match it.next with
  | .ok opcode it1 =>
    match Instruction.fromOpcode opcode pc it1 with
    | some (i, it2) => .ok i it2
    | none => .panic
  | .err v it1 => .err v it1
  | .panic => .panic

end M68k
