import Verif.Model.Assembler
/-
The unit tests of m68000/tests/assembler.rs, run on the model: a check that the model agrees with what the authors of the code expect of it. These are tests, not
proofs of a property; each check is evaluated by the kernel. `assert_eq!` is `same`, `catch_unwind(..).unwrap_err()` is `panics`. Loops over all 65536 words are stated for all words.
-/
namespace M68k.Tests
open Asm Size Direction

abbrev AM := AddressingMode

/-- L18-32: `ALL_DIRECTIONS`. -/
def allDirections : List Direction := [RegisterToMemory, MemoryToRegister, DstReg, DstEa, Left, Right, RegisterToUsp, UspToRegister, RegisterToRegister, MemoryToMemory,
  ExchangeData, ExchangeAddress, ExchangeDataAddress]

def sizes : List Size := [Byte, Word, Long]
def regs : List U8 := [0, 1, 2, 3, 4, 5, 6, 7, 8, 9]
def conditions : List Condition := [.T, .F, .HI, .LS, .CC, .CS, .NE, .EQ, .VC, .VS, .PL, .MI, .GE, .LT, .GT, .LE]

def same (x : Option (List U16)) (ws : List U16) : Bool := x == some ws
def panics (x : Option (List U16)) : Bool := x.isNone

/-- The word of `BEW::new(address, reg, long, disp)`, in calls that do not panic. -/
def bewOf (address : Bool) (reg : U8) (long : Bool) (disp : U8) : BriefExtensionWord := (BriefExtensionWord.new address reg long disp).getD ⟨0⟩
def bew : BriefExtensionWord := bewOf true 0 true 0

/-- L59-65: `assemble_am`. -/
def assembleAm (opcode : U16) (am : AM) : List U16 := (opcode ||| (am.assemble false).1) :: (am.assemble false).2

/-- L67-75: `assemble_move_am`. -/
def assembleMoveAm (opcode : U16) (dst src : AM) : List U16 :=
  match dst.assembleMoveDst with
  | some d => (opcode ||| d.1 ||| (src.assemble false).1) :: ((src.assemble false).2 ++ d.2)
  | none => []

/-- L77-84: `immediate_assemble_am`. -/
def immediateAssembleAm (opcode imm : U16) (am : AM) : List U16 := (opcode ||| (am.assemble false).1) :: imm :: (am.assemble false).2

/-- L86-93: `immediate_long_assemble_am`. -/
def immediateLongAssembleAm (opcode : U16) (imm : U32) (am : AM) : List U16 :=
  (opcode ||| (am.assemble false).1) :: toU16 (imm >>> 16) :: toU16 imm :: (am.assemble false).2

/-- L95-102: `assemble_am_immediate`. -/
def assembleAmImmediate (opcode : U16) (data : U32) (long : Bool) : List U16 :=
  (opcode ||| ((AddressingMode.Immediate data).assemble long).1) :: ((AddressingMode.Immediate data).assemble long).2

/-- L104-113: `assemble_move_am_immediate`. -/
def assembleMoveAmImmediate (opcode : U16) (dst : AM) (data : U32) (long : Bool) : List U16 :=
  match dst.assembleMoveDst with
  | some d => (opcode ||| d.1 ||| ((AddressingMode.Immediate data).assemble long).1) :: (((AddressingMode.Immediate data).assemble long).2 ++ d.2)
  | none => []

/-- L115-156: `size_effective_address_immediate`. -/
def sizeEffectiveAddressImmediate (asm : Size → AM → U32 → Option (List U16)) (opcode : U16) : Bool :=
  sizes.all fun size => ([1, 0x106, 0x10005, 0x1000007] : List U32).all fun imm =>
    let opcode := opcode ||| size.intoU16 <<< 6
    (if size.isLong then
      ([.Drd (imm.setWidth 8), .Ari (imm.setWidth 8), .Ariwpo (imm.setWidth 8), .Ariwpr (imm.setWidth 8), .Ariwd (imm.setWidth 8) 0, .Ariwi8 (imm.setWidth 8) bew, .AbsShort 0xFF00,
        .AbsLong 0xFF0000] : List AM).all fun am => same (asm size am imm) (immediateLongAssembleAm opcode imm am)
    else
      let imm := if size.isByte then imm &&& 0xFF else imm
      ([.Drd (imm.setWidth 8), .Ari (imm.setWidth 8), .Ariwpo (imm.setWidth 8), .Ariwpr (imm.setWidth 8), .Ariwd (imm.setWidth 8) 0, .Ariwi8 (imm.setWidth 8) bew, .AbsShort 0xFF00,
        .AbsLong 0xFF0000] : List AM).all fun am => same (asm size am imm) (immediateAssembleAm opcode (toU16 imm) am)) &&
    ([.Ard (imm.setWidth 8), .Pciwd 0 0, .Pciwi8 0 bew, .Immediate 0] : List AM).all fun am => panics (asm size am imm)

/-- L158-223: `effective_address_count`. -/
def effectiveAddressCount (dyn : U8 → AM → Option (List U16)) (sta : AM → U8 → Option (List U16)) (opcode : U16) (isBtst : Bool) : Bool :=
  regs.all fun reg =>
    let opcodeDynamic := opcode ||| 0x0100 ||| toU16 reg <<< 9
    let opcodeStatic := opcode ||| 0x0800
    if reg ≤ 7 then
      ((([.Drd reg, .Ari reg, .Ariwpo reg, .Ariwpr reg, .Ariwd reg 0, .Ariwi8 reg bew, .AbsShort 0xFF00, .AbsLong 0xFF0000] : List AM) ++
        (show List AM from if isBtst then [.Pciwd 0 0, .Pciwi8 0 bew, .Immediate 0xFF00] else [])).all fun am =>
          same (dyn reg am) (assembleAm opcodeDynamic am) && same (sta am reg) (immediateAssembleAm opcodeStatic (toU16 reg) am)) &&
      (([.Ard reg] : List AM) ++ (show List AM from if isBtst then [] else [.Pciwd 0 0, .Pciwi8 0 bew, .Immediate 0])).all fun am => panics (dyn reg am) && panics (sta am reg)
    else ([.Drd reg, .Ari reg, .Ariwpo reg, .Ariwpr reg, .Ariwd reg 0, .Ariwi8 reg bew] : List AM).all fun am => panics (dyn reg am) && panics (sta am reg)

inductive Family | jump | source | other

/-- L225-270: `effective_address`. `jump` is JMP, JSR and PEA, `source` is MOVE to CCR and MOVE to SR. -/
def effectiveAddress (asm : AM → Option (List U16)) (opcode : U16) (f : Family) : Bool :=
  regs.all fun reg =>
    if reg ≤ 7 then
      ((([.Ari reg, .Ariwd reg 0, .Ariwi8 reg bew, .AbsShort 0xFF00, .AbsLong 0xFF0000] : List AM) ++
        (match f with
          | .jump => [.Pciwd 0 0, .Pciwi8 0 bew]
          | .source => [.Drd reg, .Ariwpo reg, .Ariwpr reg, .Pciwd 0 0, .Pciwi8 0 bew, .Immediate 0xFF00]
          | .other => [.Drd reg, .Ariwpo reg, .Ariwpr reg])).all fun am => same (asm am) (assembleAm opcode am)) &&
      (([.Ard reg] : List AM) ++
        (match f with
          | .jump => [.Drd reg, .Ariwpo reg, .Ariwpr reg]
          | .source => []
          | .other => [.Pciwd 0 0, .Pciwi8 0 bew, .Immediate 0])).all fun am => panics (asm am)
    else (([.Drd reg, .Ari reg, .Ariwpo reg, .Ariwpr reg, .Ariwd reg 0, .Ariwi8 reg bew] : List AM) ++
        (match f with | .source => [] | _ => [.Immediate 0])).all fun am => panics (asm am)

/-- L272-309: `size_effective_address`. -/
def sizeEffectiveAddress (asm : Size → AM → Option (List U16)) (opcode : U16) : Bool :=
  sizes.all fun size => regs.all fun reg =>
    let opcode := opcode ||| size.intoU16 <<< 6
    if reg ≤ 7 then
      (([.Drd reg, .Ari reg, .Ariwpo reg, .Ariwpr reg, .Ariwd reg 0, .Ariwi8 reg bew, .AbsShort 0xFF00, .AbsLong 0xFF0000] : List AM).all fun am =>
        same (asm size am) (assembleAm opcode am)) &&
      ([.Ard reg, .Pciwd 0 0, .Pciwi8 0 bew, .Immediate 0] : List AM).all fun am => panics (asm size am)
    else ([.Drd reg, .Ari reg, .Ariwpo reg, .Ariwpr reg, .Ariwd reg 0, .Ariwi8 reg bew, .Pciwd 0 0, .Pciwi8 0 bew, .Immediate 0] : List AM).all fun am => panics (asm size am)

/-- L311-355: `register_effective_address`. -/
def registerEffectiveAddress (asm : U8 → AM → Option (List U16)) (opcode : U16) (isLea : Bool) : Bool :=
  regs.all fun reg =>
    let opcode := opcode ||| toU16 reg <<< 9
    if reg ≤ 7 then
      ((([.Ari reg, .Ariwd reg 0, .Ariwi8 reg bew, .AbsShort 0xFF00, .AbsLong 0xFF0000, .Pciwd 0 0, .Pciwi8 0 bew] : List AM) ++
        (show List AM from if isLea then [] else [.Drd reg, .Ariwpo reg, .Ariwpr reg, .Immediate 0xFF00])).all fun am => same (asm reg am) (assembleAm opcode am)) &&
      (([.Ard reg] : List AM) ++ (show List AM from if isLea then [.Drd reg, .Ariwpo reg, .Ariwpr reg, .Immediate 0xFF00] else [])).all fun am => panics (asm reg am)
    else ([.Drd reg, .Ari reg, .Ariwpo reg, .Ariwpr reg, .Ariwd reg 0, .Ariwi8 reg bew, .Pciwd 0 0, .Pciwi8 0 bew, .Immediate 0] : List AM).all fun am => panics (asm reg am)

/-- L357-398: `data_size_effective_address`. -/
def dataSizeEffectiveAddress (asm : U8 → Size → AM → Option (List U16)) (opcode : U16) : Bool :=
  regs.all fun data => sizes.all fun size =>
    if 1 ≤ data ∧ data ≤ 8 then
      let reg := if data ≠ 8 then data else 0
      let opcode := opcode ||| toU16 reg <<< 9 ||| size.intoU16 <<< 6
      (([.Drd reg, .Ari reg, .Ariwpo reg, .Ariwpr reg, .Ariwd reg 0, .Ariwi8 reg bew, .AbsShort 0xFF00, .AbsLong 0xFF0000] : List AM) ++
        (show List AM from if size.isByte then [] else [.Ard reg])).all fun am => same (asm data size am) (assembleAm opcode am)
    else
      (([.Drd 0, .Ari 0, .Ariwpo 0, .Ariwpr 0, .Ariwd 0 0, .Ariwi8 0 bew, .AbsShort 0, .AbsLong 0, .Pciwd 0 0, .Pciwi8 0 bew, .Immediate 0] : List AM).all fun am =>
        panics (asm data size am)) && panics (asm data Byte (.Ard 0))

/-- L400-435: `register_direction_size_effective_address`. -/
def registerDirectionSizeEffectiveAddress (asm : U8 → Direction → Size → AM → Option (List U16)) (opcode : U16) (dirs : List Direction) : Bool :=
  regs.all fun reg => allDirections.all fun dir => sizes.all fun size =>
    let bew := if reg ≤ 7 then bewOf true (7 - reg) true 0xF0 else bewOf true 2 true 0xF0
    (decide (reg ≤ 7) || (BriefExtensionWord.new true reg true 0xF0).isNone) &&
    if reg ≤ 7 ∧ dirs.contains dir then
      let opcode := opcode ||| (if dir = DstEa then 1 <<< 8 else 0) ||| size.intoU16 <<< 6 ||| toU16 reg <<< 9
      (if dir = DstReg then
        same (asm reg dir size (.Drd reg)) [opcode ||| toU16 reg] &&
        (if size ≠ Byte ∧ opcode &&& 0xF000 ≠ 0xC000 ∧ opcode &&& 0xF000 ≠ 0x8000 then same (asm reg dir size (.Ard reg)) [opcode ||| 8 ||| toU16 reg] else true)
      else true) &&
      ((([.Ari reg, .Ariwpo reg, .Ariwpr reg, .Ariwd reg 12, .Ariwi8 reg bew, .AbsShort 0xFF00, .AbsLong 0xFF0000] : List AM) ++
        (show List AM from if dir = DstReg then [.Pciwd 0 12, .Pciwi8 0 bew] else [])).all fun am => same (asm reg dir size am) (assembleAm opcode am)) &&
      (if dir = DstReg then same (asm reg dir size (.Immediate 16)) (assembleAmImmediate opcode 16 size.isLong) else true)
    else if dirs.length = 2 then
      ([.Ari reg, .Ariwpo reg, .Ariwpr reg, .Ariwd reg (-13), .Ariwi8 reg bew, .AbsShort 14, .AbsLong 14, .Pciwd 0 (-14), .Pciwi8 0 bew, .Immediate 12] : List AM).all fun am =>
        panics (asm reg dir size am)
    else true

/-- L437-478: `register_size_effective_address`. -/
def registerSizeEffectiveAddress (asm : U8 → Size → AM → Option (List U16)) (opcode : U16) : Bool :=
  regs.all fun reg => sizes.all fun size =>
    let bew := if reg ≤ 7 then bewOf true reg true 0xF0 else bewOf true 1 true 0xF0
    if reg ≤ 7 ∧ (size = Word ∨ size = Long) then
      let opcode := opcode ||| 0x00C0 ||| (if size = Long then 1 <<< 8 else 0) ||| toU16 reg <<< 9
      ([.Ari reg, .Ariwpo reg, .Ariwpr reg, .Ariwd reg 12, .Ariwi8 reg bew, .AbsShort 0xFF00, .AbsLong 0xFF0000, .Pciwd 0 12, .Pciwi8 0 bew] : List AM).all fun am =>
        same (asm reg size am) (assembleAm opcode am)
    else
      ([.Ari reg, .Ariwpo reg, .Ariwpr reg, .Ariwd reg (-13), .Ariwi8 reg bew, .AbsShort 14, .AbsLong 14, .Pciwd 0 (-14), .Pciwi8 0 bew, .Immediate 12] : List AM).all fun am =>
        panics (asm reg size am)

/-- L480-520: `direction_effective_address`. -/
def directionEffectiveAddress (asm : Direction → AM → Option (List U16)) (opcode : U16) : Bool :=
  allDirections.all fun dir => regs.all fun reg =>
    let bew := if reg ≤ 7 then bewOf true (7 - reg) true 0xF0 else bewOf true 2 true 0xF0
    if reg ≤ 7 ∧ (dir = Left ∨ dir = Right) then
      let opcode := opcode ||| if dir = Left then 1 <<< 8 else 0
      ([.Ari reg, .Ariwpo reg, .Ariwpr reg, .Ariwd reg (-13), .Ariwi8 reg bew, .AbsShort 0x4321, .AbsLong 0x76543210] : List AM).all fun am => same (asm dir am) (assembleAm opcode am)
    else
      (([.Ari reg, .Ariwpo reg, .Ariwpr reg, .Ariwd reg (-13), .Ariwi8 reg bew, .Pciwd 0 (-14), .Pciwi8 0 bew, .Immediate 12] : List AM) ++
        (show List AM from if dir ≠ Left ∧ dir ≠ Right then [.AbsShort 14, .AbsLong 14] else [])).all fun am => panics (asm dir am)

/-- L522-548: `rotation_direction_size_mode_register`. -/
def rotationDirectionSizeModeRegister (asm : U16 → Direction → Size → Bool → U16 → Option (List U16)) (opcode : U16) : Bool :=
  regs.all fun count => allDirections.all fun dir => sizes.all fun size => [false, true].all fun ir => regs.all fun reg =>
    if count ≤ 7 ∧ reg ≤ 7 ∧ (dir = Left ∨ dir = Right) then
      same (asm (toU16 count) dir size ir (toU16 reg))
        [opcode ||| toU16 count <<< 9 ||| (if dir = Left then 1 <<< 8 else 0) ||| size.intoU16 <<< 6 ||| (if ir then 1 <<< 5 else 0) ||| toU16 reg]
    else panics (asm (toU16 count) dir size ir (toU16 reg))

/-- The loops of `assembler_abcd`, `assembler_addx`, `assembler_sbcd` and `assembler_subx`. -/
def pairTest (asm : U8 → Direction → U8 → Option (List U16)) (opcode : U16) : Bool :=
  regs.all fun dst => allDirections.all fun mode => regs.all fun src =>
    if dst ≤ 7 ∧ src ≤ 7 ∧ (mode = RegisterToRegister ∨ mode = MemoryToMemory) then
      same (asm dst mode src) [opcode ||| toU16 dst <<< 9 ||| (if mode = MemoryToMemory then 1 <<< 3 else 0) ||| toU16 src]
    else panics (asm dst mode src)

/-- A function with one register. -/
def registerTest (asm : U8 → Option (List U16)) (opcode : U16) (more : List U16) : Bool :=
  regs.all fun reg => if reg ≤ 7 then same (asm reg) ((opcode ||| toU16 reg) :: more) else panics (asm reg)

/-! ### The tests, in order -/

example : pairTest Asm.abcd 0xC100 = true := by decide +kernel
example : registerDirectionSizeEffectiveAddress Asm.add 0xD000 [DstEa, DstReg] = true := by decide +kernel
example : registerSizeEffectiveAddress Asm.adda 0xD000 = true := by decide +kernel
example : sizeEffectiveAddressImmediate Asm.addi 0x0600 = true := by decide +kernel
example : dataSizeEffectiveAddress Asm.addq 0x5000 = true := by decide +kernel
example : (sizes.all fun size => pairTest (fun d m s => Asm.addx d size m s) (0xD100 ||| size.intoU16 <<< 6)) = true := by decide +kernel
example : registerDirectionSizeEffectiveAddress Asm.and 0xC000 [DstEa, DstReg] = true := by decide +kernel
example : sizeEffectiveAddressImmediate Asm.andi 0x0200 = true := by decide +kernel
example (imm : U16) : Asm.andiccr imm = some [0x023C, imm &&& 0x00FF] := rfl
example (imm : U16) : Asm.andisr imm = some [0x027C, imm] := rfl
example : directionEffectiveAddress Asm.asm 0xE0C0 = true := by decide +kernel
example : rotationDirectionSizeModeRegister Asm.asr 0xE000 = true := by decide +kernel
/-- `assembler_bcc`. -/
def bccTest : Bool := conditions.all fun cc =>
  let bcc : U16 := 0x6000 ||| cc.toU16 <<< 8
  if cc.toU16 ≥ 2 then same (Asm.bcc cc 0) [bcc, 0] && same (Asm.bcc cc (-10)) [bcc ||| 0xF6] && same (Asm.bcc cc (-30000)) [bcc, -30000]
  else panics (Asm.bcc cc 0) && panics (Asm.bcc cc (-10)) && panics (Asm.bcc cc (-30000))
example : bccTest = true := by decide +kernel
example : effectiveAddressCount Asm.bchgDynamic Asm.bchgStatic 0x0040 false = true := by decide +kernel
example : effectiveAddressCount Asm.bclrDynamic Asm.bclrStatic 0x0080 false = true := by decide +kernel
example : Asm.bra 0 = some [0x6000, 0] ∧ Asm.bra (-10) = some [0x60F6] ∧ Asm.bra (-30000) = some [0x6000, -30000] := by decide
example : effectiveAddressCount Asm.bsetDynamic Asm.bsetStatic 0x00C0 false = true := by decide +kernel
example : Asm.bsr 0 = some [0x6100, 0] ∧ Asm.bsr (-10) = some [0x61F6] ∧ Asm.bsr (-30000) = some [0x6100, -30000] := by decide
example : effectiveAddressCount Asm.btstDynamic Asm.btstStatic 0x0000 true = true := by decide +kernel
example : registerEffectiveAddress Asm.chk 0x4180 false = true := by decide +kernel
example : sizeEffectiveAddress Asm.clr 0x4200 = true := by decide +kernel
example : registerDirectionSizeEffectiveAddress (fun reg _ size am => Asm.cmp reg size am) 0xB000 [DstReg] = true := by decide +kernel
example : registerSizeEffectiveAddress Asm.cmpa 0xB000 = true := by decide +kernel
example : sizeEffectiveAddressImmediate Asm.cmpi 0x0C00 = true := by decide +kernel
/-- `assembler_cmpm`. -/
def cmpmTest : Bool := regs.all fun dst => sizes.all fun size => regs.all fun src =>
  if dst ≤ 7 ∧ src ≤ 7 then same (Asm.cmpm dst size src) [0xB108 ||| toU16 dst <<< 9 ||| size.intoU16 <<< 6 ||| toU16 src] else panics (Asm.cmpm dst size src)
example : cmpmTest = true := by decide +kernel
/-- `assembler_dbcc`. -/
def dbccTest : Bool := conditions.all fun cc => regs.all fun reg =>
  if reg ≤ 7 then same (Asm.dbcc cc reg (-30000)) [0x50C8 ||| cc.toU16 <<< 8 ||| toU16 reg, -30000] else panics (Asm.dbcc cc reg 0)
example : dbccTest = true := by decide +kernel
example : registerEffectiveAddress Asm.divs 0x81C0 false = true := by decide +kernel
example : registerEffectiveAddress Asm.divu 0x80C0 false = true := by decide +kernel
example : registerDirectionSizeEffectiveAddress (fun reg _ size am => Asm.eor reg size am) 0xB000 [DstEa] = true := by decide +kernel
example : sizeEffectiveAddressImmediate Asm.eori 0x0A00 = true := by decide +kernel
example (imm : U16) : Asm.eoriccr imm = some [0x0A3C, imm &&& 0x00FF] := rfl
example (imm : U16) : Asm.eorisr imm = some [0x0A7C, imm] := rfl
/-- `assembler_exg`. -/
def exgTest : Bool := regs.all fun rx => allDirections.all fun dir => regs.all fun ry =>
  if rx ≤ 7 ∧ ry ≤ 7 ∧ (dir = ExchangeData ∨ dir = ExchangeAddress ∨ dir = ExchangeDataAddress) then
    same (Asm.exg rx dir ry) [0xC100 ||| toU16 rx <<< 9 ||| (if dir = ExchangeData then 0b01000 else if dir = ExchangeAddress then 0b01001 else 0b10001) <<< 3 ||| toU16 ry]
  else panics (Asm.exg rx dir ry)
example : exgTest = true := by decide +kernel
example : ([false, true].all fun l => registerTest (Asm.ext l) (0x4880 ||| if l then 1 <<< 6 else 0) []) = true := by decide +kernel
example : Asm.illegal = some [0x4AFC] := rfl
example : effectiveAddress Asm.jmp 0x4EC0 .jump = true := by decide +kernel
example : effectiveAddress Asm.jsr 0x4E80 .jump = true := by decide +kernel
example : registerEffectiveAddress Asm.lea 0x41C0 true = true := by decide +kernel
example : registerTest (fun reg => Asm.link reg (-13)) 0x4E50 [-13] = true := by decide +kernel
example : directionEffectiveAddress Asm.lsm 0xE2C0 = true := by decide +kernel
example : rotationDirectionSizeModeRegister Asm.lsr 0xE008 = true := by decide +kernel
/-- `assembler_move`. For the registers 8 and 9 the test computes `7 - reg`, which wraps or panics; the call panics with the wrapped number. -/
def moveTest : Bool := (sizes.all fun size => ([8, 9] : List U8).all fun reg => panics (Asm.move size (.Drd (7 - reg)) (.Drd reg))) && sizes.all fun size => ([0, 1, 2, 3, 4, 5, 6, 7] : List U8).all fun reg =>
  let bew := bewOf false (7 - reg) false 15
  let move : U16 := size.intoMove <<< 12
  (([(.Drd (7 - reg), .Drd reg), (.Ari (7 - reg), .Ari reg), (.Ariwd (7 - reg) 30, .Ariwd reg (-30)), (.Ariwi8 (7 - reg) bew, .Ariwi8 reg bew), (.AbsShort 0xFF00, .AbsShort 0xFF00),
    (.AbsLong 0xFF0000, .AbsLong 0xFF0000), (.Drd (7 - reg), .Pciwd 0 30), (.Drd (7 - reg), .Pciwi8 0 bew)] : List (AM × AM)).all fun p =>
      same (Asm.move size p.1 p.2) (assembleMoveAm move p.1 p.2)) &&
  (if size.isByte then panics (Asm.move size (.Drd (7 - reg)) (.Ard reg))
    else same (Asm.move size (.Drd (7 - reg)) (.Ard reg)) (assembleMoveAm move (.Drd (7 - reg)) (.Ard reg))) &&
  same (Asm.move size (.Drd (7 - reg)) (.Immediate 43)) (assembleMoveAmImmediate move (.Drd (7 - reg)) 43 size.isLong) &&
  ([.Pciwd 0 0, .Pciwi8 0 bew, .Immediate 0] : List AM).all fun dst => panics (Asm.move size dst (.Drd 0))
example : moveTest = true := by decide +kernel
/-- `assembler_movea`. -/
def moveaTest : Bool := sizes.all fun size => regs.all fun reg =>
  if ¬ size.isByte ∧ reg ≤ 7 then
    let bew := bewOf false (7 - reg) false 15
    let movea : U16 := 0x0040 ||| (if size.isWord then 3 else 2) <<< 12 ||| toU16 reg <<< 9
    (([.Drd reg, .Ard reg, .Ari reg, .Ariwd reg (-30), .Ariwi8 reg bew, .AbsShort 0xFF00, .AbsLong 0xFF0000, .Pciwd 0 30, .Pciwi8 0 bew] : List AM).all fun am =>
      same (Asm.movea size reg am) (assembleAm movea am)) && same (Asm.movea size reg (.Immediate 43)) (assembleAmImmediate movea 43 size.isLong)
  else panics (Asm.movea size reg (.Drd 0))
example : moveaTest = true := by decide +kernel
example : effectiveAddress Asm.moveccr 0x44C0 .source = true := by decide +kernel
example : effectiveAddress Asm.movefsr 0x40C0 .other = true := by decide +kernel
example : effectiveAddress Asm.movesr 0x46C0 .source = true := by decide +kernel
/-- `assembler_moveusp`. -/
def moveuspTest : Bool := regs.all fun reg => allDirections.all fun dir =>
  if reg ≤ 7 ∧ (dir = UspToRegister ∨ dir = RegisterToUsp) then same (Asm.moveusp dir reg) [0x4E60 ||| (if dir = UspToRegister then 1 <<< 3 else 0) ||| toU16 reg]
  else panics (Asm.moveusp dir reg)
example : moveuspTest = true := by decide +kernel
/-- `assembler_movem`. -/
def movemTest : Bool := allDirections.all fun dir => sizes.all fun size =>
  if ¬ size.isByte ∧ (dir = RegisterToMemory ∨ dir = MemoryToRegister) then
    let movem : U16 := 0x4880 ||| (if dir = MemoryToRegister then 1 <<< 10 else 0) ||| if size.isLong then 1 <<< 6 else 0
    (([.Ari 0, .Ariwd 0 12, .Ariwi8 0 bew, .AbsShort 0xFF00, .AbsLong 0xFF0000] : List AM) ++
      (show List AM from if dir = MemoryToRegister then [.Ariwpo 0, .Pciwd 0 12, .Pciwi8 0 bew] else [.Ariwpr 0])).all fun am => same (Asm.movem dir size am 0xFF) (immediateAssembleAm movem 0xFF am)
  else ([.Drd 0, .Ard 0, .Ari 0, .Ariwd 0 0, .Ariwi8 0 bew, .AbsShort 0, .AbsLong 0, .Pciwd 0 0, .Pciwi8 0 bew, .Immediate 0] : List AM).all fun am => panics (Asm.movem dir size am 0)
example : movemTest = true := by decide +kernel
/-- `assembler_movep`. -/
def movepTest : Bool := ([0, 1, 2, 3, 4, 5, 6, 7, 8] : List U8).all fun data => allDirections.all fun dir => [Word, Long].all fun size =>
  ([0, 1, 2, 3, 4, 5, 6, 7, 8] : List U8).all fun addr => ([-32768, -24577, -16386, -8195, -4, 8187, 16378, 24569, 32760] : List U16).all fun disp =>
    if data ≤ 7 ∧ addr ≤ 7 ∧ (dir = MemoryToRegister ∨ dir = RegisterToMemory) then
      same (Asm.movep data dir size addr disp) [0x0108 ||| toU16 data <<< 9 ||| (if dir = RegisterToMemory then 1 <<< 7 else 0) ||| (if size = Long then 1 <<< 6 else 0) ||| toU16 addr, disp]
    else panics (Asm.movep data dir size addr disp)
example : Asm.movep 0 MemoryToRegister Byte 0 0 = none ∧ movepTest = true := by decide +kernel
example : (regs.all fun reg => if reg ≤ 7 then same (Asm.moveq reg (-77)) [0x70B3 ||| toU16 reg <<< 9] else panics (Asm.moveq reg 0)) = true := by decide +kernel
example : registerEffectiveAddress Asm.muls 0xC1C0 false = true := by decide +kernel
example : registerEffectiveAddress Asm.mulu 0xC0C0 false = true := by decide +kernel
example : effectiveAddress Asm.nbcd 0x4800 .other = true := by decide +kernel
example : sizeEffectiveAddress Asm.neg 0x4400 = true := by decide +kernel
example : sizeEffectiveAddress Asm.negx 0x4000 = true := by decide +kernel
example : Asm.nop = some [0x4E71] := rfl
example : sizeEffectiveAddress Asm.not 0x4600 = true := by decide +kernel
example : registerDirectionSizeEffectiveAddress Asm.or 0x8000 [DstEa, DstReg] = true := by decide +kernel
example : sizeEffectiveAddressImmediate Asm.ori 0x0000 = true := by decide +kernel
example (imm : U16) : Asm.oriccr imm = some [0x003C, imm &&& 0x00FF] := rfl
example (imm : U16) : Asm.orisr imm = some [0x007C, imm] := rfl
example : effectiveAddress Asm.pea 0x4840 .jump = true := by decide +kernel
example : Asm.reset = some [0x4E70] := rfl
example : directionEffectiveAddress Asm.rom 0xE6C0 = true := by decide +kernel
example : rotationDirectionSizeModeRegister Asm.ror 0xE018 = true := by decide +kernel
example : directionEffectiveAddress Asm.roxm 0xE4C0 = true := by decide +kernel
example : rotationDirectionSizeModeRegister Asm.roxr 0xE010 = true := by decide +kernel
example : Asm.rte = some [0x4E73] ∧ Asm.rtr = some [0x4E77] ∧ Asm.rts = some [0x4E75] := ⟨rfl, rfl, rfl⟩
example (sr : U16) : Asm.stop sr = some [0x4E72, sr] := rfl
example : pairTest Asm.sbcd 0x8100 = true := by decide +kernel
/-- `assembler_scc`. -/
def sccTest : Bool := conditions.all fun cc =>
  (([.Drd 0, .Ari 0, .Ariwd 0 (-3), .Ariwi8 0 bew, .AbsShort 0xFF00, .AbsLong 0xFF0000] : List AM).all fun am => same (Asm.scc cc am) (assembleAm (0x50C0 ||| cc.toU16 <<< 8) am)) &&
  ([.Ard 0, .Pciwd 0 (-76), .Pciwi8 0 bew, .Immediate 0] : List AM).all fun am => panics (Asm.scc .T am)
example : sccTest = true := by decide +kernel
example : registerDirectionSizeEffectiveAddress Asm.sub 0x9000 [DstEa, DstReg] = true := by decide +kernel
example : registerSizeEffectiveAddress Asm.suba 0x9000 = true := by decide +kernel
example : sizeEffectiveAddressImmediate Asm.subi 0x0400 = true := by decide +kernel
example : dataSizeEffectiveAddress Asm.subq 0x5100 = true := by decide +kernel
example : (sizes.all fun size => pairTest (fun d m s => Asm.subx d size m s) (0x9100 ||| size.intoU16 <<< 6)) = true := by decide +kernel
example : registerTest Asm.swap 0x4840 [] = true := by decide +kernel
example : effectiveAddress Asm.tas 0x4AC0 .other = true := by decide +kernel
example : ((List.range 31).all fun t => if t ≤ 15 then same (Asm.trap (BitVec.ofNat 8 t)) [0x4E40 ||| BitVec.ofNat 16 t] else panics (Asm.trap (BitVec.ofNat 8 t))) = true := by decide +kernel
example : Asm.trapv = some [0x4E76] := rfl
example : sizeEffectiveAddress Asm.tst 0x4A00 = true := by decide +kernel
example : registerTest Asm.unlk 0x4E58 [] = true := by decide +kernel

end M68k.Tests
