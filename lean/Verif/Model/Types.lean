import Verif.Model.Cpu
/-
Operand sizes, directions, addressing modes and decoded operands.
Models the types of `m68000/src/instruction.rs` and `m68000/src/addressing_modes.rs`,
and the memory iterator of `m68000/src/memory_access.rs`.
-/
namespace M68k

/-- instruction.rs L81-108. -/
inductive Direction
  | RegisterToMemory
  | MemoryToRegister
  | DstReg
  | DstEa
  | Left
  | Right
  | RegisterToUsp
  | UspToRegister
  | RegisterToRegister
  | MemoryToMemory
  | ExchangeData
  | ExchangeAddress
  | ExchangeDataAddress
deriving DecidableEq, Repr

/-- instruction.rs L126-133. -/
inductive Size
  | Byte
  | Word
  | Long
deriving DecidableEq, Repr

namespace Size

/-- `size as u32` with the discriminants of instruction.rs L126-133. -/
def asU32 : Size → U32
  | Byte => 1
  | Word => 2
  | Long => 4

/-- instruction.rs L138-144. -/
def asWordLong (s : Size) : Size := if s = Byte then Word else s

/-- instruction.rs L152-157. -/
def fromBit (d : Bool) : Size := if d then Long else Word

/-- instruction.rs L164-170; `none` is the panic. -/
def intoBit : Size → Option U16
  | Word => some 0
  | Long => some 1
  | Byte => none

/-- instruction.rs L178-185; `none` is the panic. -/
def fromMove (d : U16) : Option Size :=
  if d = 1 then some Byte else if d = 3 then some Word else if d = 2 then some Long else none

/-- instruction.rs L193-199. -/
def intoMove : Size → U16
  | Byte => 1
  | Word => 3
  | Long => 2

/-- instruction.rs L220-235: `From<u16>`; `none` is the panic. -/
def fromU16 (d : U16) : Option Size :=
  if d = 0 then some Byte else if d = 1 then some Word else if d = 2 then some Long else none

/-- instruction.rs L237-246: `From<Size> for u16`. -/
def intoU16 : Size → U16
  | Byte => 0
  | Word => 1
  | Long => 2

/-- instruction.rs L203-205. -/
def isByte (s : Size) : Bool := s = Byte
/-- instruction.rs L209-211. -/
def isWord (s : Size) : Bool := s = Word
/-- instruction.rs L215-217. -/
def isLong (s : Size) : Bool := s = Long

end Size

/-- addressing_modes.rs L246-248: `BriefExtensionWord(u16)`. -/
structure BriefExtensionWord where
  word : U16
deriving DecidableEq, Repr

namespace BriefExtensionWord

/-- addressing_modes.rs L257-264; `none` is the failed assertion. -/
def new (address : Bool) (reg : U8) (long : Bool) (disp : U8) : Option BriefExtensionWord :=
  if reg ≤ 7 then
    let a := boolTo 16 address <<< 15
    let r := toU16 reg <<< 12
    let s := boolTo 16 long <<< 11
    let d := toU16 disp
    some ⟨a ||| r ||| s ||| d⟩
  else none

/-- addressing_modes.rs L267-269 (an `i8`). -/
def disp (b : BriefExtensionWord) : U8 := toU8 b.word
/-- addressing_modes.rs L272-274. -/
def isAddressReg (b : BriefExtensionWord) : Bool := bit b.word 15
/-- addressing_modes.rs L277-279. -/
def reg (b : BriefExtensionWord) : U8 := toU8 (bits b.word 12 14)
/-- addressing_modes.rs L282-284. -/
def isLong (b : BriefExtensionWord) : Bool := bit b.word 11

end BriefExtensionWord

/-- addressing_modes.rs L15-44. -/
inductive AddressingMode
  | Drd (reg : U8)
  | Ard (reg : U8)
  | Ari (reg : U8)
  | Ariwpo (reg : U8)
  | Ariwpr (reg : U8)
  | Ariwd (reg : U8) (disp : U16)
  | Ariwi8 (reg : U8) (bew : BriefExtensionWord)
  | AbsShort (addr : U16)
  | AbsLong (addr : U32)
  | Pciwd (pc : U32) (disp : U16)
  | Pciwi8 (pc : U32) (bew : BriefExtensionWord)
  | Immediate (imm : U32)
deriving DecidableEq, Repr

namespace AddressingMode

/-- addressing_modes.rs L84-95. -/
def register : AddressingMode → Option U8
  | Drd reg => some reg
  | Ard reg => some reg
  | Ari reg => some reg
  | Ariwpo reg => some reg
  | Ariwpr reg => some reg
  | Ariwd reg _ => some reg
  | Ariwi8 reg _ => some reg
  | _ => none

/-- addressing_modes.rs L99-101. -/
def isDrd : AddressingMode → Bool
  | Drd _ => true
  | _ => false
/-- addressing_modes.rs L105-107. -/
def isArd : AddressingMode → Bool
  | Ard _ => true
  | _ => false
/-- addressing_modes.rs L111-113. -/
def isDard : AddressingMode → Bool
  | Drd _ => true
  | Ard _ => true
  | _ => false
/-- addressing_modes.rs L117-119. -/
def isAriwpo : AddressingMode → Bool
  | Ariwpo _ => true
  | _ => false
/-- addressing_modes.rs L123-125. -/
def isAriwpr : AddressingMode → Bool
  | Ariwpr _ => true
  | _ => false
/-- addressing_modes.rs L129-131. -/
def isImmediate : AddressingMode → Bool
  | Immediate _ => true
  | _ => false

end AddressingMode

/-- instruction.rs L262-321. -/
inductive Operands
  | NoOperands
  | Immediate (imm : U16)
  | SizeEffectiveAddressImmediate (size : Size) (am : AddressingMode) (imm : U32)
  | EffectiveAddressCount (am : AddressingMode) (count : U8)
  | EffectiveAddress (am : AddressingMode)
  | SizeEffectiveAddress (size : Size) (am : AddressingMode)
  | RegisterEffectiveAddress (reg : U8) (am : AddressingMode)
  | RegisterDirectionSizeRegisterDisplacement (dreg : U8) (dir : Direction) (size : Size) (areg : U8) (disp : U16)
  | SizeRegisterEffectiveAddress (size : Size) (reg : U8) (am : AddressingMode)
  | SizeEffectiveAddressEffectiveAddress (size : Size) (dst src : AddressingMode)
  | RegisterOpmodeRegister (rx : U8) (dir : Direction) (ry : U8)
  | OpmodeRegister (opmode reg : U8)
  | Vector (v : U8)
  | RegisterDisplacement (reg : U8) (disp : U16)
  | Register (reg : U8)
  | DirectionRegister (dir : Direction) (reg : U8)
  | DirectionSizeEffectiveAddressList (dir : Direction) (size : Size) (am : AddressingMode) (list : U16)
  | DataSizeEffectiveAddress (data : U8) (size : Size) (am : AddressingMode)
  | ConditionEffectiveAddress (cc : U8) (am : AddressingMode)
  | ConditionRegisterDisplacement (cc reg : U8) (disp : U16)
  | Displacement (disp : U16)
  | ConditionDisplacement (cc : U8) (disp : U16)
  | RegisterData (reg data : U8)
  | RegisterDirectionSizeEffectiveAddress (reg : U8) (dir : Direction) (size : Size) (am : AddressingMode)
  | RegisterSizeEffectiveAddress (reg : U8) (size : Size) (am : AddressingMode)
  | RegisterSizeModeRegister (rx : U8) (size : Size) (mode : Direction) (ry : U8)
  | RegisterSizeRegister (rx : U8) (size : Size) (ry : U8)
  | DirectionEffectiveAddress (dir : Direction) (am : AddressingMode)
  | RotationDirectionSizeModeRegister (rot : U8) (dir : Direction) (size : Size) (mode : Bool) (reg : U8)
deriving DecidableEq, Repr

/-- instruction.rs L20-27. -/
structure Instruction where
  opcode : U16
  pc : U32
  operands : Operands
deriving DecidableEq, Repr

/-- memory_access.rs L77-82: `MemoryIter`. -/
structure Iter (M : Type) where
  mem : M
  nextAddr : U32

/-- instruction.rs L551-1026: a decoding function taking a `&mut MemoryIter<M>`; `none` is a panic. -/
def Dec (M α : Type) := Iter M → Option (α × Iter M)

namespace Dec
variable {M α β : Type}

/-- Returns a value without touching the iterator (instruction.rs, for example L938). -/
protected def pure (a : α) : Dec M α := fun it => some (a, it)
/-- Sequencing of statements (instruction.rs L551-1026). -/
protected def bind (x : Dec M α) (f : α → Dec M β) : Dec M β := fun it =>
  match x it with
  | some (a, it') => f a it'
  | none => none

/-- The sequencing above (instruction.rs L551-1026) as a monad. -/
instance : Monad (Dec M) where
  pure := Dec.pure
  bind := Dec.bind

/-- A panic (addressing_modes.rs L49-80: `expect`, `panic!`). -/
def panic : Dec M α := fun _ => none
/-- A Rust expression that may panic (instruction.rs L178 `Size::from_move`, L227 `Size::from`). -/
def lift : Option α → Dec M α
  | some a => Dec.pure a
  | none => panic
/-- addressing_modes.rs L64-65: reads `memory.next_addr`. -/
def nextAddr : Dec M U32 := fun it => some (it.nextAddr, it)

end Dec

/-- Outcome of `MemoryIter::next` (memory_access.rs L87-95), which always returns `Some(result)`. -/
inductive NextRes (M : Type)
  | ok (w : U16) (it : Iter M)
  | err (vector : U8) (it : Iter M)
  | panic

section
variable {M : Type} [MemoryAccess M]

/-- memory_access.rs L87-95: `MemoryIter::next`. -/
def Iter.next (it : Iter M) : NextRes M :=
  if isEven it.nextAddr then
    match MemoryAccess.getWord it.nextAddr it.mem with
    | .val w m => .ok w ⟨m, it.nextAddr + 2⟩
    | .none m => .err ACCESS_ERROR ⟨m, it.nextAddr + 2⟩
    | .panic => .panic
  else .err ADDRESS_ERROR it

/-- addressing_modes.rs L55-72: `memory.next().unwrap().expect(..)`: the next word, or a panic on an access or address error. -/
def nextWord : Dec M U16 := fun it =>
  match it.next with
  | .ok w it' => some (w, it')
  | .err _ _ => none
  | .panic => none

/-- Two successive `memory.next().unwrap().expect(..)` combined as `high << 16 | low`
(addressing_modes.rs L58-61, L67-70; instruction.rs L728-731). -/
def nextLong : Dec M U32 := do
  let high ← nextWord
  let low ← nextWord
  return toU32 high <<< 16 ||| toU32 low

/-- addressing_modes.rs L48-80: `AddressingMode::from_memory`. -/
def AddressingMode.fromMemory (mode : U16) (reg : U8) (size : Option Size) : Dec M AddressingMode :=
  match mode.toNat with
  | 0 => return .Drd reg
  | 1 => return .Ard reg
  | 2 => return .Ari reg
  | 3 => return .Ariwpo reg
  | 4 => return .Ariwpr reg
  | 5 => do
    let w ← nextWord
    return .Ariwd reg w
  | 6 => do
    let w ← nextWord
    return .Ariwi8 reg ⟨w⟩
  | 7 =>
    match reg.toNat with
    | 0 => do
      let w ← nextWord
      return .AbsShort w
    | 1 => do
      let l ← nextLong
      return .AbsLong l
    | 2 => do
      let pc ← Dec.nextAddr
      let w ← nextWord
      return .Pciwd pc w
    | 3 => do
      let pc ← Dec.nextAddr
      let w ← nextWord
      return .Pciwi8 pc ⟨w⟩
    | 4 =>
      match size with
      | none => Dec.panic
      | some .Long => do
        let l ← nextLong
        return .Immediate l
      | some _ => do
        let w ← nextWord
        return .Immediate (toU32 w)
    | _ => Dec.panic
  | _ => Dec.panic

end
end M68k
