import Verif.Model.Cpu
/-
The provided memory systems: `MemoryAccess` for slices, `m68000/src/memory_access.rs` L231-388.
`addr as usize` is exact and `addr.wrapping_add(1)` does not wrap: `usize` has at least 32 bits and
the length of a slice is at most `isize::MAX`. `get_long` and `set_long` are the defaults.
-/
namespace M68k

/-- The content of a `[u8]`, memory_access.rs L231. -/
structure ByteSlice where
  bytes : List U8
deriving DecidableEq

/-- memory_access.rs L232-239 (`[u8]`) and L275-282 (`&[u8]`): `get_byte`. -/
def byteSliceGetByte (l : List U8) (addr : U32) : Option (Option U8) :=
  if h : addr.toNat < l.length then some (some l[addr.toNat]) else some none

/-- memory_access.rs L241-248 (`[u8]`) and L284-291 (`&[u8]`): `get_word`; the outer `none` is the
panic of the index `addr + 1` out of bounds. -/
def byteSliceGetWord (l : List U8) (addr : U32) : Option (Option U16) :=
  if h : addr.toNat < l.length then
    if h1 : addr.toNat + 1 < l.length then
      some (some (toU16 l[addr.toNat] <<< 8 ||| toU16 l[addr.toNat + 1]))
    else none
  else some none

/-- memory_access.rs L250-258: `set_byte`. -/
def byteSliceSetByte (l : List U8) (addr : U32) (data : U8) : Option (Option (List U8)) :=
  if addr.toNat < l.length then some (some (l.set addr.toNat data)) else some none

/-- memory_access.rs L260-269: `set_word`. -/
def byteSliceSetWord (l : List U8) (addr : U32) (data : U16) : Option (Option (List U8)) :=
  if addr.toNat < l.length then
    if addr.toNat + 1 < l.length then
      some (some ((l.set addr.toNat (toU8 (data >>> 8))).set (addr.toNat + 1) (toU8 data)))
    else none
  else some none

/-- memory_access.rs L231-388: outcome of a read, the slice is unchanged. -/
def MRes.ofRead {M α : Type} (m : M) : Option (Option α) → MRes M α
  | some (some a) => .val a m
  | some Option.none => .none m
  | Option.none => .panic

/-- memory_access.rs L250-269, L327-351: outcome of a write. -/
def MRes.ofWrite {M β : Type} (m : M) (mk : β → M) : Option (Option β) → MRes M Unit
  | some (some l) => .val () (mk l)
  | some Option.none => .none m
  | Option.none => .panic

/-- memory_access.rs L231-272: `impl MemoryAccess for [u8]`. -/
instance : MemoryAccess ByteSlice where
  getByte addr m := .ofRead m (byteSliceGetByte m.bytes addr)
  getWord addr m := .ofRead m (byteSliceGetWord m.bytes addr)
  setByte addr data m := .ofWrite m .mk (byteSliceSetByte m.bytes addr data)
  setWord addr data m := .ofWrite m .mk (byteSliceSetWord m.bytes addr data)
  resetInstruction m := m

/-- The content of a `&[u8]`, memory_access.rs L274. -/
structure ByteSliceRef where
  bytes : List U8
deriving DecidableEq

/-- memory_access.rs L274-302: `impl MemoryAccess for &[u8]`. -/
instance : MemoryAccess ByteSliceRef where
  getByte addr m := .ofRead m (byteSliceGetByte m.bytes addr)
  getWord addr m := .ofRead m (byteSliceGetWord m.bytes addr)
  setByte _ _ _ := .panic
  setWord _ _ _ := .panic
  resetInstruction m := m

/-- memory_access.rs L305-316 (`[u16]`) and L357-368 (`&[u16]`): `get_byte`. -/
def wordSliceGetByte (l : List U16) (addr : U32) : Option (Option U8) :=
  let a := addr.toNat >>> 1
  if h : a < l.length then
    if isEven addr then some (some (toU8 (l[a] >>> 8))) else some (some (toU8 l[a]))
  else some none

/-- memory_access.rs L318-325 (`[u16]`) and L370-377 (`&[u16]`): `get_word`. -/
def wordSliceGetWord (l : List U16) (addr : U32) : Option (Option U16) :=
  let a := addr.toNat >>> 1
  if h : a < l.length then some (some l[a]) else some none

/-- memory_access.rs L327-341: `set_byte`. -/
def wordSliceSetByte (l : List U16) (addr : U32) (data : U8) : Option (Option (List U16)) :=
  let a := addr.toNat >>> 1
  if h : a < l.length then
    if isEven addr then some (some (l.set a ((l[a] &&& 0x00FF) ||| (toU16 data <<< 8))))
    else some (some (l.set a ((l[a] &&& 0xFF00) ||| toU16 data)))
  else some none

/-- memory_access.rs L343-351: `set_word`. -/
def wordSliceSetWord (l : List U16) (addr : U32) (data : U16) : Option (Option (List U16)) :=
  let a := addr.toNat >>> 1
  if a < l.length then some (some (l.set a data)) else some none

/-- The content of a `[u16]`, memory_access.rs L304. -/
structure WordSlice where
  words : List U16
deriving DecidableEq

/-- memory_access.rs L304-354: `impl MemoryAccess for [u16]`. -/
instance : MemoryAccess WordSlice where
  getByte addr m := .ofRead m (wordSliceGetByte m.words addr)
  getWord addr m := .ofRead m (wordSliceGetWord m.words addr)
  setByte addr data m := .ofWrite m .mk (wordSliceSetByte m.words addr data)
  setWord addr data m := .ofWrite m .mk (wordSliceSetWord m.words addr data)
  resetInstruction m := m

/-- The content of a `&[u16]`, memory_access.rs L356. -/
structure WordSliceRef where
  words : List U16
deriving DecidableEq

/-- memory_access.rs L356-388: `impl MemoryAccess for &[u16]`. -/
instance : MemoryAccess WordSliceRef where
  getByte addr m := .ofRead m (wordSliceGetByte m.words addr)
  getWord addr m := .ofRead m (wordSliceGetWord m.words addr)
  setByte _ _ _ := .panic
  setWord _ _ _ := .panic
  resetInstruction m := m

end M68k
