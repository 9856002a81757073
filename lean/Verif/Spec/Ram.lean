import Verif.Spec.Machine
import Verif.Model.Slices
/-
Memories seen as arrays of bytes.
-/
namespace M68k.Spec

/-- Byte `k` of an operand in memory, byte 0 being at the lowest address: big-endian. -/
def beByte {sz : Size} (v : Val sz) (k : Nat) : U8 := BitVec.ofNat 8 (v.toNat / 256 ^ (bytes sz - 1 - k))

/-- The addresses of the bytes of an operand. Addresses wrap at 2^32. -/
def at_ (a : U32) (k : Nat) : U32 := a + BitVec.ofNat 32 k

/-- The operand can be accessed without an address error. -/
def AlignedFor (sz : Size) (a : U32) : Prop := ¬ (sz ≠ .Byte ∧ Odd a)
instance (sz : Size) (a : U32) : Decidable (AlignedFor sz a) := inferInstanceAs (Decidable (¬ _))

/-- A memory that is an array of bytes, some addresses being absent: `peek m a` is the byte at `a`. Accesses
of the size `sz` are accesses to the bytes of the operand in big-endian order. -/
class Ram (M : Type) [MemoryAccess M] where
  peek : M → U32 → Option U8
  /-- A successful read returns the bytes and changes nothing. -/
  get_val : ∀ {sz : Size} {a : U32} {m m' : M} {v : Val sz}, AlignedFor sz a → memGet sz a m = .val v m' →
    m' = m ∧ ∀ k < bytes sz, peek m (at_ a k) = some (beByte v k)
  /-- A refused read changes nothing and some byte is absent. -/
  get_none : ∀ {sz : Size} {a : U32} {m m' : M}, AlignedFor sz a → memGet sz a m = .none m' →
    m' = m ∧ ∃ k < bytes sz, peek m (at_ a k) = none
  /-- A successful write changes the bytes of the operand and no other. -/
  set_val : ∀ {sz : Size} {a : U32} {v : Val sz} {m m' : M}, AlignedFor sz a → memSet sz a v m = .val () m' →
    (∀ k < bytes sz, peek m' (at_ a k) = some (beByte v k)) ∧ ∀ b, (∀ k < bytes sz, b ≠ at_ a k) → peek m' b = peek m b
  /-- Nothing appears or disappears by a write. -/
  set_present : ∀ {sz : Size} {a : U32} {v : Val sz} {m m' : M}, AlignedFor sz a → memSet sz a v m = .val () m' →
    ∀ b, (peek m' b).isSome = (peek m b).isSome
  /-- A read of present bytes succeeds. -/
  get_present : ∀ {sz : Size} {a : U32} {m : M}, AlignedFor sz a → (∀ k < bytes sz, (peek m (at_ a k)).isSome) →
    ∃ v, memGet sz a m = .val v m
  reset_peek : ∀ m a, peek (MemoryAccess.resetInstruction m) a = peek m a

/-- A memory whose present bytes can all be written. -/
class Writable (M : Type) [MemoryAccess M] [Ram M] : Prop where
  set_present' : ∀ {sz : Size} {a : U32} {v : Val sz} {m : M}, AlignedFor sz a → (∀ k < bytes sz, (Ram.peek m (at_ a k)).isSome) →
    ∃ m', memSet sz a v m = .val () m'

/-- A complete memory: 2^32 bytes. -/
structure FullRam where
  byte : U32 → U8

instance : MemoryAccess FullRam where
  getByte a m := .val (m.byte a) m
  getWord a m := .val (BitVec.ofNat 16 ((m.byte a).toNat * 256 + (m.byte (a + 1)).toNat)) m
  setByte a v m := .val () ⟨fun b => if b = a then v else m.byte b⟩
  setWord a v m := .val () ⟨fun b => if b = a then BitVec.ofNat 8 (v.toNat / 256) else if b = a + 1 then BitVec.ofNat 8 v.toNat else m.byte b⟩
  resetInstruction m := m

/-- The bytes of a `[u8]`. -/
def peekBytes (m : ByteSlice) (a : U32) : Option U8 := m.bytes[a.toNat]?

/-- The bytes of a `[u16]`: the high byte of a word is at the even address. -/
def peekWords (m : WordSlice) (a : U32) : Option U8 :=
  m.words[a.toNat / 2]?.map fun w => if a.toNat % 2 = 0 then BitVec.ofNat 8 (w.toNat / 256) else BitVec.ofNat 8 w.toNat

end M68k.Spec
