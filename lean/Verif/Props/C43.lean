import Verif.Lemmas.Ram
import Verif.Lemmas.AlikeSlices
import Verif.Props.Demo
/-
C43: the provided memories. `[u8]` and `[u16]` slices are arrays of bytes (`peekBytes`, `peekWords`, of
which every access is a big-endian composition.

The code deviates from "out-of-range accesses are refused and change nothing" in two cases, see
`C43_odd_length_refuted` and `C43_long_write_refuted`.
-/
namespace M68k.Props
open Spec Exec

/-- Reading the bytes of an operand that is inside a `[u8]`. -/
theorem C43_bytes_read {m : ByteSlice} {sz : Size} {a : U32} (ha : AlignedFor sz a) (h : ∀ k < bytes sz, (peekBytes m (at_ a k)).isSome) :
    ∃ v, memGet sz a m = .val v m ∧ ∀ k < bytes sz, peekBytes m (at_ a k) = some (beByte v k) := by
  obtain ⟨v, hv⟩ := Ram.get_present (m := m) ha h
  exact ⟨v, hv, (Ram.get_val ha hv).2⟩

/-- The same for a `[u16]`. -/
theorem C43_words_read {m : WordSlice} {sz : Size} {a : U32} (ha : AlignedFor sz a) (h : ∀ k < bytes sz, (peekWords m (at_ a k)).isSome) :
    ∃ v, memGet sz a m = .val v m ∧ ∀ k < bytes sz, peekWords m (at_ a k) = some (beByte v k) := by
  obtain ⟨v, hv⟩ := Ram.get_present (m := m) ha h
  exact ⟨v, hv, (Ram.get_val ha hv).2⟩

/-- The same for `&[u8]` and `&[u16]`. -/
theorem C43_refs_read {l : List U8} {w : List U16} {sz : Size} {a : U32} (ha : AlignedFor sz a) :
    ((∀ k < bytes sz, (peekBytes ⟨l⟩ (at_ a k)).isSome) →
      ∃ v, memGet sz a (⟨l⟩ : ByteSliceRef) = .val v ⟨l⟩ ∧ ∀ k < bytes sz, peekBytes ⟨l⟩ (at_ a k) = some (beByte v k)) ∧
    ((∀ k < bytes sz, (peekWords ⟨w⟩ (at_ a k)).isSome) →
      ∃ v, memGet sz a (⟨w⟩ : WordSliceRef) = .val v ⟨w⟩ ∧ ∀ k < bytes sz, peekWords ⟨w⟩ (at_ a k) = some (beByte v k)) := by
  constructor
  · intro h
    obtain ⟨v, hv⟩ := Ram.get_present (m := (⟨l⟩ : ByteSliceRef)) ha h
    exact ⟨v, hv, (Ram.get_val ha hv).2⟩
  · intro h
    obtain ⟨v, hv⟩ := Ram.get_present (m := (⟨w⟩ : WordSliceRef)) ha h
    exact ⟨v, hv, (Ram.get_val ha hv).2⟩

/-- Writing an operand inside a `[u8]`: its bytes change, all the others stay, it is read back. -/
theorem C43_bytes_write {m : ByteSlice} {sz : Size} {a : U32} (v : Val sz) (ha : AlignedFor sz a)
    (h : ∀ k < bytes sz, (peekBytes m (at_ a k)).isSome) :
    ∃ m', memSet sz a v m = .val () m' ∧ (∀ k < bytes sz, peekBytes m' (at_ a k) = some (beByte v k)) ∧
      (∀ b, (∀ k < bytes sz, b ≠ at_ a k) → peekBytes m' b = peekBytes m b) ∧ memGet sz a m' = .val v m' := by
  obtain ⟨m', hm⟩ := Writable.set_present' (v := v) (m := m) ha h
  obtain ⟨h1, h2⟩ := Ram.set_val ha hm
  obtain ⟨w, hw⟩ := Ram.get_present (m := m') (sz := sz) ha (fun k hk => by rw [h1 k hk]; rfl)
  have := get_after_set ha hm hw
  subst this
  exact ⟨m', hm, h1, h2, hw⟩

/-- The same for a `[u16]`. -/
theorem C43_words_write {m : WordSlice} {sz : Size} {a : U32} (v : Val sz) (ha : AlignedFor sz a)
    (h : ∀ k < bytes sz, (peekWords m (at_ a k)).isSome) :
    ∃ m', memSet sz a v m = .val () m' ∧ (∀ k < bytes sz, peekWords m' (at_ a k) = some (beByte v k)) ∧
      (∀ b, (∀ k < bytes sz, b ≠ at_ a k) → peekWords m' b = peekWords m b) ∧ memGet sz a m' = .val v m' := by
  obtain ⟨m', hm⟩ := Writable.set_present' (v := v) (m := m) ha h
  obtain ⟨h1, h2⟩ := Ram.set_val ha hm
  obtain ⟨w, hw⟩ := Ram.get_present (m := m') (sz := sz) ha (fun k hk => by rw [h1 k hk]; rfl)
  have := get_after_set ha hm hw
  subst this
  exact ⟨m', hm, h1, h2, hw⟩

/-- An access at an address beyond the slice is refused and changes nothing. -/
theorem C43_bytes_refused {m : ByteSlice} {sz : Size} {a : U32} (v : Val sz) (h : m.bytes.length ≤ a.toNat) :
    memGet sz a m = .none m ∧ memSet sz a v m = .none m := by
  have h' : ¬ a.toNat < m.bytes.length := by omega
  cases sz <;> constructor <;>
    simp [memGet, memSet, MemoryAccess.getByte, MemoryAccess.getWord, MemoryAccess.getLong, MemoryAccess.setByte, MemoryAccess.setWord,
      MemoryAccess.setLong, byteSliceGetByte, byteSliceGetWord, byteSliceSetByte, byteSliceSetWord, h', MRes.ofRead, MRes.ofWrite]

/-- The same for a `[u16]`. -/
theorem C43_words_refused {m : WordSlice} {sz : Size} {a : U32} (v : Val sz) (h : 2 * m.words.length ≤ a.toNat) :
    memGet sz a m = .none m ∧ memSet sz a v m = .none m := by
  have h' : ¬ a.toNat / 2 < m.words.length := by omega
  cases sz <;> constructor <;>
    simp [memGet, memSet, MemoryAccess.getByte, MemoryAccess.getWord, MemoryAccess.getLong, MemoryAccess.setByte, MemoryAccess.setWord,
      MemoryAccess.setLong, wordSliceGetByte, wordSliceGetWord, wordSliceSetByte, wordSliceSetWord, h', Nat.shiftRight_eq_div_pow,
      MRes.ofRead, MRes.ofWrite]

/-- A refused read never changes the slice, and a read is refused only if some byte is outside. -/
theorem C43_read_refused {m m' : ByteSlice} {w w' : WordSlice} {sz : Size} {a : U32} (ha : AlignedFor sz a) :
    (memGet sz a m = .none m' → m' = m ∧ ∃ k < bytes sz, peekBytes m (at_ a k) = none) ∧
    (memGet sz a w = .none w' → w' = w ∧ ∃ k < bytes sz, peekWords w (at_ a k) = none) :=
  ⟨fun h => Ram.get_none ha h, fun h => Ram.get_none ha h⟩

/-- A refused byte or word write changes nothing. The statement is false of long writes
(`C43_long_write_refuted`). -/
theorem C43_write_refused_partial {m m' : ByteSlice} {w w' : WordSlice} {sz : Size} {a : U32} {v : Val sz} (hs : sz ≠ .Long) :
    (memSet sz a v m = .none m' → m' = m) ∧ (memSet sz a v w = .none w' → w' = w) := by
  constructor
  · intro h
    cases sz with
    | Long => exact absurd rfl hs
    | Byte =>
      simp only [memSet, MemoryAccess.setByte, byteSliceSetByte] at h
      split at h <;> cases h
      rfl
    | Word =>
      simp only [memSet, MemoryAccess.setWord, byteSliceSetWord] at h
      split at h
      · split at h <;> cases h
      · cases h; rfl
  · intro h
    cases sz with
    | Long => exact absurd rfl hs
    | Byte =>
      simp only [memSet, MemoryAccess.setByte, wordSliceSetByte] at h
      split at h
      · split at h <;> cases h
      · cases h; rfl
    | Word =>
      simp only [memSet, MemoryAccess.setWord, wordSliceSetWord] at h
      split at h <;> cases h
      rfl

/-- Every write to a read-only slice panics, as documented. -/
theorem C43_readonly {m : ByteSliceRef} {w : WordSliceRef} {sz : Size} {a : U32} {v : Val sz} :
    memSet sz a v m = .panic ∧ memSet sz a v w = .panic := by
  cases sz <;> exact ⟨rfl, rfl⟩

/-- A word read at the last byte of a `[u8]` of odd length is not refused: it panics. -/
theorem C43_odd_length_refuted : ∃ (m : ByteSlice) (a : U32), ¬ Spec.Odd a ∧ peekBytes m (at_ a 1) = none ∧ memGet .Word a m = .panic :=
  ⟨⟨[1, 2, 3]⟩, 2, by decide, rfl, rfl⟩

/-- A long write whose low word is outside is refused after the high word has been written. -/
theorem C43_long_write_refuted : ∃ (w w' : WordSlice), memSet .Long 0 0x12345678 w = .none w' ∧ w' ≠ w :=
  ⟨⟨[0]⟩, ⟨[0x1234]⟩, rfl, by decide⟩

/-- A program behaves the same on a `[u8]` of even length and on the `[u16]` with the same bytes: same cycles,
exceptions, panics and processor state, and the slices still have the same bytes afterwards. -/
theorem C43_same_execution (C : CpuDetails) {m : ByteSlice} {w : WordSlice} (h : ∀ a, peekBytes m a = peekWords w a)
    (hl : m.bytes.length % 2 = 0) (cpu : Cpu) :
    SameResult (fun (m : ByteSlice) (w : WordSlice) => (∀ a, peekBytes m a = peekWords w a) ∧ m.bytes.length % 2 = 0)
      (interpreterException C ({ mem := m, cpu := cpu } : St ByteSlice)) (interpreterException C ({ mem := w, cpu := cpu } : St WordSlice)) :=
  sim_interpreterException alike_slices C _ _ ⟨rfl, h, hl⟩

example : ∀ a, peekBytes ⟨[0x4E, 0x71, 0x12, 0x34]⟩ a = peekWords ⟨[0x4E71, 0x1234]⟩ a := by
  intro a
  unfold peekBytes peekWords
  by_cases h : a.toNat < 4
  · rcases lt_four h with e | e | e | e <;> rw [e] <;> rfl
  · rw [List.getElem?_eq_none (by simp; omega), List.getElem?_eq_none (by simp; omega)]; rfl

/-- The read and write theorems apply to a long operand in the middle of a slice. -/
example : (∀ k < bytes .Long, (peekBytes ⟨[1, 2, 3, 4, 5, 6]⟩ (at_ 2 k)).isSome) ∧ AlignedFor .Long 2 ∧
    memGet .Long 2 (⟨[1, 2, 3, 4, 5, 6]⟩ : ByteSlice) = .val 0x03040506 ⟨[1, 2, 3, 4, 5, 6]⟩ :=
  ⟨by decide, by decide, rfl⟩

end M68k.Props
