import Verif.Lemmas.Ram
import Verif.Lemmas.Alike
/-
Byte and word slices with the same content answer alike.
-/
namespace M68k.Exec
open Spec

/-- Long accesses made of two word accesses are alike when word accesses are. -/
theorem alike_getLong {M N : Type} [MemoryAccess M] [MemoryAccess N] {R : M → N → Prop}
    (h : ∀ m n a, R m n → ¬ Spec.Odd a → SameOutcome R (MemoryAccess.getWord a m) (MemoryAccess.getWord a n))
    {pm : M → U32 → Option U8} {pn : N → U32 → Option U8} (hm : WordLaws M pm) (hn : WordLaws N pn)
    (m : M) (n : N) (a : U32) (hmn : R m n) (ho : ¬ Spec.Odd a) : SameOutcome R (MemoryAccess.getLong a m) (MemoryAccess.getLong a n) := by
  have h1 := h m n a hmn ho
  have em := hm.getLong a m
  have en := hn.getLong a n
  cases hx : MemoryAccess.getWord a m with
  | panic =>
    cases hy : MemoryAccess.getWord a n with
    | panic => rw [hx] at em; rw [hy] at en; rw [em, en]; trivial
    | none _ => rw [hx, hy] at h1; exact h1.elim
    | val _ _ => rw [hx, hy] at h1; exact h1.elim
  | none m1 =>
    cases hy : MemoryAccess.getWord a n with
    | panic => rw [hx, hy] at h1; exact h1.elim
    | none n1 => rw [hx] at em; rw [hy] at en; rw [em, en]; rw [hx, hy] at h1; exact h1
    | val _ _ => rw [hx, hy] at h1; exact h1.elim
  | val w m1 =>
    cases hy : MemoryAccess.getWord a n with
    | panic => rw [hx, hy] at h1; exact h1.elim
    | none _ => rw [hx, hy] at h1; exact h1.elim
    | val w' n1 =>
      rw [hx, hy] at h1
      rw [hx] at em
      rw [hy] at en
      obtain ⟨h1, h2⟩ := h1
      have h3 := h m1 n1 (a + 2) h2 (by rw [odd_two]; exact ho)
      simp only at em en
      generalize MemoryAccess.getWord (a + 2) m1 = x at h3 em
      generalize MemoryAccess.getWord (a + 2) n1 = y at h3 en
      cases x with
      | panic =>
        cases y with
        | panic => rw [em, en]; trivial
        | none _ => exact h3.elim
        | val _ _ => exact h3.elim
      | none _ =>
        cases y with
        | panic => exact h3.elim
        | none _ => rw [em, en]; exact h3
        | val _ _ => exact h3.elim
      | val _ _ =>
        cases y with
        | panic => exact h3.elim
        | none _ => exact h3.elim
        | val _ _ => rw [em, en]; exact ⟨by rw [h1, h3.1], h3.2⟩

theorem alike_setLong {M N : Type} [MemoryAccess M] [MemoryAccess N] {R : M → N → Prop}
    (h : ∀ m n a v, R m n → ¬ Spec.Odd a → SameOutcome R (MemoryAccess.setWord a v m) (MemoryAccess.setWord a v n))
    {pm : M → U32 → Option U8} {pn : N → U32 → Option U8} (hm : WordLaws M pm) (hn : WordLaws N pn)
    (m : M) (n : N) (a v : U32) (hmn : R m n) (ho : ¬ Spec.Odd a) : SameOutcome R (MemoryAccess.setLong a v m) (MemoryAccess.setLong a v n) := by
  rw [hm.setLong, hn.setLong]
  have h1 := h m n a (toU16 (v >>> 16)) hmn ho
  cases hx : MemoryAccess.setWord a (toU16 (v >>> 16)) m <;> cases hy : MemoryAccess.setWord a (toU16 (v >>> 16)) n <;> rw [hx, hy] at h1 <;>
    first | exact h1.elim | trivial | skip
  exact h _ _ (a + 2) (toU16 v) h1.2 (by rw [odd_two]; exact ho)

/-- A `[u8]` of even length and a `[u16]` with the same bytes. -/
def SameBytes (m : ByteSlice) (w : WordSlice) : Prop := (∀ a, peekBytes m a = peekWords w a) ∧ m.bytes.length % 2 = 0

theorem alike_slices : Alike SameBytes := by
  have hgw : ∀ (m : ByteSlice) (n : WordSlice) (a : U32), SameBytes m n → ¬ Spec.Odd a →
      SameOutcome SameBytes (MemoryAccess.getWord a m) (MemoryAccess.getWord a n) := by
    intro m n a h ho
    rcases byteSlice_laws.getWord a m ho with ⟨h1, h2⟩ | ⟨h1, h2⟩ | ⟨v, h1, h2, h3⟩
    · rcases wordSlice_laws.getWord a n ho with ⟨k1, k2⟩ | ⟨k1, k2⟩ | ⟨w, k1, k2, k3⟩
      · rw [h1, k1]; exact h
      · simp only [MemoryAccess.getWord, wordSlice_getWord] at k1
        cases e : n.words[a.toNat / 2]? <;> rw [e] at k1 <;> cases k1
      · rw [← h.1, h2] at k2; cases k2
    · exfalso
      simp only [MemoryAccess.getWord, byteSliceGetWord] at h1
      have hl := h.2
      unfold Spec.Odd at ho
      split at h1
      · split at h1
        · cases h1
        · omega
      · cases h1
    · rcases wordSlice_laws.getWord a n ho with ⟨k1, k2⟩ | ⟨k1, k2⟩ | ⟨w, k1, k2, k3⟩
      · rw [← h.1, h2] at k2; cases k2
      · simp only [MemoryAccess.getWord, wordSlice_getWord] at k1
        cases e : n.words[a.toNat / 2]? <;> rw [e] at k1 <;> cases k1
      · rw [h1, k1]
        refine ⟨?_, h⟩
        rw [← h.1] at k2 k3
        have e1 := h2.symm.trans k2
        have e2 := h3.symm.trans k3
        simp only [Option.some.injEq] at e1 e2
        refine val_ext (sz := .Word) fun k hk => ?_
        rcases lt_two hk with rfl | rfl
        · rw [(beByte_word _).1, (beByte_word _).1, e1]
        · rw [(beByte_word _).2, (beByte_word _).2, e2]
  have hsw : ∀ (m : ByteSlice) (n : WordSlice) (a : U32) (v : U16), SameBytes m n → ¬ Spec.Odd a →
      SameOutcome SameBytes (MemoryAccess.setWord a v m) (MemoryAccess.setWord a v n) := by
    intro m n a v h ho
    have e := toNat_succ ho
    by_cases hb : a.toNat < m.bytes.length
    · have hl := h.2
      have hb1 : a.toNat + 1 < m.bytes.length := by unfold Spec.Odd at ho; omega
      have hpr : (peekWords n a).isSome := by
        rw [← h.1]; simpa [peekBytes] using hb
      have hw : a.toNat / 2 < n.words.length := by simpa [peekWords] using hpr
      have e1 : MemoryAccess.setWord a v m = .val () ⟨(m.bytes.set a.toNat (toU8 (v >>> 8))).set (a.toNat + 1) (toU8 v)⟩ := by
        simp only [MemoryAccess.setWord, byteSliceSetWord]
        rw [if_pos hb, if_pos hb1]
        rfl
      have e2 : MemoryAccess.setWord a v n = .val () ⟨n.words.set (a.toNat / 2) v⟩ := by
        simp only [MemoryAccess.setWord, wordSliceSetWord, Nat.shiftRight_eq_div_pow, Nat.pow_one]
        rw [if_pos hw]
        rfl
      obtain ⟨-, -, h2, h3, h4⟩ := byteSlice_laws.setWord _ _ _ _ ho e1
      obtain ⟨-, -, k2, k3, k4⟩ := wordSlice_laws.setWord _ _ _ _ ho e2
      rw [e1, e2]
      refine ⟨rfl, fun b => ?_, ?_⟩
      · by_cases hb : b = a
        · rw [hb, h2, k2]
        by_cases hb1 : b = a + 1
        · rw [hb1, h3, k3]
        rw [h4 b hb hb1, k4 b hb hb1, h.1]
      · simpa using h.2
    · have hpr : ¬ (peekWords n a).isSome := by
        rw [← h.1]; simpa [peekBytes] using hb
      have hw : ¬ a.toNat / 2 < n.words.length := by simpa [peekWords] using hpr
      simp only [MemoryAccess.setWord, byteSliceSetWord, wordSliceSetWord, Nat.shiftRight_eq_div_pow, Nat.pow_one]
      rw [if_neg hb, if_neg hw]
      exact h
  refine ⟨?_, hgw, fun m n a h ho => alike_getLong hgw byteSlice_laws wordSlice_laws m n a h ho, ?_, hsw,
    fun m n a v h ho => alike_setLong hsw byteSlice_laws wordSlice_laws m n a v h ho, fun m n h => h⟩
  · intro m n a h
    rcases byteSlice_laws.getByte a m with ⟨h1, h2⟩ | ⟨v, h1, h2⟩ <;> rcases wordSlice_laws.getByte a n with ⟨k1, k2⟩ | ⟨w, k1, k2⟩ <;> rw [h1, k1]
    · exact h
    · rw [← h.1, h2] at k2; cases k2
    · rw [← h.1, h2] at k2; cases k2
    · rw [← h.1, h2] at k2; cases k2; exact ⟨rfl, h⟩
  · intro m n a v h
    by_cases hb : (peekBytes m a).isSome
    · have hw : (peekWords n a).isSome := by rw [← h.1]; exact hb
      have hb' : a.toNat < m.bytes.length := by simpa [peekBytes] using hb
      have e1 : MemoryAccess.setByte a v m = .val () ⟨m.bytes.set a.toNat v⟩ := by
        simp only [MemoryAccess.setByte, byteSliceSetByte]; rw [if_pos hb']; rfl
      obtain ⟨n', e2⟩ := Writable.set_present' (sz := .Byte) (a := a) (v := v) (m := n) (fun hc => hc.1 rfl) (fun k hk => by
        have : k = 0 := by simp only [bytes] at hk; omega
        rw [this, at_zero]; exact hw)
      have e2 : MemoryAccess.setByte a v n = .val () n' := e2
      obtain ⟨-, h2, h3⟩ := byteSlice_laws.setByte _ _ _ _ e1
      obtain ⟨-, k2, k3⟩ := wordSlice_laws.setByte _ _ _ _ e2
      rw [e1, e2]
      refine ⟨rfl, fun b => ?_, ?_⟩
      · by_cases hb : b = a
        · rw [hb, h2, k2]
        · rw [h3 b hb, k3 b hb, h.1]
      · simpa using h.2
    · have hw : ¬ (peekWords n a).isSome := by rw [← h.1]; exact hb
      have hb' : ¬ a.toNat < m.bytes.length := by simpa [peekBytes] using hb
      have hw' : ¬ a.toNat / 2 < n.words.length := by simpa [peekWords] using hw
      simp only [MemoryAccess.setByte, byteSliceSetByte, wordSliceSetByte, Nat.shiftRight_eq_div_pow, Nat.pow_one]
      rw [if_neg hb', dif_neg hw']
      exact h

end M68k.Exec
