import Verif.Spec.Ram
import Verif.Lemmas.Exec
/-
Byte array memories: the laws of long accesses made of two word accesses, and the instances.
-/
namespace M68k.Exec
open Spec

theorem at_zero (a : U32) : at_ a 0 = a := by unfold at_; simp
theorem at_add (a : U32) (j k : Nat) : at_ (at_ a j) k = at_ a (j + k) := by
  unfold at_
  rw [BitVec.add_assoc, ← BitVec.ofNat_add]

theorem two_at (a : U32) : a + 2 = at_ a 2 := rfl
theorem one_at (a : U32) : a + 1 = at_ a 1 := rfl

theorem odd_two (a : U32) : Spec.Odd (a + 2) ↔ Spec.Odd a := by
  unfold Spec.Odd
  rw [BitVec.toNat_add]
  have : (2 : U32).toNat = 2 := rfl
  rw [this]
  omega

theorem lt_two {k : Nat} (h : k < 2) : k = 0 ∨ k = 1 := by omega
theorem lt_four {k : Nat} (h : k < 4) : k = 0 ∨ k = 1 ∨ k = 2 ∨ k = 3 := by omega

/-- The word and its bytes. -/
theorem beByte_word (v : U16) : beByte (sz := .Word) v 0 = BitVec.ofNat 8 (v.toNat / 256) ∧ beByte (sz := .Word) v 1 = BitVec.ofNat 8 v.toNat := by
  constructor
  · rfl
  · show BitVec.ofNat 8 (v.toNat / 256 ^ 0) = _
    simp

theorem beByte_byte (v : U8) : beByte (sz := .Byte) v 0 = v := by
  show BitVec.ofNat 8 (v.toNat / 256 ^ 0) = _
  simp

/-- The bytes of a long are those of its words. -/
theorem beByte_long (v : U32) (hi lo : U16) (h : v.toNat = hi.toNat * 65536 + lo.toNat) :
    beByte (sz := .Long) v 0 = beByte (sz := .Word) hi 0 ∧ beByte (sz := .Long) v 1 = beByte (sz := .Word) hi 1 ∧
    beByte (sz := .Long) v 2 = beByte (sz := .Word) lo 0 ∧ beByte (sz := .Long) v 3 = beByte (sz := .Word) lo 1 := by
  have hl := lo.isLt
  refine ⟨?_, ?_, ?_, ?_⟩ <;> apply BitVec.eq_of_toNat_eq <;>
    simp only [beByte, bytes, BitVec.toNat_ofNat, h] <;>
    simp only [Nat.reduceSub, Nat.reducePow, Nat.div_one] <;> simp only [Nat.reducePow] at hl <;> omega

theorem at_ne {a : U32} {j k : Nat} (hj : j < 4) (hk : k < 4) (h : j ≠ k) : at_ a j ≠ at_ a k := by
  unfold at_
  intro he
  have := congrArg BitVec.toNat he
  simp only [BitVec.toNat_add, BitVec.toNat_ofNat] at this
  have ha := a.isLt
  omega

theorem toNat_succ {a : U32} (ho : ¬ Spec.Odd a) : (a + 1).toNat = a.toNat + 1 := by
  unfold Spec.Odd at ho
  have := a.isLt
  rw [BitVec.toNat_add]
  have h1 : (1 : U32).toNat = 1 := rfl
  rw [h1]
  omega

theorem toU8_high (w : U16) : toU8 (w >>> 8) = BitVec.ofNat 8 (w.toNat / 256) := by
  apply BitVec.eq_of_toNat_eq
  unfold toU8
  rw [BitVec.toNat_setWidth, BitVec.toNat_ushiftRight, BitVec.toNat_ofNat, Nat.shiftRight_eq_div_pow]

theorem toU8_low (w : U16) : toU8 w = BitVec.ofNat 8 w.toNat := by
  apply BitVec.eq_of_toNat_eq
  unfold toU8
  rw [BitVec.toNat_setWidth, BitVec.toNat_ofNat]

theorem bytes_word (x y : U8) : some (BitVec.ofNat 8 ((toU16 x <<< 8 ||| toU16 y).toNat / 256)) = some x ∧
    some (BitVec.ofNat 8 (toU16 x <<< 8 ||| toU16 y).toNat) = some y := by
  have hx := x.isLt
  have hy := y.isLt
  have e : (toU16 x <<< 8 ||| toU16 y).toNat = x.toNat * 256 + y.toNat := by
    unfold toU16
    rw [BitVec.toNat_or, BitVec.toNat_shiftLeft, BitVec.toNat_setWidth, BitVec.toNat_setWidth,
      Nat.mod_eq_of_lt (show x.toNat < 2 ^ 16 by omega), Nat.mod_eq_of_lt (show y.toNat < 2 ^ 16 by omega), Nat.shiftLeft_eq,
      Nat.mod_eq_of_lt (by omega), Nat.mul_comm, ← Nat.two_pow_add_eq_or_of_lt hy]
  rw [e]
  constructor
  · congr 1
    apply BitVec.eq_of_toNat_eq
    rw [BitVec.toNat_ofNat]
    omega
  · congr 1
    apply BitVec.eq_of_toNat_eq
    rw [BitVec.toNat_ofNat]
    omega

theorem putHigh (w : U16) (v : U8) : BitVec.ofNat 8 (((w &&& 0x00FF) ||| (toU16 v <<< 8)).toNat / 256) = v ∧
    BitVec.ofNat 8 ((w &&& 0x00FF) ||| (toU16 v <<< 8)).toNat = BitVec.ofNat 8 w.toNat := by
  have hv := v.isLt
  have e : ((w &&& 0x00FF) ||| (toU16 v <<< 8)).toNat = v.toNat * 256 + w.toNat % 256 := by
    unfold toU16
    rw [BitVec.toNat_or, BitVec.toNat_and, BitVec.toNat_shiftLeft, BitVec.toNat_setWidth,
      Nat.mod_eq_of_lt (show v.toNat < 2 ^ 16 by omega), Nat.shiftLeft_eq, Nat.mod_eq_of_lt (by omega)]
    show w.toNat &&& (2 ^ 8 - 1) ||| _ = _
    rw [Nat.and_two_pow_sub_one_eq_mod, Nat.or_comm, Nat.mul_comm,
      ← Nat.two_pow_add_eq_or_of_lt (Nat.mod_lt _ (by decide))]
  rw [e]
  constructor <;> apply BitVec.eq_of_toNat_eq <;> simp only [BitVec.toNat_ofNat] <;> omega

theorem putLow (w : U16) (v : U8) : BitVec.ofNat 8 ((w &&& 0xFF00) ||| toU16 v).toNat = v ∧
    BitVec.ofNat 8 (((w &&& 0xFF00) ||| toU16 v).toNat / 256) = BitVec.ofNat 8 (w.toNat / 256) := by
  have hv := v.isLt
  have hw := w.isLt
  have e0 : (w &&& 0xFF00).toNat = 2 ^ 8 * (w.toNat / 256) := by
    have h1 : (w >>> 8) <<< 8 = w &&& 0xFF00 := by
      apply BitVec.eq_of_getLsbD_eq
      intro i hi
      have : (0xFF00 : U16).getLsbD i = decide (8 ≤ i) := by
        revert i; decide
      rw [BitVec.getLsbD_and, this]
      simp only [BitVec.getLsbD_shiftLeft, BitVec.getLsbD_ushiftRight, hi]
      by_cases h : 8 ≤ i
      · simp [h, show 8 + (i - 8) = i by omega, show ¬ i < 8 by omega]
      · simp [h, show i < 8 by omega]
    rw [← h1, BitVec.toNat_shiftLeft, BitVec.toNat_ushiftRight, Nat.shiftRight_eq_div_pow, Nat.shiftLeft_eq]
    omega
  have e : ((w &&& 0xFF00) ||| toU16 v).toNat = w.toNat / 256 * 256 + v.toNat := by
    unfold toU16
    rw [BitVec.toNat_or, BitVec.toNat_setWidth, e0, Nat.mod_eq_of_lt (show v.toNat < 2 ^ 16 by omega), ← Nat.two_pow_add_eq_or_of_lt hv]
    omega
  rw [e]
  constructor <;> apply BitVec.eq_of_toNat_eq <;> simp only [BitVec.toNat_ofNat] <;> omega

/-- The laws of byte and word accesses, long accesses being two word accesses. -/
structure WordLaws (M : Type) [MemoryAccess M] (peek : M → U32 → Option U8) : Prop where
  getByte : ∀ a m, (MemoryAccess.getByte a m = .none m ∧ peek m a = none) ∨
    ∃ v, MemoryAccess.getByte a m = .val v m ∧ peek m a = some v
  getWord : ∀ a m, ¬ Spec.Odd a →
    (MemoryAccess.getWord a m = .none m ∧ peek m a = none) ∨
    (MemoryAccess.getWord a m = .panic ∧ peek m (a + 1) = none) ∨
    ∃ v : U16, MemoryAccess.getWord a m = .val v m ∧ peek m a = some (BitVec.ofNat 8 (v.toNat / 256)) ∧ peek m (a + 1) = some (BitVec.ofNat 8 v.toNat)
  setByte : ∀ a v m m', MemoryAccess.setByte a v m = .val () m' →
    (peek m a).isSome ∧ peek m' a = some v ∧ ∀ b, b ≠ a → peek m' b = peek m b
  setWord : ∀ a v m m', ¬ Spec.Odd a → MemoryAccess.setWord a v m = .val () m' →
    (peek m a).isSome ∧ (peek m (a + 1)).isSome ∧ peek m' a = some (BitVec.ofNat 8 (v.toNat / 256)) ∧ peek m' (a + 1) = some (BitVec.ofNat 8 v.toNat) ∧
      ∀ b, b ≠ a → b ≠ a + 1 → peek m' b = peek m b
  getLong : ∀ a (m : M), MemoryAccess.getLong a m =
    match MemoryAccess.getWord a m with
    | .val hi m1 =>
      match MemoryAccess.getWord (a + 2) m1 with
      | .val lo m2 => .val (toU32 hi <<< 16 ||| toU32 lo) m2
      | .none m2 => .none m2
      | .panic => .panic
    | .none m1 => .none m1
    | .panic => .panic
  setLong : ∀ a v (m : M), MemoryAccess.setLong a v m =
    match MemoryAccess.setWord a (toU16 (v >>> 16)) m with
    | .val _ m1 => MemoryAccess.setWord (a + 2) (toU16 v) m1
    | .none m1 => .none m1
    | .panic => .panic
  reset : ∀ m a, peek (MemoryAccess.resetInstruction m) a = peek m a

theorem long_of_words (hi lo : U16) : (toU32 hi <<< 16 ||| toU32 lo).toNat = hi.toNat * 65536 + lo.toNat := by
  have hl := lo.isLt
  have hh := hi.isLt
  unfold toU32
  rw [BitVec.toNat_or, BitVec.toNat_shiftLeft, BitVec.toNat_setWidth, BitVec.toNat_setWidth,
    Nat.mod_eq_of_lt (show hi.toNat < 2 ^ 32 by omega), Nat.mod_eq_of_lt (show lo.toNat < 2 ^ 32 by omega), Nat.shiftLeft_eq,
    Nat.mod_eq_of_lt (by omega), Nat.mul_comm, ← Nat.two_pow_add_eq_or_of_lt hl]

theorem words_of_long (v : U32) : v.toNat = (toU16 (v >>> 16)).toNat * 65536 + (toU16 v).toNat := by
  have hl := v.isLt
  unfold toU16
  rw [BitVec.toNat_setWidth, BitVec.toNat_setWidth, BitVec.toNat_ushiftRight, Nat.shiftRight_eq_div_pow]
  omega

/-- The instance made from the laws of byte and word accesses. -/
@[reducible] def ramOfWords {M : Type} [MemoryAccess M] {peek : M → U32 → Option U8} (h : WordLaws M peek) : Ram M where
  peek := peek
  get_val := by
    intro sz a m m' v ha hv
    cases sz with
    | Byte =>
      rcases h.getByte a m with ⟨h1, -⟩ | ⟨w, h1, h2⟩
      · rw [show memGet Size.Byte a m = MemoryAccess.getByte a m from rfl, h1] at hv; cases hv
      · rw [show memGet Size.Byte a m = MemoryAccess.getByte a m from rfl, h1] at hv
        cases hv
        refine ⟨rfl, fun k hk => ?_⟩
        have : k = 0 := by simp only [bytes] at hk; omega
        subst this
        rw [at_zero, beByte_byte, h2]
    | Word =>
      have ho : ¬ Spec.Odd a := fun ho => ha ⟨by decide, ho⟩
      rcases h.getWord a m ho with ⟨h1, -⟩ | ⟨h1, -⟩ | ⟨w, h1, h2, h3⟩
      · rw [show memGet Size.Word a m = MemoryAccess.getWord a m from rfl, h1] at hv; cases hv
      · rw [show memGet Size.Word a m = MemoryAccess.getWord a m from rfl, h1] at hv; cases hv
      · rw [show memGet Size.Word a m = MemoryAccess.getWord a m from rfl, h1] at hv
        cases hv
        refine ⟨rfl, fun k hk => ?_⟩
        rcases lt_two hk with rfl | rfl
        · rw [at_zero, (beByte_word _).1, h2]
        · rw [(beByte_word _).2]; exact h3
    | Long =>
      have ho : ¬ Spec.Odd a := fun ho => ha ⟨by decide, ho⟩
      rw [show memGet Size.Long a m = MemoryAccess.getLong a m from rfl, h.getLong] at hv
      rcases h.getWord a m ho with ⟨h1, -⟩ | ⟨h1, -⟩ | ⟨w, h1, h2, h3⟩
      · rw [h1] at hv; cases hv
      · rw [h1] at hv; cases hv
      rw [h1] at hv
      simp only at hv
      rcases h.getWord (a + 2) m (by rw [odd_two]; exact ho) with ⟨h4, -⟩ | ⟨h4, -⟩ | ⟨w', h4, h5, h6⟩
      · rw [h4] at hv; cases hv
      · rw [h4] at hv; cases hv
      rw [h4] at hv
      cases hv
      have hb := beByte_long _ w w' (long_of_words w w')
      refine ⟨rfl, fun k hk => ?_⟩
      rcases lt_four hk with rfl | rfl | rfl | rfl
      · rw [at_zero, hb.1, (beByte_word _).1, h2]
      · rw [hb.2.1, (beByte_word _).2]; exact h3
      · rw [hb.2.2.1, (beByte_word _).1]; exact h5
      · rw [hb.2.2.2, (beByte_word _).2, ← h6, two_at, one_at, at_add]
  get_none := by
    intro sz a m m' ha hv
    cases sz with
    | Byte =>
      rcases h.getByte a m with ⟨h1, h2⟩ | ⟨w, h1, h2⟩
      · rw [show memGet Size.Byte a m = MemoryAccess.getByte a m from rfl, h1] at hv
        cases hv
        exact ⟨rfl, 0, by decide, by rw [at_zero, h2]⟩
      · rw [show memGet Size.Byte a m = MemoryAccess.getByte a m from rfl, h1] at hv; cases hv
    | Word =>
      have ho : ¬ Spec.Odd a := fun ho => ha ⟨by decide, ho⟩
      rcases h.getWord a m ho with ⟨h1, h2⟩ | ⟨h1, -⟩ | ⟨w, h1, h2, h3⟩
      · rw [show memGet Size.Word a m = MemoryAccess.getWord a m from rfl, h1] at hv
        cases hv
        exact ⟨rfl, 0, by decide, by rw [at_zero, h2]⟩
      · rw [show memGet Size.Word a m = MemoryAccess.getWord a m from rfl, h1] at hv; cases hv
      · rw [show memGet Size.Word a m = MemoryAccess.getWord a m from rfl, h1] at hv; cases hv
    | Long =>
      have ho : ¬ Spec.Odd a := fun ho => ha ⟨by decide, ho⟩
      rw [show memGet Size.Long a m = MemoryAccess.getLong a m from rfl, h.getLong] at hv
      rcases h.getWord a m ho with ⟨h1, h2⟩ | ⟨h1, -⟩ | ⟨w, h1, h2, h3⟩
      · rw [h1] at hv
        cases hv
        exact ⟨rfl, 0, by decide, by rw [at_zero, h2]⟩
      · rw [h1] at hv; cases hv
      rw [h1] at hv
      simp only at hv
      rcases h.getWord (a + 2) m (by rw [odd_two]; exact ho) with ⟨h4, h5⟩ | ⟨h4, -⟩ | ⟨w', h4, h5, h6⟩
      · rw [h4] at hv
        cases hv
        exact ⟨rfl, 2, by decide, h5⟩
      · rw [h4] at hv; cases hv
      · rw [h4] at hv; cases hv
  set_val := by
    intro sz a v m m' ha hv
    cases sz with
    | Byte =>
      obtain ⟨-, h2, h3⟩ := h.setByte a v m m' hv
      refine ⟨fun k hk => ?_, fun b hb => h3 b ?_⟩
      · have : k = 0 := by simp only [bytes] at hk; omega
        subst this
        rw [at_zero, beByte_byte, h2]
      · have := hb 0 (by decide)
        rwa [at_zero] at this
    | Word =>
      have ho : ¬ Spec.Odd a := fun ho => ha ⟨by decide, ho⟩
      obtain ⟨-, -, h2, h3, h4⟩ := h.setWord a v m m' ho hv
      refine ⟨fun k hk => ?_, fun b hb => h4 b ?_ ?_⟩
      · rcases lt_two hk with rfl | rfl
        · rw [at_zero, (beByte_word _).1, h2]
        · rw [(beByte_word _).2]; exact h3
      · have := hb 0 (by decide)
        rwa [at_zero] at this
      · exact hb 1 (by decide)
    | Long =>
      have ho : ¬ Spec.Odd a := fun ho => ha ⟨by decide, ho⟩
      rw [show memSet Size.Long a v m = MemoryAccess.setLong a v m from rfl, h.setLong] at hv
      cases h1 : MemoryAccess.setWord a (toU16 (v >>> 16)) m with
      | none m1 => rw [h1] at hv; cases hv
      | panic => rw [h1] at hv; cases hv
      | val u m1 =>
        rw [h1] at hv
        simp only at hv
        obtain ⟨-, -, h2, h3, h4⟩ := h.setWord _ _ _ _ ho h1
        obtain ⟨-, -, k2, k3, k4⟩ := h.setWord _ _ _ _ (by rw [odd_two]; exact ho) hv
        have hb := beByte_long v _ _ (words_of_long v)
        have e3 : a + 2 + 1 = at_ a 3 := by rw [two_at, one_at, at_add]
        rw [e3] at k3 k4
        rw [two_at] at k2 k4
        refine ⟨fun k hk => ?_, fun b hb => ?_⟩
        · rcases lt_four hk with rfl | rfl | rfl | rfl
          · rw [hb.1, (beByte_word _).1]
            rw [k4 _ (at_ne (by omega) (by omega) (by omega)) (at_ne (by omega) (by omega) (by omega)), at_zero, h2]
          · rw [hb.2.1, (beByte_word _).2]
            rw [k4 _ (at_ne (by omega) (by omega) (by omega)) (at_ne (by omega) (by omega) (by omega))]
            exact h3
          · rw [hb.2.2.1, (beByte_word _).1]; exact k2
          · rw [hb.2.2.2, (beByte_word _).2]; exact k3
        · have h0 := hb 0 (by decide)
          rw [at_zero] at h0
          rw [k4 b (hb 2 (by decide)) (hb 3 (by decide)), h4 b h0 (hb 1 (by decide))]
  set_present := by
    intro sz a v m m' ha hv b
    cases sz with
    | Byte =>
      obtain ⟨h1, h2, h3⟩ := h.setByte a v m m' hv
      by_cases hb : b = a
      · subst hb; rw [h2, h1]; rfl
      · rw [h3 b hb]
    | Word =>
      have ho : ¬ Spec.Odd a := fun ho => ha ⟨by decide, ho⟩
      obtain ⟨h0, h1, h2, h3, h4⟩ := h.setWord a v m m' ho hv
      by_cases hb : b = a
      · subst hb; rw [h2, h0]; rfl
      by_cases hb' : b = a + 1
      · subst hb'; rw [h3, h1]; rfl
      rw [h4 b hb hb']
    | Long =>
      have ho : ¬ Spec.Odd a := fun ho => ha ⟨by decide, ho⟩
      rw [show memSet Size.Long a v m = MemoryAccess.setLong a v m from rfl, h.setLong] at hv
      cases h1 : MemoryAccess.setWord a (toU16 (v >>> 16)) m with
      | none m1 => rw [h1] at hv; cases hv
      | panic => rw [h1] at hv; cases hv
      | val u m1 =>
        rw [h1] at hv
        simp only at hv
        have key : ∀ (a : U32) (v : U16) (m m' : M), ¬ Spec.Odd a → MemoryAccess.setWord a v m = .val () m' → (peek m' b).isSome = (peek m b).isSome := by
          intro a v m m' ho hv
          obtain ⟨h0, h1, h2, h3, h4⟩ := h.setWord a v m m' ho hv
          by_cases hb : b = a
          · subst hb; rw [h2, h0]; rfl
          by_cases hb' : b = a + 1
          · subst hb'; rw [h3, h1]; rfl
          rw [h4 b hb hb']
        rw [key _ _ _ _ (by rw [odd_two]; exact ho) hv, key _ _ _ _ ho h1]
  get_present := by
    intro sz a m ha hp
    cases sz with
    | Byte =>
      have h0 := hp 0 (by decide)
      rw [at_zero] at h0
      rcases h.getByte a m with ⟨-, h2⟩ | ⟨w, h1, -⟩
      · rw [h2] at h0; cases h0
      · exact ⟨w, h1⟩
    | Word =>
      have ho : ¬ Spec.Odd a := fun ho => ha ⟨by decide, ho⟩
      have h0 := hp 0 (by decide)
      rw [at_zero] at h0
      have h1 := hp 1 (by decide)
      rcases h.getWord a m ho with ⟨-, h2⟩ | ⟨-, h2⟩ | ⟨w, h2, -⟩
      · rw [h2] at h0; cases h0
      · rw [← one_at, h2] at h1; cases h1
      · exact ⟨w, h2⟩
    | Long =>
      have ho : ¬ Spec.Odd a := fun ho => ha ⟨by decide, ho⟩
      have h0 := hp 0 (by decide)
      rw [at_zero] at h0
      have h1 := hp 1 (by decide)
      have h2 := hp 2 (by decide)
      have h3 := hp 3 (by decide)
      rw [show (fun v => memGet Size.Long a m = .val v m) = fun v => MemoryAccess.getLong a m = .val v m from rfl]
      simp only [h.getLong]
      rcases h.getWord a m ho with ⟨-, h4⟩ | ⟨-, h4⟩ | ⟨w, h4, -⟩
      · rw [h4] at h0; cases h0
      · rw [← one_at, h4] at h1; cases h1
      rcases h.getWord (a + 2) m (by rw [odd_two]; exact ho) with ⟨-, h5⟩ | ⟨-, h5⟩ | ⟨w', h5, -⟩
      · rw [← two_at, h5] at h2; cases h2
      · rw [two_at, one_at, at_add] at h5; rw [h5] at h3; cases h3
      rw [h4]
      simp only
      rw [h5]
      exact ⟨_, rfl⟩
  reset_peek := h.reset

theorem byteSlice_laws : WordLaws ByteSlice peekBytes where
  getByte a m := by
    simp only [MemoryAccess.getByte, byteSliceGetByte, peekBytes]
    by_cases h : a.toNat < m.bytes.length
    · rw [dif_pos h]; exact .inr ⟨_, rfl, List.getElem?_eq_getElem h⟩
    · rw [dif_neg h]; exact .inl ⟨rfl, List.getElem?_eq_none (by omega)⟩
  getWord a m ho := by
    have e := toNat_succ ho
    simp only [MemoryAccess.getWord, byteSliceGetWord, peekBytes, e]
    by_cases h : a.toNat < m.bytes.length
    · rw [dif_pos h]
      by_cases h1 : a.toNat + 1 < m.bytes.length
      · rw [dif_pos h1]
        refine .inr (.inr ⟨_, rfl, ?_, ?_⟩)
        · rw [List.getElem?_eq_getElem h, (bytes_word _ _).1]
        · rw [List.getElem?_eq_getElem h1, (bytes_word _ _).2]
      · rw [dif_neg h1]
        exact .inr (.inl ⟨rfl, List.getElem?_eq_none (by omega)⟩)
    · rw [dif_neg h]; exact .inl ⟨rfl, List.getElem?_eq_none (by omega)⟩
  setByte a v m m' hm := by
    simp only [MemoryAccess.setByte, byteSliceSetByte] at hm
    by_cases h : a.toNat < m.bytes.length
    · rw [if_pos h] at hm
      cases hm
      simp only [peekBytes]
      refine ⟨by rw [List.getElem?_eq_getElem h]; rfl, by rw [List.getElem?_set_self h], fun b hb => ?_⟩
      rw [List.getElem?_set_ne]
      exact fun he => hb (BitVec.eq_of_toNat_eq he.symm)
    · rw [if_neg h] at hm; cases hm
  setWord a v m m' ho hm := by
    have e := toNat_succ ho
    simp only [MemoryAccess.setWord, byteSliceSetWord] at hm
    by_cases h : a.toNat < m.bytes.length
    · rw [if_pos h] at hm
      by_cases h1 : a.toNat + 1 < m.bytes.length
      · rw [if_pos h1] at hm
        cases hm
        simp only [peekBytes, e]
        refine ⟨by rw [List.getElem?_eq_getElem h]; rfl, by rw [List.getElem?_eq_getElem h1]; rfl, ?_, ?_, fun b hb hb1 => ?_⟩
        · rw [List.getElem?_set_ne (by omega), List.getElem?_set_self h, toU8_high]
        · rw [List.getElem?_set_self (by simpa using h1), toU8_low]
        · rw [List.getElem?_set_ne, List.getElem?_set_ne]
          · exact fun he => hb (BitVec.eq_of_toNat_eq he.symm)
          · exact fun he => hb1 (BitVec.eq_of_toNat_eq (by rw [e]; exact he.symm))
      · rw [if_neg h1] at hm; cases hm
    · rw [if_neg h] at hm; cases hm
  getLong _ _ := rfl
  setLong _ _ _ := rfl
  reset _ _ := rfl

instance : Ram ByteSlice := ramOfWords byteSlice_laws

theorem byteSliceRef_laws : WordLaws ByteSliceRef (fun m => peekBytes ⟨m.bytes⟩) where
  getByte a m := by
    simp only [MemoryAccess.getByte, byteSliceGetByte, peekBytes]
    by_cases h : a.toNat < m.bytes.length
    · rw [dif_pos h]; exact .inr ⟨_, rfl, List.getElem?_eq_getElem h⟩
    · rw [dif_neg h]; exact .inl ⟨rfl, List.getElem?_eq_none (by omega)⟩
  getWord a m ho := by
    have e := toNat_succ ho
    simp only [MemoryAccess.getWord, byteSliceGetWord, peekBytes, e]
    by_cases h : a.toNat < m.bytes.length
    · rw [dif_pos h]
      by_cases h1 : a.toNat + 1 < m.bytes.length
      · rw [dif_pos h1]
        refine .inr (.inr ⟨_, rfl, ?_, ?_⟩)
        · rw [List.getElem?_eq_getElem h, (bytes_word _ _).1]
        · rw [List.getElem?_eq_getElem h1, (bytes_word _ _).2]
      · rw [dif_neg h1]
        exact .inr (.inl ⟨rfl, List.getElem?_eq_none (by omega)⟩)
    · rw [dif_neg h]; exact .inl ⟨rfl, List.getElem?_eq_none (by omega)⟩
  setByte a v m m' hm := by cases hm
  setWord a v m m' ho hm := by cases hm
  getLong _ _ := rfl
  setLong _ _ _ := rfl
  reset _ _ := rfl

instance : Ram ByteSliceRef := ramOfWords byteSliceRef_laws

theorem wordSlice_peek (l : List U16) (a : U32) (ho : ¬ Spec.Odd a) (w : U16) (h : l[a.toNat / 2]? = some w) :
    peekWords ⟨l⟩ a = some (BitVec.ofNat 8 (w.toNat / 256)) ∧ peekWords ⟨l⟩ (a + 1) = some (BitVec.ofNat 8 w.toNat) := by
  have e := toNat_succ ho
  unfold Spec.Odd at ho
  unfold peekWords
  constructor
  · rw [h]; simp only [Option.map_some]; rw [if_pos (by omega)]
  · rw [e, show (a.toNat + 1) / 2 = a.toNat / 2 by omega, h]; simp only [Option.map_some]; rw [if_neg (by omega)]

theorem wordSlice_getByte (l : List U16) (a : U32) : wordSliceGetByte l a = some (peekWords ⟨l⟩ a) := by
  unfold wordSliceGetByte peekWords
  simp only [Nat.shiftRight_eq_div_pow, Nat.pow_one]
  by_cases h : a.toNat / 2 < l.length
  · rw [dif_pos h, List.getElem?_eq_getElem h]
    simp only [Option.map_some]
    by_cases he : isEven a
    · have := (isEven_iff a).1 he
      unfold Spec.Odd at this
      rw [if_pos he, if_pos (by omega), toU8_high]
    · have : Spec.Odd a := Decidable.byContradiction fun hc => he ((isEven_iff a).2 hc)
      unfold Spec.Odd at this
      rw [if_neg he, if_neg (by omega), toU8_low]
  · rw [dif_neg h, List.getElem?_eq_none (by omega)]
    rfl

theorem wordSlice_getWord (l : List U16) (a : U32) : wordSliceGetWord l a = some l[a.toNat / 2]? := by
  unfold wordSliceGetWord
  simp only [Nat.shiftRight_eq_div_pow, Nat.pow_one]
  by_cases h : a.toNat / 2 < l.length
  · rw [dif_pos h, List.getElem?_eq_getElem h]
  · rw [dif_neg h, List.getElem?_eq_none (by omega)]

theorem peekWords_set (l : List U16) (i : Nat) (w : U16) (b : U32) (h : i < l.length) :
    peekWords ⟨l.set i w⟩ b = if b.toNat / 2 = i then some (if b.toNat % 2 = 0 then BitVec.ofNat 8 (w.toNat / 256) else BitVec.ofNat 8 w.toNat)
      else peekWords ⟨l⟩ b := by
  unfold peekWords
  by_cases hb : b.toNat / 2 = i
  · rw [if_pos hb, hb, List.getElem?_set_self h]; rfl
  · rw [if_neg hb, List.getElem?_set_ne (fun h => hb h.symm)]

theorem wordSlice_laws : WordLaws WordSlice peekWords where
  getByte a m := by
    simp only [MemoryAccess.getByte, wordSlice_getByte]
    cases h : peekWords ⟨m.words⟩ a
    · exact .inl ⟨rfl, rfl⟩
    · exact .inr ⟨_, rfl, rfl⟩
  getWord a m ho := by
    simp only [MemoryAccess.getWord, wordSlice_getWord]
    cases h : m.words[a.toNat / 2]? with
    | none => exact .inl ⟨rfl, by unfold peekWords; rw [h]; rfl⟩
    | some w => exact .inr (.inr ⟨w, rfl, wordSlice_peek _ a ho w h⟩)
  setByte a v m m' hm := by
    simp only [MemoryAccess.setByte, wordSliceSetByte, Nat.shiftRight_eq_div_pow, Nat.pow_one] at hm
    by_cases h : a.toNat / 2 < m.words.length
    · rw [dif_pos h] at hm
      have hs : (peekWords m a).isSome := by
        unfold peekWords
        rw [List.getElem?_eq_getElem h]
        rfl
      refine ⟨hs, ?_⟩
      have key : ∀ w : U16, (m' = ⟨m.words.set (a.toNat / 2) w⟩) →
          (if a.toNat % 2 = 0 then BitVec.ofNat 8 (w.toNat / 256) else BitVec.ofNat 8 w.toNat) = v →
          (if a.toNat % 2 = 0 then BitVec.ofNat 8 w.toNat = BitVec.ofNat 8 m.words[a.toNat / 2].toNat
            else BitVec.ofNat 8 (w.toNat / 256) = BitVec.ofNat 8 (m.words[a.toNat / 2].toNat / 256)) →
          peekWords m' a = some v ∧ ∀ b, b ≠ a → peekWords m' b = peekWords m b := by
        rintro w rfl h1 h2
        refine ⟨?_, fun b hb => ?_⟩
        · rw [peekWords_set _ _ _ _ h, if_pos rfl, h1]
        · rw [peekWords_set _ _ _ _ h]
          by_cases hd : b.toNat / 2 = a.toNat / 2
          · rw [if_pos hd]
            have hne : b.toNat ≠ a.toNat := fun h => hb (BitVec.eq_of_toNat_eq h)
            unfold peekWords
            rw [hd, List.getElem?_eq_getElem h]
            simp only [Option.map_some, Option.some.injEq]
            by_cases ha : a.toNat % 2 = 0
            · rw [if_pos ha] at h2
              rw [if_neg (by omega), if_neg (by omega), h2]
            · rw [if_neg ha] at h2
              rw [if_pos (by omega), if_pos (by omega), h2]
          · rw [if_neg hd]
      by_cases he : isEven a
      · have ho := (isEven_iff a).1 he
        unfold Spec.Odd at ho
        rw [if_pos he] at hm
        cases hm
        refine key _ rfl ?_ ?_
        · rw [if_pos (by omega)]; exact (putHigh _ _).1
        · rw [if_pos (by omega)]; exact (putHigh _ _).2
      · have ho : Spec.Odd a := Decidable.byContradiction fun hc => he ((isEven_iff a).2 hc)
        unfold Spec.Odd at ho
        rw [if_neg he] at hm
        cases hm
        refine key _ rfl ?_ ?_
        · rw [if_neg (by omega)]; exact (putLow _ _).1
        · rw [if_neg (by omega)]; exact (putLow _ _).2
    · rw [dif_neg h] at hm; cases hm
  setWord a v m m' ho hm := by
    have e := toNat_succ ho
    unfold Spec.Odd at ho
    simp only [MemoryAccess.setWord, wordSliceSetWord, Nat.shiftRight_eq_div_pow, Nat.pow_one] at hm
    by_cases h : a.toNat / 2 < m.words.length
    · rw [if_pos h] at hm
      cases hm
      have hd : (a.toNat + 1) / 2 = a.toNat / 2 := by omega
      refine ⟨?_, ?_, ?_, ?_, fun b hb hb1 => ?_⟩
      · unfold peekWords; rw [List.getElem?_eq_getElem h]; rfl
      · unfold peekWords; rw [e, hd, List.getElem?_eq_getElem h]; rfl
      · rw [peekWords_set _ _ _ _ h, if_pos rfl, if_pos (by omega)]
      · rw [peekWords_set _ _ _ _ h, e, if_pos hd, if_neg (by omega)]
      · rw [peekWords_set _ _ _ _ h, if_neg]
        intro hc
        have h1 : b.toNat ≠ a.toNat := fun h => hb (BitVec.eq_of_toNat_eq h)
        have h2 : b.toNat ≠ a.toNat + 1 := fun h => hb1 (BitVec.eq_of_toNat_eq (by rw [e]; exact h))
        omega
    · rw [if_neg h] at hm; cases hm
  getLong _ _ := rfl
  setLong _ _ _ := rfl
  reset _ _ := rfl

instance : Ram WordSlice := ramOfWords wordSlice_laws

theorem wordSliceRef_laws : WordLaws WordSliceRef (fun m => peekWords ⟨m.words⟩) where
  getByte a m := by
    simp only [MemoryAccess.getByte, wordSlice_getByte]
    cases h : peekWords ⟨m.words⟩ a
    · exact .inl ⟨rfl, rfl⟩
    · exact .inr ⟨_, rfl, rfl⟩
  getWord a m ho := by
    simp only [MemoryAccess.getWord, wordSlice_getWord]
    cases h : m.words[a.toNat / 2]? with
    | none => exact .inl ⟨rfl, by unfold peekWords; rw [h]; rfl⟩
    | some w => exact .inr (.inr ⟨w, rfl, wordSlice_peek _ a ho w h⟩)
  setByte a v m m' hm := by cases hm
  setWord a v m m' ho hm := by cases hm
  getLong _ _ := rfl
  setLong _ _ _ := rfl
  reset _ _ := rfl

instance : Ram WordSliceRef := ramOfWords wordSliceRef_laws

theorem fullRam_laws : WordLaws FullRam (fun m a => some (m.byte a)) where
  getByte a m := .inr ⟨_, rfl, rfl⟩
  getWord a m ho := by
    refine .inr (.inr ⟨_, rfl, ?_, ?_⟩)
    · have h1 := (m.byte a).isLt
      have h2 := (m.byte (a + 1)).isLt
      congr 1
      apply BitVec.eq_of_toNat_eq
      simp only [BitVec.toNat_ofNat]
      omega
    · have h1 := (m.byte a).isLt
      have h2 := (m.byte (a + 1)).isLt
      congr 1
      apply BitVec.eq_of_toNat_eq
      simp only [BitVec.toNat_ofNat]
      omega
  setByte a v m m' hm := by
    cases hm
    exact ⟨rfl, by simp, fun b hb => by simp [hb]⟩
  setWord a v m m' ho hm := by
    cases hm
    refine ⟨rfl, rfl, by simp, ?_, fun b hb hb1 => by
      simp only [if_neg hb, if_neg hb1]⟩
    have : a + 1 ≠ a := by
      intro h
      have := congrArg BitVec.toNat h
      rw [toNat_succ ho] at this
      omega
    simp only [if_neg this, if_true]
  getLong _ _ := rfl
  setLong _ _ _ := rfl
  reset _ _ := rfl

instance : Ram FullRam := ramOfWords fullRam_laws

/-- Writability from that of bytes and words. -/
theorem writableOfWords {M : Type} [MemoryAccess M] {peek : M → U32 → Option U8} (h : WordLaws M peek)
    (hb : ∀ a v m, (peek m a).isSome → ∃ m', MemoryAccess.setByte a v m = .val () m')
    (hw : ∀ a v m, ¬ Spec.Odd a → (peek m a).isSome → (peek m (a + 1)).isSome → ∃ m', MemoryAccess.setWord a v m = .val () m') :
    @Writable M _ (ramOfWords h) := by
  letI := ramOfWords h
  refine @Writable.mk M _ (ramOfWords h) ?_
  intro sz a v m ha hp
  have hp : ∀ k < bytes sz, (peek m (at_ a k)).isSome = true := hp
  cases sz with
  | Byte =>
    have h0 := hp 0 (by decide)
    rw [at_zero] at h0
    exact hb a v m h0
  | Word =>
    have ho : ¬ Spec.Odd a := fun ho => ha ⟨by decide, ho⟩
    have h0 := hp 0 (by decide)
    rw [at_zero] at h0
    exact hw a v m ho h0 (hp 1 (by decide))
  | Long =>
    have ho : ¬ Spec.Odd a := fun ho => ha ⟨by decide, ho⟩
    have h0 := hp 0 (by decide)
    rw [at_zero] at h0
    obtain ⟨m1, h1⟩ := hw a (toU16 (v >>> 16)) m ho h0 (hp 1 (by decide))
    have hpr := (ramOfWords h).set_present (sz := .Word) (a := a) (v := toU16 (v >>> 16)) (fun hc => ho hc.2) h1
    have hpr : ∀ b, (peek m1 b).isSome = (peek m b).isSome := hpr
    obtain ⟨m2, h2⟩ := hw (a + 2) (toU16 v) m1 (by rw [odd_two]; exact ho) (by rw [hpr]; exact hp 2 (by decide))
      (by rw [hpr, two_at, one_at, at_add]; exact hp 3 (by decide))
    refine ⟨m2, ?_⟩
    show MemoryAccess.setLong a v m = _
    rw [h.setLong, h1]
    exact h2

instance : Writable ByteSlice := writableOfWords byteSlice_laws
  (fun a v m h => by
    have h : a.toNat < m.bytes.length := by simpa [peekBytes] using h
    simp only [MemoryAccess.setByte, byteSliceSetByte]
    rw [if_pos h]
    exact ⟨_, rfl⟩)
  (fun a v m ho h h1 => by
    have h : a.toNat < m.bytes.length := by simpa [peekBytes] using h
    have h1 : a.toNat + 1 < m.bytes.length := by
      unfold peekBytes at h1
      rw [toNat_succ ho] at h1
      simpa using h1
    simp only [MemoryAccess.setWord, byteSliceSetWord]
    rw [if_pos h, if_pos h1]
    exact ⟨_, rfl⟩)

instance : Writable WordSlice := writableOfWords wordSlice_laws
  (fun a v m h => by
    have h : a.toNat / 2 < m.words.length := by simpa [peekWords] using h
    simp only [MemoryAccess.setByte, wordSliceSetByte, Nat.shiftRight_eq_div_pow, Nat.pow_one]
    rw [dif_pos h]
    split <;> exact ⟨_, rfl⟩)
  (fun a v m ho h h1 => by
    have h : a.toNat / 2 < m.words.length := by simpa [peekWords] using h
    simp only [MemoryAccess.setWord, wordSliceSetWord, Nat.shiftRight_eq_div_pow, Nat.pow_one]
    rw [if_pos h]
    exact ⟨_, rfl⟩)

instance : Writable FullRam := writableOfWords fullRam_laws (fun _ _ _ _ => ⟨_, rfl⟩) (fun _ _ _ _ _ _ => ⟨_, rfl⟩)

/-- An operand is determined by its bytes. -/
theorem val_ext {sz : Size} {v w : Val sz} (h : ∀ k < bytes sz, beByte v k = beByte w k) : v = w := by
  apply BitVec.eq_of_toNat_eq
  cases sz with
  | Byte =>
    have h0 := congrArg BitVec.toNat (h 0 (by decide))
    simpa [beByte, bytes] using h0
  | Word =>
    have h0 := congrArg BitVec.toNat (h 0 (by decide))
    have h1 := congrArg BitVec.toNat (h 1 (by decide))
    simp only [beByte, bytes, BitVec.toNat_ofNat, Nat.reduceSub, Nat.reducePow, Nat.div_one] at h0 h1
    have := v.isLt
    have := w.isLt
    simp only [width] at *
    omega
  | Long =>
    have h0 := congrArg BitVec.toNat (h 0 (by decide))
    have h1 := congrArg BitVec.toNat (h 1 (by decide))
    have h2 := congrArg BitVec.toNat (h 2 (by decide))
    have h3 := congrArg BitVec.toNat (h 3 (by decide))
    simp only [beByte, bytes, BitVec.toNat_ofNat, Nat.reduceSub, Nat.reducePow, Nat.div_one] at h0 h1 h2 h3
    have := v.isLt
    have := w.isLt
    simp only [width] at *
    omega

section
variable {M : Type} [MemoryAccess M] [Ram M]

/-- A value written is read back. -/
theorem get_after_set {sz : Size} {a : U32} {v w : Val sz} {m m' m'' : M} (ha : AlignedFor sz a) (hs : memSet sz a v m = .val () m')
    (hg : memGet sz a m' = .val w m'') : w = v := by
  have h1 := (Ram.get_val ha hg).2
  have h2 := (Ram.set_val ha hs).1
  refine val_ext fun k hk => ?_
  have := (h1 k hk).symm.trans (h2 k hk)
  simpa using this

/-- A write does not change what is read elsewhere. -/
theorem get_after_set_other {sz sz' : Size} {a b : U32} {v : Val sz} {x w : Val sz'} {m m' m'' m3 : M} (ha : AlignedFor sz a) (hb : AlignedFor sz' b)
    (hd : ∀ j < bytes sz, ∀ k < bytes sz', at_ b k ≠ at_ a j)
    (h0 : memGet sz' b m = .val x m3) (hs : memSet sz a v m = .val () m') (hg : memGet sz' b m' = .val w m'') : w = x := by
  have h1 := (Ram.get_val hb hg).2
  have h2 := (Ram.set_val ha hs).2
  have h3 := (Ram.get_val hb h0).2
  refine val_ext fun k hk => ?_
  have h4 := h2 (at_ b k) fun j hj => hd j hj k hk
  have := (h1 k hk).symm.trans (h4.trans (h3 k hk))
  simpa using this
end

end M68k.Exec
