import Verif.Lemmas.Alu
/-
The decimal helpers compute the specified sums and differences of packed decimal bytes.
-/
set_option linter.unusedSimpArgs false
namespace M68k
open Spec

theorem and_15 (v : U8) : (v &&& 0x0F).toNat = v.toNat % 16 := by
  rw [BitVec.toNat_and]; exact Nat.and_two_pow_sub_one_eq_mod _ 4

theorem carryIn_true (sr : StatusRegister) : (boolTo 8 sr.x).toNat = carryIn true sr := by
  rw [boolTo_toNat 8 (by omega)]; simp [carryIn]

theorem carryIn_le (b : Bool) (sr : StatusRegister) : carryIn b sr ≤ 1 := by
  unfold carryIn; split <;> omega

private theorem z_aux (r : U8) (z : Bool) : (if (r != 0) = true then false else z) = (zero r && z) := by
  rw [bne_zero]; cases zero r <;> simp

/-- A byte made of two decimal digits. -/
theorem bcd_digits (b : U8) (h : ValidBcd b) : ∃ hi lo, hi ≤ 9 ∧ lo ≤ 9 ∧ b = BitVec.ofNat 8 (16 * hi + lo) ∧ fromBcd b = 10 * hi + lo := by
  refine ⟨b.toNat / 16, b.toNat % 16, h.2, h.1, ?_, ?_⟩
  · apply BitVec.eq_of_toNat_eq
    have := b.isLt
    rw [BitVec.toNat_ofNat]; omega
  · unfold fromBcd; omega

theorem abcd_core (sr : StatusRegister) (d1 d0 s1 s0 : Nat) (h1 : d1 ≤ 9) (h2 : d0 ≤ 9) (h3 : s1 ≤ 9) (h4 : s0 ≤ 9) :
    (Alu.abcd sr (BitVec.ofNat 8 (16 * s1 + s0)) (BitVec.ofNat 8 (16 * d1 + d0))).1 =
      toBcd ((10 * d1 + d0 + (10 * s1 + s0) + carryIn true sr) % 100) ∧
    (Alu.abcd sr (BitVec.ofNat 8 (16 * s1 + s0)) (BitVec.ofNat 8 (16 * d1 + d0))).2.c =
      decide (100 ≤ 10 * d1 + d0 + (10 * s1 + s0) + carryIn true sr) := by
  have hx := carryIn_true sr
  have hx1 := carryIn_le true sr
  simp only [Alu.abcd, unsignedCarryingAdd, overflowingAddU, BitVec.uaddOverflow, decide_eq_true_eq, Bool.or_eq_true,
        GT.gt, BitVec.lt_def, BitVec.toNat_add, and_15, hx, BitVec.reduceToNat, BitVec.toNat_ofNat, toBcd]
  generalize carryIn true sr = x at *
  have e1 : (16 * s1 + s0) % 2 ^ 8 = 16 * s1 + s0 := by omega
  have e2 : (16 * d1 + d0) % 2 ^ 8 = 16 * d1 + d0 := by omega
  have e3 : (16 * s1 + s0) % 16 = s0 := by omega
  have e4 : (16 * d1 + d0) % 16 = d0 := by omega
  have e5 : ((16 * s1 + s0 + (16 * d1 + d0)) % 2 ^ 8 + x) % 2 ^ 8 = (16 * (s1 + d1) + (s0 + d0 + x)) % 256 := by omega
  have e6 : (16 * s1 + s0 + (16 * d1 + d0) ≥ 2 ^ 8 ∨ (16 * s1 + s0 + (16 * d1 + d0)) % 2 ^ 8 + x ≥ 2 ^ 8) ↔
      256 ≤ 16 * (s1 + d1) + (s0 + d0 + x) := by omega
  have e7 : ((s0 + d0) % 2 ^ 8 + x) % 2 ^ 8 = s0 + d0 + x := by omega
  have e8 : (16 * (s1 + d1) + (s0 + d0 + x)) % 256 % 16 = (s0 + d0 + x) % 16 := by omega
  simp only [e1, e2, e3, e4, e5, e6, e7, e8]
  have hl : (9 < (s0 + d0 + x) % 16 ∨ 15 < s0 + d0 + x) ↔ 10 ≤ s0 + d0 + x := by omega
  have hh : (153 < (16 * (s1 + d1) + (s0 + d0 + x)) % 256 ∨ 256 ≤ 16 * (s1 + d1) + (s0 + d0 + x)) ↔
      100 ≤ 10 * d1 + d0 + (10 * s1 + s0) + x := by omega
  simp only [hl, hh]
  constructor
  · apply BitVec.eq_of_toNat_eq
    have en : (BitVec.ofNat 8 (16 * s1 + s0) + BitVec.ofNat 8 (16 * d1 + d0) + boolTo 8 sr.x).toNat =
        (16 * (s1 + d1) + (s0 + d0 + x)) % 256 := by
      rw [BitVec.toNat_add, BitVec.toNat_add, BitVec.toNat_ofNat, BitVec.toNat_ofNat, hx, e1, e2, e5]
    rw [BitVec.toNat_ofNat]
    have et : 10 * d1 + d0 + (10 * s1 + s0) + x = 10 * (s1 + d1) + (s0 + d0 + x) := by omega
    rw [et]
    clear e1 e2 e3 e4 e5 e6 e7 e8 hl hh et
    have hL : s0 + d0 + x ≤ 19 := by omega
    have hH : s1 + d1 ≤ 18 := by omega
    clear hx hx1 h1 h2 h3 h4
    generalize BitVec.ofNat 8 (16 * s1 + s0) + BitVec.ofNat 8 (16 * d1 + d0) + boolTo 8 sr.x = b at *
    generalize s0 + d0 + x = L at *
    generalize s1 + d1 = H at *
    split <;> split <;> simp only [BitVec.toNat_add, en, BitVec.reduceToNat]
    · have : (10 * H + L) % 100 = 10 * (H - 9) + (L - 10) := by omega
      have h2 : (10 * (H - 9) + (L - 10)) / 10 = H - 9 := by omega
      omega
    · have : (10 * H + L) % 100 = 10 * (H - 10) + L := by omega
      omega
    · have : (10 * H + L) % 100 = 10 * (H + 1) + (L - 10) := by omega
      omega
    · have : (10 * H + L) % 100 = 10 * H + L := by omega
      omega
  · split
    · simp [*]
    · rename_i h
      rw [← e6] at hh
      rw [← Bool.decide_or, decide_eq_decide]
      omega

theorem abcd_eq (sr : StatusRegister) (d s : U8) : Alu.abcd sr s d = decimalSum d s sr := by
  unfold decimalSum
  split
  next h =>
    obtain ⟨d1, d0, hd1, hd0, ed, fd⟩ := bcd_digits d h.1
    obtain ⟨s1, s0, hs1, hs0, es, fs⟩ := bcd_digits s h.2
    obtain ⟨k1, k2⟩ := abcd_core sr d1 d0 s1 s0 hd1 hd0 hs1 hs0
    rw [← ed, ← es, ← fd, ← fs] at k1 k2
    have hz : (Alu.abcd sr s d).2.z = (zero (Alu.abcd sr s d).1 && sr.z) := z_aux _ _
    simp only
    rw [← k1, ← k2, ← hz]
    rfl
  next => rfl

theorem sbcd_core (sr : StatusRegister) (d1 d0 s1 s0 : Nat) (h1 : d1 ≤ 9) (h2 : d0 ≤ 9) (h3 : s1 ≤ 9) (h4 : s0 ≤ 9) :
    (Alu.sbcd sr (BitVec.ofNat 8 (16 * d1 + d0)) (BitVec.ofNat 8 (16 * s1 + s0))).1 =
      toBcd ((((10 * d1 + d0 : Nat) : Int) - ((10 * s1 + s0 : Nat) : Int) - (carryIn true sr : Int)) % 100).toNat ∧
    (Alu.sbcd sr (BitVec.ofNat 8 (16 * d1 + d0)) (BitVec.ofNat 8 (16 * s1 + s0))).2.c =
      decide (((10 * d1 + d0 : Nat) : Int) - ((10 * s1 + s0 : Nat) : Int) - (carryIn true sr : Int) < 0) := by
  have hx := carryIn_true sr
  have hx1 := carryIn_le true sr
  simp only [Alu.sbcd, unsignedBorrowingSub, overflowingSubU, BitVec.usubOverflow, decide_eq_true_eq, Bool.or_eq_true,
        GT.gt, BitVec.lt_def, BitVec.toNat_add, BitVec.toNat_sub, and_15, hx, BitVec.reduceToNat, BitVec.toNat_ofNat, toBcd]
  generalize carryIn true sr = x at *
  have e1 : (16 * s1 + s0) % 2 ^ 8 = 16 * s1 + s0 := by omega
  have e2 : (16 * d1 + d0) % 2 ^ 8 = 16 * d1 + d0 := by omega
  have e3 : (16 * s1 + s0) % 16 = s0 := by omega
  have e4 : (16 * d1 + d0) % 16 = d0 := by omega
  have e5 : (2 ^ 8 - x + (2 ^ 8 - (16 * s1 + s0) + (16 * d1 + d0)) % 2 ^ 8) % 2 ^ 8 = (512 + 16 * d1 + d0 - (16 * s1 + s0) - x) % 256 := by omega
  have e6 : (16 * d1 + d0 < 16 * s1 + s0 ∨ (2 ^ 8 - (16 * s1 + s0) + (16 * d1 + d0)) % 2 ^ 8 < x) ↔
      16 * d1 + d0 < 16 * s1 + s0 + x := by omega
  have e7 : (s0 + x) % 2 ^ 8 = s0 + x := by omega
  have e8 : (512 + 16 * d1 + d0 - (16 * s1 + s0) - x) % 256 % 16 = (16 + d0 - s0 - x) % 16 := by omega
  simp only [e1, e2, e3, e4, e5, e6, e7, e8]
  have hl : (9 < (16 + d0 - s0 - x) % 16 ∨ d0 < s0 + x) ↔ d0 < s0 + x := by omega
  have hh : (153 < (512 + 16 * d1 + d0 - (16 * s1 + s0) - x) % 256 ∨ 16 * d1 + d0 < 16 * s1 + s0 + x) ↔
      10 * d1 + d0 < 10 * s1 + s0 + x := by omega
  simp only [hl, hh]
  constructor
  · apply BitVec.eq_of_toNat_eq
    have en : (BitVec.ofNat 8 (16 * d1 + d0) - BitVec.ofNat 8 (16 * s1 + s0) - boolTo 8 sr.x).toNat =
        (512 + 16 * d1 + d0 - (16 * s1 + s0) - x) % 256 := by
      rw [BitVec.toNat_sub, BitVec.toNat_sub, BitVec.toNat_ofNat, BitVec.toNat_ofNat, hx, e1, e2, e5]
    rw [BitVec.toNat_ofNat]
    have et : ((((10 * d1 + d0 : Nat) : Int) - ((10 * s1 + s0 : Nat) : Int) - (x : Int)) % 100).toNat =
      (200 + 10 * d1 + d0 - (10 * s1 + s0) - x) % 100 := by omega
    rw [et]
    clear e1 e2 e3 e4 e5 e6 e7 e8 hl hh et
    generalize BitVec.ofNat 8 (16 * d1 + d0) - BitVec.ofNat 8 (16 * s1 + s0) - boolTo 8 sr.x = b at *
    clear hx
    split <;> split <;> simp only [BitVec.toNat_sub, en, BitVec.reduceToNat]
    · have : (200 + 10 * d1 + d0 - (10 * s1 + s0) - x) % 100 = 10 * (9 + d1 - s1) + (10 + d0 - s0 - x) := by omega
      omega
    · have : (200 + 10 * d1 + d0 - (10 * s1 + s0) - x) % 100 = 10 * (10 + d1 - s1) + (d0 - s0 - x) := by omega
      omega
    · have : (200 + 10 * d1 + d0 - (10 * s1 + s0) - x) % 100 = 10 * (d1 - s1 - 1) + (10 + d0 - s0 - x) := by omega
      omega
    · have : (200 + 10 * d1 + d0 - (10 * s1 + s0) - x) % 100 = 10 * (d1 - s1) + (d0 - s0 - x) := by omega
      omega
  · rw [← Bool.decide_or, decide_eq_decide]
    omega

theorem sbcd_eq (sr : StatusRegister) (d s : U8) : Alu.sbcd sr d s = decimalDifference d s sr := by
  unfold decimalDifference
  split
  next h =>
    obtain ⟨d1, d0, hd1, hd0, ed, fd⟩ := bcd_digits d h.1
    obtain ⟨s1, s0, hs1, hs0, es, fs⟩ := bcd_digits s h.2
    obtain ⟨k1, k2⟩ := sbcd_core sr d1 d0 s1 s0 hd1 hd0 hs1 hs0
    rw [← ed, ← es, ← fd, ← fs] at k1 k2
    have hz : (Alu.sbcd sr d s).2.z = (zero (Alu.sbcd sr d s).1 && sr.z) := z_aux _ _
    simp only
    rw [← k1, ← k2, ← hz]
    rfl
  next => rfl

end M68k
