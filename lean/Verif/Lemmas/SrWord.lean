import Verif.Lemmas.Sr
/-
The bits of the 16-bit word of the status register.
-/
namespace M68k
open Spec

theorem lt16_cases {i : Nat} (h : i < 16) : i = 0 ∨ i = 1 ∨ i = 2 ∨ i = 3 ∨ i = 4 ∨ i = 5 ∨ i = 6 ∨ i = 7 ∨ i = 8 ∨
    i = 9 ∨ i = 10 ∨ i = 11 ∨ i = 12 ∨ i = 13 ∨ i = 14 ∨ i = 15 := by omega

/-- One case for each bit of a word. -/
macro "bit_cases " h:ident : tactic => `(tactic|
  (rcases lt16_cases $h with e | e | e | e | e | e | e | e | e | e | e | e | e | e | e | e) <;> subst e)

theorem bit_getLsbD (w : U16) (i : Nat) (h : i < 16) : bit w i = w.getLsbD i := by
  rw [Exec.bit_eq w i h, ← BitVec.testBit_toNat, Nat.testBit_eq_decide_div_mod_eq]

theorem boolTo_bit (b : Bool) (k i : Nat) (hi : i < 16) : (boolTo 16 b <<< k).getLsbD i = (b && decide (i = k)) := by
  cases b
  · simp [boolTo]
  · simp [boolTo, hi]
    rw [Bool.eq_iff_iff]; simp; omega

/-- The bits of the word. -/
theorem toU16_bit (sr : StatusRegister) (i : Nat) (hi : i < 16) : sr.toU16.getLsbD i =
    ((sr.t && decide (i = 15)) || (sr.s && decide (i = 13)) || (decide (8 ≤ i) && sr.interruptMask.getLsbD (i - 8)) ||
     (sr.x && decide (i = 4)) || (sr.n && decide (i = 3)) || (sr.z && decide (i = 2)) || (sr.v && decide (i = 1)) ||
     (sr.c && decide (i = 0))) := by
  have h0 : (boolTo 16 sr.c).getLsbD i = (sr.c && decide (i = 0)) := by
    have := boolTo_bit sr.c 0 i hi
    simpa using this
  unfold StatusRegister.toU16
  simp only [BitVec.getLsbD_or, boolTo_bit _ _ _ hi, h0]
  congr 7
  simp [toU16, hi]
  rw [Bool.eq_iff_iff]; simp

/-- A mask of at most 7 has three bits. -/
theorem mask_bit {m : U8} (h : m.toNat ≤ 7) (i : Nat) (hi : 3 ≤ i) : m.getLsbD i = false := by
  rw [← BitVec.testBit_toNat]
  exact Nat.testBit_lt_two_pow (Nat.lt_of_le_of_lt h (Nat.lt_of_lt_of_le (by decide : 7 < 2 ^ 3) (Nat.pow_le_pow_right (by omega) hi)))

theorem srOf_mask_bit (w : U16) (i : Nat) : (toU8 (bits w 8 10)).getLsbD i = (decide (i < 3) && w.getLsbD (i + 8)) := by
  rw [mask_field, BitVec.getLsbD_ofNat, show w.toNat / 256 % 8 = (w.toNat >>> 8) % 2 ^ 3 by rw [Nat.shiftRight_eq_div_pow],
    Nat.testBit_mod_two_pow, Nat.testBit_shiftRight, BitVec.testBit_toNat, Nat.add_comm 8 i]
  by_cases h : i < 3
  · simp [h]; intro _; omega
  · simp [h]

end M68k
