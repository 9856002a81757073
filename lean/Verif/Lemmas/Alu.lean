import Verif.Lemmas.Exec
import Verif.Spec.Isa
/-
The arithmetic helpers of the interpreter compute the specified results and flags.
-/
set_option linter.unusedSimpArgs false
namespace M68k
open Spec

theorem boolTo_toNat (n : Nat) (h : 0 < n) (b : Bool) : (boolTo n b).toNat = if b then 1 else 0 := by
  cases b
  · simp [boolTo]
  · have : (1 : BitVec n) = 1#n := rfl
    simp [boolTo, BitVec.toNat_ofNat, Nat.mod_eq_of_lt (Nat.one_lt_two_pow_iff.mpr (by omega : n ≠ 0))]

theorem toInt_cases {n : Nat} (v : BitVec n) :
    v.toInt = if 2 * v.toNat < 2 ^ n then (v.toNat : Int) else (v.toNat : Int) - (2 ^ n : Nat) := BitVec.toInt_eq_toNat_cond v

theorem toInt_or {n : Nat} (v : BitVec n) :
    (2 * v.toNat < 2 ^ n ∧ v.toInt = v.toNat) ∨ (2 ^ n ≤ 2 * v.toNat ∧ v.toInt = (v.toNat : Int) - (2 ^ n : Nat)) := by
  rw [toInt_cases]; split <;> simp_all

theorem neg_iff {n : Nat} (v : BitVec n) : neg v = decide (2 ^ n ≤ 2 * v.toNat) := by
  unfold neg
  rw [decide_eq_decide, toInt_cases]
  have := v.isLt
  split <;> omega

theorem neg_slt {n : Nat} (v : BitVec n) : v.slt 0 = neg v := by
  simp [BitVec.slt, neg]

theorem beq_zero {n : Nat} (v : BitVec n) : (v == 0) = zero v := by
  unfold zero
  rw [Bool.eq_iff_iff]
  simp [BitVec.toNat_eq]

theorem bne_zero {n : Nat} (v : BitVec n) : (v != 0) = !zero v := by
  rw [bne, beq_zero]

/-- The widths of the operands. -/
def IsWidth (n : Nat) : Prop := n = 8 ∨ n = 16 ∨ n = 32
theorem width_isWidth (sz : Size) : IsWidth (width sz) := by cases sz <;> simp [IsWidth]

theorem sum_core (n : Nat) (hn : IsWidth n) (d s xb : BitVec n) (x : Nat) (hc : x ≤ 1) (hb : xb.toNat = x) :
    s + d + xb = BitVec.ofNat n (d.toNat + s.toNat + x) ∧
    (s.uaddOverflow d || (s + d).uaddOverflow xb) = decide (2 ^ n ≤ d.toNat + s.toNat + x) ∧
    (s.saddOverflow d != (s + d).saddOverflow xb) = decide ¬ FitsS n (d.toInt + s.toInt + x) := by
  subst hb
  have e1 := toInt_or d
  have e2 := toInt_or s
  have e3 := toInt_or (s + d)
  have e4 := toInt_or xb
  have l1 := d.isLt
  have l2 := s.isLt
  refine ⟨?_, ?_, ?_⟩
  · apply BitVec.eq_of_toNat_eq
    rcases hn with rfl | rfl | rfl <;> simp <;> omega
  · rw [Bool.eq_iff_iff]
    rcases hn with rfl | rfl | rfl <;> simp [BitVec.uaddOverflow] <;> omega
  · rw [Bool.eq_iff_iff]
    cases h1 : s.saddOverflow d <;> cases h2 : (s + d).saddOverflow xb <;>
      rcases hn with rfl | rfl | rfl <;>
      simp [BitVec.saddOverflow, FitsS, -BitVec.toInt_add, -BitVec.toInt_sub] at h1 h2 ⊢ <;>
      rw [BitVec.toNat_add] at e3 <;> simp only [Nat.reducePow, Nat.reduceSub, Int.reducePow] at * <;> omega

theorem difference_core (n : Nat) (hn : IsWidth n) (d s xb : BitVec n) (x : Nat) (hc : x ≤ 1) (hb : xb.toNat = x) :
    d - s - xb = BitVec.ofInt n (d.toInt - s.toInt - x) ∧
    (d.usubOverflow s || (d - s).usubOverflow xb) = decide (d.toNat < s.toNat + x) ∧
    (d.ssubOverflow s != (d - s).ssubOverflow xb) = decide ¬ FitsS n (d.toInt - s.toInt - x) := by
  subst hb
  have e1 := toInt_or d
  have e2 := toInt_or s
  have e3 := toInt_or (d - s)
  have e4 := toInt_or xb
  have l1 := d.isLt
  have l2 := s.isLt
  refine ⟨?_, ?_, ?_⟩
  · apply BitVec.eq_of_toNat_eq
    rcases hn with rfl | rfl | rfl <;> simp only [BitVec.toNat_sub, BitVec.toNat_ofInt] <;>
      simp only [Nat.reducePow, Nat.reduceSub, Int.reducePow] at * <;> omega
  · rw [Bool.eq_iff_iff]
    rcases hn with rfl | rfl | rfl <;> simp [BitVec.usubOverflow] <;> omega
  · rw [Bool.eq_iff_iff]
    cases h1 : d.ssubOverflow s <;> cases h2 : (d - s).ssubOverflow xb <;>
      rcases hn with rfl | rfl | rfl <;>
      simp [BitVec.ssubOverflow, FitsS, -BitVec.toInt_add, -BitVec.toInt_sub] at h1 h2 ⊢ <;>
      rw [BitVec.toNat_sub] at e3 <;> simp only [Nat.reducePow, Nat.reduceSub, Int.reducePow] at * <;> omega

theorem add_eq {n : Nat} (hn : IsWidth n) (ADDX : Bool) (sr : StatusRegister) (d s : BitVec n) :
    Alu.add ADDX sr d s = sum ADDX d s sr := by
  have hb : (boolTo n (ADDX && sr.x)).toNat = carryIn ADDX sr := boolTo_toNat n (by rcases hn with rfl | rfl | rfl <;> omega) _
  have hc : carryIn ADDX sr ≤ 1 := by unfold carryIn; split <;> omega
  have hz : ∀ r : BitVec n, (if ADDX = true then if (!zero r) = true then false else sr.z else zero r) =
      (zero r && (!ADDX || sr.z)) := by
    intro r; cases ADDX <;> cases zero r <;> simp
  obtain ⟨h1, h2, h3⟩ := sum_core n hn d s _ _ hc hb
  unfold Alu.add sum
  simp only [signedCarryingAdd, unsignedCarryingAdd, overflowingAddU, overflowingAddS, neg_slt, beq_zero, bne_zero, hz]
  rw [h1, h2, h3]

theorem sub_eq {n : Nat} (hn : IsWidth n) (SUBX CMP : Bool) (sr : StatusRegister) (d s : BitVec n) :
    Alu.sub SUBX CMP sr d s =
      ((difference SUBX d s sr).1,
        if CMP then { (difference SUBX d s sr).2 with x := sr.x } else (difference SUBX d s sr).2) := by
  have hb : (boolTo n (SUBX && sr.x)).toNat = carryIn SUBX sr := boolTo_toNat n (by rcases hn with rfl | rfl | rfl <;> omega) _
  have hc : carryIn SUBX sr ≤ 1 := by unfold carryIn; split <;> omega
  have hz : ∀ r : BitVec n, (if SUBX = true then if (!zero r) = true then false else sr.z else zero r) =
      (zero r && (!SUBX || sr.z)) := by
    intro r; cases SUBX <;> cases zero r <;> simp
  obtain ⟨h1, h2, h3⟩ := difference_core n hn d s _ _ hc hb
  unfold Alu.sub difference
  simp only [signedBorrowingSub, unsignedBorrowingSub, overflowingSubU, overflowingSubS, neg_slt, beq_zero, bne_zero, hz]
  rw [h1, h2, h3]
  cases CMP <;> simp

theorem sub_eq_difference {n : Nat} (hn : IsWidth n) (SUBX : Bool) (sr : StatusRegister) (d s : BitVec n) :
    Alu.sub SUBX false sr d s = difference SUBX d s sr := by
  rw [sub_eq hn]; simp

theorem sub_eq_compare {n : Nat} (hn : IsWidth n) (sr : StatusRegister) (d s : BitVec n) :
    (Alu.sub false true sr d s).2 = compareFlags d s sr := by
  rw [sub_eq hn]; simp [compareFlags]

theorem signBit_neg {n : Nat} (hn : IsWidth n) (r : BitVec n) : ((r &&& signBitMask n) != 0) = neg r := by
  rw [bne_zero, neg_iff]
  have h : r &&& signBitMask n = if r.getLsbD (n - 1) then BitVec.twoPow n (n - 1) else 0 := by
    have : signBitMask n = BitVec.twoPow n (n - 1) := by
      rcases hn with rfl | rfl | rfl <;> rfl
    rw [this, BitVec.and_twoPow]; rfl
  rw [h]
  unfold zero
  have hl := r.isLt
  rcases hn with rfl | rfl | rfl <;> simp [BitVec.getLsbD, Nat.testBit_eq_decide_div_mod_eq] <;> split <;> simp <;> omega

theorem and_eq {n : Nat} (hn : IsWidth n) (sr : StatusRegister) (d s : BitVec n) :
    Alu.and sr d s = logic (· &&& ·) d s sr := by
  simp only [Alu.and, logic, logicFlags, signBit_neg hn, beq_zero, BitVec.and_comm]
theorem eor_eq {n : Nat} (hn : IsWidth n) (sr : StatusRegister) (d s : BitVec n) :
    Alu.eor sr d s = logic (· ^^^ ·) d s sr := by
  simp only [Alu.eor, logic, logicFlags, signBit_neg hn, beq_zero, BitVec.xor_comm]
theorem or_eq {n : Nat} (hn : IsWidth n) (sr : StatusRegister) (d s : BitVec n) :
    Alu.or sr d s = logic (· ||| ·) d s sr := by
  simp only [Alu.or, logic, logicFlags, signBit_neg hn, beq_zero, BitVec.or_comm]

end M68k
