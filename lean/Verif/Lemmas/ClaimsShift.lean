import Verif.Spec.ClaimsShift
import Verif.Lemmas.Claims
import Verif.Lemmas.Alu
/-
The shifts and rotations of Spec/Alu.lean satisfy the claims of Spec/ClaimsShift.lean.
-/
namespace M68k
open Spec

theorem testBit_div (a i : Nat) : a.testBit i = decide (a / 2 ^ i % 2 = 1) := by
  rw [Nat.testBit_eq_decide_div_mod_eq]

theorem neg_decide {n : Nat} (r : BitVec n) : neg r = true ↔ r.toInt < 0 := by simp [neg]
theorem zero_decide {n : Nat} (r : BitVec n) : zero r = true ↔ r.toNat = 0 := by simp [zero]

theorem shiftCodes_flags {n : Nat} (k : Nat) (r : BitVec n) (out out' v : Bool) (sr : StatusRegister) (h : 0 < k → out = out') :
    ShiftCodes k out' r sr (shiftFlags k r out v sr) := by
  refine ⟨neg_decide r, zero_decide r, ?_, ?_, rfl, rfl, rfl⟩
  · simp only [shiftFlags]; split; { rfl }; { rw [h (by omega)] }
  · simp only [shiftFlags]; split; { rfl }; { rw [h (by omega)] }

theorem left_out {n : Nat} (k : Nat) (d : BitVec n) (hk : 0 < k) :
    decide (d.toNat * 2 ^ k / 2 ^ n % 2 = 1) = (decide (k ≤ n) && d.getLsbD (n - k)) := by
  rw [← testBit_div, ← Nat.shiftLeft_eq, Nat.testBit_shiftLeft, BitVec.testBit_toNat]

theorem isLsl_lsl {n : Nat} (k : Nat) (d : BitVec n) (sr : StatusRegister) : IsLsl k d sr (lsl k d sr).1 (lsl k d sr).2 :=
  ⟨by simp [lsl], shiftCodes_flags _ _ _ _ _ _ (left_out k d), rfl⟩

theorem neg_msb {n : Nat} (d : BitVec n) : neg d = d.msb := by
  rw [neg_iff, BitVec.msb_eq_decide]
  apply decide_eq_decide.2
  cases n with
  | zero => simp; omega
  | succ n => rw [Nat.pow_succ]; simp; omega

theorem isAsl_asl {n : Nat} (k : Nat) (d : BitVec n) (sr : StatusRegister) : IsAsl k d sr (asl k d sr).1 (asl k d sr).2 := by
  refine ⟨by simp [asl], shiftCodes_flags _ _ _ _ _ _ (left_out k d), ?_⟩
  have : ∀ j, BitVec.ofNat n (d.toNat * 2 ^ j) = d <<< j := by
    intro j; apply BitVec.eq_of_toNat_eq; simp [Nat.shiftLeft_eq]
  simp only [asl, shiftFlags, decide_eq_true_eq, neg_msb, this]
  simp only [Classical.not_forall, ne_eq, exists_prop]

theorem isLsr_lsr {n : Nat} (k : Nat) (d : BitVec n) (sr : StatusRegister) : IsLsr k d sr (lsr k d sr).1 (lsr k d sr).2 := by
  refine ⟨?_, shiftCodes_flags _ _ _ _ _ _ fun _ => ?_, rfl⟩
  · simp only [lsr, BitVec.toNat_ofNat]
    exact Nat.mod_eq_of_lt (Nat.lt_of_le_of_lt (Nat.div_le_self _ _) d.isLt)
  · rw [← testBit_div, BitVec.testBit_toNat]

theorem toInt_div_bounds {n : Nat} (d : BitVec n) (k : Nat) :
    -(2 ^ n : Int) ≤ 2 * (d.toInt / 2 ^ k) ∧ 2 * (d.toInt / 2 ^ k) < 2 ^ n := by
  have h1 := BitVec.two_mul_toInt_lt (x := d)
  have h2 := BitVec.le_two_mul_toInt (x := d)
  have hp : (0 : Int) < 2 ^ k := by exact_mod_cast Nat.two_pow_pos k
  have hle : (1 : Int) ≤ 2 ^ k := hp
  have hmul := Int.mul_ediv_add_emod d.toInt (2 ^ k)
  have hm0 := Int.emod_nonneg d.toInt (Int.ne_of_gt hp)
  have hm1 := Int.emod_lt_of_pos d.toInt hp
  generalize d.toInt = z at *
  generalize z / 2 ^ k = q at *
  generalize z % 2 ^ k = r at *
  generalize (2 : Int) ^ k = P at *
  constructor
  · by_cases hq : 0 ≤ q
    · have : (0 : Int) < 2 ^ n := by exact_mod_cast Nat.two_pow_pos n
      omega
    · have := Int.mul_le_mul_of_nonpos_left (show q + 1 ≤ 0 by omega) (show 0 ≤ P - 1 by omega)
      have : P * q + r ≤ q := by grind
      omega
  · by_cases hq : 0 ≤ q
    · have := Int.mul_nonneg (show 0 ≤ P - 1 by omega) hq
      have : q ≤ P * q + r := by grind
      omega
    · have : (0 : Int) < 2 ^ n := by exact_mod_cast Nat.two_pow_pos n
      omega

theorem asr_out {n : Nat} (k : Nat) (d : BitVec n) (hk : 0 < k) :
    decide (d.toInt / 2 ^ (k - 1) % 2 = 1) = if k ≤ n then d.getLsbD (k - 1) else d.msb := by
  cases n with
  | zero =>
    have : d.toInt = 0 := by rw [BitVec.eq_nil d]; rfl
    rw [this, if_neg (by omega), BitVec.eq_nil d]; simp
  | succ n =>
    have h1 := BitVec.toInt_sshiftRight (x := d) (n := k - 1)
    rw [Int.shiftRight_eq_div_pow] at h1
    have h2 : (d.sshiftRight (k - 1)).toInt % 2 = (d.sshiftRight (k - 1)).toNat % 2 := by
      rcases toInt_or (d.sshiftRight (k - 1)) with h | h <;> rw [h.2]
      rw [Nat.pow_succ]; push_cast; omega
    have h3 : decide (d.toInt / 2 ^ (k - 1) % 2 = 1) = (d.sshiftRight (k - 1)).getLsbD 0 := by
      rw [← BitVec.testBit_toNat, testBit_div]
      apply decide_eq_decide.2
      push_cast at h1
      rw [← h1, h2, Nat.pow_zero, Nat.div_one]
      omega
    rw [h3, BitVec.getLsbD_sshiftRight]
    by_cases hk2 : k ≤ n + 1
    · simp [hk2]; omega
    · simp [hk2]; omega

theorem isAsr_asr {n : Nat} (k : Nat) (d : BitVec n) (sr : StatusRegister) : IsAsr k d sr (asr k d sr).1 (asr k d sr).2 := by
  refine ⟨?_, shiftCodes_flags _ _ _ _ _ _ (asr_out k d), rfl⟩
  simp only [asr, BitVec.toInt_ofInt]
  have := toInt_div_bounds d k
  rw [Int.bmod_eq_of_le_mul_two] <;> push_cast <;> omega

theorem rotl_bit (N W j i : Nat) (hW : W < 2 ^ N) (hj : j ≤ N) (hi : i < N) :
    (W * 2 ^ j + W / 2 ^ (N - j)).testBit i = W.testBit ((i + (N - j)) % N) := by
  have hlt : W / 2 ^ (N - j) < 2 ^ j := by
    apply Nat.div_lt_of_lt_mul
    rw [← Nat.pow_add]; rwa [Nat.sub_add_cancel hj]
  have hz : ∀ b, N ≤ b → W.testBit b = false := fun b hb =>
    Nat.testBit_lt_two_pow (Nat.lt_of_lt_of_le hW (Nat.pow_le_pow_right (by omega) hb))
  rw [Nat.mul_comm, Nat.two_pow_add_eq_or_of_lt hlt, Nat.testBit_or, Nat.mul_comm, ← Nat.shiftLeft_eq, ← Nat.shiftRight_eq_div_pow,
    Nat.testBit_shiftLeft, Nat.testBit_shiftRight]
  by_cases h : j ≤ i
  · rw [hz (N - j + i) (by omega)]
    have : (i + (N - j)) % N = i - j := by
      rw [show i + (N - j) = (i - j) + N by omega, Nat.add_mod_right, Nat.mod_eq_of_lt (by omega)]
    simp [h, this]
  · have : (i + (N - j)) % N = N - j + i := by rw [Nat.mod_eq_of_lt (by omega)]; omega
    simp [h, this]

theorem rotr_bit (N W j i : Nat) (hW : W < 2 ^ N) (hj : j ≤ N) (hi : i < N) :
    (W / 2 ^ j + W * 2 ^ (N - j)).testBit i = W.testBit ((i + j) % N) := by
  have := rotl_bit N W (N - j) i hW (by omega) hi
  rw [show N - (N - j) = j by omega] at this
  rw [Nat.add_comm, this]

theorem rotl_index (N k i : Nat) (hi : i < N) : ((i + k) % N + (N - k % N)) % N = i := by
  have h1 : k % N < N := Nat.mod_lt _ (by omega)
  rw [Nat.mod_add_mod, show i + k + (N - k % N) = i + (k / N) * N + N by have := Nat.div_add_mod' k N; omega,
    Nat.add_mod_right, Nat.add_mul_mod_self_right, Nat.mod_eq_of_lt hi]

theorem isRol_rol {n : Nat} (k : Nat) (d : BitVec n) (sr : StatusRegister) : IsRol k d sr (rol k d sr).1 (rol k d sr).2 := by
  refine ⟨?_, neg_decide _, zero_decide _, rfl, ?_, rfl, rfl, rfl, rfl⟩
  · intro i hi
    simp only [rol]
    rw [BitVec.getLsbD_ofNat, rotl_bit n _ _ _ d.isLt (Nat.le_of_lt (Nat.mod_lt _ (by omega))) (Nat.mod_lt _ (by omega)),
      rotl_index _ _ _ hi, BitVec.testBit_toNat]
    simp [Nat.mod_lt (i + k) (show n > 0 by omega)]
  · simp only [rol]
    congr 1
    rw [← BitVec.testBit_toNat, testBit_div, Nat.pow_zero, Nat.div_one]

theorem isRor_ror {n : Nat} (k : Nat) (d : BitVec n) (sr : StatusRegister) : IsRor k d sr (ror k d sr).1 (ror k d sr).2 := by
  refine ⟨?_, neg_decide _, zero_decide _, rfl, ?_, rfl, rfl, rfl, rfl⟩
  · intro i hi
    simp only [ror]
    rw [BitVec.getLsbD_ofNat, rotr_bit n _ _ _ d.isLt (Nat.le_of_lt (Nat.mod_lt _ (by omega))) hi, BitVec.testBit_toNat]
    simp [hi]
  · simp only [ror, neg_msb, BitVec.msb_eq_getLsbD_last]

theorem withX_bit {n : Nat} (d : BitVec n) (sr : StatusRegister) (i : Nat) (hi : i ≤ n) : (withX d sr).testBit i = bitX sr.x d i := by
  unfold withX bitX
  cases sr.x with
  | false =>
    simp only [Bool.false_eq_true, if_false, Nat.zero_add, BitVec.testBit_toNat]
    split
    · rw [BitVec.getLsbD_of_ge]; omega
    · rfl
  | true =>
    simp only [if_true]
    split
    · subst i; rw [Nat.testBit_two_pow_add_eq, BitVec.testBit_toNat, BitVec.getLsbD_of_ge _ _ (Nat.le_refl n)]; rfl
    · rw [Nat.testBit_two_pow_add_gt (by omega), BitVec.testBit_toNat]

theorem withX_lt {n : Nat} (d : BitVec n) (sr : StatusRegister) : withX d sr < 2 ^ (n + 1) := by
  unfold withX
  have := d.isLt
  rw [Nat.pow_succ]
  split <;> omega

theorem roxResult_bit (n w : Nat) (sr : StatusRegister) (i : Nat) (hi : i ≤ n) :
    bitX (roxResult n w sr).2.x (roxResult n w sr).1 i = w.testBit i := by
  simp only [roxResult, bitX, ← testBit_div]
  split
  · rename_i h; rw [h]
  · rw [BitVec.getLsbD_ofNat]; simp; omega

theorem isRoxl_roxl {n : Nat} (k : Nat) (d : BitVec n) (sr : StatusRegister) : IsRoxl k d sr (roxl k d sr).1 (roxl k d sr).2 := by
  refine ⟨?_, neg_decide _, zero_decide _, rfl, rfl, rfl, rfl, rfl⟩
  intro i hi
  have hm : (i + k) % (n + 1) < n + 1 := Nat.mod_lt _ (by omega)
  simp only [roxl]
  rw [roxResult_bit _ _ _ _ (by omega), rotl_bit (n + 1) _ _ _ (withX_lt d sr) (Nat.le_of_lt (Nat.mod_lt _ (by omega))) hm,
    rotl_index _ _ _ (by omega), withX_bit _ _ _ hi]

theorem isRoxr_roxr {n : Nat} (k : Nat) (d : BitVec n) (sr : StatusRegister) : IsRoxr k d sr (roxr k d sr).1 (roxr k d sr).2 := by
  refine ⟨?_, neg_decide _, zero_decide _, rfl, rfl, rfl, rfl, rfl⟩
  intro i hi
  have hm : (i + k) % (n + 1) < n + 1 := Nat.mod_lt _ (by omega)
  simp only [roxr]
  rw [roxResult_bit _ _ _ _ hi, rotr_bit (n + 1) _ _ _ (withX_lt d sr) (Nat.le_of_lt (Nat.mod_lt _ (by omega))) (by omega),
    Nat.add_mod_mod, withX_bit _ _ _ (by omega)]

end M68k
