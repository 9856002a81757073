import Verif.Lemmas.Arrays
import Verif.Lemmas.Bcd
/-
Decimal steps and chains of them.
-/
namespace M68k.Exec
open Spec
set_option linter.unusedSectionVars false

theorem toBcd_spec {k : Nat} (h : k < 100) : ValidBcd (toBcd k) ∧ fromBcd (toBcd k) = k := by
  unfold ValidBcd fromBcd toBcd
  rw [BitVec.toNat_ofNat, Nat.mod_eq_of_lt (show k / 10 * 16 + k % 10 < 2 ^ 8 by omega)]
  have h1 : (k / 10 * 16 + k % 10) / 16 = k / 10 := by omega
  have h2 : (k / 10 * 16 + k % 10) % 16 = k % 10 := by omega
  rw [h1, h2]
  omega

theorem fromBcd_zero {b : BitVec 8} (h : ValidBcd b) : fromBcd b = 0 ↔ b = 0 := by
  unfold fromBcd
  constructor
  · intro e
    apply BitVec.eq_of_toNat_eq
    show b.toNat = 0
    omega
  · rintro rfl; rfl

theorem fromBcd_lt {b : BitVec 8} (h : ValidBcd b) : fromBcd b < 100 := by
  unfold ValidBcd at h
  unfold fromBcd
  omega

theorem decimal_lt : ∀ {l : List (BitVec 8)}, (∀ b ∈ l, ValidBcd b) → decimal l < 100 ^ l.length
  | [], _ => by simp [decimal]
  | b :: l, h => by
    have h1 := fromBcd_lt (h b List.mem_cons_self)
    have h2 := decimal_lt (l := l) fun b hb => h b (List.mem_cons_of_mem _ hb)
    simp only [decimal, List.length_cons, Nat.pow_succ]
    omega

theorem carryIn_extend (sr : StatusRegister) : carryIn true sr = extend sr := by
  simp [carryIn, extend]

theorem decimalSum_spec {d v r : BitVec 8} {sr sr' : StatusRegister} (hd : ValidBcd d) (hv : ValidBcd v) (h1 : r = (decimalSum d v sr).1)
    (h2 : sr' = (decimalSum d v sr).2) :
    ValidBcd r ∧ fromBcd r = (fromBcd d + fromBcd v + extend sr) % 100 ∧ DecimalCodes (100 ≤ fromBcd d + fromBcd v + extend sr) sr.z [r] sr' := by
  unfold decimalSum at h1 h2
  rw [if_pos ⟨hd, hv⟩] at h1 h2
  simp only [carryIn_extend] at h1 h2
  obtain ⟨e1, e2⟩ := toBcd_spec (k := (fromBcd d + fromBcd v + extend sr) % 100) (Nat.mod_lt _ (by omega))
  rw [← h1] at e1 e2 h2
  subst h2
  refine ⟨e1, e2, by simp, rfl, ?_⟩
  simp only [decimal, Nat.mul_zero, Nat.add_zero, fromBcd_zero e1]
  simp [zero, and_comm]
  intro _
  exact ⟨fun h => BitVec.eq_of_toNat_eq h, fun h => by rw [h]; rfl⟩

theorem decimalDifference_spec {d v r : BitVec 8} {sr sr' : StatusRegister} (hd : ValidBcd d) (hv : ValidBcd v)
    (h1 : r = (decimalDifference d v sr).1) (h2 : sr' = (decimalDifference d v sr).2) :
    ValidBcd r ∧ (fromBcd r : Int) = ((fromBcd d : Int) - fromBcd v - extend sr) % 100 ∧
      DecimalCodes (fromBcd d < fromBcd v + extend sr) sr.z [r] sr' := by
  unfold decimalDifference at h1 h2
  rw [if_pos ⟨hd, hv⟩] at h1 h2
  simp only [carryIn_extend] at h1 h2
  obtain ⟨e1, e2⟩ := toBcd_spec (k := (((fromBcd d : Int) - fromBcd v - extend sr) % 100).toNat) (by omega)
  rw [← h1] at e1 e2 h2
  subst h2
  refine ⟨e1, by omega, ?_, rfl, ?_⟩
  · simp only [decide_eq_true_eq]; omega
  simp only [decimal, Nat.mul_zero, Nat.add_zero, fromBcd_zero e1]
  simp [zero, and_comm]
  intro _
  exact ⟨fun h => BitVec.eq_of_toNat_eq h, fun h => by rw [h]; rfl⟩

/-- The sum of numbers, from the sums of their limbs in base `B`. -/
theorem base_sum {B P r0 R K T : Nat} (hr : r0 < B) (hR : R = K % P) (hT : T = r0 + B * K) :
    r0 + B * R = T % (B * P) ∧ (B * P ≤ T ↔ P ≤ K) := by
  subst hR hT
  have hB : 0 < B := by omega
  constructor
  · rw [Nat.mod_mul, Nat.add_mul_mod_self_left, Nat.mod_eq_of_lt hr, Nat.add_mul_div_left _ _ hB, Nat.div_eq_of_lt hr, Nat.zero_add]
  · constructor
    · intro h
      by_cases hk : P ≤ K
      · exact hk
      · have h1 : B * (K + 1) ≤ B * P := Nat.mul_le_mul_left _ (by omega)
        rw [Nat.mul_succ] at h1
        omega
    · intro h
      have := Nat.mul_le_mul_left B h
      omega

theorem base_difference {B P r0 : Nat} {R : Nat} {K T : Int} (hP : 0 < P) (hr : r0 < B) (hR : (R : Int) = K % (P : Int)) (hT : T = r0 + B * K) :
    (((r0 + B * R : Nat) : Int) = T % (((B * P : Nat)) : Int)) ∧ (T < 0 ↔ K < 0) := by
  subst hT
  have hP' : (0 : Int) < P := by omega
  constructor
  · have hlt : (R : Int) < P := by rw [hR]; exact Int.emod_lt_of_pos _ hP'
    have e : K = R + P * (K / P) := by rw [hR]; exact (Int.emod_add_mul_ediv K P).symm
    generalize K / P = q at e
    subst e
    have hle : B * (R + 1) ≤ B * P := Nat.mul_le_mul_left _ (by omega)
    rw [Nat.mul_succ] at hle
    have : (r0 : Int) + B * (R + P * q) = ((r0 + B * R : Nat) : Int) + ((B * P : Nat) : Int) * q := by
      rw [Int.mul_add, ← Int.mul_assoc]
      simp only [Int.natCast_add, Int.natCast_mul]
      omega
    rw [this, Int.add_mul_emod_self_left, Int.emod_eq_of_lt (by omega) (by omega)]
  · constructor
    · intro h
      by_cases hk : K < 0
      · exact hk
      · have : (0 : Int) ≤ B * K := Int.mul_nonneg (by omega) (by omega)
        omega
    · intro h
      have h1 : (B : Int) * (K + 1) ≤ 0 := Int.mul_nonpos_of_nonneg_of_nonpos (by omega) (by omega)
      rw [Int.mul_add] at h1
      omega

end M68k.Exec
