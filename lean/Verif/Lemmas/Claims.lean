import Verif.Spec.Claims
import Verif.Spec.Instr
/-
The operations of `Spec/Alu.lean` have the results and condition codes described in `Spec/Claims.lean`.
-/
namespace M68k
open Spec

theorem isSum_sum {n : Nat} (d s : BitVec n) (sr : StatusRegister) :
    IsSum d s sr (sum false d s sr).1 (sum false d s sr).2 := by
  refine ⟨⟨?_, ?_, rfl, ?_, ?_, rfl, rfl, rfl⟩, ?_⟩ <;> simp [sum, carryIn, neg, zero]

theorem sumCodes_sum {n : Nat} (d s : BitVec n) (sr : StatusRegister) :
    SumCodes d s (if sr.x then 1 else 0) sr (sum true d s sr).1 (sum true d s sr).2 := by
  refine ⟨?_, ?_, rfl, ?_, ?_, rfl, rfl, rfl⟩ <;> simp [sum, carryIn, neg]

theorem toInt_sub_emod {n : Nat} (d s : BitVec n) (x : Int) :
    (d.toInt - s.toInt - x) % 2 ^ n = ((d.toNat : Int) - s.toNat - x) % 2 ^ n := by
  have h1 : d.toInt % 2 ^ n = d.toNat % 2 ^ n := by
    rw [BitVec.toInt_eq_toNat_bmod]; exact_mod_cast Int.bmod_emod
  have h2 : s.toInt % 2 ^ n = s.toNat % 2 ^ n := by
    rw [BitVec.toInt_eq_toNat_bmod]; exact_mod_cast Int.bmod_emod
  rw [Int.sub_emod, Int.sub_emod d.toInt, h1, h2, ← Int.sub_emod (d.toNat : Int), ← Int.sub_emod]

theorem ofInt_toNat {n : Nat} (z : Int) : ((BitVec.ofInt n z).toNat : Int) = z % 2 ^ n := by
  rw [BitVec.toNat_ofInt, Int.toNat_of_nonneg]
  · simp
  · exact Int.emod_nonneg _ (by have := Nat.two_pow_pos n; omega)

theorem isDifference_difference {n : Nat} (d s : BitVec n) (sr : StatusRegister) :
    IsDifference d s sr (difference false d s sr).1 (difference false d s sr).2 := by
  refine ⟨⟨?_, ?_, rfl, ?_, ?_, rfl, rfl, rfl⟩, ?_⟩
  · rw [← toInt_sub_emod]; simp only [difference, carryIn]; rw [ofInt_toNat]; simp
  all_goals simp [difference, carryIn, neg, zero]

theorem differenceCodes_difference {n : Nat} (d s : BitVec n) (sr : StatusRegister) :
    DifferenceCodes d s (if sr.x then 1 else 0) sr (difference true d s sr).1 (difference true d s sr).2 := by
  refine ⟨?_, ?_, rfl, ?_, ?_, rfl, rfl, rfl⟩
  · rw [← toInt_sub_emod]; simp only [difference, carryIn]; rw [ofInt_toNat]; simp
  all_goals simp [difference, carryIn, neg]

theorem logicCodes_logicFlags {n : Nat} (r : BitVec n) (sr : StatusRegister) : LogicCodes r sr (logicFlags r sr) := by
  refine ⟨?_, ?_, rfl, rfl, rfl, rfl, rfl, rfl⟩ <;> simp [logicFlags, neg, zero]

/-- The values of the flags of a comparison. -/
theorem compare_flags {sz : Size} (d s : Val sz) (sr : StatusRegister) :
    ((compareFlags d s sr).c = true ↔ d.toNat < s.toNat) ∧ ((compareFlags d s sr).z = true ↔ d = s) ∧
    ((compareFlags d s sr).v = true ↔ ¬ FitsS (width sz) (d.toInt - s.toInt)) ∧
    ((compareFlags d s sr).n = true ↔ (d - s).toInt < 0) := by
  have hr : BitVec.ofInt (width sz) (d.toInt - s.toInt) = d - s := by
    apply BitVec.eq_of_toInt_eq
    rw [BitVec.toInt_ofInt, BitVec.toInt_sub]
  refine ⟨?_, ?_, ?_, ?_⟩
  · simp [compareFlags, difference, carryIn]
  · have h0 : (d - s).toNat = 0 ↔ d = s := by
      rw [show (0 : Nat) = (0 : Val sz).toNat by simp, BitVec.toNat_inj, BitVec.sub_eq_iff_eq_add]; simp
    rw [← h0]
    simp [compareFlags, difference, carryIn, zero, hr]
  · simp [compareFlags, difference, carryIn]
  · simp [compareFlags, difference, carryIn, neg, hr]

theorem iff_not_iff {a b : Prop} : (a ↔ ¬ b) ↔ ¬ (a ↔ b) := by
  by_cases a <;> by_cases b <;> simp [*]

theorem signed_lt_of_sub {n : Nat} (d s : BitVec n) (h : n = 8 ∨ n = 16 ∨ n = 32) :
    ((d - s).toInt < 0 ↔ FitsS n (d.toInt - s.toInt)) ↔ d.toInt < s.toInt := by
  have h1 := BitVec.toInt_lt (x := d)
  have h2 := BitVec.le_toInt d
  have h3 := BitVec.toInt_lt (x := s)
  have h4 := BitVec.le_toInt s
  rw [BitVec.toInt_sub]
  generalize d.toInt = x at *
  generalize s.toInt = y at *
  rcases h with h | h | h <;> subst h <;> simp only [FitsS, Int.bmod] <;> simp at * <;> (split <;> omega)

theorem orderCodes_compare {sz : Size} (d s : Val sz) (sr : StatusRegister) : OrderCodes d s sr (compareFlags d s sr) := by
  obtain ⟨hc, hz, hv, hn⟩ := compare_flags d s sr
  have hw : width sz = 8 ∨ width sz = 16 ∨ width sz = 32 := by cases sz <;> simp
  have hlt := signed_lt_of_sub d s hw
  have hx : (compareFlags d s sr).x = sr.x := rfl
  have hsys : SameSystem sr (compareFlags d s sr) := ⟨rfl, rfl, rfl⟩
  have hds : d = s ↔ d.toNat = s.toNat := BitVec.toNat_inj.symm
  have hdi : d = s ↔ d.toInt = s.toInt := BitVec.toInt_inj.symm
  generalize compareFlags d s sr = f at *
  have nv : (f.n = f.v) ↔ ¬ d.toInt < s.toInt := by
    rw [Bool.eq_iff_iff, hn, hv, ← hlt]; exact iff_not_iff
  refine ⟨rfl, rfl, ?_, ?_, ?_, ?_, ?_, ?_, ?_, ?_, ?_, ?_, ?_, ?_, ?_, ?_, hx, hsys⟩
  · show (!(f.c || f.z)) = true ↔ _
    rw [Bool.not_eq_true', Bool.eq_false_iff, ne_eq, Bool.or_eq_true, hc, hz, hds]; omega
  · show (f.c || f.z) = true ↔ _
    rw [Bool.or_eq_true, hc, hz, hds]; omega
  · show (!f.c) = true ↔ _
    rw [Bool.not_eq_true', Bool.eq_false_iff, ne_eq, hc]; omega
  · exact hc
  · show (!f.z) = true ↔ _
    rw [Bool.not_eq_true', Bool.eq_false_iff, ne_eq, hz]
  · exact hz
  · show (!f.v) = true ↔ _
    rw [Bool.not_eq_true', Bool.eq_false_iff, ne_eq, hv, Classical.not_not]
  · exact hv
  · show (!f.n) = true ↔ _
    rw [Bool.not_eq_true', Bool.eq_false_iff, ne_eq, hn]; omega
  · exact hn
  · show (f.n == f.v) = true ↔ _
    rw [beq_iff_eq, nv]; omega
  · show (f.n != f.v) = true ↔ _
    rw [bne_iff_ne, ne_eq, nv]; omega
  · show ((f.n == f.v) && !f.z) = true ↔ _
    rw [Bool.and_eq_true, beq_iff_eq, nv, Bool.not_eq_true', Bool.eq_false_iff, ne_eq, hz, hdi]; omega
  · show ((f.n != f.v) || f.z) = true ↔ _
    rw [Bool.or_eq_true, bne_iff_ne, ne_eq, nv, hz, hdi]; omega

end M68k
