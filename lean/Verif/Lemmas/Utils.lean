import Verif.Spec.Utils
/-
Lemmas for C90.
-/
namespace M68k.Exec
open Spec

theorem bit_test (d : U16) (k : Nat) (h : k < 16) : (d &&& (1 : U16) <<< k != 0) = d.getLsbD k := by
  rw [Bool.eq_iff_iff, bne_iff_ne, ne_eq]
  constructor
  · intro hn
    refine Classical.byContradiction fun hc => hn ?_
    apply BitVec.eq_of_getLsbD_eq
    intro i hi
    simp only [BitVec.getLsbD_and, BitVec.getLsbD_shiftLeft]
    by_cases e : i = k
    · subst e; simp [Bool.eq_false_iff.2 hc]
    · have : (1#16).getLsbD (i - k) = false ∨ i < k := by
        by_cases hl : i < k
        · exact .inr hl
        · left
          rw [BitVec.getLsbD_one]
          simp; omega
      rcases this with h | h
      · simp [h]
      · simp [h]
  · intro hk he
    have := congrArg (fun x => x.getLsbD k) he
    rw [BitVec.getLsbD_eq_getElem h] at hk
    simp [h] at this
    rw [hk] at this
    cases this

theorem mask_value (k : Nat) (h : k < 16) : ((1 : U16) <<< k - 1).toNat = 2 ^ k - 1 := by
  have : ∀ k : Fin 16, ((1 : U16) <<< k.val - 1).toNat = 2 ^ k.val - 1 := by decide
  exact this ⟨k, h⟩

theorem bmod_cases (s : Int) (P : Nat) (h1 : -(2 * P : Int) ≤ s) (h2 : s < 2 * P) :
    (-(P : Int) ≤ s ∧ s < P → s.bmod (2 * P) = s) ∧ (P ≤ s → s.bmod (2 * P) = s - 2 * P) ∧ (s < -(P : Int) → s.bmod (2 * P) = s + 2 * P) := by
  refine ⟨fun h => Int.bmod_eq_of_le (by omega) (by omega), fun h => ?_, fun h => ?_⟩
  · have e := Int.sub_bmod_right s (2 * P)
    rw [← e]; exact Int.bmod_eq_of_le (by omega) (by omega)
  · have e := Int.add_bmod_right s (2 * P)
    rw [← e]; exact Int.bmod_eq_of_le (by omega) (by omega)

variable {n : Nat}

theorem half_width (hn : 2 ≤ n) : ∃ P : Nat, 2 ≤ P ∧ 2 ^ n = 2 * P ∧ 2 ^ (n - 1) = P := by
  obtain ⟨k, rfl⟩ : ∃ k, n = k + 2 := ⟨n - 2, by omega⟩
  refine ⟨2 ^ (k + 1), ?_, ?_, rfl⟩
  · have := Nat.one_le_two_pow (n := k)
    rw [Nat.pow_succ]; omega
  · rw [Nat.pow_succ 2 (k + 1)]; omega

theorem boolTo_nat (hn : 2 ≤ n) (c : Bool) : (boolTo n c).toNat = carryNat c := by
  obtain ⟨P, h1, h2, -⟩ := half_width hn
  cases c
  · exact BitVec.toNat_ofNat 0 _ |>.trans (Nat.zero_mod _)
  · show (1#n).toNat = 1
    rw [BitVec.toNat_ofNat, h2]
    exact Nat.mod_eq_of_lt (by omega)

theorem boolTo_int (hn : 2 ≤ n) (c : Bool) : (boolTo n c).toInt = carryNat c := by
  obtain ⟨P, h1, h2, -⟩ := half_width hn
  have := boolTo_nat hn c
  rw [BitVec.toInt_eq_toNat_of_lt, this]
  rw [this, h2]
  cases c <;> simp [carryNat] <;> omega

end M68k.Exec
