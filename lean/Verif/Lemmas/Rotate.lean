/-
Rotations of `N`-bit numbers, on natural numbers: the rotation by `j + 1` is one more step.
-/
namespace M68k

/-- Rotation left of the `N`-bit number `W`. -/
def rotl (N W j : Nat) : Nat := (W * 2 ^ j + W / 2 ^ (N - j)) % 2 ^ N
/-- Rotation right of the `N`-bit number `W`. -/
def rotr (N W j : Nat) : Nat := (W / 2 ^ j + W * 2 ^ (N - j)) % 2 ^ N

theorem rotl_aux (A B h l : Nat) (hl : l < 2 * B) (hh : h < A) :
    ((h * (2 * B) + l) * A + h) % (2 * A * B) = l * A + h := by
  have e2 : (h * (2 * B) + l) * A + h = l * A + h + 2 * A * B * h := by grind
  rw [e2, Nat.add_mul_mod_self_left, Nat.mod_eq_of_lt]
  have : (l + 1) * A ≤ 2 * B * A := Nat.mul_le_mul_right A hl
  have e3 : 2 * B * A = 2 * A * B := by grind
  have e4 : (l + 1) * A = l * A + A := by grind
  omega

theorem rotl_succ (N W j : Nat) (hj : j < N) (hW : W < 2 ^ N) :
    rotl N W (j + 1) = (2 * rotl N W j + rotl N W j / 2 ^ (N - 1)) % 2 ^ N := by
  obtain ⟨b, rfl⟩ : ∃ b, N = j + 1 + b := ⟨N - (j + 1), by omega⟩
  unfold rotl
  have s1 : j + 1 + b - j = b + 1 := by omega
  have s2 : j + 1 + b - (j + 1) = b := by omega
  have s3 : j + 1 + b - 1 = j + b := by omega
  have hp : (2 : Nat) ^ (j + 1 + b) = 2 * 2 ^ j * 2 ^ b := by rw [Nat.pow_add, Nat.pow_succ]; grind
  rw [s1, s2, s3, hp, Nat.pow_add 2 j b, Nat.pow_succ 2 j, Nat.pow_succ 2 b, Nat.mul_comm (2 ^ b) 2, Nat.mul_comm (2 ^ j) 2]
  rw [hp] at hW
  have hA : 0 < 2 ^ j := Nat.two_pow_pos _
  have hB : 0 < 2 ^ b := Nat.two_pow_pos _
  generalize 2 ^ j = A at *
  generalize 2 ^ b = B at *
  have hW2 := Nat.div_add_mod W (2 * B)
  have hl : W % (2 * B) < 2 * B := Nat.mod_lt _ (by omega)
  have hh : W / (2 * B) < A := by
    apply Nat.div_lt_of_lt_mul
    have : 2 * B * A = 2 * A * B := by grind
    omega
  generalize W / (2 * B) = h at hW2 hh
  generalize W % (2 * B) = l at *
  have hWe : W = h * (2 * B) + l := by rw [← hW2]; grind
  subst hWe
  rw [rotl_aux A B h l hl hh]
  by_cases hlB : l < B
  · have e1 : (h * (2 * B) + l) / B = 2 * h := by
      have : h * (2 * B) + l = l + B * (2 * h) := by grind
      rw [this, Nat.add_mul_div_left _ _ hB, Nat.div_eq_of_lt hlB]; omega
    have e2 : (l * A + h) / (A * B) = 0 := by
      apply Nat.div_eq_of_lt
      have : (l + 1) * A ≤ B * A := Nat.mul_le_mul_right A hlB
      have e3 : B * A = A * B := by grind
      have e4 : (l + 1) * A = l * A + A := by grind
      omega
    rw [e1, e2]
    have e5 : (h * (2 * B) + l) * (2 * A) + 2 * h = 2 * (l * A + h) + 0 + 2 * A * B * (2 * h) := by grind
    rw [e5, Nat.add_mul_mod_self_left]
  · obtain ⟨l', rfl⟩ : ∃ l', l = B + l' := ⟨l - B, by omega⟩
    have e1 : (h * (2 * B) + (B + l')) / B = 2 * h + 1 := by
      have : h * (2 * B) + (B + l') = l' + B * (2 * h + 1) := by grind
      rw [this, Nat.add_mul_div_left _ _ hB, Nat.div_eq_of_lt (by omega)]; omega
    have e2 : ((B + l') * A + h) / (A * B) = 1 := by
      have hAB : 0 < A * B := Nat.mul_pos hA hB
      have : (B + l') * A + h = (l' * A + h) + A * B * 1 := by grind
      rw [this, Nat.add_mul_div_left _ _ hAB, Nat.div_eq_of_lt]
      have : (l' + 1) * A ≤ B * A := Nat.mul_le_mul_right A (by omega)
      have e3 : B * A = A * B := by grind
      have e4 : (l' + 1) * A = l' * A + A := by grind
      omega
    rw [e1, e2]
    have e5 : (h * (2 * B) + (B + l')) * (2 * A) + (2 * h + 1) =
        2 * ((B + l') * A + h) + 1 + 2 * A * B * (2 * h) := by grind
    rw [e5, Nat.add_mul_mod_self_left]

theorem rotr_aux (A B h l : Nat) (hl : l < A) (hh : h < B) :
    (h + (h * A + l) * B) % (A * B) = l * B + h := by
  have e2 : h + (h * A + l) * B = l * B + h + A * B * h := by grind
  rw [e2, Nat.add_mul_mod_self_left, Nat.mod_eq_of_lt]
  have : (l + 1) * B ≤ A * B := Nat.mul_le_mul_right B hl
  have e4 : (l + 1) * B = l * B + B := by grind
  omega

theorem rotr_succ (N W j : Nat) (hj : j < N) (hW : W < 2 ^ N) :
    rotr N W (j + 1) = rotr N W j / 2 + rotr N W j % 2 * 2 ^ (N - 1) := by
  obtain ⟨b, rfl⟩ : ∃ b, N = j + 1 + b := ⟨N - (j + 1), by omega⟩
  unfold rotr
  have s1 : j + 1 + b - j = b + 1 := by omega
  have s2 : j + 1 + b - (j + 1) = b := by omega
  have s3 : j + 1 + b - 1 = j + b := by omega
  have hp : (2 : Nat) ^ (j + 1 + b) = 2 ^ j * (2 * 2 ^ b) := by rw [Nat.pow_add, Nat.pow_succ]; grind
  have hp2 : (2 : Nat) ^ (j + 1 + b) = (2 * 2 ^ j) * 2 ^ b := by rw [Nat.pow_add, Nat.pow_succ]; grind
  have hR : (W / 2 ^ (j + 1) + W * 2 ^ (j + 1 + b - (j + 1))) % 2 ^ (j + 1 + b) =
    (W / (2 * 2 ^ j) + W * 2 ^ b) % (2 * 2 ^ j * 2 ^ b) := by
    rw [s2, hp2, Nat.pow_succ 2 j, Nat.mul_comm (2 ^ j) 2]
  rw [hR, s1, s3, hp, Nat.pow_add 2 j b, Nat.pow_succ 2 b, Nat.mul_comm (2 ^ b) 2]
  rw [hp] at hW
  have hA : 0 < 2 ^ j := Nat.two_pow_pos _
  have hB : 0 < 2 ^ b := Nat.two_pow_pos _
  generalize 2 ^ j = A at *
  generalize 2 ^ b = B at *
  have hW2 := Nat.div_add_mod W A
  have hl : W % A < A := Nat.mod_lt _ hA
  have hh : W / A < 2 * B := Nat.div_lt_of_lt_mul hW
  generalize W / A = h at hW2 hh
  generalize W % A = l at *
  have hWe : W = h * A + l := by rw [← hW2]; grind
  subst hWe
  rw [rotr_aux A (2 * B) h l hl hh]
  have key : h * A + l = (h / 2) * (2 * A) + (h % 2 * A + l) := by
    have := Nat.div_add_mod h 2
    conv => lhs; rw [← this]
    grind
  have hl2 : h % 2 * A + l < 2 * A := by
    rcases Nat.mod_two_eq_zero_or_one h with e | e <;> rw [e] <;> omega
  have e0 : (h / 2 * (2 * A) + (h % 2 * A + l)) / (2 * A) = h / 2 := by
    rw [Nat.add_comm, Nat.add_mul_div_right _ _ (by omega), Nat.div_eq_of_lt hl2]; omega
  rw [key, e0, rotr_aux (2 * A) B (h / 2) (h % 2 * A + l) hl2 (by omega)]
  have e1 : (l * (2 * B) + h) / 2 = l * B + h / 2 := by
    have : l * (2 * B) + h = h + 2 * (l * B) := by grind
    rw [this, Nat.add_mul_div_left _ _ (by omega)]; omega
  have e2 : (l * (2 * B) + h) % 2 = h % 2 := by
    have : l * (2 * B) + h = h + 2 * (l * B) := by grind
    rw [this, Nat.add_mul_mod_self_left]
  rw [e1, e2]; grind

theorem rotl_full (N W : Nat) (hW : W < 2 ^ N) : rotl N W N = rotl N W 0 := by
  simp only [rotl, Nat.sub_self, Nat.pow_zero, Nat.div_one, Nat.sub_zero, Nat.mul_one, Nat.div_eq_of_lt hW]
  rw [Nat.add_comm, Nat.add_mul_mod_self_right]; rfl

theorem rotr_full (N W : Nat) (hW : W < 2 ^ N) : rotr N W N = rotr N W 0 := by
  simp only [rotr, Nat.sub_self, Nat.pow_zero, Nat.div_one, Nat.sub_zero, Nat.mul_one, Nat.div_eq_of_lt hW]
  rw [Nat.add_mul_mod_self_right]; simp

/-- One step of the rotation left, with the rotation amount taken modulo `N`. -/
theorem rotl_mod_succ (N W k : Nat) (hN : 0 < N) (hW : W < 2 ^ N) :
    rotl N W ((k + 1) % N) = (2 * rotl N W (k % N) + rotl N W (k % N) / 2 ^ (N - 1)) % 2 ^ N := by
  have hk := Nat.mod_lt k hN
  rw [← rotl_succ N W (k % N) hk hW]
  by_cases h : k % N + 1 = N
  · have : (k + 1) % N = 0 := by rw [← Nat.mod_add_mod, h, Nat.mod_self]
    rw [this, h, rotl_full N W hW]
  · have : (k + 1) % N = k % N + 1 := by rw [← Nat.mod_add_mod, Nat.mod_eq_of_lt (by omega)]
    rw [this]

/-- One step of the rotation right, with the rotation amount taken modulo `N`. -/
theorem rotr_mod_succ (N W k : Nat) (hN : 0 < N) (hW : W < 2 ^ N) :
    rotr N W ((k + 1) % N) = rotr N W (k % N) / 2 + rotr N W (k % N) % 2 * 2 ^ (N - 1) := by
  have hk := Nat.mod_lt k hN
  rw [← rotr_succ N W (k % N) hk hW]
  by_cases h : k % N + 1 = N
  · have : (k + 1) % N = 0 := by rw [← Nat.mod_add_mod, h, Nat.mod_self]
    rw [this, h, rotr_full N W hW]
  · have : (k + 1) % N = k % N + 1 := by rw [← Nat.mod_add_mod, Nat.mod_eq_of_lt (by omega)]
    rw [this]

theorem rotl_zero (N W : Nat) (hW : W < 2 ^ N) : rotl N W 0 = W := by
  simp [rotl, Nat.div_eq_of_lt hW, Nat.mod_eq_of_lt hW]
theorem rotr_zero (N W : Nat) (hW : W < 2 ^ N) : rotr N W 0 = W := by
  simp [rotr, Nat.mod_eq_of_lt hW]

end M68k
