import Verif.Lemmas.Utils
/-
C90: the public helpers of `utils`. `checks` says whether the build has overflow checks; `none` is a panic. The carrying operators are for integers of any number `n ≥ 2` of bits; those of
the crate have 8, 16 and 32.
-/
namespace M68k.Props
open Spec Exec

/-! ### bit and bits -/

/-- `bit` tells the bit, in any build. -/
theorem C90_bit (checks : Bool) (d b : U16) (h : b.toNat < 16) : Utils.bit checks d b = some (d.getLsbD b.toNat) := by
  unfold Utils.bit Utils.shl
  have h16 : ¬ 16 ≤ b.toNat := by omega
  simp only [h16, decide_false, Bool.and_false, Bool.false_eq_true, if_false, Option.bind_eq_bind, Option.bind_some, Nat.mod_eq_of_lt h]
  rw [bit_test d _ h]

/-- With overflow checks it panics for any other number. -/
theorem C90_bit_panics (d b : U16) (h : 16 ≤ b.toNat) : Utils.bit true d b = none := by
  unfold Utils.bit Utils.shl
  simp only [h, decide_true, Bool.and_true, if_true, Option.bind_eq_bind, Option.bind_none]

/-- `bits` is the bits `beg` to `fin` of the word, for every range of bits but the whole word, in any build. Missing: the whole word, see `C90_bits_refuted`. -/
theorem C90_bits_partial (checks : Bool) (d beg fin : U16) (h1 : beg.toNat ≤ fin.toNat) (h2 : fin.toNat < 16) (h3 : ¬ (beg.toNat = 0 ∧ fin.toNat = 15)) :
    ∃ r, Utils.bits checks d beg fin = some r ∧ r.toNat = d.toNat / 2 ^ beg.toNat % 2 ^ (fin.toNat + 1 - beg.toNat) := by
  have e1 : (fin + 1).toNat = fin.toNat + 1 := by rw [BitVec.toNat_add]; show (fin.toNat + 1) % 65536 = _; omega
  have e2 : (fin + 1 - beg).toNat = fin.toNat + 1 - beg.toNat := by rw [BitVec.toNat_sub_of_le (by rw [BitVec.le_def]; omega), e1]
  have hk : fin.toNat + 1 - beg.toNat < 16 := by omega
  have a1 : Utils.add checks fin 1 = some (fin + 1) := by
    unfold Utils.add overflowingAddU
    rw [if_neg]
    simp only [BitVec.uaddOverflow, Bool.and_eq_true, decide_eq_true_eq, not_and]
    intro _
    show ¬ 2 ^ 16 ≤ fin.toNat + 1
    omega
  have a2 : Utils.sub checks (fin + 1) beg = some (fin + 1 - beg) := by
    unfold Utils.sub overflowingSubU
    rw [if_neg]
    simp only [BitVec.usubOverflow, Bool.and_eq_true, decide_eq_true_eq, not_and, e1]
    omega
  have a3 : Utils.shl checks 1 (fin + 1 - beg) = some ((1 : U16) <<< (fin.toNat + 1 - beg.toNat)) := by
    unfold Utils.shl
    rw [if_neg, e2, Nat.mod_eq_of_lt hk]
    simp only [e2, Bool.and_eq_true, decide_eq_true_eq, not_and]
    omega
  have hm := mask_value _ hk
  have hpos := Nat.one_le_two_pow (n := fin.toNat + 1 - beg.toNat)
  have a4 : Utils.sub checks ((1 : U16) <<< (fin.toNat + 1 - beg.toNat)) 1 = some ((1 : U16) <<< (fin.toNat + 1 - beg.toNat) - 1) := by
    unfold Utils.sub overflowingSubU
    rw [if_neg]
    simp only [BitVec.usubOverflow, Bool.and_eq_true, decide_eq_true_eq, not_and]
    intro _
    have : ∀ k : Fin 16, ¬ ((1 : U16) <<< k.val).toNat < (1 : U16).toNat := by decide
    exact this ⟨_, hk⟩
  have a5 : Utils.shr checks d beg = some (d >>> beg.toNat) := by
    unfold Utils.shr
    rw [if_neg, Nat.mod_eq_of_lt (by omega)]
    simp only [Bool.and_eq_true, decide_eq_true_eq, not_and]
    omega
  refine ⟨d >>> beg.toNat &&& ((1 : U16) <<< (fin.toNat + 1 - beg.toNat) - 1), ?_, ?_⟩
  · unfold Utils.bits
    simp only [a1, a2, a3, a4, a5, Option.bind_eq_bind, Option.bind_some]
  · rw [BitVec.toNat_and, hm, BitVec.toNat_ushiftRight, Nat.and_two_pow_sub_one_eq_mod, Nat.shiftRight_eq_div_pow]

/-- The functions with which the rest of the crate is modelled are these: whenever `bits` and `bit` do not panic, and for all numbers `is_even` is asked about. -/
theorem C90_model (d b beg fin : U16) (a : U32) :
    (∀ r, Utils.bits true d beg fin = some r → r = bits d beg.toNat fin.toNat) ∧ (∀ r, Utils.bit true d b = some r → r = bit d b.toNat) ∧ Utils.isEven a = isEven a := by
  refine ⟨fun r h => ?_, fun r h => ?_, rfl⟩
  · unfold Utils.bits at h
    simp only [Option.bind_eq_bind, Option.bind_eq_some_iff] at h
    obtain ⟨e, he, k, hk, p, hp, m, hm, x, hx, hr⟩ := h
    unfold Utils.add overflowingAddU BitVec.uaddOverflow at he
    unfold Utils.sub overflowingSubU BitVec.usubOverflow at hk hm
    unfold Utils.shl at hp
    unfold Utils.shr at hx
    simp only [Bool.true_and, decide_eq_true_eq] at he hk hp hm hx
    split at he <;> cases he
    split at hk <;> cases hk
    split at hp <;> cases hp
    split at hm <;> cases hm
    split at hx <;> cases hx
    cases hr
    rename_i h1 h2 h3 h4 h5
    have h1 : ¬ 2 ^ 16 ≤ fin.toNat + 1 := h1
    have e1 : (fin + 1).toNat = fin.toNat + 1 := by rw [BitVec.toNat_add]; show (fin.toNat + 1) % 65536 = _; omega
    have e2 : (fin + 1 - beg).toNat = fin.toNat + 1 - beg.toNat := by rw [BitVec.toNat_sub_of_le (by rw [BitVec.le_def]; omega), e1]
    unfold bits
    rw [Nat.mod_eq_of_lt (by omega), Nat.mod_eq_of_lt (by omega), e2]
  · unfold Utils.bit Utils.shl at h
    simp only [Option.bind_eq_bind, Option.bind_eq_some_iff, Bool.true_and, decide_eq_true_eq] at h
    obtain ⟨p, hp, hr⟩ := h
    split at hp <;> cases hp
    cases hr
    unfold bit
    rw [Nat.mod_eq_of_lt (by omega)]

/-- `bits(d, 0, 15)`, which should be `d`, panics with overflow checks and is 0 without. -/
theorem C90_bits_refuted (d : U16) : Utils.bits true d 0 15 = none ∧ Utils.bits false d 0 15 = some 0 := by
  constructor
  · rfl
  · show some (d >>> 0 &&& ((1 : U16) <<< 0 - 1)) = some 0
    rw [show ((1 : U16) <<< 0 - 1) = 0 from rfl]
    simp

/-! ### IsEven -/

/-- `is_even` says whether the number is even, and `even` is the number itself if it is even, and the vector of the address error if not, for integers of any size. -/
theorem C90_even {n : Nat} (hn : 0 < n) (a : BitVec n) :
    (Utils.isEven a = true ↔ a.toNat % 2 = 0) ∧ Utils.even a = if a.toNat % 2 = 0 then .ok a else .error 3 := by
  have h : Utils.isEven a = true ↔ a.toNat % 2 = 0 := by
    unfold Utils.isEven
    rw [beq_iff_eq, ← BitVec.toNat_inj, BitVec.toNat_and]
    have : (1 : BitVec n).toNat = 1 := by
      show (1#n).toNat = 1
      rw [BitVec.toNat_ofNat]
      exact Nat.mod_eq_of_lt (Nat.one_lt_two_pow (by omega))
    rw [this, Nat.and_one_is_mod]
    show _ = (0#n).toNat ↔ _
    rw [BitVec.toNat_ofNat, Nat.zero_mod]
  refine ⟨h, ?_⟩
  unfold Utils.even
  by_cases hc : a.toNat % 2 = 0
  · rw [if_pos (h.2 hc), if_pos hc]
  · rw [if_neg (fun e => hc (h.1 e)), if_neg hc]; rfl

/-! ### SliceAs -/

/-- The first two words as a big-endian integer; with fewer words it panics. -/
theorem C90_u32_be (l : List U16) : (∀ a b t, l = a :: b :: t → ∃ v, Utils.u32Be l = some v ∧ v.toNat = a.toNat * 65536 + b.toNat) ∧ (l.length < 2 → Utils.u32Be l = none) := by
  constructor
  · rintro a b t rfl
    refine ⟨_, rfl, ?_⟩
    have ha := a.isLt
    have hb := b.isLt
    rw [BitVec.toNat_or, BitVec.toNat_shiftLeft]
    unfold toU32
    rw [BitVec.toNat_setWidth, BitVec.toNat_setWidth, Nat.mod_eq_of_lt (show a.toNat < 2 ^ 32 by omega), Nat.mod_eq_of_lt (show b.toNat < 2 ^ 32 by omega), Nat.shiftLeft_eq,
      Nat.mod_eq_of_lt (show a.toNat * 2 ^ 16 < 2 ^ 32 by omega), Nat.mul_comm, ← Nat.two_pow_add_eq_or_of_lt hb]
  · intro h
    match l, h with
    | [], _ => rfl
    | [_], _ => rfl

/-- The low byte of the first word, the first word or the first two words, as a signed integer; it panics if there are not enough words. -/
theorem C90_i32_be_sized (l : List U16) :
    (∀ w t, l = w :: t → ∃ x y, Utils.i32BeSized l .Byte = some x ∧ x.toInt = Int.bmod w.toNat 256 ∧ Utils.i32BeSized l .Word = some y ∧ y.toInt = Int.bmod w.toNat 65536) ∧
    (∀ a b t, l = a :: b :: t → ∃ x, Utils.i32BeSized l .Long = some x ∧ x.toInt = Int.bmod (a.toNat * 65536 + b.toNat : Nat) (2 ^ 32)) ∧
    (l = [] → ∀ sz, Utils.i32BeSized l sz = none) ∧ (l.length < 2 → Utils.i32BeSized l .Long = none) := by
  refine ⟨?_, ?_, ?_, (C90_u32_be l).2⟩
  · rintro w t rfl
    refine ⟨_, _, rfl, ?_, rfl, ?_⟩
    · show (BitVec.signExtend 32 (BitVec.setWidth 8 w)).toInt = _
      rw [BitVec.toInt_signExtend_of_le (by decide), BitVec.toInt_eq_toNat_bmod, BitVec.toNat_setWidth]
      show Int.bmod (w.toNat % 256 : Nat) 256 = _
      rw [Int.natCast_emod, show ((256 : Nat) : Int) = 256 from rfl]
      exact Int.emod_bmod _ 256
    · show (BitVec.signExtend 32 w).toInt = _
      rw [BitVec.toInt_signExtend_of_le (by decide), BitVec.toInt_eq_toNat_bmod]
  · intro a b t h
    obtain ⟨v, hv, he⟩ := (C90_u32_be l).1 a b t h
    exact ⟨v, hv, by rw [BitVec.toInt_eq_toNat_bmod, he]⟩
  · rintro rfl sz
    cases sz <;> rfl

/-- `get_next_word` takes the words one after the other, and panics at the end. -/
theorem C90_get_next_word (l : List U16) : (∀ w t, l = w :: t → Utils.getNextWord l = some (w, t)) ∧ (l = [] → Utils.getNextWord l = none) := by
  constructor
  · rintro w t rfl; rfl
  · rintro rfl; rfl

/-! ### CarryingOps -/
variable {n : Nat}

/-- Unsigned: the result and the carry are the exact sum. -/
theorem C90_unsigned_add (hn : 2 ≤ n) (a b : BitVec n) (c : Bool) :
    (unsignedCarryingAdd a b c).1.toNat + 2 ^ n * carryNat (unsignedCarryingAdd a b c).2 = a.toNat + b.toNat + carryNat c := by
  obtain ⟨P, h1, h2, -⟩ := half_width hn
  have ha := a.isLt
  have hb := b.isLt
  have hc : carryNat c ≤ 1 := by cases c <;> decide
  have hx : (a + b).toNat = (a.toNat + b.toNat) % 2 ^ n := BitVec.toNat_add a b
  have hy : (a + b + boolTo n c).toNat = ((a + b).toNat + carryNat c) % 2 ^ n := by rw [BitVec.toNat_add, boolTo_nat hn]
  show (a + b + boolTo n c).toNat + 2 ^ n * carryNat (decide (2 ^ n ≤ a.toNat + b.toNat) || decide (2 ^ n ≤ (a + b).toNat + (boolTo n c).toNat)) = _
  rw [boolTo_nat hn, hy, hx]
  generalize 2 ^ n = W at *
  by_cases h3 : W ≤ a.toNat + b.toNat
  · have e : (a.toNat + b.toNat) % W = a.toNat + b.toNat - W := by rw [Nat.mod_eq_sub_mod h3, Nat.mod_eq_of_lt (by omega)]
    rw [e, Nat.mod_eq_of_lt (by omega)]
    simp only [h3, decide_true, Bool.true_or, carryNat, if_true]
    simp only [carryNat] at hc
    omega
  · rw [Nat.mod_eq_of_lt (a := a.toNat + b.toNat) (by omega)]
    by_cases h4 : W ≤ a.toNat + b.toNat + carryNat c
    · have e : (a.toNat + b.toNat + carryNat c) % W = a.toNat + b.toNat + carryNat c - W := by rw [Nat.mod_eq_sub_mod h4, Nat.mod_eq_of_lt (by omega)]
      rw [e]
      simp only [h3, h4, decide_true, decide_false, Bool.false_or]
      show _ + W * 1 = _
      omega
    · rw [Nat.mod_eq_of_lt (by omega)]
      simp only [h3, h4, decide_false, Bool.false_or]
      show _ + W * 0 = _
      omega

/-- Unsigned: the result and the borrow are the exact difference. -/
theorem C90_unsigned_sub (hn : 2 ≤ n) (a b : BitVec n) (c : Bool) :
    (unsignedBorrowingSub a b c).1.toNat + b.toNat + carryNat c = a.toNat + 2 ^ n * carryNat (unsignedBorrowingSub a b c).2 := by
  obtain ⟨P, h1, h2, -⟩ := half_width hn
  have ha := a.isLt
  have hb := b.isLt
  have hc : carryNat c ≤ 1 := by cases c <;> decide
  have hx : (a - b).toNat = (2 ^ n - b.toNat + a.toNat) % 2 ^ n := BitVec.toNat_sub a b
  have hy : (a - b - boolTo n c).toNat = (2 ^ n - carryNat c + (a - b).toNat) % 2 ^ n := by rw [BitVec.toNat_sub, boolTo_nat hn]
  show (a - b - boolTo n c).toNat + b.toNat + carryNat c = a.toNat + 2 ^ n * carryNat (decide (a.toNat < b.toNat) || decide ((a - b).toNat < (boolTo n c).toNat))
  rw [boolTo_nat hn, hy, hx]
  generalize 2 ^ n = W at *
  by_cases h3 : a.toNat < b.toNat
  · rw [Nat.mod_eq_of_lt (a := W - b.toNat + a.toNat) (by omega)]
    have e : (W - carryNat c + (W - b.toNat + a.toNat)) % W = W - b.toNat + a.toNat - carryNat c := by
      rw [Nat.mod_eq_sub_mod (by omega), Nat.mod_eq_of_lt (by omega)]; omega
    rw [e]
    simp only [h3, decide_true, Bool.true_or]
    show _ = _ + W * 1
    omega
  · have e : (W - b.toNat + a.toNat) % W = a.toNat - b.toNat := by rw [Nat.mod_eq_sub_mod (by omega), Nat.mod_eq_of_lt (by omega)]; omega
    rw [e]
    by_cases h4 : a.toNat - b.toNat < carryNat c
    · rw [Nat.mod_eq_of_lt (by omega)]
      simp only [h3, h4, decide_true, decide_false, Bool.false_or]
      show _ = _ + W * 1
      omega
    · have e : (W - carryNat c + (a.toNat - b.toNat)) % W = a.toNat - b.toNat - carryNat c := by
        rw [Nat.mod_eq_sub_mod (by omega), Nat.mod_eq_of_lt (by omega)]; omega
      rw [e]
      simp only [h3, h4, decide_false, Bool.false_or]
      show _ = _ + W * 0
      omega

/-- Signed: the result is the sum modulo `2 ^ n`, and the flag says exactly that the sum is not in the range of the type. The overflow of an intermediate sum does not count. -/
theorem C90_signed_add (hn : 2 ≤ n) (a b : BitVec n) (c : Bool) :
    (signedCarryingAdd a b c).1.toInt = Int.bmod (a.toInt + b.toInt + carryNat c) (2 ^ n) ∧
    ((signedCarryingAdd a b c).2 = true ↔ ¬ InSigned n (a.toInt + b.toInt + carryNat c)) := by
  obtain ⟨P, h1, h2, h3⟩ := half_width hn
  have hx : (a + b).toInt = _ := BitVec.toInt_add a b
  have hy : (a + b + boolTo n c).toInt = _ := BitVec.toInt_add (a + b) (boolTo n c)
  rw [boolTo_int hn, hx] at hy
  refine ⟨hy.trans (Int.bmod_add_bmod ..), ?_⟩
  show ((decide (a.toInt + b.toInt ≥ 2 ^ (n - 1)) || decide (a.toInt + b.toInt < -2 ^ (n - 1))) !=
    (decide ((a + b).toInt + (boolTo n c).toInt ≥ 2 ^ (n - 1)) || decide ((a + b).toInt + (boolTo n c).toInt < -2 ^ (n - 1)))) = true ↔ _
  have a1 := BitVec.le_toInt a
  have a2 := BitVec.toInt_lt (x := a)
  have b1 := BitVec.le_toInt b
  have b2 := BitVec.toInt_lt (x := b)
  have hp : (2 : Int) ^ (n - 1) = P := by rw [← h3]; norm_cast
  unfold InSigned
  rw [boolTo_int hn, hx, h2]
  rw [hp] at a1 a2 b1 b2 ⊢
  have hc : carryNat c ≤ 1 := by cases c <;> decide
  obtain ⟨m1, m2, m3⟩ := bmod_cases (a.toInt + b.toInt) P (by omega) (by omega)
  rw [bne_iff_ne, ne_eq, Bool.eq_iff_iff]
  simp only [Bool.or_eq_true, decide_eq_true_eq]
  by_cases c1 : (P : Int) ≤ a.toInt + b.toInt
  · rw [m2 c1]; omega
  · by_cases c2 : a.toInt + b.toInt < -(P : Int)
    · rw [m3 c2]; omega
    · rw [m1 ⟨by omega, by omega⟩]; omega

/-- The same for differences. -/
theorem C90_signed_sub (hn : 2 ≤ n) (a b : BitVec n) (c : Bool) :
    (signedBorrowingSub a b c).1.toInt = Int.bmod (a.toInt - b.toInt - carryNat c) (2 ^ n) ∧
    ((signedBorrowingSub a b c).2 = true ↔ ¬ InSigned n (a.toInt - b.toInt - carryNat c)) := by
  obtain ⟨P, h1, h2, h3⟩ := half_width hn
  have hx : (a - b).toInt = _ := BitVec.toInt_sub
  have hy : (a - b - boolTo n c).toInt = _ := BitVec.toInt_sub
  rw [boolTo_int hn, hx] at hy
  refine ⟨hy.trans (Int.bmod_sub_bmod ..), ?_⟩
  show ((decide (a.toInt - b.toInt ≥ 2 ^ (n - 1)) || decide (a.toInt - b.toInt < -2 ^ (n - 1))) !=
    (decide ((a - b).toInt - (boolTo n c).toInt ≥ 2 ^ (n - 1)) || decide ((a - b).toInt - (boolTo n c).toInt < -2 ^ (n - 1)))) = true ↔ _
  have a1 := BitVec.le_toInt a
  have a2 := BitVec.toInt_lt (x := a)
  have b1 := BitVec.le_toInt b
  have b2 := BitVec.toInt_lt (x := b)
  have hp : (2 : Int) ^ (n - 1) = P := by rw [← h3]; norm_cast
  unfold InSigned
  rw [boolTo_int hn, hx, h2]
  rw [hp] at a1 a2 b1 b2 ⊢
  have hc : carryNat c ≤ 1 := by cases c <;> decide
  obtain ⟨m1, m2, m3⟩ := bmod_cases (a.toInt - b.toInt) P (by omega) (by omega)
  rw [bne_iff_ne, ne_eq, Bool.eq_iff_iff]
  simp only [Bool.or_eq_true, decide_eq_true_eq]
  by_cases c1 : (P : Int) ≤ a.toInt - b.toInt
  · rw [m2 c1]; omega
  · by_cases c2 : a.toInt - b.toInt < -(P : Int)
    · rw [m3 c2]; omega
    · rw [m1 ⟨by omega, by omega⟩]; omega

/-- Numbers of any length, digit by digit: the digits and the last carry are the exact sum. -/
theorem C90_chain_add (hn : 2 ≤ n) (l : List (BitVec n × BitVec n)) : ∀ c : Bool,
    digits (chain unsignedCarryingAdd l c).1 + 2 ^ (n * l.length) * carryNat (chain unsignedCarryingAdd l c).2 = digits (l.map (·.1)) + digits (l.map (·.2)) + carryNat c := by
  induction l with
  | nil => intro c; simp [chain, digits]
  | cons p l ih =>
    intro c
    obtain ⟨a, b⟩ := p
    have h1 := C90_unsigned_add hn a b c
    have h2 := ih (unsignedCarryingAdd a b c).2
    simp only [chain, digits, List.map_cons, List.length_cons]
    rw [Nat.mul_succ, Nat.add_comm (n * l.length), Nat.pow_add, Nat.mul_assoc]
    have h3 := congrArg (2 ^ n * ·) h2
    simp only [Nat.mul_add] at h3
    omega

/-- The same for differences. -/
theorem C90_chain_sub (hn : 2 ≤ n) (l : List (BitVec n × BitVec n)) : ∀ c : Bool,
    digits (chain unsignedBorrowingSub l c).1 + digits (l.map (·.2)) + carryNat c = digits (l.map (·.1)) + 2 ^ (n * l.length) * carryNat (chain unsignedBorrowingSub l c).2 := by
  induction l with
  | nil => intro c; simp [chain, digits]
  | cons p l ih =>
    intro c
    obtain ⟨a, b⟩ := p
    have h1 := C90_unsigned_sub hn a b c
    have h2 := ih (unsignedBorrowingSub a b c).2
    simp only [chain, digits, List.map_cons, List.length_cons]
    rw [Nat.mul_succ, Nat.add_comm (n * l.length), Nat.pow_add, Nat.mul_assoc]
    have h3 := congrArg (2 ^ n * ·) h2
    simp only [Nat.mul_add] at h3
    omega

/-! ### The hypotheses are met -/

/-- Bits 6 to 8 of a word; bit 15. -/
example : (∃ r, Utils.bits true 0xD1FC 6 8 = some r ∧ r = 7) ∧ Utils.bit true 0xD1FC 15 = some true := ⟨⟨_, rfl, rfl⟩, rfl⟩

/-- 127 + (-1) + 1 does not overflow a signed byte; 0x00FF + 0x0001 in two digits. -/
example : signedCarryingAdd (127 : U8) (-1) true = (127, false) ∧ chain unsignedCarryingAdd [((0xFF : U8), (1 : U8)), (0, 0)] false = ([0, 1], false) := by decide

end M68k.Props
