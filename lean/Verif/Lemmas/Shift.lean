import Verif.Lemmas.Alu
import Verif.Lemmas.Rotate
/-
The loops of the register shifts compute the specified closed forms.
-/
set_option linter.unusedSimpArgs false
namespace M68k
open Spec

/-- `omega` after the evaluation of the powers of two. -/
macro "lomega" : tactic =>
  `(tactic| ((try simp only [Nat.reduceSub, Nat.reduceAdd, Nat.reducePow, Int.reducePow] at *); omega))

theorem repeatN_succ {α : Type} (f : α → α) (k : Nat) (a : α) :
    Alu.repeatN f (k + 1) a = f (Alu.repeatN f k a) := by
  induction k generalizing a with
  | zero => rfl
  | succ k ih => rw [Alu.repeatN, ih]; rfl

/-- The sign bit mask of the register shifts. -/
abbrev msk (n : Nat) : U32 := BitVec.twoPow 32 (n - 1)

theorem bne_twoPow (x : U32) (i : Nat) (hi : i < 32) :
    ((x &&& BitVec.twoPow 32 i) != 0) = decide (x.toNat / 2 ^ i % 2 = 1) := by
  rw [bne_zero, BitVec.and_twoPow]
  unfold zero
  simp only [BitVec.getLsbD, Nat.testBit_eq_decide_div_mod_eq]
  split <;> rename_i h
  · simp only [decide_eq_true_eq] at h
    simp [h, BitVec.toNat_twoPow, Nat.mod_eq_of_lt (Nat.pow_lt_pow_right (by omega : 1 < 2) hi)]
  · simp only [decide_eq_true_eq] at h
    simp [h]

theorem bne_one (x : U32) : ((x &&& 1) != 0) = decide (x.toNat % 2 = 1) := by
  have h : (1 : U32) = BitVec.twoPow 32 0 := rfl
  rw [h, bne_twoPow x 0 (by omega)]; simp

theorem shl_one (x : U32) : (x <<< 1).toNat = x.toNat * 2 % 2 ^ 32 := by
  simp [BitVec.toNat_shiftLeft, Nat.shiftLeft_eq]
theorem shr_one (x : U32) : (x >>> 1).toNat = x.toNat / 2 := by
  simp [BitVec.toNat_ushiftRight, Nat.shiftRight_eq_div_pow]

theorem lsl_loop {n : Nat} (hn : IsWidth n) (data : U32) (sr : StatusRegister) (k : Nat) :
    (Alu.repeatN (Alu.lslStep (msk n)) k (data, sr)).1.toNat = data.toNat * 2 ^ k % 2 ^ 32 ∧
    (Alu.repeatN (Alu.lslStep (msk n)) k (data, sr)).2 =
      { sr with
        x := if k = 0 then sr.x else decide (data.toNat * 2 ^ k / 2 ^ n % 2 = 1)
        c := if k = 0 then sr.c else decide (data.toNat * 2 ^ k / 2 ^ n % 2 = 1) } := by
  induction k with
  | zero => simp [Alu.repeatN]; omega
  | succ k ih =>
    rw [repeatN_succ]
    generalize Alu.repeatN (Alu.lslStep (msk n)) k (data, sr) = p at *
    obtain ⟨x, sr'⟩ := p
    obtain ⟨h1, h2⟩ := ih
    simp only at h1 h2
    simp only [Alu.lslStep, h2]
    rw [bne_twoPow _ _ (by rcases hn with rfl | rfl | rfl <;> lomega), shl_one, h1, Nat.pow_succ 2 k, ← Nat.mul_assoc]
    generalize data.toNat * 2 ^ k = a
    have : decide (a % 2 ^ 32 / 2 ^ (n - 1) % 2 = 1) = decide (a * 2 / 2 ^ n % 2 = 1) := by
      rw [decide_eq_decide]
      rcases hn with rfl | rfl | rfl <;> lomega
    rw [this]; refine ⟨by omega, by simp⟩

theorem asl_loop {n : Nat} (hn : IsWidth n) (v : BitVec n) (data : U32) (hd : data.toNat = v.toNat) (sr : StatusRegister)
    (hv : sr.v = false) (k : Nat) :
    (Alu.repeatN (Alu.aslStep (msk n)) k (data, sr)).1.toNat = v.toNat * 2 ^ k % 2 ^ 32 ∧
    (Alu.repeatN (Alu.aslStep (msk n)) k (data, sr)).2 =
      { sr with
        x := if k = 0 then sr.x else decide (v.toNat * 2 ^ k / 2 ^ n % 2 = 1)
        v := decide (¬ ∀ j, j ≤ k → neg (BitVec.ofNat n (v.toNat * 2 ^ j)) = neg v)
        c := if k = 0 then sr.c else decide (v.toNat * 2 ^ k / 2 ^ n % 2 = 1) } := by
  have hw : n - 1 < 32 := by rcases hn with rfl | rfl | rfl <;> lomega
  have hneg : ∀ j, neg (BitVec.ofNat n (v.toNat * 2 ^ j)) = decide (v.toNat * 2 ^ j / 2 ^ (n - 1) % 2 = 1) := by
    intro j
    rw [neg_iff, decide_eq_decide]
    generalize v.toNat * 2 ^ j = a
    rcases hn with rfl | rfl | rfl <;> simp <;> lomega
  induction k with
  | zero =>
    have : (∀ j, j ≤ 0 → neg (BitVec.ofNat n (v.toNat * 2 ^ j)) = neg v) := by
      intro j hj
      obtain rfl : j = 0 := by omega
      simp
    cases sr
    simp only at hv
    simp [Alu.repeatN, hd, hv]
    have := v.isLt
    rcases hn with rfl | rfl | rfl <;> lomega
  | succ k ih =>
    rw [repeatN_succ]
    generalize Alu.repeatN (Alu.aslStep (msk n)) k (data, sr) = p at *
    obtain ⟨x, sr'⟩ := p
    obtain ⟨h1, h2⟩ := ih
    simp only at h1 h2
    simp only [Alu.aslStep, h2]
    have hsx : ((x &&& msk n) != 0) = neg (BitVec.ofNat n (v.toNat * 2 ^ k)) := by
      rw [bne_twoPow _ _ hw, hneg, h1, decide_eq_decide]
      generalize v.toNat * 2 ^ k = a
      rcases hn with rfl | rfl | rfl <;> lomega
    have hsy : (((x <<< 1) &&& msk n) != 0) = neg (BitVec.ofNat n (v.toNat * 2 ^ (k + 1))) := by
      rw [bne_twoPow _ _ hw, hneg, shl_one, h1, decide_eq_decide, Nat.pow_succ 2 k, ← Nat.mul_assoc]
      generalize v.toNat * 2 ^ k = a
      rcases hn with rfl | rfl | rfl <;> lomega
    have hxor : (((x &&& msk n) ^^^ ((x <<< 1) &&& msk n)) != 0) = (((x &&& msk n) != 0) != (((x <<< 1) &&& msk n) != 0)) := by
      rw [BitVec.and_twoPow, BitVec.and_twoPow]
      have : BitVec.twoPow 32 (n - 1) ≠ 0#32 := by rcases hn with rfl | rfl | rfl <;> decide
      split <;> split <;> simp [this]
    have hout : neg (BitVec.ofNat n (v.toNat * 2 ^ k)) = decide (v.toNat * 2 ^ (k + 1) / 2 ^ n % 2 = 1) := by
      rw [hneg, decide_eq_decide, Nat.pow_succ 2 k, ← Nat.mul_assoc]
      generalize v.toNat * 2 ^ k = a
      rcases hn with rfl | rfl | rfl <;> lomega
    refine ⟨by rw [shl_one, h1, Nat.pow_succ 2 k, ← Nat.mul_assoc]; omega, ?_⟩
    rw [hxor, hsx, hsy]
    have hvv : (if (neg (BitVec.ofNat n (v.toNat * 2 ^ k)) != neg (BitVec.ofNat n (v.toNat * 2 ^ (k + 1)))) = true then true
        else decide ¬∀ j, j ≤ k → neg (BitVec.ofNat n (v.toNat * 2 ^ j)) = neg v) =
        decide ¬∀ j, j ≤ k + 1 → neg (BitVec.ofNat n (v.toNat * 2 ^ j)) = neg v := by
      rw [Bool.eq_iff_iff]
      split <;> rename_i h
      · simp only [bne_iff_ne, ne_eq] at h
        simp only [true_iff, decide_eq_true_eq]
        intro hall
        exact h ((hall k (by omega)).trans (hall (k + 1) (by omega)).symm)
      · simp only [bne_iff_ne, ne_eq, Decidable.not_not] at h
        rw [decide_eq_true_eq, decide_eq_true_eq]
        apply not_congr
        constructor
        · intro hall j hj
          by_cases hjk : j = k + 1
          · subst hjk; rw [← h]; exact hall k (by omega)
          · exact hall j (by omega)
        · intro hall j hj
          exact hall j (by omega)
    rw [hvv, hout]
    simp

theorem lsr_loop (data : U32) (sr : StatusRegister) (k : Nat) :
    (Alu.repeatN Alu.lsrStep k (data, sr)).1.toNat = data.toNat / 2 ^ k ∧
    (Alu.repeatN Alu.lsrStep k (data, sr)).2 =
      { sr with
        x := if k = 0 then sr.x else decide (data.toNat / 2 ^ (k - 1) % 2 = 1)
        c := if k = 0 then sr.c else decide (data.toNat / 2 ^ (k - 1) % 2 = 1) } := by
  induction k with
  | zero => simp [Alu.repeatN]
  | succ k ih =>
    rw [repeatN_succ]
    generalize Alu.repeatN Alu.lsrStep k (data, sr) = p at *
    obtain ⟨x, sr'⟩ := p
    obtain ⟨h1, h2⟩ := ih
    simp only at h1 h2
    simp only [Alu.lsrStep, h2]
    rw [bne_one, shr_one, h1, Nat.div_div_eq_div_mul, Nat.pow_succ]
    simp

theorem or_sign (n : Nat) (hn : IsWidth n) (a : U32) (h : a.toNat < 2 ^ (n - 1)) :
    (a ||| msk n).toNat = a.toNat + 2 ^ (n - 1) := by
  have e : (msk n).toNat = 2 ^ (n - 1) := by rcases hn with rfl | rfl | rfl <;> rfl
  rw [BitVec.toNat_or, e, Nat.or_comm]
  have := Nat.two_pow_add_eq_or_of_lt h 1
  rw [Nat.mul_one] at this
  rw [← this]; omega

theorem asr_loop {n : Nat} (hn : IsWidth n) (v : BitVec n) (data : U32) (hd : data.toNat = v.toNat) (sr : StatusRegister) (k : Nat) :
    (∃ w : BitVec n, (Alu.repeatN (Alu.asrStep (data &&& msk n)) k (data, sr)).1.toNat = w.toNat ∧ w.toInt = v.toInt / 2 ^ k) ∧
    (Alu.repeatN (Alu.asrStep (data &&& msk n)) k (data, sr)).2 =
      { sr with
        x := if k = 0 then sr.x else decide (v.toInt / 2 ^ (k - 1) % 2 = 1)
        c := if k = 0 then sr.c else decide (v.toInt / 2 ^ (k - 1) % 2 = 1) } := by
  have hs : data &&& msk n = if neg v then msk n else 0 := by
    rw [BitVec.and_twoPow, neg_iff]
    simp only [BitVec.getLsbD, Nat.testBit_eq_decide_div_mod_eq, decide_eq_true_eq, hd]
    have := v.isLt
    have e : (v.toNat / 2 ^ (n - 1) % 2 = 1) = (2 ^ n ≤ 2 * v.toNat) := by
      rw [eq_iff_iff]
      rcases hn with rfl | rfl | rfl <;> lomega
    simp only [e]; rfl
  rw [hs]
  induction k with
  | zero => exact ⟨⟨v, hd, by simp⟩, by simp [Alu.repeatN]⟩
  | succ k ih =>
    rw [repeatN_succ]
    generalize Alu.repeatN (Alu.asrStep (if neg v then msk n else 0)) k (data, sr) = p at *
    obtain ⟨x, sr'⟩ := p
    obtain ⟨⟨w, h1, h3⟩, h2⟩ := ih
    simp only at h1 h2
    simp only [Alu.asrStep, h2]
    have hw := w.isLt
    have hwneg : w.toInt < 0 ↔ v.toInt < 0 := by
      rw [h3]
      have : (0 : Int) < 2 ^ k := Int.pow_pos (by omega)
      constructor
      · intro h; by_cases hv : v.toInt < 0
        · exact hv
        · have := Int.ediv_nonneg (Int.not_lt.mp hv) (Int.le_of_lt this); omega
      · intro h; exact Int.ediv_neg_of_neg_of_pos h this
    have hwi := toInt_or w
    refine ⟨⟨BitVec.ofNat n (w.toNat / 2 + if neg v then 2 ^ (n - 1) else 0), ?_, ?_⟩, ?_⟩
    · have hx : (x >>> 1).toNat < 2 ^ (n - 1) := by
        rw [shr_one, h1]
        rcases hn with rfl | rfl | rfl <;> lomega
      cases hb : neg v
      · simp [shr_one, h1]
        rcases hn with rfl | rfl | rfl <;> lomega
      · simp only [if_true]
        rw [or_sign n hn _ hx, shr_one, h1]
        simp
        rcases hn with rfl | rfl | rfl <;> lomega
    · rw [Int.pow_succ, ← Int.ediv_ediv_of_nonneg (by apply Int.le_of_lt; exact Int.pow_pos (by omega)), ← h3]
      rw [BitVec.toInt_ofNat', Int.bmod_def]
      cases hb : neg v <;> simp only [neg, decide_eq_true_eq, decide_eq_false_iff_not] at hb
      · simp only [Bool.false_eq_true, if_false]
        rcases hn with rfl | rfl | rfl <;> simp <;> lomega
      · simp only [if_true]
        rcases hn with rfl | rfl | rfl <;> simp <;> lomega
    · have : ((x &&& 1) != 0) = decide (v.toInt / 2 ^ k % 2 = 1) := by
        rw [bne_one, h1, ← h3, decide_eq_decide]
        rcases hn with rfl | rfl | rfl <;> lomega
      rw [this]; simp

theorem rol_loop {n : Nat} (hn : IsWidth n) (v : BitVec n) (data : U32) (hd : data.toNat = v.toNat) (sr : StatusRegister) (k : Nat) :
    (Alu.repeatN (Alu.rolStep (msk n)) k (data, sr)).1.toNat % 2 ^ n = rotl n v.toNat (k % n) ∧
    (Alu.repeatN (Alu.rolStep (msk n)) k (data, sr)).2 =
      { sr with c := if k = 0 then sr.c else decide (rotl n v.toNat (k % n) % 2 = 1) } := by
  have hn0 : 0 < n := by rcases hn with rfl | rfl | rfl <;> lomega
  induction k with
  | zero => simp [Alu.repeatN, rotl_zero _ _ v.isLt, hd]
  | succ k ih =>
    rw [repeatN_succ]
    generalize Alu.repeatN (Alu.rolStep (msk n)) k (data, sr) = p at *
    obtain ⟨x, sr'⟩ := p
    obtain ⟨h1, h2⟩ := ih
    simp only at h1 h2
    simp only [Alu.rolStep, h2]
    have hstep := rotl_mod_succ n v.toNat k hn0 v.isLt
    rw [hstep, ← h1]
    have hb : ((x &&& msk n) != 0) = decide (x.toNat / 2 ^ (n - 1) % 2 = 1) :=
      bne_twoPow _ _ (by rcases hn with rfl | rfl | rfl <;> lomega)
    have hor : ((x <<< 1) ||| 1).toNat = (x <<< 1).toNat + 1 := by
      rw [BitVec.toNat_or, shl_one]
      have e : x.toNat * 2 % 2 ^ 32 = 2 ^ 1 * (x.toNat % 2 ^ 31) := by omega
      have := Nat.two_pow_add_eq_or_of_lt (i := 1) (b := 1) (by omega) (x.toNat % 2 ^ 31)
      rw [e, this]; rfl
    have q : x.toNat % 2 ^ n / 2 ^ (n - 1) = x.toNat / 2 ^ (n - 1) % 2 := by
      rcases hn with rfl | rfl | rfl <;> lomega
    rw [q]
    refine ⟨?_, ?_⟩
    · rw [hb]
      have hq : x.toNat / 2 ^ (n - 1) % 2 < 2 := Nat.mod_lt _ (by omega)
      generalize x.toNat / 2 ^ (n - 1) % 2 = t at *
      split <;> rename_i h <;> simp only [decide_eq_true_eq] at h
      · rw [hor, shl_one]
        rcases hn with rfl | rfl | rfl <;> lomega
      · rw [shl_one]
        rcases hn with rfl | rfl | rfl <;> lomega
    · rw [hb]
      have : decide (x.toNat / 2 ^ (n - 1) % 2 = 1) =
          decide ((2 * (x.toNat % 2 ^ n) + x.toNat / 2 ^ (n - 1) % 2) % 2 ^ n % 2 = 1) := by
        rw [decide_eq_decide]
        generalize x.toNat / 2 ^ (n - 1) % 2 = t at *
        rcases hn with rfl | rfl | rfl <;> lomega
      rw [this]; simp

theorem ror_loop {n : Nat} (hn : IsWidth n) (v : BitVec n) (data : U32) (hd : data.toNat = v.toNat) (sr : StatusRegister) (k : Nat) :
    (Alu.repeatN (Alu.rorStep (msk n)) k (data, sr)).1.toNat = rotr n v.toNat (k % n) ∧
    (Alu.repeatN (Alu.rorStep (msk n)) k (data, sr)).2 =
      { sr with c := if k = 0 then sr.c else decide (2 ^ n ≤ 2 * rotr n v.toNat (k % n)) } := by
  have hn0 : 0 < n := by rcases hn with rfl | rfl | rfl <;> lomega
  induction k with
  | zero => simp [Alu.repeatN, rotr_zero _ _ v.isLt, hd]
  | succ k ih =>
    rw [repeatN_succ]
    generalize Alu.repeatN (Alu.rorStep (msk n)) k (data, sr) = p at *
    obtain ⟨x, sr'⟩ := p
    obtain ⟨h1, h2⟩ := ih
    simp only at h1 h2
    simp only [Alu.rorStep, h2]
    have hstep := rotr_mod_succ n v.toNat k hn0 v.isLt
    have hlt : rotr n v.toNat (k % n) < 2 ^ n := Nat.mod_lt _ (Nat.two_pow_pos _)
    rw [hstep, ← h1]
    rw [← h1] at hlt
    have hx : (x >>> 1).toNat < 2 ^ (n - 1) := by
      rw [shr_one]
      rcases hn with rfl | rfl | rfl <;> lomega
    have hor := or_sign n hn _ hx
    refine ⟨?_, ?_⟩
    · rw [bne_one]
      split <;> rename_i h <;> simp only [decide_eq_true_eq] at h
      · rw [hor, shr_one, h]; omega
      · have : x.toNat % 2 = 0 := by omega
        rw [shr_one, this]; omega
    · rw [bne_one]
      have : decide (x.toNat % 2 = 1) = decide (2 ^ n ≤ 2 * (x.toNat / 2 + x.toNat % 2 * 2 ^ (n - 1))) := by
        rw [decide_eq_decide]
        rcases hn with rfl | rfl | rfl <;> lomega
      rw [this]; simp

theorem roxl_loop {n : Nat} (hn : IsWidth n) (v : BitVec n) (data : U32) (hd : data.toNat = v.toNat) (sr : StatusRegister) (k : Nat) :
    (Alu.repeatN (Alu.roxlStep (msk n)) k (data, sr)).1.toNat % 2 ^ n = rotl (n + 1) (withX v sr) (k % (n + 1)) % 2 ^ n ∧
    (Alu.repeatN (Alu.roxlStep (msk n)) k (data, sr)).2 =
      { sr with
        x := decide (rotl (n + 1) (withX v sr) (k % (n + 1)) / 2 ^ n % 2 = 1)
        c := if k = 0 then sr.c else decide (rotl (n + 1) (withX v sr) (k % (n + 1)) / 2 ^ n % 2 = 1) } := by
  have hv := v.isLt
  have hW : withX v sr < 2 ^ (n + 1) := by
    unfold withX; rw [Nat.pow_succ]; split <;> lomega
  induction k with
  | zero =>
    have hx : decide (withX v sr / 2 ^ n % 2 = 1) = sr.x := by
      unfold withX
      cases sr.x <;> rcases hn with rfl | rfl | rfl <;> simp <;> lomega
    simp only [Alu.repeatN, Nat.zero_mod, rotl_zero _ _ hW, hx, hd]
    refine ⟨?_, by simp⟩
    unfold withX
    cases sr.x <;> rcases hn with rfl | rfl | rfl <;> simp <;> lomega
  | succ k ih =>
    rw [repeatN_succ]
    generalize Alu.repeatN (Alu.roxlStep (msk n)) k (data, sr) = p at *
    obtain ⟨x, sr'⟩ := p
    obtain ⟨h1, h2⟩ := ih
    simp only at h1 h2
    simp only [Alu.roxlStep, h2]
    have hstep := rotl_mod_succ (n + 1) _ k (by omega) hW
    have hlt : rotl (n + 1) (withX v sr) (k % (n + 1)) < 2 ^ (n + 1) := Nat.mod_lt _ (Nat.two_pow_pos _)
    rw [hstep]
    generalize rotl (n + 1) (withX v sr) (k % (n + 1)) = R at *
    have hb : ((x &&& msk n) != 0) = decide (x.toNat / 2 ^ (n - 1) % 2 = 1) :=
      bne_twoPow _ _ (by rcases hn with rfl | rfl | rfl <;> lomega)
    have hor : ∀ b : Bool, ((x <<< 1) ||| boolTo 32 b).toNat = (x <<< 1).toNat + if b then 1 else 0 := by
      intro b
      cases b
      · simp [boolTo]
      · rw [BitVec.toNat_or, shl_one]
        have e : x.toNat * 2 % 2 ^ 32 = 2 ^ 1 * (x.toNat % 2 ^ 31) := by omega
        have := Nat.two_pow_add_eq_or_of_lt (i := 1) (b := 1) (by omega) (x.toNat % 2 ^ 31)
        rw [e]; exact this.symm
    rw [hor, shl_one, hb]
    have : decide (x.toNat / 2 ^ (n - 1) % 2 = 1) = decide ((2 * R + R / 2 ^ (n + 1 - 1)) % 2 ^ (n + 1) / 2 ^ n % 2 = 1) := by
      have q1 : x.toNat / 2 ^ (n - 1) % 2 = x.toNat % 2 ^ n / 2 ^ (n - 1) := by
        clear hor hb hstep; rcases hn with rfl | rfl | rfl <;> lomega
      have q2 : R % 2 ^ n / 2 ^ (n - 1) = R / 2 ^ (n - 1) % 2 := by
        clear hor hb hstep; rcases hn with rfl | rfl | rfl <;> lomega
      have q3 : R / 2 ^ n ≤ 1 := by
        clear hor hb hstep; rcases hn with rfl | rfl | rfl <;> lomega
      have q4 : n + 1 - 1 = n := by omega
      rw [decide_eq_decide, q1, h1, q2, q4]
      generalize R / 2 ^ n = u at *
      clear h1 hor hb hstep q1 q2
      rcases hn with rfl | rfl | rfl <;> lomega
    refine ⟨?_, by rw [this]; simp⟩
    simp only [decide_eq_true_eq]
    split <;> rcases hn with rfl | rfl | rfl <;> lomega

theorem roxr_loop {n : Nat} (hn : IsWidth n) (v : BitVec n) (data : U32) (hd : data.toNat = v.toNat) (sr : StatusRegister) (k : Nat) :
    (Alu.repeatN (Alu.roxrStep (msk n)) k (data, sr)).1.toNat = rotr (n + 1) (withX v sr) (k % (n + 1)) % 2 ^ n ∧
    (Alu.repeatN (Alu.roxrStep (msk n)) k (data, sr)).2 =
      { sr with
        x := decide (rotr (n + 1) (withX v sr) (k % (n + 1)) / 2 ^ n % 2 = 1)
        c := if k = 0 then sr.c else decide (rotr (n + 1) (withX v sr) (k % (n + 1)) / 2 ^ n % 2 = 1) } := by
  have hv := v.isLt
  have hW : withX v sr < 2 ^ (n + 1) := by
    unfold withX; rw [Nat.pow_succ]; split <;> lomega
  induction k with
  | zero =>
    have hx : decide (withX v sr / 2 ^ n % 2 = 1) = sr.x := by
      unfold withX
      cases sr.x <;> rcases hn with rfl | rfl | rfl <;> simp <;> lomega
    simp only [Alu.repeatN, Nat.zero_mod, rotr_zero _ _ hW, hx, hd]
    refine ⟨?_, by simp⟩
    unfold withX
    cases sr.x <;> rcases hn with rfl | rfl | rfl <;> simp <;> lomega
  | succ k ih =>
    rw [repeatN_succ]
    generalize Alu.repeatN (Alu.roxrStep (msk n)) k (data, sr) = p at *
    obtain ⟨x, sr'⟩ := p
    obtain ⟨h1, h2⟩ := ih
    simp only at h1 h2
    simp only [Alu.roxrStep, h2]
    have hstep := rotr_mod_succ (n + 1) _ k (by omega) hW
    have hlt : rotr (n + 1) (withX v sr) (k % (n + 1)) < 2 ^ (n + 1) := Nat.mod_lt _ (Nat.two_pow_pos _)
    rw [hstep]
    generalize rotr (n + 1) (withX v sr) (k % (n + 1)) = R at *
    have hx : (x >>> 1).toNat < 2 ^ (n - 1) := by
      rw [shr_one, h1]
      rcases hn with rfl | rfl | rfl <;> lomega
    have hor := or_sign n hn _ hx
    rw [bne_one]
    have hm : R % 2 = 0 ∨ R % 2 = 1 := by omega
    have : decide (x.toNat % 2 = 1) = decide ((R / 2 + R % 2 * 2 ^ (n + 1 - 1)) / 2 ^ n % 2 = 1) := by
      rw [decide_eq_decide, h1]
      rcases hm with hm | hm <;> rw [hm] <;> rcases hn with rfl | rfl | rfl <;> lomega
    refine ⟨?_, by rw [this]; simp⟩
    simp only [decide_eq_true_eq]
    split
    · rw [hor, shr_one, h1]
      rcases hm with hm | hm <;> rw [hm] <;> rcases hn with rfl | rfl | rfl <;> lomega
    · rw [shr_one, h1]
      rcases hm with hm | hm <;> rw [hm] <;> rcases hn with rfl | rfl | rfl <;> lomega

end M68k
