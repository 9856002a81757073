import Verif.Lemmas.EndsMul
import Mathlib.Tactic.Linarith
import Mathlib.Tactic.NormNum
import Verif.Lemmas.Claims
import Verif.Props.Demo
/-
C08: DIVU and DIVS.

DIVU is proved in full. The code takes the quotient -32768 of DIVS, which fits in 16 bits, as an
overflow: `C08_divs_partial` excludes it, `C08_divs_minus_32768` shows what happens then, and
`C08_divs_refuted` is a concrete division the claim is false for.
-/
namespace M68k.Props
open Spec Exec
variable {M : Type} [MemoryAccess M] {C : CpuDetails} {s s1 s2 s3 : St M} {op : U16}

/-- DIVU, DIVS by zero: vector 5, no data register changes; Z is set and C is clear. -/
theorem C08_by_zero {p : Place} {v : Val .Word} (h : Ready s op s1) (hi : instr op = .Divu ∨ instr op = .Divs)
    (hv : operand .Word op s1 = .ok (p, v) s2) (h0 : v = 0) :
    Raises C s 5 (s2.withRegs fun g => { g with sr := { g.sr with z := true, c := false } }) := by
  subst h0
  rcases hi with hi | hi
  · have hx := step_ends C h hi (by decide) rfl
    simp only [Spec.exec] at hx
    have := div_ends (fun n m => by rfl) hv hx
    simp only [BitVec.toNat_zero, BitVec.toInt_zero, show ((0 : Val .Word).toNat) = 0 from rfl, show ((0 : Val .Word).toInt) = 0 from rfl, if_true] at this
    exact this
  · have hx := step_ends C h hi (by decide) rfl
    simp only [Spec.exec] at hx
    have := div_ends (fun n m => by rfl) hv hx
    simp only [BitVec.toNat_zero, BitVec.toInt_zero, show ((0 : Val .Word).toNat) = 0 from rfl, show ((0 : Val .Word).toInt) = 0 from rfl, if_true] at this
    exact this

/-- `DIVS D1,D0` with D1 = 0. -/
example : ∃ s1 s2 p v, Ready (Demo.st [0x81C1] (Demo.regs [7, 0x10000] [])) 0x81C1 s1 ∧ instr 0x81C1 = .Divs ∧
    operand .Word 0x81C1 s1 = .ok (p, v) s2 ∧ v = 0 :=
  ⟨_, _, _, _, ⟨rfl, rfl, by decide, _, rfl, rfl⟩, rfl, rfl, rfl⟩

/-- DIVU whose quotient fits: quotient `q` in the low word and remainder `r` in the high word. -/
theorem C08_divu {p : Place} {v : Val .Word} (h : Ready s op s1) (hi : instr op = .Divu)
    (hv : operand .Word op s1 = .ok (p, v) s2) (h0 : v ≠ 0)
    (hfit : (s.cpu.regs.d (regField op 9)).toNat / v.toNat < 2 ^ 16) :
    ∃ q r : BitVec 16, (s.cpu.regs.d (regField op 9)).toNat = q.toNat * v.toNat + r.toNat ∧ r.toNat < v.toNat ∧
      Completes C s (s2.withRegs fun g => { setDreg g (regField op 9) (r ++ q) with
        sr := { g.sr with n := decide (q.toInt < 0), z := decide (q.toNat = 0), v := false, c := false } }) := by
  have hx := step_ends C h hi (by decide) rfl
  simp only [Spec.exec] at hx
  have hk := div_ends (fun n m => by rfl) hv hx
  have hs := operand_same h hv
  have hc : (clearC s2).cpu.regs.d = s.cpu.regs.d := hs.1
  have hv0 : v.toNat ≠ 0 := fun hh => h0 (BitVec.eq_of_toNat_eq (by simpa using hh))
  simp only [hv0, if_false, getR_bind_apply, hc] at hk
  generalize s.cpu.regs.d (regField op 9) = d at *
  have hr : d.toNat % v.toNat < 2 ^ 16 := Nat.lt_trans (Nat.mod_lt _ (by omega)) v.isLt
  refine ⟨BitVec.ofNat 16 (d.toNat / v.toNat), BitVec.ofNat 16 (d.toNat % v.toNat), ?_, ?_, ?_⟩
  · rw [BitVec.toNat_ofNat, BitVec.toNat_ofNat, Nat.mod_eq_of_lt hfit, Nat.mod_eq_of_lt hr, Nat.mul_comm, Nat.div_add_mod]
  · rw [BitVec.toNat_ofNat, Nat.mod_eq_of_lt hr]; exact Nat.mod_lt _ (by omega)
  · rw [if_pos (show d.toNat / v.toNat < 65536 from hfit)] at hk
    generalize d.toNat / v.toNat = q at *
    generalize d.toNat % v.toNat = r at *
    have hp : packWords r q = BitVec.ofNat 16 r ++ BitVec.ofNat 16 q := by
      apply BitVec.eq_of_toNat_eq
      unfold packWords
      rw [BitVec.toNat_append, BitVec.toNat_ofNat, BitVec.toNat_ofNat, Nat.mod_eq_of_lt hfit, Nat.mod_eq_of_lt hr,
        ← Nat.shiftLeft_add_eq_or_of_lt hfit, Nat.shiftLeft_eq, BitVec.toNat_ofInt]
      omega
    have hn : decide (32768 ≤ q) = decide ((BitVec.ofNat 16 q).toInt < 0) := by
      rw [BitVec.toInt_eq_toNat_cond, BitVec.toNat_ofNat, Nat.mod_eq_of_lt hfit]
      apply decide_eq_decide.2
      split <;> omega
    have hz : decide (q = 0) = decide ((BitVec.ofNat 16 q).toNat = 0) := by
      rw [BitVec.toNat_ofNat, Nat.mod_eq_of_lt hfit]
    rw [hp, hn, hz] at hk
    exact hk

/-- `DIVU D1,D0`: 100003 = 14286 * 7 + 1. -/
example : ∃ s1 s2 p v, Ready (Demo.st [0x80C1] (Demo.regs [100003, 7] [])) 0x80C1 s1 ∧ instr 0x80C1 = .Divu ∧
    operand .Word 0x80C1 s1 = .ok (p, v) s2 ∧ v ≠ 0 ∧
    ((Demo.st [0x80C1] (Demo.regs [100003, 7] [])).cpu.regs.d (regField 0x80C1 9)).toNat / v.toNat < 2 ^ 16 :=
  ⟨_, _, _, _, ⟨rfl, rfl, by decide, _, rfl, rfl⟩, rfl, rfl, by decide, by decide⟩

/-- DIVU whose quotient does not fit in 16 bits: V is set, no data register changes. -/
theorem C08_divu_overflow {p : Place} {v : Val .Word} (h : Ready s op s1) (hi : instr op = .Divu)
    (hv : operand .Word op s1 = .ok (p, v) s2) (h0 : v ≠ 0)
    (hfit : 2 ^ 16 ≤ (s.cpu.regs.d (regField op 9)).toNat / v.toNat) :
    Completes C s (s2.withRegs fun g => { g with sr := { g.sr with n := false, z := false, v := true, c := false } }) := by
  have hx := step_ends C h hi (by decide) rfl
  simp only [Spec.exec] at hx
  have hk := div_ends (fun n m => by rfl) hv hx
  have hs := operand_same h hv
  have hc : (clearC s2).cpu.regs.d = s.cpu.regs.d := hs.1
  have hv0 : v.toNat ≠ 0 := fun hh => h0 (BitVec.eq_of_toNat_eq (by simpa using hh))
  simp only [hv0, if_false, getR_bind_apply, hc] at hk
  rw [if_neg (by omega)] at hk
  exact hk

/-- `DIVU D1,D0`: 0x10000 / 1. -/
example : ∃ s1 s2 p v, Ready (Demo.st [0x80C1] (Demo.regs [0x10000, 1] [])) 0x80C1 s1 ∧ instr 0x80C1 = .Divu ∧
    operand .Word 0x80C1 s1 = .ok (p, v) s2 ∧ v ≠ 0 ∧
    2 ^ 16 ≤ ((Demo.st [0x80C1] (Demo.regs [0x10000, 1] [])).cpu.regs.d (regField 0x80C1 9)).toNat / v.toNat :=
  ⟨_, _, _, _, ⟨rfl, rfl, by decide, _, rfl, rfl⟩, rfl, rfl, by decide, by decide⟩

/-- DIVS whose quotient, rounded towards 0, is above -32768 and below 32768: the remainder has the sign
of the dividend. The full claim has -32768 too. -/
theorem C08_divs_partial {p : Place} {v : Val .Word} (h : Ready s op s1) (hi : instr op = .Divs)
    (hv : operand .Word op s1 = .ok (p, v) s2) (h0 : v ≠ 0)
    (hfit : -2 ^ 15 < (s.cpu.regs.d (regField op 9)).toInt.tdiv v.toInt ∧ (s.cpu.regs.d (regField op 9)).toInt.tdiv v.toInt < 2 ^ 15) :
    ∃ q r : BitVec 16, (s.cpu.regs.d (regField op 9)).toInt = q.toInt * v.toInt + r.toInt ∧ |r.toInt| < |v.toInt| ∧
      (0 < r.toInt → 0 < (s.cpu.regs.d (regField op 9)).toInt) ∧ (r.toInt < 0 → (s.cpu.regs.d (regField op 9)).toInt < 0) ∧
      Completes C s (s2.withRegs fun g => { setDreg g (regField op 9) (r ++ q) with
        sr := { g.sr with n := decide (q.toInt < 0), z := decide (q.toNat = 0), v := false, c := false } }) := by
  have hx := step_ends C h hi (by decide) rfl
  simp only [Spec.exec] at hx
  have hk := div_ends (fun n m => by rfl) hv hx
  have hs := operand_same h hv
  have hc : (clearC s2).cpu.regs.d = s.cpu.regs.d := hs.1
  have hv0 : v.toInt ≠ 0 := fun hh => h0 (BitVec.toInt_inj.1 (by simpa using hh))
  simp only [hv0, if_false, getR_bind_apply, hc] at hk
  generalize s.cpu.regs.d (regField op 9) = d at *
  have hv1 := BitVec.le_toInt v
  have hv2 := BitVec.toInt_lt (x := v)
  simp only [width] at hv1 hv2
  have hfit' : decide (-32768 < d.toInt.tdiv v.toInt ∧ d.toInt.tdiv v.toInt < 32768) = true := by
    simp only [decide_eq_true_eq]; norm_num at hfit; exact hfit
  have habs : |d.toInt.tmod v.toInt| < |v.toInt| := by
    rw [Int.abs_eq_natAbs, Int.abs_eq_natAbs, Int.natAbs_tmod]
    exact_mod_cast Nat.mod_lt _ (Int.natAbs_pos.2 hv0)
  have hrb := abs_lt.1 (lt_of_lt_of_le habs (abs_le.2 ⟨hv1, Int.le_of_lt hv2⟩ : |v.toInt| ≤ 2 ^ (16 - 1)))
  norm_num at hrb
  have hq : (BitVec.ofInt 16 (d.toInt.tdiv v.toInt)).toInt = d.toInt.tdiv v.toInt := by
    rw [BitVec.toInt_ofInt, Int.bmod_eq_of_le] <;> norm_num at * <;> omega
  have hr : (BitVec.ofInt 16 (d.toInt.tmod v.toInt)).toInt = d.toInt.tmod v.toInt := by
    rw [BitVec.toInt_ofInt, Int.bmod_eq_of_le] <;> norm_num at * <;> omega
  refine ⟨BitVec.ofInt 16 (d.toInt.tdiv v.toInt), BitVec.ofInt 16 (d.toInt.tmod v.toInt), ?_, ?_, ?_, ?_, ?_⟩
  · rw [hq, hr, Int.mul_comm]; exact (Int.mul_tdiv_add_tmod _ _).symm
  · rw [hr]; exact habs
  · rw [hr]; intro hp
    by_contra hneg
    have := Int.tmod_nonneg (a := -d.toInt) v.toInt (by omega)
    rw [Int.neg_tmod] at this
    omega
  · rw [hr]; intro hp
    by_contra hneg
    have := Int.tmod_nonneg (a := d.toInt) v.toInt (by omega)
    omega
  · rw [hfit', if_pos rfl] at hk
    have hp : packWords (d.toInt.tmod v.toInt) (d.toInt.tdiv v.toInt) =
        BitVec.ofInt 16 (d.toInt.tmod v.toInt) ++ BitVec.ofInt 16 (d.toInt.tdiv v.toInt) := by
      generalize d.toInt.tmod v.toInt = a
      generalize d.toInt.tdiv v.toInt = b
      apply BitVec.eq_of_toNat_eq
      unfold packWords
      rw [BitVec.toNat_append, ← Nat.shiftLeft_add_eq_or_of_lt (BitVec.isLt _), Nat.shiftLeft_eq, BitVec.toNat_ofInt,
        BitVec.toNat_ofInt, BitVec.toNat_ofInt]
      norm_num
      omega
    rw [hp] at hk
    exact hk

/-- `DIVS D1,D0`: -7 / 2 = -3 remainder -1. -/
example : ∃ s1 s2 p v, Ready (Demo.st [0x81C1] (Demo.regs [-7, 2] [])) 0x81C1 s1 ∧ instr 0x81C1 = .Divs ∧
    operand .Word 0x81C1 s1 = .ok (p, v) s2 ∧ v ≠ 0 ∧
    ((Demo.st [0x81C1] (Demo.regs [-7, 2] [])).cpu.regs.d (regField 0x81C1 9)).toInt.tdiv v.toInt = -3 :=
  ⟨_, _, _, _, ⟨rfl, rfl, by decide, _, rfl, rfl⟩, rfl, rfl, by decide, by decide⟩

/-- DIVS whose quotient is not between -32768 and 32767, or is -32768: V is set, no data register changes. -/
theorem C08_divs_overflow {p : Place} {v : Val .Word} (h : Ready s op s1) (hi : instr op = .Divs)
    (hv : operand .Word op s1 = .ok (p, v) s2) (h0 : v ≠ 0)
    (hfit : (s.cpu.regs.d (regField op 9)).toInt.tdiv v.toInt ≤ -2 ^ 15 ∨ 2 ^ 15 ≤ (s.cpu.regs.d (regField op 9)).toInt.tdiv v.toInt) :
    ∃ n z, Completes C s (s2.withRegs fun g => { g with sr := { g.sr with n := n, z := z, v := true, c := false } }) := by
  have hx := step_ends C h hi (by decide) rfl
  simp only [Spec.exec] at hx
  have hk := div_ends (fun n m => by rfl) hv hx
  have hs := operand_same h hv
  have hc : (clearC s2).cpu.regs.d = s.cpu.regs.d := hs.1
  have hv0 : v.toInt ≠ 0 := fun hh => h0 (BitVec.toInt_inj.1 (by simpa using hh))
  simp only [hv0, if_false, getR_bind_apply, hc] at hk
  have hfit' : decide (-32768 < (s.cpu.regs.d (regField op 9)).toInt.tdiv v.toInt ∧
      (s.cpu.regs.d (regField op 9)).toInt.tdiv v.toInt < 32768) = false := by
    simp only [decide_eq_false_iff_not]; norm_num at hfit; omega
  rw [hfit', if_neg (by decide)] at hk
  exact ⟨_, _, hk⟩

/-- `DIVS D1,D0`: 0x80000000 / -1. -/
example : ∃ s1 s2 p v, Ready (Demo.st [0x81C1] (Demo.regs [0x80000000, -1] [])) 0x81C1 s1 ∧ instr 0x81C1 = .Divs ∧
    operand .Word 0x81C1 s1 = .ok (p, v) s2 ∧ v ≠ 0 ∧
    2 ^ 15 ≤ ((Demo.st [0x81C1] (Demo.regs [0x80000000, -1] [])).cpu.regs.d (regField 0x81C1 9)).toInt.tdiv v.toInt :=
  ⟨_, _, _, _, ⟨rfl, rfl, by decide, _, rfl, rfl⟩, rfl, rfl, by decide, by decide⟩

/-- The state before `DIVS D1,D0` with D0 = -32768 and D1 = 1, whose quotient -32768 fits in 16 bits. -/
def divsWitness : St WordSlice := Demo.st [0x81C1] (Demo.regs [-32768, 1] [])

/-- The claim is false for DIVS with the quotient -32768: V is set and D0 keeps its value instead of
getting the quotient in its low word and the remainder 0 in its high word. -/
theorem C08_divs_refuted : ∃ c s', interpreterException mc68000 divsWitness = .ok (c, none) s' ∧
    s'.cpu.regs.sr.v = true ∧ s'.cpu.regs.d 0 = 0xFFFF8000 ∧
    (divsWitness.cpu.regs.d 0).toInt = -32768 ∧ (divsWitness.cpu.regs.d 1).toInt = 1 :=
  ⟨_, _, rfl, rfl, rfl, rfl, rfl⟩

/-- An operand that cannot be read raises the exception of the access; C is clear, nothing else changes. -/
theorem C08_operand_error {e : U8} (h : Ready s op s1) (hi : instr op = .Divu ∨ instr op = .Divs)
    (hv : operand .Word op s1 = .err e s2) :
    Raises C s e (s2.withRegs fun g => { g with sr := { g.sr with c := false } }) := by
  rcases hi with hi | hi
  · have hx := step_ends C h hi (by decide) rfl
    simp only [Spec.exec] at hx
    exact div_err (fun n m => by rfl) hv hx
  · have hx := step_ends C h hi (by decide) rfl
    simp only [Spec.exec] at hx
    exact div_err (fun n m => by rfl) hv hx

/-- `DIVU (A0),D0` with an odd A0. -/
example : ∃ s1 s2, Ready (Demo.st [0x80D0] (Demo.regs [0] [1])) 0x80D0 s1 ∧ instr 0x80D0 = .Divu ∧
    operand .Word 0x80D0 s1 = .err 3 s2 :=
  ⟨_, _, ⟨rfl, rfl, by decide, _, rfl, rfl⟩, rfl, rfl⟩

end M68k.Props
