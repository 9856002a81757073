import Verif.Lemmas.Operand
import Verif.Spec.Isa
/-
The conversions and operations of the status register, and the conditions.
-/
set_option linter.unusedSimpArgs false
namespace M68k
open Spec

theorem mask_field (w : U16) : toU8 (bits w 8 10) = BitVec.ofNat 8 (w.toNat / 256 % 8) := by
  apply BitVec.eq_of_toNat_eq
  have := w.isLt
  simp [bits, toU8, Nat.shiftRight_eq_div_pow]
  rw [show (7 : Nat) = 2 ^ 3 - 1 from rfl, Nat.and_two_pow_sub_one_eq_mod]
  omega

theorem ofU16_eq (w : U16) : StatusRegister.ofU16 w = srOf w := by
  simp only [StatusRegister.ofU16, srOf, Exec.bit_eq, mask_field, Nat.reduceLT, Nat.reducePow, Nat.div_one]

theorem toU16_eq (sr : StatusRegister) : StatusRegister.toU16 sr = srWord sr := by
  simp only [StatusRegister.toU16, srWord, BitVec.ofNat_or]
  have hb : ∀ (b : Bool) (k : Nat), k < 16 → boolTo 16 b <<< k = BitVec.ofNat 16 (if b then 2 ^ k else 0) := by
    intro b k hk
    cases b
    · simp [boolTo]
    · apply BitVec.eq_of_toNat_eq
      simp [boolTo, Nat.shiftLeft_eq]
  have h0 : ∀ (b : Bool), boolTo 16 b = BitVec.ofNat 16 (if b then 1 else 0) := by
    intro b; cases b <;> rfl
  have hm : M68k.toU16 sr.interruptMask <<< 8 = BitVec.ofNat 16 (sr.interruptMask.toNat * 256) := by
    apply BitVec.eq_of_toNat_eq
    simp [toU16, Nat.shiftLeft_eq]
  rw [hb _ 15 (by omega), hb _ 13 (by omega), hm, hb _ 4 (by omega), hb _ 3 (by omega), hb _ 2 (by omega), hb _ 1 (by omega), h0]

theorem setCcr_eq (sr : StatusRegister) (w : U16) : sr.setCcr w = withCcr sr w := by
  simp only [StatusRegister.setCcr, withCcr, srOf, Exec.bit_eq, Nat.reduceLT, Nat.reducePow, Nat.div_one]

theorem andAssign_eq (sr : StatusRegister) (w : U16) : sr.andAssign w = srOp (· && ·) (· &&& ·) w sr := by
  simp only [StatusRegister.andAssign, srOp, srOf, Exec.bit_eq, mask_field, Nat.reduceLT, Nat.reducePow, Nat.div_one]
theorem orAssign_eq (sr : StatusRegister) (w : U16) : sr.orAssign w = srOp (· || ·) (· ||| ·) w sr := by
  simp only [StatusRegister.orAssign, srOp, srOf, Exec.bit_eq, mask_field, Nat.reduceLT, Nat.reducePow, Nat.div_one]
theorem xorAssign_eq (sr : StatusRegister) (w : U16) : sr.xorAssign w = srOp (· != ·) (· ^^^ ·) w sr := by
  simp only [StatusRegister.xorAssign, srOp, srOf, Exec.bit_eq, mask_field, Nat.reduceLT, Nat.reducePow, Nat.div_one]

/-- A condition number as the 8-bit number of the API. -/
def cc8 (cc : Fin 16) : U8 := BitVec.ofNat 8 cc.val

theorem condition_eq (sr : StatusRegister) (cc : Fin 16) : sr.condition (cc8 cc) = some (holds cc sr) := by
  have key : ∀ (cc : Fin 16) (n z v c : Bool),
      (StatusRegister.mk false false 0 false n z v c).condition (cc8 cc) = some (holds cc ⟨false, false, 0, false, n, z, v, c⟩) := by
    decide
  exact key cc sr.n sr.z sr.v sr.c

theorem Exec.testCondition_eq {M : Type} (cc : Fin 16) : (Exec.testCondition (cc8 cc) : Exec M Bool) = test cc := by
  ext s
  simp only [Exec.testCondition, condition_eq, test, getR]

end M68k
