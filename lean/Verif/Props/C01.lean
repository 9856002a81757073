import Verif.Lemmas.SrWord
/-
C01: conversions of the status register. `StatusRegister.ofU16`, `toU16`, `andAssign`, `orAssign`,
`xorAssign` model `From<u16>`, `Into<u16>`, `&=`, `|=`, `^=`.
-/
namespace M68k.Props
open Spec

/-- The 16-bit value is the sum of the fields at their places (`srValue`, Spec/Alu.lean). -/
theorem C01_value (sr : StatusRegister) (h : sr.interruptMask.toNat ≤ 7) : sr.toU16.toNat = srValue sr := by
  obtain ⟨t, s, m, x, n, z, v, c⟩ := sr
  have key : ∀ (m : Fin 8) (t s x n z v c : Bool), (StatusRegister.mk t s (BitVec.ofNat 8 m.val) x n z v c).toU16.toNat =
      srValue (StatusRegister.mk t s (BitVec.ofNat 8 m.val) x n z v c) := by decide +kernel
  have := key ⟨m.toNat, by simp only at h; omega⟩ t s x n z v c
  simpa using this

example : (StatusRegister.mk true true 5 true false true false true).toU16 = 0xA515 := by decide

/-- A word goes to a status register and back to its implemented bits 15, 13, 10-8, 4-0. -/
theorem C01_word_round_trip (w : U16) : (StatusRegister.ofU16 w).toU16 = w &&& 0xA71F := by
  apply BitVec.eq_of_getLsbD_eq
  intro i hi
  rw [toU16_bit _ _ hi, BitVec.getLsbD_and]
  simp only [StatusRegister.ofU16, srOf_mask_bit, bit_getLsbD, Nat.reduceLT]
  bit_cases hi <;> simp

example : (StatusRegister.ofU16 0xFFFF).toU16 = 0xA71F := by decide

/-- A status register with a mask of at most 7 is recovered from its word. -/
theorem C01_sr_round_trip (sr : StatusRegister) (h : sr.interruptMask.toNat ≤ 7) : StatusRegister.ofU16 sr.toU16 = sr := by
  obtain ⟨t, s, m, x, n, z, v, c⟩ := sr
  have key : ∀ (m : Fin 8) (t s x n z v c : Bool),
      StatusRegister.ofU16 (StatusRegister.mk t s (BitVec.ofNat 8 m.val) x n z v c).toU16 =
      StatusRegister.mk t s (BitVec.ofNat 8 m.val) x n z v c := by decide +kernel
  have := key ⟨m.toNat, by simp only at h; omega⟩ t s x n z v c
  simpa using this

example : (StatusRegister.mk true false 7 true false true false true).interruptMask.toNat ≤ 7 := by decide

/-- Every status register made from a word has a mask of at most 7. -/
theorem C01_mask (w : U16) : (StatusRegister.ofU16 w).interruptMask.toNat ≤ 7 := by
  simp only [StatusRegister.ofU16, mask_field, BitVec.toNat_ofNat]
  omega

example : (StatusRegister.ofU16 0x0700).interruptMask = 7 := by decide

/-- `sr &= w`. -/
theorem C01_and (sr : StatusRegister) (w : U16) (h : sr.interruptMask.toNat ≤ 7) :
    (sr.andAssign w).toU16 = sr.toU16 &&& w ∧ (sr.andAssign w).interruptMask.toNat ≤ 7 := by
  constructor
  · apply BitVec.eq_of_getLsbD_eq
    intro i hi
    rw [toU16_bit _ _ hi, BitVec.getLsbD_and, toU16_bit _ _ hi]
    have h3 : sr.interruptMask[3] = false := mask_bit h 3 (by omega)
    have h4 : sr.interruptMask[4] = false := mask_bit h 4 (by omega)
    have h5 : sr.interruptMask[5] = false := mask_bit h 5 (by omega)
    have h6 : sr.interruptMask[6] = false := mask_bit h 6 (by omega)
    have h7 : sr.interruptMask[7] = false := mask_bit h 7 (by omega)
    simp only [StatusRegister.andAssign, BitVec.getLsbD_and, srOf_mask_bit, bit_getLsbD, Nat.reduceLT]
    bit_cases hi <;> simp [h3, h4, h5, h6, h7]
  · simp only [StatusRegister.andAssign, BitVec.toNat_and]
    exact Nat.le_trans Nat.and_le_left h

example : ((StatusRegister.ofU16 0x2715).andAssign 0xF0F0).toU16 = 0x2010 := by decide

/-- `sr |= w`: the implemented bits of `w` are added. -/
theorem C01_or (sr : StatusRegister) (w : U16) (h : sr.interruptMask.toNat ≤ 7) :
    (sr.orAssign w).toU16 = sr.toU16 ||| (w &&& 0xA71F) ∧ (sr.orAssign w).interruptMask.toNat ≤ 7 := by
  constructor
  · apply BitVec.eq_of_getLsbD_eq
    intro i hi
    rw [toU16_bit _ _ hi, BitVec.getLsbD_or, toU16_bit _ _ hi, BitVec.getLsbD_and]
    have h3 : sr.interruptMask[3] = false := mask_bit h 3 (by omega)
    have h4 : sr.interruptMask[4] = false := mask_bit h 4 (by omega)
    have h5 : sr.interruptMask[5] = false := mask_bit h 5 (by omega)
    have h6 : sr.interruptMask[6] = false := mask_bit h 6 (by omega)
    have h7 : sr.interruptMask[7] = false := mask_bit h 7 (by omega)
    simp only [StatusRegister.orAssign, BitVec.getLsbD_or, srOf_mask_bit, bit_getLsbD, Nat.reduceLT]
    bit_cases hi <;> simp [h3, h4, h5, h6, h7]
  · have h2 : (toU8 (bits w 8 10)).toNat ≤ 7 := C01_mask w
    simp only [StatusRegister.orAssign, BitVec.toNat_or]
    exact Nat.le_of_lt_succ (Nat.or_lt_two_pow (n := 3) (Nat.lt_succ_of_le h) (Nat.lt_succ_of_le h2))

example : ((StatusRegister.ofU16 0x2004).orAssign 0xFFF1).toU16 = 0xA715 := by decide

/-- `sr ^= w`: the implemented bits of `w` are flipped. -/
theorem C01_xor (sr : StatusRegister) (w : U16) (h : sr.interruptMask.toNat ≤ 7) :
    (sr.xorAssign w).toU16 = sr.toU16 ^^^ (w &&& 0xA71F) ∧ (sr.xorAssign w).interruptMask.toNat ≤ 7 := by
  constructor
  · apply BitVec.eq_of_getLsbD_eq
    intro i hi
    rw [toU16_bit _ _ hi, BitVec.getLsbD_xor, toU16_bit _ _ hi, BitVec.getLsbD_and]
    have h3 : sr.interruptMask[3] = false := mask_bit h 3 (by omega)
    have h4 : sr.interruptMask[4] = false := mask_bit h 4 (by omega)
    have h5 : sr.interruptMask[5] = false := mask_bit h 5 (by omega)
    have h6 : sr.interruptMask[6] = false := mask_bit h 6 (by omega)
    have h7 : sr.interruptMask[7] = false := mask_bit h 7 (by omega)
    simp only [StatusRegister.xorAssign, BitVec.getLsbD_xor, srOf_mask_bit, bit_getLsbD, Nat.reduceLT]
    bit_cases hi <;> simp [h3, h4, h5, h6, h7]
  · have h2 : (toU8 (bits w 8 10)).toNat ≤ 7 := C01_mask w
    simp only [StatusRegister.xorAssign, BitVec.toNat_xor]
    exact Nat.le_of_lt_succ (Nat.xor_lt_two_pow (n := 3) (Nat.lt_succ_of_le h) (Nat.lt_succ_of_le h2))

example : ((StatusRegister.ofU16 0x2715).xorAssign 0xFF0F).toU16 = 0x801A := by decide

end M68k.Props
