import Verif.Props.C01
/-
The unit test of m68000/tests/status_register.rs, stated for all words instead of run on each of them.
-/
namespace M68k.Tests
open StatusRegister

/-- L10. -/
example (raw : U16) : (ofU16 raw).toU16 = raw &&& 0xA71F := Props.C01_word_round_trip raw

/-- L12-19. -/
example (raw : U16) : (ofU16 raw).andAssign raw = ofU16 raw ∧ (((ofU16 raw).andAssign raw).andAssign 0).toU16 = 0 ∧
    ((((ofU16 raw).andAssign raw).andAssign 0).andAssign 0xFFFF).toU16 = 0 := by
  have h0 : toU8 (bits 0#16 8 10) = 0#8 := by decide
  refine ⟨by simp [andAssign, ofU16], ?_, ?_⟩ <;> simp [andAssign, ofU16, toU16, bit, boolTo, h0] <;> decide

/-- L21-28. -/
example (raw : U16) : ((ofU16 raw).xorAssign raw).toU16 = 0 ∧ (((ofU16 raw).xorAssign raw).xorAssign 0).toU16 = 0 ∧
    ((((ofU16 raw).xorAssign raw).xorAssign 0).xorAssign 0xFFFF).toU16 = 0xA71F := by
  have h0 : toU8 (bits 0#16 8 10) = 0#8 := by decide
  have h1 : toU8 (bits 65535#16 8 10) = 7#8 := by decide
  refine ⟨?_, ?_, ?_⟩ <;> simp [xorAssign, ofU16, toU16, bit, boolTo, h0, h1] <;> decide

/-- L30-37. -/
example (raw : U16) : (ofU16 raw).orAssign raw = ofU16 raw ∧ ((ofU16 raw).orAssign raw).orAssign 0 = ofU16 raw ∧
    ((((ofU16 raw).orAssign raw).orAssign 0).orAssign 0xFFFF).toU16 = 0xA71F := by
  have h0 : toU8 (bits 0#16 8 10) = 0#8 := by decide
  have h1 : toU8 (bits 65535#16 8 10) = 7#8 := by decide
  have h2 := Props.C01_mask raw
  have h3 : ∀ x : U8, x.toNat ≤ 7 → x ||| 7#8 = 7#8 := by decide +kernel
  have h4 := h3 _ h2
  simp only [ofU16] at h4
  refine ⟨by simp [orAssign, ofU16], by simp [orAssign, ofU16, h0, bit], ?_⟩
  simp [orAssign, ofU16, toU16, bit, boolTo, h0, h1, h4]; decide

/-- L39-56 on the low four bits, which are all that `condition` looks at. -/
def conditionTest (raw : U16) : Prop := let sr := ofU16 raw
  sr.condition 0 = some true ∧ sr.condition 1 = some false ∧ sr.condition 2 = some (raw &&& 0b0101 == 0) ∧ sr.condition 3 = some (raw &&& 0b0101 != 0) ∧
  sr.condition 4 = some (raw &&& 0b0001 == 0) ∧ sr.condition 5 = some (raw &&& 0b0001 != 0) ∧ sr.condition 6 = some (raw &&& 0b0100 == 0) ∧ sr.condition 7 = some (raw &&& 0b0100 != 0) ∧
  sr.condition 8 = some (raw &&& 0b0010 == 0) ∧ sr.condition 9 = some (raw &&& 0b0010 != 0) ∧ sr.condition 10 = some (raw &&& 0b1000 == 0) ∧ sr.condition 11 = some (raw &&& 0b1000 != 0) ∧
  sr.condition 12 = some (raw &&& 0b1010 == 0b1010 || raw &&& 0b1010 == 0) ∧ sr.condition 13 = some (raw &&& 0b1010 == 0b1000 || raw &&& 0b1010 == 0b0010) ∧
  sr.condition 14 = some (raw &&& 0b1110 == 0b1010 || raw &&& 0b1110 == 0) ∧
  sr.condition 15 = some (raw &&& 0b0100 != 0 || raw &&& 0b1010 == 0b1000 || raw &&& 0b1010 == 0b0010)

example (raw : U16) : conditionTest raw := by
  have hm : ∀ m : U16, m &&& 15 = m → raw &&& m = (raw &&& 15) &&& m := by intro m h; rw [BitVec.and_assoc, BitVec.and_comm 15 m, h]
  have hb : bit raw 0 = bit (raw &&& 15) 0 ∧ bit raw 1 = bit (raw &&& 15) 1 ∧ bit raw 2 = bit (raw &&& 15) 2 ∧ bit raw 3 = bit (raw &&& 15) 3 := by
    refine ⟨?_, ?_, ?_, ?_⟩ <;> simp only [bit] <;> rw [BitVec.and_assoc] <;> rfl
  have hk : ∃ k : Fin 16, raw &&& 15 = BitVec.ofNat 16 k.val := by
    refine ⟨⟨(raw &&& 15).toNat, ?_⟩, ?_⟩
    · have := Nat.and_lt_two_pow (n := 4) raw.toNat (y := 15) (by decide)
      simpa using this
    · simp
  obtain ⟨k, hk⟩ := hk
  simp only [conditionTest, condition, ofU16]
  rw [hm 0b0101 (by decide), hm 1 (by decide), hm 2 (by decide), hm 4 (by decide), hm 8 (by decide), hm 0b1010 (by decide), hm 0b1110 (by decide), hb.1, hb.2.1, hb.2.2.1, hb.2.2.2, hk]
  clear hk hb hm
  revert k
  decide +kernel

end M68k.Tests
