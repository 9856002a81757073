import Verif.Model.Fast
import Verif.Lemmas.InstrArith
import Verif.Lemmas.InstrLogic
import Verif.Lemmas.InstrBit
import Verif.Lemmas.InstrShift
import Verif.Lemmas.InstrControl
import Verif.Lemmas.InstrMove
/-
The operand decoding functions read the extension words and the fields of the opcode as the
specification does.
-/
namespace M68k
namespace Exec
open Spec
variable {M : Type} [MemoryAccess M]

/-! ### Running a decoder from the program counter -/
omit [MemoryAccess M] in
theorem withIter_pure {α : Type} (a : α) : (withIter (pure a) : Exec M α) = pure a := rfl
omit [MemoryAccess M] in
theorem withIter_bind {α β : Type} (x : Dec M α) (f : α → Dec M β) :
    (withIter (x >>= f) : Exec M β) = withIter x >>= fun a => withIter (f a) := by
  ext s
  simp only [withIter, bind_apply, Dec.bind_apply]
  cases x ⟨s.mem, s.cpu.regs.pc⟩ <;> rfl
omit [MemoryAccess M] in
theorem withIter_map {α β : Type} (x : Dec M α) (f : α → β) :
    (withIter (f <$> x) : Exec M β) = f <$> withIter x := by
  ext s
  simp only [withIter, map_apply, Dec.map_apply]
  cases x ⟨s.mem, s.cpu.regs.pc⟩ <;> rfl
omit [MemoryAccess M] in
theorem withIter_panic {α : Type} : (withIter Dec.panic : Exec M α) = crash := rfl
omit [MemoryAccess M] in
theorem withIter_nextAddr : (withIter Dec.nextAddr : Exec M U32) = getR (·.pc) := rfl
omit [MemoryAccess M] in
theorem withIter_ite {α : Type} (c : Prop) [Decidable c] (x y : Dec M α) :
    (withIter (if c then x else y) : Exec M α) = if c then withIter x else withIter y := by
  split <;> rfl

theorem withIter_nextWord : (withIter nextWord : Exec M U16) = fetch := by
  ext s
  unfold withIter nextWord Iter.next fetch
  by_cases h : Odd s.cpu.regs.pc
  · have : isEven s.cpu.regs.pc = false := by
      rw [Bool.eq_false_iff, ne_eq, isEven_iff]; exact not_not_intro h
    simp only [this, if_pos h, Bool.false_eq_true, if_false]
  · have := (isEven_iff _).2 h
    simp only [this, if_neg h, if_true]
    cases MemoryAccess.getWord s.cpu.regs.pc s.mem <;> rfl

theorem hi_lo (hi lo : U16) : toU32 hi <<< 16 ||| toU32 lo = BitVec.ofNat 32 (hi.toNat * 65536 + lo.toNat) := by
  apply BitVec.eq_of_toNat_eq
  have h1 := hi.isLt
  have h2 : lo.toNat < 2 ^ 16 := lo.isLt
  rw [show hi.toNat * 65536 + lo.toNat = 2 ^ 16 * hi.toNat + lo.toNat by omega, Nat.two_pow_add_eq_or_of_lt h2]
  have e1 : hi.toNat % 4294967296 = hi.toNat := by omega
  have e2 : lo.toNat % 4294967296 = lo.toNat := by omega
  simp [toU32, Nat.shiftLeft_eq, e1, e2]
  rw [Nat.mul_comm]

theorem withIter_nextLong : (withIter nextLong : Exec M U32) = fetchLong := by
  simp only [nextLong, withIter_bind, withIter_nextWord, withIter_pure, hi_lo]
  rfl

/-! ### Fields -/
theorem bits_toNat (op : U16) (lo k : Nat) (hk : k < 16) : (bits op lo (lo + k)).toNat = op.toNat / 2 ^ lo % 2 ^ (k + 1) := by
  unfold bits
  rw [show lo + k + 1 - lo = k + 1 by omega, BitVec.toNat_and, BitVec.toNat_ushiftRight, Nat.shiftRight_eq_div_pow]
  have : (((1 : U16) <<< (k + 1)) - 1).toNat = 2 ^ (k + 1) - 1 := by
    have : ∀ k : Fin 16, (((1 : U16) <<< (k.val + 1)) - 1).toNat = 2 ^ (k.val + 1) - 1 := by decide
    exact this ⟨k, hk⟩
  rw [this, Nat.and_two_pow_sub_one_eq_mod]

theorem reg_field (op : U16) (lo : Nat) : toU8 (bits op lo (lo + 2)) = u8 (regField op lo) := by
  apply BitVec.eq_of_toNat_eq
  rw [u8_toNat, toU8, BitVec.toNat_setWidth, bits_toNat _ _ _ (by omega)]
  simp only [regField, Fin.ofNat]
  omega
theorem reg_field0 (op : U16) : toU8 (bits op 0 2) = u8 (regField op 0) := reg_field op 0
theorem reg_field9 (op : U16) : toU8 (bits op 9 11) = u8 (regField op 9) := reg_field op 9
theorem cc_field (op : U16) : toU8 (bits op 8 11) = cc8 (ccField op) := by
  apply BitVec.eq_of_toNat_eq
  rw [toU8, BitVec.toNat_setWidth, show (11 : Nat) = 8 + 3 from rfl, bits_toNat _ _ _ (by omega)]
  simp only [ccField, Fin.ofNat, cc8, BitVec.toNat_ofNat]
theorem bit_flag (op : U16) (i : Nat) (h : i < 16) : bit op i = flag op i := bit_eq op i h

theorem mode_field (op : U16) (lo : Nat) : (bits op lo (lo + 2)).toNat = (regField op lo).val := by
  rw [bits_toNat _ _ _ (by omega)]; rfl

theorem fin8_cases : ∀ m : Fin 8, m = 0 ∨ m = 1 ∨ m = 2 ∨ m = 3 ∨ m = 4 ∨ m = 5 ∨ m = 6 ∨ m = 7 := by decide

theorem fromMemory_eq (w : U16) (m r : Fin 8) (h : w.toNat = m.val) (sz : Option Size) :
    (withIter (AddressingMode.fromMemory w (u8 r) sz) : Exec M _) = Mode.toAM <$> fetchMode sz m r := by
  unfold AddressingMode.fromMemory
  rw [h, u8_toNat]
  have e32 : ∀ w : U16, toU32 w = w.setWidth 32 := fun _ => rfl
  rcases fin8_cases m with rfl | rfl | rfl | rfl | rfl | rfl | rfl | rfl
  · rfl
  · rfl
  · rfl
  · rfl
  · rfl
  · show withIter (nextWord >>= fun w => Pure.pure (AddressingMode.Ariwd (u8 r) w)) = _
    simp only [withIter_bind, withIter_nextWord, withIter_pure, fetchMode, ← map_eq_pure_bind, withIter_map, Functor.map_map]
    rfl
  · show withIter (nextWord >>= fun w => Pure.pure (AddressingMode.Ariwi8 (u8 r) { word := w })) = _
    simp only [withIter_bind, withIter_nextWord, withIter_pure, fetchMode, ← map_eq_pure_bind, withIter_map, Functor.map_map]
    rfl
  show withIter (match r.val with
    | 0 => _ | 1 => _ | 2 => _ | 3 => _ | 4 => _ | _ => _) = _
  rcases fin8_cases r with rfl | rfl | rfl | rfl | rfl | rfl | rfl | rfl
  · show withIter (AddressingMode.AbsShort <$> nextWord) = _
    refine Eq.trans ?_ (Functor.map_map Mode.absW Mode.toAM fetch).symm
    simp only [← map_eq_pure_bind, withIter_map, withIter_nextWord]; rfl
  · show withIter (AddressingMode.AbsLong <$> nextLong) = _
    refine Eq.trans ?_ (Functor.map_map Mode.absL Mode.toAM fetchLong).symm
    simp only [← map_eq_pure_bind, withIter_map, withIter_nextLong]; rfl
  · show withIter (Dec.nextAddr >>= fun pc => AddressingMode.Pciwd pc <$> nextWord) =
      Mode.toAM <$> (getR (·.pc) >>= fun pc => Mode.pcDisp pc <$> fetch)
    simp only [← map_eq_pure_bind, withIter_map, withIter_nextWord, withIter_bind, withIter_nextAddr, map_bind, Functor.map_map]; rfl
  · show withIter (Dec.nextAddr >>= fun pc => (fun a => AddressingMode.Pciwi8 pc { word := a }) <$> nextWord) =
      Mode.toAM <$> (getR (·.pc) >>= fun pc => Mode.pcIndex pc <$> fetch)
    simp only [← map_eq_pure_bind, withIter_map, withIter_nextWord, withIter_bind, withIter_nextAddr, map_bind, Functor.map_map]; rfl
  · rcases sz with _ | _ | _ | _
    · rfl
    · show withIter ((fun a => AddressingMode.Immediate (toU32 a)) <$> nextWord) = _
      refine Eq.trans ?_ (Functor.map_map (fun w => Mode.imm (w.setWidth 32)) Mode.toAM fetch).symm
      simp only [← map_eq_pure_bind, withIter_map, withIter_nextWord]; rfl
    · show withIter ((fun a => AddressingMode.Immediate (toU32 a)) <$> nextWord) = _
      refine Eq.trans ?_ (Functor.map_map (fun w => Mode.imm (w.setWidth 32)) Mode.toAM fetch).symm
      simp only [← map_eq_pure_bind, withIter_map, withIter_nextWord]; rfl
    · show withIter (AddressingMode.Immediate <$> nextLong) = _
      refine Eq.trans ?_ (Functor.map_map Mode.imm Mode.toAM fetchLong).symm
      simp only [← map_eq_pure_bind, withIter_map, withIter_nextLong]; rfl
  · rfl
  · rfl
  · rfl

theorem ea_field (op : U16) (sz : Option Size) :
    (withIter (AddressingMode.fromMemory (bits op 3 5) (u8 (regField op 0)) sz) : Exec M _) = Mode.toAM <$> fetchEa sz op :=
  fromMemory_eq _ _ _ (mode_field op 3) sz
theorem dst_field (op : U16) (sz : Option Size) :
    (withIter (AddressingMode.fromMemory (bits op 6 8) (u8 (regField op 9)) sz) : Exec M _) =
      Mode.toAM <$> fetchMode sz (regField op 6) (regField op 9) :=
  fromMemory_eq _ _ _ (mode_field op 6) sz

/-! ### Size fields -/
omit [MemoryAccess M] in
theorem lift_sized (op : U16) (k : Size → Exec M Nat) :
    (withIter (Dec.lift (Size.fromU16 (bits op 6 7))) >>= k) = sized op k := by
  have h : (bits op 6 7).toNat = op.toNat / 64 % 4 := bits_toNat op 6 1 (by omega)
  unfold Size.fromU16 sized
  have e0 : bits op 6 7 = 0 ↔ op.toNat / 64 % 4 = 0 := by
    rw [← BitVec.toNat_inj, h]; exact Iff.rfl
  have e1 : bits op 6 7 = 1 ↔ op.toNat / 64 % 4 = 1 := by
    rw [← BitVec.toNat_inj, h]; exact Iff.rfl
  have e2 : bits op 6 7 = 2 ↔ op.toNat / 64 % 4 = 2 := by
    rw [← BitVec.toNat_inj, h]; exact Iff.rfl
  simp only [e0, e1, e2]
  split
  · rfl
  · split
    · rfl
    · split <;> rfl
omit [MemoryAccess M] in
theorem lift_moveSized (op : U16) (k : Size → Exec M Nat) :
    (withIter (Dec.lift (Size.fromMove (bits op 12 13))) >>= k) = moveSized op k := by
  have h : (bits op 12 13).toNat = op.toNat / 4096 % 4 := bits_toNat op 12 1 (by omega)
  unfold Size.fromMove moveSized
  have e1 : bits op 12 13 = 1 ↔ op.toNat / 4096 % 4 = 1 := by
    rw [← BitVec.toNat_inj, h]; exact Iff.rfl
  have e2 : bits op 12 13 = 2 ↔ op.toNat / 4096 % 4 = 2 := by
    rw [← BitVec.toNat_inj, h]; exact Iff.rfl
  have e3 : bits op 12 13 = 3 ↔ op.toNat / 4096 % 4 = 3 := by
    rw [← BitVec.toNat_inj, h]; exact Iff.rfl
  simp only [e1, e2, e3]
  split
  · rfl
  · split
    · rfl
    · split <;> rfl
theorem size_bit (op : U16) (i : Nat) (h : i < 16) : Size.fromBit (bit op i) = sizeBit op i := by
  rw [bit_flag _ _ h]; rfl

theorem fetch_imm (sz : Size) :
    (withIter (if sz.isLong then nextLong else toU32 <$> nextWord) : Exec M U32) = fetchImm sz := by
  rw [withIter_ite, withIter_nextLong, withIter_map, withIter_nextWord]
  cases sz <;> rfl

theorem disp_zero (op : U16) : (((toU8 op).signExtend 16 : U16) = 0) ↔ op.toNat % 256 = 0 := by
  have h0 : (toU8 op).toNat = op.toNat % 256 := by simp [toU8]
  have hm : (toU8 op).signExtend 16 = 0 ↔ toU8 op = 0 := by
    constructor
    · intro h
      have h2 : ((toU8 op).signExtend 16 : U16).toInt = 0 := by rw [h]; rfl
      rw [BitVec.toInt_signExtend_of_le (by omega)] at h2
      exact BitVec.eq_of_toInt_eq h2
    · intro h; rw [h]; rfl
  rw [hm, ← BitVec.toNat_inj, h0]; rfl

theorem fetch_disp (op : U16) : (withIter (Decode.displacement op) : Exec M U16) = fetchDisp op := by
  unfold Decode.displacement fetchDisp
  rw [withIter_ite, withIter_nextWord, withIter_pure]
  simp only [disp_zero]
  split
  · rfl
  · have : toU8 op = BitVec.ofNat 8 op.toNat := by
      apply BitVec.eq_of_toNat_eq; simp [toU8]
    rw [this]; rfl

end Exec
end M68k
