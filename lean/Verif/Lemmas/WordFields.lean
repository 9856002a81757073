import Verif.Lemmas.Words
import Verif.Lemmas.Decode
/-
The effective address fields of an assembled opcode.
-/
set_option linter.unusedSectionVars false
namespace M68k.Exec
open Spec

theorem bits02 (op : U16) : (toU8 (bits op 0 2)).toNat = op.toNat % 8 := by
  unfold toU8
  rw [BitVec.toNat_setWidth, bits_toNat op 0 2 (by omega)]
  omega
theorem bits35 (op : U16) : (bits op 3 5).toNat = op.toNat / 8 % 8 := bits_toNat op 3 2 (by omega)
theorem bits68 (op : U16) : (bits op 6 8).toNat = op.toNat / 64 % 8 := bits_toNat op 6 2 (by omega)
theorem bits911 (op : U16) : (toU8 (bits op 9 11)).toNat = op.toNat / 512 % 8 := by
  unfold toU8
  rw [BitVec.toNat_setWidth, bits_toNat op 9 2 (by omega)]
  omega

/-- The fields that `assembleMoveDst` puts in bits 6 to 11. -/
theorem moveDst_field {am : AddressingMode} {f : U16} {ws : List U16} (hw : WellFormed false am) (h : am.assembleMoveDst = some (f, ws)) :
    f.toNat = 64 * (eaOf am).1 + 512 * (eaOf am).2 ∧ (eaOf am).1 < 8 ∧ (eaOf am).2 < 8 ∧ ws = (am.assemble false).2 ∧ ∀ p, placedAt p am = am := by
  have key : ∀ (k : Fin 8), ∀ m : Fin 7, ((toU16 (BitVec.ofNat 8 k.val) <<< 9 ||| BitVec.ofNat 16 m.val <<< 6) : U16).toNat = 64 * m.val + 512 * (BitVec.ofNat 8 k.val).toNat ∧
      m.val < 8 ∧ (BitVec.ofNat 8 k.val).toNat < 8 := by decide +kernel
  have key0 : ∀ (k : Fin 8), (toU16 (BitVec.ofNat 8 k.val) <<< 9 : U16).toNat = 64 * 0 + 512 * (BitVec.ofNat 8 k.val).toNat ∧ 0 < 8 ∧ (BitVec.ofNat 8 k.val).toNat < 8 := by decide +kernel
  unfold AddressingMode.assembleMoveDst at h
  cases am with
  | Drd n => obtain ⟨k, rfl⟩ := reg_fin hw; cases h; have := key0 k; exact ⟨this.1, this.2.1, this.2.2, rfl, fun _ => rfl⟩
  | Ard n => obtain ⟨k, rfl⟩ := reg_fin hw; cases h; have := key k 1; exact ⟨this.1, this.2.1, this.2.2, rfl, fun _ => rfl⟩
  | Ari n => obtain ⟨k, rfl⟩ := reg_fin hw; cases h; have := key k 2; exact ⟨this.1, this.2.1, this.2.2, rfl, fun _ => rfl⟩
  | Ariwpo n => obtain ⟨k, rfl⟩ := reg_fin hw; cases h; have := key k 3; exact ⟨this.1, this.2.1, this.2.2, rfl, fun _ => rfl⟩
  | Ariwpr n => obtain ⟨k, rfl⟩ := reg_fin hw; cases h; have := key k 4; exact ⟨this.1, this.2.1, this.2.2, rfl, fun _ => rfl⟩
  | Ariwd n d => obtain ⟨k, rfl⟩ := reg_fin hw; cases h; have := key k 5; exact ⟨this.1, this.2.1, this.2.2, rfl, fun _ => rfl⟩
  | Ariwi8 n d => obtain ⟨k, rfl⟩ := reg_fin hw; cases h; have := key k 6; exact ⟨this.1, this.2.1, this.2.2, rfl, fun _ => rfl⟩
  | AbsShort a => cases h; exact ⟨by simp only [eaOf]; decide, Nat.le_refl 8, by simp only [eaOf]; decide, rfl, fun _ => rfl⟩
  | AbsLong a => cases h; exact ⟨by simp only [eaOf]; decide, Nat.le_refl 8, by simp only [eaOf]; decide, rfl, fun _ => rfl⟩
  | Pciwd _ _ => cases h
  | Pciwi8 _ _ => cases h
  | Immediate _ => cases h

variable {M : Type} [MemoryAccess M] {it it' : Iter M}

theorem ea_feeds {am : AddressingMode} {size : Option Size} {long : Bool} (hw : WellFormed long am) (hs : (∃ v, am = .Immediate v) → ∃ sz, size = some sz ∧ long = sz.isLong)
    (h : Feeds it (am.assemble long).2 it') {op : U16} (ho : op.toNat % 64 = (am.assemble long).1.toNat) :
    AddressingMode.fromMemory (bits op 3 5) (toU8 (bits op 0 2)) size it = some (placedAt it.nextAddr am, it') := by
  obtain ⟨h1, h2, h3⟩ := assemble_field hw
  rw [h1] at ho
  refine fromMemory_feeds hw (fun he => hs ?_) ?_ ?_ h
  · cases am <;> first | exact ⟨_, rfl⟩ | (simp [eaOf] at he)
  · rw [bits35]; omega
  · rw [bits02]; omega

theorem dst_feeds {am : AddressingMode} {size : Option Size} {f : U16} {ws : List U16} (hw : WellFormed false am) (hf : am.assembleMoveDst = some (f, ws))
    (h : Feeds it ws it') {op : U16} (ho : op.toNat / 64 % 64 * 64 = f.toNat) :
    AddressingMode.fromMemory (bits op 6 8) (toU8 (bits op 9 11)) size it = some (am, it') := by
  obtain ⟨h1, h2, h3, h4, h5⟩ := moveDst_field hw hf
  subst h4
  rw [h1] at ho
  have hi := fromMemory_feeds (size := size) hw (fun he => ?_) (mode := bits op 6 8) (reg := toU8 (bits op 9 11)) ?_ ?_ h
  · rw [h5] at hi; exact hi
  · cases am <;> first | (simp [eaOf] at he; done) | (simp [AddressingMode.assembleMoveDst] at hf)
  · rw [bits68]; omega
  · rw [bits911]; omega

end M68k.Exec
