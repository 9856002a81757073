import Verif.Spec.Words
import Verif.Lemmas.Exec
/-
Decoding words from memory.
-/
set_option linter.unusedSectionVars false
namespace M68k.Exec
open Spec
variable {M : Type} [MemoryAccess M] {α β : Type} {it it' it2 : Iter M} {w : U16} {ws : List U16}

theorem feeds_cons : Feeds it (w :: ws) it' ↔ ∃ it1, it.next = .ok w it1 ∧ it1.nextAddr = it.nextAddr + 2 ∧ Feeds it1 ws it' := by
  constructor
  · rintro (_ | ⟨ho, hg, hf⟩)
    refine ⟨_, ?_, rfl, hf⟩
    unfold Iter.next
    rw [if_pos ((isEven_iff _).2 ho)]
    dsimp only
    rw [hg]
  · rintro ⟨it1, hn, ha, hf⟩
    unfold Iter.next at hn
    split at hn
    · rename_i he
      obtain ⟨m, a⟩ := it
      dsimp only at hn he
      split at hn
      · rename_i w' m' hg
        cases hn
        exact .cons ((isEven_iff _).1 he) hg hf
      · cases hn
      · cases hn
    · cases hn

theorem feeds_append {l l' : List U16} (h : Feeds it (l ++ l') it') : ∃ it1, Feeds it l it1 ∧ Feeds it1 l' it' := by
  induction l generalizing it with
  | nil => exact ⟨it, .nil it, h⟩
  | cons w l ih =>
    obtain ⟨it1, h1, h2, h3⟩ := feeds_cons.1 h
    obtain ⟨it2, h4, h5⟩ := ih h3
    exact ⟨it2, feeds_cons.2 ⟨it1, h1, h2, h4⟩, h5⟩

theorem Feeds.append {l l' : List U16} (h : Feeds it l it2) (h' : Feeds it2 l' it') : Feeds it (l ++ l') it' := by
  induction h with
  | nil => exact h'
  | cons ho hg _ ih => exact .cons ho hg (ih h')

theorem Feeds.addr (h : Feeds it ws it') : it'.nextAddr = it.nextAddr + BitVec.ofNat 32 (2 * ws.length) := by
  induction h with
  | nil => simp
  | cons _ _ _ ih =>
    rw [ih]
    dsimp only
    rw [List.length_cons, BitVec.add_assoc]
    congr 1
    apply BitVec.eq_of_toNat_eq
    rw [BitVec.toNat_add]
    simp only [BitVec.toNat_ofNat, show (2 : U32).toNat = 2 from rfl]
    omega

theorem nextWord_eq {it1 : Iter M} (h : it.next = .ok w it1) : (nextWord : Dec M U16) it = some (w, it1) := by
  unfold nextWord
  rw [h]

theorem dec_bind (x : Dec M α) (f : α → Dec M β) (it : Iter M) : (x >>= f) it = match x it with | some (a, it') => f a it' | none => none := rfl
theorem dec_map (x : Dec M α) (f : α → β) (it : Iter M) : (f <$> x) it = match x it with | some (a, it') => some (f a, it') | none => none := rfl
theorem dec_pure (a : α) (it : Iter M) : (pure a : Dec M α) it = some (a, it) := rfl
theorem dec_lift {a : α} (it : Iter M) : (Dec.lift (some a) : Dec M α) it = some (a, it) := rfl

theorem nextWord_feeds (h : Feeds it [w] it') : (nextWord : Dec M U16) it = some (w, it') := by
  obtain ⟨it1, h1, -, h2⟩ := feeds_cons.1 h
  cases h2
  exact nextWord_eq h1

theorem joinWords (v : U32) : (toU32 (toU16 (v >>> 16)) <<< 16 ||| toU32 (toU16 v) : U32) = v := by
  unfold toU32 toU16
  ext i hi
  simp only [BitVec.getElem_or, BitVec.getElem_shiftLeft, BitVec.getElem_setWidth, BitVec.getLsbD_setWidth, BitVec.getLsbD_ushiftRight]
  by_cases h : i < 16
  · simp [h, BitVec.getLsbD_eq_getElem hi]
  · simp only [h]
    have h1 : 16 + (i - 16) = i := by omega
    rw [h1]
    have h2 : i - 16 < 16 := by omega
    simp [h2, BitVec.getLsbD_eq_getElem hi]

theorem lowWord {v : U32} (h : v.toNat < 65536) : toU32 (toU16 v) = v := by
  unfold toU32 toU16
  apply BitVec.eq_of_toNat_eq
  simp only [BitVec.toNat_setWidth]
  have := v.isLt
  omega

theorem nextLong_feeds {v : U32} (h : Feeds it [toU16 (v >>> 16), toU16 v] it') : (nextLong : Dec M U32) it = some (v, it') := by
  obtain ⟨it1, h1, -, h2⟩ := feeds_cons.1 h
  unfold nextLong
  rw [dec_bind, nextWord_eq h1]
  dsimp only
  rw [dec_bind, nextWord_feeds h2]
  dsimp only
  rw [joinWords]
  rfl

/-- An effective address field of an opcode: the mode and register fields that `assemble` puts in the low six bits. -/
def eaOf : AddressingMode → Nat × Nat
  | .Drd n => (0, n.toNat)
  | .Ard n => (1, n.toNat)
  | .Ari n => (2, n.toNat)
  | .Ariwpo n => (3, n.toNat)
  | .Ariwpr n => (4, n.toNat)
  | .Ariwd n _ => (5, n.toNat)
  | .Ariwi8 n _ => (6, n.toNat)
  | .AbsShort _ => (7, 0)
  | .AbsLong _ => (7, 1)
  | .Pciwd _ _ => (7, 2)
  | .Pciwi8 _ _ => (7, 3)
  | .Immediate _ => (7, 4)

/-- The words of an addressing mode are decoded to it. -/
theorem fromMemory_feeds {am : AddressingMode} {size : Option Size} {long : Bool} (hw : WellFormed long am) (hs : (eaOf am) = (7, 4) → ∃ sz, size = some sz ∧ long = sz.isLong)
    {mode : U16} {reg : U8} (hm : mode.toNat = (eaOf am).1) (hr : reg.toNat = (eaOf am).2) (h : Feeds it (am.assemble long).2 it') :
    AddressingMode.fromMemory mode reg size it = some (placedAt it.nextAddr am, it') := by
  unfold AddressingMode.fromMemory
  have hreg : ∀ n : U8, reg.toNat = n.toNat → reg = n := fun n h => BitVec.eq_of_toNat_eq h
  cases am with
  | Drd n => cases h; rw [hm]; dsimp only [eaOf]; rw [hreg n hr]; rfl
  | Ard n => cases h; rw [hm]; dsimp only [eaOf]; rw [hreg n hr]; rfl
  | Ari n => cases h; rw [hm]; dsimp only [eaOf]; rw [hreg n hr]; rfl
  | Ariwpo n => cases h; rw [hm]; dsimp only [eaOf]; rw [hreg n hr]; rfl
  | Ariwpr n => cases h; rw [hm]; dsimp only [eaOf]; rw [hreg n hr]; rfl
  | Ariwd n d => rw [hm]; dsimp only [eaOf]; show (nextWord >>= _) it = _; rw [dec_bind, nextWord_feeds h, hreg n hr]; rfl
  | Ariwi8 n x => rw [hm]; dsimp only [eaOf]; show (nextWord >>= _) it = _; rw [dec_bind, nextWord_feeds h, hreg n hr]; rfl
  | AbsShort a => rw [hm, hr]; dsimp only [eaOf]; show (nextWord >>= _) it = _; rw [dec_bind, nextWord_feeds h]; rfl
  | AbsLong a => rw [hm, hr]; dsimp only [eaOf]; show (nextLong >>= _) it = _; rw [dec_bind, nextLong_feeds h]; rfl
  | Pciwd p d => rw [hm, hr]; dsimp only [eaOf]; show (nextWord >>= _) it = _; rw [dec_bind, nextWord_feeds h]; rfl
  | Pciwi8 p x => rw [hm, hr]; dsimp only [eaOf]; show (nextWord >>= _) it = _; rw [dec_bind, nextWord_feeds h]; rfl
  | Immediate v =>
    rw [hm, hr]
    obtain ⟨sz, rfl, hl⟩ := hs rfl
    dsimp only [eaOf]
    have hnl : sz ≠ .Long → Feeds it [toU16 v] it' ∧ v.toNat < 65536 := by
      intro hne
      have hf : long = false := by rw [hl]; cases sz <;> first | rfl | exact absurd rfl hne
      subst hf
      refine ⟨?_, hw.resolve_left (by decide)⟩
      unfold AddressingMode.assemble at h
      dsimp only at h
      exact h
    cases sz with
    | Long =>
      have hf : long = true := hl
      subst hf
      have h : Feeds it [toU16 (v >>> 16), toU16 v] it' := h
      show (nextLong >>= _) it = _
      rw [dec_bind, nextLong_feeds h]
      rfl
    | Word =>
      obtain ⟨h1, h2⟩ := hnl (by decide)
      show (nextWord >>= _) it = _
      rw [dec_bind, nextWord_feeds h1]
      exact congrArg (fun x => some (AddressingMode.Immediate x, it')) (lowWord h2)
    | Byte =>
      obtain ⟨h1, h2⟩ := hnl (by decide)
      show (nextWord >>= _) it = _
      rw [dec_bind, nextWord_feeds h1]
      exact congrArg (fun x => some (AddressingMode.Immediate x, it')) (lowWord h2)

theorem reg_fin {n : U8} (h : n.toNat ≤ 7) : ∃ k : Fin 8, n = BitVec.ofNat 8 k.val := ⟨⟨n.toNat, by omega⟩, by simp⟩

/-- The low six bits of the effective address field. -/
theorem assemble_field {am : AddressingMode} {long : Bool} (hw : WellFormed long am) :
    (am.assemble long).1.toNat = 8 * (eaOf am).1 + (eaOf am).2 ∧ (eaOf am).1 < 8 ∧ (eaOf am).2 < 8 := by
  have key : ∀ (k : Fin 8), ∀ m : Fin 7, ((BitVec.ofNat 16 m.val <<< 3 ||| toU16 (BitVec.ofNat 8 k.val)) : U16).toNat = 8 * m.val + (BitVec.ofNat 8 k.val).toNat ∧
      m.val < 8 ∧ (BitVec.ofNat 8 k.val).toNat < 8 := by decide +kernel
  have key0 : ∀ (k : Fin 8), (toU16 (BitVec.ofNat 8 k.val) : U16).toNat = 8 * 0 + (BitVec.ofNat 8 k.val).toNat ∧ 0 < 8 ∧ (BitVec.ofNat 8 k.val).toNat < 8 := by decide +kernel
  cases am with
  | Drd n => obtain ⟨k, rfl⟩ := reg_fin hw; exact key0 k
  | Ard n => obtain ⟨k, rfl⟩ := reg_fin hw; exact key k 1
  | Ari n => obtain ⟨k, rfl⟩ := reg_fin hw; exact key k 2
  | Ariwpo n => obtain ⟨k, rfl⟩ := reg_fin hw; exact key k 3
  | Ariwpr n => obtain ⟨k, rfl⟩ := reg_fin hw; exact key k 4
  | Ariwd n _ => obtain ⟨k, rfl⟩ := reg_fin hw; exact key k 5
  | Ariwi8 n _ => obtain ⟨k, rfl⟩ := reg_fin hw; exact key k 6
  | AbsShort _ => exact ⟨by simp only [AddressingMode.assemble, eaOf]; decide, Nat.le_refl 8, by simp only [eaOf]; decide⟩
  | AbsLong _ => exact ⟨by simp only [AddressingMode.assemble, eaOf]; decide, Nat.le_refl 8, by simp only [eaOf]; decide⟩
  | Pciwd _ _ => exact ⟨by simp only [AddressingMode.assemble, eaOf]; decide, Nat.le_refl 8, by simp only [eaOf]; decide⟩
  | Pciwi8 _ _ => exact ⟨by simp only [AddressingMode.assemble, eaOf]; decide, Nat.le_refl 8, by simp only [eaOf]; decide⟩
  | Immediate v => cases long <;> exact ⟨by simp [AddressingMode.assemble, eaOf], Nat.le_refl 8, by simp only [eaOf]; decide⟩

end M68k.Exec
