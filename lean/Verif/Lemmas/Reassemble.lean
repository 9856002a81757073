import Verif.Lemmas.Form
import Verif.Lemmas.Decoded
import Verif.Lemmas.AsmFixed
import Verif.Spec.Reassemble
/-
Assembling a decoded instruction yields its words.
-/
set_option linter.unusedSectionVars false
namespace M68k.Exec
open Spec Decode
variable {op : U16} {ws : List U16} {pc : U32} {L m r imm : Nat} {long : Bool} {modes regs : List Nat}

theorem toU16_join (hi lo : U16) : toU16 ((hi ++ lo : U32) >>> 16) = hi ∧ toU16 (hi ++ lo : U32) = lo := by
  constructor
  · apply BitVec.eq_of_toNat_eq
    simp only [toU16, BitVec.toNat_setWidth, BitVec.toNat_ushiftRight, BitVec.toNat_append, Nat.shiftRight_eq_div_pow, Nat.shiftLeft_eq]
    have h1 := hi.isLt
    have h2 := lo.isLt
    rw [show (hi.toNat * 2 ^ 16 ||| lo.toNat) = hi.toNat * 2 ^ 16 + lo.toNat from by rw [Nat.mul_comm]; exact (Nat.two_pow_add_eq_or_of_lt h2 _).symm]
    omega
  · apply BitVec.eq_of_toNat_eq
    simp only [toU16, BitVec.toNat_setWidth, BitVec.toNat_append, Nat.shiftLeft_eq]
    have h1 := hi.isLt
    have h2 := lo.isLt
    rw [show (hi.toNat * 2 ^ 16 ||| lo.toNat) = hi.toNat * 2 ^ 16 + lo.toNat from by rw [Nat.mul_comm]; exact (Nat.two_pow_add_eq_or_of_lt h2 _).symm]
    omega

theorem toU16_wide (w : U16) : toU16 (w.setWidth 32 : U32) = w := by
  apply BitVec.eq_of_toNat_eq
  simp only [toU16, BitVec.toNat_setWidth]
  have := w.isLt
  omega

theorem fieldTable : ∀ (m : Fin 8) (r : Fin 8), (BitVec.ofNat 16 m.val <<< 3 ||| toU16 (BitVec.ofNat 8 r.val) : U16) = BitVec.ofNat 16 (8 * m.val + r.val) := by decide +kernel

/-- An effective address is assembled to its field and its words. -/
theorem modeOf_assemble (hm : m < 8) (hr : r < 8) (hv : m = 7 → r ≤ 4) (hl : ws.length = eaWords imm m r) (hi : m = 7 → r = 4 → imm = if long then 2 else 1) :
    (modeOf pc m r ws).assemble long = (BitVec.ofNat 16 (8 * m + r), ws) := by
  have nil : eaWords imm m r = 0 → ws = [] := fun h => List.length_eq_zero_iff.1 (hl.trans h)
  have one : eaWords imm m r = 1 → ∃ w, ws = [w] := fun h => List.length_eq_one_iff.1 (hl.trans h)
  have two : eaWords imm m r = 2 → ∃ w w', ws = [w, w'] := fun h => by
    have h := hl.trans h
    match ws, h with
    | [w, w'], _ => exact ⟨w, w', rfl⟩
  have hf := fieldTable ⟨m, hm⟩ ⟨r, hr⟩
  match m, hm with
  | 0, _ => rw [nil rfl, ← hf]; simp [modeOf, AddressingMode.assemble]
  | 1, _ => rw [nil rfl, ← hf]; rfl
  | 2, _ => rw [nil rfl, ← hf]; rfl
  | 3, _ => rw [nil rfl, ← hf]; rfl
  | 4, _ => rw [nil rfl, ← hf]; rfl
  | 5, _ => obtain ⟨w, rfl⟩ := one rfl; rw [← hf]; rfl
  | 6, _ => obtain ⟨w, rfl⟩ := one rfl; rw [← hf]; rfl
  | 7, _ =>
    have hv := hv rfl
    match r, hv with
    | 0, _ => obtain ⟨w, rfl⟩ := one rfl; rfl
    | 1, _ =>
      obtain ⟨w, w', rfl⟩ := two rfl
      simp only [modeOf, AddressingMode.assemble, (toU16_join w w').1, (toU16_join w w').2]
      rfl
    | 2, _ => obtain ⟨w, rfl⟩ := one rfl; rfl
    | 3, _ => obtain ⟨w, rfl⟩ := one rfl; rfl
    | 4, _ =>
      have hi := hi rfl rfl
      cases long with
      | true =>
        obtain ⟨w, w', rfl⟩ := two (show eaWords imm 7 4 = 2 from hi)
        simp only [modeOf, AddressingMode.assemble, if_true, (toU16_join w w').1, (toU16_join w w').2]
        rfl
      | false =>
        obtain ⟨w, rfl⟩ := one (show eaWords imm 7 4 = 1 from hi)
        simp only [modeOf, AddressingMode.assemble, Bool.false_eq_true, if_false, toU16_wide]
        rfl

/-- It is of the modes that its fields say. -/
theorem modeOf_verify (hm : m < 8) (hr : r < 8) (hv : m = 7 → r ≤ 4) (hl : ws.length = eaWords imm m r) (hi : m = 7 → r = 4 → imm = 1 ∨ imm = 2)
    (h1 : modes.contains m = true) (h2 : m = 7 → regs.contains r = true) : (modeOf pc m r ws).verify modes regs = true := by
  have nil : eaWords imm m r = 0 → ws = [] := fun h => List.length_eq_zero_iff.1 (hl.trans h)
  have one : eaWords imm m r = 1 → ∃ w, ws = [w] := fun h => List.length_eq_one_iff.1 (hl.trans h)
  have two : eaWords imm m r = 2 → ∃ w w', ws = [w, w'] := fun h => by
    have h := hl.trans h
    match ws, h with
    | [w, w'], _ => exact ⟨w, w', rfl⟩
  have h7 : (decide (BitVec.ofNat 8 r ≤ (7 : U8))) = true := by
    apply decide_eq_true
    show (BitVec.ofNat 8 r).toNat ≤ 7
    rw [BitVec.toNat_ofNat]
    omega
  match m, hm with
  | 0, _ => rw [nil rfl]; simp only [modeOf, AddressingMode.verify, h7, h1, Bool.and_self]
  | 1, _ => rw [nil rfl]; simp only [modeOf, AddressingMode.verify, h7, h1, Bool.and_self]
  | 2, _ => rw [nil rfl]; simp only [modeOf, AddressingMode.verify, h7, h1, Bool.and_self]
  | 3, _ => rw [nil rfl]; simp only [modeOf, AddressingMode.verify, h7, h1, Bool.and_self]
  | 4, _ => rw [nil rfl]; simp only [modeOf, AddressingMode.verify, h7, h1, Bool.and_self]
  | 5, _ => obtain ⟨w, rfl⟩ := one rfl; simp only [modeOf, AddressingMode.verify, h7, h1, Bool.and_self]
  | 6, _ => obtain ⟨w, rfl⟩ := one rfl; simp only [modeOf, AddressingMode.verify, h7, h1, Bool.and_self]
  | 7, _ =>
    have hv := hv rfl
    have h2 := h2 rfl
    match r, hv with
    | 0, _ => obtain ⟨w, rfl⟩ := one rfl; simp only [modeOf, AddressingMode.verify, h1, h2, Bool.and_self]
    | 1, _ => obtain ⟨w, w', rfl⟩ := two rfl; simp only [modeOf, AddressingMode.verify, h1, h2, Bool.and_self]
    | 2, _ => obtain ⟨w, rfl⟩ := one rfl; simp only [modeOf, AddressingMode.verify, h1, h2, Bool.and_self]
    | 3, _ => obtain ⟨w, rfl⟩ := one rfl; simp only [modeOf, AddressingMode.verify, h1, h2, Bool.and_self]
    | 4, _ =>
      rcases hi rfl rfl with hi | hi
      · obtain ⟨w, rfl⟩ := one (show eaWords imm 7 4 = 1 from hi); simp only [modeOf, AddressingMode.verify, h1, h2, Bool.and_self]
      · obtain ⟨w, w', rfl⟩ := two (show eaWords imm 7 4 = 2 from hi); simp only [modeOf, AddressingMode.verify, h1, h2, Bool.and_self]

/-- Only the mode 1 is an address register. -/
theorem modeOf_isArd (h : m ≠ 1) : (modeOf pc m r ws).isArd = false := by
  unfold modeOf
  split <;> first | rfl | exact absurd rfl h

/-- An opcode is its high part and its effective address field. -/
theorem word_eq {x : U16} (hx : x.toNat = 64 * (op.toNat / 64)) : x ||| BitVec.ofNat 16 (8 * (op.toNat / 8 % 8) + op.toNat % 8) = op := by
  have hop := op.isLt
  apply BitVec.eq_of_toNat_eq
  have he : (BitVec.ofNat 16 (8 * (op.toNat / 8 % 8) + op.toNat % 8)).toNat = 8 * (op.toNat / 8 % 8) + op.toNat % 8 := by
    rw [BitVec.toNat_ofNat]; omega
  rw [or_low (k := 6) (by omega) (by omega), hx, he]
  omega

theorem opSize_no (h : op.toNat / 64 % 4 ≠ 3) : sizeNo ((opSize op).getD .Byte) = op.toNat / 64 % 4 := by
  have h4 : op.toNat / 64 % 4 < 4 := Nat.mod_lt _ (by omega)
  unfold opSize
  match h' : op.toNat / 64 % 4, h4, h with
  | 0, _, _ => rfl
  | 1, _, _ => rfl
  | 2, _, _ => rfl
  | 3, _, h => exact absurd rfl h

theorem opSize_imm (h : op.toNat / 64 % 4 ≠ 3) : sizedImm op = if ((opSize op).getD .Byte).isLong then 2 else 1 := by
  have := opSize_no h
  unfold sizedImm
  rw [← this]
  cases (opSize op).getD .Byte <;> rfl

theorem moveOpSize_no (h : op.toNat / 4096 % 4 ≠ 0) : moveNo ((moveOpSize op).getD .Byte) = op.toNat / 4096 % 4 := by
  have h4 : op.toNat / 4096 % 4 < 4 := Nat.mod_lt _ (by omega)
  unfold moveOpSize
  match h' : op.toNat / 4096 % 4, h4, h with
  | 1, _, _ => rfl
  | 2, _, _ => rfl
  | 3, _, _ => rfl

theorem moveOpSize_imm (h : op.toNat / 4096 % 4 ≠ 0) : moveImm op = if ((moveOpSize op).getD .Byte).isLong then 2 else 1 := by
  have := moveOpSize_no h
  unfold moveImm
  rw [← this]
  cases (moveOpSize op).getD .Byte <;> rfl

/-! ### The formats with an effective address -/

theorem re_regDirSizeEa {dir : Direction} (hL : op.toNat / 4096 = L) (hs : op.toNat / 64 % 4 ≠ 3) (hd : op.toNat / 256 % 2 = if dir = .DstEa then 1 else 0)
    (hv : op.toNat / 8 % 8 = 7 → op.toNat % 8 ≤ 4) (hl : ws.length = opEaWords (sizedImm op) op) :
    Asm.registerDirectionSizeEffectiveAddress (BitVec.ofNat 16 L) (BitVec.ofNat 8 (op.toNat / 512 % 8)) dir ((opSize op).getD .Byte)
      (modeOf pc (op.toNat / 8 % 8) (op.toNat % 8) ws) = op :: ws := by
  have hop := op.isLt
  unfold Asm.registerDirectionSizeEffectiveAddress
  rw [modeOf_assemble (by omega) (by omega) hv hl fun _ _ => opSize_imm hs]
  have hn := opSize_no hs
  have hx := x_regDirSize ⟨L, by omega⟩ ⟨op.toNat / 512 % 8, by omega⟩ (decide (dir = .DstEa)) ⟨sizeNo ((opSize op).getD .Byte), sizeNo_lt _⟩
  simp only [decide_eq_true_eq, ← intoU16_eq] at hx
  exact congrArg (· :: ws) (word_eq (by rw [hx, hn]; omega))

theorem re_regSizeEa (hL : op.toNat / 4096 = L) (hs : op.toNat / 64 % 4 = 3)
    (hv : op.toNat / 8 % 8 = 7 → op.toNat % 8 ≤ 4) (hl : ws.length = opEaWords (if flag op 8 then 2 else 1) op) :
    Asm.registerSizeEffectiveAddress (BitVec.ofNat 16 L) (BitVec.ofNat 8 (op.toNat / 512 % 8)) (sizeBit op 8)
      (modeOf pc (op.toNat / 8 % 8) (op.toNat % 8) ws) = some (op :: ws) := by
  have hop := op.isLt
  have hx := x_regSize ⟨L, by omega⟩ ⟨op.toNat / 512 % 8, by omega⟩ (flag op 8)
  unfold Asm.registerSizeEffectiveAddress
  rw [modeOf_assemble (by omega) (by omega) hv hl fun _ _ => (by unfold sizeBit; cases flag op 8 <;> rfl)]
  have hb : (sizeBit op 8).intoBit = some (if flag op 8 then 1 else 0) := by unfold sizeBit; cases flag op 8 <;> rfl
  rw [hb]
  refine congrArg (fun w => some (w :: ws)) (word_eq ?_)
  have hf : (if flag op 8 = true then 1 else 0) = op.toNat / 256 % 2 := by
    unfold flag; by_cases h : op.toNat / 2 ^ 8 % 2 = 1 <;> simp [h] <;> omega
  rw [hx, hf]
  dsimp only
  omega

theorem re_sizeEa {H : Nat} (hH : op.toNat / 256 = H) (hs : op.toNat / 64 % 4 ≠ 3)
    (hv : op.toNat / 8 % 8 = 7 → op.toNat % 8 ≤ 4) (hl : ws.length = opEaWords (sizedImm op) op) :
    Asm.sizeEffectiveAddress (BitVec.ofNat 16 H) ((opSize op).getD .Byte) (modeOf pc (op.toNat / 8 % 8) (op.toNat % 8) ws) = op :: ws := by
  have hop := op.isLt
  unfold Asm.sizeEffectiveAddress
  rw [modeOf_assemble (by omega) (by omega) hv hl fun _ _ => opSize_imm hs]
  have hn := opSize_no hs
  have hx := x_size ⟨H, by omega⟩ ⟨sizeNo ((opSize op).getD .Byte), sizeNo_lt _⟩
  simp only [← intoU16_eq] at hx
  exact congrArg (· :: ws) (word_eq (by rw [hx, hn]; omega))

theorem re_ea {Q : Nat} (hQ : op.toNat / 64 = Q) (hv : op.toNat / 8 % 8 = 7 → op.toNat % 8 ≤ 4) (hl : ws.length = opEaWords imm op) (hi : op.toNat / 8 % 8 = 7 → op.toNat % 8 = 4 → imm = 1) :
    Asm.effectiveAddress (BitVec.ofNat 16 Q) (modeOf pc (op.toNat / 8 % 8) (op.toNat % 8) ws) = op :: ws := by
  have hop := op.isLt
  unfold Asm.effectiveAddress
  rw [modeOf_assemble (long := false) (by omega) (by omega) hv hl fun h1 h2 => hi h1 h2]
  exact congrArg (· :: ws) (word_eq (by rw [x_ea ⟨Q, by omega⟩, hQ]))

theorem re_eaCount {Q : Nat} {w : U16} (hQ : op.toNat / 64 = Q) (hv : op.toNat / 8 % 8 = 7 → op.toNat % 8 ≤ 4) (hl : ws.length = opEaWords 1 op) :
    Asm.effectiveAddressCount (BitVec.ofNat 16 Q) (modeOf pc (op.toNat / 8 % 8) (op.toNat % 8) ws) (w.setWidth 8) = op :: (w &&& 0xFF) :: ws := by
  have hop := op.isLt
  unfold Asm.effectiveAddressCount
  rw [modeOf_assemble (by omega) (by omega) hv hl fun _ _ => rfl]
  have hc : toU16 (w.setWidth 8 : U8) = w &&& 0xFF := by
    apply BitVec.eq_of_toNat_eq
    simp only [toU16, BitVec.toNat_setWidth, BitVec.toNat_and]
    rw [show (0xFF : U16).toNat = 2 ^ 8 - 1 from rfl, Nat.and_two_pow_sub_one_eq_mod]
    omega
  rw [hc]
  exact congrArg (· :: (w &&& 0xFF) :: ws) (word_eq (by rw [x_ea ⟨Q, by omega⟩, hQ]))

theorem re_regEa {t : Nat} (hL : op.toNat / 4096 = L) (ht : op.toNat / 64 % 8 = t) (hv : op.toNat / 8 % 8 = 7 → op.toNat % 8 ≤ 4) (hl : ws.length = opEaWords imm op)
    (hi : op.toNat / 8 % 8 = 7 → op.toNat % 8 = 4 → imm = 1) :
    Asm.registerEffectiveAddress (BitVec.ofNat 16 L) (toU16 (BitVec.ofNat 8 (op.toNat / 512 % 8))) (BitVec.ofNat 16 t) (modeOf pc (op.toNat / 8 % 8) (op.toNat % 8) ws) = op :: ws := by
  have hop := op.isLt
  unfold Asm.registerEffectiveAddress
  rw [modeOf_assemble (long := false) (by omega) (by omega) hv hl fun h1 h2 => hi h1 h2]
  exact congrArg (· :: ws) (word_eq (by rw [x_regEa ⟨L, by omega⟩ ⟨op.toNat / 512 % 8, by omega⟩ ⟨t, by omega⟩]; dsimp only; omega))

theorem re_dataSizeEa {b : Nat} (hL : op.toNat / 4096 = 5) (hb : op.toNat / 256 % 2 = b) (hs : op.toNat / 64 % 4 ≠ 3)
    (hv : op.toNat / 8 % 8 = 7 → op.toNat % 8 ≤ 4) (hl : ws.length = opEaWords (sizedImm op) op) :
    Asm.dataSizeEffectiveAddress (BitVec.ofNat 8 (op.toNat / 512 % 8)) (BitVec.ofNat 16 b) ((opSize op).getD .Byte)
      (modeOf pc (op.toNat / 8 % 8) (op.toNat % 8) ws) = op :: ws := by
  have hop := op.isLt
  unfold Asm.dataSizeEffectiveAddress
  rw [modeOf_assemble (by omega) (by omega) hv hl fun _ _ => opSize_imm hs]
  have hn := opSize_no hs
  have hx := x_data ⟨op.toNat / 512 % 8, by omega⟩ ⟨b, by omega⟩ ⟨sizeNo ((opSize op).getD .Byte), sizeNo_lt _⟩
  simp only [← intoU16_eq] at hx
  exact congrArg (· :: ws) (word_eq (by rw [hx, hn]; omega))

theorem re_dirEa {r : Nat} (hr : r < 4) (hq : op.toNat / 512 = 0b1110000 + r) (hs : op.toNat / 64 % 4 = 3)
    (hv : op.toNat / 8 % 8 = 7 → op.toNat % 8 ≤ 4) (hl : ws.length = opEaWords 1 op) :
    Asm.directionEffectiveAddress (BitVec.ofNat 16 (0b1110000 + r)) (if flag op 8 then .Left else .Right) 0b11
      (modeOf pc (op.toNat / 8 % 8) (op.toNat % 8) ws) = op :: ws := by
  have hop := op.isLt
  unfold Asm.directionEffectiveAddress
  rw [modeOf_assemble (by omega) (by omega) hv hl fun _ _ => rfl]
  have hx := x_dir ⟨r, hr⟩ (flag op 8)
  have hf : (if flag op 8 = true then 1 else 0) = op.toNat / 256 % 2 := by
    unfold flag; by_cases h : op.toNat / 2 ^ 8 % 2 = 1 <;> simp [h] <;> omega
  rw [hf] at hx
  cases hfl : flag op 8 with
  | true =>
    rw [hfl] at hx
    simp only [if_true] at hx ⊢
    refine congrArg (· :: ws) ?_
    rw [BitVec.or_assoc, BitVec.or_comm (BitVec.ofNat 16 (8 * (op.toNat / 8 % 8) + op.toNat % 8)) 256, ← BitVec.or_assoc]
    exact word_eq (by rw [hx]; omega)
  | false =>
    rw [hfl] at hx
    simp only [Bool.false_eq_true, if_false, BitVec.or_zero, reduceCtorEq] at hx ⊢
    exact congrArg (· :: ws) (word_eq (by rw [hx]; omega))

theorem re_sizeEaImm {H : Nat} {ws' : List U16} (hH : op.toNat / 256 = H) (hs : op.toNat / 64 % 4 ≠ 3) (hv : op.toNat / 8 % 8 = 7 → op.toNat % 8 ≤ 1)
    (h1 : ws.length = sizedImm op) (h2 : ws'.length = opEaWords (sizedImm op) op) :
    Asm.sizeEffectiveAddressImmediate (BitVec.ofNat 16 H) ((opSize op).getD .Byte) (modeOf pc (op.toNat / 8 % 8) (op.toNat % 8) ws') (dataOf ws) =
      if op.toNat / 64 % 4 = 0 then op :: lowByte (ws ++ ws') else op :: (ws ++ ws') := by
  have hop := op.isLt
  unfold Asm.sizeEffectiveAddressImmediate
  rw [modeOf_assemble (by omega) (by omega) (fun h => by have := hv h; omega) h2 fun _ _ => opSize_imm hs]
  have hn := opSize_no hs
  have hx := x_size ⟨H, by omega⟩ ⟨sizeNo ((opSize op).getD .Byte), sizeNo_lt _⟩
  simp only [← intoU16_eq] at hx
  have hw := word_eq (op := op) (hx.trans (by rw [hn]; omega))
  have h1' := opSize_imm hs
  dsimp only
  rw [hw]
  generalize (opSize op).getD .Byte = sz at hn h1'
  cases sz with
  | Byte =>
    obtain ⟨w, rfl⟩ := List.length_eq_one_iff.1 (h1.trans h1')
    rw [if_pos (show op.toNat / 64 % 4 = 0 from hn.symm)]
    have hc : toU16 ((w.setWidth 32 : U32) &&& 0xFF) = w &&& 0xFF := by
      apply BitVec.eq_of_toNat_eq
      simp only [toU16, BitVec.toNat_setWidth, BitVec.toNat_and]
      rw [show (0xFF : U16).toNat = 2 ^ 8 - 1 from rfl, show (0xFF : U32).toNat = 2 ^ 8 - 1 from rfl, Nat.and_two_pow_sub_one_eq_mod, Nat.and_two_pow_sub_one_eq_mod]
      omega
    show [op, toU16 ((w.setWidth 32 : U32) &&& 0xFF)] ++ ws' = _
    rw [hc]
    rfl
  | Word =>
    obtain ⟨w, rfl⟩ := List.length_eq_one_iff.1 (h1.trans h1')
    rw [if_neg (show ¬ op.toNat / 64 % 4 = 0 by rw [← hn]; decide)]
    show [op, toU16 (w.setWidth 32 : U32)] ++ ws' = _
    rw [toU16_wide]
    rfl
  | Long =>
    have h1 : ws.length = 2 := h1.trans h1'
    match ws, h1 with
    | [w, w'], _ =>
      rw [if_neg (show ¬ op.toNat / 64 % 4 = 0 by rw [← hn]; decide)]
      show [op, toU16 ((w ++ w' : U32) >>> 16), toU16 (w ++ w' : U32)] ++ ws' = _
      rw [(toU16_join w w').1, (toU16_join w w').2]
      rfl

theorem dstTable : ∀ (m : Fin 8) (r : Fin 8), (toU16 (BitVec.ofNat 8 r.val) <<< 9 ||| BitVec.ofNat 16 m.val <<< 6 : U16) = BitVec.ofNat 16 (512 * r.val + 64 * m.val) := by decide +kernel

theorem modeOf_assembleMoveDst (hm : m < 8) (hr : r < 8) (hv : m = 7 → r ≤ 1) (hl : ws.length = eaWords imm m r) :
    (modeOf pc m r ws).assembleMoveDst = some (BitVec.ofNat 16 (512 * r + 64 * m), ws) := by
  have nil : eaWords imm m r = 0 → ws = [] := fun h => List.length_eq_zero_iff.1 (hl.trans h)
  have one : eaWords imm m r = 1 → ∃ w, ws = [w] := fun h => List.length_eq_one_iff.1 (hl.trans h)
  have hf : (toU16 (BitVec.ofNat 8 r) <<< 9 ||| BitVec.ofNat 16 m <<< 6 : U16) = BitVec.ofNat 16 (512 * r + 64 * m) := dstTable ⟨m, hm⟩ ⟨r, hr⟩
  rw [← hf]
  clear hf
  match m, hm with
  | 0, _ => rw [nil rfl]; simp [modeOf, AddressingMode.assembleMoveDst]
  | 1, _ => rw [nil rfl]; rfl
  | 2, _ => rw [nil rfl]; rfl
  | 3, _ => rw [nil rfl]; rfl
  | 4, _ => rw [nil rfl]; rfl
  | 5, _ => obtain ⟨w, rfl⟩ := one rfl; rfl
  | 6, _ => obtain ⟨w, rfl⟩ := one rfl; rfl
  | 7, _ =>
    have hv := hv rfl
    match r, hv with
    | 0, _ => obtain ⟨w, rfl⟩ := one rfl; rfl
    | 1, _ =>
      match ws, hl with
      | [w, w'], _ =>
        simp only [modeOf, AddressingMode.assembleMoveDst, (toU16_join w w').1, (toU16_join w w').2]
        rfl

theorem x_move : ∀ (s : Fin 3) (r m : Fin 8), ((([1, 3, 2] : List U16).getD s.val 0) <<< 12 ||| BitVec.ofNat 16 (512 * r.val + 64 * m.val) : U16).toNat =
    4096 * (([1, 3, 2] : List Nat).getD s.val 0) + 512 * r.val + 64 * m.val := by decide +kernel

theorem re_move {dws : List U16} {pc' : U32} (hL : op.toNat / 4096 < 4) (hs : op.toNat / 4096 % 4 ≠ 0) (hv : op.toNat / 8 % 8 = 7 → op.toNat % 8 ≤ 4)
    (hd : op.toNat / 64 % 8 = 7 → op.toNat / 512 % 8 ≤ 1) (h1 : ws.length = opEaWords (moveImm op) op) (h2 : dws.length = eaWords (moveImm op) (op.toNat / 64 % 8) (op.toNat / 512 % 8)) :
    Asm.sizeEffectiveAddressEffectiveAddress ((moveOpSize op).getD .Byte) (modeOf pc' (op.toNat / 64 % 8) (op.toNat / 512 % 8) dws)
      (modeOf pc (op.toNat / 8 % 8) (op.toNat % 8) ws) = some (op :: (ws ++ dws)) := by
  have hop := op.isLt
  unfold Asm.sizeEffectiveAddressEffectiveAddress
  rw [modeOf_assemble (by omega) (by omega) hv h1 fun _ _ => moveOpSize_imm hs, modeOf_assembleMoveDst (by omega) (by omega) hd h2]
  have hn := moveOpSize_no hs
  refine congrArg (fun w => some (w :: (ws ++ dws))) (word_eq ?_)
  generalize (moveOpSize op).getD .Byte = sz at hn
  have key : ∀ s : Fin 3, (([1, 3, 2] : List U16).getD s.val 0) = sz.intoMove → (([1, 3, 2] : List Nat).getD s.val 0) = moveNo sz → (sz.intoMove <<< 12 ||| BitVec.ofNat 16 (512 * (op.toNat / 512 % 8) + 64 * (op.toNat / 64 % 8)) : U16).toNat = 64 * (op.toNat / 64) := by
    intro s e1 e2
    have := x_move s ⟨op.toNat / 512 % 8, by omega⟩ ⟨op.toNat / 64 % 8, by omega⟩
    rw [e1, e2, hn] at this
    rw [this]
    dsimp only
    omega
  cases sz with
  | Byte => exact key 0 rfl rfl
  | Word => exact key 1 rfl rfl
  | Long => exact key 2 rfl rfl

/-! ### The assertions -/

theorem guard_then {α : Type} {p : Prop} [Decidable p] {f : Unit → Option α} (h : p) : (guard p >>= f) = f () := by
  show ((if p then pure () else failure) >>= f) = _
  rw [if_pos h]
  rfl

theorem reg_ok (n : Nat) : BitVec.ofNat 8 (n % 8) ≤ (7 : U8) := by
  show (BitVec.ofNat 8 (n % 8)).toNat ≤ 7
  rw [BitVec.toNat_ofNat]
  omega

theorem ok_dataAlterable (hm : m < 8) (hr : r < 8) (h1 : m ≠ 1) (hv : m = 7 → r ≤ 1) (hl : ws.length = eaWords imm m r) : (modeOf pc m r ws).verify Asm.MODES_0234567 [0, 1] = true := by
  refine modeOf_verify hm hr (fun h => by have := hv h; omega) hl (fun h => by have := hv h; omega) ?_ fun h => ?_
  · have : ∀ m : Fin 8, m.val ≠ 1 → Asm.MODES_0234567.contains m.val = true := by decide
    exact this ⟨m, hm⟩ h1
  · have : ∀ r : Fin 8, r.val ≤ 1 → [0, 1].contains r.val = true := by decide
    exact this ⟨r, hr⟩ (hv h)
theorem ok_memoryAlterable (hm : m < 8) (hr : r < 8) (h1 : 2 ≤ m) (hv : m = 7 → r ≤ 1) (hl : ws.length = eaWords imm m r) : (modeOf pc m r ws).verify Asm.MODES_234567 [0, 1] = true := by
  refine modeOf_verify hm hr (fun h => by have := hv h; omega) hl (fun h => by have := hv h; omega) ?_ fun h => ?_
  · have : ∀ m : Fin 8, 2 ≤ m.val → Asm.MODES_234567.contains m.val = true := by decide
    exact this ⟨m, hm⟩ h1
  · have : ∀ r : Fin 8, r.val ≤ 1 → [0, 1].contains r.val = true := by decide
    exact this ⟨r, hr⟩ (hv h)
theorem ok_alterable (hm : m < 8) (hr : r < 8) (hv : m = 7 → r ≤ 1) (hl : ws.length = eaWords imm m r) : (modeOf pc m r ws).verify Asm.MODES_01234567 [0, 1] = true := by
  refine modeOf_verify hm hr (fun h => by have := hv h; omega) hl (fun h => by have := hv h; omega) ?_ fun h => ?_
  · have : ∀ m : Fin 8, Asm.MODES_01234567.contains m.val = true := by decide
    exact this ⟨m, hm⟩
  · have : ∀ r : Fin 8, r.val ≤ 1 → [0, 1].contains r.val = true := by decide
    exact this ⟨r, hr⟩ (hv h)
theorem ok_data (hm : m < 8) (hr : r < 8) (h1 : m ≠ 1) (hv : m = 7 → r ≤ 4) (hl : ws.length = eaWords imm m r) (hi : imm = 1 ∨ imm = 2) :
    (modeOf pc m r ws).verify Asm.MODES_0234567 [0, 1, 2, 3, 4] = true := by
  refine modeOf_verify hm hr hv hl (fun _ _ => hi) ?_ fun h => ?_
  · have : ∀ m : Fin 8, m.val ≠ 1 → Asm.MODES_0234567.contains m.val = true := by decide
    exact this ⟨m, hm⟩ h1
  · have : ∀ r : Fin 8, r.val ≤ 4 → [0, 1, 2, 3, 4].contains r.val = true := by decide
    exact this ⟨r, hr⟩ (hv h)
theorem ok_any (hm : m < 8) (hr : r < 8) (hv : m = 7 → r ≤ 4) (hl : ws.length = eaWords imm m r) (hi : imm = 1 ∨ imm = 2) :
    (modeOf pc m r ws).verify Asm.MODES_01234567 [0, 1, 2, 3, 4] = true := by
  refine modeOf_verify hm hr hv hl (fun _ _ => hi) ?_ fun h => ?_
  · have : ∀ m : Fin 8, Asm.MODES_01234567.contains m.val = true := by decide
    exact this ⟨m, hm⟩
  · have : ∀ r : Fin 8, r.val ≤ 4 → [0, 1, 2, 3, 4].contains r.val = true := by decide
    exact this ⟨r, hr⟩ (hv h)
theorem ok_control (hm : m < 8) (hr : r < 8) (h1 : 2 ≤ m ∧ m ≠ 3 ∧ m ≠ 4) (hv : m = 7 → r ≤ 3) (hl : ws.length = eaWords imm m r) : (modeOf pc m r ws).verify Asm.MODES_2567 [0, 1, 2, 3] = true := by
  refine modeOf_verify hm hr (fun h => by have := hv h; omega) hl (fun h => by have := hv h; omega) ?_ fun h => ?_
  · have : ∀ m : Fin 8, 2 ≤ m.val ∧ m.val ≠ 3 ∧ m.val ≠ 4 → Asm.MODES_2567.contains m.val = true := by decide
    exact this ⟨m, hm⟩ h1
  · have : ∀ r : Fin 8, r.val ≤ 3 → [0, 1, 2, 3].contains r.val = true := by decide
    exact this ⟨r, hr⟩ (hv h)
theorem ok_load (hm : m < 8) (hr : r < 8) (h1 : 2 ≤ m ∧ m ≠ 4) (hv : m = 7 → r ≤ 3) (hl : ws.length = eaWords imm m r) : (modeOf pc m r ws).verify [2, 3, 5, 6, 7] [0, 1, 2, 3] = true := by
  refine modeOf_verify hm hr (fun h => by have := hv h; omega) hl (fun h => by have := hv h; omega) ?_ fun h => ?_
  · have : ∀ m : Fin 8, 2 ≤ m.val ∧ m.val ≠ 4 → [2, 3, 5, 6, 7].contains m.val = true := by decide
    exact this ⟨m, hm⟩ h1
  · have : ∀ r : Fin 8, r.val ≤ 3 → [0, 1, 2, 3].contains r.val = true := by decide
    exact this ⟨r, hr⟩ (hv h)
theorem ok_store (hm : m < 8) (hr : r < 8) (h1 : 2 ≤ m ∧ m ≠ 3) (hv : m = 7 → r ≤ 1) (hl : ws.length = eaWords imm m r) : (modeOf pc m r ws).verify [2, 4, 5, 6, 7] [0, 1] = true := by
  refine modeOf_verify hm hr (fun h => by have := hv h; omega) hl (fun h => by have := hv h; omega) ?_ fun h => ?_
  · have : ∀ m : Fin 8, 2 ≤ m.val ∧ m.val ≠ 3 → [2, 4, 5, 6, 7].contains m.val = true := by decide
    exact this ⟨m, hm⟩ h1
  · have : ∀ r : Fin 8, r.val ≤ 1 → [0, 1].contains r.val = true := by decide
    exact this ⟨r, hr⟩ (hv h)

end M68k.Exec
