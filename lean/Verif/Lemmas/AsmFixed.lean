import Verif.Lemmas.AsmShapes
/-
The assembled formats without an effective address, MOVE, MOVEM and Scc.
-/
set_option linter.unusedSectionVars false
namespace M68k.Exec
open Spec Decode
variable {op : U16} {ws : List U16} {isa : Isa} {am : AddressingMode} {size : Size} {reg reg' : U8} {L r b s : Nat} {M : Type} [MemoryAccess M] {it it' : Iter M}

theorem fin_of_le (h : reg ≤ 7) : ∃ k : Fin 8, reg = BitVec.ofNat 8 k.val := by
  have h : reg.toNat ≤ 7 := h
  exact ⟨⟨reg.toNat, by omega⟩, by simp⟩

theorem fin_of_le16 {w : U16} (h : w ≤ 7) : ∃ k : Fin 8, w = BitVec.ofNat 16 k.val := by
  have h : w.toNat ≤ 7 := h
  exact ⟨⟨w.toNat, by omega⟩, by simp⟩

/-- Tables over the fields of an opcode: the instruction and the fields that the decoder finds. -/
def rsmr (op : U16) (isa : Isa) (rx : Nat) (s : Nat) (m : Bool) (ry : Nat) : Bool :=
  instr op == isa && op.toNat / 512 % 8 == rx && op.toNat / 64 % 4 == s && op.toNat / 8 % 2 == (if m then 1 else 0) && op.toNat % 8 == ry

theorem asm_rsmr {k j : Fin 8} {mode : Direction} {size : Size} (h : rsmr op isa k.val (sizeNo size) (mode == .MemoryToMemory) j.val = true) (hu : isa ≠ .Unknown)
    (hm : mode = .RegisterToRegister ∨ mode = .MemoryToMemory)
    (hk : ∀ (M : Type) [MemoryAccess M], (isaEntryDecode isa : U16 → Dec M Operands) = newRegisterSizeModeRegister) :
    Decodes [op] isa fun _ => .RegisterSizeModeRegister (BitVec.ofNat 8 k.val) size mode (BitVec.ofNat 8 j.val) := by
  unfold rsmr at h
  simp only [Bool.and_eq_true, beq_iff_eq] at h
  obtain ⟨⟨⟨⟨h1, h2⟩, h3⟩, h4⟩, h5⟩ := h
  have hk8 : (BitVec.ofNat 8 k.val).toNat = k.val := by rw [BitVec.toNat_ofNat]; have := k.isLt; omega
  have hj8 : (BitVec.ofNat 8 j.val).toNat = j.val := by rw [BitVec.toNat_ofNat]; have := j.isLt; omega
  refine decodes_of h1 hu fun M _ it it' hf => ?_
  rw [hk]
  rw [d_regSizeModeReg (rx := BitVec.ofNat 8 k.val) (ry := BitVec.ofNat 8 j.val) (size := size) (mode := (mode == .MemoryToMemory)) (by rw [hk8]; exact h2) h3 (by simpa using h4) (by rw [hj8]; exact h5) hf]
  rcases hm with rfl | rfl <;> rfl

def rsr (op : U16) (isa : Isa) (rx : Nat) (s : Nat) (ry : Nat) : Bool :=
  instr op == isa && op.toNat / 512 % 8 == rx && op.toNat / 64 % 4 == s && op.toNat % 8 == ry

theorem asm_rsr {k j : Fin 8} {size : Size} (h : rsr op isa k.val (sizeNo size) j.val = true) (hu : isa ≠ .Unknown)
    (hk : ∀ (M : Type) [MemoryAccess M], (isaEntryDecode isa : U16 → Dec M Operands) = newRegisterSizeRegister) :
    Decodes [op] isa fun _ => .RegisterSizeRegister (BitVec.ofNat 8 k.val) size (BitVec.ofNat 8 j.val) := by
  unfold rsr at h
  simp only [Bool.and_eq_true, beq_iff_eq] at h
  obtain ⟨⟨⟨h1, h2⟩, h3⟩, h5⟩ := h
  have hk8 : (BitVec.ofNat 8 k.val).toNat = k.val := by rw [BitVec.toNat_ofNat]; have := k.isLt; omega
  have hj8 : (BitVec.ofNat 8 j.val).toNat = j.val := by rw [BitVec.toNat_ofNat]; have := j.isLt; omega
  refine decodes_of h1 hu fun M _ it it' hf => ?_
  rw [hk]
  exact d_regSizeReg (rx := BitVec.ofNat 8 k.val) (ry := BitVec.ofNat 8 j.val) (by rw [hk8]; exact h2) h3 (by rw [hj8]; exact h5) hf

def rot (op : U16) (isa : Isa) (rx : Nat) (d : Bool) (s : Nat) (m : Bool) (ry : Nat) : Bool :=
  instr op == isa && op.toNat / 512 % 8 == rx && op.toNat / 256 % 2 == (if d then 1 else 0) && op.toNat / 64 % 4 == s && op.toNat / 32 % 2 == (if m then 1 else 0) && op.toNat % 8 == ry

theorem asm_rot {k j : Fin 8} {dir : Direction} {m : Bool} {size : Size} (h : rot op isa k.val (dir == .Left) (sizeNo size) m j.val = true) (hu : isa ≠ .Unknown)
    (hd : dir = .Left ∨ dir = .Right)
    (hk : ∀ (M : Type) [MemoryAccess M], (isaEntryDecode isa : U16 → Dec M Operands) = newRotationDirectionSizeModeRegister) :
    Decodes [op] isa fun _ => .RotationDirectionSizeModeRegister (toU8 (BitVec.ofNat 16 k.val)) dir size m (toU8 (BitVec.ofNat 16 j.val)) := by
  unfold rot at h
  simp only [Bool.and_eq_true, beq_iff_eq] at h
  obtain ⟨⟨⟨⟨⟨h1, h2⟩, h6⟩, h3⟩, h4⟩, h5⟩ := h
  have hk8 : (toU8 (BitVec.ofNat 16 k.val)).toNat = k.val := by unfold toU8; rw [BitVec.toNat_setWidth, BitVec.toNat_ofNat]; have := k.isLt; omega
  have hj8 : (toU8 (BitVec.ofNat 16 j.val)).toNat = j.val := by unfold toU8; rw [BitVec.toNat_setWidth, BitVec.toNat_ofNat]; have := j.isLt; omega
  refine decodes_of h1 hu fun M _ it it' hf => ?_
  rw [hk]
  rw [d_rotation (rx := toU8 (BitVec.ofNat 16 k.val)) (ry := toU8 (BitVec.ofNat 16 j.val)) (size := size) (dir := (dir == .Left)) (by rw [hk8]; exact h2) (by simpa using h6) h3 h4 (by rw [hj8]; exact h5) hf]
  rcases hd with rfl | rfl <;> rfl

/-! ### Formats with at most one fixed extension word -/

theorem asm_none (h : instr op = isa) (hu : isa ≠ .Unknown)
    (hk : ∀ (M : Type) [MemoryAccess M], (isaEntryDecode isa : U16 → Dec M Operands) = newNoOperands) : Decodes [op] isa fun _ => .NoOperands := by
  refine decodes_of h hu fun M _ it it' hf => ?_
  cases hf
  rw [hk]
  rfl

theorem asm_imm {w : U16} (h : instr op = isa) (hu : isa ≠ .Unknown)
    (hk : ∀ (M : Type) [MemoryAccess M], (isaEntryDecode isa : U16 → Dec M Operands) = newImmediate) : Decodes [op, w] isa fun _ => .Immediate w := by
  refine decodes_of h hu fun M _ it it' hf => ?_
  rw [hk]
  unfold newImmediate Decode.immediate
  simp only [dec_bind, nextWord_feeds hf]
  rfl

theorem asm_reg {ops : Operands} (h : instr op = isa) (hu : isa ≠ .Unknown)
    (hk : ∀ (M : Type) [MemoryAccess M] (it : Iter M), isaEntryDecode isa op it = some (ops, it)) : Decodes [op] isa fun _ => ops := by
  refine decodes_of h hu fun M _ it it' hf => ?_
  cases hf
  exact hk M it

theorem asm_word {w : U16} {ops : Operands} (h : instr op = isa) (hu : isa ≠ .Unknown)
    (hk : ∀ (M : Type) [MemoryAccess M] (it it' : Iter M), nextWord it = some (w, it') → isaEntryDecode isa op it = some (ops, it')) : Decodes [op, w] isa fun _ => ops := by
  refine decodes_of h hu fun M _ it it' hf => ?_
  exact hk M it it' (nextWord_feeds hf)

/-! ### Scc, MOVEM, MOVE -/

def ccNo (c : Asm.Condition) : Fin 16 := ⟨c.ctorIdx, by cases c <;> decide⟩

theorem asm_scc {c : Asm.Condition} (hr : RegistersOk am) (ha : (eaOf am).1 = 7 → (eaOf am).2 ≤ 1) (hi : (eaField am).dataAlterable = true) :
    Decodes ((0b0101 <<< 12 ||| c.toU16 <<< 8 ||| 0b11 <<< 6 ||| (am.assemble false).1) :: (am.assemble false).2) .Scc fun _ => .ConditionEffectiveAddress (BitVec.ofNat 8 c.ctorIdx) am := by
  have hx : (0b0101 <<< 12 ||| c.toU16 <<< 8 ||| 0b11 <<< 6 : U16).toNat = 4096 * 5 + 512 * ((ccNo c).val / 2) + 256 * ((ccNo c).val % 2) + 64 * 3 := by
    cases c <;> decide
  have hlt := (ccNo c).isLt
  have f := fields_of (long := false) hr hx (by omega) (by omega) (by omega)
  refine decodes_of ?_ (by decide) fun M _ it it' hf => ?_
  · rw [f.map]
    have hm : (eaField am).mode ≠ 1 := by
      intro hc
      simp only [EaField.dataAlterable, EaField.data, Bool.and_eq_true, bne_iff_ne] at hi
      exact hi.1.2 hc
    simp [lineOf, line5, only, hm, hi]
  · show newConditionEffectiveAddress _ it = _
    have hcc : (BitVec.ofNat 8 c.ctorIdx).toNat = (ccNo c).val := by cases c <;> decide
    rw [d_condEa hr (cc := BitVec.ofNat 8 c.ctorIdx) (by rw [hcc]; have := f.reg; have := f.bit8; omega) (f.ea false) hf]
    rw [placed_alterable ha]

theorem v_movemLoad (h : am.verify [2, 3, 5, 6, 7] [0, 1, 2, 3] = true) : RegistersOk am ∧ ((eaField am).control = true ∨ (eaField am).mode = 3) ∧ ((eaOf am).1 = 7 → (eaOf am).2 ≤ 3) ∧ 2 ≤ (eaOf am).1 := by
  obtain ⟨h1, h2, h3⟩ := verify_ea h
  have h2 := mem_contains h2
  have h3 := fun e => mem_contains (h3 e)
  simp only [List.mem_cons, List.not_mem_nil, or_false] at h2 h3
  refine ⟨h1, ?_, fun e => by have := h3 e; omega, by omega⟩
  obtain ⟨e, he⟩ : ∃ e, e = eaField am := ⟨_, rfl⟩
  have hm : e.mode = (eaOf am).1 := by rw [he]; rfl
  have hn : e.reg = (eaOf am).2 := by rw [he]; rfl
  rw [← he]
  simp only [EaField.control, Bool.or_eq_true, Bool.and_eq_true, beq_iff_eq, decide_eq_true_eq]
  omega

theorem v_movemStore (h : am.verify [2, 4, 5, 6, 7] [0, 1] = true) : RegistersOk am ∧ ((eaField am).controlAlterable = true ∨ (eaField am).mode = 4) ∧ ((eaOf am).1 = 7 → (eaOf am).2 ≤ 1) ∧ 2 ≤ (eaOf am).1 := by
  obtain ⟨h1, h2, h3⟩ := verify_ea h
  have h2 := mem_contains h2
  have h3 := fun e => mem_contains (h3 e)
  simp only [List.mem_cons, List.not_mem_nil, or_false] at h2 h3
  refine ⟨h1, ?_, fun e => by have := h3 e; omega, by omega⟩
  obtain ⟨e, he⟩ : ∃ e, e = eaField am := ⟨_, rfl⟩
  have hm : e.mode = (eaOf am).1 := by rw [he]; rfl
  have hn : e.reg = (eaOf am).2 := by rw [he]; rfl
  rw [← he]
  simp only [EaField.controlAlterable, EaField.control, EaField.alterable, Bool.or_eq_true, Bool.and_eq_true, beq_iff_eq, decide_eq_true_eq]
  omega

theorem bitSix {n : Nat} {c : Bool} (h : n / 64 % 4 = if c then 3 else 2) : n / 2 ^ 6 % 2 = if c then 1 else 0 := by
  cases c <;> simp at h ⊢ <;> omega
theorem bitTen {n : Nat} {c : Bool} (h : n / 512 % 8 = if c then 6 else 4) : n / 2 ^ 10 % 2 = if c then 1 else 0 := by
  cases c <;> simp at h ⊢ <;> omega

theorem asm_movem {d : Bool} {mask : U16} (hb : size ≠ .Byte) (hr : RegistersOk am)
    (hi : ∀ op, Fields op 4 (if d then 6 else 4) 0 (if size.isLong then 3 else 2) am → instr op = .Movem) :
    Decodes ((0b01001 <<< 11 ||| (if d then 1 else 0 : U16) <<< 10 ||| 0b001 <<< 7 ||| (if size.isLong then 1 else 0 : U16) <<< 6 ||| (am.assemble size.isLong).1) :: mask :: (am.assemble size.isLong).2)
      .Movem fun pc => .DirectionSizeEffectiveAddressList (if d then .MemoryToRegister else .RegisterToMemory) size (placedAt (pc + 4) (held size.isLong am)) mask := by
  have hx : (0b01001 <<< 11 ||| (if d then 1 else 0 : U16) <<< 10 ||| 0b001 <<< 7 ||| (if size.isLong then 1 else 0 : U16) <<< 6 : U16).toNat =
      4096 * 4 + 512 * (if d then 6 else 4) + 256 * 0 + 64 * (if size.isLong then 3 else 2) := by
    cases d <;> cases size <;> decide
  have f := fields_of (long := size.isLong) hr hx (by cases d <;> decide) (by omega) (by cases size <;> decide)
  refine decodes_of (hi _ f) (by decide) fun M _ it it' hf => ?_
  show newDirectionSizeEffectiveAddressList _ it = _
  rw [d_movem hr (dir := d) hb (bitTen f.reg) (bitSix f.size) (f.ea _) hf, back4]

/-! ### MOVE and MOVEA -/

theorem move_fields {dst : AddressingMode} {f : U16} {dw : List U16} (hrd : RegistersOk dst) (hf : dst.assembleMoveDst = some (f, dw)) (hr : RegistersOk am) :
    Fields (size.intoMove <<< 12 ||| f ||| (am.assemble size.isLong).1) (moveNo size) (eaOf dst).2 ((eaOf dst).1 / 4) ((eaOf dst).1 % 4) am := by
  have hw : WellFormed false dst := by
    cases dst <;> first | exact hrd | (simp [AddressingMode.assembleMoveDst] at hf)
  obtain ⟨hd, h1, h2, -⟩ := moveDst_field hw hf
  have hs : (size.intoMove <<< 12).toNat = 4096 * moveNo size := by cases size <;> decide
  have hx : (size.intoMove <<< 12 ||| f).toNat = 4096 * moveNo size + f.toNat := by
    rw [← hs]
    exact or_low (k := 12) (by rw [hs]; omega) (by omega)
  exact fields_of hr (by rw [hx, hd]; omega) h2 (by omega) (by omega)

theorem moveNo_pos (size : Size) : 1 ≤ moveNo size ∧ moveNo size ≤ 3 := by cases size <;> decide

theorem lineOf_move {n : Nat} (e : EaField) (h : n = moveNo size) (op r : Nat) (b8 : Bool) (sz : Nat) :
    lineOf n op r b8 sz e = lineMove size.isByte e ⟨op / 64 % 8, r⟩ := by
  subst h
  cases size <;> rfl

end M68k.Exec
