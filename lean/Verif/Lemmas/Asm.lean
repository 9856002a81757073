import Verif.Lemmas.Takes
import Verif.Lemmas.OpcodeMap
/-
Decoding assembled words: the opcode fields and the operands of each kind.
-/
set_option linter.unusedSectionVars false
namespace M68k.Exec
open Spec Decode
variable {M : Type} [MemoryAccess M] {it it' it1 : Iter M} {op : U16} {ws : List U16} {isa : Isa} {am : AddressingMode} {size : Size}

/-! ### Guards -/

theorem guard_iff {α : Type} {p : Prop} [Decidable p] {f : Unit → Option α} {a : α} : (guard p >>= f) = some a ↔ p ∧ f () = some a := by
  by_cases h : p
  · simp [guard, h]
  · simp only [guard, if_neg h, h, false_and, iff_false]
    intro hc
    cases hc

/-! ### Opcode fields -/

theorem or_low {x f : U16} {k : Nat} (hx : x.toNat % 2 ^ k = 0) (hf : f.toNat < 2 ^ k) : (x ||| f).toNat = x.toNat + f.toNat := by
  rw [BitVec.toNat_or]
  have hd : x.toNat = 2 ^ k * (x.toNat / 2 ^ k) := by
    have := Nat.div_add_mod x.toNat (2 ^ k)
    omega
  rw [hd, Nat.two_pow_add_eq_or_of_lt hf]

/-- Number of a size in bits 7 and 6. -/
def sizeNo : Size → Nat
  | .Byte => 0
  | .Word => 1
  | .Long => 2

theorem size_dec (h : op.toNat / 64 % 4 = sizeNo size) : Size.fromU16 (bits op 6 7) = some size := by
  have hb : (bits op 6 7).toNat = op.toNat / 64 % 4 := bits_toNat op 6 1 (by omega)
  have hb : bits op 6 7 = BitVec.ofNat 16 (sizeNo size) := by
    apply BitVec.eq_of_toNat_eq
    rw [hb, h]
    cases size <;> rfl
  rw [hb]
  cases size <;> rfl

theorem reg9_dec {r : U8} (h : op.toNat / 512 % 8 = r.toNat) : toU8 (bits op 9 11) = r := BitVec.eq_of_toNat_eq ((bits911 op).trans h)
theorem reg0_dec {r : U8} (h : op.toNat % 8 = r.toNat) : toU8 (bits op 0 2) = r := BitVec.eq_of_toNat_eq ((bits02 op).trans h)
theorem bit_dec (b : Nat) (hb : b < 16) {c : Bool} (h : op.toNat / 2 ^ b % 2 = if c then 1 else 0) : bit op b = c := by
  rw [bit_flag op b hb]
  unfold flag
  rw [h]
  cases c <;> rfl

/-! ### The effective address field -/

theorem held_assemble (am : AddressingMode) (long : Bool) : (held long am).assemble long = am.assemble long := by
  cases am with
  | Immediate v =>
    cases long with
    | true => rfl
    | false =>
      simp only [held, AddressingMode.assemble]
      have : toU16 (v &&& 0xFFFF) = toU16 v := by
        unfold toU16
        apply BitVec.eq_of_toNat_eq
        simp only [BitVec.toNat_setWidth, BitVec.toNat_and]
        show (v.toNat &&& 65535) % _ = _
        rw [Nat.and_two_pow_sub_one_eq_mod v.toNat 16]
        omega
      simp only [Bool.false_eq_true, if_false, this]
  | _ => rfl

theorem held_wellFormed (long : Bool) (h : RegistersOk am) : WellFormed long (held long am) := by
  cases am with
  | Immediate v =>
    cases long with
    | true => exact .inl rfl
    | false =>
      right
      show (v &&& 0xFFFF).toNat < 65536
      rw [BitVec.toNat_and]
      show (v.toNat &&& 65535) < _
      rw [Nat.and_two_pow_sub_one_eq_mod v.toNat 16]
      omega
  | _ => exact h

theorem field_lt {long : Bool} (h : RegistersOk am) : (am.assemble long).1.toNat < 64 := by
  obtain ⟨h1, h2, h3⟩ := assemble_field (held_wellFormed long h)
  rw [held_assemble] at h1
  omega

theorem eaOf_held (long : Bool) (am : AddressingMode) : eaOf (held long am) = eaOf am := by cases am <;> rfl

/-- The field of the assembled mode. -/
theorem field_eq {long : Bool} (h : RegistersOk am) : (am.assemble long).1.toNat = 8 * (eaOf am).1 + (eaOf am).2 ∧ (eaOf am).1 < 8 ∧ (eaOf am).2 < 8 := by
  have := assemble_field (held_wellFormed long h)
  rwa [held_assemble, eaOf_held] at this

theorem dec_ea {sz : Option Size} {long : Bool} (hr : RegistersOk am) (hs : (eaOf am).1 = 7 → (eaOf am).2 = 4 → ∃ s, sz = some s ∧ long = s.isLong)
    (h : Feeds it (am.assemble long).2 it') (ho : op.toNat % 64 = (am.assemble long).1.toNat) :
    AddressingMode.fromMemory (bits op 3 5) (toU8 (bits op 0 2)) sz it = some (placedAt it.nextAddr (held long am), it') := by
  rw [← held_assemble] at h ho
  refine ea_feeds (held_wellFormed long hr) ?_ h ho
  rintro ⟨v, hv⟩
  have := eaOf_held long am
  rw [hv] at this
  exact hs (by rw [← this]; rfl) (by rw [← this]; rfl)

/-- The modes that `verify` accepts. -/
theorem verify_ea {modes regs : List Nat} (h : am.verify modes regs = true) :
    RegistersOk am ∧ modes.contains (eaOf am).1 = true ∧ ((eaOf am).1 = 7 → regs.contains (eaOf am).2 = true) := by
  have hle : ∀ r : U8, r ≤ 7 → r.toNat ≤ 7 := fun r h => h
  cases am <;> simp only [AddressingMode.verify, Bool.and_eq_true, decide_eq_true_eq] at h
  case AbsShort => exact ⟨trivial, h.1, fun _ => h.2⟩
  case AbsLong => exact ⟨trivial, h.1, fun _ => h.2⟩
  case Pciwd => exact ⟨trivial, h.1, fun _ => h.2⟩
  case Pciwi8 => exact ⟨trivial, h.1, fun _ => h.2⟩
  case Immediate => exact ⟨trivial, h.1, fun _ => h.2⟩
  all_goals exact ⟨hle _ h.1, h.2, fun he => by simp [eaOf] at he⟩

/-- The effective address field as the opcode map sees it. -/
def eaField (am : AddressingMode) : EaField := ⟨(eaOf am).1, (eaOf am).2⟩

theorem mem_contains {l : List Nat} {a : Nat} (h : l.contains a = true) : a ∈ l := by simpa using h

theorem v_dataAlterable (h : am.verify Asm.MODES_0234567 [0, 1] = true) : RegistersOk am ∧ (eaField am).dataAlterable = true ∧ ((eaOf am).1 = 7 → (eaOf am).2 ≤ 1) := by
  obtain ⟨h1, h2, h3⟩ := verify_ea h
  have h2 := mem_contains h2
  have h3 := fun e => mem_contains (h3 e)
  simp only [Asm.MODES_0234567, List.mem_cons, List.not_mem_nil, or_false] at h2 h3
  refine ⟨h1, ?_, fun e => by have := h3 e; omega⟩
  obtain ⟨e, he⟩ : ∃ e, e = eaField am := ⟨_, rfl⟩
  have hm : e.mode = (eaOf am).1 := by rw [he]; rfl
  have hn : e.reg = (eaOf am).2 := by rw [he]; rfl
  rw [← he]
  simp only [EaField.dataAlterable, EaField.data, EaField.any, EaField.alterable, Bool.and_eq_true, Bool.or_eq_true, decide_eq_true_eq, bne_iff_ne, ne_eq]
  omega
theorem v_memoryAlterable (h : am.verify Asm.MODES_234567 [0, 1] = true) : RegistersOk am ∧ (eaField am).memoryAlterable = true ∧ ((eaOf am).1 = 7 → (eaOf am).2 ≤ 1) ∧ 2 ≤ (eaOf am).1 := by
  obtain ⟨h1, h2, h3⟩ := verify_ea h
  have h2 := mem_contains h2
  have h3 := fun e => mem_contains (h3 e)
  simp only [Asm.MODES_234567, List.mem_cons, List.not_mem_nil, or_false] at h2 h3
  refine ⟨h1, ?_, fun e => by have := h3 e; omega, by omega⟩
  obtain ⟨e, he⟩ : ∃ e, e = eaField am := ⟨_, rfl⟩
  have hm : e.mode = (eaOf am).1 := by rw [he]; rfl
  have hn : e.reg = (eaOf am).2 := by rw [he]; rfl
  rw [← he]
  simp only [EaField.memoryAlterable, EaField.dataAlterable, EaField.data, EaField.any, EaField.alterable, Bool.and_eq_true, Bool.or_eq_true, decide_eq_true_eq, bne_iff_ne, ne_eq]
  omega
theorem v_alterable (h : am.verify Asm.MODES_01234567 [0, 1] = true) : RegistersOk am ∧ (eaField am).alterable = true ∧ ((eaOf am).1 = 7 → (eaOf am).2 ≤ 1) := by
  obtain ⟨h1, h2, h3⟩ := verify_ea h
  have h2 := mem_contains h2
  have h3 := fun e => mem_contains (h3 e)
  simp only [Asm.MODES_01234567, List.mem_cons, List.not_mem_nil, or_false] at h2 h3
  refine ⟨h1, ?_, fun e => by have := h3 e; omega⟩
  obtain ⟨e, he⟩ : ∃ e, e = eaField am := ⟨_, rfl⟩
  have hm : e.mode = (eaOf am).1 := by rw [he]; rfl
  have hn : e.reg = (eaOf am).2 := by rw [he]; rfl
  rw [← he]
  simp only [EaField.alterable, Bool.or_eq_true, decide_eq_true_eq]
  omega
theorem v_data (h : am.verify Asm.MODES_0234567 [0, 1, 2, 3, 4] = true) : RegistersOk am ∧ (eaField am).data = true := by
  obtain ⟨h1, h2, h3⟩ := verify_ea h
  have h2 := mem_contains h2
  have h3 := fun e => mem_contains (h3 e)
  simp only [Asm.MODES_0234567, List.mem_cons, List.not_mem_nil, or_false] at h2 h3
  refine ⟨h1, ?_⟩
  obtain ⟨e, he⟩ : ∃ e, e = eaField am := ⟨_, rfl⟩
  have hm : e.mode = (eaOf am).1 := by rw [he]; rfl
  have hn : e.reg = (eaOf am).2 := by rw [he]; rfl
  rw [← he]
  simp only [EaField.data, EaField.any, Bool.and_eq_true, Bool.or_eq_true, decide_eq_true_eq, bne_iff_ne, ne_eq]
  omega
theorem ea_any (h : RegistersOk am) : (eaField am).any = true := by
  cases am <;> first | rfl | simp [eaField, EaField.any, eaOf]
theorem v_any (h : am.verify Asm.MODES_01234567 [0, 1, 2, 3, 4] = true) : RegistersOk am ∧ (eaField am).any = true :=
  ⟨(verify_ea h).1, ea_any (verify_ea h).1⟩
theorem v_control (h : am.verify Asm.MODES_2567 [0, 1, 2, 3] = true) : RegistersOk am ∧ (eaField am).control = true ∧ ((eaOf am).1 = 7 → (eaOf am).2 ≤ 3) ∧ 2 ≤ (eaOf am).1 := by
  obtain ⟨h1, h2, h3⟩ := verify_ea h
  have h2 := mem_contains h2
  have h3 := fun e => mem_contains (h3 e)
  simp only [Asm.MODES_2567, List.mem_cons, List.not_mem_nil, or_false] at h2 h3
  refine ⟨h1, ?_, fun e => by have := h3 e; omega, by omega⟩
  obtain ⟨e, he⟩ : ∃ e, e = eaField am := ⟨_, rfl⟩
  have hm : e.mode = (eaOf am).1 := by rw [he]; rfl
  have hn : e.reg = (eaOf am).2 := by rw [he]; rfl
  rw [← he]
  simp only [EaField.control, Bool.and_eq_true, Bool.or_eq_true, decide_eq_true_eq, beq_iff_eq]
  omega
theorem isArd_mode (h : ¬ am.isArd = true) : (eaOf am).1 ≠ 1 := by
  cases am <;> first | (exact absurd rfl h) | (show (_ : Nat) ≠ 1; simp only [eaOf]; decide)

/-- Alterable modes hold neither an immediate operand nor an address. -/
theorem placed_alterable (h : (eaOf am).1 = 7 → (eaOf am).2 ≤ 1) (long : Bool) (pc : U32) : placedAt pc (held long am) = am := by
  cases am <;> first | rfl | (simp [eaOf] at h)

/-! ### The instruction of an opcode -/

/-- The fields of an opcode: line, register, bit 8, size and effective address. -/
theorem instr_fields {L r b s : Nat} (hr : RegistersOk am) (hop : op.toNat = 4096 * L + 512 * r + 256 * b + 64 * s + (8 * (eaOf am).1 + (eaOf am).2)) (h1 : r < 8) (h2 : b < 2) (h3 : s < 4) :
    op.toNat / 4096 = L ∧ op.toNat / 512 % 8 = r ∧ op.toNat / 256 % 2 = b ∧ op.toNat / 64 % 4 = s ∧ op.toNat / 8 % 8 = (eaOf am).1 ∧ op.toNat % 8 = (eaOf am).2 ∧
      op.toNat % 64 = 8 * (eaOf am).1 + (eaOf am).2 := by
  obtain ⟨-, h4, h5⟩ := field_eq (long := false) hr
  omega

/-! ### Decoding with the operands -/

theorem decodes_of {ops : U32 → Operands} (hi : instr op = isa) (hu : isa ≠ .Unknown)
    (h : ∀ (M : Type) [MemoryAccess M] (it it' : Iter M), Feeds it ws it' → isaEntryDecode isa op it = some (ops (it.nextAddr - 2), it')) : Decodes (op :: ws) isa ops := by
  intro M _ it it' hf
  have hd : decoder op = isa := by
    rw [decoder_of_map op (by rw [hi]; exact hu), hi]
  obtain ⟨it1, h1, h2, h3⟩ := feeds_cons.1 hf
  refine ⟨op, rfl, hd, ?_⟩
  unfold Instruction.fromMemory
  dsimp only
  rw [h1]
  unfold Instruction.fromOpcode
  simp only [dec_bind, hd, h M it1 it' h3]
  have : it1.nextAddr - 2 = it.nextAddr := by rw [h2]; exact BitVec.add_sub_cancel _ _
  rw [this]
  rfl

theorem d_regSizeModeReg {rx ry : U8} {mode : Bool} (h9 : op.toNat / 512 % 8 = rx.toNat) (hs : op.toNat / 64 % 4 = sizeNo size)
    (hm : op.toNat / 2 ^ 3 % 2 = if mode then 1 else 0) (h0 : op.toNat % 8 = ry.toNat) (h : Feeds it [] it') :
    newRegisterSizeModeRegister op it = some (.RegisterSizeModeRegister rx size (if mode then .MemoryToMemory else .RegisterToRegister) ry, it') := by
  cases h
  unfold newRegisterSizeModeRegister Decode.registerSizeModeRegister
  rw [size_dec hs, reg9_dec h9, reg0_dec h0, bit_dec 3 (by omega) hm]
  rfl

theorem d_regSizeReg {rx ry : U8} (h9 : op.toNat / 512 % 8 = rx.toNat) (hs : op.toNat / 64 % 4 = sizeNo size) (h0 : op.toNat % 8 = ry.toNat) (h : Feeds it [] it') :
    newRegisterSizeRegister op it = some (.RegisterSizeRegister rx size ry, it') := by
  cases h
  unfold newRegisterSizeRegister Decode.registerSizeRegister
  rw [size_dec hs, reg9_dec h9, reg0_dec h0]
  rfl

theorem d_rotation {rx ry : U8} {dir mode : Bool} (h9 : op.toNat / 512 % 8 = rx.toNat) (hd : op.toNat / 2 ^ 8 % 2 = if dir then 1 else 0) (hs : op.toNat / 64 % 4 = sizeNo size)
    (hm : op.toNat / 2 ^ 5 % 2 = if mode then 1 else 0) (h0 : op.toNat % 8 = ry.toNat) (h : Feeds it [] it') :
    newRotationDirectionSizeModeRegister op it = some (.RotationDirectionSizeModeRegister rx (if dir then .Left else .Right) size mode ry, it') := by
  cases h
  unfold newRotationDirectionSizeModeRegister Decode.rotationDirectionSizeModeRegister
  rw [size_dec hs, reg9_dec h9, reg0_dec h0, bit_dec 5 (by omega) hm, bit_dec 8 (by omega) hd]
  rfl

section
variable (hr : RegistersOk am)

include hr in
theorem d_regDirSizeEa {reg : U8} {dir : Bool} (h9 : op.toNat / 512 % 8 = reg.toNat) (hd : op.toNat / 2 ^ 8 % 2 = if dir then 1 else 0) (hs : op.toNat / 64 % 4 = sizeNo size)
    (h0 : op.toNat % 64 = (am.assemble size.isLong).1.toNat) (h : Feeds it (am.assemble size.isLong).2 it') :
    newRegisterDirectionSizeEffectiveAddress op it =
      some (.RegisterDirectionSizeEffectiveAddress reg (if dir then .DstEa else .DstReg) size (placedAt it.nextAddr (held size.isLong am)), it') := by
  unfold newRegisterDirectionSizeEffectiveAddress Decode.registerDirectionSizeEffectiveAddress
  rw [size_dec hs, reg9_dec h9, bit_dec 8 (by omega) hd]
  simp only [dec_bind, dec_lift, dec_ea (sz := some size) hr (fun _ _ => ⟨size, rfl, rfl⟩) h h0]
  rfl

include hr in
theorem d_regSizeEa {reg : U8} (hb : size ≠ .Byte) (h9 : op.toNat / 512 % 8 = reg.toNat) (hd : op.toNat / 2 ^ 8 % 2 = if size.isLong then 1 else 0)
    (h0 : op.toNat % 64 = (am.assemble size.isLong).1.toNat) (h : Feeds it (am.assemble size.isLong).2 it') :
    newRegisterSizeEffectiveAddress op it = some (.RegisterSizeEffectiveAddress reg size (placedAt it.nextAddr (held size.isLong am)), it') := by
  unfold newRegisterSizeEffectiveAddress Decode.registerSizeEffectiveAddress
  have hsz : Size.fromBit (bit op 8) = size := by
    rw [bit_dec 8 (by omega) hd]
    cases size <;> first | rfl | exact absurd rfl hb
  rw [reg9_dec h9, hsz]
  simp only [dec_bind, dec_ea (sz := some size) hr (fun _ _ => ⟨size, rfl, rfl⟩) h h0]
  rfl

include hr in
theorem d_sizeEa (hs : op.toNat / 64 % 4 = sizeNo size)
    (h0 : op.toNat % 64 = (am.assemble size.isLong).1.toNat) (h : Feeds it (am.assemble size.isLong).2 it') :
    newSizeEffectiveAddress op it = some (.SizeEffectiveAddress size (placedAt it.nextAddr (held size.isLong am)), it') := by
  unfold newSizeEffectiveAddress Decode.sizeEffectiveAddress
  rw [size_dec hs]
  simp only [dec_bind, dec_lift, dec_ea (sz := some size) hr (fun _ _ => ⟨size, rfl, rfl⟩) h h0]
  rfl

include hr in
theorem d_dataSizeEa {data : U8} (h9 : op.toNat / 512 % 8 = data.toNat) (hs : op.toNat / 64 % 4 = sizeNo size)
    (h0 : op.toNat % 64 = (am.assemble size.isLong).1.toNat) (h : Feeds it (am.assemble size.isLong).2 it') :
    newDataSizeEffectiveAddress op it = some (.DataSizeEffectiveAddress data size (placedAt it.nextAddr (held size.isLong am)), it') := by
  unfold newDataSizeEffectiveAddress Decode.dataSizeEffectiveAddress
  rw [size_dec hs, reg9_dec h9]
  simp only [dec_bind, dec_lift, dec_ea (sz := some size) hr (fun _ _ => ⟨size, rfl, rfl⟩) h h0]
  rfl

include hr in
theorem d_sizeEaImm {imm : U32} (hs : op.toNat / 64 % 4 = sizeNo size) (ha : (eaOf am).1 = 7 → (eaOf am).2 ≤ 1)
    (h0 : op.toNat % 64 = (am.assemble size.isLong).1.toNat)
    (h : Feeds it ((if size.isLong then [toU16 (imm >>> 16), toU16 imm] else if size.isByte then [toU16 (imm &&& 0xFF)] else [toU16 imm]) ++ (am.assemble size.isLong).2) it') :
    newSizeEffectiveAddressImmediate op it = some (.SizeEffectiveAddressImmediate size am (heldImm size imm), it') := by
  obtain ⟨it1, h1, h2⟩ := feeds_append h
  have hi : ((if size.isLong then nextLong else toU32 <$> nextWord : Dec M U32)) it = some (heldImm size imm, it1) := by
    cases size with
    | Long => exact nextLong_feeds h1
    | Word =>
      have h1 : Feeds it [toU16 imm] it1 := h1
      show (toU32 <$> nextWord : Dec M U32) it = _
      rw [dec_map, nextWord_feeds h1]
      simp only [heldImm]
      congr 2
      unfold toU32 toU16
      apply BitVec.eq_of_toNat_eq
      simp only [BitVec.toNat_setWidth, BitVec.toNat_and]
      show _ = imm.toNat &&& 65535
      rw [Nat.and_two_pow_sub_one_eq_mod imm.toNat 16]
      omega
    | Byte =>
      have h1 : Feeds it [toU16 (imm &&& 0xFF)] it1 := h1
      show (toU32 <$> nextWord : Dec M U32) it = _
      rw [dec_map, nextWord_feeds h1]
      simp only [heldImm]
      congr 2
      apply lowWord
      rw [BitVec.toNat_and]
      show imm.toNat &&& 255 < _
      rw [Nat.and_two_pow_sub_one_eq_mod imm.toNat 8]
      omega
  unfold newSizeEffectiveAddressImmediate Decode.sizeEffectiveAddressImmediate
  rw [size_dec hs]
  have hea := dec_ea (sz := some size) (long := size.isLong) hr (fun _ _ => ⟨size, rfl, rfl⟩) h2 h0
  rw [placed_alterable ha] at hea
  simp only [dec_bind, dec_lift, hi, hea]
  rfl

include hr in
theorem d_dirEa {dir : Bool} (hd : op.toNat / 2 ^ 8 % 2 = if dir then 1 else 0)
    (h0 : op.toNat % 64 = (am.assemble false).1.toNat) (h : Feeds it (am.assemble false).2 it') :
    newDirectionEffectiveAddress op it = some (.DirectionEffectiveAddress (if dir then .Left else .Right) (placedAt it.nextAddr (held false am)), it') := by
  unfold newDirectionEffectiveAddress Decode.directionEffectiveAddress
  rw [bit_dec 8 (by omega) hd]
  simp only [dec_bind, dec_ea (sz := some .Byte) hr (fun _ _ => ⟨.Byte, rfl, rfl⟩) h h0]
  rfl

include hr in
theorem d_condEa {cc : U8} (hc : op.toNat / 256 % 16 = cc.toNat)
    (h0 : op.toNat % 64 = (am.assemble false).1.toNat) (h : Feeds it (am.assemble false).2 it') :
    newConditionEffectiveAddress op it = some (.ConditionEffectiveAddress cc (placedAt it.nextAddr (held false am)), it') := by
  unfold newConditionEffectiveAddress Decode.conditionEffectiveAddress
  have : toU8 (bits op 8 11) = cc := by
    apply BitVec.eq_of_toNat_eq
    unfold toU8
    rw [BitVec.toNat_setWidth, bits_toNat op 8 3 (by omega)]
    omega
  rw [this]
  simp only [dec_bind, dec_ea (sz := some .Byte) hr (fun _ _ => ⟨.Byte, rfl, rfl⟩) h h0]
  rfl

include hr in
theorem d_regEa {reg : U8} (h9 : op.toNat / 512 % 8 = reg.toNat) (hl : decoder op = .Lea → (eaOf am).1 = 7 → (eaOf am).2 ≠ 4)
    (h0 : op.toNat % 64 = (am.assemble false).1.toNat) (h : Feeds it (am.assemble false).2 it') :
    newRegisterEffectiveAddress op it = some (.RegisterEffectiveAddress reg (placedAt it.nextAddr (held false am)), it') := by
  unfold newRegisterEffectiveAddress Decode.registerEffectiveAddress
  rw [reg9_dec h9]
  have hs : (eaOf am).1 = 7 → (eaOf am).2 = 4 → ∃ s, (if decoder op = .Lea then some Size.Long else some Size.Word) = some s ∧ false = s.isLong := by
    intro h1 h2
    by_cases hd : decoder op = .Lea
    · exact absurd h2 (hl hd h1)
    · rw [if_neg hd]; exact ⟨.Word, rfl, rfl⟩
  simp only [dec_bind, dec_ea hr hs h h0]
  rfl

include hr in
theorem d_ea (hl : ((eaOf am).1 = 7 → (eaOf am).2 ≠ 4) ∨ decoder op = .Nbcd ∨ decoder op = .Tas ∨ decoder op = .Moveccr ∨ decoder op = .Movefsr ∨ decoder op = .Movesr)
    (h0 : op.toNat % 64 = (am.assemble false).1.toNat) (h : Feeds it (am.assemble false).2 it') :
    newEffectiveAddress op it = some (.EffectiveAddress (placedAt it.nextAddr (held false am)), it') := by
  unfold newEffectiveAddress Decode.effectiveAddress
  simp only [dec_bind]
  rw [dec_ea hr ?_ h h0]
  · rfl
  · intro h1 h2
    rcases hl with hl | hl | hl | hl | hl | hl
    · exact absurd h2 (hl h1)
    · rw [hl]; exact ⟨.Byte, rfl, rfl⟩
    · rw [hl]; exact ⟨.Byte, rfl, rfl⟩
    · rw [hl]; exact ⟨.Word, rfl, rfl⟩
    · rw [hl]; exact ⟨.Word, rfl, rfl⟩
    · rw [hl]; exact ⟨.Word, rfl, rfl⟩

include hr in
theorem d_eaCount_dynamic {reg : U8} (h8 : op.toNat / 2 ^ 8 % 2 = 1) (h9 : op.toNat / 512 % 8 = reg.toNat)
    (h0 : op.toNat % 64 = (am.assemble false).1.toNat) (h : Feeds it (am.assemble false).2 it') :
    newEffectiveAddressCount op it = some (.EffectiveAddressCount (placedAt it.nextAddr (held false am)) reg, it') := by
  unfold newEffectiveAddressCount Decode.effectiveAddressCount
  rw [reg9_dec h9, bit_dec (c := true) 8 (by omega) h8]
  have hm : bits op 3 5 = 0 → (eaOf am).1 = 0 := by
    intro hz
    have := congrArg BitVec.toNat hz
    rw [bits35] at this
    obtain ⟨h1, h2, h3⟩ := field_eq (long := false) hr
    have : op.toNat / 8 % 8 = 0 := this
    omega
  have := dec_ea (sz := if bits op 3 5 = 0 then some Size.Long else some Size.Byte) hr (fun h1 h2 => ⟨.Byte, if_neg (fun hz => by have := hm hz; omega), rfl⟩) h h0
  simp only [dec_bind, if_true, dec_pure, this]
  rfl

include hr in
theorem d_eaCount_static {count : U8} (h8 : op.toNat / 2 ^ 8 % 2 = 0)
    (h0 : op.toNat % 64 = (am.assemble false).1.toNat) (h : Feeds it ([toU16 count] ++ (am.assemble false).2) it') :
    newEffectiveAddressCount op it = some (.EffectiveAddressCount (placedAt (it.nextAddr + 2) (held false am)) count, it') := by
  obtain ⟨it1, hn, ha, h2⟩ := feeds_cons.1 h
  unfold newEffectiveAddressCount Decode.effectiveAddressCount
  rw [bit_dec (c := false) 8 (by omega) h8]
  have hm : bits op 3 5 = 0 → (eaOf am).1 = 0 := by
    intro hz
    have := congrArg BitVec.toNat hz
    rw [bits35] at this
    obtain ⟨h1, h2, h3⟩ := field_eq (long := false) hr
    have : op.toNat / 8 % 8 = 0 := this
    omega
  have := dec_ea (sz := if bits op 3 5 = 0 then some Size.Long else some Size.Byte) hr (fun h1 h2 => ⟨.Byte, if_neg (fun hz => by have := hm hz; omega), rfl⟩) h2 h0
  have hc : toU8 (toU16 count) = count := by
    unfold toU8 toU16
    apply BitVec.eq_of_toNat_eq
    simp only [BitVec.toNat_setWidth]
    have := count.isLt
    omega
  rw [ha] at this
  simp only [dec_bind, dec_map, nextWord_eq hn, this, hc, Bool.false_eq_true, if_false, dec_pure]
  rfl

include hr in
theorem d_movem {dir : Bool} {list : U16} (hb : size ≠ .Byte) (hd : op.toNat / 2 ^ 10 % 2 = if dir then 1 else 0) (hs : op.toNat / 2 ^ 6 % 2 = if size.isLong then 1 else 0)
    (h0 : op.toNat % 64 = (am.assemble size.isLong).1.toNat) (h : Feeds it ([list] ++ (am.assemble size.isLong).2) it') :
    newDirectionSizeEffectiveAddressList op it =
      some (.DirectionSizeEffectiveAddressList (if dir then .MemoryToRegister else .RegisterToMemory) size (placedAt (it.nextAddr + 2) (held size.isLong am)) list, it') := by
  obtain ⟨it1, hn, ha, h2⟩ := feeds_cons.1 h
  unfold newDirectionSizeEffectiveAddressList Decode.directionSizeEffectiveAddressList
  have hsz : Size.fromBit (bit op 6) = size := by
    rw [bit_dec 6 (by omega) hs]
    cases size <;> first | rfl | exact absurd rfl hb
  have := dec_ea (sz := some size) hr (fun _ _ => ⟨size, rfl, rfl⟩) h2 h0
  rw [ha] at this
  rw [hsz, bit_dec 10 (by omega) hd]
  simp only [dec_bind, nextWord_eq hn, this, dec_pure]

/-- Number of a size in bits 13 and 12 of a MOVE. -/
def moveNo : Size → Nat
  | .Byte => 1
  | .Word => 3
  | .Long => 2

theorem move_dec (h : op.toNat / 4096 % 4 = moveNo size) : Size.fromMove (bits op 12 13) = some size := by
  have hb : (bits op 12 13).toNat = op.toNat / 4096 % 4 := bits_toNat op 12 1 (by omega)
  have hb : bits op 12 13 = BitVec.ofNat 16 (moveNo size) := by
    apply BitVec.eq_of_toNat_eq
    rw [hb, h]
    cases size <;> rfl
  rw [hb]
  cases size <;> rfl

include hr in
theorem d_move {dst : AddressingMode} {f : U16} {dw : List U16} (hs : op.toNat / 4096 % 4 = moveNo size) (hw : RegistersOk dst) (hf : dst.assembleMoveDst = some (f, dw))
    (h0 : op.toNat % 64 = (am.assemble size.isLong).1.toNat) (h6 : op.toNat / 64 % 64 * 64 = f.toNat) (h : Feeds it ((am.assemble size.isLong).2 ++ dw) it') :
    newSizeEffectiveAddressEffectiveAddress op it = some (.SizeEffectiveAddressEffectiveAddress size dst (placedAt it.nextAddr (held size.isLong am)), it') := by
  obtain ⟨it1, h1, h2⟩ := feeds_append h
  unfold newSizeEffectiveAddressEffectiveAddress Decode.sizeEffectiveAddressEffectiveAddress
  have hw : WellFormed false dst := by
    cases dst <;> first | exact hw | (simp [AddressingMode.assembleMoveDst] at hf)
  have e1 := dec_ea (sz := some size) hr (fun _ _ => ⟨size, rfl, rfl⟩) h1 h0
  have e2 := dst_feeds (size := some size) hw hf h2 h6
  rw [move_dec hs]
  simp only [dec_bind, dec_lift, e1, e2, dec_pure]

include hr in
theorem d_movea {reg : U8} (hs : op.toNat / 4096 % 4 = moveNo size) (h9 : op.toNat / 512 % 8 = reg.toNat)
    (h0 : op.toNat % 64 = (am.assemble size.isLong).1.toNat) (h : Feeds it (am.assemble size.isLong).2 it') :
    newSizeRegisterEffectiveAddress op it = some (.SizeRegisterEffectiveAddress size reg (placedAt it.nextAddr (held size.isLong am)), it') := by
  unfold newSizeRegisterEffectiveAddress Decode.sizeRegisterEffectiveAddress
  have e1 := dec_ea (sz := some size) hr (fun _ _ => ⟨size, rfl, rfl⟩) h h0
  rw [move_dec hs, reg9_dec h9]
  simp only [dec_bind, dec_lift, e1, dec_pure]
end

end M68k.Exec
