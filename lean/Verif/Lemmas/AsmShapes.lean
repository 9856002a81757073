import Verif.Lemmas.Asm
/-
The words of each operand format of the assembler.
-/
set_option linter.unusedSectionVars false
namespace M68k.Exec
open Spec Decode
variable {op : U16} {ws : List U16} {isa : Isa} {am : AddressingMode} {size : Size} {reg reg' : U8} {L r b s : Nat}

/-- The fields of an opcode with the effective address of `am`: line, register, bit 8 and size. -/
structure Fields (op : U16) (L r b s : Nat) (am : AddressingMode) : Prop where
  line : op.toNat / 4096 = L
  reg : op.toNat / 512 % 8 = r
  bit8 : op.toNat / 256 % 2 = b
  size : op.toNat / 64 % 4 = s
  mode : op.toNat / 8 % 8 = (eaOf am).1
  eareg : op.toNat % 8 = (eaOf am).2
  ea : ∀ long, op.toNat % 64 = (am.assemble long).1.toNat

theorem fields_of {x : U16} {long : Bool} (hr : RegistersOk am) (hx : x.toNat = 4096 * L + 512 * r + 256 * b + 64 * s) (h1 : r < 8) (h2 : b < 2) (h3 : s < 4) :
    Fields (x ||| (am.assemble long).1) L r b s am := by
  obtain ⟨e1, e2, e3⟩ := field_eq (long := long) hr
  have h : (x ||| (am.assemble long).1).toNat = x.toNat + (am.assemble long).1.toNat := or_low (k := 6) (by omega) (by omega)
  rw [hx, e1] at h
  refine ⟨by omega, by omega, by omega, by omega, by omega, by omega, fun l => ?_⟩
  rw [(field_eq (long := l) hr).1]
  omega

/-- The opcode map by the fields of the opcode. -/
def lineOf (L op r : Nat) (b8 : Bool) (sz : Nat) (e : EaField) : Isa :=
  match L with
  | 0x0 => line0 op r b8 sz e
  | 0x1 => lineMove true e ⟨op / 64 % 8, r⟩
  | 0x2 => lineMove false e ⟨op / 64 % 8, r⟩
  | 0x3 => lineMove false e ⟨op / 64 % 8, r⟩
  | 0x4 => line4 op r b8 sz e
  | 0x5 => line5 b8 sz e
  | 0x6 => if op / 256 % 16 = 0 then .Bra else if op / 256 % 16 = 1 then .Bsr else .Bcc
  | 0x7 => only (!b8) .Moveq
  | 0x8 => lineOr .Or .Divu .Divs .Sbcd b8 sz e
  | 0x9 => lineAdd .Sub .Suba .Subx b8 sz e
  | 0xB => lineB b8 sz e
  | 0xC => lineC b8 sz e
  | 0xD => lineAdd .Add .Adda .Addx b8 sz e
  | 0xE => lineE r sz e
  | _ => .Unknown

theorem Fields.map (f : Fields op L r b s am) : instr op = lineOf L op.toNat r (b == 1) s (eaField am) := by
  unfold instr opcodeMap
  dsimp only
  rw [f.line, f.reg, f.bit8, f.size, f.mode, f.eareg]
  rfl

theorem reg_le (h : reg ≤ 7) : reg.toNat ≤ 7 := h

theorem sizeNo_lt (size : Size) : sizeNo size < 3 := by cases size <;> decide

/-- A table over the fields of an opcode. -/
theorem x_regDirSize : ∀ (L : Fin 16) (k : Fin 8) (d : Bool) (s : Fin 3),
    ((BitVec.ofNat 16 L.val <<< 12 ||| toU16 (BitVec.ofNat 8 k.val) <<< 9 ||| (if d then 1 else 0) <<< 8 ||| BitVec.ofNat 16 s.val <<< 6) : U16).toNat =
      4096 * L.val + 512 * k.val + 256 * (if d then 1 else 0) + 64 * s.val := by decide +kernel

theorem intoU16_eq (size : Size) : size.intoU16 = BitVec.ofNat 16 (sizeNo size) := by cases size <;> rfl

theorem asm_regDirSizeEa {dir : Direction} (hL : L < 16) (h7 : reg ≤ 7) (hd : dir = .DstEa ∨ dir = .DstReg) (hr : RegistersOk am)
    (hu : isa ≠ .Unknown) (hk : ∀ (M : Type) [MemoryAccess M], (isaEntryDecode isa : U16 → Dec M Operands) = newRegisterDirectionSizeEffectiveAddress)
    (hi : ∀ op, Fields op L reg.toNat (if dir = .DstEa then 1 else 0) (sizeNo size) am → instr op = isa) :
    Decodes (Asm.registerDirectionSizeEffectiveAddress (BitVec.ofNat 16 L) reg dir size am) isa fun pc =>
      .RegisterDirectionSizeEffectiveAddress reg dir size (placedAt (pc + 2) (held size.isLong am)) := by
  have h7 := reg_le h7
  unfold Asm.registerDirectionSizeEffectiveAddress
  dsimp only
  have hx := x_regDirSize ⟨L, hL⟩ ⟨reg.toNat, by omega⟩ (decide (dir = .DstEa)) ⟨sizeNo size, sizeNo_lt size⟩
  simp only [decide_eq_true_eq, ← intoU16_eq] at hx
  rw [show BitVec.ofNat 8 reg.toNat = reg by simp] at hx
  have f := fields_of (long := size.isLong) hr hx (by omega) (by split <;> omega) (by have := sizeNo_lt size; omega)
  refine decodes_of (hi _ f) hu fun M _ it it' hf => ?_
  have := d_regDirSizeEa (dir := decide (dir = .DstEa)) hr f.reg (by rw [show 2 ^ 8 = 256 from rfl, f.bit8]; simp) f.size (f.ea _) hf
  rw [hk, this]
  have ha : it.nextAddr - 2 + 2 = it.nextAddr := BitVec.sub_add_cancel _ _
  rw [ha]
  rcases hd with rfl | rfl <;> rfl

theorem back2 (a : U32) : a - 2 + 2 = a := BitVec.sub_add_cancel _ _
theorem back4 (a : U32) : a - 2 + 4 = a + 2 := by
  rw [show (4 : U32) = 2 + 2 from rfl, ← BitVec.add_assoc, back2]

theorem x_regSize : ∀ (L : Fin 16) (k : Fin 8) (d : Bool),
    ((BitVec.ofNat 16 L.val <<< 12 ||| (toU16 (BitVec.ofNat 8 k.val) &&& 7) <<< 9 ||| (if d then 1 else 0 : U16) <<< 8 ||| 0b11 <<< 6) : U16).toNat =
      4096 * L.val + 512 * k.val + 256 * (if d then 1 else 0) + 64 * 3 := by decide +kernel

theorem asm_regSizeEa (hL : L < 16) (h7 : reg ≤ 7) (hr : RegistersOk am) (hb : ¬ size.isByte = true)
    (hu : isa ≠ .Unknown) (hk : ∀ (M : Type) [MemoryAccess M], (isaEntryDecode isa : U16 → Dec M Operands) = newRegisterSizeEffectiveAddress)
    (hi : ∀ op, Fields op L reg.toNat (if size.isLong then 1 else 0) 3 am → instr op = isa)
    (h : Asm.registerSizeEffectiveAddress (BitVec.ofNat 16 L) reg size am = some ws) :
    Decodes ws isa fun pc => .RegisterSizeEffectiveAddress reg size (placedAt (pc + 2) (held size.isLong am)) := by
  have h7 := reg_le h7
  have hsz : size.intoBit = some (if size.isLong then 1 else 0) := by cases size <;> first | rfl | exact absurd rfl hb
  have he : Asm.registerSizeEffectiveAddress (BitVec.ofNat 16 L) reg size am =
      some ((BitVec.ofNat 16 L <<< 12 ||| (toU16 reg &&& 7) <<< 9 ||| (if size.isLong then 1 else 0 : U16) <<< 8 ||| 0b11 <<< 6 ||| (am.assemble size.isLong).1) :: (am.assemble size.isLong).2) := by
    unfold Asm.registerSizeEffectiveAddress
    rw [hsz]
    rfl
  rw [he] at h
  cases h
  have hx := x_regSize ⟨L, hL⟩ ⟨reg.toNat, by omega⟩ size.isLong
  rw [show BitVec.ofNat 8 reg.toNat = reg by simp] at hx
  have f := fields_of (long := size.isLong) hr hx (by omega) (by split <;> omega) (by omega)
  refine decodes_of (hi _ f) hu fun M _ it it' hf => ?_
  have := d_regSizeEa hr (fun hz => hb (by rw [hz]; rfl)) f.reg (by rw [show 2 ^ 8 = 256 from rfl, f.bit8]) (f.ea _) hf
  rw [hk, this, back2]

theorem x_size : ∀ (H : Fin 256) (s : Fin 3), ((BitVec.ofNat 16 H.val <<< 8 ||| BitVec.ofNat 16 s.val <<< 6) : U16).toNat = 256 * H.val + 64 * s.val := by decide +kernel

theorem asm_sizeEa {H : Nat} (hH : H < 256) (hr : RegistersOk am)
    (hu : isa ≠ .Unknown) (hk : ∀ (M : Type) [MemoryAccess M], (isaEntryDecode isa : U16 → Dec M Operands) = newSizeEffectiveAddress)
    (hi : ∀ op, Fields op (H / 16) (H / 2 % 8) (H % 2) (sizeNo size) am → instr op = isa) :
    Decodes (Asm.sizeEffectiveAddress (BitVec.ofNat 16 H) size am) isa fun pc => .SizeEffectiveAddress size (placedAt (pc + 2) (held size.isLong am)) := by
  unfold Asm.sizeEffectiveAddress
  dsimp only
  have hs := sizeNo_lt size
  have hx := x_size ⟨H, hH⟩ ⟨sizeNo size, hs⟩
  simp only [← intoU16_eq] at hx
  have f := fields_of (L := H / 16) (r := H / 2 % 8) (b := H % 2) (s := sizeNo size) (long := size.isLong) hr (by rw [hx]; omega) (by omega) (by omega) (by omega)
  refine decodes_of (hi _ f) hu fun M _ it it' hf => ?_
  rw [hk, d_sizeEa hr f.size (f.ea _) hf, back2]

theorem asm_sizeEaImm {H : Nat} {imm : U32} (hH : H < 256) (hr : RegistersOk am) (ha : (eaOf am).1 = 7 → (eaOf am).2 ≤ 1)
    (hu : isa ≠ .Unknown) (hk : ∀ (M : Type) [MemoryAccess M], (isaEntryDecode isa : U16 → Dec M Operands) = newSizeEffectiveAddressImmediate)
    (hi : ∀ op, Fields op (H / 16) (H / 2 % 8) (H % 2) (sizeNo size) am → instr op = isa) :
    Decodes (Asm.sizeEffectiveAddressImmediate (BitVec.ofNat 16 H) size am imm) isa fun _ => .SizeEffectiveAddressImmediate size am (heldImm size imm) := by
  have hs := sizeNo_lt size
  have hx := x_size ⟨H, hH⟩ ⟨sizeNo size, hs⟩
  simp only [← intoU16_eq] at hx
  have f := fields_of (L := H / 16) (r := H / 2 % 8) (b := H % 2) (s := sizeNo size) (long := size.isLong) hr (by rw [hx]; omega) (by omega) (by omega) (by omega)
  have he : Asm.sizeEffectiveAddressImmediate (BitVec.ofNat 16 H) size am imm = (BitVec.ofNat 16 H <<< 8 ||| size.intoU16 <<< 6 ||| (am.assemble size.isLong).1) ::
      ((if size.isLong then [toU16 (imm >>> 16), toU16 imm] else if size.isByte then [toU16 (imm &&& 0xFF)] else [toU16 imm]) ++ (am.assemble size.isLong).2) := by
    unfold Asm.sizeEffectiveAddressImmediate
    cases size <;> rfl
  rw [he]
  refine decodes_of (hi _ f) hu fun M _ it it' hf => ?_
  rw [hk, d_sizeEaImm hr f.size ha (f.ea _) hf]

theorem x_ea : ∀ (Q : Fin 1024), (((BitVec.ofNat 16 Q.val &&& 0x3FF) <<< 6) : U16).toNat = 64 * Q.val := by decide +kernel

theorem asm_ea {Q : Nat} (hQ : Q < 1024) (hr : RegistersOk am)
    (hu : isa ≠ .Unknown) (hk : ∀ (M : Type) [MemoryAccess M], (isaEntryDecode isa : U16 → Dec M Operands) = newEffectiveAddress)
    (hl : ((eaOf am).1 = 7 → (eaOf am).2 ≤ 3) ∨ isa = .Nbcd ∨ isa = .Tas ∨ isa = .Moveccr ∨ isa = .Movefsr ∨ isa = .Movesr)
    (hi : ∀ op, Fields op (Q / 64) (Q / 8 % 8) (Q / 4 % 2) (Q % 4) am → instr op = isa) :
    Decodes (Asm.effectiveAddress (BitVec.ofNat 16 Q) am) isa fun pc => .EffectiveAddress (placedAt (pc + 2) (held false am)) := by
  unfold Asm.effectiveAddress
  dsimp only
  have hx := x_ea ⟨Q, hQ⟩
  have f := fields_of (L := Q / 64) (r := Q / 8 % 8) (b := Q / 4 % 2) (s := Q % 4) (long := false) hr (by rw [hx]; dsimp only; omega) (by omega) (by omega) (by omega)
  have hd : ∀ i, isa = i → decoder (((BitVec.ofNat 16 Q &&& 0x3FF) <<< 6) ||| (am.assemble false).1) = i := by
    rintro i rfl
    rw [decoder_of_map _ (by rw [hi _ f]; exact hu), hi _ f]
  refine decodes_of (hi _ f) hu fun M _ it it' hf => ?_
  rw [hk, d_ea hr ?_ (f.ea _) hf, back2]
  rcases hl with hl | hl | hl | hl | hl | hl
  · exact .inl fun h => by have := hl h; omega
  · exact .inr (.inl (hd _ hl))
  · exact .inr (.inr (.inl (hd _ hl)))
  · exact .inr (.inr (.inr (.inl (hd _ hl))))
  · exact .inr (.inr (.inr (.inr (.inl (hd _ hl)))))
  · exact .inr (.inr (.inr (.inr (.inr (hd _ hl)))))

theorem asm_static {Q : Nat} {count : U8} (hQ : Q < 1024) (hr : RegistersOk am)
    (hu : isa ≠ .Unknown) (hk : ∀ (M : Type) [MemoryAccess M], (isaEntryDecode isa : U16 → Dec M Operands) = newEffectiveAddressCount) (hb : Q / 4 % 2 = 0)
    (hi : ∀ op, Fields op (Q / 64) (Q / 8 % 8) (Q / 4 % 2) (Q % 4) am → instr op = isa) :
    Decodes (Asm.effectiveAddressCount (BitVec.ofNat 16 Q) am count) isa fun pc => .EffectiveAddressCount (placedAt (pc + 4) (held false am)) count := by
  unfold Asm.effectiveAddressCount
  dsimp only
  have hx := x_ea ⟨Q, hQ⟩
  have f := fields_of (L := Q / 64) (r := Q / 8 % 8) (b := Q / 4 % 2) (s := Q % 4) (long := false) hr (by rw [hx]; dsimp only; omega) (by omega) (by omega) (by omega)
  refine decodes_of (hi _ f) hu fun M _ it it' hf => ?_
  have := f.bit8
  rw [hk, d_eaCount_static (count := count) hr (by rw [show 2 ^ 8 = 256 from rfl]; omega) (f.ea _) hf, back4]

theorem x_regEa : ∀ (L : Fin 16) (k t : Fin 8),
    (((BitVec.ofNat 16 L.val &&& 0xF) <<< 12 ||| (toU16 (BitVec.ofNat 8 k.val) &&& 7) <<< 9 ||| (BitVec.ofNat 16 t.val &&& 7) <<< 6) : U16).toNat =
      4096 * L.val + 512 * k.val + 64 * t.val := by decide +kernel

theorem asm_regEa {t : Nat} (hL : L < 16) (ht : t < 8) (h7 : reg ≤ 7) (hr : RegistersOk am) (hl : isa = .Lea → (eaOf am).1 = 7 → (eaOf am).2 ≤ 3)
    (hu : isa ≠ .Unknown) (hk : ∀ (M : Type) [MemoryAccess M], (isaEntryDecode isa : U16 → Dec M Operands) = newRegisterEffectiveAddress)
    (hi : ∀ op, Fields op L reg.toNat (t / 4) (t % 4) am → instr op = isa) :
    Decodes (Asm.registerEffectiveAddress (BitVec.ofNat 16 L) (toU16 reg) (BitVec.ofNat 16 t) am) isa fun pc => .RegisterEffectiveAddress reg (placedAt (pc + 2) (held false am)) := by
  have h7 := reg_le h7
  unfold Asm.registerEffectiveAddress
  dsimp only
  have hx := x_regEa ⟨L, hL⟩ ⟨reg.toNat, by omega⟩ ⟨t, ht⟩
  rw [show BitVec.ofNat 8 reg.toNat = reg by simp] at hx
  have f := fields_of (L := L) (r := reg.toNat) (b := t / 4) (s := t % 4) (long := false) hr (by rw [hx]; dsimp only; omega) (by omega) (by omega) (by omega)
  have hd : decoder ((BitVec.ofNat 16 L &&& 0xF) <<< 12 ||| (toU16 reg &&& 7) <<< 9 ||| (BitVec.ofNat 16 t &&& 7) <<< 6 ||| (am.assemble false).1) = isa := by
    rw [decoder_of_map _ (by rw [hi _ f]; exact hu), hi _ f]
  refine decodes_of (hi _ f) hu fun M _ it it' hf => ?_
  rw [hk, d_regEa hr f.reg (fun hd' h => by have := hl (hd ▸ hd') h; omega) (f.ea _) hf, back2]

theorem asm_dynamic {t : Nat} (ht : t < 8) (ht4 : 4 ≤ t) (h7 : reg ≤ 7) (hr : RegistersOk am)
    (hu : isa ≠ .Unknown) (hk : ∀ (M : Type) [MemoryAccess M], (isaEntryDecode isa : U16 → Dec M Operands) = newEffectiveAddressCount)
    (hi : ∀ op, Fields op 0 reg.toNat 1 (t % 4) am → instr op = isa) :
    Decodes (Asm.registerEffectiveAddress (BitVec.ofNat 16 0) (toU16 reg) (BitVec.ofNat 16 t) am) isa fun pc => .EffectiveAddressCount (placedAt (pc + 2) (held false am)) reg := by
  have h7 := reg_le h7
  unfold Asm.registerEffectiveAddress
  dsimp only
  have hx : (((0#16 &&& 0xF) <<< 12 ||| (toU16 reg &&& 7) <<< 9 ||| (BitVec.ofNat 16 t &&& 7) <<< 6) : U16).toNat = 4096 * 0 + 512 * reg.toNat + 64 * t := by
    have hx := x_regEa 0 ⟨reg.toNat, by omega⟩ ⟨t, ht⟩
    rw [show BitVec.ofNat 8 reg.toNat = reg by simp] at hx
    exact hx
  have f := fields_of (L := 0) (r := reg.toNat) (b := 1) (s := t % 4) (long := false) hr (by rw [hx]; omega) (by omega) (by omega) (by omega)
  refine decodes_of (hi _ f) hu fun M _ it it' hf => ?_
  rw [hk, d_eaCount_dynamic hr (by rw [show 2 ^ 8 = 256 from rfl]; exact f.bit8) f.reg (f.ea _) hf, back2]

theorem x_data : ∀ (k : Fin 8) (b : Fin 2) (s : Fin 3),
    ((0b0101 <<< 12 ||| (toU16 (BitVec.ofNat 8 k.val) &&& 7) <<< 9 ||| (BitVec.ofNat 16 b.val &&& 1) <<< 8 ||| BitVec.ofNat 16 s.val <<< 6) : U16).toNat =
      4096 * 5 + 512 * k.val + 256 * b.val + 64 * s.val := by decide +kernel

theorem asm_dataSizeEa {data : U8} (hb : b < 2) (h7 : data.toNat ≤ 7) (hr : RegistersOk am) (ha : (eaOf am).1 = 7 → (eaOf am).2 ≤ 1)
    (hu : isa ≠ .Unknown) (hk : ∀ (M : Type) [MemoryAccess M], (isaEntryDecode isa : U16 → Dec M Operands) = newDataSizeEffectiveAddress)
    (hi : ∀ op, Fields op 5 data.toNat b (sizeNo size) am → instr op = isa) :
    Decodes (Asm.dataSizeEffectiveAddress data (BitVec.ofNat 16 b) size am) isa fun _ => .DataSizeEffectiveAddress data size am := by
  unfold Asm.dataSizeEffectiveAddress
  dsimp only
  have hs := sizeNo_lt size
  have hx := x_data ⟨data.toNat, by omega⟩ ⟨b, hb⟩ ⟨sizeNo size, hs⟩
  rw [show BitVec.ofNat 8 data.toNat = data by simp] at hx
  simp only [← intoU16_eq] at hx
  have f := fields_of (long := size.isLong) hr hx (by omega) (by omega) (by omega)
  refine decodes_of (hi _ f) hu fun M _ it it' hf => ?_
  rw [hk, d_dataSizeEa hr f.reg f.size (f.ea _) hf, placed_alterable ha]

theorem x_dir : ∀ (r : Fin 4) (d : Bool),
    ((BitVec.ofNat 16 (0b1110000 + r.val) &&& 0x7F) <<< 9 ||| ((0b11 : U16) &&& 3) <<< 6 ||| (if d then 0x0100 else 0#16) : U16).toNat =
      4096 * 14 + 512 * r.val + 256 * (if d then 1 else 0) + 64 * 3 := by decide +kernel

theorem asm_dirEa {dir : Direction} (hr4 : r < 4) (hd : dir = .Left ∨ dir = .Right) (hr : RegistersOk am) (ha : (eaOf am).1 = 7 → (eaOf am).2 ≤ 1)
    (hu : isa ≠ .Unknown) (hk : ∀ (M : Type) [MemoryAccess M], (isaEntryDecode isa : U16 → Dec M Operands) = newDirectionEffectiveAddress)
    (hi : ∀ op, Fields op 14 r (if dir = .Left then 1 else 0) 3 am → instr op = isa) :
    Decodes (Asm.directionEffectiveAddress (BitVec.ofNat 16 (0b1110000 + r)) dir 0b11 am) isa fun _ => .DirectionEffectiveAddress dir am := by
  have he : Asm.directionEffectiveAddress (BitVec.ofNat 16 (0b1110000 + r)) dir 0b11 am =
      ((BitVec.ofNat 16 (0b1110000 + r) &&& 0x7F) <<< 9 ||| ((0b11 : U16) &&& 3) <<< 6 ||| (if dir = .Left then 0x0100 else 0#16) ||| (am.assemble false).1 : U16) :: (am.assemble false).2 := by
    unfold Asm.directionEffectiveAddress
    dsimp only
    rcases hd with rfl | rfl
    · rw [if_pos rfl, if_pos rfl, BitVec.or_assoc, BitVec.or_comm (am.assemble false).1, ← BitVec.or_assoc]
    · rw [if_neg (by decide), if_neg (by decide), BitVec.or_zero]
  rw [he]
  have hx := x_dir ⟨r, hr4⟩ (decide (dir = .Left))
  simp only [decide_eq_true_eq] at hx
  have f := fields_of (long := false) hr hx (by omega) (by split <;> omega) (by omega)
  refine decodes_of (hi _ f) hu fun M _ it it' hf => ?_
  rw [hk, d_dirEa (dir := decide (dir = .Left)) hr (by rw [show 2 ^ 8 = 256 from rfl, f.bit8]; simp) (f.ea _) hf, placed_alterable ha]
  rcases hd with rfl | rfl <;> rfl

end M68k.Exec
