import Verif.Lemmas.TextIsa
import Verif.Lemmas.Asm
import Verif.Lemmas.Table
/-
The operands the decoder returns have the shape the texts are written for.
-/
namespace M68k
open Spec Exec Reader

variable {M : Type} [MemoryAccess M]

/-- What a decoding function returns has the property `P`. -/
def Post {α : Type} (x : Dec M α) (P : α → Prop) : Prop := ∀ it a it', x it = some (a, it') → P a

namespace Post
variable {α β : Type} {P : α → Prop} {Q : β → Prop}

theorem ofPure {a : α} (h : P a) : Post (pure a : Dec M α) P := by
  intro it b it' hb
  cases hb
  exact h

theorem bind {x : Dec M α} {f : α → Dec M β} (hx : Post x P) (hf : ∀ a, P a → Post (f a) Q) : Post (x >>= f) Q := by
  intro it b it' hb
  have hb : (match x it with | some (a, it') => f a it' | none => none) = some (b, it') := hb
  cases he : x it with
  | none => rw [he] at hb; cases hb
  | some r => rw [he] at hb; exact hf r.1 (hx _ _ _ he) _ _ _ hb

theorem any (x : Dec M α) : Post x fun _ => True := fun _ _ _ _ => trivial

theorem step {x : Dec M α} {f : α → Dec M β} (hf : ∀ a, Post (f a) Q) : Post (x >>= f) Q := bind (any x) fun a _ => hf a

theorem mono {x : Dec M α} {P' : α → Prop} (hx : Post x P) (h : ∀ a, P a → P' a) : Post x P' := fun it a it' ha => h a (hx it a it' ha)

end Post

theorem post_mode (mode : U16) (reg : U8) (size : Option Size) (h : mode.toNat ≠ 0) :
    Post (AddressingMode.fromMemory mode reg size : Dec M _) fun am => ∀ n, am ≠ .Drd n := by
  unfold AddressingMode.fromMemory
  split
  · exact absurd (by assumption) h
  all_goals first
    | exact .ofPure (by intro n; simp)
    | exact .step fun _ => .ofPure (by intro n; simp)
    | skip
  · split
    all_goals first
      | exact .step fun _ => .ofPure (by intro n; simp)
      | exact .step fun _ => .step fun _ => .ofPure (by intro n; simp)
      | skip
    · split
      all_goals first
        | exact .step fun _ => .ofPure (by intro n; simp)
        | exact fun it a it' ha => (by cases ha)
    · exact fun it a it' ha => (by cases ha)
  · exact fun it a it' ha => (by cases ha)

theorem reg9_lt (op : U16) : (toU8 (bits op 9 11)).toNat < 8 := by rw [bits911]; omega

theorem cc_lt (op : U16) : (toU8 (bits op 8 11)).toNat < 16 := by
  have h := bits_toNat op 8 3 (by omega)
  show (BitVec.setWidth 8 (bits op 8 (8 + 3))).toNat < 16
  rw [BitVec.toNat_setWidth, h]
  omega

section
variable (op : U16)
open Decode

theorem post_none : Post (newNoOperands op : Dec M _) fun o => o = .NoOperands := .ofPure rfl
theorem post_imm : Post (newImmediate op : Dec M _) fun o => ∃ v, o = .Immediate v := .step fun _ => .ofPure ⟨_, rfl⟩
theorem post_sizeEaImm : Post (newSizeEffectiveAddressImmediate op : Dec M _) fun o => ∃ s am v, o = .SizeEffectiveAddressImmediate s am v :=
  .step fun _ => .ofPure ⟨_, _, _, rfl⟩
theorem post_eaCount : Post (newEffectiveAddressCount op : Dec M _) fun o => ∃ r am, o = .EffectiveAddressCount am r := .step fun _ => .ofPure ⟨_, _, rfl⟩
theorem post_ea : Post (newEffectiveAddress op : Dec M _) fun o => ∃ am, o = .EffectiveAddress am := .step fun _ => .ofPure ⟨_, rfl⟩
theorem post_sizeEa : Post (newSizeEffectiveAddress op : Dec M _) fun o => ∃ s am, o = .SizeEffectiveAddress s am := .step fun _ => .ofPure ⟨_, _, rfl⟩
theorem post_regEa : Post (newRegisterEffectiveAddress op : Dec M _) fun o => ∃ r am, o = .RegisterEffectiveAddress r am := .step fun _ => .ofPure ⟨_, _, rfl⟩
theorem post_movep : Post (newRegisterDirectionSizeRegisterDisplacement op : Dec M _) fun o =>
    ∃ r a d s e, o = .RegisterDirectionSizeRegisterDisplacement r d s a e ∧ (d = .MemoryToRegister ∨ d = .RegisterToMemory) :=
  .bind (P := fun x => x.2.1 = .MemoryToRegister ∨ x.2.1 = .RegisterToMemory) (.step fun _ => .ofPure (by dsimp only; split <;> simp)) fun _ h => .ofPure ⟨_, _, _, _, _, rfl, h⟩
theorem post_sizeRegEa : Post (newSizeRegisterEffectiveAddress op : Dec M _) fun o => ∃ s r am, o = .SizeRegisterEffectiveAddress s r am :=
  .step fun _ => .ofPure ⟨_, _, _, rfl⟩
theorem post_move : Post (newSizeEffectiveAddressEffectiveAddress op : Dec M _) fun o => ∃ s dst src, o = .SizeEffectiveAddressEffectiveAddress s dst src :=
  .step fun _ => .ofPure ⟨_, _, _, rfl⟩
theorem post_exg : Post (newRegisterOpmodeRegister op : Dec M _) fun o =>
    ∃ rx ry d, o = .RegisterOpmodeRegister rx d ry ∧ (d = .ExchangeData ∨ d = .ExchangeAddress ∨ d = .ExchangeDataAddress) :=
  .bind (P := fun x => x.2.1 = .ExchangeData ∨ x.2.1 = .ExchangeAddress ∨ x.2.1 = .ExchangeDataAddress) (.ofPure (by dsimp only; split; simp; split <;> simp)) fun _ h => .ofPure ⟨_, _, _, rfl, h⟩
theorem post_ext : Post (newOpmodeRegister op : Dec M _) fun o => ∃ m r, o = .OpmodeRegister m r ∧ m = toU8 (bits op 6 8) :=
  .bind (P := fun x => x.1 = toU8 (bits op 6 8)) (.ofPure rfl) fun _ h => .ofPure ⟨_, _, rfl, h⟩
theorem post_vector : Post (newVector op : Dec M _) fun o => ∃ v, o = .Vector v := .step fun _ => .ofPure ⟨_, rfl⟩
theorem post_regDisp : Post (newRegisterDisplacement op : Dec M _) fun o => ∃ r d, o = .RegisterDisplacement r d := .step fun _ => .ofPure ⟨_, _, rfl⟩
theorem post_reg : Post (newRegister op : Dec M _) fun o => ∃ r, o = .Register r := .step fun _ => .ofPure ⟨_, rfl⟩
theorem post_usp : Post (newDirectionRegister op : Dec M _) fun o => ∃ d r, o = .DirectionRegister d r ∧ (d = .UspToRegister ∨ d = .RegisterToUsp) :=
  .bind (P := fun x => x.1 = .UspToRegister ∨ x.1 = .RegisterToUsp) (.ofPure (by dsimp only; split <;> simp)) fun _ h => .ofPure ⟨_, _, rfl, h⟩
theorem post_movem : Post (newDirectionSizeEffectiveAddressList op : Dec M _) fun o =>
    ∃ d s am l, o = .DirectionSizeEffectiveAddressList d s am l ∧ (d = .MemoryToRegister ∨ d = .RegisterToMemory) :=
  .bind (P := fun x => x.1 = .MemoryToRegister ∨ x.1 = .RegisterToMemory) (.step fun _ => .step fun _ => .ofPure (by dsimp only; split <;> simp)) fun _ h => .ofPure ⟨_, _, _, _, rfl, h⟩
theorem post_dataSizeEa : Post (newDataSizeEffectiveAddress op : Dec M _) fun o => ∃ d s am, o = .DataSizeEffectiveAddress d s am ∧ d.toNat < 8 :=
  .bind (P := fun x => x.1.toNat < 8) (.step fun _ => .step fun _ => .ofPure (reg9_lt op)) fun _ h => .ofPure ⟨_, _, _, rfl, h⟩
theorem post_condEa : Post (newConditionEffectiveAddress op : Dec M _) fun o => ∃ c am, o = .ConditionEffectiveAddress c am ∧ c.toNat < 16 :=
  .bind (P := fun x => x.1.toNat < 16) (.step fun _ => .ofPure (cc_lt op)) fun _ h => .ofPure ⟨_, _, rfl, h⟩
theorem post_condRegDisp : Post (newConditionRegisterDisplacement op : Dec M _) fun o => ∃ c r d, o = .ConditionRegisterDisplacement c r d ∧ c.toNat < 16 :=
  .bind (P := fun x => x.1.toNat < 16) (.step fun _ => .ofPure (cc_lt op)) fun _ h => .ofPure ⟨_, _, _, rfl, h⟩
theorem post_disp : Post (newDisplacement op : Dec M _) fun o => ∃ d, o = .Displacement d := .step fun _ => .ofPure ⟨_, rfl⟩
theorem post_condDisp : Post (newConditionDisplacement op : Dec M _) fun o => ∃ c d, o = .ConditionDisplacement c d ∧ c.toNat < 16 :=
  .bind (P := fun x => x.1.toNat < 16) (.step fun _ => .ofPure (cc_lt op)) fun _ h => .ofPure ⟨_, _, rfl, h⟩
theorem post_regData : Post (newRegisterData op : Dec M _) fun o => ∃ r d, o = .RegisterData r d := .step fun _ => .ofPure ⟨_, _, rfl⟩
theorem post_regDirSizeEa : Post (newRegisterDirectionSizeEffectiveAddress op : Dec M _) fun o =>
    ∃ r d s am, o = .RegisterDirectionSizeEffectiveAddress r d s am ∧ d = (if bit op 8 then .DstEa else .DstReg) ∧ ((bits op 3 5).toNat ≠ 0 → ∀ n, am ≠ .Drd n) :=
  .bind (P := fun x => x.2.1 = (if bit op 8 then .DstEa else .DstReg) ∧ ((bits op 3 5).toNat ≠ 0 → ∀ n, x.2.2.2 ≠ .Drd n))
    (.step fun _ => .bind (P := fun am => (bits op 3 5).toNat ≠ 0 → ∀ n, am ≠ .Drd n) (fun it a it' ha h => post_mode _ _ _ h it a it' ha) fun _ h => .ofPure ⟨rfl, h⟩)
    fun _ h => .ofPure ⟨_, _, _, _, rfl, h⟩
theorem post_regSizeEa : Post (newRegisterSizeEffectiveAddress op : Dec M _) fun o => ∃ r s am, o = .RegisterSizeEffectiveAddress r s am :=
  .step fun _ => .ofPure ⟨_, _, _, rfl⟩
theorem post_regSizeModeReg : Post (newRegisterSizeModeRegister op : Dec M _) fun o =>
    ∃ rx ry s d, o = .RegisterSizeModeRegister rx s d ry ∧ (d = .RegisterToRegister ∨ d = .MemoryToMemory) ∧ Size.fromU16 (bits op 6 7) = some s :=
  .bind (P := fun x => (x.2.2.1 = .RegisterToRegister ∨ x.2.2.1 = .MemoryToMemory) ∧ Size.fromU16 (bits op 6 7) = some x.2.1)
    (.bind (P := fun s => Size.fromU16 (bits op 6 7) = some s)
      (fun it a it' ha => by
        cases he : Size.fromU16 (bits op 6 7) with
        | none => rw [he] at ha; cases ha
        | some s => rw [he] at ha; cases ha; rfl)
      fun _ h => .ofPure ⟨by dsimp only; split <;> simp, h⟩) fun _ h => .ofPure ⟨_, _, _, _, rfl, h⟩
theorem post_regSizeReg : Post (newRegisterSizeRegister op : Dec M _) fun o => ∃ rx ry s, o = .RegisterSizeRegister rx s ry := .step fun _ => .ofPure ⟨_, _, _, rfl⟩
theorem post_dirEa : Post (newDirectionEffectiveAddress op : Dec M _) fun o => ∃ d am, o = .DirectionEffectiveAddress d am ∧ (d = .Left ∨ d = .Right) :=
  .bind (P := fun x => x.1 = .Left ∨ x.1 = .Right) (.step fun _ => .ofPure (by dsimp only; split <;> simp)) fun _ h => .ofPure ⟨_, _, rfl, h⟩
theorem post_rotation : Post (newRotationDirectionSizeModeRegister op : Dec M _) fun o =>
    ∃ rx ry s d b, o = .RotationDirectionSizeModeRegister rx d s b ry ∧ rx.toNat < 8 ∧ (d = .Left ∨ d = .Right) :=
  .bind (P := fun x => x.1.toNat < 8 ∧ (x.2.1 = .Left ∨ x.2.1 = .Right)) (.step fun _ => .ofPure ⟨reg9_lt op, by dsimp only; split <;> simp⟩) fun _ h => .ofPure ⟨_, _, _, _, _, rfl, h⟩

end

/-- The bits of the opcode that decide the shape of the text. -/
def textCheck (isa : Isa) (n : Nat) : Bool :=
  match isa with
  | .Add | .And | .Or | .Sub => n / 256 % 2 == 0 || n / 8 % 8 != 0
  | .Cmp => n / 256 % 2 == 0
  | .Eor => n / 256 % 2 == 1
  | .Ext => n / 64 % 8 == 2 || n / 64 % 8 == 3
  | .Abcd | .Sbcd => n / 64 % 4 == 0
  | _ => true

set_option maxRecDepth 100000 in
set_option maxHeartbeats 4000000 in
theorem textCheck_all : checkTable textCheck = true := by apply checkTable_intro <;> decide +kernel

theorem dir_ea {op : U16} (h : op.toNat / 256 % 2 = 1) : (if bit op 8 then Direction.DstEa else .DstReg) = .DstEa := by
  rw [bit_eq op 8 (by omega), if_pos (by simpa using h)]
theorem dir_reg {op : U16} (h : op.toNat / 256 % 2 = 0) : (if bit op 8 then Direction.DstEa else .DstReg) = .DstReg := by
  rw [bit_eq op 8 (by omega), if_neg (by simp only [decide_eq_true_eq]; omega)]

theorem written_binary {op : U16} {o : Operands} (hc : (op.toNat / 256 % 2 == 0 || op.toNat / 8 % 8 != 0) = true)
    (h : ∃ r d s am, o = .RegisterDirectionSizeEffectiveAddress r d s am ∧ d = (if bit op 8 then .DstEa else .DstReg) ∧ ((bits op 3 5).toNat ≠ 0 → ∀ n, am ≠ .Drd n)) :
    ∃ r d s am, o = .RegisterDirectionSizeEffectiveAddress r d s am ∧ (d = .DstReg ∨ d = .DstEa ∧ ∀ n, am ≠ .Drd n) := by
  obtain ⟨r, d, s, am, ho, hd, ha⟩ := h
  refine ⟨r, d, s, am, ho, ?_⟩
  by_cases h8 : op.toNat / 256 % 2 = 0
  · exact .inl (hd.trans (dir_reg h8))
  · have hm : op.toNat / 8 % 8 ≠ 0 := by simpa [h8] using hc
    exact .inr ⟨hd.trans (dir_ea (by omega)), ha (by rw [bits_toNat op 3 2 (by omega)]; exact hm)⟩

theorem written_bcd {op : U16} {o : Operands} (hc : (op.toNat / 64 % 4 == 0) = true)
    (h : ∃ rx ry s d, o = .RegisterSizeModeRegister rx s d ry ∧ (d = .RegisterToRegister ∨ d = .MemoryToMemory) ∧ Size.fromU16 (bits op 6 7) = some s) :
    ∃ rx ry d, o = .RegisterSizeModeRegister rx .Byte d ry ∧ (d = .RegisterToRegister ∨ d = .MemoryToMemory) := by
  obtain ⟨rx, ry, s, d, ho, hd, hs⟩ := h
  have : Size.fromU16 (bits op 6 7) = some .Byte := size_dec (by simpa [sizeNo] using hc)
  rw [this] at hs
  cases hs
  exact ⟨rx, ry, d, ho, hd⟩

theorem written_ext {op : U16} {o : Operands} (hc : (op.toNat / 64 % 8 == 2 || op.toNat / 64 % 8 == 3) = true)
    (h : ∃ m r, o = .OpmodeRegister m r ∧ m = toU8 (bits op 6 8)) : ∃ m r, o = .OpmodeRegister m r ∧ (m = 2 ∨ m = 3) := by
  obtain ⟨m, r, ho, hm⟩ := h
  refine ⟨m, r, ho, ?_⟩
  have hb := bits_toNat op 6 2 (by omega)
  have hv : m.toNat = op.toNat / 64 % 8 := by
    rw [hm, toU8, BitVec.toNat_setWidth, hb]; omega
  simp only [Bool.or_eq_true, beq_iff_eq] at hc
  rcases hc with hc | hc
  · exact .inl (BitVec.eq_of_toNat_eq (hv.trans hc))
  · exact .inr (BitVec.eq_of_toNat_eq (hv.trans hc))

/-- What the decoder returns has the shape its text is written for. -/
theorem written {op : U16} {pc : U32} {it it' : Iter M} {inst : Instruction} (h : Instruction.fromOpcode op pc it = some (inst, it')) :
    inst.opcode = op ∧ inst.pc = pc ∧ Written inst (decoder op) := by
  have hb : Post (Instruction.fromOpcode op pc : Dec M _) fun i => i.opcode = op ∧ i.pc = pc ∧ Post (isaEntryDecode (decoder op) op : Dec M _) (fun o => o = o) ∧
      ∃ jt jt', isaEntryDecode (M := M) (decoder op) op jt = some (i.operands, jt') := by
    refine .bind (P := fun o => ∃ jt jt', isaEntryDecode (M := M) (decoder op) op jt = some (o, jt')) (fun jt o jt' ho => ⟨jt, jt', ho⟩) fun o ho => .ofPure ⟨rfl, rfl, fun _ _ _ _ => rfl, ho⟩
  obtain ⟨h1, h2, -, jt, jt', hd⟩ := hb _ _ _ h
  refine ⟨h1, h2, ?_⟩
  have hc := decoder_of_check _ textCheck_all op
  generalize decoder op = isa at hd hc
  cases isa
  case Unknown => trivial
  case Add | And | Or | Sub => exact written_binary hc (post_regDirSizeEa op _ _ _ hd)
  case Abcd | Sbcd => exact written_bcd hc (post_regSizeModeReg op _ _ _ hd)
  case Ext => exact written_ext hc (post_ext op _ _ _ hd)
  case Cmp =>
    obtain ⟨r, d, s, am, ho, hd, -⟩ := post_regDirSizeEa op _ _ _ hd
    exact ⟨r, s, am, by rw [ho, hd, dir_reg (by simpa [textCheck] using hc)]⟩
  case Eor =>
    obtain ⟨r, d, s, am, ho, hd, -⟩ := post_regDirSizeEa op _ _ _ hd
    exact ⟨r, s, am, by rw [ho, hd, dir_ea (by simpa [textCheck] using hc)]⟩
  case Addx | Subx =>
    obtain ⟨rx, ry, s, d, ho, hd, -⟩ := post_regSizeModeReg op _ _ _ hd
    exact ⟨rx, ry, s, d, ho, hd⟩
  case Adda | Cmpa | Suba => exact post_regSizeEa op _ _ _ hd
  case Addi | Andi | Cmpi | Eori | Ori | Subi => exact post_sizeEaImm op _ _ _ hd
  case Addq | Subq => exact post_dataSizeEa op _ _ _ hd
  case Andiccr | Andisr | Eoriccr | Eorisr | Oriccr | Orisr | Stop => exact post_imm op _ _ _ hd
  case Asm | Lsm | Rom | Roxm => exact post_dirEa op _ _ _ hd
  case Asr | Lsr | Ror | Roxr => exact post_rotation op _ _ _ hd
  case Bcc => exact post_condDisp op _ _ _ hd
  case Bchg | Bclr | Bset | Btst => exact post_eaCount op _ _ _ hd
  case Bra | Bsr => exact post_disp op _ _ _ hd
  case Chk | Divs | Divu | Lea | Muls | Mulu => exact post_regEa op _ _ _ hd
  case Clr | Neg | Negx | Not | Tst => exact post_sizeEa op _ _ _ hd
  case Cmpm => exact post_regSizeReg op _ _ _ hd
  case Dbcc => exact post_condRegDisp op _ _ _ hd
  case Exg => exact post_exg op _ _ _ hd
  case Illegal | Nop | Reset | Rte | Rtr | Rts | Trapv => exact post_none op _ _ _ hd
  case Jmp | Jsr | Moveccr | Movefsr | Movesr | Nbcd | Pea | Tas => exact post_ea op _ _ _ hd
  case Link => exact post_regDisp op _ _ _ hd
  case Move => exact post_move op _ _ _ hd
  case Movea => exact post_sizeRegEa op _ _ _ hd
  case Moveusp => exact post_usp op _ _ _ hd
  case Movem => exact post_movem op _ _ _ hd
  case Movep => exact post_movep op _ _ _ hd
  case Moveq => exact post_regData op _ _ _ hd
  case Scc => exact post_condEa op _ _ _ hd
  case Swap | Unlk => exact post_reg op _ _ _ hd
  case Trap => exact post_vector op _ _ _ hd

end M68k
