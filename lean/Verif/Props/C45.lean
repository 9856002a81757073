import Verif.Lemmas.WordFields
/-
C45: brief extension words and addressing mode fields.
-/
set_option linter.unusedSectionVars false
namespace M68k.Props
open Spec Exec
variable {M : Type} [MemoryAccess M] {it it' : Iter M}

/-- The accessors of a constructed brief extension word return the arguments. -/
theorem C45_brief (address long : Bool) (reg disp : U8) (h : reg.toNat ≤ 7) :
    ∃ b, BriefExtensionWord.new address reg long disp = some b ∧ b.isAddressReg = address ∧ b.reg = reg ∧ b.isLong = long ∧ b.disp = disp := by
  obtain ⟨k, rfl⟩ := reg_fin h
  obtain ⟨d, rfl⟩ : ∃ d : Fin 256, disp = BitVec.ofNat 8 d.val := ⟨⟨disp.toNat, disp.isLt⟩, by simp⟩
  have key : ∀ (a l : Bool) (k : Fin 8) (d : Fin 256), ∃ b, BriefExtensionWord.new a (BitVec.ofNat 8 k.val) l (BitVec.ofNat 8 d.val) = some b ∧
      b.isAddressReg = a ∧ b.reg = BitVec.ofNat 8 k.val ∧ b.isLong = l ∧ b.disp = BitVec.ofNat 8 d.val := by
    have hb : ∀ (a l : Bool) (k : Fin 8) (d : Fin 256), (match BriefExtensionWord.new a (BitVec.ofNat 8 k.val) l (BitVec.ofNat 8 d.val) with
      | some b => b.isAddressReg == a && b.reg == BitVec.ofNat 8 k.val && b.isLong == l && b.disp == BitVec.ofNat 8 d.val
      | none => false) = true := by decide +kernel
    intro a l k d
    have := hb a l k d
    split at this
    · rename_i b hn
      simp only [Bool.and_eq_true, beq_iff_eq] at this
      exact ⟨b, hn, this.1.1.1, this.1.1.2, this.1.2, this.2⟩
    · cases this
  exact key address long k d

/-- The constructor rejects every other register number. -/
theorem C45_brief_rejects (address long : Bool) (reg disp : U8) (h : 7 < reg.toNat) : BriefExtensionWord.new address reg long disp = none := by
  unfold BriefExtensionWord.new
  rw [if_neg]
  intro hl
  have : reg.toNat ≤ (7 : U8).toNat := hl
  have : (7 : U8).toNat = 7 := rfl
  omega

/-- Two constructed words are equal only if their arguments are. -/
theorem C45_brief_injective {a a' l l' : Bool} {r r' d d' : U8} (h : r.toNat ≤ 7) (h' : r'.toNat ≤ 7)
    (he : BriefExtensionWord.new a r l d = BriefExtensionWord.new a' r' l' d') : a = a' ∧ r = r' ∧ l = l' ∧ d = d' := by
  obtain ⟨b, e, e1, e2, e3, e4⟩ := C45_brief a l r d h
  obtain ⟨b', e', e1', e2', e3', e4'⟩ := C45_brief a' l' r' d' h'
  rw [e, e'] at he
  cases he
  exact ⟨e1 ▸ e1', e2 ▸ e2', e3 ▸ e3', e4 ▸ e4'⟩

/-- Decoding the assembled fields and words of a well-formed mode, from any memory that holds those words, gives the mode back and consumes exactly the
words. A PC relative mode comes back with the address of its extension word. -/
theorem C45_assemble {am : AddressingMode} {size : Option Size} {long : Bool} {field : U16} {words : List U16}
    (hw : WellFormed long am) (hs : (∃ v, am = .Immediate v) → ∃ sz, size = some sz ∧ (long = true ↔ sz = .Long))
    (ha : am.assemble long = (field, words)) (h : Feeds it words it') :
    AddressingMode.fromMemory (bits field 3 5) (toU8 (bits field 0 2)) size it = some (placedAt it.nextAddr am, it') := by
  have hf : (am.assemble long).1 = field := by rw [ha]
  have hl : (am.assemble long).2 = words := by rw [ha]
  subst hf hl
  refine ea_feeds hw (fun hv => ?_) h ?_
  · obtain ⟨sz, h1, h2⟩ := hs hv
    refine ⟨sz, h1, ?_⟩
    unfold Size.isLong
    by_cases hz : sz = .Long
    · rw [h2.2 hz, hz]; rfl
    · rw [decide_eq_false hz]
      cases hb : long with
      | false => rfl
      | true => exact absurd (h2.1 hb) hz
  · obtain ⟨h1, h2, h3⟩ := assemble_field hw
    omega

/-- The same for the destination fields of a MOVE, whenever the destination is accepted. -/
theorem C45_assembleMoveDst {am : AddressingMode} {size : Option Size} {field : U16} {words : List U16}
    (hw : WellFormed false am) (ha : am.assembleMoveDst = some (field, words)) (h : Feeds it words it') :
    AddressingMode.fromMemory (bits field 6 8) (toU8 (bits field 9 11)) size it = some (am, it') := by
  refine dst_feeds hw ha h ?_
  obtain ⟨h1, h2, h3, -⟩ := moveDst_field hw ha
  omega

/-- A MOVE destination is accepted unless it is PC relative or immediate. -/
theorem C45_moveDst_accepts (am : AddressingMode) :
    (∃ p, am.assembleMoveDst = some p) ↔ ¬ ((∃ p d, am = .Pciwd p d) ∨ (∃ p x, am = .Pciwi8 p x) ∨ ∃ v, am = .Immediate v) := by
  cases am <;> simp [AddressingMode.assembleMoveDst]

/-- The field of a well-formed mode never spills into the other bits of an opcode. -/
theorem C45_field {am : AddressingMode} {long : Bool} (hw : WellFormed long am) : (am.assemble long).1.toNat < 64 := by
  obtain ⟨h1, h2, h3⟩ := assemble_field hw
  omega

/-- An address register index of any kind, a long absolute address and a long immediate. -/
example : WellFormed false (.Ariwi8 7 ⟨0xF8FF⟩) ∧ WellFormed false (.AbsLong 0x12345678) ∧ WellFormed true (.Immediate 0x12345678) :=
  ⟨by show (7 : U8).toNat ≤ 7; decide, trivial, .inl rfl⟩
example : (AddressingMode.AbsLong 0x12345678).assemble false = (0x39, [0x1234, 0x5678]) := by decide
example : BriefExtensionWord.new true 5 false 0x80 = some ⟨0xD080⟩ := by decide
/-- A register above 7 spills into the mode field, so well-formedness is needed: D8 is decoded as A0. -/
example : (AddressingMode.Drd 8).assemble false = (AddressingMode.Ard 0).assemble false := by decide

end M68k.Props
