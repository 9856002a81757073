import Verif.Lemmas.Text
/-
The reader of assembly lines gets back the instructions from the lines that the disassembler writes.
-/
namespace M68k.Spec.Reader
open Text

variable {pc : U32} {sz : Option Size} {f : Option Size → List Opnd → Option Reading}

/-- The meaning of a mnemonic with its suffix. -/
def lookup (pc : U32) (name : List Char) : Option (Option Size × (Option Size → List Opnd → Option Reading)) := do
  let (name, size) ← mnemonic name
  let (_, f) ← (mnemonics pc).find? (fun e => e.1 == name)
  some (size, f)

/-- A word at the beginning of a line that is a mnemonic. -/
structure Name (pc : U32) (name : List Char) (sz : Option Size) (f : Option Size → List Opnd → Option Reading) : Prop where
  space : ' ' ∉ name
  known : name ≠ "Unknown".toList
  lookup : lookup pc name = some (sz, f)

theorem line_rest {name rest cs : List Char} {ops : List Opnd} (h : Name pc name sz f) (h1 : cs.takeWhile (· ≠ ' ') = name) (h2 : (cs.dropWhile (· ≠ ' ')).tail = rest)
    (ho : operands rest = some ops) : line pc cs = f sz ops := by
  have hl := h.lookup
  unfold Reader.lookup at hl
  unfold line
  simp only [h1, h2]
  rw [if_neg h.known]
  cases hm : mnemonic name with
  | none => rw [hm] at hl; simp at hl
  | some p =>
    obtain ⟨nm, s⟩ := p
    rw [hm] at hl
    simp only [Option.bind_eq_bind, Option.bind_some] at hl ⊢
    cases hf : (mnemonics pc).find? (fun e => e.1 == nm) with
    | none => rw [hf] at hl; simp at hl
    | some q =>
      rw [hf] at hl
      simp only [Option.bind_some, Option.some.injEq, Prod.mk.injEq] at hl
      obtain ⟨rfl, rfl⟩ := hl
      rw [ho]
      rfl

theorem takeWhile_name {name rest : List Char} (h : ' ' ∉ name) : (name ++ ' ' :: rest).takeWhile (· ≠ ' ') = name := by
  induction name with
  | nil => simp
  | cons c l ih =>
    simp only [List.mem_cons, not_or] at h
    simp [Ne.symm h.1]
    simpa using ih h.2

theorem dropWhile_name {name rest : List Char} (h : ' ' ∉ name) : (name ++ ' ' :: rest).dropWhile (· ≠ ' ') = ' ' :: rest := by
  induction name with
  | nil => simp
  | cons c l ih =>
    simp only [List.mem_cons, not_or] at h
    simp [Ne.symm h.1]
    simpa using ih h.2

theorem line_eq {name rest : List Char} {ops : List Opnd} (h : Name pc name sz f) (ho : operands rest = some ops) :
    line pc (name ++ ' ' :: rest) = f sz ops :=
  line_rest h (takeWhile_name h.space) (by rw [dropWhile_name h.space]; rfl) ho

theorem line_alone {name : List Char} (h : Name pc name sz f) : line pc name = f sz [] := by
  have h1 : ∀ l : List Char, ' ' ∉ l → l.takeWhile (· ≠ ' ') = l ∧ l.dropWhile (· ≠ ' ') = [] := by
    intro l
    induction l with
    | nil => simp
    | cons c l ih =>
      intro h
      simp only [List.mem_cons, not_or] at h
      have := ih h.2
      simp [Ne.symm h.1]
      simpa using this
  exact line_rest h (h1 _ h.space).1 (by rw [(h1 _ h.space).2]) rfl

theorem operands_one {a : Text} {o : Opnd} (h : Reads a o) : operands a = some [o] := by
  have := h [] (Or.inl rfl)
  rw [List.append_nil] at this
  unfold operands
  cases a with
  | nil => simp [operand, startsNumber] at this
  | cons c l => simp [this]

theorem operands_two {a b : Text} {o p : Opnd} (h : Reads a o) (h' : Reads b p) : operands (a ++ ',' :: ' ' :: b) = some [o, p] := by
  have h1 := h (',' :: ' ' :: b) (Or.inr ⟨_, rfl⟩)
  have h2 := h' [] (Or.inl rfl)
  rw [List.append_nil] at h2
  unfold operands
  cases e : a ++ ',' :: ' ' :: b with
  | nil => simp at e
  | cons c l => rw [e] at h1; simp [h1, h2]

theorem line_one {name a : Text} {o : Opnd} (h : Name pc name sz f) (ha : Reads a o) : line pc (name ++ ' ' :: a) = f sz [o] := line_eq h (operands_one ha)

theorem line_two {name a b : Text} {o p : Opnd} (h : Name pc name sz f) (ha : Reads a o) (hb : Reads b p) :
    line pc (name ++ ' ' :: (a ++ ',' :: ' ' :: b)) = f sz [o, p] := line_eq h (operands_two ha hb)

/-! ### The mnemonics -/

/-- The mnemonics in the order of the table. -/
def names : List (List Char) := (mnemonics 0).map (·.1)

theorem find?_names {α : Type} {nm : List Char} : ∀ (l : List (List Char × α)) {i : Nat}, (l.map (·.1)).findIdx? (· == nm) = some i →
    l.find? (fun e => e.1 == nm) = l[i]?
  | [], _, h => by simp at h
  | e :: l, i, h => by
    rw [List.map_cons, List.findIdx?_cons] at h
    rw [List.find?_cons]
    cases he : e.1 == nm with
    | true => simp only [he, if_true, Option.some.injEq] at h; subst h; rfl
    | false =>
      simp only [he, Bool.false_eq_true, if_false, Option.map_eq_some_iff] at h
      obtain ⟨j, hj, rfl⟩ := h
      exact find?_names l hj

theorem names_eq (pc : U32) : (mnemonics pc).map (·.1) = names := rfl

theorem name_of {name nm : List Char} (i : Nat) (h1 : ' ' ∉ name ∧ name ≠ "Unknown".toList ∧ mnemonic name = some (nm, sz) ∧ names.findIdx? (· == nm) = some i)
    (h2 : (mnemonics pc)[i]? = some (nm, f)) : Name pc name sz f := by
  obtain ⟨h3, h4, h5, h6⟩ := h1
  refine ⟨h3, h4, ?_⟩
  unfold lookup
  rw [h5]
  simp only [Option.bind_eq_bind, Option.bind_some]
  rw [find?_names _ (by rw [names_eq]; exact h6), h2]
  rfl

/-! ### The families of instructions -/

section
variable {isa : Isa} {nm : Text} {s : Size} (r rx ry : U8) (am : AddressingMode)

theorem binary_reg (h : Name pc nm (some s) (binary isa)) :
    line pc (nm ++ ' ' :: (am.text ++ ',' :: ' ' :: 'D' :: dec r)) = known isa (.RegisterDirectionSizeEffectiveAddress r .DstReg s am.canonical) := by
  rw [line_two h (reads_mode am) (reads_d r)]
  cases am <;> simp [binary, opndOf, Opnd.mode, reg, AddressingMode.canonical, brief_canonical]

theorem binary_mem (h : Name pc nm (some s) (binary isa)) (hd : ∀ n, am ≠ .Drd n) :
    line pc (nm ++ ' ' :: ('D' :: dec r ++ ',' :: ' ' :: am.text)) = known isa (.RegisterDirectionSizeEffectiveAddress r .DstEa s am.canonical) := by
  rw [line_two h (reads_d r) (reads_mode am)]
  cases am
  case Drd n => exact absurd rfl (hd n)
  all_goals simp [binary, opndOf, Opnd.mode, reg, AddressingMode.canonical, brief_canonical]

theorem toAddress_line (h : Name pc nm (some s) (toAddress isa)) :
    line pc (nm ++ ' ' :: (am.text ++ ',' :: ' ' :: 'A' :: dec r)) = known isa (.RegisterSizeEffectiveAddress r s am.canonical) := by
  rw [line_two h (reads_mode am) (reads_a r)]
  simp [toAddress, mode_opndOf, reg]

theorem immediate_line {c d : Option Isa} (h : Name pc nm (some s) (immediate isa c d)) (v : U32) :
    line pc (nm ++ ' ' :: ('#' :: dec v ++ ',' :: ' ' :: am.text)) = known isa (.SizeEffectiveAddressImmediate s am.canonical v) := by
  rw [line_two h (reads_imm v (by omega)) (reads_mode am)]
  simp [immediate, mode_opndOf]

theorem immediate_ccr {i : Isa} {d : Option Isa} (h : Name pc nm none (immediate isa (some i) d)) (v : U16) :
    line pc (nm ++ ' ' :: (hex v ++ ',' :: ' ' :: ['C', 'C', 'R'])) = known i (.Immediate v) := by
  rw [line_two h (reads_lit v (by omega)) reads_ccr]
  simp [immediate]

theorem immediate_sr {i : Isa} {d : Option Isa} (h : Name pc nm none (immediate isa d (some i))) (v : U16) :
    line pc (nm ++ ' ' :: (hex v ++ ',' :: ' ' :: ['S', 'R'])) = known i (.Immediate v) := by
  rw [line_two h (reads_lit v (by omega)) reads_sr]
  simp [immediate]

theorem ofInt_mod8 {d : U8} (h : d.toNat < 8) : BitVec.ofInt 8 (((if d = 0 then 8 else d : U8).toNat : Int) % 8) = d := by
  have key : ∀ n : Fin 8, BitVec.ofInt 8 (((if (BitVec.ofNat 8 n.val) = 0 then 8 else (BitVec.ofNat 8 n.val) : U8).toNat : Int) % 8) = BitVec.ofNat 8 n.val := by decide
  have := key ⟨d.toNat, h⟩
  simpa using this

theorem quick_line (h : Name pc nm (some s) (quick isa)) {d : U8} (hd : d.toNat < 8) :
    line pc (nm ++ ' ' :: ('#' :: dec (if d = 0 then 8 else d : U8) ++ ',' :: ' ' :: am.text)) = known isa (.DataSizeEffectiveAddress d s am.canonical) := by
  rw [line_two h (reads_imm _ (by omega)) (reads_mode am)]
  simp only [quick, mode_opndOf, Option.bind_eq_bind, Option.bind_some]
  rw [ofInt_mod8 hd]

theorem extended_reg (h : Name pc nm sz f) (hf : f sz = extended isa s) :
    line pc (nm ++ ' ' :: ('D' :: dec ry ++ ',' :: ' ' :: 'D' :: dec rx)) = known isa (.RegisterSizeModeRegister rx s .RegisterToRegister ry) := by
  rw [line_two h (reads_d ry) (reads_d rx), hf]
  simp [extended, reg]

theorem extended_mem (h : Name pc nm sz f) (hf : f sz = extended isa s) :
    line pc (nm ++ ' ' :: (('-' :: '(' :: 'A' :: (dec ry ++ [')'])) ++ ',' :: ' ' :: '-' :: '(' :: 'A' :: (dec rx ++ [')']))) =
      known isa (.RegisterSizeModeRegister rx s .MemoryToMemory ry) := by
  rw [line_two h (reads_predec ry) (reads_predec rx), hf]
  simp [extended, reg]

theorem shift_mem {i : Isa} {d : Direction} (h : Name pc nm none (shift isa i d)) :
    line pc (nm ++ ' ' :: am.text) = known isa (.DirectionEffectiveAddress d am.canonical) := by
  rw [line_one h (reads_mode am)]
  simp [shift, mode_opndOf]

theorem shift_reg {i : Isa} {d : Direction} (h : Name pc nm (some s) (shift i isa d)) :
    line pc (nm ++ ' ' :: ('D' :: dec rx ++ ',' :: ' ' :: 'D' :: dec ry)) = known isa (.RotationDirectionSizeModeRegister rx d s true ry) := by
  rw [line_two h (reads_d rx) (reads_d ry)]
  simp [shift, reg]

theorem shift_imm {i : Isa} {d : Direction} (h : Name pc nm (some s) (shift i isa d)) (hd : rx.toNat < 8) :
    line pc (nm ++ ' ' :: ('#' :: dec (if rx = 0 then 8 else rx : U8) ++ ',' :: ' ' :: 'D' :: dec ry)) = known isa (.RotationDirectionSizeModeRegister rx d s false ry) := by
  rw [line_two h (reads_imm _ (by omega)) (reads_d ry)]
  simp only [shift, reg]
  rw [ofInt_mod8 hd]
  simp

theorem bitOp_reg (h : Name pc nm none (bitOp isa)) :
    line pc (nm ++ ' ' :: ('D' :: dec r ++ ',' :: ' ' :: am.text)) = some (.instruction isa true (.EffectiveAddressCount am.canonical r)) := by
  rw [line_two h (reads_d r) (reads_mode am)]
  simp [bitOp, reg, mode_opndOf]

theorem bitOp_imm (h : Name pc nm none (bitOp isa)) :
    line pc (nm ++ ' ' :: ('#' :: dec r ++ ',' :: ' ' :: am.text)) = some (.instruction isa false (.EffectiveAddressCount am.canonical r)) := by
  rw [line_two h (reads_imm r (by omega)) (reads_mode am)]
  simp [bitOp, mode_opndOf]

theorem wordToData_line (h : Name pc nm (some .Word) (wordToData isa)) :
    line pc (nm ++ ' ' :: (am.text ++ ',' :: ' ' :: 'D' :: dec r)) = known isa (.RegisterEffectiveAddress r am.canonical) := by
  rw [line_two h (reads_mode am) (reads_d r)]
  simp [wordToData, reg, mode_opndOf]

theorem sized_line (h : Name pc nm (some s) (sized isa)) : line pc (nm ++ ' ' :: am.text) = known isa (.SizeEffectiveAddress s am.canonical) := by
  rw [line_one h (reads_mode am)]
  simp [sized, mode_opndOf]

theorem single_line (h : Name pc nm none (single isa)) : line pc (nm ++ ' ' :: am.text) = known isa (.EffectiveAddress am.canonical) := by
  rw [line_one h (reads_mode am)]
  simp [single, mode_opndOf]

theorem alone_line (h : Name pc nm none (alone isa)) : line pc nm = known isa .NoOperands := line_alone h

theorem leadsTo_disp (d : U16) : leadsTo pc d.toInt (pc + 2 + d.signExtend 32).toNat = true := by
  have : BitVec.ofInt 32 d.toInt = d.signExtend 32 := rfl
  simp [leadsTo, this]

theorem branch_line (h : Name pc nm none (branch isa pc)) (d : U16) :
    line pc (nm ++ ' ' :: (sdec d ++ (' ' :: '<' :: (hex (pc + 2 + d.signExtend 32) ++ ['>'])))) = known isa (.Displacement d) := by
  rw [line_one h (reads_rel d _)]
  simp only [branch, leadsTo_disp, if_true, BitVec.ofInt_toInt]

end

end M68k.Spec.Reader
