import Verif.Spec.Reader
import Verif.Model.Text
import Verif.Lemmas.Operand
/-
The reader of assembly lines gets back the numbers and the operands that the disassembler writes.
-/
namespace M68k.Spec.Reader
open Text

/-! ### Numbers -/

theorem digit_val {d : Nat} (h : d < 16) : digitVal (digit d) = some d := by
  have : ∀ d : Fin 16, digitVal (digit d.val) = some d.val := by decide
  exact this ⟨d, h⟩

theorem digits_digit {b acc d : Nat} (hb : b ≤ 16) (h : d < b) (cs : List Char) : digits b acc (digit d :: cs) = digits b (acc * b + d) cs := by
  rw [digits, digit_val (by omega)]
  simp [h]

theorem digits_aux {b : Nat} (hb : b ≤ 16) (hb2 : 2 ≤ b) : ∀ fuel n (cs : List Char), 0 < fuel → n < b ^ fuel →
    digits b 0 (Text.digitsAux b fuel n ++ cs) = digits b n cs
  | 0, _, _, h, _ => absurd h (Nat.lt_irrefl _)
  | fuel + 1, n, cs, _, hn => by
    unfold Text.digitsAux
    split
    next h => rw [List.singleton_append, digits_digit hb h]; simp
    next h =>
      have hf : fuel ≠ 0 := by rintro rfl; simp at hn; omega
      rw [List.append_assoc, digits_aux hb hb2 fuel (n / b) _ (by omega) ((Nat.div_lt_iff_lt_mul (by omega)).2 (by rw [Nat.pow_succ] at hn; exact hn)),
        List.singleton_append, digits_digit hb (Nat.mod_lt _ (by omega))]
      rw [Nat.mul_comm, Nat.div_add_mod]

/-- The text does not go on with a digit. -/
def Stops (cs : List Char) : Prop := ∀ c r, cs = c :: r → digitVal c = none

theorem digits_stops {b n : Nat} {cs : List Char} (h : Stops cs) : digits b n cs = (n, cs) := by
  cases cs with
  | nil => rfl
  | cons c r => rw [digits, h c r rfl]

theorem digits_dec {n : Nat} (hn : n < 2 ^ 32) {cs : List Char} (h : Stops cs) : digits 10 0 (Text.digits 10 n ++ cs) = (n, cs) := by
  rw [Text.digits, digits_aux (by omega) (by omega) 32 n cs (by omega) (Nat.lt_trans hn (by decide)), digits_stops h]

theorem digits_hex {n : Nat} (hn : n < 2 ^ 32) {cs : List Char} (h : Stops cs) : digits 16 0 (Text.digits 16 n ++ cs) = (n, cs) := by
  rw [Text.digits, digits_aux (by omega) (by omega) 32 n cs (by omega) (Nat.lt_trans hn (by decide)), digits_stops h]

theorem digitsAux_head {b : Nat} (hb : b ≤ 16) (hb2 : 2 ≤ b) : ∀ fuel n, 0 < fuel → n < b ^ fuel → ∃ d t, d < b ∧ Text.digitsAux b fuel n = digit d :: t
  | 0, _, h, _ => absurd h (Nat.lt_irrefl _)
  | fuel + 1, n, _, hn => by
    unfold Text.digitsAux
    split
    next h => exact ⟨n, [], h, rfl⟩
    next h =>
      have hf : fuel ≠ 0 := by rintro rfl; simp at hn; omega
      obtain ⟨d, t, hd, e⟩ := digitsAux_head hb hb2 fuel (n / b) (by omega) ((Nat.div_lt_iff_lt_mul (by omega)).2 (by rw [Nat.pow_succ] at hn; exact hn))
      exact ⟨d, t ++ [digit (n % b)], hd, by rw [e]; rfl⟩

theorem digits_head {n : Nat} (hn : n < 2 ^ 32) : ∃ d t, d < 10 ∧ Text.digits 10 n = digit d :: t :=
  digitsAux_head (by omega) (by omega) 32 n (by omega) (Nat.lt_trans hn (by decide))

theorem digit_facts {d : Nat} (h : d < 10) : ('0' ≤ digit d ∧ digit d ≤ '9') ∧ digit d ≠ '-' := by
  have : ∀ d : Fin 10, ('0' ≤ digit d.val ∧ digit d.val ≤ '9') ∧ digit d.val ≠ '-' := by decide
  exact this ⟨d, h⟩

theorem startsNumber_digits {n : Nat} (hn : n < 2 ^ 32) (cs : List Char) :
    startsNumber (Text.digits 10 n ++ cs) = true ∧ startsDigit (Text.digits 10 n ++ cs) = true ∧ (Text.digits 10 n ++ cs).head? ≠ some '-' := by
  obtain ⟨d, t, hd, e⟩ := digits_head hn
  have := digit_facts hd
  simp [e, startsNumber, startsDigit, this]

theorem number_digits {n : Nat} (hn : n < 2 ^ 32) {cs : List Char} (h : Stops cs) (hx : cs.head? ≠ some 'x') :
    number (Text.digits 10 n ++ cs) = (.dec n, cs) := by
  unfold number
  rw [if_neg (startsNumber_digits hn cs).2.2]
  simp [digits_dec hn h, hx]

theorem number_neg {n : Nat} (hn : n < 2 ^ 32) {cs : List Char} (h : Stops cs) :
    number ('-' :: Text.digits 10 n ++ cs) = (.dec (-n), cs) := by
  unfold number
  simp [digits_dec hn h]

section
variable {w : Nat} (x : BitVec w) (hw : w ≤ 32) {cs : List Char}
include hw

theorem toNat_lt32 : x.toNat < 2 ^ 32 := Nat.lt_of_lt_of_le x.isLt (Nat.pow_le_pow_right (by omega) hw)

theorem digits_decText (h : Stops cs) : digits 10 0 (dec x ++ cs) = (x.toNat, cs) := digits_dec (toNat_lt32 x hw) h

theorem number_decText (h : Stops cs) (hx : cs.head? ≠ some 'x') : number (dec x ++ cs) = (.dec x.toNat, cs) :=
  number_digits (toNat_lt32 x hw) h hx

theorem number_sdec (h : Stops cs) (hx : cs.head? ≠ some 'x') : number (sdec x ++ cs) = (.dec x.toInt, cs) := by
  have hl : x.toNat < 2 ^ w := x.isLt
  have hp : 2 ^ w ≤ 2 ^ 32 := Nat.pow_le_pow_right (by omega) hw
  unfold sdec
  by_cases hm : x.msb = true
  · have hm' := BitVec.toInt_eq_msb_cond x
    rw [hm] at hm'
    rw [if_pos hm, List.cons_append, ← List.cons_append]
    have h0 : x.toNat ≠ 0 := by
      intro h0
      have : x = 0#w := BitVec.eq_of_toNat_eq (by simp [h0])
      rw [this] at hm
      simp at hm
    rw [number_neg (by omega) h, hm']
    simp only [if_true]
    congr 2
    omega
  · have hm' := BitVec.toInt_eq_msb_cond x
    rw [if_neg hm] at hm'
    rw [if_neg hm, number_digits (by omega) h hx, hm']

theorem startsNumber_dec : startsNumber (dec x ++ cs) = true := (startsNumber_digits (toNat_lt32 x hw) cs).1

theorem startsNumber_sdec : startsNumber (sdec x ++ cs) = true := by
  have hl : x.toNat < 2 ^ w := x.isLt
  have hp : 2 ^ w ≤ 2 ^ 32 := Nat.pow_le_pow_right (by omega) hw
  unfold sdec
  split
  next hm =>
    have h0 : x.toNat ≠ 0 := by
      intro h0
      have : x = 0#w := BitVec.eq_of_toNat_eq (by simp [h0])
      rw [this] at hm
      simp at hm
    have := (startsNumber_digits (n := 2 ^ w - x.toNat) (by omega) cs).2.1
    simpa [startsNumber] using this
  · exact (startsNumber_digits (toNat_lt32 x hw) cs).1

theorem number_hex (h : Stops cs) : number (hex x ++ cs) = (.hex x.toNat, cs) := by
  unfold number hex
  show (if (some '0' : Option Char) = some '-' then _ else _) = _
  rw [if_neg (by decide)]
  have : digits 10 0 ("0x".toList ++ Text.digits 16 x.toNat ++ cs) = (0, 'x' :: (Text.digits 16 x.toNat ++ cs)) := by
    show digits 10 0 ('0' :: 'x' :: (Text.digits 16 x.toNat ++ cs)) = _
    rw [digits]; simp [digitVal, digits]
  rw [this]
  simp [digits_hex (toNat_lt32 x hw) h]

theorem startsNumber_hex : startsNumber (hex x ++ cs) = true := by
  show startsNumber ('0' :: _) = true
  simp [startsNumber, startsDigit]

end

theorem Stops.cons {c : Char} {r : List Char} (h : digitVal c = none) : Stops (c :: r) := fun _ _ e => by cases e; exact h
theorem Stops.nil : Stops [] := fun _ _ e => by cases e

/-! ### Operands -/

/-- What may follow an operand. -/
def Ends (cs : List Char) : Prop := cs = [] ∨ ∃ r, cs = ',' :: r

theorem Ends.stops {cs : List Char} (h : Ends cs) : Stops cs := by
  rcases h with rfl | ⟨r, rfl⟩
  · exact Stops.nil
  · exact Stops.cons (by decide)

theorem Ends.notX {cs : List Char} (h : Ends cs) : cs.head? ≠ some 'x' := by
  rcases h with rfl | ⟨r, rfl⟩ <;> simp

/-- The text of an operand is read back, whatever follows. -/
def Reads (t : Text) (o : Opnd) : Prop := ∀ cs, Ends cs → operand (t ++ cs) = some (o, cs)

/-- The index register of a brief extension word. -/
def indexOf (b : BriefExtensionWord) : Index := ⟨b.isAddressReg, b.reg.toNat, b.isLong⟩

theorem index_text (b : BriefExtensionWord) (cs : List Char) : index (b.text ++ (')' :: cs)) = some (indexOf b, cs) := by
  have hd : ∀ cs, digits 10 0 (dec b.reg ++ ('.' :: cs)) = (b.reg.toNat, '.' :: cs) := fun cs => digits_decText _ (by omega) (Stops.cons (by decide))
  unfold BriefExtensionWord.text index
  cases ha : b.isAddressReg <;> cases hl : b.isLong <;> simp [hd, indexOf, ha, hl]

/-- The operand that an addressing mode is written as. -/
def opndOf : AddressingMode → Opnd
  | .Drd r => .d r.toNat
  | .Ard r => .a r.toNat
  | .Ari r => .ind r.toNat
  | .Ariwpo r => .postinc r.toNat
  | .Ariwpr r => .predec r.toNat
  | .Ariwd r d => .disp d.toInt r.toNat
  | .Ariwi8 r b => .index b.disp.toInt r.toNat (indexOf b)
  | .AbsShort x => .absW x.toNat
  | .AbsLong x => .absL x.toNat
  | .Pciwd _ d => .pcDisp d.toInt
  | .Pciwi8 _ b => .pcIndex b.disp.toInt (indexOf b)
  | .Immediate v => .imm v.toNat

theorem reads_d (r : U8) : Reads ('D' :: dec r) (.d r.toNat) := by
  intro cs h
  have := digits_decText r (by omega) h.stops
  simp [operand, startsNumber, startsDigit, this]

theorem reads_a (r : U8) : Reads ('A' :: dec r) (.a r.toNat) := by
  intro cs h
  have := digits_decText r (by omega) h.stops
  simp [operand, startsNumber, startsDigit, this]

theorem reads_ind (r : U8) : Reads ('(' :: 'A' :: (dec r ++ [')'])) (.ind r.toNat) := by
  intro cs h
  have := digits_decText r (by omega) (cs := ')' :: cs) (Stops.cons (by decide))
  rcases h with rfl | ⟨t, rfl⟩ <;> simp [operand, parenthesis, startsNumber, startsDigit, this]

theorem reads_postinc (r : U8) : Reads ('(' :: 'A' :: (dec r ++ [')', '+'])) (.postinc r.toNat) := by
  intro cs h
  have := digits_decText r (by omega) (cs := ')' :: '+' :: cs) (Stops.cons (by decide))
  simp [operand, parenthesis, startsNumber, startsDigit, this]

theorem reads_predec (r : U8) : Reads ('-' :: '(' :: 'A' :: (dec r ++ [')'])) (.predec r.toNat) := by
  intro cs h
  have := digits_decText r (by omega) (cs := ')' :: cs) (Stops.cons (by decide))
  simp [operand, startsNumber, startsDigit, this]

theorem operand_paren (cs : List Char) : operand ('(' :: cs) = parenthesis cs := by
  simp [operand, startsNumber, startsDigit]

theorem reads_disp (d : U16) (r : U8) : Reads ('(' :: (sdec d ++ (',' :: ' ' :: 'A' :: (dec r ++ [')'])))) (.disp d.toInt r.toNat) := by
  intro cs h
  have h1 := number_sdec d (by omega) (cs := ',' :: ' ' :: 'A' :: (dec r ++ (')' :: cs))) (Stops.cons (by decide)) (by simp)
  have h2 := startsNumber_sdec d (by omega) (cs := ',' :: ' ' :: 'A' :: (dec r ++ (')' :: cs)))
  have h3 := digits_decText r (by omega) (cs := ')' :: cs) (Stops.cons (by decide))
  simp [operand_paren, parenthesis, h1, h2, h3]

theorem reads_index (r : U8) (b : BriefExtensionWord) :
    Reads ('(' :: (sdec b.disp ++ (',' :: ' ' :: 'A' :: (dec r ++ (',' :: ' ' :: (b.text ++ [')'])))))) (.index b.disp.toInt r.toNat (indexOf b)) := by
  intro cs h
  have h1 := number_sdec b.disp (by omega) (cs := ',' :: ' ' :: 'A' :: (dec r ++ (',' :: ' ' :: (b.text ++ (')' :: cs))))) (Stops.cons (by decide)) (by simp)
  have h2 := startsNumber_sdec b.disp (by omega) (cs := ',' :: ' ' :: 'A' :: (dec r ++ (',' :: ' ' :: (b.text ++ (')' :: cs)))))
  have h3 := digits_decText r (by omega) (cs := ',' :: ' ' :: (b.text ++ (')' :: cs))) (Stops.cons (by decide))
  simp [operand_paren, parenthesis, h1, h2, h3, index_text]

theorem reads_absW (x : U16) : Reads ('(' :: (hex x ++ [')', '.', 'W'])) (.absW x.toNat) := by
  intro cs h
  have h1 := number_hex x (by omega) (cs := ')' :: '.' :: 'W' :: cs) (Stops.cons (by decide))
  have h2 := startsNumber_hex x (by omega) (cs := ')' :: '.' :: 'W' :: cs)
  simp [operand_paren, parenthesis, h1, h2]

theorem reads_absL (x : U32) : Reads ('(' :: (hex x ++ [')', '.', 'L'])) (.absL x.toNat) := by
  intro cs h
  have h1 := number_hex x (by omega) (cs := ')' :: '.' :: 'L' :: cs) (Stops.cons (by decide))
  have h2 := startsNumber_hex x (by omega) (cs := ')' :: '.' :: 'L' :: cs)
  simp [operand_paren, parenthesis, h1, h2]

theorem reads_pcDisp (d : U16) : Reads ('(' :: (sdec d ++ [',', ' ', 'P', 'C', ')'])) (.pcDisp d.toInt) := by
  intro cs h
  have h1 := number_sdec d (by omega) (cs := ',' :: ' ' :: 'P' :: 'C' :: ')' :: cs) (Stops.cons (by decide)) (by simp)
  have h2 := startsNumber_sdec d (by omega) (cs := ',' :: ' ' :: 'P' :: 'C' :: ')' :: cs)
  simp [operand_paren, parenthesis, h1, h2]

theorem reads_pcIndex (b : BriefExtensionWord) :
    Reads ('(' :: (sdec b.disp ++ (',' :: ' ' :: 'P' :: 'C' :: ',' :: ' ' :: (b.text ++ [')'])))) (.pcIndex b.disp.toInt (indexOf b)) := by
  intro cs h
  have h1 := number_sdec b.disp (by omega) (cs := ',' :: ' ' :: 'P' :: 'C' :: ',' :: ' ' :: (b.text ++ (')' :: cs))) (Stops.cons (by decide)) (by simp)
  have h2 := startsNumber_sdec b.disp (by omega) (cs := ',' :: ' ' :: 'P' :: 'C' :: ',' :: ' ' :: (b.text ++ (')' :: cs)))
  simp [operand_paren, parenthesis, h1, h2, index_text]

section
variable {w : Nat} (x : BitVec w) (hw : w ≤ 32)
include hw

theorem reads_imm : Reads ('#' :: dec x) (.imm x.toNat) := by
  intro cs h
  have h1 := number_decText x hw h.stops h.notX
  simp [operand, startsNumber, startsDigit, h1]

theorem reads_simm : Reads ('#' :: sdec x) (.imm x.toInt) := by
  intro cs h
  have h1 := number_sdec x hw h.stops h.notX
  simp [operand, startsNumber, startsDigit, h1]

theorem reads_hexImm : Reads ('#' :: hex x) (.imm x.toNat) := by
  intro cs h
  have h1 := number_hex x hw h.stops
  simp [operand, startsNumber, startsDigit, h1]

theorem reads_lit : Reads (hex x) (.lit x.toNat) := by
  intro cs h
  have h1 := number_hex x hw h.stops
  have h2 := startsNumber_hex x hw (cs := cs)
  simp [operand, h1, h2]

end

theorem reads_rel (d : U16) (t : U32) : Reads (sdec d ++ (' ' :: '<' :: (hex t ++ ['>']))) (.rel d.toInt t.toNat) := by
  intro cs h
  have h1 := number_sdec d (by omega) (cs := ' ' :: '<' :: (hex t ++ ('>' :: cs))) (Stops.cons (by decide)) (by simp)
  have h2 := startsNumber_sdec d (by omega) (cs := ' ' :: '<' :: (hex t ++ ('>' :: cs)))
  have h3 := number_hex t (by omega) (cs := '>' :: cs) (Stops.cons (by decide))
  simp [operand, h1, h2, h3]

theorem reads_ccr : Reads ['C', 'C', 'R'] .ccr := fun cs _ => by simp [operand, startsNumber, startsDigit]
theorem reads_sr : Reads ['S', 'R'] .sr := fun cs _ => by simp [operand, startsNumber, startsDigit]
theorem reads_usp : Reads ['U', 'S', 'P'] .usp := fun cs _ => by simp [operand, startsNumber, startsDigit]

theorem reads_mode (am : AddressingMode) : Reads am.text (opndOf am) := by
  cases am with
  | Drd r => exact reads_d r
  | Ard r => exact reads_a r
  | Ari r => have := reads_ind r; simpa [AddressingMode.text, opndOf] using this
  | Ariwpo r => have := reads_postinc r; simpa [AddressingMode.text, opndOf] using this
  | Ariwpr r => have := reads_predec r; simpa [AddressingMode.text, opndOf] using this
  | Ariwd r d => have := reads_disp d r; simpa [AddressingMode.text, opndOf] using this
  | Ariwi8 r b => have := reads_index r b; simpa [AddressingMode.text, opndOf] using this
  | AbsShort x => have := reads_absW x; simpa [AddressingMode.text, opndOf] using this
  | AbsLong x => have := reads_absL x; simpa [AddressingMode.text, opndOf] using this
  | Pciwd _ d => have := reads_pcDisp d; simpa [AddressingMode.text, opndOf] using this
  | Pciwi8 _ b => have := reads_pcIndex b; simpa [AddressingMode.text, opndOf] using this
  | Immediate v => exact reads_imm v (by omega)

theorem reads_hexMode (am : AddressingMode) : Reads am.hexText (opndOf am) := by
  cases am with
  | Immediate v => exact reads_hexImm v (by omega)
  | Drd r => exact reads_mode (.Drd r)
  | Ard r => exact reads_mode (.Ard r)
  | Ari r => exact reads_mode (.Ari r)
  | Ariwpo r => exact reads_mode (.Ariwpo r)
  | Ariwpr r => exact reads_mode (.Ariwpr r)
  | Ariwd r d => exact reads_mode (.Ariwd r d)
  | Ariwi8 r b => exact reads_mode (.Ariwi8 r b)
  | AbsShort x => exact reads_mode (.AbsShort x)
  | AbsLong x => exact reads_mode (.AbsLong x)
  | Pciwd p d => exact reads_mode (.Pciwd p d)
  | Pciwi8 p b => exact reads_mode (.Pciwi8 p b)

/-! ### What an operand stands for -/

theorem brief_canonical (b : BriefExtensionWord) : brief b.disp.toInt (indexOf b) = b.canonical := by
  obtain ⟨w⟩ := b
  have hl := w.isLt
  have hr : (BriefExtensionWord.reg ⟨w⟩).toNat = w.toNat / 2 ^ 12 % 8 := by rw [Exec.bew_reg]; simp [u8, regField, Fin.ofNat]; omega
  have hd : (BriefExtensionWord.disp ⟨w⟩).toNat = w.toNat % 2 ^ 8 := by simp [BriefExtensionWord.disp, toU8]
  unfold brief BriefExtensionWord.canonical indexOf
  simp only [BitVec.ofInt_toInt, hr, hd, BriefExtensionWord.isAddressReg, BriefExtensionWord.isLong, Exec.bit_eq w 15 (by omega), Exec.bit_eq w 11 (by omega)]
  congr 2
  simp only [decide_eq_true_eq]
  split <;> split <;> omega

theorem mode_opndOf (am : AddressingMode) : (opndOf am).mode = some am.canonical := by
  cases am <;> simp [opndOf, Opnd.mode, AddressingMode.canonical, reg, brief_canonical]

end M68k.Spec.Reader
