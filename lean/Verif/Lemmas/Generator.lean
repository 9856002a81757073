import Verif.Model.Generator
import Verif.Lemmas.Table
/-
The table generator: the opcodes a call of `generate_opcodes` writes are those matching its format.
-/
namespace M68k.Gen

/-! ### Strings of bits -/

def bitChar (b : Bool) : Char := if b then '1' else '0'
/-- The number a list of bits denotes, most significant bit first. -/
def num : List Bool → Nat
  | [] => 0
  | b :: t => b.toNat * 2 ^ t.length + num t

theorem num_lt (l : List Bool) : num l < 2 ^ l.length := by
  induction l with
  | nil => simp [num]
  | cons b t ih =>
    have : b.toNat ≤ 1 := by cases b <;> simp
    simp only [num, List.length_cons, Nat.pow_succ]
    have := Nat.mul_le_mul_right (2 ^ t.length) this
    omega

theorem num_append (l r : List Bool) : num (l ++ r) = num l * 2 ^ r.length + num r := by
  induction l with
  | nil => simp [num]
  | cons b t ih =>
    simp only [List.cons_append, num, ih, List.length_append, Nat.add_mul, Nat.pow_add, Nat.mul_assoc, Nat.add_assoc]

theorem binStringLoop_eq (l : List Bool) (r : Nat) (k : Nat) (hr : r < 2 ^ k) :
    binStringLoop (l.map bitChar) r (2 ^ k) = num l.reverse * 2 ^ k + r := by
  induction l generalizing r k with
  | nil => simp [binStringLoop, num]
  | cons b t ih =>
    simp only [List.map_cons, binStringLoop, List.reverse_cons]
    rw [show (2 ^ k) <<< 1 = 2 ^ (k + 1) by rw [Nat.shiftLeft_eq, Nat.pow_one, Nat.pow_succ]]
    have hm : num (t.reverse ++ [b]) = num t.reverse * 2 + b.toNat := by rw [num_append]; simp [num]
    rw [hm]
    have h2 : (2 : Nat) ^ (k + 1) = 2 ^ k + 2 ^ k := by rw [Nat.pow_succ]; omega
    have h3 : ∀ a : Nat, a * 2 * 2 ^ k = a * 2 ^ k + a * 2 ^ k := fun a => by
      rw [Nat.mul_assoc, show 2 * 2 ^ k = 2 ^ k + 2 ^ k by omega, Nat.mul_add]
    cases b with
    | true =>
      have ho : r ||| 2 ^ k = 2 ^ k + r := by
        have := (Nat.two_pow_add_eq_or_of_lt hr 1).symm
        rw [Nat.mul_one] at this
        rw [Nat.or_comm]; exact this
      rw [if_pos (by rfl), ho, ih _ _ (by omega), h2]
      simp only [Bool.toNat_true, Nat.add_mul, Nat.mul_add, Nat.one_mul, h3]
      omega
    | false =>
      rw [if_neg (by decide), ih _ _ (by omega), h2]
      simp only [Bool.toNat_false, Nat.add_zero, Nat.mul_add, h3]

theorem binStringToInt_eq (l : List Bool) : binStringToInt (l.map bitChar) = num l := by
  unfold binStringToInt
  rw [← List.map_reverse]
  have := binStringLoop_eq l.reverse 0 0 (by decide)
  simp only [Nat.pow_zero, List.reverse_reverse] at this
  rw [this]; omega

/-- The `size` low bits of a number, most significant first. -/
def bitsOf (val : Nat) : Nat → List Bool
  | 0 => []
  | size + 1 => val.testBit size :: bitsOf val size

theorem length_bitsOf (val size : Nat) : (bitsOf val size).length = size := by
  induction size with
  | zero => rfl
  | succ n ih => simp [bitsOf, ih]

theorem num_bitsOf (val size : Nat) : num (bitsOf val size) = val % 2 ^ size := by
  induction size with
  | zero => simp [bitsOf, num]; omega
  | succ n ih =>
    simp only [bitsOf, num, ih, length_bitsOf, Nat.mod_pow_succ, Nat.testBit_eq_decide_div_mod_eq]
    have : val / 2 ^ n % 2 < 2 := Nat.mod_lt _ (by decide)
    rcases Nat.mod_two_eq_zero_or_one (val / 2 ^ n) with h | h <;> simp [h] <;> omega

theorem intToBinLoop_eq (val size : Nat) : intToBinLoop val size (2 ^ size >>> 1) = (bitsOf val size).map bitChar := by
  induction size with
  | zero => rfl
  | succ n ih =>
    have h1 : (2 : Nat) ^ (n + 1) >>> 1 = 2 ^ n := by
      rw [Nat.shiftRight_eq_div_pow, Nat.pow_succ]; omega
    simp only [intToBinLoop, bitsOf, List.map_cons, h1, ih, bitChar]
    congr 1
    by_cases h : val.testBit n
    · rw [if_pos, if_pos h]
      intro h0
      have := Nat.testBit_and val (2 ^ n) n
      rw [h0, h, Nat.testBit_two_pow_self] at this
      simp at this
    · rw [if_neg, if_neg h]
      intro h0
      apply h0
      apply Nat.eq_of_testBit_eq
      intro i
      rw [Nat.testBit_and, Nat.testBit_two_pow]
      by_cases hi : n = i
      · subst hi; simp [h]
      · simp [hi]

theorem intToBinString_eq (val size : Nat) (h : 0 < size) : intToBinString val size = some ((bitsOf val size).map bitChar) := by
  unfold intToBinString
  rw [if_neg (by omega), ← intToBinLoop_eq]
  congr 2
  rw [Nat.shiftLeft_eq, Nat.shiftRight_eq_div_pow, Nat.one_mul]
  obtain ⟨n, rfl⟩ : ∃ n, size = n + 1 := ⟨size - 1, by omega⟩
  rw [Nat.pow_succ]; simp

/-! ### Formats -/

/-- A format is a sequence of bits and variables. -/
inductive Seg where
  | bit (b : Bool)
  | var (c : Char) (n : Nat)

def parse : List Char → List Seg
  | [] => []
  | c :: t =>
    if c = '0' then .bit false :: parse t
    else if c = '1' then .bit true :: parse t
    else
      match parse t with
      | .var d n :: r => if c = d then .var c (n + 1) :: r else .var c 1 :: .var d n :: r
      | r => .var c 1 :: r

theorem parse_bits (bs : List Bool) (s : List Char) : parse (bs.map bitChar ++ s) = bs.map Seg.bit ++ parse s := by
  induction bs with
  | nil => rfl
  | cons b t ih => cases b <;> simp [parse, bitChar, ih]

/-- What a parsed format says of its text. -/
theorem parse_inv (s : List Char) :
    (parse s = [] → s = []) ∧
    (∀ b r, parse s = .bit b :: r → ∃ t, s = bitChar b :: t ∧ parse t = r) ∧
    (∀ c n r, parse s = .var c n :: r → ∃ t, s = List.replicate n c ++ t ∧ parse t = r ∧ c ≠ '0' ∧ c ≠ '1' ∧ 0 < n ∧ t.head? ≠ some c) := by
  induction s with
  | nil => simp [parse]
  | cons c t ih =>
    obtain ⟨ih0, ih1, ih2⟩ := ih
    rw [parse]
    split
    · rename_i h0; subst h0
      refine ⟨fun h => by simp at h, fun b r h => ?_, fun c n r h => by simp at h⟩
      simp at h
      obtain ⟨rfl, rfl⟩ := h
      exact ⟨t, rfl, rfl⟩
    · split
      · rename_i h0; subst h0
        refine ⟨fun h => by simp at h, fun b r h => ?_, fun c n r h => by simp at h⟩
        simp at h
        obtain ⟨rfl, rfl⟩ := h
        exact ⟨t, rfl, rfl⟩
      · rename_i hn0 hn1
        split
        · rename_i d n r hp
          obtain ⟨u, rfl, hu, hd0, hd1, hpos, hh⟩ := ih2 _ _ _ hp
          split
          · rename_i hcd; subst hcd
            refine ⟨fun h => by simp at h, fun b r h => by simp at h, fun c' n' r' h => ?_⟩
            simp at h
            obtain ⟨⟨rfl, rfl⟩, rfl⟩ := h
            exact ⟨u, by simp [List.replicate_succ], hu, hn0, hn1, by omega, hh⟩
          · rename_i hcd
            refine ⟨fun h => by simp at h, fun b r h => by simp at h, fun c' n' r' h => ?_⟩
            simp at h
            obtain ⟨⟨rfl, rfl⟩, rfl⟩ := h
            refine ⟨_, rfl, hp, hn0, hn1, by omega, ?_⟩
            obtain ⟨m, rfl⟩ : ∃ m, n = m + 1 := ⟨n - 1, by omega⟩
            simp only [List.replicate_succ, List.cons_append, List.head?_cons]
            intro h; exact hcd (by injection h with h; exact h.symm)
        · rename_i hnv
          refine ⟨fun h => by simp at h, fun b r h => by simp at h, fun c' n' r' h => ?_⟩
          simp at h
          obtain ⟨⟨rfl, rfl⟩, rfl⟩ := h
          refine ⟨_, rfl, rfl, hn0, hn1, by omega, ?_⟩
          cases hp : parse t with
          | nil => rw [ih0 hp]; simp
          | cons a r =>
            cases a with
            | bit b =>
              obtain ⟨u, rfl, _⟩ := ih1 _ _ hp
              simp only [List.head?_cons]
              cases b <;> simp [bitChar] <;> exact fun h => absurd h.symm ‹_›
            | var d n => exact absurd hp (hnv d n r)

theorem parse_split (bs : List Bool) (s : List Char) (R : List Seg) (h : parse s = bs.map Seg.bit ++ R) :
    ∃ t, s = bs.map bitChar ++ t ∧ parse t = R := by
  induction bs generalizing s with
  | nil => exact ⟨s, rfl, h⟩
  | cons b bs ih =>
    obtain ⟨t, rfl, ht⟩ := (parse_inv s).2.1 b _ h
    obtain ⟨u, rfl, hu⟩ := ih t ht
    exact ⟨u, rfl, hu⟩

theorem scanFirst_bits (bs : List Bool) (s : List Char) (i : Nat) :
    scanFirst (bs.map bitChar ++ s) i none 0 0 = scanFirst s (i + bs.length) none 0 0 := by
  induction bs generalizing i with
  | nil => rfl
  | cons b t ih =>
    simp only [List.map_cons, List.cons_append, scanFirst, List.length_cons]
    rw [if_neg (by cases b <;> decide), ih]
    congr 1; omega

theorem scanFirst_run (c : Char) (n : Nat) (s : List Char) (i pos len : Nat) :
    scanFirst (List.replicate n c ++ s) i (some c) pos len = scanFirst s (i + n) (some c) pos (len + n) := by
  induction n generalizing i len with
  | zero => rfl
  | succ n ih =>
    simp only [List.replicate_succ, List.cons_append, scanFirst, if_true, ih]
    congr 1 <;> omega

theorem scanFirst_eq (bs : List Bool) (c : Char) (n : Nat) (t : List Char) (h0 : c ≠ '0') (h1 : c ≠ '1') (hn : 0 < n)
    (hh : t.head? ≠ some c) (ht : t ≠ []) :
    scanFirst (bs.map bitChar ++ (List.replicate n c ++ t)) 0 none 0 0 = some (bs.length, n) := by
  obtain ⟨m, rfl⟩ : ∃ m, n = m + 1 := ⟨n - 1, by omega⟩
  rw [scanFirst_bits]
  simp only [List.replicate_succ, List.cons_append, scanFirst]
  rw [if_pos ⟨h0, h1⟩, scanFirst_run]
  cases t with
  | nil => exact absurd rfl ht
  | cons d t =>
    simp only [scanFirst]
    rw [if_neg (fun h => hh (by rw [h]; rfl))]
    simp; omega

theorem scanLast_bits (bs : List Bool) (s : List Char) (i pos len : Nat) (r : Option Char) (hr : r ≠ some '0' ∧ r ≠ some '1')
    (hb : bs ≠ []) :
    scanLast (bs.map bitChar ++ s) i r pos len = scanLast s (i + bs.length) none pos len := by
  induction bs generalizing i r with
  | nil => exact absurd rfl hb
  | cons b t ih =>
    simp only [List.map_cons, List.cons_append, scanLast, List.length_cons]
    rw [if_neg (by cases b with | false => exact hr.1 | true => exact hr.2), if_neg (by cases b <;> decide)]
    by_cases ht : t = []
    · subst ht; rfl
    · rw [ih _ _ (by simp) ht]; congr 1; omega

theorem scanLast_bits' (bs : List Bool) (s : List Char) (i pos len : Nat) :
    scanLast (bs.map bitChar ++ s) i none pos len = scanLast s (i + bs.length) none pos len := by
  by_cases h : bs = []
  · subst h; rfl
  · exact scanLast_bits bs s i pos len none (by simp) h

theorem scanLast_run (c : Char) (n : Nat) (s : List Char) (i pos len : Nat) :
    scanLast (List.replicate n c ++ s) i (some c) pos len = scanLast s (i + n) (some c) pos (len + n) := by
  induction n generalizing i len with
  | zero => rfl
  | succ n ih =>
    simp only [List.replicate_succ, List.cons_append, scanLast, if_true, ih]
    congr 1 <;> omega

theorem scanLast_eq (bs : List Bool) (c : Char) (n : Nat) (bs' : List Bool) (h0 : c ≠ '0') (h1 : c ≠ '1') (hn : 0 < n) :
    scanLast (bs.map bitChar ++ (List.replicate n c ++ bs'.map bitChar)) 0 none 0 0 = (bs.length, n) := by
  obtain ⟨m, rfl⟩ : ∃ m, n = m + 1 := ⟨n - 1, by omega⟩
  rw [scanLast_bits']
  simp only [List.replicate_succ, List.cons_append, scanLast]
  rw [if_neg (by simp), if_pos ⟨h0, h1⟩, scanLast_run]
  by_cases hb : bs' = []
  · subst hb; simp [scanLast]; omega
  · have := scanLast_bits bs' [] (0 + bs.length + 1 + m) (0 + bs.length) (0 + 1 + m) (some c) (by simp [h0, h1]) hb
    rw [List.append_nil] at this
    rw [this]; simp [scanLast]; omega

theorem substitute_eq (bs : List Bool) (c : Char) (n : Nat) (t : List Char) (hn : 0 < n) (x : Nat) :
    substitute (bs.map bitChar ++ (List.replicate n c ++ t)) bs.length n x = some ((bs ++ bitsOf x n).map bitChar ++ t) := by
  unfold substitute
  rw [intToBinString_eq _ _ hn]
  have hl : (bs.map bitChar).length = bs.length := List.length_map _
  have h1 : List.take bs.length (bs.map bitChar ++ (List.replicate n c ++ t)) = bs.map bitChar := by
    rw [← hl]; exact List.take_left'  rfl
  have h2 : List.drop (bs.length + n) (bs.map bitChar ++ (List.replicate n c ++ t)) = t := by
    rw [← List.append_assoc]
    exact List.drop_left' (by simp)
  rw [h1, h2]
  simp

/-! ### The opcodes of a format -/

/-- A field of a format: its width and its values. -/
abbrev Field := Nat × List Nat

def bitField (b : Bool) : Field := (1, [b.toNat])

def width (T : List Field) : Nat := (T.map (·.1)).sum

/-- The fields of a format, if there is one list of values for each variable and the values fit. -/
def fields : List Seg → List (List Nat) → Option (List Field)
  | [], [] => some []
  | [], _ :: _ => none
  | .bit b :: r, vs => (fields r vs).map (bitField b :: ·)
  | .var _ _ :: _, [] => none
  | .var _ n :: r, v :: vs => if v.all (Nat.blt · (2 ^ n)) then (fields r vs).map ((n, v) :: ·) else none

/-- The opcodes of a list of fields. -/
def leaves : List Field → List Nat
  | [] => [0]
  | (_, v) :: T => v.flatMap fun x => (leaves T).map (x * 2 ^ width T + ·)

theorem fields_nil {segs : List Seg} {T : List Field} (h : fields segs [] = some T) :
    ∃ bs : List Bool, segs = bs.map Seg.bit ∧ T = bs.map bitField := by
  induction segs generalizing T with
  | nil => simp only [fields, Option.some.injEq] at h; exact ⟨[], rfl, h.symm⟩
  | cons a r ih =>
    cases a with
    | bit b =>
      simp only [fields, Option.map_eq_some_iff] at h
      obtain ⟨T', hT, rfl⟩ := h
      obtain ⟨bs, rfl, rfl⟩ := ih hT
      exact ⟨b :: bs, rfl, rfl⟩
    | var c n => simp [fields] at h

theorem fields_cons {segs : List Seg} {v : List Nat} {vs : List (List Nat)} {T : List Field} (h : fields segs (v :: vs) = some T) :
    ∃ (bs : List Bool) (c : Char) (n : Nat) (r : List Seg) (T' : List Field), segs = bs.map Seg.bit ++ Seg.var c n :: r ∧
      fields r vs = some T' ∧ T = bs.map bitField ++ (n, v) :: T' ∧ ∀ x ∈ v, x < 2 ^ n := by
  induction segs generalizing T with
  | nil => simp [fields] at h
  | cons a r ih =>
    cases a with
    | bit b =>
      simp only [fields, Option.map_eq_some_iff] at h
      obtain ⟨T', hT, rfl⟩ := h
      obtain ⟨bs, c, n, r', T'', rfl, h1, rfl, h2⟩ := ih hT
      exact ⟨b :: bs, c, n, r', T'', rfl, h1, rfl, h2⟩
    | var c n =>
      simp only [fields] at h
      split at h
      · rename_i hv
        simp only [Option.map_eq_some_iff] at h
        obtain ⟨T', hT, rfl⟩ := h
        refine ⟨[], c, n, r, T', rfl, hT, rfl, fun x hx => ?_⟩
        have := List.all_eq_true.1 hv x hx
        exact Nat.le_of_ble_eq_true this
      · simp at h

theorem fields_bits (bs : List Bool) (r : List Seg) (vs : List (List Nat)) :
    fields (bs.map Seg.bit ++ r) vs = (fields r vs).map (bs.map bitField ++ ·) := by
  induction bs with
  | nil => simp
  | cons b t ih => simp [fields, ih, Option.map_map]; rfl

theorem leaves_bits (bs : List Bool) (T : List Field) :
    leaves (bs.map bitField ++ T) = (leaves T).map (num bs * 2 ^ width T + ·) := by
  induction bs with
  | nil => simp [num]
  | cons b t ih =>
    have hw : width (t.map bitField ++ T) = t.length + width T := by
      simp only [width, List.map_append, List.sum_append, List.map_map]
      congr 1
      clear ih
      induction t with
      | nil => rfl
      | cons a t ih => simp only [List.map_cons, List.sum_cons, ih, List.length_cons]; simp [bitField]; omega
    simp only [List.map_cons, List.cons_append]
    rw [show bitField b = (1, [b.toNat]) from rfl]
    simp only [leaves, hw, ih, List.flatMap_cons, List.flatMap_nil, List.append_nil, List.map_map, num]
    congr 1
    funext x
    simp only [Function.comp, Nat.pow_add, Nat.add_mul, Nat.mul_assoc, Nat.add_assoc]

theorem leaves_var (bs : List Bool) (n : Nat) (v : List Nat) (T : List Field) (hv : ∀ x ∈ v, x < 2 ^ n) :
    leaves (bs.map bitField ++ (n, v) :: T) = v.flatMap fun x => leaves ((bs ++ bitsOf x n).map bitField ++ T) := by
  rw [leaves_bits]
  simp only [leaves, leaves_bits, List.map_flatMap, List.map_map]
  rw [List.flatMap_def, List.flatMap_def]
  congr 1
  apply List.map_congr_left
  intro x hx
  congr 1
  funext j
  have hw : width ((n, v) :: T) = n + width T := by simp [width]
  simp only [Function.comp, hw, num_append, num_bitsOf, length_bitsOf, Nat.mod_eq_of_lt (hv x hx), Nat.pow_add, Nat.add_mul,
    Nat.mul_assoc, Nat.add_assoc]

theorem foldlM_congr {α β : Type} (l : List α) (f g : β → α → Option β) (b : β) (h : ∀ x ∈ l, ∀ b, f b x = g b x) :
    l.foldlM f b = l.foldlM g b := by
  induction l generalizing b with
  | nil => rfl
  | cons a t ih =>
    simp only [List.foldlM_cons]
    rw [h a (by simp)]
    congr 1
    funext c
    exact ih c fun x hx => h x (by simp [hx])

theorem foldlM_flatMap {α β γ : Type} (l : List α) (g : α → List γ) (f : β → γ → Option β) (b : β) :
    (l.flatMap g).foldlM f b = l.foldlM (fun b x => (g x).foldlM f b) b := by
  induction l generalizing b with
  | nil => rfl
  | cons a t ih =>
    simp only [List.flatMap_cons, List.foldlM_append, List.foldlM_cons]
    congr 1
    funext c
    exact ih c

/-- A call of `generate_opcodes` assigns the instruction to the opcodes of its format, one after the other. -/
theorem generateOpcodes_eq (isa : Isa) (values : List (List Nat)) (fmt : List Char) (T : List Field)
    (hf : fmt.length = 16) (hv : values ≠ []) (hT : fields (parse fmt) values = some T) (t : OpcodeTable) :
    generateOpcodes isa fmt values t = (leaves T).foldlM (fun t k => t.assign isa k) t := by
  induction values generalizing fmt T t with
  | nil => exact absurd rfl hv
  | cons v vs ih =>
    obtain ⟨bs, c, n, r, T', hp, hr, rfl, hx⟩ := fields_cons hT
    obtain ⟨u, rfl, hu⟩ := parse_split bs fmt _ hp
    obtain ⟨w, rfl, hw, h0, h1, hn, hh⟩ := (parse_inv u).2.2 c n r hu
    rw [leaves_var bs n v T' hx, foldlM_flatMap]
    cases vs with
    | nil =>
      obtain ⟨bs', rfl, rfl⟩ := fields_nil hr
      obtain ⟨w', rfl, hw'⟩ := parse_split bs' w [] (by simpa using hw)
      have := (parse_inv w').1 hw'
      subst this
      rw [generateOpcodes, if_neg (by simp only [hf]; simp)]
      apply foldlM_congr
      intro x hx' b
      rw [List.append_nil] at *
      rw [scanLast_eq bs c n bs' h0 h1 hn, substitute_eq bs c n _ hn]
      simp only [Option.bind_some]
      rw [← List.map_append, binStringToInt_eq, ← List.map_append]
      have := leaves_bits (bs ++ bitsOf x n ++ bs') []
      rw [List.append_nil] at this
      rw [this]
      simp [leaves, width, List.foldlM]
    | cons v' vs =>
      have hne : w ≠ [] := by
        rintro rfl
        rw [← hw] at hr
        simp [parse, fields] at hr
      rw [generateOpcodes, if_neg (by simp only [hf]; simp), scanFirst_eq bs c n w h0 h1 hn hh hne]
      simp only [Option.bind_some]
      apply foldlM_congr
      intro x hx' b
      rw [substitute_eq bs c n _ hn]
      simp only [Option.bind_some]
      refine ih _ _ ?_ (by simp) ?_ b
      · simp only [List.length_append, List.length_map, List.length_replicate, length_bitsOf] at hf ⊢
        omega
      · rw [parse_bits, fields_bits, hw, hr]; rfl

end M68k.Gen
