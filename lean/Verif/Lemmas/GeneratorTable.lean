import Verif.Lemmas.Generator
/-
The generated table against the decoder table, by descent on the bits of the opcode.
-/
namespace M68k.Gen

/-! ### The statements of the generator as fields -/

/-- Strictly increasing. -/
def increasing : List Nat → Bool
  | [] => true
  | [_] => true
  | a :: b :: t => Nat.blt a b && increasing (b :: t)

/-- Each field has a width, and distinct values. -/
def fieldsOk (T : List Field) : Bool := T.all fun f => Nat.blt 0 f.1 && f.2.all (Nat.blt · (2 ^ f.1)) && increasing f.2

abbrev Entry := List Field × Isa

/-- The opcodes a statement writes, if it is well formed. -/
def entry : GenStep → Option Entry
  | .opcodes format values isa =>
    if format.toList.length = 16 ∧ values ≠ [] then (fields (parse format.toList) values).map (·, isa) else none
  | .single index isa => if index < 65536 then some ([(16, [index])], isa) else none

theorem increasing_lt {a : Nat} {l : List Nat} (h : increasing (a :: l) = true) : (∀ x ∈ l, a < x) ∧ increasing l = true := by
  induction l generalizing a with
  | nil => exact ⟨by simp, rfl⟩
  | cons b t ih =>
    simp only [increasing, Bool.and_eq_true] at h
    have hab : a < b := Nat.le_of_ble_eq_true h.1
    refine ⟨fun x hx => ?_, h.2⟩
    rcases List.mem_cons.1 hx with rfl | hx
    · exact hab
    · exact Nat.lt_trans hab ((ih h.2).1 x hx)

theorem increasing_nodup {l : List Nat} (h : increasing l = true) : l.Nodup := by
  induction l with
  | nil => simp
  | cons a t ih =>
    have := increasing_lt h
    rw [List.nodup_cons]
    exact ⟨fun hm => Nat.lt_irrefl _ (this.1 a hm), ih this.2⟩

/-- The opcode is one of the fields' opcodes. -/
def fits : List Field → Nat → Bool
  | [], k => Nat.beq k 0
  | (_, v) :: T, k => v.contains (k / 2 ^ width T) && fits T (k % 2 ^ width T)

theorem leaves_lt {T : List Field} (h : fieldsOk T = true) {k : Nat} (hk : k ∈ leaves T) : k < 2 ^ width T := by
  induction T generalizing k with
  | nil => simp [leaves] at hk; subst hk; simp [width]
  | cons f T ih =>
    obtain ⟨n, v⟩ := f
    simp only [fieldsOk, List.all_cons, Bool.and_eq_true] at h
    simp only [leaves, List.mem_flatMap, List.mem_map] at hk
    obtain ⟨x, hx, j, hj, rfl⟩ := hk
    have hj := ih h.2 hj
    have hx : x < 2 ^ n := Nat.le_of_ble_eq_true (List.all_eq_true.1 h.1.1.2 x hx)
    rw [show width ((n, v) :: T) = n + width T by simp [width], Nat.pow_add]
    have := Nat.mul_le_mul_right (2 ^ width T) (show x + 1 ≤ 2 ^ n from hx)
    rw [Nat.add_mul] at this
    omega

theorem mem_leaves {T : List Field} (h : fieldsOk T = true) (k : Nat) : k ∈ leaves T ↔ fits T k = true := by
  induction T generalizing k with
  | nil => simp [leaves, fits]
  | cons f T ih =>
    obtain ⟨n, v⟩ := f
    have ht : fieldsOk T = true := by
      simp only [fieldsOk, List.all_cons, Bool.and_eq_true] at h; exact h.2
    simp only [leaves, fits, List.mem_flatMap, List.mem_map, Bool.and_eq_true, List.contains_iff_mem]
    have hp : 0 < 2 ^ width T := Nat.two_pow_pos _
    constructor
    · rintro ⟨x, hx, j, hj, rfl⟩
      have hjl := leaves_lt ht hj
      rw [Nat.mul_comm, Nat.mul_add_div hp, Nat.div_eq_of_lt hjl, Nat.add_zero, Nat.mul_add_mod, Nat.mod_eq_of_lt hjl]
      exact ⟨hx, (ih ht j).1 hj⟩
    · rintro ⟨hx, hj⟩
      refine ⟨_, hx, _, (ih ht _).2 hj, ?_⟩
      rw [Nat.mul_comm]; exact Nat.div_add_mod _ _

theorem nodup_leaves {T : List Field} (h : fieldsOk T = true) : (leaves T).Nodup := by
  induction T with
  | nil => simp [leaves]
  | cons f T ih =>
    obtain ⟨n, v⟩ := f
    have ht : fieldsOk T = true := by
      simp only [fieldsOk, List.all_cons, Bool.and_eq_true] at h; exact h.2
    have hv : increasing v = true := by
      simp only [fieldsOk, List.all_cons, Bool.and_eq_true] at h; exact h.1.2
    have hp : 0 < 2 ^ width T := Nat.two_pow_pos _
    simp only [leaves]
    have ih := ih ht
    clear h
    induction v with
    | nil => simp
    | cons a v ihv =>
      have hi := increasing_lt hv
      simp only [List.flatMap_cons]
      rw [List.nodup_append]
      refine ⟨?_, ihv hi.2, ?_⟩
      · refine List.Pairwise.map _ (fun x y hxy he => hxy (by omega)) ih
      · intro x hx y hy he
        subst he
        simp only [List.mem_map, List.mem_flatMap] at hx hy
        obtain ⟨j, hj, rfl⟩ := hx
        obtain ⟨b, hb, j', hj', he⟩ := hy
        have h1 := leaves_lt ht hj
        have h2 := leaves_lt ht hj'
        have hab := hi.1 b hb
        have := Nat.mul_le_mul_right (2 ^ width T) (show a + 1 ≤ b from hab)
        rw [Nat.add_mul] at this
        omega

theorem assign_fold (isa : Isa) (l : List Nat) (t : OpcodeTable) (hn : l.Nodup) (hl : ∀ k ∈ l, k < 65536 ∧ t k = .Unknown) :
    l.foldlM (fun t k => OpcodeTable.assign isa t k) t = some fun k => if k ∈ l then isa else t k := by
  induction l generalizing t with
  | nil => simp
  | cons a l ih =>
    rw [List.nodup_cons] at hn
    rw [List.foldlM_cons, OpcodeTable.assign, if_pos (hl a (by simp))]
    show List.foldlM _ _ l = _
    rw [ih _ hn.2 ?_]
    · congr 1
      funext k
      by_cases hk : k = a
      · subst hk; simp
      · simp [hk]
    · intro k hk
      have hka : k ≠ a := fun h => hn.1 (h ▸ hk)
      have := hl k (by simp [hk])
      exact ⟨this.1, by rw [if_neg hka]; exact this.2⟩

/-- The instructions of the statements writing an opcode. -/
def hits (E : List Entry) (k : Nat) : List Isa := (E.filter fun e => fits e.1 k).map (·.2)

def entryOk (e : Entry) : Bool := fieldsOk e.1 && Nat.beq (width e.1) 16

theorem run_entry {s : GenStep} {e : Entry} (he : entry s = some e) (ho : entryOk e = true) (t : OpcodeTable)
    (ht : ∀ k, k < 65536 → fits e.1 k = true → t k = .Unknown) :
    s.run t = some fun k => if k < 65536 ∧ fits e.1 k = true then e.2 else t k := by
  simp only [entryOk, Bool.and_eq_true] at ho
  obtain ⟨hf, hw⟩ := ho
  have hw := Nat.eq_of_beq_eq_true hw
  have hlt : ∀ k ∈ leaves e.1, k < 65536 := fun k hk => by have := leaves_lt hf hk; rw [hw] at this; exact this
  have hmem : ∀ k, (k < 65536 ∧ fits e.1 k = true) ↔ k ∈ leaves e.1 := fun k =>
    ⟨fun h => (mem_leaves hf k).2 h.2, fun h => ⟨hlt k h, (mem_leaves hf k).1 h⟩⟩
  simp only [hmem]
  cases s with
  | opcodes format values isa =>
    simp only [entry] at he
    split at he
    · rename_i hc
      simp only [Option.map_eq_some_iff] at he
      obtain ⟨T, hT, rfl⟩ := he
      show generateOpcodes isa format.toList values t = _
      rw [generateOpcodes_eq isa values _ T hc.1 hc.2 hT t]
      exact assign_fold isa _ t (nodup_leaves hf) fun k hk => ⟨hlt k hk, ht k (hlt k hk) ((mem_leaves hf k).1 hk)⟩
    · simp at he
  | single index isa =>
    simp only [entry] at he
    split at he
    · rename_i hc
      simp only [Option.some.injEq] at he
      subst he
      show OpcodeTable.set isa t index = _
      unfold OpcodeTable.set
      rw [if_pos hc]
      congr 1
      funext k
      simp [leaves, width]
    · simp at he

/-- When no opcode is written twice, the statements run and write the instruction hitting each opcode. -/
theorem run_steps (S : List GenStep) (E : List Entry) (hE : S.mapM entry = some E) (ho : E.all entryOk = true) (t : OpcodeTable)
    (h1 : ∀ k, k < 65536 → (hits E k).length ≤ 1) (ht : ∀ k, k < 65536 → t k ≠ .Unknown → hits E k = []) :
    ∃ t', S.foldlM GenStep.run t = some t' ∧ ∀ k, k < 65536 → t' k = match hits E k with | [] => t k | i :: _ => i := by
  induction S generalizing E t with
  | nil =>
    simp at hE
    subst hE
    exact ⟨t, rfl, fun k _ => rfl⟩
  | cons s S ih =>
    rw [List.mapM_cons] at hE
    cases he : entry s with
    | none => rw [he] at hE; simp at hE
    | some e =>
      rw [he] at hE
      cases hS : S.mapM entry with
      | none => rw [hS] at hE; simp at hE
      | some E' =>
        rw [hS] at hE
        simp at hE
        subst hE
        simp only [List.all_cons, Bool.and_eq_true] at ho
        have hc : ∀ k, hits (e :: E') k = if fits e.1 k = true then e.2 :: hits E' k else hits E' k := by
          intro k; unfold hits; rw [List.filter_cons]; split <;> rfl
        have hr := run_entry he ho.1 t fun k hk hfit => by
          by_cases hu : t k = .Unknown
          · exact hu
          · have := ht k hk hu
            rw [hc, if_pos hfit] at this
            simp at this
        have hnil : ∀ k, k < 65536 → fits e.1 k = true → hits E' k = [] := fun k hk hfit => by
          have := h1 k hk
          rw [hc, if_pos hfit] at this
          exact List.length_eq_zero_iff.1 (by rw [List.length_cons] at this; omega)
        obtain ⟨t', hrun, hval⟩ := ih E' hS ho.2 (fun k => if k < 65536 ∧ fits e.1 k = true then e.2 else t k)
          (fun k hk => by
            have := h1 k hk
            rw [hc] at this
            split at this
            · rw [List.length_cons] at this; omega
            · exact this)
          (fun k hk hne => by
            split at hne
            · rename_i hf; exact hnil k hk hf.2
            · rename_i hf
              have := ht k hk hne
              rw [hc, if_neg (fun h => hf ⟨hk, h⟩)] at this
              exact this)
        refine ⟨t', by rw [List.foldlM_cons, hr]; exact hrun, fun k hk => ?_⟩
        rw [hval k hk, hc]
        by_cases hf : fits e.1 k = true
        · rw [if_pos hf, hnil k hk hf]
          simp [hk, hf]
        · rw [if_neg hf]
          simp [hf]

/-! ### Descent on the bits of the opcode -/

/-- A field: any value, or one of a list. -/
inductive Tok where
  | any (n : Nat)
  | oneOf (n : Nat) (v : List Nat)
deriving DecidableEq

def Tok.width : Tok → Nat
  | .any n => n
  | .oneOf n _ => n

def tokWidth (T : List Tok) : Nat := (T.map Tok.width).sum

def Tok.has : Tok → Nat → Bool
  | .any n, x => Nat.blt x (2 ^ n)
  | .oneOf _ v, x => v.contains x

def tokFits : List Tok → Nat → Bool
  | [], k => Nat.beq k 0
  | f :: T, k => f.has (k / 2 ^ tokWidth T) && tokFits T (k % 2 ^ tokWidth T)

/-- A field as a token. -/
def tok (f : Field) : Tok := if f.2 = List.range (2 ^ f.1) then .any f.1 else .oneOf f.1 f.2

theorem tokWidth_map (T : List Field) : tokWidth (T.map tok) = width T := by
  induction T with
  | nil => rfl
  | cons f T ih =>
    simp only [tokWidth, width, List.map_cons, List.sum_cons] at *
    rw [ih]
    congr 1
    unfold tok; split <;> rfl

theorem tokFits_map (T : List Field) (k : Nat) : tokFits (T.map tok) k = fits T k := by
  induction T generalizing k with
  | nil => rfl
  | cons f T ih =>
    simp only [List.map_cons, tokFits, tokWidth_map, ih]
    obtain ⟨n, v⟩ := f
    simp only [fits]
    congr 1
    unfold tok
    split
    · rename_i h
      simp only at h
      subst h
      simp only [Tok.has]
      rw [Bool.eq_iff_iff, List.contains_iff_mem, List.mem_range]
      exact ⟨Nat.le_of_ble_eq_true, Nat.ble_eq_true_of_le⟩
    · rfl

/-- The tokens left after a first bit. -/
def deriv (b : Nat) : List Tok → Option (List Tok)
  | .any 1 :: T => some T
  | .any (n + 2) :: T => some (.any (n + 1) :: T)
  | .oneOf 1 v :: T => if v.contains b then some T else none
  | .oneOf (n + 2) v :: T =>
    match v.filterMap fun x => if Nat.beq (x / 2 ^ (n + 1)) b then some (x % 2 ^ (n + 1)) else none with
    | [] => none
    | a :: l => some (.oneOf (n + 1) (a :: l) :: T)
  | _ => none

def Pos (T : List Tok) : Prop := ∀ f ∈ T, 0 < f.width

theorem deriv_spec (b d : Nat) (hb : b < 2) (T : List Tok) (hp : Pos T) (hw : tokWidth T = d + 1) :
    (∀ T', deriv b T = some T' → Pos T' ∧ tokWidth T' = d ∧ ∀ k, k < 2 ^ d → tokFits T (b * 2 ^ d + k) = tokFits T' k) ∧
    (deriv b T = none → ∀ k, k < 2 ^ d → tokFits T (b * 2 ^ d + k) = false) := by
  cases T with
  | nil => simp [tokWidth] at hw
  | cons f T =>
    have hpT : Pos T := fun g hg => hp g (by simp [hg])
    have hwT : f.width + tokWidth T = d + 1 := by simpa [tokWidth] using hw
    have hpos : 0 < 2 ^ tokWidth T := Nat.two_pow_pos _
    have hf := hp f (by simp)
    -- the quotient and the remainder by the width of the other fields
    have key : ∀ m k, d = m + tokWidth T → k < 2 ^ d → (b * 2 ^ d + k) / 2 ^ tokWidth T = b * 2 ^ m + k / 2 ^ tokWidth T ∧
        (b * 2 ^ d + k) % 2 ^ tokWidth T = k % 2 ^ tokWidth T ∧ k / 2 ^ tokWidth T < 2 ^ m := by
      intro m k hd hk
      rw [hd, Nat.pow_add, show b * (2 ^ m * 2 ^ tokWidth T) = 2 ^ tokWidth T * (b * 2 ^ m) by
        rw [← Nat.mul_assoc, Nat.mul_comm], Nat.mul_add_div hpos, Nat.mul_add_mod]
      refine ⟨rfl, rfl, ?_⟩
      rw [Nat.div_lt_iff_lt_mul hpos, ← Nat.pow_add, ← hd]
      exact hk
    cases f with
    | any n =>
      simp only [Tok.width] at hwT hf
      match n, hf with
      | 1, _ =>
        have hd : d = 0 + tokWidth T := by omega
        refine ⟨fun T' h => ?_, fun h => by simp [deriv] at h⟩
        simp only [deriv, Option.some.injEq] at h
        subst h
        refine ⟨hpT, by omega, fun k hk => ?_⟩
        obtain ⟨h1, h2, h3⟩ := key 0 k hd hk
        simp only [tokFits, h1, h2, Tok.has]
        have : k / 2 ^ tokWidth T = 0 := by rw [Nat.pow_zero] at h3; exact Nat.lt_one_iff.1 h3
        rw [this, show Nat.blt (b * 2 ^ 0 + 0) (2 ^ 1) = true from Nat.ble_eq_true_of_le (by simp; omega), Bool.true_and, Nat.mod_eq_of_lt]
        have : d = tokWidth T := by omega
        rwa [← this]
      | n + 2, _ =>
        have hd : d = (n + 1) + tokWidth T := by omega
        refine ⟨fun T' h => ?_, fun h => by simp [deriv] at h⟩
        simp only [deriv, Option.some.injEq] at h
        subst h
        refine ⟨?_, ?_, fun k hk => ?_⟩
        · intro g hg
          rcases List.mem_cons.1 hg with rfl | hg
          · simp [Tok.width]
          · exact hpT g hg
        · simp only [tokWidth, List.map_cons, List.sum_cons, Tok.width] at *; omega
        · obtain ⟨h1, h2, h3⟩ := key (n + 1) k hd hk
          simp only [tokFits, h1, h2, Tok.has]
          congr 1
          have hb1 : b * 2 ^ (n + 1) ≤ 2 ^ (n + 1) := by
            have := Nat.mul_le_mul_right (2 ^ (n + 1)) (show b ≤ 1 by omega); omega
          have h2p : (2 : Nat) ^ (n + 2) = 2 ^ (n + 1) + 2 ^ (n + 1) := by rw [Nat.pow_succ 2 (n + 1)]; omega
          rw [show Nat.blt (b * 2 ^ (n + 1) + k / 2 ^ tokWidth T) (2 ^ (n + 2)) = true from Nat.ble_eq_true_of_le (by omega),
            show Nat.blt (k / 2 ^ tokWidth T) (2 ^ (n + 1)) = true from Nat.ble_eq_true_of_le (by omega)]
    | oneOf n v =>
      simp only [Tok.width] at hwT hf
      match n, hf with
      | 1, _ =>
        have hd : d = 0 + tokWidth T := by omega
        have hval : ∀ k, k < 2 ^ d → tokFits (.oneOf 1 v :: T) (b * 2 ^ d + k) = (v.contains b && tokFits T k) := fun k hk => by
          obtain ⟨h1, h2, h3⟩ := key 0 k hd hk
          simp only [tokFits, h1, h2, Tok.has]
          have : k / 2 ^ tokWidth T = 0 := by rw [Nat.pow_zero] at h3; exact Nat.lt_one_iff.1 h3
          rw [this, Nat.mod_eq_of_lt (by rw [show tokWidth T = d by omega]; exact hk)]
          simp
        simp only [deriv]
        split
        · rename_i hc
          refine ⟨fun T' h => ?_, fun h => by simp at h⟩
          simp only [Option.some.injEq] at h
          subst h
          exact ⟨hpT, by omega, fun k hk => by rw [hval k hk, hc, Bool.true_and]⟩
        · rename_i hc
          refine ⟨fun T' h => by simp at h, fun _ k hk => ?_⟩
          rw [hval k hk]
          simp only [Bool.not_eq_true] at hc
          rw [hc, Bool.false_and]
      | n + 2, _ =>
        have hd : d = (n + 1) + tokWidth T := by omega
        have hmem : ∀ y, y < 2 ^ (n + 1) → (b * 2 ^ (n + 1) + y ∈ v ↔
            y ∈ v.filterMap fun x => if Nat.beq (x / 2 ^ (n + 1)) b then some (x % 2 ^ (n + 1)) else none) := by
          intro y hy
          rw [List.mem_filterMap]
          have hp2 : 0 < 2 ^ (n + 1) := Nat.two_pow_pos _
          constructor
          · intro h
            refine ⟨_, h, ?_⟩
            rw [Nat.mul_comm, Nat.mul_add_div hp2, Nat.div_eq_of_lt hy, Nat.add_zero, Nat.mul_add_mod, Nat.mod_eq_of_lt hy,
              if_pos (Nat.beq_refl b)]
          · rintro ⟨x, hx, he⟩
            split at he
            · rename_i hq
              have hq := Nat.eq_of_beq_eq_true hq
              simp only [Option.some.injEq] at he
              rw [← hq, ← he, Nat.mul_comm, Nat.div_add_mod]
              exact hx
            · simp at he
        have hval : ∀ k, k < 2 ^ d → tokFits (.oneOf (n + 2) v :: T) (b * 2 ^ d + k) =
            ((v.filterMap fun x => if Nat.beq (x / 2 ^ (n + 1)) b then some (x % 2 ^ (n + 1)) else none).contains (k / 2 ^ tokWidth T) &&
              tokFits T (k % 2 ^ tokWidth T)) := fun k hk => by
          obtain ⟨h1, h2, h3⟩ := key (n + 1) k hd hk
          simp only [tokFits, h1, h2, Tok.has]
          congr 1
          rw [Bool.eq_iff_iff, List.contains_iff_mem, List.contains_iff_mem]
          exact hmem _ h3
        simp only [deriv]
        split
        · rename_i hv
          refine ⟨fun T' h => by simp at h, fun _ k hk => ?_⟩
          rw [hval k hk, hv]; rfl
        · rename_i a l hv
          refine ⟨fun T' h => ?_, fun h => by simp at h⟩
          simp only [Option.some.injEq] at h
          subst h
          refine ⟨?_, ?_, fun k hk => by rw [hval k hk, hv]; rfl⟩
          · intro g hg
            rcases List.mem_cons.1 hg with rfl | hg
            · simp [Tok.width]
            · exact hpT g hg
          · simp only [tokWidth, List.map_cons, List.sum_cons, Tok.width] at *; omega

abbrev TokEntry := List Tok × Isa

def tokHits (E : List TokEntry) (k : Nat) : List Isa := (E.filter fun e => tokFits e.1 k).map (·.2)

def derivs (b : Nat) (E : List TokEntry) : List TokEntry := E.filterMap fun e => (deriv b e.1).map (·, e.2)

/-- Entries of width `d`. -/
def Wide (d : Nat) (E : List TokEntry) : Prop := ∀ e ∈ E, Pos e.1 ∧ tokWidth e.1 = d

theorem derivs_spec (b d : Nat) (hb : b < 2) (E : List TokEntry) (hE : Wide (d + 1) E) :
    Wide d (derivs b E) ∧ ∀ k, k < 2 ^ d → tokHits E (b * 2 ^ d + k) = tokHits (derivs b E) k := by
  induction E with
  | nil => exact ⟨fun e he => by simp [derivs] at he, fun k _ => rfl⟩
  | cons e E ih =>
    obtain ⟨ih1, ih2⟩ := ih fun g hg => hE g (by simp [hg])
    have he := hE e (by simp)
    obtain ⟨hs, hn⟩ := deriv_spec b d hb e.1 he.1 he.2
    cases hd : deriv b e.1 with
    | none =>
      have : derivs b (e :: E) = derivs b E := by simp [derivs, hd]
      rw [this]
      refine ⟨ih1, fun k hk => ?_⟩
      rw [← ih2 k hk]
      unfold tokHits
      rw [List.filter_cons, if_neg (by rw [hn hd k hk]; simp)]
    | some T' =>
      have : derivs b (e :: E) = (T', e.2) :: derivs b E := by simp [derivs, hd]
      rw [this]
      obtain ⟨hp, hw, hf⟩ := hs T' hd
      refine ⟨fun g hg => ?_, fun k hk => ?_⟩
      · rcases List.mem_cons.1 hg with rfl | hg
        · exact ⟨hp, hw⟩
        · exact ih1 g hg
      · have := ih2 k hk
        unfold tokHits at this ⊢
        rw [List.filter_cons, List.filter_cons, hf k hk]
        simp only
        split
        · simp only [List.map_cons, this]
        · exact this

theorem blt_pos {a b : Nat} (h : a < b) : Nat.blt a b = true := Nat.ble_eq_true_of_le h
theorem blt_neg {a b : Nat} (h : ¬ a < b) : ¬ Nat.blt a b = true := fun hh => h (Nat.le_of_ble_eq_true hh)

/-- Takes `n` entries with value `i` from a run-length encoded list. -/
def takeRun (i : Isa) : Nat → List (Isa × Nat) → Option (List (Isa × Nat))
  | n, [] => if Nat.beq n 0 then some [] else none
  | n, (j, m) :: t =>
    if Nat.beq n 0 then some ((j, m) :: t)
    else if i = j then (if Nat.blt n m then some ((j, m - n) :: t) else takeRun i (n - m) t)
    else none

theorem takeRun_spec (i : Isa) (n : Nat) (l l' : List (Isa × Nat)) (h : takeRun i n l = some l') :
    (∀ k, k < n → lookupRuns l k = i) ∧ ∀ k, lookupRuns l (n + k) = lookupRuns l' k := by
  induction l generalizing n with
  | nil =>
    simp only [takeRun] at h
    split at h
    · rename_i h0
      have := Nat.eq_of_beq_eq_true h0
      subst this
      simp only [Option.some.injEq] at h
      subst h
      exact ⟨fun k hk => absurd hk (by omega), fun k => by rw [Nat.zero_add]⟩
    · simp at h
  | cons a t ih =>
    obtain ⟨j, m⟩ := a
    simp only [takeRun] at h
    split at h
    · rename_i h0
      have := Nat.eq_of_beq_eq_true h0
      subst this
      simp only [Option.some.injEq] at h
      subst h
      exact ⟨fun k hk => absurd hk (by omega), fun k => by rw [Nat.zero_add]⟩
    · split at h
      · rename_i hij
        subst hij
        split at h
        · rename_i hnm
          have hnm : n < m := Nat.le_of_ble_eq_true hnm
          simp only [Option.some.injEq] at h
          subst h
          refine ⟨fun k hk => ?_, fun k => ?_⟩
          · unfold lookupRuns
            rw [if_pos (blt_pos (by omega))]
          · unfold lookupRuns
            by_cases hk : n + k < m
            · rw [if_pos (blt_pos (by omega)),
                if_pos (blt_pos (by omega))]
            · rw [if_neg (blt_neg (by omega)),
                if_neg (blt_neg (by omega))]
              congr 1; omega
        · rename_i hnm
          have hnm : ¬ n < m := fun hh => hnm (Nat.ble_eq_true_of_le hh)
          obtain ⟨ih1, ih2⟩ := ih _ h
          refine ⟨fun k hk => ?_, fun k => ?_⟩
          · unfold lookupRuns
            by_cases hk' : k < m
            · rw [if_pos (blt_pos (by omega))]
            · rw [if_neg (blt_neg (by omega))]
              exact ih1 _ (by omega)
          · rw [lookupRuns, if_neg (blt_neg (by omega)), ← ih2]
            congr 1; omega
      · simp at h

def allAny (T : List Tok) : Bool := T.all fun f => match f with | .any _ => true | .oneOf _ _ => false

theorem tokFits_allAny (T : List Tok) (h : allAny T = true) (k : Nat) (hk : k < 2 ^ tokWidth T) : tokFits T k = true := by
  induction T generalizing k with
  | nil => simp [tokWidth] at hk; subst hk; rfl
  | cons f T ih =>
    cases f with
    | oneOf n v => simp [allAny] at h
    | any n =>
      have hpos : 0 < 2 ^ tokWidth T := Nat.two_pow_pos _
      have hw : tokWidth (Tok.any n :: T) = n + tokWidth T := by simp [tokWidth, Tok.width]
      simp only [tokFits, Tok.has, Bool.and_eq_true]
      refine ⟨Nat.ble_eq_true_of_le ?_, ih (by simpa [allAny] using h) _ (Nat.mod_lt _ hpos)⟩
      show k / 2 ^ tokWidth T < 2 ^ n
      rw [Nat.div_lt_iff_lt_mul hpos, ← Nat.pow_add, ← hw]
      exact hk

/-- Compares the next `2 ^ d` entries of the table with the entries, and returns the rest of the table. -/
def descend : (d : Nat) → List TokEntry → List (Isa × Nat) → Option (List (Isa × Nat))
  | d, [], runs => takeRun .Unknown (2 ^ d) runs
  | 0, [e], runs => if e.2 = .Unknown then none else takeRun e.2 1 runs
  | 0, _ :: _ :: _, _ => none
  | d + 1, e :: E, runs =>
    if allAny e.1 && E.isEmpty && e.2 != .Unknown then takeRun e.2 (2 ^ (d + 1)) runs
    else (descend d (derivs 0 (e :: E)) runs).bind fun rest => descend d (derivs 1 (e :: E)) rest

/-- The instruction of the table as a list of writers. -/
def writers (i : Isa) : List Isa := if i = .Unknown then [] else [i]

theorem descend_spec (d : Nat) (E : List TokEntry) (hE : Wide d E) (runs rest : List (Isa × Nat))
    (h : descend d E runs = some rest) :
    (∀ k, k < 2 ^ d → tokHits E k = writers (lookupRuns runs k)) ∧ ∀ k, lookupRuns runs (2 ^ d + k) = lookupRuns rest k := by
  induction d generalizing E runs rest with
  | zero =>
    match E, h with
    | [], h =>
      simp only [descend] at h
      obtain ⟨h1, h2⟩ := takeRun_spec _ _ _ _ h
      exact ⟨fun k hk => by rw [h1 k hk]; rfl, h2⟩
    | [e], h =>
      simp only [descend] at h
      split at h
      · simp at h
      · rename_i hu
        obtain ⟨h1, h2⟩ := takeRun_spec _ _ _ _ h
        have hw := hE e (by simp)
        have hnil : e.1 = [] := by
          cases he : e.1 with
          | nil => rfl
          | cons f T =>
            have h1 := hw.1 f (by rw [he]; simp)
            have h2 := hw.2
            rw [he] at h2
            simp only [tokWidth, List.map_cons, List.sum_cons] at h2
            omega
        refine ⟨fun k hk => ?_, h2⟩
        rw [h1 k hk]
        have : k = 0 := by simp at hk; omega
        subst this
        simp [tokHits, hnil, tokFits, writers, hu]
    | _ :: _ :: _, h => simp [descend] at h
  | succ d ih =>
    match E, h with
    | [], h =>
      simp only [descend] at h
      obtain ⟨h1, h2⟩ := takeRun_spec _ _ _ _ h
      exact ⟨fun k hk => by rw [h1 k hk]; rfl, h2⟩
    | e :: E, h =>
      simp only [descend] at h
      split at h
      · rename_i hc
        simp only [Bool.and_eq_true, List.isEmpty_iff, bne_iff_ne] at hc
        obtain ⟨⟨ha, rfl⟩, hu⟩ := hc
        obtain ⟨h1, h2⟩ := takeRun_spec _ _ _ _ h
        refine ⟨fun k hk => ?_, h2⟩
        rw [h1 k hk]
        have hw := hE e (by simp)
        simp [tokHits, tokFits_allAny e.1 ha k (by rw [hw.2]; exact hk), writers, hu]
      · rw [Option.bind_eq_some_iff] at h
        obtain ⟨mid, hl, hr⟩ := h
        obtain ⟨hw0, hd0⟩ := derivs_spec 0 d (by omega) _ hE
        obtain ⟨hw1, hd1⟩ := derivs_spec 1 d (by omega) _ hE
        obtain ⟨l1, l2⟩ := ih _ hw0 _ _ hl
        obtain ⟨r1, r2⟩ := ih _ hw1 _ _ hr
        have h2p : (2 : Nat) ^ (d + 1) = 2 ^ d + 2 ^ d := by rw [Nat.pow_succ]; omega
        refine ⟨fun k hk => ?_, fun k => ?_⟩
        · by_cases hkd : k < 2 ^ d
          · rw [← l1 k hkd, ← hd0 k hkd]; simp
          · have hk' : k - 2 ^ d < 2 ^ d := by omega
            have := hd1 (k - 2 ^ d) hk'
            rw [show 1 * 2 ^ d + (k - 2 ^ d) = k by omega] at this
            rw [this, r1 _ hk', ← l2, show 2 ^ d + (k - 2 ^ d) = k by omega]
        · rw [h2p, Nat.add_assoc, l2, r2]

end M68k.Gen
