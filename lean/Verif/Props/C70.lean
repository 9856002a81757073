import Verif.Model.GeneratorMain
import Verif.Spec.SourceTable
import Verif.Props.C37
/-
C70: the Rust source printed by the table generator defines the decoder table.
-/
namespace M68k.Props
open Spec

theorem isa_all (i : Isa) : i ∈ isaNames.map Prod.snd := by cases i <;> decide +kernel
theorem isaNamed_all : ∀ i ∈ isaNames.map Prod.snd, isaNamed i.debugText = some i := by decide +kernel
theorem debug_all : ∀ i ∈ isaNames.map Prod.snd,
    i.debugText.all (fun c => c != ',' && c != '[' && c != ']' && c != ' ' && c != '\n') = true ∧ i.debugText ≠ [] := by decide +kernel

theorem isaNamed_debug (i : Isa) : isaNamed i.debugText = some i := isaNamed_all i (isa_all i)

/-- The characters of a name: none of those with a meaning in the list. -/
theorem debug_plain (i : Isa) : i.debugText.all (fun c => c != ',' && c != '[' && c != ']' && c != ' ' && c != '\n') = true ∧ i.debugText ≠ [] :=
  debug_all i (isa_all i)

theorem debug_char {i : Isa} {c : Char} (h : c ∈ i.debugText) : c ≠ ',' ∧ c ≠ '[' ∧ c ≠ ']' ∧ c ≠ ' ' ∧ c ≠ '\n' := by
  have := List.all_eq_true.1 (debug_plain i).1 c h
  simpa [and_assoc] using this

theorem splitCommas_ne (l : List Char) : splitCommas l ≠ [] := by
  cases l with
  | nil => simp [splitCommas]
  | cons c l =>
    unfold splitCommas
    split
    · simp
    · split <;> simp

theorem splitCommas_append {p : List Char} (h : ',' ∉ p) (rest : List Char) : splitCommas (p ++ ',' :: rest) = p :: splitCommas rest := by
  induction p with
  | nil => simp [splitCommas]
  | cons c p ih =>
    rw [List.mem_cons, not_or] at h
    rw [List.cons_append, splitCommas, if_neg (Ne.symm h.1), ih h.2]

theorem splitCommas_plain {p : List Char} (h : ',' ∉ p) : splitCommas p = [p] := by
  induction p with
  | nil => rfl
  | cons c p ih =>
    rw [List.mem_cons, not_or] at h
    rw [splitCommas, if_neg (Ne.symm h.1), ih h.2]

theorem dropWhile_blank {p : List Char} (h : ∀ c ∈ p, c = ' ' ∨ c = '\n') (l : List Char) :
    (p ++ l).dropWhile (fun c => c == ' ' || c == '\n') = l.dropWhile fun c => c == ' ' || c == '\n' := by
  induction p with
  | nil => rfl
  | cons c p ih =>
    rw [List.cons_append, List.dropWhile_cons_of_pos (by rcases h c (by simp) with rfl | rfl <;> rfl)]
    exact ih fun c hc => h c (List.mem_cons_of_mem _ hc)

theorem dropWhile_solid {l : List Char} (h : ∀ c ∈ l, c ≠ ' ' ∧ c ≠ '\n') : l.dropWhile (fun c => c == ' ' || c == '\n') = l := by
  cases l with
  | nil => rfl
  | cons c l =>
    have := h c (by simp)
    exact List.dropWhile_cons_of_neg (by simp [this])

theorem trim_name {p : List Char} (h : ∀ c ∈ p, c = ' ' ∨ c = '\n') (i : Isa) : trim (p ++ i.debugText) = i.debugText := by
  have hs : ∀ c ∈ i.debugText, c ≠ ' ' ∧ c ≠ '\n' := fun c hc => ⟨(debug_char hc).2.2.2.1, (debug_char hc).2.2.2.2⟩
  unfold trim
  rw [dropWhile_blank h, dropWhile_solid hs, dropWhile_solid fun c hc => hs c (by simpa using hc), List.reverse_reverse]

/-- The blanks before an entry that does not follow a comma on the same line. -/
def lead (i : Nat) : Text := if i % 16 = 0 then "\n    ".toList else []

theorem entry_eq (t : OpcodeTable) (i : Nat) : entryText t i = lead i ++ (t i).debugText ++ ", ".toList := by
  unfold entryText lead
  split
  · rfl
  · rfl

theorem lead_blank (i : Nat) : ∀ c ∈ lead i, c = ' ' ∨ c = '\n' := by
  unfold lead
  split
  · intro c hc
    have : c ∈ ['\n', ' ', ' ', ' ', ' '] := hc
    simp at this
    rcases this with h | h
    · exact .inr h
    · exact .inl h
  · intro c hc; cases hc

/-- The parts of the body of the array, preceded by blanks. -/
theorem split_body (t : OpcodeTable) (is : List Nat) (b : Text) (hb : ∀ c ∈ b, c = ' ' ∨ c = '\n') :
    (splitCommas (b ++ (is.map (entryText t)).flatten ++ ['\n'])).map trim = is.map (fun i => (t i).debugText) ++ [[]] := by
  induction is generalizing b with
  | nil =>
    have h : ',' ∉ b ++ ['\n'] := by
      intro h
      rcases List.mem_append.1 h with h | h
      · rcases hb _ h with h | h <;> cases h
      · simp at h
    simp only [List.map_nil, List.flatten_nil, List.append_nil, List.nil_append]
    rw [splitCommas_plain h]
    have : trim (b ++ ['\n']) = [] := by
      unfold trim
      rw [dropWhile_blank hb]
      rfl
    rw [List.map_cons, this]
    rfl
  | cons i is ih =>
    have hbl : ∀ c ∈ b ++ lead i, c = ' ' ∨ c = '\n' := fun c hc => (List.mem_append.1 hc).elim (hb c) (lead_blank i c)
    have h1 : b ++ (List.map (entryText t) (i :: is)).flatten ++ ['\n'] =
        ((b ++ lead i) ++ (t i).debugText) ++ ',' :: ([' '] ++ (is.map (entryText t)).flatten ++ ['\n']) := by
      rw [List.map_cons, List.flatten_cons, entry_eq]
      simp [show ", ".toList = [',', ' '] from rfl]
    have h2 : ',' ∉ (b ++ lead i) ++ (t i).debugText := by
      intro h
      rcases List.mem_append.1 h with h | h
      · rcases hbl _ h with h | h <;> cases h
      · exact (debug_char h).1 rfl
    rw [h1, splitCommas_append h2, List.map_cons, trim_name hbl, ih [' '] (by simp)]
    rfl

theorem mapM_names (t : OpcodeTable) (is : List Nat) : (is.map fun i => (t i).debugText).mapM isaNamed = some (is.map t) := by
  induction is with
  | nil => rfl
  | cons i is ih => simp [List.mapM_cons, isaNamed_debug, ih]

theorem fileBegin_eq : ∃ l, fileBegin = l ++ ['['] := ⟨_, rfl⟩

/-- The text printed for a table, whatever the table. -/
def sourceText (t : OpcodeTable) : Text := (mainBuffers t).flatten

theorem takeWhile_all {p : Char → Bool} {l r : List Char} {x : Char} (h : ∀ c ∈ l, p c = true) (hx : p x = false) : (l ++ x :: r).takeWhile p = l := by
  induction l with
  | nil => exact List.takeWhile_cons_of_neg (by simp [hx])
  | cons c l ih =>
    rw [List.cons_append, List.takeWhile_cons_of_pos (h c (by simp)), ih fun c hc => h c (List.mem_cons_of_mem _ hc)]

theorem body_char (t : OpcodeTable) (is : List Nat) {c : Char} (h : c ∈ (is.map (entryText t)).flatten) : c ≠ '[' ∧ c ≠ ']' := by
  obtain ⟨l, hl, hc⟩ := List.mem_flatten.1 h
  obtain ⟨i, -, rfl⟩ := List.mem_map.1 hl
  rw [entry_eq] at hc
  rcases List.mem_append.1 hc with hc | hc
  · rcases List.mem_append.1 hc with hc | hc
    · rcases lead_blank i c hc with rfl | rfl <;> decide
    · exact ⟨(debug_char hc).2.1, (debug_char hc).2.2.1⟩
  · have : c ∈ [',', ' '] := hc
    simp at this
    rcases this with rfl | rfl <;> decide

/-- The source printed for any table, read as a Rust array, is that table. -/
theorem C70_readsBack (t : OpcodeTable) : readTable (sourceText t) = some ((List.range 65536).map t) := by
  obtain ⟨N, hN⟩ : ∃ N : Nat, N = 65536 := ⟨_, rfl⟩
  rw [← hN]
  obtain ⟨fb, hfb⟩ := fileBegin_eq
  have hs : sourceText t = fb ++ '[' :: (((List.range N).map (entryText t)).flatten ++ ['\n'] ++ ']' :: [';', '\n']) := by
    unfold sourceText mainBuffers
    rw [← hN, List.flatten_cons, List.flatten_append, hfb]
    simp [show fileEnd = ['\n', ']', ';', '\n'] from rfl]
  have h1 : (sourceText t).reverse.takeWhile (· ≠ '[') = (((List.range N).map (entryText t)).flatten ++ ['\n'] ++ ']' :: [';', '\n']).reverse := by
    rw [hs, List.reverse_append, List.reverse_cons, List.append_assoc]
    refine takeWhile_all (fun c hc => ?_) (by decide)
    have hc : c ∈ ((List.range N).map (entryText t)).flatten ++ ['\n'] ++ ']' :: [';', '\n'] := List.mem_reverse.1 hc
    rcases List.mem_append.1 hc with hc | hc
    · rcases List.mem_append.1 hc with hc | hc
      · simpa using (body_char t _ hc).1
      · simp at hc; subst hc; decide
    · simp at hc
      rcases hc with rfl | rfl | rfl <;> decide
  have h2 : ((sourceText t).reverse.takeWhile (· ≠ '[')).reverse.takeWhile (· ≠ ']') = ((List.range N).map (entryText t)).flatten ++ ['\n'] := by
    rw [h1, List.reverse_reverse]
    refine takeWhile_all (fun c hc => ?_) (by decide)
    rcases List.mem_append.1 hc with hc | hc
    · simpa using (body_char t _ hc).2
    · simp at hc; subst hc; decide
  unfold readTable elements
  rw [h2]
  have h3 := split_body t (List.range N) [] (by simp)
  rw [List.nil_append] at h3
  rw [h3]
  simp only [List.getLast?_append, List.getLast?_singleton, Option.some_or, if_true, List.dropLast_concat]
  rw [mapM_names]

/-- All buffers are written whole. -/
theorem writeBuffers_full {write : Nat → Text → Option Nat} (bs : List Text) (k : Nat) (file : Text) (h : ∀ j b, write j b = some b.length) :
    writeBuffers write k bs file = some (file ++ bs.flatten) := by
  induction bs generalizing k file with
  | nil => simp [writeBuffers]
  | cons b bs ih => simp [writeBuffers, h, ih]

/-- When the file can be created and every write takes its whole buffer, the generator ends, and the source file it leaves defines an array of 65536 instructions
that is the decoder table of the library. -/
theorem C70_generated {write : Nat → Text → Option Nat} (h : ∀ j b, write j b = some b.length) :
    ∃ file l, decoderMain true write = some file ∧ readTable file = some l ∧ l.length = 65536 ∧ ∀ op : U16, l[op.toNat]? = some (decoder op) := by
  obtain ⟨t, ht, hd⟩ := C37_generator
  refine ⟨sourceText t, (List.range 65536).map t, ?_, C70_readsBack t, by simp, fun op => ?_⟩
  · unfold decoderMain
    rw [if_pos rfl, ht, Option.bind_some, writeBuffers_full _ _ _ h, List.nil_append, sourceText]
  · rw [List.getElem?_map, List.getElem?_range op.isLt, Option.map_some, hd]

theorem writeBuffers_none {write : Nat → Text → Option Nat} (bs : List Text) (k : Nat) (file : Text) :
    writeBuffers write k bs file = none ↔ ∃ j, ∃ h : j < bs.length, write (k + j) bs[j] = none := by
  induction bs generalizing k file with
  | nil => simp [writeBuffers]
  | cons b bs ih =>
    unfold writeBuffers
    constructor
    · intro h
      cases hw : write k b with
      | none => exact ⟨0, by simp, by simpa using hw⟩
      | some n =>
        rw [hw, Option.bind_some] at h
        obtain ⟨j, hj, h⟩ := (ih _ _).1 h
        exact ⟨j + 1, by simpa using hj, by rw [← h]; simp [Nat.add_comm, Nat.add_left_comm]⟩
    · rintro ⟨j, hj, h⟩
      cases hw : write k b with
      | none => rfl
      | some n =>
        rw [Option.bind_some]
        refine (ih _ _).2 ?_
        cases j with
        | zero => simp [hw] at h
        | succ j => exact ⟨j, by simpa using hj, by rw [← h]; simp [Nat.add_comm, Nat.add_left_comm]⟩

/-- The generator panics exactly when the file cannot be created or a write reports an error. -/
theorem C70_panics (created : Bool) (write : Nat → Text → Option Nat) : ∃ t, generatedTable = some t ∧
    (decoderMain created write = none ↔ created = false ∨ ∃ k, ∃ h : k < (mainBuffers t).length, write k (mainBuffers t)[k] = none) := by
  obtain ⟨t, ht, -⟩ := C37_generator
  refine ⟨t, ht, ?_⟩
  unfold decoderMain
  cases created with
  | false => simp
  | true =>
    rw [if_pos rfl, ht, Option.bind_some, writeBuffers_none]
    simp

/-- A write that takes only a part of its buffer is not noticed: the generator ends without a panic and the file is not the table. -/
theorem C70_shortWrite_refuted : ∃ write : Nat → Text → Option Nat, (∀ k b, ∃ n ≤ b.length, write k b = some n) ∧
    ∃ file, decoderMain true write = some file ∧ readTable file = some [] := by
  refine ⟨fun _ _ => some 0, fun k b => ⟨0, Nat.zero_le _, rfl⟩, [], ?_, by decide +kernel⟩
  obtain ⟨t, ht, -⟩ := C37_generator
  unfold decoderMain
  rw [if_pos rfl, ht, Option.bind_some]
  generalize mainBuffers t = bs
  suffices ∀ k, writeBuffers (fun _ _ => some 0) k bs [] = some [] from this 0
  induction bs with
  | nil => intro k; rfl
  | cons b bs ih => intro k; exact ih (k + 1)

/-- A source with three elements. -/
example : readTable "static T: [Isa; 3] = [\n    Add, Nop, \n    Unknown, \n];\n".toList = some [.Add, .Nop, .Unknown] := by decide +kernel
/-- A misspelt element. -/
example : readTable "static T: [Isa; 1] = [\n    Ad d, \n];\n".toList = none := by decide +kernel

end M68k.Props
