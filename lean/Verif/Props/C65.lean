import Verif.Model.Tool
import Verif.Spec.Tool
import Verif.Props.C61
/-
C65: the command line disassembler. `Shows`, `addressed`, `shown`, `bytesOf`, `numeral` and `numeralValue` are in Spec/Tool.lean, `Lists` and `programAt` in Spec/Listing.lean.
-/
namespace M68k.Props
open Spec Exec Reader
set_option linter.unusedSectionVars false
variable {data : List U8} {it it' : Iter ByteSlice} {p : List Line} {i : Instruction}

theorem slice_getWord {a : U32} {w : U16} {m : ByteSlice} (h : MemoryAccess.getWord a (⟨data⟩ : ByteSlice) = .val w m) : m = ⟨data⟩ ∧ a.toNat + 2 ≤ data.length := by
  have h : MRes.ofRead (⟨data⟩ : ByteSlice) (byteSliceGetWord data a) = .val w m := h
  unfold byteSliceGetWord at h
  split at h
  · split at h
    · cases h
      exact ⟨rfl, by omega⟩
    · cases h
  · cases h

/-- Words that a slice feeds are in it. -/
theorem feeds_slice (hl : data.length < 2 ^ 32) {ws : List U16} {jt jt' : Iter ByteSlice} (h : Feeds jt ws jt') (hm : jt.mem = ⟨data⟩) :
    jt'.mem = ⟨data⟩ ∧ jt'.nextAddr.toNat = jt.nextAddr.toNat + 2 * ws.length ∧ (ws ≠ [] → jt'.nextAddr.toNat ≤ data.length) := by
  induction h with
  | nil jt => exact ⟨hm, rfl, fun h => absurd rfl h⟩
  | @cons m m' a w ws jt ho hg hf ih =>
    have hm : m = ⟨data⟩ := hm
    subst hm
    obtain ⟨rfl, h2⟩ := slice_getWord hg
    obtain ⟨i1, i2, i3⟩ := ih rfl
    have ha : (a + 2 : U32).toNat = a.toNat + 2 := by
      rw [BitVec.toNat_add]
      show (a.toNat + 2) % 2 ^ 32 = _
      omega
    have i2 : jt.nextAddr.toNat = (a + 2 : U32).toNat + 2 * ws.length := i2
    rw [ha] at i2
    refine ⟨i1, by rw [i2, List.length_cons]; show _ = a.toNat + _; omega, fun _ => ?_⟩
    cases ws with
    | nil => rw [i2]; exact h2
    | cons w ws => exact i3 (by simp)

theorem addressed_line {a : U32} {t : Text} : addressed (toolLine a.toNat t) = some (a.toNat, t) := by
  unfold addressed toolLine
  have hx : Text.hex (BitVec.ofNat 64 a.toNat) = Text.hex a := by
    unfold Text.hex
    rw [BitVec.toNat_ofNat, Nat.mod_eq_of_lt (Nat.lt_trans a.isLt (by decide))]
  rw [hx, List.append_assoc, number_hex a (by omega) (cs := " ".toList ++ t) (Stops.cons (by decide))]
  rfl

/-- Every decoded instruction has a text, which reads as it. -/
theorem text_shown {M : Type} [MemoryAccess M] {it it' : Iter M} (h : Instruction.fromMemory it = .ok i it') :
    ∃ t, Dis.dlut (decoder i.opcode) i = some t ∧ line i.pc t = some (shown i) := by
  obtain ⟨-, hp, -⟩ := fromMemory_ok h
  unfold shown
  split
  · rename_i hu
    obtain ⟨t, h1, h2⟩ := C54_unknown h hu
    rw [← hp] at h2
    exact ⟨t, h1, h2⟩
  · rename_i hu
    obtain ⟨t, h1, h2⟩ := C54_reads_back h hu
    rw [← hp] at h2
    exact ⟨t, h1, h2⟩

theorem loop_listing (hl : data.length < 2 ^ 32) {stop : Nat} (hs : stop ≤ data.length) : ∀ (turns : Nat) (it : Iter ByteSlice) (out : List Text),
    it.mem = ⟨data⟩ → stop - it.nextAddr.toNat ≤ 2 * turns →
    ∃ e ls is it', toolLoop stop turns it.nextAddr.toNat it out = (e, out ++ ls) ∧ Lists it is it' ∧ Shows ls is ∧ (∀ x ∈ is, x.pc.toNat < stop) ∧
      ((e = .done ∧ stop ≤ it'.nextAddr.toNat) ∨ (e = .panic ∧ it'.nextAddr.toNat < stop ∧ ∀ x jt, Instruction.fromMemory it' ≠ .ok x jt)) := by
  intro turns
  induction turns with
  | zero =>
    intro it out hm ht
    refine ⟨.done, [], [], it, ?_, .nil it, .nil, fun x hx => (by cases hx), .inl ⟨rfl, by omega⟩⟩
    unfold toolLoop
    rw [if_neg (by omega), List.append_nil]
  | succ turns ih =>
    intro it out hm ht
    unfold toolLoop
    by_cases hlt : it.nextAddr.toNat < stop
    · rw [if_pos hlt]
      cases hf : Instruction.fromMemory it with
      | ok x jt =>
        obtain ⟨t, h1, h2⟩ := text_shown hf
        obtain ⟨ws, h3, -, h4⟩ := fromMemory_words hf
        obtain ⟨g1, g2, -⟩ := feeds_slice hl h3 hm
        rw [List.length_cons] at g2
        obtain ⟨e, ls, is, kt, i1, i2, i3, i4, i5⟩ := ih jt (out ++ [toolLine it.nextAddr.toNat t]) g1 (by omega)
        refine ⟨e, toolLine it.nextAddr.toNat t :: ls, x :: is, kt, ?_, .cons hf i2, ?_, ?_, i5⟩
        · dsimp only
          rw [h1]
          dsimp only
          rw [i1, List.append_assoc]
          rfl
        · refine .cons (t := t) ?_ h2 i3
          rw [h4]
          exact addressed_line
        · intro y hy
          rcases List.mem_cons.1 hy with rfl | hy
          · rw [h4]; exact hlt
          · exact i4 y hy
      | err v jt =>
        exact ⟨.panic, [], [], it, by rw [List.append_nil], .nil it, .nil, fun x hx => (by cases hx), .inr ⟨rfl, hlt, fun x jt h => by rw [hf] at h; cases h⟩⟩
      | panic =>
        exact ⟨.panic, [], [], it, by rw [List.append_nil], .nil it, .nil, fun x hx => (by cases hx), .inr ⟨rfl, hlt, fun x jt h => by rw [hf] at h; cases h⟩⟩
    · rw [if_neg hlt]
      exact ⟨.done, [], [], it, by rw [List.append_nil], .nil it, .nil, fun x hx => (by cases hx), .inl ⟨rfl, by omega⟩⟩

/-- For every file below 4 GiB and every range in it: the disassembler ends after at most one turn for every two bytes. Its lines show the instructions that successive calls of `from_memory`
return from the beginning of the range on, all that begin within the range. It panics only where no instruction can be decoded, and then the lines of all earlier instructions have been written. -/
theorem C65_listing_partial (hl : data.length < 2 ^ 32) (o : ToolOptions) (hb : o.beg < min o.stop data.length) (turns : Nat) (ht : data.length ≤ 2 * turns) :
    ∃ is it', Lists (⟨⟨data⟩, BitVec.ofNat 32 o.beg⟩ : Iter ByteSlice) is it' ∧ Shows (toolListing data o turns).2 is ∧ (∀ x ∈ is, x.pc.toNat < min o.stop data.length) ∧
      ((toolListing data o turns).1 = .done ∧ min o.stop data.length ≤ it'.nextAddr.toNat ∨
       (toolListing data o turns).1 = .panic ∧ it'.nextAddr.toNat < min o.stop data.length ∧ ∀ x jt, Instruction.fromMemory it' ≠ .ok x jt) := by
  have hstop : (if o.stop > data.length then data.length else o.stop) = min o.stop data.length := by
    split <;> omega
  have ha : (BitVec.ofNat 32 o.beg).toNat = o.beg := by
    rw [BitVec.toNat_ofNat]
    omega
  obtain ⟨e, ls, is, it', h1, h2, h3, h4, h5⟩ := loop_listing hl (stop := min o.stop data.length) (by omega) turns ⟨⟨data⟩, BitVec.ofNat 32 o.beg⟩ [] rfl
    (by show _ - (BitVec.ofNat 32 o.beg).toNat ≤ _; omega)
  have h1 : toolLoop (min o.stop data.length) turns (BitVec.ofNat 32 o.beg).toNat ⟨⟨data⟩, BitVec.ofNat 32 o.beg⟩ [] = (e, ls) := h1
  have hr : toolListing data o turns = (e, ls) := by
    unfold toolListing
    dsimp only
    rw [hstop, ← h1, ha]
  rw [hr]
  exact ⟨is, it', h2, h3, h4, h5⟩

/-- An empty range: nothing is written. -/
theorem C65_empty (o : ToolOptions) (hb : min o.stop data.length ≤ o.beg) (turns : Nat) : toolListing data o turns = (.done, []) := by
  have hstop : (if o.stop > data.length then data.length else o.stop) = min o.stop data.length := by
    split <;> omega
  unfold toolListing
  dsimp only
  rw [hstop]
  cases turns <;> (unfold toolLoop; rw [if_neg (by omega)])

theorem bytes_join (w : U16) : (toU16 (BitVec.ofNat 8 (w.toNat / 256)) <<< 8 ||| toU16 (BitVec.ofNat 8 w.toNat) : U16) = w := by
  apply BitVec.eq_of_getLsbD_eq
  intro j hj
  have h1 : BitVec.ofNat 8 (w.toNat / 256) = (w >>> 8).setWidth 8 := by
    apply BitVec.eq_of_toNat_eq
    simp [Nat.shiftRight_eq_div_pow]
  have h2 : BitVec.ofNat 8 w.toNat = w.setWidth 8 := by
    apply BitVec.eq_of_toNat_eq
    simp
  rw [h1, h2]
  unfold toU16
  simp only [BitVec.getLsbD_or, BitVec.getLsbD_shiftLeft, BitVec.getLsbD_setWidth, BitVec.getLsbD_ushiftRight]
  by_cases h8 : j < 8
  · simp [h8, hj]
  · have : 8 + (j - 8) = j := by omega
    have h9 : j - 8 < 8 := by omega
    have h10 : j - 8 < 16 := by omega
    simp [h8, hj, this, h9, h10]

theorem bytesOf_length (ws : List U16) : (bytesOf ws).length = 2 * ws.length := by
  induction ws with
  | nil => rfl
  | cons w ws ih =>
    have : bytesOf (w :: ws) = [BitVec.ofNat 8 (w.toNat / 256), BitVec.ofNat 8 w.toNat] ++ bytesOf ws := rfl
    rw [this, List.length_append, ih]
    simp only [List.length_cons, List.length_nil]
    omega

theorem bytes_feed {ws : List U16} : ∀ {pre post : List U8}, pre.length % 2 = 0 → (pre ++ bytesOf ws ++ post).length < 2 ^ 32 →
    Feeds (⟨⟨pre ++ bytesOf ws ++ post⟩, BitVec.ofNat 32 pre.length⟩ : Iter ByteSlice) ws ⟨⟨pre ++ bytesOf ws ++ post⟩, BitVec.ofNat 32 (pre.length + 2 * ws.length)⟩ := by
  induction ws with
  | nil => intro pre post _ _; exact .nil _
  | cons w ws ih =>
    intro pre post he hl
    have hb : bytesOf (w :: ws) = [BitVec.ofNat 8 (w.toNat / 256), BitVec.ofNat 8 w.toNat] ++ bytesOf ws := rfl
    have hd : pre ++ bytesOf (w :: ws) ++ post = pre ++ [BitVec.ofNat 8 (w.toNat / 256), BitVec.ofNat 8 w.toNat] ++ bytesOf ws ++ post := by
      rw [hb]
      simp
    rw [hd] at hl ⊢
    have hlen : (pre ++ [BitVec.ofNat 8 (w.toNat / 256), BitVec.ofNat 8 w.toNat]).length = pre.length + 2 := by simp
    have hf := ih (pre := pre ++ [BitVec.ofNat 8 (w.toNat / 256), BitVec.ofNat 8 w.toNat]) (post := post) (by rw [hlen]; omega) hl
    rw [hlen] at hf
    have hl2 : pre.length + 2 ≤ (pre ++ [BitVec.ofNat 8 (w.toNat / 256), BitVec.ofNat 8 w.toNat] ++ bytesOf ws ++ post).length := by
      simp only [List.length_append, List.length_cons, List.length_nil]; omega
    have ha : (BitVec.ofNat 32 pre.length).toNat = pre.length := by
      rw [BitVec.toNat_ofNat]
      omega
    refine .cons ?_ ?_ (m' := ⟨pre ++ [BitVec.ofNat 8 (w.toNat / 256), BitVec.ofNat 8 w.toNat] ++ bytesOf ws ++ post⟩) ?_
    · unfold Spec.Odd
      rw [ha]
      omega
    · show MRes.ofRead _ (byteSliceGetWord _ _) = _
      unfold byteSliceGetWord
      have hx : ∀ (h0 : pre.length < (pre ++ [BitVec.ofNat 8 (w.toNat / 256), BitVec.ofNat 8 w.toNat] ++ bytesOf ws ++ post).length),
          (pre ++ [BitVec.ofNat 8 (w.toNat / 256), BitVec.ofNat 8 w.toNat] ++ bytesOf ws ++ post)[pre.length] = BitVec.ofNat 8 (w.toNat / 256) := by
        intro h0
        simp
      have hy : ∀ (h0 : pre.length + 1 < (pre ++ [BitVec.ofNat 8 (w.toNat / 256), BitVec.ofNat 8 w.toNat] ++ bytesOf ws ++ post).length),
          (pre ++ [BitVec.ofNat 8 (w.toNat / 256), BitVec.ofNat 8 w.toNat] ++ bytesOf ws ++ post)[pre.length + 1] = BitVec.ofNat 8 w.toNat := by
        intro h0
        simp
      simp only [ha]
      rw [dif_pos (by omega), dif_pos (by omega), hx, hy, bytes_join]
      rfl
    · have : (BitVec.ofNat 32 pre.length + 2 : U32) = BitVec.ofNat 32 (pre.length + 2) := by
        rw [BitVec.ofNat_add]
        rfl
      rw [this, List.length_cons, show pre.length + 2 * (ws.length + 1) = pre.length + 2 + 2 * ws.length by omega]
      exact hf

theorem lists_compare {is js : List Instruction} {it a b : Iter ByteSlice} (h1 : Lists it is a) (h2 : Lists it js b) :
    (∃ ks, is ++ ks = js ∧ Lists a ks b) ∨ (∃ ks, js ++ ks = is ∧ Lists b ks a) := by
  induction h1 generalizing js with
  | nil it => exact .inl ⟨js, rfl, h2⟩
  | @cons it it1 it2 i is hf hl ih =>
    cases h2 with
    | nil => exact .inr ⟨_, rfl, .cons hf hl⟩
    | cons hg hk =>
      rw [hf] at hg
      cases hg
      rcases ih hk with ⟨ks, h3, h4⟩ | ⟨ks, h3, h4⟩
      · exact .inl ⟨ks, by rw [← h3]; rfl, h4⟩
      · exact .inr ⟨ks, by rw [← h3]; rfl, h4⟩

theorem lists_slice (hl : data.length < 2 ^ 32) {is : List Instruction} {a b : Iter ByteSlice} (h : Lists a is b) (hm : a.mem = ⟨data⟩) :
    b.mem = ⟨data⟩ ∧ a.nextAddr.toNat + 2 * is.length ≤ b.nextAddr.toNat := by
  induction h with
  | nil it => exact ⟨hm, Nat.le_refl _⟩
  | cons hf _ ih =>
    obtain ⟨ws, h3, -, -⟩ := fromMemory_words hf
    obtain ⟨g1, g2, -⟩ := feeds_slice hl h3 hm
    obtain ⟨i1, i2⟩ := ih g1
    rw [List.length_cons] at g2 ⊢
    exact ⟨i1, by omega⟩

/-- A program anywhere in a file, at an even position, is listed as it is if its range is given: one line for each instruction, with its address. -/
theorem C65_program {pre post : List U8} (he : pre.length % 2 = 0) (hl : (pre ++ bytesOf (programWords p) ++ post).length < 2 ^ 32)
    (hp : ∀ l ∈ p, Decodes l.words l.isa l.operands) (out : Text) (turns : Nat) (ht : (pre ++ bytesOf (programWords p) ++ post).length ≤ 2 * turns) :
    (toolListing (pre ++ bytesOf (programWords p) ++ post) ⟨out, pre.length, pre.length + (bytesOf (programWords p)).length⟩ turns).1 = .done ∧
    Shows (toolListing (pre ++ bytesOf (programWords p) ++ post) ⟨out, pre.length, pre.length + (bytesOf (programWords p)).length⟩ turns).2
      (programAt (BitVec.ofNat 32 pre.length) p) := by
  have hfeed := bytes_feed (ws := programWords p) (post := post) he hl
  have hlist := C61_program hp hfeed
  have hlen := bytesOf_length (programWords p)
  have htot : (pre ++ bytesOf (programWords p) ++ post).length = pre.length + 2 * (programWords p).length + post.length := by
    rw [List.length_append, List.length_append, hlen]
  rw [hlen]
  have hend : (BitVec.ofNat 32 (pre.length + 2 * (programWords p).length)).toNat = pre.length + 2 * (programWords p).length := by
    rw [BitVec.toNat_ofNat]
    omega
  have hstop : min (pre.length + 2 * (programWords p).length) (pre ++ bytesOf (programWords p) ++ post).length = pre.length + 2 * (programWords p).length := by omega
  by_cases h0 : (programWords p).length = 0
  · cases p with
    | nil =>
      rw [C65_empty _ (by show min (pre.length + 2 * 0) _ ≤ pre.length; omega) turns]
      exact ⟨rfl, .nil⟩
    | cons l p =>
      have hw : l.words = [] := by
        have : programWords (l :: p) = l.words ++ programWords p := rfl
        rw [this, List.length_append] at h0
        exact List.length_eq_zero_iff.1 (by omega)
      have hd := hp l (List.mem_cons_self ..)
      rw [hw] at hd
      obtain ⟨op, ho, -⟩ := hd ByteSlice ⟨⟨[]⟩, 0⟩ ⟨⟨[]⟩, 0⟩ (.nil _)
      cases ho
  · obtain ⟨is, it', h1, h2, h3, h4⟩ := C65_listing_partial hl ⟨out, pre.length, pre.length + 2 * (programWords p).length⟩
      (by show pre.length < min (pre.length + 2 * (programWords p).length) _; omega) turns ht
    have h3 : ∀ x ∈ is, x.pc.toNat < min (pre.length + 2 * (programWords p).length) (pre ++ bytesOf (programWords p) ++ post).length := h3
    have h4 : _ ∧ min (pre.length + 2 * (programWords p).length) (pre ++ bytesOf (programWords p) ++ post).length ≤ _ ∨
      _ ∧ _ < min (pre.length + 2 * (programWords p).length) (pre ++ bytesOf (programWords p) ++ post).length ∧ _ := h4
    rw [hstop] at h3 h4
    rcases lists_compare h1 hlist with ⟨ks, e1, e2⟩ | ⟨ks, e1, e2⟩
    · cases ks with
      | nil =>
        rw [List.append_nil] at e1
        subst e1
        cases e2
        rcases h4 with ⟨h4, -⟩ | ⟨-, h5, -⟩
        · exact ⟨h4, h2⟩
        · rw [hend] at h5
          omega
      | cons k ks =>
        rcases h4 with ⟨-, h5⟩ | ⟨-, -, h6⟩
        · obtain ⟨g1, -⟩ := lists_slice hl h1 rfl
          obtain ⟨-, g2⟩ := lists_slice hl e2 g1
          rw [List.length_cons] at g2
          have g2 : _ ≤ (BitVec.ofNat 32 (pre.length + 2 * (programWords p).length)).toNat := g2
          omega
        · cases e2 with
          | cons hf _ => exact absurd hf (h6 _ _)
    · cases ks with
      | nil =>
        rw [List.append_nil] at e1
        subst e1
        cases e2
        rcases h4 with ⟨h4, -⟩ | ⟨-, h5, -⟩
        · exact ⟨h4, h2⟩
        · rw [hend] at h5
          omega
      | cons k ks =>
        cases e2 with
        | cons hf _ =>
          obtain ⟨-, -, -, hk⟩ := fromMemory_words hf
          have := h3 k (by rw [← e1]; simp)
          rw [hk, hend] at this
          omega

/-! ### Arguments -/

/-- A decimal number is read as its value, with or without a sign, if it fits 64 bits; otherwise the program panics. -/
theorem C65_number (ds : List (Fin 10)) (hn : ds ≠ []) :
    parseUsize (numeral ds) = (if numeralValue ds < 2 ^ 64 then some (numeralValue ds) else none) ∧ parseUsize ('+' :: numeral ds) = parseUsize (numeral ds) := by
  have hdig : ∀ (ds : List (Fin 10)) (n : Nat), decimalDigits n (numeral ds) = some (ds.foldl (fun n d => 10 * n + d.val) n) := by
    intro ds
    induction ds with
    | nil => intro n; rfl
    | cons d ds ih =>
      intro n
      have hc : ∀ d : Fin 10, ('0'.toNat ≤ (Char.ofNat ('0'.toNat + d.val)).toNat ∧ (Char.ofNat ('0'.toNat + d.val)).toNat ≤ '9'.toNat) ∧
          (Char.ofNat ('0'.toNat + d.val)).toNat - '0'.toNat = d.val := by decide +kernel
      show decimalDigits n (Char.ofNat ('0'.toNat + d.val) :: numeral ds) = _
      unfold decimalDigits
      rw [if_pos (hc d).1, (hc d).2, ih]
      rfl
  have hne : numeral ds ≠ [] := by
    cases ds with
    | nil => exact absurd rfl hn
    | cons d ds => exact fun h => nomatch h
  have hplus : (numeral ds).head? ≠ some '+' := by
    cases ds with
    | nil => exact absurd rfl hn
    | cons d ds =>
      have : ∀ d : Fin 10, Char.ofNat ('0'.toNat + d.val) ≠ '+' := by decide +kernel
      intro h
      exact this d (Option.some.inj h)
  have hv : parseUsize (numeral ds) = (if numeralValue ds < 2 ^ 64 then some (numeralValue ds) else none) := by
    unfold parseUsize
    rw [if_neg hplus]
    dsimp only
    rw [if_neg hne, hdig]
    rfl
  refine ⟨hv, ?_⟩
  rw [hv]
  unfold parseUsize
  have : (if ('+' :: numeral ds).head? = some '+' then ('+' :: numeral ds).tail else '+' :: numeral ds) = numeral ds := if_pos rfl
  rw [this]
  dsimp only
  rw [if_neg hne, hdig]
  rfl

/-- The whole program with a range and an output file: the lines of the listing are in that file, every other file (also the input) is as before. -/
theorem C65_output {creatable : Text → Bool} {files : Text → Option (List U8)} {inname outname : Text} {bs es : List (Fin 10)} (hin : files inname = some data)
    (hne : outname ≠ inname) (hc : creatable outname = true) (hb : bs ≠ []) (he : es ≠ []) (hb' : numeralValue bs < 2 ^ 64) (he' : numeralValue es < 2 ^ 64) (turns : Nat) :
    toolMain creatable files [inname, "-b".toList, numeral bs, "-e".toList, numeral es, "-o".toList, outname] turns =
      ((toolListing data ⟨outname, numeralValue bs, numeralValue es⟩ turns).1, [],
       fun name => if name = outname then some (linesBytes (toolListing data ⟨outname, numeralValue bs, numeralValue es⟩ turns).2) else files name) := by
  have ho : toolOptions ["-b".toList, numeral bs, "-e".toList, numeral es, "-o".toList, outname] .default = some ⟨outname, numeralValue bs, numeralValue es⟩ := by
    simp [toolOptions, (C65_number bs hb).1, (C65_number es he).1, hb', he']
  unfold toolMain
  rw [if_neg (by simp)]
  simp only [List.headD_cons, List.tail_cons, hin, ho, hc, if_true]
  rw [if_neg (fun h => hne h.symm)]
  dsimp only [Option.getD_some]
  congr 2
  funext name
  split <;> rfl

/-- With the input file alone the whole file is listed on the standard output, and no file changes (a file without a name cannot be created). -/
theorem C65_standard_output {creatable : Text → Bool} {files : Text → Option (List U8)} {inname : Text} (hin : files inname = some data) (hc : creatable [] = false) (turns : Nat) :
    toolMain creatable files [inname] turns = ((toolListing data ⟨[], 0, 2 ^ 64 - 1⟩ turns).1, (toolListing data ⟨[], 0, 2 ^ 64 - 1⟩ turns).2, files) := by
  unfold toolMain
  rw [if_neg (by simp)]
  simp only [List.headD_cons, List.tail_cons, hin, toolOptions, ToolOptions.default, hc]
  rfl

theorem options_named {args : List Text} {o o' : ToolOptions} (h : toolOptions args o = some o') : o'.outname = o.outname ∨ o'.outname ∈ args := by
  induction args, o using toolOptions.induct with
  | case1 o => cases h; exact .inl rfl
  | case2 a o => cases h
  | case3 value args o ih =>
    unfold toolOptions at h
    rw [if_pos rfl] at h
    rcases ih h with h | h
    · right; rw [h]; simp
    · right; simp [h]
  | _ => grind [toolOptions]

/-- Whatever the arguments: a file that they do not name is not changed. -/
theorem C65_files {creatable : Text → Bool} (files : Text → Option (List U8)) (hc : creatable [] = false) {args : List Text} {name : Text} (hn : name ∉ args) (turns : Nat) :
    (toolMain creatable files args turns).2.2 name = files name := by
  unfold toolMain
  split
  · rfl
  · dsimp only
    split
    · rfl
    · split
      · rfl
      · rename_i o ho
        split
        · rename_i hcr
          have : name ≠ o.outname := by
            rintro rfl
            rcases options_named ho with h | h
            · rw [h] at hcr
              exact absurd hcr (by rw [show ToolOptions.default.outname = [] from rfl, hc]; decide)
            · exact hn (List.mem_of_mem_tail h)
          simp [this]
        · rfl

/-! ### Where the program does not do this -/

/-- A file that ends within an instruction (here `NOP` and one byte): the program panics after the lines of the instructions before. -/
theorem C65_truncated_refuted : (toolListing [0x4E, 0x71, 0x4E] .default 9).1 = .panic ∧ (toolListing [0x4E, 0x71, 0x4E] .default 9).2 = ["0x0 NOP".toList] := by
  decide +kernel

theorem loop_huge (hl : data.length = 2 ^ 32) (hd : ∀ (j : Nat) (h : j < data.length), data[j] = 0x4E) : ∀ (turns : Nat) (a : U32) (out : List Text), ¬ Odd a →
    (toolLoop (2 ^ 32) turns a.toNat ⟨⟨data⟩, a⟩ out).1 = .running := by
  intro turns
  induction turns with
  | zero =>
    intro a out _
    unfold toolLoop
    rw [if_pos a.isLt]
  | succ turns ih =>
    intro a out ho
    have hlt := a.isLt
    have he : a.toNat % 2 = 0 := by
      unfold Spec.Odd at ho
      omega
    have hg : MemoryAccess.getWord a (⟨data⟩ : ByteSlice) = .val 0x4E4E ⟨data⟩ := by
      show MRes.ofRead _ (byteSliceGetWord _ _) = _
      dsimp only
      unfold byteSliceGetWord
      rw [dif_pos (by omega), dif_pos (by omega), hd, hd]
      rfl
    have hf : Feeds (⟨⟨data⟩, a⟩ : Iter ByteSlice) [0x4E4E] ⟨⟨data⟩, a + 2⟩ := .cons ho hg (.nil _)
    obtain ⟨op, h1, h2, h3⟩ := C39_trap (v := 14) (ws := [0x4E4E]) (by decide +kernel) ByteSlice _ _ hf
    obtain ⟨t, h4, -⟩ := text_shown h3
    unfold toolLoop
    rw [if_pos hlt, h3]
    dsimp only
    rw [h4]
    refine ih (a + 2) _ ?_
    unfold Spec.Odd
    rw [BitVec.toNat_add]
    show ¬ (a.toNat + 2) % 2 ^ 32 % 2 = 1
    omega

/-- A file of 4 GiB: the program never ends, because the address of the iterator wraps to 0 before the end is reached. All words of this file are `TRAP #14`. -/
theorem C65_huge_refuted : ∃ data : List U8, data.length = 2 ^ 32 ∧ ∀ turns, (toolListing data .default turns).1 = .running := by
  refine ⟨List.replicate (2 ^ 32) 0x4E, List.length_replicate, fun turns => ?_⟩
  have hlen : (List.replicate (2 ^ 32) (0x4E : U8)).length = 2 ^ 32 := List.length_replicate
  have hd : ∀ (j : Nat) (h : j < (List.replicate (2 ^ 32) (0x4E : U8)).length), (List.replicate (2 ^ 32) (0x4E : U8))[j] = 0x4E := fun j h => List.getElem_replicate ..
  generalize List.replicate (2 ^ 32) (0x4E : U8) = data at *
  have hstop : (if ToolOptions.default.stop > data.length then data.length else ToolOptions.default.stop) = 2 ^ 32 := by
    rw [hlen]
    decide
  unfold toolListing
  dsimp only
  rw [hstop]
  exact loop_huge hlen hd turns 0 [] (by decide)

/-- If the output file is the input file, it is emptied before it is read: nothing is listed. -/
theorem C65_overwrite_refuted {creatable : Text → Bool} {files : Text → Option (List U8)} {name : Text} (hin : files name = some data) (hc : creatable name = true) (turns : Nat) :
    (toolMain creatable files [name, "-o".toList, name] turns).1 = .done ∧ (toolMain creatable files [name, "-o".toList, name] turns).2.2 name = some [] := by
  have ho : toolOptions ["-o".toList, name] .default = some ⟨name, 0, 2 ^ 64 - 1⟩ := by simp [toolOptions, ToolOptions.default]
  unfold toolMain
  rw [if_neg (by simp)]
  simp only [List.headD_cons, List.tail_cons, hin, ho, hc, if_true, Option.getD_some]
  rw [C65_empty _ (by simp)]
  simp [linesBytes]

/-! ### Cases -/

/-- The program of C61 behind two bytes and before a third one. -/
example : (toolListing ([0, 0] ++ bytesOf (programWords demoProgram) ++ [0xFF]) ⟨[], 2, 16⟩ 9).2 =
    ["0x2 MOVEQ.L #5, D0".toList, "0x4 ADD.L (0x1000).L, D0".toList, "0xA LEA (4, PC), A0".toList, "0xE BRA -2 <0xE>".toList] := by decide +kernel

/-- A file, an output file and the range 2 to 6 in it. -/
example : (([0, 0, 0x4E, 0x71, 0x4E, 0x75] : List U8).length < 2 ^ 32) ∧ numeral [2] = "2".toList ∧ numeralValue [0, 6] = 6 ∧
    (toolMain (fun t => t ≠ []) (fun t => if t = "in".toList then some [0, 0, 0x4E, 0x71, 0x4E, 0x75] else none)
      ["in".toList, "-b".toList, numeral [2], "-e".toList, numeral [0, 6], "-o".toList, "out".toList] 3).2.2 "out".toList =
      some (("0x2 NOP\n0x4 RTS\n".toList).map fun c => BitVec.ofNat 8 c.toNat) := by
  refine ⟨by decide, by decide +kernel, rfl, ?_⟩
  decide +kernel

/-- One argument too few or too many, an unknown option, a missing value, a number that is none. -/
example : (toolMain (fun _ => true) (fun _ => some []) [] 1).1 = .usage ∧ (toolMain (fun _ => true) (fun _ => some []) (List.replicate 8 []) 1).1 = .usage ∧
    (toolMain (fun _ => true) (fun _ => some []) ["a".toList, "-x".toList, "1".toList] 1).1 = .panic ∧
    (toolMain (fun _ => true) (fun _ => some []) ["a".toList, "-b".toList] 1).1 = .panic ∧
    (toolMain (fun _ => true) (fun _ => some []) ["a".toList, "-b".toList, "0x10".toList] 1).1 = .panic := by decide +kernel

end M68k.Props
