import Verif.Lemmas.WordFields
import Verif.Lemmas.Legal
/-
The number of words the instruction decoder takes.
-/
set_option linter.unusedSectionVars false
namespace M68k.Exec
open Spec
variable {M : Type} [MemoryAccess M] {α β γ : Type} {it it' : Iter M} {ws : List U16} {i j k n : Nat} {op : U16}

/-- Reads `n` words. -/
def takeWords : Nat → Dec M (List U16)
  | 0 => pure []
  | n + 1 => do
    let w ← nextWord
    let ws ← takeWords n
    return w :: ws

theorem takeWords_feeds (h : takeWords n it = some (ws, it')) : ws.length = n ∧ Feeds it ws it' := by
  induction n generalizing it ws with
  | zero => cases h; exact ⟨rfl, .nil _⟩
  | succ n ih =>
    simp only [takeWords, dec_bind] at h
    unfold nextWord at h
    cases hn : it.next with
    | ok w it1 =>
      rw [hn] at h
      dsimp only at h
      cases ht : takeWords n it1 with
      | none => rw [ht] at h; cases h
      | some p =>
        obtain ⟨l, it2⟩ := p
        rw [ht] at h
        cases h
        obtain ⟨h1, h2⟩ := ih ht
        refine ⟨by simp [h1], feeds_cons.2 ⟨it1, hn, ?_, h2⟩⟩
        unfold Iter.next at hn
        split at hn
        · split at hn
          · cases hn; rfl
          · cases hn
          · cases hn
        · cases hn
    | err v it1 => rw [hn] at h; cases h
    | panic => rw [hn] at h; cases h

theorem feeds_takeWords (h : Feeds it ws it') : takeWords ws.length it = some (ws, it') := by
  induction ws generalizing it with
  | nil => cases h; rfl
  | cons w ws ih =>
    obtain ⟨it1, h1, -, h3⟩ := feeds_cons.1 h
    rw [List.length_cons]
    unfold takeWords
    rw [dec_bind, nextWord_eq h1]
    dsimp only
    rw [dec_bind, ih h3]
    rfl

/-- `x` takes exactly `n` words, or panics if they cannot be read. -/
def Takes (n : Nat) (x : Dec M α) : Prop := ∀ it, (x it).map Prod.snd = (takeWords n it).map Prod.snd

theorem takeWords_add (j k : Nat) (it : Iter M) : (takeWords (j + k) it).map Prod.snd = (takeWords j it).bind fun p => (takeWords k p.2).map Prod.snd := by
  induction j generalizing it with
  | zero => rw [Nat.zero_add]; rfl
  | succ j ih =>
    rw [show j + 1 + k = (j + k) + 1 by omega]
    simp only [takeWords, dec_bind]
    cases hn : (nextWord : Dec M U16) it with
    | none => rfl
    | some p =>
      obtain ⟨w, it1⟩ := p
      dsimp only
      have := ih it1
      cases h1 : takeWords j it1 with
      | none =>
        rw [h1] at this
        cases h2 : takeWords (j + k) it1 with
        | none => rfl
        | some q => rw [h2] at this; cases this
      | some q =>
        rw [h1] at this
        cases h2 : takeWords (j + k) it1 with
        | none => rw [h2] at this; exact this
        | some r => rw [h2] at this; exact this

theorem Takes.pure (a : α) : Takes (M := M) 0 (pure a) := fun _ => rfl
theorem Takes.bind {x : Dec M α} {f : α → Dec M β} (hx : Takes j x) (hf : ∀ a, Takes k (f a)) : Takes (j + k) (x >>= f) := by
  intro it
  rw [takeWords_add]
  have h := hx it
  rw [dec_bind]
  cases h1 : x it with
  | none =>
    rw [h1] at h
    cases h2 : takeWords j it with
    | none => rfl
    | some q => rw [h2] at h; cases h
  | some p =>
    rw [h1] at h
    cases h2 : takeWords j it with
    | none => rw [h2] at h; cases h
    | some q =>
      rw [h2] at h
      have h : p.2 = q.2 := Option.some.inj h
      dsimp only
      rw [h]
      exact hf p.1 q.2
theorem Takes.then {x : Dec M α} {f : α → Dec M β} (hx : Takes n x) (hf : ∀ a, Takes 0 (f a)) : Takes n (x >>= f) := Takes.bind hx hf
theorem Takes.map {x : Dec M α} (f : α → β) (hx : Takes n x) : Takes n (f <$> x) := by
  intro it
  rw [← hx it, dec_map]
  cases x it <;> rfl
theorem Takes.lift {o : Option α} {f : α → Dec M β} (h : ∃ a, o = some a ∧ Takes n (f a)) : Takes n (Dec.lift o >>= f) := by
  obtain ⟨a, rfl, h⟩ := h
  exact h
theorem Takes.word : Takes (M := M) 1 nextWord := by
  intro it
  simp only [takeWords, dec_bind]
  cases (nextWord : Dec M U16) it <;> rfl
theorem Takes.long : Takes (M := M) 2 nextLong := Takes.word.bind fun _ => Takes.word.then fun _ => .pure _
theorem Takes.addr : Takes (M := M) 0 Dec.nextAddr := fun _ => rfl
theorem Takes.ite {c : Prop} [Decidable c] {x y : Dec M α} (hx : c → Takes n x) (hy : ¬ c → Takes n y) : Takes n (if c then x else y) := by
  split
  · exact hx (by assumption)
  · exact hy (by assumption)

/-- The words of an immediate operand. -/
def immLen : Size → Nat
  | .Long => 2
  | _ => 1

theorem Takes.fromMemory {mode : U16} {reg : U8} {size : Option Size} {imm : Nat} (h : mode.toNat < 7 ∨ mode.toNat = 7 ∧ (reg.toNat ≤ 3 ∨ reg.toNat = 4 ∧ ∃ sz, size = some sz ∧ imm = immLen sz)) :
    Takes (M := M) (eaWords imm mode.toNat reg.toNat) (AddressingMode.fromMemory mode reg size) := by
  unfold AddressingMode.fromMemory
  rcases h with h | ⟨h7, h⟩
  · generalize mode.toNat = m at h
    match m, h with
    | 0, _ => exact .pure _
    | 1, _ => exact .pure _
    | 2, _ => exact .pure _
    | 3, _ => exact .pure _
    | 4, _ => exact .pure _
    | 5, _ => exact Takes.word.then fun _ => .pure _
    | 6, _ => exact Takes.word.then fun _ => .pure _
  · rw [h7]
    rcases h with h | ⟨h4, sz, rfl, rfl⟩
    · generalize reg.toNat = r at h
      match r, h with
      | 0, _ => exact Takes.word.then fun _ => .pure _
      | 1, _ => exact Takes.long.then fun _ => .pure _
      | 2, _ => exact Takes.addr.bind fun _ => Takes.word.then fun _ => .pure _
      | 3, _ => exact Takes.addr.bind fun _ => Takes.word.then fun _ => .pure _
    · rw [h4]
      cases sz with
      | Byte => exact Takes.word.then fun _ => .pure _
      | Word => exact Takes.word.then fun _ => .pure _
      | Long => exact Takes.long.then fun _ => .pure _

theorem Takes.ea {size : Option Size} {imm : Nat} (h : op.toNat / 8 % 8 < 7 ∨ op.toNat % 8 ≤ 3 ∨ op.toNat % 8 = 4 ∧ ∃ sz, size = some sz ∧ imm = immLen sz) :
    Takes (M := M) (opEaWords imm op) (AddressingMode.fromMemory (bits op 3 5) (toU8 (bits op 0 2)) size) := by
  unfold opEaWords
  rw [← bits35, ← bits02] at *
  refine Takes.fromMemory ?_
  have := bits35 op
  rcases h with h | h | h
  · exact .inl h
  · by_cases h7 : (bits op 3 5).toNat < 7
    · exact .inl h7
    · exact .inr ⟨by omega, .inl h⟩
  · by_cases h7 : (bits op 3 5).toNat < 7
    · exact .inl h7
    · exact .inr ⟨by omega, .inr h⟩

theorem Takes.dst {size : Option Size} {imm : Nat} (h : op.toNat / 64 % 8 < 7 ∨ op.toNat / 512 % 8 ≤ 3) :
    Takes (M := M) (eaWords imm (op.toNat / 64 % 8) (op.toNat / 512 % 8)) (AddressingMode.fromMemory (bits op 6 8) (toU8 (bits op 9 11)) size) := by
  rw [← bits68, ← bits911] at *
  have h1 := bits68 op
  refine Takes.fromMemory ?_
  by_cases h7 : (bits op 6 8).toNat < 7
  · exact .inl h7
  · exact .inr ⟨by omega, .inl (by omega)⟩

theorem size_field (h : op.toNat / 64 % 4 ≠ 3) : ∃ sz, Size.fromU16 (bits op 6 7) = some sz ∧ sizedImm op = immLen sz := by
  have hb : (bits op 6 7).toNat = op.toNat / 64 % 4 := bits_toNat op 6 1 (by omega)
  have key : ∀ k : Nat, (bits op 6 7 = BitVec.ofNat 16 k ↔ op.toNat / 64 % 4 = k) ∨ 65536 ≤ k := by
    intro k
    by_cases hk : k < 65536
    · left
      rw [← hb]
      constructor
      · intro h; rw [h]; simp; omega
      · intro h; apply BitVec.eq_of_toNat_eq; rw [h]; simp; omega
    · right; omega
  have h0 : _ = (0 : U16) ↔ _ := (key 0).resolve_right (by omega)
  have h1 : _ = (1 : U16) ↔ _ := (key 1).resolve_right (by omega)
  have h2 : _ = (2 : U16) ↔ _ := (key 2).resolve_right (by omega)
  unfold Size.fromU16 sizedImm
  by_cases e0 : op.toNat / 64 % 4 = 0
  · exact ⟨.Byte, if_pos (h0.2 e0), by rw [if_neg (by omega)]; rfl⟩
  · rw [if_neg (fun h => e0 (h0.1 h))]
    by_cases e1 : op.toNat / 64 % 4 = 1
    · exact ⟨.Word, if_pos (h1.2 e1), by rw [if_neg (by omega)]; rfl⟩
    · rw [if_neg (fun h => e1 (h1.1 h))]
      have e2 : op.toNat / 64 % 4 = 2 := by omega
      exact ⟨.Long, if_pos (h2.2 e2), by rw [if_pos e2]; rfl⟩

theorem move_field (h : op.toNat / 4096 % 4 ≠ 0) : ∃ sz, Size.fromMove (bits op 12 13) = some sz ∧ moveImm op = immLen sz := by
  have hb : (bits op 12 13).toNat = op.toNat / 4096 % 4 := bits_toNat op 12 1 (by omega)
  have key : ∀ k : Nat, (bits op 12 13 = BitVec.ofNat 16 k ↔ op.toNat / 4096 % 4 = k) ∨ 65536 ≤ k := by
    intro k
    by_cases hk : k < 65536
    · left
      rw [← hb]
      constructor
      · intro h; rw [h]; simp; omega
      · intro h; apply BitVec.eq_of_toNat_eq; rw [h]; simp; omega
    · right; omega
  have h1 : _ = (1 : U16) ↔ _ := (key 1).resolve_right (by omega)
  have h2 : _ = (2 : U16) ↔ _ := (key 2).resolve_right (by omega)
  have h3 : _ = (3 : U16) ↔ _ := (key 3).resolve_right (by omega)
  unfold Size.fromMove moveImm
  by_cases e0 : op.toNat / 4096 % 4 = 1
  · exact ⟨.Byte, if_pos (h1.2 e0), by rw [if_neg (by omega)]; rfl⟩
  · rw [if_neg (fun h => e0 (h1.1 h))]
    by_cases e1 : op.toNat / 4096 % 4 = 3
    · exact ⟨.Word, if_pos (h3.2 e1), by rw [if_neg (by omega)]; rfl⟩
    · rw [if_neg (fun h => e1 (h3.1 h))]
      have e2 : op.toNat / 4096 % 4 = 2 := by omega
      exact ⟨.Long, if_pos (h2.2 e2), by rw [if_pos e2]; rfl⟩

/-- The operands of each kind. -/
theorem takes_immediate : Takes (M := M) 1 (Decode.newImmediate op) := Takes.word.then fun _ => .pure _

section
open Decode
variable (h3 : op.toNat / 64 % 4 ≠ 3) (hany : op.toNat / 8 % 8 < 7 ∨ op.toNat % 8 ≤ 4) (hmem : op.toNat / 8 % 8 < 7 ∨ op.toNat % 8 ≤ 3)

theorem any_ea {sz : Size} (hany : op.toNat / 8 % 8 < 7 ∨ op.toNat % 8 ≤ 4) : Takes (M := M) (opEaWords (immLen sz) op) (AddressingMode.fromMemory (bits op 3 5) (toU8 (bits op 0 2)) (some sz)) :=
  Takes.ea (by
    rcases hany with h | h
    · exact .inl h
    · by_cases h4 : op.toNat % 8 = 4
      · exact .inr (.inr ⟨h4, sz, rfl, rfl⟩)
      · exact .inr (.inl (by omega)))
theorem mem_ea {size : Option Size} {imm : Nat} (hmem : op.toNat / 8 % 8 < 7 ∨ op.toNat % 8 ≤ 3) :
    Takes (M := M) (opEaWords imm op) (AddressingMode.fromMemory (bits op 3 5) (toU8 (bits op 0 2)) size) :=
  Takes.ea (by rcases hmem with h | h; exact .inl h; exact .inr (.inl h))

include h3 hany in
theorem takes_sizeEaImm : Takes (M := M) (sizedImm op + opEaWords (sizedImm op) op) (newSizeEffectiveAddressImmediate op) := by
  obtain ⟨sz, h1, h2⟩ := size_field h3
  refine Takes.then (Takes.lift ⟨sz, h1, ?_⟩) fun _ => .pure _
  rw [h2]
  refine Takes.bind ?_ fun _ => (any_ea hany).then fun _ => .pure _
  cases sz with
  | Byte => exact Takes.word.map _
  | Word => exact Takes.word.map _
  | Long => exact Takes.long
include h3 hany in
theorem takes_sizeEa : Takes (M := M) (opEaWords (sizedImm op) op) (newSizeEffectiveAddress op) := by
  obtain ⟨sz, h1, h2⟩ := size_field h3
  refine Takes.then (Takes.lift ⟨sz, h1, ?_⟩) fun _ => .pure _
  rw [h2]
  exact (any_ea hany).then fun _ => .pure _
include h3 hany in
theorem takes_dataSizeEa : Takes (M := M) (opEaWords (sizedImm op) op) (newDataSizeEffectiveAddress op) := by
  obtain ⟨sz, h1, h2⟩ := size_field h3
  refine Takes.then (Takes.lift ⟨sz, h1, ?_⟩) fun _ => .pure _
  rw [h2]
  exact (any_ea hany).then fun _ => .pure _
include h3 hany in
theorem takes_regDirSizeEa : Takes (M := M) (opEaWords (sizedImm op) op) (newRegisterDirectionSizeEffectiveAddress op) := by
  obtain ⟨sz, h1, h2⟩ := size_field h3
  refine Takes.then (Takes.lift ⟨sz, h1, ?_⟩) fun _ => .pure _
  rw [h2]
  exact (any_ea hany).then fun _ => .pure _
include h3 in
theorem takes_regSizeModeReg : Takes (M := M) 0 (newRegisterSizeModeRegister op) := by
  obtain ⟨sz, h1, h2⟩ := size_field h3
  exact Takes.then (Takes.lift ⟨sz, h1, .pure _⟩) fun _ => .pure _
include h3 in
theorem takes_regSizeReg : Takes (M := M) 0 (newRegisterSizeRegister op) := by
  obtain ⟨sz, h1, h2⟩ := size_field h3
  exact Takes.then (Takes.lift ⟨sz, h1, .pure _⟩) fun _ => .pure _
include h3 in
theorem takes_rotation : Takes (M := M) 0 (newRotationDirectionSizeModeRegister op) := by
  obtain ⟨sz, h1, h2⟩ := size_field h3
  exact Takes.then (Takes.lift ⟨sz, h1, .pure _⟩) fun _ => .pure _
include hany in
theorem takes_regSizeEa : Takes (M := M) (opEaWords (if flag op 8 then 2 else 1) op) (newRegisterSizeEffectiveAddress op) := by
  have : (if flag op 8 = true then 2 else 1) = immLen (Size.fromBit (bit op 8)) := by
    rw [bit_flag op 8 (by omega)]
    cases flag op 8 <;> rfl
  rw [this]
  exact ((any_ea hany).then fun _ => .pure _).then fun _ => .pure _
include hany in
theorem takes_dirEa : Takes (M := M) (opEaWords 1 op) (newDirectionEffectiveAddress op) :=
  ((any_ea (sz := .Byte) hany).then fun _ => .pure _).then fun _ => .pure _
include hany in
theorem takes_condEa : Takes (M := M) (opEaWords 1 op) (newConditionEffectiveAddress op) :=
  ((any_ea (sz := .Byte) hany).then fun _ => .pure _).then fun _ => .pure _
include hmem in
theorem takes_movem : Takes (M := M) (1 + opEaWords 1 op) (newDirectionSizeEffectiveAddressList op) :=
  (Takes.word.bind fun _ => (mem_ea hmem).then fun _ => .pure _).then fun _ => .pure _
include hany in
theorem takes_regEa (hl : decoder op ≠ .Lea) : Takes (M := M) (opEaWords 1 op) (newRegisterEffectiveAddress op) := by
  unfold newRegisterEffectiveAddress Decode.registerEffectiveAddress
  dsimp only
  rw [if_neg hl]
  exact ((any_ea (sz := .Word) hany).then fun _ => .pure _).then fun _ => .pure _
include hmem in
theorem takes_lea : Takes (M := M) (opEaWords 0 op) (newRegisterEffectiveAddress op) := by
  unfold newRegisterEffectiveAddress Decode.registerEffectiveAddress
  dsimp only
  exact ((mem_ea hmem).then fun _ => .pure _).then fun _ => .pure _
include hmem in
theorem takes_ea0 {imm : Nat} : Takes (M := M) (opEaWords imm op) (newEffectiveAddress op) := by
  unfold newEffectiveAddress Decode.effectiveAddress
  dsimp only
  exact (mem_ea hmem).then fun _ => .pure _
include hany in
theorem takes_ea1 (h : decoder op = .Nbcd ∨ decoder op = .Tas ∨ decoder op = .Moveccr ∨ decoder op = .Movefsr ∨ decoder op = .Movesr) :
    Takes (M := M) (opEaWords 1 op) (newEffectiveAddress op) := by
  unfold newEffectiveAddress Decode.effectiveAddress
  dsimp only
  refine Takes.then ?_ fun _ => .pure _
  rcases h with h | h | h | h | h <;> simp only [h]
  · exact any_ea (sz := .Byte) hany
  · exact any_ea (sz := .Byte) hany
  · exact any_ea (sz := .Word) hany
  · exact any_ea (sz := .Word) hany
  · exact any_ea (sz := .Word) hany
include hany in
theorem takes_eaCount : Takes (M := M) ((if flag op 8 then 0 else 1) + opEaWords 1 op) (newEffectiveAddressCount op) := by
  unfold newEffectiveAddressCount Decode.effectiveAddressCount
  refine Takes.then (Takes.bind ?_ fun _ => ?_) fun _ => .pure _
  · rw [bit_flag op 8 (by omega)]
    cases flag op 8
    · exact Takes.word.map _
    · exact .pure _
  · dsimp only
    refine Takes.then ?_ fun _ => .pure _
    split
    · refine Takes.ea (.inl ?_)
      rename_i h
      rw [← bits35, h]
      decide
    · exact any_ea (sz := .Byte) hany
theorem takes_move (hs : op.toNat / 4096 % 4 ≠ 0) (hany : op.toNat / 8 % 8 < 7 ∨ op.toNat % 8 ≤ 4) (hd : op.toNat / 64 % 8 < 7 ∨ op.toNat / 512 % 8 ≤ 3) :
    Takes (M := M) (opEaWords (moveImm op) op + eaWords (moveImm op) (op.toNat / 64 % 8) (op.toNat / 512 % 8)) (newSizeEffectiveAddressEffectiveAddress op) := by
  obtain ⟨sz, h1, h2⟩ := move_field hs
  refine Takes.then (Takes.lift ⟨sz, h1, ?_⟩) fun _ => .pure _
  rw [h2]
  exact (any_ea hany).bind fun _ => (Takes.dst hd).then fun _ => .pure _
theorem takes_movea (hs : op.toNat / 4096 % 4 ≠ 0) (hany : op.toNat / 8 % 8 < 7 ∨ op.toNat % 8 ≤ 4) :
    Takes (M := M) (opEaWords (moveImm op) op) (newSizeRegisterEffectiveAddress op) := by
  obtain ⟨sz, h1, h2⟩ := move_field hs
  refine Takes.then (Takes.lift ⟨sz, h1, ?_⟩) fun _ => .pure _
  rw [h2]
  exact (any_ea hany).then fun _ => .pure _
theorem op_byte (op : U16) : (toU8 op).signExtend 16 = 0 ↔ op.toNat % 256 = 0 := by
  have h1 : ∀ b : Fin 256, (BitVec.ofNat 8 b.val).signExtend 16 = 0 ↔ b.val = 0 := by decide +kernel
  have h2 : toU8 op = BitVec.ofNat 8 (op.toNat % 256) := by
    apply BitVec.eq_of_toNat_eq; simp [toU8]
  rw [h2]
  exact h1 ⟨op.toNat % 256, Nat.mod_lt _ (by omega)⟩
theorem takes_disp : Takes (M := M) (if op.toNat % 256 = 0 then 1 else 0) (newDisplacement op) := by
  unfold newDisplacement Decode.displacement
  refine Takes.then ?_ fun _ => .pure _
  dsimp only
  by_cases h : op.toNat % 256 = 0
  · rw [if_pos h, if_pos ((op_byte op).2 h)]; exact Takes.word
  · rw [if_neg h, if_neg (fun hc => h ((op_byte op).1 hc))]; exact .pure _
theorem takes_condDisp : Takes (M := M) (if op.toNat % 256 = 0 then 1 else 0) (newConditionDisplacement op) := by
  unfold newConditionDisplacement Decode.conditionDisplacement
  refine Takes.then (Takes.then ?_ fun _ => .pure _) fun _ => .pure _
  by_cases h : op.toNat % 256 = 0
  · rw [if_pos h, if_pos ((op_byte op).2 h)]; exact Takes.word
  · rw [if_neg h, if_neg (fun hc => h ((op_byte op).1 hc))]; exact .pure _
end

theorem takes_decode (op : U16) : Takes (M := M) (extensionWords (decoder op) op) (isaEntryDecode (decoder op) op) := by
  have hl := decoder_of_check legalCheck legalCheck_all op
  have hd : ∃ i, decoder op = i := ⟨_, rfl⟩
  obtain ⟨i, hd⟩ := hd
  rw [hd] at hl
  have hmem : eaInMemory (op.toNat / 8 % 8) (op.toNat % 8) = true → op.toNat / 8 % 8 < 7 ∨ op.toNat % 8 ≤ 3 := by
    intro h; simp [eaInMemory] at h; omega
  unfold legalCheck at hl
  cases i <;> try simp only [Bool.and_eq_true, Bool.or_eq_true, decide_eq_true_eq, bne_iff_ne, ne_eq] at hl
  case Unknown => rw [hd]; exact Takes.pure _
  case Abcd => rw [hd]; exact takes_regSizeModeReg (by omega)
  case Add => rw [hd]; exact takes_regDirSizeEa (by omega) (by omega)
  case Adda => rw [hd]; exact takes_regSizeEa (by omega)
  case Addi => rw [hd]; exact takes_sizeEaImm (by omega) (by omega)
  case Addq => rw [hd]; exact takes_dataSizeEa (by omega) (by omega)
  case Addx => rw [hd]; exact takes_regSizeModeReg (by omega)
  case And => rw [hd]; exact takes_regDirSizeEa (by omega) (by omega)
  case Andi => rw [hd]; exact takes_sizeEaImm (by omega) (by omega)
  case Andiccr => rw [hd]; exact takes_immediate (op := op)
  case Andisr => rw [hd]; exact takes_immediate (op := op)
  case Asm => rw [hd]; exact takes_dirEa (by omega)
  case Asr => rw [hd]; exact takes_rotation (by omega)
  case Bcc => rw [hd]; exact takes_condDisp
  case Bchg => rw [hd]; exact takes_eaCount (by omega)
  case Bclr => rw [hd]; exact takes_eaCount (by omega)
  case Bra => rw [hd]; exact takes_disp
  case Bset => rw [hd]; exact takes_eaCount (by omega)
  case Bsr => rw [hd]; exact takes_disp
  case Btst => rw [hd]; exact takes_eaCount (by omega)
  case Chk => rw [hd]; exact takes_regEa (by omega) (by rw [hd]; decide)
  case Clr => rw [hd]; exact takes_sizeEa (by omega) (by omega)
  case Cmp => rw [hd]; exact takes_regDirSizeEa (by omega) (by omega)
  case Cmpa => rw [hd]; exact takes_regSizeEa (by omega)
  case Cmpi => rw [hd]; exact takes_sizeEaImm (by omega) (by omega)
  case Cmpm => rw [hd]; exact takes_regSizeReg (by omega)
  case Dbcc => rw [hd]; exact (Takes.word.then fun _ => .pure _).then fun _ => .pure _
  case Divs => rw [hd]; exact takes_regEa (by omega) (by rw [hd]; decide)
  case Divu => rw [hd]; exact takes_regEa (by omega) (by rw [hd]; decide)
  case Eor => rw [hd]; exact takes_regDirSizeEa (by omega) (by omega)
  case Eori => rw [hd]; exact takes_sizeEaImm (by omega) (by omega)
  case Eoriccr => rw [hd]; exact takes_immediate (op := op)
  case Eorisr => rw [hd]; exact takes_immediate (op := op)
  case Exg => rw [hd]; exact (Takes.pure _).then fun _ => .pure _
  case Ext => rw [hd]; exact (Takes.pure _).then fun _ => .pure _
  case Illegal => rw [hd]; exact Takes.pure _
  case Jmp => rw [hd]; exact takes_ea0 (hmem hl.1.1)
  case Jsr => rw [hd]; exact takes_ea0 (hmem hl.1.1)
  case Lea => rw [hd]; exact takes_lea (hmem hl.1.1)
  case Link => rw [hd]; exact (Takes.word.then fun _ => .pure _).then fun _ => .pure _
  case Lsm => rw [hd]; exact takes_dirEa (by omega)
  case Lsr => rw [hd]; exact takes_rotation (by omega)
  case Move => rw [hd]; exact takes_move (by omega) (by omega) (by omega)
  case Movea => rw [hd]; exact takes_movea (by omega) (by omega)
  case Moveccr => rw [hd]; exact takes_ea1 (by omega) (by simp [hd])
  case Movefsr => rw [hd]; exact takes_ea1 (by omega) (by simp [hd])
  case Movesr => rw [hd]; exact takes_ea1 (by omega) (by simp [hd])
  case Moveusp => rw [hd]; exact (Takes.pure _).then fun _ => .pure _
  case Movem => rw [hd]; exact takes_movem (hmem hl)
  case Movep => rw [hd]; exact (Takes.word.then fun _ => .pure _).then fun _ => .pure _
  case Moveq => rw [hd]; exact (Takes.pure _).then fun _ => .pure _
  case Muls => rw [hd]; exact takes_regEa (by omega) (by rw [hd]; decide)
  case Mulu => rw [hd]; exact takes_regEa (by omega) (by rw [hd]; decide)
  case Nbcd => rw [hd]; exact takes_ea1 (by omega) (by simp [hd])
  case Neg => rw [hd]; exact takes_sizeEa (by omega) (by omega)
  case Negx => rw [hd]; exact takes_sizeEa (by omega) (by omega)
  case Nop => rw [hd]; exact Takes.pure _
  case Not => rw [hd]; exact takes_sizeEa (by omega) (by omega)
  case Or => rw [hd]; exact takes_regDirSizeEa (by omega) (by omega)
  case Ori => rw [hd]; exact takes_sizeEaImm (by omega) (by omega)
  case Oriccr => rw [hd]; exact takes_immediate (op := op)
  case Orisr => rw [hd]; exact takes_immediate (op := op)
  case Pea => rw [hd]; exact takes_ea0 (hmem hl.1.1)
  case Reset => rw [hd]; exact Takes.pure _
  case Rom => rw [hd]; exact takes_dirEa (by omega)
  case Ror => rw [hd]; exact takes_rotation (by omega)
  case Roxm => rw [hd]; exact takes_dirEa (by omega)
  case Roxr => rw [hd]; exact takes_rotation (by omega)
  case Rte => rw [hd]; exact Takes.pure _
  case Rtr => rw [hd]; exact Takes.pure _
  case Rts => rw [hd]; exact Takes.pure _
  case Sbcd => rw [hd]; exact takes_regSizeModeReg (by omega)
  case Scc => rw [hd]; exact takes_condEa (by omega)
  case Stop => rw [hd]; exact takes_immediate (op := op)
  case Sub => rw [hd]; exact takes_regDirSizeEa (by omega) (by omega)
  case Suba => rw [hd]; exact takes_regSizeEa (by omega)
  case Subi => rw [hd]; exact takes_sizeEaImm (by omega) (by omega)
  case Subq => rw [hd]; exact takes_dataSizeEa (by omega) (by omega)
  case Subx => rw [hd]; exact takes_regSizeModeReg (by omega)
  case Swap => rw [hd]; exact (Takes.pure _).then fun _ => .pure _
  case Tas => rw [hd]; exact takes_ea1 (by omega) (by simp [hd])
  case Trap => rw [hd]; exact (Takes.pure _).then fun _ => .pure _
  case Trapv => rw [hd]; exact Takes.pure _
  case Tst => rw [hd]; exact takes_sizeEa (by omega) (by omega)
  case Unlk => rw [hd]; exact (Takes.pure _).then fun _ => .pure _

/-- The instruction decoder reads the opcode and exactly its extension words. -/
theorem fromMemory_words {it it' : Iter M} {i : Instruction} (h : Instruction.fromMemory it = .ok i it') :
    ∃ ws, Feeds it (i.opcode :: ws) it' ∧ ws.length = extensionWords (decoder i.opcode) i.opcode ∧ i.pc = it.nextAddr := by
  unfold Instruction.fromMemory at h
  dsimp only at h
  cases hn : it.next with
  | ok op it1 =>
    rw [hn] at h
    dsimp only at h
    unfold Instruction.fromOpcode at h
    simp only [dec_bind] at h
    have ht := takes_decode op it1
    cases hd : isaEntryDecode (decoder op) op it1 with
    | none => rw [hd] at h; cases h
    | some p =>
      rw [hd] at h ht
      cases h
      cases hw : takeWords (extensionWords (decoder op) op) it1 with
      | none => rw [hw] at ht; cases ht
      | some q =>
        rw [hw] at ht
        have ht : p.2 = q.2 := Option.some.inj ht
        obtain ⟨h1, h2⟩ := takeWords_feeds (show takeWords _ it1 = some (q.1, q.2) from hw)
        refine ⟨q.1, feeds_cons.2 ⟨it1, hn, ?_, ?_⟩, h1, rfl⟩
        · unfold Iter.next at hn
          split at hn
          · split at hn
            · cases hn; rfl
            · cases hn
            · cases hn
          · cases hn
        · show Feeds it1 q.1 p.2
          rw [ht]; exact h2
  | err v it1 => rw [hn] at h; cases h
  | panic => rw [hn] at h; cases h

/-- It decodes every opcode whose extension words can be read. -/
theorem words_fromMemory {it it' : Iter M} {ws : List U16} (h : Feeds it (op :: ws) it') (hl : ws.length = extensionWords (decoder op) op) :
    ∃ ops, Instruction.fromMemory it = .ok ⟨op, it.nextAddr, ops⟩ it' := by
  obtain ⟨it1, h1, -, h2⟩ := feeds_cons.1 h
  unfold Instruction.fromMemory
  dsimp only
  rw [h1]
  have ht := takes_decode op it1
  rw [← hl, feeds_takeWords h2] at ht
  cases hd : isaEntryDecode (decoder op) op it1 with
  | none => rw [hd] at ht; cases ht
  | some p =>
    rw [hd] at ht
    have ht : p.2 = it' := Option.some.inj ht
    refine ⟨p.1, ?_⟩
    unfold Instruction.fromOpcode
    simp only [dec_bind, hd]
    rw [← ht]
    rfl

end M68k.Exec
