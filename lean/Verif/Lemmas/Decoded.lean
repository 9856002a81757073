import Verif.Lemmas.Asm
import Verif.Spec.Decoded
/-
The operands that the decoder finds are those of the instruction formats.
-/
set_option linter.unusedSectionVars false
namespace M68k.Exec
open Spec Decode
variable {M : Type} [MemoryAccess M] {α β : Type} {it it' : Iter M} {op : U16} {ws : List U16}

/-- Reading the `n` words `ws` at the address `pc`, `x` returns `f pc ws`. -/
def Gives (n : Nat) (x : Dec M α) (f : U32 → List U16 → α) : Prop :=
  ∀ it it' ws, Feeds it ws it' → ws.length = n → x it = some (f it.nextAddr ws, it')

theorem Gives.pure (a : α) : Gives (M := M) 0 (pure a) fun _ _ => a := by
  intro it it' ws h hl
  cases ws with
  | nil => cases h; rfl
  | cons => cases hl

theorem Gives.word : Gives (M := M) 1 nextWord fun _ ws => ws.headD 0 := by
  intro it it' ws h hl
  match ws, hl with
  | [w], _ => exact nextWord_feeds h

theorem Gives.long : Gives (M := M) 2 nextLong fun _ ws => dataOf ws := by
  intro it it' ws h hl
  match ws, hl with
  | [a, b], _ =>
    obtain ⟨it1, h1, -, h2⟩ := feeds_cons.1 h
    obtain ⟨it2, h3, -, h4⟩ := feeds_cons.1 h2
    cases h4
    have hv : toU32 a <<< 16 ||| toU32 b = dataOf [a, b] := by
      unfold toU32 dataOf
      apply BitVec.eq_of_toNat_eq
      simp only [BitVec.toNat_or, BitVec.toNat_shiftLeft, BitVec.toNat_setWidth, BitVec.toNat_append]
      have ha := a.isLt
      have hb := b.isLt
      rw [Nat.shiftLeft_eq, Nat.shiftLeft_eq, Nat.mod_eq_of_lt (show a.toNat < 2 ^ 32 by omega), Nat.mod_eq_of_lt (show b.toNat < 2 ^ 32 by omega),
        Nat.mod_eq_of_lt (show a.toNat * 2 ^ 16 < 2 ^ 32 by omega)]
    unfold nextLong
    simp only [dec_bind, nextWord_eq h1, nextWord_eq h3, dec_pure, hv]

theorem Gives.map {n : Nat} {x : Dec M α} {f : U32 → List U16 → α} (g : α → β) (h : Gives n x f) : Gives n (g <$> x) fun pc ws => g (f pc ws) := by
  intro it it' ws hf hl
  rw [dec_map, h it it' ws hf hl]

theorem Gives.addr : Gives (M := M) 0 Dec.nextAddr fun pc _ => pc := by
  intro it it' ws h hl
  cases ws with
  | nil => cases h; rfl
  | cons => cases hl

theorem Gives.bind {j k : Nat} {x : Dec M α} {f : U32 → List U16 → α} {y : α → Dec M β} {g : α → U32 → List U16 → β} (hx : Gives j x f) (hy : ∀ a, Gives k (y a) (g a)) :
    Gives (j + k) (x >>= y) fun pc ws => g (f pc (ws.take j)) (pc + BitVec.ofNat 32 (2 * j)) (ws.drop j) := by
  intro it it' ws h hl
  have hs : ws = ws.take j ++ ws.drop j := (List.take_append_drop j ws).symm
  rw [hs] at h
  obtain ⟨it1, h1, h2⟩ := feeds_append h
  have l1 : (ws.take j).length = j := by rw [List.length_take]; omega
  have l2 : (ws.drop j).length = k := by rw [List.length_drop]; omega
  rw [dec_bind, hx it it1 _ h1 l1]
  dsimp only
  rw [hy _ it1 it' _ h2 l2, Feeds.addr h1, l1]

theorem Gives.then {n : Nat} {x : Dec M α} {f : U32 → List U16 → α} {y : α → Dec M β} {g : α → β} (hx : Gives n x f) (hy : ∀ a, Gives 0 (y a) fun _ _ => g a) :
    Gives n (x >>= y) fun pc ws => g (f pc ws) := by
  intro it it' ws h hl
  rw [dec_bind, hx it it' ws h hl]
  exact hy _ it' it' [] (.nil _) rfl

theorem Gives.lift {n : Nat} {o : Option α} {y : α → Dec M β} {g : U32 → List U16 → β} (h : ∃ a, o = some a ∧ Gives n (y a) g) : Gives n (Dec.lift o >>= y) g := by
  obtain ⟨a, rfl, h⟩ := h
  exact h

theorem Gives.cast {n m : Nat} {x : Dec M α} {f g : U32 → List U16 → α} (h : Gives n x f) (hn : n = m) (hf : ∀ pc ws, ws.length = m → f pc ws = g pc ws) : Gives m x g := by
  subst hn
  intro it it' ws hw hl
  rw [h it it' ws hw hl, hf _ _ hl]

theorem u8_ofNat (r : U8) : BitVec.ofNat 8 r.toNat = r := by simp

theorem Gives.fromMemory {mode : U16} {reg : U8} {size : Option Size} {imm : Nat}
    (h : mode.toNat < 7 ∨ mode.toNat = 7 ∧ (reg.toNat ≤ 3 ∨ reg.toNat = 4 ∧ ∃ sz, size = some sz ∧ imm = immLen sz)) :
    Gives (M := M) (eaWords imm mode.toNat reg.toNat) (AddressingMode.fromMemory mode reg size) fun pc ws => modeOf pc mode.toNat reg.toNat ws := by
  have one : ∀ {ws : List U16}, ws.length = 1 → ∃ w, ws = [w] := fun {ws} h => by
    match ws, h with | [w], _ => exact ⟨w, rfl⟩
  have two : ∀ {ws : List U16}, ws.length = 2 → ∃ w v, ws = [w, v] := fun {ws} h => by
    match ws, h with | [w, v], _ => exact ⟨w, v, rfl⟩
  have hw : ∀ {f : U16 → AddressingMode} {g : U32 → List U16 → AddressingMode}, (∀ pc w, f w = g pc [w]) →
      Gives (M := M) 1 (nextWord >>= fun w => (Pure.pure (f w) : Dec M AddressingMode)) g := fun hg =>
    (Gives.word.then fun _ => .pure _).cast rfl fun pc ws hl => by obtain ⟨w, rfl⟩ := one hl; exact hg pc w
  have hl : ∀ {f : U32 → AddressingMode} {g : U32 → List U16 → AddressingMode}, (∀ pc w v, f (w ++ v) = g pc [w, v]) →
      Gives (M := M) 2 (nextLong >>= fun w => (Pure.pure (f w) : Dec M AddressingMode)) g := fun hg =>
    (Gives.long.then fun _ => .pure _).cast rfl fun pc ws hl => by obtain ⟨w, v, rfl⟩ := two hl; exact hg pc w v
  unfold AddressingMode.fromMemory
  have hr := u8_ofNat reg
  rcases h with h | ⟨h7, h⟩
  · generalize mode.toNat = m at h
    match m, h with
    | 0, _ => exact (Gives.pure _).cast rfl fun _ _ _ => by simp only [modeOf, hr]
    | 1, _ => exact (Gives.pure _).cast rfl fun _ _ _ => by simp only [modeOf, hr]
    | 2, _ => exact (Gives.pure _).cast rfl fun _ _ _ => by simp only [modeOf, hr]
    | 3, _ => exact (Gives.pure _).cast rfl fun _ _ _ => by simp only [modeOf, hr]
    | 4, _ => exact (Gives.pure _).cast rfl fun _ _ _ => by simp only [modeOf, hr]
    | 5, _ => exact hw fun _ _ => by simp only [modeOf, hr]
    | 6, _ => exact hw fun _ _ => by simp only [modeOf, hr]
  · rw [h7]
    rcases h with h | ⟨h4, sz, rfl, rfl⟩
    · generalize reg.toNat = r at h
      match r, h with
      | 0, _ => exact hw fun _ _ => rfl
      | 1, _ => exact hl fun _ _ _ => rfl
      | 2, _ => exact (Gives.addr.bind fun _ => Gives.word.then fun _ => .pure _).cast rfl fun pc ws hl => by obtain ⟨w, rfl⟩ := one hl; rfl
      | 3, _ => exact (Gives.addr.bind fun _ => Gives.word.then fun _ => .pure _).cast rfl fun pc ws hl => by obtain ⟨w, rfl⟩ := one hl; rfl
    · rw [h4]
      cases sz with
      | Byte => exact hw fun _ _ => rfl
      | Word => exact hw fun _ _ => rfl
      | Long => exact hl fun _ _ _ => rfl

/-! ### Fields -/

theorem Gives.ea {size : Option Size} {imm : Nat} (h : op.toNat / 8 % 8 < 7 ∨ op.toNat % 8 ≤ 3 ∨ op.toNat % 8 = 4 ∧ ∃ sz, size = some sz ∧ imm = immLen sz) :
    Gives (M := M) (opEaWords imm op) (AddressingMode.fromMemory (bits op 3 5) (toU8 (bits op 0 2)) size) fun pc ws => modeOf pc (op.toNat / 8 % 8) (op.toNat % 8) ws := by
  unfold opEaWords
  rw [← bits35, ← bits02] at *
  refine Gives.fromMemory ?_
  have := bits35 op
  rcases h with h | h | h
  · exact .inl h
  · by_cases h7 : (bits op 3 5).toNat < 7
    · exact .inl h7
    · exact .inr ⟨by omega, .inl h⟩
  · by_cases h7 : (bits op 3 5).toNat < 7
    · exact .inl h7
    · exact .inr ⟨by omega, .inr h⟩

theorem Gives.dst {size : Option Size} {imm : Nat} (h : op.toNat / 64 % 8 < 7 ∨ op.toNat / 512 % 8 ≤ 3) :
    Gives (M := M) (eaWords imm (op.toNat / 64 % 8) (op.toNat / 512 % 8)) (AddressingMode.fromMemory (bits op 6 8) (toU8 (bits op 9 11)) size)
      fun pc ws => modeOf pc (op.toNat / 64 % 8) (op.toNat / 512 % 8) ws := by
  rw [← bits68, ← bits911] at *
  have h1 := bits68 op
  refine Gives.fromMemory ?_
  by_cases h7 : (bits op 6 8).toNat < 7
  · exact .inl h7
  · exact .inr ⟨by omega, .inl (by omega)⟩

theorem any_gives {sz : Size} (hany : op.toNat / 8 % 8 < 7 ∨ op.toNat % 8 ≤ 4) :
    Gives (M := M) (opEaWords (immLen sz) op) (AddressingMode.fromMemory (bits op 3 5) (toU8 (bits op 0 2)) (some sz)) fun pc ws => modeOf pc (op.toNat / 8 % 8) (op.toNat % 8) ws :=
  Gives.ea (by
    rcases hany with h | h
    · exact .inl h
    · by_cases h4 : op.toNat % 8 = 4
      · exact .inr (.inr ⟨h4, sz, rfl, rfl⟩)
      · exact .inr (.inl (by omega)))
theorem mem_gives {size : Option Size} {imm : Nat} (hmem : op.toNat / 8 % 8 < 7 ∨ op.toNat % 8 ≤ 3) :
    Gives (M := M) (opEaWords imm op) (AddressingMode.fromMemory (bits op 3 5) (toU8 (bits op 0 2)) size) fun pc ws => modeOf pc (op.toNat / 8 % 8) (op.toNat % 8) ws :=
  Gives.ea (by rcases hmem with h | h; exact .inl h; exact .inr (.inl h))

theorem low_eq (op : U16) : toU8 (bits op 0 2) = BitVec.ofNat 8 (op.toNat % 8) := by rw [← bits02, u8_ofNat]
theorem high_eq (op : U16) : toU8 (bits op 9 11) = BitVec.ofNat 8 (op.toNat / 512 % 8) := by rw [← bits911, u8_ofNat]
theorem field8 (op : U16) (lo n : Nat) (h : lo + n < 16) (hn : n < 8) : toU8 (bits op lo (lo + n)) = BitVec.ofNat 8 (op.toNat / 2 ^ lo % 2 ^ (n + 1)) := by
  apply BitVec.eq_of_toNat_eq
  unfold toU8
  rw [BitVec.toNat_setWidth, bits_toNat op lo n (by omega), BitVec.toNat_ofNat]
theorem cc_eq (op : U16) : toU8 (bits op 8 11) = BitVec.ofNat 8 (op.toNat / 256 % 16) := field8 op 8 3 (by omega) (by omega)

theorem opSize_field (h : op.toNat / 64 % 4 ≠ 3) : Size.fromU16 (bits op 6 7) = some ((opSize op).getD .Byte) ∧ sizedImm op = immLen ((opSize op).getD .Byte) := by
  have h4 : op.toNat / 64 % 4 < 4 := Nat.mod_lt _ (by omega)
  have hs : ∀ s : Size, op.toNat / 64 % 4 = sizeNo s → (opSize op).getD .Byte = s ∧ sizedImm op = immLen s := by
    intro s hs
    unfold opSize sizedImm
    rw [hs]
    cases s <;> exact ⟨rfl, rfl⟩
  have : ∃ s, op.toNat / 64 % 4 = sizeNo s := by
    rcases (show op.toNat / 64 % 4 = 0 ∨ op.toNat / 64 % 4 = 1 ∨ op.toNat / 64 % 4 = 2 by omega) with h | h | h
    · exact ⟨.Byte, h⟩
    · exact ⟨.Word, h⟩
    · exact ⟨.Long, h⟩
  obtain ⟨s, hs'⟩ := this
  rw [(hs s hs').1, (hs s hs').2]
  exact ⟨size_dec hs', rfl⟩

theorem moveOpSize_field (h : op.toNat / 4096 % 4 ≠ 0) : Size.fromMove (bits op 12 13) = some ((moveOpSize op).getD .Byte) ∧ moveImm op = immLen ((moveOpSize op).getD .Byte) := by
  have h4 : op.toNat / 4096 % 4 < 4 := Nat.mod_lt _ (by omega)
  have hs : ∀ s : Size, op.toNat / 4096 % 4 = moveNo s → (moveOpSize op).getD .Byte = s ∧ moveImm op = immLen s := by
    intro s hs
    unfold moveOpSize moveImm
    rw [hs]
    cases s <;> exact ⟨rfl, rfl⟩
  have : ∃ s, op.toNat / 4096 % 4 = moveNo s := by
    rcases (show op.toNat / 4096 % 4 = 1 ∨ op.toNat / 4096 % 4 = 2 ∨ op.toNat / 4096 % 4 = 3 by omega) with h | h | h
    · exact ⟨.Byte, h⟩
    · exact ⟨.Long, h⟩
    · exact ⟨.Word, h⟩
  obtain ⟨s, hs'⟩ := this
  rw [(hs s hs').1, (hs s hs').2]
  exact ⟨move_dec hs', rfl⟩

theorem sizeBit_eq (b : Nat) (hb : b < 16) : Size.fromBit (bit op b) = sizeBit op b := by
  rw [bit_flag op b hb]
  unfold sizeBit
  cases flag op b <;> rfl

/-! ### The operands of each kind -/

section
variable (h3 : op.toNat / 64 % 4 ≠ 3) (hany : op.toNat / 8 % 8 < 7 ∨ op.toNat % 8 ≤ 4) (hmem : op.toNat / 8 % 8 < 7 ∨ op.toNat % 8 ≤ 3)

theorem gives_immediate : Gives (M := M) 1 (newImmediate op) fun _ ws => .Immediate (ws.headD 0) := Gives.word.then fun _ => .pure _

include h3 hany in
theorem gives_sizeEaImm : Gives (M := M) (sizedImm op + opEaWords (sizedImm op) op) (newSizeEffectiveAddressImmediate op) fun pc ws =>
    .SizeEffectiveAddressImmediate ((opSize op).getD .Byte) (modeOf (pc + BitVec.ofNat 32 (2 * sizedImm op)) (op.toNat / 8 % 8) (op.toNat % 8) (ws.drop (sizedImm op)))
      (dataOf (ws.take (sizedImm op))) := by
  obtain ⟨h1, h2⟩ := opSize_field h3
  generalize (opSize op).getD .Byte = sz at h1 h2
  rw [h2]
  have hi : Gives (M := M) (immLen sz) (if sz.isLong then nextLong else toU32 <$> nextWord : Dec M U32) fun _ ws => dataOf ws := by
    cases sz with
    | Byte => exact (Gives.word.map _).cast rfl fun _ ws hl => by match ws, hl with | [w], _ => rfl
    | Word => exact (Gives.word.map _).cast rfl fun _ ws hl => by match ws, hl with | [w], _ => rfl
    | Long => exact Gives.long
  exact Gives.cast (Gives.then (g := fun (p : Size × AddressingMode × U32) => Operands.SizeEffectiveAddressImmediate p.1 p.2.1 p.2.2) (Gives.lift ⟨sz, h1, hi.bind fun _ => (any_gives hany).then fun _ => .pure _⟩) fun _ => .pure _) rfl fun _ _ _ => rfl
include h3 hany in
theorem gives_sizeEa : Gives (M := M) (opEaWords (sizedImm op) op) (newSizeEffectiveAddress op) fun pc ws =>
    .SizeEffectiveAddress ((opSize op).getD .Byte) (modeOf pc (op.toNat / 8 % 8) (op.toNat % 8) ws) := by
  obtain ⟨h1, h2⟩ := opSize_field h3
  rw [h2]
  exact Gives.cast (Gives.then (g := fun (p : Size × AddressingMode) => Operands.SizeEffectiveAddress p.1 p.2) (Gives.lift ⟨_, h1, (any_gives hany).then fun _ => .pure _⟩) fun _ => .pure _) rfl fun _ _ _ => rfl
include h3 hany in
theorem gives_dataSizeEa : Gives (M := M) (opEaWords (sizedImm op) op) (newDataSizeEffectiveAddress op) fun pc ws =>
    .DataSizeEffectiveAddress (BitVec.ofNat 8 (op.toNat / 512 % 8)) ((opSize op).getD .Byte) (modeOf pc (op.toNat / 8 % 8) (op.toNat % 8) ws) := by
  obtain ⟨h1, h2⟩ := opSize_field h3
  rw [h2, ← high_eq]
  exact Gives.cast (Gives.then (g := fun (p : U8 × Size × AddressingMode) => Operands.DataSizeEffectiveAddress p.1 p.2.1 p.2.2) (Gives.lift ⟨_, h1, (any_gives hany).then fun _ => .pure _⟩) fun _ => .pure _) rfl fun _ _ _ => rfl
include h3 hany in
theorem gives_regDirSizeEa : Gives (M := M) (opEaWords (sizedImm op) op) (newRegisterDirectionSizeEffectiveAddress op) fun pc ws =>
    .RegisterDirectionSizeEffectiveAddress (BitVec.ofNat 8 (op.toNat / 512 % 8)) (if flag op 8 then .DstEa else .DstReg) ((opSize op).getD .Byte)
      (modeOf pc (op.toNat / 8 % 8) (op.toNat % 8) ws) := by
  obtain ⟨h1, h2⟩ := opSize_field h3
  rw [h2, ← high_eq, ← bit_flag op 8 (by omega)]
  exact Gives.cast (Gives.then (g := fun (p : U8 × Direction × Size × AddressingMode) => Operands.RegisterDirectionSizeEffectiveAddress p.1 p.2.1 p.2.2.1 p.2.2.2) (Gives.lift ⟨_, h1, (any_gives hany).then fun _ => .pure _⟩) fun _ => .pure _) rfl fun _ _ _ => rfl
include h3 in
theorem gives_regSizeModeReg : Gives (M := M) 0 (newRegisterSizeModeRegister op) fun _ _ =>
    .RegisterSizeModeRegister (BitVec.ofNat 8 (op.toNat / 512 % 8)) ((opSize op).getD .Byte) (if flag op 3 then .MemoryToMemory else .RegisterToRegister) (BitVec.ofNat 8 (op.toNat % 8)) := by
  obtain ⟨h1, h2⟩ := opSize_field h3
  rw [← high_eq, ← low_eq, ← bit_flag op 3 (by omega)]
  exact Gives.cast (Gives.then (g := fun (p : U8 × Size × Direction × U8) => Operands.RegisterSizeModeRegister p.1 p.2.1 p.2.2.1 p.2.2.2) (Gives.lift ⟨_, h1, .pure _⟩) fun _ => .pure _) rfl fun _ _ _ => rfl
include h3 in
theorem gives_regSizeReg : Gives (M := M) 0 (newRegisterSizeRegister op) fun _ _ =>
    .RegisterSizeRegister (BitVec.ofNat 8 (op.toNat / 512 % 8)) ((opSize op).getD .Byte) (BitVec.ofNat 8 (op.toNat % 8)) := by
  obtain ⟨h1, h2⟩ := opSize_field h3
  rw [← high_eq, ← low_eq]
  exact Gives.cast (Gives.then (g := fun (p : U8 × Size × U8) => Operands.RegisterSizeRegister p.1 p.2.1 p.2.2) (Gives.lift ⟨_, h1, .pure _⟩) fun _ => .pure _) rfl fun _ _ _ => rfl
include h3 in
theorem gives_rotation : Gives (M := M) 0 (newRotationDirectionSizeModeRegister op) fun _ _ =>
    .RotationDirectionSizeModeRegister (BitVec.ofNat 8 (op.toNat / 512 % 8)) (if flag op 8 then .Left else .Right) ((opSize op).getD .Byte) (flag op 5) (BitVec.ofNat 8 (op.toNat % 8)) := by
  obtain ⟨h1, h2⟩ := opSize_field h3
  rw [← high_eq, ← low_eq, ← bit_flag op 8 (by omega), ← bit_flag op 5 (by omega)]
  exact Gives.cast (Gives.then (g := fun (p : U8 × Direction × Size × Bool × U8) => Operands.RotationDirectionSizeModeRegister p.1 p.2.1 p.2.2.1 p.2.2.2.1 p.2.2.2.2) (Gives.lift ⟨_, h1, .pure _⟩) fun _ => .pure _) rfl fun _ _ _ => rfl
include hany in
theorem gives_regSizeEa : Gives (M := M) (opEaWords (if flag op 8 then 2 else 1) op) (newRegisterSizeEffectiveAddress op) fun pc ws =>
    .RegisterSizeEffectiveAddress (BitVec.ofNat 8 (op.toNat / 512 % 8)) (sizeBit op 8) (modeOf pc (op.toNat / 8 % 8) (op.toNat % 8) ws) := by
  have : (if flag op 8 = true then 2 else 1) = immLen (sizeBit op 8) := by
    unfold sizeBit
    cases flag op 8 <;> rfl
  rw [this, ← high_eq, ← sizeBit_eq 8 (by omega)]
  exact Gives.cast (Gives.then (g := fun (p : U8 × Size × AddressingMode) => Operands.RegisterSizeEffectiveAddress p.1 p.2.1 p.2.2) ((any_gives hany).then fun _ => .pure _) fun _ => .pure _) rfl fun _ _ _ => rfl
include hany in
theorem gives_dirEa : Gives (M := M) (opEaWords 1 op) (newDirectionEffectiveAddress op) fun pc ws =>
    .DirectionEffectiveAddress (if flag op 8 then .Left else .Right) (modeOf pc (op.toNat / 8 % 8) (op.toNat % 8) ws) := by
  rw [← bit_flag op 8 (by omega)]
  exact Gives.cast (Gives.then (g := fun (p : Direction × AddressingMode) => Operands.DirectionEffectiveAddress p.1 p.2) ((any_gives (sz := .Byte) hany).then fun _ => .pure _) fun _ => .pure _) rfl fun _ _ _ => rfl
include hany in
theorem gives_condEa : Gives (M := M) (opEaWords 1 op) (newConditionEffectiveAddress op) fun pc ws =>
    .ConditionEffectiveAddress (BitVec.ofNat 8 (op.toNat / 256 % 16)) (modeOf pc (op.toNat / 8 % 8) (op.toNat % 8) ws) := by
  rw [← cc_eq]
  exact Gives.cast (Gives.then (g := fun (p : U8 × AddressingMode) => Operands.ConditionEffectiveAddress p.1 p.2) ((any_gives (sz := .Byte) hany).then fun _ => .pure _) fun _ => .pure _) rfl fun _ _ _ => rfl
include hmem in
theorem gives_movem : Gives (M := M) (1 + opEaWords 1 op) (newDirectionSizeEffectiveAddressList op) fun pc ws =>
    .DirectionSizeEffectiveAddressList (if flag op 10 then .MemoryToRegister else .RegisterToMemory) (sizeBit op 6)
      (modeOf (pc + BitVec.ofNat 32 (2 * 1)) (op.toNat / 8 % 8) (op.toNat % 8) (ws.drop 1)) (ws.headD 0) := by
  rw [← bit_flag op 10 (by omega), ← sizeBit_eq 6 (by omega)]
  refine Gives.cast (Gives.then (g := fun (p : Direction × Size × AddressingMode × U16) => Operands.DirectionSizeEffectiveAddressList p.1 p.2.1 p.2.2.1 p.2.2.2)
    (Gives.word.bind fun _ => (mem_gives hmem).then fun _ => .pure _) fun _ => .pure _) rfl ?_
  intro pc ws hl
  cases ws with
  | nil => simp at hl; omega
  | cons w ws => rfl
include hany in
theorem gives_regEa (hl : decoder op ≠ .Lea) : Gives (M := M) (opEaWords 1 op) (newRegisterEffectiveAddress op) fun pc ws =>
    .RegisterEffectiveAddress (BitVec.ofNat 8 (op.toNat / 512 % 8)) (modeOf pc (op.toNat / 8 % 8) (op.toNat % 8) ws) := by
  unfold newRegisterEffectiveAddress Decode.registerEffectiveAddress
  dsimp only
  rw [if_neg hl, high_eq]
  exact Gives.cast (Gives.then (g := fun (p : U8 × AddressingMode) => Operands.RegisterEffectiveAddress p.1 p.2) ((any_gives (sz := .Word) hany).then fun _ => .pure _) fun _ => .pure _) rfl fun _ _ _ => rfl
include hmem in
theorem gives_lea : Gives (M := M) (opEaWords 0 op) (newRegisterEffectiveAddress op) fun pc ws =>
    .RegisterEffectiveAddress (BitVec.ofNat 8 (op.toNat / 512 % 8)) (modeOf pc (op.toNat / 8 % 8) (op.toNat % 8) ws) := by
  unfold newRegisterEffectiveAddress Decode.registerEffectiveAddress
  dsimp only
  rw [high_eq]
  exact Gives.cast (Gives.then (g := fun (p : U8 × AddressingMode) => Operands.RegisterEffectiveAddress p.1 p.2) ((mem_gives hmem).then fun _ => .pure _) fun _ => .pure _) rfl fun _ _ _ => rfl
include hmem in
theorem gives_ea0 {imm : Nat} : Gives (M := M) (opEaWords imm op) (newEffectiveAddress op) fun pc ws => .EffectiveAddress (modeOf pc (op.toNat / 8 % 8) (op.toNat % 8) ws) := by
  unfold newEffectiveAddress Decode.effectiveAddress
  dsimp only
  exact (mem_gives hmem).then fun _ => .pure _
include hany in
theorem gives_ea1 (h : decoder op = .Nbcd ∨ decoder op = .Tas ∨ decoder op = .Moveccr ∨ decoder op = .Movefsr ∨ decoder op = .Movesr) :
    Gives (M := M) (opEaWords 1 op) (newEffectiveAddress op) fun pc ws => .EffectiveAddress (modeOf pc (op.toNat / 8 % 8) (op.toNat % 8) ws) := by
  unfold newEffectiveAddress Decode.effectiveAddress
  dsimp only
  refine Gives.then ?_ fun _ => .pure _
  rcases h with h | h | h | h | h <;> simp only [h]
  · exact any_gives (sz := .Byte) hany
  · exact any_gives (sz := .Byte) hany
  · exact any_gives (sz := .Word) hany
  · exact any_gives (sz := .Word) hany
  · exact any_gives (sz := .Word) hany
include hany in
theorem gives_eaCount : Gives (M := M) ((if flag op 8 then 0 else 1) + opEaWords 1 op) (newEffectiveAddressCount op) fun pc ws =>
    if flag op 8 then .EffectiveAddressCount (modeOf pc (op.toNat / 8 % 8) (op.toNat % 8) ws) (BitVec.ofNat 8 (op.toNat / 512 % 8))
    else .EffectiveAddressCount (modeOf (pc + BitVec.ofNat 32 (2 * 1)) (op.toNat / 8 % 8) (op.toNat % 8) (ws.drop 1)) ((ws.headD 0).setWidth 8) := by
  have hea : Gives (M := M) (opEaWords 1 op) (AddressingMode.fromMemory (bits op 3 5) (toU8 (bits op 0 2)) (if bits op 3 5 = 0 then some Size.Long else some Size.Byte))
      fun pc ws => modeOf pc (op.toNat / 8 % 8) (op.toNat % 8) ws := by
    split
    · refine Gives.ea (.inl ?_)
      rename_i h
      rw [← bits35, h]
      decide
    · exact any_gives (sz := .Byte) hany
  unfold newEffectiveAddressCount Decode.effectiveAddressCount
  rw [bit_flag op 8 (by omega), ← high_eq]
  cases flag op 8
  · refine Gives.cast (Gives.then (g := fun (p : AddressingMode × U8) => Operands.EffectiveAddressCount p.1 p.2) ((Gives.word.map _).bind fun _ => hea.then fun _ => .pure _) fun _ => .pure _) rfl ?_
    intro pc ws hl
    cases ws with
    | nil => simp at hl; omega
    | cons w ws => rfl
  · refine Gives.cast (Gives.then (g := fun (p : AddressingMode × U8) => Operands.EffectiveAddressCount p.1 p.2) ((Gives.pure _).bind fun _ => hea.then fun _ => .pure _) fun _ => .pure _) rfl ?_
    intro pc ws hl
    simp
theorem gives_move (hs : op.toNat / 4096 % 4 ≠ 0) (hany : op.toNat / 8 % 8 < 7 ∨ op.toNat % 8 ≤ 4) (hd : op.toNat / 64 % 8 < 7 ∨ op.toNat / 512 % 8 ≤ 1) :
    Gives (M := M) (opEaWords (moveImm op) op + eaWords (moveImm op) (op.toNat / 64 % 8) (op.toNat / 512 % 8)) (newSizeEffectiveAddressEffectiveAddress op) fun pc ws =>
      .SizeEffectiveAddressEffectiveAddress ((moveOpSize op).getD .Byte) (modeOf 0 (op.toNat / 64 % 8) (op.toNat / 512 % 8) (ws.drop (opEaWords (moveImm op) op)))
        (modeOf pc (op.toNat / 8 % 8) (op.toNat % 8) (ws.take (opEaWords (moveImm op) op))) := by
  obtain ⟨h1, h2⟩ := moveOpSize_field hs
  rw [h2]
  have hpc : ∀ (a b : U32) (l : List U16), modeOf a (op.toNat / 64 % 8) (op.toNat / 512 % 8) l = modeOf b (op.toNat / 64 % 8) (op.toNat / 512 % 8) l := by
    intro a b l
    generalize op.toNat / 64 % 8 = m at hd
    generalize op.toNat / 512 % 8 = n at hd
    unfold modeOf
    split <;> first | rfl | (exfalso; omega)
  refine Gives.cast (Gives.then (g := fun (p : Size × AddressingMode × AddressingMode) => Operands.SizeEffectiveAddressEffectiveAddress p.1 p.2.1 p.2.2)
    (Gives.lift ⟨_, h1, (any_gives hany).bind fun _ => (Gives.dst (by omega)).then fun _ => .pure _⟩) fun _ => .pure _) rfl ?_
  intro pc ws hl
  dsimp only
  rw [hpc _ 0]
theorem gives_movea (hs : op.toNat / 4096 % 4 ≠ 0) (hany : op.toNat / 8 % 8 < 7 ∨ op.toNat % 8 ≤ 4) :
    Gives (M := M) (opEaWords (moveImm op) op) (newSizeRegisterEffectiveAddress op) fun pc ws =>
      .SizeRegisterEffectiveAddress ((moveOpSize op).getD .Byte) (BitVec.ofNat 8 (op.toNat / 512 % 8)) (modeOf pc (op.toNat / 8 % 8) (op.toNat % 8) ws) := by
  obtain ⟨h1, h2⟩ := moveOpSize_field hs
  rw [h2, ← high_eq]
  exact Gives.cast (Gives.then (g := fun (p : Size × U8 × AddressingMode) => Operands.SizeRegisterEffectiveAddress p.1 p.2.1 p.2.2) (Gives.lift ⟨_, h1, (any_gives hany).then fun _ => .pure _⟩) fun _ => .pure _) rfl fun _ _ _ => rfl
theorem gives_branch : Gives (M := M) (if op.toNat % 256 = 0 then 1 else 0) (if (toU8 op).signExtend 16 = (0 : U16) then nextWord else Pure.pure ((toU8 op).signExtend 16) : Dec M U16)
    fun _ ws => if op.toNat % 256 = 0 then ws.headD 0 else (op.setWidth 8 : U8).signExtend 16 := by
  by_cases h : op.toNat % 256 = 0
  · simp only [if_pos h, if_pos ((op_byte op).2 h)]; exact Gives.word
  · simp only [if_neg h, if_neg (fun hc => h ((op_byte op).1 hc))]; exact .pure _
theorem gives_disp : Gives (M := M) (if op.toNat % 256 = 0 then 1 else 0) (newDisplacement op)
    fun _ ws => .Displacement (if op.toNat % 256 = 0 then ws.headD 0 else (op.setWidth 8 : U8).signExtend 16) :=
  Gives.then (g := fun (p : U16) => Operands.Displacement p) gives_branch fun _ => .pure _
theorem gives_condDisp : Gives (M := M) (if op.toNat % 256 = 0 then 1 else 0) (newConditionDisplacement op)
    fun _ ws => .ConditionDisplacement (BitVec.ofNat 8 (op.toNat / 256 % 16)) (if op.toNat % 256 = 0 then ws.headD 0 else (op.setWidth 8 : U8).signExtend 16) := by
  rw [← cc_eq]
  exact Gives.cast (Gives.then (g := fun (p : U8 × U16) => Operands.ConditionDisplacement p.1 p.2) (gives_branch.then fun _ => .pure _) fun _ => .pure _) rfl fun _ _ _ => rfl
theorem gives_link : Gives (M := M) 1 (newRegisterDisplacement op) fun _ ws => .RegisterDisplacement (BitVec.ofNat 8 (op.toNat % 8)) (ws.headD 0) := by
  rw [← low_eq]
  exact Gives.cast (Gives.then (g := fun (p : U8 × U16) => Operands.RegisterDisplacement p.1 p.2) (Gives.word.then fun _ => .pure _) fun _ => .pure _) rfl fun _ _ _ => rfl
theorem gives_dbcc : Gives (M := M) 1 (newConditionRegisterDisplacement op) fun _ ws =>
    .ConditionRegisterDisplacement (BitVec.ofNat 8 (op.toNat / 256 % 16)) (BitVec.ofNat 8 (op.toNat % 8)) (ws.headD 0) := by
  rw [← low_eq, ← cc_eq]
  exact Gives.cast (Gives.then (g := fun (p : U8 × U8 × U16) => Operands.ConditionRegisterDisplacement p.1 p.2.1 p.2.2) (Gives.word.then fun _ => .pure _) fun _ => .pure _) rfl fun _ _ _ => rfl
theorem gives_movep : Gives (M := M) 1 (newRegisterDirectionSizeRegisterDisplacement op) fun _ ws =>
    .RegisterDirectionSizeRegisterDisplacement (BitVec.ofNat 8 (op.toNat / 512 % 8)) (if flag op 7 then .RegisterToMemory else .MemoryToRegister) (sizeBit op 6)
      (BitVec.ofNat 8 (op.toNat % 8)) (ws.headD 0) := by
  unfold sizeBit
  rw [← low_eq, ← high_eq, ← bit_flag op 7 (by omega), ← bit_flag op 6 (by omega)]
  exact Gives.cast (Gives.then (g := fun (p : U8 × Direction × Size × U8 × U16) => Operands.RegisterDirectionSizeRegisterDisplacement p.1 p.2.1 p.2.2.1 p.2.2.2.1 p.2.2.2.2) (Gives.word.then fun _ => .pure _) fun _ => .pure _) rfl fun _ _ _ => rfl
theorem gives_exg : Gives (M := M) 0 (newRegisterOpmodeRegister op) fun _ _ => .RegisterOpmodeRegister (BitVec.ofNat 8 (op.toNat / 512 % 8))
      (if op.toNat / 8 % 32 = 8 then .ExchangeData else if op.toNat / 8 % 32 = 9 then .ExchangeAddress else .ExchangeDataAddress) (BitVec.ofNat 8 (op.toNat % 8)) := by
  have hf : toU8 (bits op 3 7) = BitVec.ofNat 8 (op.toNat / 8 % 32) := field8 op 3 4 (by omega) (by omega)
  have hk : ∀ k, k < 32 → ((toU8 (bits op 3 7) = BitVec.ofNat 8 k) ↔ op.toNat / 8 % 32 = k) := by
    intro k hk
    rw [hf]
    constructor
    · intro h
      have := congrArg BitVec.toNat h
      simp only [BitVec.toNat_ofNat] at this
      omega
    · intro h; rw [h]
  have h8 : (toU8 (bits op 3 7) = 0b01000) = (op.toNat / 8 % 32 = 8) := propext (hk 8 (by omega))
  have h9 : (toU8 (bits op 3 7) = 0b01001) = (op.toNat / 8 % 32 = 9) := propext (hk 9 (by omega))
  have : (Decode.registerOpmodeRegister op : Dec M _) = Pure.pure (BitVec.ofNat 8 (op.toNat / 512 % 8),
      (if op.toNat / 8 % 32 = 8 then Direction.ExchangeData else if op.toNat / 8 % 32 = 9 then .ExchangeAddress else .ExchangeDataAddress), BitVec.ofNat 8 (op.toNat % 8)) := by
    unfold Decode.registerOpmodeRegister
    rw [low_eq, high_eq]
    simp only [h8, h9]
  unfold newRegisterOpmodeRegister
  rw [this]
  exact Gives.cast (Gives.then (g := fun (p : U8 × Direction × U8) => Operands.RegisterOpmodeRegister p.1 p.2.1 p.2.2) (.pure _) fun _ => .pure _) rfl fun _ _ _ => rfl
theorem gives_ext : Gives (M := M) 0 (newOpmodeRegister op) fun _ _ => .OpmodeRegister (BitVec.ofNat 8 (op.toNat / 64 % 8)) (BitVec.ofNat 8 (op.toNat % 8)) := by
  rw [← low_eq, show BitVec.ofNat 8 (op.toNat / 64 % 8) = toU8 (bits op 6 8) from (field8 op 6 2 (by omega) (by omega)).symm]
  exact Gives.cast (Gives.then (g := fun (p : U8 × U8) => Operands.OpmodeRegister p.1 p.2) (.pure _) fun _ => .pure _) rfl fun _ _ _ => rfl
theorem gives_trap : Gives (M := M) 0 (newVector op) fun _ _ => .Vector (BitVec.ofNat 8 (op.toNat % 16)) := by
  have : toU8 (bits op 0 3) = BitVec.ofNat 8 (op.toNat % 16) := by
    have := field8 op 0 3 (by omega) (by omega)
    simpa using this
  rw [← this]
  exact Gives.cast (Gives.then (g := fun (p : U8) => Operands.Vector p) (.pure _) fun _ => .pure _) rfl fun _ _ _ => rfl
theorem gives_reg : Gives (M := M) 0 (newRegister op) fun _ _ => .Register (BitVec.ofNat 8 (op.toNat % 8)) := by
  rw [← low_eq]
  exact Gives.cast (Gives.then (g := fun (p : U8) => Operands.Register p) (.pure _) fun _ => .pure _) rfl fun _ _ _ => rfl
theorem gives_usp : Gives (M := M) 0 (newDirectionRegister op) fun _ _ => .DirectionRegister (if flag op 3 then .UspToRegister else .RegisterToUsp) (BitVec.ofNat 8 (op.toNat % 8)) := by
  rw [← low_eq, ← bit_flag op 3 (by omega)]
  exact Gives.cast (Gives.then (g := fun (p : Direction × U8) => Operands.DirectionRegister p.1 p.2) (.pure _) fun _ => .pure _) rfl fun _ _ _ => rfl
theorem gives_moveq : Gives (M := M) 0 (newRegisterData op) fun _ _ => .RegisterData (BitVec.ofNat 8 (op.toNat / 512 % 8)) (op.setWidth 8) := by
  rw [← high_eq]
  exact Gives.cast (Gives.then (g := fun (p : U8 × U8) => Operands.RegisterData p.1 p.2) (.pure _) fun _ => .pure _) rfl fun _ _ _ => rfl
end

/-- The operands of an opcode and its extension words. -/
theorem gives_decode (op : U16) : Gives (M := M) (extensionWords (decoder op) op) (isaEntryDecode (decoder op) op) (operandsOf (decoder op) op) := by
  have hl := decoder_of_check legalCheck legalCheck_all op
  have hd : ∃ i, decoder op = i := ⟨_, rfl⟩
  obtain ⟨i, hd⟩ := hd
  rw [hd] at hl
  have hmem : eaInMemory (op.toNat / 8 % 8) (op.toNat % 8) = true → op.toNat / 8 % 8 < 7 ∨ op.toNat % 8 ≤ 3 := by
    intro h; simp [eaInMemory] at h; omega
  unfold legalCheck at hl
  cases i <;> try simp only [Bool.and_eq_true, Bool.or_eq_true, decide_eq_true_eq, bne_iff_ne, ne_eq] at hl
  case Unknown => rw [hd]; exact Gives.pure _
  case Abcd => rw [hd]; exact gives_regSizeModeReg (by omega)
  case Add => rw [hd]; exact gives_regDirSizeEa (by omega) (by omega)
  case Adda => rw [hd]; exact gives_regSizeEa (by omega)
  case Addi => rw [hd]; exact gives_sizeEaImm (by omega) (by omega)
  case Addq => rw [hd]; exact gives_dataSizeEa (by omega) (by omega)
  case Addx => rw [hd]; exact gives_regSizeModeReg (by omega)
  case And => rw [hd]; exact gives_regDirSizeEa (by omega) (by omega)
  case Andi => rw [hd]; exact gives_sizeEaImm (by omega) (by omega)
  case Andiccr => rw [hd]; exact gives_immediate (op := op)
  case Andisr => rw [hd]; exact gives_immediate (op := op)
  case Asm => rw [hd]; exact gives_dirEa (by omega)
  case Asr => rw [hd]; exact gives_rotation (by omega)
  case Bcc => rw [hd]; exact gives_condDisp
  case Bchg => rw [hd]; exact gives_eaCount (by omega)
  case Bclr => rw [hd]; exact gives_eaCount (by omega)
  case Bra => rw [hd]; exact gives_disp
  case Bset => rw [hd]; exact gives_eaCount (by omega)
  case Bsr => rw [hd]; exact gives_disp
  case Btst => rw [hd]; exact gives_eaCount (by omega)
  case Chk => rw [hd]; exact gives_regEa (by omega) (by rw [hd]; decide)
  case Clr => rw [hd]; exact gives_sizeEa (by omega) (by omega)
  case Cmp => rw [hd]; exact gives_regDirSizeEa (by omega) (by omega)
  case Cmpa => rw [hd]; exact gives_regSizeEa (by omega)
  case Cmpi => rw [hd]; exact gives_sizeEaImm (by omega) (by omega)
  case Cmpm => rw [hd]; exact gives_regSizeReg (by omega)
  case Dbcc => rw [hd]; exact gives_dbcc
  case Divs => rw [hd]; exact gives_regEa (by omega) (by rw [hd]; decide)
  case Divu => rw [hd]; exact gives_regEa (by omega) (by rw [hd]; decide)
  case Eor => rw [hd]; exact gives_regDirSizeEa (by omega) (by omega)
  case Eori => rw [hd]; exact gives_sizeEaImm (by omega) (by omega)
  case Eoriccr => rw [hd]; exact gives_immediate (op := op)
  case Eorisr => rw [hd]; exact gives_immediate (op := op)
  case Exg => rw [hd]; exact gives_exg
  case Ext => rw [hd]; exact gives_ext
  case Illegal => rw [hd]; exact Gives.pure _
  case Jmp => rw [hd]; exact gives_ea0 (hmem hl.1.1)
  case Jsr => rw [hd]; exact gives_ea0 (hmem hl.1.1)
  case Lea => rw [hd]; exact gives_lea (hmem hl.1.1)
  case Link => rw [hd]; exact gives_link
  case Lsm => rw [hd]; exact gives_dirEa (by omega)
  case Lsr => rw [hd]; exact gives_rotation (by omega)
  case Move => rw [hd]; exact gives_move (by omega) (by omega) (by omega)
  case Movea => rw [hd]; exact gives_movea (by omega) (by omega)
  case Moveccr => rw [hd]; exact gives_ea1 (by omega) (by simp [hd])
  case Movefsr => rw [hd]; exact gives_ea1 (by omega) (by simp [hd])
  case Movesr => rw [hd]; exact gives_ea1 (by omega) (by simp [hd])
  case Moveusp => rw [hd]; exact gives_usp
  case Movem => rw [hd]; exact gives_movem (hmem hl)
  case Movep => rw [hd]; exact gives_movep
  case Moveq => rw [hd]; exact gives_moveq
  case Muls => rw [hd]; exact gives_regEa (by omega) (by rw [hd]; decide)
  case Mulu => rw [hd]; exact gives_regEa (by omega) (by rw [hd]; decide)
  case Nbcd => rw [hd]; exact gives_ea1 (by omega) (by simp [hd])
  case Neg => rw [hd]; exact gives_sizeEa (by omega) (by omega)
  case Negx => rw [hd]; exact gives_sizeEa (by omega) (by omega)
  case Nop => rw [hd]; exact Gives.pure _
  case Not => rw [hd]; exact gives_sizeEa (by omega) (by omega)
  case Or => rw [hd]; exact gives_regDirSizeEa (by omega) (by omega)
  case Ori => rw [hd]; exact gives_sizeEaImm (by omega) (by omega)
  case Oriccr => rw [hd]; exact gives_immediate (op := op)
  case Orisr => rw [hd]; exact gives_immediate (op := op)
  case Pea => rw [hd]; exact gives_ea0 (hmem hl.1.1)
  case Reset => rw [hd]; exact Gives.pure _
  case Rom => rw [hd]; exact gives_dirEa (by omega)
  case Ror => rw [hd]; exact gives_rotation (by omega)
  case Roxm => rw [hd]; exact gives_dirEa (by omega)
  case Roxr => rw [hd]; exact gives_rotation (by omega)
  case Rte => rw [hd]; exact Gives.pure _
  case Rtr => rw [hd]; exact Gives.pure _
  case Rts => rw [hd]; exact Gives.pure _
  case Sbcd => rw [hd]; exact gives_regSizeModeReg (by omega)
  case Scc => rw [hd]; exact gives_condEa (by omega)
  case Stop => rw [hd]; exact gives_immediate (op := op)
  case Sub => rw [hd]; exact gives_regDirSizeEa (by omega) (by omega)
  case Suba => rw [hd]; exact gives_regSizeEa (by omega)
  case Subi => rw [hd]; exact gives_sizeEaImm (by omega) (by omega)
  case Subq => rw [hd]; exact gives_dataSizeEa (by omega) (by omega)
  case Subx => rw [hd]; exact gives_regSizeModeReg (by omega)
  case Swap => rw [hd]; exact gives_reg
  case Tas => rw [hd]; exact gives_ea1 (by omega) (by simp [hd])
  case Trap => rw [hd]; exact gives_trap
  case Trapv => rw [hd]; exact Gives.pure _
  case Tst => rw [hd]; exact gives_sizeEa (by omega) (by omega)
  case Unlk => rw [hd]; exact gives_reg

/-- The decoder finds the operands of the instruction formats. -/
theorem fromMemory_operands (h : Feeds it (op :: ws) it') (hl : ws.length = extensionWords (decoder op) op) :
    Instruction.fromMemory it = .ok ⟨op, it.nextAddr, operandsOf (decoder op) op (it.nextAddr + 2) ws⟩ it' := by
  obtain ⟨it1, h1, ha, h2⟩ := feeds_cons.1 h
  unfold Instruction.fromMemory
  dsimp only
  rw [h1]
  have hg := gives_decode (M := M) op it1 it' ws h2 hl
  unfold Instruction.fromOpcode
  simp only [dec_bind, hg, ha]
  rfl

end M68k.Exec
