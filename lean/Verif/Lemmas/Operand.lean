import Verif.Lemmas.Exec
import Verif.Spec.Timing
/-
The operand accesses of the model are those of the specification.
-/
set_option linter.unusedSimpArgs false
namespace M68k
open Spec

/-- The address held by an evaluated effective address. -/
def Spec.Place.addr? : Place → Option U32
  | .mem a => some a
  | _ => none

/-- The places a mode can denote. -/
def Spec.Place.Of (pl : Place) : Mode → Prop
  | .dn n => pl = .dreg n
  | .an n => pl = .areg n
  | .imm v => pl = .imm v
  | _ => ∃ a, pl = .mem a

/-- The model's effective address after its evaluation. -/
def eaOf (sz : Option Size) (m : Mode) (pl : Place) : EffectiveAddress := ⟨m.toAM, pl.addr?, sz⟩

namespace Exec
variable {M : Type}

theorem stepOf_eq (n : Fin 8) (sz : Size) : stepOf (u8 n) sz = step n sz := by
  have h : ∀ n : Fin 8, stepOf (u8 n) sz = step n sz := by cases sz <;> decide
  exact h n

theorem areg_setAreg (r : Registers) (n : Fin 8) (v : U32) : areg (setAreg r n v) n = v := by
  unfold areg setAreg
  split
  · simp
  · split <;> simp [*]

theorem bew_reg (x : U16) : BriefExtensionWord.reg ⟨x⟩ = u8 (regField x 12) := by
  apply BitVec.eq_of_toNat_eq
  rw [u8_toNat]
  have : ((1 : U16) <<< 3 - 1).toNat = 2 ^ 3 - 1 := rfl
  simp only [BriefExtensionWord.reg, toU8, bits, regField, BitVec.toNat_setWidth, BitVec.toNat_and, this,
    Nat.and_two_pow_sub_one_eq_mod, BitVec.toNat_ushiftRight, Nat.shiftRight_eq_div_pow, Fin.ofNat]
  omega

theorem bit_eq (w : U16) (i : Nat) (h : i < 16) : bit w i = decide (w.toNat / 2 ^ i % 2 = 1) := by
  have h1 : bit w i = w.getLsbD i := by
    unfold bit
    rw [Bool.eq_iff_iff]
    simp only [bne_iff_ne, ne_eq]
    constructor
    · intro hne
      cases hc : w.getLsbD i
      case true => rfl
      exfalso
      apply hne
      apply BitVec.eq_of_getLsbD_eq
      intro j hj
      rw [BitVec.getLsbD_and]
      by_cases hji : j = i
      · subst hji; simp [hc]
      · have : ((1 : U16) <<< i).getLsbD j = false := by
          rw [BitVec.getLsbD_shiftLeft]
          rcases Nat.lt_or_ge j i with h2 | h2
          · simp [h2]
          · have : (1 : U16).getLsbD (j - i) = false := by
              have : (1 : U16) = 1#16 := rfl
              rw [this, BitVec.getLsbD_one]; simp; omega
            simp [this]; omega
        rw [this]; simp
    · intro hb hc
      have := congrArg (fun x : U16 => x.getLsbD i) hc
      simp only [BitVec.getLsbD_and, hb, BitVec.getLsbD_shiftLeft] at this
      have h1 : (1 : U16) = 1#16 := rfl
      rw [h1] at this
      simp [h, BitVec.getLsbD_one] at this
  rw [h1, BitVec.getLsbD, Nat.testBit_eq_decide_div_mod_eq]

theorem getIndexRegister_eq (x : U16) :
    (getIndexRegister ⟨x⟩ : Exec M U32) = getR (indexValue · x) := by
  ext s
  simp only [getIndexRegister, bew_reg, BriefExtensionWord.isAddressReg, BriefExtensionWord.isLong, getA_eq, getD_eq,
    indexValue, bit_eq _ 15 (by decide), bit_eq _ 11 (by decide), decide_eq_true_eq, low_word, ← sext16_eq]
  split <;> rfl

theorem sext8_disp (x : U16) : sext8 (BriefExtensionWord.disp ⟨x⟩) = indexDisp x := by
  have : toU8 x = BitVec.ofNat 8 x.toNat := by
    apply BitVec.eq_of_toNat_eq; simp [toU8]
  simp only [BriefExtensionWord.disp, indexDisp, this]; rfl

theorem computeAddress_eq (C : CpuDetails) (m : Mode) (sz : Size) (a : Option U32) :
    (computeAddress C ⟨m.toAM, a, some sz⟩ : Exec M (U32 × Nat)) =
      (fun a => (a, eaTime C m)) <$> address sz m := by
  cases m <;>
    simp only [computeAddress, Mode.toAM, address, eaTime, getA_eq, ariwpo, ariwpr, setA_eq, stepOf_eq,
      getIndexRegister_eq, sext8_disp] <;>
    ext s <;>
    simp only [bind_apply, getR, map_apply, locate, place, pure_apply, modR, crash, panic, areg_setAreg, sext16_eq]

theorem ea_eq (C : CpuDetails) (m : Mode) (sz : Size) (t : Nat) :
    (getEffectiveAddress C (EffectiveAddress.new m.toAM (some sz)) t : Exec M _) =
      (fun a => (a, eaOf (some sz) m (.mem a), t + eaTime C m)) <$> address sz m := by
  simp only [getEffectiveAddress, EffectiveAddress.new, computeAddress_eq]
  simp only [map_eq_pure_bind, bind_assoc, pure_bind]
  rfl

theorem ea_cached (C : CpuDetails) (m : Mode) (sz : Option Size) (t : Nat) (a : U32) :
    (getEffectiveAddress C (eaOf sz m (.mem a)) t : Exec M _) = pure (a, eaOf sz m (.mem a), t) := rfl

/-- Modes without side effect and without size have the same address whatever the size. -/
theorem ea_none (C : CpuDetails) (m : Mode) (t : Nat) (hpo : ∀ n, m ≠ .postinc n) (hpr : ∀ n, m ≠ .predec n) :
    (getEffectiveAddress C (EffectiveAddress.new m.toAM none) t : Exec M _) =
      (fun a => (a, eaOf none m (.mem a), t + eaTime C m)) <$> address .Long m := by
  cases m <;> first
    | exact absurd rfl (hpo _)
    | exact absurd rfl (hpr _)
    | (simp only [getEffectiveAddress, EffectiveAddress.new, computeAddress, Mode.toAM, address, eaTime, getA_eq,
        getIndexRegister_eq, sext8_disp]
       ext s
       simp only [bind_apply, getR, map_apply, locate, place, pure_apply, crash, panic, sext16_eq, eaOf,
        Mode.toAM, Place.addr?])

variable [MemoryAccess M]

omit [MemoryAccess M] in
theorem locate_of {sz : Size} {m : Mode} {s s' : St M} {pl : Place}
    (h : (locate sz m : Exec M Place) s = .ok pl s') : pl.Of m := by
  simp only [locate, Res.ok.injEq] at h
  rw [← h.1]
  cases m <;> simp [place, Place.Of]

omit [MemoryAccess M] in
theorem locate_congr {sz : Size} {m : Mode} {β : Type} {k₁ k₂ : Place → Exec M β}
    (h : ∀ pl, pl.Of m → k₁ pl = k₂ pl) : (locate sz m >>= k₁) = (locate sz m >>= k₂) := by
  ext s
  simp only [bind_apply]
  cases hl : (locate sz m : Exec M Place) s with
  | ok pl s' => simp only [h pl (locate_of hl)]
  | err => rfl
  | panic => rfl

theorem read_congr {sz : Size} {m : Mode} {β : Type} {k₁ k₂ : Place × Val sz → Exec M β}
    (h : ∀ pl v, pl.Of m → k₁ (pl, v) = k₂ (pl, v)) : (Spec.read sz m >>= k₁) = (Spec.read sz m >>= k₂) := by
  simp only [Spec.read, bind_assoc, pure_bind]
  apply locate_congr
  intro pl hpl
  congr 1
  funext v
  exact h pl v hpl

theorem load_word (a : U32) : (even a >>= fun a => access (MemoryAccess.getWord a) : Exec M U16) = load .Word a := by
  rw [even_bind]; simp [load, memGet]
theorem load_long (a : U32) : (even a >>= fun a => access (MemoryAccess.getLong a) : Exec M U32) = load .Long a := by
  rw [even_bind]; simp [load, memGet]
theorem load_byte (a : U32) : (access (MemoryAccess.getByte a) : Exec M U8) = load .Byte a := by
  simp [load, memGet]
theorem store_word (a : U32) (v : U16) :
    (even a >>= fun a => access (MemoryAccess.setWord a v) : Exec M Unit) = store .Word a v := by
  rw [even_bind]; simp [store, memSet]
theorem store_long (a : U32) (v : U32) :
    (even a >>= fun a => access (MemoryAccess.setLong a v) : Exec M Unit) = store .Long a v := by
  rw [even_bind]; simp [store, memSet]
theorem store_byte (a : U32) (v : U8) : (access (MemoryAccess.setByte a v) : Exec M Unit) = store .Byte a v := by
  simp [store, memSet]

theorem load_word_bind {β : Type} (a : U32) (k : U16 → Exec M β) :
    (even a >>= fun a => access (MemoryAccess.getWord a) >>= k) = load .Word a >>= k := by
  rw [← load_word, bind_assoc]
theorem load_long_bind {β : Type} (a : U32) (k : U32 → Exec M β) :
    (even a >>= fun a => access (MemoryAccess.getLong a) >>= k) = load .Long a >>= k := by
  rw [← load_long, bind_assoc]
theorem store_word_bind {β : Type} (a : U32) (v : U16) (k : Unit → Exec M β) :
    (even a >>= fun a => access (MemoryAccess.setWord a v) >>= k) = store .Word a v >>= k := by
  rw [← store_word, bind_assoc]
theorem store_long_bind {β : Type} (a : U32) (v : U32) (k : Unit → Exec M β) :
    (even a >>= fun a => access (MemoryAccess.setLong a v) >>= k) = store .Long a v >>= k := by
  rw [← store_long, bind_assoc]

/-- The three operand reads of the model under one name. -/
def getV (C : CpuDetails) : (sz : Size) → EffectiveAddress → Nat → Exec M (Val sz × EffectiveAddress × Nat)
  | .Byte => getByte C
  | .Word => getWord C
  | .Long => getLong C
/-- The three operand writes of the model under one name. -/
def setV (C : CpuDetails) : (sz : Size) → EffectiveAddress → Nat → Val sz → Exec M Nat
  | .Byte => setByte C
  | .Word => setWord C
  | .Long => setLong C

omit [MemoryAccess M] in
theorem address_mem {β : Type} (sz : Size) (m : Mode) (k : U32 → Exec M β) :
    (address sz m >>= k) = locate sz m >>= fun pl => match pl with | .mem a => k a | _ => crash := by
  unfold address
  rw [bind_assoc]
  congr 1; funext pl
  cases pl <;> simp

theorem getV_eq (C : CpuDetails) (sz : Size) (m : Mode) (t : Nat) :
    (getV C sz (EffectiveAddress.new m.toAM (some sz)) t : Exec M _) =
      (fun p => (p.2, eaOf (some sz) m p.1, t + (eaTime C m + longRead sz m))) <$> Spec.read sz m := by
  cases hm : m.isMem
  · cases m <;> simp only [Mode.isMem, Bool.true_eq_false, reduceCtorEq] at hm <;> cases sz <;>
      simp only [getV, getByte, getWord, getLong, EffectiveAddress.new, Mode.toAM, getD_eq, getA_eq] <;>
      simp only [Spec.read, getEffectiveAddress, computeAddress, panic_eq, map_bind, bind_assoc, crash_bind] <;>
      ext s <;>
      simp [bind_apply, locate, place, readAt, getR, pure_apply, low_byte, low_word, low_long, eaOf, Mode.toAM,
        Place.addr?, eaTime, longRead, crash, width, Nat.add_comm] <;> rfl
  · have hg : (getV C sz (EffectiveAddress.new m.toAM (some sz)) t : Exec M _) =
        getEffectiveAddress C (EffectiveAddress.new m.toAM (some sz)) t >>= fun q =>
          load sz q.1 >>= fun v => pure (v, q.2.1, q.2.2 + longRead sz m) := by
      cases m <;> simp only [Mode.isMem, reduceCtorEq] at hm <;> cases sz <;>
        simp only [getV, getByte, getWord, getLong, EffectiveAddress.new, Mode.toAM, longRead, mem_eq,
          load_word_bind, load_long_bind, load_byte, Nat.add_zero]
    rw [hg, ea_eq]
    simp only [map_eq_pure_bind, bind_assoc, pure_bind, Spec.read, address_mem]
    apply locate_congr
    intro pl hpl
    obtain ⟨a, rfl⟩ : ∃ a, pl = .mem a := by
      cases m <;> simp only [Mode.isMem, reduceCtorEq] at hm <;> exact hpl
    simp only [readAt, pure_bind, Nat.add_assoc]

theorem setV_cached (C : CpuDetails) (sz : Size) (m : Mode) (pl : Place) (hpl : pl.Of m) (t : Nat) (v : Val sz) :
    (setV C sz (eaOf (some sz) m pl) t v : Exec M _) =
      (fun _ => t + longWrite sz m) <$> writeAt sz pl v := by
  cases hm : m.isMem
  · cases m <;> simp only [Mode.isMem, Bool.true_eq_false, reduceCtorEq] at hm <;> cases sz <;>
      cases hpl <;>
      simp only [setV, setByte, setWord, setLong, eaOf, Mode.toAM, setDByte_eq, setDWord_eq, setD_eq, setA_eq,
        getEffectiveAddress, computeAddress, panic_eq, crash_bind, writeAt, Place.addr?, insertLow_long,
        map_eq_pure_bind, sext16_eq, longWrite, Mode.isMem] <;> simp [signExt, width]
  · obtain ⟨a, rfl⟩ : ∃ a, pl = .mem a := by
      cases m <;> simp only [Mode.isMem, reduceCtorEq] at hm <;> exact hpl
    have : longWrite sz m = if sz = .Long then 4 else 0 := by simp [longWrite, hm]
    rw [this]
    cases m <;> simp only [Mode.isMem, reduceCtorEq] at hm <;> cases sz <;>
      simp only [setV, setByte, setWord, setLong, eaOf, Mode.toAM, getEffectiveAddress, Place.addr?, pure_bind,
        mem_eq, writeAt, store_word_bind, store_long_bind, store_byte, map_eq_pure_bind] <;> rfl

theorem setV_eq (C : CpuDetails) (sz : Size) (m : Mode) (t : Nat) (v : Val sz) :
    (setV C sz (EffectiveAddress.new m.toAM (some sz)) t v : Exec M _) =
      (fun _ => t + (eaTime C m + longWrite sz m)) <$> Spec.write sz m v := by
  cases hm : m.isMem
  · cases m <;> simp only [Mode.isMem, Bool.true_eq_false, reduceCtorEq] at hm <;> cases sz <;>
      simp only [setV, setByte, setWord, setLong, EffectiveAddress.new, Mode.toAM, setDByte_eq, setDWord_eq, setD_eq, setA_eq,
        getEffectiveAddress, computeAddress, panic_eq, crash_bind, Spec.write,
        map_eq_pure_bind, sext16_eq, longWrite, Mode.isMem] <;>
      ext s <;>
      simp [bind_apply, locate, place, writeAt, modR, insertLow_long, crash, eaTime, signExt, width]
  · have : longWrite sz m = if sz = .Long then 4 else 0 := by simp [longWrite, hm]
    have hg : (setV C sz (EffectiveAddress.new m.toAM (some sz)) t v : Exec M _) =
        getEffectiveAddress C (EffectiveAddress.new m.toAM (some sz)) t >>= fun q =>
          store sz q.1 v >>= fun _ => pure (q.2.2 + longWrite sz m) := by
      rw [this]
      cases m <;> simp only [Mode.isMem, reduceCtorEq] at hm <;> cases sz <;>
        simp only [setV, setByte, setWord, setLong, EffectiveAddress.new, Mode.toAM, mem_eq,
          store_word_bind, store_long_bind, store_byte] <;> rfl
    rw [hg, ea_eq]
    simp only [map_eq_pure_bind, bind_assoc, pure_bind, Spec.write, address_mem]
    apply locate_congr
    intro pl hpl
    obtain ⟨a, rfl⟩ : ∃ a, pl = .mem a := by
      cases m <;> simp only [Mode.isMem, reduceCtorEq] at hm <;> exact hpl
    simp only [writeAt, pure_bind, Nat.add_assoc]

end Exec
end M68k
