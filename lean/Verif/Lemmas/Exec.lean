import Verif.Spec.Machine
import Verif.Model.Alu
/-
The monads are lawful, and the primitive actions of the model are those of the specification.
-/
namespace M68k

theorem Exec.pure_def {M α : Type} (a : α) : (pure a : Exec M α) = fun s => .ok a s := rfl
theorem Exec.bind_apply {M α β : Type} (x : Exec M α) (f : α → Exec M β) (s : St M) :
    (x >>= f) s = (match x s with
      | .ok a s' => f a s'
      | .err v s' => .err v s'
      | .panic => .panic) := rfl
theorem Exec.pure_apply {M α : Type} (a : α) (s : St M) : (pure a : Exec M α) s = .ok a s := rfl
theorem Exec.map_apply {M α β : Type} (x : Exec M α) (f : α → β) (s : St M) :
    (f <$> x) s = (match x s with
      | .ok a s' => .ok (f a) s'
      | .err v s' => .err v s'
      | .panic => .panic) := rfl

@[ext] theorem Exec.ext {M α : Type} {x y : Exec M α} (h : ∀ s, x s = y s) : x = y := funext h

instance {M : Type} : LawfulMonad (Exec M) := LawfulMonad.mk'
  (id_map := by
    intro α x; ext s; rw [Exec.map_apply]; cases x s <;> rfl)
  (pure_bind := by intro α β a f; rfl)
  (bind_assoc := by
    intro α β γ x f g; ext s
    simp only [Exec.bind_apply]
    cases x s <;> rfl)

theorem Dec.bind_apply {M α β : Type} (x : Dec M α) (f : α → Dec M β) (it : Iter M) :
    (x >>= f) it = (match x it with
      | some (a, it') => f a it'
      | none => none) := rfl
theorem Dec.pure_apply {M α : Type} (a : α) (it : Iter M) : (pure a : Dec M α) it = some (a, it) := rfl
theorem Dec.map_apply {M α β : Type} (x : Dec M α) (f : α → β) (it : Iter M) :
    (f <$> x) it = (match x it with
      | some (a, it') => some (f a, it')
      | none => none) := rfl
@[ext] theorem Dec.ext {M α : Type} {x y : Dec M α} (h : ∀ s, x s = y s) : x = y := funext h

instance {M : Type} : LawfulMonad (Dec M) := LawfulMonad.mk'
  (id_map := by
    intro α x; ext s; rw [Dec.map_apply]
    cases x s <;> rfl)
  (pure_bind := by intro α β a f; rfl)
  (bind_assoc := by
    intro α β γ x f g; ext s
    simp only [Dec.bind_apply]
    cases x s with
    | none => rfl
    | some p => rfl)

open Spec

namespace Exec
variable {M : Type}

/-! ### Stop actions absorb what follows. -/
@[simp] theorem trap_bind {α β : Type} (v : U8) (f : α → Exec M β) : (trap v >>= f) = trap v := rfl
@[simp] theorem crash_bind {α β : Type} (f : α → Exec M β) : (crash >>= f) = crash := rfl
@[simp] theorem map_trap {α β : Type} (v : U8) (f : α → β) : (f <$> (trap v : Exec M α)) = trap v := rfl
@[simp] theorem map_crash {α β : Type} (f : α → β) : (f <$> (crash : Exec M α)) = crash := rfl
theorem throw_eq {α : Type} (v : U8) : (throw v : Exec M α) = trap v := rfl
theorem panic_eq {α : Type} : (panic : Exec M α) = crash := rfl
theorem pure_eq {α : Type} (a : α) : (Exec.pure a : Exec M α) = pure a := rfl

theorem getRegs_eq : (getRegs : Exec M _) = getR id := rfl
theorem modifyRegs_eq (f) : (modifyRegs f : Exec M _) = modR f := rfl
theorem getSr_eq : (getSr : Exec M _) = getR (·.sr) := rfl
theorem modifySr_eq (f) : (modifySr f : Exec M _) = setFlags f := rfl
theorem getPc_eq : (getPc : Exec M _) = getR (·.pc) := rfl
theorem setPc_eq (v) : (setPc v : Exec M _) = jump v := rfl
theorem mem_eq {α : Type} (f : M → MRes M α) : (mem f : Exec M α) = access f := rfl
theorem alu_eq {α : Type} (f : StatusRegister → α × StatusRegister) :
    (alu f : Exec M α) = compute f := rfl

@[simp] theorem u8_toNat (n : Fin 8) : (u8 n).toNat = n.val := by
  have := n.isLt
  simp [u8]; omega

theorem areg_seven (r : Registers) : areg r 7 = if r.sr.s then r.ssp else r.usp := rfl
theorem setAreg_seven (r : Registers) (v : U32) :
    setAreg r 7 v = if r.sr.s then { r with ssp := v } else { r with usp := v } := rfl

theorem getD_eq (n : Fin 8) : (getD (u8 n) : Exec M U32) = getR (·.d n) := by
  ext s; simp [getD]; rfl
theorem setD_eq (n : Fin 8) (v : U32) : (setD (u8 n) v : Exec M Unit) = modR (setDreg · n v) := by
  ext s; simp [setD, modR, setDreg]; rfl
theorem regs_getA (r : Registers) (n : Fin 8) : r.getA (u8 n) = areg r n := by
  simp [Registers.getA, areg, Registers.sp]
theorem regs_setA (r : Registers) (n : Fin 8) (v : U32) : r.setA (u8 n) v = setAreg r n v := by
  simp [Registers.setA, setAreg, Registers.setSp]; rfl
theorem getA_eq (n : Fin 8) : (getA (u8 n) : Exec M U32) = getR (areg · n) := by
  ext s; simp [getA, getR, regs_getA]
theorem setA_eq (n : Fin 8) (v : U32) : (setA (u8 n) v : Exec M Unit) = modR (setAreg · n v) := by
  ext s; simp [setA, modR, regs_setA]
theorem getSp_eq : (getSp : Exec M U32) = getR (areg · 7) := by
  ext s; rfl
theorem setSp_eq (v : U32) : (setSp v : Exec M Unit) = modR (setAreg · 7 v) := by
  ext s; rfl

theorem low_byte (x : U32) : low .Byte x = toU8 x := by
  apply BitVec.eq_of_toNat_eq; simp [low, toU8, width]
theorem low_word (x : U32) : low .Word x = toU16 x := by
  apply BitVec.eq_of_toNat_eq; simp [low, toU16, width]
theorem low_long (x : U32) : low .Long x = x := by
  apply BitVec.eq_of_toNat_eq; simp [low, width]

theorem insertLow_long (o : U32) (v : Val .Long) : insertLow .Long o v = v := by
  apply BitVec.eq_of_toNat_eq
  have h1 := o.isLt
  have h2 : v.toNat < 4294967296 := v.isLt
  simp [insertLow]
  simp only [width]
  omega

private theorem mul_pow_eq (k : Nat) (o : U32) (v : Nat) (hv : v < 2 ^ k) :
    BitVec.ofNat 32 (o.toNat / 2 ^ k * 2 ^ k + v) = (o >>> k) <<< k ||| BitVec.ofNat 32 v := by
  apply BitVec.eq_of_toNat_eq
  rw [Nat.mul_comm, Nat.two_pow_add_eq_or_of_lt hv, Nat.mul_comm]
  simp [Nat.shiftRight_eq_div_pow, Nat.shiftLeft_eq]

private theorem mask8 (o : U32) : (o >>> 8) <<< 8 = o &&& 0xFFFFFF00 := by
  apply BitVec.eq_of_getLsbD_eq
  intro i hi
  have : (0xFFFFFF00 : U32).getLsbD i = decide (8 ≤ i) := by
    revert i; decide
  rw [BitVec.getLsbD_and, this, BitVec.getLsbD_shiftLeft, BitVec.getLsbD_ushiftRight]
  by_cases h : 8 ≤ i
  · rw [Nat.add_sub_cancel' h]; simp [h, hi, Nat.not_lt.mpr h]
  · simp [h, Nat.not_le.mp h]

private theorem mask16 (o : U32) : (o >>> 16) <<< 16 = o &&& 0xFFFF0000 := by
  apply BitVec.eq_of_getLsbD_eq
  intro i hi
  have : (0xFFFF0000 : U32).getLsbD i = decide (16 ≤ i) := by
    revert i; decide
  rw [BitVec.getLsbD_and, this, BitVec.getLsbD_shiftLeft, BitVec.getLsbD_ushiftRight]
  by_cases h : 16 ≤ i
  · rw [Nat.add_sub_cancel' h]; simp [h, hi, Nat.not_lt.mpr h]
  · simp [h, Nat.not_le.mp h]

theorem insertLow_byte (o : U32) (v : Val .Byte) :
    insertLow .Byte o v = (o &&& 0xFFFFFF00) ||| toU32 v := by
  unfold insertLow
  rw [mul_pow_eq 8 o v.toNat v.isLt, mask8]
  congr 1
  apply BitVec.eq_of_toNat_eq; simp [toU32]

theorem insertLow_word (o : U32) (v : Val .Word) :
    insertLow .Word o v = (o &&& 0xFFFF0000) ||| toU32 v := by
  unfold insertLow
  rw [mul_pow_eq 16 o v.toNat v.isLt, mask16]
  congr 1
  apply BitVec.eq_of_toNat_eq; simp [toU32]

theorem setDByte_eq (n : Fin 8) (v : U8) :
    (setDByte (u8 n) v : Exec M Unit) = modR fun r => setDreg r n (insertLow .Byte (r.d n) v) := by
  ext s
  simp only [setDByte, getD_eq, setD_eq, bind_apply, getR, modR, insertLow_byte, setDreg]
  simp only [Res.ok.injEq, true_and]
  congr 3
  funext i
  by_cases h : i = n <;> simp [h]

theorem setDWord_eq (n : Fin 8) (v : U16) :
    (setDWord (u8 n) v : Exec M Unit) = modR fun r => setDreg r n (insertLow .Word (r.d n) v) := by
  ext s
  simp only [setDWord, getD_eq, setD_eq, bind_apply, getR, modR, insertLow_word, setDreg]
  simp only [Res.ok.injEq, true_and]
  congr 3
  funext i
  by_cases h : i = n <;> simp [h]

theorem isEven_iff (a : U32) : isEven a = true ↔ ¬ Odd a := by
  have : (a &&& 1).toNat = a.toNat % 2 := by
    rw [BitVec.toNat_and]; exact Nat.and_one_is_mod _
  simp only [isEven, Odd, beq_iff_eq, ← BitVec.toNat_inj, this]
  have h0 : (0 : U32).toNat = 0 := rfl
  rw [h0]
  omega

theorem even_bind {α : Type} (a : U32) (f : U32 → Exec M α) :
    (even a >>= f) = if Odd a then trap 3 else f a := by
  unfold even
  by_cases h : Odd a
  · have : isEven a = false := by
      rw [Bool.eq_false_iff, ne_eq, isEven_iff]; exact not_not_intro h
    simp [h, this]; rfl
  · have := (isEven_iff a).2 h
    simp [h, this]; rfl

theorem sext16_eq (v : U16) : sext16 v = signExt v := rfl
theorem sext8_eq (v : U8) : sext8 v = signExt v := rfl

end Exec
end M68k
