import Verif.Lemmas.Operand
import Verif.Lemmas.Alu
/-
The shapes shared by the `execute_*` functions: read-modify-write, operand to register, and pairs of
predecremented operands.
-/
set_option linter.unusedSimpArgs false
namespace M68k
open Spec

theorem signExt_long (v : Val .Long) : signExt v = v := by simp [signExt]
theorem size_isWord (sz : Size) : sz.isWord = decide (sz = .Word) := by cases sz <;> rfl
theorem size_isLong (sz : Size) : sz.isLong = decide (sz = .Long) := by cases sz <;> rfl

theorem isDrd_eq (m : Mode) : m.toAM.isDrd = isDn m := by cases m <;> rfl
theorem isRegOrImm_eq (m : Mode) : (m.toAM.isDard || m.toAM.isImmediate) = isRegOrImm m := by cases m <;> rfl

namespace Exec
variable {M : Type} [MemoryAccess M]

theorem rmw_eq (C : CpuDetails) (sz : Size) (m : Mode) (t : Nat) (f : Val sz → StatusRegister → Val sz × StatusRegister) :
    (getV C sz (EffectiveAddress.new m.toAM (some sz)) t >>= fun q =>
      alu (f q.1) >>= fun r => setV C sz q.2.1 q.2.2 r : Exec M Nat) =
      cost (rmw sz m f) (t + rmwTime C sz m) := by
  simp only [getV_eq, alu_eq, map_eq_pure_bind, bind_assoc, pure_bind, cost, rmw]
  apply read_congr
  intro pl v hpl
  simp only [setV_cached C sz m pl hpl, map_eq_pure_bind, rmwTime, Nat.add_assoc]

/-- As `rmw_eq`, for any action between the read and the write. -/
theorem rmw_eq' (C : CpuDetails) (sz : Size) (m : Mode) (t : Nat) (x : Val sz → Exec M (Val sz)) :
    (getV C sz (EffectiveAddress.new m.toAM (some sz)) t >>= fun q =>
      x q.1 >>= fun r => setV C sz q.2.1 q.2.2 r : Exec M Nat) =
      cost (Spec.read sz m >>= fun p => x p.2 >>= fun r => writeAt sz p.1 r) (t + rmwTime C sz m) := by
  simp only [getV_eq, map_eq_pure_bind, bind_assoc, pure_bind, cost]
  apply read_congr
  intro pl v hpl
  simp only [setV_cached C sz m pl hpl, map_eq_pure_bind, rmwTime, Nat.add_assoc]

omit [MemoryAccess M] in
/-- Assignment of a data register operand in the model. -/
def setDV : (sz : Size) → U8 → Val sz → Exec M Unit
  | .Byte => setDByte
  | .Word => setDWord
  | .Long => setD

omit [MemoryAccess M] in
theorem setDV_eq (sz : Size) (n : Fin 8) (v : Val sz) :
    (setDV sz (u8 n) v : Exec M Unit) = modR fun r => setDreg r n (insertLow sz (r.d n) v) := by
  cases sz
  · exact setDByte_eq n v
  · exact setDWord_eq n v
  · simp only [setDV, setD_eq, insertLow_long]

/-- Truncation of a register in the model. -/
def truncV : (sz : Size) → U32 → Val sz
  | .Byte => toU8
  | .Word => toU16
  | .Long => id
theorem truncV_eq (sz : Size) (x : U32) : truncV sz x = low sz x := by
  cases sz
  · exact (low_byte x).symm
  · exact (low_word x).symm
  · exact (low_long x).symm

theorem rmw_dn (sz : Size) (n : Fin 8) (f : Val sz → StatusRegister → Val sz × StatusRegister) :
    (rmw sz (.dn n) f : Exec M Unit) =
      getR (fun r => low sz (r.d n)) >>= fun d => compute (f d) >>= fun r =>
        modR fun rg => setDreg rg n (insertLow sz (rg.d n) r) := by
  ext s
  simp only [rmw, Spec.read, locate, place, bind_apply, readAt, getR, pure_apply, compute, writeAt]

theorem opToEa_eq (C : CpuDetails) (sz : Size) (n : Fin 8) (m : Mode) (t : Nat)
    (f : Val sz → Val sz → StatusRegister → Val sz × StatusRegister) :
    (getD (u8 n) >>= fun d => getV C sz (EffectiveAddress.new m.toAM (some sz)) t >>= fun q =>
      alu (f q.1 (truncV sz d)) >>= fun r => setV C sz q.2.1 q.2.2 r : Exec M Nat) =
      cost (opToEa sz n m f) (t + rmwTime C sz m) := by
  have : ∀ d, (getV C sz (EffectiveAddress.new m.toAM (some sz)) t >>= fun q =>
      alu (f q.1 (truncV sz d)) >>= fun r => setV C sz q.2.1 q.2.2 r : Exec M Nat) = cost (rmw sz m (f · (truncV sz d))) (t + rmwTime C sz m) :=
    fun d => rmw_eq C sz m t (f · (truncV sz d))
  refine (bind_congr this).trans ?_
  simp only [getD_eq, truncV_eq, cost, opToEa]
  rfl

theorem opToDn_eq (C : CpuDetails) (sz : Size) (n : Fin 8) (m : Mode) (t : Nat)
    (f : Val sz → Val sz → StatusRegister → Val sz × StatusRegister) :
    (getV C sz (EffectiveAddress.new m.toAM (some sz)) t >>= fun q => getD (u8 n) >>= fun d =>
      alu (f (truncV sz d) q.1) >>= fun r => setDV sz (u8 n) r >>= fun _ => pure q.2.2 : Exec M Nat) =
      cost (opToDn sz n m f) (t + readTime C sz m) := by
  simp only [getV_eq, getD_eq, truncV_eq, cost, opToDn, rmw_dn, setDV_eq, alu_eq, map_eq_pure_bind, bind_assoc, pure_bind, readTime]
  rfl

theorem getByte_read (C : CpuDetails) (m : Mode) (t : Nat) :
    (getByte C (EffectiveAddress.new m.toAM (some .Byte)) t : Exec M _) =
      (fun p => (p.2, eaOf (some .Byte) m p.1, t + readTime C .Byte m)) <$> Spec.read .Byte m := getV_eq C .Byte m t
theorem getWord_read (C : CpuDetails) (m : Mode) (t : Nat) :
    (getWord C (EffectiveAddress.new m.toAM (some .Word)) t : Exec M _) =
      (fun p => (p.2, eaOf (some .Word) m p.1, t + readTime C .Word m)) <$> Spec.read .Word m := getV_eq C .Word m t
theorem getLong_read (C : CpuDetails) (m : Mode) (t : Nat) :
    (getLong C (EffectiveAddress.new m.toAM (some .Long)) t : Exec M _) =
      (fun p => (p.2, eaOf (some .Long) m p.1, t + readTime C .Long m)) <$> Spec.read .Long m := getV_eq C .Long m t
theorem setByte_write (C : CpuDetails) (m : Mode) (t : Nat) (v : Val .Byte) :
    (setByte C (EffectiveAddress.new m.toAM (some .Byte)) t v : Exec M _) =
      (fun _ => t + writeTime C .Byte m) <$> Spec.write .Byte m v := setV_eq C .Byte m t v
theorem setWord_write (C : CpuDetails) (m : Mode) (t : Nat) (v : Val .Word) :
    (setWord C (EffectiveAddress.new m.toAM (some .Word)) t v : Exec M _) =
      (fun _ => t + writeTime C .Word m) <$> Spec.write .Word m v := setV_eq C .Word m t v
theorem setLong_write (C : CpuDetails) (m : Mode) (t : Nat) (v : Val .Long) :
    (setLong C (EffectiveAddress.new m.toAM (some .Long)) t v : Exec M _) =
      (fun _ => t + writeTime C .Long m) <$> Spec.write .Long m v := setV_eq C .Long m t v

/-- A read followed by a continuation that only needs the value and the time. -/
theorem read_eq {β : Type} (C : CpuDetails) (sz : Size) (m : Mode) (t : Nat) (k : Val sz → Nat → Exec M β) :
    (getV C sz (EffectiveAddress.new m.toAM (some sz)) t >>= fun q => k q.1 q.2.2) =
      Spec.read sz m >>= fun p => k p.2 (t + readTime C sz m) := by
  simp only [getV_eq, map_eq_pure_bind, bind_assoc, pure_bind, readTime]

theorem load_ok {sz : Size} {a : U32} {s s' : St M} {v : Val sz} (h : load sz a s = .ok v s') :
    s'.cpu = s.cpu ∧ ¬(sz ≠ .Byte ∧ Odd a) := by
  unfold load at h
  split at h
  · cases h
  · refine ⟨?_, by assumption⟩
    unfold access at h
    split at h <;> cases h
    rfl

/-- The common part of ABCD, ADDX, SBCD and SUBX in memory. The code writes at the destination
register again without an alignment check. -/
theorem pair_mem (sz : Size) (x y : Fin 8) (f : Val sz → Val sz → StatusRegister → Val sz × StatusRegister)
    (hf : ∀ d s sr, (f d s sr).2.s = sr.s) :
    (ariwpr (u8 y) sz >>= fun sa => ariwpr (u8 x) sz >>= fun da => load sz sa >>= fun s => load sz da >>= fun d =>
      compute (f d s) >>= fun r => getA (u8 x) >>= fun a => access (memSet sz a r) : Exec M Unit) =
    pair sz true x y f := by
  ext st
  simp only [ariwpr, pair, getA_eq, setA_eq, stepOf_eq, bind_apply, getR, modR, pure_apply, locate, place, readAt, writeAt, if_true, areg_setAreg]
  cases h1 : (load sz (areg st.cpu.regs y - step y sz) : Exec M _) _ with
  | err => rfl
  | panic => rfl
  | ok v1 s1 =>
    simp only
    cases h2 : (load sz _ : Exec M _) s1 with
    | err => rfl
    | panic => rfl
    | ok v2 s2 =>
      obtain ⟨e1, -⟩ := load_ok h1
      obtain ⟨e2, ho⟩ := load_ok h2
      simp only [compute]
      have hs : ∀ (r : Registers) (sr : StatusRegister), sr.s = r.sr.s → areg { r with sr := sr } x = areg r x := by
        intro r sr h; simp [areg, h]
      rw [hs _ _ (hf _ _ _), e2, e1]
      simp only [areg_setAreg]
      simp only [store, if_neg ho]

theorem pair_reg (sz : Size) (x y : Fin 8) (f : Val sz → Val sz → StatusRegister → Val sz × StatusRegister) :
    (getD (u8 y) >>= fun s => getD (u8 x) >>= fun d => compute (f (truncV sz d) (truncV sz s)) >>= fun r => setDV sz (u8 x) r : Exec M Unit) =
    pair sz false x y f := by
  ext st
  simp only [getD_eq, setDV_eq, truncV_eq, pair, bind_apply, getR, locate, place, readAt, writeAt, Bool.false_eq_true, if_false]

end Exec
end M68k
