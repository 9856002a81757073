import Verif.Lemmas.InstrArith
import Verif.Lemmas.Sr
import Verif.Model.Interp
/-
The logical, test and set instructions of the model are those of the specification.
-/
set_option linter.unusedSimpArgs false
namespace M68k
open Spec
namespace Exec
variable {M : Type} [MemoryAccess M]

/-- Operand reads do not change the data registers. -/
theorem read_d {sz : Size} {m : Mode} {s s' : St M} {p : Place × Val sz} (h : Spec.read sz m s = .ok p s') :
    s'.cpu.regs.d = s.cpu.regs.d := by
  have hpl : (place sz s.cpu.regs m).2.d = s.cpu.regs.d := by
    cases m <;> simp only [place] <;> (try rfl)
    all_goals
      unfold setAreg
      split
      · rfl
      · split <;> rfl
  simp only [Spec.read, bind_apply, locate] at h
  generalize hq : place sz s.cpu.regs m = q at h hpl
  obtain ⟨pl, r⟩ := q
  simp only at h hpl
  cases pl with
  | dreg n => simp only [readAt, getR, pure_apply] at h; cases h; exact hpl
  | areg n =>
    by_cases hb : sz = .Byte
    · simp only [readAt, hb, if_true, crash] at h; cases h
    · simp only [readAt, hb, if_false, getR, pure_apply] at h; cases h; exact hpl
  | imm v => simp only [readAt, pure_apply] at h; cases h; exact hpl
  | mem a =>
    simp only [readAt] at h
    cases hl : (load sz a : Exec M _) { cpu := { s.cpu with regs := r }, mem := s.mem } with
    | err => rw [hl] at h; cases h
    | panic => rw [hl] at h; cases h
    | ok v s1 =>
      rw [hl] at h
      simp only [pure_apply] at h
      cases h
      rw [(load_ok hl).1]; exact hpl

theorem getD_read {β : Type} (sz : Size) (m : Mode) (n : Fin 8) (k : U32 → Place × Val sz → Exec M β) :
    (getR (·.d n) >>= fun d => Spec.read sz m >>= fun p => k d p) =
      Spec.read sz m >>= fun p => getR (·.d n) >>= fun d => k d p := by
  ext s
  simp only [bind_apply, getR]
  cases h : (Spec.read sz m : Exec M _) s with
  | ok p s' => simp only [read_d h]
  | err => rfl
  | panic => rfl

/-- The form of AND and OR to a data register: the register is read first and the operands are swapped. -/
theorem logicToDn_eq (C : CpuDetails) (sz : Size) (n : Fin 8) (m : Mode) (t : Nat)
    (f : Val sz → Val sz → StatusRegister → Val sz × StatusRegister) (hf : ∀ a b sr, f a b sr = f b a sr) :
    (getD (u8 n) >>= fun d => getV C sz (EffectiveAddress.new m.toAM (some sz)) t >>= fun q =>
      alu (f q.1 (truncV sz d)) >>= fun r => setDV sz (u8 n) r >>= fun _ => pure q.2.2 : Exec M Nat) =
      cost (opToDn sz n m f) (t + readTime C sz m) := by
  simp only [getV_eq, getD_eq, truncV_eq, cost, opToDn, rmw_dn, setDV_eq, alu_eq, map_eq_pure_bind, bind_assoc, pure_bind, readTime]
  rw [getD_read sz m n]
  congr 1
  funext p
  have : ∀ d, f p.2 (low sz d) = f (low sz d) p.2 := fun d => funext fun sr => hf _ _ _
  simp only [this]
  rfl

theorem and_fun (sz : Size) (d s : Val sz) : (fun sr => Alu.and sr d s) = logic (· &&& ·) d s :=
  funext fun sr => and_eq (width_isWidth sz) sr d s
theorem or_fun (sz : Size) (d s : Val sz) : (fun sr => Alu.or sr d s) = logic (· ||| ·) d s :=
  funext fun sr => or_eq (width_isWidth sz) sr d s
theorem eor_fun (sz : Size) (d s : Val sz) : (fun sr => Alu.eor sr d s) = logic (· ^^^ ·) d s :=
  funext fun sr => eor_eq (width_isWidth sz) sr d s

theorem executeAnd_ea (C : CpuDetails) (n : Fin 8) (sz : Size) (m : Mode) :
    (executeAnd C (u8 n) .DstEa sz m.toAM : Exec M Nat) =
      cost (opToEa sz n m (logic (· &&& ·))) (bySize sz C.AND_MEM_BW C.AND_MEM_L + rmwTime C sz m) := by
  rw [show (logic (· &&& ·) : Val sz → Val sz → _) = fun d s sr => Alu.and sr d s from
    funext fun d => funext fun s => (and_fun sz d s).symm, ← opToEa_eq]
  cases sz <;> simp only [executeAnd, if_true, bySize] <;> rfl

theorem executeAnd_dn (C : CpuDetails) (n : Fin 8) (sz : Size) (m : Mode) :
    (executeAnd C (u8 n) .DstReg sz m.toAM : Exec M Nat) =
      cost (opToDn sz n m (logic (· &&& ·)))
        (bySize sz C.AND_REG_BW (if isRegOrImm m then C.AND_REG_L_RDIMM else C.AND_REG_L) + readTime C sz m) := by
  rw [show (logic (· &&& ·) : Val sz → Val sz → _) = fun d s sr => Alu.and sr d s from
    funext fun d => funext fun s => (and_fun sz d s).symm,
    ← logicToDn_eq _ _ _ _ _ _ (by intro a b sr; simp only [Alu.and, BitVec.and_comm]), ← isRegOrImm_eq]
  cases sz <;> simp only [executeAnd, reduceCtorEq, if_false, bySize] <;> rfl

theorem executeOr_ea (C : CpuDetails) (n : Fin 8) (sz : Size) (m : Mode) :
    (executeOr C (u8 n) .DstEa sz m.toAM : Exec M Nat) =
      cost (opToEa sz n m (logic (· ||| ·))) (bySize sz C.OR_MEM_BW C.OR_MEM_L + rmwTime C sz m) := by
  rw [show (logic (· ||| ·) : Val sz → Val sz → _) = fun d s sr => Alu.or sr d s from
    funext fun d => funext fun s => (or_fun sz d s).symm, ← opToEa_eq]
  cases sz <;> simp only [executeOr, if_true, bySize] <;> rfl

theorem executeOr_dn (C : CpuDetails) (n : Fin 8) (sz : Size) (m : Mode) :
    (executeOr C (u8 n) .DstReg sz m.toAM : Exec M Nat) =
      cost (opToDn sz n m (logic (· ||| ·)))
        (bySize sz C.OR_REG_BW (if isRegOrImm m then C.OR_REG_L_RDIMM else C.OR_REG_L) + readTime C sz m) := by
  rw [show (logic (· ||| ·) : Val sz → Val sz → _) = fun d s sr => Alu.or sr d s from
    funext fun d => funext fun s => (or_fun sz d s).symm,
    ← logicToDn_eq _ _ _ _ _ _ (by intro a b sr; simp only [Alu.or, BitVec.or_comm]), ← isRegOrImm_eq]
  cases sz <;> simp only [executeOr, reduceCtorEq, if_false, bySize] <;> rfl

theorem executeEor_eq (C : CpuDetails) (n : Fin 8) (sz : Size) (m : Mode) :
    (executeEor C (u8 n) sz m.toAM : Exec M Nat) =
      cost (opToEa sz n m (logic (· ^^^ ·)))
      (bySize sz (byPlace m C.EOR_REG_BW C.EOR_MEM_BW) (byPlace m C.EOR_REG_L C.EOR_MEM_L) + rmwTime C sz m) := by
  rw [show (logic (· ^^^ ·) : Val sz → Val sz → _) = fun d s sr => Alu.eor sr d s from
    funext fun d => funext fun s => (eor_fun sz d s).symm, ← opToEa_eq]
  simp only [byPlace, ← isDrd_eq]
  cases sz <;> simp only [executeEor, if_true, bySize] <;> rfl

theorem executeAndi_eq (C : CpuDetails) (sz : Size) (m : Mode) (imm : U32) :
    (executeAndi C sz m.toAM imm : Exec M Nat) =
      cost (rmw sz m (logic (· &&& ·) · (low sz imm)))
        (bySize sz (byPlace m C.ANDI_REG_BW C.ANDI_MEM_BW) (byPlace m C.ANDI_REG_L C.ANDI_MEM_L) + rmwTime C sz m) := by
  simp only [← and_fun]
  rw [← rmw_eq, ← truncV_eq]
  simp only [bySize, byPlace, ← isDrd_eq]
  cases sz <;> rfl
theorem executeOri_eq (C : CpuDetails) (sz : Size) (m : Mode) (imm : U32) :
    (executeOri C sz m.toAM imm : Exec M Nat) =
      cost (rmw sz m (logic (· ||| ·) · (low sz imm)))
        (bySize sz (byPlace m C.ORI_REG_BW C.ORI_MEM_BW) (byPlace m C.ORI_REG_L C.ORI_MEM_L) + rmwTime C sz m) := by
  simp only [← or_fun]
  rw [← rmw_eq, ← truncV_eq]
  simp only [bySize, byPlace, ← isDrd_eq]
  cases sz <;> rfl
theorem executeEori_eq (C : CpuDetails) (sz : Size) (m : Mode) (imm : U32) :
    (executeEori C sz m.toAM imm : Exec M Nat) =
      cost (rmw sz m (logic (· ^^^ ·) · (low sz imm)))
        (bySize sz (byPlace m C.EORI_REG_BW C.EORI_MEM_BW) (byPlace m C.EORI_REG_L C.EORI_MEM_L) + rmwTime C sz m) := by
  simp only [← eor_fun]
  rw [← rmw_eq, ← truncV_eq]
  simp only [bySize, byPlace, ← isDrd_eq]
  cases sz <;> rfl

omit [MemoryAccess M] in
theorem setFlags_setFlags {β : Type} (f g : StatusRegister → StatusRegister) (k : Unit → Exec M β) :
    (setFlags f >>= fun _ => setFlags g >>= k) = setFlags (fun sr => g (f sr)) >>= k := rfl

theorem sign8 (v : U8) : ((v &&& SIGN_BIT_8) != 0) = neg v := signBit_neg (n := 8) (by simp [IsWidth]) v
theorem sign16 (v : U16) : ((v &&& SIGN_BIT_16) != 0) = neg v := signBit_neg (n := 16) (by simp [IsWidth]) v
theorem sign32 (v : U32) : ((v &&& SIGN_BIT_32) != 0) = neg v := signBit_neg (n := 32) (by simp [IsWidth]) v

/-- The end of NOT in the model. -/
theorem not_eq (C : CpuDetails) (sz : Size) (m : Mode) (t : Nat) (g : Val sz → Val sz) (h : Val sz → StatusRegister → StatusRegister) :
    (getV C sz (EffectiveAddress.new m.toAM (some sz)) t >>= fun q =>
      setV C sz q.2.1 q.2.2 (g q.1) >>= fun t => setFlags (h (g q.1)) >>= fun _ => pure t : Exec M Nat) =
      cost (Spec.read sz m >>= fun p => writeAt sz p.1 (g p.2) >>= fun _ => setFlags (h (g p.2))) (t + rmwTime C sz m) := by
  simp only [getV_eq, map_eq_pure_bind, bind_assoc, pure_bind, cost]
  apply read_congr
  intro pl v hpl
  simp only [setV_cached C sz m pl hpl, map_eq_pure_bind, rmwTime, Nat.add_assoc, bind_assoc, pure_bind]

theorem executeNot_eq (C : CpuDetails) (sz : Size) (m : Mode) :
    (executeNot C sz m.toAM : Exec M Nat) =
      cost (Spec.read sz m >>= fun p => writeAt sz p.1 (~~~p.2) >>= fun _ => setFlags (logicFlags (~~~p.2)))
        (bySize sz (byPlace m C.NOT_REG_BW C.NOT_MEM_BW) (byPlace m C.NOT_REG_L C.NOT_MEM_L) + rmwTime C sz m) := by
  rw [← not_eq C sz m _ (fun v => ~~~v) logicFlags]
  simp only [bySize, byPlace, ← isDrd_eq]
  cases sz <;> simp only [executeNot, sign8, sign16, sign32, beq_zero, modifySr_eq, setFlags_setFlags] <;> rfl

theorem executeTst_eq (C : CpuDetails) (sz : Size) (m : Mode) :
    (executeTst C sz m.toAM : Exec M Nat) =
      Spec.read sz m >>= fun p => cost (setFlags (logicFlags p.2))
        (bySize sz (byPlace m C.TST_REG_BW C.TST_MEM_BW) (byPlace m C.TST_REG_L C.TST_MEM_L) + readTime C sz m) := by
  cases sz <;> to_spec [executeTst, sign8, sign16, sign32, beq_zero, setFlags_setFlags, singleOperandsTime, Size.isLong] <;> rfl

theorem executeClr_eq (C : CpuDetails) (sz : Size) (m : Mode) :
    (executeClr C sz m.toAM : Exec M Nat) =
      Spec.write sz m 0 >>= fun _ => cost (setFlags (logicFlags (0 : Val sz)))
        (bySize sz (byPlace m C.CLR_REG_BW C.CLR_MEM_BW) (byPlace m C.CLR_REG_L C.CLR_MEM_L) + writeTime C sz m) := by
  cases sz <;> to_spec [executeClr, singleOperandsTime, Size.isLong] <;> rfl

theorem executeTas_eq (C : CpuDetails) (m : Mode) :
    (executeTas C m.toAM : Exec M Nat) = cost (tas m) (byPlace m C.TAS_REG C.TAS_MEM + eaTime C m) := by
  rw [← rmwTime_byte, tas, ← rmw_eq]
  simp only [executeTas, sign8, beq_zero, byPlace, isDrd_eq]
  rfl

theorem executeScc_eq (C : CpuDetails) (cc : Fin 16) (m : Mode) :
    (executeScc C (cc8 cc) m.toAM : Exec M Nat) =
      (fun b => (if b then byPlace m C.SCC_REG_TRUE C.SCC_MEM_TRUE else byPlace m C.SCC_REG_FALSE C.SCC_MEM_FALSE)
      + eaTime C m) <$> scc cc m := by
  to_spec [executeScc, singleOperandsTime, testCondition_eq, scc, ← writeTime_byte]
  congr 1; funext b; congr 1; funext _
  cases b <;> rfl

end Exec
end M68k
