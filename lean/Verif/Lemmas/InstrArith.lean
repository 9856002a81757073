import Verif.Lemmas.Forms
import Verif.Lemmas.Bcd
import Verif.Model.InterpArith
/-
The arithmetic instructions of the model are those of the specification.
-/
set_option linter.unusedSimpArgs false
namespace M68k
open Spec
namespace Exec
variable {M : Type} [MemoryAccess M]

theorem sum_fun (sz : Size) (X : Bool) (d s : Val sz) : (fun sr => Alu.add X sr d s) = sum X d s :=
  funext fun sr => add_eq (width_isWidth sz) X sr d s
theorem difference_fun (sz : Size) (X : Bool) (d s : Val sz) : (fun sr => Alu.sub X false sr d s) = difference X d s :=
  funext fun sr => sub_eq_difference (width_isWidth sz) X sr d s

theorem executeAdd_eq (C : CpuDetails) (n : Fin 8) (toEa : Bool) (sz : Size) (m : Mode) :
    (executeAdd C (u8 n) (if toEa then .DstEa else .DstReg) sz m.toAM : Exec M Nat) =
      if toEa then cost (opToEa sz n m (sum false)) (bySize sz C.ADD_MEM_BW C.ADD_MEM_L + rmwTime C sz m)
      else cost (opToDn sz n m (sum false))
        (bySize sz C.ADD_REG_BW (if isRegOrImm m then C.ADD_REG_L_RDIMM else C.ADD_REG_L) + readTime C sz m) := by
  have hf : @sum (width sz) false = fun d s sr => Alu.add false sr d s := by
    funext d s; exact (sum_fun sz false d s).symm
  rw [hf]
  cases toEa
  · simp only [Bool.false_eq_true, if_false, ← isRegOrImm_eq]
    rw [← opToDn_eq]
    cases sz <;> simp only [executeAdd, reduceCtorEq, if_false, bySize, bind_assoc, pure_bind] <;> rfl
  · simp only [if_true]
    rw [← opToEa_eq]
    cases sz <;> simp only [executeAdd, reduceCtorEq, if_true, if_false, bySize, bind_assoc, pure_bind] <;> rfl

theorem executeSub_eq (C : CpuDetails) (n : Fin 8) (toEa : Bool) (sz : Size) (m : Mode) :
    (executeSub C (u8 n) (if toEa then .DstEa else .DstReg) sz m.toAM : Exec M Nat) =
      if toEa then cost (opToEa sz n m (difference false)) (bySize sz C.SUB_MEM_BW C.SUB_MEM_L + rmwTime C sz m)
      else cost (opToDn sz n m (difference false))
        (bySize sz C.SUB_REG_BW (if isRegOrImm m then C.SUB_REG_L_RDIMM else C.SUB_REG_L) + readTime C sz m) := by
  have hf : @difference (width sz) false = fun d s sr => Alu.sub false false sr d s := by
    funext d s; exact (difference_fun sz false d s).symm
  rw [hf]
  cases toEa
  · simp only [Bool.false_eq_true, if_false, ← isRegOrImm_eq]
    rw [← opToDn_eq]
    cases sz <;> simp only [executeSub, reduceCtorEq, if_false, bySize, bind_assoc, pure_bind] <;> rfl
  · simp only [if_true]
    rw [← opToEa_eq]
    cases sz <;> simp only [executeSub, reduceCtorEq, if_true, if_false, bySize, bind_assoc, pure_bind] <;> rfl

/-- Rewrites the actions of the model into those of the specification. -/
macro "to_spec" "[" ls:Lean.Parser.Tactic.simpLemma,* "]" : tactic =>
  `(tactic| simp only [getByte_read, getWord_read, getLong_read, setByte_write, setWord_write, setLong_write, getD_eq, setD_eq,
    getA_eq, setA_eq, getSp_eq, setSp_eq, setDByte_eq, setDWord_eq, getSr_eq, modifySr_eq, getPc_eq, setPc_eq, mem_eq, alu_eq,
    throw_eq, panic_eq, sext16_eq, sext8_eq, map_eq_pure_bind, bind_assoc, pure_bind, trap_bind, crash_bind, cost,
    isDrd_eq, isRegOrImm_eq, size_isWord, size_isLong, decide_true, decide_false, if_true, if_false, decide_eq_true_eq,
    Bool.false_eq_true, reduceCtorEq, signExt_long, bySize, byPlace, ← low_byte, ← low_word, $ls,*])

/-- The end of an action on the state after reading registers. -/
theorem getR_modR {β : Type} (f : Registers → β) (g : β → Registers → Registers) :
    (getR f >>= fun a => modR (g a) : Exec M Unit) = modR fun r => g (f r) r := rfl
theorem getR_modR_bind {β γ : Type} (f : Registers → β) (g : β → Registers → Registers) (k : Unit → Exec M γ) :
    (getR f >>= fun a => modR (g a) >>= k : Exec M γ) = modR (fun r => g (f r) r) >>= k := rfl

theorem executeAdda_eq (C : CpuDetails) (n : Fin 8) (sz : Size) (hsz : sz ≠ .Byte) (m : Mode) :
    (executeAdda C (u8 n) sz m.toAM : Exec M Nat) =
      readExt sz m >>= fun v => cost (updateA n (· + v))
        (bySize sz C.ADDA_WORD (if isRegOrImm m then C.ADDA_LONG_RDIMM else C.ADDA_LONG) + readTime C sz m) := by
  cases sz
  · exact absurd rfl hsz
  · to_spec [executeAdda, readExt]; rfl
  · to_spec [executeAdda, readExt]; rfl

theorem executeSuba_eq (C : CpuDetails) (n : Fin 8) (sz : Size) (hsz : sz ≠ .Byte) (m : Mode) :
    (executeSuba C (u8 n) sz m.toAM : Exec M Nat) =
      readExt sz m >>= fun v => cost (updateA n (· - v))
        (bySize sz C.SUBA_WORD (if isRegOrImm m then C.SUBA_LONG_RDIMM else C.SUBA_LONG) + readTime C sz m) := by
  cases sz
  · exact absurd rfl hsz
  · to_spec [executeSuba, readExt]; rfl
  · to_spec [executeSuba, readExt]; rfl

omit [MemoryAccess M] in
theorem compare_eq {n : Nat} (hn : IsWidth n) {β : Type} (d s : BitVec n) (k : Exec M β) :
    (compute (fun sr => Alu.sub false true sr d s) >>= fun _ => k) = compareWith d s >>= fun _ => k := by
  ext st
  simp only [bind_apply, compute, compareWith, setFlags, modR, sub_eq_compare hn]

theorem executeCmpa_eq (C : CpuDetails) (n : Fin 8) (sz : Size) (hsz : sz ≠ .Byte) (m : Mode) :
    (executeCmpa C (u8 n) sz m.toAM : Exec M Nat) =
      readExt sz m >>= fun v => getR (areg · n) >>= fun a => cost (compareWith a v) (C.CMPA + readTime C sz m) := by
  cases sz
  · exact absurd rfl hsz
  · to_spec [executeCmpa, readExt, compare_eq (width_isWidth .Long)]
  · to_spec [executeCmpa, readExt, compare_eq (width_isWidth .Long)]

theorem executeCmp_eq (C : CpuDetails) (n : Fin 8) (sz : Size) (m : Mode) :
    (executeCmp C (u8 n) sz m.toAM : Exec M Nat) =
      Spec.read sz m >>= fun p => getR (fun r => low sz (r.d n)) >>= fun d =>
        cost (compareWith d p.2) (bySize sz C.CMP_BW C.CMP_L + readTime C sz m) := by
  cases sz
  · to_spec [executeCmp, compare_eq (width_isWidth .Byte)]; rfl
  · to_spec [executeCmp, compare_eq (width_isWidth .Word)]; rfl
  · to_spec [executeCmp, compare_eq (width_isWidth .Long), low_long]

theorem executeCmpi_eq (C : CpuDetails) (sz : Size) (m : Mode) (imm : U32) :
    (executeCmpi C sz m.toAM imm : Exec M Nat) =
      Spec.read sz m >>= fun p => cost (compareWith p.2 (low sz imm))
      (bySize sz (byPlace m C.CMPI_REG_BW C.CMPI_MEM_BW) (byPlace m C.CMPI_REG_L C.CMPI_MEM_L) + readTime C sz m) := by
  cases sz
  · to_spec [executeCmpi, compare_eq (width_isWidth .Byte)]
  · to_spec [executeCmpi, compare_eq (width_isWidth .Word)]
  · to_spec [executeCmpi, compare_eq (width_isWidth .Long), low_long]

theorem executeAddi_eq (C : CpuDetails) (sz : Size) (m : Mode) (imm : U32) :
    (executeAddi C sz m.toAM imm : Exec M Nat) =
      cost (rmw sz m (sum false · (low sz imm)))
        (bySize sz (byPlace m C.ADDI_REG_BW C.ADDI_MEM_BW) (byPlace m C.ADDI_REG_L C.ADDI_MEM_L) + rmwTime C sz m) := by
  rw [show (fun d => sum false d (low sz imm)) = fun d sr => Alu.add false sr d (low sz imm) from
    funext fun d => (sum_fun sz false d _).symm, ← rmw_eq, ← truncV_eq]
  simp only [bySize, byPlace, ← isDrd_eq]
  cases sz <;> rfl

theorem executeSubi_eq (C : CpuDetails) (sz : Size) (m : Mode) (imm : U32) :
    (executeSubi C sz m.toAM imm : Exec M Nat) =
      cost (rmw sz m (difference false · (low sz imm)))
        (bySize sz (byPlace m C.SUBI_REG_BW C.SUBI_MEM_BW) (byPlace m C.SUBI_REG_L C.SUBI_MEM_L) + rmwTime C sz m) := by
  rw [show (fun d => difference false d (low sz imm)) = fun d sr => Alu.sub false false sr d (low sz imm) from
    funext fun d => (difference_fun sz false d _).symm, ← rmw_eq, ← truncV_eq]
  simp only [bySize, byPlace, ← isDrd_eq]
  cases sz <;> rfl

theorem quick_eq (data : Fin 8) : (if u8 data = 0 then (8 : U8) else u8 data) = BitVec.ofNat 8 (quick data) := by
  revert data; decide

theorem executeAddq_eq (C : CpuDetails) (data : Fin 8) (sz : Size) (m : Mode) :
    (executeAddq C (u8 data) sz m.toAM : Exec M Nat) =
      cost (quickOp false data sz m)
      (bySize sz (if isReg m then C.ADDQ_REG_BW else C.ADDQ_MEM_BW)
        (if isReg m then C.ADDQ_REG_L else C.ADDQ_MEM_L) + rmwTime C sz m) := by
  have hq : quick data < 9 := by revert data; decide
  have hw : ∀ k, IsWidth k → 8 ≤ k → (BitVec.ofNat 8 (quick data)).setWidth k = BitVec.ofNat k (quick data) := by
    intro k hk h8
    apply BitVec.eq_of_toNat_eq
    rcases hk with rfl | rfl | rfl <;> simp <;> omega
  cases hm : m with
  | an n =>
    have ht : rmwTime C sz (.an n) = 0 := by cases sz <;> rfl
    rw [ht]
    unfold executeAddq
    simp only [Mode.toAM]
    to_spec [quick_eq, toU32, hw 32 (by simp [IsWidth]) (by omega), quickOp, updateA, isReg, getR_modR_bind, Nat.add_zero]
  | _ =>
    simp only [quickOp, Bool.false_eq_true, if_false]
    rw [show (fun d => sum false d (BitVec.ofNat (width sz) (quick data))) =
      fun d sr => Alu.add false sr d (BitVec.ofNat (width sz) (quick data)) from
      funext fun d => (sum_fun sz false d _).symm, ← rmw_eq]
    simp only [executeAddq, quick_eq, Mode.toAM, toU16, toU32, isReg, hw 16 (by simp [IsWidth]) (by omega),
      hw 32 (by simp [IsWidth]) (by omega)]
    cases sz <;> rfl

theorem executeSubq_eq (C : CpuDetails) (data : Fin 8) (sz : Size) (m : Mode) :
    (executeSubq C (u8 data) sz m.toAM : Exec M Nat) =
      cost (quickOp true data sz m)
      (bySize sz (if isReg m then (if isDn m then C.SUBQ_DREG_BW else C.SUBQ_AREG_BW) else C.SUBQ_MEM_BW)
        (if isReg m then C.SUBQ_REG_L else C.SUBQ_MEM_L) + rmwTime C sz m) := by
  have hq : quick data < 9 := by revert data; decide
  have hw : ∀ k, IsWidth k → 8 ≤ k → (BitVec.ofNat 8 (quick data)).setWidth k = BitVec.ofNat k (quick data) := by
    intro k hk h8
    apply BitVec.eq_of_toNat_eq
    rcases hk with rfl | rfl | rfl <;> simp <;> omega
  cases hm : m with
  | an n =>
    have ht : rmwTime C sz (.an n) = 0 := by cases sz <;> rfl
    rw [ht]
    unfold executeSubq
    simp only [Mode.toAM]
    to_spec [quick_eq, toU32, hw 32 (by simp [IsWidth]) (by omega), quickOp, updateA, isReg, isDn, getR_modR_bind, Nat.add_zero]
  | _ =>
    simp only [quickOp, Bool.false_eq_true, if_true]
    rw [show (fun d => difference false d (BitVec.ofNat (width sz) (quick data))) =
      fun d sr => Alu.sub false false sr d (BitVec.ofNat (width sz) (quick data)) from
      funext fun d => (difference_fun sz false d _).symm, ← rmw_eq]
    simp only [executeSubq, quick_eq, Mode.toAM, toU16, toU32, isReg, hw 16 (by simp [IsWidth]) (by omega),
      hw 32 (by simp [IsWidth]) (by omega)]
    cases sz <;> rfl

theorem executeNeg_eq (C : CpuDetails) (sz : Size) (m : Mode) :
    (executeNeg C sz m.toAM : Exec M Nat) =
      cost (rmw sz m fun d => difference false 0 d)
        (bySize sz (byPlace m C.NEG_REG_BW C.NEG_MEM_BW) (byPlace m C.NEG_REG_L C.NEG_MEM_L) + rmwTime C sz m) := by
  rw [show (fun d => difference false (0 : Val sz) d) = fun d sr => Alu.sub false false sr 0 d from
    funext fun d => (difference_fun sz false 0 d).symm, ← rmw_eq]
  simp only [bySize, byPlace, ← isDrd_eq]
  cases sz <;> rfl

theorem executeNegx_eq (C : CpuDetails) (sz : Size) (m : Mode) :
    (executeNegx C sz m.toAM : Exec M Nat) =
      cost (rmw sz m fun d => difference true 0 d)
        (bySize sz (byPlace m C.NEGX_REG_BW C.NEGX_MEM_BW) (byPlace m C.NEGX_REG_L C.NEGX_MEM_L) + rmwTime C sz m) := by
  rw [show (fun d => difference true (0 : Val sz) d) = fun d sr => Alu.sub true false sr 0 d from
    funext fun d => (difference_fun sz true 0 d).symm, ← rmw_eq]
  simp only [bySize, byPlace, ← isDrd_eq]
  cases sz <;> rfl

theorem executeCmpm_eq (C : CpuDetails) (x y : Fin 8) (sz : Size) :
    (executeCmpm C (u8 x) sz (u8 y) : Exec M Nat) = cost (cmpm sz x y) (bySize sz C.CMPM_BW C.CMPM_L) := by
  have hpo : ∀ n sz, (ariwpo (u8 n) sz : Exec M U32) =
      locate sz (.postinc n) >>= fun p => match p with | .mem a => pure a | _ => crash := by
    intro n sz; ext s
    simp only [ariwpo, getA_eq, setA_eq, stepOf_eq, bind_apply, getR, modR, locate, place, pure_apply]
  have hl : ∀ (k : Place → Exec M Nat) n sz, (locate sz (.postinc n) >>= fun p => (match p with | .mem a => pure a | _ => crash) >>= fun a => k (.mem a)) =
      locate sz (.postinc n) >>= k := by
    intro k n sz
    apply locate_congr
    rintro pl ⟨a, rfl⟩
    rfl
  have key : ∀ (k : U32 → U32 → Exec M Nat) (k' : Place → Place → Exec M Nat), (∀ a b, k a b = k' (.mem a) (.mem b)) →
      (ariwpo (u8 y) sz >>= fun a => ariwpo (u8 x) sz >>= fun b => k a b) =
        locate sz (.postinc y) >>= fun p => locate sz (.postinc x) >>= fun q => k' p q := by
    intro k k' h
    simp only [hpo, bind_assoc, h]
    refine Eq.trans ?_ (hl (fun p => locate sz (.postinc x) >>= fun q => k' p q) y sz)
    congr 1
  unfold executeCmpm
  rw [key _ (fun p q => readAt sz p >>= fun s => readAt sz q >>= fun d => compareWith d s >>= fun _ => pure (bySize sz C.CMPM_BW C.CMPM_L))]
  · simp only [cost, map_eq_pure_bind, bind_assoc, cmpm]
  · intro a b
    cases sz
    · to_spec [load_word_bind, load_long_bind, load_byte, compare_eq (width_isWidth .Byte), readAt]
    · to_spec [load_word_bind, load_long_bind, load_byte, compare_eq (width_isWidth .Word), readAt]
    · to_spec [load_word_bind, load_long_bind, load_byte, compare_eq (width_isWidth .Long), readAt]

/-- The direction operand of the register and memory forms of ADDX, SUBX, ABCD and SBCD. -/
def pairDir (inMemory : Bool) : Direction := if inMemory then .MemoryToMemory else .RegisterToRegister

theorem pairDir_mem (b : Bool) : (pairDir b = .MemoryToMemory) = (b = true) := by cases b <;> simp [pairDir]

theorem pair_cost (sz : Size) (b : Bool) (x y : Fin 8) (f : Val sz → Val sz → StatusRegister → Val sz × StatusRegister)
    (hf : ∀ d s sr, (f d s sr).2.s = sr.s) (tm tr : Nat) (e : Exec M (Val sz × Val sz)) (w : Exec M (Val sz) → Exec M Nat)
    (hr : e = if b then (ariwpr (u8 y) sz >>= fun sa => ariwpr (u8 x) sz >>= fun da => load sz sa >>= fun s =>
        load sz da >>= fun d => pure (s, d))
      else getD (u8 y) >>= fun s => getD (u8 x) >>= fun d => pure (truncV sz s, truncV sz d))
    (hw : ∀ p, w p = p >>= fun r => if b then getA (u8 x) >>= fun a => access (memSet sz a r) >>= fun _ => pure tm
      else setDV sz (u8 x) r >>= fun _ => pure tr) :
    (e >>= fun q => w (compute (f q.2 q.1))) = cost (pair sz b x y f) (if b then tm else tr) := by
  subst hr
  simp only [hw]
  cases b
  · rw [← pair_reg]
    simp only [Bool.false_eq_true, if_false, cost, map_eq_pure_bind, bind_assoc, pure_bind]
  · rw [← pair_mem sz x y f hf]
    simp only [if_true, cost, map_eq_pure_bind, bind_assoc, pure_bind]

theorem executeAddx_eq (C : CpuDetails) (x y : Fin 8) (sz : Size) (b : Bool) :
    (executeAddx C (u8 x) sz (pairDir b) (u8 y) : Exec M Nat) =
      cost (pair sz b x y (sum true))
        (if b then bySize sz C.ADDX_MEM_BW C.ADDX_MEM_L else bySize sz C.ADDX_REG_BW C.ADDX_REG_L) := by
  have hs : ∀ sz' (d s : Val sz') sr, (sum true d s sr).2.s = sr.s := fun _ _ _ _ => rfl
  cases sz
  · simp only [executeAddx, pairDir_mem, add_eq (width_isWidth .Byte), alu_eq]
    refine pair_cost .Byte b x y (sum true) (hs _) C.ADDX_MEM_BW C.ADDX_REG_BW _ (fun p => p >>= _) ?_ (fun p => rfl)
    simp only [predecPairByte, mem_eq, load_byte]; rfl
  · simp only [executeAddx, pairDir_mem, add_eq (width_isWidth .Word), alu_eq]
    refine pair_cost .Word b x y (sum true) (hs _) C.ADDX_MEM_BW C.ADDX_REG_BW _ (fun p => p >>= _) ?_ (fun p => rfl)
    simp only [predecPairWord, mem_eq, load_word_bind]; rfl
  · simp only [executeAddx, pairDir_mem, add_eq (width_isWidth .Long), alu_eq]
    refine pair_cost .Long b x y (sum true) (hs _) C.ADDX_MEM_L C.ADDX_REG_L _ (fun p => p >>= _) ?_ (fun p => rfl)
    simp only [predecPairLong, mem_eq, load_long_bind]; rfl

theorem executeSubx_eq (C : CpuDetails) (x y : Fin 8) (sz : Size) (b : Bool) :
    (executeSubx C (u8 x) sz (pairDir b) (u8 y) : Exec M Nat) =
      cost (pair sz b x y (difference true))
        (if b then bySize sz C.SUBX_MEM_BW C.SUBX_MEM_L else bySize sz C.SUBX_REG_BW C.SUBX_REG_L) := by
  have hs : ∀ sz' (d s : Val sz') sr, (difference true d s sr).2.s = sr.s := fun _ _ _ _ => rfl
  cases sz
  · simp only [executeSubx, pairDir_mem, sub_eq_difference (width_isWidth .Byte), alu_eq]
    refine pair_cost .Byte b x y (difference true) (hs _) C.SUBX_MEM_BW C.SUBX_REG_BW _ (fun p => p >>= _) ?_ (fun p => rfl)
    simp only [predecPairByte, mem_eq, load_byte]; rfl
  · simp only [executeSubx, pairDir_mem, sub_eq_difference (width_isWidth .Word), alu_eq]
    refine pair_cost .Word b x y (difference true) (hs _) C.SUBX_MEM_BW C.SUBX_REG_BW _ (fun p => p >>= _) ?_ (fun p => rfl)
    simp only [predecPairWord, mem_eq, load_word_bind]; rfl
  · simp only [executeSubx, pairDir_mem, sub_eq_difference (width_isWidth .Long), alu_eq]
    refine pair_cost .Long b x y (difference true) (hs _) C.SUBX_MEM_L C.SUBX_REG_L _ (fun p => p >>= _) ?_ (fun p => rfl)
    simp only [predecPairLong, mem_eq, load_long_bind]; rfl

theorem decimalSum_s (d s : U8) (sr : StatusRegister) : (decimalSum d s sr).2.s = sr.s := by
  rw [← abcd_eq]; rfl
theorem decimalDifference_s (d s : U8) (sr : StatusRegister) : (decimalDifference d s sr).2.s = sr.s := by
  rw [← sbcd_eq]; rfl

theorem executeAbcd_eq (C : CpuDetails) (x y : Fin 8) (b : Bool) :
    (executeAbcd C (u8 x) (pairDir b) (u8 y) : Exec M Nat) =
      cost (pair .Byte b x y decimalSum) (if b then C.ABCD_MEM else C.ABCD_REG) := by
  simp only [executeAbcd, pairDir_mem, abcd_eq, alu_eq]
  refine pair_cost .Byte b x y decimalSum decimalSum_s C.ABCD_MEM C.ABCD_REG _ (fun p => p >>= _) ?_ (fun p => rfl)
  simp only [predecPairByte, mem_eq, load_byte]; rfl

theorem executeSbcd_eq (C : CpuDetails) (x y : Fin 8) (b : Bool) :
    (executeSbcd C (u8 x) (pairDir b) (u8 y) : Exec M Nat) =
      cost (pair .Byte b x y decimalDifference) (if b then C.SBCD_MEM else C.SBCD_REG) := by
  simp only [executeSbcd, pairDir_mem, sbcd_eq, alu_eq]
  refine pair_cost .Byte b x y decimalDifference decimalDifference_s C.SBCD_MEM C.SBCD_REG _ (fun p => p >>= _) ?_ (fun p => rfl)
  simp only [predecPairByte, mem_eq, load_byte]; rfl

theorem rmwTime_byte (C : CpuDetails) (m : Mode) : rmwTime C .Byte m = eaTime C m := by
  cases m <;> rfl
theorem rmwTime_word (C : CpuDetails) (m : Mode) : rmwTime C .Word m = eaTime C m := by
  cases m <;> rfl
theorem readTime_byte (C : CpuDetails) (m : Mode) : readTime C .Byte m = eaTime C m := by
  cases m <;> rfl
theorem readTime_word (C : CpuDetails) (m : Mode) : readTime C .Word m = eaTime C m := by
  cases m <;> rfl
theorem writeTime_byte (C : CpuDetails) (m : Mode) : writeTime C .Byte m = eaTime C m := by
  cases m <;> rfl
theorem writeTime_word (C : CpuDetails) (m : Mode) : writeTime C .Word m = eaTime C m := by
  cases m <;> rfl

theorem executeNbcd_eq (C : CpuDetails) (m : Mode) :
    (executeNbcd C m.toAM : Exec M Nat) =
      cost (rmw .Byte m fun d => decimalDifference 0 d) (byPlace m C.NBCD_REG C.NBCD_MEM + eaTime C m) := by
  rw [show (fun d : Val .Byte => decimalDifference 0 d) = fun d sr => Alu.sbcd sr 0 d from
    funext fun d => funext fun sr => (sbcd_eq sr 0 d).symm, ← rmwTime_byte, ← rmw_eq]
  simp only [byPlace, ← isDrd_eq]
  rfl

omit [MemoryAccess M] in
theorem setFlags_congr {f g : StatusRegister → StatusRegister} (h : ∀ sr, f sr = g sr) : (setFlags f : Exec M Unit) = setFlags g := by
  rw [show f = g from funext h]

theorem muls_val (a b : U16) : sext16 a * sext16 b = BitVec.ofInt 32 (b.toInt * a.toInt) := by
  rw [sext16_eq, sext16_eq, signExt, signExt, ← BitVec.ofInt_mul, Int.mul_comm]
theorem mulu_val (a b : U16) : toU32 a * toU32 b = BitVec.ofNat 32 (b.toNat * a.toNat) := by
  apply BitVec.eq_of_toNat_eq
  rw [BitVec.toNat_mul, BitVec.toNat_ofNat, Nat.mul_comm b.toNat]
  have h1 := a.isLt
  have h2 := b.isLt
  simp [toU32]

theorem executeMuls_eq (C : CpuDetails) (n : Fin 8) (m : Mode) :
    (executeMuls C (u8 n) m.toAM : Exec M Nat) = cost (mul true n m) (C.MULS + eaTime C m) := by
  simp only [executeMuls, muls_val, neg_slt, beq_zero]
  to_spec [mul, ← readTime_word]
  rfl

theorem executeMulu_eq (C : CpuDetails) (n : Fin 8) (m : Mode) :
    (executeMulu C (u8 n) m.toAM : Exec M Nat) = cost (mul false n m) (C.MULU + eaTime C m) := by
  have h : SIGN_BIT_32 = signBitMask 32 := rfl
  simp only [executeMulu, mulu_val, h, signBit_neg (n := 32) (by simp [IsWidth]), beq_zero]
  to_spec [mul, ← readTime_word]
  rfl

theorem pack_eq (r q : U32) (hr : r.toNat < 65536) (hq : q.toNat < 65536) :
    r <<< 16 ||| (q &&& 0x0000FFFF) = packWords r.toNat q.toNat := by
  have h1 : q &&& 0x0000FFFF = q := by
    apply BitVec.eq_of_toNat_eq
    rw [BitVec.toNat_and]
    rw [show (0x0000FFFF : U32).toNat = 2 ^ 16 - 1 from rfl, Nat.and_two_pow_sub_one_eq_mod]
    omega
  rw [h1]
  apply BitVec.eq_of_toNat_eq
  rw [BitVec.toNat_or, BitVec.toNat_shiftLeft, Nat.shiftLeft_eq, Nat.mod_eq_of_lt (by omega), Nat.mul_comm,
    ← Nat.two_pow_add_eq_or_of_lt (by omega)]
  simp only [packWords, BitVec.toNat_ofInt]
  omega

theorem executeDivu_eq (C : CpuDetails) (n : Fin 8) (m : Mode) :
    (executeDivu C (u8 n) m.toAM : Exec M Nat) = cost (divu n m) (C.DIVU + eaTime C m) := by
  rw [← readTime_word]
  unfold executeDivu divu
  to_spec []
  simp only [low_word]
  congr 1; funext _
  congr 1; funext p
  obtain ⟨pl, s⟩ := p
  have hlt : s.toNat < 65536 := s.isLt
  have hor := toInt_or (n := 16) s
  ext st
  have hs : (toU32 s = 0) ↔ s.toNat = 0 := by
    rw [← BitVec.toNat_inj]; simp [toU32]; omega
  simp only [hs]
  by_cases h0 : s.toNat = 0
  · simp only [h0, if_true, bind_apply, setFlags, modR, trap]
  · simp only [h0, if_false, bind_apply, getR, setFlags, modR]
    have hsn : (toU32 s).toNat = s.toNat := by simp [toU32]; omega
    have hq : (st.cpu.regs.d n / toU32 s).toNat = (st.cpu.regs.d n).toNat / s.toNat := by rw [BitVec.toNat_udiv, hsn]
    have hr : (st.cpu.regs.d n % toU32 s).toNat = (st.cpu.regs.d n).toNat % s.toNat := by rw [BitVec.toNat_umod, hsn]
    have hrl : (st.cpu.regs.d n).toNat % s.toNat < 65536 := by
      have := Nat.mod_lt (st.cpu.regs.d n).toNat (Nat.pos_of_ne_zero h0)
      omega
    generalize st.cpu.regs.d n / toU32 s = q at *
    generalize st.cpu.regs.d n % toU32 s = r at *
    rw [← hr] at hrl
    rw [← hq, ← hr]
    by_cases hv : q.toNat < 65536
    · have : ¬ (q > 0xFFFF) := by rw [GT.gt, BitVec.lt_def]; simp; omega
      have hn : neg (toU16 q) = decide (32768 ≤ q.toNat) := by
        rw [neg_iff, decide_eq_decide]; simp [toU16]; omega
      have hz : zero (toU16 q) = decide (q.toNat = 0) := by
        unfold zero; rw [decide_eq_decide]; simp [toU16]; omega
      simp only [this, hv, decide_false, Bool.not_false, if_true, bind_apply, modR, pure_apply, pack_eq r q hrl hv,
        neg_slt, beq_zero, hn, hz, setDreg]
    · have : q > 0xFFFF := by rw [GT.gt, BitVec.lt_def]; simp; omega
      have hz : zero q = false := by unfold zero; simp; omega
      simp only [this, hv, decide_true, Bool.not_true, if_false, Bool.false_eq_true, bind_apply, modR, pure_apply, beq_zero, hz]

theorem packs_eq (r q : U32) : toU32 (toU16 r) <<< 16 ||| toU32 (toU16 q) = packWords r.toInt q.toInt := by
  apply BitVec.eq_of_toNat_eq
  have hr : (toU32 (toU16 r)).toNat = r.toNat % 65536 := by simp [toU32, toU16]; omega
  have hq : (toU32 (toU16 q)).toNat = q.toNat % 65536 := by simp [toU32, toU16]; omega
  have h1 := toInt_or r
  have h2 := toInt_or q
  rw [BitVec.toNat_or, BitVec.toNat_shiftLeft, Nat.shiftLeft_eq, hr, hq, Nat.mod_eq_of_lt (by omega), Nat.mul_comm,
    ← Nat.two_pow_add_eq_or_of_lt (by omega)]
  simp only [packWords, BitVec.toNat_ofInt]
  have e1 : r.toInt % 65536 = (r.toNat % 65536 : Nat) := by omega
  have e2 : q.toInt % 65536 = (q.toNat % 65536 : Nat) := by omega
  rw [e1, e2]
  omega

theorem packWords_congr {a b c d : Int} (h1 : a % 65536 = c % 65536) (h2 : b % 65536 = d % 65536) : packWords a b = packWords c d := by
  unfold packWords; rw [h1, h2]

theorem toU16_ofInt (q : U32) (z : Int) (h : q.toInt % 65536 = z % 65536) : toU16 q = BitVec.ofInt 16 z := by
  apply BitVec.eq_of_toNat_eq
  have h2 := toInt_or q
  simp only [toU16, BitVec.toNat_ofInt, BitVec.toNat_setWidth]
  omega

theorem executeDivs_eq (C : CpuDetails) (n : Fin 8) (m : Mode) :
    (executeDivs C (u8 n) m.toAM : Exec M Nat) = cost (divs n m) (C.DIVS + eaTime C m) := by
  rw [← readTime_word]
  unfold executeDivs divs
  to_spec []
  simp only [low_word]
  congr 1; funext _
  congr 1; funext p
  obtain ⟨pl, s⟩ := p
  have hlt : s.toNat < 65536 := s.isLt
  have hor := toInt_or (n := 16) s
  ext st
  have hsi : (signExt s).toInt = s.toInt := by
    unfold signExt
    rw [BitVec.toInt_ofInt]
    simp only [Nat.reducePow, Int.bmod] at *
    split <;> omega
  have hs : (signExt s = 0) ↔ s.toInt = 0 := by
    rw [← BitVec.toInt_inj, hsi]; simp
  simp only [hs]
  by_cases h0 : s.toInt = 0
  · simp only [h0, if_true, bind_apply, setFlags, modR, trap]
  · simp only [h0, if_false, bind_apply, getR, setFlags, modR]
    have hr : ((st.cpu.regs.d n).srem (signExt s)).toInt = (st.cpu.regs.d n).toInt.tmod s.toInt := by
      rw [BitVec.toInt_srem, hsi]
    have hq : ((st.cpu.regs.d n).sdiv (signExt s)).toInt = ((st.cpu.regs.d n).toInt.tdiv s.toInt).bmod (2 ^ 32) := by
      rw [BitVec.toInt_sdiv, hsi]
    generalize (st.cpu.regs.d n).sdiv (signExt s) = q at *
    generalize (st.cpu.regs.d n).srem (signExt s) = r at *
    rw [← hr]
    have hb : (st.cpu.regs.d n).toInt.tdiv s.toInt ≤ 2147483648 ∧ -2147483648 ≤ (st.cpu.regs.d n).toInt.tdiv s.toInt := by
      have h1 := Int.natAbs_tdiv_le_natAbs (st.cpu.regs.d n).toInt s.toInt
      have h2 := toInt_or (st.cpu.regs.d n)
      have := (st.cpu.regs.d n).isLt
      omega
    generalize (st.cpu.regs.d n).toInt.tdiv s.toInt = z at *
    have hz : q.toInt % 65536 = z % 65536 := by
      rw [hq]; simp only [Int.bmod]; split <;> omega
    have hv : (q.sle (-0x8000) || (0x7FFF : U32).slt q) = !decide (-32768 < z ∧ z < 32768) := by
      have e : (q.sle (-0x8000) || (0x7FFF : U32).slt q) = decide (q.toInt ≤ -32768 ∨ 32767 < q.toInt) := by
        simp [BitVec.sle, BitVec.slt]
      rw [e, ← decide_not, decide_eq_decide, hq]
      simp only [Int.bmod]
      split <;> omega
    rw [hv, toU16_ofInt q z hz, Bool.not_not]
    have hp : packWords r.toInt z = toU32 (toU16 r) <<< 16 ||| toU32 (BitVec.ofInt 16 z) := by
      rw [← toU16_ofInt q z hz, packs_eq]
      exact packWords_congr rfl hz.symm
    rw [hp]
    by_cases hf : -32768 < z ∧ z < 32768
    · simp only [hf, and_self, decide_true, if_true, bind_apply, modR, pure_apply, neg_slt, beq_zero, setDreg]
    · simp only [hf, decide_false, if_false, Bool.false_eq_true, bind_apply, modR, pure_apply, neg_slt, beq_zero, setDreg]

end Exec
end M68k
