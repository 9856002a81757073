import Verif.Lemmas.InstrLogic
import Verif.Lemmas.Shift
/-
The shift and rotate instructions of the model are those of the specification.
-/
set_option linter.unusedSimpArgs false
namespace M68k
open Spec
namespace Exec
variable {M : Type} [MemoryAccess M]

theorem shiftCount_eq (rot : Fin 8) (ir : Bool) {β : Type} (k : Nat → Exec M β) :
    (shiftCount (u8 rot) ir >>= fun c => k c.toNat) = Spec.shiftCount ir rot >>= k := by
  cases ir
  · have : ∀ rot : Fin 8, (if u8 rot = 0 then (8 : U8) else u8 rot).toNat = quick rot := by decide
    simp only [shiftCount, Spec.shiftCount, Bool.false_eq_true, if_false, pure_bind]
    rw [← this rot]
    split <;> rfl
  · simp only [shiftCount, Spec.shiftCount, if_true, getD_eq, bind_assoc, pure_bind]
    ext s
    simp only [bind_apply, getR]
    congr 1
    simp [toU8, BitVec.toNat_umod]
    omega

/-- The mask of the sign bit of an operand of the given size. -/
def sizeMask : Size → U32
  | .Byte => toU32 SIGN_BIT_8
  | .Word => toU32 SIGN_BIT_16
  | .Long => SIGN_BIT_32
theorem sizeMask_eq (sz : Size) : sizeMask sz = msk (width sz) := by cases sz <;> rfl
/-- The operand of a register shift. -/
def sizeData : Size → U32 → U32
  | .Byte, d => d &&& 0x000000FF
  | .Word, d => d &&& 0x0000FFFF
  | .Long, d => d
theorem sizeData_toNat (sz : Size) (d : U32) : (sizeData sz d).toNat = (low sz d).toNat := by
  cases sz
  · simp only [sizeData, BitVec.toNat_and, low, BitVec.toNat_ofNat]
    exact Nat.and_two_pow_sub_one_eq_mod _ 8
  · simp only [sizeData, BitVec.toNat_and, low, BitVec.toNat_ofNat]
    exact Nat.and_two_pow_sub_one_eq_mod _ 16
  · simp only [sizeData, low_long]

theorem shiftOperand_eq (sz : Size) (n : Fin 8) :
    (shiftOperand sz (u8 n) : Exec M _) = getR (·.d n) >>= fun d => pure (sizeData sz d, sizeMask sz) := by
  cases sz <;> simp only [shiftOperand, getD_eq, sizeData, sizeMask]

theorem sizeData_zero (sz : Size) (d : U32) : (sizeData sz d == 0) = zero (low sz d) := by
  rw [beq_zero, zero, zero, sizeData_toNat]

theorem and_sizeMask (sz : Size) (d : U32) : ((d &&& sizeMask sz) != 0) = neg (low sz d) := by
  rw [sizeMask_eq, bne_twoPow _ _ (by cases sz <;> decide), neg_iff, decide_eq_decide]
  have := d.isLt
  cases sz <;> simp only [low, BitVec.toNat_ofNat, width] <;> lomega

theorem shiftFinish_eq (bw l cnt : Nat) (sz : Size) (n : Fin 8) (data : U32) (count : U8) :
    (shiftFinish bw l cnt sz (u8 n) data (sizeMask sz) count : Exec M Nat) =
      modR (fun r => setDreg { r with sr := { r.sr with n := neg (low sz data), z := zero (low sz data) } } n (insertLow sz (r.d n) (low sz data)))
        >>= fun _ => pure (bySize sz bw l + cnt * count.toNat) := by
  unfold shiftFinish
  rw [and_sizeMask, ← sizeData_zero]
  cases sz
  · simp only [setDByte_eq, low_byte]; rfl
  · simp only [setDWord_eq, low_word]; rfl
  · simp only [setD_eq, low_long, insertLow_long]; rfl

/-- The register shifts from the result of their loop. -/
theorem shift_generic (pre : StatusRegister → StatusRegister) (step : U32 → U32 → U32 × StatusRegister → U32 × StatusRegister)
    (f : {n : Nat} → Nat → BitVec n → StatusRegister → BitVec n × StatusRegister) (sz : Size)
    (H : ∀ (k : Nat) (v : Val sz) (data : U32) (sr : StatusRegister), data.toNat = v.toNat →
      low sz (Alu.repeatN (step (msk (width sz)) data) k (data, pre sr)).1 = (f k v sr).1 ∧
      { (Alu.repeatN (step (msk (width sz)) data) k (data, pre sr)).2 with n := neg (f k v sr).1, z := zero (f k v sr).1 } = (f k v sr).2)
    (bw l cnt : Nat) (ir : Bool) (rot n : Fin 8) :
    (setFlags pre >>= fun _ => shiftCount (u8 rot) ir >>= fun count => shiftOperand sz (u8 n) >>= fun q =>
      shiftLoop (step q.2 q.1) count q.1 >>= fun data => shiftFinish bw l cnt sz (u8 n) data q.2 count : Exec M Nat) =
    (fun k => bySize sz bw l + cnt * k) <$> shift f sz ir rot n := by
  simp only [shiftOperand_eq, shiftFinish_eq, bind_assoc, pure_bind, shiftLoop, alu_eq, map_eq_pure_bind, Spec.shift, rmw_dn]
  rw [shiftCount_eq rot ir (fun k => getR (·.d n) >>= fun d =>
    compute (fun sr => Alu.repeatN (step (sizeMask sz) (sizeData sz d)) k (sizeData sz d, sr)) >>= fun data =>
    modR (fun r => setDreg { r with sr := { r.sr with n := neg (low sz data), z := zero (low sz data) } } n (insertLow sz (r.d n) (low sz data)))
        >>= fun _ => pure (bySize sz bw l + cnt * k))]
  ext s
  have hk : ∃ g : Registers → Nat, (Spec.shiftCount ir rot : Exec M Nat) = getR g ∧ ∀ r sr, g { r with sr := sr } = g r := by
    cases ir
    · exact ⟨fun _ => quick rot, rfl, fun _ _ => rfl⟩
    · exact ⟨fun r => (r.d rot).toNat % 64, rfl, fun _ _ => rfl⟩
  obtain ⟨g, hg, hi⟩ := hk
  simp only [hg, bind_apply, getR, setFlags, modR, compute, hi, pure_apply, sizeMask_eq]
  obtain ⟨h1, h2⟩ := H (g s.cpu.regs) (low sz (s.cpu.regs.d n)) (sizeData sz (s.cpu.regs.d n)) s.cpu.regs.sr (sizeData_toNat sz _)
  rw [← h2, ← h1]

theorem low_mod (sz : Size) (x : U32) (y : Nat) (h : x.toNat % 2 ^ width sz = y % 2 ^ width sz) : low sz x = BitVec.ofNat (width sz) y := by
  apply BitVec.eq_of_toNat_eq
  simpa [low] using h

theorem mod32 (sz : Size) (y : Nat) : y % 2 ^ 32 % 2 ^ width sz = y % 2 ^ width sz := by
  cases sz <;> simp only [width] <;> lomega

theorem lsl_H (sz : Size) (k : Nat) (v : Val sz) (data : U32) (sr : StatusRegister) (h : data.toNat = v.toNat) :
    low sz (Alu.repeatN (Alu.lslStep (msk (width sz))) k (data, { sr with v := false, c := false })).1 = (lsl k v sr).1 ∧
    { (Alu.repeatN (Alu.lslStep (msk (width sz))) k (data, { sr with v := false, c := false })).2 with
      n := neg (lsl k v sr).1, z := zero (lsl k v sr).1 } = (lsl k v sr).2 := by
  obtain ⟨h1, h2⟩ := lsl_loop (width_isWidth sz) data { sr with v := false, c := false } k
  refine ⟨low_mod sz _ _ ?_, ?_⟩
  · rw [h1, h, mod32]
  · rw [h2, h]; rfl

theorem asl_H (sz : Size) (k : Nat) (v : Val sz) (data : U32) (sr : StatusRegister) (h : data.toNat = v.toNat) :
    low sz (Alu.repeatN (Alu.aslStep (msk (width sz))) k (data, { sr with v := false, c := false })).1 = (asl k v sr).1 ∧
    { (Alu.repeatN (Alu.aslStep (msk (width sz))) k (data, { sr with v := false, c := false })).2 with
      n := neg (asl k v sr).1, z := zero (asl k v sr).1 } = (asl k v sr).2 := by
  obtain ⟨h1, h2⟩ := asl_loop (width_isWidth sz) v data h { sr with v := false, c := false } rfl k
  refine ⟨low_mod sz _ _ ?_, ?_⟩
  · rw [h1, mod32]
  · rw [h2]; rfl

theorem lsr_H (sz : Size) (k : Nat) (v : Val sz) (data : U32) (sr : StatusRegister) (h : data.toNat = v.toNat) :
    low sz (Alu.repeatN Alu.lsrStep k (data, { sr with v := false, c := false })).1 = (lsr k v sr).1 ∧
    { (Alu.repeatN Alu.lsrStep k (data, { sr with v := false, c := false })).2 with
      n := neg (lsr k v sr).1, z := zero (lsr k v sr).1 } = (lsr k v sr).2 := by
  obtain ⟨h1, h2⟩ := lsr_loop data { sr with v := false, c := false } k
  refine ⟨low_mod sz _ _ ?_, ?_⟩
  · rw [h1, h]
  · rw [h2, h]; rfl

theorem asr_H (sz : Size) (k : Nat) (v : Val sz) (data : U32) (sr : StatusRegister) (h : data.toNat = v.toNat) :
    low sz (Alu.repeatN (Alu.asrStep (data &&& msk (width sz))) k (data, { sr with v := false, c := false })).1 = (asr k v sr).1 ∧
    { (Alu.repeatN (Alu.asrStep (data &&& msk (width sz))) k (data, { sr with v := false, c := false })).2 with
      n := neg (asr k v sr).1, z := zero (asr k v sr).1 } = (asr k v sr).2 := by
  obtain ⟨⟨w, h0, h1⟩, h2⟩ := asr_loop (width_isWidth sz) v data h { sr with v := false, c := false } k
  refine ⟨?_, ?_⟩
  · rw [low_mod sz _ w.toNat (by rw [h0])]
    simp only [asr]
    rw [← h1, BitVec.ofInt_toInt, BitVec.ofNat_toNat, BitVec.setWidth_eq]
  · rw [h2]; rfl

theorem rotl_lt (N W j : Nat) : rotl N W j < 2 ^ N := Nat.mod_lt _ (Nat.two_pow_pos _)
theorem rotr_lt (N W j : Nat) : rotr N W j < 2 ^ N := Nat.mod_lt _ (Nat.two_pow_pos _)

theorem rol_H (sz : Size) (k : Nat) (v : Val sz) (data : U32) (sr : StatusRegister) (h : data.toNat = v.toNat) :
    low sz (Alu.repeatN (Alu.rolStep (msk (width sz))) k (data, { sr with v := false, c := false })).1 = (rol k v sr).1 ∧
    { (Alu.repeatN (Alu.rolStep (msk (width sz))) k (data, { sr with v := false, c := false })).2 with
      n := neg (rol k v sr).1, z := zero (rol k v sr).1 } = (rol k v sr).2 := by
  obtain ⟨h1, h2⟩ := rol_loop (width_isWidth sz) v data h { sr with v := false, c := false } k
  have hr : (rol k v sr).1.toNat = rotl (width sz) v.toNat (k % width sz) := by
    simp only [rol, BitVec.toNat_ofNat, rotl]
  refine ⟨low_mod sz _ _ ?_, ?_⟩
  · rw [h1]; rfl
  · rw [h2, ← hr]
    simp only [rol]
    congr 1
    by_cases hk : k = 0 <;> simp [hk]

theorem ror_H (sz : Size) (k : Nat) (v : Val sz) (data : U32) (sr : StatusRegister) (h : data.toNat = v.toNat) :
    low sz (Alu.repeatN (Alu.rorStep (msk (width sz))) k (data, { sr with v := false, c := false })).1 = (ror k v sr).1 ∧
    { (Alu.repeatN (Alu.rorStep (msk (width sz))) k (data, { sr with v := false, c := false })).2 with
      n := neg (ror k v sr).1, z := zero (ror k v sr).1 } = (ror k v sr).2 := by
  obtain ⟨h1, h2⟩ := ror_loop (width_isWidth sz) v data h { sr with v := false, c := false } k
  have hr : (ror k v sr).1.toNat = rotr (width sz) v.toNat (k % width sz) := by
    simp only [ror, BitVec.toNat_ofNat, rotr]
  refine ⟨low_mod sz _ _ ?_, ?_⟩
  · rw [h1, Nat.mod_eq_of_lt (rotr_lt _ _ _)]; rfl
  · rw [h2, ← hr, ← neg_iff]
    simp only [ror]
    congr 1
    by_cases hk : k = 0 <;> simp [hk]

theorem rox_mod (n w : Nat) : w % 2 ^ (n + 1) % 2 ^ n = w % 2 ^ n :=
  Nat.mod_mod_of_dvd _ (Nat.pow_dvd_pow 2 (Nat.le_succ n))
theorem rox_div (n w : Nat) : w % 2 ^ (n + 1) / 2 ^ n % 2 = w / 2 ^ n % 2 := by
  rw [Nat.pow_succ, Nat.mod_mul_right_div_self, Nat.mod_mod]

theorem withX_x {n : Nat} (v : BitVec n) (sr : StatusRegister) : decide (withX v sr / 2 ^ n % 2 = 1) = sr.x := by
  unfold withX
  have := v.isLt
  cases sr.x
  · simp [Nat.div_eq_of_lt this]
  · simp [Nat.add_div_left _ (Nat.two_pow_pos n), Nat.div_eq_of_lt this]

theorem roxl_H (sz : Size) (k : Nat) (v : Val sz) (data : U32) (sr : StatusRegister) (h : data.toNat = v.toNat) :
    low sz (Alu.repeatN (Alu.roxlStep (msk (width sz))) k (data, { sr with v := false, c := sr.x })).1 = (roxl k v sr).1 ∧
    { (Alu.repeatN (Alu.roxlStep (msk (width sz))) k (data, { sr with v := false, c := sr.x })).2 with
      n := neg (roxl k v sr).1, z := zero (roxl k v sr).1 } = (roxl k v sr).2 := by
  obtain ⟨h1, h2⟩ := roxl_loop (width_isWidth sz) v data h { sr with v := false, c := sr.x } k
  rw [show withX v { sr with v := false, c := sr.x } = withX v sr from rfl] at h1 h2
  refine ⟨low_mod sz _ _ ?_, ?_⟩
  · rw [h1, rotl, rox_mod]
  · rw [h2, rotl, rox_div]
    simp only [roxl, roxResult]
    congr 1
    by_cases hk : k = 0
    · subst hk
      have hW : withX v sr < 2 ^ (width sz + 1) := by
        have := v.isLt
        unfold withX; rw [Nat.pow_succ]; split <;> omega
      have := withX_x v sr
      simp [Nat.div_eq_of_lt hW] at this ⊢
      exact this.symm
    · simp [hk]

theorem roxr_H (sz : Size) (k : Nat) (v : Val sz) (data : U32) (sr : StatusRegister) (h : data.toNat = v.toNat) :
    low sz (Alu.repeatN (Alu.roxrStep (msk (width sz))) k (data, { sr with v := false, c := sr.x })).1 = (roxr k v sr).1 ∧
    { (Alu.repeatN (Alu.roxrStep (msk (width sz))) k (data, { sr with v := false, c := sr.x })).2 with
      n := neg (roxr k v sr).1, z := zero (roxr k v sr).1 } = (roxr k v sr).2 := by
  obtain ⟨h1, h2⟩ := roxr_loop (width_isWidth sz) v data h { sr with v := false, c := sr.x } k
  rw [show withX v { sr with v := false, c := sr.x } = withX v sr from rfl] at h1 h2
  refine ⟨low_mod sz _ _ ?_, ?_⟩
  · rw [h1, rotr, rox_mod, Nat.mod_mod]
  · rw [h2, rotr, rox_div]
    simp only [roxr, roxResult]
    congr 1
    by_cases hk : k = 0
    · subst hk
      have := withX_x v sr
      have e : (withX v sr / 2 ^ 0 + withX v sr * 2 ^ (width sz + 1 - 0)) / 2 ^ width sz % 2 = withX v sr / 2 ^ width sz % 2 := by
        rw [Nat.pow_zero, Nat.div_one, Nat.sub_zero, Nat.pow_succ, ← Nat.mul_assoc, Nat.mul_comm _ 2, ← Nat.mul_assoc,
          Nat.mul_comm _ (2 ^ width sz), Nat.add_mul_div_left _ _ (Nat.two_pow_pos _)]
        omega
      rw [Nat.zero_mod, e, this]; rfl
    · simp [hk]

/-- The direction operand of the shifts. -/
def shiftDir (left : Bool) : Direction := if left then .Left else .Right

theorem executeAsr_eq (C : CpuDetails) (rot n : Fin 8) (left : Bool) (sz : Size) (ir : Bool) :
    (executeAsr C (u8 rot) (shiftDir left) sz ir (u8 n) : Exec M Nat) =
      (fun k => bySize sz C.ASR_BW C.ASR_L + C.ASR_COUNT * k) <$>
        (if left then shift asl sz ir rot n else shift asr sz ir rot n) := by
  cases left
  · simp only [Bool.false_eq_true, if_false]
    rw [← shift_generic (fun sr => { sr with v := false, c := false }) (fun m d => Alu.asrStep (d &&& m)) asr sz (asr_H sz)]
    rfl
  · simp only [if_true]
    rw [← shift_generic (fun sr => { sr with v := false, c := false }) (fun m _ => Alu.aslStep m) asl sz (asl_H sz)]
    rfl

theorem executeLsr_eq (C : CpuDetails) (rot n : Fin 8) (left : Bool) (sz : Size) (ir : Bool) :
    (executeLsr C (u8 rot) (shiftDir left) sz ir (u8 n) : Exec M Nat) =
      (fun k => bySize sz C.LSR_BW C.LSR_L + C.LSR_COUNT * k) <$>
        (if left then shift lsl sz ir rot n else shift lsr sz ir rot n) := by
  cases left
  · simp only [Bool.false_eq_true, if_false]
    rw [← shift_generic (fun sr => { sr with v := false, c := false }) (fun _ _ => Alu.lsrStep) lsr sz (lsr_H sz)]
    rfl
  · simp only [if_true]
    rw [← shift_generic (fun sr => { sr with v := false, c := false }) (fun m _ => Alu.lslStep m) lsl sz (lsl_H sz)]
    rfl

theorem executeRor_eq (C : CpuDetails) (rot n : Fin 8) (left : Bool) (sz : Size) (ir : Bool) :
    (executeRor C (u8 rot) (shiftDir left) sz ir (u8 n) : Exec M Nat) =
      (fun k => bySize sz C.ROR_BW C.ROR_L + C.ROR_COUNT * k) <$>
        (if left then shift rol sz ir rot n else shift ror sz ir rot n) := by
  cases left
  · simp only [Bool.false_eq_true, if_false]
    rw [← shift_generic (fun sr => { sr with v := false, c := false }) (fun m _ => Alu.rorStep m) ror sz (ror_H sz)]
    rfl
  · simp only [if_true]
    rw [← shift_generic (fun sr => { sr with v := false, c := false }) (fun m _ => Alu.rolStep m) rol sz (rol_H sz)]
    rfl

theorem executeRoxr_eq (C : CpuDetails) (rot n : Fin 8) (left : Bool) (sz : Size) (ir : Bool) :
    (executeRoxr C (u8 rot) (shiftDir left) sz ir (u8 n) : Exec M Nat) =
      (fun k => bySize sz C.ROXR_BW C.ROXR_L + C.ROXR_COUNT * k) <$>
        (if left then shift roxl sz ir rot n else shift roxr sz ir rot n) := by
  cases left
  · simp only [Bool.false_eq_true, if_false]
    rw [← shift_generic (fun sr => { sr with v := false, c := sr.x }) (fun m _ => Alu.roxrStep m) roxr sz (roxr_H sz)]
    rfl
  · simp only [if_true]
    rw [← shift_generic (fun sr => { sr with v := false, c := sr.x }) (fun m _ => Alu.roxlStep m) roxl sz (roxl_H sz)]
    rfl

/-! ### Memory shifts, by one bit -/

theorem bne_sign16 (v : U16) : ((v &&& SIGN_BIT_16) != 0) = decide (32768 ≤ v.toNat) := by
  rw [sign16, neg_iff, decide_eq_decide]; omega
theorem bne_one16 (v : U16) : ((v &&& 1) != 0) = decide (v.toNat % 2 = 1) := by
  rw [bne_zero, zero, BitVec.toNat_and, show (1 : U16).toNat = 2 ^ 1 - 1 from rfl, Nat.and_two_pow_sub_one_eq_mod, ← decide_not,
    decide_eq_decide]
  omega
theorem shl16 (v : U16) : v <<< 1 = BitVec.ofNat 16 (v.toNat * 2) := by
  apply BitVec.eq_of_toNat_eq; simp [Nat.shiftLeft_eq]
theorem shr16 (v : U16) : v >>> 1 = BitVec.ofNat 16 (v.toNat / 2) := by
  apply BitVec.eq_of_toNat_eq
  have := v.isLt
  simp [Nat.shiftRight_eq_div_pow]; omega
theorem sshr16 (v : U16) : v.sshiftRight 1 = BitVec.ofInt 16 (v.toInt / 2) := by
  apply BitVec.eq_of_toInt_eq
  have := toInt_or (n := 16) v
  rw [BitVec.toInt_sshiftRight, Int.shiftRight_eq_div_pow, BitVec.toInt_ofInt, Int.bmod_eq_of_le] <;> omega

theorem shl16_or (v : U16) : v <<< 1 ||| 1 = BitVec.ofNat 16 (v.toNat * 2 + 1) := by
  apply BitVec.eq_of_toNat_eq
  have h : 2 ^ 1 * (v.toNat % 32768) + 1 = 2 ^ 1 * (v.toNat % 32768) ||| 1 := Nat.two_pow_add_eq_or_of_lt (by omega) _
  have e : (v <<< 1).toNat = 2 ^ 1 * (v.toNat % 32768) := by rw [shl16, BitVec.toNat_ofNat]; omega
  rw [BitVec.toNat_or, e, show (1 : U16).toNat = 1 from rfl, ← h, BitVec.toNat_ofNat]
  omega

theorem shr16_or (v : U16) : v >>> 1 ||| SIGN_BIT_16 = BitVec.ofNat 16 (v.toNat / 2 + 32768) := by
  apply BitVec.eq_of_toNat_eq
  have := v.isLt
  have h : 2 ^ 15 * 1 + v.toNat / 2 = 2 ^ 15 * 1 ||| v.toNat / 2 := Nat.two_pow_add_eq_or_of_lt (by omega) _
  have e : (v >>> 1).toNat = v.toNat / 2 := by rw [shr16, BitVec.toNat_ofNat]; omega
  rw [BitVec.toNat_or, e, show SIGN_BIT_16.toNat = 2 ^ 15 * 1 from rfl, Nat.or_comm, ← h, BitVec.toNat_ofNat]
  omega

theorem neg_msb {n : Nat} (v : BitVec n) : neg v = v.msb := by
  rw [neg, BitVec.toInt_eq_msb_cond]
  have := v.isLt
  cases h : v.msb
  · simp
  · simp only [if_true, decide_eq_true_eq]; omega

theorem asl1 (v : U16) (sr : StatusRegister) :
    (v <<< 1, { sr with x := (v &&& SIGN_BIT_16) != 0, v := ((v &&& SIGN_BIT_16) ^^^ ((v <<< 1) &&& SIGN_BIT_16)) != 0, c := (v &&& SIGN_BIT_16) != 0, n := (v <<< 1).slt 0, z := v <<< 1 == 0 }) = asl 1 v sr := by
  have hv : (((v &&& SIGN_BIT_16) ^^^ ((v <<< 1) &&& SIGN_BIT_16)) != 0) =
      decide (¬ ∀ j, j ≤ 1 → neg (BitVec.ofNat 16 (v.toNat * 2 ^ j)) = neg v) := by
    have hx : (v &&& SIGN_BIT_16) ^^^ ((v <<< 1) &&& SIGN_BIT_16) = (v ^^^ (v <<< 1)) &&& SIGN_BIT_16 := by
      ext i hi
      simp only [BitVec.getElem_xor, BitVec.getElem_and]
      cases v[i] <;> cases (v <<< 1)[i] <;> cases SIGN_BIT_16[i] <;> rfl
    rw [hx, sign16, neg_msb, BitVec.msb_xor, shl16]
    have : (∀ j, j ≤ 1 → neg (BitVec.ofNat 16 (v.toNat * 2 ^ j)) = neg v) ↔ neg (BitVec.ofNat 16 (v.toNat * 2)) = neg v := by
      constructor
      · intro h; exact h 1 (Nat.le_refl _)
      · intro h j hj
        rcases j with _ | _ | j
        · simp
        · exact h
        · omega
    simp only [this]; simp only [neg_msb]
    cases v.msb <;> cases (BitVec.ofNat 16 (v.toNat * 2)).msb <;> rfl
  rw [hv, neg_slt, beq_zero, bne_sign16, shl16]
  simp only [asl, shiftFlags]
  have : (32768 ≤ v.toNat) = (v.toNat * 2 ^ 1 / 2 ^ 16 % 2 = 1) := by
    have := v.isLt
    apply propext; omega
  simp only [this, Nat.pow_one]
  simp

theorem asr1 (v : U16) (sr : StatusRegister) :
    (v.sshiftRight 1, { sr with x := (v &&& 1) != 0, v := false, c := (v &&& 1) != 0, n := (v.sshiftRight 1).slt 0, z := v.sshiftRight 1 == 0 }) = asr 1 v sr := by
  rw [neg_slt, beq_zero, bne_one16, sshr16]
  simp only [asr, shiftFlags]
  have : (v.toNat % 2 = 1) = (v.toInt / 2 ^ (1 - 1) % 2 = 1) := by
    have := toInt_or (n := 16) v
    apply propext; simp; omega
  simp [this]

theorem lsl1 (v : U16) (sr : StatusRegister) :
    (v <<< 1, { sr with x := (v &&& SIGN_BIT_16) != 0, c := (v &&& SIGN_BIT_16) != 0, n := ((v <<< 1) &&& SIGN_BIT_16) != 0, z := v <<< 1 == 0, v := false }) = lsl 1 v sr := by
  rw [sign16 (v <<< 1), beq_zero, bne_sign16, shl16]
  simp only [lsl, shiftFlags]
  have : (32768 ≤ v.toNat) = (v.toNat * 2 ^ 1 / 2 ^ 16 % 2 = 1) := by
    have := v.isLt
    apply propext; omega
  simp [this]

theorem lsr1 (v : U16) (sr : StatusRegister) :
    (v >>> 1, { sr with x := (v &&& 1) != 0, c := (v &&& 1) != 0, n := ((v >>> 1) &&& SIGN_BIT_16) != 0, z := v >>> 1 == 0, v := false }) = lsr 1 v sr := by
  rw [sign16, beq_zero, bne_one16, shr16]
  simp only [lsr, shiftFlags]
  simp

theorem ofNat16_congr {a b : Nat} (h : a % 65536 = b % 65536) : BitVec.ofNat 16 a = BitVec.ofNat 16 b := by
  apply BitVec.eq_of_toNat_eq; simpa using h

theorem rol1 (v : U16) (sr : StatusRegister) (r : U16) (hr : r = v <<< 1 ||| boolTo 16 ((v &&& SIGN_BIT_16) != 0)) :
    (r, { sr with c := (v &&& SIGN_BIT_16) != 0, n := (r &&& SIGN_BIT_16) != 0, z := r == 0, v := false }) = rol 1 v sr := by
  have hlt := v.isLt
  have e : r = BitVec.ofNat 16 (v.toNat * 2 ^ 1 + v.toNat / 2 ^ 15) := by
    rw [hr, bne_sign16]
    by_cases h : 32768 ≤ v.toNat
    · simp only [h, decide_true, boolTo, if_true]
      refine (shl16_or v).trans (ofNat16_congr ?_)
      have : v.toNat / 2 ^ 15 = 1 := by omega
      rw [this, Nat.pow_one]
    · simp only [h, decide_false, boolTo]
      refine Eq.trans ?_ ((shl16 v).trans (ofNat16_congr ?_))
      · simp
      · have : v.toNat / 2 ^ 15 = 0 := by omega
        rw [this, Nat.pow_one, Nat.add_zero]
  rw [sign16 r, beq_zero, bne_sign16]
  simp only [rol, Nat.reduceMod, Nat.reduceSub]
  have : (32768 ≤ v.toNat) = (r.toNat % 2 = 1) := by
    rw [e, BitVec.toNat_ofNat]
    apply propext
    have : v.toNat / 2 ^ 15 = 1 ∨ v.toNat / 2 ^ 15 = 0 := by omega
    rcases this with h | h <;> rw [h] <;> omega
  simp only [this]
  rw [← e]
  simp

theorem ror1 (v : U16) (sr : StatusRegister) (r : U16) (hr : r = if (v &&& 1) != 0 then v >>> 1 ||| SIGN_BIT_16 else v >>> 1) :
    (r, { sr with c := (v &&& 1) != 0, n := (r &&& SIGN_BIT_16) != 0, z := r == 0, v := false }) = ror 1 v sr := by
  have hlt := v.isLt
  have e : r = BitVec.ofNat 16 (v.toNat / 2 ^ 1 + v.toNat * 2 ^ 15) := by
    rw [hr, bne_one16]
    by_cases h : v.toNat % 2 = 1
    · simp only [h, decide_true, if_true]
      refine (shr16_or v).trans (ofNat16_congr ?_)
      omega
    · simp only [h, decide_false]
      refine (shr16 v).trans (ofNat16_congr ?_)
      omega
  rw [sign16 r, beq_zero, bne_one16]
  simp only [ror, Nat.reduceMod, Nat.reduceSub]
  have : decide (v.toNat % 2 = 1) = neg r := by
    rw [neg_iff, e, BitVec.toNat_ofNat, decide_eq_decide]
    obtain ⟨q, b, hb, hq⟩ : ∃ q b, b < 2 ∧ v.toNat = 2 * q + b := ⟨v.toNat / 2, v.toNat % 2, by omega, by omega⟩
    rw [hq, show (2 * q + b) / 2 ^ 1 = q by omega]
    have : b = 0 ∨ b = 1 := by omega
    have hq' : q < 32768 := by omega
    rcases this with rfl | rfl
    · rw [show (q + (2 * q + 0) * 2 ^ 15) % 2 ^ 16 = q by omega]; omega
    · rw [show (q + (2 * q + 1) * 2 ^ 15) % 2 ^ 16 = q + 32768 by omega]; omega
  simp only [this]
  rw [← e]
  simp

theorem roxl1 (v : U16) (sr : StatusRegister) (r : U16) (hr : r = v <<< 1 ||| boolTo 16 sr.x) :
    (r, { sr with x := (v &&& SIGN_BIT_16) != 0, c := (v &&& SIGN_BIT_16) != 0, n := (r &&& SIGN_BIT_16) != 0, z := r == 0, v := false }) = roxl 1 v sr := by
  have hlt := v.isLt
  have e : r = BitVec.ofNat 16 (withX v sr * 2 ^ 1 + withX v sr / 2 ^ 16) := by
    rw [hr, withX]
    cases sr.x
    · simp only [boolTo]
      refine Eq.trans ?_ ((shl16 v).trans (ofNat16_congr ?_))
      · simp
      · rw [if_neg (by simp), show (0 + v.toNat) / 2 ^ 16 = 0 by omega]; omega
    · simp only [boolTo, if_true]
      refine (shl16_or v).trans (ofNat16_congr ?_)
      rw [show (2 ^ 16 + v.toNat) / 2 ^ 16 = 1 by omega]; omega
  rw [sign16 r, beq_zero, bne_sign16]
  simp only [roxl, roxResult, Nat.reduceMod, Nat.reduceSub, Nat.reduceAdd]
  have : (32768 ≤ v.toNat) = ((withX v sr * 2 ^ 1 + withX v sr / 2 ^ 16) / 2 ^ 16 % 2 = 1) := by
    rw [withX]
    apply propext
    split
    · rw [show (2 ^ 16 + v.toNat) / 2 ^ 16 = 1 by omega]; omega
    · rw [show (0 + v.toNat) / 2 ^ 16 = 0 by omega]; omega
  simp only [this]
  rw [← e]

theorem roxr1 (v : U16) (sr : StatusRegister) (r : U16) (hr : r = if sr.x then v >>> 1 ||| SIGN_BIT_16 else v >>> 1) :
    (r, { sr with x := (v &&& 1) != 0, c := (v &&& 1) != 0, n := (r &&& SIGN_BIT_16) != 0, z := r == 0, v := false }) = roxr 1 v sr := by
  have hlt := v.isLt
  have e : r = BitVec.ofNat 16 (withX v sr / 2 ^ 1 + withX v sr * 2 ^ 16) := by
    rw [hr, withX]
    cases sr.x
    · simp only [Bool.false_eq_true, if_false]
      refine (shr16 v).trans (ofNat16_congr ?_)
      rw [Nat.zero_add, show v.toNat / 2 ^ 1 = v.toNat / 2 by omega]
      generalize v.toNat / 2 = q
      omega
    · simp only [if_true]
      refine (shr16_or v).trans (ofNat16_congr ?_)
      rw [show (2 ^ 16 + v.toNat) / 2 ^ 1 = v.toNat / 2 + 32768 by omega]
      generalize v.toNat / 2 = q
      omega
  rw [sign16 r, beq_zero, bne_one16]
  simp only [roxr, roxResult, Nat.reduceMod, Nat.reduceSub, Nat.reduceAdd]
  have : (v.toNat % 2 = 1) = ((withX v sr / 2 ^ 1 + withX v sr * 2 ^ 16) / 2 ^ 16 % 2 = 1) := by
    rw [withX]
    apply propext
    split
    · rw [show (2 ^ 16 + v.toNat) / 2 ^ 1 = v.toNat / 2 + 32768 by omega,
        show (v.toNat / 2 + 32768 + (2 ^ 16 + v.toNat) * 2 ^ 16) / 2 ^ 16 = 2 ^ 16 + v.toNat by
          rw [Nat.add_mul_div_right _ _ (by decide), Nat.div_eq_of_lt (by omega)]; omega]
      omega
    · rw [Nat.zero_add, show (v.toNat / 2 ^ 1 + v.toNat * 2 ^ 16) / 2 ^ 16 = v.toNat by
          rw [Nat.add_mul_div_right _ _ (by decide), Nat.div_eq_of_lt (by omega)]; omega]
  simp only [this]
  rw [← e]

theorem rmwWord_eq (C : CpuDetails) (m : Mode) (t : Nat) (f g : U16 → StatusRegister → U16 × StatusRegister) (h : ∀ v sr, f v sr = g v sr) :
    (getWord C (EffectiveAddress.new m.toAM (some .Word)) t >>= fun q =>
      alu (f q.1) >>= fun r => setWord C q.2.1 q.2.2 r : Exec M Nat) =
      cost (rmw .Word m g) (t + eaTime C m) := by
  have : f = g := funext fun v => funext fun sr => h v sr
  rw [this, ← rmwTime_word]
  exact rmw_eq C .Word m t g

theorem executeAsm_eq (C : CpuDetails) (left : Bool) (m : Mode) :
    (executeAsm C (shiftDir left) m.toAM : Exec M Nat) =
      cost (rmw .Word m (if left then asl 1 else asr 1)) (C.ASM + eaTime C m) := by
  cases left
  · refine rmwWord_eq C m C.ASM (fun v sr => (v.sshiftRight 1, { sr with x := (v &&& 1) != 0, v := false, c := (v &&& 1) != 0, n := (v.sshiftRight 1).slt 0, z := v.sshiftRight 1 == 0 })) _ (fun v sr => ?_)
    exact asr1 v sr
  · refine rmwWord_eq C m C.ASM (fun v sr => (v <<< 1, { sr with x := (v &&& SIGN_BIT_16) != 0, v := ((v &&& SIGN_BIT_16) ^^^ ((v <<< 1) &&& SIGN_BIT_16)) != 0, c := (v &&& SIGN_BIT_16) != 0, n := (v <<< 1).slt 0, z := v <<< 1 == 0 })) _ (fun v sr => ?_)
    exact asl1 v sr

theorem executeLsm_eq (C : CpuDetails) (left : Bool) (m : Mode) :
    (executeLsm C (shiftDir left) m.toAM : Exec M Nat) =
      cost (rmw .Word m (if left then lsl 1 else lsr 1)) (C.LSM + eaTime C m) := by
  cases left
  · refine rmwWord_eq C m C.LSM (fun v sr => (v >>> 1, { sr with x := (v &&& 1) != 0, c := (v &&& 1) != 0, n := ((v >>> 1) &&& SIGN_BIT_16) != 0, z := v >>> 1 == 0, v := false })) _ (fun v sr => ?_)
    exact lsr1 v sr
  · refine rmwWord_eq C m C.LSM (fun v sr => (v <<< 1, { sr with x := (v &&& SIGN_BIT_16) != 0, c := (v &&& SIGN_BIT_16) != 0, n := ((v <<< 1) &&& SIGN_BIT_16) != 0, z := v <<< 1 == 0, v := false })) _ (fun v sr => ?_)
    exact lsl1 v sr

theorem executeRom_eq (C : CpuDetails) (left : Bool) (m : Mode) :
    (executeRom C (shiftDir left) m.toAM : Exec M Nat) =
      cost (rmw .Word m (if left then rol 1 else ror 1)) (C.ROM + eaTime C m) := by
  cases left
  · refine rmwWord_eq C m C.ROM (fun v sr => let r := if (v &&& 1) != 0 then v >>> 1 ||| SIGN_BIT_16 else v >>> 1; (r, { sr with c := (v &&& 1) != 0, n := (r &&& SIGN_BIT_16) != 0, z := r == 0, v := false })) _ (fun v sr => ?_)
    exact ror1 v sr _ rfl
  · refine rmwWord_eq C m C.ROM (fun v sr => let r := v <<< 1 ||| boolTo 16 ((v &&& SIGN_BIT_16) != 0); (r, { sr with c := (v &&& SIGN_BIT_16) != 0, n := (r &&& SIGN_BIT_16) != 0, z := r == 0, v := false })) _ (fun v sr => ?_)
    exact rol1 v sr _ rfl

theorem executeRoxm_eq (C : CpuDetails) (left : Bool) (m : Mode) :
    (executeRoxm C (shiftDir left) m.toAM : Exec M Nat) =
      cost (rmw .Word m (if left then roxl 1 else roxr 1)) (C.ROXM + eaTime C m) := by
  cases left
  · refine rmwWord_eq C m C.ROXM (fun v sr => let r := if sr.x then v >>> 1 ||| SIGN_BIT_16 else v >>> 1; (r, { sr with x := (v &&& 1) != 0, c := (v &&& 1) != 0, n := (r &&& SIGN_BIT_16) != 0, z := r == 0, v := false })) _ (fun v sr => ?_)
    exact roxr1 v sr _ rfl
  · refine rmwWord_eq C m C.ROXM (fun v sr => let r := v <<< 1 ||| boolTo 16 sr.x; (r, { sr with x := (v &&& SIGN_BIT_16) != 0, c := (v &&& SIGN_BIT_16) != 0, n := (r &&& SIGN_BIT_16) != 0, z := r == 0, v := false })) _ (fun v sr => ?_)
    exact roxl1 v sr _ rfl

end Exec
end M68k
