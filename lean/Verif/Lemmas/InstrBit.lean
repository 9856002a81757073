import Verif.Lemmas.InstrLogic
/-
The bit instructions of the model are those of the specification.
-/
set_option linter.unusedSimpArgs false
namespace M68k
open Spec

/-- The bits of the results of the bit instructions. -/
theorem BitOp_apply_bits {n : Nat} (o : Spec.BitOp) (v : BitVec n) (i j : Nat) (hi : i < n) :
    (o.apply v i).getLsbD j =
      if j = i then (match o with
        | .test => v.getLsbD i | .change => !v.getLsbD i | .clear => false | .set => true)
      else v.getLsbD j := by
  by_cases h : j = i
  · subst h
    cases o <;> simp [Spec.BitOp.apply, BitVec.getLsbD_twoPow, hi]
  · have h2 : (BitVec.twoPow n i).getLsbD j = false := by
      rw [BitVec.getLsbD_twoPow]; simp; omega
    rw [if_neg h]
    by_cases hj : j < n
    · cases o <;> simp only [Spec.BitOp.apply, BitVec.getLsbD_xor, BitVec.getLsbD_and, BitVec.getLsbD_not, BitVec.getLsbD_or, h2] <;>
        simp [hj]
    · rw [BitVec.getLsbD_of_ge _ _ (by omega), BitVec.getLsbD_of_ge _ _ (by omega)]

theorem one_shiftLeft (n i : Nat) (h : i < n) : (1 : BitVec n) <<< i = BitVec.twoPow n i := by
  rw [BitVec.twoPow_eq]
  apply BitVec.eq_of_toNat_eq
  simp only [BitVec.toNat_shiftLeft, Nat.shiftLeft_eq]
  have : (1 : BitVec n).toNat = 1 := by
    show (BitVec.ofNat n 1).toNat = 1
    rw [BitVec.toNat_ofNat, Nat.mod_eq_of_lt (Nat.one_lt_two_pow_iff.mpr (by omega))]
  rw [this]; simp [BitVec.toNat_shiftLeft, Nat.shiftLeft_eq]

theorem and_twoPow_zero {n : Nat} (v : BitVec n) (i : Nat) (hi : i < n) : ((v &&& BitVec.twoPow n i) == 0) = !v.getLsbD i := by
  rw [BitVec.and_twoPow]
  cases v.getLsbD i
  · simp
  · simp only [if_true, Bool.not_true]
    rw [beq_eq_false_iff_ne]
    intro h
    have := congrArg (fun x : BitVec n => x.getLsbD i) h
    simp [hi] at this

namespace Exec
variable {M : Type} [MemoryAccess M]

/-- The text shared by the four instructions, with the operation on the value. -/
def bitTail (C : CpuDetails) (g : {n : Nat} → BitVec n → BitVec n → BitVec n) (am : AddressingMode) (count : U8) (t : Nat) : Exec M Nat :=
  match am with
  | .Drd reg => do
    let count := count % 32
    let d ← getD reg
    modifySr fun sr => { sr with z := (d &&& ((1 : U32) <<< count.toNat)) == 0 }
    setD reg (g d ((1 : U32) <<< count.toNat))
    return t
  | _ => do
    let ea := EffectiveAddress.new am (some .Byte)
    let count := count % 8
    let (data, ea, t) ← getByte C ea t
    modifySr fun sr => { sr with z := (data &&& ((1 : U8) <<< count.toNat)) == 0 }
    setByte C ea t (g data ((1 : U8) <<< count.toNat))

theorem bitOpAt_rmw (o : Spec.BitOp) (ho : o ≠ .test) (sz : Size) (i : Nat) (m : Mode) :
    (bitOpAt o sz i m : Exec M Unit) = rmw sz m fun v sr => (o.apply v i, { sr with z := !v.getLsbD i }) := by
  unfold bitOpAt; rw [if_neg ho]
theorem bitOpAt_test (sz : Size) (i : Nat) (m : Mode) :
    (bitOpAt .test sz i m : Exec M Unit) =
      Spec.read sz m >>= fun p => setFlags fun sr => { sr with z := !p.2.getLsbD i } := by
  unfold bitOpAt; rw [if_pos rfl]
theorem bitOp_other (o : Spec.BitOp) (k : Nat) (m : Mode) (hm : isDn m = false) :
    (bitOp o k m : Exec M Unit) = bitOpAt o .Byte (k % 8) m := by
  cases m with
  | dn => cases hm
  | _ => rfl
theorem read_dn {β : Type} (n : Fin 8) (sz : Size) (k : Place × Val sz → Exec M β) :
    (Spec.read sz (.dn n) >>= k) = getR (fun r => low sz (r.d n)) >>= fun v => k (.dreg n, v) := rfl

omit [MemoryAccess M] in
theorem compute_bind {α β : Type} (v : α) (f : StatusRegister → StatusRegister) (k : α → Exec M β) :
    (compute (fun sr => (v, f sr)) >>= k) = setFlags f >>= fun _ => k v := rfl

theorem bitTail_eq (C : CpuDetails) (g : {n : Nat} → BitVec n → BitVec n → BitVec n) (o : Spec.BitOp) (ho : o ≠ .test)
    (hg : ∀ {n : Nat} (v : BitVec n) i, g v (BitVec.twoPow n i) = o.apply v i) (m : Mode) (count : U8) (t : Nat) :
    (bitTail C g m.toAM count t : Exec M Nat) = cost (bitOp o count.toNat m) (t + eaTime C m) := by
  have h32 : (1 : U32) <<< (count % 32).toNat = BitVec.twoPow 32 (count.toNat % 32) := by
    rw [show (count % 32).toNat = count.toNat % 32 from rfl]
    exact one_shiftLeft 32 _ (Nat.mod_lt _ (by omega))
  have h8 : (1 : U8) <<< (count % 8).toNat = BitVec.twoPow 8 (count.toNat % 8) := by
    rw [show (count % 8).toNat = count.toNat % 8 from rfl]
    exact one_shiftLeft 8 _ (Nat.mod_lt _ (by omega))
  have e32 := fun v : U32 => and_twoPow_zero v (count.toNat % 32) (Nat.mod_lt _ (by omega))
  have e8 := fun v : U8 => and_twoPow_zero v (count.toNat % 8) (Nat.mod_lt _ (by omega))
  cases hm : isDn m
  · rw [← rmwTime_byte, bitOp_other o _ m hm, bitOpAt_rmw o ho, ← rmw_eq]
    cases m with
    | dn => cases hm
    | _ => simp only [bitTail, Mode.toAM, h8, hg, e8, alu_eq, compute_bind]; rfl
  · cases m with
    | dn n =>
      simp only [bitOp, bitOpAt_rmw o ho, bitTail, Mode.toAM, h32, hg, e32, getD_eq, modifySr_eq, setD_eq, rmw_dn, low_long, cost,
        map_eq_pure_bind, bind_assoc, insertLow_long, compute_bind, eaTime, Nat.add_zero]
    | _ => cases hm

omit [MemoryAccess M] in
theorem flag_eq (op : U16) (i : Nat) : (bits op i i != 0) = flag op i := by
  have h : (bits op i i).toNat = op.toNat / 2 ^ i % 2 := by
    unfold bits
    rw [show i + 1 - i = 1 by omega, BitVec.toNat_and, BitVec.toNat_ushiftRight, Nat.shiftRight_eq_div_pow]
    exact Nat.and_two_pow_sub_one_eq_mod _ 1
  rw [bne_zero, zero, h, flag, ← decide_not, decide_eq_decide]
  omega

/-- The dynamic or static form of a bit instruction, from the current opcode. -/
def bitHead (dynReg dynMem staReg staMem : Nat) (am : AddressingMode) (count : U8) (k : U8 → Nat → Exec M Nat) : Exec M Nat := do
  let opcode ← getCurrentOpcode
  let (count, t) ← (if bits opcode 8 8 != 0 then do
      let d ← getD count
      return (toU8 d, if am.isDrd then dynReg else dynMem)
    else pure (count, if am.isDrd then staReg else staMem))
  k count t

theorem bitHead_dyn (a b c d : Nat) (m : Mode) (n : Fin 8) (k : U8 → Nat → Exec M Nat) (s : St M)
    (h : flag s.cpu.currentOpcode 8 = true) :
    bitHead a b c d m.toAM (u8 n) k s = k (low .Byte (s.cpu.regs.d n)) (byPlace m a b) s := by
  unfold bitHead
  simp only [bind_apply, getCurrentOpcode, flag_eq _ 8, h, if_true, getD_eq, getR, pure_apply, isDrd_eq, low_byte, byPlace]

theorem bitHead_static (a b c d : Nat) (m : Mode) (count : U8) (k : U8 → Nat → Exec M Nat) (s : St M)
    (h : flag s.cpu.currentOpcode 8 = false) :
    bitHead a b c d m.toAM count k s = k count (byPlace m c d) s := by
  unfold bitHead
  simp only [bind_apply, getCurrentOpcode, flag_eq _ 8, h, Bool.false_eq_true, if_false, pure_apply, isDrd_eq, byPlace]

theorem executeBchg_head (C : CpuDetails) (am : AddressingMode) (count : U8) :
    (executeBchg C am count : Exec M Nat) =
      bitHead C.BCHG_DYN_REG C.BCHG_DYN_MEM C.BCHG_STA_REG C.BCHG_STA_MEM am count (bitTail C (· ^^^ ·) am) := rfl
theorem executeBclr_head (C : CpuDetails) (am : AddressingMode) (count : U8) :
    (executeBclr C am count : Exec M Nat) =
      bitHead C.BCLR_DYN_REG C.BCLR_DYN_MEM C.BCLR_STA_REG C.BCLR_STA_MEM am count (bitTail C (fun v b => v &&& ~~~b) am) := rfl
theorem executeBset_head (C : CpuDetails) (am : AddressingMode) (count : U8) :
    (executeBset C am count : Exec M Nat) =
      bitHead C.BSET_DYN_REG C.BSET_DYN_MEM C.BSET_STA_REG C.BSET_STA_MEM am count (bitTail C (· ||| ·) am) := rfl

/-- The end of BTST. -/
def btstTail (C : CpuDetails) (am : AddressingMode) (count : U8) (t : Nat) : Exec M Nat :=
  match am with
  | .Drd reg => do
    let count := count % 32
    let d ← getD reg
    modifySr fun sr => { sr with z := (d &&& ((1 : U32) <<< count.toNat)) == 0 }
    return t
  | _ => do
    let ea := EffectiveAddress.new am (some .Byte)
    let count := count % 8
    let (data, _, t) ← getByte C ea t
    modifySr fun sr => { sr with z := (data &&& ((1 : U8) <<< count.toNat)) == 0 }
    return t
theorem executeBtst_head (C : CpuDetails) (am : AddressingMode) (count : U8) :
    (executeBtst C am count : Exec M Nat) =
      bitHead C.BTST_DYN_REG C.BTST_DYN_MEM C.BTST_STA_REG C.BTST_STA_MEM am count (btstTail C am) := rfl

theorem btstTail_eq (C : CpuDetails) (m : Mode) (count : U8) (t : Nat) :
    (btstTail C m.toAM count t : Exec M Nat) = cost (bitOp .test count.toNat m) (t + eaTime C m) := by
  have h32 : (1 : U32) <<< (count % 32).toNat = BitVec.twoPow 32 (count.toNat % 32) := by
    rw [show (count % 32).toNat = count.toNat % 32 from rfl]
    exact one_shiftLeft 32 _ (Nat.mod_lt _ (by omega))
  have h8 : (1 : U8) <<< (count % 8).toNat = BitVec.twoPow 8 (count.toNat % 8) := by
    rw [show (count % 8).toNat = count.toNat % 8 from rfl]
    exact one_shiftLeft 8 _ (Nat.mod_lt _ (by omega))
  have e32 := fun v : U32 => and_twoPow_zero v (count.toNat % 32) (Nat.mod_lt _ (by omega))
  have e8 := fun v : U8 => and_twoPow_zero v (count.toNat % 8) (Nat.mod_lt _ (by omega))
  cases hm : isDn m
  · rw [← readTime_byte, bitOp_other .test _ m hm, bitOpAt_test]
    cases m with
    | dn => cases hm
    | _ =>
      simp only [btstTail, Mode.toAM, h8, e8, modifySr_eq, cost, map_eq_pure_bind, bind_assoc]
      rw [← read_eq C .Byte _ t (fun v t => setFlags (fun sr => { sr with z := !v.getLsbD (count.toNat % 8) }) >>= fun _ => pure t)]
      rfl
  · cases m with
    | dn n =>
      simp only [bitOp, bitOpAt_test, btstTail, Mode.toAM, h32, e32, getD_eq, modifySr_eq, cost, map_eq_pure_bind, bind_assoc, eaTime, Nat.add_zero]
      rw [read_dn]
      simp only [low_long]
    | _ => cases hm

end Exec
end M68k
