import Verif.Lemmas.InstrControl
/-
The data movement instructions of the model are those of the specification.
-/
set_option linter.unusedSimpArgs false
set_option linter.unusedSectionVars false
namespace M68k
open Spec
namespace Exec
variable {M : Type} [MemoryAccess M]

theorem executeExg_eq (C : CpuDetails) (x y : Fin 8) (kind : Direction) :
    (executeExg C (u8 x) kind (u8 y) : Exec M Nat) = cost (exg kind x y) C.EXG := by
  cases kind <;> to_spec [executeExg, exg] <;> rfl

theorem ext_byte (v : U8) : v.signExtend 16 = BitVec.ofInt 16 v.toInt := rfl

theorem executeExt_eq (C : CpuDetails) (mode : U8) (n : Fin 8) :
    (executeExt C mode (u8 n) : Exec M Nat) = cost (Spec.ext (decide (mode ≠ 2)) n) C.EXT := by
  by_cases h : mode = 2
  · to_spec [executeExt, h, Spec.ext, sign32, beq_zero, ext_byte, ne_eq, not_true]; rfl
  · to_spec [executeExt, h, Spec.ext, sign32, beq_zero, ne_eq, not_false_eq_true]
    rfl

theorem swap_value (d : U32) :
    (d <<< 16) ||| (d >>> 16) = BitVec.ofNat 32 (d.toNat % 65536 * 65536 + d.toNat / 65536) := by
  apply BitVec.eq_of_toNat_eq
  have := d.isLt
  have h : 2 ^ 16 * (d.toNat % 65536) + d.toNat / 65536 = 2 ^ 16 * (d.toNat % 65536) ||| d.toNat / 65536 :=
    Nat.two_pow_add_eq_or_of_lt (by omega) _
  have e1 : (d <<< 16).toNat = 2 ^ 16 * (d.toNat % 65536) := by
    rw [BitVec.toNat_shiftLeft, Nat.shiftLeft_eq]; omega
  have e2 : (d >>> 16).toNat = d.toNat / 65536 := by
    rw [BitVec.toNat_ushiftRight, Nat.shiftRight_eq_div_pow]
  rw [BitVec.toNat_or, e1, e2, ← h, BitVec.toNat_ofNat]
  omega

theorem setDreg_setDreg (r : Registers) (n : Fin 8) (v w : U32) : setDreg (setDreg r n v) n w = setDreg r n w := by
  simp only [setDreg]; congr 1; funext i; by_cases h : i = n <;> simp [h]
theorem setDreg_d (r : Registers) (n : Fin 8) (v : U32) : (setDreg r n v).d n = v := by simp [setDreg]

theorem executeSwap_eq (C : CpuDetails) (n : Fin 8) : (executeSwap C (u8 n) : Exec M Nat) = cost (swap n) C.SWAP := by
  to_spec [executeSwap, swap, sign32, beq_zero]
  ext s
  simp only [bind_apply, getR, modR, setFlags, setDreg_setDreg, setDreg_d, swap_value]
  rfl

theorem executeMoveq_eq (C : CpuDetails) (n : Fin 8) (v : U8) :
    (executeMoveq C (u8 n) v : Exec M Nat) = cost (moveq n v) C.MOVEQ := by
  to_spec [executeMoveq, moveq, neg_slt, beq_zero]; rfl

theorem isAriwpr_eq (m : Mode) (a b : Nat) :
    (if m.toAM.isAriwpr then a else b) = match m with | .predec _ => a | _ => b := by cases m <;> rfl

theorem executeMove_eq (C : CpuDetails) (sz : Size) (dst src : Mode) :
    (executeMove C sz dst.toAM src.toAM : Exec M Nat) = cost (move sz dst src)
      ((match dst with | .predec _ => C.MOVE_DST_ARIWPR | _ => C.MOVE_OTHER) + readTime C sz src + writeTime C sz dst) := by
  cases sz <;> to_spec [executeMove, move, sign8, sign16, sign32, beq_zero, setFlags_setFlags, isAriwpr_eq] <;> rfl

theorem executeMovea_eq (C : CpuDetails) (sz : Size) (hsz : sz ≠ .Byte) (n : Fin 8) (m : Mode) :
    (executeMovea C sz (u8 n) m.toAM : Exec M Nat) = cost (movea sz n m) (C.MOVEA + readTime C sz m) := by
  cases sz
  · exact absurd rfl hsz
  · to_spec [executeMovea, movea, readExt]; rfl
  · to_spec [executeMovea, movea, readExt]; rfl

/-! ### MOVEM -/

/-- The registers of a loop of MOVEM are those of the specification, the bits being numbered from `j`. -/
def Match (rd : U8 → Exec M U32) (f : Fin 16 → Fin 16) : Nat → List U8 → List (Fin 16) → Prop
  | _, [], [] => True
  | j, r :: rs, i :: is => i.val = j ∧ rd r = getR (regNo · (f i)) ∧ Match rd f (j + 1) rs is
  | _, _, _ => False

theorem bit_shift (mask : U16) (j : Nat) : ((mask >>> j &&& 1) != 0) = mask.toNat.testBit j := by
  rw [bne_zero, zero, BitVec.toNat_and, BitVec.toNat_ushiftRight, show (1 : U16).toNat = 2 ^ 1 - 1 from rfl,
    Nat.and_two_pow_sub_one_eq_mod, Nat.testBit_eq_decide_div_mod_eq, Nat.shiftRight_eq_div_pow, ← decide_not, decide_eq_decide]
  omega

theorem shift_succ (mask : U16) (j : Nat) : (mask >>> j) >>> 1 = mask >>> (j + 1) := by
  rw [BitVec.shiftRight_add]

theorem movemStore_eq (sz : Size) (hsz : sz ≠ .Byte) (a v : U32) : (movemStore sz a v : Exec M Unit) = Spec.movemStore sz a v := by
  cases sz
  · exact absurd rfl hsz
  · simp only [movemStore, Size.isWord, if_true, mem_eq, ← low_word]; rfl
  · simp only [movemStore, Size.isWord, if_false, mem_eq, Bool.false_eq_true, Spec.movemStore, low_long]; rfl

theorem movemLoad_eq (sz : Size) (hsz : sz ≠ .Byte) (a : U32) : (movemLoad sz a : Exec M U32) = Spec.movemLoad sz a := by
  cases sz
  · exact absurd rfl hsz
  · simp only [movemLoad, Size.isWord, if_true, mem_eq, Spec.movemLoad, map_eq_pure_bind]; rfl
  · have h : (signExt : Val .Long → U32) = id := funext signExt_long
    rw [Spec.movemLoad, h, id_map]; rfl

theorem asU32_eq (sz : Size) : sz.asU32 = BitVec.ofNat 32 (bytes sz) := by cases sz <;> rfl

theorem decLoop_eq (sz : Size) (hsz : sz ≠ .Byte) (rd : U8 → Exec M U32) (mask : U16) :
    ∀ (rs : List U8) (is : List (Fin 16)) (j : Nat) (a : U32), Match rd Fin.rev j rs is →
      movemDecLoop sz rd rs a (mask >>> j) =
        (fun a => (a, mask >>> (j + rs.length))) <$>
          movemStoresDown sz ((is.filter fun i => mask.toNat.testBit i.val).map Fin.rev) a
  | [], [], j, a, _ => by simp [movemDecLoop, movemStoresDown]
  | r :: rs, i :: is, j, a, h => by
    obtain ⟨hi, hr, ht⟩ := h
    have ih := fun a => decLoop_eq sz hsz rd mask rs is (j + 1) a ht
    rw [movemDecLoop, bit_shift, shift_succ, hr, asU32_eq]
    have hl : j + (r :: rs).length = j + 1 + rs.length := by simp; omega
    by_cases hb : mask.toNat.testBit j
    · simp only [hb, if_true, ih, List.filter, hi, List.map, movemStoresDown, movemStore_eq sz hsz, map_bind, hl]
    · simp only [hb, Bool.false_eq_true, if_false, ih, List.filter, hi, hl]
  | [], _ :: _, _, _, h => h.elim
  | _ :: _, [], _, _, h => h.elim

/-- The registers written by a loop. -/
def MatchW (wr : U8 → U32 → Exec M Unit) : List U8 → List (Fin 16) → Prop
  | [], [] => True
  | r :: rs, i :: is => (∀ v, wr r v = modR (setRegNo · i v)) ∧ MatchW wr rs is
  | _, _ => False

theorem incLoop_store (sz : Size) (hsz : sz ≠ .Byte) (rd : U8 → Exec M U32) (wr : U8 → U32 → Exec M Unit) (mask : U16)
    (dir : Direction) (hd : dir ≠ .MemoryToRegister) :
    ∀ (rs : List U8) (is : List (Fin 16)) (j : Nat) (a : U32), Match rd id j rs is →
      movemIncLoop dir sz rd wr rs a (mask >>> j) =
        (fun a => (a, mask >>> (j + rs.length))) <$> movemStores sz (is.filter fun i => mask.toNat.testBit i.val) a
  | [], [], j, a, _ => by simp [movemIncLoop, movemStores]
  | r :: rs, i :: is, j, a, h => by
    obtain ⟨hi, hr, ht⟩ := h
    have ih := fun a => incLoop_store sz hsz rd wr mask dir hd rs is (j + 1) a ht
    rw [movemIncLoop, bit_shift, shift_succ, hr, asU32_eq]
    have hl : j + (r :: rs).length = j + 1 + rs.length := by simp; omega
    by_cases hb : mask.toNat.testBit j
    · simp only [hb, if_true, ih, List.filter, hi, hd, if_false, movemStores, movemStore_eq sz hsz, map_bind, hl, bind_assoc, id]
    · simp only [hb, Bool.false_eq_true, if_false, ih, List.filter, hi, hl]
  | [], _ :: _, _, _, h => h.elim
  | _ :: _, [], _, _, h => h.elim

theorem incLoop_load (sz : Size) (hsz : sz ≠ .Byte) (rd : U8 → Exec M U32) (wr : U8 → U32 → Exec M Unit) (mask : U16) :
    ∀ (rs : List U8) (is : List (Fin 16)) (j : Nat) (a : U32), Match rd id j rs is → MatchW wr rs is →
      movemIncLoop .MemoryToRegister sz rd wr rs a (mask >>> j) =
        (fun a => (a, mask >>> (j + rs.length))) <$> movemLoads sz (is.filter fun i => mask.toNat.testBit i.val) a
  | [], [], j, a, _, _ => by simp [movemIncLoop, movemLoads]
  | r :: rs, i :: is, j, a, h, h' => by
    obtain ⟨hi, hr, ht⟩ := h
    obtain ⟨hw, ht'⟩ := h'
    have ih := fun a => incLoop_load sz hsz rd wr mask rs is (j + 1) a ht ht'
    rw [movemIncLoop, bit_shift, shift_succ, asU32_eq]
    have hl : j + (r :: rs).length = j + 1 + rs.length := by simp; omega
    by_cases hb : mask.toNat.testBit j
    · simp only [hb, if_true, ih, List.filter, hi, movemLoads, movemLoad_eq sz hsz, map_bind, hl, bind_assoc, hw]
    · simp only [hb, Bool.false_eq_true, if_false, ih, List.filter, hi, hl]
  | [], _ :: _, _, _, h, _ => h.elim
  | _ :: _, [], _, _, h, _ => h.elim

theorem storesDown_append (sz : Size) (l1 l2 : List (Fin 16)) (a : U32) :
    (movemStoresDown sz (l1 ++ l2) a : Exec M U32) = movemStoresDown sz l1 a >>= movemStoresDown sz l2 := by
  induction l1 generalizing a with
  | nil => simp [movemStoresDown]
  | cons i is ih => simp only [List.cons_append, movemStoresDown, bind_assoc, ih]
theorem stores_append (sz : Size) (l1 l2 : List (Fin 16)) (a : U32) :
    (movemStores sz (l1 ++ l2) a : Exec M U32) = movemStores sz l1 a >>= movemStores sz l2 := by
  induction l1 generalizing a with
  | nil => simp [movemStores]
  | cons i is ih => simp only [List.cons_append, movemStores, bind_assoc, ih]
theorem loads_append (sz : Size) (l1 l2 : List (Fin 16)) (a : U32) :
    (movemLoads sz (l1 ++ l2) a : Exec M U32) = movemLoads sz l1 a >>= movemLoads sz l2 := by
  induction l1 generalizing a with
  | nil => simp [movemLoads]
  | cons i is ih => simp only [List.cons_append, movemLoads, bind_assoc, ih]

theorem finRange_split : List.finRange 16 = ([0, 1, 2, 3, 4, 5, 6, 7] : List (Fin 16)) ++ [8, 9, 10, 11, 12, 13, 14, 15] := by
  decide

theorem regNo_d (n : Fin 8) (i : Fin 16) (h : i.val = n.val) : (getD (u8 n) : Exec M U32) = getR (regNo · i) := by
  rw [getD_eq]; congr 1; funext r
  have : i.val < 8 := by omega
  simp only [regNo, this, dite_true]; congr 1; exact Fin.ext h.symm
theorem regNo_a (n : Fin 8) (i : Fin 16) (h : i.val = n.val + 8) : (getA (u8 n) : Exec M U32) = getR (regNo · i) := by
  rw [getA_eq]; congr 1; funext r
  have : ¬ i.val < 8 := by omega
  simp only [regNo, this, dite_false]; congr 1; apply Fin.ext; simp; omega
theorem setRegNo_d (n : Fin 8) (i : Fin 16) (h : i.val = n.val) (v : U32) : (setD (u8 n) v : Exec M Unit) = modR (setRegNo · i v) := by
  rw [setD_eq]; congr 1; funext r
  have : i.val < 8 := by omega
  simp only [setRegNo, this, dite_true]; congr 1; exact Fin.ext h.symm
theorem setRegNo_a (n : Fin 8) (i : Fin 16) (h : i.val = n.val + 8) (v : U32) : (setA (u8 n) v : Exec M Unit) = modR (setRegNo · i v) := by
  rw [setA_eq]; congr 1; funext r
  have : ¬ i.val < 8 := by omega
  simp only [setRegNo, this, dite_false]; congr 1; apply Fin.ext; simp; omega

theorem decLoops (sz : Size) (hsz : sz ≠ .Byte) (mask : U16) (a : U32) {β : Type} (k : U32 → Exec M β) :
    (movemDecLoop sz getA [7, 6, 5, 4, 3, 2, 1, 0] a mask >>= fun p =>
      movemDecLoop sz getD [7, 6, 5, 4, 3, 2, 1, 0] p.1 p.2 >>= fun q => k q.1) =
      movemStoresDown sz (listedDown mask) a >>= k := by
  have h1 := decLoop_eq (M := M) sz hsz getA mask [7, 6, 5, 4, 3, 2, 1, 0] [0, 1, 2, 3, 4, 5, 6, 7] 0 a
    ⟨rfl, regNo_a 7 _ rfl, rfl, regNo_a 6 _ rfl, rfl, regNo_a 5 _ rfl, rfl, regNo_a 4 _ rfl, rfl, regNo_a 3 _ rfl, rfl, regNo_a 2 _ rfl,
      rfl, regNo_a 1 _ rfl, rfl, regNo_a 0 _ rfl, trivial⟩
  have h2 := fun a => decLoop_eq (M := M) sz hsz getD mask [7, 6, 5, 4, 3, 2, 1, 0] [8, 9, 10, 11, 12, 13, 14, 15] 8 a
    ⟨rfl, regNo_d 7 _ rfl, rfl, regNo_d 6 _ rfl, rfl, regNo_d 5 _ rfl, rfl, regNo_d 4 _ rfl, rfl, regNo_d 3 _ rfl, rfl, regNo_d 2 _ rfl,
      rfl, regNo_d 1 _ rfl, rfl, regNo_d 0 _ rfl, trivial⟩
  rw [BitVec.ushiftRight_zero] at h1
  rw [h1]
  simp only [map_eq_pure_bind, bind_assoc, pure_bind, List.length_cons, List.length_nil, Nat.reduceAdd, h2]
  rw [listedDown, finRange_split, List.filter_append, List.map_append, storesDown_append, bind_assoc]

theorem match_d : Match (getD : U8 → Exec M U32) id 0 [0, 1, 2, 3, 4, 5, 6, 7] [0, 1, 2, 3, 4, 5, 6, 7] :=
  ⟨rfl, regNo_d 0 _ rfl, rfl, regNo_d 1 _ rfl, rfl, regNo_d 2 _ rfl, rfl, regNo_d 3 _ rfl, rfl, regNo_d 4 _ rfl, rfl, regNo_d 5 _ rfl,
      rfl, regNo_d 6 _ rfl, rfl, regNo_d 7 _ rfl, trivial⟩
theorem match_a : Match (getA : U8 → Exec M U32) id 8 [0, 1, 2, 3, 4, 5, 6, 7] [8, 9, 10, 11, 12, 13, 14, 15] :=
  ⟨rfl, regNo_a 0 _ rfl, rfl, regNo_a 1 _ rfl, rfl, regNo_a 2 _ rfl, rfl, regNo_a 3 _ rfl, rfl, regNo_a 4 _ rfl, rfl, regNo_a 5 _ rfl,
      rfl, regNo_a 6 _ rfl, rfl, regNo_a 7 _ rfl, trivial⟩
theorem matchW_d : MatchW (setD : U8 → U32 → Exec M Unit) [0, 1, 2, 3, 4, 5, 6, 7] [0, 1, 2, 3, 4, 5, 6, 7] :=
  ⟨setRegNo_d 0 _ rfl, setRegNo_d 1 _ rfl, setRegNo_d 2 _ rfl, setRegNo_d 3 _ rfl, setRegNo_d 4 _ rfl, setRegNo_d 5 _ rfl,
    setRegNo_d 6 _ rfl, setRegNo_d 7 _ rfl, trivial⟩
theorem matchW_a : MatchW (setA : U8 → U32 → Exec M Unit) [0, 1, 2, 3, 4, 5, 6, 7] [8, 9, 10, 11, 12, 13, 14, 15] :=
  ⟨setRegNo_a 0 _ rfl, setRegNo_a 1 _ rfl, setRegNo_a 2 _ rfl, setRegNo_a 3 _ rfl, setRegNo_a 4 _ rfl, setRegNo_a 5 _ rfl,
    setRegNo_a 6 _ rfl, setRegNo_a 7 _ rfl, trivial⟩

/-- The direction operand of MOVEM. -/
def movemDir (toRegs : Bool) : Direction := if toRegs then .MemoryToRegister else .RegisterToMemory

theorem incLoops (sz : Size) (hsz : sz ≠ .Byte) (toRegs : Bool) (mask : U16) (a : U32) {β : Type} (k : U32 → Exec M β) :
    (movemIncLoop (movemDir toRegs) sz getD setD [0, 1, 2, 3, 4, 5, 6, 7] a mask >>= fun p =>
      movemIncLoop (movemDir toRegs) sz getA setA [0, 1, 2, 3, 4, 5, 6, 7] p.1 p.2 >>= fun q => k q.1) =
      (if toRegs then movemLoads sz (listed mask) a else movemStores sz (listed mask) a) >>= k := by
  cases toRegs
  · have hd : movemDir false ≠ .MemoryToRegister := by decide
    have h1 := incLoop_store (M := M) sz hsz getD setD mask _ hd _ _ 0 a match_d
    have h2 := fun a => incLoop_store (M := M) sz hsz getA setA mask _ hd _ _ 8 a match_a
    rw [BitVec.ushiftRight_zero] at h1
    rw [h1]
    simp only [map_eq_pure_bind, bind_assoc, pure_bind, List.length_cons, List.length_nil, Nat.reduceAdd, h2]
    rw [listed, finRange_split, List.filter_append, stores_append]
    simp only [Bool.false_eq_true, if_false, bind_assoc]
  · have h1 := incLoop_load (M := M) sz hsz getD setD mask _ _ 0 a match_d matchW_d
    have h2 := fun a => incLoop_load (M := M) sz hsz getA setA mask _ _ 8 a match_a matchW_a
    rw [BitVec.ushiftRight_zero] at h1
    rw [show movemDir true = .MemoryToRegister from rfl, h1]
    simp only [map_eq_pure_bind, bind_assoc, pure_bind, List.length_cons, List.length_nil, Nat.reduceAdd, h2]
    rw [listed, finRange_split, List.filter_append, loads_append]
    simp only [if_true, bind_assoc]

theorem countOnes_eq (mask : U16) : countOnes mask = (listed mask).length := by
  rw [listed, ← List.countP_eq_length_filter, countOnes]
  rw [show List.range 16 = (List.finRange 16).map Fin.val by decide, List.countP_map]
  rfl

theorem aligned_bind {β : Type} (a : U32) (k : U32 → Exec M β) : (even a >>= k) = aligned a >>= fun _ => k a := by
  rw [even_bind, aligned]
  split <;> simp

theorem executeMovem_eq (C : CpuDetails) (toRegs : Bool) (sz : Size) (hsz : sz ≠ .Byte) (m : Mode) (mask : U16) :
    (executeMovem C (movemDir toRegs) sz m.toAM mask : Exec M Nat) = cost (movem toRegs sz m mask)
      (movemModeTime C m + (if toRegs then C.MOVEM_MTR else 0) + (listed mask).length * bySize sz C.MOVEM_WORD C.MOVEM_LONG) := by
  have ht : ∀ t : Nat, (if movemDir toRegs = .MemoryToRegister then t + C.MOVEM_MTR else t) = t + (if toRegs then C.MOVEM_MTR else 0) := by
    intro t; cases toRegs <;> rfl
  have hs : (if sz.isLong then C.MOVEM_LONG else C.MOVEM_WORD) = bySize sz C.MOVEM_WORD C.MOVEM_LONG := by cases sz <;> rfl
  have hother : ∀ (m : Mode) (k : Exec M Nat), (do
        let q ← getEffectiveAddress C (EffectiveAddress.new m.toAM (some sz)) 0
        aligned q.1
        let p ← movemIncLoop (movemDir toRegs) sz getD setD [0, 1, 2, 3, 4, 5, 6, 7] q.1 mask
        let _ ← movemIncLoop (movemDir toRegs) sz getA setA [0, 1, 2, 3, 4, 5, 6, 7] p.1 p.2
        k : Exec M Nat) = (do
      let a ← address sz m
      aligned a
      let _ ← (if toRegs then movemLoads sz (listed mask) a else movemStores sz (listed mask) a)
      k) := by
    intro m k
    rw [ea_eq]
    simp only [map_eq_pure_bind, bind_assoc, pure_bind, incLoops sz hsz toRegs mask _ (fun _ => k)]
  unfold executeMovem
  rw [countOnes_eq]
  simp only [ht, hs, cost, map_eq_pure_bind]
  cases m with
  | dn n => rfl
  | an n => rfl
  | imm v => rfl
  | postinc n =>
    simp only [Mode.toAM, movem, movemTime, movemModeTime, pure_bind, getA_eq, setA_eq, aligned_bind, bind_assoc]
    refine bind_congr fun a => bind_congr fun _ => ?_
    exact incLoops sz hsz toRegs mask a (fun a => modR (setAreg · n a) >>= fun _ => pure _)
  | predec n =>
    simp only [Mode.toAM, movem, movemTime, movemModeTime, pure_bind, getA_eq, setA_eq, aligned_bind, bind_assoc]
    refine bind_congr fun a => bind_congr fun _ => ?_
    exact decLoops sz hsz mask a (fun a => modR (setAreg · n a) >>= fun _ => pure _)
  | ind n =>
    simp only [Mode.toAM, movem, movemTime, movemModeTime, pure_bind, getA_eq, setA_eq, aligned_bind, bind_assoc]
    exact hother (.ind n) _
  | disp n d =>
    simp only [Mode.toAM, movem, movemTime, movemModeTime, pure_bind, getA_eq, setA_eq, aligned_bind, bind_assoc]
    exact hother (.disp n d) _
  | index n x =>
    simp only [Mode.toAM, movem, movemTime, movemModeTime, pure_bind, getA_eq, setA_eq, aligned_bind, bind_assoc]
    exact hother (.index n x) _
  | absW a =>
    simp only [Mode.toAM, movem, movemTime, movemModeTime, pure_bind, getA_eq, setA_eq, aligned_bind, bind_assoc]
    exact hother (.absW a) _
  | absL a =>
    simp only [Mode.toAM, movem, movemTime, movemModeTime, pure_bind, getA_eq, setA_eq, aligned_bind, bind_assoc]
    exact hother (.absL a) _
  | pcDisp pc d =>
    simp only [Mode.toAM, movem, movemTime, movemModeTime, pure_bind, getA_eq, setA_eq, aligned_bind, bind_assoc]
    exact hother (.pcDisp pc d) _
  | pcIndex pc x =>
    simp only [Mode.toAM, movem, movemTime, movemModeTime, pure_bind, getA_eq, setA_eq, aligned_bind, bind_assoc]
    exact hother (.pcIndex pc x) _

/-! ### MOVEP -/

theorem byteOf_eq (x : U32) (i : Nat) : toU8 (x >>> (8 * i)) = byteOf x i := by
  apply BitVec.eq_of_toNat_eq
  simp [toU8, byteOf, Nat.shiftRight_eq_div_pow, Nat.pow_mul]

/-- The shift values of the model: `8 * (k - 1)` down to 0. -/
def shiftsDown : Nat → List Nat
  | 0 => []
  | k + 1 => 8 * k :: shiftsDown k

theorem movepShifts_eq (sz : Size) (hsz : sz ≠ .Byte) : movepShifts sz = shiftsDown (bytes sz) := by
  cases sz
  · exact absurd rfl hsz
  · rfl
  · rfl

theorem movepStores_eq (n : Fin 8) : ∀ (k : Nat) (a : U32), (movepStoreLoop (u8 n) (shiftsDown k) a : Exec M Unit) = movepStores n k a
  | 0, _ => rfl
  | k + 1, a => by
    simp only [shiftsDown, movepStoreLoop, movepStores, getD_eq, mem_eq, byteOf_eq, store_byte, movepStores_eq n k]

theorem setByteOf_eq (x : U32) (b : U8) (k : Nat) (hk : k < 4) (h : x.toNat % 256 ^ (k + 1) = 0) :
    x ||| (toU32 b <<< (8 * k)) = setByteOf x k b ∧ (setByteOf x k b).toNat % 256 ^ k = 0 := by
  have hx := x.isLt
  have hb := b.isLt
  obtain ⟨q, hq⟩ : ∃ q, x.toNat = 2 ^ (8 * (k + 1)) * q := by
    refine ⟨x.toNat / 256 ^ (k + 1), ?_⟩
    rw [Nat.pow_mul]
    have := Nat.div_add_mod x.toNat (256 ^ (k + 1))
    rw [h] at this; exact this.symm
  have e1 : (toU32 b <<< (8 * k)).toNat = b.toNat * 2 ^ (8 * k) := by
    rw [BitVec.toNat_shiftLeft, Nat.shiftLeft_eq]
    have : (toU32 b).toNat = b.toNat := by simp [toU32]; omega
    rw [this]
    apply Nat.mod_eq_of_lt
    have h4 : k = 0 ∨ k = 1 ∨ k = 2 ∨ k = 3 := by omega
    rcases h4 with rfl | rfl | rfl | rfl <;> simp <;> omega
  have hlt : b.toNat * 2 ^ (8 * k) < 2 ^ (8 * (k + 1)) := by
    rw [show 8 * (k + 1) = 8 + 8 * k by omega, Nat.pow_add]
    exact Nat.mul_lt_mul_of_pos_right hb (Nat.two_pow_pos _)
  have e2 : (x ||| (toU32 b <<< (8 * k))).toNat = x.toNat + b.toNat * 256 ^ k := by
    rw [BitVec.toNat_or, e1, hq, ← Nat.two_pow_add_eq_or_of_lt hlt, Nat.pow_mul 2 8 k]
  have hdvd : x.toNat % 256 ^ k = 0 := by
    rw [hq, show 8 * (k + 1) = 8 * k + 8 by omega, Nat.pow_add, Nat.mul_assoc, Nat.pow_mul]
    exact Nat.mul_mod_right _ _
  have e3 : x.toNat / 256 ^ (k + 1) * 256 ^ (k + 1) = x.toNat := by
    have := Nat.div_add_mod x.toNat (256 ^ (k + 1))
    rw [h, Nat.mul_comm] at this; omega
  have e4 : x ||| (toU32 b <<< (8 * k)) = setByteOf x k b := by
    apply BitVec.eq_of_toNat_eq
    rw [e2, setByteOf, e3, hdvd, BitVec.toNat_ofNat, Nat.add_zero, Nat.mod_eq_of_lt]
    rw [← e2]; exact BitVec.isLt _
  refine ⟨e4, ?_⟩
  rw [← e4, e2, Nat.add_mod, hdvd, Nat.mul_mod_left]
  rfl

theorem movepLoads_eq (n : Fin 8) : ∀ (k : Nat) (_ : k ≤ 4) (a : U32) (s : St M), (s.cpu.regs.d n).toNat % 256 ^ k = 0 →
    (movepLoadLoop (u8 n) (shiftsDown k) a : Exec M Unit) s = movepLoads n k a s
  | 0, _, _, _, _ => rfl
  | k + 1, hk, a, s, h => by
    simp only [shiftsDown, movepLoadLoop, movepLoads, getD_eq, setD_eq, mem_eq, load_byte, bind_apply]
    cases hl : (load .Byte a : Exec M _) s with
    | ok b s' =>
      have hs := (load_ok hl).1
      have hb := setByteOf_eq (s'.cpu.regs.d n) b k (by omega) (by rw [hs]; exact h)
      simp only [getR, modR, hb.1]
      apply movepLoads_eq n k (by omega)
      rw [setDreg_d]; exact hb.2
    | err v s' => rfl
    | panic => rfl

/-- The direction operand of MOVEP. -/
def movepDir (toMem : Bool) : Direction := if toMem then .RegisterToMemory else .MemoryToRegister

theorem executeMovep_eq (C : CpuDetails) (toMem : Bool) (sz : Size) (hsz : sz ≠ .Byte) (n an : Fin 8) (d : U16) :
    (executeMovep C (u8 n) (movepDir toMem) sz (u8 an) d : Exec M Nat) = cost (movep toMem sz n an d)
      (if toMem then bySize sz C.MOVEP_RTM_WORD C.MOVEP_RTM_LONG else bySize sz C.MOVEP_MTR_WORD C.MOVEP_MTR_LONG) := by
  cases toMem
  · ext s
    have hc : ∀ x : U32, (if sz.isWord then x &&& 0xFFFF0000 else 0) = insertLow sz x 0 ∧ (insertLow sz x 0).toNat % 256 ^ bytes sz = 0 := by
      intro x
      cases sz
      · exact absurd rfl hsz
      · refine ⟨?_, ?_⟩
        · rw [insertLow_word]; simp [Size.isWord, toU32]
        · simp [insertLow, width, bytes]
      · refine ⟨?_, ?_⟩
        · rw [insertLow_long]; rfl
        · rw [insertLow_long]; rfl
    simp only [executeMovep, movepDir, movep, cost, Bool.false_eq_true, if_false, reduceCtorEq, getA_eq, getD_eq, setD_eq, bind_apply, getR,
      map_apply, (hc _).1, movepShifts_eq sz hsz, sext16_eq, modR]
    rw [movepLoads_eq n _ (by cases sz <;> simp [bytes]) _ _ (by rw [setDreg_d]; exact (hc _).2)]
    cases (movepLoads n (bytes sz) (areg s.cpu.regs an + signExt d) _ : Res M Unit) with
    | ok u s' => simp only [pure_apply, bySize, size_isLong, decide_eq_true_eq]
    | err v s' => rfl
    | panic => rfl
  · simp only [executeMovep, movepDir, movep, cost, if_true, getA_eq, movepShifts_eq sz hsz, sext16_eq, map_eq_pure_bind, bind_assoc,
      movepStores_eq, bySize, size_isLong, decide_eq_true_eq]

end Exec
end M68k
