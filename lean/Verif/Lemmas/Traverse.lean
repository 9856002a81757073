import Verif.Lemmas.Ends
import Verif.Lemmas.Claims
/-
Predicates on actions that hold of every instruction because they hold of the primitive actions and are
closed under sequencing.
-/
set_option linter.unusedSectionVars false
namespace M68k
namespace Exec
open Spec
variable {M : Type} [MemoryAccess M]

/-- Changes of the status register that keep T, S and a mask of 3 bits. -/
def KeepsSystem (f : StatusRegister → StatusRegister) : Prop := ∀ sr, sr.interruptMask.toNat < 8 → SameSystem sr (f sr)

/-- The vectors of the exceptions that instructions raise by themselves. -/
def Raisable (v : U8) : Prop := (3 ≤ v.toNat ∧ v.toNat ≤ 8 ∨ v = 10 ∨ v = 11 ∨ v = 14) ∨ 32 ≤ v.toNat ∧ v.toNat ≤ 47
instance (v : U8) : Decidable (Raisable v) := inferInstanceAs (Decidable (_ ∨ _))
theorem raisable_unimplemented (op : U16) : Raisable (if op.toNat / 4096 = 10 then 10 else if op.toNat / 4096 = 15 then 11 else 4) := by
  split
  · decide
  · split <;> decide
theorem raisable_trap (op : U16) : Raisable (BitVec.ofNat 8 (32 + op.toNat % 16)) := by
  refine .inr ?_
  rw [BitVec.toNat_ofNat]
  omega

/-- `P` holds of the primitive actions that neither read instruction words nor jump, and is closed under sequencing. -/
structure BodyPrims (P : ∀ {α : Type}, Exec M α → Prop) : Prop where
  pure : ∀ {α : Type} (a : α), P (pure a : Exec M α)
  bind : ∀ {α β : Type} (x : Exec M α) (f : α → Exec M β), P x → (∀ a, P (f a)) → P (x >>= f)
  crash : ∀ {α : Type}, P (crash : Exec M α)
  trap : ∀ {α : Type} (v : U8), Raisable v → P (trap v : Exec M α)
  getR : ∀ {α : Type} (f : Registers → α), P (getR f : Exec M α)
  load : ∀ (sz : Size) (a : U32), P (load sz a : Exec M _)
  store : ∀ (sz : Size) (a : U32) (v : Val sz), P (store sz a v : Exec M _)
  movemLoad : ∀ (sz : Size) (a : U32), sz ≠ .Byte → ¬ Spec.Odd a → P (Spec.movemLoad sz a : Exec M _)
  movemStore : ∀ (sz : Size) (a v : U32), sz ≠ .Byte → ¬ Spec.Odd a → P (Spec.movemStore sz a v : Exec M _)
  dreg : ∀ (n : Fin 8) (f : Registers → U32), P (modR fun r => setDreg r n (f r) : Exec M Unit)
  areg : ∀ (n : Fin 8) (f : Registers → U32), P (modR fun r => setAreg r n (f r) : Exec M Unit)
  flags : ∀ f, KeepsSystem f → P (setFlags f : Exec M Unit)

/-- `P` holds of the primitive actions of the non-privileged instructions and is closed under sequencing. -/
structure Prims (P : ∀ {α : Type}, Exec M α → Prop) : Prop extends BodyPrims P where
  fetch : P (fetch : Exec M U16)
  jump : ∀ a, P (jump a : Exec M Unit)

namespace BodyPrims
variable {P : ∀ {α : Type}, Exec M α → Prop} (hP : BodyPrims P) {α β : Type}
include hP

theorem map (f : α → β) {x : Exec M α} (hx : P x) : P (f <$> x) := by
  have : f <$> x = x >>= fun a => Pure.pure (f a) := by
    funext s
    rw [Exec.map_apply, Exec.bind_apply]
    cases x s <;> rfl
  rw [this]
  exact hP.bind _ _ hx fun a => hP.pure _

theorem cost {x : Exec M α} (t : Nat) (hx : P x) : P (cost x t) := hP.map _ hx

theorem sized (op : U16) {k : Size → Exec M Nat} (h : ∀ sz, P (k sz)) : P (sized op k) := by
  unfold Spec.sized
  split
  · exact h _
  · split
    · exact h _
    · split
      · exact h _
      · exact hP.crash

theorem moveSized (op : U16) {k : Size → Exec M Nat} (h : ∀ sz, P (k sz)) : P (moveSized op k) := by
  unfold Spec.moveSized
  split
  · exact h _
  · split
    · exact h _
    · split
      · exact h _
      · exact hP.crash

theorem compute (f : StatusRegister → α × StatusRegister) (h : KeepsSystem fun sr => (f sr).2) : P (compute f : Exec M α) := by
  have : (Spec.compute f : Exec M α) = Spec.getR (fun r => r.sr) >>= fun sr => setFlags (fun sr => (f sr).2) >>= fun _ => Pure.pure (f sr).1 := by
    funext s; rfl
  rw [this]
  exact hP.bind _ _ (hP.getR _) fun sr => hP.bind _ _ (hP.flags _ h) fun _ => hP.pure _

theorem updateA (n : Fin 8) (f : U32 → U32) : P (updateA n f : Exec M Unit) := hP.areg n fun r => f (Spec.areg r n)

theorem locate (sz : Size) (m : Mode) : P (locate sz m : Exec M Place) := by
  cases m with
  | postinc n =>
    exact hP.bind (Spec.getR fun r => Place.mem (Spec.areg r n)) (fun p => (modR fun r => setAreg r n (Spec.areg r n + step n sz)) >>= fun _ => Pure.pure p)
      (hP.getR _) fun p => hP.bind _ _ (hP.areg n _) fun _ => hP.pure _
  | predec n =>
    exact hP.bind (Spec.getR fun r => Place.mem (Spec.areg r n - step n sz)) (fun p => (modR fun r => setAreg r n (Spec.areg r n - step n sz)) >>= fun _ => Pure.pure p)
      (hP.getR _) fun p => hP.bind _ _ (hP.areg n _) fun _ => hP.pure _
  | dn n => exact hP.pure _
  | an n => exact hP.pure _
  | ind n => exact hP.getR fun r => Place.mem (Spec.areg r n)
  | disp n d => exact hP.getR fun r => Place.mem (Spec.areg r n + signExt d)
  | index n x => exact hP.getR fun r => Place.mem (Spec.areg r n + indexDisp x + indexValue r x)
  | absW a => exact hP.pure _
  | absL a => exact hP.pure _
  | pcDisp pc d => exact hP.pure _
  | pcIndex pc x => exact hP.getR fun r => Place.mem (pc + indexDisp x + indexValue r x)
  | imm v => exact hP.pure _

theorem readAt (sz : Size) (p : Place) : P (readAt sz p : Exec M _) := by
  cases p with
  | dreg n => exact hP.getR fun r => low sz (r.d n)
  | areg n =>
    unfold Spec.readAt
    simp only
    split
    · exact hP.crash
    · exact hP.getR fun r => low sz (Spec.areg r n)
  | mem a => exact hP.load _ _
  | imm v => exact hP.pure _

theorem writeAt (sz : Size) (p : Place) (v : Val sz) : P (writeAt sz p v : Exec M _) := by
  cases p with
  | dreg n => exact hP.dreg n fun r => insertLow sz (r.d n) v
  | areg n =>
    unfold Spec.writeAt
    simp only
    split
    · exact hP.crash
    · exact hP.areg n fun _ => signExt v
  | mem a => exact hP.store _ _ _
  | imm v => exact hP.crash

theorem read (sz : Size) (m : Mode) : P (read sz m : Exec M _) :=
  hP.bind _ _ (hP.locate _ _) fun _ => hP.bind _ _ (hP.readAt _ _) fun _ => hP.pure _
theorem write (sz : Size) (m : Mode) (v : Val sz) : P (write sz m v : Exec M _) :=
  hP.bind _ _ (hP.locate _ _) fun _ => hP.writeAt _ _ _

theorem address (sz : Size) (m : Mode) : P (address sz m : Exec M _) := by
  refine hP.bind _ _ (hP.locate _ _) fun p => ?_
  split
  · exact hP.pure _
  · exact hP.crash

theorem control (m : Mode) : P (control m : Exec M _) := by
  unfold Spec.control
  split
  · exact hP.crash
  · exact hP.crash
  · exact hP.address _ _

theorem rmw (sz : Size) (m : Mode) {f : Val sz → StatusRegister → Val sz × StatusRegister}
    (h : ∀ v, KeepsSystem fun sr => (f v sr).2) : P (rmw sz m f : Exec M Unit) := by
  refine hP.bind _ _ (hP.read _ _) fun x => ?_
  exact hP.bind _ _ (hP.compute _ (h x.2)) fun _ => hP.writeAt _ _ _

theorem opToEa (sz : Size) (n : Fin 8) (m : Mode) {f : Val sz → Val sz → StatusRegister → Val sz × StatusRegister}
    (h : ∀ v w, KeepsSystem fun sr => (f v w sr).2) : P (opToEa sz n m f : Exec M Unit) :=
  hP.bind _ _ (hP.getR _) fun _ => hP.rmw _ _ fun v => h v _

theorem opToDn (sz : Size) (n : Fin 8) (m : Mode) {f : Val sz → Val sz → StatusRegister → Val sz × StatusRegister}
    (h : ∀ v w, KeepsSystem fun sr => (f v w sr).2) : P (opToDn sz n m f : Exec M Unit) := by
  refine hP.bind _ _ (hP.read _ _) fun x => ?_
  exact hP.rmw _ _ fun v => h v _

theorem pair (sz : Size) (b : Bool) (x y : Fin 8) {f : Val sz → Val sz → StatusRegister → Val sz × StatusRegister}
    (h : ∀ v w, KeepsSystem fun sr => (f v w sr).2) : P (pair sz b x y f : Exec M Unit) :=
  hP.bind _ _ (hP.locate _ _) fun _ => hP.bind _ _ (hP.locate _ _) fun _ => hP.bind _ _ (hP.readAt _ _) fun _ =>
    hP.bind _ _ (hP.readAt _ _) fun _ => hP.bind _ _ (hP.compute _ (h _ _)) fun _ => hP.writeAt _ _ _

theorem readExt (sz : Size) (m : Mode) : P (readExt sz m : Exec M _) :=
  hP.bind _ _ (hP.read _ _) fun _ => hP.pure _

theorem push (sz : Size) (v : Val sz) : P (push sz v : Exec M _) := hP.write _ _ _
theorem pop (sz : Size) : P (pop sz : Exec M _) := hP.bind _ _ (hP.read _ _) fun _ => hP.pure _

end BodyPrims

/-! ### The flags of the operations -/

theorem keeps_logic {n : Nat} (v : BitVec n) : KeepsSystem (logicFlags v) := fun _ _ => ⟨rfl, rfl, rfl⟩
theorem keeps_sum (b : Bool) {n : Nat} (d s : BitVec n) : KeepsSystem fun sr => (sum b d s sr).2 := fun _ _ => ⟨rfl, rfl, rfl⟩
theorem keeps_difference (b : Bool) {n : Nat} (d s : BitVec n) : KeepsSystem fun sr => (difference b d s sr).2 := fun _ _ => ⟨rfl, rfl, rfl⟩
theorem keeps_logicOp {n : Nat} (f : BitVec n → BitVec n → BitVec n) (d s : BitVec n) : KeepsSystem fun sr => (logic f d s sr).2 :=
  fun _ _ => ⟨rfl, rfl, rfl⟩
theorem keeps_compare {n : Nat} (d s : BitVec n) : KeepsSystem (compareFlags d s) := fun _ _ => ⟨rfl, rfl, rfl⟩
theorem keeps_decimalSum (d s : BitVec 8) : KeepsSystem fun sr => (decimalSum d s sr).2 := by
  intro sr _
  unfold decimalSum
  split <;> exact ⟨rfl, rfl, rfl⟩
theorem keeps_decimalDifference (d s : BitVec 8) : KeepsSystem fun sr => (decimalDifference d s sr).2 := by
  intro sr _
  unfold decimalDifference
  split <;> exact ⟨rfl, rfl, rfl⟩
theorem keeps_asl {n : Nat} (k : Nat) (v : BitVec n) : KeepsSystem fun sr => (asl k v sr).2 := by
  intro sr _; unfold asl; simp only; repeat' split
  all_goals exact ⟨rfl, rfl, rfl⟩
theorem keeps_asr {n : Nat} (k : Nat) (v : BitVec n) : KeepsSystem fun sr => (asr k v sr).2 := by
  intro sr _; unfold asr; simp only; repeat' split
  all_goals exact ⟨rfl, rfl, rfl⟩
theorem keeps_lsl {n : Nat} (k : Nat) (v : BitVec n) : KeepsSystem fun sr => (lsl k v sr).2 := by
  intro sr _; unfold lsl; simp only; repeat' split
  all_goals exact ⟨rfl, rfl, rfl⟩
theorem keeps_lsr {n : Nat} (k : Nat) (v : BitVec n) : KeepsSystem fun sr => (lsr k v sr).2 := by
  intro sr _; unfold lsr; simp only; repeat' split
  all_goals exact ⟨rfl, rfl, rfl⟩
theorem keeps_rol {n : Nat} (k : Nat) (v : BitVec n) : KeepsSystem fun sr => (rol k v sr).2 := by
  intro sr _; unfold rol; simp only; repeat' split
  all_goals exact ⟨rfl, rfl, rfl⟩
theorem keeps_ror {n : Nat} (k : Nat) (v : BitVec n) : KeepsSystem fun sr => (ror k v sr).2 := by
  intro sr _; unfold ror; simp only; repeat' split
  all_goals exact ⟨rfl, rfl, rfl⟩
theorem keeps_roxl {n : Nat} (k : Nat) (v : BitVec n) : KeepsSystem fun sr => (roxl k v sr).2 := by
  intro sr _; unfold roxl; simp only; repeat' split
  all_goals exact ⟨rfl, rfl, rfl⟩
theorem keeps_roxr {n : Nat} (k : Nat) (v : BitVec n) : KeepsSystem fun sr => (roxr k v sr).2 := by
  intro sr _; unfold roxr; simp only; repeat' split
  all_goals exact ⟨rfl, rfl, rfl⟩

theorem keeps_andiccr (w : U16) : KeepsSystem fun sr => srOp (· && ·) (· &&& ·) (w ||| 0xA700) sr := by
  intro sr h
  have hw : (w ||| 0xA700).toNat = w.toNat ||| 0xA700 := BitVec.toNat_or _ _
  have hbit : ∀ i, (w.toNat ||| 0xA700).testBit i = (w.toNat.testBit i || (0xA700 : Nat).testBit i) := fun i => Nat.testBit_or ..
  have h1 : (w ||| 0xA700).toNat / 32768 % 2 = 1 := by
    have := hbit 15
    rw [Nat.testBit_eq_decide_div_mod_eq, ← hw] at this
    have h2 : (0xA700 : Nat).testBit 15 = true := by decide
    rw [h2, Bool.or_true] at this
    exact of_decide_eq_true this
  have h2 : (w ||| 0xA700).toNat / 8192 % 2 = 1 := by
    have := hbit 13
    rw [Nat.testBit_eq_decide_div_mod_eq, ← hw] at this
    have h2 : (0xA700 : Nat).testBit 13 = true := by decide
    rw [h2, Bool.or_true] at this
    exact of_decide_eq_true this
  have h3 : (w ||| 0xA700).toNat / 256 % 8 = 7 := by
    rw [hw]
    have e : ∀ i, (w.toNat ||| 0xA700).testBit i = (w.toNat.testBit i || (0xA700 : Nat).testBit i) := fun i => Nat.testBit_or ..
    have a := hbit 8
    have b := hbit 9
    have c := hbit 10
    rw [show (0xA700 : Nat).testBit 8 = true by decide, Bool.or_true, Nat.testBit_eq_decide_div_mod_eq, decide_eq_true_eq] at a
    rw [show (0xA700 : Nat).testBit 9 = true by decide, Bool.or_true, Nat.testBit_eq_decide_div_mod_eq, decide_eq_true_eq] at b
    rw [show (0xA700 : Nat).testBit 10 = true by decide, Bool.or_true, Nat.testBit_eq_decide_div_mod_eq, decide_eq_true_eq] at c
    generalize w.toNat ||| 0xA700 = z at *
    omega
  refine ⟨?_, ?_, ?_⟩
  · simp only [srOp, srOf, h1, decide_true, Bool.and_true]
  · simp only [srOp, srOf, h2, decide_true, Bool.and_true]
  · apply BitVec.eq_of_toNat_eq
    simp only [srOp, srOf, h3, BitVec.toNat_and, BitVec.toNat_ofNat]
    rw [show 7 % 2 ^ 8 = 2 ^ 3 - 1 from rfl, Nat.and_two_pow_sub_one_eq_mod]
    exact Nat.mod_eq_of_lt h

namespace BodyPrims
variable {P : ∀ {α : Type}, Exec M α → Prop} (hP : BodyPrims P)
include hP

/-! ### Instructions -/

theorem quickOp (b : Bool) (data : Fin 8) (sz : Size) (m : Mode) : P (quickOp b data sz m : Exec M Unit) := by
  unfold Spec.quickOp
  split
  · exact hP.updateA _ _
  · refine hP.rmw _ _ fun v => ?_
    cases b
    · exact keeps_sum _ _ _
    · exact keeps_difference _ _ _

theorem compareWith {n : Nat} (d s : BitVec n) : P (compareWith d s : Exec M Unit) := hP.flags _ (keeps_compare _ _)

theorem cmpm (sz : Size) (x y : Fin 8) : P (cmpm sz x y : Exec M Unit) :=
  hP.bind _ _ (hP.locate _ _) fun _ => hP.bind _ _ (hP.locate _ _) fun _ => hP.bind _ _ (hP.readAt _ _) fun _ =>
    hP.bind _ _ (hP.readAt _ _) fun _ => hP.compareWith _ _

theorem setD (n : Fin 8) (v : U32) : P (modR (setDreg · n v) : Exec M Unit) := hP.dreg n fun _ => v

theorem mul (b : Bool) (n : Fin 8) (m : Mode) : P (mul b n m : Exec M Unit) := by
  refine hP.bind _ _ (hP.read _ _) fun x => ?_
  refine hP.bind _ _ (hP.getR _) fun d => ?_
  exact hP.bind _ _ (hP.setD _ _) fun _ => hP.flags _ (keeps_logic _)

theorem divu (n : Fin 8) (m : Mode) : P (divu n m : Exec M Unit) := by
  refine hP.bind _ _ (hP.flags _ fun _ _ => ⟨rfl, rfl, rfl⟩) fun _ => hP.bind _ _ (hP.read _ _) fun x => ?_
  simp only
  split
  · exact hP.bind _ _ (hP.flags _ fun _ _ => ⟨rfl, rfl, rfl⟩) fun _ => hP.trap _ (by decide)
  · refine hP.bind _ _ (hP.getR _) fun d => ?_
    split
    · exact hP.bind _ _ (hP.setD _ _) fun _ => hP.flags _ fun _ _ => ⟨rfl, rfl, rfl⟩
    · exact hP.flags _ fun _ _ => ⟨rfl, rfl, rfl⟩

theorem divs (n : Fin 8) (m : Mode) : P (divs n m : Exec M Unit) := by
  refine hP.bind _ _ (hP.flags _ fun _ _ => ⟨rfl, rfl, rfl⟩) fun _ => hP.bind _ _ (hP.read _ _) fun x => ?_
  simp only
  split
  · exact hP.bind _ _ (hP.flags _ fun _ _ => ⟨rfl, rfl, rfl⟩) fun _ => hP.trap _ (by decide)
  · refine hP.bind _ _ (hP.getR _) fun d => ?_
    split
    · exact hP.bind _ _ (hP.setD _ _) fun _ => hP.flags _ fun _ _ => ⟨rfl, rfl, rfl⟩
    · exact hP.flags _ fun _ _ => ⟨rfl, rfl, rfl⟩

theorem bitOpAt (o : BitOp) (sz : Size) (i : Nat) (m : Mode) : P (bitOpAt o sz i m : Exec M Unit) := by
  unfold Spec.bitOpAt
  split
  · refine hP.bind _ _ (hP.read _ _) fun x => ?_
    exact hP.flags _ fun _ _ => ⟨rfl, rfl, rfl⟩
  · exact hP.rmw _ _ fun _ _ _ => ⟨rfl, rfl, rfl⟩

theorem bitOp (o : BitOp) (i : Nat) (m : Mode) : P (bitOp o i m : Exec M Unit) := by
  unfold Spec.bitOp
  split <;> exact hP.bitOpAt _ _ _ _

theorem shift {f : {n : Nat} → Nat → BitVec n → StatusRegister → BitVec n × StatusRegister}
    (hf : ∀ {n : Nat} (k : Nat) (v : BitVec n), KeepsSystem fun sr => (f k v sr).2) (sz : Size) (b : Bool) (r n : Fin 8) :
    P (shift f sz b r n : Exec M Nat) := by
  refine hP.bind _ _ ?_ fun k => hP.bind _ _ (hP.rmw _ _ fun v => hf k v) fun _ => hP.pure _
  unfold Spec.shiftCount
  split
  · exact hP.getR _
  · exact hP.pure _

theorem shiftInstr (op : U16) {f g : {n : Nat} → Nat → BitVec n → StatusRegister → BitVec n × StatusRegister}
    (hf : ∀ {n : Nat} (k : Nat) (v : BitVec n), KeepsSystem fun sr => (f k v sr).2)
    (hg : ∀ {n : Nat} (k : Nat) (v : BitVec n), KeepsSystem fun sr => (g k v sr).2) (a b c : Nat) :
    P (shiftInstr op f g a b c : Exec M Nat) := by
  refine hP.sized _ fun sz => hP.map _ ?_
  split
  · exact hP.shift hf _ _ _ _
  · exact hP.shift hg _ _ _ _

theorem exg (k : Direction) (x y : Fin 8) : P (exg k x y : Exec M Unit) := by
  have hAA : ∀ x y : Fin 8, P ((modR fun r => setAreg (setAreg r y (Spec.areg r x)) x (Spec.areg r y)) : Exec M Unit) := by
    intro x y
    have : ((modR fun r => setAreg (setAreg r y (Spec.areg r x)) x (Spec.areg r y)) : Exec M Unit) =
        Spec.getR (fun r => Spec.areg r y) >>= fun v => (modR fun r => setAreg r y (Spec.areg r x)) >>= fun _ => modR fun r => setAreg r x v := by
      funext s; rfl
    rw [this]
    exact hP.bind _ _ (hP.getR _) fun _ => hP.bind _ _ (hP.areg _ _) fun _ => hP.areg _ fun _ => _
  have hDD : ∀ x y : Fin 8, P ((modR fun r => setDreg (setDreg r x (r.d y)) y (r.d x)) : Exec M Unit) := by
    intro x y
    have : ((modR fun r => setDreg (setDreg r x (r.d y)) y (r.d x)) : Exec M Unit) =
        Spec.getR (fun r => r.d x) >>= fun v => (modR fun r => setDreg r x (r.d y)) >>= fun _ => modR fun r => setDreg r y v := by
      funext s; rfl
    rw [this]
    exact hP.bind _ _ (hP.getR _) fun _ => hP.bind _ _ (hP.dreg _ _) fun _ => hP.dreg _ fun _ => _
  have hDA : ∀ x y : Fin 8, P ((modR fun r => setDreg (setAreg r y (r.d x)) x (Spec.areg r y)) : Exec M Unit) := by
    intro x y
    have : ((modR fun r => setDreg (setAreg r y (r.d x)) x (Spec.areg r y)) : Exec M Unit) =
        Spec.getR (fun r => Spec.areg r y) >>= fun v => (modR fun r => setAreg r y (r.d x)) >>= fun _ => modR fun r => setDreg r x v := by
      funext s; rfl
    rw [this]
    exact hP.bind _ _ (hP.getR _) fun _ => hP.bind _ _ (hP.areg _ _) fun _ => hP.dreg _ fun _ => _
  unfold Spec.exg
  split
  · exact hDD _ _
  · exact hAA _ _
  · exact hDA _ _

theorem setSr (n : Fin 8) : P ((modR fun r => { r with sr := logicFlags (r.d n) r.sr }) : Exec M Unit) :=
  hP.bind (Spec.getR fun r => r.d n) (fun v => setFlags (logicFlags v)) (hP.getR _) fun _ => hP.flags _ (keeps_logic _)

theorem addr_even {sz : Size} (hsz : sz ≠ .Byte) {a : U32} (ha : ¬ Spec.Odd a) :
    ¬ Spec.Odd (a + BitVec.ofNat 32 (bytes sz)) ∧ ¬ Spec.Odd (a - BitVec.ofNat 32 (bytes sz)) := by
  unfold Spec.Odd at *
  cases sz with
  | Byte => exact absurd rfl hsz
  | Word => simp only [bytes, BitVec.toNat_add, BitVec.toNat_sub, BitVec.toNat_ofNat]; omega
  | Long => simp only [bytes, BitVec.toNat_add, BitVec.toNat_sub, BitVec.toNat_ofNat]; omega

theorem setRegNo (i : Fin 16) (v : U32) : P (modR (setRegNo · i v) : Exec M Unit) := by
  unfold Spec.setRegNo
  by_cases h : i.val < 8
  · simp only [h, dite_true]; exact hP.dreg _ fun _ => v
  · simp only [h, dite_false]; exact hP.areg _ fun _ => v

theorem movemLoads (sz : Size) (hsz : sz ≠ .Byte) (l : List (Fin 16)) (a : U32) (ha : ¬ Spec.Odd a) : P (movemLoads sz l a : Exec M U32) := by
  induction l generalizing a with
  | nil => exact hP.pure _
  | cons i l ih =>
    exact hP.bind _ _ (hP.movemLoad _ _ hsz ha) fun _ => hP.bind _ _ (hP.setRegNo _ _) fun _ => ih _ (hP.addr_even hsz ha).1

theorem movemStores (sz : Size) (hsz : sz ≠ .Byte) (l : List (Fin 16)) (a : U32) (ha : ¬ Spec.Odd a) : P (movemStores sz l a : Exec M U32) := by
  induction l generalizing a with
  | nil => exact hP.pure _
  | cons i l ih =>
    exact hP.bind _ _ (hP.getR _) fun _ => hP.bind _ _ (hP.movemStore _ _ _ hsz ha) fun _ => ih _ (hP.addr_even hsz ha).1

theorem movemStoresDown (sz : Size) (hsz : sz ≠ .Byte) (l : List (Fin 16)) (a : U32) (ha : ¬ Spec.Odd a) : P (movemStoresDown sz l a : Exec M U32) := by
  induction l generalizing a with
  | nil => exact hP.pure _
  | cons i l ih =>
    exact hP.bind _ _ (hP.getR _) fun _ => hP.bind _ _ (hP.movemStore _ _ _ hsz (hP.addr_even hsz ha).2) fun _ => ih _ (hP.addr_even hsz ha).2

theorem aligned (a : U32) {α : Type} {f : Unit → Exec M α} (hf : ¬ Spec.Odd a → P (f ())) : P (aligned a >>= f) := by
  by_cases h : Spec.Odd a
  · have : (Spec.aligned a >>= f) = Spec.trap 3 := by unfold Spec.aligned; rw [if_pos h]; rfl
    rw [this]; exact hP.trap _ (by decide)
  · have : (Spec.aligned a >>= f) = f () := by unfold Spec.aligned; rw [if_neg h]; rfl
    rw [this]; exact hf h

theorem movem (b : Bool) (sz : Size) (hsz : sz ≠ .Byte) (m : Mode) (mask : U16) : P (movem b sz m mask : Exec M Unit) := by
  unfold Spec.movem
  split
  · refine hP.bind _ _ (hP.getR _) fun a => hP.aligned a fun ha => hP.bind _ _ (hP.movemStoresDown sz hsz _ _ ha) fun _ => hP.updateA _ _
  · refine hP.bind _ _ (hP.getR _) fun a => hP.aligned a fun ha => hP.bind _ _ ?_ fun _ => hP.updateA _ _
    split
    · exact hP.movemLoads sz hsz _ _ ha
    · exact hP.movemStores sz hsz _ _ ha
  · refine hP.bind _ _ (hP.address _ _) fun a => hP.aligned a fun ha => hP.bind _ _ ?_ fun _ => hP.pure _
    split
    · exact hP.movemLoads sz hsz _ _ ha
    · exact hP.movemStores sz hsz _ _ ha

theorem movepStores (n : Fin 8) (k : Nat) (a : U32) : P (movepStores n k a : Exec M Unit) := by
  induction k generalizing a with
  | zero => exact hP.pure _
  | succ k ih => exact hP.bind _ _ (hP.getR _) fun _ => hP.bind _ _ (hP.store _ _ _) fun _ => ih _

theorem movepLoads (n : Fin 8) (k : Nat) (a : U32) : P (movepLoads n k a : Exec M Unit) := by
  induction k generalizing a with
  | zero => exact hP.pure _
  | succ k ih => exact hP.bind _ _ (hP.load .Byte _) fun b => hP.bind _ _ (hP.dreg n fun r => setByteOf (r.d n) k b) fun _ => ih _

theorem movep (b : Bool) (sz : Size) (n an : Fin 8) (d : U16) : P (movep b sz n an d : Exec M Unit) := by
  refine hP.bind _ _ (hP.getR _) fun a => ?_
  simp only
  split
  · exact hP.movepStores _ _ _
  · exact hP.bind _ _ (hP.dreg n fun r => insertLow sz (r.d n) 0) fun _ => hP.movepLoads _ _ _

theorem test (cc : Fin 16) : P (test cc : Exec M Bool) := hP.getR _

theorem chk (n : Fin 8) (m : Mode) : P (chk n m : Exec M Unit) := by
  refine hP.bind _ _ (hP.read _ _) fun x => ?_
  refine hP.bind _ _ (hP.getR _) fun v => ?_
  split
  · exact hP.trap _ (by decide)
  · exact hP.pure _

theorem link (n : Fin 8) (d : U16) : P (link n d : Exec M Unit) :=
  hP.bind _ _ (hP.getR _) fun _ => hP.bind _ _ (hP.push _ _) fun _ =>
    hP.bind _ _ (hP.areg n fun r => Spec.areg r 7) fun _ => hP.updateA _ _

theorem unlk (n : Fin 8) : P (unlk n : Exec M Unit) :=
  hP.bind _ _ (hP.areg 7 fun r => Spec.areg r n) fun _ => hP.bind _ _ (hP.pop _) fun _ => hP.updateA _ _

end BodyPrims

namespace Prims
variable {P : ∀ {α : Type}, Exec M α → Prop} (hP : Prims P) {α β : Type}
include hP

theorem fetchLong : P (fetchLong : Exec M U32) :=
  hP.bind _ _ hP.fetch fun _ => hP.bind _ _ hP.fetch fun _ => hP.pure _

theorem fetchMode (sz : Option Size) (mode reg : Fin 8) : P (fetchMode sz mode reg : Exec M Mode) := by
  unfold Spec.fetchMode
  split <;> try exact hP.pure _
  · exact hP.map _ hP.fetch
  · exact hP.map _ hP.fetch
  · split
    · exact hP.map _ hP.fetch
    · exact hP.map _ hP.fetchLong
    · exact hP.bind _ _ (hP.getR _) fun _ => hP.map _ hP.fetch
    · exact hP.bind _ _ (hP.getR _) fun _ => hP.map _ hP.fetch
    · split
      · exact hP.crash
      · exact hP.map _ hP.fetchLong
      · exact hP.map _ hP.fetch
    · exact hP.crash

theorem fetchEa (sz : Option Size) (op : U16) : P (fetchEa sz op : Exec M Mode) := hP.fetchMode _ _ _

theorem fetchImm (sz : Size) : P (fetchImm sz : Exec M U32) := by
  unfold Spec.fetchImm
  split
  · exact hP.fetchLong
  · exact hP.bind _ _ hP.fetch fun _ => hP.pure _

theorem fetchDisp (op : U16) : P (fetchDisp op : Exec M U16) := by
  unfold Spec.fetchDisp
  split
  · exact hP.fetch
  · exact hP.pure _

theorem binary (C : CpuDetails) (op : U16) {f : {n : Nat} → BitVec n → BitVec n → StatusRegister → BitVec n × StatusRegister}
    (hf : ∀ {n : Nat} (v w : BitVec n), KeepsSystem fun sr => (f v w sr).2) (a b c d e : Nat) : P (binary C op f a b c d e : Exec M Nat) := by
  refine hP.sized _ fun sz => hP.bind _ _ (hP.fetchEa _ _) fun m => ?_
  split
  · exact hP.cost _ (hP.opToEa _ _ _ hf)
  · exact hP.cost _ (hP.opToDn _ _ _ hf)

theorem immediate (C : CpuDetails) (op : U16) {f : {n : Nat} → BitVec n → BitVec n → StatusRegister → BitVec n × StatusRegister}
    (hf : ∀ {n : Nat} (v w : BitVec n), KeepsSystem fun sr => (f v w sr).2) (a b c d : Nat) : P (immediate C op f a b c d : Exec M Nat) :=
  hP.sized _ fun _ => hP.bind _ _ (hP.fetchImm _) fun _ => hP.bind _ _ (hP.fetchEa _ _) fun _ => hP.cost _ (hP.rmw _ _ fun _ => hf _ _)

theorem unary (C : CpuDetails) (op : U16) (a b c d : Nat) {x : (sz : Size) → Mode → Exec M Unit} (hx : ∀ sz m, P (x sz m)) :
    P (unary C op a b c d x) :=
  hP.sized _ fun _ => hP.bind _ _ (hP.fetchEa _ _) fun _ => hP.cost _ (hx _ _)

theorem wordToDn (C : CpuDetails) (op : U16) {x : Fin 8 → Mode → Exec M Unit} (t : Nat) (hx : ∀ n m, P (x n m)) : P (wordToDn C op x t) :=
  hP.bind _ _ (hP.fetchEa _ _) fun _ => hP.cost _ (hx _ _)

theorem bitInstr (C : CpuDetails) (op : U16) (o : BitOp) (a b c d : Nat) : P (bitInstr C op o a b c d : Exec M Nat) := by
  unfold Spec.bitInstr
  split
  · exact hP.bind _ _ (hP.fetchEa _ _) fun _ => hP.bind _ _ (hP.getR _) fun _ => hP.cost _ (hP.bitOp _ _ _)
  · exact hP.bind _ _ hP.fetch fun _ => hP.bind _ _ (hP.fetchEa _ _) fun _ => hP.cost _ (hP.bitOp _ _ _)

theorem shiftMem (C : CpuDetails) (op : U16) {f g : Nat → BitVec 16 → StatusRegister → BitVec 16 × StatusRegister}
    (hf : ∀ (k : Nat) (v : BitVec 16), KeepsSystem fun sr => (f k v sr).2)
    (hg : ∀ (k : Nat) (v : BitVec 16), KeepsSystem fun sr => (g k v sr).2) (t : Nat) :
    P (shiftMem C op f g t : Exec M Nat) := by
  refine hP.bind _ _ (hP.fetchEa _ _) fun m => hP.cost _ ?_
  split
  · exact hP.rmw _ _ fun v => hf 1 v
  · exact hP.rmw _ _ fun v => hg 1 v

theorem bcc (pc : U32) (cc : Fin 16) (d : U16) : P (bcc pc cc d : Exec M Bool) := by
  refine hP.bind _ _ (hP.test _) fun b => ?_
  simp only
  split
  · exact hP.bind _ _ (hP.jump _) fun _ => hP.pure _
  · exact hP.pure _

theorem dbcc (pc : U32) (cc : Fin 16) (n : Fin 8) (d : U16) : P (dbcc pc cc n d : Exec M _) := by
  refine hP.bind _ _ (hP.test _) fun b => ?_
  split
  · exact hP.pure _
  · refine hP.bind _ _ (hP.getR _) fun k => hP.bind _ _ (hP.dreg n fun r => insertLow .Word (r.d n) (k - 1)) fun _ => ?_
    split
    · exact hP.pure _
    · exact hP.bind _ _ (hP.jump _) fun _ => hP.pure _

theorem rtr : P (rtr : Exec M Unit) := by
  refine hP.bind _ _ (hP.pop .Word) fun w => hP.bind _ _ (hP.flags _ ?_) fun _ => hP.bind _ _ (hP.pop .Long) fun _ => hP.jump _
  intro sr h
  refine ⟨rfl, rfl, ?_⟩
  apply BitVec.eq_of_toNat_eq
  simp only [withCcr, BitVec.toNat_ofNat]
  omega

end Prims

/-- Instructions that may change T, S or the interrupt mask, or do more than the primitives of `Prims`. -/
def isSystem (i : Isa) : Bool :=
  match i with
  | .Oriccr | .Eoriccr | .Orisr | .Eorisr | .Andisr | .Movesr | .Moveusp | .Stop | .Reset | .Rte => true
  | _ => false

/-- The predicate holds of every instruction that is not a system instruction. -/
theorem Prims.exec {P : ∀ {α : Type}, Exec M α → Prop} (hP : Prims P) (C : CpuDetails) (i : Isa) (op : U16) (hi : isSystem i = false) :
    P (Spec.exec C i op : Exec M Nat) := by
  cases i with
  | Unknown => simp only [Spec.exec]; exact hP.cost _ (hP.trap _ (raisable_unimplemented _))
  | Illegal => simp only [Spec.exec]; exact hP.cost _ (hP.trap _ (by decide))
  | Add => simp only [Spec.exec]; exact hP.binary _ _ (keeps_sum false) _ _ _ _ _
  | Sub => simp only [Spec.exec]; exact hP.binary _ _ (keeps_difference false) _ _ _ _ _
  | Addi => simp only [Spec.exec]; exact hP.immediate _ _ (keeps_sum false) _ _ _ _
  | Subi => simp only [Spec.exec]; exact hP.immediate _ _ (keeps_difference false) _ _ _ _
  | Adda => simp only [Spec.exec]; exact hP.bind _ _ (hP.fetchEa _ _) fun _ => hP.bind _ _ (hP.readExt _ _) fun _ => hP.cost _ (hP.updateA _ _)
  | Suba => simp only [Spec.exec]; exact hP.bind _ _ (hP.fetchEa _ _) fun _ => hP.bind _ _ (hP.readExt _ _) fun _ => hP.cost _ (hP.updateA _ _)
  | Cmpa => simp only [Spec.exec]; exact hP.bind _ _ (hP.fetchEa _ _) fun _ => hP.bind _ _ (hP.readExt _ _) fun _ => hP.bind _ _ (hP.getR _) fun _ => hP.cost _ (hP.compareWith _ _)
  | Addq => simp only [Spec.exec]; exact hP.sized _ fun _ => hP.bind _ _ (hP.fetchEa _ _) fun _ => hP.cost _ (hP.quickOp _ _ _ _)
  | Subq => simp only [Spec.exec]; exact hP.sized _ fun _ => hP.bind _ _ (hP.fetchEa _ _) fun _ => hP.cost _ (hP.quickOp _ _ _ _)
  | Addx => simp only [Spec.exec]; exact hP.sized _ fun _ => hP.cost _ (hP.pair _ _ _ _ (keeps_sum true))
  | Subx => simp only [Spec.exec]; exact hP.sized _ fun _ => hP.cost _ (hP.pair _ _ _ _ (keeps_difference true))
  | Abcd => simp only [Spec.exec]; exact hP.sized _ fun _ => hP.cost _ (hP.pair .Byte _ _ _ keeps_decimalSum)
  | Sbcd => simp only [Spec.exec]; exact hP.sized _ fun _ => hP.cost _ (hP.pair .Byte _ _ _ keeps_decimalDifference)
  | Nbcd => simp only [Spec.exec]; exact hP.bind _ _ (hP.fetchEa _ _) fun _ => hP.cost _ (hP.rmw .Byte _ fun _ => keeps_decimalDifference _ _)
  | Neg => simp only [Spec.exec]; exact hP.unary _ _ _ _ _ _ fun _ _ => hP.rmw _ _ fun _ => keeps_difference _ _ _
  | Negx => simp only [Spec.exec]; exact hP.unary _ _ _ _ _ _ fun _ _ => hP.rmw _ _ fun _ => keeps_difference _ _ _
  | Cmp =>
    simp only [Spec.exec]
    refine hP.sized _ fun _ => hP.bind _ _ (hP.fetchEa _ _) fun _ => hP.bind _ _ (hP.read _ _) fun _ => ?_
    exact hP.bind _ _ (hP.getR _) fun _ => hP.cost _ (hP.compareWith _ _)
  | Cmpi =>
    simp only [Spec.exec]
    refine hP.sized _ fun _ => hP.bind _ _ (hP.fetchImm _) fun _ => hP.bind _ _ (hP.fetchEa _ _) fun _ => hP.bind _ _ (hP.read _ _) fun _ => ?_
    exact hP.cost _ (hP.compareWith _ _)
  | Cmpm => simp only [Spec.exec]; exact hP.sized _ fun _ => hP.cost _ (hP.cmpm _ _ _)
  | Mulu => simp only [Spec.exec]; exact hP.wordToDn _ _ _ fun _ _ => hP.mul _ _ _
  | Muls => simp only [Spec.exec]; exact hP.wordToDn _ _ _ fun _ _ => hP.mul _ _ _
  | Divu => simp only [Spec.exec]; exact hP.wordToDn _ _ _ fun _ _ => hP.divu _ _
  | Divs => simp only [Spec.exec]; exact hP.wordToDn _ _ _ fun _ _ => hP.divs _ _
  | And => simp only [Spec.exec]; exact hP.binary _ _ (fun _ _ => keeps_logicOp _ _ _) _ _ _ _ _
  | Or => simp only [Spec.exec]; exact hP.binary _ _ (fun _ _ => keeps_logicOp _ _ _) _ _ _ _ _
  | Eor => simp only [Spec.exec]; exact hP.sized _ fun _ => hP.bind _ _ (hP.fetchEa _ _) fun _ => hP.cost _ (hP.opToEa _ _ _ fun _ _ => keeps_logicOp _ _ _)
  | Andi => simp only [Spec.exec]; exact hP.immediate _ _ (fun _ _ => keeps_logicOp _ _ _) _ _ _ _
  | Ori => simp only [Spec.exec]; exact hP.immediate _ _ (fun _ _ => keeps_logicOp _ _ _) _ _ _ _
  | Eori => simp only [Spec.exec]; exact hP.immediate _ _ (fun _ _ => keeps_logicOp _ _ _) _ _ _ _
  | Not =>
    simp only [Spec.exec]
    refine hP.unary _ _ _ _ _ _ fun _ _ => hP.bind _ _ (hP.read _ _) fun _ => ?_
    exact hP.bind _ _ (hP.writeAt _ _ _) fun _ => hP.flags _ (keeps_logic _)
  | Tst =>
    simp only [Spec.exec]
    refine hP.sized _ fun _ => hP.bind _ _ (hP.fetchEa _ _) fun _ => hP.bind _ _ (hP.read _ _) fun _ => ?_
    exact hP.cost _ (hP.flags _ (keeps_logic _))
  | Clr => simp only [Spec.exec]; exact hP.sized _ fun _ => hP.bind _ _ (hP.fetchEa _ _) fun _ => hP.bind _ _ (hP.write _ _ _) fun _ => hP.cost _ (hP.flags _ (keeps_logic _))
  | Tas => simp only [Spec.exec]; exact hP.bind _ _ (hP.fetchEa _ _) fun _ => hP.cost _ (hP.rmw .Byte _ fun _ => keeps_logic _)
  | Scc =>
    simp only [Spec.exec]
    exact hP.bind _ _ (hP.fetchEa _ _) fun _ => hP.map _ (hP.bind _ _ (hP.test _) fun _ => hP.bind _ _ (hP.write .Byte _ _) fun _ => hP.pure _)
  | Btst => simp only [Spec.exec]; exact hP.bitInstr _ _ _ _ _ _ _
  | Bchg => simp only [Spec.exec]; exact hP.bitInstr _ _ _ _ _ _ _
  | Bclr => simp only [Spec.exec]; exact hP.bitInstr _ _ _ _ _ _ _
  | Bset => simp only [Spec.exec]; exact hP.bitInstr _ _ _ _ _ _ _
  | Asr => simp only [Spec.exec]; exact hP.shiftInstr _ keeps_asl keeps_asr _ _ _
  | Lsr => simp only [Spec.exec]; exact hP.shiftInstr _ keeps_lsl keeps_lsr _ _ _
  | Ror => simp only [Spec.exec]; exact hP.shiftInstr _ keeps_rol keeps_ror _ _ _
  | Roxr => simp only [Spec.exec]; exact hP.shiftInstr _ keeps_roxl keeps_roxr _ _ _
  | Asm => simp only [Spec.exec]; exact hP.shiftMem _ _ keeps_asl keeps_asr _
  | Lsm => simp only [Spec.exec]; exact hP.shiftMem _ _ keeps_lsl keeps_lsr _
  | Rom => simp only [Spec.exec]; exact hP.shiftMem _ _ keeps_rol keeps_ror _
  | Roxm => simp only [Spec.exec]; exact hP.shiftMem _ _ keeps_roxl keeps_roxr _
  | Move =>
    simp only [Spec.exec]
    refine hP.moveSized _ fun _ => hP.bind _ _ (hP.fetchEa _ _) fun _ => hP.bind _ _ (hP.fetchMode _ _ _) fun _ => hP.cost _ ?_
    refine hP.bind _ _ (hP.read _ _) fun _ => ?_
    exact hP.bind _ _ (hP.write _ _ _) fun _ => hP.flags _ (keeps_logic _)
  | Movea =>
    simp only [Spec.exec]
    exact hP.moveSized _ fun _ => hP.bind _ _ (hP.fetchEa _ _) fun _ => hP.cost _ (hP.bind _ _ (hP.readExt _ _) fun _ => hP.updateA _ _)
  | Moveq => simp only [Spec.exec]; exact hP.cost _ (hP.bind _ _ (hP.setD _ _) fun _ => hP.flags _ (keeps_logic _))
  | Movem => simp only [Spec.exec]; exact hP.bind _ _ hP.fetch fun _ => hP.bind _ _ (hP.fetchEa _ _) fun _ => hP.cost _ (hP.movem _ _ (sizeBit_ne _ _) _ _)
  | Movep => simp only [Spec.exec]; exact hP.bind _ _ hP.fetch fun _ => hP.cost _ (hP.movep _ _ _ _ _)
  | Exg => simp only [Spec.exec]; exact hP.cost _ (hP.exg _ _ _)
  | Ext => simp only [Spec.exec]; exact hP.cost _ (hP.bind _ _ (hP.dreg _ _) fun _ => hP.setSr _)
  | Swap => simp only [Spec.exec]; exact hP.cost _ (hP.bind _ _ (hP.dreg _ _) fun _ => hP.setSr _)
  | Lea => simp only [Spec.exec]; exact hP.bind _ _ (hP.fetchEa _ _) fun _ => hP.bind _ _ (hP.control _) fun _ => hP.cost _ (hP.updateA _ _)
  | Pea => simp only [Spec.exec]; exact hP.bind _ _ (hP.fetchEa _ _) fun _ => hP.bind _ _ (hP.control _) fun _ => hP.cost _ (hP.push .Long _)
  | Link => simp only [Spec.exec]; exact hP.bind _ _ hP.fetch fun _ => hP.cost _ (hP.link _ _)
  | Unlk => simp only [Spec.exec]; exact hP.cost _ (hP.unlk _)
  | Bcc => simp only [Spec.exec]; exact hP.bind _ _ (hP.getR _) fun _ => hP.bind _ _ (hP.fetchDisp _) fun _ => hP.map _ (hP.bcc _ _ _)
  | Bra => simp only [Spec.exec]; exact hP.bind _ _ (hP.getR _) fun _ => hP.bind _ _ (hP.fetchDisp _) fun _ => hP.cost _ (hP.jump _)
  | Bsr =>
    simp only [Spec.exec]
    exact hP.bind _ _ (hP.getR _) fun _ => hP.bind _ _ (hP.fetchDisp _) fun _ =>
      hP.cost _ (hP.bind _ _ (hP.getR _) fun _ => hP.bind _ _ (hP.push .Long _) fun _ => hP.jump _)
  | Dbcc => simp only [Spec.exec]; exact hP.bind _ _ (hP.getR _) fun _ => hP.bind _ _ hP.fetch fun _ => hP.map _ (hP.dbcc _ _ _ _)
  | Jmp => simp only [Spec.exec]; exact hP.bind _ _ (hP.fetchEa _ _) fun _ => hP.bind _ _ (hP.control _) fun _ => hP.cost _ (hP.jump _)
  | Jsr =>
    simp only [Spec.exec]
    exact hP.bind _ _ (hP.fetchEa _ _) fun _ => hP.cost _ (hP.bind _ _ (hP.getR _) fun _ => hP.bind _ _ (hP.push .Long _) fun _ =>
      hP.bind _ _ (hP.control _) fun _ => hP.jump _)
  | Rts => simp only [Spec.exec]; exact hP.cost _ (hP.bind _ _ (hP.pop .Long) fun _ => hP.jump _)
  | Rtr => simp only [Spec.exec]; exact hP.cost _ hP.rtr
  | Nop => simp only [Spec.exec]; exact hP.pure _
  | Chk => simp only [Spec.exec]; exact hP.bind _ _ (hP.fetchEa _ _) fun _ => hP.cost _ (hP.chk _ _)
  | Trap => simp only [Spec.exec]; exact hP.cost _ (hP.trap _ (raisable_trap _))
  | Trapv =>
    simp only [Spec.exec]
    refine hP.bind _ _ (hP.getR _) fun v => ?_
    split
    · exact hP.trap _ (by decide)
    · exact hP.pure _
  | Andiccr =>
    simp only [Spec.exec]
    refine hP.bind _ _ hP.fetch fun w => hP.cost _ (hP.flags _ ?_)
    exact keeps_andiccr w
  | Moveccr =>
    simp only [Spec.exec]
    refine hP.bind _ _ (hP.fetchEa _ _) fun _ => hP.bind _ _ (hP.read _ _) fun _ => ?_
    exact hP.cost _ (hP.flags _ fun _ _ => ⟨rfl, rfl, rfl⟩)
  | Movefsr => simp only [Spec.exec]; exact hP.bind _ _ (hP.fetchEa _ _) fun _ => hP.bind _ _ (hP.getR _) fun _ => hP.cost _ (hP.write .Word _ _)
  | Oriccr => cases hi
  | Eoriccr => cases hi
  | Orisr => cases hi
  | Eorisr => cases hi
  | Andisr => cases hi
  | Movesr => cases hi
  | Moveusp => cases hi
  | Stop => cases hi
  | Reset => cases hi
  | Rte => cases hi

end Exec
end M68k
