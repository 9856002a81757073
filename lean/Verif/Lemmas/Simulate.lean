import Verif.Lemmas.AnyStep
/-
Two memory systems that answer alike: the same instruction has the same outcome on both.
-/
set_option linter.unusedSectionVars false
namespace M68k
namespace Exec
open Spec
variable {M N : Type} [MemoryAccess M] [MemoryAccess N]

/-- `P` relates the primitive actions on two memory systems and is closed under sequencing. -/
structure Pair (P : ∀ {α : Type}, Exec M α → Exec N α → Prop) : Prop where
  pure : ∀ {α : Type} (a : α), P (pure a) (pure a)
  bind : ∀ {α β : Type} {x : Exec M α} {y : Exec N α} {f : α → Exec M β} {g : α → Exec N β}, P x y → (∀ a, P (f a) (g a)) → P (x >>= f) (y >>= g)
  crash : ∀ {α : Type}, P (crash : Exec M α) crash
  trap : ∀ {α : Type} (v : U8), P (trap v : Exec M α) (trap v)
  getR : ∀ {α : Type} (f : Registers → α), P (getR f) (getR f)
  modR : ∀ (f : Registers → Registers), P (modR f) (modR f)
  fetch : P fetch fetch
  load : ∀ (sz : Size) (a : U32), P (load sz a) (load sz a)
  store : ∀ (sz : Size) (a : U32) (v : Val sz), P (store sz a v) (store sz a v)
  movemLoad : ∀ (sz : Size) (a : U32), sz ≠ .Byte → ¬ Spec.Odd a → P (Spec.movemLoad sz a) (Spec.movemLoad sz a)
  movemStore : ∀ (sz : Size) (a v : U32), sz ≠ .Byte → ¬ Spec.Odd a → P (Spec.movemStore sz a v) (Spec.movemStore sz a v)
  halt : P halt halt
  signalReset : P signalReset signalReset

namespace Pair
variable {P : ∀ {α : Type}, Exec M α → Exec N α → Prop} (hP : Pair P) {α β : Type}
include hP

theorem map (f : α → β) {x : Exec M α} {y : Exec N α} (hx : P x y) : P (f <$> x) (f <$> y) := by
  have e : f <$> x = x >>= fun a => Pure.pure (f a) := by
    funext s
    rw [Exec.map_apply, Exec.bind_apply]
    cases x s <;> rfl
  have e' : f <$> y = y >>= fun a => Pure.pure (f a) := by
    funext s
    rw [Exec.map_apply, Exec.bind_apply]
    cases y s <;> rfl
  rw [e, e']
  exact hP.bind hx fun a => hP.pure _

theorem ite {c : Prop} [Decidable c] {x x' : Exec M α} {y y' : Exec N α} (h : c → P x y) (h' : ¬ c → P x' y') :
    P (if c then x else x') (if c then y else y') := by
  by_cases hc : c
  · rw [if_pos hc, if_pos hc]; exact h hc
  · rw [if_neg hc, if_neg hc]; exact h' hc

theorem cost {x : Exec M α} {y : Exec N α} (t : Nat) (hx : P x y) : P (cost x t) (cost y t) := hP.map _ hx

theorem sized (op : U16) {k : Size → Exec M Nat} {l : Size → Exec N Nat} (h : ∀ sz, P (k sz) (l sz)) : P (sized op k) (sized op l) :=
  hP.ite (fun _ => h _) fun _ => hP.ite (fun _ => h _) fun _ => hP.ite (fun _ => h _) fun _ => hP.crash

theorem moveSized (op : U16) {k : Size → Exec M Nat} {l : Size → Exec N Nat} (h : ∀ sz, P (k sz) (l sz)) : P (moveSized op k) (moveSized op l) :=
  hP.ite (fun _ => h _) fun _ => hP.ite (fun _ => h _) fun _ => hP.ite (fun _ => h _) fun _ => hP.crash

theorem setFlags (f : StatusRegister → StatusRegister) : P (setFlags f) (setFlags f) := hP.modR _
theorem jump (a : U32) : P (jump a) (jump a) := hP.modR _

theorem compute (f : StatusRegister → α × StatusRegister) : P (compute f) (compute f) :=
  hP.bind (x := Spec.getR fun r => r.sr) (f := fun sr => Spec.setFlags (fun sr => (f sr).2) >>= fun _ => Pure.pure (f sr).1)
    (y := Spec.getR fun r => r.sr) (g := fun sr => Spec.setFlags (fun sr => (f sr).2) >>= fun _ => Pure.pure (f sr).1)
    (hP.getR _) fun _ => hP.bind (hP.setFlags _) fun _ => hP.pure _

theorem fetchLong : P fetchLong fetchLong := hP.bind hP.fetch fun _ => hP.bind hP.fetch fun _ => hP.pure _

theorem fetchMode (sz : Option Size) (mode reg : Fin 8) : P (fetchMode sz mode reg) (fetchMode sz mode reg) := by
  have h0 : ∀ reg, P (Spec.fetchMode sz 0 reg) (Spec.fetchMode sz 0 reg) := fun _ => hP.pure _
  have h1 : ∀ reg, P (Spec.fetchMode sz 1 reg) (Spec.fetchMode sz 1 reg) := fun _ => hP.pure _
  have h2 : ∀ reg, P (Spec.fetchMode sz 2 reg) (Spec.fetchMode sz 2 reg) := fun _ => hP.pure _
  have h3 : ∀ reg, P (Spec.fetchMode sz 3 reg) (Spec.fetchMode sz 3 reg) := fun _ => hP.pure _
  have h4 : ∀ reg, P (Spec.fetchMode sz 4 reg) (Spec.fetchMode sz 4 reg) := fun _ => hP.pure _
  have h5 : ∀ reg, P (Spec.fetchMode sz 5 reg) (Spec.fetchMode sz 5 reg) := fun _ => hP.map _ hP.fetch
  have h6 : ∀ reg, P (Spec.fetchMode sz 6 reg) (Spec.fetchMode sz 6 reg) := fun _ => hP.map _ hP.fetch
  have h7 : ∀ reg, P (Spec.fetchMode sz 7 reg) (Spec.fetchMode sz 7 reg) := by
    intro reg
    match reg with
    | 0 => exact hP.map _ hP.fetch
    | 1 => exact hP.map _ hP.fetchLong
    | 2 => exact hP.bind (hP.getR _) fun _ => hP.map _ hP.fetch
    | 3 => exact hP.bind (hP.getR _) fun _ => hP.map _ hP.fetch
    | 4 =>
      cases sz with
      | none => exact hP.crash
      | some sz =>
        cases sz with
        | Byte => exact hP.map _ hP.fetch
        | Word => exact hP.map _ hP.fetch
        | Long => exact hP.map _ hP.fetchLong
    | 5 => exact hP.crash
    | 6 => exact hP.crash
    | 7 => exact hP.crash
  match mode with
  | 0 => exact h0 _
  | 1 => exact h1 _
  | 2 => exact h2 _
  | 3 => exact h3 _
  | 4 => exact h4 _
  | 5 => exact h5 _
  | 6 => exact h6 _
  | 7 => exact h7 _

theorem fetchEa (sz : Option Size) (op : U16) : P (fetchEa sz op) (fetchEa sz op) := hP.fetchMode _ _ _

theorem fetchImm (sz : Size) : P (fetchImm sz) (fetchImm sz) :=
  hP.ite (fun _ => hP.fetchLong) fun _ => hP.bind hP.fetch fun _ => hP.pure _

theorem fetchDisp (op : U16) : P (fetchDisp op) (fetchDisp op) := hP.ite (fun _ => hP.fetch) fun _ => hP.pure _

theorem updateA (n : Fin 8) (f : U32 → U32) : P (updateA n f) (updateA n f) := hP.modR _

theorem locate (sz : Size) (m : Mode) : P (locate sz m) (locate sz m) :=
  hP.bind (x := Spec.getR fun r => place sz r m) (f := fun p => (Spec.modR fun _ => p.2) >>= fun _ => Pure.pure p.1)
    (y := Spec.getR fun r => place sz r m) (g := fun p => (Spec.modR fun _ => p.2) >>= fun _ => Pure.pure p.1)
    (hP.getR _) fun _ => hP.bind (hP.modR _) fun _ => hP.pure _

theorem readAt (sz : Size) (p : Place) : P (readAt sz p) (readAt sz p) := by
  cases p with
  | dreg n => exact hP.getR fun r => low sz (r.d n)
  | areg n => exact hP.ite (fun _ => hP.crash) fun _ => hP.getR fun r => low sz (Spec.areg r n)
  | mem a => exact hP.load _ _
  | imm v => exact hP.pure _

theorem writeAt (sz : Size) (p : Place) (v : Val sz) : P (writeAt sz p v) (writeAt sz p v) := by
  cases p with
  | dreg n => exact hP.modR fun r => setDreg r n (insertLow sz (r.d n) v)
  | areg n => exact hP.ite (fun _ => hP.crash) fun _ => hP.modR fun r => setAreg r n (signExt v)
  | mem a => exact hP.store _ _ _
  | imm v => exact hP.crash

theorem read (sz : Size) (m : Mode) : P (read sz m) (read sz m) :=
  hP.bind (hP.locate _ _) fun _ => hP.bind (hP.readAt _ _) fun _ => hP.pure _
theorem write (sz : Size) (m : Mode) (v : Val sz) : P (write sz m v) (write sz m v) :=
  hP.bind (hP.locate _ _) fun _ => hP.writeAt _ _ _

theorem address (sz : Size) (m : Mode) : P (address sz m) (address sz m) := by
  refine hP.bind (hP.locate _ _) fun p => ?_
  cases p <;> first | exact hP.pure _ | exact hP.crash

theorem control (m : Mode) : P (control m) (control m) := by
  cases m <;> first | exact hP.address _ _ | exact hP.crash

theorem rmw (sz : Size) (m : Mode) (f : Val sz → StatusRegister → Val sz × StatusRegister) : P (rmw sz m f) (rmw sz m f) := by
  refine hP.bind (hP.read _ _) fun x => ?_
  exact hP.bind (hP.compute _) fun _ => hP.writeAt _ _ _

theorem opToEa (sz : Size) (n : Fin 8) (m : Mode) (f : Val sz → Val sz → StatusRegister → Val sz × StatusRegister) :
    P (opToEa sz n m f) (opToEa sz n m f) := hP.bind (hP.getR _) fun _ => hP.rmw _ _ _

theorem opToDn (sz : Size) (n : Fin 8) (m : Mode) (f : Val sz → Val sz → StatusRegister → Val sz × StatusRegister) :
    P (opToDn sz n m f) (opToDn sz n m f) := by
  refine hP.bind (hP.read _ _) fun x => ?_
  exact hP.rmw _ _ _

theorem pair (sz : Size) (b : Bool) (x y : Fin 8) (f : Val sz → Val sz → StatusRegister → Val sz × StatusRegister) :
    P (pair sz b x y f) (pair sz b x y f) :=
  hP.bind (hP.locate _ _) fun _ => hP.bind (hP.locate _ _) fun _ => hP.bind (hP.readAt _ _) fun _ =>
    hP.bind (hP.readAt _ _) fun _ => hP.bind (hP.compute _) fun _ => hP.writeAt _ _ _

theorem readExt (sz : Size) (m : Mode) : P (readExt sz m) (readExt sz m) :=
  hP.bind (hP.read _ _) fun _ => hP.pure _

theorem push (sz : Size) (v : Val sz) : P (push sz v) (push sz v) := hP.write _ _ _
theorem pop (sz : Size) : P (pop sz) (pop sz) := hP.bind (hP.read _ _) fun _ => hP.pure _

theorem binary (C : CpuDetails) (op : U16) (f : {n : Nat} → BitVec n → BitVec n → StatusRegister → BitVec n × StatusRegister)
    (a b c d e : Nat) : P (binary C op f a b c d e) (binary C op f a b c d e) :=
  hP.sized _ fun _ => hP.bind (hP.fetchEa _ _) fun _ =>
    hP.ite (fun _ => hP.cost _ (hP.opToEa _ _ _ _)) fun _ => hP.cost _ (hP.opToDn _ _ _ _)

theorem immediate (C : CpuDetails) (op : U16) (f : {n : Nat} → BitVec n → BitVec n → StatusRegister → BitVec n × StatusRegister)
    (a b c d : Nat) : P (immediate C op f a b c d) (immediate C op f a b c d) :=
  hP.sized _ fun _ => hP.bind (hP.fetchImm _) fun _ => hP.bind (hP.fetchEa _ _) fun _ => hP.cost _ (hP.rmw _ _ _)

theorem unary (C : CpuDetails) (op : U16) (a b c d : Nat) {x : (sz : Size) → Mode → Exec M Unit} {y : (sz : Size) → Mode → Exec N Unit}
    (hx : ∀ sz m, P (x sz m) (y sz m)) : P (unary C op a b c d x) (unary C op a b c d y) :=
  hP.sized _ fun _ => hP.bind (hP.fetchEa _ _) fun _ => hP.cost _ (hx _ _)

theorem quickOp (b : Bool) (data : Fin 8) (sz : Size) (m : Mode) : P (quickOp b data sz m) (quickOp b data sz m) := by
  unfold Spec.quickOp
  cases m <;> simp only <;> first | exact hP.rmw _ _ _ | exact hP.updateA _ _

theorem compareWith {n : Nat} (d s : BitVec n) : P (compareWith d s) (compareWith d s) := hP.setFlags _

theorem cmpm (sz : Size) (x y : Fin 8) : P (cmpm sz x y) (cmpm sz x y) :=
  hP.bind (hP.locate _ _) fun _ => hP.bind (hP.locate _ _) fun _ => hP.bind (hP.readAt _ _) fun _ =>
    hP.bind (hP.readAt _ _) fun _ => hP.compareWith _ _

theorem mul (b : Bool) (n : Fin 8) (m : Mode) : P (mul b n m) (mul b n m) := by
  refine hP.bind (hP.read _ _) fun x => ?_
  refine hP.bind (hP.getR _) fun d => ?_
  exact hP.bind (hP.modR _) fun _ => hP.setFlags _

theorem divu (n : Fin 8) (m : Mode) : P (divu n m) (divu n m) := by
  refine hP.bind (hP.setFlags _) fun _ => hP.bind (hP.read _ _) fun x => ?_
  refine hP.ite (fun _ => hP.bind (hP.setFlags _) fun _ => hP.trap _) fun _ => hP.bind (hP.getR _) fun d => ?_
  exact hP.ite (fun _ => hP.bind (hP.modR _) fun _ => hP.setFlags _) fun _ => hP.setFlags _

theorem divs (n : Fin 8) (m : Mode) : P (divs n m) (divs n m) := by
  refine hP.bind (hP.setFlags _) fun _ => hP.bind (hP.read _ _) fun x => ?_
  refine hP.ite (fun _ => hP.bind (hP.setFlags _) fun _ => hP.trap _) fun _ => hP.bind (hP.getR _) fun d => ?_
  exact hP.ite (fun _ => hP.bind (hP.modR _) fun _ => hP.setFlags _) fun _ => hP.setFlags _

theorem wordToDn (C : CpuDetails) (op : U16) {x : Fin 8 → Mode → Exec M Unit} {y : Fin 8 → Mode → Exec N Unit} (t : Nat)
    (hx : ∀ n m, P (x n m) (y n m)) : P (wordToDn C op x t) (wordToDn C op y t) :=
  hP.bind (hP.fetchEa _ _) fun _ => hP.cost _ (hx _ _)

theorem bitOpAt (o : BitOp) (sz : Size) (i : Nat) (m : Mode) : P (bitOpAt o sz i m) (bitOpAt o sz i m) := by
  refine hP.ite (fun _ => ?_) fun _ => hP.rmw _ _ _
  refine hP.bind (hP.read _ _) fun x => ?_
  exact hP.setFlags _

theorem bitOp (o : BitOp) (i : Nat) (m : Mode) : P (bitOp o i m) (bitOp o i m) := by
  cases m <;> exact hP.bitOpAt _ _ _ _

theorem bitInstr (C : CpuDetails) (op : U16) (o : BitOp) (a b c d : Nat) : P (bitInstr C op o a b c d) (bitInstr C op o a b c d) :=
  hP.ite (fun _ => hP.bind (hP.fetchEa _ _) fun _ => hP.bind (hP.getR _) fun _ => hP.cost _ (hP.bitOp _ _ _))
    fun _ => hP.bind hP.fetch fun _ => hP.bind (hP.fetchEa _ _) fun _ => hP.cost _ (hP.bitOp _ _ _)

theorem shift (f : {n : Nat} → Nat → BitVec n → StatusRegister → BitVec n × StatusRegister) (sz : Size) (b : Bool) (r n : Fin 8) :
    P (shift f sz b r n) (shift f sz b r n) :=
  hP.bind (hP.ite (fun _ => hP.getR _) fun _ => hP.pure _) fun _ => hP.bind (hP.rmw _ _ _) fun _ => hP.pure _

theorem shiftInstr (op : U16) (f g : {n : Nat} → Nat → BitVec n → StatusRegister → BitVec n × StatusRegister) (a b c : Nat) :
    P (shiftInstr op f g a b c) (shiftInstr op f g a b c) :=
  hP.sized _ fun _ => hP.map _ (hP.ite (fun _ => hP.shift _ _ _ _ _) fun _ => hP.shift _ _ _ _ _)

theorem shiftMem (C : CpuDetails) (op : U16) (f g : Nat → BitVec 16 → StatusRegister → BitVec 16 × StatusRegister) (t : Nat) :
    P (shiftMem C op f g t) (shiftMem C op f g t) :=
  hP.bind (hP.fetchEa _ _) fun _ => hP.cost _ (hP.rmw _ _ _)

theorem exg (k : Direction) (x y : Fin 8) : P (exg k x y) (exg k x y) := by
  unfold Spec.exg
  cases k <;> exact hP.modR _

theorem movemLoads (sz : Size) (hsz : sz ≠ .Byte) (l : List (Fin 16)) (a : U32) (ha : ¬ Spec.Odd a) :
    P (movemLoads sz l a) (movemLoads sz l a) := by
  induction l generalizing a with
  | nil => exact hP.pure _
  | cons i l ih =>
    exact hP.bind (hP.movemLoad _ _ hsz ha) fun _ => hP.bind (hP.modR _) fun _ => ih _ (userSafe_prims (M := M).addr_even hsz ha).1

theorem movemStores (sz : Size) (hsz : sz ≠ .Byte) (l : List (Fin 16)) (a : U32) (ha : ¬ Spec.Odd a) :
    P (movemStores sz l a) (movemStores sz l a) := by
  induction l generalizing a with
  | nil => exact hP.pure _
  | cons i l ih =>
    exact hP.bind (hP.getR _) fun _ => hP.bind (hP.movemStore _ _ _ hsz ha) fun _ => ih _ (userSafe_prims (M := M).addr_even hsz ha).1

theorem movemStoresDown (sz : Size) (hsz : sz ≠ .Byte) (l : List (Fin 16)) (a : U32) (ha : ¬ Spec.Odd a) :
    P (movemStoresDown sz l a) (movemStoresDown sz l a) := by
  induction l generalizing a with
  | nil => exact hP.pure _
  | cons i l ih =>
    exact hP.bind (hP.getR _) fun _ => hP.bind (hP.movemStore _ _ _ hsz (userSafe_prims (M := M).addr_even hsz ha).2)
      fun _ => ih _ (userSafe_prims (M := M).addr_even hsz ha).2

theorem aligned (a : U32) {f : Unit → Exec M α} {g : Unit → Exec N α} (hf : ¬ Spec.Odd a → P (f ()) (g ())) :
    P (aligned a >>= f) (aligned a >>= g) := by
  by_cases h : Spec.Odd a
  · have e : (Spec.aligned a >>= f) = Spec.trap 3 := by unfold Spec.aligned; rw [if_pos h]; rfl
    have e' : (Spec.aligned a >>= g) = Spec.trap 3 := by unfold Spec.aligned; rw [if_pos h]; rfl
    rw [e, e']; exact hP.trap _
  · have e : (Spec.aligned a >>= f) = f () := by unfold Spec.aligned; rw [if_neg h]; rfl
    have e' : (Spec.aligned a >>= g) = g () := by unfold Spec.aligned; rw [if_neg h]; rfl
    rw [e, e']; exact hf h

theorem movem (b : Bool) (sz : Size) (hsz : sz ≠ .Byte) (m : Mode) (mask : U16) : P (movem b sz m mask) (movem b sz m mask) := by
  have h0 : ∀ m : Mode, P (Spec.address sz m >>= fun a => Spec.aligned a >>= fun _ =>
        (if b then Spec.movemLoads sz (listed mask) a else Spec.movemStores sz (listed mask) a) >>= fun _ => Pure.pure ())
      (Spec.address sz m >>= fun a => Spec.aligned a >>= fun _ =>
        (if b then Spec.movemLoads sz (listed mask) a else Spec.movemStores sz (listed mask) a) >>= fun _ => Pure.pure ()) := fun m =>
    hP.bind (hP.address _ _) fun a => hP.aligned a fun ha =>
      hP.bind (hP.ite (fun _ => hP.movemLoads sz hsz _ _ ha) fun _ => hP.movemStores sz hsz _ _ ha) fun _ => hP.pure _
  cases m with
  | predec n =>
    exact hP.bind (hP.getR _) fun a => hP.aligned a fun ha => hP.bind (hP.movemStoresDown sz hsz _ _ ha) fun _ => hP.updateA _ _
  | postinc n =>
    exact hP.bind (hP.getR _) fun a => hP.aligned a fun ha =>
      hP.bind (hP.ite (fun _ => hP.movemLoads sz hsz _ _ ha) fun _ => hP.movemStores sz hsz _ _ ha) fun _ => hP.updateA _ _
  | dn n => exact h0 _
  | an n => exact h0 _
  | ind n => exact h0 _
  | disp n d => exact h0 _
  | index n d => exact h0 _
  | absW n => exact h0 _
  | absL n => exact h0 _
  | pcDisp n d => exact h0 _
  | pcIndex n d => exact h0 _
  | imm n => exact h0 _

theorem movepStores (n : Fin 8) (k : Nat) (a : U32) : P (movepStores n k a) (movepStores n k a) := by
  induction k generalizing a with
  | zero => exact hP.pure _
  | succ k ih => exact hP.bind (hP.getR _) fun _ => hP.bind (hP.store _ _ _) fun _ => ih _

theorem movepLoads (n : Fin 8) (k : Nat) (a : U32) : P (movepLoads n k a) (movepLoads n k a) := by
  induction k generalizing a with
  | zero => exact hP.pure _
  | succ k ih => exact hP.bind (hP.load .Byte _) fun b => hP.bind (hP.modR _) fun _ => ih _

theorem movep (b : Bool) (sz : Size) (n an : Fin 8) (d : U16) : P (movep b sz n an d) (movep b sz n an d) :=
  hP.bind (hP.getR _) fun _ => hP.ite (fun _ => hP.movepStores _ _ _) fun _ => hP.bind (hP.modR _) fun _ => hP.movepLoads _ _ _

theorem test (cc : Fin 16) : P (test cc) (test cc) := hP.getR _

theorem bcc (pc : U32) (cc : Fin 16) (d : U16) : P (bcc pc cc d) (bcc pc cc d) :=
  hP.bind (hP.test _) fun _ => hP.ite (fun _ => hP.bind (hP.jump _) fun _ => hP.pure _) fun _ => hP.pure _

theorem dbcc (pc : U32) (cc : Fin 16) (n : Fin 8) (d : U16) : P (dbcc pc cc n d) (dbcc pc cc n d) :=
  hP.bind (hP.test _) fun _ => hP.ite (fun _ => hP.pure _) fun _ => hP.bind (hP.getR _) fun _ => hP.bind (hP.modR _) fun _ =>
    hP.ite (fun _ => hP.pure _) fun _ => hP.bind (hP.jump _) fun _ => hP.pure _

theorem chk (n : Fin 8) (m : Mode) : P (chk n m) (chk n m) := by
  refine hP.bind (hP.read _ _) fun x => ?_
  exact hP.bind (hP.getR _) fun v => hP.ite (fun _ => hP.trap _) fun _ => hP.pure _

theorem link (n : Fin 8) (d : U16) : P (link n d) (link n d) :=
  hP.bind (hP.getR _) fun _ => hP.bind (hP.push _ _) fun _ => hP.bind (hP.modR _) fun _ => hP.updateA _ _

theorem unlk (n : Fin 8) : P (unlk n) (unlk n) :=
  hP.bind (hP.modR _) fun _ => hP.bind (hP.pop _) fun _ => hP.updateA _ _

theorem rtr : P rtr rtr :=
  hP.bind (hP.pop .Word) fun _ => hP.bind (hP.setFlags _) fun _ => hP.bind (hP.pop .Long) fun _ => hP.jump _

theorem privileged : P privileged privileged :=
  hP.bind (hP.getR _) fun _ => hP.ite (fun _ => hP.pure _) fun _ => hP.trap _

theorem rte (f : StackFormat) : P (rte f) (rte f) := by
  refine hP.bind hP.privileged fun _ => hP.bind (hP.pop .Word) fun w => hP.bind (hP.pop .Long) fun pc =>
    hP.bind (hP.jump _) fun _ => hP.bind ?_ fun _ => hP.bind (hP.setFlags _) fun _ => hP.pure _
  exact hP.ite (fun _ => hP.bind (hP.pop .Word) fun f => hP.ite (fun _ => hP.bind (hP.updateA _ _) fun _ => hP.pure _)
    fun _ => hP.ite (fun _ => hP.pure _) fun _ => hP.trap _) fun _ => hP.pure _

theorem moveUsp (b : Bool) (n : Fin 8) : P (moveUsp b n) (moveUsp b n) :=
  hP.bind hP.privileged fun _ => hP.ite (fun _ => hP.modR _) fun _ => hP.modR _

/-- Every instruction. -/
theorem exec (C : CpuDetails) (i : Isa) (op : U16) : P (Spec.exec C i op) (Spec.exec C i op) := by
  cases i with
  | Unknown => simp only [Spec.exec]; exact hP.cost _ (hP.trap _)
  | Illegal => simp only [Spec.exec]; exact hP.cost _ (hP.trap _)
  | Add => simp only [Spec.exec]; exact hP.binary _ _ _ _ _ _ _ _
  | Sub => simp only [Spec.exec]; exact hP.binary _ _ _ _ _ _ _ _
  | Addi => simp only [Spec.exec]; exact hP.immediate _ _ _ _ _ _ _
  | Subi => simp only [Spec.exec]; exact hP.immediate _ _ _ _ _ _ _
  | Adda => simp only [Spec.exec]; exact hP.bind (hP.fetchEa _ _) fun _ => hP.bind (hP.readExt _ _) fun _ => hP.cost _ (hP.updateA _ _)
  | Suba => simp only [Spec.exec]; exact hP.bind (hP.fetchEa _ _) fun _ => hP.bind (hP.readExt _ _) fun _ => hP.cost _ (hP.updateA _ _)
  | Cmpa => simp only [Spec.exec]; exact hP.bind (hP.fetchEa _ _) fun _ => hP.bind (hP.readExt _ _) fun _ => hP.bind (hP.getR _) fun _ => hP.cost _ (hP.compareWith _ _)
  | Addq => simp only [Spec.exec]; exact hP.sized _ fun _ => hP.bind (hP.fetchEa _ _) fun _ => hP.cost _ (hP.quickOp _ _ _ _)
  | Subq => simp only [Spec.exec]; exact hP.sized _ fun _ => hP.bind (hP.fetchEa _ _) fun _ => hP.cost _ (hP.quickOp _ _ _ _)
  | Addx => simp only [Spec.exec]; exact hP.sized _ fun _ => hP.cost _ (hP.pair _ _ _ _ _)
  | Subx => simp only [Spec.exec]; exact hP.sized _ fun _ => hP.cost _ (hP.pair _ _ _ _ _)
  | Abcd => simp only [Spec.exec]; exact hP.sized _ fun _ => hP.cost _ (hP.pair .Byte _ _ _ _)
  | Sbcd => simp only [Spec.exec]; exact hP.sized _ fun _ => hP.cost _ (hP.pair .Byte _ _ _ _)
  | Nbcd => simp only [Spec.exec]; exact hP.bind (hP.fetchEa _ _) fun _ => hP.cost _ (hP.rmw .Byte _ _)
  | Neg => simp only [Spec.exec]; exact hP.unary _ _ _ _ _ _ fun _ _ => hP.rmw _ _ _
  | Negx => simp only [Spec.exec]; exact hP.unary _ _ _ _ _ _ fun _ _ => hP.rmw _ _ _
  | Cmp =>
    simp only [Spec.exec]
    refine hP.sized _ fun _ => hP.bind (hP.fetchEa _ _) fun _ => hP.bind (hP.read _ _) fun _ => ?_
    exact hP.bind (hP.getR _) fun _ => hP.cost _ (hP.compareWith _ _)
  | Cmpi =>
    simp only [Spec.exec]
    refine hP.sized _ fun _ => hP.bind (hP.fetchImm _) fun _ => hP.bind (hP.fetchEa _ _) fun _ => hP.bind (hP.read _ _) fun _ => ?_
    exact hP.cost _ (hP.compareWith _ _)
  | Cmpm => simp only [Spec.exec]; exact hP.sized _ fun _ => hP.cost _ (hP.cmpm _ _ _)
  | Mulu => simp only [Spec.exec]; exact hP.wordToDn _ _ _ fun _ _ => hP.mul _ _ _
  | Muls => simp only [Spec.exec]; exact hP.wordToDn _ _ _ fun _ _ => hP.mul _ _ _
  | Divu => simp only [Spec.exec]; exact hP.wordToDn _ _ _ fun _ _ => hP.divu _ _
  | Divs => simp only [Spec.exec]; exact hP.wordToDn _ _ _ fun _ _ => hP.divs _ _
  | And => simp only [Spec.exec]; exact hP.binary _ _ _ _ _ _ _ _
  | Or => simp only [Spec.exec]; exact hP.binary _ _ _ _ _ _ _ _
  | Eor => simp only [Spec.exec]; exact hP.sized _ fun _ => hP.bind (hP.fetchEa _ _) fun _ => hP.cost _ (hP.opToEa _ _ _ _)
  | Andi => simp only [Spec.exec]; exact hP.immediate _ _ _ _ _ _ _
  | Ori => simp only [Spec.exec]; exact hP.immediate _ _ _ _ _ _ _
  | Eori => simp only [Spec.exec]; exact hP.immediate _ _ _ _ _ _ _
  | Not =>
    simp only [Spec.exec]
    refine hP.unary _ _ _ _ _ _ fun _ _ => hP.bind (hP.read _ _) fun _ => ?_
    exact hP.bind (hP.writeAt _ _ _) fun _ => hP.setFlags _
  | Tst =>
    simp only [Spec.exec]
    refine hP.sized _ fun _ => hP.bind (hP.fetchEa _ _) fun _ => hP.bind (hP.read _ _) fun _ => ?_
    exact hP.cost _ (hP.setFlags _)
  | Clr => simp only [Spec.exec]; exact hP.sized _ fun _ => hP.bind (hP.fetchEa _ _) fun _ => hP.bind (hP.write _ _ _) fun _ => hP.cost _ (hP.setFlags _)
  | Tas => simp only [Spec.exec]; exact hP.bind (hP.fetchEa _ _) fun _ => hP.cost _ (hP.rmw .Byte _ _)
  | Scc =>
    simp only [Spec.exec]
    exact hP.bind (hP.fetchEa _ _) fun _ => hP.map _ (hP.bind (hP.test _) fun _ => hP.bind (hP.write .Byte _ _) fun _ => hP.pure _)
  | Btst => simp only [Spec.exec]; exact hP.bitInstr _ _ _ _ _ _ _
  | Bchg => simp only [Spec.exec]; exact hP.bitInstr _ _ _ _ _ _ _
  | Bclr => simp only [Spec.exec]; exact hP.bitInstr _ _ _ _ _ _ _
  | Bset => simp only [Spec.exec]; exact hP.bitInstr _ _ _ _ _ _ _
  | Asr => simp only [Spec.exec]; exact hP.shiftInstr _ _ _ _ _ _
  | Lsr => simp only [Spec.exec]; exact hP.shiftInstr _ _ _ _ _ _
  | Ror => simp only [Spec.exec]; exact hP.shiftInstr _ _ _ _ _ _
  | Roxr => simp only [Spec.exec]; exact hP.shiftInstr _ _ _ _ _ _
  | Asm => simp only [Spec.exec]; exact hP.shiftMem _ _ _ _ _
  | Lsm => simp only [Spec.exec]; exact hP.shiftMem _ _ _ _ _
  | Rom => simp only [Spec.exec]; exact hP.shiftMem _ _ _ _ _
  | Roxm => simp only [Spec.exec]; exact hP.shiftMem _ _ _ _ _
  | Move =>
    simp only [Spec.exec]
    refine hP.moveSized _ fun _ => hP.bind (hP.fetchEa _ _) fun _ => hP.bind (hP.fetchMode _ _ _) fun _ => hP.cost _ ?_
    refine hP.bind (hP.read _ _) fun _ => ?_
    exact hP.bind (hP.write _ _ _) fun _ => hP.setFlags _
  | Movea =>
    simp only [Spec.exec]
    exact hP.moveSized _ fun _ => hP.bind (hP.fetchEa _ _) fun _ => hP.cost _ (hP.bind (hP.readExt _ _) fun _ => hP.updateA _ _)
  | Moveq => simp only [Spec.exec]; exact hP.cost _ (hP.bind (hP.modR _) fun _ => hP.setFlags _)
  | Movem => simp only [Spec.exec]; exact hP.bind hP.fetch fun _ => hP.bind (hP.fetchEa _ _) fun _ => hP.cost _ (hP.movem _ _ (sizeBit_ne _ _) _ _)
  | Movep => simp only [Spec.exec]; exact hP.bind hP.fetch fun _ => hP.cost _ (hP.movep _ _ _ _ _)
  | Exg => simp only [Spec.exec]; exact hP.cost _ (hP.exg _ _ _)
  | Ext => simp only [Spec.exec]; exact hP.cost _ (hP.bind (hP.modR _) fun _ => hP.modR _)
  | Swap => simp only [Spec.exec]; exact hP.cost _ (hP.bind (hP.modR _) fun _ => hP.modR _)
  | Lea => simp only [Spec.exec]; exact hP.bind (hP.fetchEa _ _) fun _ => hP.bind (hP.control _) fun _ => hP.cost _ (hP.updateA _ _)
  | Pea => simp only [Spec.exec]; exact hP.bind (hP.fetchEa _ _) fun _ => hP.bind (hP.control _) fun _ => hP.cost _ (hP.push .Long _)
  | Link => simp only [Spec.exec]; exact hP.bind hP.fetch fun _ => hP.cost _ (hP.link _ _)
  | Unlk => simp only [Spec.exec]; exact hP.cost _ (hP.unlk _)
  | Bcc => simp only [Spec.exec]; exact hP.bind (hP.getR _) fun _ => hP.bind (hP.fetchDisp _) fun _ => hP.map _ (hP.bcc _ _ _)
  | Bra => simp only [Spec.exec]; exact hP.bind (hP.getR _) fun _ => hP.bind (hP.fetchDisp _) fun _ => hP.cost _ (hP.jump _)
  | Bsr =>
    simp only [Spec.exec]
    exact hP.bind (hP.getR _) fun _ => hP.bind (hP.fetchDisp _) fun _ =>
      hP.cost _ (hP.bind (hP.getR _) fun _ => hP.bind (hP.push .Long _) fun _ => hP.jump _)
  | Dbcc => simp only [Spec.exec]; exact hP.bind (hP.getR _) fun _ => hP.bind hP.fetch fun _ => hP.map _ (hP.dbcc _ _ _ _)
  | Jmp => simp only [Spec.exec]; exact hP.bind (hP.fetchEa _ _) fun _ => hP.bind (hP.control _) fun _ => hP.cost _ (hP.jump _)
  | Jsr =>
    simp only [Spec.exec]
    exact hP.bind (hP.fetchEa _ _) fun _ => hP.cost _ (hP.bind (hP.getR _) fun _ => hP.bind (hP.push .Long _) fun _ =>
      hP.bind (hP.control _) fun _ => hP.jump _)
  | Rts => simp only [Spec.exec]; exact hP.cost _ (hP.bind (hP.pop .Long) fun _ => hP.jump _)
  | Rtr => simp only [Spec.exec]; exact hP.cost _ hP.rtr
  | Nop => simp only [Spec.exec]; exact hP.pure _
  | Chk => simp only [Spec.exec]; exact hP.bind (hP.fetchEa _ _) fun _ => hP.cost _ (hP.chk _ _)
  | Trap => simp only [Spec.exec]; exact hP.cost _ (hP.trap _)
  | Trapv => simp only [Spec.exec]; exact hP.bind (hP.getR _) fun v => hP.ite (fun _ => hP.trap _) fun _ => hP.pure _
  | Andiccr => simp only [Spec.exec]; exact hP.bind hP.fetch fun w => hP.cost _ (hP.setFlags _)
  | Oriccr => simp only [Spec.exec]; exact hP.bind hP.fetch fun w => hP.cost _ (hP.setFlags _)
  | Eoriccr => simp only [Spec.exec]; exact hP.bind hP.fetch fun w => hP.cost _ (hP.setFlags _)
  | Andisr => simp only [Spec.exec]; exact hP.bind hP.fetch fun w => hP.bind hP.privileged fun _ => hP.cost _ (hP.setFlags _)
  | Orisr => simp only [Spec.exec]; exact hP.bind hP.fetch fun w => hP.bind hP.privileged fun _ => hP.cost _ (hP.setFlags _)
  | Eorisr => simp only [Spec.exec]; exact hP.bind hP.fetch fun w => hP.bind hP.privileged fun _ => hP.cost _ (hP.setFlags _)
  | Moveccr =>
    simp only [Spec.exec]
    refine hP.bind (hP.fetchEa _ _) fun _ => hP.bind (hP.read _ _) fun _ => ?_
    exact hP.cost _ (hP.setFlags _)
  | Movesr =>
    simp only [Spec.exec]
    refine hP.bind (hP.fetchEa _ _) fun _ => hP.bind hP.privileged fun _ => hP.bind (hP.read _ _) fun _ => ?_
    exact hP.cost _ (hP.setFlags _)
  | Movefsr => simp only [Spec.exec]; exact hP.bind (hP.fetchEa _ _) fun _ => hP.bind (hP.getR _) fun _ => hP.cost _ (hP.write .Word _ _)
  | Moveusp => simp only [Spec.exec]; exact hP.cost _ (hP.moveUsp _ _)
  | Stop =>
    simp only [Spec.exec]
    exact hP.bind hP.fetch fun _ => hP.cost _ (hP.bind hP.privileged fun _ => hP.bind (hP.setFlags _) fun _ => hP.halt)
  | Reset => simp only [Spec.exec]; exact hP.cost _ (hP.bind hP.privileged fun _ => hP.signalReset)
  | Rte => simp only [Spec.exec]; exact hP.map _ (hP.rte _)

end Pair
end Exec
end M68k
