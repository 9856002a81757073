import Verif.Spec.Named
import Verif.Lemmas.Legal
/-
The registers an instruction changes.
-/
set_option linter.unusedSectionVars false
namespace M68k
namespace Exec
open Spec
variable {M : Type} [MemoryAccess M] {α β : Type} {b : Fin 8 → Nat} {c : Fin 8 → Bool}

theorem onlyChanges_refl (r : Registers) : OnlyChanges b c r r := ⟨fun _ => rfl, fun _ _ => rfl, fun _ => ⟨rfl, rfl⟩⟩
theorem _root_.M68k.Spec.OnlyChanges.trans {r r' r'' : Registers} (h : OnlyChanges b c r r') (h' : OnlyChanges b c r' r'') : OnlyChanges b c r r'' :=
  ⟨fun n => (h'.data n).trans (h.data n), fun n hn => (h'.address n hn).trans (h.address n hn),
   fun h7 => ⟨(h'.stack h7).1.trans (h.stack h7).1, (h'.stack h7).2.trans (h.stack h7).2⟩⟩

/-- An action that changes only these registers. -/
def Within (b : Fin 8 → Nat) (c : Fin 8 → Bool) (x : Exec M α) : Prop := ∀ s,
  match x s with
  | .ok _ s' => OnlyChanges b c s.cpu.regs s'.cpu.regs
  | .err _ s' => OnlyChanges b c s.cpu.regs s'.cpu.regs
  | .panic => True

namespace Within

theorem pure (a : α) : Within b c (Pure.pure a : Exec M α) := fun _ => onlyChanges_refl _
theorem bind {x : Exec M α} {f : α → Exec M β} (hx : Within b c x) (hf : ∀ a, Within b c (f a)) : Within b c (x >>= f) := by
  intro s
  have h1 := hx s
  rw [Exec.bind_apply]
  cases hxs : x s with
  | ok a s' =>
    rw [hxs] at h1
    have h2 := hf a s'
    simp only at h1 ⊢
    cases hfs : f a s' with
    | ok b s'' => rw [hfs] at h2; exact h1.trans h2
    | err v s'' => rw [hfs] at h2; exact h1.trans h2
    | panic => trivial
  | err v s' => rw [hxs] at h1; exact h1
  | panic => trivial
theorem map (f : α → β) {x : Exec M α} (hx : Within b c x) : Within b c (f <$> x) := by
  intro s
  rw [Exec.map_apply]
  have h1 := hx s
  cases hxs : x s <;> rw [hxs] at h1 <;> exact h1
theorem cost {x : Exec M α} {t : Nat} (hx : Within b c x) : Within b c (cost x t) := hx.map _
theorem crash : Within b c (crash : Exec M α) := fun _ => trivial
theorem trap (v : U8) : Within b c (trap v : Exec M α) := fun _ => onlyChanges_refl _
theorem getR (f : Registers → α) : Within b c (getR f : Exec M α) := fun _ => onlyChanges_refl _
theorem flags (f : StatusRegister → StatusRegister) : Within b c (setFlags f : Exec M Unit) :=
  fun _ => ⟨fun _ => rfl, fun _ _ => rfl, fun _ => ⟨rfl, rfl⟩⟩
theorem compute (f : StatusRegister → α × StatusRegister) : Within b c (compute f : Exec M α) :=
  fun _ => ⟨fun _ => rfl, fun _ _ => rfl, fun _ => ⟨rfl, rfl⟩⟩
theorem jump (a : U32) : Within b c (jump a : Exec M Unit) := fun _ => ⟨fun _ => rfl, fun _ _ => rfl, fun _ => ⟨rfl, rfl⟩⟩
theorem halt : Within b c (halt : Exec M Unit) := fun _ => onlyChanges_refl _
theorem signalReset : Within b c (signalReset : Exec M Unit) := fun _ => onlyChanges_refl _
theorem access (f : M → MRes M α) : Within b c (access f) := by
  intro s
  unfold Spec.access
  cases f s.mem <;> first | exact onlyChanges_refl _ | trivial
theorem load (sz : Size) (a : U32) : Within b c (load sz a : Exec M _) := by
  unfold Spec.load
  split
  · exact trap _
  · exact access _
theorem store (sz : Size) (a : U32) (v : Val sz) : Within b c (store sz a v : Exec M _) := by
  unfold Spec.store
  split
  · exact trap _
  · exact access _
theorem fetch : Within b c (fetch : Exec M _) := by
  intro s
  unfold Spec.fetch
  by_cases ho : Spec.Odd s.cpu.regs.pc
  · rw [if_pos ho]; trivial
  · rw [if_neg ho]
    cases MemoryAccess.getWord s.cpu.regs.pc s.mem with
    | val => exact ⟨fun _ => rfl, fun _ _ => rfl, fun _ => ⟨rfl, rfl⟩⟩
    | none => trivial
    | panic => trivial

theorem setDreg_div {r : Registers} {n : Fin 8} {v : U32} (h : v.toNat / 2 ^ b n = (r.d n).toNat / 2 ^ b n) : OnlyChanges b c r (setDreg r n v) := by
  refine ⟨fun k => ?_, fun _ _ => rfl, fun _ => ⟨rfl, rfl⟩⟩
  unfold setDreg
  by_cases hk : k = n
  · subst hk; simp only [if_true]; exact h
  · simp only [if_neg hk]

theorem dreg (n : Fin 8) (f : Registers → U32) (h : 32 ≤ b n) : Within b c (modR fun r => setDreg r n (f r) : Exec M Unit) := by
  intro s
  refine setDreg_div ?_
  have hp : (2 : Nat) ^ 32 ≤ 2 ^ b n := Nat.pow_le_pow_right (by decide) h
  have h1 := (f s.cpu.regs).isLt
  have h2 := (s.cpu.regs.d n).isLt
  rw [Nat.div_eq_of_lt (by omega), Nat.div_eq_of_lt (by omega)]

theorem insertLow_div (sz : Size) (x : U32) (v : Val sz) {k : Nat} (h : width sz ≤ k) : (insertLow sz x v).toNat / 2 ^ k = x.toNat / 2 ^ k := by
  obtain ⟨j, rfl⟩ := Nat.exists_eq_add_of_le h
  have hv := v.isLt
  have hx := x.isLt
  have hlt : x.toNat / 2 ^ width sz * 2 ^ width sz + v.toNat < 2 ^ 32 := by cases sz <;> simp only [width] at * <;> omega
  have e : (insertLow sz x v).toNat = x.toNat / 2 ^ width sz * 2 ^ width sz + v.toNat := by
    unfold insertLow
    rw [BitVec.toNat_ofNat, Nat.mod_eq_of_lt hlt]
  rw [e, Nat.pow_add, ← Nat.div_div_eq_div_mul, ← Nat.div_div_eq_div_mul]
  congr 1
  rw [Nat.add_comm, Nat.add_mul_div_right _ _ (Nat.two_pow_pos _), Nat.div_eq_of_lt hv, Nat.zero_add]

theorem dregLow {sz : Size} (n : Fin 8) (f : Registers → Val sz) (h : width sz ≤ b n) : Within b c (modR fun r => setDreg r n (insertLow sz (r.d n) (f r)) : Exec M Unit) :=
  fun _ => setDreg_div (insertLow_div _ _ _ h)

theorem areg (n : Fin 8) (f : Registers → U32) (h : c n = true) : Within b c (modR fun r => setAreg r n (f r) : Exec M Unit) := by
  intro s
  refine ⟨fun k => ?_, fun k hk => ?_, fun h7 => ?_⟩
  · simp only; unfold setAreg; split
    · rfl
    · split <;> rfl
  · simp only; unfold setAreg; split
    · rename_i hn
      simp only
      rw [if_neg]
      rintro rfl
      rw [h] at hk; cases hk
    · split <;> rfl
  · have hn : n.val < 7 := by
      rcases Nat.lt_or_ge n.val 7 with h' | h'
      · exact h'
      · have : n = 7 := by ext; show n.val = 7; omega
        subst this
        rw [h] at h7; cases h7
    simp only
    unfold setAreg
    rw [dif_pos hn]
    exact ⟨rfl, rfl⟩
theorem updateA (n : Fin 8) (f : U32 → U32) (h : c n = true) : Within b c (updateA n f : Exec M Unit) := areg n _ h

theorem fetchLong : Within b c (fetchLong : Exec M _) := bind fetch fun _ => bind fetch fun _ => pure _
theorem fetchImm (sz : Size) : Within b c (fetchImm sz : Exec M _) := by
  unfold Spec.fetchImm
  split
  · exact fetchLong
  · exact bind fetch fun _ => pure _
theorem fetchDisp (op : U16) : Within b c (fetchDisp op : Exec M _) := by
  unfold Spec.fetchDisp
  split
  · exact fetch
  · exact pure _

/-- The extension words of a mode, then something for modes that fit the fields. -/
theorem fetchMode (sz : Option Size) (mode reg : Fin 8) {f : Mode → Exec M β} (hf : ∀ m, Fits mode.val reg.val m → Within b c (f m)) :
    Within b c (fetchMode sz mode reg >>= f) := by
  have h1 : ∀ {g : U16 → Mode}, (∀ w, Fits mode.val reg.val (g w)) → Within b c ((g <$> Spec.fetch : Exec M Mode) >>= f) := by
    intro g hg s
    rw [Exec.bind_apply, Exec.map_apply]
    have := bind (b := b) (c := c) (fetch (M := M)) (fun w => hf _ (hg w)) s
    rw [Exec.bind_apply] at this
    cases hx : (Spec.fetch s : Res M U16) <;> rw [hx] at this <;> exact this
  have h2 : ∀ {g : U32 → Mode}, (∀ w, Fits mode.val reg.val (g w)) → Within b c ((g <$> Spec.fetchLong : Exec M Mode) >>= f) := by
    intro g hg s
    rw [Exec.bind_apply, Exec.map_apply]
    have := bind (b := b) (c := c) (fetchLong (M := M)) (fun w => hf _ (hg w)) s
    rw [Exec.bind_apply] at this
    cases hx : (Spec.fetchLong s : Res M U32) <;> rw [hx] at this <;> exact this
  have h3 : ∀ {g : U32 → U16 → Mode}, (∀ pc w, Fits mode.val reg.val (g pc w)) →
      Within b c ((do let pc ← Spec.getR (·.pc); g pc <$> Spec.fetch : Exec M Mode) >>= f) := by
    intro g hg s
    exact h1 (g := g s.cpu.regs.pc) (hg _) s
  match mode with
  | 0 => exact hf _ ⟨rfl, rfl⟩
  | 1 => exact hf _ ⟨rfl, rfl⟩
  | 2 => exact hf _ ⟨rfl, rfl⟩
  | 3 => exact hf _ ⟨rfl, rfl⟩
  | 4 => exact hf _ ⟨rfl, rfl⟩
  | 5 => exact h1 fun _ => ⟨rfl, rfl⟩
  | 6 => exact h1 fun _ => ⟨rfl, rfl⟩
  | 7 =>
    match reg with
    | 0 => exact h1 fun _ => ⟨rfl, rfl⟩
    | 1 => exact h2 fun _ => ⟨rfl, rfl⟩
    | 2 => exact h3 fun _ _ => ⟨rfl, rfl⟩
    | 3 => exact h3 fun _ _ => ⟨rfl, rfl⟩
    | 4 =>
      match sz with
      | none => exact fun _ => trivial
      | some .Long => exact h2 fun _ => ⟨rfl, rfl⟩
      | some .Word => exact h1 fun _ => ⟨rfl, rfl⟩
      | some .Byte => exact h1 fun _ => ⟨rfl, rfl⟩
    | 5 => exact fun _ => trivial
    | 6 => exact fun _ => trivial
    | 7 => exact fun _ => trivial

/-- The effective address of the mode steps only address registers that may change. -/
def StepOk (c : Fin 8 → Bool) (m : Mode) : Prop := ∀ n, (m = .postinc n ∨ m = .predec n) → c n = true
/-- A destination that may change. -/
def DestOk (b : Fin 8 → Nat) (c : Fin 8 → Bool) (sz : Size) (m : Mode) : Prop :=
  StepOk c m ∧ (∀ n, m = .dn n → width sz ≤ b n) ∧ ∀ n, m = .an n → c n = true
/-- The same for a place. -/
def PlaceOk (b : Fin 8 → Nat) (c : Fin 8 → Bool) (sz : Size) (p : Place) : Prop := (∀ n, p = .dreg n → width sz ≤ b n) ∧ ∀ n, p = .areg n → c n = true

theorem locate (sz : Size) (m : Mode) {f : Place → Exec M β} (hm : StepOk c m) (hf : ∀ p, (∀ n, p = .dreg n → m = .dn n) → (∀ n, p = .areg n → m = .an n) → Within b c (f p)) :
    Within b c (locate sz m >>= f) := by
  cases m with
  | dn n => exact hf (.dreg n) (fun k h => by cases h; rfl) (fun k h => by cases h)
  | an n => exact hf (.areg n) (fun k h => by cases h) (fun k h => by cases h; rfl)
  | imm v => exact hf (.imm v) (fun k h => by cases h) (fun k h => by cases h)
  | postinc n =>
    exact bind (x := Spec.getR fun r => Spec.areg r n) (f := fun a => (modR fun r => setAreg r n (Spec.areg r n + step n sz)) >>= fun _ => f (.mem a))
      (getR _) fun a => bind (areg n _ (hm n (.inl rfl))) fun _ => hf _ (fun k h => by cases h) (fun k h => by cases h)
  | predec n =>
    exact bind (x := Spec.getR fun r => Spec.areg r n - step n sz) (f := fun a => (modR fun r => setAreg r n (Spec.areg r n - step n sz)) >>= fun _ => f (.mem a))
      (getR _) fun a => bind (areg n _ (hm n (.inr rfl))) fun _ => hf _ (fun k h => by cases h) (fun k h => by cases h)
  | ind n => exact bind (x := Spec.getR fun r => Spec.areg r n) (f := fun a => f (.mem a)) (getR _) fun a => hf _ (fun k h => by cases h) (fun k h => by cases h)
  | disp n d => exact bind (x := Spec.getR fun r => Spec.areg r n + signExt d) (f := fun a => f (.mem a)) (getR _) fun a => hf _ (fun k h => by cases h) (fun k h => by cases h)
  | index n x => exact bind (x := Spec.getR fun r => Spec.areg r n + indexDisp x + indexValue r x) (f := fun a => f (.mem a)) (getR _) fun a => hf _ (fun k h => by cases h) (fun k h => by cases h)
  | absW a => exact hf _ (fun k h => by cases h) (fun k h => by cases h)
  | absL a => exact hf _ (fun k h => by cases h) (fun k h => by cases h)
  | pcDisp pc d => exact hf _ (fun k h => by cases h) (fun k h => by cases h)
  | pcIndex pc x => exact bind (x := Spec.getR fun r => pc + indexDisp x + indexValue r x) (f := fun a => f (.mem a)) (getR _) fun a => hf _ (fun k h => by cases h) (fun k h => by cases h)

theorem readAt (sz : Size) (p : Place) : Within b c (readAt sz p : Exec M _) := by
  cases p with
  | dreg n => exact getR fun r => low sz (r.d n)
  | areg n =>
    by_cases h : sz = .Byte
    · subst h; exact crash
    · show Within b c (if sz = .Byte then Spec.crash else Spec.getR fun r => low sz (Spec.areg r n))
      rw [if_neg h]; exact getR _
  | mem a => exact load _ _
  | imm v => exact pure _
theorem writeAt (sz : Size) (p : Place) (v : Val sz) (h : PlaceOk b c sz p) : Within b c (writeAt sz p v : Exec M _) := by
  cases p with
  | dreg n => exact dregLow n (fun _ => v) (h.1 n rfl)
  | areg n =>
    by_cases hb : sz = .Byte
    · subst hb; exact crash
    · show Within b c (if sz = .Byte then Spec.crash else modR fun r => setAreg r n (signExt v))
      rw [if_neg hb]; exact areg n _ (h.2 n rfl)
  | mem a => exact store _ _ _
  | imm v => exact crash

theorem read (sz : Size) (m : Mode) (h : StepOk c m) : Within b c (read sz m : Exec M _) :=
  locate sz m h fun p _ _ => bind (readAt sz p) fun _ => pure _
theorem readExt (sz : Size) (m : Mode) (h : StepOk c m) : Within b c (readExt sz m : Exec M _) := bind (read sz m h) fun _ => pure _
theorem write (sz : Size) (m : Mode) (h : DestOk b c sz m) (v : Val sz) : Within b c (write sz m v : Exec M _) :=
  locate sz m h.1 fun p hd ha => writeAt sz p v ⟨fun n e => h.2.1 n (hd n e), fun n e => h.2.2 n (ha n e)⟩
theorem readPlace (sz : Size) (m : Mode) (h : DestOk b c sz m) {f : Place × Val sz → Exec M β} (hf : ∀ p v, PlaceOk b c sz p → Within b c (f (p, v))) :
    Within b c (Spec.read sz m >>= f) := by
  have : (Spec.read sz m >>= f : Exec M β) = Spec.locate sz m >>= fun p => Spec.readAt sz p >>= fun v => f (p, v) := by
    funext s
    simp only [Spec.read, Exec.bind_apply]
    cases Spec.locate sz m s with
    | ok p s' => simp only [Exec.bind_apply]; cases Spec.readAt sz p s' <;> rfl
    | err => rfl
    | panic => rfl
  rw [this]
  exact locate sz m h.1 fun p hd ha => bind (readAt sz p) fun v => hf p v ⟨fun n e => h.2.1 n (hd n e), fun n e => h.2.2 n (ha n e)⟩
theorem rmw (sz : Size) (m : Mode) (h : DestOk b c sz m) (f : Val sz → StatusRegister → Val sz × StatusRegister) : Within b c (rmw sz m f : Exec M Unit) :=
  readPlace sz m h fun p _ hp => bind (compute _) fun r => writeAt sz p r hp
theorem opToEa (sz : Size) (n : Fin 8) (m : Mode) (h : DestOk b c sz m) (f : Val sz → Val sz → StatusRegister → Val sz × StatusRegister) :
    Within b c (opToEa sz n m f : Exec M Unit) := bind (getR _) fun _ => rmw sz m h _
theorem dest_dn {sz : Size} {n : Fin 8} (h : width sz ≤ b n) : DestOk b c sz (.dn n) :=
  ⟨fun _ e => (by rcases e with e | e <;> cases e), fun k e => (by cases e; exact h), fun k e => (by cases e)⟩
theorem opToDn (sz : Size) (n : Fin 8) (m : Mode) (h : StepOk c m) (hn : width sz ≤ b n) (f : Val sz → Val sz → StatusRegister → Val sz × StatusRegister) :
    Within b c (opToDn sz n m f : Exec M Unit) := bind (read sz m h) fun _ => rmw sz _ (dest_dn hn) _
theorem dest_predec {sz : Size} {n : Fin 8} (h : c n = true) : DestOk b c sz (.predec n) :=
  ⟨fun k e => (by rcases e with e | e <;> cases e; exact h), fun k e => (by cases e), fun k e => (by cases e)⟩
theorem step_predec {n : Fin 8} (h : c n = true) : StepOk c (.predec n) := fun k e => by rcases e with e | e <;> cases e; exact h
theorem step_postinc {n : Fin 8} (h : c n = true) : StepOk c (.postinc n) := fun k e => by rcases e with e | e <;> cases e; exact h
theorem step_dn {n : Fin 8} : StepOk c (.dn n) := fun k e => by rcases e with e | e <;> cases e
theorem pair (sz : Size) (i : Bool) (x y : Fin 8) (hm : i = true → c x = true ∧ c y = true) (hd : i = false → width sz ≤ b x)
    (f : Val sz → Val sz → StatusRegister → Val sz × StatusRegister) : Within b c (pair sz i x y f : Exec M Unit) := by
  unfold Spec.pair
  refine locate sz _ ?_ fun p _ _ => locate sz _ ?_ fun q hq ha => bind (readAt sz p) fun _ => bind (readAt sz q) fun _ => bind (compute _) fun r => writeAt sz q r ?_
  · cases i
    · exact step_dn
    · exact step_predec (hm rfl).2
  · cases i
    · exact step_dn
    · exact step_predec (hm rfl).1
  · cases i
    · exact ⟨fun n e => (by have := hq n e; cases this; exact hd rfl), fun n e => (by have := ha n e; cases this)⟩
    · exact ⟨fun n e => (by have := hq n e; cases this), fun n e => (by have := ha n e; cases this)⟩
theorem push (sz : Size) (v : Val sz) (h : c 7 = true) : Within b c (push sz v : Exec M _) := write _ _ (dest_predec h) _
theorem pop (sz : Size) (h : c 7 = true) : Within b c (pop sz : Exec M _) := bind (read _ _ (step_postinc h)) fun _ => pure _
theorem address (sz : Size) (m : Mode) (h : StepOk c m) : Within b c (address sz m : Exec M _) := by
  refine locate sz m h fun p _ _ => ?_
  cases p <;> first | exact pure _ | exact crash
theorem control (m : Mode) : Within b c (control m : Exec M _) := by
  unfold Spec.control
  split
  · exact crash
  · exact crash
  · rename_i h1 h2
    exact address _ _ fun n e => by
      rcases e with rfl | rfl
      · exact (h1 _ rfl).elim
      · exact (h2 _ rfl).elim
theorem quickOp (i : Bool) (data : Fin 8) (sz : Size) (m : Mode) (h : DestOk b c sz m) : Within b c (quickOp i data sz m : Exec M Unit) := by
  unfold Spec.quickOp
  split
  · exact updateA _ _ (h.2.2 _ rfl)
  · exact rmw _ _ h _
theorem cmpm (sz : Size) (x y : Fin 8) (hx : c x = true) (hy : c y = true) : Within b c (cmpm sz x y : Exec M Unit) :=
  locate sz _ (step_postinc hy) fun p _ _ => locate sz _ (step_postinc hx) fun q _ _ => bind (readAt sz p) fun _ => bind (readAt sz q) fun _ => flags _
theorem mul (i : Bool) (n : Fin 8) (m : Mode) (h : StepOk c m) (hn : 32 ≤ b n) : Within b c (mul i n m : Exec M Unit) :=
  bind (read _ _ h) fun _ => bind (getR _) fun _ => bind (dreg n (fun _ => _) hn) fun _ => flags _
theorem divu (n : Fin 8) (m : Mode) (h : StepOk c m) (hn : 32 ≤ b n) : Within b c (divu n m : Exec M Unit) := by
  refine bind (flags _) fun _ => bind (read _ _ h) fun x => ?_
  simp only
  split
  · exact bind (flags _) fun _ => trap _
  · refine bind (getR _) fun d => ?_
    split
    · exact bind (dreg n (fun _ => _) hn) fun _ => flags _
    · exact flags _
theorem divs (n : Fin 8) (m : Mode) (h : StepOk c m) (hn : 32 ≤ b n) : Within b c (divs n m : Exec M Unit) := by
  refine bind (flags _) fun _ => bind (read _ _ h) fun x => ?_
  simp only
  split
  · exact bind (flags _) fun _ => trap _
  · refine bind (getR _) fun d => ?_
    split
    · exact bind (dreg n (fun _ => _) hn) fun _ => flags _
    · exact flags _
theorem bitOpAt (o : BitOp) (sz : Size) (i : Nat) (m : Mode) (hs : StepOk c m) (h : o ≠ .test → DestOk b c sz m) : Within b c (bitOpAt o sz i m : Exec M Unit) := by
  unfold Spec.bitOpAt
  split
  · exact bind (read _ _ hs) fun _ => flags _
  · rename_i hn
    exact rmw _ _ (h hn) _
theorem shift (f : {n : Nat} → Nat → BitVec n → StatusRegister → BitVec n × StatusRegister) (sz : Size) (i : Bool) (r n : Fin 8) (h : width sz ≤ b n) :
    Within b c (shift f sz i r n : Exec M Nat) := by
  refine bind ?_ fun k => bind (rmw _ _ (dest_dn h) _) fun _ => pure _
  unfold Spec.shiftCount
  split
  · exact getR _
  · exact pure _
theorem setSr (n : Fin 8) : Within b c ((modR fun r => { r with sr := logicFlags (r.d n) r.sr }) : Exec M Unit) :=
  fun _ => ⟨fun _ => rfl, fun _ _ => rfl, fun _ => ⟨rfl, rfl⟩⟩
theorem aligned (a : U32) : Within b c (aligned a : Exec M Unit) := by
  unfold Spec.aligned; split; exact trap _; exact pure _
theorem movemLoad (sz : Size) (a : U32) : Within b c (Spec.movemLoad sz a : Exec M _) := map _ (access _)
theorem movemStores (sz : Size) (l : List (Fin 16)) (a : U32) : Within b c (movemStores sz l a : Exec M _) := by
  induction l generalizing a with
  | nil => exact pure _
  | cons i l ih => exact bind (getR _) fun _ => bind (access _) fun _ => ih _
theorem movemStoresDown (sz : Size) (l : List (Fin 16)) (a : U32) : Within b c (movemStoresDown sz l a : Exec M _) := by
  induction l generalizing a with
  | nil => exact pure _
  | cons i l ih => exact bind (getR _) fun _ => bind (access _) fun _ => ih _
theorem movemLoads (hd : ∀ n, 32 ≤ b n) (ha : ∀ n, c n = true) (sz : Size) (l : List (Fin 16)) (a : U32) : Within b c (movemLoads sz l a : Exec M _) := by
  induction l generalizing a with
  | nil => exact pure _
  | cons i l ih =>
    refine bind (movemLoad _ _) fun v => bind ?_ fun _ => ih _
    unfold setRegNo
    by_cases h : i.val < 8
    · simp only [h, dite_true]; exact dreg _ (fun _ => v) (hd _)
    · simp only [h, dite_false]; exact areg _ (fun _ => v) (ha _)
theorem movem (t : Bool) (sz : Size) (m : Mode) (mask : U16) (hd : t = true → ∀ n, 32 ≤ b n) (ha : t = true → ∀ n, c n = true) (hs : StepOk c m) :
    Within b c (movem t sz m mask : Exec M Unit) := by
  unfold Spec.movem
  split
  · exact bind (getR _) fun _ => bind (aligned _) fun _ => bind (movemStoresDown _ _ _) fun _ => updateA _ _ (hs _ (.inr rfl))
  · refine bind (getR _) fun _ => bind (aligned _) fun _ => bind ?_ fun _ => updateA _ _ (hs _ (.inl rfl))
    split
    · exact movemLoads (hd ‹_›) (ha ‹_›) _ _ _
    · exact movemStores _ _ _
  · refine bind (address _ _ hs) fun _ => bind (aligned _) fun _ => bind ?_ fun _ => pure _
    split
    · exact movemLoads (hd ‹_›) (ha ‹_›) _ _ _
    · exact movemStores _ _ _
theorem movepStores (n : Fin 8) (k : Nat) (a : U32) : Within b c (movepStores n k a : Exec M _) := by
  induction k generalizing a with
  | zero => exact pure _
  | succ k ih => exact bind (getR _) fun _ => bind (store _ _ _) fun _ => ih _

theorem setByteOf_div (x : U32) (i : Nat) (v : U8) {k : Nat} (hi : i < 4) (h : 8 * (i + 1) ≤ k) : (setByteOf x i v).toNat / 2 ^ k = x.toNat / 2 ^ k := by
  obtain ⟨j, rfl⟩ := Nat.exists_eq_add_of_le h
  have hv := v.isLt
  have hx := x.isLt
  have hp : (256 : Nat) ^ (i + 1) = 2 ^ (8 * (i + 1)) := by rw [Nat.pow_mul]
  have hm : x.toNat % 256 ^ i < 256 ^ i := Nat.mod_lt _ (Nat.pow_pos (by decide))
  have hb : v.toNat * 256 ^ i + x.toNat % 256 ^ i < 256 ^ (i + 1) := by
    rw [Nat.pow_succ]
    have : (v.toNat + 1) * 256 ^ i ≤ 256 * 256 ^ i := Nat.mul_le_mul_right _ (by omega)
    rw [Nat.add_mul] at this
    omega
  have hlt : x.toNat / 256 ^ (i + 1) * 256 ^ (i + 1) + v.toNat * 256 ^ i + x.toNat % 256 ^ i < 2 ^ 32 := by
    have hq : 256 ^ (i + 1) * 256 ^ (3 - i) = 2 ^ 32 := by
      rw [← Nat.pow_add, show i + 1 + (3 - i) = 4 by omega]
    have hl : x.toNat / 256 ^ (i + 1) < 256 ^ (3 - i) := by
      rw [Nat.div_lt_iff_lt_mul (Nat.pow_pos (by decide)), Nat.mul_comm, hq]; exact hx
    have h3 : (x.toNat / 256 ^ (i + 1) + 1) * 256 ^ (i + 1) ≤ 256 ^ (3 - i) * 256 ^ (i + 1) := Nat.mul_le_mul_right _ hl
    rw [Nat.add_mul, Nat.mul_comm (256 ^ (3 - i)), hq] at h3
    omega
  have e : (setByteOf x i v).toNat = x.toNat / 256 ^ (i + 1) * 256 ^ (i + 1) + (v.toNat * 256 ^ i + x.toNat % 256 ^ i) := by
    unfold setByteOf
    rw [BitVec.toNat_ofNat, Nat.mod_eq_of_lt hlt, Nat.add_assoc]
  rw [e, Nat.pow_add 2 (8 * (i + 1)) j, ← Nat.div_div_eq_div_mul, ← Nat.div_div_eq_div_mul, ← hp]
  congr 1
  rw [Nat.add_comm, Nat.add_mul_div_right _ _ (Nat.pow_pos (by decide)), Nat.div_eq_of_lt hb, Nat.zero_add]

theorem movepLoads (n : Fin 8) (k : Nat) (a : U32) (hk : k ≤ 4) (h : 8 * k ≤ b n) : Within b c (movepLoads n k a : Exec M _) := by
  induction k generalizing a with
  | zero => exact pure _
  | succ k ih =>
    refine bind (load _ _) fun v => bind ?_ fun _ => ih _ (by omega) (by omega)
    exact fun s => setDreg_div (setByteOf_div _ _ _ (by omega) h)
theorem movep (t : Bool) (sz : Size) (n an : Fin 8) (d : U16) (h : t = false → width sz ≤ b n) : Within b c (movep t sz n an d : Exec M Unit) := by
  refine bind (getR _) fun a => ?_
  simp only
  split
  · exact movepStores _ _ _
  · have h := h (by cases t <;> simp_all)
    refine bind (dregLow n (fun _ => 0) h) fun _ => movepLoads _ _ _ ?_ ?_
    · cases sz <;> decide
    · cases sz <;> exact h

end Within
end Exec
end M68k
