import Verif.Spec.Fault
import Verif.Lemmas.NamedExec
import Verif.Lemmas.Length
import Verif.Lemmas.Traverse
/-
The state that an instruction leaves when it ends with an exception.
-/
set_option linter.unusedSectionVars false
namespace M68k
namespace Exec
open Spec
variable {M : Type} [MemoryAccess M] {α β : Type} {d c : Fin 8 → Bool} {f w : Bool}

/-- As `Left`, without a refused write. -/
structure Before (d a : Fin 8 → Bool) (f w : Bool) (s s' : St M) : Prop where
  data : ∀ n, d n = false → s'.cpu.regs.d n = s.cpu.regs.d n
  address : ∀ n : Fin 7, a ⟨n.val, by omega⟩ = false → s'.cpu.regs.a n = s.cpu.regs.a n
  stack : a 7 = false → s'.cpu.regs.usp = s.cpu.regs.usp ∧ s'.cpu.regs.ssp = s.cpu.regs.ssp
  flags : f = false → s'.cpu.regs.sr = s.cpu.regs.sr
  system : s.cpu.regs.sr.interruptMask.toNat < 8 → SameSystem s.cpu.regs.sr s'.cpu.regs.sr
  running : s'.cpu.stop = s.cpu.stop
  pending : s'.cpu.exceptions = s.cpu.exceptions
  memory : w = false → Reads s.mem s'.mem

namespace Before
theorem refl (s : St M) : Before d c f w s s :=
  ⟨fun _ _ => rfl, fun _ _ => rfl, fun _ => ⟨rfl, rfl⟩, fun _ => rfl, fun _ => ⟨rfl, rfl, rfl⟩, rfl, rfl, fun _ => .refl _⟩
theorem system_trans {s t u : StatusRegister} (h : s.interruptMask.toNat < 8 → SameSystem s t) (h' : t.interruptMask.toNat < 8 → SameSystem t u)
    (hm : s.interruptMask.toNat < 8) : SameSystem s u := by
  obtain ⟨h1, h2, h3⟩ := h hm
  obtain ⟨k1, k2, k3⟩ := h' (by rw [h3]; exact hm)
  exact ⟨k1.trans h1, k2.trans h2, k3.trans h3⟩
theorem trans {s t u : St M} (h : Before d c f w s t) (h' : Before d c f w t u) : Before d c f w s u where
  data n hn := (h'.data n hn).trans (h.data n hn)
  address n hn := (h'.address n hn).trans (h.address n hn)
  stack h7 := ⟨(h'.stack h7).1.trans (h.stack h7).1, (h'.stack h7).2.trans (h.stack h7).2⟩
  flags hf := (h'.flags hf).trans (h.flags hf)
  system := system_trans h.system h'.system
  running := h'.running.trans h.running
  pending := h'.pending.trans h.pending
  memory hw := (h.memory hw).trans (h'.memory hw)
theorem left {s t u : St M} (h : Before d c f w s t) (h' : Left d c f w t u) : Left d c f w s u where
  data n hn := (h'.data n hn).trans (h.data n hn)
  address n hn := (h'.address n hn).trans (h.address n hn)
  stack h7 := ⟨(h'.stack h7).1.trans (h.stack h7).1, (h'.stack h7).2.trans (h.stack h7).2⟩
  flags hf := (h'.flags hf).trans (h.flags hf)
  system := system_trans h.system h'.system
  running := h'.running.trans h.running
  pending := h'.pending.trans h.pending
  memory hw := by
    obtain ⟨m, h1, h2⟩ := h'.memory hw
    exact ⟨m, (h.memory hw).trans h1, h2⟩
theorem done {s t : St M} (h : Before d c f w s t) : Left d c f w s t :=
  { h with memory := fun hw => ⟨_, h.memory hw, .inl rfl⟩ }
end Before

/-- An action that fails, if it does, as `Left` says, and that keeps as much if it succeeds. -/
def Sound (d c : Fin 8 → Bool) (f w : Bool) (x : Exec M α) : Prop := ∀ s,
  match x s with
  | .ok _ s' => Before d c f w s s'
  | .err _ s' => Left d c f w s s'
  | .panic => True

/-- An action that fails, if it does, as `Left` says. -/
def Final (d c : Fin 8 → Bool) (f w : Bool) (x : Exec M α) : Prop := ∀ s,
  match x s with
  | .err _ s' => Left d c f w s s'
  | _ => True

/-- An action that cannot fail. -/
def NoFault (x : Exec M α) : Prop := ∀ s,
  match x s with
  | .err _ _ => False
  | _ => True

namespace NoFault
theorem pure (a : α) : NoFault (Pure.pure a : Exec M α) := fun _ => trivial
theorem crash : NoFault (crash : Exec M α) := fun _ => trivial
theorem getR (f : Registers → α) : NoFault (getR f : Exec M α) := fun _ => trivial
theorem modR (f : Registers → Registers) : NoFault (modR f : Exec M Unit) := fun _ => trivial
theorem flags (f : StatusRegister → StatusRegister) : NoFault (setFlags f : Exec M Unit) := fun _ => trivial
theorem compute (f : StatusRegister → α × StatusRegister) : NoFault (compute f : Exec M α) := fun _ => trivial
theorem jump (a : U32) : NoFault (jump a : Exec M Unit) := fun _ => trivial
theorem halt : NoFault (halt : Exec M Unit) := fun _ => trivial
theorem signalReset : NoFault (signalReset : Exec M Unit) := fun _ => trivial
theorem updateA (n : Fin 8) (f : U32 → U32) : NoFault (updateA n f : Exec M Unit) := fun _ => trivial
theorem locate (sz : Size) (m : Mode) : NoFault (locate sz m : Exec M _) := fun _ => trivial
theorem fetch : NoFault (fetch : Exec M _) := by
  intro s
  unfold Spec.fetch
  by_cases ho : Spec.Odd s.cpu.regs.pc
  · rw [if_pos ho]; trivial
  · rw [if_neg ho]
    cases MemoryAccess.getWord s.cpu.regs.pc s.mem <;> trivial
theorem bind {x : Exec M α} {g : α → Exec M β} (hx : NoFault x) (hf : ∀ a, NoFault (g a)) : NoFault (x >>= g) := by
  intro s
  have h1 := hx s
  rw [Exec.bind_apply]
  cases hxs : x s with
  | ok a s' =>
    have h2 := hf a s'
    simp only
    cases hfs : g a s' <;> rw [hfs] at h2 <;> first | exact h2 | trivial
  | err v s' => rw [hxs] at h1; exact h1
  | panic => trivial
theorem map (g : α → β) {x : Exec M α} (hx : NoFault x) : NoFault (g <$> x) := by
  intro s
  rw [Exec.map_apply]
  have h1 := hx s
  cases hxs : x s <;> rw [hxs] at h1 <;> first | exact h1 | trivial
theorem cost {x : Exec M α} {t : Nat} (hx : NoFault x) : NoFault (cost x t) := hx.map _
theorem ite {p : Prop} [Decidable p] {x y : Exec M α} (hx : NoFault x) (hy : NoFault y) : NoFault (if p then x else y) := by
  split
  · exact hx
  · exact hy
theorem address (sz : Size) (m : Mode) : NoFault (address sz m : Exec M _) := by
  refine bind (locate sz m) fun p => ?_
  cases p <;> first | exact pure _ | exact crash
theorem control (m : Mode) : NoFault (Spec.control m : Exec M _) := by
  unfold Spec.control
  split
  · exact crash
  · exact crash
  · exact address _ _
end NoFault

namespace Sound
theorem pure (a : α) : Sound d c f w (Pure.pure a : Exec M α) := fun s => .refl s
theorem bind {x : Exec M α} {g : α → Exec M β} (hx : Sound d c f w x) (hf : ∀ a, Sound d c f w (g a)) : Sound d c f w (x >>= g) := by
  intro s
  have h1 := hx s
  rw [Exec.bind_apply]
  cases hxs : x s with
  | ok a s' =>
    rw [hxs] at h1
    have h2 := hf a s'
    simp only at h1 ⊢
    cases hfs : g a s' with
    | ok b s'' => rw [hfs] at h2; exact h1.trans h2
    | err v s'' => rw [hfs] at h2; exact h1.left h2
    | panic => trivial
  | err v s' => rw [hxs] at h1; exact h1
  | panic => trivial
theorem map (g : α → β) {x : Exec M α} (hx : Sound d c f w x) : Sound d c f w (g <$> x) := by
  intro s
  rw [Exec.map_apply]
  have h1 := hx s
  cases hxs : x s <;> rw [hxs] at h1 <;> exact h1
theorem crash : Sound d c f w (crash : Exec M α) := fun _ => trivial
theorem trap (v : U8) : Sound d c f w (trap v : Exec M α) := fun s => (Before.refl s).done
theorem getR (g : Registers → α) : Sound d c f w (getR g : Exec M α) := fun s => .refl s
theorem flags (g : StatusRegister → StatusRegister) (hf : f = true) (hg : KeepsSystem g) : Sound d c f w (setFlags g : Exec M Unit) :=
  fun _ => ⟨fun _ _ => rfl, fun _ _ => rfl, fun _ => ⟨rfl, rfl⟩, fun h => (by rw [hf] at h; cases h), hg _, rfl, rfl, fun _ => .refl _⟩
theorem compute (g : StatusRegister → α × StatusRegister) (hf : f = true) (hg : KeepsSystem fun sr => (g sr).2) : Sound d c f w (compute g : Exec M α) :=
  fun _ => ⟨fun _ _ => rfl, fun _ _ => rfl, fun _ => ⟨rfl, rfl⟩, fun h => (by rw [hf] at h; cases h), hg _, rfl, rfl, fun _ => .refl _⟩
theorem jump (a : U32) : Sound d c f w (jump a : Exec M Unit) :=
  fun _ => ⟨fun _ _ => rfl, fun _ _ => rfl, fun _ => ⟨rfl, rfl⟩, fun _ => rfl, fun _ => ⟨rfl, rfl, rfl⟩, rfl, rfl, fun _ => .refl _⟩
theorem get (sz : Size) (a : U32) (ha : ¬ (sz ≠ .Byte ∧ Spec.Odd a)) : Sound d c f w (access (memGet sz a) : Exec M _) := by
  intro s
  have h := onlyReads_get (M := M) sz a ha s
  unfold access at h ⊢
  cases hm : memGet sz a s.mem with
  | val v m => rw [hm] at h; exact ⟨fun _ _ => rfl, fun _ _ => rfl, fun _ => ⟨rfl, rfl⟩, fun _ => rfl, fun _ => ⟨rfl, rfl, rfl⟩, rfl, rfl, fun _ => h⟩
  | none m => rw [hm] at h; exact ⟨fun _ _ => rfl, fun _ _ => rfl, fun _ => ⟨rfl, rfl⟩, fun _ => rfl, fun _ => ⟨rfl, rfl, rfl⟩, rfl, rfl, fun _ => ⟨_, h, .inl rfl⟩⟩
  | panic => trivial
theorem set (sz : Size) (a : U32) (v : Val sz) (hw : w = true) : Sound d c f w (access (memSet sz a v) : Exec M _) := by
  intro s
  unfold access
  cases hm : memSet sz a v s.mem with
  | val v m => exact ⟨fun _ _ => rfl, fun _ _ => rfl, fun _ => ⟨rfl, rfl⟩, fun _ => rfl, fun _ => ⟨rfl, rfl, rfl⟩, rfl, rfl, fun h => by rw [hw] at h; cases h⟩
  | none m => exact ⟨fun _ _ => rfl, fun _ _ => rfl, fun _ => ⟨rfl, rfl⟩, fun _ => rfl, fun _ => ⟨rfl, rfl, rfl⟩, rfl, rfl, fun h => by rw [hw] at h; cases h⟩
  | panic => trivial
theorem load (sz : Size) (a : U32) : Sound d c f w (load sz a : Exec M _) := by
  unfold Spec.load
  split
  · exact trap _
  · exact get _ _ ‹_›
theorem store (sz : Size) (a : U32) (v : Val sz) (hw : w = true) : Sound d c f w (store sz a v : Exec M _) := by
  unfold Spec.store
  split
  · exact trap _
  · exact set _ _ _ hw
theorem fetch : Sound d c f w (fetch : Exec M _) := by
  intro s
  unfold Spec.fetch
  by_cases ho : Spec.Odd s.cpu.regs.pc
  · rw [if_pos ho]; trivial
  · rw [if_neg ho]
    cases hm : MemoryAccess.getWord s.cpu.regs.pc s.mem with
    | val v m => exact ⟨fun _ _ => rfl, fun _ _ => rfl, fun _ => ⟨rfl, rfl⟩, fun _ => rfl, fun _ => ⟨rfl, rfl, rfl⟩, rfl, rfl, fun _ => .word (.refl _) ho (.inr ⟨v, hm⟩)⟩
    | none => trivial
    | panic => trivial

theorem dreg (n : Fin 8) (g : Registers → U32) (h : d n = true) : Sound d c f w (modR fun r => setDreg r n (g r) : Exec M Unit) := by
  intro s
  refine ⟨fun k hk => ?_, fun _ _ => rfl, fun _ => ⟨rfl, rfl⟩, fun _ => rfl, fun _ => ⟨rfl, rfl, rfl⟩, rfl, rfl, fun _ => .refl _⟩
  exact if_neg fun e => by rw [e, h] at hk; cases hk

theorem areg (n : Fin 8) (g : Registers → U32) (h : c n = true) : Sound d c f w (modR fun r => setAreg r n (g r) : Exec M Unit) := by
  intro s
  have hw := Within.areg (b := fun _ => 0) (M := M) n g h s
  have hsr := setAreg_sr s.cpu.regs n (g s.cpu.regs)
  exact ⟨fun k _ => congrFun (setAreg_d _ _ _) k, hw.address, hw.stack, fun _ => hsr, fun _ => by show SameSystem _ (setAreg _ _ _).sr; rw [hsr]; exact ⟨rfl, rfl, rfl⟩,
    rfl, rfl, fun _ => .refl _⟩
theorem updateA (n : Fin 8) (g : U32 → U32) (h : c n = true) : Sound d c f w (updateA n g : Exec M Unit) := areg n _ h

theorem fetchLong : Sound d c f w (fetchLong : Exec M _) := bind fetch fun _ => bind fetch fun _ => pure _
theorem fetchImm (sz : Size) : Sound d c f w (fetchImm sz : Exec M _) := by
  unfold Spec.fetchImm
  split
  · exact fetchLong
  · exact bind fetch fun _ => pure _
theorem fetchDisp (op : U16) : Sound d c f w (fetchDisp op : Exec M _) := by
  unfold Spec.fetchDisp
  split
  · exact fetch
  · exact pure _

theorem locate (sz : Size) (m : Mode) (hm : Within.StepOk c m) : Sound d c f w (locate sz m : Exec M Place) := by
  cases m with
  | postinc n =>
    exact bind (x := Spec.getR fun r => Place.mem (Spec.areg r n)) (g := fun p => (modR fun r => setAreg r n (Spec.areg r n + step n sz)) >>= fun _ => Pure.pure p)
      (getR _) fun p => bind (areg n _ (hm n (.inl rfl))) fun _ => pure _
  | predec n =>
    exact bind (x := Spec.getR fun r => Place.mem (Spec.areg r n - step n sz)) (g := fun p => (modR fun r => setAreg r n (Spec.areg r n - step n sz)) >>= fun _ => Pure.pure p)
      (getR _) fun p => bind (areg n _ (hm n (.inr rfl))) fun _ => pure _
  | dn n => exact pure _
  | an n => exact pure _
  | ind n => exact getR fun r => Place.mem (Spec.areg r n)
  | disp n x => exact getR fun r => Place.mem (Spec.areg r n + signExt x)
  | index n x => exact getR fun r => Place.mem (Spec.areg r n + indexDisp x + indexValue r x)
  | absW a => exact pure _
  | absL a => exact pure _
  | pcDisp pc x => exact pure _
  | pcIndex pc x => exact getR fun r => Place.mem (pc + indexDisp x + indexValue r x)
  | imm v => exact pure _
theorem readAt (sz : Size) (p : Place) : Sound d c f w (readAt sz p : Exec M _) := by
  cases p with
  | dreg n => exact getR fun r => low sz (r.d n)
  | areg n =>
    unfold Spec.readAt
    simp only
    split
    · exact crash
    · exact getR _
  | mem a => exact load _ _
  | imm v => exact pure _
theorem read (sz : Size) (m : Mode) (h : Within.StepOk c m) : Sound d c f w (read sz m : Exec M _) :=
  bind (locate sz m h) fun p => bind (readAt sz p) fun _ => pure _
theorem readExt (sz : Size) (m : Mode) (h : Within.StepOk c m) : Sound d c f w (readExt sz m : Exec M _) := bind (read sz m h) fun _ => pure _
theorem pop (sz : Size) (h : c 7 = true) : Sound d c f w (pop sz : Exec M _) := bind (read _ _ (Within.step_postinc h)) fun _ => pure _
theorem privileged : Sound d c f w (privileged : Exec M Unit) := by
  refine bind (getR _) fun s => ?_
  cases s
  · exact trap _
  · exact pure _
theorem aligned (a : U32) : Sound d c f w (aligned a : Exec M Unit) := by
  unfold Spec.aligned; split; exact trap _; exact pure _
end Sound

namespace Final
theorem sound {x : Exec M α} (h : Sound d c f w x) : Final d c f w x := by
  intro s
  have h1 := h s
  cases hx : x s <;> rw [hx] at h1 <;> first | exact h1 | trivial
theorem noFault {x : Exec M α} (h : NoFault x) : Final d c f w x := by
  intro s
  have h1 := h s
  cases hx : x s <;> rw [hx] at h1 <;> first | exact h1.elim | trivial
theorem bind {x : Exec M α} {g : α → Exec M β} (hx : Sound d c f w x) (hf : ∀ a, Final d c f w (g a)) : Final d c f w (x >>= g) := by
  intro s
  have h1 := hx s
  rw [Exec.bind_apply]
  cases hxs : x s with
  | ok a s' =>
    rw [hxs] at h1
    have h2 := hf a s'
    simp only at h1 ⊢
    cases hfs : g a s' with
    | ok b s'' => trivial
    | err v s'' => rw [hfs] at h2; exact h1.left h2
    | panic => trivial
  | err v s' => rw [hxs] at h1; exact h1
  | panic => trivial
/-- The last action that can fail. -/
theorem last {x : Exec M α} {g : α → Exec M β} (hx : Final d c f w x) (hf : ∀ a, NoFault (g a)) : Final d c f w (x >>= g) := by
  intro s
  have h1 := hx s
  rw [Exec.bind_apply]
  cases hxs : x s with
  | ok a s' =>
    have h2 := hf a s'
    simp only
    cases hfs : g a s' with
    | ok b s'' => trivial
    | err v s'' => rw [hfs] at h2; exact h2.elim
    | panic => trivial
  | err v s' => rw [hxs] at h1; exact h1
  | panic => trivial
theorem map (g : α → β) {x : Exec M α} (hx : Final d c f w x) : Final d c f w (g <$> x) := by
  intro s
  rw [Exec.map_apply]
  have h1 := hx s
  cases hxs : x s <;> rw [hxs] at h1 <;> first | exact h1 | trivial
theorem cost {x : Exec M α} {t : Nat} (hx : Final d c f w x) : Final d c f w (cost x t) := hx.map _
theorem set (sz : Size) (a : U32) (v : Val sz) : Final d c f w (access (memSet sz a v) : Exec M _) := by
  intro s
  unfold access
  cases hm : memSet sz a v s.mem with
  | none m => exact ⟨fun _ _ => rfl, fun _ _ => rfl, fun _ => ⟨rfl, rfl⟩, fun _ => rfl, fun _ => ⟨rfl, rfl, rfl⟩, rfl, rfl, fun _ => ⟨_, .refl _, .inr ⟨sz, a, v, hm⟩⟩⟩
  | val v m => trivial
  | panic => trivial
theorem store (sz : Size) (a : U32) (v : Val sz) : Final d c f w (store sz a v : Exec M _) := by
  unfold Spec.store
  split
  · exact sound (Sound.trap _)
  · exact set _ _ _
theorem writeAt (sz : Size) (p : Place) (v : Val sz) : Final d c f w (writeAt sz p v : Exec M _) := by
  cases p with
  | dreg n => exact noFault fun _ => trivial
  | areg n =>
    unfold Spec.writeAt
    simp only
    split
    · exact noFault NoFault.crash
    · exact noFault fun _ => trivial
  | mem a => exact store _ _ _
  | imm v => exact noFault NoFault.crash
theorem write (sz : Size) (m : Mode) (h : Within.StepOk c m) (v : Val sz) : Final d c f w (write sz m v : Exec M _) :=
  bind (Sound.locate sz m h) fun p => writeAt sz p v
theorem push (sz : Size) (v : Val sz) (h : c 7 = true) : Final d c f w (push sz v : Exec M _) := write _ _ (Within.step_predec h) _

theorem fetchMode (sz : Option Size) (mode reg : Fin 8) {g : Mode → Exec M β} (hf : ∀ m, Fits mode.val reg.val m → Final d c f w (g m)) :
    Final d c f w (fetchMode sz mode reg >>= g) := by
  have h1 : ∀ {k : U16 → Mode}, (∀ w, Fits mode.val reg.val (k w)) → Final d c f w ((k <$> Spec.fetch : Exec M Mode) >>= g) := by
    intro k hk s
    rw [Exec.bind_apply, Exec.map_apply]
    have := bind (d := d) (c := c) (f := f) (w := w) (Sound.fetch (M := M)) (fun w => hf _ (hk w)) s
    rw [Exec.bind_apply] at this
    cases hx : (Spec.fetch s : Res M U16) <;> rw [hx] at this <;> exact this
  have h2 : ∀ {k : U32 → Mode}, (∀ w, Fits mode.val reg.val (k w)) → Final d c f w ((k <$> Spec.fetchLong : Exec M Mode) >>= g) := by
    intro k hk s
    rw [Exec.bind_apply, Exec.map_apply]
    have := bind (d := d) (c := c) (f := f) (w := w) (Sound.fetchLong (M := M)) (fun w => hf _ (hk w)) s
    rw [Exec.bind_apply] at this
    cases hx : (Spec.fetchLong s : Res M U32) <;> rw [hx] at this <;> exact this
  have h3 : ∀ {k : U32 → U16 → Mode}, (∀ pc w, Fits mode.val reg.val (k pc w)) →
      Final d c f w ((do let pc ← Spec.getR (·.pc); k pc <$> Spec.fetch : Exec M Mode) >>= g) := by
    intro k hk s
    exact h1 (k := k s.cpu.regs.pc) (hk _) s
  match mode with
  | 0 => exact hf _ ⟨rfl, rfl⟩
  | 1 => exact hf _ ⟨rfl, rfl⟩
  | 2 => exact hf _ ⟨rfl, rfl⟩
  | 3 => exact hf _ ⟨rfl, rfl⟩
  | 4 => exact hf _ ⟨rfl, rfl⟩
  | 5 => exact h1 fun _ => ⟨rfl, rfl⟩
  | 6 => exact h1 fun _ => ⟨rfl, rfl⟩
  | 7 =>
    match reg with
    | 0 => exact h1 fun _ => ⟨rfl, rfl⟩
    | 1 => exact h2 fun _ => ⟨rfl, rfl⟩
    | 2 => exact h3 fun _ _ => ⟨rfl, rfl⟩
    | 3 => exact h3 fun _ _ => ⟨rfl, rfl⟩
    | 4 =>
      match sz with
      | none => exact fun _ => trivial
      | some .Long => exact h2 fun _ => ⟨rfl, rfl⟩
      | some .Word => exact h1 fun _ => ⟨rfl, rfl⟩
      | some .Byte => exact h1 fun _ => ⟨rfl, rfl⟩
    | 5 => exact fun _ => trivial
    | 6 => exact fun _ => trivial
    | 7 => exact fun _ => trivial

variable {op : U16}
theorem fetchEa (sz : Option Size) {g : Mode → Exec M β} (hf : ∀ m, Fits (op.toNat / 8 % 8) (op.toNat % 8) m → Final d c f w (g m)) :
    Final d c f w (fetchEa sz op >>= g) := by
  have e0 : (regField op 0).val = op.toNat % 8 := by simp [regField, Fin.ofNat]
  have e3 : (regField op 3).val = op.toNat / 8 % 8 := by simp [regField, Fin.ofNat]
  exact fetchMode sz _ _ fun m hm => hf m (by rwa [e0, e3] at hm)
theorem sized {g : Size → Exec M Nat} (hf : ∀ sz, Final d c f w (g sz)) : Final d c f w (sized op g) := by
  unfold Spec.sized
  split
  · exact hf _
  · split
    · exact hf _
    · split
      · exact hf _
      · exact noFault NoFault.crash
theorem moveSized {g : Size → Exec M Nat} (hf : ∀ sz, Final d c f w (g sz)) : Final d c f w (moveSized op g) := by
  unfold Spec.moveSized
  split
  · exact hf _
  · split
    · exact hf _
    · split
      · exact hf _
      · exact noFault NoFault.crash

/-- A register operand cannot fail to be written, so the condition codes of its instruction do not matter. -/
theorem rmwDn (sz : Size) (n : Fin 8) (g : Val sz → StatusRegister → Val sz × StatusRegister) : NoFault (rmw sz (.dn n) g : Exec M Unit) := by
  intro s
  trivial
theorem rmw (sz : Size) (m : Mode) (h : Within.StepOk c m) (g : Val sz → StatusRegister → Val sz × StatusRegister) (hf : f = true)
    (hg : ∀ v, KeepsSystem fun sr => (g v sr).2) : Final d c f w (rmw sz m g : Exec M Unit) :=
  bind (Sound.read sz m h) fun _ => bind (Sound.compute _ hf (hg _)) fun _ => writeAt _ _ _
theorem opToEa (sz : Size) (n : Fin 8) (m : Mode) (h : Within.StepOk c m) (g : Val sz → Val sz → StatusRegister → Val sz × StatusRegister) (hf : f = true)
    (hg : ∀ v u, KeepsSystem fun sr => (g v u sr).2) : Final d c f w (opToEa sz n m g : Exec M Unit) :=
  bind (Sound.getR _) fun _ => rmw sz m h _ hf fun _ => hg _ _
theorem opToDn (sz : Size) (n : Fin 8) (m : Mode) (h : Within.StepOk c m) (g : Val sz → Val sz → StatusRegister → Val sz × StatusRegister) :
    Final d c f w (opToDn sz n m g : Exec M Unit) := bind (Sound.read sz m h) fun _ => noFault (rmwDn _ _ _)
theorem pair (sz : Size) (i : Bool) (x y : Fin 8) (hm : i = true → c x = true ∧ c y = true) (g : Val sz → Val sz → StatusRegister → Val sz × StatusRegister)
    (hf : f = true) (hg : ∀ v u, KeepsSystem fun sr => (g v u sr).2) : Final d c f w (pair sz i x y g : Exec M Unit) := by
  unfold Spec.pair
  refine bind (Sound.locate sz _ ?_) fun p => bind (Sound.locate sz _ ?_) fun q => bind (Sound.readAt sz p) fun _ => bind (Sound.readAt sz q) fun _ =>
    bind (Sound.compute _ hf (hg _ _)) fun r => writeAt sz q r
  · cases i
    · exact Within.step_dn
    · exact Within.step_predec (hm rfl).2
  · cases i
    · exact Within.step_dn
    · exact Within.step_predec (hm rfl).1
theorem binary (C : CpuDetails) (op : U16) (g : {n : Nat} → BitVec n → BitVec n → StatusRegister → BitVec n × StatusRegister) (t1 t2 t3 t4 t5 : Nat)
    (hs : ∀ n, eaSteps op n = true → c n = true) (hf : flag op 8 = true → f = true) (hg : ∀ {n : Nat} (v u : BitVec n), KeepsSystem fun sr => (g v u sr).2) :
    Final d c f w (binary C op g t1 t2 t3 t4 t5 : Exec M Nat) := by
  refine sized fun sz => fetchEa _ fun m hm => ?_
  split
  · exact cost (opToEa _ _ _ (Within.step_fits hm hs) _ (hf ‹_›) fun v u => hg v u)
  · exact cost (opToDn _ _ _ (Within.step_fits hm hs) _)
theorem immediate (C : CpuDetails) (op : U16) (g : {n : Nat} → BitVec n → BitVec n → StatusRegister → BitVec n × StatusRegister) (t1 t2 t3 t4 : Nat)
    (hs : ∀ n, eaSteps op n = true → c n = true) (hf : f = true) (hg : ∀ {n : Nat} (v u : BitVec n), KeepsSystem fun sr => (g v u sr).2) :
    Final d c f w (immediate C op g t1 t2 t3 t4 : Exec M Nat) :=
  sized fun sz => bind (Sound.fetchImm _) fun _ => fetchEa _ fun m hm => cost (rmw _ _ (Within.step_fits hm hs) _ hf fun v => hg v _)
theorem unary (C : CpuDetails) (op : U16) (t1 t2 t3 t4 : Nat) (x : (sz : Size) → Mode → Exec M Unit) (hs : ∀ n, eaSteps op n = true → c n = true)
    (hx : ∀ sz m, Within.StepOk c m → Final d c f w (x sz m)) : Final d c f w (unary C op t1 t2 t3 t4 x : Exec M Nat) :=
  sized fun sz => fetchEa _ fun m hm => cost (hx _ _ (Within.step_fits hm hs))
theorem bitOpAt (o : BitOp) (sz : Size) (i : Nat) (m : Mode) (hs : Within.StepOk c m) (hf : o ≠ .test → f = true) : Final d c f w (bitOpAt o sz i m : Exec M Unit) := by
  unfold Spec.bitOpAt
  split
  · exact bind (Sound.read _ _ hs) fun _ => noFault (NoFault.flags _)
  · exact rmw _ _ hs _ (hf ‹_›) fun v _ _ => ⟨rfl, rfl, rfl⟩
theorem bitOp (o : BitOp) (i : Nat) (m : Mode) (hs : Within.StepOk c m) (hf : o ≠ .test → f = true) : Final d c f w (bitOp o i m : Exec M Unit) := by
  unfold Spec.bitOp
  split
  · exact bitOpAt _ _ _ _ hs hf
  · exact bitOpAt _ _ _ _ hs hf
theorem bitInstr (C : CpuDetails) (op : U16) (o : BitOp) (t1 t2 t3 t4 : Nat) (hs : ∀ n, eaSteps op n = true → c n = true) (hf : o ≠ .test → f = true) :
    Final d c f w (bitInstr C op o t1 t2 t3 t4 : Exec M Nat) := by
  unfold Spec.bitInstr
  split
  · exact fetchEa _ fun m hm => bind (Sound.getR _) fun _ => cost (bitOp _ _ _ (Within.step_fits hm hs) hf)
  · exact bind Sound.fetch fun _ => fetchEa _ fun m hm => cost (bitOp _ _ _ (Within.step_fits hm hs) hf)
theorem shiftInstr (op : U16) (g k : {n : Nat} → Nat → BitVec n → StatusRegister → BitVec n × StatusRegister) (t1 t2 t3 : Nat) :
    Final d c f w (shiftInstr op g k t1 t2 t3 : Exec M Nat) := by
  have h : ∀ (g : {n : Nat} → Nat → BitVec n → StatusRegister → BitVec n × StatusRegister) (sz : Size) (i : Bool) (r n : Fin 8), NoFault (shift g sz i r n : Exec M Nat) := by
    intro g sz i r n
    refine NoFault.bind ?_ fun k => NoFault.bind (rmwDn _ _ _) fun _ => NoFault.pure _
    unfold Spec.shiftCount
    exact NoFault.ite (NoFault.getR _) (NoFault.pure _)
  refine sized fun sz => noFault (NoFault.map _ ?_)
  split <;> exact h _ _ _ _ _
theorem shiftMem (C : CpuDetails) (op : U16) (g k : Nat → BitVec 16 → StatusRegister → BitVec 16 × StatusRegister) (t : Nat)
    (hs : ∀ n, eaSteps op n = true → c n = true) (hf : f = true) (hg : ∀ (j : Nat) (v : BitVec 16), KeepsSystem fun sr => (g j v sr).2)
    (hk : ∀ (j : Nat) (v : BitVec 16), KeepsSystem fun sr => (k j v sr).2) : Final d c f w (shiftMem C op g k t : Exec M Nat) :=
  fetchEa _ fun m hm => cost (rmw _ _ (Within.step_fits hm hs) _ hf fun v => by
    cases h8 : flag op 8
    · exact hk 1 v
    · exact hg 1 v)
theorem wordToDn (C : CpuDetails) (op : U16) (x : Fin 8 → Mode → Exec M Unit) (t : Nat) (hs : ∀ n, eaSteps op n = true → c n = true)
    (hx : ∀ m, Within.StepOk c m → Final d c f w (x (regField op 9) m)) : Final d c f w (wordToDn C op x t : Exec M Nat) :=
  fetchEa _ fun m hm => cost (hx m (Within.step_fits hm hs))

theorem movemStores (sz : Size) (hw : w = true) (l : List (Fin 16)) (a : U32) : Sound d c f w (movemStores sz l a : Exec M _) := by
  induction l generalizing a with
  | nil => exact Sound.pure _
  | cons i l ih => exact Sound.bind (Sound.getR _) fun _ => Sound.bind (Sound.set _ _ _ hw) fun _ => ih _
theorem movemStoresDown (sz : Size) (hw : w = true) (l : List (Fin 16)) (a : U32) : Sound d c f w (movemStoresDown sz l a : Exec M _) := by
  induction l generalizing a with
  | nil => exact Sound.pure _
  | cons i l ih => exact Sound.bind (Sound.getR _) fun _ => Sound.bind (Sound.set _ _ _ hw) fun _ => ih _
theorem movepStores (n : Fin 8) (hw : w = true) (k : Nat) (a : U32) : Sound d c f w (movepStores n k a : Exec M _) := by
  induction k generalizing a with
  | zero => exact Sound.pure _
  | succ k ih => exact Sound.bind (Sound.getR _) fun _ => Sound.bind (Sound.store _ _ _ hw) fun _ => ih _
theorem movepLoads (n : Fin 8) (hd : d n = true) (k : Nat) (a : U32) : Sound d c f w (movepLoads n k a : Exec M _) := by
  induction k generalizing a with
  | zero => exact Sound.pure _
  | succ k ih => exact Sound.bind (Sound.load _ _) fun v => Sound.bind (Sound.dreg n (fun r => setByteOf (r.d n) k v) hd) fun _ => ih _
theorem movemLoads (hd : ∀ n, d n = true) (ha : ∀ n, c n = true) (sz : Size) (hsz : sz ≠ .Byte) (l : List (Fin 16)) (a : U32) (hodd : ¬ Spec.Odd a) :
    Sound d c f w (movemLoads sz l a : Exec M _) := by
  induction l generalizing a with
  | nil => exact Sound.pure _
  | cons i l ih =>
    refine Sound.bind (Sound.map _ (Sound.get _ _ fun h => hodd h.2)) fun v => Sound.bind ?_ fun _ => ih _ ?_
    · unfold setRegNo
      by_cases h : i.val < 8
      · simp only [h, dite_true]; exact Sound.dreg _ (fun _ => v) (hd _)
      · simp only [h, dite_false]; exact Sound.areg _ (fun _ => v) (ha _)
    · unfold Spec.Odd at *
      rw [BitVec.toNat_add]
      cases sz with
      | Byte => exact absurd rfl hsz
      | Word => simp only [bytes, BitVec.toNat_ofNat]; omega
      | Long => simp only [bytes, BitVec.toNat_ofNat]; omega
end Final
end Exec
end M68k
