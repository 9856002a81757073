import Verif.Lemmas.Alike
import Verif.Spec.Fence
/-
A memory system that leads another one: as long as it does not panic the other one answers alike. The lemmas of Lemmas/Alike for this relation.
-/
set_option linter.unusedSectionVars false
namespace M68k
namespace Fence
open Spec Exec
variable {M N : Type} [MemoryAccess M] [MemoryAccess N] {R : M → N → Prop}

/-- The first outcome is a panic, or both are alike. -/
def LedOutcome {α : Type} (R : M → N → Prop) : MRes M α → MRes N α → Prop
  | .panic, _ => True
  | .val a m, .val b n => a = b ∧ R m n
  | .none m, .none n => R m n
  | _, _ => False

/-- The first result is a panic, or both are alike. -/
def LedResult {α : Type} (R : M → N → Prop) : Res M α → Res N α → Prop
  | .panic, _ => True
  | .ok a s, .ok b t => a = b ∧ SameState R s t
  | .err v s, .err w t => v = w ∧ SameState R s t
  | _, _ => False

/-- Related memories: as long as the first does not panic the second answers alike. -/
structure Leads (R : M → N → Prop) : Prop where
  getByte : ∀ m n a, R m n → LedOutcome R (MemoryAccess.getByte a m) (MemoryAccess.getByte a n)
  getWord : ∀ m n a, R m n → ¬ Odd a → LedOutcome R (MemoryAccess.getWord a m) (MemoryAccess.getWord a n)
  getLong : ∀ m n a, R m n → ¬ Odd a → LedOutcome R (MemoryAccess.getLong a m) (MemoryAccess.getLong a n)
  setByte : ∀ m n a v, R m n → LedOutcome R (MemoryAccess.setByte a v m) (MemoryAccess.setByte a v n)
  setWord : ∀ m n a v, R m n → ¬ Odd a → LedOutcome R (MemoryAccess.setWord a v m) (MemoryAccess.setWord a v n)
  setLong : ∀ m n a v, R m n → ¬ Odd a → LedOutcome R (MemoryAccess.setLong a v m) (MemoryAccess.setLong a v n)
  resetInstruction : ∀ m n, R m n → R (MemoryAccess.resetInstruction m) (MemoryAccess.resetInstruction n)

/-- The two actions have the same result from the same processor state and related memories. -/
def Sim (R : M → N → Prop) {α : Type} (x : Exec M α) (y : Exec N α) : Prop :=
  ∀ s t, SameState R s t → LedResult R (x s) (y t)

theorem Sim.bind {α β : Type} {x : Exec M α} {y : Exec N α} {f : α → Exec M β} {g : α → Exec N β} (h : Sim R x y)
    (hf : ∀ a, Sim R (f a) (g a)) : Sim R (x >>= f) (y >>= g) := by
  intro s t hst
  have h1 := h s t hst
  rw [Exec.bind_apply, Exec.bind_apply]
  cases hx : x s with
  | ok a s' =>
    cases hy : y t with
    | ok b t' =>
      rw [hx, hy] at h1
      obtain ⟨rfl, h2⟩ := h1
      exact hf a s' t' h2
    | err v t' => rw [hx, hy] at h1; exact h1.elim
    | panic => rw [hx, hy] at h1; exact h1.elim
  | err v s' =>
    cases hy : y t with
    | ok b t' => rw [hx, hy] at h1; exact h1.elim
    | err w t' => rw [hx, hy] at h1; exact h1
    | panic => rw [hx, hy] at h1; exact h1.elim
  | panic => trivial

theorem Sim.access {α : Type} {f : M → MRes M α} {g : N → MRes N α} (h : ∀ m n, R m n → LedOutcome R (f m) (g n)) :
    Sim R (Spec.access f) (Spec.access g) := by
  intro s t hst
  have h1 := h _ _ hst.2
  unfold Spec.access
  cases hx : f s.mem <;> cases hy : g t.mem <;> rw [hx, hy] at h1 <;> first | exact h1.elim | trivial | skip
  · exact ⟨h1.1, hst.1, h1.2⟩
  · exact ⟨rfl, hst.1, h1⟩

theorem Sim.mem {α : Type} {f : M → MRes M α} {g : N → MRes N α} (h : ∀ m n, R m n → LedOutcome R (f m) (g n)) :
    Sim R (Exec.mem f) (Exec.mem g) := by
  intro s t hst
  have h1 := h _ _ hst.2
  unfold Exec.mem
  cases hx : f s.mem <;> cases hy : g t.mem <;> rw [hx, hy] at h1 <;> first | exact h1.elim | trivial | skip
  · exact ⟨h1.1, hst.1, h1.2⟩
  · exact ⟨rfl, hst.1, h1⟩

theorem Sim.memExpect {α : Type} {f : M → MRes M α} {g : N → MRes N α} (h : ∀ m n, R m n → LedOutcome R (f m) (g n)) :
    Sim R (Exec.memExpect f) (Exec.memExpect g) := by
  intro s t hst
  have h1 := h _ _ hst.2
  unfold Exec.memExpect
  cases hx : f s.mem <;> cases hy : g t.mem <;> rw [hx, hy] at h1 <;> first | exact h1.elim | trivial | skip
  exact ⟨h1.1, hst.1, h1.2⟩

/-- Actions reading only the processor state. -/
theorem Sim.cpu {α : Type} (f : Cpu → α) (g : Cpu → Cpu) :
    Sim R (fun s => Res.ok (f s.cpu) { s with cpu := g s.cpu } : Exec M α) (fun s => Res.ok (f s.cpu) { s with cpu := g s.cpu }) := by
  intro s t hst
  refine ⟨by rw [hst.1], ?_, hst.2⟩
  show g s.cpu = g t.cpu
  rw [hst.1]

theorem Sim.modR (f : Registers → Registers) : Sim R (Spec.modR f) (Spec.modR f) := Sim.cpu (fun _ => ()) fun c => { c with regs := f c.regs }

theorem memGet_led (hR : Leads R) (sz : Size) (a : U32) (h : ¬ (sz ≠ .Byte ∧ Spec.Odd a)) (m : M) (n : N) (hmn : R m n) :
    LedOutcome R (memGet sz a m) (memGet sz a n) := by
  cases sz with
  | Byte => exact hR.getByte _ _ _ hmn
  | Word => exact hR.getWord _ _ _ hmn fun ho => h ⟨by decide, ho⟩
  | Long => exact hR.getLong _ _ _ hmn fun ho => h ⟨by decide, ho⟩

theorem memSet_led (hR : Leads R) (sz : Size) (a : U32) (v : Val sz) (h : ¬ (sz ≠ .Byte ∧ Spec.Odd a)) (m : M) (n : N) (hmn : R m n) :
    LedOutcome R (memSet sz a v m) (memSet sz a v n) := by
  cases sz with
  | Byte => exact hR.setByte _ _ _ _ hmn
  | Word => exact hR.setWord _ _ _ _ hmn fun ho => h ⟨by decide, ho⟩
  | Long => exact hR.setLong _ _ _ _ hmn fun ho => h ⟨by decide, ho⟩

theorem sim_trap {α : Type} (v : U8) : Sim R (Spec.trap v : Exec M α) (Spec.trap v : Exec N α) := fun _ _ h => ⟨rfl, h⟩

theorem sim_pair (hR : Leads R) : Pair (M := M) (N := N) (fun x y => Sim R x y) where
  pure a s t h := ⟨rfl, h⟩
  bind h h' := Sim.bind h h'
  crash _ _ _ := trivial
  trap v := sim_trap v
  getR f := Sim.cpu (fun c => f c.regs) fun c => c
  modR f := Sim.modR f
  fetch := by
    intro s t hst
    obtain ⟨hc, hm⟩ := hst
    unfold Spec.fetch
    rw [← hc]
    by_cases h : Spec.Odd s.cpu.regs.pc
    · rw [if_pos h, if_pos h]; trivial
    · rw [if_neg h, if_neg h]
      have h1 := hR.getWord _ _ s.cpu.regs.pc hm h
      cases hx : MemoryAccess.getWord s.cpu.regs.pc s.mem <;> cases hy : MemoryAccess.getWord s.cpu.regs.pc t.mem <;>
        rw [hx, hy] at h1 <;> first | exact h1.elim | trivial | skip
      exact ⟨h1.1, rfl, h1.2⟩
  load sz a := by
    unfold Spec.load
    by_cases h : sz ≠ .Byte ∧ Spec.Odd a
    · rw [if_pos h, if_pos h]; exact sim_trap _
    · rw [if_neg h, if_neg h]
      exact .access fun m n hmn => memGet_led hR sz a h m n hmn
  store sz a v := by
    unfold Spec.store
    by_cases h : sz ≠ .Byte ∧ Spec.Odd a
    · rw [if_pos h, if_pos h]; exact sim_trap _
    · rw [if_neg h, if_neg h]
      exact .access fun m n hmn => memSet_led hR sz a v h m n hmn
  movemLoad sz a hsz ha := by
    unfold Spec.movemLoad
    intro s t hst
    rw [Exec.map_apply, Exec.map_apply]
    have h1 := Sim.access (fun m n hmn => memGet_led hR sz a (fun h => ha h.2) m n hmn) s t hst
    cases hx : Spec.access (memGet sz a) s <;> cases hy : Spec.access (memGet sz a) t <;> rw [hx, hy] at h1 <;>
      first | exact h1.elim | trivial | skip
    exact ⟨by rw [h1.1], h1.2⟩
  movemStore sz a v hsz ha := .access fun m n hmn => memSet_led hR sz a _ (fun h => ha h.2) m n hmn
  halt := Sim.cpu (fun _ => ()) fun c => { c with stop := true }
  signalReset := by
    intro s t hst
    exact ⟨rfl, hst.1, hR.resetInstruction _ _ hst.2⟩

theorem sim_push (hR : Leads R) (sz : Size) (v : Val sz) : Sim R (push sz v : Exec M Unit) (push sz v : Exec N Unit) := (sim_pair hR).push sz v

theorem sim_pushWord (hR : Leads R) (v : U16) : Sim R (pushWord v : Exec M Unit) (pushWord v : Exec N Unit) := by
  rw [pushWord_eq, pushWord_eq]; exact sim_push hR .Word v
theorem sim_pushLong (hR : Leads R) (v : U32) : Sim R (pushLong v : Exec M Unit) (pushLong v : Exec N Unit) := by
  rw [pushLong_eq, pushLong_eq]; exact sim_push hR .Long v

theorem Sim.pure {α : Type} (a : α) : Sim R (Pure.pure a : Exec M α) (Pure.pure a : Exec N α) := fun _ _ h => ⟨rfl, h⟩
theorem Sim.getPc : Sim R (getPc : Exec M U32) (getPc : Exec N U32) := Sim.cpu (fun c => c.regs.pc) fun c => c
theorem Sim.getOpcode : Sim R (getCurrentOpcode : Exec M U16) (getCurrentOpcode : Exec N U16) := Sim.cpu (fun c => c.currentOpcode) fun c => c
theorem Sim.getSr : Sim R (getSr : Exec M _) (getSr : Exec N _) := Sim.cpu (fun c => c.regs.sr) fun c => c
theorem Sim.modifySr (f : StatusRegister → StatusRegister) : Sim R (modifySr f : Exec M _) (modifySr f : Exec N _) :=
  Sim.cpu (fun _ => ()) fun c => { c with regs := { c.regs with sr := f c.regs.sr } }
theorem Sim.modifyRegs (f : Registers → Registers) : Sim R (modifyRegs f : Exec M _) (modifyRegs f : Exec N _) :=
  Sim.cpu (fun _ => ()) fun c => { c with regs := f c.regs }
theorem Sim.setPc (v : U32) : Sim R (setPc v : Exec M _) (setPc v : Exec N _) :=
  Sim.cpu (fun _ => ()) fun c => { c with regs := { c.regs with pc := v } }
theorem Sim.setStop (v : Bool) : Sim R (setStop v : Exec M _) (setStop v : Exec N _) :=
  Sim.cpu (fun _ => ()) fun c => { c with stop := v }
theorem Sim.ite {α : Type} {c : Prop} [Decidable c] {x x' : Exec M α} {y y' : Exec N α} (h : Sim R x y) (h' : Sim R x' y') :
    Sim R (if c then x else x') (if c then y else y') := by
  by_cases hc : c
  · rw [if_pos hc, if_pos hc]; exact h
  · rw [if_neg hc, if_neg hc]; exact h'

theorem sim_reset (hR : Leads R) (C : CpuDetails) : Sim R (reset C : Exec M Nat) (reset C : Exec N Nat) :=
  .bind (.memExpect fun m n h => hR.getLong m n 0 h (by decide)) fun _ => .bind (.modifyRegs _) fun _ =>
    .bind (.memExpect fun m n h => hR.getLong m n 4 h (by decide)) fun _ => .bind (.modifyRegs _) fun _ =>
    .bind (.modifySr _) fun _ => .bind (.setStop _) fun _ => .pure _

theorem sim_frame68000 (hR : Leads R) (v : U8) (w : U16) : Sim R (pushFrameMC68000 v w : Exec M Unit) (pushFrameMC68000 v w : Exec N Unit) :=
  .bind .getPc fun _ => .bind (sim_pushLong hR _) fun _ => .bind (sim_pushWord hR _) fun _ =>
    .ite (.bind .getOpcode fun _ => .bind (sim_pushWord hR _) fun _ => .bind (sim_pushLong hR _) fun _ => sim_pushWord hR _) (.pure _)

theorem sim_frame68070 (hR : Leads R) (v : U8) (w : U16) : Sim R (pushFrameSCC68070 v w : Exec M Unit) (pushFrameSCC68070 v w : Exec N Unit) :=
  .bind (.ite (.bind (sim_pushWord hR _) fun _ => .bind .getOpcode fun _ => .bind (sim_pushWord hR _) fun _ => .bind .getOpcode fun _ =>
      .bind (sim_pushWord hR _) fun _ => .bind (sim_pushLong hR _) fun _ => .bind (sim_pushLong hR _) fun _ => .bind (sim_pushLong hR _) fun _ =>
      .bind (sim_pushWord hR _) fun _ => .bind (sim_pushWord hR _) fun _ => .bind (sim_pushWord hR _) fun _ => .bind (sim_pushWord hR _) fun _ =>
      sim_pushWord hR _) (sim_pushWord hR _)) fun _ =>
    .bind .getPc fun _ => .bind (sim_pushLong hR _) fun _ => sim_pushWord hR _

theorem sim_processException (hR : Leads R) (C : CpuDetails) (v : U8) :
    Sim R (processException C v : Exec M Nat) (processException C v : Exec N Nat) := by
  refine .bind .getSr fun _ => .bind (.modifySr _) fun _ => .bind (.ite (.modifySr _) (.pure _)) fun _ => .bind ?_ fun _ =>
    .bind (.mem fun m n h => hR.getLong m n _ h (vector_even v)) fun _ => .bind (.setPc _) fun _ => .pure _
  cases C.STACK_FORMAT
  · exact sim_frame68000 hR _ _
  · exact sim_frame68070 hR _ _

theorem sim_processList (hR : Leads R) (C : CpuDetails) (l : List Exception) (k : Nat) :
    Sim R (processList C l k : Exec M Nat) (processList C l k : Exec N Nat) := by
  induction l generalizing k with
  | nil => exact .pure _
  | cons ex l ih =>
    intro s t hst
    simp only [processList]
    by_cases h0 : ex.vector = 0
    · rw [if_pos h0, if_pos h0]
      refine sim_reset hR C _ _ ⟨?_, hst.2⟩
      simp only [hst.1]
    · rw [if_neg h0, if_neg h0]
      have h1 := sim_processException hR C ex.vector s t hst
      cases hx : processException C ex.vector s <;> cases hy : processException C ex.vector t <;> rw [hx, hy] at h1 <;>
        first | exact h1.elim | trivial | skip
      · obtain ⟨h1, h2⟩ := h1
        rw [h1]
        exact ih _ _ _ h2
      · obtain ⟨h1, h2⟩ := h1
        rw [h1]
        simp only
        have he : ∀ e, SameState R { ‹St M› with cpu := ‹St M›.cpu.exception e } { ‹St N› with cpu := ‹St N›.cpu.exception e } := fun e =>
          ⟨by simp only [h2.1], h2.2⟩
        split
        · split
          · trivial
          · split
            · exact ih _ _ _ (he _)
            · exact ih _ _ _ (he _)
        · exact ih _ _ _ (he _)

theorem sim_pendingCycles (hR : Leads R) (C : CpuDetails) : Sim R (pendingCycles C : Exec M Nat) (pendingCycles C : Exec N Nat) := by
  intro s t hst
  unfold pendingCycles processPendingExceptions
  rw [← hst.1]
  split
  · exact ⟨rfl, hst⟩
  · exact sim_processList hR C _ _ _ _ ⟨rfl, hst.2⟩

theorem sim_getNextWord (hR : Leads R) : Sim R (getNextWord : Exec M U16) (getNextWord : Exec N U16) := by
  intro s t hst
  by_cases h : Spec.Odd s.cpu.regs.pc
  · rw [getNextWord_odd h, getNextWord_odd (by rw [← hst.1]; exact h)]
    exact ⟨rfl, hst⟩
  · rw [getNextWord_even h, getNextWord_even (by rw [← hst.1]; exact h), ← hst.1]
    have h1 := hR.getWord _ _ s.cpu.regs.pc hst.2 h
    cases hx : MemoryAccess.getWord s.cpu.regs.pc s.mem <;> cases hy : MemoryAccess.getWord s.cpu.regs.pc t.mem <;>
      rw [hx, hy] at h1 <;> first | exact h1.elim | trivial | skip
    exact ⟨h1.1, rfl, h1.2⟩

theorem sim_finishStep {x : Exec M Nat} {y : Exec N Nat} (h : Sim R x y) (i : Isa) (k : Nat) :
    Sim R (finishStep i k x) (finishStep i k y) := by
  intro s t hst
  have h1 := h s t hst
  unfold finishStep
  rw [← hst.1]
  cases hx : x s <;> cases hy : y t <;> rw [hx, hy] at h1 <;> first | exact h1.elim | trivial | skip
  · exact ⟨by rw [h1.1], h1.2⟩
  · exact ⟨by rw [h1.1], h1.2⟩

theorem sim_fastInstruction (hR : Leads R) (C : CpuDetails) (k : Nat) :
    Sim R (fastInstruction C k : Exec M _) (fastInstruction C k : Exec N _) := by
  intro s t hst
  rw [fastInstruction_eq, fastInstruction_eq]
  have h1 := sim_getNextWord hR s t hst
  cases hx : (getNextWord : Exec M U16) s <;> cases hy : (getNextWord : Exec N U16) t <;> rw [hx, hy] at h1 <;>
    first | exact h1.elim | trivial | skip
  · obtain ⟨h1, h2⟩ := h1
    rw [h1]
    simp only
    exact sim_finishStep ((sim_pair hR).exec C _ _) _ _ _ _ ⟨by simp only [h2.1], h2.2⟩
  · exact ⟨by rw [h1.1], h1.2⟩

/-- One call on two memory systems that answer alike. -/
theorem sim_interpreterException (hR : Leads R) (C : CpuDetails) :
    Sim R (interpreterException C : Exec M _) (interpreterException C : Exec N _) := by
  intro s t hst
  unfold interpreterException
  rw [← hst.1]
  by_cases h : s.cpu.stop = true
  · rw [if_pos h, if_pos h]; exact ⟨rfl, hst⟩
  · rw [if_neg h, if_neg h]
    exact Sim.bind (sim_pendingCycles hR C) (fun k => sim_fastInstruction hR C k) s t hst

theorem sim_interpreter (hR : Leads R) (C : CpuDetails) : Sim R (interpreter C : Exec M _) (interpreter C : Exec N _) := by
  refine .bind (sim_interpreterException hR C) fun a => .bind ?_ fun _ => .pure _
  cases a.2 with
  | none => exact .pure _
  | some e => exact Sim.cpu (fun _ => ()) fun c => c.exception ⟨e⟩

end Fence
end M68k
