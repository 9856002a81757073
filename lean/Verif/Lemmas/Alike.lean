import Verif.Lemmas.Simulate
import Verif.Spec.Alike
/-
Memory systems that answer alike give the same execution.
-/
set_option linter.unusedSectionVars false
namespace M68k
namespace Exec
open Spec
variable {M N : Type} [MemoryAccess M] [MemoryAccess N] {R : M → N → Prop}

/-- The two actions have the same result from the same processor state and related memories. -/
def Sim (R : M → N → Prop) {α : Type} (x : Exec M α) (y : Exec N α) : Prop :=
  ∀ s t, SameState R s t → SameResult R (x s) (y t)

theorem Sim.bind {α β : Type} {x : Exec M α} {y : Exec N α} {f : α → Exec M β} {g : α → Exec N β} (h : Sim R x y)
    (hf : ∀ a, Sim R (f a) (g a)) : Sim R (x >>= f) (y >>= g) := by
  intro s t hst
  have h1 := h s t hst
  rw [Exec.bind_apply, Exec.bind_apply]
  cases hx : x s with
  | ok a s' =>
    cases hy : y t with
    | ok b t' =>
      rw [hx, hy] at h1
      obtain ⟨rfl, h2⟩ := h1
      exact hf a s' t' h2
    | err v t' => rw [hx, hy] at h1; exact h1.elim
    | panic => rw [hx, hy] at h1; exact h1.elim
  | err v s' =>
    cases hy : y t with
    | ok b t' => rw [hx, hy] at h1; exact h1.elim
    | err w t' => rw [hx, hy] at h1; exact h1
    | panic => rw [hx, hy] at h1; exact h1.elim
  | panic =>
    cases hy : y t with
    | ok b t' => rw [hx, hy] at h1; exact h1.elim
    | err w t' => rw [hx, hy] at h1; exact h1.elim
    | panic => trivial

theorem Sim.access {α : Type} {f : M → MRes M α} {g : N → MRes N α} (h : ∀ m n, R m n → SameOutcome R (f m) (g n)) :
    Sim R (Spec.access f) (Spec.access g) := by
  intro s t hst
  have h1 := h _ _ hst.2
  unfold Spec.access
  cases hx : f s.mem <;> cases hy : g t.mem <;> rw [hx, hy] at h1 <;> first | exact h1.elim | trivial | skip
  · exact ⟨h1.1, hst.1, h1.2⟩
  · exact ⟨rfl, hst.1, h1⟩

theorem Sim.mem {α : Type} {f : M → MRes M α} {g : N → MRes N α} (h : ∀ m n, R m n → SameOutcome R (f m) (g n)) :
    Sim R (Exec.mem f) (Exec.mem g) := by
  intro s t hst
  have h1 := h _ _ hst.2
  unfold Exec.mem
  cases hx : f s.mem <;> cases hy : g t.mem <;> rw [hx, hy] at h1 <;> first | exact h1.elim | trivial | skip
  · exact ⟨h1.1, hst.1, h1.2⟩
  · exact ⟨rfl, hst.1, h1⟩

theorem Sim.memExpect {α : Type} {f : M → MRes M α} {g : N → MRes N α} (h : ∀ m n, R m n → SameOutcome R (f m) (g n)) :
    Sim R (Exec.memExpect f) (Exec.memExpect g) := by
  intro s t hst
  have h1 := h _ _ hst.2
  unfold Exec.memExpect
  cases hx : f s.mem <;> cases hy : g t.mem <;> rw [hx, hy] at h1 <;> first | exact h1.elim | trivial | skip
  exact ⟨h1.1, hst.1, h1.2⟩

/-- Actions reading only the processor state. -/
theorem Sim.cpu {α : Type} (f : Cpu → α) (g : Cpu → Cpu) :
    Sim R (fun s => Res.ok (f s.cpu) { s with cpu := g s.cpu } : Exec M α) (fun s => Res.ok (f s.cpu) { s with cpu := g s.cpu }) := by
  intro s t hst
  refine ⟨by rw [hst.1], ?_, hst.2⟩
  show g s.cpu = g t.cpu
  rw [hst.1]

theorem Sim.modR (f : Registers → Registers) : Sim R (Spec.modR f) (Spec.modR f) := Sim.cpu (fun _ => ()) fun c => { c with regs := f c.regs }

theorem memGet_alike (hR : Alike R) (sz : Size) (a : U32) (h : ¬ (sz ≠ .Byte ∧ Spec.Odd a)) (m : M) (n : N) (hmn : R m n) :
    SameOutcome R (memGet sz a m) (memGet sz a n) := by
  cases sz with
  | Byte => exact hR.getByte _ _ _ hmn
  | Word => exact hR.getWord _ _ _ hmn fun ho => h ⟨by decide, ho⟩
  | Long => exact hR.getLong _ _ _ hmn fun ho => h ⟨by decide, ho⟩

theorem memSet_alike (hR : Alike R) (sz : Size) (a : U32) (v : Val sz) (h : ¬ (sz ≠ .Byte ∧ Spec.Odd a)) (m : M) (n : N) (hmn : R m n) :
    SameOutcome R (memSet sz a v m) (memSet sz a v n) := by
  cases sz with
  | Byte => exact hR.setByte _ _ _ _ hmn
  | Word => exact hR.setWord _ _ _ _ hmn fun ho => h ⟨by decide, ho⟩
  | Long => exact hR.setLong _ _ _ _ hmn fun ho => h ⟨by decide, ho⟩

theorem sim_trap {α : Type} (v : U8) : Sim R (Spec.trap v : Exec M α) (Spec.trap v : Exec N α) := fun _ _ h => ⟨rfl, h⟩

theorem sim_pair (hR : Alike R) : Pair (M := M) (N := N) (fun x y => Sim R x y) where
  pure a s t h := ⟨rfl, h⟩
  bind h h' := Sim.bind h h'
  crash _ _ _ := trivial
  trap v := sim_trap v
  getR f := Sim.cpu (fun c => f c.regs) fun c => c
  modR f := Sim.modR f
  fetch := by
    intro s t hst
    obtain ⟨hc, hm⟩ := hst
    unfold Spec.fetch
    rw [← hc]
    by_cases h : Spec.Odd s.cpu.regs.pc
    · rw [if_pos h, if_pos h]; trivial
    · rw [if_neg h, if_neg h]
      have h1 := hR.getWord _ _ s.cpu.regs.pc hm h
      cases hx : MemoryAccess.getWord s.cpu.regs.pc s.mem <;> cases hy : MemoryAccess.getWord s.cpu.regs.pc t.mem <;>
        rw [hx, hy] at h1 <;> first | exact h1.elim | trivial | skip
      exact ⟨h1.1, rfl, h1.2⟩
  load sz a := by
    unfold Spec.load
    by_cases h : sz ≠ .Byte ∧ Spec.Odd a
    · rw [if_pos h, if_pos h]; exact sim_trap _
    · rw [if_neg h, if_neg h]
      exact .access fun m n hmn => memGet_alike hR sz a h m n hmn
  store sz a v := by
    unfold Spec.store
    by_cases h : sz ≠ .Byte ∧ Spec.Odd a
    · rw [if_pos h, if_pos h]; exact sim_trap _
    · rw [if_neg h, if_neg h]
      exact .access fun m n hmn => memSet_alike hR sz a v h m n hmn
  movemLoad sz a hsz ha := by
    unfold Spec.movemLoad
    intro s t hst
    rw [Exec.map_apply, Exec.map_apply]
    have h1 := Sim.access (fun m n hmn => memGet_alike hR sz a (fun h => ha h.2) m n hmn) s t hst
    cases hx : Spec.access (memGet sz a) s <;> cases hy : Spec.access (memGet sz a) t <;> rw [hx, hy] at h1 <;>
      first | exact h1.elim | trivial | skip
    exact ⟨by rw [h1.1], h1.2⟩
  movemStore sz a v hsz ha := .access fun m n hmn => memSet_alike hR sz a _ (fun h => ha h.2) m n hmn
  halt := Sim.cpu (fun _ => ()) fun c => { c with stop := true }
  signalReset := by
    intro s t hst
    exact ⟨rfl, hst.1, hR.resetInstruction _ _ hst.2⟩

theorem sim_push (hR : Alike R) (sz : Size) (v : Val sz) : Sim R (push sz v : Exec M Unit) (push sz v : Exec N Unit) := (sim_pair hR).push sz v

theorem sim_pushWord (hR : Alike R) (v : U16) : Sim R (pushWord v : Exec M Unit) (pushWord v : Exec N Unit) := by
  rw [pushWord_eq, pushWord_eq]; exact sim_push hR .Word v
theorem sim_pushLong (hR : Alike R) (v : U32) : Sim R (pushLong v : Exec M Unit) (pushLong v : Exec N Unit) := by
  rw [pushLong_eq, pushLong_eq]; exact sim_push hR .Long v

theorem Sim.pure {α : Type} (a : α) : Sim R (Pure.pure a : Exec M α) (Pure.pure a : Exec N α) := fun _ _ h => ⟨rfl, h⟩
theorem Sim.getPc : Sim R (getPc : Exec M U32) (getPc : Exec N U32) := Sim.cpu (fun c => c.regs.pc) fun c => c
theorem Sim.getOpcode : Sim R (getCurrentOpcode : Exec M U16) (getCurrentOpcode : Exec N U16) := Sim.cpu (fun c => c.currentOpcode) fun c => c
theorem Sim.getSr : Sim R (getSr : Exec M _) (getSr : Exec N _) := Sim.cpu (fun c => c.regs.sr) fun c => c
theorem Sim.modifySr (f : StatusRegister → StatusRegister) : Sim R (modifySr f : Exec M _) (modifySr f : Exec N _) :=
  Sim.cpu (fun _ => ()) fun c => { c with regs := { c.regs with sr := f c.regs.sr } }
theorem Sim.modifyRegs (f : Registers → Registers) : Sim R (modifyRegs f : Exec M _) (modifyRegs f : Exec N _) :=
  Sim.cpu (fun _ => ()) fun c => { c with regs := f c.regs }
theorem Sim.setPc (v : U32) : Sim R (setPc v : Exec M _) (setPc v : Exec N _) :=
  Sim.cpu (fun _ => ()) fun c => { c with regs := { c.regs with pc := v } }
theorem Sim.setStop (v : Bool) : Sim R (setStop v : Exec M _) (setStop v : Exec N _) :=
  Sim.cpu (fun _ => ()) fun c => { c with stop := v }
theorem Sim.ite {α : Type} {c : Prop} [Decidable c] {x x' : Exec M α} {y y' : Exec N α} (h : Sim R x y) (h' : Sim R x' y') :
    Sim R (if c then x else x') (if c then y else y') := by
  by_cases hc : c
  · rw [if_pos hc, if_pos hc]; exact h
  · rw [if_neg hc, if_neg hc]; exact h'

theorem vector_even (v : U8) : ¬ Spec.Odd (toU32 v * 4) := by
  unfold Spec.Odd toU32
  rw [BitVec.toNat_mul, BitVec.toNat_setWidth]
  have : (4 : U32).toNat = 4 := rfl
  rw [this]
  omega

theorem sim_reset (hR : Alike R) (C : CpuDetails) : Sim R (reset C : Exec M Nat) (reset C : Exec N Nat) :=
  .bind (.memExpect fun m n h => hR.getLong m n 0 h (by decide)) fun _ => .bind (.modifyRegs _) fun _ =>
    .bind (.memExpect fun m n h => hR.getLong m n 4 h (by decide)) fun _ => .bind (.modifyRegs _) fun _ =>
    .bind (.modifySr _) fun _ => .bind (.setStop _) fun _ => .pure _

theorem sim_frame68000 (hR : Alike R) (v : U8) (w : U16) : Sim R (pushFrameMC68000 v w : Exec M Unit) (pushFrameMC68000 v w : Exec N Unit) :=
  .bind .getPc fun _ => .bind (sim_pushLong hR _) fun _ => .bind (sim_pushWord hR _) fun _ =>
    .ite (.bind .getOpcode fun _ => .bind (sim_pushWord hR _) fun _ => .bind (sim_pushLong hR _) fun _ => sim_pushWord hR _) (.pure _)

theorem sim_frame68070 (hR : Alike R) (v : U8) (w : U16) : Sim R (pushFrameSCC68070 v w : Exec M Unit) (pushFrameSCC68070 v w : Exec N Unit) :=
  .bind (.ite (.bind (sim_pushWord hR _) fun _ => .bind .getOpcode fun _ => .bind (sim_pushWord hR _) fun _ => .bind .getOpcode fun _ =>
      .bind (sim_pushWord hR _) fun _ => .bind (sim_pushLong hR _) fun _ => .bind (sim_pushLong hR _) fun _ => .bind (sim_pushLong hR _) fun _ =>
      .bind (sim_pushWord hR _) fun _ => .bind (sim_pushWord hR _) fun _ => .bind (sim_pushWord hR _) fun _ => .bind (sim_pushWord hR _) fun _ =>
      sim_pushWord hR _) (sim_pushWord hR _)) fun _ =>
    .bind .getPc fun _ => .bind (sim_pushLong hR _) fun _ => sim_pushWord hR _

theorem sim_processException (hR : Alike R) (C : CpuDetails) (v : U8) :
    Sim R (processException C v : Exec M Nat) (processException C v : Exec N Nat) := by
  refine .bind .getSr fun _ => .bind (.modifySr _) fun _ => .bind (.ite (.modifySr _) (.pure _)) fun _ => .bind ?_ fun _ =>
    .bind (.mem fun m n h => hR.getLong m n _ h (vector_even v)) fun _ => .bind (.setPc _) fun _ => .pure _
  cases C.STACK_FORMAT
  · exact sim_frame68000 hR _ _
  · exact sim_frame68070 hR _ _

theorem sim_processList (hR : Alike R) (C : CpuDetails) (l : List Exception) (k : Nat) :
    Sim R (processList C l k : Exec M Nat) (processList C l k : Exec N Nat) := by
  induction l generalizing k with
  | nil => exact .pure _
  | cons ex l ih =>
    intro s t hst
    simp only [processList]
    by_cases h0 : ex.vector = 0
    · rw [if_pos h0, if_pos h0]
      refine sim_reset hR C _ _ ⟨?_, hst.2⟩
      simp only [hst.1]
    · rw [if_neg h0, if_neg h0]
      have h1 := sim_processException hR C ex.vector s t hst
      cases hx : processException C ex.vector s <;> cases hy : processException C ex.vector t <;> rw [hx, hy] at h1 <;>
        first | exact h1.elim | trivial | skip
      · obtain ⟨h1, h2⟩ := h1
        rw [h1]
        exact ih _ _ _ h2
      · obtain ⟨h1, h2⟩ := h1
        rw [h1]
        simp only
        have he : ∀ e, SameState R { ‹St M› with cpu := ‹St M›.cpu.exception e } { ‹St N› with cpu := ‹St N›.cpu.exception e } := fun e =>
          ⟨by simp only [h2.1], h2.2⟩
        split
        · split
          · trivial
          · split
            · exact ih _ _ _ (he _)
            · exact ih _ _ _ (he _)
        · exact ih _ _ _ (he _)

theorem sim_pendingCycles (hR : Alike R) (C : CpuDetails) : Sim R (pendingCycles C : Exec M Nat) (pendingCycles C : Exec N Nat) := by
  intro s t hst
  unfold pendingCycles processPendingExceptions
  rw [← hst.1]
  split
  · exact ⟨rfl, hst⟩
  · exact sim_processList hR C _ _ _ _ ⟨rfl, hst.2⟩

theorem getNextWord_odd {s : St M} (ho : Spec.Odd s.cpu.regs.pc) : (getNextWord : Exec M U16) s = .err 3 s := by
  have he : isEven s.cpu.regs.pc = false := by
    cases h : isEven s.cpu.regs.pc
    · rfl
    · exact absurd ho ((isEven_iff _).1 h)
  have hev : (even s.cpu.regs.pc : Exec M U32) s = .err 3 s := by unfold even; rw [if_neg (by simp [he])]; rfl
  unfold getNextWord
  rw [Exec.bind_apply]
  simp only [getPc]
  erw [Exec.bind_apply]
  rw [hev]

theorem getNextWord_even {s : St M} (ho : ¬ Spec.Odd s.cpu.regs.pc) :
    (getNextWord : Exec M U16) s = match MemoryAccess.getWord s.cpu.regs.pc s.mem with
      | .val w m => .ok w { mem := m, cpu := { s.cpu with regs := { s.cpu.regs with pc := s.cpu.regs.pc + 2 } } }
      | .none m => .err ACCESS_ERROR { mem := m, cpu := { s.cpu with regs := { s.cpu.regs with pc := s.cpu.regs.pc + 2 } } }
      | .panic => .panic := by
  have he : isEven s.cpu.regs.pc = true := (isEven_iff _).2 ho
  have hev : (even s.cpu.regs.pc : Exec M U32) s = .ok s.cpu.regs.pc s := by unfold even; rw [if_pos he]; rfl
  unfold getNextWord
  rw [Exec.bind_apply]
  simp only [getPc]
  erw [Exec.bind_apply]
  rw [hev]
  rfl

theorem sim_getNextWord (hR : Alike R) : Sim R (getNextWord : Exec M U16) (getNextWord : Exec N U16) := by
  intro s t hst
  by_cases h : Spec.Odd s.cpu.regs.pc
  · rw [getNextWord_odd h, getNextWord_odd (by rw [← hst.1]; exact h)]
    exact ⟨rfl, hst⟩
  · rw [getNextWord_even h, getNextWord_even (by rw [← hst.1]; exact h), ← hst.1]
    have h1 := hR.getWord _ _ s.cpu.regs.pc hst.2 h
    cases hx : MemoryAccess.getWord s.cpu.regs.pc s.mem <;> cases hy : MemoryAccess.getWord s.cpu.regs.pc t.mem <;>
      rw [hx, hy] at h1 <;> first | exact h1.elim | trivial | skip
    exact ⟨h1.1, rfl, h1.2⟩

theorem sim_finishStep {x : Exec M Nat} {y : Exec N Nat} (h : Sim R x y) (i : Isa) (k : Nat) :
    Sim R (finishStep i k x) (finishStep i k y) := by
  intro s t hst
  have h1 := h s t hst
  unfold finishStep
  rw [← hst.1]
  cases hx : x s <;> cases hy : y t <;> rw [hx, hy] at h1 <;> first | exact h1.elim | trivial | skip
  · exact ⟨by rw [h1.1], h1.2⟩
  · exact ⟨by rw [h1.1], h1.2⟩

theorem fastInstruction_eq (C : CpuDetails) (k : Nat) (s : St M) : fastInstruction C k s = match (getNextWord : Exec M U16) s with
    | .ok op s1 => finishStep (decoder op) k (Spec.exec C (decoder op) op) { s1 with cpu := { s1.cpu with currentOpcode := op } }
    | .err e s1 => .ok (k, some e) s1
    | .panic => .panic := by
  unfold fastInstruction
  cases (getNextWord : Exec M U16) s with
  | ok op s1 =>
    have := fastExecute_eq C { s1 with cpu := { s1.cpu with currentOpcode := op } }
    simp only at this
    simp only [finishStep]
    rw [this]
  | err v s1 => rfl
  | panic => rfl

theorem sim_fastInstruction (hR : Alike R) (C : CpuDetails) (k : Nat) :
    Sim R (fastInstruction C k : Exec M _) (fastInstruction C k : Exec N _) := by
  intro s t hst
  rw [fastInstruction_eq, fastInstruction_eq]
  have h1 := sim_getNextWord hR s t hst
  cases hx : (getNextWord : Exec M U16) s <;> cases hy : (getNextWord : Exec N U16) t <;> rw [hx, hy] at h1 <;>
    first | exact h1.elim | trivial | skip
  · obtain ⟨h1, h2⟩ := h1
    rw [h1]
    simp only
    exact sim_finishStep ((sim_pair hR).exec C _ _) _ _ _ _ ⟨by simp only [h2.1], h2.2⟩
  · exact ⟨by rw [h1.1], h1.2⟩

/-- One call on two memory systems that answer alike. -/
theorem sim_interpreterException (hR : Alike R) (C : CpuDetails) :
    Sim R (interpreterException C : Exec M _) (interpreterException C : Exec N _) := by
  intro s t hst
  unfold interpreterException
  rw [← hst.1]
  by_cases h : s.cpu.stop = true
  · rw [if_pos h, if_pos h]; exact ⟨rfl, hst⟩
  · rw [if_neg h, if_neg h]
    exact Sim.bind (sim_pendingCycles hR C) (fun k => sim_fastInstruction hR C k) s t hst

theorem sim_interpreter (hR : Alike R) (C : CpuDetails) : Sim R (interpreter C : Exec M _) (interpreter C : Exec N _) := by
  refine .bind (sim_interpreterException hR C) fun a => .bind ?_ fun _ => .pure _
  cases a.2 with
  | none => exact .pure _
  | some e => exact Sim.cpu (fun _ => ()) fun c => c.exception ⟨e⟩

end Exec
end M68k
