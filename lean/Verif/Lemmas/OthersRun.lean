import Verif.Lemmas.OthersExec
import Verif.Lemmas.Alike
/-
Exception processing and the run methods use no register an executed instruction does not name.
-/
set_option linter.unusedSectionVars false
namespace M68k
namespace Exec
open Spec
variable {M : Type} [MemoryAccess M] {α β : Type} {l : List Register} {t : Registers} {op : U16} {C : CpuDetails}

namespace Unseen
theorem ite {c : Prop} [Decidable c] {x y : Exec M α} (hx : Unseen l t x) (hy : Unseen l t y) : Unseen l t (if c then x else y) := by
  split
  · exact hx
  · exact hy
theorem pushWord (v : U16) : Unseen (M := M) l t (Exec.pushWord v) := by rw [pushWord_eq]; exact push .Word v
theorem pushLong (v : U32) : Unseen (M := M) l t (Exec.pushLong v) := by rw [pushLong_eq]; exact push .Long v
theorem getPc : Unseen (M := M) l t Exec.getPc := fun _ => rfl
theorem getSr : Unseen (M := M) l t Exec.getSr := fun _ => rfl
theorem getOpcode : Unseen (M := M) l t Exec.getCurrentOpcode := fun _ => rfl
theorem modifySr (f : StatusRegister → StatusRegister) : Unseen (M := M) l t (Exec.modifySr f) := fun _ => rfl
theorem setPc (v : U32) : Unseen (M := M) l t (Exec.setPc v) := fun _ => rfl
theorem setStop (v : Bool) : Unseen (M := M) l t (Exec.setStop v) := fun _ => rfl
theorem raise (e : Exception) : Unseen (M := M) l t (Exec.raise e) := fun s => by
  unfold UnseenAt Exec.raise Cpu.exception swapped St.withRegs Res.after
  dsimp only
  split <;> rfl
theorem mem (f : M → MRes M α) : Unseen (M := M) l t (Exec.mem f) := fun s => by
  unfold UnseenAt Exec.mem
  have : (swapped l t s).mem = s.mem := rfl
  rw [this]
  cases f s.mem <;> rfl
theorem memExpect (f : M → MRes M α) : Unseen (M := M) l t (Exec.memExpect f) := fun s => by
  unfold UnseenAt Exec.memExpect
  have : (swapped l t s).mem = s.mem := rfl
  rw [this]
  cases f s.mem <;> rfl

theorem reset : Unseen (M := M) l t (Exec.reset C) :=
  bind (memExpect _) fun _ => bind (fun _ => rfl) fun _ => bind (memExpect _) fun _ => bind (fun _ => rfl) fun _ => bind (modifySr _) fun _ => bind (setStop _) fun _ =>
    pure _

theorem frame68000 (v : U8) (w : U16) : Unseen (M := M) l t (pushFrameMC68000 v w) :=
  bind getPc fun _ => bind (pushLong _) fun _ => bind (pushWord _) fun _ =>
    ite (bind getOpcode fun _ => bind (pushWord _) fun _ => bind (pushLong _) fun _ => pushWord _) (pure _)

theorem frame68070 (v : U8) (w : U16) : Unseen (M := M) l t (pushFrameSCC68070 v w) :=
  bind (ite (bind (pushWord _) fun _ => bind getOpcode fun _ => bind (pushWord _) fun _ => bind getOpcode fun _ => bind (pushWord _) fun _ =>
      bind (pushLong _) fun _ => bind (pushLong _) fun _ => bind (pushLong _) fun _ => bind (pushWord _) fun _ => bind (pushWord _) fun _ =>
      bind (pushWord _) fun _ => bind (pushWord _) fun _ => pushWord _) (pushWord _)) fun _ =>
    bind getPc fun _ => bind (pushLong _) fun _ => pushWord _

theorem processException (v : U8) : Unseen (M := M) l t (Exec.processException C v) := by
  refine bind getSr fun _ => bind (modifySr _) fun _ => bind (ite (modifySr _) (pure _)) fun _ => bind ?_ fun _ => bind (mem _) fun _ => bind (setPc _) fun _ => pure _
  cases C.STACK_FORMAT
  · exact frame68000 _ _
  · exact frame68070 _ _

theorem processList (es : List Exception) (k : Nat) : Unseen (M := M) l t (Exec.processList C es k) := by
  induction es generalizing k with
  | nil => exact pure _
  | cons ex es ih =>
    intro s
    unfold UnseenAt
    simp only [Exec.processList]
    by_cases h0 : ex.vector = 0
    · rw [if_pos h0, if_pos h0]
      exact reset { s with cpu := { s.cpu with exceptions := [] } }
    · rw [if_neg h0, if_neg h0, processException ex.vector s]
      cases Exec.processException C ex.vector s with
      | ok c s' => exact ih _ s'
      | err e s' =>
        have he : ∀ e : Exception, ({ swapped l t s' with cpu := (swapped l t s').cpu.exception e } : St M) =
            swapped l t { s' with cpu := s'.cpu.exception e } := fun e => by
          have := raise (l := l) (t := t) e s'
          unfold UnseenAt Exec.raise Res.after at this
          injection this
        simp only [Res.after, he]
        split
        · split
          · rfl
          · split <;> exact ih _ _
        · exact ih _ _
      | panic => rfl

theorem pendingCycles : Unseen (M := M) l t (Exec.pendingCycles C) := fun s => by
  unfold UnseenAt Exec.pendingCycles processPendingExceptions
  have : (swapped l t s).cpu.exceptions = s.cpu.exceptions := rfl
  rw [this]
  split
  · rfl
  · dsimp only
    exact processList (C := C) (l := l) (t := t) (s.cpu.exceptions.filter fun ex => !isHeld s.cpu.regs.sr.interruptMask ex) 0
      { s with cpu := { s.cpu with exceptions := s.cpu.exceptions.filter fun ex =>
        !((s.cpu.exceptions.filter fun ex => !isHeld s.cpu.regs.sr.interruptMask ex).any fun e => e.priority == ex.priority) } }

theorem getNextWord : Unseen (M := M) l t Exec.getNextWord := fun s => by
  unfold UnseenAt
  by_cases h : Spec.Odd s.cpu.regs.pc
  · rw [getNextWord_odd h, getNextWord_odd (s := swapped l t s) h]; rfl
  · rw [getNextWord_even h, getNextWord_even (s := swapped l t s) h]
    have : (swapped l t s).mem = s.mem := rfl
    have hp : (swapped l t s).cpu.regs.pc = s.cpu.regs.pc := rfl
    rw [this, hp]
    cases MemoryAccess.getWord s.cpu.regs.pc s.mem <;> rfl
end Unseen

theorem unseen_finishStep {s : St M} {i : Isa} {k : Nat} {x : Exec M Nat} (h : UnseenAt l t s x) : UnseenAt l t s (finishStep i k x) := by
  unfold UnseenAt finishStep at *
  rw [h]
  cases x s <;> rfl

theorem legal_any : Legal (M := M) True True True True (fun _ => True) where
  pure _ := trivial
  bind _ _ _ _ := trivial
  trap _ := trivial
  getR _ := trivial
  load _ _ _ := trivial
  store _ _ _ _ := trivial
  movemLoad _ _ _ _ _ := trivial
  movemStore _ _ _ _ _ _ := trivial
  dreg _ _ := trivial
  areg _ _ := trivial
  flags _ := trivial
  jump _ _ := trivial
  halt := trivial
  signalReset _ := trivial
  usp _ := trivial

/-- An instruction whose words cannot be read panics. -/
theorem exec_panic {s : St M} (h : fetchWords (extensionWords (decoder op) op) s = .panic) : Spec.exec C (decoder op) op s = .panic := by
  have := legal_any.exec (M := M) C (decoder_legal op) (fun _ => trivial) (fun _ => trivial) (fun _ => trivial) (fun _ => trivial) s
  rw [h] at this
  exact this

/-- The state reached by reading the opcode at the program counter. -/
theorem unseen_fastInstruction {s : St M} {k : Nat}
    (hu : ∀ op s1 ws s2, getNextWord s = .ok op s1 →
      fetchWords (extensionWords (decoder op) op) { s1 with cpu := { s1.cpu with currentOpcode := op } } = .ok ws s2 → Keep l (registersUsed (decoder op) op ws)) :
    UnseenAt l t s (fastInstruction C k) := by
  unfold UnseenAt
  rw [fastInstruction_eq, fastInstruction_eq, Unseen.getNextWord s]
  cases hw : getNextWord s with
  | ok op s1 =>
    simp only [Res.after]
    have hb : UnseenAt l t { s1 with cpu := { s1.cpu with currentOpcode := op } } (Spec.exec C (decoder op) op) := by
      cases hx : fetchWords (extensionWords (decoder op) op) { s1 with cpu := { s1.cpu with currentOpcode := op } } with
      | ok ws s2 => exact unseen (decoder_legal op) _ ws s2 hx (hu op s1 ws s2 hw hx)
      | err v s2 =>
        have := legal_any.exec (M := M) C (decoder_legal op) (fun _ => trivial) (fun _ => trivial) (fun _ => trivial) (fun _ => trivial)
          { s1 with cpu := { s1.cpu with currentOpcode := op } }
        rw [hx] at this
        exact this.elim
      | panic =>
        unfold UnseenAt
        rw [exec_panic hx, exec_panic]
        · rfl
        · rw [Unseen.fetchWords _ _, hx]; rfl
    exact unseen_finishStep hb
  | err v s1 => rfl
  | panic => rfl

theorem unseen_interpreterException {s : St M}
    (hu : ∀ k s0 op s1 ws s2, s.cpu.stop = false → pendingCycles C s = .ok k s0 → getNextWord s0 = .ok op s1 →
      fetchWords (extensionWords (decoder op) op) { s1 with cpu := { s1.cpu with currentOpcode := op } } = .ok ws s2 → Keep l (registersUsed (decoder op) op ws)) :
    UnseenAt l t s (interpreterException C) := by
  unfold UnseenAt interpreterException
  have : (swapped l t s).cpu.stop = s.cpu.stop := rfl
  rw [this]
  by_cases h : s.cpu.stop = true
  · rw [if_pos h, if_pos h]; rfl
  · rw [if_neg h, if_neg h]
    exact UnseenAt.bind (Unseen.pendingCycles s) fun k s0 h0 => unseen_fastInstruction fun op s1 ws s2 => hu k s0 op s1 ws s2 (by simpa using h) h0

theorem unseen_interpreter {s : St M} (h : UnseenAt l t s (interpreterException C)) : UnseenAt l t s (interpreter C) := by
  refine UnseenAt.bind h fun a s1 _ => UnseenAt.bind ?_ fun _ _ _ => rfl
  cases a.2 with
  | none => exact rfl
  | some e => exact Unseen.raise _ _
end Exec
end M68k
