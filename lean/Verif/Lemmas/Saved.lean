import Verif.Lemmas.Pending
import Verif.Spec.Saved
/-
The opcode of the last instruction is used by the frames of address and access errors only.
-/
namespace M68k
namespace Exec
open Spec
set_option linter.unusedSectionVars false
variable {M : Type} [MemoryAccess M] {s s' : St M} {C : CpuDetails} {v : U8} {α β : Type}

/-- The action neither uses nor changes the last opcode. -/
def NoOpcode {α : Type} (x : Exec M α) : Prop := ∀ s w, x (s.withOpcode w) = (x s).after fun t => t.withOpcode w

namespace NoOpcode
theorem bind {x : Exec M α} {f : α → Exec M β} (hx : NoOpcode x) (hf : ∀ a, NoOpcode (f a)) : NoOpcode (x >>= f) := by
  intro s w
  rw [Exec.bind_apply, Exec.bind_apply, hx s w]
  cases x s with
  | ok a t => exact hf a t w
  | err e t => rfl
  | panic => rfl
theorem access (f : M → MRes M α) : NoOpcode (access f) := by
  intro s w
  have hm : (s.withOpcode w).mem = s.mem := rfl
  unfold Spec.access
  rw [hm]
  cases f s.mem <;> rfl
theorem load (sz : Size) (a : U32) : NoOpcode (load sz a : Exec M _) := by
  unfold Spec.load
  split
  · exact fun _ _ => rfl
  · exact access _
theorem store (sz : Size) (a : U32) (v : Val sz) : NoOpcode (store sz a v : Exec M _) := by
  unfold Spec.store
  split
  · exact fun _ _ => rfl
  · exact access _
theorem fetch : NoOpcode (fetch : Exec M U16) := by
  intro s w
  have hm : (s.withOpcode w).mem = s.mem := rfl
  have hc : (s.withOpcode w).cpu.regs = s.cpu.regs := rfl
  unfold Spec.fetch
  rw [hm, hc]
  split
  · rfl
  · cases MemoryAccess.getWord s.cpu.regs.pc s.mem <;> rfl

theorem prims : SysPrims (M := M) NoOpcode where
  pure _ := fun _ _ => rfl
  bind _ _ hx hf := hx.bind hf
  crash := fun _ _ => rfl
  trap _ _ := fun _ _ => rfl
  getR _ := fun _ _ => rfl
  load := load
  store := store
  movemLoad sz a _ _ := by
    intro s w
    unfold Spec.movemLoad
    rw [Exec.map_apply, Exec.map_apply, access _ s w]
    cases Spec.access (memGet sz a) s <;> rfl
  movemStore _ _ _ _ _ := access _
  dreg _ _ := fun _ _ => rfl
  areg _ _ := fun _ _ => rfl
  flags _ _ := fun _ _ => rfl
  fetch := fetch
  jump _ := fun _ _ => rfl
  anyFlags _ := fun _ _ => rfl
  halt := fun _ _ => rfl
  signalReset := fun _ _ => rfl
  usp _ := fun _ _ => rfl

theorem item (i : Item) : NoOpcode (i.push : Exec M Unit) := by
  cases i with
  | w x => exact prims.toPrims.push .Word x
  | l x => exact prims.toPrims.push .Long x

theorem pushItems (is : List Item) : NoOpcode (pushItems is : Exec M Unit) := by
  induction is with
  | nil => exact fun _ _ => rfl
  | cons i is ih => exact (item i).bind fun _ => ih

theorem enter (hv : ¬ LongFrame v) : NoOpcode (enter C v : Exec M Nat) := by
  intro s w
  unfold Exec.enter
  have hf : frameItems C.STACK_FORMAT v (srWord (s.withOpcode w).cpu.regs.sr) (s.withOpcode w).cpu.regs.pc (s.withOpcode w).cpu.currentOpcode =
      frameItems C.STACK_FORMAT v (srWord s.cpu.regs.sr) s.cpu.regs.pc s.cpu.currentOpcode := by
    unfold frameItems
    rw [if_neg hv, if_neg hv, if_neg hv, if_neg hv]
    rfl
  rw [hf]
  exact NoOpcode.bind (x := setFlags (entrySr v)) (fun _ _ => rfl) (fun _ => (pushItems _).bind fun _ => (access _).bind fun _ => fun _ _ => rfl) s w

theorem processException (hv : ¬ LongFrame v) : NoOpcode (processException C v : Exec M Nat) := by
  intro s w
  rw [processException_eq, processException_eq]
  exact enter hv s w

theorem getNextWord : NoOpcode (getNextWord : Exec M U16) := by
  intro s w
  unfold Exec.getNextWord
  rw [getPc_eq, getR_bind_apply, getR_bind_apply]
  refine NoOpcode.bind ?_ ?_ s w
  · unfold even
    split
    · exact fun _ _ => rfl
    · exact fun _ _ => rfl
  · intro a s w
    have hm : (s.withOpcode w).mem = s.mem := rfl
    dsimp only
    rw [hm]
    cases MemoryAccess.getWord a s.mem <;> rfl

theorem reset : NoOpcode (reset C : Exec M Nat) := by
  have hm : ∀ {α : Type} (f : M → MRes M α), NoOpcode (memExpect f) := by
    intro α f s w
    unfold memExpect
    have hm : (s.withOpcode w).mem = s.mem := rfl
    rw [hm]
    cases f s.mem <;> rfl
  unfold Exec.reset
  exact (hm _).bind fun _ => NoOpcode.bind (x := modifyRegs _) (fun _ _ => rfl) fun _ => (hm _).bind fun _ => fun _ _ => rfl

theorem processList : ∀ (es : List Exception) (n : Nat), (∀ e ∈ es, ¬ LongFrame e.vector) → NoOpcode (processList C es n : Exec M Nat)
  | [], n, _ => fun _ _ => rfl
  | e :: es, n, h => by
    intro s w
    have ih := fun n => processList es n fun e he => h e (List.mem_cons_of_mem _ he)
    unfold Exec.processList
    dsimp only
    split
    · exact reset { s with cpu := { s.cpu with exceptions := [] } } w
    · rw [processException (h e List.mem_cons_self) s w]
      cases Exec.processException C e.vector s with
      | ok c t => exact ih _ t w
      | err x t =>
        have hc : ∀ v, ({ t.withOpcode w with cpu := (t.withOpcode w).cpu.exception v } : St M) = ({ t with cpu := t.cpu.exception v } : St M).withOpcode w := by
          intro v
          unfold St.withOpcode Cpu.exception
          dsimp only
          split <;> rfl
        dsimp only [Res.after]
        simp only [hc]
        by_cases h1 : x = ACCESS_ERROR
        · simp only [if_pos h1]
          by_cases h2 : e.vector = ACCESS_ERROR
          · simp only [if_pos h2]
          · simp only [if_neg h2]
            by_cases h3 : e.isInterrupt = true
            · simp only [if_pos h3]
              exact ih _ _ w
            · simp only [if_neg h3]
              exact ih _ _ w
        · simp only [if_neg h1]
          exact ih _ _ w
      | panic => rfl

end NoOpcode

theorem pendingCycles_opcode (h : NoFaultPending s) (w : U16) : pendingCycles C (s.withOpcode w) = (pendingCycles C s).after fun t => t.withOpcode w := by
  unfold pendingCycles
  show (if s.cpu.exceptions.isEmpty then _ else _) = _
  split
  · rfl
  · unfold processPendingExceptions
    refine NoOpcode.processList _ 0 (fun e he => ?_) { s with cpu := { s.cpu with exceptions := _ } } w
    rintro (h2 | h3)
    · exact (h e (List.mem_filter.1 he).1).1 h2
    · exact (h e (List.mem_filter.1 he).1).2 h3

theorem fastInstruction_opcode (n : Nat) (w : U16) : SameToHost (fastInstruction C n s) (fastInstruction C n (s.withOpcode w)) := by
  unfold fastInstruction
  rw [NoOpcode.getNextWord s w]
  cases getNextWord s with
  | ok op t =>
    show SameToHost (finishStep (decoder op) n (fastExecute C (decoder op)) { t with cpu := { t.cpu with currentOpcode := op } })
      (finishStep (decoder op) n (fastExecute C (decoder op)) { t with cpu := { t.cpu with currentOpcode := op } })
    cases finishStep (decoder op) n (fastExecute C (decoder op)) { t with cpu := { t.cpu with currentOpcode := op } } with
    | ok x u => exact ⟨rfl, u.cpu.currentOpcode, rfl⟩
    | err x u => exact ⟨rfl, u.cpu.currentOpcode, rfl⟩
    | panic => trivial
  | err e t => exact ⟨rfl, w, rfl⟩
  | panic => trivial

end Exec
end M68k
