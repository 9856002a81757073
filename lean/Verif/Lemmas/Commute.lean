import Verif.Lemmas.Ends
/-
Operand evaluation does not depend on the condition codes.
-/
namespace M68k
namespace Exec
open Spec
variable {M : Type} [MemoryAccess M]

/-- A change of the state after an action. -/
def _root_.M68k.Res.after {α : Type} (g : St M → St M) : Res M α → Res M α
  | .ok a s => .ok a (g s)
  | .err v s => .err v (g s)
  | .panic => .panic

/-- The state with C clear. -/
def clearC (s : St M) : St M := s.withRegs fun r => { r with sr := { r.sr with c := false } }

omit [MemoryAccess M] in
theorem areg_clearC (s : St M) (n : Fin 8) : areg (clearC s).cpu.regs n = areg s.cpu.regs n := rfl

theorem load_clearC (sz : Size) (a : U32) (s : St M) : load sz a (clearC s) = (load sz a s).after clearC := by
  unfold load
  split
  · rfl
  · unfold access
    have : (clearC s).mem = s.mem := rfl
    rw [this]
    cases memGet sz a s.mem <;> rfl

omit [MemoryAccess M] in
theorem setAreg_clearC (r : Registers) (n : Fin 8) (v : U32) :
    setAreg { r with sr := { r.sr with c := false } } n v = { setAreg r n v with sr := { (setAreg r n v).sr with c := false } } := by
  unfold setAreg
  split
  · rfl
  · split <;> rfl

omit [MemoryAccess M] in
theorem locate_clearC (sz : Size) (m : Mode) (s : St M) : locate sz m (clearC s) = (locate sz m s).after clearC := by
  cases m with
  | postinc n =>
    simp only [locate, place, Res.after, clearC, St.withRegs, setAreg_clearC]
    rfl
  | predec n =>
    simp only [locate, place, Res.after, clearC, St.withRegs, setAreg_clearC]
    rfl
  | _ => rfl

theorem readAt_clearC (sz : Size) (p : Place) (s : St M) : readAt sz p (clearC s) = (readAt sz p s).after clearC := by
  cases p with
  | dreg n => rfl
  | areg n => unfold readAt; simp only; split <;> rfl
  | mem a => exact load_clearC sz a s
  | imm v => rfl

theorem read_clearC (sz : Size) (m : Mode) (s : St M) : read sz m (clearC s) = (read sz m s).after clearC := by
  unfold Spec.read
  rw [Exec.bind_apply, Exec.bind_apply, locate_clearC]
  cases locate sz m s with
  | ok p s' =>
    simp only [Res.after]
    rw [Exec.bind_apply, Exec.bind_apply, readAt_clearC]
    cases readAt sz p s' <;> rfl
  | err v s' => rfl
  | panic => rfl

end Exec
end M68k
