import Verif.Lemmas.Saved
import Verif.Props.Demo
/-
C58: saving and restoring a core through its public fields (`restored`, Spec/Saved.lean).
-/
namespace M68k.Props
open Spec Exec
set_option linter.unusedSectionVars false
variable {M : Type} [MemoryAccess M] {C : CpuDetails} {s s' s1 s2 : St M} {op : U16}

theorem restored_eq (hi : s.cpu.exceptions = []) : restored s = s.withOpcode 0xFFFF := by
  obtain ⟨⟨r, o, st, es⟩, m⟩ := s
  cases hi
  rfl

/-- A core without pending exception whose next instruction word can be read, and the core restored from its registers and stop flag: the next call of
`interpreter_exception` has the same result and leaves equal cores and equal memories. From there on there is no difference of any kind. -/
theorem C58_instruction (h : Ready s op s1) : interpreterException C (restored s) = interpreterException C s := by
  rw [restored_eq h.idle]
  obtain ⟨m, hm, -⟩ := h.opcode
  rw [← instruction_idle (s := s) h.running h.idle, ← instruction_idle (s := s.withOpcode 0xFFFF) h.running h.idle]
  unfold fastInstruction
  rw [getNextWord_even (s := s) h.even, getNextWord_even (s := s.withOpcode 0xFFFF) h.even]
  have hm' : MemoryAccess.getWord (s.withOpcode 0xFFFF).cpu.regs.pc (s.withOpcode 0xFFFF).mem = .val op m := hm
  rw [hm, hm']
  rfl

/-- Whatever can be read at the program counter, and also with exceptions pending in both cores, as long as they are not address or access errors, a call
has the same result to a host: the cycles, the exception, the registers, the memory, the stop flag and the pending exceptions. -/
theorem C58_call (h : NoFaultPending s) (w : U16) : SameToHost (interpreterException C s) (interpreterException C (s.withOpcode w)) := by
  unfold interpreterException
  show SameToHost _ (if s.cpu.stop then _ else _)
  split
  · exact ⟨rfl, w, rfl⟩
  · rw [Exec.bind_apply, Exec.bind_apply, pendingCycles_opcode h w]
    cases pendingCycles C s with
    | ok n t => exact fastInstruction_opcode n w
    | err e t => exact ⟨rfl, w, rfl⟩
    | panic => trivial

theorem run_opcode (h : NoFaultPending s) (w : U16) {n : Nat} (hr : interpreter C s = .ok n s') : ∃ w', interpreter C (s.withOpcode w) = .ok n (s'.withOpcode w') := by
  have h1 := C58_call (C := C) h w
  unfold interpreter at hr ⊢
  obtain ⟨⟨k, e⟩, t, h2, h3⟩ := bind_ok hr
  rw [h2] at h1
  cases h4 : interpreterException C (s.withOpcode w) with
  | ok x u =>
    rw [h4] at h1
    obtain ⟨rfl, w', rfl⟩ := h1
    rw [bind_eq h4]
    cases e with
    | none => cases h3; exact ⟨w', rfl⟩
    | some v =>
      cases h3
      refine ⟨w', ?_⟩
      show Res.ok n (⟨(t.withOpcode w').cpu.exception ⟨v⟩, _⟩ : St M) = _
      unfold St.withOpcode Cpu.exception
      dsimp only
      split <;> rfl
  | err e u => rw [h4] at h1; exact h1.elim
  | panic => rw [h4] at h1; exact h1.elim

/-- A core without pending exception whose next instruction word can be read: any number of calls of `interpreter`, at least one, whatever happens in them, give the same
cycles and the same core and memory, nothing excepted, in the restored core. -/
theorem C58_continues {cs : List Nat} (h : Ready s op s1) (hc : cs ≠ []) : Ran C cs (restored s) s' ↔ Ran C cs s s' := by
  have he : interpreter C (restored s) = interpreter C s := by
    unfold interpreter
    rw [Exec.bind_apply, Exec.bind_apply, C58_instruction h]
  constructor
  · intro hr
    cases hr with
    | nil => exact absurd rfl hc
    | cons h1 h2 => exact .cons (he ▸ h1) h2
  · intro hr
    cases hr with
    | nil => exact absurd rfl hc
    | cons h1 h2 => exact .cons (he.trans h1) h2

/-- Any number of calls of `interpreter`, none of which begins with an address or access error pending: the restored core does the same, the cycles of each call
included, and ends with the same registers, memory, stop flag and pending exceptions. -/
theorem C58_runs {cs : List Nat} (hi : s.cpu.exceptions = []) (hn : ∀ cs' c cs'' t, cs = cs' ++ c :: cs'' → Ran C cs' s t → NoFaultPending t) (hr : Ran C cs s s') :
    ∃ w, Ran C cs (restored s) (s'.withOpcode w) := by
  rw [restored_eq hi]
  have key : ∀ w, ∃ w', Ran C cs (s.withOpcode w) (s'.withOpcode w') := by
    clear hi
    induction hr with
    | nil s => exact fun w => ⟨w, .nil _⟩
    | @cons s t s' c cs h1 h2 ih =>
      intro w
      obtain ⟨w1, h3⟩ := run_opcode (hn [] _ _ _ rfl (.nil _)) w h1
      obtain ⟨w2, h4⟩ := ih (fun cs' d cs'' u he hu => hn (c :: cs') d cs'' u (by rw [he]; rfl) (.cons h1 hu)) w1
      exact ⟨w2, .cons h3 h4⟩
  exact key _

/-- Two calls of `interpreter`: the cycles and the memory afterwards. -/
def twoCalls (s : St WordSlice) : Option (Nat × Nat × List U16) :=
  match interpreter mc68000 s with
  | .ok c t =>
    match interpreter mc68000 t with
    | .ok d u => some (c, d, u.mem.words)
    | _ => none
  | _ => none

theorem ran_twoCalls {s : St WordSlice} {c d : Nat} {ws : List U16} (h : twoCalls s = some (c, d, ws)) : ∃ u, Ran mc68000 [c, d] s u ∧ u.mem.words = ws := by
  unfold twoCalls at h
  split at h
  · next c t h1 =>
    split at h
    · next d u h2 =>
      cases h
      exact ⟨u, .cons h1 (.cons h2 (.nil _)), rfl⟩
    · cases h
  · cases h

/-- What the condition leaves out: with an odd program counter the first call ends with an address error, and the second stores the opcode of the last
instruction before the save, or $FFFF in the restored core. -/
theorem C58_fault : ∃ (s a b : St WordSlice) (cs : List Nat), s.cpu.exceptions = [] ∧ Ran mc68000 cs s a ∧ Ran mc68000 cs (restored s) b ∧ a.mem ≠ b.mem := by
  have h1 : twoCalls ⟨{ Cpu.newNoReset with regs := { Registers.default with pc := 1, ssp := 32 }, currentOpcode := 0x4E71 },
      ⟨[0, 0, 0, 0, 0, 0, 0, 0, 0, 0, 0, 0, 0, 0, 0, 0]⟩⟩ = some (0, 58, [0, 0, 0, 0, 0, 0, 0, 0, 0, 0, 0, 0, 0x4E71, 0x2700, 0, 1]) := by decide +kernel
  have h2 : twoCalls (restored ⟨{ Cpu.newNoReset with regs := { Registers.default with pc := 1, ssp := 32 }, currentOpcode := 0x4E71 },
      ⟨[0, 0, 0, 0, 0, 0, 0, 0, 0, 0, 0, 0, 0, 0, 0, 0]⟩⟩) = some (0, 58, [0, 0, 0, 0, 0, 0, 0, 0, 0, 0, 0, 0, 0xFFFF, 0x2700, 0, 1]) := by decide +kernel
  obtain ⟨a, ha, hma⟩ := ran_twoCalls h1
  obtain ⟨b, hb, hmb⟩ := ran_twoCalls h2
  refine ⟨_, a, b, _, rfl, ha, hb, fun h => ?_⟩
  rw [h, hmb] at hma
  revert hma
  decide

/-- A core that has executed instructions and one made from its registers: `MOVEQ #5,D1` then `ADD.L D1,D1`. -/
example : ∃ s a s1, s = Demo.st [0x7205, 0xD281] (Demo.regs [] []) ∧ Ran mc68000 [4] s a ∧ Ready a 0xD281 s1 ∧ a.cpu.currentOpcode = 0x7205 ∧
    (restored a).cpu.currentOpcode = 0xFFFF :=
  ⟨_, _, _, rfl, .cons rfl (.nil _), ⟨rfl, rfl, by decide, _, rfl, rfl⟩, rfl, rfl⟩

/-- The conditions of `C58_runs` with a program that ends with an access error: the two calls of `interpreter` that execute `MOVEQ #5,D1` and fail to read the next opcode
begin without a pending fault, the third would not. -/
example : ∃ s s' : St WordSlice, s = Demo.st [0x7205] (Demo.regs [] []) ∧ s.cpu.exceptions = [] ∧ Ran mc68000 [4, 0] s s' ∧
    (∀ cs' c cs'' t, [4, 0] = cs' ++ c :: cs'' → Ran mc68000 cs' s t → NoFaultPending t) ∧ ¬ NoFaultPending s' := by
  refine ⟨_, _, rfl, rfl, .cons rfl (.cons rfl (.nil _)), ?_, ?_⟩
  · intro cs' c cs'' t he hr
    match cs', he with
    | [], _ => cases hr with | nil => intro e he'; cases he'
    | [_], he =>
      cases hr with
      | cons h1 h2 => cases h1; cases h2; intro e he'; cases he'
    | _ :: _ :: cs', he => simp at he
  · intro h
    exact absurd rfl (h ⟨2⟩ (.head _)).1

end M68k.Props
