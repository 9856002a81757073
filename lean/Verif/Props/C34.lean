import Verif.Lemmas.Agree
import Verif.Spec.Loop
import Verif.Props.DemoRam
/-
C34: the interpreter and the disassembling interpreter have the same effect.
-/
namespace M68k.Props
open Spec Exec
set_option linter.unusedSectionVars false
variable {M : Type} [MemoryAccess M] {C : CpuDetails} {s s' t : St M} {c : Nat} {e : Option U8}

/-- Consecutive calls of `disassembler_interpreter` and the cycles they return. -/
inductive RanDisassembled (C : CpuDetails) : List Nat → St M → St M → Prop
  | nil (s : St M) : RanDisassembled C [] s s
  | cons {s t s' : St M} {addr : U32} {c : Nat} {cs : List Nat} : disassemblerInterpreter C s = .ok (addr, c) t → RanDisassembled C cs t s' →
      RanDisassembled C (c :: cs) s s'

/-- The memory never refuses to read a word. -/
def ReadsWords (M : Type) [MemoryAccess M] : Prop := ∀ (a : U32) (m m' : M), MemoryAccess.getWord a m ≠ .none m'

/-! ### One call -/

/-- When `interpreter_exception` returns anything but an access error, `disassembler_interpreter_exception` returns the same cycles and exception and leaves the same state. -/
theorem C34_call (h : interpreterException C s = .ok (c, e) s') (he : e ≠ some 2) :
    ∃ addr, disassemblerInterpreterException C s = .ok (addr, c, e) s' := by
  have ha := agree_call C s
  rw [h] at ha
  cases hd : disassemblerInterpreterException C s with
  | ok x t =>
    obtain ⟨addr, c', e'⟩ := x
    rw [hd] at ha
    obtain ⟨rfl, rfl, rfl | ⟨h2, _⟩⟩ := ha
    · exact ⟨addr, rfl⟩
    · exact absurd h2 he
  | err e t => rw [hd] at ha; exact ha.elim
  | panic => rw [hd] at ha; exact ha.elim

/-- The same in the other direction. -/
theorem C34_call_back {addr : U32} (h : disassemblerInterpreterException C s = .ok (addr, c, e) s') (he : e ≠ some 2) :
    interpreterException C s = .ok (c, e) s' := by
  have ha := agree_call C s
  rw [h] at ha
  cases hd : interpreterException C s with
  | ok x t =>
    obtain ⟨c', e'⟩ := x
    rw [hd] at ha
    obtain ⟨rfl, rfl, rfl | ⟨h2, _⟩⟩ := ha
    · rfl
    · exact absurd h2 he
  | err e t => rw [hd] at ha; exact ha.elim
  | panic => rw [hd] at ha; exact ha.elim

/-- They panic alike. -/
theorem C34_panic : interpreterException C s = .panic ↔ disassemblerInterpreterException C s = .panic := by
  have ha := agree_call C s
  constructor
  · intro h
    rw [h] at ha
    cases hd : disassemblerInterpreterException C s with
    | ok x t => rw [hd] at ha; exact ha.elim
    | err e t => rw [hd] at ha; exact ha.elim
    | panic => rfl
  · intro h
    rw [h] at ha
    cases hd : interpreterException C s with
    | ok x t => rw [hd] at ha; exact ha.elim
    | err e t => rw [hd] at ha; exact ha.elim
    | panic => rfl

/-- Access errors: the cycles and the exception are the same, and so are the states or, when the opcode could not be read, all of them but the program counter. -/
theorem C34_accessError (h : interpreterException C s = .ok (c, some 2) s') :
    ∃ addr t, disassemblerInterpreterException C s = .ok (addr, c, some 2) t ∧ (t = s' ∨ s' = t.withRegs fun r => { r with pc := r.pc + 2 }) := by
  have ha := agree_call C s
  rw [h] at ha
  cases hd : disassemblerInterpreterException C s with
  | ok x t =>
    obtain ⟨addr, c', e'⟩ := x
    rw [hd] at ha
    obtain ⟨rfl, rfl, h3⟩ := ha
    exact ⟨addr, t, rfl, h3.imp id (·.2)⟩
  | err e t => rw [hd] at ha; exact ha.elim
  | panic => rw [hd] at ha; exact ha.elim

/-- The address that is returned is that of the instruction that was executed. -/
theorem C34_address {op : U16} {s1 : St M} (h : Ready s op s1) (hc : interpreterException C s = .ok (c, e) s') :
    disassemblerInterpreterException C s = .ok (s.cpu.regs.pc, c, e) s' := by
  obtain ⟨m, hg, -⟩ := h.opcode
  have ha := agree_word C 0 h.even hg
  have h1 : interpreterException C s = fastInstruction C 0 s := (instruction_idle h.running h.idle).symm
  have h2 : disassemblerInterpreterException C s = disassemblerInstruction C 0 s := by
    unfold disassemblerInterpreterException
    rw [if_neg (by rw [h.running]; decide)]
    show Exec.bind _ _ s = _
    unfold Exec.bind pendingCycles
    rw [h.idle]
    rfl
  rw [h2, ha, ← h1, hc]

/-! ### Runs -/

/-- On a memory that never refuses to read a word, the same runs are possible with both. -/
theorem C34_runs (hM : ReadsWords M) {cs : List Nat} : Ran C cs s s' ↔ RanDisassembled C cs s s' := by
  have key : ∀ (s : St M) c t, interpreter C s = .ok c t ↔ ∃ addr, disassemblerInterpreter C s = .ok (addr, c) t := by
    intro s c t
    have h1 := agree_always hM C s
    unfold interpreter disassemblerInterpreter
    show Exec.bind _ _ s = _ ↔ ∃ addr, Exec.bind _ _ s = _
    unfold Exec.bind
    cases hi : interpreterException C s with
    | panic =>
      rw [hi] at h1
      rw [C34_panic.1 hi]
      exact ⟨fun h => (by cases h), fun ⟨_, h⟩ => (by cases h)⟩
    | err e u =>
      cases hd : disassemblerInterpreterException C s with
      | ok x t => rw [hi, hd] at h1; exact h1.elim
      | err e t => exact ⟨fun h => (by cases h), fun ⟨_, h⟩ => (by cases h)⟩
      | panic => rw [hi, hd] at h1; exact h1.elim
    | ok x u =>
      obtain ⟨c', e⟩ := x
      cases hd : disassemblerInterpreterException C s with
      | ok y u' =>
        obtain ⟨addr, c'', e'⟩ := y
        rw [hi, hd] at h1
        obtain ⟨rfl, rfl, rfl⟩ := h1
        cases e' with
        | none => exact ⟨fun h => ⟨addr, by cases h; rfl⟩, fun ⟨_, h⟩ => by cases h; rfl⟩
        | some e' => exact ⟨fun h => ⟨addr, by cases h; rfl⟩, fun ⟨_, h⟩ => by cases h; rfl⟩
      | err e t => rw [hi, hd] at h1; exact h1.elim
      | panic => rw [hi, hd] at h1; exact h1.elim
  constructor
  · intro h
    induction h with
    | nil s => exact .nil s
    | cons h _ ih => exact .cons ((key _ _ _).1 h).choose_spec ih
  · intro h
    induction h with
    | nil s => exact .nil s
    | cons h _ ih => exact .cons ((key _ _ _).2 ⟨_, h⟩) ih

/-- Such a memory. -/
example : ReadsWords FullRam := fun _ _ _ h => nomatch h

/-- `ADDI.W #1,(A0)` with both. -/
example : ∃ s', interpreterException mc68000 (Demo.ram [0x0650, 1, 0xFFFF] 0 (Demo.regs [] [4])) = .ok (16, none) s' ∧
    disassemblerInterpreterException mc68000 (Demo.ram [0x0650, 1, 0xFFFF] 0 (Demo.regs [] [4])) = .ok (0, 16, none) s' := ⟨_, rfl, rfl⟩

/-! ### The difference -/

/-- Without the restriction to instructions that can be fetched it is false: with the program counter at an address that cannot be read, the program counters after the call differ,
and so does the one in the frame of the access error that follows. -/
theorem C34_unreadable_refuted : ∃ (s s' t : St WordSlice) (addr : U32), interpreterException mc68000 s = .ok (0, some 2) s' ∧
    disassemblerInterpreterException mc68000 s = .ok (addr, 0, some 2) t ∧ s'.cpu.regs.pc = t.cpu.regs.pc + 2 :=
  ⟨Demo.st [] (Demo.regs [] []), _, _, _, rfl, rfl, rfl⟩

end M68k.Props
