import Verif.Lemmas.OthersRun
import Verif.Spec.Loop
import Verif.Props.C40
import Verif.Props.Demo
/-
C79: an instruction depends on, and changes, only the data and address registers it names. `registersUsed` (Spec/Registers.lean) says by opcode and extension words
which these are, and `withOthers l t` replaces all registers that are not in `l` by those of `t`.
-/
set_option linter.unusedSectionVars false
namespace M68k.Props
open Spec Exec
variable {M : Type} [MemoryAccess M] {C : CpuDetails} {s s' s1 s2 : St M} {op : U16} {l : List Register} {t : Registers}

instance decidableMisfit : Decidable (MovemMisfit op) := by unfold MovemMisfit; infer_instance

/-- The instruction of an opcode: the one of the 68000, and MOVEM for the 32 opcodes that the decoder takes as MOVEM (C38). -/
def instrOrMisfit (op : U16) : Isa := if MovemMisfit op then .Movem else instr op

theorem decoder_instrOrMisfit (op : U16) : decoder op = instrOrMisfit op := by
  unfold instrOrMisfit
  split
  · rename_i h; exact decoder_of_misfit h
  · rename_i h; exact decoder_of_not_misfit h

/-- The word at the even program counter of `s` can be read and is `op`. `s1` is the state after this read. -/
def Opcode (s : St M) (op : U16) (s1 : St M) : Prop :=
  ¬ Odd s.cpu.regs.pc ∧ ∃ m, MemoryAccess.getWord s.cpu.regs.pc s.mem = .val op m ∧
    s1 = { mem := m, cpu := { s.cpu with currentOpcode := op, regs := { s.cpu.regs with pc := s.cpu.regs.pc + 2 } } }

/-- A call of a run method with the state `s` executes an instruction that names no registers but those in `l`: if the core is not stopped, the pending
exceptions are processed, the opcode and its extension words are read, and the registers they name are in `l`. -/
def UsesOnly (C : CpuDetails) (l : List Register) (s : St M) : Prop :=
  ∀ (k : Nat) (s0 : St M) (op : U16) (s1 : St M) (ws : List U16) (s2 : St M), s.cpu.stop = false → pendingCycles C s = .ok k s0 → Opcode s0 op s1 →
    fetchWords (extensionWords (instrOrMisfit op) op) s1 = .ok ws s2 → ∀ r ∈ registersUsed (instrOrMisfit op) op ws, r ∈ l

/-- Consecutive calls of `interpreter` and the cycles they return; the executed instructions name no registers but those in `l`. -/
inductive RanUsing (C : CpuDetails) (l : List Register) : List Nat → St M → St M → Prop
  | nil (s : St M) : RanUsing C l [] s s
  | cons {s t s' : St M} {c : Nat} {cs : List Nat} : UsesOnly C l s → interpreter C s = .ok c t → RanUsing C l cs t s' → RanUsing C l (c :: cs) s s'

theorem opcode_of_getNextWord {s0 : St M} (h : getNextWord s0 = .ok op s1) : Opcode s0 op { s1 with cpu := { s1.cpu with currentOpcode := op } } := by
  by_cases ho : Odd s0.cpu.regs.pc
  · rw [getNextWord_odd ho] at h; cases h
  · rw [getNextWord_even ho] at h
    cases hm : MemoryAccess.getWord s0.cpu.regs.pc s0.mem with
    | val w m => rw [hm] at h; cases h; exact ⟨ho, m, hm, rfl⟩
    | none m => rw [hm] at h; cases h
    | panic => rw [hm] at h; cases h

theorem usesOnly_unseen (h : UsesOnly C l s) : UnseenAt l t s (interpreterException C) := by
  refine unseen_interpreterException fun k s0 op s1 ws s2 h1 h2 h3 h4 => ?_
  rw [decoder_instrOrMisfit] at h4 ⊢
  exact h k s0 op _ ws s2 h1 h2 (opcode_of_getNextWord h3) h4

/-- If the registers that are not named are replaced, `interpreter_exception` returns the same cycles and the same exception and leaves the same state, but for
these registers, which are again the replaced ones. It panics in both cases or in none. -/
theorem C79_call (h : UsesOnly C l s) :
    interpreterException C (s.withRegs (withOthers l t)) = (interpreterException C s).after fun s' => s'.withRegs (withOthers l t) := usesOnly_unseen h

/-- The same for `interpreter`. -/
theorem C79_interpreter (h : UsesOnly C l s) : interpreter C (s.withRegs (withOthers l t)) = (interpreter C s).after fun s' => s'.withRegs (withOthers l t) :=
  unseen_interpreter (usesOnly_unseen h)

/-- For an instruction that is about to be executed: its registers are those named by its words. -/
theorem C79_instruction (h : Ready s op s1) (hm : ¬ MovemMisfit op) {ws : List U16} (hw : fetchWords (extensionWords (instr op) op) s1 = .ok ws s2)
    (hl : ∀ r ∈ registersUsed (instr op) op ws, r ∈ l) :
    interpreterException C (s.withRegs (withOthers l t)) = (interpreterException C s).after fun s' => s'.withRegs (withOthers l t) := by
  refine C79_call fun k s0 op' s1' ws' s2' _ h2 h3 h4 => ?_
  unfold pendingCycles at h2
  rw [h.idle] at h2
  cases h2
  obtain ⟨m, h5, rfl⟩ := h.opcode
  obtain ⟨-, m', h6, rfl⟩ := h3
  rw [h5] at h6
  cases h6
  unfold instrOrMisfit at h4 ⊢
  rw [if_neg hm] at h4 ⊢
  rw [hw] at h4
  cases h4
  exact hl

/-- A whole program: if its instructions name no registers but those in `l`, it runs in the same way, call by call, with any values in the other registers. -/
theorem C79_run {cs : List Nat} (h : RanUsing C l cs s s') : Ran C cs (s.withRegs (withOthers l t)) (s'.withRegs (withOthers l t)) := by
  induction h with
  | nil s => exact .nil _
  | cons hu hi _ ih =>
    refine .cons ?_ ih
    rw [C79_interpreter hu, hi]
    rfl

theorem ran_det {cs : List Nat} {u v : St M} (h : Ran C cs s u) (h' : Ran C cs s v) : u = v := by
  induction h with
  | nil s => cases h'; rfl
  | cons h1 _ ih =>
    cases h' with
    | cons h2 h3 => rw [h1] at h2; cases h2; exact ih h3

theorem ran_of_using {cs : List Nat} (h : RanUsing C l cs s s') : Ran C cs s s' := by
  induction h with
  | nil s => exact .nil _
  | cons _ hi _ ih => exact .cons hi ih

theorem withOthers_self (r : Registers) : withOthers l r r = r := by
  unfold withOthers
  simp

/-- The registers no instruction of the program names keep their values. -/
theorem C79_kept {cs : List Nat} (h : RanUsing C l cs s s') :
    (∀ n, .d n ∉ l → s'.cpu.regs.d n = s.cpu.regs.d n) ∧ ∀ n : Fin 7, .a ⟨n.val, by omega⟩ ∉ l → s'.cpu.regs.a n = s.cpu.regs.a n := by
  have h1 := C79_run (t := s.cpu.regs) h
  have h2 : s.withRegs (withOthers l s.cpu.regs) = s := by unfold St.withRegs; rw [withOthers_self]
  rw [h2] at h1
  have h3 := congrArg (·.cpu.regs) (ran_det h1 (ran_of_using h))
  simp only [St.withRegs] at h3
  refine ⟨fun n hn => ?_, fun n hn => ?_⟩
  · rw [← h3]; simp [withOthers, hn]
  · rw [← h3]; simp [withOthers, hn]

/-- Two cores that differ in registers the program does not name only: both run in the same way, and end with the same memory, the same pending exceptions and the
same named registers, stack pointers, status register and program counter. -/
theorem C79_agree {cs : List Nat} (h : RanUsing C l cs s s') (hd : ∀ n, .d n ∈ l → t.d n = s.cpu.regs.d n) (ha : ∀ n : Fin 7, .a ⟨n.val, by omega⟩ ∈ l → t.a n = s.cpu.regs.a n)
    (ht : t.usp = s.cpu.regs.usp ∧ t.ssp = s.cpu.regs.ssp ∧ t.sr = s.cpu.regs.sr ∧ t.pc = s.cpu.regs.pc) :
    ∃ t', Ran C cs { s with cpu := { s.cpu with regs := t } } { s' with cpu := { s'.cpu with regs := t' } } ∧
      (∀ n, .d n ∈ l → t'.d n = s'.cpu.regs.d n) ∧ (∀ n : Fin 7, .a ⟨n.val, by omega⟩ ∈ l → t'.a n = s'.cpu.regs.a n) ∧
      t'.usp = s'.cpu.regs.usp ∧ t'.ssp = s'.cpu.regs.ssp ∧ t'.sr = s'.cpu.regs.sr ∧ t'.pc = s'.cpu.regs.pc := by
  have e : withOthers l t s.cpu.regs = t := by
    obtain ⟨h1, h2, h3, h4⟩ := ht
    unfold withOthers
    rw [← h1, ← h2, ← h3, ← h4]
    have e1 : (fun n => if Register.d n ∈ l then s.cpu.regs.d n else t.d n) = t.d := by
      funext n
      split
      · rename_i hn; exact (hd n hn).symm
      · rfl
    have e2 : (fun n : Fin 7 => if Register.a ⟨n.val, by omega⟩ ∈ l then s.cpu.regs.a n else t.a n) = t.a := by
      funext n
      split
      · rename_i hn; exact (ha n hn).symm
      · rfl
    rw [e1, e2]
  refine ⟨withOthers l t s'.cpu.regs, ?_, fun n hn => by simp [withOthers, hn], fun n hn => by simp [withOthers, hn], rfl, rfl, rfl, rfl⟩
  have h1 := C79_run (t := t) h
  unfold St.withRegs at h1
  rwa [e] at h1

theorem usesOnly_of_ready (h : Ready s op s1) {ws : List U16} (hw : fetchWords (extensionWords (instrOrMisfit op) op) s1 = .ok ws s2)
    (hl : ∀ r ∈ registersUsed (instrOrMisfit op) op ws, r ∈ l) : UsesOnly C l s := by
  intro k s0 op' s1' ws' s2' _ h2 h3 h4
  unfold pendingCycles at h2
  rw [h.idle] at h2
  cases h2
  obtain ⟨m, h5, rfl⟩ := h.opcode
  obtain ⟨-, m', h6, rfl⟩ := h3
  rw [h5] at h6
  cases h6
  rw [hw] at h4
  cases h4
  exact hl

/-- ADD.L D0,D1; MOVE.W 4(A2,D1.L),D0. The registers named are D0, D1 and A2. -/
def othersDemo : St WordSlice := Demo.st [0xD280, 0x3032, 0x1804, 0, 0x1234] (Demo.regs [1, 1] [0, 0, 2])

example : ∃ cs s', RanUsing mc68000 [.d 0, .d 1, .a 2] cs othersDemo s' ∧ cs.length = 2 ∧ s'.cpu.regs.d 1 = 2 ∧ s'.cpu.regs.d 0 = 0x1234 :=
  ⟨_, _, .cons (usesOnly_of_ready (op := 0xD280) (ws := []) ⟨rfl, rfl, by decide, _, rfl, rfl⟩ rfl (by decide)) rfl
    (.cons (usesOnly_of_ready (op := 0x3032) (ws := [0x1804]) ⟨rfl, rfl, by decide, _, rfl, rfl⟩ rfl (by decide)) rfl (.nil _)), rfl, rfl, rfl⟩

/-- Two registers are enough for the first instruction, and it does depend on both. -/
example : ∃ s1 s2, Ready othersDemo 0xD280 s1 ∧ ¬ MovemMisfit 0xD280 ∧ instr 0xD280 = .Add ∧ fetchWords (extensionWords .Add 0xD280) s1 = .ok [] s2 ∧
    registersUsed .Add 0xD280 [] = [.d 1, .d 0] ∧
    ∀ l, l = [.d 1] ∨ l = [.d 0] → interpreterException mc68000 (othersDemo.withRegs (withOthers l Registers.default)) ≠
      (interpreterException mc68000 othersDemo).after fun s' => s'.withRegs (withOthers l Registers.default) :=
  ⟨_, _, ⟨rfl, rfl, by decide, _, rfl, rfl⟩, by decide, by decide +kernel, rfl, by decide, by
    intro l hl h
    rcases hl with rfl | rfl <;>
    · have := congrArg (fun r : Res WordSlice _ => match r with | .ok _ s => s.cpu.regs.d 1 | _ => 0) h
      revert this
      decide⟩

end M68k.Props
