import Verif.Spec.Source
import Verif.Lemmas.Agree
import Verif.Lemmas.Step
import Verif.Lemmas.InstrArith
import Verif.Lemmas.InstrLogic
import Verif.Lemmas.InstrMove
import Verif.Lemmas.InstrBit
import Verif.Lemmas.InstrShift
import Verif.Lemmas.InstrControl
/-
Executing decoded words: one call of `interpreter_exception` executes the instruction that the decoder makes of the words at the program counter.
-/
namespace M68k.Exec
open Spec
set_option linter.unusedSectionVars false
variable {M : Type} [MemoryAccess M] {C : CpuDetails} {s s1 : St M} {ws : List U16} {isa : Isa} {ops : U32 → Operands}

theorem feeds_addr {it it' : Iter M} (h : Feeds it ws it') : it'.nextAddr = it.nextAddr + BitVec.ofNat 32 (2 * ws.length) := by
  induction h with
  | nil => simp
  | cons _ _ _ ih =>
    rw [ih, List.length_cons]
    dsimp only
    apply BitVec.eq_of_toNat_eq
    simp only [BitVec.toNat_add, BitVec.toNat_ofNat, show BitVec.toNat (2 : U32) = 2 from rfl]
    omega

/-- The words at the program counter are executed as the instruction they decode to. -/
theorem atWords_step (hd : Decodes ws isa ops) (h : AtWords s ws s1) : ∃ op, ws.head? = some op ∧ s1.cpu.currentOpcode = op ∧
    interpreterException C s = finishStep isa 0 (instructionExecute C isa ⟨op, s.cpu.regs.pc, ops s.cpu.regs.pc⟩) s1 := by
  obtain ⟨op, it, hh, hf, rfl⟩ := h.there
  obtain ⟨op', hh', hi, hm⟩ := hd M ⟨s.mem, s.cpu.regs.pc⟩ it hf
  rw [hh] at hh'
  cases hh'
  refine ⟨op, hh, rfl, ?_⟩
  cases hf with
  | nil => cases hh
  | @cons m m' a w ws it ho hg hf =>
    cases hh
    have ha := agree_word C 0 (s := s) ho hg
    have h1 : interpreterException C s = fastInstruction C 0 s := (instruction_idle h.running h.idle).symm
    have hn := feeds_addr (Feeds.cons ho hg hf)
    unfold disassemblerInstruction getNextInstruction at ha
    rw [hm] at ha
    dsimp only at ha hn
    rw [hi] at ha
    rw [h1, ← hn]
    revert ha
    generalize finishStep isa 0 (instructionExecute C isa ⟨op, s.cpu.regs.pc, ops s.cpu.regs.pc⟩) { mem := it.mem, cpu := { s.cpu with regs := { s.cpu.regs with pc := it.nextAddr }, currentOpcode := op } } = x
    generalize fastInstruction C 0 s = y
    intro ha
    cases x with
    | ok a t => cases y with
      | ok b u => injection ha with h1 h2; injection h1 with _ h1; injection h1 with h1 h3; subst h2; rw [← Prod.eta b, ← h1, ← h3]
      | err b u => cases ha
      | panic => cases ha
    | err a t => cases y with
      | ok b u => cases ha
      | err b u => injection ha with h1 h2; rw [h1, h2]
      | panic => cases ha
    | panic => cases y with
      | ok b u => cases ha
      | err b u => cases ha
      | panic => rfl

/-- The outcome of the step, once the instruction is known to do `x`. -/
theorem atWords_ends (hd : Decodes ws isa ops) (h : AtWords s ws s1) {p : Bool} (hp : isa.isPrivileged = p) {x : Exec M Nat}
    (hx : ∀ op, ws.head? = some op → s1.cpu.currentOpcode = op → instructionExecute C isa ⟨op, s.cpu.regs.pc, ops s.cpu.regs.pc⟩ s1 = x s1) : EndsAs C s p (x s1) := by
  obtain ⟨op, hh, hc, hi⟩ := atWords_step (C := C) hd h
  have ht : s1.cpu.regs.sr.t = s.cpu.regs.sr.t := by
    obtain ⟨op, it, hh, hf, rfl⟩ := h.there
    rfl
  unfold finishStep at hi
  rw [hx op hh hc] at hi
  unfold EndsAs
  cases hr : x s1 with
  | ok c s' =>
    rw [hr] at hi
    dsimp only at hi ⊢
    rw [hi, ht, hp, Nat.zero_add]
    unfold traced
    cases p <;> cases s.cpu.regs.sr.t <;> rfl
  | err v s' => rw [hr] at hi; exact hi
  | panic => rw [hr] at hi; exact hi

/-! ### Operands -/

theorem at_toAM (pc : U32) (m : Mode) : placedAt pc m.toAM = (m.at pc).toAM := by cases m <;> rfl
theorem kept_toAM (long : Bool) (pc : U32) (m : Mode) : placedAt pc (held long m.toAM) = (m.kept long pc).toAM := by cases m <;> rfl
theorem registersOk_toAM (m : Mode) : RegistersOk m.toAM := by
  have h : ∀ n : Fin 8, (u8 n).toNat ≤ 7 := by decide
  cases m <;> first | trivial | exact h _
theorem ccNumber_eq (c : Asm.Condition) : BitVec.ofNat 8 c.ctorIdx = cc8 (ccNumber c) := by cases c <;> rfl
theorem toU8_fin (n : Fin 8) : toU8 (BitVec.ofNat 16 n.val) = u8 n := by revert n; decide
theorem quick_field (k : U8) (h : k ≥ 1 ∧ k ≤ 8) : (if k = 8 then 0 else k) = u8 (Fin.ofNat 8 k.toNat) := by
  revert k; decide +kernel
theorem low_heldImm (sz : Size) (v : U32) : low sz (heldImm sz v) = low sz v := by
  cases sz <;> apply BitVec.eq_of_toNat_eq
  · simp only [low, heldImm, BitVec.toNat_ofNat, BitVec.toNat_and, width]
    rw [show BitVec.toNat (255 : U32) = 2 ^ 8 - 1 from rfl, Nat.and_two_pow_sub_one_eq_mod]; omega
  · simp only [low, heldImm, BitVec.toNat_ofNat, BitVec.toNat_and, width]
    rw [show BitVec.toNat (65535 : U32) = 2 ^ 16 - 1 from rfl, Nat.and_two_pow_sub_one_eq_mod]; omega
  · rfl

end M68k.Exec
