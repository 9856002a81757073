import Verif.Lemmas.AccessExec
import Verif.Lemmas.Cost
import Verif.Spec.Cycles
/-
The execution time of every instruction.
-/
set_option linter.unusedSectionVars false
set_option linter.unusedSimpArgs false
namespace M68k
namespace Exec
open Spec
variable {M : Type} [MemoryAccess M] {α β : Type} {s s2 : St M} {op : U16} {C : CpuDetails} {t : Nat}

/-- If the action ends without error, it returns `t`. -/
def Lasts (t : Nat) (x : Exec M Nat) : Prop := ∀ s n s', x s = .ok n s' → n = t

/-- What follows the extension words takes the time of `cycles`. -/
def Timed (C : CpuDetails) (i : Isa) (op : U16) (ws : List U16) (z : Exec M Nat) : Prop := ∀ s n s', z s = .ok n s' → n = cycles C i op s.cpu.regs ws

theorem Lasts.bind {x : Exec M α} {f : α → Exec M Nat} (h : ∀ a, Lasts t (f a)) : Lasts t (x >>= f) := by
  intro s n s' hx
  obtain ⟨a, s2, _, h2⟩ := bind_ok hx
  exact h a s2 n s' h2
theorem Lasts.cost {x : Exec M α} : Lasts t (Spec.cost x t) := by
  intro s n s' hx
  obtain ⟨a, -, rfl⟩ := map_ok3 hx
  rfl
theorem Lasts.cost' {x : Exec M α} {t' : Nat} (h : t' = t) : Lasts t (Spec.cost x t') := h ▸ Lasts.cost
theorem Lasts.pure : Lasts t (pure t : Exec M Nat) := fun _ _ _ h => (by cases h; rfl)
theorem Lasts.trap (v : U8) : Lasts t (Spec.trap v : Exec M Nat) := fun _ _ _ h => (by cases h)
theorem Lasts.costTrap (v : U8) {t' : Nat} : Lasts t (Spec.cost (Spec.trap v : Exec M α) t') := fun _ _ _ h => (by cases h)

theorem Lasts.timed {i : Isa} {ws : List U16} {z : Exec M Nat} (h : Lasts t z) (ht : ∀ r, t = cycles C i op r ws) : Timed C i op ws z :=
  fun s n s' hz => (h s n s' hz).trans (ht _)

/-! ### The times by mode -/

theorem eaTime_fits {mode reg : Nat} {m : Mode} (h : Fits mode reg m) : eaTime C m = eaCycles C mode reg := by
  cases m <;> obtain ⟨rfl, h2⟩ := h <;> first | rfl | (subst h2; rfl)
theorem isDn_fits {mode reg : Nat} {m : Mode} (h : Fits mode reg m) : isDn m = decide (mode = 0) := by
  cases m <;> obtain ⟨rfl, h2⟩ := h <;> rfl
theorem isReg_fits {mode reg : Nat} {m : Mode} (h : Fits mode reg m) : isReg m = decide (mode < 2) := by
  cases m <;> obtain ⟨rfl, h2⟩ := h <;> rfl
theorem isRegOrImm_fits {mode reg : Nat} {m : Mode} (h : Fits mode reg m) : isRegOrImm m = decide (mode < 2 ∨ (mode = 7 ∧ reg = 4)) := by
  cases m <;> obtain ⟨rfl, h2⟩ := h <;> simp [isRegOrImm, h2]
theorem isMem_fits {mode reg : Nat} {m : Mode} (h : Fits mode reg m) : m.isMem = eaInMemory mode reg := by
  cases m <;> obtain ⟨rfl, h2⟩ := h <;> simp [Mode.isMem, eaInMemory, h2]
theorem longRead_fits {sz : Size} {mode reg : Nat} {m : Mode} (h : Fits mode reg m) : longRead sz m = longReadCycles sz mode := by
  cases m <;> obtain ⟨rfl, h2⟩ := h <;> cases sz <;> rfl
theorem longWrite_fits {sz : Size} {mode reg : Nat} {m : Mode} (h : Fits mode reg m) : longWrite sz m = longWriteCycles sz mode reg := by
  unfold longWrite longWriteCycles
  rw [isMem_fits h]
theorem controlTime_fits {a b c d e f g : Nat} {mode reg : Nat} {m : Mode} (h : Fits mode reg m) : controlTime a b c d e f g m = controlCycles a b c d e f g mode reg := by
  cases m <;> obtain ⟨rfl, h2⟩ := h <;> first | rfl | (subst h2; rfl)
theorem movemTime_fits {mode reg : Nat} {m : Mode} (h : Fits mode reg m) : movemModeTime C m = movemCycles C mode reg := by
  cases m <;> obtain ⟨rfl, h2⟩ := h <;> first | rfl | (subst h2; rfl)

/-! ### The instructions -/

/-- Proves that the time of a clause is that of `cycles`. -/
local macro "time" hm:ident hs:term : tactic => `(tactic| (
  intro r
  simp only [cycles, $hs:term, Option.getD_some, byPlace, readTime, writeTime, rmwTime, eaTime_fits $hm, isDn_fits $hm, isReg_fits $hm, isRegOrImm_fits $hm,
    longRead_fits $hm, longWrite_fits $hm, decide_eq_true_eq, Nat.add_assoc, if_true, if_false, Bool.false_eq_true, Nat.add_zero]))


theorem shift_bits {f : {n : Nat} → Nat → BitVec n → StatusRegister → BitVec n × StatusRegister} {sz : Size} {n : Fin 8} {k : Nat}
    (h : Spec.shift f sz (flag op 5) (regField op 9) n s = .ok k s2) : k = shiftBits op s.cpu.regs := by
  obtain ⟨k', s3, h1, h2⟩ := bind_ok h
  obtain ⟨_, s4, h3, h4⟩ := bind_ok h2
  cases h4
  unfold shiftBits
  unfold Spec.shiftCount at h1
  split at h1
  · rename_i h5; cases h1; rw [if_pos h5]
  · rename_i h5
    cases h1
    rw [if_neg h5]
    have e9 : (regField op 9).val = op.toNat / 512 % 8 := by simp [regField, Fin.ofNat]
    unfold quick
    rw [e9]

theorem timed_Add (hl : legalCheck .Add op.toNat = true) :
    SplitW (extensionWords .Add op) (Timed C .Add op) (Spec.exec C .Add op : Exec M Nat) := by
  simp only [legalCheck, Bool.and_eq_true, Bool.or_eq_true, bne_iff_ne, decide_eq_true_eq] at hl
  simp only [Spec.exec, extensionWords]
  unfold Spec.binary
  refine splitW_sized hl.1.1.1 fun sz hs hi => SplitW.last (preW_ea op hl.1.1.2 hi.symm) fun ws m _ hm => ?_
  obtain ⟨hm, -⟩ := hm
  by_cases h8 : flag op 8
  · simp only [h8, if_true]
    exact Lasts.timed Lasts.cost (by time hm hs; simp only [h8, if_true])
  · simp only [h8, if_false, Bool.false_eq_true]
    exact Lasts.timed Lasts.cost (by time hm hs; simp only [h8, if_false, Bool.false_eq_true])

theorem timed_Sub (hl : legalCheck .Sub op.toNat = true) :
    SplitW (extensionWords .Sub op) (Timed C .Sub op) (Spec.exec C .Sub op : Exec M Nat) := by
  simp only [legalCheck, Bool.and_eq_true, Bool.or_eq_true, bne_iff_ne, decide_eq_true_eq] at hl
  simp only [Spec.exec, extensionWords]
  unfold Spec.binary
  refine splitW_sized hl.1.1.1 fun sz hs hi => SplitW.last (preW_ea op hl.1.1.2 hi.symm) fun ws m _ hm => ?_
  obtain ⟨hm, -⟩ := hm
  by_cases h8 : flag op 8
  · simp only [h8, if_true]
    exact Lasts.timed Lasts.cost (by time hm hs; simp only [h8, if_true])
  · simp only [h8, if_false, Bool.false_eq_true]
    exact Lasts.timed Lasts.cost (by time hm hs; simp only [h8, if_false, Bool.false_eq_true])

theorem timed_And (hl : legalCheck .And op.toNat = true) :
    SplitW (extensionWords .And op) (Timed C .And op) (Spec.exec C .And op : Exec M Nat) := by
  simp only [legalCheck, Bool.and_eq_true, Bool.or_eq_true, bne_iff_ne, decide_eq_true_eq] at hl
  simp only [Spec.exec, extensionWords]
  unfold Spec.binary
  refine splitW_sized hl.1.1.1 fun sz hs hi => SplitW.last (preW_ea op hl.1.1.2 hi.symm) fun ws m _ hm => ?_
  obtain ⟨hm, -⟩ := hm
  by_cases h8 : flag op 8
  · simp only [h8, if_true]
    exact Lasts.timed Lasts.cost (by time hm hs; simp only [h8, if_true])
  · simp only [h8, if_false, Bool.false_eq_true]
    exact Lasts.timed Lasts.cost (by time hm hs; simp only [h8, if_false, Bool.false_eq_true])

theorem timed_Or (hl : legalCheck .Or op.toNat = true) :
    SplitW (extensionWords .Or op) (Timed C .Or op) (Spec.exec C .Or op : Exec M Nat) := by
  simp only [legalCheck, Bool.and_eq_true, Bool.or_eq_true, bne_iff_ne, decide_eq_true_eq] at hl
  simp only [Spec.exec, extensionWords]
  unfold Spec.binary
  refine splitW_sized hl.1.1.1 fun sz hs hi => SplitW.last (preW_ea op hl.1.1.2 hi.symm) fun ws m _ hm => ?_
  obtain ⟨hm, -⟩ := hm
  by_cases h8 : flag op 8
  · simp only [h8, if_true]
    exact Lasts.timed Lasts.cost (by time hm hs; simp only [h8, if_true])
  · simp only [h8, if_false, Bool.false_eq_true]
    exact Lasts.timed Lasts.cost (by time hm hs; simp only [h8, if_false, Bool.false_eq_true])

theorem timed_Addi (hl : legalCheck .Addi op.toNat = true) :
    SplitW (extensionWords .Addi op) (Timed C .Addi op) (Spec.exec C .Addi op : Exec M Nat) := by
  simp only [legalCheck, Bool.and_eq_true, Bool.or_eq_true, bne_iff_ne, decide_eq_true_eq] at hl
  simp only [Spec.exec, extensionWords]
  unfold Spec.immediate
  refine splitW_sized hl.1.1 fun sz hs hi => ?_
  rw [hi]
  refine SplitW.bind (PreW.of (Pre.fetchImm sz)) fun ws v _ _ => SplitW.last (preW_ea op (by omega) rfl) fun ws m _ hm => ?_
  obtain ⟨hm, -⟩ := hm
  exact Lasts.timed Lasts.cost (by time hm hs)

theorem timed_Subi (hl : legalCheck .Subi op.toNat = true) :
    SplitW (extensionWords .Subi op) (Timed C .Subi op) (Spec.exec C .Subi op : Exec M Nat) := by
  simp only [legalCheck, Bool.and_eq_true, Bool.or_eq_true, bne_iff_ne, decide_eq_true_eq] at hl
  simp only [Spec.exec, extensionWords]
  unfold Spec.immediate
  refine splitW_sized hl.1.1 fun sz hs hi => ?_
  rw [hi]
  refine SplitW.bind (PreW.of (Pre.fetchImm sz)) fun ws v _ _ => SplitW.last (preW_ea op (by omega) rfl) fun ws m _ hm => ?_
  obtain ⟨hm, -⟩ := hm
  exact Lasts.timed Lasts.cost (by time hm hs)

theorem timed_Andi (hl : legalCheck .Andi op.toNat = true) :
    SplitW (extensionWords .Andi op) (Timed C .Andi op) (Spec.exec C .Andi op : Exec M Nat) := by
  simp only [legalCheck, Bool.and_eq_true, Bool.or_eq_true, bne_iff_ne, decide_eq_true_eq] at hl
  simp only [Spec.exec, extensionWords]
  unfold Spec.immediate
  refine splitW_sized hl.1.1 fun sz hs hi => ?_
  rw [hi]
  refine SplitW.bind (PreW.of (Pre.fetchImm sz)) fun ws v _ _ => SplitW.last (preW_ea op (by omega) rfl) fun ws m _ hm => ?_
  obtain ⟨hm, -⟩ := hm
  exact Lasts.timed Lasts.cost (by time hm hs)

theorem timed_Ori (hl : legalCheck .Ori op.toNat = true) :
    SplitW (extensionWords .Ori op) (Timed C .Ori op) (Spec.exec C .Ori op : Exec M Nat) := by
  simp only [legalCheck, Bool.and_eq_true, Bool.or_eq_true, bne_iff_ne, decide_eq_true_eq] at hl
  simp only [Spec.exec, extensionWords]
  unfold Spec.immediate
  refine splitW_sized hl.1.1 fun sz hs hi => ?_
  rw [hi]
  refine SplitW.bind (PreW.of (Pre.fetchImm sz)) fun ws v _ _ => SplitW.last (preW_ea op (by omega) rfl) fun ws m _ hm => ?_
  obtain ⟨hm, -⟩ := hm
  exact Lasts.timed Lasts.cost (by time hm hs)

theorem timed_Eori (hl : legalCheck .Eori op.toNat = true) :
    SplitW (extensionWords .Eori op) (Timed C .Eori op) (Spec.exec C .Eori op : Exec M Nat) := by
  simp only [legalCheck, Bool.and_eq_true, Bool.or_eq_true, bne_iff_ne, decide_eq_true_eq] at hl
  simp only [Spec.exec, extensionWords]
  unfold Spec.immediate
  refine splitW_sized hl.1.1 fun sz hs hi => ?_
  rw [hi]
  refine SplitW.bind (PreW.of (Pre.fetchImm sz)) fun ws v _ _ => SplitW.last (preW_ea op (by omega) rfl) fun ws m _ hm => ?_
  obtain ⟨hm, -⟩ := hm
  exact Lasts.timed Lasts.cost (by time hm hs)

theorem timed_Cmpi (hl : legalCheck .Cmpi op.toNat = true) :
    SplitW (extensionWords .Cmpi op) (Timed C .Cmpi op) (Spec.exec C .Cmpi op : Exec M Nat) := by
  simp only [legalCheck, Bool.and_eq_true, Bool.or_eq_true, bne_iff_ne, decide_eq_true_eq] at hl
  simp only [Spec.exec, extensionWords]
  refine splitW_sized hl.1.1 fun sz hs hi => ?_
  rw [hi]
  refine SplitW.bind (PreW.of (Pre.fetchImm sz)) fun ws v _ _ => SplitW.last (preW_ea op (by omega) rfl) fun ws m _ hm => ?_
  obtain ⟨hm, -⟩ := hm
  exact Lasts.timed (Lasts.bind fun _ => Lasts.cost) (by time hm hs)

theorem timed_Neg (hl : legalCheck .Neg op.toNat = true) :
    SplitW (extensionWords .Neg op) (Timed C .Neg op) (Spec.exec C .Neg op : Exec M Nat) := by
  simp only [legalCheck, Bool.and_eq_true, Bool.or_eq_true, bne_iff_ne, decide_eq_true_eq] at hl
  simp only [Spec.exec, extensionWords]
  unfold Spec.unary
  refine splitW_sized hl.1.1 fun sz hs hi => SplitW.last (preW_ea op (by omega) hi.symm) fun ws m _ hm => ?_
  obtain ⟨hm, -⟩ := hm
  exact Lasts.timed Lasts.cost (by time hm hs)

theorem timed_Negx (hl : legalCheck .Negx op.toNat = true) :
    SplitW (extensionWords .Negx op) (Timed C .Negx op) (Spec.exec C .Negx op : Exec M Nat) := by
  simp only [legalCheck, Bool.and_eq_true, Bool.or_eq_true, bne_iff_ne, decide_eq_true_eq] at hl
  simp only [Spec.exec, extensionWords]
  unfold Spec.unary
  refine splitW_sized hl.1.1 fun sz hs hi => SplitW.last (preW_ea op (by omega) hi.symm) fun ws m _ hm => ?_
  obtain ⟨hm, -⟩ := hm
  exact Lasts.timed Lasts.cost (by time hm hs)

theorem timed_Not (hl : legalCheck .Not op.toNat = true) :
    SplitW (extensionWords .Not op) (Timed C .Not op) (Spec.exec C .Not op : Exec M Nat) := by
  simp only [legalCheck, Bool.and_eq_true, Bool.or_eq_true, bne_iff_ne, decide_eq_true_eq] at hl
  simp only [Spec.exec, extensionWords]
  unfold Spec.unary
  refine splitW_sized hl.1.1 fun sz hs hi => SplitW.last (preW_ea op (by omega) hi.symm) fun ws m _ hm => ?_
  obtain ⟨hm, -⟩ := hm
  exact Lasts.timed Lasts.cost (by time hm hs)

theorem timed_Eor (hl : legalCheck .Eor op.toNat = true) :
    SplitW (extensionWords .Eor op) (Timed C .Eor op) (Spec.exec C .Eor op : Exec M Nat) := by
  simp only [legalCheck, Bool.and_eq_true, Bool.or_eq_true, bne_iff_ne, decide_eq_true_eq] at hl
  simp only [Spec.exec, extensionWords]
  refine splitW_sized hl.1.1 fun sz hs hi => SplitW.last (preW_ea op (by omega) hi.symm) fun ws m _ hm => ?_
  obtain ⟨hm, -⟩ := hm
  exact Lasts.timed Lasts.cost (by time hm hs)

theorem timed_Addq (hl : legalCheck .Addq op.toNat = true) :
    SplitW (extensionWords .Addq op) (Timed C .Addq op) (Spec.exec C .Addq op : Exec M Nat) := by
  simp only [legalCheck, Bool.and_eq_true, Bool.or_eq_true, bne_iff_ne, decide_eq_true_eq] at hl
  simp only [Spec.exec, extensionWords]
  refine splitW_sized hl.1 fun sz hs hi => SplitW.last (preW_ea op (by omega) hi.symm) fun ws m _ hm => ?_
  obtain ⟨hm, -⟩ := hm
  exact Lasts.timed Lasts.cost (by time hm hs; cases sz <;> simp only [bySize] <;> split <;> simp)

theorem timed_Subq (hl : legalCheck .Subq op.toNat = true) :
    SplitW (extensionWords .Subq op) (Timed C .Subq op) (Spec.exec C .Subq op : Exec M Nat) := by
  simp only [legalCheck, Bool.and_eq_true, Bool.or_eq_true, bne_iff_ne, decide_eq_true_eq] at hl
  simp only [Spec.exec, extensionWords]
  refine splitW_sized hl.1 fun sz hs hi => SplitW.last (preW_ea op (by omega) hi.symm) fun ws m _ hm => ?_
  obtain ⟨hm, -⟩ := hm
  exact Lasts.timed Lasts.cost (by time hm hs; cases sz <;> simp only [bySize] <;> split <;> simp)

theorem timed_Tst (hl : legalCheck .Tst op.toNat = true) :
    SplitW (extensionWords .Tst op) (Timed C .Tst op) (Spec.exec C .Tst op : Exec M Nat) := by
  simp only [legalCheck, Bool.and_eq_true, Bool.or_eq_true, bne_iff_ne, decide_eq_true_eq] at hl
  simp only [Spec.exec, extensionWords]
  refine splitW_sized hl.1.1 fun sz hs hi => SplitW.last (preW_ea op (by omega) hi.symm) fun ws m _ hm => ?_
  obtain ⟨hm, -⟩ := hm
  exact Lasts.timed (Lasts.bind fun _ => Lasts.cost) (by time hm hs)

theorem timed_Clr (hl : legalCheck .Clr op.toNat = true) :
    SplitW (extensionWords .Clr op) (Timed C .Clr op) (Spec.exec C .Clr op : Exec M Nat) := by
  simp only [legalCheck, Bool.and_eq_true, Bool.or_eq_true, bne_iff_ne, decide_eq_true_eq] at hl
  simp only [Spec.exec, extensionWords]
  refine splitW_sized hl.1.1 fun sz hs hi => SplitW.last (preW_ea op (by omega) hi.symm) fun ws m _ hm => ?_
  obtain ⟨hm, -⟩ := hm
  exact Lasts.timed (Lasts.bind fun _ => Lasts.cost) (by time hm hs)

theorem timed_Cmp (hl : legalCheck .Cmp op.toNat = true) :
    SplitW (extensionWords .Cmp op) (Timed C .Cmp op) (Spec.exec C .Cmp op : Exec M Nat) := by
  simp only [legalCheck, Bool.and_eq_true, Bool.or_eq_true, bne_iff_ne, decide_eq_true_eq] at hl
  simp only [Spec.exec, extensionWords]
  refine splitW_sized hl.1.1 fun sz hs hi => SplitW.last (preW_ea op (by omega) hi.symm) fun ws m _ hm => ?_
  obtain ⟨hm, -⟩ := hm
  exact Lasts.timed (Lasts.bind fun _ => Lasts.bind fun _ => Lasts.cost) (by time hm hs)

theorem timed_Adda (hl : legalCheck .Adda op.toNat = true) :
    SplitW (extensionWords .Adda op) (Timed C .Adda op) (Spec.exec C .Adda op : Exec M Nat) := by
  simp only [legalCheck, Bool.and_eq_true, Bool.or_eq_true, bne_iff_ne, decide_eq_true_eq] at hl
  simp only [Spec.exec, extensionWords]
  refine SplitW.last (preW_ea op (by omega) (by unfold sizeBit; split <;> rfl)) fun ws m _ hm => ?_
  obtain ⟨hm, -⟩ := hm
  exact Lasts.timed (Lasts.bind fun _ => Lasts.cost) (by time hm True)

theorem timed_Suba (hl : legalCheck .Suba op.toNat = true) :
    SplitW (extensionWords .Suba op) (Timed C .Suba op) (Spec.exec C .Suba op : Exec M Nat) := by
  simp only [legalCheck, Bool.and_eq_true, Bool.or_eq_true, bne_iff_ne, decide_eq_true_eq] at hl
  simp only [Spec.exec, extensionWords]
  refine SplitW.last (preW_ea op (by omega) (by unfold sizeBit; split <;> rfl)) fun ws m _ hm => ?_
  obtain ⟨hm, -⟩ := hm
  exact Lasts.timed (Lasts.bind fun _ => Lasts.cost) (by time hm True)

theorem timed_Cmpa (hl : legalCheck .Cmpa op.toNat = true) :
    SplitW (extensionWords .Cmpa op) (Timed C .Cmpa op) (Spec.exec C .Cmpa op : Exec M Nat) := by
  simp only [legalCheck, Bool.and_eq_true, Bool.or_eq_true, bne_iff_ne, decide_eq_true_eq] at hl
  simp only [Spec.exec, extensionWords]
  refine SplitW.last (preW_ea op (by omega) (by unfold sizeBit; split <;> rfl)) fun ws m _ hm => ?_
  obtain ⟨hm, -⟩ := hm
  exact Lasts.timed (Lasts.bind fun _ => Lasts.bind fun _ => Lasts.cost) (by time hm True)

theorem timed_Nbcd (hl : legalCheck .Nbcd op.toNat = true) :
    SplitW (extensionWords .Nbcd op) (Timed C .Nbcd op) (Spec.exec C .Nbcd op : Exec M Nat) := by
  simp only [legalCheck, Bool.and_eq_true, Bool.or_eq_true, bne_iff_ne, decide_eq_true_eq] at hl
  simp only [Spec.exec, extensionWords]
  refine SplitW.last (preW_ea op (by omega) rfl) fun ws m _ hm => ?_
  obtain ⟨hm, -⟩ := hm
  exact Lasts.timed Lasts.cost (by time hm True)

theorem timed_Tas (hl : legalCheck .Tas op.toNat = true) :
    SplitW (extensionWords .Tas op) (Timed C .Tas op) (Spec.exec C .Tas op : Exec M Nat) := by
  simp only [legalCheck, Bool.and_eq_true, Bool.or_eq_true, bne_iff_ne, decide_eq_true_eq] at hl
  simp only [Spec.exec, extensionWords]
  refine SplitW.last (preW_ea op (by omega) rfl) fun ws m _ hm => ?_
  obtain ⟨hm, -⟩ := hm
  exact Lasts.timed Lasts.cost (by time hm True)

theorem timed_Chk (hl : legalCheck .Chk op.toNat = true) :
    SplitW (extensionWords .Chk op) (Timed C .Chk op) (Spec.exec C .Chk op : Exec M Nat) := by
  simp only [legalCheck, Bool.and_eq_true, Bool.or_eq_true, bne_iff_ne, decide_eq_true_eq] at hl
  simp only [Spec.exec, extensionWords]
  refine SplitW.last (preW_ea op (by omega) rfl) fun ws m _ hm => ?_
  obtain ⟨hm, -⟩ := hm
  exact Lasts.timed Lasts.cost (by time hm True)

theorem timed_Mulu (hl : legalCheck .Mulu op.toNat = true) :
    SplitW (extensionWords .Mulu op) (Timed C .Mulu op) (Spec.exec C .Mulu op : Exec M Nat) := by
  simp only [legalCheck, Bool.and_eq_true, Bool.or_eq_true, bne_iff_ne, decide_eq_true_eq] at hl
  simp only [Spec.exec, extensionWords]
  unfold Spec.wordToDn
  refine SplitW.last (preW_ea op (by omega) rfl) fun ws m _ hm => ?_
  obtain ⟨hm, -⟩ := hm
  exact Lasts.timed Lasts.cost (by time hm True)

theorem timed_Muls (hl : legalCheck .Muls op.toNat = true) :
    SplitW (extensionWords .Muls op) (Timed C .Muls op) (Spec.exec C .Muls op : Exec M Nat) := by
  simp only [legalCheck, Bool.and_eq_true, Bool.or_eq_true, bne_iff_ne, decide_eq_true_eq] at hl
  simp only [Spec.exec, extensionWords]
  unfold Spec.wordToDn
  refine SplitW.last (preW_ea op (by omega) rfl) fun ws m _ hm => ?_
  obtain ⟨hm, -⟩ := hm
  exact Lasts.timed Lasts.cost (by time hm True)

theorem timed_Divu (hl : legalCheck .Divu op.toNat = true) :
    SplitW (extensionWords .Divu op) (Timed C .Divu op) (Spec.exec C .Divu op : Exec M Nat) := by
  simp only [legalCheck, Bool.and_eq_true, Bool.or_eq_true, bne_iff_ne, decide_eq_true_eq] at hl
  simp only [Spec.exec, extensionWords]
  unfold Spec.wordToDn
  refine SplitW.last (preW_ea op (by omega) rfl) fun ws m _ hm => ?_
  obtain ⟨hm, -⟩ := hm
  exact Lasts.timed Lasts.cost (by time hm True)

theorem timed_Divs (hl : legalCheck .Divs op.toNat = true) :
    SplitW (extensionWords .Divs op) (Timed C .Divs op) (Spec.exec C .Divs op : Exec M Nat) := by
  simp only [legalCheck, Bool.and_eq_true, Bool.or_eq_true, bne_iff_ne, decide_eq_true_eq] at hl
  simp only [Spec.exec, extensionWords]
  unfold Spec.wordToDn
  refine SplitW.last (preW_ea op (by omega) rfl) fun ws m _ hm => ?_
  obtain ⟨hm, -⟩ := hm
  exact Lasts.timed Lasts.cost (by time hm True)

theorem timed_Asm (hl : legalCheck .Asm op.toNat = true) :
    SplitW (extensionWords .Asm op) (Timed C .Asm op) (Spec.exec C .Asm op : Exec M Nat) := by
  simp only [legalCheck, Bool.and_eq_true, Bool.or_eq_true, bne_iff_ne, decide_eq_true_eq] at hl
  simp only [Spec.exec, extensionWords]
  unfold Spec.shiftMem
  refine SplitW.last (preW_ea op (by omega) rfl) fun ws m _ hm => ?_
  obtain ⟨hm, -⟩ := hm
  exact Lasts.timed Lasts.cost (by time hm True)

theorem timed_Lsm (hl : legalCheck .Lsm op.toNat = true) :
    SplitW (extensionWords .Lsm op) (Timed C .Lsm op) (Spec.exec C .Lsm op : Exec M Nat) := by
  simp only [legalCheck, Bool.and_eq_true, Bool.or_eq_true, bne_iff_ne, decide_eq_true_eq] at hl
  simp only [Spec.exec, extensionWords]
  unfold Spec.shiftMem
  refine SplitW.last (preW_ea op (by omega) rfl) fun ws m _ hm => ?_
  obtain ⟨hm, -⟩ := hm
  exact Lasts.timed Lasts.cost (by time hm True)

theorem timed_Rom (hl : legalCheck .Rom op.toNat = true) :
    SplitW (extensionWords .Rom op) (Timed C .Rom op) (Spec.exec C .Rom op : Exec M Nat) := by
  simp only [legalCheck, Bool.and_eq_true, Bool.or_eq_true, bne_iff_ne, decide_eq_true_eq] at hl
  simp only [Spec.exec, extensionWords]
  unfold Spec.shiftMem
  refine SplitW.last (preW_ea op (by omega) rfl) fun ws m _ hm => ?_
  obtain ⟨hm, -⟩ := hm
  exact Lasts.timed Lasts.cost (by time hm True)

theorem timed_Roxm (hl : legalCheck .Roxm op.toNat = true) :
    SplitW (extensionWords .Roxm op) (Timed C .Roxm op) (Spec.exec C .Roxm op : Exec M Nat) := by
  simp only [legalCheck, Bool.and_eq_true, Bool.or_eq_true, bne_iff_ne, decide_eq_true_eq] at hl
  simp only [Spec.exec, extensionWords]
  unfold Spec.shiftMem
  refine SplitW.last (preW_ea op (by omega) rfl) fun ws m _ hm => ?_
  obtain ⟨hm, -⟩ := hm
  exact Lasts.timed Lasts.cost (by time hm True)

theorem timed_Moveccr (hl : legalCheck .Moveccr op.toNat = true) :
    SplitW (extensionWords .Moveccr op) (Timed C .Moveccr op) (Spec.exec C .Moveccr op : Exec M Nat) := by
  simp only [legalCheck, Bool.and_eq_true, Bool.or_eq_true, bne_iff_ne, decide_eq_true_eq] at hl
  simp only [Spec.exec, extensionWords]
  refine SplitW.last (preW_ea op (by omega) rfl) fun ws m _ hm => ?_
  obtain ⟨hm, -⟩ := hm
  exact Lasts.timed (Lasts.bind fun _ => Lasts.cost) (by time hm True)

theorem timed_Movefsr (hl : legalCheck .Movefsr op.toNat = true) :
    SplitW (extensionWords .Movefsr op) (Timed C .Movefsr op) (Spec.exec C .Movefsr op : Exec M Nat) := by
  simp only [legalCheck, Bool.and_eq_true, Bool.or_eq_true, bne_iff_ne, decide_eq_true_eq] at hl
  simp only [Spec.exec, extensionWords]
  refine SplitW.last (preW_ea op (by omega) rfl) fun ws m _ hm => ?_
  obtain ⟨hm, -⟩ := hm
  exact Lasts.timed (Lasts.bind fun _ => Lasts.cost) (by time hm True)

theorem timed_Movesr (hl : legalCheck .Movesr op.toNat = true) :
    SplitW (extensionWords .Movesr op) (Timed C .Movesr op) (Spec.exec C .Movesr op : Exec M Nat) := by
  simp only [legalCheck, Bool.and_eq_true, Bool.or_eq_true, bne_iff_ne, decide_eq_true_eq] at hl
  simp only [Spec.exec, extensionWords]
  refine SplitW.last (preW_ea op (by omega) rfl) fun ws m _ hm => ?_
  obtain ⟨hm, -⟩ := hm
  exact Lasts.timed (Lasts.bind fun _ => Lasts.bind fun _ => Lasts.cost) (by time hm True)

theorem timed_Btst (hl : legalCheck .Btst op.toNat = true) :
    SplitW (extensionWords .Btst op) (Timed C .Btst op) (Spec.exec C .Btst op : Exec M Nat) := by
  simp only [legalCheck, Bool.and_eq_true, Bool.or_eq_true, bne_iff_ne, decide_eq_true_eq] at hl
  simp only [Spec.exec, extensionWords]
  unfold Spec.bitInstr
  by_cases h8 : flag op 8
  · simp only [h8, if_true, Nat.zero_add]
    refine SplitW.last (preW_ea op (by omega) rfl) fun ws m _ hm => ?_
    obtain ⟨hm, -⟩ := hm
    exact Lasts.timed (Lasts.bind fun _ => Lasts.cost) (by time hm h8)
  · simp only [h8, if_false, Bool.false_eq_true]
    refine SplitW.bind (PreW.of Pre.fetch) fun ws v _ _ => SplitW.last (preW_ea op (by omega) rfl) fun ws m _ hm => ?_
    obtain ⟨hm, -⟩ := hm
    exact Lasts.timed Lasts.cost (by time hm h8)

theorem timed_Bchg (hl : legalCheck .Bchg op.toNat = true) :
    SplitW (extensionWords .Bchg op) (Timed C .Bchg op) (Spec.exec C .Bchg op : Exec M Nat) := by
  simp only [legalCheck, Bool.and_eq_true, Bool.or_eq_true, bne_iff_ne, decide_eq_true_eq] at hl
  simp only [Spec.exec, extensionWords]
  unfold Spec.bitInstr
  by_cases h8 : flag op 8
  · simp only [h8, if_true, Nat.zero_add]
    refine SplitW.last (preW_ea op (by omega) rfl) fun ws m _ hm => ?_
    obtain ⟨hm, -⟩ := hm
    exact Lasts.timed (Lasts.bind fun _ => Lasts.cost) (by time hm h8)
  · simp only [h8, if_false, Bool.false_eq_true]
    refine SplitW.bind (PreW.of Pre.fetch) fun ws v _ _ => SplitW.last (preW_ea op (by omega) rfl) fun ws m _ hm => ?_
    obtain ⟨hm, -⟩ := hm
    exact Lasts.timed Lasts.cost (by time hm h8)

theorem timed_Bclr (hl : legalCheck .Bclr op.toNat = true) :
    SplitW (extensionWords .Bclr op) (Timed C .Bclr op) (Spec.exec C .Bclr op : Exec M Nat) := by
  simp only [legalCheck, Bool.and_eq_true, Bool.or_eq_true, bne_iff_ne, decide_eq_true_eq] at hl
  simp only [Spec.exec, extensionWords]
  unfold Spec.bitInstr
  by_cases h8 : flag op 8
  · simp only [h8, if_true, Nat.zero_add]
    refine SplitW.last (preW_ea op (by omega) rfl) fun ws m _ hm => ?_
    obtain ⟨hm, -⟩ := hm
    exact Lasts.timed (Lasts.bind fun _ => Lasts.cost) (by time hm h8)
  · simp only [h8, if_false, Bool.false_eq_true]
    refine SplitW.bind (PreW.of Pre.fetch) fun ws v _ _ => SplitW.last (preW_ea op (by omega) rfl) fun ws m _ hm => ?_
    obtain ⟨hm, -⟩ := hm
    exact Lasts.timed Lasts.cost (by time hm h8)

theorem timed_Bset (hl : legalCheck .Bset op.toNat = true) :
    SplitW (extensionWords .Bset op) (Timed C .Bset op) (Spec.exec C .Bset op : Exec M Nat) := by
  simp only [legalCheck, Bool.and_eq_true, Bool.or_eq_true, bne_iff_ne, decide_eq_true_eq] at hl
  simp only [Spec.exec, extensionWords]
  unfold Spec.bitInstr
  by_cases h8 : flag op 8
  · simp only [h8, if_true, Nat.zero_add]
    refine SplitW.last (preW_ea op (by omega) rfl) fun ws m _ hm => ?_
    obtain ⟨hm, -⟩ := hm
    exact Lasts.timed (Lasts.bind fun _ => Lasts.cost) (by time hm h8)
  · simp only [h8, if_false, Bool.false_eq_true]
    refine SplitW.bind (PreW.of Pre.fetch) fun ws v _ _ => SplitW.last (preW_ea op (by omega) rfl) fun ws m _ hm => ?_
    obtain ⟨hm, -⟩ := hm
    exact Lasts.timed Lasts.cost (by time hm h8)

theorem timed_Addx (hl : legalCheck .Addx op.toNat = true) :
    SplitW (extensionWords .Addx op) (Timed C .Addx op) (Spec.exec C .Addx op : Exec M Nat) := by
  simp only [legalCheck, Bool.and_eq_true, Bool.or_eq_true, bne_iff_ne, decide_eq_true_eq] at hl
  simp only [Spec.exec, extensionWords]
  exact splitW_sized hl fun sz hs _ => SplitW.here (Lasts.timed Lasts.cost fun r => by simp only [cycles, hs, Option.getD_some])

theorem timed_Subx (hl : legalCheck .Subx op.toNat = true) :
    SplitW (extensionWords .Subx op) (Timed C .Subx op) (Spec.exec C .Subx op : Exec M Nat) := by
  simp only [legalCheck, Bool.and_eq_true, Bool.or_eq_true, bne_iff_ne, decide_eq_true_eq] at hl
  simp only [Spec.exec, extensionWords]
  exact splitW_sized hl fun sz hs _ => SplitW.here (Lasts.timed Lasts.cost fun r => by simp only [cycles, hs, Option.getD_some])

theorem timed_Abcd (hl : legalCheck .Abcd op.toNat = true) :
    SplitW (extensionWords .Abcd op) (Timed C .Abcd op) (Spec.exec C .Abcd op : Exec M Nat) := by
  simp only [legalCheck, Bool.and_eq_true, Bool.or_eq_true, bne_iff_ne, decide_eq_true_eq] at hl
  simp only [Spec.exec, extensionWords]
  exact splitW_sized hl fun sz hs _ => SplitW.here (Lasts.timed Lasts.cost fun r => by simp only [cycles])

theorem timed_Sbcd (hl : legalCheck .Sbcd op.toNat = true) :
    SplitW (extensionWords .Sbcd op) (Timed C .Sbcd op) (Spec.exec C .Sbcd op : Exec M Nat) := by
  simp only [legalCheck, Bool.and_eq_true, Bool.or_eq_true, bne_iff_ne, decide_eq_true_eq] at hl
  simp only [Spec.exec, extensionWords]
  exact splitW_sized hl fun sz hs _ => SplitW.here (Lasts.timed Lasts.cost fun r => by simp only [cycles])

theorem timed_Cmpm (hl : legalCheck .Cmpm op.toNat = true) :
    SplitW (extensionWords .Cmpm op) (Timed C .Cmpm op) (Spec.exec C .Cmpm op : Exec M Nat) := by
  simp only [legalCheck, Bool.and_eq_true, Bool.or_eq_true, bne_iff_ne, decide_eq_true_eq] at hl
  simp only [Spec.exec, extensionWords]
  exact splitW_sized hl fun sz hs _ => SplitW.here (Lasts.timed Lasts.cost fun r => by simp only [cycles, hs, Option.getD_some])

theorem timed_Asr (hl : legalCheck .Asr op.toNat = true) :
    SplitW (extensionWords .Asr op) (Timed C .Asr op) (Spec.exec C .Asr op : Exec M Nat) := by
  simp only [legalCheck, Bool.and_eq_true, Bool.or_eq_true, bne_iff_ne, decide_eq_true_eq] at hl
  simp only [Spec.exec, extensionWords]
  unfold Spec.shiftInstr
  refine splitW_sized hl fun sz hs _ => SplitW.here fun s n s' h => ?_
  obtain ⟨k, h1, rfl⟩ := map_ok3 h
  have hk : k = shiftBits op s.cpu.regs := by split at h1 <;> exact shift_bits h1
  simp only [cycles, hs, Option.getD_some, hk]

theorem timed_Lsr (hl : legalCheck .Lsr op.toNat = true) :
    SplitW (extensionWords .Lsr op) (Timed C .Lsr op) (Spec.exec C .Lsr op : Exec M Nat) := by
  simp only [legalCheck, Bool.and_eq_true, Bool.or_eq_true, bne_iff_ne, decide_eq_true_eq] at hl
  simp only [Spec.exec, extensionWords]
  unfold Spec.shiftInstr
  refine splitW_sized hl fun sz hs _ => SplitW.here fun s n s' h => ?_
  obtain ⟨k, h1, rfl⟩ := map_ok3 h
  have hk : k = shiftBits op s.cpu.regs := by split at h1 <;> exact shift_bits h1
  simp only [cycles, hs, Option.getD_some, hk]

theorem timed_Ror (hl : legalCheck .Ror op.toNat = true) :
    SplitW (extensionWords .Ror op) (Timed C .Ror op) (Spec.exec C .Ror op : Exec M Nat) := by
  simp only [legalCheck, Bool.and_eq_true, Bool.or_eq_true, bne_iff_ne, decide_eq_true_eq] at hl
  simp only [Spec.exec, extensionWords]
  unfold Spec.shiftInstr
  refine splitW_sized hl fun sz hs _ => SplitW.here fun s n s' h => ?_
  obtain ⟨k, h1, rfl⟩ := map_ok3 h
  have hk : k = shiftBits op s.cpu.regs := by split at h1 <;> exact shift_bits h1
  simp only [cycles, hs, Option.getD_some, hk]

theorem timed_Roxr (hl : legalCheck .Roxr op.toNat = true) :
    SplitW (extensionWords .Roxr op) (Timed C .Roxr op) (Spec.exec C .Roxr op : Exec M Nat) := by
  simp only [legalCheck, Bool.and_eq_true, Bool.or_eq_true, bne_iff_ne, decide_eq_true_eq] at hl
  simp only [Spec.exec, extensionWords]
  unfold Spec.shiftInstr
  refine splitW_sized hl fun sz hs _ => SplitW.here fun s n s' h => ?_
  obtain ⟨k, h1, rfl⟩ := map_ok3 h
  have hk : k = shiftBits op s.cpu.regs := by split at h1 <;> exact shift_bits h1
  simp only [cycles, hs, Option.getD_some, hk]

theorem timed_Scc (hl : legalCheck .Scc op.toNat = true) :
    SplitW (extensionWords .Scc op) (Timed C .Scc op) (Spec.exec C .Scc op : Exec M Nat) := by
  simp only [legalCheck, Bool.and_eq_true, Bool.or_eq_true, bne_iff_ne, decide_eq_true_eq] at hl
  simp only [Spec.exec, extensionWords]
  refine SplitW.last (preW_ea op (by omega) rfl) fun ws m _ hm => ?_
  obtain ⟨hm, -⟩ := hm
  intro s n s' h
  obtain ⟨b, h1, rfl⟩ := map_ok3 h
  have hb : b = holds (ccField op) s.cpu.regs.sr := by
    obtain ⟨b', s3, h2, h3⟩ := bind_ok h1
    cases h2
    obtain ⟨_, s4, h4, h5⟩ := bind_ok h3
    cases h5
    rfl
  simp only [cycles, eaTime_fits hm, byPlace, isDn_fits hm, decide_eq_true_eq, hb]

theorem timed_Move (hl : legalCheck .Move op.toNat = true) :
    SplitW (extensionWords .Move op) (Timed C .Move op) (Spec.exec C .Move op : Exec M Nat) := by
  simp only [legalCheck, Bool.and_eq_true, Bool.or_eq_true, bne_iff_ne, decide_eq_true_eq] at hl
  simp only [Spec.exec, extensionWords]
  obtain ⟨⟨⟨⟨h1, h2⟩, h3⟩, h4⟩, h5⟩ := hl
  refine splitW_moveSized h1 fun sz hsz hi => SplitW.bind (preW_ea op h2 hi.symm) fun ws src hlen hs => ?_
  have e6 : (regField op 6).val = op.toNat / 64 % 8 := by simp [regField, Fin.ofNat]
  have e9 : (regField op 9).val = op.toNat / 512 % 8 := by simp [regField, Fin.ofNat]
  have hpre := PreW.fetchMode (M := M) (some sz) (moveImm op) (regField op 6) (regField op 9) (by rw [e6, e9]; omega)
  rw [e6, e9] at hpre
  refine SplitW.last hpre fun ws' dst _ hd => ?_
  obtain ⟨hs, -⟩ := hs
  obtain ⟨hd, -⟩ := hd
  refine Lasts.timed Lasts.cost fun r => ?_
  simp only [cycles, hsz, Option.getD_some, readTime, writeTime, eaTime_fits hs, eaTime_fits hd, longRead_fits hs, longWrite_fits hd]
  cases dst <;> (obtain ⟨h6, -⟩ := hd; simp only [h6]) <;> first | rw [if_neg (by decide)]; omega | rw [if_pos trivial]; omega

theorem timed_Movea (hl : legalCheck .Movea op.toNat = true) :
    SplitW (extensionWords .Movea op) (Timed C .Movea op) (Spec.exec C .Movea op : Exec M Nat) := by
  simp only [legalCheck, Bool.and_eq_true, Bool.or_eq_true, bne_iff_ne, decide_eq_true_eq] at hl
  simp only [Spec.exec, extensionWords]
  refine splitW_moveSized hl.1.1 fun sz hsz hi => SplitW.last (preW_ea op (by omega) hi.symm) fun ws m hlen hm => ?_
  obtain ⟨hm, -⟩ := hm
  exact Lasts.timed Lasts.cost (by time hm hsz)

theorem timed_Movem (hl : legalCheck .Movem op.toNat = true) :
    SplitW (extensionWords .Movem op) (Timed C .Movem op) (Spec.exec C .Movem op : Exec M Nat) := by
  simp only [legalCheck, Bool.and_eq_true, Bool.or_eq_true, bne_iff_ne, decide_eq_true_eq] at hl
  simp only [Spec.exec, extensionWords]
  simp only [eaInMemory, Bool.and_eq_true, Bool.or_eq_true, decide_eq_true_eq, beq_iff_eq] at hl
  refine SplitW.bind preW_fetch fun ws mask _ hws => SplitW.last (preW_ea' op (by omega)) fun ws' m _ hm => ?_
  subst hws
  obtain ⟨hm, -⟩ := hm
  exact Lasts.timed Lasts.cost fun r => by simp only [cycles, movemTime_fits hm]; rfl

theorem timed_Lea (hl : legalCheck .Lea op.toNat = true) :
    SplitW (extensionWords .Lea op) (Timed C .Lea op) (Spec.exec C .Lea op : Exec M Nat) := by
  simp only [legalCheck, Bool.and_eq_true, Bool.or_eq_true, bne_iff_ne, decide_eq_true_eq] at hl
  simp only [Spec.exec, extensionWords]
  simp only [eaInMemory, Bool.and_eq_true, Bool.or_eq_true, decide_eq_true_eq, beq_iff_eq] at hl
  refine SplitW.last (preW_ea' op (by omega)) fun ws m _ hm => ?_
  obtain ⟨hm, -⟩ := hm
  exact Lasts.timed (Lasts.bind fun _ => Lasts.cost) fun r => by simp only [cycles, controlTime_fits hm]

theorem timed_Pea (hl : legalCheck .Pea op.toNat = true) :
    SplitW (extensionWords .Pea op) (Timed C .Pea op) (Spec.exec C .Pea op : Exec M Nat) := by
  simp only [legalCheck, Bool.and_eq_true, Bool.or_eq_true, bne_iff_ne, decide_eq_true_eq] at hl
  simp only [Spec.exec, extensionWords]
  simp only [eaInMemory, Bool.and_eq_true, Bool.or_eq_true, decide_eq_true_eq, beq_iff_eq] at hl
  refine SplitW.last (preW_ea' op (by omega)) fun ws m _ hm => ?_
  obtain ⟨hm, -⟩ := hm
  exact Lasts.timed (Lasts.bind fun _ => Lasts.cost) fun r => by simp only [cycles, controlTime_fits hm]

theorem timed_Jmp (hl : legalCheck .Jmp op.toNat = true) :
    SplitW (extensionWords .Jmp op) (Timed C .Jmp op) (Spec.exec C .Jmp op : Exec M Nat) := by
  simp only [legalCheck, Bool.and_eq_true, Bool.or_eq_true, bne_iff_ne, decide_eq_true_eq] at hl
  simp only [Spec.exec, extensionWords]
  simp only [eaInMemory, Bool.and_eq_true, Bool.or_eq_true, decide_eq_true_eq, beq_iff_eq] at hl
  refine SplitW.last (preW_ea' op (by omega)) fun ws m _ hm => ?_
  obtain ⟨hm, -⟩ := hm
  exact Lasts.timed (Lasts.bind fun _ => Lasts.cost) fun r => by simp only [cycles, controlTime_fits hm]

theorem timed_Jsr (hl : legalCheck .Jsr op.toNat = true) :
    SplitW (extensionWords .Jsr op) (Timed C .Jsr op) (Spec.exec C .Jsr op : Exec M Nat) := by
  simp only [legalCheck, Bool.and_eq_true, Bool.or_eq_true, bne_iff_ne, decide_eq_true_eq] at hl
  simp only [Spec.exec, extensionWords]
  simp only [eaInMemory, Bool.and_eq_true, Bool.or_eq_true, decide_eq_true_eq, beq_iff_eq] at hl
  refine SplitW.last (preW_ea' op (by omega)) fun ws m _ hm => ?_
  obtain ⟨hm, -⟩ := hm
  exact Lasts.timed Lasts.cost fun r => by simp only [cycles, controlTime_fits hm]

theorem timed_Moveq (hl : legalCheck .Moveq op.toNat = true) :
    SplitW (extensionWords .Moveq op) (Timed C .Moveq op) (Spec.exec C .Moveq op : Exec M Nat) := by
  simp only [Spec.exec, extensionWords]
  exact SplitW.here (Lasts.timed Lasts.cost fun _ => rfl)

theorem timed_Exg (hl : legalCheck .Exg op.toNat = true) :
    SplitW (extensionWords .Exg op) (Timed C .Exg op) (Spec.exec C .Exg op : Exec M Nat) := by
  simp only [Spec.exec, extensionWords]
  exact SplitW.here (Lasts.timed Lasts.cost fun _ => rfl)

theorem timed_Ext (hl : legalCheck .Ext op.toNat = true) :
    SplitW (extensionWords .Ext op) (Timed C .Ext op) (Spec.exec C .Ext op : Exec M Nat) := by
  simp only [Spec.exec, extensionWords]
  exact SplitW.here (Lasts.timed Lasts.cost fun _ => rfl)

theorem timed_Swap (hl : legalCheck .Swap op.toNat = true) :
    SplitW (extensionWords .Swap op) (Timed C .Swap op) (Spec.exec C .Swap op : Exec M Nat) := by
  simp only [Spec.exec, extensionWords]
  exact SplitW.here (Lasts.timed Lasts.cost fun _ => rfl)

theorem timed_Unlk (hl : legalCheck .Unlk op.toNat = true) :
    SplitW (extensionWords .Unlk op) (Timed C .Unlk op) (Spec.exec C .Unlk op : Exec M Nat) := by
  simp only [Spec.exec, extensionWords]
  exact SplitW.here (Lasts.timed Lasts.cost fun _ => rfl)

theorem timed_Rts (hl : legalCheck .Rts op.toNat = true) :
    SplitW (extensionWords .Rts op) (Timed C .Rts op) (Spec.exec C .Rts op : Exec M Nat) := by
  simp only [Spec.exec, extensionWords]
  exact SplitW.here (Lasts.timed Lasts.cost fun _ => rfl)

theorem timed_Rtr (hl : legalCheck .Rtr op.toNat = true) :
    SplitW (extensionWords .Rtr op) (Timed C .Rtr op) (Spec.exec C .Rtr op : Exec M Nat) := by
  simp only [Spec.exec, extensionWords]
  exact SplitW.here (Lasts.timed Lasts.cost fun _ => rfl)

theorem timed_Moveusp (hl : legalCheck .Moveusp op.toNat = true) :
    SplitW (extensionWords .Moveusp op) (Timed C .Moveusp op) (Spec.exec C .Moveusp op : Exec M Nat) := by
  simp only [Spec.exec, extensionWords]
  exact SplitW.here (Lasts.timed Lasts.cost fun _ => rfl)

theorem timed_Reset (hl : legalCheck .Reset op.toNat = true) :
    SplitW (extensionWords .Reset op) (Timed C .Reset op) (Spec.exec C .Reset op : Exec M Nat) := by
  simp only [Spec.exec, extensionWords]
  exact SplitW.here (Lasts.timed Lasts.cost fun _ => rfl)

theorem timed_Unknown (hl : legalCheck .Unknown op.toNat = true) :
    SplitW (extensionWords .Unknown op) (Timed C .Unknown op) (Spec.exec C .Unknown op : Exec M Nat) := by
  simp only [Spec.exec, extensionWords]
  exact SplitW.here (Lasts.timed Lasts.cost fun _ => rfl)

theorem timed_Illegal (hl : legalCheck .Illegal op.toNat = true) :
    SplitW (extensionWords .Illegal op) (Timed C .Illegal op) (Spec.exec C .Illegal op : Exec M Nat) := by
  simp only [Spec.exec, extensionWords]
  exact SplitW.here (Lasts.timed Lasts.cost fun _ => rfl)

theorem timed_Trap (hl : legalCheck .Trap op.toNat = true) :
    SplitW (extensionWords .Trap op) (Timed C .Trap op) (Spec.exec C .Trap op : Exec M Nat) := by
  simp only [Spec.exec, extensionWords]
  exact SplitW.here (Lasts.timed Lasts.cost fun _ => rfl)

theorem timed_Nop (hl : legalCheck .Nop op.toNat = true) :
    SplitW (extensionWords .Nop op) (Timed C .Nop op) (Spec.exec C .Nop op : Exec M Nat) := by
  simp only [Spec.exec, extensionWords]
  exact SplitW.here (Lasts.timed Lasts.pure fun _ => rfl)

theorem timed_Link (hl : legalCheck .Link op.toNat = true) :
    SplitW (extensionWords .Link op) (Timed C .Link op) (Spec.exec C .Link op : Exec M Nat) := by
  simp only [Spec.exec, extensionWords]
  exact SplitW.last (PreW.of Pre.fetch) fun _ _ _ _ => Lasts.timed Lasts.cost fun _ => rfl

theorem timed_Movep (hl : legalCheck .Movep op.toNat = true) :
    SplitW (extensionWords .Movep op) (Timed C .Movep op) (Spec.exec C .Movep op : Exec M Nat) := by
  simp only [Spec.exec, extensionWords]
  exact SplitW.last (PreW.of Pre.fetch) fun _ _ _ _ => Lasts.timed Lasts.cost fun _ => rfl

theorem timed_Andiccr (hl : legalCheck .Andiccr op.toNat = true) :
    SplitW (extensionWords .Andiccr op) (Timed C .Andiccr op) (Spec.exec C .Andiccr op : Exec M Nat) := by
  simp only [Spec.exec, extensionWords]
  exact SplitW.last (PreW.of Pre.fetch) fun _ _ _ _ => Lasts.timed Lasts.cost fun _ => rfl

theorem timed_Oriccr (hl : legalCheck .Oriccr op.toNat = true) :
    SplitW (extensionWords .Oriccr op) (Timed C .Oriccr op) (Spec.exec C .Oriccr op : Exec M Nat) := by
  simp only [Spec.exec, extensionWords]
  exact SplitW.last (PreW.of Pre.fetch) fun _ _ _ _ => Lasts.timed Lasts.cost fun _ => rfl

theorem timed_Eoriccr (hl : legalCheck .Eoriccr op.toNat = true) :
    SplitW (extensionWords .Eoriccr op) (Timed C .Eoriccr op) (Spec.exec C .Eoriccr op : Exec M Nat) := by
  simp only [Spec.exec, extensionWords]
  exact SplitW.last (PreW.of Pre.fetch) fun _ _ _ _ => Lasts.timed Lasts.cost fun _ => rfl

theorem timed_Stop (hl : legalCheck .Stop op.toNat = true) :
    SplitW (extensionWords .Stop op) (Timed C .Stop op) (Spec.exec C .Stop op : Exec M Nat) := by
  simp only [Spec.exec, extensionWords]
  exact SplitW.last (PreW.of Pre.fetch) fun _ _ _ _ => Lasts.timed Lasts.cost fun _ => rfl

theorem timed_Andisr (hl : legalCheck .Andisr op.toNat = true) :
    SplitW (extensionWords .Andisr op) (Timed C .Andisr op) (Spec.exec C .Andisr op : Exec M Nat) := by
  simp only [Spec.exec, extensionWords]
  exact SplitW.last (PreW.of Pre.fetch) fun _ _ _ _ => Lasts.timed (Lasts.bind fun _ => Lasts.cost) fun _ => rfl

theorem timed_Orisr (hl : legalCheck .Orisr op.toNat = true) :
    SplitW (extensionWords .Orisr op) (Timed C .Orisr op) (Spec.exec C .Orisr op : Exec M Nat) := by
  simp only [Spec.exec, extensionWords]
  exact SplitW.last (PreW.of Pre.fetch) fun _ _ _ _ => Lasts.timed (Lasts.bind fun _ => Lasts.cost) fun _ => rfl

theorem timed_Eorisr (hl : legalCheck .Eorisr op.toNat = true) :
    SplitW (extensionWords .Eorisr op) (Timed C .Eorisr op) (Spec.exec C .Eorisr op : Exec M Nat) := by
  simp only [Spec.exec, extensionWords]
  exact SplitW.last (PreW.of Pre.fetch) fun _ _ _ _ => Lasts.timed (Lasts.bind fun _ => Lasts.cost) fun _ => rfl

theorem timed_Trapv (hl : legalCheck .Trapv op.toNat = true) :
    SplitW (extensionWords .Trapv op) (Timed C .Trapv op) (Spec.exec C .Trapv op : Exec M Nat) := by
  simp only [Spec.exec, extensionWords]
  refine SplitW.here (Lasts.timed (Lasts.bind fun v => ?_) fun _ => rfl)
  cases v
  · exact Lasts.pure
  · exact Lasts.trap _

theorem timed_Bra (hl : legalCheck .Bra op.toNat = true) :
    SplitW (extensionWords .Bra op) (Timed C .Bra op) (Spec.exec C .Bra op : Exec M Nat) := by
  simp only [Spec.exec, extensionWords]
  have : SplitW (0 + (if op.toNat % 256 = 0 then 1 else 0)) (Timed C .Bra op) (Spec.exec C .Bra op : Exec M Nat) :=
    SplitW.bind (PreW.of Pre.getR) fun _ _ _ _ => SplitW.last (PreW.of (Pre.fetchDisp op)) fun _ _ _ _ => Lasts.timed Lasts.cost fun _ => rfl
  rw [Nat.zero_add] at this
  exact this

theorem timed_Bsr (hl : legalCheck .Bsr op.toNat = true) :
    SplitW (extensionWords .Bsr op) (Timed C .Bsr op) (Spec.exec C .Bsr op : Exec M Nat) := by
  simp only [Spec.exec, extensionWords]
  have : SplitW (0 + (if op.toNat % 256 = 0 then 1 else 0)) (Timed C .Bsr op) (Spec.exec C .Bsr op : Exec M Nat) :=
    SplitW.bind (PreW.of Pre.getR) fun _ _ _ _ => SplitW.last (PreW.of (Pre.fetchDisp op)) fun _ _ _ _ => Lasts.timed Lasts.cost fun _ => rfl
  rw [Nat.zero_add] at this
  exact this

theorem timed_Bcc (hl : legalCheck .Bcc op.toNat = true) :
    SplitW (extensionWords .Bcc op) (Timed C .Bcc op) (Spec.exec C .Bcc op : Exec M Nat) := by
  simp only [Spec.exec, extensionWords]
  have : SplitW (0 + (if op.toNat % 256 = 0 then 1 else 0)) (Timed C .Bcc op) (Spec.exec C .Bcc op : Exec M Nat) :=
    SplitW.bind (PreW.of Pre.getR) fun _ _ _ _ => SplitW.last (PreW.of (Pre.fetchDisp op)) fun _ _ _ _ s n s' h => by
      obtain ⟨b, h1, rfl⟩ := map_ok3 h
      have hb : b = holds (ccField op) s.cpu.regs.sr := by
        obtain ⟨b', s3, h2, h3⟩ := bind_ok h1
        cases h2
        by_cases hc : holds (ccField op) s.cpu.regs.sr = true
        · have h4 : ((if holds (ccField op) s.cpu.regs.sr = true then Spec.jump _ >>= fun _ => pure (holds (ccField op) s.cpu.regs.sr) else _) : Exec M Bool) s = .ok b s' := h3
          rw [if_pos hc] at h4
          cases h4
          rfl
        · have h4 : ((if holds (ccField op) s.cpu.regs.sr = true then _ else pure (holds (ccField op) s.cpu.regs.sr)) : Exec M Bool) s = .ok b s' := h3
          rw [if_neg hc] at h4
          cases h4
          rfl
      subst hb
      rfl
  rw [Nat.zero_add] at this
  exact this

theorem timed_Dbcc (hl : legalCheck .Dbcc op.toNat = true) :
    SplitW (extensionWords .Dbcc op) (Timed C .Dbcc op) (Spec.exec C .Dbcc op : Exec M Nat) := by
  simp only [Spec.exec, extensionWords]
  have : SplitW (0 + 1) (Timed C .Dbcc op) (Spec.exec C .Dbcc op : Exec M Nat) :=
    SplitW.bind (PreW.of Pre.getR) fun _ _ _ _ => SplitW.last (PreW.of Pre.fetch) fun _ _ _ _ s n s' h => by
      obtain ⟨b, h1, rfl⟩ := map_ok3 h
      obtain ⟨b', s3, h2, h3⟩ := bind_ok h1
      cases h2
      simp only [cycles] at h3 ⊢
      by_cases hc : holds (ccField op) s.cpu.regs.sr = true
      · rw [if_pos hc] at h3 ⊢
        cases h3
        rfl
      · rw [if_neg hc] at h3 ⊢
        obtain ⟨k, s4, h4, h5⟩ := bind_ok h3
        cases h4
        obtain ⟨_, s5, h6, h7⟩ := bind_ok h5
        cases h6
        have e : (low .Word (s.cpu.regs.d (regField op 0))).toNat = (s.cpu.regs.d (regField op 0)).toNat % 65536 := BitVec.toNat_ofNat _ 16
        by_cases h0 : (s.cpu.regs.d (regField op 0)).toNat % 65536 = 0
        · rw [if_pos h0]
          rw [if_pos (e.trans h0)] at h7
          cases h7
          rfl
        · rw [if_neg h0]
          rw [if_neg (fun h => h0 (e.symm.trans h))] at h7
          cases h7
          rfl
  exact this

/-- RTE: the time depends on the stack frame. -/
theorem timed_Rte {n : Nat} (h : Spec.exec C .Rte op s = .ok n s2) : n = C.RTE ∨ (C.STACK_FORMAT = .SCC68070 ∧ n = C.RTE + 101) := by
  obtain ⟨b, h1, rfl⟩ := map_ok3 (show ((fun long => if long then C.RTE + 101 else C.RTE) <$> Spec.rte C.STACK_FORMAT : Exec M Nat) s = .ok n s2 from h)
  obtain ⟨_, s3, -, h2⟩ := bind_ok h1
  obtain ⟨_, s4, -, h3⟩ := bind_ok h2
  obtain ⟨_, s5, -, h4⟩ := bind_ok h3
  obtain ⟨_, s6, -, h5⟩ := bind_ok h4
  obtain ⟨b', s7, h6, h7⟩ := bind_ok h5
  obtain ⟨_, s8, -, h8⟩ := bind_ok h7
  cases h8
  by_cases hf : C.STACK_FORMAT = .SCC68070
  · cases b
    · exact .inl rfl
    · exact .inr ⟨hf, rfl⟩
  · rw [if_neg hf] at h6
    cases h6
    exact .inl rfl

/-- Every instruction but RTE. -/
theorem timed {i : Isa} (hl : legalCheck i op.toNat = true) (hi : i ≠ .Rte) : SplitW (extensionWords i op) (Timed C i op) (Spec.exec C i op : Exec M Nat) := by
  cases i with
  | Rte => exact (hi rfl).elim
  | Add => exact timed_Add hl
  | Sub => exact timed_Sub hl
  | And => exact timed_And hl
  | Or => exact timed_Or hl
  | Addi => exact timed_Addi hl
  | Subi => exact timed_Subi hl
  | Andi => exact timed_Andi hl
  | Ori => exact timed_Ori hl
  | Eori => exact timed_Eori hl
  | Cmpi => exact timed_Cmpi hl
  | Neg => exact timed_Neg hl
  | Negx => exact timed_Negx hl
  | Not => exact timed_Not hl
  | Eor => exact timed_Eor hl
  | Addq => exact timed_Addq hl
  | Subq => exact timed_Subq hl
  | Tst => exact timed_Tst hl
  | Clr => exact timed_Clr hl
  | Cmp => exact timed_Cmp hl
  | Adda => exact timed_Adda hl
  | Suba => exact timed_Suba hl
  | Cmpa => exact timed_Cmpa hl
  | Nbcd => exact timed_Nbcd hl
  | Tas => exact timed_Tas hl
  | Chk => exact timed_Chk hl
  | Mulu => exact timed_Mulu hl
  | Muls => exact timed_Muls hl
  | Divu => exact timed_Divu hl
  | Divs => exact timed_Divs hl
  | Asm => exact timed_Asm hl
  | Lsm => exact timed_Lsm hl
  | Rom => exact timed_Rom hl
  | Roxm => exact timed_Roxm hl
  | Moveccr => exact timed_Moveccr hl
  | Movefsr => exact timed_Movefsr hl
  | Movesr => exact timed_Movesr hl
  | Btst => exact timed_Btst hl
  | Bchg => exact timed_Bchg hl
  | Bclr => exact timed_Bclr hl
  | Bset => exact timed_Bset hl
  | Addx => exact timed_Addx hl
  | Subx => exact timed_Subx hl
  | Abcd => exact timed_Abcd hl
  | Sbcd => exact timed_Sbcd hl
  | Cmpm => exact timed_Cmpm hl
  | Asr => exact timed_Asr hl
  | Lsr => exact timed_Lsr hl
  | Ror => exact timed_Ror hl
  | Roxr => exact timed_Roxr hl
  | Scc => exact timed_Scc hl
  | Move => exact timed_Move hl
  | Movea => exact timed_Movea hl
  | Movem => exact timed_Movem hl
  | Lea => exact timed_Lea hl
  | Pea => exact timed_Pea hl
  | Jmp => exact timed_Jmp hl
  | Jsr => exact timed_Jsr hl
  | Moveq => exact timed_Moveq hl
  | Exg => exact timed_Exg hl
  | Ext => exact timed_Ext hl
  | Swap => exact timed_Swap hl
  | Unlk => exact timed_Unlk hl
  | Rts => exact timed_Rts hl
  | Rtr => exact timed_Rtr hl
  | Moveusp => exact timed_Moveusp hl
  | Reset => exact timed_Reset hl
  | Unknown => exact timed_Unknown hl
  | Illegal => exact timed_Illegal hl
  | Trap => exact timed_Trap hl
  | Nop => exact timed_Nop hl
  | Link => exact timed_Link hl
  | Movep => exact timed_Movep hl
  | Andiccr => exact timed_Andiccr hl
  | Oriccr => exact timed_Oriccr hl
  | Eoriccr => exact timed_Eoriccr hl
  | Stop => exact timed_Stop hl
  | Andisr => exact timed_Andisr hl
  | Orisr => exact timed_Orisr hl
  | Eorisr => exact timed_Eorisr hl
  | Trapv => exact timed_Trapv hl
  | Bra => exact timed_Bra hl
  | Bsr => exact timed_Bsr hl
  | Bcc => exact timed_Bcc hl
  | Dbcc => exact timed_Dbcc hl

theorem cycles_withPc (i : Isa) (r : Registers) (p : U32) (ws : List U16) : cycles C i op { r with pc := p } ws = cycles C i op r ws := by
  cases i <;> rfl

end Exec
end M68k
