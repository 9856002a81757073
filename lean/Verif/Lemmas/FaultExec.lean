import Verif.Lemmas.Fault
import Verif.Lemmas.LegalExec
/-
The state that each instruction leaves when it ends with an exception.
-/
set_option linter.unusedSectionVars false
set_option linter.unusedVariables false
namespace M68k
namespace Exec
open Spec
namespace Final
variable {M : Type} [MemoryAccess M] {α β : Type} {d c : Fin 8 → Bool} {f w : Bool} {op : U16}

theorem quickOp (sub : Bool) (n : Fin 8) (sz : Size) (m : Mode) (h : Within.StepOk c m) (hf : f = true) : Final d c f w (quickOp sub n sz m : Exec M Unit) := by
  have h1 : Final d c f w (Spec.rmw sz m (fun x => if sub then difference false x (BitVec.ofNat _ (quick n)) else sum false x (BitVec.ofNat _ (quick n))) : Exec M Unit) :=
    rmw _ _ h _ hf fun v => by
      cases sub
      · exact keeps_sum false _ _
      · exact keeps_difference false _ _
  unfold Spec.quickOp
  split
  · exact noFault (NoFault.updateA _ _)
  · exact h1
theorem divu (n : Fin 8) (m : Mode) (h : Within.StepOk c m) (hf : f = true) : Final d c f w (divu n m : Exec M Unit) := by
  refine bind (Sound.flags _ hf fun _ _ => ⟨rfl, rfl, rfl⟩) fun _ => bind (Sound.read _ _ h) fun x => ?_
  dsimp only
  split
  · exact bind (Sound.flags _ hf fun _ _ => ⟨rfl, rfl, rfl⟩) fun _ => sound (Sound.trap _)
  · exact noFault (NoFault.bind (NoFault.getR _) fun _ => NoFault.ite (NoFault.bind (NoFault.modR _) fun _ => NoFault.flags _) (NoFault.flags _))
theorem divs (n : Fin 8) (m : Mode) (h : Within.StepOk c m) (hf : f = true) : Final d c f w (divs n m : Exec M Unit) := by
  refine bind (Sound.flags _ hf fun _ _ => ⟨rfl, rfl, rfl⟩) fun _ => bind (Sound.read _ _ h) fun x => ?_
  dsimp only
  split
  · exact bind (Sound.flags _ hf fun _ _ => ⟨rfl, rfl, rfl⟩) fun _ => sound (Sound.trap _)
  · exact noFault (NoFault.bind (NoFault.getR _) fun _ => NoFault.ite (NoFault.bind (NoFault.modR _) fun _ => NoFault.flags _) (NoFault.flags _))
theorem address (sz : Size) (m : Mode) (h : Within.StepOk c m) : Sound d c f w (address sz m : Exec M _) := by
  refine Sound.bind (Sound.locate sz m h) fun p => ?_
  cases p <;> first | exact Sound.pure _ | exact Sound.crash
theorem control (m : Mode) : Sound d c f w (Spec.control m : Exec M _) := by
  have h0 : ∀ m : Mode, (∀ n, m ≠ .postinc n) → (∀ n, m ≠ .predec n) → Within.StepOk c m := fun m h1 h2 n e => by
    rcases e with e | e
    · exact absurd e (h1 n)
    · exact absurd e (h2 n)
  cases m with
  | postinc n => exact Sound.crash
  | predec n => exact Sound.crash
  | _ => exact address _ _ (h0 _ (fun _ e => by cases e) (fun _ e => by cases e))
theorem aligned_then {x : Exec M β} (a : U32) (hx : ¬ Spec.Odd a → Final d c f w x) : Final d c f w (aligned a >>= fun _ => x) := by
  by_cases h : Spec.Odd a
  · intro s
    rw [Exec.bind_apply]
    simp only [aligned, if_pos h]
    exact (Before.refl s).done
  · intro s
    rw [Exec.bind_apply]
    simp only [aligned, if_neg h]
    exact hx h s
theorem movem {m : Mode} (sz : Size) (hsz : sz ≠ .Byte) (mask : U16) (hm : Fits (op.toNat / 8 % 8) (op.toNat % 8) m) :
    Final (loadsEarly .Movem op) (movesEarly .Movem op) false (writesEarly .Movem op) (movem (flag op 10) sz m mask : Exec M Unit) := by
  have h0 : ∀ {c} (m : Mode), (∀ n, m ≠ .postinc n) → (∀ n, m ≠ .predec n) → Within.StepOk c m := fun m h1 h2 n e => by
    rcases e with e | e
    · exact absurd e (h1 n)
    · exact absurd e (h2 n)
  have h1 : op.toNat / 8 % 8 ≠ 4 → ∀ a, ¬ Spec.Odd a →
      Sound (loadsEarly .Movem op) (movesEarly .Movem op) false (writesEarly .Movem op)
        ((if flag op 10 then Spec.movemLoads sz (listed mask) a else Spec.movemStores sz (listed mask) a : Exec M U32)) := by
    intro h4 a ha
    cases h10 : flag op 10
    · simp only [Bool.false_eq_true, if_false]
      exact movemStores sz (by simp [writesEarly, h10]) _ _
    · simp only [if_true]
      exact movemLoads (fun n => by simp [loadsEarly, h10, h4]) (fun n => by simp [movesEarly, h10, h4]) sz hsz _ _ ha
  have h2 : op.toNat / 8 % 8 ≠ 4 → ∀ m : Mode, (∀ n, m ≠ .postinc n) → (∀ n, m ≠ .predec n) →
      Final (loadsEarly .Movem op) (movesEarly .Movem op) false (writesEarly .Movem op)
        (do let a ← Spec.address sz m; aligned a
            let _ ← (if flag op 10 then Spec.movemLoads sz (listed mask) a else Spec.movemStores sz (listed mask) a) : Exec M Unit) :=
    fun h4 m k1 k2 => bind (address _ _ (h0 m k1 k2)) fun a => aligned_then a fun ha => sound (Sound.map _ (h1 h4 a ha))
  cases m with
  | predec n =>
    have h4 : op.toNat / 8 % 8 = 4 := hm.1
    exact bind (Sound.getR _) fun a => aligned_then a fun ha => bind (movemStoresDown sz (by simp [writesEarly, h4]) _ _) fun _ => noFault (NoFault.updateA _ _)
  | postinc n =>
    have h4 : op.toNat / 8 % 8 = 3 := hm.1
    exact bind (Sound.getR _) fun a => aligned_then a fun ha => bind (h1 (by omega) a ha) fun _ => noFault (NoFault.updateA _ _)
  | _ =>
    refine h2 ?_ _ (fun _ e => by cases e) (fun _ e => by cases e)
    simp only [Fits] at hm
    omega
theorem movep (toMem : Bool) (sz : Size) (n an : Fin 8) (x : U16) (hd : toMem = false → d n = true) (hw : toMem = true → w = true) :
    Final d c f w (movep toMem sz n an x : Exec M Unit) := by
  refine bind (Sound.getR _) fun a => ?_
  cases toMem
  · exact bind (Sound.dreg n _ (hd rfl)) fun _ => sound (movepLoads n (hd rfl) _ _)
  · exact sound (movepStores n (hw rfl) _ _)
theorem rte (fmt : StackFormat) (h : c 7 = true) : Final d c f w (rte fmt : Exec M Bool) := by
  refine bind Sound.privileged fun _ => bind (Sound.pop _ h) fun _ => bind (Sound.pop _ h) fun _ => bind (Sound.jump _) fun _ =>
    bind (x := (if fmt = .SCC68070 then do
        let f ← Spec.pop .Word
        if f.toNat / 4096 = 15 then Spec.updateA 7 (fun sp => sp + 26) >>= fun _ => Pure.pure true
        else if f.toNat / 4096 = 0 then Pure.pure false
        else Spec.trap 14
      else Pure.pure false : Exec M Bool)) ?_ fun _ => noFault (NoFault.bind (NoFault.flags _) fun _ => NoFault.pure _)
  split
  · refine Sound.bind (Sound.pop _ h) fun x => ?_
    split
    · exact Sound.bind (Sound.updateA 7 _ h) fun _ => Sound.pure _
    · split
      · exact Sound.pure _
      · exact Sound.trap _
  · exact Sound.pure _

variable (C : CpuDetails) (op : U16)
theorem exec_Unknown : Final (loadsEarly .Unknown op) (movesEarly .Unknown op) (flagsEarly .Unknown op) (writesEarly .Unknown op) (Spec.exec C .Unknown op : Exec M Nat) := by
  simp only [Spec.exec]
  exact cost (sound (Sound.trap _))
theorem exec_Illegal : Final (loadsEarly .Illegal op) (movesEarly .Illegal op) (flagsEarly .Illegal op) (writesEarly .Illegal op) (Spec.exec C .Illegal op : Exec M Nat) := by
  simp only [Spec.exec]
  exact cost (sound (Sound.trap _))
theorem exec_Add : Final (loadsEarly .Add op) (movesEarly .Add op) (flagsEarly .Add op) (writesEarly .Add op) (Spec.exec C .Add op : Exec M Nat) := by
  simp only [Spec.exec]
  exact binary _ _ _ _ _ _ _ _ (fun n h => by simp [movesEarly, h]) (fun h => by simp [flagsEarly, h]) fun v u => keeps_sum false v u
theorem exec_Sub : Final (loadsEarly .Sub op) (movesEarly .Sub op) (flagsEarly .Sub op) (writesEarly .Sub op) (Spec.exec C .Sub op : Exec M Nat) := by
  simp only [Spec.exec]
  exact binary _ _ _ _ _ _ _ _ (fun n h => by simp [movesEarly, h]) (fun h => by simp [flagsEarly, h]) fun v u => keeps_difference false v u
theorem exec_And : Final (loadsEarly .And op) (movesEarly .And op) (flagsEarly .And op) (writesEarly .And op) (Spec.exec C .And op : Exec M Nat) := by
  simp only [Spec.exec]
  exact binary _ _ _ _ _ _ _ _ (fun n h => by simp [movesEarly, h]) (fun h => by simp [flagsEarly, h]) fun v u => keeps_logicOp _ v u
theorem exec_Or : Final (loadsEarly .Or op) (movesEarly .Or op) (flagsEarly .Or op) (writesEarly .Or op) (Spec.exec C .Or op : Exec M Nat) := by
  simp only [Spec.exec]
  exact binary _ _ _ _ _ _ _ _ (fun n h => by simp [movesEarly, h]) (fun h => by simp [flagsEarly, h]) fun v u => keeps_logicOp _ v u
theorem exec_Addi : Final (loadsEarly .Addi op) (movesEarly .Addi op) (flagsEarly .Addi op) (writesEarly .Addi op) (Spec.exec C .Addi op : Exec M Nat) := by
  simp only [Spec.exec]
  exact immediate _ _ _ _ _ _ _ (fun n h => by simp [movesEarly, h]) rfl fun v u => keeps_sum false v u
theorem exec_Subi : Final (loadsEarly .Subi op) (movesEarly .Subi op) (flagsEarly .Subi op) (writesEarly .Subi op) (Spec.exec C .Subi op : Exec M Nat) := by
  simp only [Spec.exec]
  exact immediate _ _ _ _ _ _ _ (fun n h => by simp [movesEarly, h]) rfl fun v u => keeps_difference false v u
theorem exec_Andi : Final (loadsEarly .Andi op) (movesEarly .Andi op) (flagsEarly .Andi op) (writesEarly .Andi op) (Spec.exec C .Andi op : Exec M Nat) := by
  simp only [Spec.exec]
  exact immediate _ _ _ _ _ _ _ (fun n h => by simp [movesEarly, h]) rfl fun v u => keeps_logicOp _ v u
theorem exec_Ori : Final (loadsEarly .Ori op) (movesEarly .Ori op) (flagsEarly .Ori op) (writesEarly .Ori op) (Spec.exec C .Ori op : Exec M Nat) := by
  simp only [Spec.exec]
  exact immediate _ _ _ _ _ _ _ (fun n h => by simp [movesEarly, h]) rfl fun v u => keeps_logicOp _ v u
theorem exec_Eori : Final (loadsEarly .Eori op) (movesEarly .Eori op) (flagsEarly .Eori op) (writesEarly .Eori op) (Spec.exec C .Eori op : Exec M Nat) := by
  simp only [Spec.exec]
  exact immediate _ _ _ _ _ _ _ (fun n h => by simp [movesEarly, h]) rfl fun v u => keeps_logicOp _ v u
theorem exec_Adda : Final (loadsEarly .Adda op) (movesEarly .Adda op) (flagsEarly .Adda op) (writesEarly .Adda op) (Spec.exec C .Adda op : Exec M Nat) := by
  simp only [Spec.exec]
  exact fetchEa _ fun m hm => bind (Sound.readExt _ _ (Within.step_fits hm (fun n h => by simp [movesEarly, h]))) fun _ => cost (noFault (NoFault.updateA _ _))
theorem exec_Suba : Final (loadsEarly .Suba op) (movesEarly .Suba op) (flagsEarly .Suba op) (writesEarly .Suba op) (Spec.exec C .Suba op : Exec M Nat) := by
  simp only [Spec.exec]
  exact fetchEa _ fun m hm => bind (Sound.readExt _ _ (Within.step_fits hm (fun n h => by simp [movesEarly, h]))) fun _ => cost (noFault (NoFault.updateA _ _))
theorem exec_Cmpa : Final (loadsEarly .Cmpa op) (movesEarly .Cmpa op) (flagsEarly .Cmpa op) (writesEarly .Cmpa op) (Spec.exec C .Cmpa op : Exec M Nat) := by
  simp only [Spec.exec]
  exact fetchEa _ fun m hm => bind (Sound.readExt _ _ (Within.step_fits hm (fun n h => by simp [movesEarly, h]))) fun _ => bind (Sound.getR _) fun _ => cost (noFault (NoFault.flags _))
theorem exec_Addq : Final (loadsEarly .Addq op) (movesEarly .Addq op) (flagsEarly .Addq op) (writesEarly .Addq op) (Spec.exec C .Addq op : Exec M Nat) := by
  simp only [Spec.exec]
  exact sized fun sz => fetchEa _ fun m hm => cost (quickOp _ _ _ _ (Within.step_fits hm (fun n h => by simp [movesEarly, h])) rfl)
theorem exec_Subq : Final (loadsEarly .Subq op) (movesEarly .Subq op) (flagsEarly .Subq op) (writesEarly .Subq op) (Spec.exec C .Subq op : Exec M Nat) := by
  simp only [Spec.exec]
  exact sized fun sz => fetchEa _ fun m hm => cost (quickOp _ _ _ _ (Within.step_fits hm (fun n h => by simp [movesEarly, h])) rfl)
theorem exec_Addx : Final (loadsEarly .Addx op) (movesEarly .Addx op) (flagsEarly .Addx op) (writesEarly .Addx op) (Spec.exec C .Addx op : Exec M Nat) := by
  simp only [Spec.exec]
  exact sized fun sz => cost (pair _ _ _ _ (fun h => by simp [movesEarly, h]) _ rfl fun v u => keeps_sum true v u)
theorem exec_Subx : Final (loadsEarly .Subx op) (movesEarly .Subx op) (flagsEarly .Subx op) (writesEarly .Subx op) (Spec.exec C .Subx op : Exec M Nat) := by
  simp only [Spec.exec]
  exact sized fun sz => cost (pair _ _ _ _ (fun h => by simp [movesEarly, h]) _ rfl fun v u => keeps_difference true v u)
theorem exec_Abcd : Final (loadsEarly .Abcd op) (movesEarly .Abcd op) (flagsEarly .Abcd op) (writesEarly .Abcd op) (Spec.exec C .Abcd op : Exec M Nat) := by
  simp only [Spec.exec]
  exact sized fun sz => cost (pair _ _ _ _ (fun h => by simp [movesEarly, h]) _ rfl fun v u => keeps_decimalSum v u)
theorem exec_Sbcd : Final (loadsEarly .Sbcd op) (movesEarly .Sbcd op) (flagsEarly .Sbcd op) (writesEarly .Sbcd op) (Spec.exec C .Sbcd op : Exec M Nat) := by
  simp only [Spec.exec]
  exact sized fun sz => cost (pair _ _ _ _ (fun h => by simp [movesEarly, h]) _ rfl fun v u => keeps_decimalDifference v u)
theorem exec_Nbcd : Final (loadsEarly .Nbcd op) (movesEarly .Nbcd op) (flagsEarly .Nbcd op) (writesEarly .Nbcd op) (Spec.exec C .Nbcd op : Exec M Nat) := by
  simp only [Spec.exec]
  exact fetchEa _ fun m hm => cost (rmw _ _ (Within.step_fits hm (fun n h => by simp [movesEarly, h])) _ rfl fun v => keeps_decimalDifference 0 v)
theorem exec_Tas : Final (loadsEarly .Tas op) (movesEarly .Tas op) (flagsEarly .Tas op) (writesEarly .Tas op) (Spec.exec C .Tas op : Exec M Nat) := by
  simp only [Spec.exec]
  exact fetchEa _ fun m hm => cost (rmw _ _ (Within.step_fits hm (fun n h => by simp [movesEarly, h])) _ rfl fun v _ _ => ⟨rfl, rfl, rfl⟩)
theorem exec_Neg : Final (loadsEarly .Neg op) (movesEarly .Neg op) (flagsEarly .Neg op) (writesEarly .Neg op) (Spec.exec C .Neg op : Exec M Nat) := by
  simp only [Spec.exec]
  exact unary _ _ _ _ _ _ _ (fun n h => by simp [movesEarly, h]) fun sz m hm => rmw _ _ hm _ rfl fun v => keeps_difference false 0 v
theorem exec_Negx : Final (loadsEarly .Negx op) (movesEarly .Negx op) (flagsEarly .Negx op) (writesEarly .Negx op) (Spec.exec C .Negx op : Exec M Nat) := by
  simp only [Spec.exec]
  exact unary _ _ _ _ _ _ _ (fun n h => by simp [movesEarly, h]) fun sz m hm => rmw _ _ hm _ rfl fun v => keeps_difference true 0 v
theorem exec_Not : Final (loadsEarly .Not op) (movesEarly .Not op) (flagsEarly .Not op) (writesEarly .Not op) (Spec.exec C .Not op : Exec M Nat) := by
  simp only [Spec.exec]
  exact unary _ _ _ _ _ _ _ (fun n h => by simp [movesEarly, h]) fun sz m hm => bind (Sound.read _ _ hm) fun _ => last (writeAt _ _ _) fun _ => NoFault.flags _
theorem exec_Cmp : Final (loadsEarly .Cmp op) (movesEarly .Cmp op) (flagsEarly .Cmp op) (writesEarly .Cmp op) (Spec.exec C .Cmp op : Exec M Nat) := by
  simp only [Spec.exec]
  exact sized fun sz => fetchEa _ fun m hm => bind (Sound.read _ _ (Within.step_fits hm (fun n h => by simp [movesEarly, h]))) fun _ => bind (Sound.getR _) fun _ => cost (noFault (NoFault.flags _))
theorem exec_Cmpi : Final (loadsEarly .Cmpi op) (movesEarly .Cmpi op) (flagsEarly .Cmpi op) (writesEarly .Cmpi op) (Spec.exec C .Cmpi op : Exec M Nat) := by
  simp only [Spec.exec]
  exact sized fun sz => bind (Sound.fetchImm _) fun _ => fetchEa _ fun m hm => bind (Sound.read _ _ (Within.step_fits hm (fun n h => by simp [movesEarly, h]))) fun _ => cost (noFault (NoFault.flags _))
theorem exec_Cmpm : Final (loadsEarly .Cmpm op) (movesEarly .Cmpm op) (flagsEarly .Cmpm op) (writesEarly .Cmpm op) (Spec.exec C .Cmpm op : Exec M Nat) := by
  simp only [Spec.exec]
  exact sized fun sz => cost (bind (Sound.locate _ _ (Within.step_postinc (by simp [movesEarly]))) fun _ => bind (Sound.locate _ _ (Within.step_postinc (by simp [movesEarly]))) fun _ => bind (Sound.readAt _ _) fun _ => bind (Sound.readAt _ _) fun _ => noFault (NoFault.flags _))
theorem exec_Mulu : Final (loadsEarly .Mulu op) (movesEarly .Mulu op) (flagsEarly .Mulu op) (writesEarly .Mulu op) (Spec.exec C .Mulu op : Exec M Nat) := by
  simp only [Spec.exec]
  exact wordToDn _ _ _ _ (fun n h => by simp [movesEarly, h]) fun m hm => bind (Sound.read _ _ hm) fun _ => noFault fun _ => trivial
theorem exec_Muls : Final (loadsEarly .Muls op) (movesEarly .Muls op) (flagsEarly .Muls op) (writesEarly .Muls op) (Spec.exec C .Muls op : Exec M Nat) := by
  simp only [Spec.exec]
  exact wordToDn _ _ _ _ (fun n h => by simp [movesEarly, h]) fun m hm => bind (Sound.read _ _ hm) fun _ => noFault fun _ => trivial
theorem exec_Divu : Final (loadsEarly .Divu op) (movesEarly .Divu op) (flagsEarly .Divu op) (writesEarly .Divu op) (Spec.exec C .Divu op : Exec M Nat) := by
  simp only [Spec.exec]
  exact wordToDn _ _ _ _ (fun n h => by simp [movesEarly, h]) fun m hm => divu _ _ hm rfl
theorem exec_Divs : Final (loadsEarly .Divs op) (movesEarly .Divs op) (flagsEarly .Divs op) (writesEarly .Divs op) (Spec.exec C .Divs op : Exec M Nat) := by
  simp only [Spec.exec]
  exact wordToDn _ _ _ _ (fun n h => by simp [movesEarly, h]) fun m hm => divs _ _ hm rfl
theorem exec_Eor : Final (loadsEarly .Eor op) (movesEarly .Eor op) (flagsEarly .Eor op) (writesEarly .Eor op) (Spec.exec C .Eor op : Exec M Nat) := by
  simp only [Spec.exec]
  exact sized fun sz => fetchEa _ fun m hm => cost (opToEa _ _ _ (Within.step_fits hm (fun n h => by simp [movesEarly, h])) _ rfl fun v u => keeps_logicOp _ v u)
theorem exec_Tst : Final (loadsEarly .Tst op) (movesEarly .Tst op) (flagsEarly .Tst op) (writesEarly .Tst op) (Spec.exec C .Tst op : Exec M Nat) := by
  simp only [Spec.exec]
  exact sized fun sz => fetchEa _ fun m hm => bind (Sound.read _ _ (Within.step_fits hm (fun n h => by simp [movesEarly, h]))) fun _ => cost (noFault (NoFault.flags _))
theorem exec_Clr : Final (loadsEarly .Clr op) (movesEarly .Clr op) (flagsEarly .Clr op) (writesEarly .Clr op) (Spec.exec C .Clr op : Exec M Nat) := by
  simp only [Spec.exec]
  exact sized fun sz => fetchEa _ fun m hm => last (write _ _ (Within.step_fits hm (fun n h => by simp [movesEarly, h])) _) fun _ => NoFault.cost (NoFault.flags _)
theorem exec_Scc : Final (loadsEarly .Scc op) (movesEarly .Scc op) (flagsEarly .Scc op) (writesEarly .Scc op) (Spec.exec C .Scc op : Exec M Nat) := by
  simp only [Spec.exec]
  exact fetchEa _ fun m hm => map _ (bind (Sound.getR _) fun _ => last (write _ _ (Within.step_fits hm (fun n h => by simp [movesEarly, h])) _) fun _ => NoFault.pure _)
theorem exec_Bchg : Final (loadsEarly .Bchg op) (movesEarly .Bchg op) (flagsEarly .Bchg op) (writesEarly .Bchg op) (Spec.exec C .Bchg op : Exec M Nat) := by
  simp only [Spec.exec]
  exact bitInstr _ _ _ _ _ _ _ (fun n h => by simp [movesEarly, h]) fun _ => rfl
theorem exec_Bclr : Final (loadsEarly .Bclr op) (movesEarly .Bclr op) (flagsEarly .Bclr op) (writesEarly .Bclr op) (Spec.exec C .Bclr op : Exec M Nat) := by
  simp only [Spec.exec]
  exact bitInstr _ _ _ _ _ _ _ (fun n h => by simp [movesEarly, h]) fun _ => rfl
theorem exec_Bset : Final (loadsEarly .Bset op) (movesEarly .Bset op) (flagsEarly .Bset op) (writesEarly .Bset op) (Spec.exec C .Bset op : Exec M Nat) := by
  simp only [Spec.exec]
  exact bitInstr _ _ _ _ _ _ _ (fun n h => by simp [movesEarly, h]) fun _ => rfl
theorem exec_Btst : Final (loadsEarly .Btst op) (movesEarly .Btst op) (flagsEarly .Btst op) (writesEarly .Btst op) (Spec.exec C .Btst op : Exec M Nat) := by
  simp only [Spec.exec]
  exact bitInstr _ _ _ _ _ _ _ (fun n h => by simp [movesEarly, h]) fun h => absurd rfl h
theorem exec_Asr : Final (loadsEarly .Asr op) (movesEarly .Asr op) (flagsEarly .Asr op) (writesEarly .Asr op) (Spec.exec C .Asr op : Exec M Nat) := by
  simp only [Spec.exec]
  exact shiftInstr _ _ _ _ _ _
theorem exec_Lsr : Final (loadsEarly .Lsr op) (movesEarly .Lsr op) (flagsEarly .Lsr op) (writesEarly .Lsr op) (Spec.exec C .Lsr op : Exec M Nat) := by
  simp only [Spec.exec]
  exact shiftInstr _ _ _ _ _ _
theorem exec_Ror : Final (loadsEarly .Ror op) (movesEarly .Ror op) (flagsEarly .Ror op) (writesEarly .Ror op) (Spec.exec C .Ror op : Exec M Nat) := by
  simp only [Spec.exec]
  exact shiftInstr _ _ _ _ _ _
theorem exec_Roxr : Final (loadsEarly .Roxr op) (movesEarly .Roxr op) (flagsEarly .Roxr op) (writesEarly .Roxr op) (Spec.exec C .Roxr op : Exec M Nat) := by
  simp only [Spec.exec]
  exact shiftInstr _ _ _ _ _ _
theorem exec_Asm : Final (loadsEarly .Asm op) (movesEarly .Asm op) (flagsEarly .Asm op) (writesEarly .Asm op) (Spec.exec C .Asm op : Exec M Nat) := by
  simp only [Spec.exec]
  exact shiftMem _ _ _ _ _ (fun n h => by simp [movesEarly, h]) rfl (fun j v => keeps_asl j v) (fun j v => keeps_asr j v)
theorem exec_Lsm : Final (loadsEarly .Lsm op) (movesEarly .Lsm op) (flagsEarly .Lsm op) (writesEarly .Lsm op) (Spec.exec C .Lsm op : Exec M Nat) := by
  simp only [Spec.exec]
  exact shiftMem _ _ _ _ _ (fun n h => by simp [movesEarly, h]) rfl (fun j v => keeps_lsl j v) (fun j v => keeps_lsr j v)
theorem exec_Rom : Final (loadsEarly .Rom op) (movesEarly .Rom op) (flagsEarly .Rom op) (writesEarly .Rom op) (Spec.exec C .Rom op : Exec M Nat) := by
  simp only [Spec.exec]
  exact shiftMem _ _ _ _ _ (fun n h => by simp [movesEarly, h]) rfl (fun j v => keeps_rol j v) (fun j v => keeps_ror j v)
theorem exec_Roxm : Final (loadsEarly .Roxm op) (movesEarly .Roxm op) (flagsEarly .Roxm op) (writesEarly .Roxm op) (Spec.exec C .Roxm op : Exec M Nat) := by
  simp only [Spec.exec]
  exact shiftMem _ _ _ _ _ (fun n h => by simp [movesEarly, h]) rfl (fun j v => keeps_roxl j v) (fun j v => keeps_roxr j v)
theorem exec_Move : Final (loadsEarly .Move op) (movesEarly .Move op) (flagsEarly .Move op) (writesEarly .Move op) (Spec.exec C .Move op : Exec M Nat) := by
  simp only [Spec.exec]
  refine moveSized fun sz => fetchEa _ fun m hm => fetchMode _ _ _ fun m' hm' => cost ?_
  have e9 : ∀ n : Fin 8, n.val = (regField op 9).val → n = regField op 9 := fun n h => Fin.ext h
  have e6 : (regField op 6).val = op.toNat / 64 % 8 := by simp [regField, Fin.ofNat]
  rw [e6] at hm'
  refine bind (Sound.read _ _ (Within.step_fits hm (fun n h => by simp [movesEarly, h]))) fun _ => last (write _ _ (fun n e => ?_) _) fun _ => NoFault.flags _
  rcases e with rfl | rfl <;> simp only [Fits] at hm' <;> simp [movesEarly, hm'.1, e9 n hm'.2]
theorem exec_Movea : Final (loadsEarly .Movea op) (movesEarly .Movea op) (flagsEarly .Movea op) (writesEarly .Movea op) (Spec.exec C .Movea op : Exec M Nat) := by
  simp only [Spec.exec]
  exact moveSized fun sz => fetchEa _ fun m hm => cost (bind (Sound.readExt _ _ (Within.step_fits hm (fun n h => by simp [movesEarly, h]))) fun _ => noFault (NoFault.updateA _ _))
theorem exec_Moveq : Final (loadsEarly .Moveq op) (movesEarly .Moveq op) (flagsEarly .Moveq op) (writesEarly .Moveq op) (Spec.exec C .Moveq op : Exec M Nat) := by
  simp only [Spec.exec]
  exact cost (noFault fun _ => trivial)
theorem exec_Movem : Final (loadsEarly .Movem op) (movesEarly .Movem op) (flagsEarly .Movem op) (writesEarly .Movem op) (Spec.exec C .Movem op : Exec M Nat) := by
  simp only [Spec.exec]
  exact bind Sound.fetch fun _ => fetchEa _ fun m hm => cost (movem _ (by unfold sizeBit; split <;> exact fun h => by cases h) _ hm)
theorem exec_Movep : Final (loadsEarly .Movep op) (movesEarly .Movep op) (flagsEarly .Movep op) (writesEarly .Movep op) (Spec.exec C .Movep op : Exec M Nat) := by
  simp only [Spec.exec]
  exact bind Sound.fetch fun _ => cost (movep _ _ _ _ _ (fun h => by simp [loadsEarly, h]) (fun h => by simp [writesEarly, h]))
theorem exec_Exg : Final (loadsEarly .Exg op) (movesEarly .Exg op) (flagsEarly .Exg op) (writesEarly .Exg op) (Spec.exec C .Exg op : Exec M Nat) := by
  simp only [Spec.exec]
  refine cost ?_
  unfold Spec.exg
  split <;> exact noFault fun _ => trivial
theorem exec_Ext : Final (loadsEarly .Ext op) (movesEarly .Ext op) (flagsEarly .Ext op) (writesEarly .Ext op) (Spec.exec C .Ext op : Exec M Nat) := by
  simp only [Spec.exec]
  exact cost (noFault fun _ => trivial)
theorem exec_Swap : Final (loadsEarly .Swap op) (movesEarly .Swap op) (flagsEarly .Swap op) (writesEarly .Swap op) (Spec.exec C .Swap op : Exec M Nat) := by
  simp only [Spec.exec]
  exact cost (noFault fun _ => trivial)
theorem exec_Lea : Final (loadsEarly .Lea op) (movesEarly .Lea op) (flagsEarly .Lea op) (writesEarly .Lea op) (Spec.exec C .Lea op : Exec M Nat) := by
  simp only [Spec.exec]
  exact fetchEa _ fun m _ => noFault (NoFault.bind (NoFault.control _) fun _ => NoFault.cost (NoFault.updateA _ _))
theorem exec_Pea : Final (loadsEarly .Pea op) (movesEarly .Pea op) (flagsEarly .Pea op) (writesEarly .Pea op) (Spec.exec C .Pea op : Exec M Nat) := by
  simp only [Spec.exec]
  exact fetchEa _ fun m _ => bind (control _) fun _ => cost (push _ _ rfl)
theorem exec_Link : Final (loadsEarly .Link op) (movesEarly .Link op) (flagsEarly .Link op) (writesEarly .Link op) (Spec.exec C .Link op : Exec M Nat) := by
  simp only [Spec.exec]
  exact bind Sound.fetch fun _ => cost (bind (Sound.getR _) fun _ => last (push _ _ rfl) fun _ => fun _ => trivial)
theorem exec_Unlk : Final (loadsEarly .Unlk op) (movesEarly .Unlk op) (flagsEarly .Unlk op) (writesEarly .Unlk op) (Spec.exec C .Unlk op : Exec M Nat) := by
  simp only [Spec.exec]
  exact cost (bind (Sound.areg 7 _ rfl) fun _ => bind (Sound.pop _ rfl) fun _ => noFault (NoFault.updateA _ _))
theorem exec_Bcc : Final (loadsEarly .Bcc op) (movesEarly .Bcc op) (flagsEarly .Bcc op) (writesEarly .Bcc op) (Spec.exec C .Bcc op : Exec M Nat) := by
  simp only [Spec.exec]
  exact bind (Sound.getR _) fun _ => bind (Sound.fetchDisp _) fun _ => noFault (NoFault.map _ (NoFault.bind (NoFault.getR _) fun x => NoFault.ite (NoFault.bind (NoFault.jump _) fun _ => NoFault.pure _) (NoFault.pure _)))
theorem exec_Bra : Final (loadsEarly .Bra op) (movesEarly .Bra op) (flagsEarly .Bra op) (writesEarly .Bra op) (Spec.exec C .Bra op : Exec M Nat) := by
  simp only [Spec.exec]
  exact bind (Sound.getR _) fun _ => bind (Sound.fetchDisp _) fun _ => noFault (NoFault.cost (NoFault.jump _))
theorem exec_Bsr : Final (loadsEarly .Bsr op) (movesEarly .Bsr op) (flagsEarly .Bsr op) (writesEarly .Bsr op) (Spec.exec C .Bsr op : Exec M Nat) := by
  simp only [Spec.exec]
  exact bind (Sound.getR _) fun _ => bind (Sound.fetchDisp _) fun _ => cost (bind (Sound.getR _) fun _ => last (push _ _ rfl) fun _ => NoFault.jump _)
theorem exec_Dbcc : Final (loadsEarly .Dbcc op) (movesEarly .Dbcc op) (flagsEarly .Dbcc op) (writesEarly .Dbcc op) (Spec.exec C .Dbcc op : Exec M Nat) := by
  simp only [Spec.exec]
  exact bind (Sound.getR _) fun _ => bind Sound.fetch fun _ => noFault (NoFault.map _ (NoFault.bind (NoFault.getR _) fun x => NoFault.ite (NoFault.pure _) (NoFault.bind (NoFault.getR _) fun _ => NoFault.bind (NoFault.modR _) fun _ => NoFault.ite (NoFault.pure _) (NoFault.bind (NoFault.jump _) fun _ => NoFault.pure _))))
theorem exec_Jmp : Final (loadsEarly .Jmp op) (movesEarly .Jmp op) (flagsEarly .Jmp op) (writesEarly .Jmp op) (Spec.exec C .Jmp op : Exec M Nat) := by
  simp only [Spec.exec]
  exact fetchEa _ fun m _ => noFault (NoFault.bind (NoFault.control _) fun _ => NoFault.cost (NoFault.jump _))
theorem exec_Jsr : Final (loadsEarly .Jsr op) (movesEarly .Jsr op) (flagsEarly .Jsr op) (writesEarly .Jsr op) (Spec.exec C .Jsr op : Exec M Nat) := by
  simp only [Spec.exec]
  exact fetchEa _ fun m _ => cost (bind (Sound.getR _) fun _ => last (push _ _ rfl) fun _ => NoFault.bind (NoFault.control _) fun _ => NoFault.jump _)
theorem exec_Rts : Final (loadsEarly .Rts op) (movesEarly .Rts op) (flagsEarly .Rts op) (writesEarly .Rts op) (Spec.exec C .Rts op : Exec M Nat) := by
  simp only [Spec.exec]
  exact cost (bind (Sound.pop _ rfl) fun _ => noFault (NoFault.jump _))
theorem exec_Rtr : Final (loadsEarly .Rtr op) (movesEarly .Rtr op) (flagsEarly .Rtr op) (writesEarly .Rtr op) (Spec.exec C .Rtr op : Exec M Nat) := by
  simp only [Spec.exec]
  refine cost (bind (Sound.pop _ rfl) fun w => bind (Sound.flags _ rfl fun sr h => ⟨rfl, rfl, ?_⟩) fun _ => bind (Sound.pop _ rfl) fun _ => noFault (NoFault.jump _))
  show BitVec.ofNat 8 (sr.interruptMask.toNat % 8) = sr.interruptMask
  rw [Nat.mod_eq_of_lt h, BitVec.ofNat_toNat, BitVec.setWidth_eq]
theorem exec_Rte : Final (loadsEarly .Rte op) (movesEarly .Rte op) (flagsEarly .Rte op) (writesEarly .Rte op) (Spec.exec C .Rte op : Exec M Nat) := by
  simp only [Spec.exec]
  exact map _ (rte _ rfl)
theorem exec_Nop : Final (loadsEarly .Nop op) (movesEarly .Nop op) (flagsEarly .Nop op) (writesEarly .Nop op) (Spec.exec C .Nop op : Exec M Nat) := by
  simp only [Spec.exec]
  exact noFault (NoFault.pure _)
theorem exec_Chk : Final (loadsEarly .Chk op) (movesEarly .Chk op) (flagsEarly .Chk op) (writesEarly .Chk op) (Spec.exec C .Chk op : Exec M Nat) := by
  simp only [Spec.exec]
  refine fetchEa _ fun m hm => cost (bind (Sound.read _ _ (Within.step_fits hm (fun n h => by simp [movesEarly, h]))) fun _ => bind (Sound.getR _) fun _ => ?_)
  split
  · exact sound (Sound.trap _)
  · exact sound (Sound.pure _)
theorem exec_Trap : Final (loadsEarly .Trap op) (movesEarly .Trap op) (flagsEarly .Trap op) (writesEarly .Trap op) (Spec.exec C .Trap op : Exec M Nat) := by
  simp only [Spec.exec]
  exact cost (sound (Sound.trap _))
theorem exec_Trapv : Final (loadsEarly .Trapv op) (movesEarly .Trapv op) (flagsEarly .Trapv op) (writesEarly .Trapv op) (Spec.exec C .Trapv op : Exec M Nat) := by
  simp only [Spec.exec]
  refine bind (Sound.getR _) fun v => ?_
  split
  · exact sound (Sound.trap _)
  · exact sound (Sound.pure _)
theorem exec_Andiccr : Final (loadsEarly .Andiccr op) (movesEarly .Andiccr op) (flagsEarly .Andiccr op) (writesEarly .Andiccr op) (Spec.exec C .Andiccr op : Exec M Nat) := by
  simp only [Spec.exec]
  exact bind Sound.fetch fun _ => noFault (NoFault.cost (NoFault.flags _))
theorem exec_Oriccr : Final (loadsEarly .Oriccr op) (movesEarly .Oriccr op) (flagsEarly .Oriccr op) (writesEarly .Oriccr op) (Spec.exec C .Oriccr op : Exec M Nat) := by
  simp only [Spec.exec]
  exact bind Sound.fetch fun _ => noFault (NoFault.cost (NoFault.flags _))
theorem exec_Eoriccr : Final (loadsEarly .Eoriccr op) (movesEarly .Eoriccr op) (flagsEarly .Eoriccr op) (writesEarly .Eoriccr op) (Spec.exec C .Eoriccr op : Exec M Nat) := by
  simp only [Spec.exec]
  exact bind Sound.fetch fun _ => noFault (NoFault.cost (NoFault.flags _))
theorem exec_Andisr : Final (loadsEarly .Andisr op) (movesEarly .Andisr op) (flagsEarly .Andisr op) (writesEarly .Andisr op) (Spec.exec C .Andisr op : Exec M Nat) := by
  simp only [Spec.exec]
  exact bind Sound.fetch fun _ => bind Sound.privileged fun _ => noFault (NoFault.cost (NoFault.flags _))
theorem exec_Orisr : Final (loadsEarly .Orisr op) (movesEarly .Orisr op) (flagsEarly .Orisr op) (writesEarly .Orisr op) (Spec.exec C .Orisr op : Exec M Nat) := by
  simp only [Spec.exec]
  exact bind Sound.fetch fun _ => bind Sound.privileged fun _ => noFault (NoFault.cost (NoFault.flags _))
theorem exec_Eorisr : Final (loadsEarly .Eorisr op) (movesEarly .Eorisr op) (flagsEarly .Eorisr op) (writesEarly .Eorisr op) (Spec.exec C .Eorisr op : Exec M Nat) := by
  simp only [Spec.exec]
  exact bind Sound.fetch fun _ => bind Sound.privileged fun _ => noFault (NoFault.cost (NoFault.flags _))
theorem exec_Moveccr : Final (loadsEarly .Moveccr op) (movesEarly .Moveccr op) (flagsEarly .Moveccr op) (writesEarly .Moveccr op) (Spec.exec C .Moveccr op : Exec M Nat) := by
  simp only [Spec.exec]
  exact fetchEa _ fun m hm => bind (Sound.read _ _ (Within.step_fits hm (fun n h => by simp [movesEarly, h]))) fun _ => noFault (NoFault.cost (NoFault.flags _))
theorem exec_Movesr : Final (loadsEarly .Movesr op) (movesEarly .Movesr op) (flagsEarly .Movesr op) (writesEarly .Movesr op) (Spec.exec C .Movesr op : Exec M Nat) := by
  simp only [Spec.exec]
  exact fetchEa _ fun m hm => bind Sound.privileged fun _ => bind (Sound.read _ _ (Within.step_fits hm (fun n h => by simp [movesEarly, h]))) fun _ => noFault (NoFault.cost (NoFault.flags _))
theorem exec_Movefsr : Final (loadsEarly .Movefsr op) (movesEarly .Movefsr op) (flagsEarly .Movefsr op) (writesEarly .Movefsr op) (Spec.exec C .Movefsr op : Exec M Nat) := by
  simp only [Spec.exec]
  exact fetchEa _ fun m hm => bind (Sound.getR _) fun _ => cost (write _ _ (Within.step_fits hm (fun n h => by simp [movesEarly, h])) _)
theorem exec_Moveusp : Final (loadsEarly .Moveusp op) (movesEarly .Moveusp op) (flagsEarly .Moveusp op) (writesEarly .Moveusp op) (Spec.exec C .Moveusp op : Exec M Nat) := by
  simp only [Spec.exec]
  exact cost (bind Sound.privileged fun _ => noFault (NoFault.ite (NoFault.modR _) (NoFault.modR _)))
theorem exec_Stop : Final (loadsEarly .Stop op) (movesEarly .Stop op) (flagsEarly .Stop op) (writesEarly .Stop op) (Spec.exec C .Stop op : Exec M Nat) := by
  simp only [Spec.exec]
  exact bind Sound.fetch fun _ => cost (bind Sound.privileged fun _ => noFault (NoFault.bind (NoFault.flags _) fun _ => NoFault.halt))
theorem exec_Reset : Final (loadsEarly .Reset op) (movesEarly .Reset op) (flagsEarly .Reset op) (writesEarly .Reset op) (Spec.exec C .Reset op : Exec M Nat) := by
  simp only [Spec.exec]
  exact cost (bind Sound.privileged fun _ => noFault NoFault.signalReset)
end Final

/-- Every instruction fails as `Left` says. -/
theorem final_exec {M : Type} [MemoryAccess M] (C : CpuDetails) (op : U16) (i : Isa) :
    Final (loadsEarly i op) (movesEarly i op) (flagsEarly i op) (writesEarly i op) (Spec.exec C i op : Exec M Nat) := by
  cases i with
  | Unknown => exact Final.exec_Unknown C op
  | Illegal => exact Final.exec_Illegal C op
  | Add => exact Final.exec_Add C op
  | Sub => exact Final.exec_Sub C op
  | And => exact Final.exec_And C op
  | Or => exact Final.exec_Or C op
  | Addi => exact Final.exec_Addi C op
  | Subi => exact Final.exec_Subi C op
  | Andi => exact Final.exec_Andi C op
  | Ori => exact Final.exec_Ori C op
  | Eori => exact Final.exec_Eori C op
  | Adda => exact Final.exec_Adda C op
  | Suba => exact Final.exec_Suba C op
  | Cmpa => exact Final.exec_Cmpa C op
  | Addq => exact Final.exec_Addq C op
  | Subq => exact Final.exec_Subq C op
  | Addx => exact Final.exec_Addx C op
  | Subx => exact Final.exec_Subx C op
  | Abcd => exact Final.exec_Abcd C op
  | Sbcd => exact Final.exec_Sbcd C op
  | Nbcd => exact Final.exec_Nbcd C op
  | Tas => exact Final.exec_Tas C op
  | Neg => exact Final.exec_Neg C op
  | Negx => exact Final.exec_Negx C op
  | Not => exact Final.exec_Not C op
  | Cmp => exact Final.exec_Cmp C op
  | Cmpi => exact Final.exec_Cmpi C op
  | Cmpm => exact Final.exec_Cmpm C op
  | Mulu => exact Final.exec_Mulu C op
  | Muls => exact Final.exec_Muls C op
  | Divu => exact Final.exec_Divu C op
  | Divs => exact Final.exec_Divs C op
  | Eor => exact Final.exec_Eor C op
  | Tst => exact Final.exec_Tst C op
  | Clr => exact Final.exec_Clr C op
  | Scc => exact Final.exec_Scc C op
  | Bchg => exact Final.exec_Bchg C op
  | Bclr => exact Final.exec_Bclr C op
  | Bset => exact Final.exec_Bset C op
  | Btst => exact Final.exec_Btst C op
  | Asr => exact Final.exec_Asr C op
  | Lsr => exact Final.exec_Lsr C op
  | Ror => exact Final.exec_Ror C op
  | Roxr => exact Final.exec_Roxr C op
  | Asm => exact Final.exec_Asm C op
  | Lsm => exact Final.exec_Lsm C op
  | Rom => exact Final.exec_Rom C op
  | Roxm => exact Final.exec_Roxm C op
  | Move => exact Final.exec_Move C op
  | Movea => exact Final.exec_Movea C op
  | Moveq => exact Final.exec_Moveq C op
  | Movem => exact Final.exec_Movem C op
  | Movep => exact Final.exec_Movep C op
  | Exg => exact Final.exec_Exg C op
  | Ext => exact Final.exec_Ext C op
  | Swap => exact Final.exec_Swap C op
  | Lea => exact Final.exec_Lea C op
  | Pea => exact Final.exec_Pea C op
  | Link => exact Final.exec_Link C op
  | Unlk => exact Final.exec_Unlk C op
  | Bcc => exact Final.exec_Bcc C op
  | Bra => exact Final.exec_Bra C op
  | Bsr => exact Final.exec_Bsr C op
  | Dbcc => exact Final.exec_Dbcc C op
  | Jmp => exact Final.exec_Jmp C op
  | Jsr => exact Final.exec_Jsr C op
  | Rts => exact Final.exec_Rts C op
  | Rtr => exact Final.exec_Rtr C op
  | Rte => exact Final.exec_Rte C op
  | Nop => exact Final.exec_Nop C op
  | Chk => exact Final.exec_Chk C op
  | Trap => exact Final.exec_Trap C op
  | Trapv => exact Final.exec_Trapv C op
  | Andiccr => exact Final.exec_Andiccr C op
  | Oriccr => exact Final.exec_Oriccr C op
  | Eoriccr => exact Final.exec_Eoriccr C op
  | Andisr => exact Final.exec_Andisr C op
  | Orisr => exact Final.exec_Orisr C op
  | Eorisr => exact Final.exec_Eorisr C op
  | Moveccr => exact Final.exec_Moveccr C op
  | Movesr => exact Final.exec_Movesr C op
  | Movefsr => exact Final.exec_Movefsr C op
  | Moveusp => exact Final.exec_Moveusp C op
  | Stop => exact Final.exec_Stop C op
  | Reset => exact Final.exec_Reset C op

/-! ### The program counter of a branch that fails -/

/-- An action that fails, if it does, with the program counter as before. -/
def ErrPc {M α : Type} (x : Exec M α) : Prop := ∀ s,
  match x s with
  | .err _ s' => s'.cpu.regs.pc = s.cpu.regs.pc
  | _ => True

namespace ErrPc
variable {M : Type} [MemoryAccess M] {α β : Type}
theorem noFault {x : Exec M α} (h : NoFault x) : ErrPc x := by
  intro s
  have h1 := h s
  cases hx : x s <;> rw [hx] at h1 <;> first | exact h1.elim | trivial
theorem bind {x : Exec M α} {g : α → Exec M β} (hx : KeepsPc x) (hf : ∀ a, ErrPc (g a)) : ErrPc (x >>= g) := by
  intro s
  have h1 := hx s
  rw [Exec.bind_apply]
  cases hxs : x s with
  | ok a s' =>
    rw [hxs] at h1
    have h2 := hf a s'
    simp only at h1 ⊢
    cases hfs : g a s' with
    | ok b s'' => trivial
    | err v s'' => rw [hfs] at h2; exact h2.trans h1
    | panic => trivial
  | err v s' => rw [hxs] at h1; exact h1
  | panic => trivial
theorem map (g : α → β) {x : Exec M α} (hx : ErrPc x) : ErrPc (g <$> x) := by
  intro s
  rw [Exec.map_apply]
  have h1 := hx s
  cases hxs : x s <;> rw [hxs] at h1 <;> first | exact h1 | trivial
theorem cost {x : Exec M α} {t : Nat} (hx : ErrPc x) : ErrPc (cost x t) := hx.map _

theorem push (sz : Size) (v : Val sz) : KeepsPc (push sz v : Exec M _) := legal_keepsPc.push trivial sz v
theorem pop (sz : Size) : KeepsPc (pop sz : Exec M _) := legal_keepsPc.pop trivial sz

theorem exec (C : CpuDetails) (op : U16) (i : Isa) (hb : branches i = true) (hl : legalCheck i op.toNat = true) (hr : i = .Rte → C.STACK_FORMAT = .MC68000) :
    Split (extensionWords i op) ErrPc (Spec.exec C i op : Exec M Nat) := by
  cases i with
  | Bcc =>
    simp only [Spec.exec, extensionWords]
    exact Split.bind' Pre.getR fun _ _ => Split.last (Pre.fetchDisp op) fun _ _ => noFault (NoFault.map _ (NoFault.bind (NoFault.getR _) fun x =>
      NoFault.ite (NoFault.bind (NoFault.jump _) fun _ => NoFault.pure _) (NoFault.pure _)))
  | Bra =>
    simp only [Spec.exec, extensionWords]
    exact Split.bind' Pre.getR fun _ _ => Split.last (Pre.fetchDisp op) fun _ _ => noFault (NoFault.cost (NoFault.jump _))
  | Bsr =>
    simp only [Spec.exec, extensionWords]
    exact Split.bind' Pre.getR fun _ _ => Split.last (Pre.fetchDisp op) fun _ _ =>
      cost (bind (legal_keepsPc.getR _) fun _ => bind (push _ _) fun _ => noFault (NoFault.jump _))
  | Dbcc =>
    simp only [Spec.exec, extensionWords]
    exact Split.bind' Pre.getR fun _ _ => Split.last Pre.fetch fun _ _ => noFault (NoFault.map _ (NoFault.bind (NoFault.getR _) fun x =>
      NoFault.ite (NoFault.pure _) (NoFault.bind (NoFault.getR _) fun _ => NoFault.bind (NoFault.modR _) fun _ => NoFault.ite (NoFault.pure _) (NoFault.bind (NoFault.jump _) fun _ => NoFault.pure _))))
  | Jmp =>
    simp only [legalCheck, Bool.and_eq_true, Bool.or_eq_true, bne_iff_ne, decide_eq_true_eq] at hl
    simp only [Spec.exec, extensionWords]
    refine Split.last (pre_ea' op ?_) fun m hm => noFault (NoFault.bind (NoFault.control _) fun _ => NoFault.cost (NoFault.jump _))
    have h1 := hl.1.1
    simp only [eaInMemory, Bool.and_eq_true, Bool.or_eq_true, decide_eq_true_eq, beq_iff_eq] at h1
    omega
  | Jsr =>
    simp only [legalCheck, Bool.and_eq_true, Bool.or_eq_true, bne_iff_ne, decide_eq_true_eq] at hl
    simp only [Spec.exec, extensionWords]
    refine Split.last (pre_ea' op ?_) fun m hm => cost (bind (legal_keepsPc.getR _) fun _ => bind (push _ _) fun _ => noFault (NoFault.bind (NoFault.control _) fun _ => NoFault.jump _))
    have h1 := hl.1.1
    simp only [eaInMemory, Bool.and_eq_true, Bool.or_eq_true, decide_eq_true_eq, beq_iff_eq] at h1
    omega
  | Rts =>
    simp only [Spec.exec, extensionWords]
    exact Split.here (cost (bind (pop _) fun _ => noFault (NoFault.jump _)))
  | Rtr =>
    simp only [Spec.exec, extensionWords]
    exact Split.here (cost (bind (pop _) fun _ => bind (legal_keepsPc.flags _) fun _ => bind (pop _) fun _ => noFault (NoFault.jump _)))
  | Rte =>
    simp only [Spec.exec, extensionWords, hr rfl]
    exact Split.here (map _ (bind (legal_keepsPc.privileged) fun _ => bind (pop _) fun _ => bind (pop _) fun _ => noFault (fun _ => trivial)))
  | _ => cases hb
end ErrPc
end Exec
end M68k
