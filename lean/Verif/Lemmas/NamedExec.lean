import Verif.Lemmas.Named
/-
The registers each instruction changes.
-/
set_option linter.unusedSectionVars false
namespace M68k
namespace Exec
open Spec
namespace Within
variable {M : Type} [MemoryAccess M] {α β : Type} {b : Fin 8 → Nat} {c : Fin 8 → Bool} {op : U16}

theorem fetchEa (sz : Option Size) {f : Mode → Exec M β} (hf : ∀ m, Fits (op.toNat / 8 % 8) (op.toNat % 8) m → Within b c (f m)) :
    Within b c (fetchEa sz op >>= f) := by
  have e0 : (regField op 0).val = op.toNat % 8 := by simp [regField, Fin.ofNat]
  have e3 : (regField op 3).val = op.toNat / 8 % 8 := by simp [regField, Fin.ofNat]
  exact fetchMode sz _ _ fun m hm => hf m (by rwa [e0, e3] at hm)

theorem step_fits {m : Mode} (hm : Fits (op.toNat / 8 % 8) (op.toNat % 8) m) (h : ∀ n, eaSteps op n = true → c n = true) : StepOk c m := by
  intro n e
  apply h
  unfold eaSteps eaIs
  rcases e with rfl | rfl <;> simp only [Fits] at hm <;> simp [hm.1, hm.2]

theorem dest_fits {sz : Size} {m : Mode} (hm : Fits (op.toNat / 8 % 8) (op.toNat % 8) m) (h : ∀ n, eaSteps op n = true → c n = true)
    (h1 : ∀ n, eaIs 1 op n = true → c n = true) (h0 : ∀ n, eaIs 0 op n = true → width sz ≤ b n) : DestOk b c sz m := by
  refine ⟨step_fits hm h, fun n e => h0 n ?_, fun n e => h1 n ?_⟩
  · subst e; simp only [Fits] at hm; simp [eaIs, hm.1, hm.2]
  · subst e; simp only [Fits] at hm; simp [eaIs, hm.1, hm.2]

theorem sized {f : Size → Exec M Nat} (hf : ∀ sz, width sz = sizedBits op → Within b c (f sz)) : Within b c (sized op f) := by
  unfold Spec.sized
  split
  · exact hf _ (by simp [sizedBits, *])
  · split
    · exact hf _ (by simp [sizedBits, *])
    · split
      · exact hf _ (by simp [sizedBits, *])
      · exact crash

theorem moveSized {f : Size → Exec M Nat} (hf : ∀ sz, width sz = moveBits op → Within b c (f sz)) : Within b c (moveSized op f) := by
  unfold Spec.moveSized
  split
  · exact hf _ (by simp [moveBits, *])
  · split
    · exact hf _ (by simp [moveBits, *])
    · split
      · exact hf _ (by simp [moveBits, *])
      · exact crash

theorem le_bitsIf {x : Bool} {k j : Nat} (hx : x = true) (h : k ≤ j) : k ≤ bitsIf x j := by subst hx; exact h

variable (C : CpuDetails)

theorem binary (op : U16) (f : {n : Nat} → BitVec n → BitVec n → StatusRegister → BitVec n × StatusRegister) (t1 t2 t3 t4 t5 : Nat)
    (hs : ∀ n, eaSteps op n = true → c n = true) (h1 : ∀ n, eaIs 1 op n = true → c n = true)
    (h0 : flag op 8 = true → ∀ n, eaIs 0 op n = true → sizedBits op ≤ b n) (h9 : flag op 8 = false → sizedBits op ≤ b (regField op 9)) :
    Within b c (binary C op f t1 t2 t3 t4 t5 : Exec M Nat) := by
  refine sized fun sz hsz => fetchEa _ fun m hm => ?_
  split
  · exact cost (opToEa _ _ _ (dest_fits hm hs h1 (by rw [hsz]; exact h0 ‹_›)) _)
  · exact cost (opToDn _ _ _ (step_fits hm hs) (by rw [hsz]; exact h9 (by simp_all)) _)

theorem immediate (op : U16) (f : {n : Nat} → BitVec n → BitVec n → StatusRegister → BitVec n × StatusRegister) (t1 t2 t3 t4 : Nat)
    (hs : ∀ n, eaSteps op n = true → c n = true) (h1 : ∀ n, eaIs 1 op n = true → c n = true)
    (h0 : ∀ n, eaIs 0 op n = true → sizedBits op ≤ b n) : Within b c (immediate C op f t1 t2 t3 t4 : Exec M Nat) :=
  sized fun sz hsz => bind (fetchImm _) fun _ => fetchEa _ fun m hm => cost (rmw _ _ (dest_fits hm hs h1 (by rw [hsz]; exact h0)) _)

theorem unary (op : U16) (t1 t2 t3 t4 : Nat) (x : (sz : Size) → Mode → Exec M Unit) (hs : ∀ n, eaSteps op n = true → c n = true)
    (h1 : ∀ n, eaIs 1 op n = true → c n = true) (h0 : ∀ n, eaIs 0 op n = true → sizedBits op ≤ b n)
    (hx : ∀ sz m, DestOk b c sz m → Within b c (x sz m)) : Within b c (unary C op t1 t2 t3 t4 x : Exec M Nat) :=
  sized fun sz hsz => fetchEa _ fun m hm => cost (hx _ _ (dest_fits hm hs h1 (by rw [hsz]; exact h0)))

theorem bitOp (o : BitOp) (i : Nat) (m : Mode) (hs : StepOk c m) (h : o ≠ .test → DestOk b c .Long m) : Within b c (bitOp o i m : Exec M Unit) := by
  unfold Spec.bitOp
  split
  · exact bitOpAt _ _ _ _ hs h
  · exact bitOpAt _ _ _ _ hs fun ho => ⟨hs, fun n e => Nat.le_trans (by decide) ((h ho).2.1 n e), (h ho).2.2⟩

theorem bitInstr (op : U16) (o : BitOp) (t1 t2 t3 t4 : Nat) (hs : ∀ n, eaSteps op n = true → c n = true)
    (h1 : o ≠ .test → ∀ n, eaIs 1 op n = true → c n = true) (h0 : o ≠ .test → ∀ n, eaIs 0 op n = true → 32 ≤ b n) :
    Within b c (bitInstr C op o t1 t2 t3 t4 : Exec M Nat) := by
  unfold Spec.bitInstr
  split
  · exact fetchEa _ fun m hm => bind (getR _) fun _ => cost (bitOp _ _ _ (step_fits hm hs) fun ho => dest_fits hm hs (h1 ho) (h0 ho))
  · exact bind fetch fun _ => fetchEa _ fun m hm => cost (bitOp _ _ _ (step_fits hm hs) fun ho => dest_fits hm hs (h1 ho) (h0 ho))

theorem shiftInstr (op : U16) (f g : {n : Nat} → Nat → BitVec n → StatusRegister → BitVec n × StatusRegister) (t1 t2 t3 : Nat)
    (h0 : sizedBits op ≤ b (regField op 0)) : Within b c (shiftInstr op f g t1 t2 t3 : Exec M Nat) := by
  refine sized fun sz hsz => map _ ?_
  split <;> exact shift _ _ _ _ _ (by rw [hsz]; exact h0)

theorem shiftMem (op : U16) (f g : Nat → BitVec 16 → StatusRegister → BitVec 16 × StatusRegister) (t : Nat)
    (hs : ∀ n, eaSteps op n = true → c n = true) (h1 : ∀ n, eaIs 1 op n = true → c n = true)
    (h0 : ∀ n, eaIs 0 op n = true → 16 ≤ b n) : Within b c (shiftMem C op f g t : Exec M Nat) :=
  fetchEa _ fun m hm => cost (rmw _ _ (dest_fits hm hs h1 h0) _)

theorem wordToDn (op : U16) (x : Fin 8 → Mode → Exec M Unit) (t : Nat) (hs : ∀ n, eaSteps op n = true → c n = true)
    (hx : ∀ m, StepOk c m → Within b c (x (regField op 9) m)) : Within b c (wordToDn C op x t : Exec M Nat) :=
  fetchEa _ fun m hm => cost (hx m (step_fits hm hs))

theorem exg (k : Direction) (x y : Fin 8) (h1 : k = .ExchangeData → 32 ≤ b x ∧ 32 ≤ b y) (h2 : k = .ExchangeAddress → c x = true ∧ c y = true)
    (h3 : k ≠ .ExchangeData → k ≠ .ExchangeAddress → 32 ≤ b x ∧ c y = true) : Within b c (exg k x y : Exec M Unit) := by
  unfold Spec.exg
  split
  · exact bind (x := Spec.getR (fun r => r.d x)) (f := fun v => (modR fun r => setDreg r x (r.d y)) >>= fun _ => modR fun r => setDreg r y v) (getR _)
      fun v => bind (dreg _ _ (h1 rfl).1) fun _ => dreg _ (fun _ => v) (h1 rfl).2
  · exact bind (x := Spec.getR (fun r => Spec.areg r y)) (f := fun v => (modR fun r => setAreg r y (Spec.areg r x)) >>= fun _ => modR fun r => setAreg r x v) (getR _)
      fun v => bind (areg _ _ (h2 rfl).2) fun _ => areg _ (fun _ => v) (h2 rfl).1
  · rename_i k' n1 n2
    have := h3 (fun e => n1 e) (fun e => n2 e)
    exact bind (x := Spec.getR (fun r => Spec.areg r y)) (f := fun v => (modR fun r => setAreg r y (r.d x)) >>= fun _ => modR fun r => setDreg r x v) (getR _)
      fun v => bind (areg _ _ this.2) fun _ => dreg _ (fun _ => v) this.1

theorem usp (n : Fin 8) (h : c 7 = true) : Within b c (modR fun r => { r with usp := Spec.areg r n } : Exec M Unit) :=
  fun _ => ⟨fun _ => rfl, fun _ _ => rfl, fun h7 => by rw [h] at h7; cases h7⟩

theorem privileged : Within b c (privileged : Exec M Unit) := by
  refine bind (getR _) fun s => ?_
  cases s
  · exact trap _
  · exact pure _

end Within
end Exec
end M68k

namespace M68k
namespace Exec
open Spec
variable {M : Type} [MemoryAccess M] (C : CpuDetails) (op : U16)
namespace Within
theorem exec_Unknown : Within (dataBits .Unknown op) (changesAddress .Unknown op) (Spec.exec C .Unknown op : Exec M Nat) := by
  simp only [Spec.exec]
  exact cost (trap _)
theorem exec_Illegal : Within (dataBits .Illegal op) (changesAddress .Illegal op) (Spec.exec C .Illegal op : Exec M Nat) := by
  simp only [Spec.exec]
  exact cost (trap _)
theorem exec_Add : Within (dataBits .Add op) (changesAddress .Add op) (Spec.exec C .Add op : Exec M Nat) := by
  simp only [Spec.exec]
  exact binary C op _ _ _ _ _ _ (fun n h => by simp [changesAddress, h]) (fun n h => by simp [changesAddress, h]) (fun h8 n h => by simp [dataBits, h8, h, bitsIf]) (fun h8 => by simp [dataBits, h8, bitsIf])
theorem exec_Sub : Within (dataBits .Sub op) (changesAddress .Sub op) (Spec.exec C .Sub op : Exec M Nat) := by
  simp only [Spec.exec]
  exact binary C op _ _ _ _ _ _ (fun n h => by simp [changesAddress, h]) (fun n h => by simp [changesAddress, h]) (fun h8 n h => by simp [dataBits, h8, h, bitsIf]) (fun h8 => by simp [dataBits, h8, bitsIf])
theorem exec_And : Within (dataBits .And op) (changesAddress .And op) (Spec.exec C .And op : Exec M Nat) := by
  simp only [Spec.exec]
  exact binary C op _ _ _ _ _ _ (fun n h => by simp [changesAddress, h]) (fun n h => by simp [changesAddress, h]) (fun h8 n h => by simp [dataBits, h8, h, bitsIf]) (fun h8 => by simp [dataBits, h8, bitsIf])
theorem exec_Or : Within (dataBits .Or op) (changesAddress .Or op) (Spec.exec C .Or op : Exec M Nat) := by
  simp only [Spec.exec]
  exact binary C op _ _ _ _ _ _ (fun n h => by simp [changesAddress, h]) (fun n h => by simp [changesAddress, h]) (fun h8 n h => by simp [dataBits, h8, h, bitsIf]) (fun h8 => by simp [dataBits, h8, bitsIf])
theorem exec_Addi : Within (dataBits .Addi op) (changesAddress .Addi op) (Spec.exec C .Addi op : Exec M Nat) := by
  simp only [Spec.exec]
  exact immediate C op _ _ _ _ _ (fun n h => by simp [changesAddress, h]) (fun n h => by simp [changesAddress, h]) (fun n h => by simp [dataBits, h, bitsIf])
theorem exec_Subi : Within (dataBits .Subi op) (changesAddress .Subi op) (Spec.exec C .Subi op : Exec M Nat) := by
  simp only [Spec.exec]
  exact immediate C op _ _ _ _ _ (fun n h => by simp [changesAddress, h]) (fun n h => by simp [changesAddress, h]) (fun n h => by simp [dataBits, h, bitsIf])
theorem exec_Andi : Within (dataBits .Andi op) (changesAddress .Andi op) (Spec.exec C .Andi op : Exec M Nat) := by
  simp only [Spec.exec]
  exact immediate C op _ _ _ _ _ (fun n h => by simp [changesAddress, h]) (fun n h => by simp [changesAddress, h]) (fun n h => by simp [dataBits, h, bitsIf])
theorem exec_Ori : Within (dataBits .Ori op) (changesAddress .Ori op) (Spec.exec C .Ori op : Exec M Nat) := by
  simp only [Spec.exec]
  exact immediate C op _ _ _ _ _ (fun n h => by simp [changesAddress, h]) (fun n h => by simp [changesAddress, h]) (fun n h => by simp [dataBits, h, bitsIf])
theorem exec_Eori : Within (dataBits .Eori op) (changesAddress .Eori op) (Spec.exec C .Eori op : Exec M Nat) := by
  simp only [Spec.exec]
  exact immediate C op _ _ _ _ _ (fun n h => by simp [changesAddress, h]) (fun n h => by simp [changesAddress, h]) (fun n h => by simp [dataBits, h, bitsIf])
theorem exec_Adda : Within (dataBits .Adda op) (changesAddress .Adda op) (Spec.exec C .Adda op : Exec M Nat) := by
  simp only [Spec.exec]
  exact fetchEa _ fun m hm => bind (readExt _ _ (step_fits hm (fun n h => by simp [changesAddress, h]))) fun _ => cost (updateA _ _ (by simp [changesAddress]))
theorem exec_Suba : Within (dataBits .Suba op) (changesAddress .Suba op) (Spec.exec C .Suba op : Exec M Nat) := by
  simp only [Spec.exec]
  exact fetchEa _ fun m hm => bind (readExt _ _ (step_fits hm (fun n h => by simp [changesAddress, h]))) fun _ => cost (updateA _ _ (by simp [changesAddress]))
theorem exec_Cmpa : Within (dataBits .Cmpa op) (changesAddress .Cmpa op) (Spec.exec C .Cmpa op : Exec M Nat) := by
  simp only [Spec.exec]
  exact fetchEa _ fun m hm => bind (readExt _ _ (step_fits hm (fun n h => by simp [changesAddress, h]))) fun _ => bind (getR _) fun _ => cost (flags _)
theorem exec_Addq : Within (dataBits .Addq op) (changesAddress .Addq op) (Spec.exec C .Addq op : Exec M Nat) := by
  simp only [Spec.exec]
  exact sized fun sz hsz => fetchEa _ fun m hm => cost (quickOp _ _ _ _ (dest_fits hm (fun n h => by simp [changesAddress, h]) (fun n h => by simp [changesAddress, h]) (fun n h => by rw [hsz]; simp [dataBits, h, bitsIf])))
theorem exec_Subq : Within (dataBits .Subq op) (changesAddress .Subq op) (Spec.exec C .Subq op : Exec M Nat) := by
  simp only [Spec.exec]
  exact sized fun sz hsz => fetchEa _ fun m hm => cost (quickOp _ _ _ _ (dest_fits hm (fun n h => by simp [changesAddress, h]) (fun n h => by simp [changesAddress, h]) (fun n h => by rw [hsz]; simp [dataBits, h, bitsIf])))
theorem exec_Addx : Within (dataBits .Addx op) (changesAddress .Addx op) (Spec.exec C .Addx op : Exec M Nat) := by
  simp only [Spec.exec]
  exact sized fun sz hsz => cost (pair _ _ _ _ (fun h => by simp [changesAddress, h]) (fun h => by rw [hsz]; simp [dataBits, h, bitsIf]) _)
theorem exec_Subx : Within (dataBits .Subx op) (changesAddress .Subx op) (Spec.exec C .Subx op : Exec M Nat) := by
  simp only [Spec.exec]
  exact sized fun sz hsz => cost (pair _ _ _ _ (fun h => by simp [changesAddress, h]) (fun h => by rw [hsz]; simp [dataBits, h, bitsIf]) _)
theorem exec_Abcd : Within (dataBits .Abcd op) (changesAddress .Abcd op) (Spec.exec C .Abcd op : Exec M Nat) := by
  simp only [Spec.exec]
  exact sized fun sz hsz => cost (pair .Byte _ _ _ (fun h => by simp [changesAddress, h]) (fun h => by simp [dataBits, h, bitsIf]) _)
theorem exec_Sbcd : Within (dataBits .Sbcd op) (changesAddress .Sbcd op) (Spec.exec C .Sbcd op : Exec M Nat) := by
  simp only [Spec.exec]
  exact sized fun sz hsz => cost (pair .Byte _ _ _ (fun h => by simp [changesAddress, h]) (fun h => by simp [dataBits, h, bitsIf]) _)
theorem exec_Nbcd : Within (dataBits .Nbcd op) (changesAddress .Nbcd op) (Spec.exec C .Nbcd op : Exec M Nat) := by
  simp only [Spec.exec]
  exact fetchEa _ fun m hm => cost (rmw .Byte _ (dest_fits hm (fun n h => by simp [changesAddress, h]) (fun n h => by simp [changesAddress, h]) (fun n h => by simp [dataBits, h, bitsIf])) _)
theorem exec_Tas : Within (dataBits .Tas op) (changesAddress .Tas op) (Spec.exec C .Tas op : Exec M Nat) := by
  simp only [Spec.exec]
  exact fetchEa _ fun m hm => cost (rmw .Byte _ (dest_fits hm (fun n h => by simp [changesAddress, h]) (fun n h => by simp [changesAddress, h]) (fun n h => by simp [dataBits, h, bitsIf])) _)
theorem exec_Neg : Within (dataBits .Neg op) (changesAddress .Neg op) (Spec.exec C .Neg op : Exec M Nat) := by
  simp only [Spec.exec]
  exact unary C op _ _ _ _ _ (fun n h => by simp [changesAddress, h]) (fun n h => by simp [changesAddress, h]) (fun n h => by simp [dataBits, h, bitsIf]) fun sz m hm => rmw _ _ hm _
theorem exec_Negx : Within (dataBits .Negx op) (changesAddress .Negx op) (Spec.exec C .Negx op : Exec M Nat) := by
  simp only [Spec.exec]
  exact unary C op _ _ _ _ _ (fun n h => by simp [changesAddress, h]) (fun n h => by simp [changesAddress, h]) (fun n h => by simp [dataBits, h, bitsIf]) fun sz m hm => rmw _ _ hm _
theorem exec_Not : Within (dataBits .Not op) (changesAddress .Not op) (Spec.exec C .Not op : Exec M Nat) := by
  simp only [Spec.exec]
  exact unary C op _ _ _ _ _ (fun n h => by simp [changesAddress, h]) (fun n h => by simp [changesAddress, h]) (fun n h => by simp [dataBits, h, bitsIf]) fun sz m hm => readPlace _ _ hm fun p v hp => bind (writeAt _ _ _ hp) fun _ => flags _
theorem exec_Cmp : Within (dataBits .Cmp op) (changesAddress .Cmp op) (Spec.exec C .Cmp op : Exec M Nat) := by
  simp only [Spec.exec]
  exact sized fun sz hsz => fetchEa _ fun m hm => bind (read _ _ (step_fits hm (fun n h => by simp [changesAddress, h]))) fun _ => bind (getR _) fun _ => cost (flags _)
theorem exec_Cmpi : Within (dataBits .Cmpi op) (changesAddress .Cmpi op) (Spec.exec C .Cmpi op : Exec M Nat) := by
  simp only [Spec.exec]
  exact sized fun sz hsz => bind (fetchImm _) fun _ => fetchEa _ fun m hm => bind (read _ _ (step_fits hm (fun n h => by simp [changesAddress, h]))) fun _ => cost (flags _)
theorem exec_Cmpm : Within (dataBits .Cmpm op) (changesAddress .Cmpm op) (Spec.exec C .Cmpm op : Exec M Nat) := by
  simp only [Spec.exec]
  exact sized fun sz hsz => cost (cmpm _ _ _ (by simp [changesAddress]) (by simp [changesAddress]))
theorem exec_Mulu : Within (dataBits .Mulu op) (changesAddress .Mulu op) (Spec.exec C .Mulu op : Exec M Nat) := by
  simp only [Spec.exec]
  exact wordToDn C op _ _ (fun n h => by simp [changesAddress, h]) fun m hm => mul _ _ _ hm (by simp [dataBits, bitsIf])
theorem exec_Muls : Within (dataBits .Muls op) (changesAddress .Muls op) (Spec.exec C .Muls op : Exec M Nat) := by
  simp only [Spec.exec]
  exact wordToDn C op _ _ (fun n h => by simp [changesAddress, h]) fun m hm => mul _ _ _ hm (by simp [dataBits, bitsIf])
theorem exec_Divu : Within (dataBits .Divu op) (changesAddress .Divu op) (Spec.exec C .Divu op : Exec M Nat) := by
  simp only [Spec.exec]
  exact wordToDn C op _ _ (fun n h => by simp [changesAddress, h]) fun m hm => divu _ _ hm (by simp [dataBits, bitsIf])
theorem exec_Divs : Within (dataBits .Divs op) (changesAddress .Divs op) (Spec.exec C .Divs op : Exec M Nat) := by
  simp only [Spec.exec]
  exact wordToDn C op _ _ (fun n h => by simp [changesAddress, h]) fun m hm => divs _ _ hm (by simp [dataBits, bitsIf])
theorem exec_Eor : Within (dataBits .Eor op) (changesAddress .Eor op) (Spec.exec C .Eor op : Exec M Nat) := by
  simp only [Spec.exec]
  exact sized fun sz hsz => fetchEa _ fun m hm => cost (opToEa _ _ _ (dest_fits hm (fun n h => by simp [changesAddress, h]) (fun n h => by simp [changesAddress, h]) (fun n h => by rw [hsz]; simp [dataBits, h, bitsIf])) _)
theorem exec_Tst : Within (dataBits .Tst op) (changesAddress .Tst op) (Spec.exec C .Tst op : Exec M Nat) := by
  simp only [Spec.exec]
  exact sized fun sz hsz => fetchEa _ fun m hm => bind (read _ _ (step_fits hm (fun n h => by simp [changesAddress, h]))) fun _ => cost (flags _)
theorem exec_Clr : Within (dataBits .Clr op) (changesAddress .Clr op) (Spec.exec C .Clr op : Exec M Nat) := by
  simp only [Spec.exec]
  exact sized fun sz hsz => fetchEa _ fun m hm => bind (write _ _ (dest_fits hm (fun n h => by simp [changesAddress, h]) (fun n h => by simp [changesAddress, h]) (fun n h => by rw [hsz]; simp [dataBits, h, bitsIf])) _) fun _ => cost (flags _)
theorem exec_Scc : Within (dataBits .Scc op) (changesAddress .Scc op) (Spec.exec C .Scc op : Exec M Nat) := by
  simp only [Spec.exec]
  exact fetchEa _ fun m hm => map _ (bind (getR _) fun _ => bind (write .Byte _ (dest_fits hm (fun n h => by simp [changesAddress, h]) (fun n h => by simp [changesAddress, h]) (fun n h => by simp [dataBits, h, bitsIf])) _) fun _ => pure _)
theorem exec_Bchg : Within (dataBits .Bchg op) (changesAddress .Bchg op) (Spec.exec C .Bchg op : Exec M Nat) := by
  simp only [Spec.exec]
  exact bitInstr C op _ _ _ _ _ (fun n h => by simp [changesAddress, h]) (fun _ n h => by simp [changesAddress, h]) (fun _ n h => by simp [dataBits, h, bitsIf])
theorem exec_Bclr : Within (dataBits .Bclr op) (changesAddress .Bclr op) (Spec.exec C .Bclr op : Exec M Nat) := by
  simp only [Spec.exec]
  exact bitInstr C op _ _ _ _ _ (fun n h => by simp [changesAddress, h]) (fun _ n h => by simp [changesAddress, h]) (fun _ n h => by simp [dataBits, h, bitsIf])
theorem exec_Bset : Within (dataBits .Bset op) (changesAddress .Bset op) (Spec.exec C .Bset op : Exec M Nat) := by
  simp only [Spec.exec]
  exact bitInstr C op _ _ _ _ _ (fun n h => by simp [changesAddress, h]) (fun _ n h => by simp [changesAddress, h]) (fun _ n h => by simp [dataBits, h, bitsIf])
theorem exec_Btst : Within (dataBits .Btst op) (changesAddress .Btst op) (Spec.exec C .Btst op : Exec M Nat) := by
  simp only [Spec.exec]
  exact bitInstr C op _ _ _ _ _ (fun n h => by simp [changesAddress, h]) (fun h => absurd rfl h) (fun h => absurd rfl h)
theorem exec_Asr : Within (dataBits .Asr op) (changesAddress .Asr op) (Spec.exec C .Asr op : Exec M Nat) := by
  simp only [Spec.exec]
  exact shiftInstr op _ _ _ _ _ (by simp [dataBits, bitsIf])
theorem exec_Lsr : Within (dataBits .Lsr op) (changesAddress .Lsr op) (Spec.exec C .Lsr op : Exec M Nat) := by
  simp only [Spec.exec]
  exact shiftInstr op _ _ _ _ _ (by simp [dataBits, bitsIf])
theorem exec_Ror : Within (dataBits .Ror op) (changesAddress .Ror op) (Spec.exec C .Ror op : Exec M Nat) := by
  simp only [Spec.exec]
  exact shiftInstr op _ _ _ _ _ (by simp [dataBits, bitsIf])
theorem exec_Roxr : Within (dataBits .Roxr op) (changesAddress .Roxr op) (Spec.exec C .Roxr op : Exec M Nat) := by
  simp only [Spec.exec]
  exact shiftInstr op _ _ _ _ _ (by simp [dataBits, bitsIf])
theorem exec_Asm : Within (dataBits .Asm op) (changesAddress .Asm op) (Spec.exec C .Asm op : Exec M Nat) := by
  simp only [Spec.exec]
  exact shiftMem C op _ _ _ (fun n h => by simp [changesAddress, h]) (fun n h => by simp [changesAddress, h]) (fun n h => by simp [dataBits, h, bitsIf])
theorem exec_Lsm : Within (dataBits .Lsm op) (changesAddress .Lsm op) (Spec.exec C .Lsm op : Exec M Nat) := by
  simp only [Spec.exec]
  exact shiftMem C op _ _ _ (fun n h => by simp [changesAddress, h]) (fun n h => by simp [changesAddress, h]) (fun n h => by simp [dataBits, h, bitsIf])
theorem exec_Rom : Within (dataBits .Rom op) (changesAddress .Rom op) (Spec.exec C .Rom op : Exec M Nat) := by
  simp only [Spec.exec]
  exact shiftMem C op _ _ _ (fun n h => by simp [changesAddress, h]) (fun n h => by simp [changesAddress, h]) (fun n h => by simp [dataBits, h, bitsIf])
theorem exec_Roxm : Within (dataBits .Roxm op) (changesAddress .Roxm op) (Spec.exec C .Roxm op : Exec M Nat) := by
  simp only [Spec.exec]
  exact shiftMem C op _ _ _ (fun n h => by simp [changesAddress, h]) (fun n h => by simp [changesAddress, h]) (fun n h => by simp [dataBits, h, bitsIf])
theorem exec_Move : Within (dataBits .Move op) (changesAddress .Move op) (Spec.exec C .Move op : Exec M Nat) := by
  simp only [Spec.exec]
  refine moveSized fun sz hsz => fetchEa _ fun m hm => fetchMode _ _ _ fun m' hm' => cost ?_
  have e9 : ∀ n : Fin 8, n.val = (regField op 9).val → n = regField op 9 := fun n h => Fin.ext h
  have e6 : (regField op 6).val = op.toNat / 64 % 8 := by simp [regField, Fin.ofNat]
  rw [e6] at hm'
  refine bind (read _ _ (step_fits hm (fun n h => by simp [changesAddress, h]))) fun _ => bind (write _ _ ⟨fun n e => ?_, fun n e => ?_, fun n e => ?_⟩ _) fun _ => flags _
  · rcases e with rfl | rfl <;> simp only [Fits] at hm' <;> simp [changesAddress, hm'.1, e9 n hm'.2]
  · subst e; simp only [Fits] at hm'; rw [hsz]; simp [dataBits, bitsIf, hm'.1, e9 n hm'.2]
  · subst e; simp only [Fits] at hm'; simp [changesAddress, hm'.1, e9 n hm'.2]
theorem exec_Movea : Within (dataBits .Movea op) (changesAddress .Movea op) (Spec.exec C .Movea op : Exec M Nat) := by
  simp only [Spec.exec]
  exact moveSized fun sz hsz => fetchEa _ fun m hm => cost (bind (readExt _ _ (step_fits hm (fun n h => by simp [changesAddress, h]))) fun _ => updateA _ _ (by simp [changesAddress]))
theorem exec_Moveq : Within (dataBits .Moveq op) (changesAddress .Moveq op) (Spec.exec C .Moveq op : Exec M Nat) := by
  simp only [Spec.exec]
  exact cost (bind (dreg _ (fun _ => _) (by simp [dataBits, bitsIf])) fun _ => flags _)
theorem exec_Movem : Within (dataBits .Movem op) (changesAddress .Movem op) (Spec.exec C .Movem op : Exec M Nat) := by
  simp only [Spec.exec]
  exact bind fetch fun _ => fetchEa _ fun m hm => cost (movem _ _ _ _ (fun h n => by simp [dataBits, h]) (fun h n => by simp [changesAddress, h]) (step_fits hm (fun n h => by simp [changesAddress, h])))
theorem exec_Movep : Within (dataBits .Movep op) (changesAddress .Movep op) (Spec.exec C .Movep op : Exec M Nat) := by
  simp only [Spec.exec]
  exact bind fetch fun _ => cost (movep _ _ _ _ _ (fun h => by cases h6 : flag op 6 <;> simp [dataBits, h, bitsIf, sizeBit, h6]))
theorem exec_Exg : Within (dataBits .Exg op) (changesAddress .Exg op) (Spec.exec C .Exg op : Exec M Nat) := by
  simp only [Spec.exec]
  by_cases h8 : op.toNat / 8 % 32 = 8
  · simp only [h8, if_true]
    exact cost (exg _ _ _ (fun _ => by simp [dataBits, h8, bitsIf]) (fun h => by cases h) (fun h => absurd rfl h))
  · by_cases h9 : op.toNat / 8 % 32 = 9
    · simp only [if_neg h8, h9, if_true]
      exact cost (exg _ _ _ (fun h => by cases h) (fun _ => by simp [changesAddress, h9]) (fun _ h => absurd rfl h))
    · simp only [if_neg h8, if_neg h9]
      exact cost (exg _ _ _ (fun h => by cases h) (fun h => by cases h) (fun _ _ => by simp [changesAddress, dataBits, h8, h9, bitsIf]))
theorem exec_Ext : Within (dataBits .Ext op) (changesAddress .Ext op) (Spec.exec C .Ext op : Exec M Nat) := by
  simp only [Spec.exec]
  refine cost (bind ?_ fun _ => setSr _)
  by_cases h2 : op.toNat / 64 % 8 = 2
  · have : decide (op.toNat / 64 % 8 ≠ 2) = false := by simp [h2]
    rw [this]
    exact dregLow _ (fun r => BitVec.ofInt 16 (low .Byte (r.d (regField op 0))).toInt) (sz := .Word) (by simp [dataBits, h2, bitsIf])
  · exact dreg _ _ (by simp [dataBits, h2, bitsIf])
theorem exec_Swap : Within (dataBits .Swap op) (changesAddress .Swap op) (Spec.exec C .Swap op : Exec M Nat) := by
  simp only [Spec.exec]
  exact cost (bind (dreg _ _ (by simp [dataBits, bitsIf])) fun _ => setSr _)
theorem exec_Lea : Within (dataBits .Lea op) (changesAddress .Lea op) (Spec.exec C .Lea op : Exec M Nat) := by
  simp only [Spec.exec]
  exact fetchEa _ fun m _ => bind (control _) fun _ => cost (updateA _ _ (by simp [changesAddress]))
theorem exec_Pea : Within (dataBits .Pea op) (changesAddress .Pea op) (Spec.exec C .Pea op : Exec M Nat) := by
  simp only [Spec.exec]
  exact fetchEa _ fun m _ => bind (control _) fun _ => cost (push _ _ rfl)
theorem exec_Link : Within (dataBits .Link op) (changesAddress .Link op) (Spec.exec C .Link op : Exec M Nat) := by
  simp only [Spec.exec]
  exact bind fetch fun _ => cost (bind (getR _) fun _ => bind (push _ _ (by simp [changesAddress])) fun _ => bind (areg _ _ (by simp [changesAddress])) fun _ => updateA _ _ (by simp [changesAddress]))
theorem exec_Unlk : Within (dataBits .Unlk op) (changesAddress .Unlk op) (Spec.exec C .Unlk op : Exec M Nat) := by
  simp only [Spec.exec]
  exact cost (bind (areg _ _ (by simp [changesAddress])) fun _ => bind (pop _ (by simp [changesAddress])) fun _ => updateA _ _ (by simp [changesAddress]))
theorem exec_Bcc : Within (dataBits .Bcc op) (changesAddress .Bcc op) (Spec.exec C .Bcc op : Exec M Nat) := by
  simp only [Spec.exec]
  refine bind (getR _) fun _ => bind (fetchDisp _) fun _ => map _ (bind (getR _) fun t => ?_)
  cases t
  · exact bind (pure _) fun _ => pure _
  · exact bind (jump _) fun _ => pure _
theorem exec_Bra : Within (dataBits .Bra op) (changesAddress .Bra op) (Spec.exec C .Bra op : Exec M Nat) := by
  simp only [Spec.exec]
  exact bind (getR _) fun _ => bind (fetchDisp _) fun _ => cost (jump _)
theorem exec_Bsr : Within (dataBits .Bsr op) (changesAddress .Bsr op) (Spec.exec C .Bsr op : Exec M Nat) := by
  simp only [Spec.exec]
  exact bind (getR _) fun _ => bind (fetchDisp _) fun _ => cost (bind (getR _) fun _ => bind (push _ _ rfl) fun _ => jump _)
theorem exec_Dbcc : Within (dataBits .Dbcc op) (changesAddress .Dbcc op) (Spec.exec C .Dbcc op : Exec M Nat) := by
  simp only [Spec.exec]
  refine bind (getR _) fun _ => bind fetch fun _ => map _ (bind (getR _) fun t => ?_)
  cases t
  · refine bind (getR _) fun k => bind (dregLow (sz := .Word) _ (fun _ => k - 1) (by simp [dataBits, bitsIf])) fun _ => ?_
    by_cases hk : k.toNat = 0
    · simp only [hk, if_true]; exact pure _
    · simp only [if_neg hk]; exact bind (jump _) fun _ => pure _
  · exact pure _
theorem exec_Jmp : Within (dataBits .Jmp op) (changesAddress .Jmp op) (Spec.exec C .Jmp op : Exec M Nat) := by
  simp only [Spec.exec]
  exact fetchEa _ fun m _ => bind (control _) fun _ => cost (jump _)
theorem exec_Jsr : Within (dataBits .Jsr op) (changesAddress .Jsr op) (Spec.exec C .Jsr op : Exec M Nat) := by
  simp only [Spec.exec]
  exact fetchEa _ fun m _ => cost (bind (getR _) fun _ => bind (push _ _ rfl) fun _ => bind (control _) fun _ => jump _)
theorem exec_Rts : Within (dataBits .Rts op) (changesAddress .Rts op) (Spec.exec C .Rts op : Exec M Nat) := by
  simp only [Spec.exec]
  exact cost (bind (pop _ rfl) fun _ => jump _)
theorem exec_Rtr : Within (dataBits .Rtr op) (changesAddress .Rtr op) (Spec.exec C .Rtr op : Exec M Nat) := by
  simp only [Spec.exec]
  exact cost (bind (pop _ rfl) fun _ => bind (flags _) fun _ => bind (pop _ rfl) fun _ => jump _)
theorem exec_Rte : Within (dataBits .Rte op) (changesAddress .Rte op) (Spec.exec C .Rte op : Exec M Nat) := by
  simp only [Spec.exec]
  refine map _ (bind privileged fun _ => bind (pop _ rfl) fun _ => bind (pop _ rfl) fun _ => bind (jump _) fun _ => bind ?_ fun _ => bind (flags _) fun _ => pure _)
  split
  · refine bind (pop _ rfl) fun f => ?_
    split
    · exact bind (updateA _ _ rfl) fun _ => pure _
    · split
      · exact pure _
      · exact trap _
  · exact pure _
theorem exec_Nop : Within (dataBits .Nop op) (changesAddress .Nop op) (Spec.exec C .Nop op : Exec M Nat) := by
  simp only [Spec.exec]
  exact pure _
theorem exec_Chk : Within (dataBits .Chk op) (changesAddress .Chk op) (Spec.exec C .Chk op : Exec M Nat) := by
  simp only [Spec.exec]
  refine fetchEa _ fun m hm => cost (bind (read _ _ (step_fits hm (fun n h => by simp [changesAddress, h]))) fun _ => bind (getR _) fun _ => ?_)
  split
  · exact trap _
  · exact pure _
theorem exec_Trap : Within (dataBits .Trap op) (changesAddress .Trap op) (Spec.exec C .Trap op : Exec M Nat) := by
  simp only [Spec.exec]
  exact cost (trap _)
theorem exec_Trapv : Within (dataBits .Trapv op) (changesAddress .Trapv op) (Spec.exec C .Trapv op : Exec M Nat) := by
  simp only [Spec.exec]
  refine bind (getR _) fun v => ?_
  cases v
  · exact pure _
  · exact trap _
theorem exec_Andiccr : Within (dataBits .Andiccr op) (changesAddress .Andiccr op) (Spec.exec C .Andiccr op : Exec M Nat) := by
  simp only [Spec.exec]
  exact bind fetch fun _ => cost (flags _)
theorem exec_Oriccr : Within (dataBits .Oriccr op) (changesAddress .Oriccr op) (Spec.exec C .Oriccr op : Exec M Nat) := by
  simp only [Spec.exec]
  exact bind fetch fun _ => cost (flags _)
theorem exec_Eoriccr : Within (dataBits .Eoriccr op) (changesAddress .Eoriccr op) (Spec.exec C .Eoriccr op : Exec M Nat) := by
  simp only [Spec.exec]
  exact bind fetch fun _ => cost (flags _)
theorem exec_Andisr : Within (dataBits .Andisr op) (changesAddress .Andisr op) (Spec.exec C .Andisr op : Exec M Nat) := by
  simp only [Spec.exec]
  exact bind fetch fun _ => bind privileged fun _ => cost (flags _)
theorem exec_Orisr : Within (dataBits .Orisr op) (changesAddress .Orisr op) (Spec.exec C .Orisr op : Exec M Nat) := by
  simp only [Spec.exec]
  exact bind fetch fun _ => bind privileged fun _ => cost (flags _)
theorem exec_Eorisr : Within (dataBits .Eorisr op) (changesAddress .Eorisr op) (Spec.exec C .Eorisr op : Exec M Nat) := by
  simp only [Spec.exec]
  exact bind fetch fun _ => bind privileged fun _ => cost (flags _)
theorem exec_Moveccr : Within (dataBits .Moveccr op) (changesAddress .Moveccr op) (Spec.exec C .Moveccr op : Exec M Nat) := by
  simp only [Spec.exec]
  exact fetchEa _ fun m hm => bind (read _ _ (step_fits hm (fun n h => by simp [changesAddress, h]))) fun _ => cost (flags _)
theorem exec_Movesr : Within (dataBits .Movesr op) (changesAddress .Movesr op) (Spec.exec C .Movesr op : Exec M Nat) := by
  simp only [Spec.exec]
  exact fetchEa _ fun m hm => bind privileged fun _ => bind (read _ _ (step_fits hm (fun n h => by simp [changesAddress, h]))) fun _ => cost (flags _)
theorem exec_Movefsr : Within (dataBits .Movefsr op) (changesAddress .Movefsr op) (Spec.exec C .Movefsr op : Exec M Nat) := by
  simp only [Spec.exec]
  exact fetchEa _ fun m hm => bind (getR _) fun _ => cost (write .Word _ (dest_fits hm (fun n h => by simp [changesAddress, h]) (fun n h => by simp [changesAddress, h]) (fun n h => by simp [dataBits, h, bitsIf])) _)
theorem exec_Moveusp : Within (dataBits .Moveusp op) (changesAddress .Moveusp op) (Spec.exec C .Moveusp op : Exec M Nat) := by
  simp only [Spec.exec]
  refine cost (bind privileged fun _ => ?_)
  cases h : flag op 3
  · exact usp _ (by simp [changesAddress])
  · exact areg _ _ (by simp [changesAddress, h])
theorem exec_Stop : Within (dataBits .Stop op) (changesAddress .Stop op) (Spec.exec C .Stop op : Exec M Nat) := by
  simp only [Spec.exec]
  exact bind fetch fun _ => cost (bind privileged fun _ => bind (flags _) fun _ => halt)
theorem exec_Reset : Within (dataBits .Reset op) (changesAddress .Reset op) (Spec.exec C .Reset op : Exec M Nat) := by
  simp only [Spec.exec]
  exact cost (bind privileged fun _ => signalReset)
end Within

/-- Every instruction changes only the registers it names. -/
theorem within_exec (i : Isa) : Within (dataBits i op) (changesAddress i op) (Spec.exec C i op : Exec M Nat) := by
  cases i with
  | Unknown => exact Within.exec_Unknown C op
  | Illegal => exact Within.exec_Illegal C op
  | Add => exact Within.exec_Add C op
  | Sub => exact Within.exec_Sub C op
  | And => exact Within.exec_And C op
  | Or => exact Within.exec_Or C op
  | Addi => exact Within.exec_Addi C op
  | Subi => exact Within.exec_Subi C op
  | Andi => exact Within.exec_Andi C op
  | Ori => exact Within.exec_Ori C op
  | Eori => exact Within.exec_Eori C op
  | Adda => exact Within.exec_Adda C op
  | Suba => exact Within.exec_Suba C op
  | Cmpa => exact Within.exec_Cmpa C op
  | Addq => exact Within.exec_Addq C op
  | Subq => exact Within.exec_Subq C op
  | Addx => exact Within.exec_Addx C op
  | Subx => exact Within.exec_Subx C op
  | Abcd => exact Within.exec_Abcd C op
  | Sbcd => exact Within.exec_Sbcd C op
  | Nbcd => exact Within.exec_Nbcd C op
  | Tas => exact Within.exec_Tas C op
  | Neg => exact Within.exec_Neg C op
  | Negx => exact Within.exec_Negx C op
  | Not => exact Within.exec_Not C op
  | Cmp => exact Within.exec_Cmp C op
  | Cmpi => exact Within.exec_Cmpi C op
  | Cmpm => exact Within.exec_Cmpm C op
  | Mulu => exact Within.exec_Mulu C op
  | Muls => exact Within.exec_Muls C op
  | Divu => exact Within.exec_Divu C op
  | Divs => exact Within.exec_Divs C op
  | Eor => exact Within.exec_Eor C op
  | Tst => exact Within.exec_Tst C op
  | Clr => exact Within.exec_Clr C op
  | Scc => exact Within.exec_Scc C op
  | Bchg => exact Within.exec_Bchg C op
  | Bclr => exact Within.exec_Bclr C op
  | Bset => exact Within.exec_Bset C op
  | Btst => exact Within.exec_Btst C op
  | Asr => exact Within.exec_Asr C op
  | Lsr => exact Within.exec_Lsr C op
  | Ror => exact Within.exec_Ror C op
  | Roxr => exact Within.exec_Roxr C op
  | Asm => exact Within.exec_Asm C op
  | Lsm => exact Within.exec_Lsm C op
  | Rom => exact Within.exec_Rom C op
  | Roxm => exact Within.exec_Roxm C op
  | Move => exact Within.exec_Move C op
  | Movea => exact Within.exec_Movea C op
  | Moveq => exact Within.exec_Moveq C op
  | Movem => exact Within.exec_Movem C op
  | Movep => exact Within.exec_Movep C op
  | Exg => exact Within.exec_Exg C op
  | Ext => exact Within.exec_Ext C op
  | Swap => exact Within.exec_Swap C op
  | Lea => exact Within.exec_Lea C op
  | Pea => exact Within.exec_Pea C op
  | Link => exact Within.exec_Link C op
  | Unlk => exact Within.exec_Unlk C op
  | Bcc => exact Within.exec_Bcc C op
  | Bra => exact Within.exec_Bra C op
  | Bsr => exact Within.exec_Bsr C op
  | Dbcc => exact Within.exec_Dbcc C op
  | Jmp => exact Within.exec_Jmp C op
  | Jsr => exact Within.exec_Jsr C op
  | Rts => exact Within.exec_Rts C op
  | Rtr => exact Within.exec_Rtr C op
  | Rte => exact Within.exec_Rte C op
  | Nop => exact Within.exec_Nop C op
  | Chk => exact Within.exec_Chk C op
  | Trap => exact Within.exec_Trap C op
  | Trapv => exact Within.exec_Trapv C op
  | Andiccr => exact Within.exec_Andiccr C op
  | Oriccr => exact Within.exec_Oriccr C op
  | Eoriccr => exact Within.exec_Eoriccr C op
  | Andisr => exact Within.exec_Andisr C op
  | Orisr => exact Within.exec_Orisr C op
  | Eorisr => exact Within.exec_Eorisr C op
  | Moveccr => exact Within.exec_Moveccr C op
  | Movesr => exact Within.exec_Movesr C op
  | Movefsr => exact Within.exec_Movefsr C op
  | Moveusp => exact Within.exec_Moveusp C op
  | Stop => exact Within.exec_Stop C op
  | Reset => exact Within.exec_Reset C op
end Exec
end M68k
