import Verif.Lemmas.Written
import Verif.Lemmas.LegalExec
/-
One lemma per instruction that writes to memory.
-/
set_option linter.unusedSectionVars false
namespace M68k
namespace Exec
open Spec
variable {M : Type} [MemoryAccess M] {α β : Type} {W : List U32} {s s2 : St M} {op : U16} {C : CpuDetails}

/-- What follows the extension words `ws` writes only to the addresses of `written`. -/
def Confined (i : Isa) (op : U16) (ws : List U16) (z : Exec M α) : Prop := ∀ s, TouchAt (written i op s.cpu.regs ws) s z

theorem preW_ea {sz : Size} {imm : Nat} (op : U16) (hany : op.toNat / 8 % 8 < 7 ∨ op.toNat % 8 ≤ 4) (himm : immWords (some sz) = imm) :
    PreW (M := M) (opEaWords imm op) (Spec.fetchEa (some sz) op) (Spelled (op.toNat / 8 % 8) (op.toNat % 8)) := by
  have e0 : (regField op 0).val = op.toNat % 8 := by simp [regField, Fin.ofNat]
  have e3 : (regField op 3).val = op.toNat / 8 % 8 := by simp [regField, Fin.ofNat]
  have := PreW.fetchMode (M := M) (some sz) imm (regField op 3) (regField op 0) (by
    rw [e0, e3]
    intro h
    by_cases h4 : op.toNat % 8 = 4
    · exact .inr ⟨h4, by simp, himm⟩
    · exact .inl (by omega))
  rw [e0, e3] at this
  exact this

theorem preW_ea' {sz : Option Size} {imm : Nat} (op : U16) (hany : op.toNat / 8 % 8 < 7 ∨ op.toNat % 8 ≤ 3) :
    PreW (M := M) (opEaWords imm op) (Spec.fetchEa sz op) (Spelled (op.toNat / 8 % 8) (op.toNat % 8)) := by
  have e0 : (regField op 0).val = op.toNat % 8 := by simp [regField, Fin.ofNat]
  have e3 : (regField op 3).val = op.toNat / 8 % 8 := by simp [regField, Fin.ofNat]
  have := PreW.fetchMode (M := M) sz imm (regField op 3) (regField op 0) (by rw [e0, e3]; intro h; exact .inl (by omega))
  rw [e0, e3] at this
  exact this

theorem splitW_sized (h : op.toNat / 64 % 4 ≠ 3) {P : List U16 → Exec M Nat → Prop} {f : Size → Exec M Nat} {k : Nat}
    (hf : ∀ sz, opSize op = some sz → sizedImm op = immWords (some sz) → SplitW k P (f sz)) : SplitW k P (sized op f) := by
  unfold Spec.sized
  split
  · rename_i h0; exact hf _ (by simp [opSize, h0]) (by simp [sizedImm, h0, immWords])
  · split
    · rename_i h0; exact hf _ (by simp [opSize, h0]) (by simp [sizedImm, h0, immWords])
    · split
      · rename_i h0; exact hf _ (by simp [opSize, h0]) (by simp [sizedImm, h0, immWords])
      · omega

theorem splitW_moveSized (h : op.toNat / 4096 % 4 ≠ 0) {P : List U16 → Exec M Nat → Prop} {f : Size → Exec M Nat} {k : Nat}
    (hf : ∀ sz, moveOpSize op = some sz → moveImm op = immWords (some sz) → SplitW k P (f sz)) : SplitW k P (moveSized op f) := by
  unfold Spec.moveSized
  split
  · rename_i h0; exact hf _ (by simp [moveOpSize, h0]) (by simp [moveImm, h0, immWords])
  · split
    · rename_i h0; exact hf _ (by simp [moveOpSize, h0]) (by simp [moveImm, h0, immWords])
    · split
      · rename_i h0; exact hf _ (by simp [moveOpSize, h0]) (by simp [moveImm, h0, immWords])
      · omega

/-- The operand of size `sz` is at addresses of `written`, whatever the registers. -/
def Within' (i : Isa) (op : U16) (ws : List U16) (sz : Size) (m : Mode) : Prop :=
  ∀ r : Registers, Hits (written i op r ws) sz (place sz r m).1

/-- The instructions with one effective address: size from the opcode. -/
theorem confined_sized {i : Isa} {x : (sz : Size) → Mode → Exec M Nat} (hl : op.toNat / 64 % 4 ≠ 3 ∧ (op.toNat / 8 % 8 < 7 ∨ op.toNat % 8 ≤ 1))
    (hwr : ∀ sz, opSize op = some sz → ∀ r ws, written i op r ws = span (eaAddress sz r (op.toNat / 8 % 8) (op.toNat % 8) ws) (bytes sz))
    (hx : ∀ sz m ws, Within' i op ws sz m → Confined i op ws (x sz m)) :
    SplitW (opEaWords (sizedImm op) op) (Confined i op) (sized op fun sz => Spec.fetchEa (some sz) op >>= x sz) := by
  obtain ⟨h1, h2⟩ := hl
  refine splitW_sized h1 fun sz hs hi => SplitW.last (preW_ea op (by omega) hi.symm) fun ws m _ hm => hx sz m ws fun r => ?_
  rw [hwr sz hs r ws]
  exact hm.hits h2 sz r

/-- The same with immediate data. -/
theorem confined_immediate {i : Isa} {x : (sz : Size) → U32 → Mode → Exec M Nat} (hl : op.toNat / 64 % 4 ≠ 3 ∧ (op.toNat / 8 % 8 < 7 ∨ op.toNat % 8 ≤ 1))
    (hwr : ∀ sz, opSize op = some sz → ∀ r ws, written i op r ws = span (eaAddress sz r (op.toNat / 8 % 8) (op.toNat % 8) (ws.drop (sizedImm op))) (bytes sz))
    (hx : ∀ sz v m ws, Within' i op ws sz m → Confined i op ws (x sz v m)) :
    SplitW (sizedImm op + opEaWords (sizedImm op) op) (Confined i op) (sized op fun sz => Spec.fetchImm sz >>= fun v => Spec.fetchEa (some sz) op >>= x sz v) := by
  obtain ⟨h1, h2⟩ := hl
  refine splitW_sized h1 fun sz hs hi => ?_
  have hi' := hi
  rw [hi]
  refine SplitW.bind (PreW.of (Pre.fetchImm sz)) fun ws v hlen _ => SplitW.last (preW_ea op (by omega) rfl) fun ws' m _ hm => hx sz v m _ fun r => ?_
  rw [hwr sz hs r _, hi', ← hlen, List.drop_left]
  exact hm.hits h2 sz r

/-- The same with a fixed size. -/
theorem confined_fixed {i : Isa} {sz sz' : Size} {x : Mode → Exec M Nat} (hs : sz ≠ .Long) (hl : op.toNat / 8 % 8 < 7 ∨ op.toNat % 8 ≤ 1)
    (hwr : ∀ r ws, written i op r ws = span (eaAddress sz' r (op.toNat / 8 % 8) (op.toNat % 8) ws) (bytes sz'))
    (hx : ∀ m ws, Within' i op ws sz' m → Confined i op ws (x m)) :
    SplitW (opEaWords 1 op) (Confined i op) (Spec.fetchEa (some sz) op >>= x) := by
  refine SplitW.last (preW_ea op (by omega) (by cases sz; { rfl }; { rfl }; { exact absurd rfl hs })) fun ws m _ hm => hx m ws fun r => ?_
  rw [hwr r ws]
  exact hm.hits hl sz' r

theorem Confined.cost {i : Isa} {ws : List U16} {x : Exec M α} (t : Nat) (h : Confined i op ws x) : Confined i op ws (Spec.cost x t) :=
  fun s => (h s).cost t
theorem Confined.map {i : Isa} {ws : List U16} {x : Exec M α} (f : α → β) (h : Confined i op ws x) : Confined i op ws (f <$> x) :=
  fun s => (h s).map f
theorem Confined.rmw {i : Isa} {ws : List U16} {sz : Size} {m : Mode} (h : Within' i op ws sz m)
    (f : Val sz → StatusRegister → Val sz × StatusRegister) : Confined (M := M) i op ws (Spec.rmw sz m f) := fun _ => TouchAt.rmw (h _)
theorem Confined.write {i : Isa} {ws : List U16} {sz : Size} {m : Mode} (h : Within' i op ws sz m) (v : Val sz) :
    Confined (M := M) i op ws (Spec.write sz m v) := fun _ => TouchAt.write (h _)
theorem Confined.opToEa {i : Isa} {ws : List U16} {sz : Size} {m : Mode} {n : Fin 8} (h : Within' i op ws sz m)
    (f : Val sz → Val sz → StatusRegister → Val sz × StatusRegister) : Confined (M := M) i op ws (Spec.opToEa sz n m f) := fun s =>
  TouchAt.bind (.reads (legal_onlyReads.getR _)) fun a s' h1 => by cases h1; exact TouchAt.rmw (h _)
theorem Confined.quickOp {i : Isa} {ws : List U16} {sz : Size} {m : Mode} {b : Bool} {n : Fin 8} (h : Within' i op ws sz m) :
    Confined (M := M) i op ws (Spec.quickOp b n sz m) := by
  intro s
  unfold Spec.quickOp
  split
  · exact .reads (legal_onlyReads.updateA _ _)
  · exact TouchAt.rmw (h _)
/-- A read of the registers first. -/
theorem Confined.getR {i : Isa} {ws : List U16} {g : Registers → β} {f : β → Exec M α} (h : ∀ b, Confined i op ws (f b)) :
    Confined (M := M) i op ws (Spec.getR g >>= f) := fun s =>
  TouchAt.bind (.reads (legal_onlyReads.getR _)) fun a s' h1 => by cases h1; exact h _ _
/-- Something that does not access the memory last. -/
theorem Confined.then {i : Isa} {ws : List U16} {x : Exec M β} {f : β → Exec M α} (h : Confined i op ws x) (hf : ∀ b, OnlyReads (f b)) :
    Confined (M := M) i op ws (x >>= f) := fun s => TouchAt.bind (h s) fun _ _ _ => .reads (hf _)

/-! ### One effective address -/

theorem Confined.bitOp {i : Isa} {ws : List U16} {m : Mode} {o : BitOp} {k : Nat} (ho : o ≠ .test) (h : Within' i op ws .Byte m) :
    Confined (M := M) i op ws (Spec.bitOp o k m) := by
  unfold Spec.bitOp
  split
  · unfold Spec.bitOpAt
    rw [if_neg ho]
    exact Confined.rmw (fun r a ha => by cases ha) _
  · unfold Spec.bitOpAt
    rw [if_neg ho]
    exact Confined.rmw h _

theorem confined_bits {i : Isa} {o : BitOp} {a b c d : Nat} (ho : o ≠ .test)
    (hl : (op.toNat / 8 % 8 < 7 ∨ op.toNat % 8 ≤ 1) ∧ op.toNat / 8 % 8 ≠ 1)
    (hwr : ∀ r ws, written i op r ws =
      span (eaAddress .Byte r (op.toNat / 8 % 8) (op.toNat % 8) (ws.drop (if flag op 8 = true then 0 else 1))) (bytes .Byte)) :
    SplitW ((if flag op 8 then 0 else 1) + opEaWords 1 op) (Confined i op) (Spec.bitInstr C op o a b c d : Exec M Nat) := by
  unfold Spec.bitInstr
  by_cases h8 : flag op 8
  · simp only [h8, if_true, Nat.zero_add, List.drop_zero] at hwr ⊢
    refine SplitW.last (preW_ea op (by omega) rfl) fun ws m _ hm => Confined.getR fun k => Confined.cost _ (Confined.bitOp ho fun r => ?_)
    rw [hwr r ws]
    exact hm.hits hl.1 _ r
  · simp only [h8, Bool.false_eq_true, if_false] at hwr ⊢
    refine SplitW.bind (PreW.of Pre.fetch) fun ws w hlen _ => SplitW.last (preW_ea op (by omega) rfl) fun ws' m _ hm => Confined.cost _ (Confined.bitOp ho fun r => ?_)
    rw [hwr r _, ← hlen, List.drop_left]
    exact hm.hits hl.1 _ r

theorem confined_Add (hl : legalCheck .Add op.toNat = true) (hw : writesMemory .Add op = true) :
    SplitW (extensionWords .Add op) (Confined .Add op) (Spec.exec C .Add op : Exec M Nat) := by
  simp only [legalCheck, Bool.and_eq_true, Bool.or_eq_true, bne_iff_ne, decide_eq_true_eq] at hl
  simp only [Spec.exec, extensionWords]
  have h8 : op.toNat / 256 % 2 = 1 := by simpa [writesMemory, flag] using hw
  have h4 := hl.2.resolve_left (fun h => h h8)
  refine confined_sized ⟨hl.1.1.1, h4.1⟩ (fun sz hs r ws => by simp [written, hw, eaSize, hs, wordsBefore]) fun sz m ws h => ?_
  simp only [show flag op 8 = true from hw, if_true]
  exact Confined.cost _ (Confined.opToEa h _)

theorem confined_Sub (hl : legalCheck .Sub op.toNat = true) (hw : writesMemory .Sub op = true) :
    SplitW (extensionWords .Sub op) (Confined .Sub op) (Spec.exec C .Sub op : Exec M Nat) := by
  simp only [legalCheck, Bool.and_eq_true, Bool.or_eq_true, bne_iff_ne, decide_eq_true_eq] at hl
  simp only [Spec.exec, extensionWords]
  have h8 : op.toNat / 256 % 2 = 1 := by simpa [writesMemory, flag] using hw
  have h4 := hl.2.resolve_left (fun h => h h8)
  refine confined_sized ⟨hl.1.1.1, h4.1⟩ (fun sz hs r ws => by simp [written, hw, eaSize, hs, wordsBefore]) fun sz m ws h => ?_
  simp only [show flag op 8 = true from hw, if_true]
  exact Confined.cost _ (Confined.opToEa h _)

theorem confined_And (hl : legalCheck .And op.toNat = true) (hw : writesMemory .And op = true) :
    SplitW (extensionWords .And op) (Confined .And op) (Spec.exec C .And op : Exec M Nat) := by
  simp only [legalCheck, Bool.and_eq_true, Bool.or_eq_true, bne_iff_ne, decide_eq_true_eq] at hl
  simp only [Spec.exec, extensionWords]
  have h8 : op.toNat / 256 % 2 = 1 := by simpa [writesMemory, flag] using hw
  have h4 := hl.2.resolve_left (fun h => h h8)
  refine confined_sized ⟨hl.1.1.1, h4.1⟩ (fun sz hs r ws => by simp [written, hw, eaSize, hs, wordsBefore]) fun sz m ws h => ?_
  simp only [show flag op 8 = true from hw, if_true]
  exact Confined.cost _ (Confined.opToEa h _)

theorem confined_Or (hl : legalCheck .Or op.toNat = true) (hw : writesMemory .Or op = true) :
    SplitW (extensionWords .Or op) (Confined .Or op) (Spec.exec C .Or op : Exec M Nat) := by
  simp only [legalCheck, Bool.and_eq_true, Bool.or_eq_true, bne_iff_ne, decide_eq_true_eq] at hl
  simp only [Spec.exec, extensionWords]
  have h8 : op.toNat / 256 % 2 = 1 := by simpa [writesMemory, flag] using hw
  have h4 := hl.2.resolve_left (fun h => h h8)
  refine confined_sized ⟨hl.1.1.1, h4.1⟩ (fun sz hs r ws => by simp [written, hw, eaSize, hs, wordsBefore]) fun sz m ws h => ?_
  simp only [show flag op 8 = true from hw, if_true]
  exact Confined.cost _ (Confined.opToEa h _)

theorem confined_Addi (hl : legalCheck .Addi op.toNat = true) (hw : writesMemory .Addi op = true) :
    SplitW (extensionWords .Addi op) (Confined .Addi op) (Spec.exec C .Addi op : Exec M Nat) := by
  simp only [legalCheck, Bool.and_eq_true, Bool.or_eq_true, bne_iff_ne, decide_eq_true_eq] at hl
  simp only [Spec.exec, extensionWords]
  exact confined_immediate hl.1 (fun sz hs r ws => by simp [written, hw, eaSize, hs, wordsBefore]) fun sz v m ws h => Confined.cost _ (Confined.rmw h _)

theorem confined_Subi (hl : legalCheck .Subi op.toNat = true) (hw : writesMemory .Subi op = true) :
    SplitW (extensionWords .Subi op) (Confined .Subi op) (Spec.exec C .Subi op : Exec M Nat) := by
  simp only [legalCheck, Bool.and_eq_true, Bool.or_eq_true, bne_iff_ne, decide_eq_true_eq] at hl
  simp only [Spec.exec, extensionWords]
  exact confined_immediate hl.1 (fun sz hs r ws => by simp [written, hw, eaSize, hs, wordsBefore]) fun sz v m ws h => Confined.cost _ (Confined.rmw h _)

theorem confined_Andi (hl : legalCheck .Andi op.toNat = true) (hw : writesMemory .Andi op = true) :
    SplitW (extensionWords .Andi op) (Confined .Andi op) (Spec.exec C .Andi op : Exec M Nat) := by
  simp only [legalCheck, Bool.and_eq_true, Bool.or_eq_true, bne_iff_ne, decide_eq_true_eq] at hl
  simp only [Spec.exec, extensionWords]
  exact confined_immediate hl.1 (fun sz hs r ws => by simp [written, hw, eaSize, hs, wordsBefore]) fun sz v m ws h => Confined.cost _ (Confined.rmw h _)

theorem confined_Ori (hl : legalCheck .Ori op.toNat = true) (hw : writesMemory .Ori op = true) :
    SplitW (extensionWords .Ori op) (Confined .Ori op) (Spec.exec C .Ori op : Exec M Nat) := by
  simp only [legalCheck, Bool.and_eq_true, Bool.or_eq_true, bne_iff_ne, decide_eq_true_eq] at hl
  simp only [Spec.exec, extensionWords]
  exact confined_immediate hl.1 (fun sz hs r ws => by simp [written, hw, eaSize, hs, wordsBefore]) fun sz v m ws h => Confined.cost _ (Confined.rmw h _)

theorem confined_Eori (hl : legalCheck .Eori op.toNat = true) (hw : writesMemory .Eori op = true) :
    SplitW (extensionWords .Eori op) (Confined .Eori op) (Spec.exec C .Eori op : Exec M Nat) := by
  simp only [legalCheck, Bool.and_eq_true, Bool.or_eq_true, bne_iff_ne, decide_eq_true_eq] at hl
  simp only [Spec.exec, extensionWords]
  exact confined_immediate hl.1 (fun sz hs r ws => by simp [written, hw, eaSize, hs, wordsBefore]) fun sz v m ws h => Confined.cost _ (Confined.rmw h _)

theorem confined_Addq (hl : legalCheck .Addq op.toNat = true) (hw : writesMemory .Addq op = true) :
    SplitW (extensionWords .Addq op) (Confined .Addq op) (Spec.exec C .Addq op : Exec M Nat) := by
  simp only [legalCheck, Bool.and_eq_true, Bool.or_eq_true, bne_iff_ne, decide_eq_true_eq] at hl
  simp only [Spec.exec, extensionWords]
  exact confined_sized hl (fun sz hs r ws => by simp [written, hw, eaSize, hs, wordsBefore]) fun sz m ws h => Confined.cost _ (Confined.quickOp h)

theorem confined_Subq (hl : legalCheck .Subq op.toNat = true) (hw : writesMemory .Subq op = true) :
    SplitW (extensionWords .Subq op) (Confined .Subq op) (Spec.exec C .Subq op : Exec M Nat) := by
  simp only [legalCheck, Bool.and_eq_true, Bool.or_eq_true, bne_iff_ne, decide_eq_true_eq] at hl
  simp only [Spec.exec, extensionWords]
  exact confined_sized hl (fun sz hs r ws => by simp [written, hw, eaSize, hs, wordsBefore]) fun sz m ws h => Confined.cost _ (Confined.quickOp h)

theorem confined_Eor (hl : legalCheck .Eor op.toNat = true) (hw : writesMemory .Eor op = true) :
    SplitW (extensionWords .Eor op) (Confined .Eor op) (Spec.exec C .Eor op : Exec M Nat) := by
  simp only [legalCheck, Bool.and_eq_true, Bool.or_eq_true, bne_iff_ne, decide_eq_true_eq] at hl
  simp only [Spec.exec, extensionWords]
  exact confined_sized hl.1 (fun sz hs r ws => by simp [written, hw, eaSize, hs, wordsBefore]) fun sz m ws h => Confined.cost _ (Confined.opToEa h _)

theorem confined_Neg (hl : legalCheck .Neg op.toNat = true) (hw : writesMemory .Neg op = true) :
    SplitW (extensionWords .Neg op) (Confined .Neg op) (Spec.exec C .Neg op : Exec M Nat) := by
  simp only [legalCheck, Bool.and_eq_true, Bool.or_eq_true, bne_iff_ne, decide_eq_true_eq] at hl
  simp only [Spec.exec, extensionWords]
  exact confined_sized hl.1 (fun sz hs r ws => by simp [written, hw, eaSize, hs, wordsBefore]) fun sz m ws h => Confined.cost _ (Confined.rmw h _)

theorem confined_Negx (hl : legalCheck .Negx op.toNat = true) (hw : writesMemory .Negx op = true) :
    SplitW (extensionWords .Negx op) (Confined .Negx op) (Spec.exec C .Negx op : Exec M Nat) := by
  simp only [legalCheck, Bool.and_eq_true, Bool.or_eq_true, bne_iff_ne, decide_eq_true_eq] at hl
  simp only [Spec.exec, extensionWords]
  exact confined_sized hl.1 (fun sz hs r ws => by simp [written, hw, eaSize, hs, wordsBefore]) fun sz m ws h => Confined.cost _ (Confined.rmw h _)

theorem confined_Not (hl : legalCheck .Not op.toNat = true) (hw : writesMemory .Not op = true) :
    SplitW (extensionWords .Not op) (Confined .Not op) (Spec.exec C .Not op : Exec M Nat) := by
  simp only [legalCheck, Bool.and_eq_true, Bool.or_eq_true, bne_iff_ne, decide_eq_true_eq] at hl
  simp only [Spec.exec, extensionWords]
  refine confined_sized hl.1 (fun sz hs r ws => by simp [written, hw, eaSize, hs, wordsBefore]) fun sz m ws h => Confined.cost _ fun s => ?_
  exact TouchAt.bind (.reads (onlyReads_read m)) fun (p, v) s' hp =>
    TouchAt.bind (TouchAt.writeAt (by rw [read_place hp]; exact h _)) fun _ _ _ => .reads (legal_onlyReads.flags _)

theorem confined_Clr (hl : legalCheck .Clr op.toNat = true) (hw : writesMemory .Clr op = true) :
    SplitW (extensionWords .Clr op) (Confined .Clr op) (Spec.exec C .Clr op : Exec M Nat) := by
  simp only [legalCheck, Bool.and_eq_true, Bool.or_eq_true, bne_iff_ne, decide_eq_true_eq] at hl
  simp only [Spec.exec, extensionWords]
  exact confined_sized hl.1 (fun sz hs r ws => by simp [written, hw, eaSize, hs, wordsBefore]) fun sz m ws h => (Confined.write h _).then fun _ => legal_onlyReads.cost _ (legal_onlyReads.flags _)

theorem confined_Nbcd (hl : legalCheck .Nbcd op.toNat = true) (hw : writesMemory .Nbcd op = true) :
    SplitW (extensionWords .Nbcd op) (Confined .Nbcd op) (Spec.exec C .Nbcd op : Exec M Nat) := by
  simp only [legalCheck, Bool.and_eq_true, Bool.or_eq_true, bne_iff_ne, decide_eq_true_eq] at hl
  simp only [Spec.exec, extensionWords]
  exact confined_fixed (sz' := .Byte) (by decide) hl.1 (fun r ws => by simp [written, hw, eaSize, wordsBefore]) fun m ws h => Confined.cost _ (Confined.rmw h _)

theorem confined_Tas (hl : legalCheck .Tas op.toNat = true) (hw : writesMemory .Tas op = true) :
    SplitW (extensionWords .Tas op) (Confined .Tas op) (Spec.exec C .Tas op : Exec M Nat) := by
  simp only [legalCheck, Bool.and_eq_true, Bool.or_eq_true, bne_iff_ne, decide_eq_true_eq] at hl
  simp only [Spec.exec, extensionWords]
  exact confined_fixed (sz' := .Byte) (by decide) hl.1 (fun r ws => by simp [written, hw, eaSize, wordsBefore]) fun m ws h => Confined.cost _ (Confined.rmw h _)

theorem confined_Scc (hl : legalCheck .Scc op.toNat = true) (hw : writesMemory .Scc op = true) :
    SplitW (extensionWords .Scc op) (Confined .Scc op) (Spec.exec C .Scc op : Exec M Nat) := by
  simp only [legalCheck, Bool.and_eq_true, Bool.or_eq_true, bne_iff_ne, decide_eq_true_eq] at hl
  simp only [Spec.exec, extensionWords]
  exact confined_fixed (sz' := .Byte) (by decide) hl.1 (fun r ws => by simp [written, hw, eaSize, wordsBefore]) fun m ws h =>
    Confined.map _ (Confined.getR fun _ => (Confined.write (sz := .Byte) h _).then fun _ => legal_onlyReads.pure _)

theorem confined_Movefsr (hl : legalCheck .Movefsr op.toNat = true) (hw : writesMemory .Movefsr op = true) :
    SplitW (extensionWords .Movefsr op) (Confined .Movefsr op) (Spec.exec C .Movefsr op : Exec M Nat) := by
  simp only [legalCheck, Bool.and_eq_true, Bool.or_eq_true, bne_iff_ne, decide_eq_true_eq] at hl
  simp only [Spec.exec, extensionWords]
  exact confined_fixed (sz' := .Word) (by decide) hl.1 (fun r ws => by simp [written, hw, eaSize, wordsBefore]) fun m ws h => Confined.getR fun _ => Confined.cost _ (Confined.write (sz := .Word) h _)

theorem confined_Asm (hl : legalCheck .Asm op.toNat = true) (hw : writesMemory .Asm op = true) :
    SplitW (extensionWords .Asm op) (Confined .Asm op) (Spec.exec C .Asm op : Exec M Nat) := by
  simp only [legalCheck, Bool.and_eq_true, Bool.or_eq_true, bne_iff_ne, decide_eq_true_eq] at hl
  simp only [Spec.exec, extensionWords]
  exact confined_fixed (sz' := .Word) (by decide) hl.1 (fun r ws => by simp [written, hw, eaSize, wordsBefore]) fun m ws h => Confined.cost _ (Confined.rmw h _)

theorem confined_Lsm (hl : legalCheck .Lsm op.toNat = true) (hw : writesMemory .Lsm op = true) :
    SplitW (extensionWords .Lsm op) (Confined .Lsm op) (Spec.exec C .Lsm op : Exec M Nat) := by
  simp only [legalCheck, Bool.and_eq_true, Bool.or_eq_true, bne_iff_ne, decide_eq_true_eq] at hl
  simp only [Spec.exec, extensionWords]
  exact confined_fixed (sz' := .Word) (by decide) hl.1 (fun r ws => by simp [written, hw, eaSize, wordsBefore]) fun m ws h => Confined.cost _ (Confined.rmw h _)

theorem confined_Rom (hl : legalCheck .Rom op.toNat = true) (hw : writesMemory .Rom op = true) :
    SplitW (extensionWords .Rom op) (Confined .Rom op) (Spec.exec C .Rom op : Exec M Nat) := by
  simp only [legalCheck, Bool.and_eq_true, Bool.or_eq_true, bne_iff_ne, decide_eq_true_eq] at hl
  simp only [Spec.exec, extensionWords]
  exact confined_fixed (sz' := .Word) (by decide) hl.1 (fun r ws => by simp [written, hw, eaSize, wordsBefore]) fun m ws h => Confined.cost _ (Confined.rmw h _)

theorem confined_Roxm (hl : legalCheck .Roxm op.toNat = true) (hw : writesMemory .Roxm op = true) :
    SplitW (extensionWords .Roxm op) (Confined .Roxm op) (Spec.exec C .Roxm op : Exec M Nat) := by
  simp only [legalCheck, Bool.and_eq_true, Bool.or_eq_true, bne_iff_ne, decide_eq_true_eq] at hl
  simp only [Spec.exec, extensionWords]
  exact confined_fixed (sz' := .Word) (by decide) hl.1 (fun r ws => by simp [written, hw, eaSize, wordsBefore]) fun m ws h => Confined.cost _ (Confined.rmw h _)

theorem confined_Bchg (hl : legalCheck .Bchg op.toNat = true) (hw : writesMemory .Bchg op = true) :
    SplitW (extensionWords .Bchg op) (Confined .Bchg op) (Spec.exec C .Bchg op : Exec M Nat) := by
  simp only [legalCheck, Bool.and_eq_true, Bool.or_eq_true, bne_iff_ne, decide_eq_true_eq] at hl
  simp only [Spec.exec, extensionWords]
  exact confined_bits (by decide) hl (fun r ws => by simp [written, hw, eaSize, wordsBefore])

theorem confined_Bclr (hl : legalCheck .Bclr op.toNat = true) (hw : writesMemory .Bclr op = true) :
    SplitW (extensionWords .Bclr op) (Confined .Bclr op) (Spec.exec C .Bclr op : Exec M Nat) := by
  simp only [legalCheck, Bool.and_eq_true, Bool.or_eq_true, bne_iff_ne, decide_eq_true_eq] at hl
  simp only [Spec.exec, extensionWords]
  exact confined_bits (by decide) hl (fun r ws => by simp [written, hw, eaSize, wordsBefore])

theorem confined_Bset (hl : legalCheck .Bset op.toNat = true) (hw : writesMemory .Bset op = true) :
    SplitW (extensionWords .Bset op) (Confined .Bset op) (Spec.exec C .Bset op : Exec M Nat) := by
  simp only [legalCheck, Bool.and_eq_true, Bool.or_eq_true, bne_iff_ne, decide_eq_true_eq] at hl
  simp only [Spec.exec, extensionWords]
  exact confined_bits (by decide) hl (fun r ws => by simp [written, hw, eaSize, wordsBefore])

/-! ### The others -/

theorem fits_after {mode reg : Nat} {m : Mode} (h : Fits mode reg m) (sz : Size) (r : Registers) : (place sz r m).2 = afterEa sz r mode reg := by
  have hn : ∀ n : Fin 8, Fin.ofNat 8 n.val = n := fun n => Fin.ext (Nat.mod_eq_of_lt n.isLt)
  cases m <;> (obtain ⟨rfl, rfl⟩ := h; simp only [place, afterEa, hn])

theorem readAt_regs {sz : Size} {p : Place} {v : Val sz} (h : readAt sz p s = .ok v s2) : s2.cpu = s.cpu := by
  unfold readAt at h
  split at h
  · cases h; rfl
  · split at h
    · cases h
    · cases h; rfl
  · unfold load at h
    split at h
    · cases h
    · unfold access at h
      split at h <;> cases h
      rfl
  · cases h; rfl

theorem read_regs {sz : Size} {m : Mode} {p : Place} {v : Val sz} (h : read sz m s = .ok (p, v) s2) : s2.cpu.regs = (place sz s.cpu.regs m).2 := by
  obtain ⟨p', s', h1, h2⟩ := bind_ok h
  obtain ⟨v', s'', h3, h4⟩ := bind_ok h2
  cases h1
  cases h4
  rw [readAt_regs h3]

theorem confined_Move (hl : legalCheck .Move op.toNat = true) (hw : writesMemory .Move op = true) :
    SplitW (extensionWords .Move op) (Confined .Move op) (Spec.exec C .Move op : Exec M Nat) := by
  simp only [legalCheck, Bool.and_eq_true, Bool.or_eq_true, bne_iff_ne, decide_eq_true_eq] at hl
  simp only [Spec.exec, extensionWords]
  obtain ⟨⟨⟨⟨h1, h2⟩, h3⟩, h4⟩, h5⟩ := hl
  refine splitW_moveSized h1 fun sz hsz hi => SplitW.bind (preW_ea op h2 hi.symm) fun ws src hlen hs => ?_
  have e6 : (regField op 6).val = op.toNat / 64 % 8 := by simp [regField, Fin.ofNat]
  have e9 : (regField op 9).val = op.toNat / 512 % 8 := by simp [regField, Fin.ofNat]
  have hpre := PreW.fetchMode (M := M) (some sz) (moveImm op) (regField op 6) (regField op 9) (by rw [e6, e9]; omega)
  rw [e6, e9] at hpre
  refine SplitW.last hpre fun ws' dst _ hd => Confined.cost _ fun s => ?_
  refine TouchAt.bind (.reads (onlyReads_read src)) fun (p, v) s' hp => ?_
  refine TouchAt.bind (TouchAt.write ?_) fun _ _ _ => .reads (legal_onlyReads.flags _)
  rw [read_regs hp, fits_after hs.1]
  have : written .Move op s.cpu.regs (ws ++ ws') = span (eaAddress sz (afterEa sz s.cpu.regs (op.toNat / 8 % 8) (op.toNat % 8))
      (op.toNat / 64 % 8) (op.toNat / 512 % 8) ws') (bytes sz) := by
    simp [written, hw, hsz, ← hlen]
  rw [this]
  exact hd.hits h4 _ _

theorem confined_pair {i : Isa} {sz : Size} {b : Bool} {f : Val sz → Val sz → StatusRegister → Val sz × StatusRegister}
    (hwr : ∀ r ws, written i op r ws = span (eaAddress sz (afterEa sz r 4 (op.toNat % 8)) 4 (op.toNat / 512 % 8) []) (bytes sz)) (hb : b = true) :
    Confined (M := M) i op [] (Spec.pair sz b (regField op 9) (regField op 0) f) := by
  subst hb
  have e0 : Fits 4 (op.toNat % 8) (.predec (regField op 0)) := ⟨rfl, by simp [regField, Fin.ofNat]⟩
  have e9 : Fits 4 (op.toNat / 512 % 8) (.predec (regField op 9)) := ⟨rfl, by simp [regField, Fin.ofNat]⟩
  intro s
  unfold Spec.pair
  refine TouchAt.bind (.reads (onlyReads_locate _)) fun p1 s1 h1 => ?_
  refine TouchAt.bind (.reads (onlyReads_locate _)) fun p2 s2 h2 => ?_
  refine TouchAt.bind (.reads (onlyReads_readAt _)) fun v1 s3 h3 => ?_
  refine TouchAt.bind (.reads (onlyReads_readAt _)) fun v2 s4 h4 => ?_
  refine TouchAt.bind (.reads (legal_onlyReads.compute _)) fun r s5 h5 => TouchAt.writeAt ?_
  cases h1
  cases h2
  simp only [if_true]
  rw [hwr, fits_after e0]
  exact Spelled.hits (m := .predec (regField op 9)) ⟨e9, trivial⟩ (.inl (by decide)) sz _

theorem confined_Addx (hl : legalCheck .Addx op.toNat = true) (hw : writesMemory .Addx op = true) :
    SplitW (extensionWords .Addx op) (Confined .Addx op) (Spec.exec C .Addx op : Exec M Nat) := by
  simp only [legalCheck, bne_iff_ne] at hl
  simp only [Spec.exec, extensionWords]
  exact splitW_sized hl fun sz hs _ => SplitW.here (Confined.cost _ (confined_pair (fun r ws => by simp [written, hw, hs]) hw))

theorem confined_Subx (hl : legalCheck .Subx op.toNat = true) (hw : writesMemory .Subx op = true) :
    SplitW (extensionWords .Subx op) (Confined .Subx op) (Spec.exec C .Subx op : Exec M Nat) := by
  simp only [legalCheck, bne_iff_ne] at hl
  simp only [Spec.exec, extensionWords]
  exact splitW_sized hl fun sz hs _ => SplitW.here (Confined.cost _ (confined_pair (fun r ws => by simp [written, hw, hs]) hw))

theorem confined_Abcd (hl : legalCheck .Abcd op.toNat = true) (hw : writesMemory .Abcd op = true) :
    SplitW (extensionWords .Abcd op) (Confined .Abcd op) (Spec.exec C .Abcd op : Exec M Nat) := by
  simp only [legalCheck, bne_iff_ne] at hl
  simp only [Spec.exec, extensionWords]
  exact splitW_sized hl fun sz hs _ => SplitW.here (Confined.cost _ (confined_pair (fun r ws => by simp [written, hw, bytes]) hw))

theorem confined_Sbcd (hl : legalCheck .Sbcd op.toNat = true) (hw : writesMemory .Sbcd op = true) :
    SplitW (extensionWords .Sbcd op) (Confined .Sbcd op) (Spec.exec C .Sbcd op : Exec M Nat) := by
  simp only [legalCheck, bne_iff_ne] at hl
  simp only [Spec.exec, extensionWords]
  exact splitW_sized hl fun sz hs _ => SplitW.here (Confined.cost _ (confined_pair (fun r ws => by simp [written, hw, bytes]) hw))

/-! Pushes -/

theorem TouchAt.push {v : U32} (h : ∀ k < 4, at_ (areg s.cpu.regs 7 - 4) k ∈ W) : TouchAt W s (Spec.push .Long v) :=
  TouchAt.write (sz := .Long) fun a ha => by cases ha; exact h

theorem span_mem (a : U32) (n : Nat) : ∀ k < n, at_ a k ∈ span a n := fun k hk => List.mem_map.2 ⟨k, List.mem_range.2 hk, rfl⟩

theorem control_regs {m : Mode} {a : U32} (h : Spec.control m s = .ok a s2) : s2 = s := by
  unfold Spec.control at h
  split at h
  · cases h
  · cases h
  · rename_i h1 h2
    unfold address at h
    obtain ⟨p, s', h3, h4⟩ := bind_ok h
    have h5 : s' = s := by
      cases m <;> first | (cases h3; rfl) | exact absurd rfl (h1 _) | exact absurd rfl (h2 _)
    cases p <;> first | (cases h4; exact h5) | cases h4

theorem onlyReads_control (m : Mode) : OnlyReads (Spec.control m : Exec M U32) := by
  intro s
  cases h : Spec.control m s with
  | ok a s2 => rw [control_regs h]; exact .refl _
  | err v s2 =>
    exfalso
    unfold Spec.control at h
    split at h
    · cases h
    · cases h
    · unfold address at h
      rw [Exec.bind_apply] at h
      simp only [locate] at h
      cases hp : (place .Long s.cpu.regs m).1 <;> rw [hp] at h <;> cases h
  | panic => trivial

theorem confined_Pea (hl : legalCheck .Pea op.toNat = true) :
    SplitW (extensionWords .Pea op) (Confined .Pea op) (Spec.exec C .Pea op : Exec M Nat) := by
  simp only [legalCheck, Bool.and_eq_true, Bool.or_eq_true, bne_iff_ne, decide_eq_true_eq, eaInMemory, beq_iff_eq] at hl
  simp only [Spec.exec, extensionWords]
  refine SplitW.last (preW_ea' op (by omega)) fun ws m _ hm s => ?_
  refine TouchAt.bind (.reads (onlyReads_control m)) fun a s' h => TouchAt.cost _ (TouchAt.push ?_)
  rw [control_regs h]
  exact span_mem _ _

theorem confined_Jsr (hl : legalCheck .Jsr op.toNat = true) :
    SplitW (extensionWords .Jsr op) (Confined .Jsr op) (Spec.exec C .Jsr op : Exec M Nat) := by
  simp only [legalCheck, Bool.and_eq_true, Bool.or_eq_true, bne_iff_ne, decide_eq_true_eq, eaInMemory, beq_iff_eq] at hl
  simp only [Spec.exec, extensionWords]
  refine SplitW.last (preW_ea' op (by omega)) fun ws m _ hm => Confined.cost _ (Confined.getR fun ret s => ?_)
  refine TouchAt.bind (TouchAt.push (span_mem _ _)) fun _ s' _ => ?_
  exact TouchAt.bind (.reads (onlyReads_control m)) fun a s'' _ => .reads (legal_onlyReads.jump trivial _)

theorem confined_Bsr : SplitW (extensionWords .Bsr op) (Confined .Bsr op) (Spec.exec C .Bsr op : Exec M Nat) := by
  simp only [Spec.exec, extensionWords]
  have : SplitW (0 + (if op.toNat % 256 = 0 then 1 else 0)) (Confined .Bsr op) (Spec.exec C .Bsr op : Exec M Nat) :=
    SplitW.bind (PreW.of Pre.getR) fun ws pc hlen _ => SplitW.last (PreW.of (Pre.fetchDisp op)) fun ws' d _ _ =>
      Confined.cost _ (Confined.getR fun ret s => TouchAt.bind (TouchAt.push (span_mem _ _)) fun _ s' _ => .reads (legal_onlyReads.jump trivial _))
  rw [Nat.zero_add] at this
  exact this

theorem confined_Link : SplitW (extensionWords .Link op) (Confined .Link op) (Spec.exec C .Link op : Exec M Nat) := by
  simp only [Spec.exec, extensionWords]
  refine SplitW.last (PreW.of Pre.fetch) fun ws d _ _ => Confined.cost _ (Confined.getR fun a s => ?_)
  refine TouchAt.bind (TouchAt.push (span_mem _ _)) fun _ s' _ => .reads ?_
  exact legal_onlyReads.bind _ _ (legal_onlyReads.areg _ _) fun _ => legal_onlyReads.updateA _ _

/-! MOVEP -/

theorem TouchAt.movepStores {n : Fin 8} {k : Nat} {a : U32} (h : ∀ j < k, a + BitVec.ofNat 32 (2 * j) ∈ W) : TouchAt W s (Spec.movepStores n k a) := by
  induction k generalizing a s with
  | zero => exact .refl _
  | succ k ih =>
    refine TouchAt.bind (.reads (legal_onlyReads.getR _)) fun x s1 _ => TouchAt.bind (TouchAt.store fun j hj => ?_) fun _ s2 _ => ih fun j hj => ?_
    · have : j = 0 := by simp only [bytes] at hj; omega
      subst this
      exact h 0 (by omega)
    · have := h (j + 1) (by omega)
      rw [show a + 2 + BitVec.ofNat 32 (2 * j) = a + BitVec.ofNat 32 (2 * (j + 1)) by
        rw [BitVec.add_assoc]; congr 1; apply BitVec.eq_of_toNat_eq; simp only [BitVec.toNat_add, BitVec.toNat_ofNat, BitVec.ofNat_eq_ofNat]; omega]
      exact this

theorem preW_fetch : PreW (M := M) 1 Spec.fetch fun ws w => ws = [w] := by
  intro s
  have := Pre.fetch (M := M) s
  revert this
  cases hw : fetchWords 1 s with
  | ok ws s' =>
    rintro ⟨w, h, -⟩
    rw [fetchWords_one h] at hw
    cases hw
    exact ⟨w, h, rfl⟩
  | err => exact id
  | panic => exact id

theorem confined_Movep (hw : writesMemory .Movep op = true) : SplitW (extensionWords .Movep op) (Confined .Movep op) (Spec.exec C .Movep op : Exec M Nat) := by
  simp only [Spec.exec, extensionWords]
  refine SplitW.last preW_fetch fun ws d _ hd => Confined.cost _ fun s => ?_
  subst hd
  refine TouchAt.bind (.reads (legal_onlyReads.getR _)) fun a s1 h1 => ?_
  cases h1
  simp only [show flag op 7 = true from hw, if_true]
  refine TouchAt.movepStores fun j hj => ?_
  simp only [written, hw, Bool.true_eq_false, if_false, List.headD_cons]
  exact List.mem_map.2 ⟨j, List.mem_range.2 hj, rfl⟩

/-! MOVEM -/

theorem TouchAt.movemStores {sz : Size} {l : List (Fin 16)} {a : U32} (hs : sz ≠ .Byte) (ha : ¬ Spec.Odd a) (h : ∀ k < bytes sz * l.length, at_ a k ∈ W) :
    TouchAt W s (Spec.movemStores sz l a) := by
  induction l generalizing a s with
  | nil => exact .refl _
  | cons i l ih =>
    rw [List.length_cons, Nat.mul_succ] at h
    refine TouchAt.bind (.reads (legal_onlyReads.getR _)) fun x s1 _ =>
      TouchAt.bind (TouchAt.memSet (fun hc => ha hc.2) fun j hj => h j (by omega)) fun _ s2 _ => ih ?_ fun j hj => ?_
    · have hb : bytes sz % 2 = 0 ∧ bytes sz ≤ 4 := by cases sz <;> simp [bytes] at hs ⊢
      unfold Spec.Odd at ha ⊢
      rw [BitVec.toNat_add, BitVec.toNat_ofNat]
      omega
    · have := h (bytes sz + j) (by omega)
      rw [show at_ (a + BitVec.ofNat 32 (bytes sz)) j = at_ a (bytes sz + j) by
        unfold at_; rw [BitVec.add_assoc]; congr 1; apply BitVec.eq_of_toNat_eq; simp only [BitVec.toNat_add, BitVec.toNat_ofNat]; omega]
      exact this

theorem TouchAt.movemStoresDown {sz : Size} {l : List (Fin 16)} {a : U32} (hs : sz ≠ .Byte) (ha : ¬ Spec.Odd a)
    (h : ∀ k < bytes sz * l.length, at_ (a - BitVec.ofNat 32 (bytes sz * l.length)) k ∈ W) :
    TouchAt W s (Spec.movemStoresDown sz l a) := by
  induction l generalizing a s with
  | nil => exact .refl _
  | cons i l ih =>
    rw [List.length_cons, Nat.mul_succ] at h
    have ho : ¬ Spec.Odd (a - BitVec.ofNat 32 (bytes sz)) := by
      have hb : bytes sz % 2 = 0 ∧ bytes sz ≤ 4 := by cases sz <;> simp [bytes] at hs ⊢
      unfold Spec.Odd at ha ⊢
      rw [BitVec.toNat_sub, BitVec.toNat_ofNat]
      have := a.isLt
      omega
    refine TouchAt.bind (.reads (legal_onlyReads.getR _)) fun x s1 _ =>
      TouchAt.bind (TouchAt.memSet (fun hc => ho hc.2) fun j hj => ?_) fun _ s2 _ => ih ho fun j hj => ?_
    · have := h (bytes sz * l.length + j) (by omega)
      rw [show at_ (a - BitVec.ofNat 32 (bytes sz)) j = at_ (a - BitVec.ofNat 32 (bytes sz * l.length + bytes sz)) (bytes sz * l.length + j) by
        unfold at_
        generalize bytes sz * l.length = p
        generalize bytes sz = q
        rw [BitVec.ofNat_add, BitVec.ofNat_add]
        generalize BitVec.ofNat 32 p = p
        generalize BitVec.ofNat 32 q = q
        rw [BitVec.sub_eq_add_neg, BitVec.sub_eq_add_neg]
        grind]
      exact this
    · have := h j (by omega)
      rw [show a - BitVec.ofNat 32 (bytes sz) - BitVec.ofNat 32 (bytes sz * l.length) = a - BitVec.ofNat 32 (bytes sz * l.length + bytes sz) by
        rw [BitVec.ofNat_add]
        grind]
      exact this

/-- MOVEM stores only to alterable operands. -/
def movemStoreCheck (i : Isa) (op : Nat) : Bool := i != .Movem || op / 1024 % 2 == 1 || op / 8 % 8 < 7 || op % 8 ≤ 1

set_option maxRecDepth 100000 in
set_option maxHeartbeats 4000000 in
theorem movemStoreCheck_all : checkTable movemStoreCheck = true := by apply checkTable_intro <;> decide +kernel

theorem aligned_ok {a : U32} (h : aligned a s = .ok () s2) : ¬ Spec.Odd a ∧ s2 = s := by
  unfold aligned at h
  split at h
  · cases h
  · cases h; exact ⟨‹_›, rfl⟩

theorem onlyReads_aligned (a : U32) : OnlyReads (aligned a : Exec M Unit) := by
  unfold aligned
  split
  · exact legal_onlyReads.trap _
  · exact legal_onlyReads.pure _

theorem confined_Movem (hl : legalCheck .Movem op.toNat = true) (hs : movemStoreCheck .Movem op.toNat = true) (hw : writesMemory .Movem op = true) :
    SplitW (extensionWords .Movem op) (Confined .Movem op) (Spec.exec C .Movem op : Exec M Nat) := by
  simp only [legalCheck, Bool.and_eq_true, Bool.or_eq_true, decide_eq_true_eq, eaInMemory, beq_iff_eq] at hl
  simp only [Spec.exec, extensionWords]
  have hsz : sizeBit op 6 ≠ .Byte := sizeBit_ne _ _
  refine SplitW.bind preW_fetch fun ws mask hlen hws => SplitW.last (preW_ea' op (by omega)) fun ws' m _ hm => Confined.cost _ fun s => ?_
  subst hws
  have hc : listCount ([mask] ++ ws') = (listed mask).length := rfl
  unfold Spec.movem
  split
  · rename_i n
    have h4 : op.toNat / 8 % 8 = 4 := hm.1.1
    have hn : n = regField op 0 := Fin.ext (by rw [hm.1.2]; simp [regField, Fin.ofNat])
    subst hn
    refine TouchAt.bind (.reads (legal_onlyReads.getR _)) fun a s1 h1 => ?_
    cases h1
    refine TouchAt.bind (.reads (onlyReads_aligned _)) fun _ s2 h2 => ?_
    obtain ⟨h3, rfl⟩ := aligned_ok h2
    refine TouchAt.bind (TouchAt.movemStoresDown hsz h3 ?_) fun _ _ _ => .reads (legal_onlyReads.updateA _ _)
    simp only [written, hw, Bool.true_eq_false, if_false, h4, if_true, hc]
    rw [show (listedDown mask).length = (listed mask).length by simp [listedDown, listed]]
    exact span_mem _ _
  · rename_i n
    have h4 : op.toNat / 8 % 8 = 3 := hm.1.1
    have hn : n = regField op 0 := Fin.ext (by rw [hm.1.2]; simp [regField, Fin.ofNat])
    have hf : flag op 10 = false := by simpa [writesMemory, h4] using hw
    refine TouchAt.bind (.reads (legal_onlyReads.getR _)) fun a s1 h1 => ?_
    cases h1
    refine TouchAt.bind (.reads (onlyReads_aligned _)) fun _ s2 h2 => ?_
    obtain ⟨h3, rfl⟩ := aligned_ok h2
    simp only [hf, Bool.false_eq_true, if_false]
    refine TouchAt.bind (TouchAt.movemStores hsz h3 ?_) fun _ _ _ => .reads (legal_onlyReads.updateA _ _)
    simp only [written, hw, Bool.true_eq_false, if_false, h4, hc]
    have := hm.1.2
    simp only [eaAddress, show (3 : Nat) ≠ 4 by decide, if_false, ← this, show Fin.ofNat 8 n.val = n from Fin.ext (Nat.mod_eq_of_lt n.isLt)]
    exact span_mem _ _
  · rename_i h1 h2
    have h4 : op.toNat / 8 % 8 ≠ 4 := by
      intro h4
      have hf := hm.1
      cases m <;> first | exact absurd rfl (h1 _) | (obtain ⟨h5, -⟩ := hf; omega)
    have hf : flag op 10 = false := by simpa [writesMemory, h4] using hw
    have hal : op.toNat / 8 % 8 < 7 ∨ op.toNat % 8 ≤ 1 := by
      simp only [movemStoreCheck, Bool.or_eq_true, bne_self_eq_false, Bool.false_eq_true, false_or, beq_iff_eq, decide_eq_true_eq] at hs
      have : op.toNat / 2 ^ 10 % 2 ≠ 1 := by simpa [flag] using hf
      omega
    refine TouchAt.bind (.reads (legal_onlyReads.bind _ _ (onlyReads_locate _) fun p => ?_)) fun a s1 h5 => ?_
    · cases p <;> first | exact legal_onlyReads.pure _ | exact fun _ => trivial
    obtain ⟨p, s', h6, h7⟩ := bind_ok h5
    cases h6
    cases hp : (place (sizeBit op 6) s.cpu.regs m).1 with
    | mem a' =>
      rw [hp] at h7
      cases h7
      refine TouchAt.bind (.reads (onlyReads_aligned _)) fun _ s2 h2 => ?_
      obtain ⟨h3, rfl⟩ := aligned_ok h2
      simp only [hf, Bool.false_eq_true, if_false]
      refine TouchAt.bind (TouchAt.movemStores hsz h3 ?_) fun _ _ _ => .reads (legal_onlyReads.pure _)
      simp only [written, hw, Bool.true_eq_false, if_false, h4, hc]
      rw [hm.address hal hp]
      exact span_mem _ _
    | dreg n => rw [hp] at h7; cases h7
    | areg n => rw [hp] at h7; cases h7
    | imm n => rw [hp] at h7; cases h7

/-- Every instruction that writes operands to memory. -/
theorem confined (hl : legalCheck i op.toNat = true) (hs : movemStoreCheck i op.toNat = true) (hw : writesMemory i op = true) :
    SplitW (extensionWords i op) (Confined i op) (Spec.exec C i op : Exec M Nat) := by
  cases i with
  | Add => exact confined_Add hl hw
  | Sub => exact confined_Sub hl hw
  | And => exact confined_And hl hw
  | Or => exact confined_Or hl hw
  | Addi => exact confined_Addi hl hw
  | Subi => exact confined_Subi hl hw
  | Andi => exact confined_Andi hl hw
  | Ori => exact confined_Ori hl hw
  | Eori => exact confined_Eori hl hw
  | Addq => exact confined_Addq hl hw
  | Subq => exact confined_Subq hl hw
  | Eor => exact confined_Eor hl hw
  | Neg => exact confined_Neg hl hw
  | Negx => exact confined_Negx hl hw
  | Not => exact confined_Not hl hw
  | Clr => exact confined_Clr hl hw
  | Nbcd => exact confined_Nbcd hl hw
  | Tas => exact confined_Tas hl hw
  | Scc => exact confined_Scc hl hw
  | Movefsr => exact confined_Movefsr hl hw
  | Asm => exact confined_Asm hl hw
  | Lsm => exact confined_Lsm hl hw
  | Rom => exact confined_Rom hl hw
  | Roxm => exact confined_Roxm hl hw
  | Bchg => exact confined_Bchg hl hw
  | Bclr => exact confined_Bclr hl hw
  | Bset => exact confined_Bset hl hw
  | Move => exact confined_Move hl hw
  | Addx => exact confined_Addx hl hw
  | Subx => exact confined_Subx hl hw
  | Abcd => exact confined_Abcd hl hw
  | Sbcd => exact confined_Sbcd hl hw
  | Pea => exact confined_Pea hl
  | Jsr => exact confined_Jsr hl
  | Bsr => exact confined_Bsr
  | Link => exact confined_Link
  | Movep => exact confined_Movep hw
  | Movem => exact confined_Movem hl hs hw
  | _ => cases hw

/-! The program counter does not matter -/

theorem setAreg_withPc (r : Registers) (p : U32) (n : Fin 8) (v : U32) : setAreg { r with pc := p } n v = { setAreg r n v with pc := p } := by
  unfold setAreg
  split
  · rfl
  · split <;> rfl

theorem eaAddress_withPc (sz : Size) (r : Registers) (p : U32) (mode reg : Nat) (ws : List U16) :
    eaAddress sz { r with pc := p } mode reg ws = eaAddress sz r mode reg ws := by
  unfold eaAddress
  split <;> rfl

theorem afterEa_withPc (sz : Size) (r : Registers) (p : U32) (mode reg : Nat) :
    afterEa sz { r with pc := p } mode reg = { afterEa sz r mode reg with pc := p } := by
  unfold afterEa
  split
  · exact setAreg_withPc _ _ _ _
  · exact setAreg_withPc _ _ _ _
  · rfl

theorem written_withPc (i : Isa) (op : U16) (r : Registers) (p : U32) (ws : List U16) : written i op { r with pc := p } ws = written i op r ws := by
  have ha : ∀ n, areg { r with pc := p } n = areg r n := fun _ => rfl
  unfold written
  simp only [afterEa_withPc, eaAddress_withPc, ha]

end Exec
end M68k
