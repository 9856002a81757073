import Verif.Lemmas.Legal
/-
The traversal of all instructions of the decoder table with `Legal`.
-/
set_option linter.unusedSectionVars false
namespace M68k
namespace Exec
open Spec
variable {M : Type} [MemoryAccess M] {α β : Type}

theorem reg8 {op : U16} : op.toNat % 8 < 8 := Nat.mod_lt _ (by decide)

section
variable {rd wr jmp rst : Prop} {P : ∀ {α : Type}, Exec M α → Prop} (hP : Legal rd wr jmp rst P) (C : CpuDetails) {op : U16}
include hP

theorem Legal.binary {f : {n : Nat} → BitVec n → BitVec n → StatusRegister → BitVec n × StatusRegister} {a b c d e : Nat}
    (hl : ((op.toNat / 64 % 4 ≠ 3 ∧ (op.toNat / 8 % 8 < 7 ∨ op.toNat % 8 ≤ 4)) ∧ (op.toNat / 64 % 4 ≠ 0 ∨ op.toNat / 8 % 8 ≠ 1)) ∧ (op.toNat / 256 % 2 ≠ 1 ∨ ((op.toNat / 8 % 8 < 7 ∨ op.toNat % 8 ≤ 1) ∧ eaInMemory (op.toNat / 8 % 8) (op.toNat % 8) = true))) (hrd : opInMemory op = true → rd) (hwr : flag op 8 = true → wr) :
    Split (opEaWords (sizedImm op) op) P (Spec.binary C op f a b c d e : Exec M Nat) := by
  obtain ⟨⟨⟨h1, h2⟩, h3⟩, h4⟩ := hl
  refine split_sized h1 fun sz _ hi hb => Split.last (pre_ea op h2 hi.symm) fun m hm => ?_
  have hR : Readable sz m := fits_readable hm fun e1 e2 => by
    rcases h3 with h3 | h3
    · exact h3 (hb.1 e2)
    · exact h3 e1
  split
  · rename_i h8
    have h8' : op.toNat / 256 % 2 = 1 := by simpa [flag] using h8
    have h4 := h4.resolve_left (fun h => h h8')
    exact hP.cost _ (hP.opToEa _ _ _ ⟨hR, fits_imm hm h4.1⟩ (fun h => ⟨hrd (fits_mem hm h reg8), hwr h8⟩) _)
  · exact hP.cost _ (hP.opToDn _ _ _ hR (fun h => hrd (fits_mem hm h reg8)) _)

theorem Legal.immediate {f : {n : Nat} → BitVec n → BitVec n → StatusRegister → BitVec n × StatusRegister} {a b c d : Nat}
    (hl : (op.toNat / 64 % 4 ≠ 3 ∧ (op.toNat / 8 % 8 < 7 ∨ op.toNat % 8 ≤ 1)) ∧ op.toNat / 8 % 8 ≠ 1) (hrd : opInMemory op = true → rd) (hwr : opInMemory op = true → wr) :
    Split (sizedImm op + opEaWords (sizedImm op) op) P (Spec.immediate C op f a b c d : Exec M Nat) := by
  obtain ⟨⟨h1, h2⟩, h3⟩ := hl
  refine split_sized h1 fun sz _ hi hb => ?_
  rw [hi]
  refine Split.bind (Pre.fetchImm sz) fun v _ => Split.last (pre_ea op (by omega) rfl) fun m hm => ?_
  exact hP.cost _ (hP.rmw _ _ ⟨fits_readable hm fun e => absurd e h3, fits_imm hm h2⟩ (fun h => ⟨hrd (fits_mem hm h reg8), hwr (fits_mem hm h reg8)⟩) _)

/-- An instruction with a size in bits 7-6 and a data alterable operand. -/
theorem Legal.altered {x : (sz : Size) → Mode → Exec M Nat} (hl : (op.toNat / 64 % 4 ≠ 3 ∧ (op.toNat / 8 % 8 < 7 ∨ op.toNat % 8 ≤ 1)) ∧ op.toNat / 8 % 8 ≠ 1)
    (hx : ∀ sz m, Writeable sz m → (m.isMem = true → opInMemory op = true) → P (x sz m)) :
    Split (opEaWords (sizedImm op) op) P (sized op fun sz => Spec.fetchEa (some sz) op >>= x sz) := by
  obtain ⟨⟨h1, h2⟩, h3⟩ := hl
  refine split_sized h1 fun sz _ hi hb => Split.last (pre_ea op (by omega) hi.symm) fun m hm => ?_
  exact hx sz m ⟨fits_readable hm fun e => absurd e h3, fits_imm hm h2⟩ fun h => fits_mem hm h reg8

/-- An instruction with a data alterable operand of fixed size. -/
theorem Legal.alteredB {sz : Size} {x : Mode → Exec M Nat} (hs : sz ≠ .Long) (hl : (op.toNat / 8 % 8 < 7 ∨ op.toNat % 8 ≤ 1) ∧ op.toNat / 8 % 8 ≠ 1)
    (hx : ∀ m, (∀ sz, Writeable sz m) → (m.isMem = true → opInMemory op = true) → P (x m)) :
    Split (opEaWords 1 op) P (Spec.fetchEa (some sz) op >>= x) := by
  obtain ⟨h2, h3⟩ := hl
  refine Split.last (pre_ea op (by omega) (by cases sz; { rfl }; { rfl }; { exact absurd rfl hs })) fun m hm => ?_
  exact hx m (fun sz => ⟨fits_readable hm fun e => absurd e h3, fits_imm hm h2⟩) fun h => fits_mem hm h reg8

/-- An instruction with a data operand of fixed size. -/
theorem Legal.sourceB {sz : Size} {x : Mode → Exec M Nat} (hs : sz ≠ .Long) (hl : (op.toNat / 8 % 8 < 7 ∨ op.toNat % 8 ≤ 4) ∧ op.toNat / 8 % 8 ≠ 1)
    (hx : ∀ m, (∀ sz, Readable sz m) → (m.isMem = true → opInMemory op = true) → P (x m)) :
    Split (opEaWords 1 op) P (Spec.fetchEa (some sz) op >>= x) := by
  obtain ⟨h2, h3⟩ := hl
  refine Split.last (pre_ea op (by omega) (by cases sz; { rfl }; { rfl }; { exact absurd rfl hs })) fun m hm => ?_
  exact hx m (fun sz => fits_readable hm fun e => absurd e h3) fun h => fits_mem hm h reg8

/-- ADDA, SUBA, CMPA. -/
theorem Legal.address9 {x : Mode → Exec M Nat} (hl : op.toNat / 8 % 8 < 7 ∨ op.toNat % 8 ≤ 4)
    (hx : ∀ m, Readable (sizeBit op 8) m → (m.isMem = true → opInMemory op = true) → P (x m)) :
    Split (opEaWords (if flag op 8 then 2 else 1) op) P (Spec.fetchEa (some (sizeBit op 8)) op >>= x) := by
  refine Split.last (pre_ea op hl (by unfold sizeBit; split <;> rfl)) fun m hm => ?_
  exact hx m (fits_readable hm fun _ => by unfold sizeBit; split <;> decide) fun h => fits_mem hm h reg8

theorem Legal.bits {o : BitOp} {a b c d : Nat} (hl : (op.toNat / 8 % 8 < 7 ∨ op.toNat % 8 ≤ 4) ∧ op.toNat / 8 % 8 ≠ 1)
    (hw : o ≠ .test → (op.toNat / 8 % 8 < 7 ∨ op.toNat % 8 ≤ 1) ∧ op.toNat / 8 % 8 ≠ 1) (hrd : opInMemory op = true → rd) (hwr : o ≠ .test → opInMemory op = true → wr) :
    Split ((if flag op 8 then 0 else 1) + opEaWords 1 op) P (Spec.bitInstr C op o a b c d : Exec M Nat) := by
  have hx : ∀ (k : Nat) (m : Mode), Fits (op.toNat / 8 % 8) (op.toNat % 8) m → P (Spec.bitOp o k m : Exec M Unit) := fun k m hm =>
    hP.bitOp _ _ _ (fits_an hm hl.2) (fun ho => fits_imm hm (hw ho).1) (fun h => hrd (fits_mem hm h reg8)) fun ho h => hwr ho (fits_mem hm h reg8)
  unfold Spec.bitInstr
  by_cases h8 : flag op 8
  · rw [if_pos h8, if_pos h8, Nat.zero_add]
    exact Split.last (pre_ea op hl.1 rfl) fun m hm => hP.bind _ _ (hP.getR _) fun k => hP.cost _ (hx _ _ hm)
  · rw [if_neg h8, if_neg h8]
    exact Split.bind Pre.fetch fun w _ => Split.last (pre_ea op hl.1 rfl) fun m hm => hP.cost _ (hx _ _ hm)

theorem Legal.shifts {f g : {n : Nat} → Nat → BitVec n → StatusRegister → BitVec n × StatusRegister} {a b c : Nat}
    (hl : op.toNat / 64 % 4 ≠ 3) : Split 0 P (Spec.shiftInstr op f g a b c : Exec M Nat) := by
  refine split_sized hl fun sz _ _ _ => Split.here (hP.map _ ?_)
  split
  · exact hP.shift _ _ _ _ _
  · exact hP.shift _ _ _ _ _

theorem Legal.pairs {x : Size → Exec M Nat} (hl : op.toNat / 64 % 4 ≠ 3) (hx : ∀ sz, P (x sz)) : Split 0 P (sized op x) := by
  exact split_sized hl fun sz _ _ _ => Split.here (hx sz)

theorem Legal.controls {sz : Option Size} {x : Mode → Exec M Nat} (hl : (eaInMemory (op.toNat / 8 % 8) (op.toNat % 8) = true ∧ op.toNat / 8 % 8 ≠ 3) ∧ op.toNat / 8 % 8 ≠ 4)
    (hx : ∀ m, P (Spec.control m : Exec M U32) → P (x m)) : Split (opEaWords 0 op) P (Spec.fetchEa sz op >>= x) := by
  obtain ⟨⟨h1, h2⟩, h3⟩ := hl
  refine Split.last (pre_ea' op ?_) fun m hm => hx m (hP.control m (isMem_of_fits hm h1) ?_ ?_)
  · simp only [eaInMemory, Bool.and_eq_true, Bool.or_eq_true, decide_eq_true_eq, beq_iff_eq] at h1
    omega
  · rintro n rfl; exact h2 hm.1
  · rintro n rfl; exact h3 hm.1

theorem Legal.exec_Unknown (hl : legalCheck .Unknown op.toNat = true) (hrd : readsMemory .Unknown op = true → rd) (hwr : writesMemory .Unknown op = true → wr)
    (hj : branches .Unknown = true → jmp) (hrst : Isa.Unknown = .Reset → rst) : Split (extensionWords .Unknown op) P (Spec.exec C .Unknown op : Exec M Nat) := by
  simp only [legalCheck, Bool.and_eq_true, Bool.or_eq_true, bne_iff_ne, decide_eq_true_eq] at hl
  simp only [Spec.exec, extensionWords]
  exact Split.here (hP.cost _ (hP.trap _))

theorem Legal.exec_Illegal (hl : legalCheck .Illegal op.toNat = true) (hrd : readsMemory .Illegal op = true → rd) (hwr : writesMemory .Illegal op = true → wr)
    (hj : branches .Illegal = true → jmp) (hrst : Isa.Illegal = .Reset → rst) : Split (extensionWords .Illegal op) P (Spec.exec C .Illegal op : Exec M Nat) := by
  simp only [legalCheck, Bool.and_eq_true, Bool.or_eq_true, bne_iff_ne, decide_eq_true_eq] at hl
  simp only [Spec.exec, extensionWords]
  exact Split.here (hP.cost _ (hP.trap _))

theorem Legal.exec_Add (hl : legalCheck .Add op.toNat = true) (hrd : readsMemory .Add op = true → rd) (hwr : writesMemory .Add op = true → wr)
    (hj : branches .Add = true → jmp) (hrst : Isa.Add = .Reset → rst) : Split (extensionWords .Add op) P (Spec.exec C .Add op : Exec M Nat) := by
  simp only [legalCheck, Bool.and_eq_true, Bool.or_eq_true, bne_iff_ne, decide_eq_true_eq] at hl
  simp only [Spec.exec, extensionWords]
  exact hP.binary C hl hrd hwr

theorem Legal.exec_Sub (hl : legalCheck .Sub op.toNat = true) (hrd : readsMemory .Sub op = true → rd) (hwr : writesMemory .Sub op = true → wr)
    (hj : branches .Sub = true → jmp) (hrst : Isa.Sub = .Reset → rst) : Split (extensionWords .Sub op) P (Spec.exec C .Sub op : Exec M Nat) := by
  simp only [legalCheck, Bool.and_eq_true, Bool.or_eq_true, bne_iff_ne, decide_eq_true_eq] at hl
  simp only [Spec.exec, extensionWords]
  exact hP.binary C hl hrd hwr

theorem Legal.exec_And (hl : legalCheck .And op.toNat = true) (hrd : readsMemory .And op = true → rd) (hwr : writesMemory .And op = true → wr)
    (hj : branches .And = true → jmp) (hrst : Isa.And = .Reset → rst) : Split (extensionWords .And op) P (Spec.exec C .And op : Exec M Nat) := by
  simp only [legalCheck, Bool.and_eq_true, Bool.or_eq_true, bne_iff_ne, decide_eq_true_eq] at hl
  simp only [Spec.exec, extensionWords]
  exact hP.binary C hl hrd hwr

theorem Legal.exec_Or (hl : legalCheck .Or op.toNat = true) (hrd : readsMemory .Or op = true → rd) (hwr : writesMemory .Or op = true → wr)
    (hj : branches .Or = true → jmp) (hrst : Isa.Or = .Reset → rst) : Split (extensionWords .Or op) P (Spec.exec C .Or op : Exec M Nat) := by
  simp only [legalCheck, Bool.and_eq_true, Bool.or_eq_true, bne_iff_ne, decide_eq_true_eq] at hl
  simp only [Spec.exec, extensionWords]
  exact hP.binary C hl hrd hwr

theorem Legal.exec_Addi (hl : legalCheck .Addi op.toNat = true) (hrd : readsMemory .Addi op = true → rd) (hwr : writesMemory .Addi op = true → wr)
    (hj : branches .Addi = true → jmp) (hrst : Isa.Addi = .Reset → rst) : Split (extensionWords .Addi op) P (Spec.exec C .Addi op : Exec M Nat) := by
  simp only [legalCheck, Bool.and_eq_true, Bool.or_eq_true, bne_iff_ne, decide_eq_true_eq] at hl
  simp only [Spec.exec, extensionWords]
  exact hP.immediate C hl hrd hwr

theorem Legal.exec_Subi (hl : legalCheck .Subi op.toNat = true) (hrd : readsMemory .Subi op = true → rd) (hwr : writesMemory .Subi op = true → wr)
    (hj : branches .Subi = true → jmp) (hrst : Isa.Subi = .Reset → rst) : Split (extensionWords .Subi op) P (Spec.exec C .Subi op : Exec M Nat) := by
  simp only [legalCheck, Bool.and_eq_true, Bool.or_eq_true, bne_iff_ne, decide_eq_true_eq] at hl
  simp only [Spec.exec, extensionWords]
  exact hP.immediate C hl hrd hwr

theorem Legal.exec_Andi (hl : legalCheck .Andi op.toNat = true) (hrd : readsMemory .Andi op = true → rd) (hwr : writesMemory .Andi op = true → wr)
    (hj : branches .Andi = true → jmp) (hrst : Isa.Andi = .Reset → rst) : Split (extensionWords .Andi op) P (Spec.exec C .Andi op : Exec M Nat) := by
  simp only [legalCheck, Bool.and_eq_true, Bool.or_eq_true, bne_iff_ne, decide_eq_true_eq] at hl
  simp only [Spec.exec, extensionWords]
  exact hP.immediate C hl hrd hwr

theorem Legal.exec_Ori (hl : legalCheck .Ori op.toNat = true) (hrd : readsMemory .Ori op = true → rd) (hwr : writesMemory .Ori op = true → wr)
    (hj : branches .Ori = true → jmp) (hrst : Isa.Ori = .Reset → rst) : Split (extensionWords .Ori op) P (Spec.exec C .Ori op : Exec M Nat) := by
  simp only [legalCheck, Bool.and_eq_true, Bool.or_eq_true, bne_iff_ne, decide_eq_true_eq] at hl
  simp only [Spec.exec, extensionWords]
  exact hP.immediate C hl hrd hwr

theorem Legal.exec_Eori (hl : legalCheck .Eori op.toNat = true) (hrd : readsMemory .Eori op = true → rd) (hwr : writesMemory .Eori op = true → wr)
    (hj : branches .Eori = true → jmp) (hrst : Isa.Eori = .Reset → rst) : Split (extensionWords .Eori op) P (Spec.exec C .Eori op : Exec M Nat) := by
  simp only [legalCheck, Bool.and_eq_true, Bool.or_eq_true, bne_iff_ne, decide_eq_true_eq] at hl
  simp only [Spec.exec, extensionWords]
  exact hP.immediate C hl hrd hwr

theorem Legal.exec_Adda (hl : legalCheck .Adda op.toNat = true) (hrd : readsMemory .Adda op = true → rd) (hwr : writesMemory .Adda op = true → wr)
    (hj : branches .Adda = true → jmp) (hrst : Isa.Adda = .Reset → rst) : Split (extensionWords .Adda op) P (Spec.exec C .Adda op : Exec M Nat) := by
  simp only [legalCheck, Bool.and_eq_true, Bool.or_eq_true, bne_iff_ne, decide_eq_true_eq] at hl
  simp only [Spec.exec, extensionWords]
  exact hP.address9 hl fun m h1 h2 => hP.readExt _ _ h1 (fun h => hrd (h2 h)) fun v => hP.cost _ (hP.updateA _ _)

theorem Legal.exec_Suba (hl : legalCheck .Suba op.toNat = true) (hrd : readsMemory .Suba op = true → rd) (hwr : writesMemory .Suba op = true → wr)
    (hj : branches .Suba = true → jmp) (hrst : Isa.Suba = .Reset → rst) : Split (extensionWords .Suba op) P (Spec.exec C .Suba op : Exec M Nat) := by
  simp only [legalCheck, Bool.and_eq_true, Bool.or_eq_true, bne_iff_ne, decide_eq_true_eq] at hl
  simp only [Spec.exec, extensionWords]
  exact hP.address9 hl fun m h1 h2 => hP.readExt _ _ h1 (fun h => hrd (h2 h)) fun v => hP.cost _ (hP.updateA _ _)

theorem Legal.exec_Cmpa (hl : legalCheck .Cmpa op.toNat = true) (hrd : readsMemory .Cmpa op = true → rd) (hwr : writesMemory .Cmpa op = true → wr)
    (hj : branches .Cmpa = true → jmp) (hrst : Isa.Cmpa = .Reset → rst) : Split (extensionWords .Cmpa op) P (Spec.exec C .Cmpa op : Exec M Nat) := by
  simp only [legalCheck, Bool.and_eq_true, Bool.or_eq_true, bne_iff_ne, decide_eq_true_eq] at hl
  simp only [Spec.exec, extensionWords]
  exact hP.address9 hl fun m h1 h2 => hP.readExt _ _ h1 (fun h => hrd (h2 h)) fun v => hP.bind _ _ (hP.getR _) fun _ => hP.cost _ (hP.compareWith _ _)

theorem Legal.exec_Addq (hl : legalCheck .Addq op.toNat = true) (hrd : readsMemory .Addq op = true → rd) (hwr : writesMemory .Addq op = true → wr)
    (hj : branches .Addq = true → jmp) (hrst : Isa.Addq = .Reset → rst) : Split (extensionWords .Addq op) P (Spec.exec C .Addq op : Exec M Nat) := by
  simp only [legalCheck, Bool.and_eq_true, Bool.or_eq_true, bne_iff_ne, decide_eq_true_eq] at hl
  simp only [Spec.exec, extensionWords]
  refine split_sized hl.1 fun sz _ hi _ => Split.last (pre_ea op (by omega) hi.symm) fun m hm => hP.cost _ (hP.quickOp _ _ _ _ (fits_imm hm hl.2) fun h => ?_)
  exact ⟨hrd (fits_mem hm h reg8), hwr (fits_mem hm h reg8)⟩

theorem Legal.exec_Subq (hl : legalCheck .Subq op.toNat = true) (hrd : readsMemory .Subq op = true → rd) (hwr : writesMemory .Subq op = true → wr)
    (hj : branches .Subq = true → jmp) (hrst : Isa.Subq = .Reset → rst) : Split (extensionWords .Subq op) P (Spec.exec C .Subq op : Exec M Nat) := by
  simp only [legalCheck, Bool.and_eq_true, Bool.or_eq_true, bne_iff_ne, decide_eq_true_eq] at hl
  simp only [Spec.exec, extensionWords]
  refine split_sized hl.1 fun sz _ hi _ => Split.last (pre_ea op (by omega) hi.symm) fun m hm => hP.cost _ (hP.quickOp _ _ _ _ (fits_imm hm hl.2) fun h => ?_)
  exact ⟨hrd (fits_mem hm h reg8), hwr (fits_mem hm h reg8)⟩

theorem Legal.exec_Addx (hl : legalCheck .Addx op.toNat = true) (hrd : readsMemory .Addx op = true → rd) (hwr : writesMemory .Addx op = true → wr)
    (hj : branches .Addx = true → jmp) (hrst : Isa.Addx = .Reset → rst) : Split (extensionWords .Addx op) P (Spec.exec C .Addx op : Exec M Nat) := by
  simp only [legalCheck, Bool.and_eq_true, Bool.or_eq_true, bne_iff_ne, decide_eq_true_eq] at hl
  simp only [Spec.exec, extensionWords]
  exact hP.pairs hl fun sz => hP.cost _ (hP.pair _ _ _ _ (fun h => ⟨hrd h, hwr h⟩) _)

theorem Legal.exec_Subx (hl : legalCheck .Subx op.toNat = true) (hrd : readsMemory .Subx op = true → rd) (hwr : writesMemory .Subx op = true → wr)
    (hj : branches .Subx = true → jmp) (hrst : Isa.Subx = .Reset → rst) : Split (extensionWords .Subx op) P (Spec.exec C .Subx op : Exec M Nat) := by
  simp only [legalCheck, Bool.and_eq_true, Bool.or_eq_true, bne_iff_ne, decide_eq_true_eq] at hl
  simp only [Spec.exec, extensionWords]
  exact hP.pairs hl fun sz => hP.cost _ (hP.pair _ _ _ _ (fun h => ⟨hrd h, hwr h⟩) _)

theorem Legal.exec_Abcd (hl : legalCheck .Abcd op.toNat = true) (hrd : readsMemory .Abcd op = true → rd) (hwr : writesMemory .Abcd op = true → wr)
    (hj : branches .Abcd = true → jmp) (hrst : Isa.Abcd = .Reset → rst) : Split (extensionWords .Abcd op) P (Spec.exec C .Abcd op : Exec M Nat) := by
  simp only [legalCheck, Bool.and_eq_true, Bool.or_eq_true, bne_iff_ne, decide_eq_true_eq] at hl
  simp only [Spec.exec, extensionWords]
  exact hP.pairs hl fun sz => hP.cost _ (hP.pair .Byte _ _ _ (fun h => ⟨hrd h, hwr h⟩) _)

theorem Legal.exec_Sbcd (hl : legalCheck .Sbcd op.toNat = true) (hrd : readsMemory .Sbcd op = true → rd) (hwr : writesMemory .Sbcd op = true → wr)
    (hj : branches .Sbcd = true → jmp) (hrst : Isa.Sbcd = .Reset → rst) : Split (extensionWords .Sbcd op) P (Spec.exec C .Sbcd op : Exec M Nat) := by
  simp only [legalCheck, Bool.and_eq_true, Bool.or_eq_true, bne_iff_ne, decide_eq_true_eq] at hl
  simp only [Spec.exec, extensionWords]
  exact hP.pairs hl fun sz => hP.cost _ (hP.pair .Byte _ _ _ (fun h => ⟨hrd h, hwr h⟩) _)

theorem Legal.exec_Nbcd (hl : legalCheck .Nbcd op.toNat = true) (hrd : readsMemory .Nbcd op = true → rd) (hwr : writesMemory .Nbcd op = true → wr)
    (hj : branches .Nbcd = true → jmp) (hrst : Isa.Nbcd = .Reset → rst) : Split (extensionWords .Nbcd op) P (Spec.exec C .Nbcd op : Exec M Nat) := by
  simp only [legalCheck, Bool.and_eq_true, Bool.or_eq_true, bne_iff_ne, decide_eq_true_eq] at hl
  simp only [Spec.exec, extensionWords]
  exact hP.alteredB (by decide) hl fun m h1 h2 => hP.cost _ (hP.rmw _ _ (h1 _) (fun h => ⟨hrd (h2 h), hwr (h2 h)⟩) _)

theorem Legal.exec_Neg (hl : legalCheck .Neg op.toNat = true) (hrd : readsMemory .Neg op = true → rd) (hwr : writesMemory .Neg op = true → wr)
    (hj : branches .Neg = true → jmp) (hrst : Isa.Neg = .Reset → rst) : Split (extensionWords .Neg op) P (Spec.exec C .Neg op : Exec M Nat) := by
  simp only [legalCheck, Bool.and_eq_true, Bool.or_eq_true, bne_iff_ne, decide_eq_true_eq] at hl
  simp only [Spec.exec, extensionWords]
  exact hP.altered hl fun sz m h1 h2 => hP.cost _ (hP.rmw _ _ h1 (fun h => ⟨hrd (h2 h), hwr (h2 h)⟩) _)

theorem Legal.exec_Negx (hl : legalCheck .Negx op.toNat = true) (hrd : readsMemory .Negx op = true → rd) (hwr : writesMemory .Negx op = true → wr)
    (hj : branches .Negx = true → jmp) (hrst : Isa.Negx = .Reset → rst) : Split (extensionWords .Negx op) P (Spec.exec C .Negx op : Exec M Nat) := by
  simp only [legalCheck, Bool.and_eq_true, Bool.or_eq_true, bne_iff_ne, decide_eq_true_eq] at hl
  simp only [Spec.exec, extensionWords]
  exact hP.altered hl fun sz m h1 h2 => hP.cost _ (hP.rmw _ _ h1 (fun h => ⟨hrd (h2 h), hwr (h2 h)⟩) _)

theorem Legal.exec_Cmp (hl : legalCheck .Cmp op.toNat = true) (hrd : readsMemory .Cmp op = true → rd) (hwr : writesMemory .Cmp op = true → wr)
    (hj : branches .Cmp = true → jmp) (hrst : Isa.Cmp = .Reset → rst) : Split (extensionWords .Cmp op) P (Spec.exec C .Cmp op : Exec M Nat) := by
  simp only [legalCheck, Bool.and_eq_true, Bool.or_eq_true, bne_iff_ne, decide_eq_true_eq] at hl
  simp only [Spec.exec, extensionWords]
  obtain ⟨⟨h1, h2⟩, h3⟩ := hl
  refine split_sized h1 fun sz _ hi hb => Split.last (pre_ea op h2 hi.symm) fun m hm => ?_
  refine hP.read _ _ (fits_readable hm fun e1 e2 => ?_) (fun h => hrd (fits_mem hm h reg8)) fun _ _ => hP.bind _ _ (hP.getR _) fun _ => hP.cost _ (hP.compareWith _ _)
  rcases h3 with h3 | h3
  · exact h3 (hb.1 e2)
  · exact h3 e1

theorem Legal.exec_Cmpi (hl : legalCheck .Cmpi op.toNat = true) (hrd : readsMemory .Cmpi op = true → rd) (hwr : writesMemory .Cmpi op = true → wr)
    (hj : branches .Cmpi = true → jmp) (hrst : Isa.Cmpi = .Reset → rst) : Split (extensionWords .Cmpi op) P (Spec.exec C .Cmpi op : Exec M Nat) := by
  simp only [legalCheck, Bool.and_eq_true, Bool.or_eq_true, bne_iff_ne, decide_eq_true_eq] at hl
  simp only [Spec.exec, extensionWords]
  obtain ⟨⟨h1, h2⟩, h3⟩ := hl
  refine split_sized h1 fun sz _ hi hb => ?_
  rw [hi]
  refine Split.bind (Pre.fetchImm sz) fun v _ => Split.last (pre_ea op (by omega) rfl) fun m hm => ?_
  exact hP.read _ _ (fits_readable hm fun e => absurd e h3) (fun h => hrd (fits_mem hm h reg8)) fun _ _ => hP.cost _ (hP.compareWith _ _)

theorem Legal.exec_Cmpm (hl : legalCheck .Cmpm op.toNat = true) (hrd : readsMemory .Cmpm op = true → rd) (hwr : writesMemory .Cmpm op = true → wr)
    (hj : branches .Cmpm = true → jmp) (hrst : Isa.Cmpm = .Reset → rst) : Split (extensionWords .Cmpm op) P (Spec.exec C .Cmpm op : Exec M Nat) := by
  simp only [legalCheck, Bool.and_eq_true, Bool.or_eq_true, bne_iff_ne, decide_eq_true_eq] at hl
  simp only [Spec.exec, extensionWords]
  exact hP.pairs hl fun sz => hP.cost _ (hP.cmpm (hrd rfl) _ _ _)

theorem Legal.exec_Mulu (hl : legalCheck .Mulu op.toNat = true) (hrd : readsMemory .Mulu op = true → rd) (hwr : writesMemory .Mulu op = true → wr)
    (hj : branches .Mulu = true → jmp) (hrst : Isa.Mulu = .Reset → rst) : Split (extensionWords .Mulu op) P (Spec.exec C .Mulu op : Exec M Nat) := by
  simp only [legalCheck, Bool.and_eq_true, Bool.or_eq_true, bne_iff_ne, decide_eq_true_eq] at hl
  simp only [Spec.exec, extensionWords]
  exact hP.sourceB (by decide) hl fun m h1 h2 => hP.cost _ (hP.mul _ _ _ (h1 _) fun h => hrd (h2 h))

theorem Legal.exec_Muls (hl : legalCheck .Muls op.toNat = true) (hrd : readsMemory .Muls op = true → rd) (hwr : writesMemory .Muls op = true → wr)
    (hj : branches .Muls = true → jmp) (hrst : Isa.Muls = .Reset → rst) : Split (extensionWords .Muls op) P (Spec.exec C .Muls op : Exec M Nat) := by
  simp only [legalCheck, Bool.and_eq_true, Bool.or_eq_true, bne_iff_ne, decide_eq_true_eq] at hl
  simp only [Spec.exec, extensionWords]
  exact hP.sourceB (by decide) hl fun m h1 h2 => hP.cost _ (hP.mul _ _ _ (h1 _) fun h => hrd (h2 h))

theorem Legal.exec_Divu (hl : legalCheck .Divu op.toNat = true) (hrd : readsMemory .Divu op = true → rd) (hwr : writesMemory .Divu op = true → wr)
    (hj : branches .Divu = true → jmp) (hrst : Isa.Divu = .Reset → rst) : Split (extensionWords .Divu op) P (Spec.exec C .Divu op : Exec M Nat) := by
  simp only [legalCheck, Bool.and_eq_true, Bool.or_eq_true, bne_iff_ne, decide_eq_true_eq] at hl
  simp only [Spec.exec, extensionWords]
  exact hP.sourceB (by decide) hl fun m h1 h2 => hP.cost _ (hP.divu _ _ (h1 _) fun h => hrd (h2 h))

theorem Legal.exec_Divs (hl : legalCheck .Divs op.toNat = true) (hrd : readsMemory .Divs op = true → rd) (hwr : writesMemory .Divs op = true → wr)
    (hj : branches .Divs = true → jmp) (hrst : Isa.Divs = .Reset → rst) : Split (extensionWords .Divs op) P (Spec.exec C .Divs op : Exec M Nat) := by
  simp only [legalCheck, Bool.and_eq_true, Bool.or_eq_true, bne_iff_ne, decide_eq_true_eq] at hl
  simp only [Spec.exec, extensionWords]
  exact hP.sourceB (by decide) hl fun m h1 h2 => hP.cost _ (hP.divs _ _ (h1 _) fun h => hrd (h2 h))

theorem Legal.exec_Eor (hl : legalCheck .Eor op.toNat = true) (hrd : readsMemory .Eor op = true → rd) (hwr : writesMemory .Eor op = true → wr)
    (hj : branches .Eor = true → jmp) (hrst : Isa.Eor = .Reset → rst) : Split (extensionWords .Eor op) P (Spec.exec C .Eor op : Exec M Nat) := by
  simp only [legalCheck, Bool.and_eq_true, Bool.or_eq_true, bne_iff_ne, decide_eq_true_eq] at hl
  simp only [Spec.exec, extensionWords]
  exact hP.altered hl fun sz m h1 h2 => hP.cost _ (hP.opToEa _ _ _ h1 (fun h => ⟨hrd (h2 h), hwr (h2 h)⟩) _)

theorem Legal.exec_Not (hl : legalCheck .Not op.toNat = true) (hrd : readsMemory .Not op = true → rd) (hwr : writesMemory .Not op = true → wr)
    (hj : branches .Not = true → jmp) (hrst : Isa.Not = .Reset → rst) : Split (extensionWords .Not op) P (Spec.exec C .Not op : Exec M Nat) := by
  simp only [legalCheck, Bool.and_eq_true, Bool.or_eq_true, bne_iff_ne, decide_eq_true_eq] at hl
  simp only [Spec.exec, extensionWords]
  refine hP.altered hl fun sz m h1 h2 => hP.cost _ ?_
  have : (Spec.read sz m >>= fun x => (Spec.writeAt sz x.1 (~~~x.2) >>= fun _ => setFlags (logicFlags (~~~x.2)) : Exec M Unit)) =
    Spec.locate sz m >>= fun p => Spec.readAt sz p >>= fun d => Spec.writeAt sz p (~~~d) >>= fun _ => setFlags (logicFlags (~~~d)) := by
    funext s
    simp only [Spec.read, Exec.bind_apply]
    cases Spec.locate sz m s with
    | ok p s' => simp only [Exec.bind_apply]; cases Spec.readAt sz p s' <;> rfl
    | err => rfl
    | panic => rfl
  simp only
  rw [this]
  exact hP.locate sz m (fun hm a => hP.bind _ _ (hP.load (hrd (h2 hm)) sz a) fun v => hP.bind _ _ (hP.store (hwr (h2 hm)) sz a _) fun _ => hP.flags _)
    (fun n _ => hP.bind _ _ (hP.readD sz n) fun v => hP.bind _ _ (hP.writeD sz n _) fun _ => hP.flags _)
    (fun n hn => hP.bind _ _ (hP.readA (h1.1 n hn) n) fun v => hP.bind _ _ (hP.writeA (h1.1 n hn) n _) fun _ => hP.flags _)
    (fun v hv => absurd hv (h1.2 v))

theorem Legal.exec_Tst (hl : legalCheck .Tst op.toNat = true) (hrd : readsMemory .Tst op = true → rd) (hwr : writesMemory .Tst op = true → wr)
    (hj : branches .Tst = true → jmp) (hrst : Isa.Tst = .Reset → rst) : Split (extensionWords .Tst op) P (Spec.exec C .Tst op : Exec M Nat) := by
  simp only [legalCheck, Bool.and_eq_true, Bool.or_eq_true, bne_iff_ne, decide_eq_true_eq] at hl
  simp only [Spec.exec, extensionWords]
  exact hP.altered hl fun sz m h1 h2 => hP.read _ _ h1.1 (fun h => hrd (h2 h)) fun _ _ => hP.cost _ (hP.flags _)

theorem Legal.exec_Clr (hl : legalCheck .Clr op.toNat = true) (hrd : readsMemory .Clr op = true → rd) (hwr : writesMemory .Clr op = true → wr)
    (hj : branches .Clr = true → jmp) (hrst : Isa.Clr = .Reset → rst) : Split (extensionWords .Clr op) P (Spec.exec C .Clr op : Exec M Nat) := by
  simp only [legalCheck, Bool.and_eq_true, Bool.or_eq_true, bne_iff_ne, decide_eq_true_eq] at hl
  simp only [Spec.exec, extensionWords]
  exact hP.altered hl fun sz m h1 h2 => hP.bind _ _ (hP.write _ _ h1 (fun h => hwr (h2 h)) _) fun _ => hP.cost _ (hP.flags _)

theorem Legal.exec_Tas (hl : legalCheck .Tas op.toNat = true) (hrd : readsMemory .Tas op = true → rd) (hwr : writesMemory .Tas op = true → wr)
    (hj : branches .Tas = true → jmp) (hrst : Isa.Tas = .Reset → rst) : Split (extensionWords .Tas op) P (Spec.exec C .Tas op : Exec M Nat) := by
  simp only [legalCheck, Bool.and_eq_true, Bool.or_eq_true, bne_iff_ne, decide_eq_true_eq] at hl
  simp only [Spec.exec, extensionWords]
  exact hP.alteredB (by decide) hl fun m h1 h2 => hP.cost _ (hP.rmw _ _ (h1 _) (fun h => ⟨hrd (h2 h), hwr (h2 h)⟩) _)

theorem Legal.exec_Scc (hl : legalCheck .Scc op.toNat = true) (hrd : readsMemory .Scc op = true → rd) (hwr : writesMemory .Scc op = true → wr)
    (hj : branches .Scc = true → jmp) (hrst : Isa.Scc = .Reset → rst) : Split (extensionWords .Scc op) P (Spec.exec C .Scc op : Exec M Nat) := by
  simp only [legalCheck, Bool.and_eq_true, Bool.or_eq_true, bne_iff_ne, decide_eq_true_eq] at hl
  simp only [Spec.exec, extensionWords]
  exact hP.alteredB (by decide) hl fun m h1 h2 => hP.map _ (hP.bind _ _ (hP.test _) fun _ => hP.bind _ _ (hP.write .Byte _ (h1 _) (fun h => hwr (h2 h)) _) fun _ => hP.pure _)

theorem Legal.exec_Btst (hl : legalCheck .Btst op.toNat = true) (hrd : readsMemory .Btst op = true → rd) (hwr : writesMemory .Btst op = true → wr)
    (hj : branches .Btst = true → jmp) (hrst : Isa.Btst = .Reset → rst) : Split (extensionWords .Btst op) P (Spec.exec C .Btst op : Exec M Nat) := by
  simp only [legalCheck, Bool.and_eq_true, Bool.or_eq_true, bne_iff_ne, decide_eq_true_eq] at hl
  simp only [Spec.exec, extensionWords]
  exact hP.bits C hl (fun h => absurd rfl h) hrd (fun h => absurd rfl h)

theorem Legal.exec_Bchg (hl : legalCheck .Bchg op.toNat = true) (hrd : readsMemory .Bchg op = true → rd) (hwr : writesMemory .Bchg op = true → wr)
    (hj : branches .Bchg = true → jmp) (hrst : Isa.Bchg = .Reset → rst) : Split (extensionWords .Bchg op) P (Spec.exec C .Bchg op : Exec M Nat) := by
  simp only [legalCheck, Bool.and_eq_true, Bool.or_eq_true, bne_iff_ne, decide_eq_true_eq] at hl
  simp only [Spec.exec, extensionWords]
  refine hP.bits C ?_ (fun _ => hl) hrd (fun _ => hwr)
  exact ⟨by omega, hl.2⟩

theorem Legal.exec_Bclr (hl : legalCheck .Bclr op.toNat = true) (hrd : readsMemory .Bclr op = true → rd) (hwr : writesMemory .Bclr op = true → wr)
    (hj : branches .Bclr = true → jmp) (hrst : Isa.Bclr = .Reset → rst) : Split (extensionWords .Bclr op) P (Spec.exec C .Bclr op : Exec M Nat) := by
  simp only [legalCheck, Bool.and_eq_true, Bool.or_eq_true, bne_iff_ne, decide_eq_true_eq] at hl
  simp only [Spec.exec, extensionWords]
  refine hP.bits C ?_ (fun _ => hl) hrd (fun _ => hwr)
  exact ⟨by omega, hl.2⟩

theorem Legal.exec_Bset (hl : legalCheck .Bset op.toNat = true) (hrd : readsMemory .Bset op = true → rd) (hwr : writesMemory .Bset op = true → wr)
    (hj : branches .Bset = true → jmp) (hrst : Isa.Bset = .Reset → rst) : Split (extensionWords .Bset op) P (Spec.exec C .Bset op : Exec M Nat) := by
  simp only [legalCheck, Bool.and_eq_true, Bool.or_eq_true, bne_iff_ne, decide_eq_true_eq] at hl
  simp only [Spec.exec, extensionWords]
  refine hP.bits C ?_ (fun _ => hl) hrd (fun _ => hwr)
  exact ⟨by omega, hl.2⟩

theorem Legal.exec_Asr (hl : legalCheck .Asr op.toNat = true) (hrd : readsMemory .Asr op = true → rd) (hwr : writesMemory .Asr op = true → wr)
    (hj : branches .Asr = true → jmp) (hrst : Isa.Asr = .Reset → rst) : Split (extensionWords .Asr op) P (Spec.exec C .Asr op : Exec M Nat) := by
  simp only [legalCheck, Bool.and_eq_true, Bool.or_eq_true, bne_iff_ne, decide_eq_true_eq] at hl
  simp only [Spec.exec, extensionWords]
  exact hP.shifts hl

theorem Legal.exec_Lsr (hl : legalCheck .Lsr op.toNat = true) (hrd : readsMemory .Lsr op = true → rd) (hwr : writesMemory .Lsr op = true → wr)
    (hj : branches .Lsr = true → jmp) (hrst : Isa.Lsr = .Reset → rst) : Split (extensionWords .Lsr op) P (Spec.exec C .Lsr op : Exec M Nat) := by
  simp only [legalCheck, Bool.and_eq_true, Bool.or_eq_true, bne_iff_ne, decide_eq_true_eq] at hl
  simp only [Spec.exec, extensionWords]
  exact hP.shifts hl

theorem Legal.exec_Ror (hl : legalCheck .Ror op.toNat = true) (hrd : readsMemory .Ror op = true → rd) (hwr : writesMemory .Ror op = true → wr)
    (hj : branches .Ror = true → jmp) (hrst : Isa.Ror = .Reset → rst) : Split (extensionWords .Ror op) P (Spec.exec C .Ror op : Exec M Nat) := by
  simp only [legalCheck, Bool.and_eq_true, Bool.or_eq_true, bne_iff_ne, decide_eq_true_eq] at hl
  simp only [Spec.exec, extensionWords]
  exact hP.shifts hl

theorem Legal.exec_Roxr (hl : legalCheck .Roxr op.toNat = true) (hrd : readsMemory .Roxr op = true → rd) (hwr : writesMemory .Roxr op = true → wr)
    (hj : branches .Roxr = true → jmp) (hrst : Isa.Roxr = .Reset → rst) : Split (extensionWords .Roxr op) P (Spec.exec C .Roxr op : Exec M Nat) := by
  simp only [legalCheck, Bool.and_eq_true, Bool.or_eq_true, bne_iff_ne, decide_eq_true_eq] at hl
  simp only [Spec.exec, extensionWords]
  exact hP.shifts hl

theorem Legal.exec_Asm (hl : legalCheck .Asm op.toNat = true) (hrd : readsMemory .Asm op = true → rd) (hwr : writesMemory .Asm op = true → wr)
    (hj : branches .Asm = true → jmp) (hrst : Isa.Asm = .Reset → rst) : Split (extensionWords .Asm op) P (Spec.exec C .Asm op : Exec M Nat) := by
  simp only [legalCheck, Bool.and_eq_true, Bool.or_eq_true, bne_iff_ne, decide_eq_true_eq] at hl
  simp only [Spec.exec, extensionWords]
  exact hP.alteredB (by decide) hl fun m h1 h2 => hP.cost _ (hP.rmw _ _ (h1 _) (fun h => ⟨hrd (h2 h), hwr (h2 h)⟩) _)

theorem Legal.exec_Lsm (hl : legalCheck .Lsm op.toNat = true) (hrd : readsMemory .Lsm op = true → rd) (hwr : writesMemory .Lsm op = true → wr)
    (hj : branches .Lsm = true → jmp) (hrst : Isa.Lsm = .Reset → rst) : Split (extensionWords .Lsm op) P (Spec.exec C .Lsm op : Exec M Nat) := by
  simp only [legalCheck, Bool.and_eq_true, Bool.or_eq_true, bne_iff_ne, decide_eq_true_eq] at hl
  simp only [Spec.exec, extensionWords]
  exact hP.alteredB (by decide) hl fun m h1 h2 => hP.cost _ (hP.rmw _ _ (h1 _) (fun h => ⟨hrd (h2 h), hwr (h2 h)⟩) _)

theorem Legal.exec_Rom (hl : legalCheck .Rom op.toNat = true) (hrd : readsMemory .Rom op = true → rd) (hwr : writesMemory .Rom op = true → wr)
    (hj : branches .Rom = true → jmp) (hrst : Isa.Rom = .Reset → rst) : Split (extensionWords .Rom op) P (Spec.exec C .Rom op : Exec M Nat) := by
  simp only [legalCheck, Bool.and_eq_true, Bool.or_eq_true, bne_iff_ne, decide_eq_true_eq] at hl
  simp only [Spec.exec, extensionWords]
  exact hP.alteredB (by decide) hl fun m h1 h2 => hP.cost _ (hP.rmw _ _ (h1 _) (fun h => ⟨hrd (h2 h), hwr (h2 h)⟩) _)

theorem Legal.exec_Roxm (hl : legalCheck .Roxm op.toNat = true) (hrd : readsMemory .Roxm op = true → rd) (hwr : writesMemory .Roxm op = true → wr)
    (hj : branches .Roxm = true → jmp) (hrst : Isa.Roxm = .Reset → rst) : Split (extensionWords .Roxm op) P (Spec.exec C .Roxm op : Exec M Nat) := by
  simp only [legalCheck, Bool.and_eq_true, Bool.or_eq_true, bne_iff_ne, decide_eq_true_eq] at hl
  simp only [Spec.exec, extensionWords]
  exact hP.alteredB (by decide) hl fun m h1 h2 => hP.cost _ (hP.rmw _ _ (h1 _) (fun h => ⟨hrd (h2 h), hwr (h2 h)⟩) _)

theorem Legal.exec_Move (hl : legalCheck .Move op.toNat = true) (hrd : readsMemory .Move op = true → rd) (hwr : writesMemory .Move op = true → wr)
    (hj : branches .Move = true → jmp) (hrst : Isa.Move = .Reset → rst) : Split (extensionWords .Move op) P (Spec.exec C .Move op : Exec M Nat) := by
  simp only [legalCheck, Bool.and_eq_true, Bool.or_eq_true, bne_iff_ne, decide_eq_true_eq] at hl
  simp only [Spec.exec, extensionWords]
  obtain ⟨⟨⟨⟨h1, h2⟩, h3⟩, h4⟩, h5⟩ := hl
  refine split_moveSized h1 fun sz hi hb => Split.bind (pre_ea op h2 hi.symm) fun src hs => ?_
  have e6 : (regField op 6).val = op.toNat / 64 % 8 := by simp [regField, Fin.ofNat]
  have e9 : (regField op 9).val = op.toNat / 512 % 8 := by simp [regField, Fin.ofNat]
  have hpre := Pre.fetchMode (M := M) (some sz) (moveImm op) (regField op 6) (regField op 9) (by rw [e6, e9]; omega)
  rw [e6, e9] at hpre
  refine Split.last hpre fun dst hd => hP.cost _ ?_
  refine hP.read _ _ (fits_readable hs fun e1 e2 => ?_) (fun h => hrd (fits_mem hs h reg8)) fun _ v => ?_
  · rcases h3 with h3 | h3
    · exact h3 (hb.1 e2)
    · exact h3 e1
  · exact hP.bind _ _ (hP.write _ _ ⟨fits_readable hd fun e => absurd e h5, fits_imm hd h4⟩ (fun h => hwr (fits_mem hd h (Nat.mod_lt _ (by decide)))) _) fun _ => hP.flags _

theorem Legal.exec_Movea (hl : legalCheck .Movea op.toNat = true) (hrd : readsMemory .Movea op = true → rd) (hwr : writesMemory .Movea op = true → wr)
    (hj : branches .Movea = true → jmp) (hrst : Isa.Movea = .Reset → rst) : Split (extensionWords .Movea op) P (Spec.exec C .Movea op : Exec M Nat) := by
  simp only [legalCheck, Bool.and_eq_true, Bool.or_eq_true, bne_iff_ne, decide_eq_true_eq] at hl
  simp only [Spec.exec, extensionWords]
  obtain ⟨⟨h1, h2⟩, h3⟩ := hl
  refine split_moveSized h1 fun sz hi hb => Split.last (pre_ea op h2 hi.symm) fun m hm => hP.cost _ ?_
  refine hP.readExt _ _ (fits_readable hm fun e1 e2 => ?_) (fun h => hrd (fits_mem hm h reg8)) fun _ => hP.updateA _ _
  rcases h3 with h3 | h3
  · exact h3 (hb.1 e2)
  · exact h3 e1

theorem Legal.exec_Moveq (hl : legalCheck .Moveq op.toNat = true) (hrd : readsMemory .Moveq op = true → rd) (hwr : writesMemory .Moveq op = true → wr)
    (hj : branches .Moveq = true → jmp) (hrst : Isa.Moveq = .Reset → rst) : Split (extensionWords .Moveq op) P (Spec.exec C .Moveq op : Exec M Nat) := by
  simp only [legalCheck, Bool.and_eq_true, Bool.or_eq_true, bne_iff_ne, decide_eq_true_eq] at hl
  simp only [Spec.exec, extensionWords]
  exact Split.here (hP.cost _ (hP.bind _ _ (hP.setD _ _) fun _ => hP.flags _))

theorem Legal.exec_Movem (hl : legalCheck .Movem op.toNat = true) (hrd : readsMemory .Movem op = true → rd) (hwr : writesMemory .Movem op = true → wr)
    (hj : branches .Movem = true → jmp) (hrst : Isa.Movem = .Reset → rst) : Split (extensionWords .Movem op) P (Spec.exec C .Movem op : Exec M Nat) := by
  simp only [legalCheck, Bool.and_eq_true, Bool.or_eq_true, bne_iff_ne, decide_eq_true_eq] at hl
  simp only [Spec.exec, extensionWords]
  refine Split.bind Pre.fetch fun mask _ => Split.last (pre_ea' op ?_) fun m hm => hP.cost _ (hP.movem _ _ (sizeBit_ne _ _) _ _ (isMem_of_fits hm hl) (fun h => hrd h) ?_ ?_)
  · simp only [eaInMemory, Bool.and_eq_true, Bool.or_eq_true, decide_eq_true_eq, beq_iff_eq] at hl
    omega
  · intro h; exact hwr (by simp only [writesMemory, h]; rfl)
  · rintro n rfl; exact hwr (by simp only [writesMemory, hm.1]; simp)

theorem Legal.exec_Movep (hl : legalCheck .Movep op.toNat = true) (hrd : readsMemory .Movep op = true → rd) (hwr : writesMemory .Movep op = true → wr)
    (hj : branches .Movep = true → jmp) (hrst : Isa.Movep = .Reset → rst) : Split (extensionWords .Movep op) P (Spec.exec C .Movep op : Exec M Nat) := by
  simp only [legalCheck, Bool.and_eq_true, Bool.or_eq_true, bne_iff_ne, decide_eq_true_eq] at hl
  simp only [Spec.exec, extensionWords]
  refine Split.last Pre.fetch fun d _ => hP.cost _ (hP.movep _ _ _ _ _ (fun h => hrd ?_) hwr)
  simp only [readsMemory, h]; rfl

theorem Legal.exec_Exg (hl : legalCheck .Exg op.toNat = true) (hrd : readsMemory .Exg op = true → rd) (hwr : writesMemory .Exg op = true → wr)
    (hj : branches .Exg = true → jmp) (hrst : Isa.Exg = .Reset → rst) : Split (extensionWords .Exg op) P (Spec.exec C .Exg op : Exec M Nat) := by
  simp only [legalCheck, Bool.and_eq_true, Bool.or_eq_true, bne_iff_ne, decide_eq_true_eq] at hl
  simp only [Spec.exec, extensionWords]
  exact Split.here (hP.cost _ (hP.exg _ _ _))

theorem Legal.exec_Ext (hl : legalCheck .Ext op.toNat = true) (hrd : readsMemory .Ext op = true → rd) (hwr : writesMemory .Ext op = true → wr)
    (hj : branches .Ext = true → jmp) (hrst : Isa.Ext = .Reset → rst) : Split (extensionWords .Ext op) P (Spec.exec C .Ext op : Exec M Nat) := by
  simp only [legalCheck, Bool.and_eq_true, Bool.or_eq_true, bne_iff_ne, decide_eq_true_eq] at hl
  simp only [Spec.exec, extensionWords]
  exact Split.here (hP.cost _ (hP.bind _ _ (hP.dreg _ _) fun _ => hP.setSr _))

theorem Legal.exec_Swap (hl : legalCheck .Swap op.toNat = true) (hrd : readsMemory .Swap op = true → rd) (hwr : writesMemory .Swap op = true → wr)
    (hj : branches .Swap = true → jmp) (hrst : Isa.Swap = .Reset → rst) : Split (extensionWords .Swap op) P (Spec.exec C .Swap op : Exec M Nat) := by
  simp only [legalCheck, Bool.and_eq_true, Bool.or_eq_true, bne_iff_ne, decide_eq_true_eq] at hl
  simp only [Spec.exec, extensionWords]
  exact Split.here (hP.cost _ (hP.bind _ _ (hP.dreg _ _) fun _ => hP.setSr _))

theorem Legal.exec_Lea (hl : legalCheck .Lea op.toNat = true) (hrd : readsMemory .Lea op = true → rd) (hwr : writesMemory .Lea op = true → wr)
    (hj : branches .Lea = true → jmp) (hrst : Isa.Lea = .Reset → rst) : Split (extensionWords .Lea op) P (Spec.exec C .Lea op : Exec M Nat) := by
  simp only [legalCheck, Bool.and_eq_true, Bool.or_eq_true, bne_iff_ne, decide_eq_true_eq] at hl
  simp only [Spec.exec, extensionWords]
  exact hP.controls hl fun m hm => hP.bind _ _ hm fun a => hP.cost _ (hP.updateA _ _)

theorem Legal.exec_Pea (hl : legalCheck .Pea op.toNat = true) (hrd : readsMemory .Pea op = true → rd) (hwr : writesMemory .Pea op = true → wr)
    (hj : branches .Pea = true → jmp) (hrst : Isa.Pea = .Reset → rst) : Split (extensionWords .Pea op) P (Spec.exec C .Pea op : Exec M Nat) := by
  simp only [legalCheck, Bool.and_eq_true, Bool.or_eq_true, bne_iff_ne, decide_eq_true_eq] at hl
  simp only [Spec.exec, extensionWords]
  exact hP.controls hl fun m hm => hP.bind _ _ hm fun a => hP.cost _ (hP.push (hwr rfl) .Long _)

theorem Legal.exec_Jmp (hl : legalCheck .Jmp op.toNat = true) (hrd : readsMemory .Jmp op = true → rd) (hwr : writesMemory .Jmp op = true → wr)
    (hj : branches .Jmp = true → jmp) (hrst : Isa.Jmp = .Reset → rst) : Split (extensionWords .Jmp op) P (Spec.exec C .Jmp op : Exec M Nat) := by
  simp only [legalCheck, Bool.and_eq_true, Bool.or_eq_true, bne_iff_ne, decide_eq_true_eq] at hl
  simp only [Spec.exec, extensionWords]
  exact hP.controls hl fun m hm => hP.bind _ _ hm fun a => hP.cost _ (hP.jump (hj rfl) _)

theorem Legal.exec_Jsr (hl : legalCheck .Jsr op.toNat = true) (hrd : readsMemory .Jsr op = true → rd) (hwr : writesMemory .Jsr op = true → wr)
    (hj : branches .Jsr = true → jmp) (hrst : Isa.Jsr = .Reset → rst) : Split (extensionWords .Jsr op) P (Spec.exec C .Jsr op : Exec M Nat) := by
  simp only [legalCheck, Bool.and_eq_true, Bool.or_eq_true, bne_iff_ne, decide_eq_true_eq] at hl
  simp only [Spec.exec, extensionWords]
  exact hP.controls hl fun m hm => hP.cost _ (hP.bind _ _ (hP.getR _) fun _ => hP.bind _ _ (hP.push (hwr rfl) .Long _) fun _ =>
       hP.bind _ _ hm fun _ => hP.jump (hj rfl) _)

theorem Legal.exec_Link (hl : legalCheck .Link op.toNat = true) (hrd : readsMemory .Link op = true → rd) (hwr : writesMemory .Link op = true → wr)
    (hj : branches .Link = true → jmp) (hrst : Isa.Link = .Reset → rst) : Split (extensionWords .Link op) P (Spec.exec C .Link op : Exec M Nat) := by
  simp only [legalCheck, Bool.and_eq_true, Bool.or_eq_true, bne_iff_ne, decide_eq_true_eq] at hl
  simp only [Spec.exec, extensionWords]
  exact Split.last Pre.fetch fun d _ => hP.cost _ (hP.link (hwr rfl) _ _)

theorem Legal.exec_Unlk (hl : legalCheck .Unlk op.toNat = true) (hrd : readsMemory .Unlk op = true → rd) (hwr : writesMemory .Unlk op = true → wr)
    (hj : branches .Unlk = true → jmp) (hrst : Isa.Unlk = .Reset → rst) : Split (extensionWords .Unlk op) P (Spec.exec C .Unlk op : Exec M Nat) := by
  simp only [legalCheck, Bool.and_eq_true, Bool.or_eq_true, bne_iff_ne, decide_eq_true_eq] at hl
  simp only [Spec.exec, extensionWords]
  exact Split.here (hP.cost _ (hP.unlk (hrd rfl) _))

theorem Legal.exec_Bcc (hl : legalCheck .Bcc op.toNat = true) (hrd : readsMemory .Bcc op = true → rd) (hwr : writesMemory .Bcc op = true → wr)
    (hj : branches .Bcc = true → jmp) (hrst : Isa.Bcc = .Reset → rst) : Split (extensionWords .Bcc op) P (Spec.exec C .Bcc op : Exec M Nat) := by
  simp only [legalCheck, Bool.and_eq_true, Bool.or_eq_true, bne_iff_ne, decide_eq_true_eq] at hl
  simp only [Spec.exec, extensionWords]
  exact Split.bind' Pre.getR fun _ _ => Split.last (Pre.fetchDisp op) fun _ _ => hP.map _ (hP.bcc (hj rfl) _ _ _)

theorem Legal.exec_Bra (hl : legalCheck .Bra op.toNat = true) (hrd : readsMemory .Bra op = true → rd) (hwr : writesMemory .Bra op = true → wr)
    (hj : branches .Bra = true → jmp) (hrst : Isa.Bra = .Reset → rst) : Split (extensionWords .Bra op) P (Spec.exec C .Bra op : Exec M Nat) := by
  simp only [legalCheck, Bool.and_eq_true, Bool.or_eq_true, bne_iff_ne, decide_eq_true_eq] at hl
  simp only [Spec.exec, extensionWords]
  exact Split.bind' Pre.getR fun _ _ => Split.last (Pre.fetchDisp op) fun _ _ => hP.cost _ (hP.jump (hj rfl) _)

theorem Legal.exec_Bsr (hl : legalCheck .Bsr op.toNat = true) (hrd : readsMemory .Bsr op = true → rd) (hwr : writesMemory .Bsr op = true → wr)
    (hj : branches .Bsr = true → jmp) (hrst : Isa.Bsr = .Reset → rst) : Split (extensionWords .Bsr op) P (Spec.exec C .Bsr op : Exec M Nat) := by
  simp only [legalCheck, Bool.and_eq_true, Bool.or_eq_true, bne_iff_ne, decide_eq_true_eq] at hl
  simp only [Spec.exec, extensionWords]
  exact Split.bind' Pre.getR fun _ _ => Split.last (Pre.fetchDisp op) fun _ _ => hP.cost _ (hP.bind _ _ (hP.getR _) fun _ => hP.bind _ _ (hP.push (hwr rfl) .Long _) fun _ => hP.jump (hj rfl) _)

theorem Legal.exec_Dbcc (hl : legalCheck .Dbcc op.toNat = true) (hrd : readsMemory .Dbcc op = true → rd) (hwr : writesMemory .Dbcc op = true → wr)
    (hj : branches .Dbcc = true → jmp) (hrst : Isa.Dbcc = .Reset → rst) : Split (extensionWords .Dbcc op) P (Spec.exec C .Dbcc op : Exec M Nat) := by
  simp only [legalCheck, Bool.and_eq_true, Bool.or_eq_true, bne_iff_ne, decide_eq_true_eq] at hl
  simp only [Spec.exec, extensionWords]
  exact Split.bind' Pre.getR fun _ _ => Split.last Pre.fetch fun _ _ => hP.map _ (hP.dbcc (hj rfl) _ _ _ _)

theorem Legal.exec_Rts (hl : legalCheck .Rts op.toNat = true) (hrd : readsMemory .Rts op = true → rd) (hwr : writesMemory .Rts op = true → wr)
    (hj : branches .Rts = true → jmp) (hrst : Isa.Rts = .Reset → rst) : Split (extensionWords .Rts op) P (Spec.exec C .Rts op : Exec M Nat) := by
  simp only [legalCheck, Bool.and_eq_true, Bool.or_eq_true, bne_iff_ne, decide_eq_true_eq] at hl
  simp only [Spec.exec, extensionWords]
  exact Split.here (hP.cost _ (hP.bind _ _ (hP.pop (hrd rfl) .Long) fun _ => hP.jump (hj rfl) _))

theorem Legal.exec_Rtr (hl : legalCheck .Rtr op.toNat = true) (hrd : readsMemory .Rtr op = true → rd) (hwr : writesMemory .Rtr op = true → wr)
    (hj : branches .Rtr = true → jmp) (hrst : Isa.Rtr = .Reset → rst) : Split (extensionWords .Rtr op) P (Spec.exec C .Rtr op : Exec M Nat) := by
  simp only [legalCheck, Bool.and_eq_true, Bool.or_eq_true, bne_iff_ne, decide_eq_true_eq] at hl
  simp only [Spec.exec, extensionWords]
  exact Split.here (hP.cost _ (hP.rtr (hrd rfl) (hj rfl)))

theorem Legal.exec_Rte (hl : legalCheck .Rte op.toNat = true) (hrd : readsMemory .Rte op = true → rd) (hwr : writesMemory .Rte op = true → wr)
    (hj : branches .Rte = true → jmp) (hrst : Isa.Rte = .Reset → rst) : Split (extensionWords .Rte op) P (Spec.exec C .Rte op : Exec M Nat) := by
  simp only [legalCheck, Bool.and_eq_true, Bool.or_eq_true, bne_iff_ne, decide_eq_true_eq] at hl
  simp only [Spec.exec, extensionWords]
  exact Split.here (hP.map _ (hP.rte (hrd rfl) (hj rfl) _))

theorem Legal.exec_Nop (hl : legalCheck .Nop op.toNat = true) (hrd : readsMemory .Nop op = true → rd) (hwr : writesMemory .Nop op = true → wr)
    (hj : branches .Nop = true → jmp) (hrst : Isa.Nop = .Reset → rst) : Split (extensionWords .Nop op) P (Spec.exec C .Nop op : Exec M Nat) := by
  simp only [legalCheck, Bool.and_eq_true, Bool.or_eq_true, bne_iff_ne, decide_eq_true_eq] at hl
  simp only [Spec.exec, extensionWords]
  exact Split.here (hP.pure _)

theorem Legal.exec_Chk (hl : legalCheck .Chk op.toNat = true) (hrd : readsMemory .Chk op = true → rd) (hwr : writesMemory .Chk op = true → wr)
    (hj : branches .Chk = true → jmp) (hrst : Isa.Chk = .Reset → rst) : Split (extensionWords .Chk op) P (Spec.exec C .Chk op : Exec M Nat) := by
  simp only [legalCheck, Bool.and_eq_true, Bool.or_eq_true, bne_iff_ne, decide_eq_true_eq] at hl
  simp only [Spec.exec, extensionWords]
  exact hP.sourceB (by decide) hl fun m h1 h2 => hP.cost _ (hP.chk _ _ (h1 _) fun h => hrd (h2 h))

theorem Legal.exec_Trap (hl : legalCheck .Trap op.toNat = true) (hrd : readsMemory .Trap op = true → rd) (hwr : writesMemory .Trap op = true → wr)
    (hj : branches .Trap = true → jmp) (hrst : Isa.Trap = .Reset → rst) : Split (extensionWords .Trap op) P (Spec.exec C .Trap op : Exec M Nat) := by
  simp only [legalCheck, Bool.and_eq_true, Bool.or_eq_true, bne_iff_ne, decide_eq_true_eq] at hl
  simp only [Spec.exec, extensionWords]
  exact Split.here (hP.cost _ (hP.trap _))

theorem Legal.exec_Trapv (hl : legalCheck .Trapv op.toNat = true) (hrd : readsMemory .Trapv op = true → rd) (hwr : writesMemory .Trapv op = true → wr)
    (hj : branches .Trapv = true → jmp) (hrst : Isa.Trapv = .Reset → rst) : Split (extensionWords .Trapv op) P (Spec.exec C .Trapv op : Exec M Nat) := by
  simp only [legalCheck, Bool.and_eq_true, Bool.or_eq_true, bne_iff_ne, decide_eq_true_eq] at hl
  simp only [Spec.exec, extensionWords]
  refine Split.here (hP.bind _ _ (hP.getR _) fun v => ?_)
  split
  · exact hP.trap _
  · exact hP.pure _

theorem Legal.exec_Andiccr (hl : legalCheck .Andiccr op.toNat = true) (hrd : readsMemory .Andiccr op = true → rd) (hwr : writesMemory .Andiccr op = true → wr)
    (hj : branches .Andiccr = true → jmp) (hrst : Isa.Andiccr = .Reset → rst) : Split (extensionWords .Andiccr op) P (Spec.exec C .Andiccr op : Exec M Nat) := by
  simp only [legalCheck, Bool.and_eq_true, Bool.or_eq_true, bne_iff_ne, decide_eq_true_eq] at hl
  simp only [Spec.exec, extensionWords]
  exact Split.last Pre.fetch fun _ _ => hP.cost _ (hP.flags _)

theorem Legal.exec_Oriccr (hl : legalCheck .Oriccr op.toNat = true) (hrd : readsMemory .Oriccr op = true → rd) (hwr : writesMemory .Oriccr op = true → wr)
    (hj : branches .Oriccr = true → jmp) (hrst : Isa.Oriccr = .Reset → rst) : Split (extensionWords .Oriccr op) P (Spec.exec C .Oriccr op : Exec M Nat) := by
  simp only [legalCheck, Bool.and_eq_true, Bool.or_eq_true, bne_iff_ne, decide_eq_true_eq] at hl
  simp only [Spec.exec, extensionWords]
  exact Split.last Pre.fetch fun _ _ => hP.cost _ (hP.flags _)

theorem Legal.exec_Eoriccr (hl : legalCheck .Eoriccr op.toNat = true) (hrd : readsMemory .Eoriccr op = true → rd) (hwr : writesMemory .Eoriccr op = true → wr)
    (hj : branches .Eoriccr = true → jmp) (hrst : Isa.Eoriccr = .Reset → rst) : Split (extensionWords .Eoriccr op) P (Spec.exec C .Eoriccr op : Exec M Nat) := by
  simp only [legalCheck, Bool.and_eq_true, Bool.or_eq_true, bne_iff_ne, decide_eq_true_eq] at hl
  simp only [Spec.exec, extensionWords]
  exact Split.last Pre.fetch fun _ _ => hP.cost _ (hP.flags _)

theorem Legal.exec_Andisr (hl : legalCheck .Andisr op.toNat = true) (hrd : readsMemory .Andisr op = true → rd) (hwr : writesMemory .Andisr op = true → wr)
    (hj : branches .Andisr = true → jmp) (hrst : Isa.Andisr = .Reset → rst) : Split (extensionWords .Andisr op) P (Spec.exec C .Andisr op : Exec M Nat) := by
  simp only [legalCheck, Bool.and_eq_true, Bool.or_eq_true, bne_iff_ne, decide_eq_true_eq] at hl
  simp only [Spec.exec, extensionWords]
  exact Split.last Pre.fetch fun _ _ => hP.bind _ _ hP.privileged fun _ => hP.cost _ (hP.flags _)

theorem Legal.exec_Orisr (hl : legalCheck .Orisr op.toNat = true) (hrd : readsMemory .Orisr op = true → rd) (hwr : writesMemory .Orisr op = true → wr)
    (hj : branches .Orisr = true → jmp) (hrst : Isa.Orisr = .Reset → rst) : Split (extensionWords .Orisr op) P (Spec.exec C .Orisr op : Exec M Nat) := by
  simp only [legalCheck, Bool.and_eq_true, Bool.or_eq_true, bne_iff_ne, decide_eq_true_eq] at hl
  simp only [Spec.exec, extensionWords]
  exact Split.last Pre.fetch fun _ _ => hP.bind _ _ hP.privileged fun _ => hP.cost _ (hP.flags _)

theorem Legal.exec_Eorisr (hl : legalCheck .Eorisr op.toNat = true) (hrd : readsMemory .Eorisr op = true → rd) (hwr : writesMemory .Eorisr op = true → wr)
    (hj : branches .Eorisr = true → jmp) (hrst : Isa.Eorisr = .Reset → rst) : Split (extensionWords .Eorisr op) P (Spec.exec C .Eorisr op : Exec M Nat) := by
  simp only [legalCheck, Bool.and_eq_true, Bool.or_eq_true, bne_iff_ne, decide_eq_true_eq] at hl
  simp only [Spec.exec, extensionWords]
  exact Split.last Pre.fetch fun _ _ => hP.bind _ _ hP.privileged fun _ => hP.cost _ (hP.flags _)

theorem Legal.exec_Moveccr (hl : legalCheck .Moveccr op.toNat = true) (hrd : readsMemory .Moveccr op = true → rd) (hwr : writesMemory .Moveccr op = true → wr)
    (hj : branches .Moveccr = true → jmp) (hrst : Isa.Moveccr = .Reset → rst) : Split (extensionWords .Moveccr op) P (Spec.exec C .Moveccr op : Exec M Nat) := by
  simp only [legalCheck, Bool.and_eq_true, Bool.or_eq_true, bne_iff_ne, decide_eq_true_eq] at hl
  simp only [Spec.exec, extensionWords]
  exact hP.sourceB (by decide) hl fun m h1 h2 => hP.read _ _ (h1 _) (fun h => hrd (h2 h)) fun _ _ => hP.cost _ (hP.flags _)

theorem Legal.exec_Movesr (hl : legalCheck .Movesr op.toNat = true) (hrd : readsMemory .Movesr op = true → rd) (hwr : writesMemory .Movesr op = true → wr)
    (hj : branches .Movesr = true → jmp) (hrst : Isa.Movesr = .Reset → rst) : Split (extensionWords .Movesr op) P (Spec.exec C .Movesr op : Exec M Nat) := by
  simp only [legalCheck, Bool.and_eq_true, Bool.or_eq_true, bne_iff_ne, decide_eq_true_eq] at hl
  simp only [Spec.exec, extensionWords]
  exact hP.sourceB (by decide) hl fun m h1 h2 => hP.bind _ _ hP.privileged fun _ => hP.read _ _ (h1 _) (fun h => hrd (h2 h)) fun _ _ => hP.cost _ (hP.flags _)

theorem Legal.exec_Movefsr (hl : legalCheck .Movefsr op.toNat = true) (hrd : readsMemory .Movefsr op = true → rd) (hwr : writesMemory .Movefsr op = true → wr)
    (hj : branches .Movefsr = true → jmp) (hrst : Isa.Movefsr = .Reset → rst) : Split (extensionWords .Movefsr op) P (Spec.exec C .Movefsr op : Exec M Nat) := by
  simp only [legalCheck, Bool.and_eq_true, Bool.or_eq_true, bne_iff_ne, decide_eq_true_eq] at hl
  simp only [Spec.exec, extensionWords]
  exact hP.alteredB (by decide) hl fun m h1 h2 => hP.bind _ _ (hP.getR _) fun _ => hP.cost _ (hP.write .Word _ (h1 _) (fun h => hwr (h2 h)) _)

theorem Legal.exec_Moveusp (hl : legalCheck .Moveusp op.toNat = true) (hrd : readsMemory .Moveusp op = true → rd) (hwr : writesMemory .Moveusp op = true → wr)
    (hj : branches .Moveusp = true → jmp) (hrst : Isa.Moveusp = .Reset → rst) : Split (extensionWords .Moveusp op) P (Spec.exec C .Moveusp op : Exec M Nat) := by
  simp only [legalCheck, Bool.and_eq_true, Bool.or_eq_true, bne_iff_ne, decide_eq_true_eq] at hl
  simp only [Spec.exec, extensionWords]
  exact Split.here (hP.cost _ (hP.moveUsp _ _))

theorem Legal.exec_Stop (hl : legalCheck .Stop op.toNat = true) (hrd : readsMemory .Stop op = true → rd) (hwr : writesMemory .Stop op = true → wr)
    (hj : branches .Stop = true → jmp) (hrst : Isa.Stop = .Reset → rst) : Split (extensionWords .Stop op) P (Spec.exec C .Stop op : Exec M Nat) := by
  simp only [legalCheck, Bool.and_eq_true, Bool.or_eq_true, bne_iff_ne, decide_eq_true_eq] at hl
  simp only [Spec.exec, extensionWords]
  exact Split.last Pre.fetch fun _ _ => hP.cost _ (hP.bind _ _ hP.privileged fun _ => hP.bind _ _ (hP.flags _) fun _ => hP.halt)

theorem Legal.exec_Reset (hl : legalCheck .Reset op.toNat = true) (hrd : readsMemory .Reset op = true → rd) (hwr : writesMemory .Reset op = true → wr)
    (hj : branches .Reset = true → jmp) (hrst : Isa.Reset = .Reset → rst) : Split (extensionWords .Reset op) P (Spec.exec C .Reset op : Exec M Nat) := by
  simp only [legalCheck, Bool.and_eq_true, Bool.or_eq_true, bne_iff_ne, decide_eq_true_eq] at hl
  simp only [Spec.exec, extensionWords]
  exact Split.here (hP.cost _ (hP.bind _ _ hP.privileged fun _ => hP.signalReset (hrst rfl)))

/-- Every instruction of the table is made of its extension words and legal actions. -/
theorem Legal.exec {i : Isa}
    (hl : legalCheck i op.toNat = true) (hrd : readsMemory i op = true → rd) (hwr : writesMemory i op = true → wr)
    (hj : branches i = true → jmp) (hrst : i = .Reset → rst) : Split (extensionWords i op) P (Spec.exec C i op : Exec M Nat) := by
  cases i with
  | Unknown => exact hP.exec_Unknown C hl hrd hwr hj hrst
  | Illegal => exact hP.exec_Illegal C hl hrd hwr hj hrst
  | Add => exact hP.exec_Add C hl hrd hwr hj hrst
  | Sub => exact hP.exec_Sub C hl hrd hwr hj hrst
  | And => exact hP.exec_And C hl hrd hwr hj hrst
  | Or => exact hP.exec_Or C hl hrd hwr hj hrst
  | Addi => exact hP.exec_Addi C hl hrd hwr hj hrst
  | Subi => exact hP.exec_Subi C hl hrd hwr hj hrst
  | Andi => exact hP.exec_Andi C hl hrd hwr hj hrst
  | Ori => exact hP.exec_Ori C hl hrd hwr hj hrst
  | Eori => exact hP.exec_Eori C hl hrd hwr hj hrst
  | Adda => exact hP.exec_Adda C hl hrd hwr hj hrst
  | Suba => exact hP.exec_Suba C hl hrd hwr hj hrst
  | Cmpa => exact hP.exec_Cmpa C hl hrd hwr hj hrst
  | Addq => exact hP.exec_Addq C hl hrd hwr hj hrst
  | Subq => exact hP.exec_Subq C hl hrd hwr hj hrst
  | Addx => exact hP.exec_Addx C hl hrd hwr hj hrst
  | Subx => exact hP.exec_Subx C hl hrd hwr hj hrst
  | Abcd => exact hP.exec_Abcd C hl hrd hwr hj hrst
  | Sbcd => exact hP.exec_Sbcd C hl hrd hwr hj hrst
  | Nbcd => exact hP.exec_Nbcd C hl hrd hwr hj hrst
  | Neg => exact hP.exec_Neg C hl hrd hwr hj hrst
  | Negx => exact hP.exec_Negx C hl hrd hwr hj hrst
  | Cmp => exact hP.exec_Cmp C hl hrd hwr hj hrst
  | Cmpi => exact hP.exec_Cmpi C hl hrd hwr hj hrst
  | Cmpm => exact hP.exec_Cmpm C hl hrd hwr hj hrst
  | Mulu => exact hP.exec_Mulu C hl hrd hwr hj hrst
  | Muls => exact hP.exec_Muls C hl hrd hwr hj hrst
  | Divu => exact hP.exec_Divu C hl hrd hwr hj hrst
  | Divs => exact hP.exec_Divs C hl hrd hwr hj hrst
  | Eor => exact hP.exec_Eor C hl hrd hwr hj hrst
  | Not => exact hP.exec_Not C hl hrd hwr hj hrst
  | Tst => exact hP.exec_Tst C hl hrd hwr hj hrst
  | Clr => exact hP.exec_Clr C hl hrd hwr hj hrst
  | Tas => exact hP.exec_Tas C hl hrd hwr hj hrst
  | Scc => exact hP.exec_Scc C hl hrd hwr hj hrst
  | Btst => exact hP.exec_Btst C hl hrd hwr hj hrst
  | Bchg => exact hP.exec_Bchg C hl hrd hwr hj hrst
  | Bclr => exact hP.exec_Bclr C hl hrd hwr hj hrst
  | Bset => exact hP.exec_Bset C hl hrd hwr hj hrst
  | Asr => exact hP.exec_Asr C hl hrd hwr hj hrst
  | Lsr => exact hP.exec_Lsr C hl hrd hwr hj hrst
  | Ror => exact hP.exec_Ror C hl hrd hwr hj hrst
  | Roxr => exact hP.exec_Roxr C hl hrd hwr hj hrst
  | Asm => exact hP.exec_Asm C hl hrd hwr hj hrst
  | Lsm => exact hP.exec_Lsm C hl hrd hwr hj hrst
  | Rom => exact hP.exec_Rom C hl hrd hwr hj hrst
  | Roxm => exact hP.exec_Roxm C hl hrd hwr hj hrst
  | Move => exact hP.exec_Move C hl hrd hwr hj hrst
  | Movea => exact hP.exec_Movea C hl hrd hwr hj hrst
  | Moveq => exact hP.exec_Moveq C hl hrd hwr hj hrst
  | Movem => exact hP.exec_Movem C hl hrd hwr hj hrst
  | Movep => exact hP.exec_Movep C hl hrd hwr hj hrst
  | Exg => exact hP.exec_Exg C hl hrd hwr hj hrst
  | Ext => exact hP.exec_Ext C hl hrd hwr hj hrst
  | Swap => exact hP.exec_Swap C hl hrd hwr hj hrst
  | Lea => exact hP.exec_Lea C hl hrd hwr hj hrst
  | Pea => exact hP.exec_Pea C hl hrd hwr hj hrst
  | Jmp => exact hP.exec_Jmp C hl hrd hwr hj hrst
  | Jsr => exact hP.exec_Jsr C hl hrd hwr hj hrst
  | Link => exact hP.exec_Link C hl hrd hwr hj hrst
  | Unlk => exact hP.exec_Unlk C hl hrd hwr hj hrst
  | Bcc => exact hP.exec_Bcc C hl hrd hwr hj hrst
  | Bra => exact hP.exec_Bra C hl hrd hwr hj hrst
  | Bsr => exact hP.exec_Bsr C hl hrd hwr hj hrst
  | Dbcc => exact hP.exec_Dbcc C hl hrd hwr hj hrst
  | Rts => exact hP.exec_Rts C hl hrd hwr hj hrst
  | Rtr => exact hP.exec_Rtr C hl hrd hwr hj hrst
  | Rte => exact hP.exec_Rte C hl hrd hwr hj hrst
  | Nop => exact hP.exec_Nop C hl hrd hwr hj hrst
  | Chk => exact hP.exec_Chk C hl hrd hwr hj hrst
  | Trap => exact hP.exec_Trap C hl hrd hwr hj hrst
  | Trapv => exact hP.exec_Trapv C hl hrd hwr hj hrst
  | Andiccr => exact hP.exec_Andiccr C hl hrd hwr hj hrst
  | Oriccr => exact hP.exec_Oriccr C hl hrd hwr hj hrst
  | Eoriccr => exact hP.exec_Eoriccr C hl hrd hwr hj hrst
  | Andisr => exact hP.exec_Andisr C hl hrd hwr hj hrst
  | Orisr => exact hP.exec_Orisr C hl hrd hwr hj hrst
  | Eorisr => exact hP.exec_Eorisr C hl hrd hwr hj hrst
  | Moveccr => exact hP.exec_Moveccr C hl hrd hwr hj hrst
  | Movesr => exact hP.exec_Movesr C hl hrd hwr hj hrst
  | Movefsr => exact hP.exec_Movefsr C hl hrd hwr hj hrst
  | Moveusp => exact hP.exec_Moveusp C hl hrd hwr hj hrst
  | Stop => exact hP.exec_Stop C hl hrd hwr hj hrst
  | Reset => exact hP.exec_Reset C hl hrd hwr hj hrst
end

end Exec
end M68k
