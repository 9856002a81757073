import Verif.Lemmas.Access
/-
The accesses of every instruction.
-/
set_option linter.unusedSectionVars false
namespace M68k
namespace Exec
open Spec
variable {M : Type} [MemoryAccess M] {α β : Type} {s s2 : St (Traced M)} {op : U16} {C : CpuDetails}

/-- What follows the extension words `ws`, the first at `pc`, makes the accesses of `accesses`. -/
def Acc (C : CpuDetails) (i : Isa) (op : U16) (pc : U32) (ws : List U16) (z : Exec (Traced M) α) : Prop :=
  ∀ s, (i.isPrivileged = true → s.cpu.regs.sr.s = true) → AccAt true (accesses C.STACK_FORMAT i op pc s.cpu.regs ws) s z

theorem splitP_sized (h : op.toNat / 64 % 4 ≠ 3) {P : U32 → List U16 → Exec M Nat → Prop} {f : Size → Exec M Nat} {k : Nat}
    (hf : ∀ sz, opSize op = some sz → sizedImm op = immWords (some sz) → SplitP k P (f sz)) : SplitP k P (sized op f) := by
  unfold Spec.sized
  split
  · rename_i h0; exact hf _ (by simp [opSize, h0]) (by simp [sizedImm, h0, immWords])
  · split
    · rename_i h0; exact hf _ (by simp [opSize, h0]) (by simp [sizedImm, h0, immWords])
    · split
      · rename_i h0; exact hf _ (by simp [opSize, h0]) (by simp [sizedImm, h0, immWords])
      · omega

theorem splitP_moveSized (h : op.toNat / 4096 % 4 ≠ 0) {P : U32 → List U16 → Exec M Nat → Prop} {f : Size → Exec M Nat} {k : Nat}
    (hf : ∀ sz, moveOpSize op = some sz → moveImm op = immWords (some sz) → SplitP k P (f sz)) : SplitP k P (moveSized op f) := by
  unfold Spec.moveSized
  split
  · rename_i h0; exact hf _ (by simp [moveOpSize, h0]) (by simp [moveImm, h0, immWords])
  · split
    · rename_i h0; exact hf _ (by simp [moveOpSize, h0]) (by simp [moveImm, h0, immWords])
    · split
      · rename_i h0; exact hf _ (by simp [moveOpSize, h0]) (by simp [moveImm, h0, immWords])
      · omega

theorem SplitP.of {k : Nat} {P : Exec M α → Prop} {x : Exec M α} (h : Split k P x) : SplitP k (fun _ _ z => P z) x := h

theorem SplitP.mono {k : Nat} {P Q : U32 → List U16 → Exec M α → Prop} {x : Exec M α} (h : SplitP k P x) (hq : ∀ pc ws z, P pc ws z → Q pc ws z) : SplitP k Q x := by
  intro s
  have := h s
  cases hf : fetchWords k s with
  | ok ws s' =>
    rw [hf] at this
    obtain ⟨z, h1, h2⟩ := this
    exact ⟨z, hq _ _ _ h1, h2⟩
  | err => rw [hf] at this; exact this
  | panic => rw [hf] at this; exact this

theorem operandAddress_none (h : opInMemory op = false) (sz : Size) (r : Registers) (pc : U32) (ws : List U16) :
    operandAddress sz r pc (op.toNat / 8 % 8) (op.toNat % 8) ws = none := by
  unfold opInMemory at h
  simp [operandAddress, h]

theorem reading_none (sz : Size) : reading sz none = [] := rfl
theorem writing_none (sz : Size) : writing sz none = [] := rfl

local macro "acc_list" op:ident hs:(Lean.Parser.Tactic.simpLemma),* : tactic => `(tactic| (
  cases hm : opInMemory $op
  · simp [accesses, operandSize, eaSize, wordsBeforeEa, wordsBefore, readsMemory, writesMemory, hm, operandAddress_none hm, reading_none, writing_none, $hs,*]
  · simp [accesses, operandSize, eaSize, wordsBeforeEa, wordsBefore, readsMemory, writesMemory, hm, $hs,*]))

/-- What the rest of an instruction with one effective address does: the accesses `f` of the operand. -/
def Uses (f : Option U32 → List Access) (sz : Size) (m : Mode) (x : Exec (Traced M) α) : Prop :=
  ∀ s : St (Traced M), AccAt true (f (placeAddress (place sz s.cpu.regs m).1)) s x

/-- The instructions with one effective address: size from the opcode. -/
theorem acc_sized {i : Isa} {x : (sz : Size) → Mode → Exec (Traced M) Nat} (f : Size → Option U32 → List Access)
    (hl : op.toNat / 64 % 4 ≠ 3 ∧ (op.toNat / 8 % 8 < 7 ∨ op.toNat % 8 ≤ 4))
    (ha : ∀ sz, opSize op = some sz → ∀ pc r ws, accesses C.STACK_FORMAT i op pc r ws = f sz (operandAddress sz r pc (op.toNat / 8 % 8) (op.toNat % 8) ws))
    (hx : ∀ sz m, Uses (f sz) sz m (x sz m)) :
    SplitP (opEaWords (sizedImm op) op) (Acc C i op) (sized op fun sz => Spec.fetchEa (some sz) op >>= x sz) := by
  obtain ⟨h1, h2⟩ := hl
  refine splitP_sized h1 fun sz hs hi => SplitP.last (preP_ea op h2 hi.symm) fun pc ws m _ hm s _ => ?_
  rw [ha sz hs, ← hm.address reg8]
  exact hx sz m s

/-- The same with immediate data. -/
theorem acc_immediate {i : Isa} {x : (sz : Size) → U32 → Mode → Exec (Traced M) Nat} (f : Size → Option U32 → List Access)
    (hl : op.toNat / 64 % 4 ≠ 3 ∧ (op.toNat / 8 % 8 < 7 ∨ op.toNat % 8 ≤ 1))
    (ha : ∀ sz, opSize op = some sz → ∀ pc r ws, accesses C.STACK_FORMAT i op pc r ws =
      f sz (operandAddress sz r (pc + BitVec.ofNat 32 (2 * sizedImm op)) (op.toNat / 8 % 8) (op.toNat % 8) (ws.drop (sizedImm op))))
    (hx : ∀ sz v m, Uses (f sz) sz m (x sz v m)) :
    SplitP (sizedImm op + opEaWords (sizedImm op) op) (Acc C i op) (sized op fun sz => Spec.fetchImm sz >>= fun v => Spec.fetchEa (some sz) op >>= x sz v) := by
  obtain ⟨h1, h2⟩ := hl
  refine splitP_sized h1 fun sz hs hi => ?_
  have hi' := hi
  rw [hi]
  refine SplitP.bind (PreP.of (PreW.of (Pre.fetchImm sz))) fun pc ws v hlen _ => SplitP.last (preP_ea op (by omega) rfl) fun pc' ws' m _ hm hpc s _ => ?_
  rw [ha sz hs, hi', ← hlen, List.drop_left, hlen, ← hpc, ← hm.address reg8]
  exact hx sz v m s

/-- The same with a fixed size. -/
theorem acc_fixed {i : Isa} {sz sz' : Size} {x : Mode → Exec (Traced M) Nat} (f : Option U32 → List Access) {n : Nat} (hs : immWords (some sz) = n)
    (hl : op.toNat / 8 % 8 < 7 ∨ op.toNat % 8 ≤ 4)
    (ha : ∀ pc r ws, accesses C.STACK_FORMAT i op pc r ws = f (operandAddress sz' r pc (op.toNat / 8 % 8) (op.toNat % 8) ws))
    (hx : ∀ m, Uses f sz' m (x m)) :
    SplitP (opEaWords n op) (Acc C i op) (Spec.fetchEa (some sz) op >>= x) := by
  refine SplitP.last (preP_ea op (by omega) hs) fun pc ws m _ hm s _ => ?_
  rw [ha, ← hm.address reg8]
  exact hx m s

theorem Uses.cost {f : Option U32 → List Access} {sz : Size} {m : Mode} {x : Exec (Traced M) α} (t : Nat) (h : Uses f sz m x) : Uses f sz m (Spec.cost x t) :=
  fun s => (h s).cost t
theorem Uses.map {f : Option U32 → List Access} {sz : Size} {m : Mode} {x : Exec (Traced M) α} (g : α → β) (h : Uses f sz m x) : Uses f sz m (g <$> x) :=
  fun s => (h s).map g
theorem Uses.rmw {sz : Size} {m : Mode} (f : Val sz → StatusRegister → Val sz × StatusRegister) :
    Uses (M := M) (fun a => reading sz a ++ writing sz a) sz m (Spec.rmw sz m f) := fun _ => AccAt.rmw
theorem Uses.write {sz : Size} {m : Mode} (v : Val sz) : Uses (M := M) (writing sz) sz m (Spec.write sz m v) := fun _ => AccAt.write
theorem Uses.read {sz : Size} {m : Mode} {g : Place × Val sz → Exec (Traced M) α} (h : ∀ x, KeepsMem (g x)) :
    Uses (M := M) (reading sz) sz m (Spec.read sz m >>= g) := fun s => by
  have := AccAt.bind (AccAt.read (s := s) (sz := sz) (m := m)) fun x s' _ => AccAt.keeps (s := s') (h x)
  rwa [List.append_nil] at this
theorem Uses.getR {f : Option U32 → List Access} {sz : Size} {m : Mode} {h : Registers → β} {g : β → Exec (Traced M) α} (hg : ∀ b, Uses f sz m (g b)) :
    Uses f sz m (Spec.getR h >>= g) := fun s => AccAt.first (AccAt.getR _) fun a s' h1 => by cases h1; exact hg _ _
theorem Uses.opToEa {sz : Size} {m : Mode} {n : Fin 8} (f : Val sz → Val sz → StatusRegister → Val sz × StatusRegister) :
    Uses (M := M) (fun a => reading sz a ++ writing sz a) sz m (Spec.opToEa sz n m f) := Uses.getR fun _ => Uses.rmw _
theorem Uses.opToDn {sz : Size} {m : Mode} {n : Fin 8} (f : Val sz → Val sz → StatusRegister → Val sz × StatusRegister) :
    Uses (M := M) (reading sz) sz m (Spec.opToDn sz n m f) :=
  Uses.read fun _ => legal_keepsMem.rmw _ _ ⟨(fun _ h => by cases h), (fun _ h => by cases h)⟩ (fun h => by cases h) _
theorem Uses.quickOp {sz : Size} {m : Mode} {b : Bool} {n : Fin 8} :
    Uses (M := M) (fun a => reading sz a ++ writing sz a) sz m (Spec.quickOp b n sz m) := by
  intro s
  unfold Spec.quickOp
  split
  · rfl
  · exact AccAt.rmw

theorem Uses.bitOp {m : Mode} {o : BitOp} {k : Nat} (ho : o ≠ .test) :
    Uses (M := M) (fun a => reading .Byte a ++ writing .Byte a) .Byte m (Spec.bitOp o k m) := by
  intro s
  unfold Spec.bitOp
  split
  · rename_i n
    unfold Spec.bitOpAt
    rw [if_neg ho]
    have := AccAt.rmw (b := true) (s := s) (sz := .Long) (m := .dn n) (f := fun v sr => (o.apply v (k % 32), { sr with z := !v.getLsbD (k % 32) }))
    exact this
  · unfold Spec.bitOpAt
    rw [if_neg ho]
    exact AccAt.rmw

theorem Uses.bitTest {m : Mode} {k : Nat} : Uses (M := M) (reading .Byte) .Byte m (Spec.bitOp .test k m) := by
  unfold Spec.bitOp
  split
  · rename_i n
    intro s
    have := Uses.read (M := M) (sz := .Long) (m := .dn n) (g := fun x => setFlags fun sr => { sr with z := !x.2.getLsbD (k % 32) }) (fun _ => legal_keepsMem.flags _) s
    exact this
  · exact Uses.read fun _ => legal_keepsMem.flags _

theorem acc_bits {i : Isa} {o : BitOp} {a b c d : Nat} (f : Option U32 → List Access) (hl : op.toNat / 8 % 8 < 7 ∨ op.toNat % 8 ≤ 4)
    (ha : ∀ pc r ws, accesses C.STACK_FORMAT i op pc r ws =
      f (operandAddress .Byte r (pc + BitVec.ofNat 32 (2 * (if flag op 8 = true then 0 else 1))) (op.toNat / 8 % 8) (op.toNat % 8) (ws.drop (if flag op 8 = true then 0 else 1))))
    (hx : ∀ k m, Uses f .Byte m (Spec.bitOp o k m : Exec (Traced M) Unit)) :
    SplitP ((if flag op 8 then 0 else 1) + opEaWords 1 op) (Acc C i op) (Spec.bitInstr C op o a b c d : Exec (Traced M) Nat) := by
  unfold Spec.bitInstr
  by_cases h8 : flag op 8
  · simp only [h8, if_true, Nat.zero_add, List.drop_zero, Nat.mul_zero, BitVec.add_zero] at ha ⊢
    refine SplitP.last (preP_ea op hl rfl) fun pc ws m _ hm s _ => ?_
    rw [ha, ← hm.address reg8]
    exact Uses.getR (fun k => Uses.cost _ (hx k m)) s
  · simp only [h8, Bool.false_eq_true, if_false] at ha ⊢
    refine SplitP.bind (PreP.of (PreW.of Pre.fetch)) fun pc ws w hlen _ => SplitP.last (preP_ea op hl rfl) fun pc' ws' m _ hm hpc s _ => ?_
    rw [ha, ← hlen, List.drop_left, hlen, ← hpc, ← hm.address reg8]
    exact Uses.cost _ (hx _ m) s

/-! ### One effective address -/


theorem bind_assoc' {γ : Type} (x : Exec M α) (f : α → Exec M β) (g : β → Exec M γ) : (x >>= f) >>= g = x >>= fun a => f a >>= g := by
  funext s
  simp only [Exec.bind_apply]
  cases x s <;> rfl

theorem privileged_state {u : Unit} {s s2 : St M} (h : Spec.privileged s = .ok u s2) : s2 = s := by
  unfold Spec.privileged at h
  rw [Exec.bind_apply] at h
  simp only [getR] at h
  split at h
  · cases h; rfl
  · cases h

theorem AccAt.privileged {b : Bool} (hs : s.cpu.regs.sr.s = true) : AccAt b [] s (Spec.privileged : Exec (Traced M) Unit) := by
  unfold AccAt Spec.privileged
  rw [Exec.bind_apply]
  simp only [Spec.getR, hs, if_true]
  rfl

theorem AccAt.control {b : Bool} (m : Mode) : AccAt b [] s (Spec.control m : Exec (Traced M) U32) := by
  unfold AccAt
  cases h : Spec.control m s with
  | ok a s2 => rw [control_regs h]; rfl
  | err v s2 =>
    exfalso
    unfold Spec.control at h
    split at h
    · cases h
    · cases h
    · unfold Spec.address at h
      rw [Exec.bind_apply] at h
      simp only [Spec.locate] at h
      cases hp : (place .Long s.cpu.regs m).1 <;> rw [hp] at h <;> cases h
  | panic => trivial

local macro "keeps_div" : tactic => `(tactic| repeat first
  | exact legal_keepsMem.trap _ | exact legal_keepsMem.flags _ | exact legal_keepsMem.dreg _ _ | exact legal_keepsMem.pure _ | exact legal_keepsMem.getR _
  | refine legal_keepsMem.bind _ _ ?_ fun _ => ?_ | split | dsimp only)


theorem acc_Add (hl : legalCheck .Add op.toNat = true) :
    SplitP (extensionWords .Add op) (Acc C .Add op) (Spec.exec C .Add op : Exec (Traced M) Nat) := by
  simp only [legalCheck, Bool.and_eq_true, Bool.or_eq_true, bne_iff_ne, decide_eq_true_eq] at hl
  simp only [Spec.exec, extensionWords]
  unfold Spec.binary
  by_cases h8 : flag op 8
  · refine acc_sized (fun sz a => reading sz a ++ writing sz a) ⟨hl.1.1.1, hl.1.1.2⟩ (fun sz hs pc r ws => by acc_list op hs, h8) fun sz m => ?_
    simp only [h8, if_true]
    exact Uses.cost _ (Uses.opToEa _)
  · refine acc_sized reading ⟨hl.1.1.1, hl.1.1.2⟩ (fun sz hs pc r ws => by acc_list op hs, h8) fun sz m => ?_
    simp only [h8, Bool.false_eq_true, if_false]
    exact Uses.cost _ (Uses.opToDn _)


theorem acc_Sub (hl : legalCheck .Sub op.toNat = true) :
    SplitP (extensionWords .Sub op) (Acc C .Sub op) (Spec.exec C .Sub op : Exec (Traced M) Nat) := by
  simp only [legalCheck, Bool.and_eq_true, Bool.or_eq_true, bne_iff_ne, decide_eq_true_eq] at hl
  simp only [Spec.exec, extensionWords]
  unfold Spec.binary
  by_cases h8 : flag op 8
  · refine acc_sized (fun sz a => reading sz a ++ writing sz a) ⟨hl.1.1.1, hl.1.1.2⟩ (fun sz hs pc r ws => by acc_list op hs, h8) fun sz m => ?_
    simp only [h8, if_true]
    exact Uses.cost _ (Uses.opToEa _)
  · refine acc_sized reading ⟨hl.1.1.1, hl.1.1.2⟩ (fun sz hs pc r ws => by acc_list op hs, h8) fun sz m => ?_
    simp only [h8, Bool.false_eq_true, if_false]
    exact Uses.cost _ (Uses.opToDn _)


theorem acc_And (hl : legalCheck .And op.toNat = true) :
    SplitP (extensionWords .And op) (Acc C .And op) (Spec.exec C .And op : Exec (Traced M) Nat) := by
  simp only [legalCheck, Bool.and_eq_true, Bool.or_eq_true, bne_iff_ne, decide_eq_true_eq] at hl
  simp only [Spec.exec, extensionWords]
  unfold Spec.binary
  by_cases h8 : flag op 8
  · refine acc_sized (fun sz a => reading sz a ++ writing sz a) ⟨hl.1.1.1, hl.1.1.2⟩ (fun sz hs pc r ws => by acc_list op hs, h8) fun sz m => ?_
    simp only [h8, if_true]
    exact Uses.cost _ (Uses.opToEa _)
  · refine acc_sized reading ⟨hl.1.1.1, hl.1.1.2⟩ (fun sz hs pc r ws => by acc_list op hs, h8) fun sz m => ?_
    simp only [h8, Bool.false_eq_true, if_false]
    exact Uses.cost _ (Uses.opToDn _)


theorem acc_Or (hl : legalCheck .Or op.toNat = true) :
    SplitP (extensionWords .Or op) (Acc C .Or op) (Spec.exec C .Or op : Exec (Traced M) Nat) := by
  simp only [legalCheck, Bool.and_eq_true, Bool.or_eq_true, bne_iff_ne, decide_eq_true_eq] at hl
  simp only [Spec.exec, extensionWords]
  unfold Spec.binary
  by_cases h8 : flag op 8
  · refine acc_sized (fun sz a => reading sz a ++ writing sz a) ⟨hl.1.1.1, hl.1.1.2⟩ (fun sz hs pc r ws => by acc_list op hs, h8) fun sz m => ?_
    simp only [h8, if_true]
    exact Uses.cost _ (Uses.opToEa _)
  · refine acc_sized reading ⟨hl.1.1.1, hl.1.1.2⟩ (fun sz hs pc r ws => by acc_list op hs, h8) fun sz m => ?_
    simp only [h8, Bool.false_eq_true, if_false]
    exact Uses.cost _ (Uses.opToDn _)


theorem acc_Addi (hl : legalCheck .Addi op.toNat = true) :
    SplitP (extensionWords .Addi op) (Acc C .Addi op) (Spec.exec C .Addi op : Exec (Traced M) Nat) := by
  simp only [legalCheck, Bool.and_eq_true, Bool.or_eq_true, bne_iff_ne, decide_eq_true_eq] at hl
  simp only [Spec.exec, extensionWords]
  exact acc_immediate (fun sz a => reading sz a ++ writing sz a) hl.1 (fun sz hs pc r ws => by acc_list op hs) fun sz v m => Uses.cost _ (Uses.rmw _)


theorem acc_Subi (hl : legalCheck .Subi op.toNat = true) :
    SplitP (extensionWords .Subi op) (Acc C .Subi op) (Spec.exec C .Subi op : Exec (Traced M) Nat) := by
  simp only [legalCheck, Bool.and_eq_true, Bool.or_eq_true, bne_iff_ne, decide_eq_true_eq] at hl
  simp only [Spec.exec, extensionWords]
  exact acc_immediate (fun sz a => reading sz a ++ writing sz a) hl.1 (fun sz hs pc r ws => by acc_list op hs) fun sz v m => Uses.cost _ (Uses.rmw _)


theorem acc_Andi (hl : legalCheck .Andi op.toNat = true) :
    SplitP (extensionWords .Andi op) (Acc C .Andi op) (Spec.exec C .Andi op : Exec (Traced M) Nat) := by
  simp only [legalCheck, Bool.and_eq_true, Bool.or_eq_true, bne_iff_ne, decide_eq_true_eq] at hl
  simp only [Spec.exec, extensionWords]
  exact acc_immediate (fun sz a => reading sz a ++ writing sz a) hl.1 (fun sz hs pc r ws => by acc_list op hs) fun sz v m => Uses.cost _ (Uses.rmw _)


theorem acc_Ori (hl : legalCheck .Ori op.toNat = true) :
    SplitP (extensionWords .Ori op) (Acc C .Ori op) (Spec.exec C .Ori op : Exec (Traced M) Nat) := by
  simp only [legalCheck, Bool.and_eq_true, Bool.or_eq_true, bne_iff_ne, decide_eq_true_eq] at hl
  simp only [Spec.exec, extensionWords]
  exact acc_immediate (fun sz a => reading sz a ++ writing sz a) hl.1 (fun sz hs pc r ws => by acc_list op hs) fun sz v m => Uses.cost _ (Uses.rmw _)


theorem acc_Eori (hl : legalCheck .Eori op.toNat = true) :
    SplitP (extensionWords .Eori op) (Acc C .Eori op) (Spec.exec C .Eori op : Exec (Traced M) Nat) := by
  simp only [legalCheck, Bool.and_eq_true, Bool.or_eq_true, bne_iff_ne, decide_eq_true_eq] at hl
  simp only [Spec.exec, extensionWords]
  exact acc_immediate (fun sz a => reading sz a ++ writing sz a) hl.1 (fun sz hs pc r ws => by acc_list op hs) fun sz v m => Uses.cost _ (Uses.rmw _)


theorem acc_Cmpi (hl : legalCheck .Cmpi op.toNat = true) :
    SplitP (extensionWords .Cmpi op) (Acc C .Cmpi op) (Spec.exec C .Cmpi op : Exec (Traced M) Nat) := by
  simp only [legalCheck, Bool.and_eq_true, Bool.or_eq_true, bne_iff_ne, decide_eq_true_eq] at hl
  simp only [Spec.exec, extensionWords]
  exact acc_immediate reading hl.1 (fun sz hs pc r ws => by acc_list op hs) fun sz v m => Uses.read fun _ => legal_keepsMem.cost _ (legal_keepsMem.flags _)


theorem acc_Addq (hl : legalCheck .Addq op.toNat = true) :
    SplitP (extensionWords .Addq op) (Acc C .Addq op) (Spec.exec C .Addq op : Exec (Traced M) Nat) := by
  simp only [legalCheck, Bool.and_eq_true, Bool.or_eq_true, bne_iff_ne, decide_eq_true_eq] at hl
  simp only [Spec.exec, extensionWords]
  exact acc_sized (fun sz a => reading sz a ++ writing sz a) ⟨hl.1, by omega⟩ (fun sz hs pc r ws => by acc_list op hs) fun sz m => Uses.cost _ Uses.quickOp


theorem acc_Subq (hl : legalCheck .Subq op.toNat = true) :
    SplitP (extensionWords .Subq op) (Acc C .Subq op) (Spec.exec C .Subq op : Exec (Traced M) Nat) := by
  simp only [legalCheck, Bool.and_eq_true, Bool.or_eq_true, bne_iff_ne, decide_eq_true_eq] at hl
  simp only [Spec.exec, extensionWords]
  exact acc_sized (fun sz a => reading sz a ++ writing sz a) ⟨hl.1, by omega⟩ (fun sz hs pc r ws => by acc_list op hs) fun sz m => Uses.cost _ Uses.quickOp


theorem acc_Eor (hl : legalCheck .Eor op.toNat = true) :
    SplitP (extensionWords .Eor op) (Acc C .Eor op) (Spec.exec C .Eor op : Exec (Traced M) Nat) := by
  simp only [legalCheck, Bool.and_eq_true, Bool.or_eq_true, bne_iff_ne, decide_eq_true_eq] at hl
  simp only [Spec.exec, extensionWords]
  exact acc_sized (fun sz a => reading sz a ++ writing sz a) ⟨hl.1.1, by omega⟩ (fun sz hs pc r ws => by acc_list op hs) fun sz m => Uses.cost _ (Uses.opToEa _)


theorem acc_Neg (hl : legalCheck .Neg op.toNat = true) :
    SplitP (extensionWords .Neg op) (Acc C .Neg op) (Spec.exec C .Neg op : Exec (Traced M) Nat) := by
  simp only [legalCheck, Bool.and_eq_true, Bool.or_eq_true, bne_iff_ne, decide_eq_true_eq] at hl
  simp only [Spec.exec, extensionWords]
  exact acc_sized (fun sz a => reading sz a ++ writing sz a) ⟨hl.1.1, by omega⟩ (fun sz hs pc r ws => by acc_list op hs) fun sz m => Uses.cost _ (Uses.rmw _)


theorem acc_Negx (hl : legalCheck .Negx op.toNat = true) :
    SplitP (extensionWords .Negx op) (Acc C .Negx op) (Spec.exec C .Negx op : Exec (Traced M) Nat) := by
  simp only [legalCheck, Bool.and_eq_true, Bool.or_eq_true, bne_iff_ne, decide_eq_true_eq] at hl
  simp only [Spec.exec, extensionWords]
  exact acc_sized (fun sz a => reading sz a ++ writing sz a) ⟨hl.1.1, by omega⟩ (fun sz hs pc r ws => by acc_list op hs) fun sz m => Uses.cost _ (Uses.rmw _)


theorem acc_Not (hl : legalCheck .Not op.toNat = true) :
    SplitP (extensionWords .Not op) (Acc C .Not op) (Spec.exec C .Not op : Exec (Traced M) Nat) := by
  simp only [legalCheck, Bool.and_eq_true, Bool.or_eq_true, bne_iff_ne, decide_eq_true_eq] at hl
  simp only [Spec.exec, extensionWords]
  refine acc_sized (fun sz a => reading sz a ++ writing sz a) ⟨hl.1.1, by omega⟩ (fun sz hs pc r ws => by acc_list op hs) fun sz m => Uses.cost _ fun s => ?_
  refine AccAt.bind AccAt.read fun (p, v) s' hp => AccAt.then ?_ fun _ s' => ⟨_, _, rfl, rfl⟩
  rw [show p = _ from read_place hp]
  exact AccAt.writeAt


theorem acc_Cmp (hl : legalCheck .Cmp op.toNat = true) :
    SplitP (extensionWords .Cmp op) (Acc C .Cmp op) (Spec.exec C .Cmp op : Exec (Traced M) Nat) := by
  simp only [legalCheck, Bool.and_eq_true, Bool.or_eq_true, bne_iff_ne, decide_eq_true_eq] at hl
  simp only [Spec.exec, extensionWords]
  exact acc_sized reading hl.1 (fun sz hs pc r ws => by acc_list op hs) fun sz m => Uses.read fun _ => legal_keepsMem.bind _ _ (legal_keepsMem.getR _) fun _ => legal_keepsMem.cost _ (legal_keepsMem.flags _)


theorem acc_Tst (hl : legalCheck .Tst op.toNat = true) :
    SplitP (extensionWords .Tst op) (Acc C .Tst op) (Spec.exec C .Tst op : Exec (Traced M) Nat) := by
  simp only [legalCheck, Bool.and_eq_true, Bool.or_eq_true, bne_iff_ne, decide_eq_true_eq] at hl
  simp only [Spec.exec, extensionWords]
  exact acc_sized reading ⟨hl.1.1, by omega⟩ (fun sz hs pc r ws => by acc_list op hs) fun sz m => Uses.read fun _ => legal_keepsMem.cost _ (legal_keepsMem.flags _)


theorem acc_Clr (hl : legalCheck .Clr op.toNat = true) :
    SplitP (extensionWords .Clr op) (Acc C .Clr op) (Spec.exec C .Clr op : Exec (Traced M) Nat) := by
  simp only [legalCheck, Bool.and_eq_true, Bool.or_eq_true, bne_iff_ne, decide_eq_true_eq] at hl
  simp only [Spec.exec, extensionWords]
  exact acc_sized writing ⟨hl.1.1, by omega⟩ (fun sz hs pc r ws => by acc_list op hs) fun sz m s => AccAt.then AccAt.write fun _ s' => ⟨_, _, rfl, rfl⟩


theorem acc_Adda (hl : legalCheck .Adda op.toNat = true) :
    SplitP (extensionWords .Adda op) (Acc C .Adda op) (Spec.exec C .Adda op : Exec (Traced M) Nat) := by
  simp only [legalCheck, Bool.and_eq_true, Bool.or_eq_true, bne_iff_ne, decide_eq_true_eq] at hl
  simp only [Spec.exec, extensionWords]
  refine acc_fixed (sz' := sizeBit op 8) (reading (sizeBit op 8)) (by unfold sizeBit; split <;> rfl) hl (fun pc r ws => by acc_list op sizeBit, flag) fun m s => ?_
  unfold Spec.readExt
  rw [bind_assoc']
  exact Uses.read (fun _ => legal_keepsMem.bind _ _ (legal_keepsMem.pure _) fun _ => legal_keepsMem.cost _ (legal_keepsMem.updateA _ _)) s


theorem acc_Suba (hl : legalCheck .Suba op.toNat = true) :
    SplitP (extensionWords .Suba op) (Acc C .Suba op) (Spec.exec C .Suba op : Exec (Traced M) Nat) := by
  simp only [legalCheck, Bool.and_eq_true, Bool.or_eq_true, bne_iff_ne, decide_eq_true_eq] at hl
  simp only [Spec.exec, extensionWords]
  refine acc_fixed (sz' := sizeBit op 8) (reading (sizeBit op 8)) (by unfold sizeBit; split <;> rfl) hl (fun pc r ws => by acc_list op sizeBit, flag) fun m s => ?_
  unfold Spec.readExt
  rw [bind_assoc']
  exact Uses.read (fun _ => legal_keepsMem.bind _ _ (legal_keepsMem.pure _) fun _ => legal_keepsMem.cost _ (legal_keepsMem.updateA _ _)) s


theorem acc_Cmpa (hl : legalCheck .Cmpa op.toNat = true) :
    SplitP (extensionWords .Cmpa op) (Acc C .Cmpa op) (Spec.exec C .Cmpa op : Exec (Traced M) Nat) := by
  simp only [legalCheck, Bool.and_eq_true, Bool.or_eq_true, bne_iff_ne, decide_eq_true_eq] at hl
  simp only [Spec.exec, extensionWords]
  refine acc_fixed (sz' := sizeBit op 8) (reading (sizeBit op 8)) (by unfold sizeBit; split <;> rfl) hl (fun pc r ws => by acc_list op sizeBit, flag) fun m s => ?_
  unfold Spec.readExt
  rw [bind_assoc']
  exact Uses.read (fun _ => legal_keepsMem.bind _ _ (legal_keepsMem.pure _) fun _ => legal_keepsMem.bind _ _ (legal_keepsMem.getR _) fun _ => legal_keepsMem.cost _ (legal_keepsMem.flags _)) s


theorem acc_Nbcd (hl : legalCheck .Nbcd op.toNat = true) :
    SplitP (extensionWords .Nbcd op) (Acc C .Nbcd op) (Spec.exec C .Nbcd op : Exec (Traced M) Nat) := by
  simp only [legalCheck, Bool.and_eq_true, Bool.or_eq_true, bne_iff_ne, decide_eq_true_eq] at hl
  simp only [Spec.exec, extensionWords]
  exact acc_fixed (sz' := .Byte) (fun a => reading .Byte a ++ writing .Byte a) rfl (by omega) (fun pc r ws => by acc_list op) fun m => Uses.cost _ (Uses.rmw _)


theorem acc_Tas (hl : legalCheck .Tas op.toNat = true) :
    SplitP (extensionWords .Tas op) (Acc C .Tas op) (Spec.exec C .Tas op : Exec (Traced M) Nat) := by
  simp only [legalCheck, Bool.and_eq_true, Bool.or_eq_true, bne_iff_ne, decide_eq_true_eq] at hl
  simp only [Spec.exec, extensionWords]
  exact acc_fixed (sz' := .Byte) (fun a => reading .Byte a ++ writing .Byte a) rfl (by omega) (fun pc r ws => by acc_list op) fun m => Uses.cost _ (Uses.rmw _)


theorem acc_Asm (hl : legalCheck .Asm op.toNat = true) :
    SplitP (extensionWords .Asm op) (Acc C .Asm op) (Spec.exec C .Asm op : Exec (Traced M) Nat) := by
  simp only [legalCheck, Bool.and_eq_true, Bool.or_eq_true, bne_iff_ne, decide_eq_true_eq] at hl
  simp only [Spec.exec, extensionWords]
  exact acc_fixed (sz' := .Word) (fun a => reading .Word a ++ writing .Word a) rfl (by omega) (fun pc r ws => by acc_list op) fun m => Uses.cost _ (Uses.rmw _)


theorem acc_Lsm (hl : legalCheck .Lsm op.toNat = true) :
    SplitP (extensionWords .Lsm op) (Acc C .Lsm op) (Spec.exec C .Lsm op : Exec (Traced M) Nat) := by
  simp only [legalCheck, Bool.and_eq_true, Bool.or_eq_true, bne_iff_ne, decide_eq_true_eq] at hl
  simp only [Spec.exec, extensionWords]
  exact acc_fixed (sz' := .Word) (fun a => reading .Word a ++ writing .Word a) rfl (by omega) (fun pc r ws => by acc_list op) fun m => Uses.cost _ (Uses.rmw _)


theorem acc_Rom (hl : legalCheck .Rom op.toNat = true) :
    SplitP (extensionWords .Rom op) (Acc C .Rom op) (Spec.exec C .Rom op : Exec (Traced M) Nat) := by
  simp only [legalCheck, Bool.and_eq_true, Bool.or_eq_true, bne_iff_ne, decide_eq_true_eq] at hl
  simp only [Spec.exec, extensionWords]
  exact acc_fixed (sz' := .Word) (fun a => reading .Word a ++ writing .Word a) rfl (by omega) (fun pc r ws => by acc_list op) fun m => Uses.cost _ (Uses.rmw _)


theorem acc_Roxm (hl : legalCheck .Roxm op.toNat = true) :
    SplitP (extensionWords .Roxm op) (Acc C .Roxm op) (Spec.exec C .Roxm op : Exec (Traced M) Nat) := by
  simp only [legalCheck, Bool.and_eq_true, Bool.or_eq_true, bne_iff_ne, decide_eq_true_eq] at hl
  simp only [Spec.exec, extensionWords]
  exact acc_fixed (sz' := .Word) (fun a => reading .Word a ++ writing .Word a) rfl (by omega) (fun pc r ws => by acc_list op) fun m => Uses.cost _ (Uses.rmw _)


theorem acc_Scc (hl : legalCheck .Scc op.toNat = true) :
    SplitP (extensionWords .Scc op) (Acc C .Scc op) (Spec.exec C .Scc op : Exec (Traced M) Nat) := by
  simp only [legalCheck, Bool.and_eq_true, Bool.or_eq_true, bne_iff_ne, decide_eq_true_eq] at hl
  simp only [Spec.exec, extensionWords]
  exact acc_fixed (sz' := .Byte) (writing .Byte) rfl (by omega) (fun pc r ws => by acc_list op) fun m => Uses.map _ (Uses.getR fun _ s => AccAt.then (AccAt.write (sz := .Byte)) fun _ s' => ⟨_, _, rfl, rfl⟩)


theorem acc_Movefsr (hl : legalCheck .Movefsr op.toNat = true) :
    SplitP (extensionWords .Movefsr op) (Acc C .Movefsr op) (Spec.exec C .Movefsr op : Exec (Traced M) Nat) := by
  simp only [legalCheck, Bool.and_eq_true, Bool.or_eq_true, bne_iff_ne, decide_eq_true_eq] at hl
  simp only [Spec.exec, extensionWords]
  exact acc_fixed (sz' := .Word) (writing .Word) rfl (by omega) (fun pc r ws => by acc_list op) fun m => Uses.getR fun _ => Uses.cost _ (Uses.write (sz := .Word) _)


theorem acc_Mulu (hl : legalCheck .Mulu op.toNat = true) :
    SplitP (extensionWords .Mulu op) (Acc C .Mulu op) (Spec.exec C .Mulu op : Exec (Traced M) Nat) := by
  simp only [legalCheck, Bool.and_eq_true, Bool.or_eq_true, bne_iff_ne, decide_eq_true_eq] at hl
  simp only [Spec.exec, extensionWords]
  exact acc_fixed (sz' := .Word) (reading .Word) rfl hl.1 (fun pc r ws => by acc_list op) fun m => Uses.cost _ (Uses.read fun _ =>
    legal_keepsMem.bind _ _ (legal_keepsMem.getR _) fun _ => legal_keepsMem.bind _ _ (legal_keepsMem.dreg _ _) fun _ => legal_keepsMem.flags _)


theorem acc_Muls (hl : legalCheck .Muls op.toNat = true) :
    SplitP (extensionWords .Muls op) (Acc C .Muls op) (Spec.exec C .Muls op : Exec (Traced M) Nat) := by
  simp only [legalCheck, Bool.and_eq_true, Bool.or_eq_true, bne_iff_ne, decide_eq_true_eq] at hl
  simp only [Spec.exec, extensionWords]
  exact acc_fixed (sz' := .Word) (reading .Word) rfl hl.1 (fun pc r ws => by acc_list op) fun m => Uses.cost _ (Uses.read fun _ =>
    legal_keepsMem.bind _ _ (legal_keepsMem.getR _) fun _ => legal_keepsMem.bind _ _ (legal_keepsMem.dreg _ _) fun _ => legal_keepsMem.flags _)


theorem acc_Divu (hl : legalCheck .Divu op.toNat = true) :
    SplitP (extensionWords .Divu op) (Acc C .Divu op) (Spec.exec C .Divu op : Exec (Traced M) Nat) := by
  simp only [legalCheck, Bool.and_eq_true, Bool.or_eq_true, bne_iff_ne, decide_eq_true_eq] at hl
  simp only [Spec.exec, extensionWords]
  refine acc_fixed (sz' := .Word) (reading .Word) rfl hl.1 (fun pc r ws => by acc_list op) fun m => Uses.cost _ fun s => ?_
  refine AccAt.first (AccAt.modR _) fun _ s' h => ?_
  cases h
  have hp : (place .Word s.cpu.regs m).1 = (place .Word { s.cpu.regs with sr := { s.cpu.regs.sr with c := false } } m).1 := by cases m <;> rfl
  rw [hp]
  refine Uses.read (M := M) (sz := .Word) (m := m) (fun x => ?_) _
  keeps_div


theorem acc_Divs (hl : legalCheck .Divs op.toNat = true) :
    SplitP (extensionWords .Divs op) (Acc C .Divs op) (Spec.exec C .Divs op : Exec (Traced M) Nat) := by
  simp only [legalCheck, Bool.and_eq_true, Bool.or_eq_true, bne_iff_ne, decide_eq_true_eq] at hl
  simp only [Spec.exec, extensionWords]
  refine acc_fixed (sz' := .Word) (reading .Word) rfl hl.1 (fun pc r ws => by acc_list op) fun m => Uses.cost _ fun s => ?_
  refine AccAt.first (AccAt.modR _) fun _ s' h => ?_
  cases h
  have hp : (place .Word s.cpu.regs m).1 = (place .Word { s.cpu.regs with sr := { s.cpu.regs.sr with c := false } } m).1 := by cases m <;> rfl
  rw [hp]
  refine Uses.read (M := M) (sz := .Word) (m := m) (fun x => ?_) _
  keeps_div


theorem acc_Chk (hl : legalCheck .Chk op.toNat = true) :
    SplitP (extensionWords .Chk op) (Acc C .Chk op) (Spec.exec C .Chk op : Exec (Traced M) Nat) := by
  simp only [legalCheck, Bool.and_eq_true, Bool.or_eq_true, bne_iff_ne, decide_eq_true_eq] at hl
  simp only [Spec.exec, extensionWords]
  refine acc_fixed (sz' := .Word) (reading .Word) rfl hl.1 (fun pc r ws => by acc_list op) fun m => Uses.cost _ (Uses.read fun x => legal_keepsMem.bind _ _ (legal_keepsMem.getR _) fun v => ?_)
  split
  · exact legal_keepsMem.trap _
  · exact legal_keepsMem.pure _


theorem acc_Moveccr (hl : legalCheck .Moveccr op.toNat = true) :
    SplitP (extensionWords .Moveccr op) (Acc C .Moveccr op) (Spec.exec C .Moveccr op : Exec (Traced M) Nat) := by
  simp only [legalCheck, Bool.and_eq_true, Bool.or_eq_true, bne_iff_ne, decide_eq_true_eq] at hl
  simp only [Spec.exec, extensionWords]
  exact acc_fixed (sz' := .Word) (reading .Word) rfl hl.1 (fun pc r ws => by acc_list op) fun m => Uses.read fun x => legal_keepsMem.cost _ (legal_keepsMem.flags _)


theorem acc_Movesr (hl : legalCheck .Movesr op.toNat = true) :
    SplitP (extensionWords .Movesr op) (Acc C .Movesr op) (Spec.exec C .Movesr op : Exec (Traced M) Nat) := by
  simp only [legalCheck, Bool.and_eq_true, Bool.or_eq_true, bne_iff_ne, decide_eq_true_eq] at hl
  simp only [Spec.exec, extensionWords]
  refine SplitP.last (preP_ea op (by omega) rfl) fun pc ws m _ hm s hp => AccAt.first (AccAt.privileged (hp rfl)) fun _ s' h => ?_
  cases privileged_state h
  have ha : accesses C.STACK_FORMAT .Movesr op pc s.cpu.regs ws = reading .Word (operandAddress .Word s.cpu.regs pc (op.toNat / 8 % 8) (op.toNat % 8) ws) := (by acc_list op)
  rw [ha, ← hm.address reg8]
  exact Uses.read (sz := .Word) (fun x => legal_keepsMem.cost _ (legal_keepsMem.flags _)) s


theorem acc_Movea (hl : legalCheck .Movea op.toNat = true) :
    SplitP (extensionWords .Movea op) (Acc C .Movea op) (Spec.exec C .Movea op : Exec (Traced M) Nat) := by
  simp only [legalCheck, Bool.and_eq_true, Bool.or_eq_true, bne_iff_ne, decide_eq_true_eq] at hl
  simp only [Spec.exec, extensionWords]
  refine splitP_moveSized hl.1.1 fun sz hs hi => SplitP.last (preP_ea op hl.1.2 hi.symm) fun pc ws m _ hm s _ => ?_
  have ha : accesses C.STACK_FORMAT .Movea op pc s.cpu.regs ws = reading sz (operandAddress sz s.cpu.regs pc (op.toNat / 8 % 8) (op.toNat % 8) ws) := by acc_list op hs
  rw [ha, ← hm.address reg8]
  refine AccAt.cost _ ?_
  unfold Spec.movea Spec.readExt
  rw [bind_assoc']
  exact Uses.read (fun _ => legal_keepsMem.bind _ _ (legal_keepsMem.pure _) fun _ => legal_keepsMem.updateA _ _) s


theorem acc_Btst (hl : legalCheck .Btst op.toNat = true) :
    SplitP (extensionWords .Btst op) (Acc C .Btst op) (Spec.exec C .Btst op : Exec (Traced M) Nat) := by
  simp only [legalCheck, Bool.and_eq_true, Bool.or_eq_true, bne_iff_ne, decide_eq_true_eq] at hl
  simp only [Spec.exec, extensionWords]
  exact acc_bits (reading .Byte) hl.1 (fun pc r ws => by acc_list op) fun k m => Uses.bitTest


theorem acc_Bchg (hl : legalCheck .Bchg op.toNat = true) :
    SplitP (extensionWords .Bchg op) (Acc C .Bchg op) (Spec.exec C .Bchg op : Exec (Traced M) Nat) := by
  simp only [legalCheck, Bool.and_eq_true, Bool.or_eq_true, bne_iff_ne, decide_eq_true_eq] at hl
  simp only [Spec.exec, extensionWords]
  exact acc_bits (fun a => reading .Byte a ++ writing .Byte a) (by omega) (fun pc r ws => by acc_list op) fun k m => Uses.bitOp (by decide)


theorem acc_Bclr (hl : legalCheck .Bclr op.toNat = true) :
    SplitP (extensionWords .Bclr op) (Acc C .Bclr op) (Spec.exec C .Bclr op : Exec (Traced M) Nat) := by
  simp only [legalCheck, Bool.and_eq_true, Bool.or_eq_true, bne_iff_ne, decide_eq_true_eq] at hl
  simp only [Spec.exec, extensionWords]
  exact acc_bits (fun a => reading .Byte a ++ writing .Byte a) (by omega) (fun pc r ws => by acc_list op) fun k m => Uses.bitOp (by decide)


theorem acc_Bset (hl : legalCheck .Bset op.toNat = true) :
    SplitP (extensionWords .Bset op) (Acc C .Bset op) (Spec.exec C .Bset op : Exec (Traced M) Nat) := by
  simp only [legalCheck, Bool.and_eq_true, Bool.or_eq_true, bne_iff_ne, decide_eq_true_eq] at hl
  simp only [Spec.exec, extensionWords]
  exact acc_bits (fun a => reading .Byte a ++ writing .Byte a) (by omega) (fun pc r ws => by acc_list op) fun k m => Uses.bitOp (by decide)


theorem SpelledP.append {mode reg : Nat} {pc : U32} {ws : List U16} {m : Mode} (h : SpelledP mode reg pc ws m) (t : List U16) : SpelledP mode reg pc (ws ++ t) m := by
  refine ⟨h.1.append, ?_⟩
  obtain ⟨-, h2⟩ := h
  cases m with
  | pcDisp p d => obtain ⟨h3, u, rfl⟩ := h2; exact ⟨h3, u ++ t, rfl⟩
  | pcIndex p x => obtain ⟨h3, u, rfl⟩ := h2; exact ⟨h3, u ++ t, rfl⟩
  | _ => trivial

/-! ### The others -/

theorem acc_Move (hl : legalCheck .Move op.toNat = true) :
    SplitP (extensionWords .Move op) (Acc C .Move op) (Spec.exec C .Move op : Exec (Traced M) Nat) := by
  simp only [legalCheck, Bool.and_eq_true, Bool.or_eq_true, bne_iff_ne, decide_eq_true_eq] at hl
  simp only [Spec.exec, extensionWords]
  obtain ⟨⟨⟨⟨h1, h2⟩, h3⟩, h4⟩, h5⟩ := hl
  refine splitP_moveSized h1 fun sz hsz hi => SplitP.bind (preP_ea op h2 hi.symm) fun pc ws src hlen hs => ?_
  have e6 : (regField op 6).val = op.toNat / 64 % 8 := by simp [regField, Fin.ofNat]
  have e9 : (regField op 9).val = op.toNat / 512 % 8 := by simp [regField, Fin.ofNat]
  have hpre := PreP.fetchMode (M := Traced M) (some sz) (moveImm op) (regField op 6) (regField op 9) (by rw [e6, e9]; omega)
  rw [e6, e9] at hpre
  refine SplitP.last hpre fun pc' ws' dst _ hd _ s _ => AccAt.cost _ ?_
  have ha : accesses C.STACK_FORMAT .Move op pc s.cpu.regs (ws ++ ws') = reading sz (operandAddress sz s.cpu.regs pc (op.toNat / 8 % 8) (op.toNat % 8) (ws ++ ws')) ++
      writing sz (operandAddress sz (afterEa sz s.cpu.regs (op.toNat / 8 % 8) (op.toNat % 8)) pc' (op.toNat / 64 % 8) (op.toNat / 512 % 8) ws') := by
    simp only [accesses, hsz, ← hlen, List.drop_left]
    congr 2
    have hpc : ¬ (op.toNat / 64 % 8 = 7 ∧ (op.toNat / 512 % 8 = 2 ∨ op.toNat / 512 % 8 = 3)) := by omega
    generalize op.toNat / 64 % 8 = x at hpc ⊢
    generalize op.toNat / 512 % 8 = y at hpc ⊢
    unfold operandAddress
    split
    · rfl
    · split <;> first | omega | rfl
  rw [ha, ← (hs.append ws').address reg8, ← hd.address (by omega)]
  refine AccAt.bind AccAt.read fun (p, v) s' hp => AccAt.then ?_ fun _ s' => ⟨_, _, rfl, rfl⟩
  have := AccAt.write (b := true) (s := s') (sz := sz) (m := dst) (v := v)
  rw [read_regs hp, fits_after hs.1.1] at this
  exact this

theorem fits_predec (n : Nat) : Fits 4 (op.toNat / 2 ^ n % 8) (.predec (regField op n)) := ⟨rfl, by simp [regField, Fin.ofNat]⟩
theorem fits_postinc (n : Nat) : Fits 3 (op.toNat / 2 ^ n % 8) (.postinc (regField op n)) := ⟨rfl, by simp [regField, Fin.ofNat]⟩

theorem acc_pair {sz : Size} {b : Bool} {f : Val sz → Val sz → StatusRegister → Val sz × StatusRegister} {L : List Access}
    (hL : L = if b = false then [] else
      [⟨false, sz, eaAddress sz s.cpu.regs 4 (op.toNat % 8) []⟩,
       ⟨false, sz, eaAddress sz (afterEa sz s.cpu.regs 4 (op.toNat % 8)) 4 (op.toNat / 512 % 8) []⟩,
       ⟨true, sz, eaAddress sz (afterEa sz s.cpu.regs 4 (op.toNat % 8)) 4 (op.toNat / 512 % 8) []⟩]) :
    AccAt true L s (Spec.pair sz b (regField op 9) (regField op 0) f) := by
  subst hL
  unfold Spec.pair
  refine AccAt.first (AccAt.locate _ _) fun p1 s1 h1 => ?_
  refine AccAt.first (AccAt.locate _ _) fun p2 s2 h2 => ?_
  cases h1
  cases h2
  cases b with
  | false =>
    simp only [if_true, Bool.false_eq_true, if_false]
    exact AccAt.first (AccAt.readAt (p := .dreg _)) fun v1 s3 h3 => AccAt.first (AccAt.readAt (p := .dreg _)) fun v2 s4 h4 =>
      AccAt.first (AccAt.compute _) fun r s5 h5 => AccAt.writeAt (p := .dreg _)
  | true =>
    simp only [if_true, Bool.true_eq_false, if_false]
    have e0 := fits_after (fits_predec (op := op) 0) sz s.cpu.regs
    rw [Nat.pow_zero, Nat.div_one] at e0
    rw [← e0]
    have hy : eaAddress sz s.cpu.regs 4 (op.toNat % 8) [] = areg s.cpu.regs (regField op 0) - step (regField op 0) sz := by
      have : Fin.ofNat 8 (op.toNat % 8) = regField op 0 := by apply Fin.ext; simp [regField, Fin.ofNat]
      simp only [eaAddress, this]
    have hx : ∀ r, eaAddress sz r 4 (op.toNat / 512 % 8) [] = areg r (regField op 9) - step (regField op 9) sz := by
      intro r
      have : Fin.ofNat 8 (op.toNat / 512 % 8) = regField op 9 := by apply Fin.ext; simp [regField, Fin.ofNat]
      simp only [eaAddress, this]
    rw [hy, hx]
    exact AccAt.bind (L1 := [_]) (L2 := [_, _]) (AccAt.readAt (p := .mem _)) fun v1 s3 h3 => AccAt.bind (L1 := [_]) (L2 := [_]) (AccAt.readAt (p := .mem _))
      fun v2 s4 h4 => AccAt.first (AccAt.compute _) fun r s5 h5 => AccAt.writeAt (p := .mem _)

theorem acc_Addx (hl : legalCheck .Addx op.toNat = true) : SplitP (extensionWords .Addx op) (Acc C .Addx op) (Spec.exec C .Addx op : Exec (Traced M) Nat) := by
  simp only [legalCheck, bne_iff_ne] at hl
  simp only [Spec.exec, extensionWords]
  exact splitP_sized hl fun sz hs _ => SplitP.here fun pc s _ => AccAt.cost _ (acc_pair (by simp [accesses, hs]))

theorem acc_Subx (hl : legalCheck .Subx op.toNat = true) : SplitP (extensionWords .Subx op) (Acc C .Subx op) (Spec.exec C .Subx op : Exec (Traced M) Nat) := by
  simp only [legalCheck, bne_iff_ne] at hl
  simp only [Spec.exec, extensionWords]
  exact splitP_sized hl fun sz hs _ => SplitP.here fun pc s _ => AccAt.cost _ (acc_pair (by simp [accesses, hs]))

theorem acc_Abcd (hl : legalCheck .Abcd op.toNat = true) : SplitP (extensionWords .Abcd op) (Acc C .Abcd op) (Spec.exec C .Abcd op : Exec (Traced M) Nat) := by
  simp only [legalCheck, bne_iff_ne] at hl
  simp only [Spec.exec, extensionWords]
  exact splitP_sized hl fun sz hs _ => SplitP.here fun pc s _ => AccAt.cost _ (acc_pair (by simp [accesses]))

theorem acc_Sbcd (hl : legalCheck .Sbcd op.toNat = true) : SplitP (extensionWords .Sbcd op) (Acc C .Sbcd op) (Spec.exec C .Sbcd op : Exec (Traced M) Nat) := by
  simp only [legalCheck, bne_iff_ne] at hl
  simp only [Spec.exec, extensionWords]
  exact splitP_sized hl fun sz hs _ => SplitP.here fun pc s _ => AccAt.cost _ (acc_pair (by simp [accesses]))

theorem acc_Cmpm (hl : legalCheck .Cmpm op.toNat = true) : SplitP (extensionWords .Cmpm op) (Acc C .Cmpm op) (Spec.exec C .Cmpm op : Exec (Traced M) Nat) := by
  simp only [legalCheck, bne_iff_ne] at hl
  simp only [Spec.exec, extensionWords]
  refine splitP_sized hl fun sz hs _ => SplitP.here fun pc s _ => AccAt.cost _ ?_
  simp only [accesses, hs]
  have e0 := fits_after (fits_postinc (op := op) 0) sz s.cpu.regs
  rw [Nat.pow_zero, Nat.div_one] at e0
  rw [← e0]
  have hy : eaAddress sz s.cpu.regs 3 (op.toNat % 8) [] = areg s.cpu.regs (regField op 0) := by
    have : Fin.ofNat 8 (op.toNat % 8) = regField op 0 := by apply Fin.ext; simp [regField, Fin.ofNat]
    simp only [eaAddress, this]
  have hx : ∀ r, eaAddress sz r 3 (op.toNat / 512 % 8) [] = areg r (regField op 9) := by
    intro r
    have : Fin.ofNat 8 (op.toNat / 512 % 8) = regField op 9 := by apply Fin.ext; simp [regField, Fin.ofNat]
    simp only [eaAddress, this]
  rw [hy, hx]
  unfold Spec.cmpm
  refine AccAt.first (AccAt.locate _ _) fun p1 s1 h1 => ?_
  refine AccAt.first (AccAt.locate _ _) fun p2 s2 h2 => ?_
  cases h1
  cases h2
  refine AccAt.bind (L1 := [_]) (L2 := [_]) (AccAt.readAt (p := .mem _)) fun v1 s3 h3 => AccAt.bind (L1 := [_]) (L2 := []) (AccAt.readAt (p := .mem _)) fun v2 s4 h4 => ?_
  exact AccAt.keeps (legal_keepsMem.flags _)

/-! The stack -/

theorem AccAt.push {b : Bool} {v : U32} : AccAt b [⟨true, .Long, areg s.cpu.regs 7 - 4⟩] s (Spec.push .Long v) :=
  AccAt.write (sz := .Long) (m := .predec 7)

theorem AccAt.pop {b : Bool} {sz : Size} : AccAt b [⟨false, sz, areg s.cpu.regs 7⟩] s (Spec.pop sz) :=
  AccAt.then (AccAt.read (sz := sz) (m := .postinc 7)) fun _ s' => ⟨_, _, rfl, rfl⟩

theorem pop_areg {s : St M} {sz : Size} {v : Val sz} {s2 : St M} (h : Spec.pop sz s = .ok v s2) : areg s2.cpu.regs 7 = areg s.cpu.regs 7 + step 7 sz := by
  obtain ⟨⟨p, v'⟩, s', h1, h2⟩ := bind_ok h
  cases h2
  rw [read_regs h1]
  exact Exec.areg_setAreg _ _ _

theorem acc_Pea (hl : legalCheck .Pea op.toNat = true) :
    SplitP (extensionWords .Pea op) (Acc C .Pea op) (Spec.exec C .Pea op : Exec (Traced M) Nat) := by
  simp only [legalCheck, Bool.and_eq_true, Bool.or_eq_true, bne_iff_ne, decide_eq_true_eq, eaInMemory, beq_iff_eq] at hl
  simp only [Spec.exec, extensionWords]
  refine SplitP.last (preP_ea' op (by omega)) fun pc ws m _ hm s _ => ?_
  refine AccAt.first (AccAt.control m) fun a s' h => AccAt.cost _ ?_
  rw [control_regs h]
  exact AccAt.push

theorem acc_Jsr (hl : legalCheck .Jsr op.toNat = true) :
    SplitP (extensionWords .Jsr op) (Acc C .Jsr op) (Spec.exec C .Jsr op : Exec (Traced M) Nat) := by
  simp only [legalCheck, Bool.and_eq_true, Bool.or_eq_true, bne_iff_ne, decide_eq_true_eq, eaInMemory, beq_iff_eq] at hl
  simp only [Spec.exec, extensionWords]
  refine SplitP.last (preP_ea' op (by omega)) fun pc ws m _ hm s _ => AccAt.cost _ ?_
  refine AccAt.first (AccAt.getR _) fun ret s' h => ?_
  cases h
  refine AccAt.bind (L2 := []) AccAt.push fun _ s' _ => ?_
  exact AccAt.first (AccAt.control m) fun a s'' _ => AccAt.modR _

theorem acc_Bsr : SplitP (extensionWords .Bsr op) (Acc C .Bsr op) (Spec.exec C .Bsr op : Exec (Traced M) Nat) := by
  simp only [Spec.exec, extensionWords]
  have : SplitP (0 + (if op.toNat % 256 = 0 then 1 else 0)) (Acc C .Bsr op) (Spec.exec C .Bsr op : Exec (Traced M) Nat) :=
    SplitP.bind (PreP.of (PreW.of Pre.getR)) fun pc ws pc' hlen _ => SplitP.last (PreP.of (PreW.of (Pre.fetchDisp op))) fun pc2 ws' d _ _ _ s _ =>
      AccAt.cost _ (AccAt.first (AccAt.getR _) fun ret s' h => by
        cases h
        exact AccAt.bind (L2 := []) AccAt.push fun _ s' _ => AccAt.modR _)
  rw [Nat.zero_add] at this
  exact this

theorem acc_Link : SplitP (extensionWords .Link op) (Acc C .Link op) (Spec.exec C .Link op : Exec (Traced M) Nat) := by
  simp only [Spec.exec, extensionWords]
  refine SplitP.last (PreP.of (PreW.of Pre.fetch)) fun pc ws d _ _ s _ => AccAt.cost _ (AccAt.first (AccAt.getR _) fun a s' h => ?_)
  cases h
  exact AccAt.bind (L2 := []) AccAt.push fun _ s' _ => AccAt.first (AccAt.modR _) fun _ _ _ => AccAt.modR _

theorem acc_Unlk : SplitP (extensionWords .Unlk op) (Acc C .Unlk op) (Spec.exec C .Unlk op : Exec (Traced M) Nat) := by
  simp only [Spec.exec, extensionWords]
  refine SplitP.here fun pc s _ => AccAt.cost _ (AccAt.first (AccAt.modR _) fun a s' h => ?_)
  cases h
  have h7 : ∀ (r : Registers) (v : U32), areg (setAreg r 7 v) 7 = v := fun r v => Exec.areg_setAreg r 7 v
  have := AccAt.pop (M := M) (b := false) (sz := .Long) (s := { s with cpu := { s.cpu with regs := setAreg s.cpu.regs 7 (areg s.cpu.regs (regField op 0)) } })
  simp only [h7] at this
  exact AccAt.bind (L1 := [_]) (L2 := []) this fun _ s' _ => AccAt.modR _

theorem acc_Rts : SplitP (extensionWords .Rts op) (Acc C .Rts op) (Spec.exec C .Rts op : Exec (Traced M) Nat) := by
  simp only [Spec.exec, extensionWords]
  exact SplitP.here fun pc s _ => AccAt.cost _ (AccAt.bind (L1 := [_]) (L2 := []) AccAt.pop fun _ s' _ => AccAt.modR _)

theorem acc_Rtr : SplitP (extensionWords .Rtr op) (Acc C .Rtr op) (Spec.exec C .Rtr op : Exec (Traced M) Nat) := by
  simp only [Spec.exec, extensionWords]
  refine SplitP.here fun pc s _ => AccAt.cost _ (AccAt.bind (L1 := [_]) (L2 := [_]) AccAt.pop fun w s1 h1 => AccAt.first (AccAt.modR _) fun _ s2 h2 => ?_)
  have h3 : areg s2.cpu.regs 7 = areg s.cpu.regs 7 + 2 := by cases h2; exact pop_areg h1
  rw [← h3]
  exact AccAt.bind (L1 := [_]) (L2 := []) AccAt.pop fun _ s' _ => AccAt.modR _

theorem acc_Rte : SplitP (extensionWords .Rte op) (Acc C .Rte op) (Spec.exec C .Rte op : Exec (Traced M) Nat) := by
  simp only [Spec.exec, extensionWords]
  refine SplitP.here fun pc s hp => AccAt.map _ (AccAt.first (AccAt.privileged (hp rfl)) fun _ s0 h0 => ?_)
  obtain rfl := privileged_state h0
  refine AccAt.bind (L1 := [_]) (L2 := _ :: _) AccAt.pop fun w s1 h1 => ?_
  rw [show areg s0.cpu.regs 7 + 2 = areg s1.cpu.regs 7 from (pop_areg h1).symm]
  refine AccAt.bind (L1 := [_]) AccAt.pop fun w s2 h2 => ?_
  have h3 : areg s2.cpu.regs 7 = areg s0.cpu.regs 7 + 6 := by
    rw [pop_areg h2, pop_areg h1, BitVec.add_assoc]
    rfl
  rw [← h3]
  refine AccAt.first (AccAt.modR _) fun _ s3 h4 => AccAt.then ?_ fun _ s' => ⟨_, _, rfl, rfl⟩
  cases h4
  by_cases hf : C.STACK_FORMAT = .SCC68070
  · simp only [hf, if_true]
    refine AccAt.bind (L1 := [_]) (L2 := []) AccAt.pop fun f s4 _ => ?_
    split
    · exact AccAt.first (AccAt.modR _) fun _ _ _ => AccAt.pure _
    · split
      · exact AccAt.pure _
      · exact AccAt.trap _
  · simp only [hf, if_false]
    exact AccAt.pure _

/-! MOVEP -/

theorem range_map_succ {γ : Type} (k : Nat) (f : Nat → γ) : (List.range (k + 1)).map f = f 0 :: (List.range k).map (fun j => f (j + 1)) := by
  rw [List.range_succ_eq_map, List.map_cons, List.map_map]
  rfl

theorem AccAt.movepStores {b : Bool} {n : Fin 8} {k : Nat} {a : U32} :
    AccAt b ((List.range k).map fun j => ⟨true, .Byte, a + BitVec.ofNat 32 (2 * j)⟩) s (Spec.movepStores n k a) := by
  induction k generalizing a s with
  | zero => rfl
  | succ k ih =>
    rw [range_map_succ]
    refine AccAt.first (AccAt.getR _) fun x s1 _ => AccAt.bind (L1 := [_]) ?_ fun _ s2 _ => ?_
    · rw [show a + BitVec.ofNat 32 (2 * 0) = a by simp]
      exact AccAt.store
    · have := ih (a := a + 2) (s := s2)
      rw [show (fun j => (⟨true, .Byte, a + 2 + BitVec.ofNat 32 (2 * j)⟩ : Access)) = fun j => ⟨true, .Byte, a + BitVec.ofNat 32 (2 * (j + 1))⟩ by
        funext j
        rw [BitVec.add_assoc]; congr 2; apply BitVec.eq_of_toNat_eq; simp only [BitVec.toNat_add, BitVec.toNat_ofNat, BitVec.ofNat_eq_ofNat]; omega] at this
      exact this

theorem AccAt.movepLoads {b : Bool} {n : Fin 8} {k : Nat} {a : U32} :
    AccAt b ((List.range k).map fun j => ⟨false, .Byte, a + BitVec.ofNat 32 (2 * j)⟩) s (Spec.movepLoads n k a) := by
  induction k generalizing a s with
  | zero => rfl
  | succ k ih =>
    rw [range_map_succ]
    refine AccAt.bind (L1 := [_]) ?_ fun _ s1 _ => AccAt.first (AccAt.modR _) fun x s2 _ => ?_
    · rw [show a + BitVec.ofNat 32 (2 * 0) = a by simp]
      exact AccAt.load
    · have := ih (a := a + 2) (s := s2)
      rw [show (fun j => (⟨false, .Byte, a + 2 + BitVec.ofNat 32 (2 * j)⟩ : Access)) = fun j => ⟨false, .Byte, a + BitVec.ofNat 32 (2 * (j + 1))⟩ by
        funext j
        rw [BitVec.add_assoc]; congr 2; apply BitVec.eq_of_toNat_eq; simp only [BitVec.toNat_add, BitVec.toNat_ofNat, BitVec.ofNat_eq_ofNat]; omega] at this
      exact this

theorem acc_Movep : SplitP (extensionWords .Movep op) (Acc C .Movep op) (Spec.exec C .Movep op : Exec (Traced M) Nat) := by
  simp only [Spec.exec, extensionWords]
  refine SplitP.last (PreP.of preW_fetch) fun pc ws d _ hd s _ => AccAt.cost _ ?_
  subst hd
  refine AccAt.first (AccAt.getR _) fun a s1 h1 => ?_
  cases h1
  by_cases hf : flag op 7
  · simp only [accesses, hf, if_true]
    exact AccAt.movepStores
  · simp only [accesses, hf, Bool.false_eq_true, if_false]
    refine AccAt.first (AccAt.modR _) fun _ s2 h2 => AccAt.movepLoads

/-! MOVEM -/

theorem odd_add {sz : Size} {a : U32} (hs : sz ≠ .Byte) (ha : ¬ Spec.Odd a) : ¬ Spec.Odd (a + BitVec.ofNat 32 (bytes sz)) := by
  have hb : bytes sz % 2 = 0 ∧ bytes sz ≤ 4 := by cases sz <;> simp [bytes] at hs ⊢
  unfold Spec.Odd at ha ⊢
  rw [BitVec.toNat_add, BitVec.toNat_ofNat]
  omega

theorem AccAt.movemStores {b : Bool} {sz : Size} {l : List (Fin 16)} {a : U32} :
    AccAt b ((List.range l.length).map fun k => ⟨true, sz, a + BitVec.ofNat 32 (bytes sz * k)⟩) s (Spec.movemStores sz l a) := by
  induction l generalizing a s with
  | nil => rfl
  | cons i l ih =>
    rw [List.length_cons, range_map_succ]
    refine AccAt.first (AccAt.getR _) fun x s1 _ => AccAt.bind (L1 := [_]) ?_ fun _ s2 _ => ?_
    · rw [show a + BitVec.ofNat 32 (bytes sz * 0) = a by simp]
      exact AccAt.memSet
    · have := ih (a := a + BitVec.ofNat 32 (bytes sz)) (s := s2)
      rw [show (fun k => (⟨true, sz, a + BitVec.ofNat 32 (bytes sz) + BitVec.ofNat 32 (bytes sz * k)⟩ : Access)) =
          fun k => ⟨true, sz, a + BitVec.ofNat 32 (bytes sz * (k + 1))⟩ by
        funext k
        rw [BitVec.add_assoc, Nat.mul_succ, BitVec.ofNat_add, BitVec.add_comm (BitVec.ofNat 32 (bytes sz))]] at this
      exact this

theorem AccAt.movemLoads {b : Bool} {sz : Size} {l : List (Fin 16)} {a : U32} :
    AccAt b ((List.range l.length).map fun k => ⟨false, sz, a + BitVec.ofNat 32 (bytes sz * k)⟩) s (Spec.movemLoads sz l a) := by
  induction l generalizing a s with
  | nil => rfl
  | cons i l ih =>
    rw [List.length_cons, range_map_succ]
    refine AccAt.bind (L1 := [_]) ?_ fun _ s1 _ => AccAt.first (AccAt.modR _) fun x s2 _ => ?_
    · rw [show a + BitVec.ofNat 32 (bytes sz * 0) = a by simp]
      exact AccAt.map _ AccAt.memGet
    · have := ih (a := a + BitVec.ofNat 32 (bytes sz)) (s := s2)
      rw [show (fun k => (⟨false, sz, a + BitVec.ofNat 32 (bytes sz) + BitVec.ofNat 32 (bytes sz * k)⟩ : Access)) =
          fun k => ⟨false, sz, a + BitVec.ofNat 32 (bytes sz * (k + 1))⟩ by
        funext k
        rw [BitVec.add_assoc, Nat.mul_succ, BitVec.ofNat_add, BitVec.add_comm (BitVec.ofNat 32 (bytes sz))]] at this
      exact this

theorem AccAt.movemStoresDown {b : Bool} {sz : Size} {l : List (Fin 16)} {a : U32} :
    AccAt b ((List.range l.length).map fun k => ⟨true, sz, a - BitVec.ofNat 32 (bytes sz * (k + 1))⟩) s (Spec.movemStoresDown sz l a) := by
  induction l generalizing a s with
  | nil => rfl
  | cons i l ih =>
    rw [List.length_cons, range_map_succ]
    refine AccAt.first (AccAt.getR _) fun x s1 _ => AccAt.bind (L1 := [_]) ?_ fun _ s2 _ => ?_
    · rw [show bytes sz * (0 + 1) = bytes sz by omega]
      exact AccAt.memSet
    · have := ih (a := a - BitVec.ofNat 32 (bytes sz)) (s := s2)
      rw [show (fun k => (⟨true, sz, a - BitVec.ofNat 32 (bytes sz) - BitVec.ofNat 32 (bytes sz * (k + 1))⟩ : Access)) =
          fun k => ⟨true, sz, a - BitVec.ofNat 32 (bytes sz * (k + 1 + 1))⟩ by
        funext k
        rw [Nat.mul_succ (bytes sz) (k + 1), BitVec.ofNat_add]
        congr 1
        grind] at this
      exact this

/-- The check of the first address. -/
theorem AccAt.aligned {a : U32} {L : List Access} (hL : ∀ x t, L = x :: t → x.size ≠ .Byte ∧ (Spec.Odd a → Spec.Odd x.address)) {f : Unit → Exec (Traced M) α}
    (hf : AccAt true L s (f ())) : AccAt true L s (Spec.aligned a >>= f) := by
  by_cases ho : Spec.Odd a
  · unfold AccAt
    rw [Exec.bind_apply]
    unfold Spec.aligned
    rw [if_pos ho]
    refine ⟨[], ?_, rfl⟩
    cases L with
    | nil => exact .inr (.inr ⟨rfl, rfl⟩)
    | cons x t => exact .inr (.inl ⟨rfl, x, t, rfl, (hL x t rfl).1, (hL x t rfl).2 ho⟩)
  · unfold Spec.aligned
    rw [if_neg ho]
    exact hf

theorem cons_of_range {γ : Type} {n : Nat} {f : Nat → γ} {x : γ} {t : List γ} (h : (List.range n).map f = x :: t) : x = f 0 := by
  cases n with
  | zero => cases h
  | succ n => rw [range_map_succ] at h; cases h; rfl

theorem acc_Movem (hl : legalCheck .Movem op.toNat = true) :
    SplitP (extensionWords .Movem op) (Acc C .Movem op) (Spec.exec C .Movem op : Exec (Traced M) Nat) := by
  simp only [legalCheck, Bool.and_eq_true, Bool.or_eq_true, decide_eq_true_eq, eaInMemory, beq_iff_eq] at hl
  simp only [Spec.exec, extensionWords]
  have hsz : sizeBit op 6 ≠ .Byte := sizeBit_ne _ _
  refine SplitP.bind (PreP.of preW_fetch) fun pc ws mask hlen hws => SplitP.last (preP_ea' op (by omega)) fun pc' ws' m _ hm hpc s _ => AccAt.cost _ ?_
  subst hws
  have hc : listCount ([mask] ++ ws') = (listed mask).length := rfl
  have hd : List.drop 1 ([mask] ++ ws') = ws' := rfl
  have hp : pc + 2 = pc' := hpc.symm
  unfold Spec.movem
  split
  · rename_i n
    have h4 : op.toNat / 8 % 8 = 4 := hm.1.1.1
    have hn : n = regField op 0 := Fin.ext (by rw [hm.1.1.2]; simp [regField, Fin.ofNat])
    subst hn
    simp only [accesses, h4, if_true, hc]
    rw [show (listed mask).length = (listedDown mask).length by simp [listedDown, listed]]
    refine AccAt.first (AccAt.getR _) fun a s1 h1 => ?_
    cases h1
    refine AccAt.aligned (fun x t hx => ?_) (AccAt.then AccAt.movemStoresDown fun _ s' => ⟨_, _, rfl, rfl⟩)
    rw [cons_of_range hx]
    refine ⟨hsz, fun ho => ?_⟩
    have hb : bytes (sizeBit op 6) % 2 = 0 ∧ bytes (sizeBit op 6) ≤ 4 := by
      cases h : sizeBit op 6 <;> simp [h, bytes] at hsz ⊢
    simp only [Spec.Odd, BitVec.toNat_sub, BitVec.toNat_ofNat] at ho ⊢
    omega
  · rename_i n
    have h4 : op.toNat / 8 % 8 = 3 := hm.1.1.1
    refine AccAt.first (AccAt.getR _) fun a s1 h1 => ?_
    cases h1
    have ha : operandAddress (sizeBit op 6) s.cpu.regs pc' (op.toNat / 8 % 8) (op.toNat % 8) ws' = some (areg s.cpu.regs n) := (hm.address reg8 _ _).symm
    simp only [accesses, hp, hd, hc, ha]
    rw [if_neg (by omega)]
    refine AccAt.aligned (fun x t hx => ?_) (AccAt.then ?_ fun _ s' => ⟨_, _, rfl, rfl⟩)
    · rw [cons_of_range hx]
      exact ⟨hsz, fun ho => by simpa using ho⟩
    · by_cases hf : flag op 10
      · simp only [hf, if_true]
        exact AccAt.movemLoads
      · simp only [hf, Bool.false_eq_true, if_false]
        exact AccAt.movemStores
  · rename_i h1 h2
    have h4 : op.toNat / 8 % 8 ≠ 4 := by
      intro h4
      have hf := hm.1.1
      cases m <;> first | exact absurd rfl (h1 _) | (obtain ⟨h5, -⟩ := hf; omega)
    have ha := hm.address reg8 (sizeBit op 6) s.cpu.regs
    unfold Spec.address
    rw [bind_assoc']
    refine AccAt.first (AccAt.locate _ _) fun p s' h5 => ?_
    have hr : s' = s := by
      cases m <;> first | exact absurd rfl (h1 _) | exact absurd rfl (h2 _) | (cases h5; rfl)
    have hv : p = (place (sizeBit op 6) s.cpu.regs m).1 := by cases h5; rfl
    subst hr
    subst hv
    clear h5
    cases hpl : (place (sizeBit op 6) s'.cpu.regs m).1 with
    | mem a =>
      rw [hpl] at ha
      simp only [accesses, hp, hd, hc, ← ha, placeAddress]
      rw [if_neg h4]
      refine AccAt.first (AccAt.pure _) fun _ s2 h6 => ?_
      cases h6
      refine AccAt.aligned (fun x t hx => ?_) (AccAt.then ?_ fun _ s' => ⟨_, _, rfl, rfl⟩)
      · rw [cons_of_range hx]
        exact ⟨hsz, fun ho => by simpa using ho⟩
      · by_cases hf : flag op 10
        · simp only [hf, if_true]
          exact AccAt.movemLoads
        · simp only [hf, Bool.false_eq_true, if_false]
          exact AccAt.movemStores
    | dreg n => trivial
    | areg n => trivial
    | imm n => trivial

/-! Without an operand in memory -/

theorem acc_Reset : SplitP (extensionWords .Reset op) (Acc C .Reset op) (Spec.exec C .Reset op : Exec (Traced M) Nat) := by
  simp only [Spec.exec, extensionWords]
  exact SplitP.here fun pc s hp => AccAt.cost _ (AccAt.first (AccAt.privileged (hp rfl)) fun _ s0 h0 => rfl)

theorem acc_none {i : Isa} (hl : legalCheck i op.toNat = true) (hr : readsMemory i op = false) (hw : writesMemory i op = false) (hrs : i ≠ .Reset)
    (ha : ∀ pc r ws, accesses C.STACK_FORMAT i op pc r ws = []) : SplitP (extensionWords i op) (Acc C i op) (Spec.exec C i op : Exec (Traced M) Nat) :=
  (SplitP.of (legal_keepsMem.exec C hl (fun h => by rw [hr] at h; cases h) (fun h => by rw [hw] at h; cases h) (fun _ => trivial) hrs)).mono
    fun pc ws z hz s _ => by rw [ha]; exact AccAt.keeps hz

/-- Every instruction. -/
theorem acc {i : Isa} (hl : legalCheck i op.toNat = true) : SplitP (extensionWords i op) (Acc C i op) (Spec.exec C i op : Exec (Traced M) Nat) := by
  cases i with
  | Add => exact acc_Add hl
  | Sub => exact acc_Sub hl
  | And => exact acc_And hl
  | Or => exact acc_Or hl
  | Addi => exact acc_Addi hl
  | Subi => exact acc_Subi hl
  | Andi => exact acc_Andi hl
  | Ori => exact acc_Ori hl
  | Eori => exact acc_Eori hl
  | Cmpi => exact acc_Cmpi hl
  | Addq => exact acc_Addq hl
  | Subq => exact acc_Subq hl
  | Eor => exact acc_Eor hl
  | Neg => exact acc_Neg hl
  | Negx => exact acc_Negx hl
  | Not => exact acc_Not hl
  | Cmp => exact acc_Cmp hl
  | Tst => exact acc_Tst hl
  | Clr => exact acc_Clr hl
  | Adda => exact acc_Adda hl
  | Suba => exact acc_Suba hl
  | Cmpa => exact acc_Cmpa hl
  | Nbcd => exact acc_Nbcd hl
  | Tas => exact acc_Tas hl
  | Asm => exact acc_Asm hl
  | Lsm => exact acc_Lsm hl
  | Rom => exact acc_Rom hl
  | Roxm => exact acc_Roxm hl
  | Scc => exact acc_Scc hl
  | Movefsr => exact acc_Movefsr hl
  | Mulu => exact acc_Mulu hl
  | Muls => exact acc_Muls hl
  | Divu => exact acc_Divu hl
  | Divs => exact acc_Divs hl
  | Chk => exact acc_Chk hl
  | Moveccr => exact acc_Moveccr hl
  | Movesr => exact acc_Movesr hl
  | Movea => exact acc_Movea hl
  | Btst => exact acc_Btst hl
  | Bchg => exact acc_Bchg hl
  | Bclr => exact acc_Bclr hl
  | Bset => exact acc_Bset hl
  | Move => exact acc_Move hl
  | Addx => exact acc_Addx hl
  | Subx => exact acc_Subx hl
  | Abcd => exact acc_Abcd hl
  | Sbcd => exact acc_Sbcd hl
  | Cmpm => exact acc_Cmpm hl
  | Pea => exact acc_Pea hl
  | Jsr => exact acc_Jsr hl
  | Bsr => exact acc_Bsr
  | Link => exact acc_Link
  | Unlk => exact acc_Unlk
  | Rts => exact acc_Rts
  | Rtr => exact acc_Rtr
  | Rte => exact acc_Rte
  | Movep => exact acc_Movep
  | Movem => exact acc_Movem hl
  | Reset => exact acc_Reset
  | _ => exact acc_none hl rfl rfl (by decide) fun _ _ _ => rfl

theorem operandAddress_withPc (sz : Size) (r : Registers) (p pc : U32) (mode reg : Nat) (ws : List U16) :
    operandAddress sz { r with pc := p } pc mode reg ws = operandAddress sz r pc mode reg ws := by
  unfold operandAddress
  simp only [eaAddress_withPc]
  split
  · rfl
  · split <;> rfl

theorem accesses_withPc (F : StackFormat) (i : Isa) (op : U16) (r : Registers) (p pc : U32) (ws : List U16) :
    accesses F i op pc { r with pc := p } ws = accesses F i op pc r ws := by
  have ha : ∀ n, areg { r with pc := p } n = areg r n := fun _ => rfl
  unfold accesses
  simp only [afterEa_withPc, eaAddress_withPc, operandAddress_withPc, ha]

end Exec
end M68k
