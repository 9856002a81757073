import Verif.Lemmas.Others
/-
Every instruction uses only the registers it names.
-/
set_option linter.unusedSectionVars false
namespace M68k
namespace Exec
open Spec
variable {M : Type} [MemoryAccess M] {α β : Type} {l : List Register} {t : Registers} {op : U16} {C : CpuDetails}

/-- The action `x`, which reads `k` words first, uses only the registers in `l` if these words satisfy `Q`. -/
def UnseenW (l : List Register) (t : Registers) (k : Nat) (Q : List U16 → Prop) (x : Exec M α) : Prop :=
  ∀ s ws s', fetchWords k s = .ok ws s' → Q ws → UnseenAt l t s x

namespace UnseenW
theorem any {k : Nat} {Q : List U16 → Prop} {x : Exec M α} (h : ∀ ws, Q ws → Unseen l t x) : UnseenW l t k Q x := fun s ws _ _ hq => h ws hq s

theorem bind {j k : Nat} {y : Exec M β} {p : U32 → List U16 → β → Prop} {f : β → Exec M α} {Q : List U16 → Prop} (hb : Unseen l t y) (hy : PreP j y p)
    (hf : ∀ pc ws b, ws.length = j → p pc ws b → UnseenW l t k (fun ws' => Q (ws ++ ws')) (f b)) : UnseenW l t (j + k) Q (y >>= f) := by
  intro s ws s' h hq
  rw [fetchWords_add] at h
  obtain ⟨w1, s1, h1, h2⟩ := bind_ok h
  obtain ⟨w2, s2, h3, h4⟩ := bind_ok h2
  cases h4
  have h5 := hy s
  rw [h1] at h5
  obtain ⟨b, h6, h7⟩ := h5
  refine UnseenAt.bind (hb s) fun a s3 h8 => ?_
  rw [h6] at h8
  cases h8
  exact hf _ w1 b (fetchWords_length h1) h7 s1 w2 _ h3 hq

theorem last {k : Nat} {y : Exec M β} {p : U32 → List U16 → β → Prop} {f : β → Exec M α} {Q : List U16 → Prop} (hb : Unseen l t y) (hy : PreP k y p)
    (hf : ∀ pc ws b, ws.length = k → p pc ws b → Q ws → Unseen l t (f b)) : UnseenW l t k Q (y >>= f) := by
  intro s ws s' h hq
  have h5 := hy s
  rw [h] at h5
  obtain ⟨b, h6, h7⟩ := h5
  refine UnseenAt.bind (hb s) fun a s3 h8 => ?_
  rw [h6] at h8
  cases h8
  exact hf _ ws b (fetchWords_length h) h7 hq _

theorem sized {k : Nat} {Q : List U16 → Prop} {f : Size → Exec M Nat} (hf : ∀ sz, sizedImm op = immWords (some sz) → UnseenW l t k Q (f sz)) :
    UnseenW l t k Q (sized op f) := by
  unfold Spec.sized
  split
  · rename_i h0; exact hf _ (by simp [sizedImm, h0, immWords])
  · split
    · rename_i h0; exact hf _ (by simp [sizedImm, h0, immWords])
    · split
      · rename_i h0; exact hf _ (by simp [sizedImm, h0, immWords])
      · exact any fun _ _ => Unseen.crash

theorem moveSized {k : Nat} {Q : List U16 → Prop} {f : Size → Exec M Nat} (hf : ∀ sz, moveImm op = immWords (some sz) → UnseenW l t k Q (f sz)) :
    UnseenW l t k Q (moveSized op f) := by
  unfold Spec.moveSized
  split
  · rename_i h0; exact hf _ (by simp [moveImm, h0, immWords])
  · split
    · rename_i h0; exact hf _ (by simp [moveImm, h0, immWords])
    · split
      · rename_i h0; exact hf _ (by simp [moveImm, h0, immWords])
      · exact any fun _ _ => Unseen.crash
end UnseenW

/-- The registers `x` are not replaced. -/
def Keep (l x : List Register) : Prop := ∀ r ∈ x, r ∈ l

theorem Keep.d {n : Fin 8} {x : List Register} (h : Keep l (.d n :: x)) : .d n ∈ l := h _ (by simp)
theorem Keep.a {n : Fin 8} {x : List Register} (h : Keep l (.a n :: x)) : KeptA l n := .inr (h _ (by simp))
theorem Keep.tail {r : Register} {x : List Register} (h : Keep l (r :: x)) : Keep l x := fun y hy => h y (by simp [hy])
theorem Keep.left {x y : List Register} (h : Keep l (x ++ y)) : Keep l x := fun z hz => h z (by simp [hz])
theorem Keep.right {x y : List Register} (h : Keep l (x ++ y)) : Keep l y := fun z hz => h z (by simp [hz])

theorem modeOk_spelled {mode reg : Nat} {pc : U32} {ws : List U16} {m : Mode} (h : SpelledP mode reg pc ws m) (hr : reg < 8) (hk : Keep l (eaRegisters mode reg ws)) : ModeOk l m := by
  have hn : ∀ n : Fin 8, Fin.ofNat 8 n.val = n := fun n => Fin.ext (Nat.mod_eq_of_lt n.isLt)
  obtain ⟨⟨h1, h2⟩, h3⟩ := h
  intro x hx
  apply kept_of_mem
  apply hk
  cases m with
  | dn n => obtain ⟨rfl, rfl⟩ := h1; simpa [modeRegs, eaRegisters, hn] using hx
  | an n => obtain ⟨rfl, rfl⟩ := h1; simpa [modeRegs, eaRegisters, hn] using hx
  | ind n => obtain ⟨rfl, rfl⟩ := h1; simpa [modeRegs, eaRegisters, hn] using hx
  | postinc n => obtain ⟨rfl, rfl⟩ := h1; simpa [modeRegs, eaRegisters, hn] using hx
  | predec n => obtain ⟨rfl, rfl⟩ := h1; simpa [modeRegs, eaRegisters, hn] using hx
  | disp n d => obtain ⟨rfl, rfl⟩ := h1; simpa [modeRegs, eaRegisters, hn] using hx
  | index n d => obtain ⟨rfl, rfl⟩ := h1; obtain ⟨u, rfl⟩ := h2; simpa [modeRegs, eaRegisters, hn] using hx
  | pcIndex p d => obtain ⟨rfl, rfl⟩ := h1; obtain ⟨-, u, rfl⟩ := h3; simpa [modeRegs, eaRegisters, hn] using hx
  | absW d => simp [modeRegs] at hx
  | absL d => simp [modeRegs] at hx
  | pcDisp p d => simp [modeRegs] at hx
  | imm d => simp [modeRegs] at hx

/-- The words satisfy the hypothesis of the theorem. -/
abbrev Named (l : List Register) (i : Isa) (op : U16) (ws : List U16) : Prop := Keep l (registersUsed i op ws)

theorem Named.as {i : Isa} {ws : List U16} {x : List Register} (hi : registersUsed i op ws = x) (h : Named l i op ws) : Keep l x := hi ▸ h

theorem unseen_ea {sz : Size} {imm : Nat} {Q : List U16 → Prop} {f : Mode → Exec M Nat} (hany : op.toNat / 8 % 8 < 7 ∨ op.toNat % 8 ≤ 4)
    (himm : immWords (some sz) = imm) (hq : ∀ ws, Q ws → Keep l (eaRegisters (op.toNat / 8 % 8) (op.toNat % 8) ws))
    (hf : ∀ ws m, Q ws → ModeOk l m → Unseen l t (f m)) : UnseenW l t (opEaWords imm op) Q (Spec.fetchEa (some sz) op >>= f) :=
  UnseenW.last (Unseen.fetchEa _ _) (preP_ea op hany himm) fun _ ws m _ hm h => hf ws m h (modeOk_spelled hm reg8 (hq ws h))

theorem unseen_ea' {sz : Option Size} {imm : Nat} {Q : List U16 → Prop} {f : Mode → Exec M Nat} (hany : op.toNat / 8 % 8 < 7 ∨ op.toNat % 8 ≤ 3)
    (hq : ∀ ws, Q ws → Keep l (eaRegisters (op.toNat / 8 % 8) (op.toNat % 8) ws))
    (hf : ∀ ws m, Q ws → ModeOk l m → Unseen l t (f m)) : UnseenW l t (opEaWords imm op) Q (Spec.fetchEa sz op >>= f) :=
  UnseenW.last (Unseen.fetchEa _ _) (preP_ea' op hany) fun _ ws m _ hm h => hf ws m h (modeOk_spelled hm reg8 (hq ws h))

theorem unseen_binary {i : Isa} (hi : ∀ ws, registersUsed i op ws = .d (regField op 9) :: eaRegisters (op.toNat / 8 % 8) (op.toNat % 8) ws)
    (hany : op.toNat / 8 % 8 < 7 ∨ op.toNat % 8 ≤ 4) (f : {n : Nat} → BitVec n → BitVec n → StatusRegister → BitVec n × StatusRegister) (t1 t2 t3 t4 t5 : Nat) :
    UnseenW (M := M) l t (opEaWords (sizedImm op) op) (Named l i op) (Spec.binary C op f t1 t2 t3 t4 t5) :=
  UnseenW.sized fun sz hs => unseen_ea hany hs.symm (fun ws h => (Named.as (hi ws) h).tail) fun ws m h hm => by
    have h9 : .d (regField op 9) ∈ l := (Named.as (hi ws) h).d
    split
    · exact Unseen.cost _ (Unseen.opToEa sz h9 hm _)
    · exact Unseen.cost _ (Unseen.opToDn sz h9 hm _)

theorem unseen_immediate {i : Isa} (hi : ∀ ws, registersUsed i op ws = eaRegisters (op.toNat / 8 % 8) (op.toNat % 8) (ws.drop (sizedImm op)))
    (hany : op.toNat / 8 % 8 < 7 ∨ op.toNat % 8 ≤ 4) {f : (sz : Size) → U32 → Mode → Exec M Nat} (hf : ∀ sz v m, ModeOk l m → Unseen l t (f sz v m)) :
    UnseenW (M := M) l t (sizedImm op + opEaWords (sizedImm op) op) (Named l i op)
      (Spec.sized op fun sz => Spec.fetchImm sz >>= fun v => Spec.fetchEa (some sz) op >>= f sz v) :=
  UnseenW.sized fun sz hs => by
    have hs' := hs
    rw [hs]
    refine UnseenW.bind (Unseen.fetchImm sz) (PreP.of (PreW.of (Pre.fetchImm sz))) fun _ ws v hl _ => unseen_ea hany rfl (fun ws' h => ?_) fun ws' m h hm => hf sz v m hm
    have h' : Keep l (registersUsed i op (ws ++ ws')) := h
    rw [hi, hs', ← hl, List.drop_left] at h'
    exact h'

theorem unseen_sized {i : Isa} (hi : ∀ ws, registersUsed i op ws = eaRegisters (op.toNat / 8 % 8) (op.toNat % 8) ws)
    (hany : op.toNat / 8 % 8 < 7 ∨ op.toNat % 8 ≤ 4) {f : (sz : Size) → Mode → Exec M Nat} (hf : ∀ sz m, ModeOk l m → Unseen l t (f sz m)) :
    UnseenW (M := M) l t (opEaWords (sizedImm op) op) (Named l i op) (Spec.sized op fun sz => Spec.fetchEa (some sz) op >>= f sz) :=
  UnseenW.sized fun sz hs => unseen_ea hany hs.symm (fun ws h => (Named.as (hi ws) h)) fun _ m _ hm => hf sz m hm

theorem unseen_fixed {i : Isa} {sz : Size} {n : Nat} (hn : immWords (some sz) = n) (hi : ∀ ws, registersUsed i op ws = eaRegisters (op.toNat / 8 % 8) (op.toNat % 8) ws)
    (hany : op.toNat / 8 % 8 < 7 ∨ op.toNat % 8 ≤ 4) {f : Mode → Exec M Nat} (hf : ∀ m, ModeOk l m → Unseen l t (f m)) :
    UnseenW (M := M) l t (opEaWords n op) (Named l i op) (Spec.fetchEa (some sz) op >>= f) :=
  unseen_ea hany hn (fun ws h => (Named.as (hi ws) h)) fun _ m _ hm => hf m hm

theorem unseen_bits {i : Isa} (hi : ∀ ws, registersUsed i op ws = if flag op 8 then .d (regField op 9) :: eaRegisters (op.toNat / 8 % 8) (op.toNat % 8) ws
      else eaRegisters (op.toNat / 8 % 8) (op.toNat % 8) (ws.drop 1))
    (hany : op.toNat / 8 % 8 < 7 ∨ op.toNat % 8 ≤ 4) (o : BitOp) (t1 t2 t3 t4 : Nat) :
    UnseenW (M := M) l t ((if flag op 8 then 0 else 1) + opEaWords 1 op) (Named l i op) (Spec.bitInstr C op o t1 t2 t3 t4) := by
  unfold Spec.bitInstr
  by_cases h8 : flag op 8
  · simp only [h8, if_true, Nat.zero_add] at hi ⊢
    exact unseen_ea hany rfl (fun ws h => (Named.as (hi ws) h).tail) fun ws m h hm =>
      Unseen.bind (Unseen.dreg (Named.as (hi ws) h).d fun v => v.toNat % 256) fun _ => Unseen.cost _ (Unseen.bitOp _ _ hm)
  · simp only [h8, Bool.false_eq_true, if_false] at hi ⊢
    refine UnseenW.bind Unseen.fetch (PreP.of (PreW.of Pre.fetch)) fun _ ws v hl _ => unseen_ea hany rfl (fun ws' h => ?_) fun ws' m h hm => Unseen.cost _ (Unseen.bitOp _ _ hm)
    have h' : Keep l (registersUsed i op (ws ++ ws')) := h
    rw [hi, ← hl, List.drop_left] at h'
    exact h'

theorem unseen_pair {i : Isa} (hi : ∀ ws, registersUsed i op ws = if flag op 3 then [.a (regField op 9), .a (regField op 0)] else [.d (regField op 9), .d (regField op 0)])
    {g : Size → Size} {f : (sz : Size) → Val (g sz) → Val (g sz) → StatusRegister → Val (g sz) × StatusRegister} {c : Size → Nat} :
    UnseenW (M := M) l t 0 (Named l i op) (Spec.sized op fun sz => Spec.cost (Spec.pair (g sz) (flag op 3) (regField op 9) (regField op 0) (f sz)) (c sz)) :=
  UnseenW.sized fun sz _ => UnseenW.any fun ws h => Unseen.cost _ (Unseen.pair _
    (fun h3 => by have h' : Keep l (registersUsed i op ws) := h; simp only [hi, h3, Bool.false_eq_true, if_false] at h'; exact ⟨h'.d, h'.tail.d⟩)
    (fun h3 => by have h' : Keep l (registersUsed i op ws) := h; simp only [hi, h3, if_true] at h'; exact ⟨h'.a, h'.tail.a⟩) _)

theorem unseen_shift {i : Isa} (hi : ∀ ws, registersUsed i op ws = if flag op 5 then [.d (regField op 9), .d (regField op 0)] else [.d (regField op 0)])
    (f g : {n : Nat} → Nat → BitVec n → StatusRegister → BitVec n × StatusRegister) (t1 t2 t3 : Nat) :
    UnseenW (M := M) l t 0 (Named l i op) (Spec.shiftInstr op f g t1 t2 t3) :=
  UnseenW.sized fun sz _ => UnseenW.any fun ws h => Unseen.map _ (by
    have h' : Keep l (registersUsed i op ws) := h
    rw [hi] at h'
    have h9 : flag op 5 = true → .d (regField op 9) ∈ l := fun h5 => by simp only [h5, if_true] at h'; exact h'.d
    have h0 : .d (regField op 0) ∈ l := by
      cases h5 : flag op 5 <;> simp only [h5, if_true, Bool.false_eq_true, if_false] at h'
      · exact h'.d
      · exact h'.tail.d
    split <;> exact Unseen.shift _ _ h9 h0)

theorem unseen_shiftMem {i : Isa} (hi : ∀ ws, registersUsed i op ws = eaRegisters (op.toNat / 8 % 8) (op.toNat % 8) ws)
    (hany : op.toNat / 8 % 8 < 7 ∨ op.toNat % 8 ≤ 4) (f g : Nat → BitVec 16 → StatusRegister → BitVec 16 × StatusRegister) (c : Nat) :
    UnseenW (M := M) l t (opEaWords 1 op) (Named l i op) (Spec.shiftMem C op f g c) :=
  unseen_fixed (sz := .Byte) rfl hi hany fun _ hm => Unseen.cost _ (Unseen.rmw .Word hm _)

theorem unseen_wordToDn {i : Isa} (hi : ∀ ws, registersUsed i op ws = .d (regField op 9) :: eaRegisters (op.toNat / 8 % 8) (op.toNat % 8) ws)
    (hany : op.toNat / 8 % 8 < 7 ∨ op.toNat % 8 ≤ 4) {x : Fin 8 → Mode → Exec M Unit} (hx : ∀ n m, .d n ∈ l → ModeOk l m → Unseen l t (x n m)) (c : Nat) :
    UnseenW (M := M) l t (opEaWords 1 op) (Named l i op) (Spec.wordToDn C op x c) :=
  unseen_ea hany rfl (fun ws h => (Named.as (hi ws) h).tail) fun ws m h hm => Unseen.cost _ (hx _ m (Named.as (hi ws) h).d hm)

theorem unseen_address {i : Isa} (hi : ∀ ws, registersUsed i op ws = .a (regField op 9) :: eaRegisters (op.toNat / 8 % 8) (op.toNat % 8) ws)
    (hany : op.toNat / 8 % 8 < 7 ∨ op.toNat % 8 ≤ 4) {f : Mode → U32 → Exec M Nat} (hf : ∀ m v, KeptA l (regField op 9) → Unseen l t (f m v)) :
    UnseenW (M := M) l t (opEaWords (if flag op 8 then 2 else 1) op) (Named l i op)
      (Spec.fetchEa (some (sizeBit op 8)) op >>= fun m => Spec.readExt (sizeBit op 8) m >>= f m) :=
  unseen_ea hany (by unfold sizeBit; split <;> rfl) (fun ws h => (Named.as (hi ws) h).tail) fun ws m h hm =>
    Unseen.bind (Unseen.readExt _ hm) fun v => hf m v (Named.as (hi ws) h).a

theorem mem_listRegisters {down : Bool} {mask : U16} (h : Keep l (listRegisters down mask)) (k : Fin 16) (hk : mask.toNat.testBit k.val = true) :
    Kept l (listRegister (if down then k.rev else k)) :=
  kept_of_mem (h _ (by simp only [listRegisters, List.mem_map, List.mem_filter]; exact ⟨k, ⟨List.mem_finRange k, hk⟩, rfl⟩))

/-- Every instruction. -/
theorem unseen {i : Isa} (hl : legalCheck i op.toNat = true) : UnseenW (M := M) l t (extensionWords i op) (Named l i op) (Spec.exec C i op) := by
  cases i with
  | Add =>
    simp only [legalCheck, Bool.and_eq_true, Bool.or_eq_true, bne_iff_ne, decide_eq_true_eq, eaInMemory, beq_iff_eq] at hl
    simp only [Spec.exec, extensionWords]
    exact unseen_binary (fun _ => rfl) (by omega) _ _ _ _ _ _
  | Sub =>
    simp only [legalCheck, Bool.and_eq_true, Bool.or_eq_true, bne_iff_ne, decide_eq_true_eq, eaInMemory, beq_iff_eq] at hl
    simp only [Spec.exec, extensionWords]
    exact unseen_binary (fun _ => rfl) (by omega) _ _ _ _ _ _
  | And =>
    simp only [legalCheck, Bool.and_eq_true, Bool.or_eq_true, bne_iff_ne, decide_eq_true_eq, eaInMemory, beq_iff_eq] at hl
    simp only [Spec.exec, extensionWords]
    exact unseen_binary (fun _ => rfl) (by omega) _ _ _ _ _ _
  | Or =>
    simp only [legalCheck, Bool.and_eq_true, Bool.or_eq_true, bne_iff_ne, decide_eq_true_eq, eaInMemory, beq_iff_eq] at hl
    simp only [Spec.exec, extensionWords]
    exact unseen_binary (fun _ => rfl) (by omega) _ _ _ _ _ _
  | Addi =>
    simp only [legalCheck, Bool.and_eq_true, Bool.or_eq_true, bne_iff_ne, decide_eq_true_eq, eaInMemory, beq_iff_eq] at hl
    simp only [Spec.exec, extensionWords]
    exact unseen_immediate (fun _ => rfl) (by omega) fun sz v m hm => Unseen.cost _ (Unseen.rmw sz hm _)
  | Subi =>
    simp only [legalCheck, Bool.and_eq_true, Bool.or_eq_true, bne_iff_ne, decide_eq_true_eq, eaInMemory, beq_iff_eq] at hl
    simp only [Spec.exec, extensionWords]
    exact unseen_immediate (fun _ => rfl) (by omega) fun sz v m hm => Unseen.cost _ (Unseen.rmw sz hm _)
  | Andi =>
    simp only [legalCheck, Bool.and_eq_true, Bool.or_eq_true, bne_iff_ne, decide_eq_true_eq, eaInMemory, beq_iff_eq] at hl
    simp only [Spec.exec, extensionWords]
    exact unseen_immediate (fun _ => rfl) (by omega) fun sz v m hm => Unseen.cost _ (Unseen.rmw sz hm _)
  | Ori =>
    simp only [legalCheck, Bool.and_eq_true, Bool.or_eq_true, bne_iff_ne, decide_eq_true_eq, eaInMemory, beq_iff_eq] at hl
    simp only [Spec.exec, extensionWords]
    exact unseen_immediate (fun _ => rfl) (by omega) fun sz v m hm => Unseen.cost _ (Unseen.rmw sz hm _)
  | Eori =>
    simp only [legalCheck, Bool.and_eq_true, Bool.or_eq_true, bne_iff_ne, decide_eq_true_eq, eaInMemory, beq_iff_eq] at hl
    simp only [Spec.exec, extensionWords]
    exact unseen_immediate (fun _ => rfl) (by omega) fun sz v m hm => Unseen.cost _ (Unseen.rmw sz hm _)
  | Cmpi =>
    simp only [legalCheck, Bool.and_eq_true, Bool.or_eq_true, bne_iff_ne, decide_eq_true_eq, eaInMemory, beq_iff_eq] at hl
    simp only [Spec.exec, extensionWords]
    exact unseen_immediate (fun _ => rfl) (by omega) fun sz v m hm => Unseen.reading sz hm fun _ _ _ => Unseen.cost _ (Unseen.setFlags _)
  | Addq =>
    simp only [legalCheck, Bool.and_eq_true, Bool.or_eq_true, bne_iff_ne, decide_eq_true_eq, eaInMemory, beq_iff_eq] at hl
    simp only [Spec.exec, extensionWords]
    exact unseen_sized (fun _ => rfl) (by omega) fun sz m hm => Unseen.cost _ (Unseen.quickOp _ _ sz hm)
  | Subq =>
    simp only [legalCheck, Bool.and_eq_true, Bool.or_eq_true, bne_iff_ne, decide_eq_true_eq, eaInMemory, beq_iff_eq] at hl
    simp only [Spec.exec, extensionWords]
    exact unseen_sized (fun _ => rfl) (by omega) fun sz m hm => Unseen.cost _ (Unseen.quickOp _ _ sz hm)
  | Neg =>
    simp only [legalCheck, Bool.and_eq_true, Bool.or_eq_true, bne_iff_ne, decide_eq_true_eq, eaInMemory, beq_iff_eq] at hl
    simp only [Spec.exec, extensionWords]
    exact unseen_sized (fun _ => rfl) (by omega) fun sz m hm => Unseen.cost _ (Unseen.rmw sz hm _)
  | Negx =>
    simp only [legalCheck, Bool.and_eq_true, Bool.or_eq_true, bne_iff_ne, decide_eq_true_eq, eaInMemory, beq_iff_eq] at hl
    simp only [Spec.exec, extensionWords]
    exact unseen_sized (fun _ => rfl) (by omega) fun sz m hm => Unseen.cost _ (Unseen.rmw sz hm _)
  | Not =>
    simp only [legalCheck, Bool.and_eq_true, Bool.or_eq_true, bne_iff_ne, decide_eq_true_eq, eaInMemory, beq_iff_eq] at hl
    simp only [Spec.exec, extensionWords]
    exact unseen_sized (fun _ => rfl) (by omega) fun sz m hm => Unseen.cost _ (Unseen.reading sz hm fun _ _ hp => Unseen.bind (Unseen.writeAt sz hp _) fun _ => Unseen.setFlags _)
  | Tst =>
    simp only [legalCheck, Bool.and_eq_true, Bool.or_eq_true, bne_iff_ne, decide_eq_true_eq, eaInMemory, beq_iff_eq] at hl
    simp only [Spec.exec, extensionWords]
    exact unseen_sized (fun _ => rfl) (by omega) fun sz m hm => Unseen.reading sz hm fun _ _ _ => Unseen.cost _ (Unseen.setFlags _)
  | Clr =>
    simp only [legalCheck, Bool.and_eq_true, Bool.or_eq_true, bne_iff_ne, decide_eq_true_eq, eaInMemory, beq_iff_eq] at hl
    simp only [Spec.exec, extensionWords]
    exact unseen_sized (fun _ => rfl) (by omega) fun sz m hm => Unseen.bind (Unseen.write sz hm _) fun _ => Unseen.cost _ (Unseen.setFlags _)
  | Eor =>
    simp only [legalCheck, Bool.and_eq_true, Bool.or_eq_true, bne_iff_ne, decide_eq_true_eq, eaInMemory, beq_iff_eq] at hl
    simp only [Spec.exec, extensionWords]
    exact UnseenW.sized fun sz hs => unseen_ea (by omega) hs.symm (fun ws h => Keep.tail h) fun ws m h hm => Unseen.cost _ (Unseen.opToEa sz (Keep.d h) hm _)
  | Cmp =>
    simp only [legalCheck, Bool.and_eq_true, Bool.or_eq_true, bne_iff_ne, decide_eq_true_eq, eaInMemory, beq_iff_eq] at hl
    simp only [Spec.exec, extensionWords]
    exact UnseenW.sized fun sz hs => unseen_ea (by omega) hs.symm (fun ws h => Keep.tail h) fun ws m h hm => Unseen.reading sz hm fun _ _ _ => Unseen.bind (Unseen.dreg (Keep.d h) (low sz)) fun _ => Unseen.cost _ (Unseen.setFlags _)
  | Adda =>
    simp only [legalCheck, Bool.and_eq_true, Bool.or_eq_true, bne_iff_ne, decide_eq_true_eq, eaInMemory, beq_iff_eq] at hl
    simp only [Spec.exec, extensionWords]
    exact unseen_address (fun _ => rfl) (by omega) fun m v h => Unseen.cost _ (Unseen.updateA h _)
  | Suba =>
    simp only [legalCheck, Bool.and_eq_true, Bool.or_eq_true, bne_iff_ne, decide_eq_true_eq, eaInMemory, beq_iff_eq] at hl
    simp only [Spec.exec, extensionWords]
    exact unseen_address (fun _ => rfl) (by omega) fun m v h => Unseen.cost _ (Unseen.updateA h _)
  | Cmpa =>
    simp only [legalCheck, Bool.and_eq_true, Bool.or_eq_true, bne_iff_ne, decide_eq_true_eq, eaInMemory, beq_iff_eq] at hl
    simp only [Spec.exec, extensionWords]
    exact unseen_address (fun _ => rfl) (by omega) fun m v h => Unseen.bind (Unseen.areg h id) fun _ => Unseen.cost _ (Unseen.setFlags _)
  | Nbcd =>
    simp only [legalCheck, Bool.and_eq_true, Bool.or_eq_true, bne_iff_ne, decide_eq_true_eq, eaInMemory, beq_iff_eq] at hl
    simp only [Spec.exec, extensionWords]
    exact unseen_fixed (sz := .Byte) rfl (fun _ => rfl) (by omega) fun m hm => Unseen.cost _ (Unseen.rmw .Byte hm _)
  | Tas =>
    simp only [legalCheck, Bool.and_eq_true, Bool.or_eq_true, bne_iff_ne, decide_eq_true_eq, eaInMemory, beq_iff_eq] at hl
    simp only [Spec.exec, extensionWords]
    exact unseen_fixed (sz := .Byte) rfl (fun _ => rfl) (by omega) fun m hm => Unseen.cost _ (Unseen.rmw .Byte hm _)
  | Scc =>
    simp only [legalCheck, Bool.and_eq_true, Bool.or_eq_true, bne_iff_ne, decide_eq_true_eq, eaInMemory, beq_iff_eq] at hl
    simp only [Spec.exec, extensionWords]
    exact unseen_fixed (sz := .Byte) rfl (fun _ => rfl) (by omega) fun m hm => Unseen.map _ (Unseen.scc _ hm)
  | Asm =>
    simp only [legalCheck, Bool.and_eq_true, Bool.or_eq_true, bne_iff_ne, decide_eq_true_eq, eaInMemory, beq_iff_eq] at hl
    simp only [Spec.exec, extensionWords]
    exact unseen_shiftMem (fun _ => rfl) (by omega) _ _ _
  | Lsm =>
    simp only [legalCheck, Bool.and_eq_true, Bool.or_eq_true, bne_iff_ne, decide_eq_true_eq, eaInMemory, beq_iff_eq] at hl
    simp only [Spec.exec, extensionWords]
    exact unseen_shiftMem (fun _ => rfl) (by omega) _ _ _
  | Rom =>
    simp only [legalCheck, Bool.and_eq_true, Bool.or_eq_true, bne_iff_ne, decide_eq_true_eq, eaInMemory, beq_iff_eq] at hl
    simp only [Spec.exec, extensionWords]
    exact unseen_shiftMem (fun _ => rfl) (by omega) _ _ _
  | Roxm =>
    simp only [legalCheck, Bool.and_eq_true, Bool.or_eq_true, bne_iff_ne, decide_eq_true_eq, eaInMemory, beq_iff_eq] at hl
    simp only [Spec.exec, extensionWords]
    exact unseen_shiftMem (fun _ => rfl) (by omega) _ _ _
  | Movefsr =>
    simp only [legalCheck, Bool.and_eq_true, Bool.or_eq_true, bne_iff_ne, decide_eq_true_eq, eaInMemory, beq_iff_eq] at hl
    simp only [Spec.exec, extensionWords]
    exact unseen_fixed (sz := .Word) rfl (fun _ => rfl) (by omega) fun m hm => Unseen.bind (Unseen.getR fun _ => rfl) fun _ => Unseen.cost _ (Unseen.write .Word hm _)
  | Moveccr =>
    simp only [legalCheck, Bool.and_eq_true, Bool.or_eq_true, bne_iff_ne, decide_eq_true_eq, eaInMemory, beq_iff_eq] at hl
    simp only [Spec.exec, extensionWords]
    exact unseen_fixed (sz := .Word) rfl (fun _ => rfl) (by omega) fun m hm => Unseen.reading .Word hm fun _ _ _ => Unseen.cost _ (Unseen.setFlags _)
  | Movesr =>
    simp only [legalCheck, Bool.and_eq_true, Bool.or_eq_true, bne_iff_ne, decide_eq_true_eq, eaInMemory, beq_iff_eq] at hl
    simp only [Spec.exec, extensionWords]
    exact unseen_fixed (sz := .Word) rfl (fun _ => rfl) (by omega) fun m hm => Unseen.bind Unseen.privileged fun _ => Unseen.reading .Word hm fun _ _ _ => Unseen.cost _ (Unseen.setFlags _)
  | Mulu =>
    simp only [legalCheck, Bool.and_eq_true, Bool.or_eq_true, bne_iff_ne, decide_eq_true_eq, eaInMemory, beq_iff_eq] at hl
    simp only [Spec.exec, extensionWords]
    exact unseen_wordToDn (fun _ => rfl) (by omega) (fun n m hn hm => Unseen.mul _ hn hm) _
  | Muls =>
    simp only [legalCheck, Bool.and_eq_true, Bool.or_eq_true, bne_iff_ne, decide_eq_true_eq, eaInMemory, beq_iff_eq] at hl
    simp only [Spec.exec, extensionWords]
    exact unseen_wordToDn (fun _ => rfl) (by omega) (fun n m hn hm => Unseen.mul _ hn hm) _
  | Divu =>
    simp only [legalCheck, Bool.and_eq_true, Bool.or_eq_true, bne_iff_ne, decide_eq_true_eq, eaInMemory, beq_iff_eq] at hl
    simp only [Spec.exec, extensionWords]
    exact unseen_wordToDn (fun _ => rfl) (by omega) (fun n m hn hm => Unseen.divu hn hm) _
  | Divs =>
    simp only [legalCheck, Bool.and_eq_true, Bool.or_eq_true, bne_iff_ne, decide_eq_true_eq, eaInMemory, beq_iff_eq] at hl
    simp only [Spec.exec, extensionWords]
    exact unseen_wordToDn (fun _ => rfl) (by omega) (fun n m hn hm => Unseen.divs hn hm) _
  | Chk =>
    simp only [legalCheck, Bool.and_eq_true, Bool.or_eq_true, bne_iff_ne, decide_eq_true_eq, eaInMemory, beq_iff_eq] at hl
    simp only [Spec.exec, extensionWords]
    exact unseen_ea (by omega) rfl (fun ws h => Keep.tail h) fun ws m h hm => Unseen.cost _ (Unseen.chk (Keep.d h) hm)
  | Btst =>
    simp only [legalCheck, Bool.and_eq_true, Bool.or_eq_true, bne_iff_ne, decide_eq_true_eq, eaInMemory, beq_iff_eq] at hl
    simp only [Spec.exec, extensionWords]
    exact unseen_bits (fun _ => rfl) (by omega) _ _ _ _ _
  | Bchg =>
    simp only [legalCheck, Bool.and_eq_true, Bool.or_eq_true, bne_iff_ne, decide_eq_true_eq, eaInMemory, beq_iff_eq] at hl
    simp only [Spec.exec, extensionWords]
    exact unseen_bits (fun _ => rfl) (by omega) _ _ _ _ _
  | Bclr =>
    simp only [legalCheck, Bool.and_eq_true, Bool.or_eq_true, bne_iff_ne, decide_eq_true_eq, eaInMemory, beq_iff_eq] at hl
    simp only [Spec.exec, extensionWords]
    exact unseen_bits (fun _ => rfl) (by omega) _ _ _ _ _
  | Bset =>
    simp only [legalCheck, Bool.and_eq_true, Bool.or_eq_true, bne_iff_ne, decide_eq_true_eq, eaInMemory, beq_iff_eq] at hl
    simp only [Spec.exec, extensionWords]
    exact unseen_bits (fun _ => rfl) (by omega) _ _ _ _ _
  | Addx =>
    simp only [legalCheck, Bool.and_eq_true, Bool.or_eq_true, bne_iff_ne, decide_eq_true_eq, eaInMemory, beq_iff_eq] at hl
    simp only [Spec.exec, extensionWords]
    exact unseen_pair (fun _ => rfl) (g := id)
  | Subx =>
    simp only [legalCheck, Bool.and_eq_true, Bool.or_eq_true, bne_iff_ne, decide_eq_true_eq, eaInMemory, beq_iff_eq] at hl
    simp only [Spec.exec, extensionWords]
    exact unseen_pair (fun _ => rfl) (g := id)
  | Abcd =>
    simp only [legalCheck, Bool.and_eq_true, Bool.or_eq_true, bne_iff_ne, decide_eq_true_eq, eaInMemory, beq_iff_eq] at hl
    simp only [Spec.exec, extensionWords]
    exact unseen_pair (fun _ => rfl) (g := fun _ => .Byte)
  | Sbcd =>
    simp only [legalCheck, Bool.and_eq_true, Bool.or_eq_true, bne_iff_ne, decide_eq_true_eq, eaInMemory, beq_iff_eq] at hl
    simp only [Spec.exec, extensionWords]
    exact unseen_pair (fun _ => rfl) (g := fun _ => .Byte)
  | Cmpm =>
    simp only [legalCheck, Bool.and_eq_true, Bool.or_eq_true, bne_iff_ne, decide_eq_true_eq, eaInMemory, beq_iff_eq] at hl
    simp only [Spec.exec, extensionWords]
    exact UnseenW.sized fun sz _ => UnseenW.any fun ws h => Unseen.cost _ (Unseen.cmpm sz (Keep.a h) (Keep.a (Keep.tail h)))
  | Asr =>
    simp only [legalCheck, Bool.and_eq_true, Bool.or_eq_true, bne_iff_ne, decide_eq_true_eq, eaInMemory, beq_iff_eq] at hl
    simp only [Spec.exec, extensionWords]
    exact unseen_shift (fun _ => rfl) _ _ _ _ _
  | Lsr =>
    simp only [legalCheck, Bool.and_eq_true, Bool.or_eq_true, bne_iff_ne, decide_eq_true_eq, eaInMemory, beq_iff_eq] at hl
    simp only [Spec.exec, extensionWords]
    exact unseen_shift (fun _ => rfl) _ _ _ _ _
  | Ror =>
    simp only [legalCheck, Bool.and_eq_true, Bool.or_eq_true, bne_iff_ne, decide_eq_true_eq, eaInMemory, beq_iff_eq] at hl
    simp only [Spec.exec, extensionWords]
    exact unseen_shift (fun _ => rfl) _ _ _ _ _
  | Roxr =>
    simp only [legalCheck, Bool.and_eq_true, Bool.or_eq_true, bne_iff_ne, decide_eq_true_eq, eaInMemory, beq_iff_eq] at hl
    simp only [Spec.exec, extensionWords]
    exact unseen_shift (fun _ => rfl) _ _ _ _ _
  | Move =>
    simp only [legalCheck, Bool.and_eq_true, Bool.or_eq_true, bne_iff_ne, decide_eq_true_eq, eaInMemory, beq_iff_eq] at hl
    simp only [Spec.exec, extensionWords]
    exact UnseenW.moveSized fun sz hs => UnseenW.bind (Unseen.fetchEa _ _) (preP_ea op (by omega) hs.symm) fun pc ws src hlen hsrc => by
      have e6 : (regField op 6).val = op.toNat / 64 % 8 := by simp [regField, Fin.ofNat]
      have e9 : (regField op 9).val = op.toNat / 512 % 8 := by simp [regField, Fin.ofNat]
      have hpre := PreP.fetchMode (M := M) (some sz) (moveImm op) (regField op 6) (regField op 9) (by rw [e6, e9]; omega)
      rw [e6, e9] at hpre
      refine UnseenW.last (Unseen.fetchMode _ _ _) hpre fun pc' ws' dst _ hd h => Unseen.cost _ (Unseen.move sz ?_ ?_)
      · have h2 := Keep.right h
        simp only [← hlen, List.drop_left] at h2
        exact modeOk_spelled hd (by omega) h2
      · exact modeOk_spelled (hsrc.append ws') reg8 (Keep.left h)
  | Movea =>
    simp only [legalCheck, Bool.and_eq_true, Bool.or_eq_true, bne_iff_ne, decide_eq_true_eq, eaInMemory, beq_iff_eq] at hl
    simp only [Spec.exec, extensionWords]
    exact UnseenW.moveSized fun sz hs => unseen_ea (by omega) hs.symm (fun ws h => Keep.tail h) fun ws m h hm => Unseen.cost _ (Unseen.movea sz (Keep.a h) hm)
  | Moveq =>
    simp only [legalCheck, Bool.and_eq_true, Bool.or_eq_true, bne_iff_ne, decide_eq_true_eq, eaInMemory, beq_iff_eq] at hl
    simp only [Spec.exec, extensionWords]
    exact UnseenW.any fun ws h => Unseen.cost _ (Unseen.moveq (Keep.d h) _)
  | Movem =>
    simp only [legalCheck, Bool.and_eq_true, Bool.or_eq_true, bne_iff_ne, decide_eq_true_eq, eaInMemory, beq_iff_eq] at hl
    simp only [Spec.exec, extensionWords]
    refine UnseenW.bind Unseen.fetch (PreP.of preW_fetch) fun pc ws mask hlen hws => UnseenW.last (Unseen.fetchEa _ _) (preP_ea' op (by omega)) fun pc' ws' m _ hm h => ?_
    subst hws
    have h1 := Keep.left h
    have h2 := modeOk_spelled hm reg8 (Keep.right h)
    refine Unseen.cost _ (Unseen.movem _ _ h2 (fun hn k hk => ?_) fun n hn k hk => ?_)
    · have h4 : op.toNat / 8 % 8 ≠ 4 := fun h4 => by
        have hf := hm.1.1
        cases m <;> first | exact absurd rfl (hn _) | (obtain ⟨h5, -⟩ := hf; omega)
      have := mem_listRegisters h1 k (List.mem_filter.1 hk).2
      simpa [h4] using this
    · subst hn
      have h4 : op.toNat / 8 % 8 = 4 := hm.1.1.1
      obtain ⟨j, hj, rfl⟩ := List.mem_map.1 hk
      have := mem_listRegisters h1 j (List.mem_filter.1 hj).2
      simpa [h4] using this
  | Movep =>
    simp only [legalCheck, Bool.and_eq_true, Bool.or_eq_true, bne_iff_ne, decide_eq_true_eq, eaInMemory, beq_iff_eq] at hl
    simp only [Spec.exec, extensionWords]
    exact UnseenW.any fun ws h => Unseen.bind Unseen.fetch fun d => Unseen.cost _ (Unseen.movep _ _ (Keep.d h) (Keep.a (Keep.tail h)) d)
  | Exg =>
    simp only [legalCheck, Bool.and_eq_true, Bool.or_eq_true, bne_iff_ne, decide_eq_true_eq, eaInMemory, beq_iff_eq] at hl
    simp only [Spec.exec, extensionWords]
    refine UnseenW.any fun ws h => Unseen.cost _ (Unseen.exg (fun hk => ?_) (fun hk => ?_) fun hk1 hk2 => ?_)
    · have h' : Keep l (if _ then _ else if _ then _ else _) := h
      by_cases h8 : op.toNat / 8 % 32 = 8
      · simp only [h8, if_true] at h'; exact ⟨h'.d, h'.tail.d⟩
      · by_cases h9 : op.toNat / 8 % 32 = 9 <;> simp [h9, h8] at hk
    · have h' : Keep l (if _ then _ else if _ then _ else _) := h
      by_cases h8 : op.toNat / 8 % 32 = 8
      · simp [h8] at hk
      · by_cases h9 : op.toNat / 8 % 32 = 9
        · simp [h9] at h'; exact ⟨h'.a, h'.tail.a⟩
        · simp [h9, h8] at hk
    · have h' : Keep l (if _ then _ else if _ then _ else _) := h
      by_cases h8 : op.toNat / 8 % 32 = 8
      · simp [h8] at hk1
      · by_cases h9 : op.toNat / 8 % 32 = 9
        · simp [h9] at hk2
        · simp only [h8, h9, if_false] at h'; exact ⟨h'.d, h'.tail.a⟩
  | Ext =>
    simp only [legalCheck, Bool.and_eq_true, Bool.or_eq_true, bne_iff_ne, decide_eq_true_eq, eaInMemory, beq_iff_eq] at hl
    simp only [Spec.exec, extensionWords]
    exact UnseenW.any fun ws h => Unseen.cost _ (Unseen.ext _ (Keep.d h))
  | Swap =>
    simp only [legalCheck, Bool.and_eq_true, Bool.or_eq_true, bne_iff_ne, decide_eq_true_eq, eaInMemory, beq_iff_eq] at hl
    simp only [Spec.exec, extensionWords]
    exact UnseenW.any fun ws h => Unseen.cost _ (Unseen.swap (Keep.d h))
  | Lea =>
    simp only [legalCheck, Bool.and_eq_true, Bool.or_eq_true, bne_iff_ne, decide_eq_true_eq, eaInMemory, beq_iff_eq] at hl
    simp only [Spec.exec, extensionWords]
    exact unseen_ea' (by omega) (fun ws h => Keep.tail h) fun ws m h hm => Unseen.bind (Unseen.control hm) fun _ => Unseen.cost _ (Unseen.updateA (Keep.a h) _)
  | Pea =>
    simp only [legalCheck, Bool.and_eq_true, Bool.or_eq_true, bne_iff_ne, decide_eq_true_eq, eaInMemory, beq_iff_eq] at hl
    simp only [Spec.exec, extensionWords]
    exact unseen_ea' (by omega) (fun ws h => h) fun ws m h hm => Unseen.bind (Unseen.control hm) fun _ => Unseen.cost _ (Unseen.push .Long _)
  | Jmp =>
    simp only [legalCheck, Bool.and_eq_true, Bool.or_eq_true, bne_iff_ne, decide_eq_true_eq, eaInMemory, beq_iff_eq] at hl
    simp only [Spec.exec, extensionWords]
    exact unseen_ea' (by omega) (fun ws h => h) fun ws m h hm => Unseen.bind (Unseen.control hm) fun _ => Unseen.cost _ (Unseen.jump _)
  | Jsr =>
    simp only [legalCheck, Bool.and_eq_true, Bool.or_eq_true, bne_iff_ne, decide_eq_true_eq, eaInMemory, beq_iff_eq] at hl
    simp only [Spec.exec, extensionWords]
    exact unseen_ea' (by omega) (fun ws h => h) fun ws m h hm => Unseen.cost _ (Unseen.jsr hm)
  | Link =>
    simp only [legalCheck, Bool.and_eq_true, Bool.or_eq_true, bne_iff_ne, decide_eq_true_eq, eaInMemory, beq_iff_eq] at hl
    simp only [Spec.exec, extensionWords]
    exact UnseenW.any fun ws h => Unseen.bind Unseen.fetch fun d => Unseen.cost _ (Unseen.link (Keep.a h) d)
  | Unlk =>
    simp only [legalCheck, Bool.and_eq_true, Bool.or_eq_true, bne_iff_ne, decide_eq_true_eq, eaInMemory, beq_iff_eq] at hl
    simp only [Spec.exec, extensionWords]
    exact UnseenW.any fun ws h => Unseen.cost _ (Unseen.unlk (Keep.a h))
  | Moveusp =>
    simp only [legalCheck, Bool.and_eq_true, Bool.or_eq_true, bne_iff_ne, decide_eq_true_eq, eaInMemory, beq_iff_eq] at hl
    simp only [Spec.exec, extensionWords]
    exact UnseenW.any fun ws h => Unseen.cost _ (Unseen.moveUsp _ (Keep.a h))
  | Bcc =>
    simp only [legalCheck, Bool.and_eq_true, Bool.or_eq_true, bne_iff_ne, decide_eq_true_eq, eaInMemory, beq_iff_eq] at hl
    simp only [Spec.exec, extensionWords]
    exact UnseenW.any fun ws h => Unseen.bind Unseen.pc fun _ => Unseen.bind (Unseen.fetchDisp op) fun _ => Unseen.map _ (Unseen.bcc _ _ _)
  | Bra =>
    simp only [legalCheck, Bool.and_eq_true, Bool.or_eq_true, bne_iff_ne, decide_eq_true_eq, eaInMemory, beq_iff_eq] at hl
    simp only [Spec.exec, extensionWords]
    exact UnseenW.any fun ws h => Unseen.bind Unseen.pc fun _ => Unseen.bind (Unseen.fetchDisp op) fun _ => Unseen.cost _ (Unseen.jump _)
  | Bsr =>
    simp only [legalCheck, Bool.and_eq_true, Bool.or_eq_true, bne_iff_ne, decide_eq_true_eq, eaInMemory, beq_iff_eq] at hl
    simp only [Spec.exec, extensionWords]
    exact UnseenW.any fun ws h => Unseen.bind Unseen.pc fun _ => Unseen.bind (Unseen.fetchDisp op) fun _ => Unseen.cost _ (Unseen.bsr _ _)
  | Dbcc =>
    simp only [legalCheck, Bool.and_eq_true, Bool.or_eq_true, bne_iff_ne, decide_eq_true_eq, eaInMemory, beq_iff_eq] at hl
    simp only [Spec.exec, extensionWords]
    exact UnseenW.any fun ws h => Unseen.bind Unseen.pc fun _ => Unseen.bind Unseen.fetch fun _ => Unseen.map _ (Unseen.dbcc _ _ (Keep.d h) _)
  | Rts =>
    simp only [legalCheck, Bool.and_eq_true, Bool.or_eq_true, bne_iff_ne, decide_eq_true_eq, eaInMemory, beq_iff_eq] at hl
    simp only [Spec.exec, extensionWords]
    exact UnseenW.any fun ws h => Unseen.cost _ Unseen.rts
  | Rtr =>
    simp only [legalCheck, Bool.and_eq_true, Bool.or_eq_true, bne_iff_ne, decide_eq_true_eq, eaInMemory, beq_iff_eq] at hl
    simp only [Spec.exec, extensionWords]
    exact UnseenW.any fun ws h => Unseen.cost _ Unseen.rtr
  | Rte =>
    simp only [legalCheck, Bool.and_eq_true, Bool.or_eq_true, bne_iff_ne, decide_eq_true_eq, eaInMemory, beq_iff_eq] at hl
    simp only [Spec.exec, extensionWords]
    exact UnseenW.any fun ws h => Unseen.map _ (Unseen.rte _)
  | Nop =>
    simp only [legalCheck, Bool.and_eq_true, Bool.or_eq_true, bne_iff_ne, decide_eq_true_eq, eaInMemory, beq_iff_eq] at hl
    simp only [Spec.exec, extensionWords]
    exact UnseenW.any fun ws h => Unseen.pure _
  | Trap =>
    simp only [legalCheck, Bool.and_eq_true, Bool.or_eq_true, bne_iff_ne, decide_eq_true_eq, eaInMemory, beq_iff_eq] at hl
    simp only [Spec.exec, extensionWords]
    exact UnseenW.any fun ws h => Unseen.cost _ (Unseen.trap _)
  | Illegal =>
    simp only [legalCheck, Bool.and_eq_true, Bool.or_eq_true, bne_iff_ne, decide_eq_true_eq, eaInMemory, beq_iff_eq] at hl
    simp only [Spec.exec, extensionWords]
    exact UnseenW.any fun ws h => Unseen.cost _ (Unseen.trap _)
  | Unknown =>
    simp only [legalCheck, Bool.and_eq_true, Bool.or_eq_true, bne_iff_ne, decide_eq_true_eq, eaInMemory, beq_iff_eq] at hl
    simp only [Spec.exec, extensionWords]
    exact UnseenW.any fun ws h => Unseen.cost _ (Unseen.trap _)
  | Trapv =>
    simp only [legalCheck, Bool.and_eq_true, Bool.or_eq_true, bne_iff_ne, decide_eq_true_eq, eaInMemory, beq_iff_eq] at hl
    simp only [Spec.exec, extensionWords]
    exact UnseenW.any fun ws h => Unseen.bind (Unseen.getR fun _ => rfl) fun v => by
      cases v
      · exact Unseen.pure _
      · exact Unseen.trap _
  | Andiccr =>
    simp only [legalCheck, Bool.and_eq_true, Bool.or_eq_true, bne_iff_ne, decide_eq_true_eq, eaInMemory, beq_iff_eq] at hl
    simp only [Spec.exec, extensionWords]
    exact UnseenW.any fun ws h => Unseen.bind Unseen.fetch fun _ => Unseen.cost _ (Unseen.setFlags _)
  | Oriccr =>
    simp only [legalCheck, Bool.and_eq_true, Bool.or_eq_true, bne_iff_ne, decide_eq_true_eq, eaInMemory, beq_iff_eq] at hl
    simp only [Spec.exec, extensionWords]
    exact UnseenW.any fun ws h => Unseen.bind Unseen.fetch fun _ => Unseen.cost _ (Unseen.setFlags _)
  | Eoriccr =>
    simp only [legalCheck, Bool.and_eq_true, Bool.or_eq_true, bne_iff_ne, decide_eq_true_eq, eaInMemory, beq_iff_eq] at hl
    simp only [Spec.exec, extensionWords]
    exact UnseenW.any fun ws h => Unseen.bind Unseen.fetch fun _ => Unseen.cost _ (Unseen.setFlags _)
  | Andisr =>
    simp only [legalCheck, Bool.and_eq_true, Bool.or_eq_true, bne_iff_ne, decide_eq_true_eq, eaInMemory, beq_iff_eq] at hl
    simp only [Spec.exec, extensionWords]
    exact UnseenW.any fun ws h => Unseen.bind Unseen.fetch fun _ => Unseen.bind Unseen.privileged fun _ => Unseen.cost _ (Unseen.setFlags _)
  | Orisr =>
    simp only [legalCheck, Bool.and_eq_true, Bool.or_eq_true, bne_iff_ne, decide_eq_true_eq, eaInMemory, beq_iff_eq] at hl
    simp only [Spec.exec, extensionWords]
    exact UnseenW.any fun ws h => Unseen.bind Unseen.fetch fun _ => Unseen.bind Unseen.privileged fun _ => Unseen.cost _ (Unseen.setFlags _)
  | Eorisr =>
    simp only [legalCheck, Bool.and_eq_true, Bool.or_eq_true, bne_iff_ne, decide_eq_true_eq, eaInMemory, beq_iff_eq] at hl
    simp only [Spec.exec, extensionWords]
    exact UnseenW.any fun ws h => Unseen.bind Unseen.fetch fun _ => Unseen.bind Unseen.privileged fun _ => Unseen.cost _ (Unseen.setFlags _)
  | Stop =>
    simp only [legalCheck, Bool.and_eq_true, Bool.or_eq_true, bne_iff_ne, decide_eq_true_eq, eaInMemory, beq_iff_eq] at hl
    simp only [Spec.exec, extensionWords]
    exact UnseenW.any fun ws h => Unseen.bind Unseen.fetch fun _ => Unseen.cost _ (Unseen.stop _)
  | Reset =>
    simp only [legalCheck, Bool.and_eq_true, Bool.or_eq_true, bne_iff_ne, decide_eq_true_eq, eaInMemory, beq_iff_eq] at hl
    simp only [Spec.exec, extensionWords]
    exact UnseenW.any fun ws h => Unseen.cost _ Unseen.resetDevices

end Exec
end M68k
