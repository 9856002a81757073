import Verif.Lemmas.WrittenExec
import Verif.Spec.Access
/-
The accesses of the building blocks of the instructions.
-/
set_option linter.unusedSectionVars false
namespace M68k
namespace Exec
open Spec
variable {M : Type} [MemoryAccess M] {α β : Type} {L L1 L2 : List Access} {s s2 : St (Traced M)} {b : Bool}

/-- How an action with the accesses `l` can fail after the accesses `d`; with `b`, also after all of them. -/
def Fails (b : Bool) (l d : List Access) (v : U8) : Prop :=
  (v = 2 ∧ d ≠ [] ∧ d <+: l) ∨ (v = 3 ∧ ∃ x t, l = d ++ x :: t ∧ x.size ≠ .Byte ∧ Spec.Odd x.address) ∨ (b = true ∧ d = l)

/-- The action makes the accesses `L`, or the first of them if it fails. -/
def AccAt (b : Bool) (L : List Access) (s : St (Traced M)) (x : Exec (Traced M) α) : Prop :=
  match x s with
  | .ok _ s' => s'.mem.log = L.reverse ++ s.mem.log
  | .err v s' => ∃ d, Fails b L d v ∧ s'.mem.log = d.reverse ++ s.mem.log
  | .panic => True

theorem Fails.append {d : List Access} {v : U8} (h : Fails false L1 d v) (b : Bool) (L2 : List Access) : Fails b (L1 ++ L2) d v := by
  rcases h with ⟨h1, h2, h3⟩ | ⟨h1, x, t, h2, h3⟩ | ⟨h1, -⟩
  · exact .inl ⟨h1, h2, h3.trans (List.prefix_append _ _)⟩
  · exact .inr (.inl ⟨h1, x, t ++ L2, by rw [h2]; simp, h3⟩)
  · cases h1

theorem Fails.after {d : List Access} {v : U8} (h : Fails b L2 d v) (L1 : List Access) : Fails b (L1 ++ L2) (L1 ++ d) v := by
  rcases h with ⟨h1, h2, h3⟩ | ⟨h1, x, t, h2, h3⟩ | ⟨h1, h2⟩
  · exact .inl ⟨h1, by simp [h2], (List.prefix_append_right_inj L1).2 h3⟩
  · exact .inr (.inl ⟨h1, x, t, by rw [h2]; simp, h3⟩)
  · exact .inr (.inr ⟨h1, by rw [h2]⟩)

theorem AccAt.bind {x : Exec (Traced M) α} {f : α → Exec (Traced M) β} (hx : AccAt false L1 s x) (hf : ∀ a s', x s = .ok a s' → AccAt b L2 s' (f a)) :
    AccAt b (L1 ++ L2) s (x >>= f) := by
  unfold AccAt at hx ⊢
  rw [Exec.bind_apply]
  cases hxs : x s with
  | ok a s' =>
    rw [hxs] at hx
    have h2 := hf a s' hxs
    unfold AccAt at h2
    simp only at hx ⊢
    cases hfs : f a s' with
    | ok b s'' => rw [hfs] at h2; simp only at h2 ⊢; rw [h2, hx]; simp
    | err v s'' =>
      rw [hfs] at h2
      obtain ⟨d, h3, h4⟩ := h2
      exact ⟨L1 ++ d, h3.after L1, by rw [h4, hx]; simp⟩
    | panic => trivial
  | err v s' =>
    rw [hxs] at hx
    obtain ⟨d, h3, h4⟩ := hx
    exact ⟨d, h3.append b L2, h4⟩
  | panic => trivial

/-- First something without accesses. -/
theorem AccAt.first {x : Exec (Traced M) α} {f : α → Exec (Traced M) β} (hx : AccAt false [] s x) (hf : ∀ a s', x s = .ok a s' → AccAt b L s' (f a)) :
    AccAt b L s (x >>= f) := AccAt.bind hx hf

/-- At the end something without accesses that cannot fail. -/
theorem AccAt.then {x : Exec (Traced M) α} {f : α → Exec (Traced M) β} (hx : AccAt b L s x) (hf : ∀ a s', ∃ c s2, f a s' = .ok c s2 ∧ s2.mem = s'.mem) :
    AccAt b L s (x >>= f) := by
  unfold AccAt at hx ⊢
  rw [Exec.bind_apply]
  cases hxs : x s with
  | ok a s' =>
    rw [hxs] at hx
    obtain ⟨c, s2, h1, h2⟩ := hf a s'
    simp only at hx ⊢
    rw [h1]
    simp only
    rw [h2]
    exact hx
  | err v s' => rw [hxs] at hx; exact hx
  | panic => trivial

theorem AccAt.weaken {x : Exec (Traced M) α} (hx : AccAt false L s x) : AccAt b L s x := by
  have : AccAt b (L ++ []) s (x >>= pure) := AccAt.bind hx fun a s' _ => rfl
  rw [List.append_nil] at this
  unfold AccAt at this hx ⊢
  rw [Exec.bind_apply] at this
  cases hxs : x s <;> rw [hxs] at this <;> exact this

theorem AccAt.map {x : Exec (Traced M) α} (f : α → β) (hx : AccAt b L s x) : AccAt b L s (f <$> x) := by
  unfold AccAt at hx ⊢
  rw [Exec.map_apply]
  cases hxs : x s <;> rw [hxs] at hx <;> exact hx

theorem AccAt.cost {x : Exec (Traced M) α} (t : Nat) (hx : AccAt b L s x) : AccAt b L s (Spec.cost x t) := hx.map _

theorem AccAt.pure (a : α) : AccAt b [] s (Pure.pure a : Exec (Traced M) α) := rfl
theorem AccAt.getR (f : Registers → α) : AccAt b [] s (Spec.getR f : Exec (Traced M) α) := rfl
theorem AccAt.modR (f : Registers → Registers) : AccAt b [] s (Spec.modR f : Exec (Traced M) Unit) := rfl
theorem AccAt.compute (f : StatusRegister → α × StatusRegister) : AccAt b [] s (Spec.compute f : Exec (Traced M) α) := rfl
theorem AccAt.locate (sz : Size) (m : Mode) : AccAt b [] s (Spec.locate sz m : Exec (Traced M) Place) := rfl
theorem AccAt.crash : AccAt b L s (Spec.crash : Exec (Traced M) α) := trivial
theorem AccAt.trap (v : U8) : AccAt true [] s (Spec.trap v : Exec (Traced M) α) := ⟨[], .inr (.inr ⟨rfl, rfl⟩), rfl⟩
/-- An action that leaves the memory alone, at the end. -/
theorem AccAt.keeps {x : Exec (Traced M) α} (hx : KeepsMem x) : AccAt true [] s x := by
  have := hx s
  unfold AccAt
  cases h : x s <;> rw [h] at this
  · simp only; rw [this]; rfl
  · exact ⟨[], .inr (.inr ⟨rfl, rfl⟩), by rw [this]; rfl⟩
  · trivial

theorem AccAt.memGet {sz : Size} {a : U32} : AccAt b [⟨false, sz, a⟩] s (access (Spec.memGet sz a)) := by
  have hn : ∀ {α : Type} (x : MRes M α), AccAt b [⟨false, sz, a⟩] s (access fun r : Traced M => s.mem.note ⟨false, sz, a⟩ x) := by
    intro α x
    unfold AccAt access
    cases x with
    | val v m => rfl
    | none m => exact ⟨_, .inl ⟨rfl, by simp, List.prefix_refl _⟩, rfl⟩
    | panic => trivial
  cases sz <;> exact hn _

theorem AccAt.memSet {sz : Size} {a : U32} {v : Val sz} : AccAt b [⟨true, sz, a⟩] s (access (Spec.memSet sz a v)) := by
  have hn : ∀ {α : Type} (x : MRes M α), AccAt b [⟨true, sz, a⟩] s (access fun r : Traced M => s.mem.note ⟨true, sz, a⟩ x) := by
    intro α x
    unfold AccAt access
    cases x with
    | val v m => rfl
    | none m => exact ⟨_, .inl ⟨rfl, by simp, List.prefix_refl _⟩, rfl⟩
    | panic => trivial
  cases sz <;> exact hn _

theorem AccAt.load {sz : Size} {a : U32} : AccAt b [⟨false, sz, a⟩] s (Spec.load sz a) := by
  unfold Spec.load
  split
  · rename_i h
    exact ⟨[], .inr (.inl ⟨rfl, ⟨false, sz, a⟩, [], rfl, h.1, h.2⟩), rfl⟩
  · exact AccAt.memGet

theorem AccAt.store {sz : Size} {a : U32} {v : Val sz} : AccAt b [⟨true, sz, a⟩] s (Spec.store sz a v) := by
  unfold Spec.store
  split
  · rename_i h
    exact ⟨[], .inr (.inl ⟨rfl, ⟨true, sz, a⟩, [], rfl, h.1, h.2⟩), rfl⟩
  · exact AccAt.memSet

/-- The address of an operand in memory. -/
def placeAddress : Place → Option U32
  | .mem a => some a
  | _ => none

theorem AccAt.readAt {sz : Size} {p : Place} : AccAt b (reading sz (placeAddress p)) s (Spec.readAt sz p) := by
  cases p with
  | dreg n => rfl
  | areg n =>
    unfold Spec.readAt
    simp only
    split
    · trivial
    · rfl
  | mem a => exact AccAt.load
  | imm v => rfl

theorem AccAt.writeAt {sz : Size} {p : Place} {v : Val sz} : AccAt b (writing sz (placeAddress p)) s (Spec.writeAt sz p v) := by
  cases p with
  | dreg n => rfl
  | areg n =>
    unfold Spec.writeAt
    simp only
    split
    · trivial
    · rfl
  | mem a => exact AccAt.store
  | imm v => trivial

theorem AccAt.read {sz : Size} {m : Mode} : AccAt b (reading sz (placeAddress (place sz s.cpu.regs m).1)) s (Spec.read sz m) :=
  AccAt.first (AccAt.locate sz m) fun p s' hp => by
    cases hp
    exact AccAt.then AccAt.readAt fun a s' => ⟨_, _, rfl, rfl⟩

theorem AccAt.write {sz : Size} {m : Mode} {v : Val sz} : AccAt b (writing sz (placeAddress (place sz s.cpu.regs m).1)) s (Spec.write sz m v) :=
  AccAt.first (AccAt.locate sz m) fun p s' hp => by cases hp; exact AccAt.writeAt

theorem AccAt.rmw {sz : Size} {m : Mode} {f : Val sz → StatusRegister → Val sz × StatusRegister} :
    AccAt b (reading sz (placeAddress (place sz s.cpu.regs m).1) ++ writing sz (placeAddress (place sz s.cpu.regs m).1)) s (Spec.rmw sz m f) :=
  AccAt.bind AccAt.read fun (p, v) s' hp => AccAt.first (AccAt.compute _) fun r s'' _ => by
    rw [show p = _ from read_place hp]
    exact AccAt.writeAt

/-! ### The extension words, with the address of the first -/

/-- `y` reads `k` words and does nothing else; its result is related by `p` to the words and to the program counter before them. -/
def PreP (k : Nat) (y : Exec M β) (p : U32 → List U16 → β → Prop) : Prop := ∀ s,
  match fetchWords k s with
  | .ok ws s' => ∃ b, y s = .ok b s' ∧ p s.cpu.regs.pc ws b
  | .err _ _ => False
  | .panic => y s = .panic

/-- `x` reads `k` words and goes on with something that satisfies `P`. -/
def SplitP (k : Nat) (P : U32 → List U16 → Exec M α → Prop) (x : Exec M α) : Prop := ∀ s,
  match fetchWords k s with
  | .ok ws s' => ∃ z, P s.cpu.regs.pc ws z ∧ x s = z s'
  | .err _ _ => False
  | .panic => x s = .panic

theorem PreP.of {k : Nat} {y : Exec M β} {p : List U16 → β → Prop} (h : PreW k y p) : PreP k y fun _ ws b => p ws b := h

theorem SplitP.bind {j k : Nat} {y : Exec M β} {p : U32 → List U16 → β → Prop} {f : β → Exec M α} {P : U32 → List U16 → Exec M α → Prop} (hy : PreP j y p)
    (hf : ∀ pc ws b, ws.length = j → p pc ws b → SplitP k (fun pc' ws' z => pc' = pc + BitVec.ofNat 32 (2 * j) → P pc (ws ++ ws') z) (f b)) :
    SplitP (j + k) P (y >>= f) := by
  intro s
  rw [fetchWords_add, Exec.bind_apply]
  have h := hy s
  cases hj : fetchWords j s with
  | ok l s' =>
    rw [hj] at h
    obtain ⟨a, h1, h2⟩ := h
    have h' := hf s.cpu.regs.pc l a (fetchWords_length hj) h2 s'
    have hpc : s'.cpu.regs.pc = s.cpu.regs.pc + BitVec.ofNat 32 (2 * j) := by rw [fetchWords_cpu hj]
    simp only [Exec.bind_apply]
    cases hk : fetchWords k s' with
    | ok l' s'' =>
      rw [hk] at h'
      simp only [h1]
      obtain ⟨z, h3, h4⟩ := h'
      exact ⟨z, h3 hpc, h4⟩
    | err => rw [hk] at h'; exact h'.elim
    | panic => rw [hk] at h'; simp only [h1]; exact h'
  | err => rw [hj] at h; exact h.elim
  | panic => rw [hj] at h; simp only [Exec.bind_apply]; simp only at h; rw [h]

theorem SplitP.here {P : U32 → List U16 → Exec M α → Prop} {x : Exec M α} (h : ∀ pc, P pc [] x) : SplitP 0 P x := fun _ => ⟨x, h _, rfl⟩

theorem SplitP.last {k : Nat} {y : Exec M β} {p : U32 → List U16 → β → Prop} {f : β → Exec M α} {P : U32 → List U16 → Exec M α → Prop} (hy : PreP k y p)
    (hf : ∀ pc ws b, ws.length = k → p pc ws b → P pc ws (f b)) : SplitP k P (y >>= f) :=
  SplitP.bind (k := 0) hy fun pc ws b hl hb => SplitP.here fun pc' _ => by rw [List.append_nil]; exact hf pc ws b hl hb

/-- The mode is denoted by the fields `mode` and `reg` with the extension words `ws`, the first at `pc`. -/
def SpelledP (mode reg : Nat) (pc : U32) (ws : List U16) (m : Mode) : Prop :=
  Spelled mode reg ws m ∧
  match m with
  | .pcDisp p d => p = pc ∧ ∃ t, ws = d :: t
  | .pcIndex p x => p = pc ∧ ∃ t, ws = x :: t
  | _ => True

theorem PreP.fetchMode (sz : Option Size) (imm : Nat) (mode reg : Fin 8)
    (h : mode.val = 7 → reg.val ≤ 3 ∨ (reg.val = 4 ∧ sz ≠ none ∧ immWords sz = imm)) :
    PreP (M := M) (eaWords imm mode.val reg.val) (Spec.fetchMode sz mode reg) (SpelledP mode.val reg.val) := by
  intro s
  have h0 := PreW.fetchMode (M := M) sz imm mode reg h s
  revert h0
  cases hw : fetchWords (eaWords imm mode.val reg.val) s with
  | err => exact id
  | panic => exact id
  | ok ws s' =>
    rintro ⟨m, hm, hf⟩
    refine ⟨m, hm, hf, ?_⟩
    match mode, reg, m, hf.1 with
    | _, _, .dn _, _ => trivial
    | _, _, .an _, _ => trivial
    | _, _, .ind _, _ => trivial
    | _, _, .postinc _, _ => trivial
    | _, _, .predec _, _ => trivial
    | _, _, .disp _ _, _ => trivial
    | _, _, .index _ _, _ => trivial
    | _, _, .absW _, _ => trivial
    | _, _, .absL _, _ => trivial
    | _, _, .imm _, _ => trivial
    | mode, reg, .pcDisp p d, hf =>
      obtain ⟨h1, h2⟩ := hf
      have : mode = 7 := Fin.ext h1
      subst this
      have : reg = 2 := Fin.ext h2
      subst this
      have hw : fetchWords 1 s = .ok ws s' := hw
      have hm : (Mode.pcDisp s.cpu.regs.pc <$> fetch : Exec M Mode) s = .ok (.pcDisp p d) s' := hm
      rw [Exec.map_apply] at hm
      cases hx : fetch s with
      | ok w s3 => rw [hx] at hm; cases hm; rw [fetchWords_one hx] at hw; cases hw; exact ⟨rfl, [], rfl⟩
      | err => rw [hx] at hm; cases hm
      | panic => rw [hx] at hm; cases hm
    | mode, reg, .pcIndex p d, hf =>
      obtain ⟨h1, h2⟩ := hf
      have : mode = 7 := Fin.ext h1
      subst this
      have : reg = 3 := Fin.ext h2
      subst this
      have hw : fetchWords 1 s = .ok ws s' := hw
      have hm : (Mode.pcIndex s.cpu.regs.pc <$> fetch : Exec M Mode) s = .ok (.pcIndex p d) s' := hm
      rw [Exec.map_apply] at hm
      cases hx : fetch s with
      | ok w s3 => rw [hx] at hm; cases hm; rw [fetchWords_one hx] at hw; cases hw; exact ⟨rfl, [], rfl⟩
      | err => rw [hx] at hm; cases hm
      | panic => rw [hx] at hm; cases hm

theorem SpelledP.address {mode reg : Nat} {pc : U32} {ws : List U16} {m : Mode} (h : SpelledP mode reg pc ws m) (hr : reg < 8) (sz : Size) (r : Registers) :
    placeAddress (place sz r m).1 = operandAddress sz r pc mode reg ws := by
  have hn : ∀ n : Fin 8, Fin.ofNat 8 n.val = n := fun n => Fin.ext (Nat.mod_eq_of_lt n.isLt)
  obtain ⟨⟨h1, h2⟩, h3⟩ := h
  cases m with
  | dn n => obtain ⟨rfl, rfl⟩ := h1; simp [placeAddress, place, operandAddress, eaInMemory]
  | an n => obtain ⟨rfl, rfl⟩ := h1; simp [placeAddress, place, operandAddress, eaInMemory]
  | imm n => obtain ⟨rfl, rfl⟩ := h1; simp [placeAddress, place, operandAddress, eaInMemory]
  | ind n => obtain ⟨rfl, rfl⟩ := h1; simp [placeAddress, place, operandAddress, eaInMemory, eaAddress, hn]
  | postinc n => obtain ⟨rfl, rfl⟩ := h1; simp [placeAddress, place, operandAddress, eaInMemory, eaAddress, hn]
  | predec n => obtain ⟨rfl, rfl⟩ := h1; simp [placeAddress, place, operandAddress, eaInMemory, eaAddress, hn]
  | disp n d => obtain ⟨rfl, rfl⟩ := h1; obtain ⟨t, rfl⟩ := h2; simp [placeAddress, place, operandAddress, eaInMemory, eaAddress, hn]
  | index n d => obtain ⟨rfl, rfl⟩ := h1; obtain ⟨t, rfl⟩ := h2; simp [placeAddress, place, operandAddress, eaInMemory, eaAddress, hn, indexDisp]
  | absW d => obtain ⟨rfl, rfl⟩ := h1; obtain ⟨t, rfl⟩ := h2; simp [placeAddress, place, operandAddress, eaInMemory, eaAddress]
  | absL d => obtain ⟨rfl, rfl⟩ := h1; obtain ⟨hi, lo, t, rfl, rfl⟩ := h2; simp [placeAddress, place, operandAddress, eaInMemory, eaAddress]
  | pcDisp p d => obtain ⟨rfl, rfl⟩ := h1; obtain ⟨rfl, t, rfl⟩ := h3; simp [placeAddress, place, operandAddress, eaInMemory]
  | pcIndex p d => obtain ⟨rfl, rfl⟩ := h1; obtain ⟨rfl, t, rfl⟩ := h3; simp [placeAddress, place, operandAddress, eaInMemory, indexDisp]

theorem preP_ea {sz : Size} {imm : Nat} (op : U16) (hany : op.toNat / 8 % 8 < 7 ∨ op.toNat % 8 ≤ 4) (himm : immWords (some sz) = imm) :
    PreP (M := M) (opEaWords imm op) (Spec.fetchEa (some sz) op) (SpelledP (op.toNat / 8 % 8) (op.toNat % 8)) := by
  have e0 : (regField op 0).val = op.toNat % 8 := by simp [regField, Fin.ofNat]
  have e3 : (regField op 3).val = op.toNat / 8 % 8 := by simp [regField, Fin.ofNat]
  have := PreP.fetchMode (M := M) (some sz) imm (regField op 3) (regField op 0) (by
    rw [e0, e3]
    intro h
    by_cases h4 : op.toNat % 8 = 4
    · exact .inr ⟨h4, by simp, himm⟩
    · exact .inl (by omega))
  rw [e0, e3] at this
  exact this

theorem preP_ea' {sz : Option Size} {imm : Nat} (op : U16) (hany : op.toNat / 8 % 8 < 7 ∨ op.toNat % 8 ≤ 3) :
    PreP (M := M) (opEaWords imm op) (Spec.fetchEa sz op) (SpelledP (op.toNat / 8 % 8) (op.toNat % 8)) := by
  have e0 : (regField op 0).val = op.toNat % 8 := by simp [regField, Fin.ofNat]
  have e3 : (regField op 3).val = op.toNat / 8 % 8 := by simp [regField, Fin.ofNat]
  have := PreP.fetchMode (M := M) sz imm (regField op 3) (regField op 0) (by rw [e0, e3]; intro h; exact .inl (by omega))
  rw [e0, e3] at this
  exact this

end Exec
end M68k
