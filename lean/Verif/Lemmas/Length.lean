import Verif.Lemmas.LegalExec
/-
One call of `interpreter_exception`: the opcode, the extension words, and the rest of the instruction.
-/
set_option linter.unusedSectionVars false
namespace M68k
namespace Exec
open Spec
variable {M : Type} [MemoryAccess M] {α β : Type} {s s' s1 s2 : St M} {op : U16}

theorem fetch_ok' {w : U16} (hw : fetch s1 = .ok w s2) : ¬ Spec.Odd s1.cpu.regs.pc ∧ ∃ m, MemoryAccess.getWord s1.cpu.regs.pc s1.mem = .val w m ∧
    s2 = { s1 with mem := m, cpu := { s1.cpu with regs := { s1.cpu.regs with pc := s1.cpu.regs.pc + 2 } } } := by
  unfold fetch at hw
  split at hw
  · cases hw
  · cases hm : MemoryAccess.getWord s1.cpu.regs.pc s1.mem with
    | val a m => rw [hm] at hw; cases hw; exact ⟨‹_›, _, rfl, rfl⟩
    | none m => rw [hm] at hw; cases hw
    | panic => rw [hm] at hw; cases hw

theorem decoder_legal (op : U16) : legalCheck (decoder op) op.toNat = true := decoder_of_check legalCheck legalCheck_all op

/-- The state after `k` words: the program counter is `2k` further, only the memory has been read. -/
theorem fetchWords_cpu {k : Nat} {ws : List U16} (h : fetchWords k s = .ok ws s2) :
    s2.cpu = { s.cpu with regs := { s.cpu.regs with pc := s.cpu.regs.pc + BitVec.ofNat 32 (2 * k) } } := by
  induction k generalizing s ws with
  | zero =>
    cases h
    simp
  | succ k ih =>
    simp only [fetchWords] at h
    obtain ⟨w, s', h1, h2⟩ := bind_ok h
    obtain ⟨ws', s'', h3, h4⟩ := bind_ok h2
    cases h4
    obtain ⟨-, m, -, rfl⟩ := fetch_ok' h1
    rw [ih h3]
    simp only
    congr 2
    rw [BitVec.add_assoc]
    congr 1
    apply BitVec.eq_of_toNat_eq
    simp only [BitVec.toNat_add, BitVec.toNat_ofNat, BitVec.ofNat_eq_ofNat]
    omega

theorem fetchWords_length {k : Nat} {ws : List U16} (h : fetchWords k s = .ok ws s2) : ws.length = k := by
  induction k generalizing s ws with
  | zero => cases h; rfl
  | succ k ih =>
    simp only [fetchWords] at h
    obtain ⟨w, s', h1, h2⟩ := bind_ok h
    obtain ⟨ws', s'', h3, h4⟩ := bind_ok h2
    cases h4
    simp [ih h3]

/-- The call as the extension words and a legal rest. -/
theorem step_split {rd wr jmp rst : Prop} {P : ∀ {α : Type}, Exec M α → Prop} (hP : Legal rd wr jmp rst P) (C : CpuDetails) (h : Ready s op s1)
    (hrd : readsMemory (decoder op) op = true → rd) (hwr : writesMemory (decoder op) op = true → wr)
    (hj : branches (decoder op) = true → jmp) (hrst : decoder op = .Reset → rst) :
    (∃ ws s2 z, fetchWords (extensionWords (decoder op) op) s1 = .ok ws s2 ∧ P z ∧ Spec.exec C (decoder op) op s1 = z s2) ∨
    (fetchWords (extensionWords (decoder op) op) s1 = .panic ∧ interpreterException C s = .panic) := by
  have hx := hP.exec C (decoder_legal op) hrd hwr hj hrst s1
  cases hf : fetchWords (extensionWords (decoder op) op) s1 with
  | ok ws s2 =>
    rw [hf] at hx
    obtain ⟨z, h1, h2⟩ := hx
    exact .inl ⟨ws, s2, z, rfl, h1, h2⟩
  | err v s2 => rw [hf] at hx; exact hx.elim
  | panic =>
    rw [hf] at hx
    simp only at hx
    refine .inr ⟨rfl, ?_⟩
    rw [step_finish C h]
    unfold finishStep
    rw [hx]

/-- The state after the call is the state after the instruction. -/
theorem step_result {C : CpuDetails} {c : Nat} {e : Option U8} (h : Ready s op s1) (hr : interpreterException C s = .ok (c, e) s') :
    (∃ c', Spec.exec C (decoder op) op s1 = .ok c' s') ∨ (∃ v, Spec.exec C (decoder op) op s1 = .err v s') := by
  rw [step_finish C h] at hr
  unfold finishStep at hr
  cases hx : Spec.exec C (decoder op) op s1 with
  | ok c' s2 => rw [hx] at hr; cases hr; exact .inl ⟨_, rfl⟩
  | err v s2 => rw [hx] at hr; cases hr; exact .inr ⟨_, rfl⟩
  | panic => rw [hx] at hr; cases hr

/-! ### Three predicates -/

/-- The action keeps the program counter. -/
def KeepsPc (x : Exec M α) : Prop := ∀ s,
  match x s with
  | .ok _ s' => s'.cpu.regs.pc = s.cpu.regs.pc
  | .err _ s' => s'.cpu.regs.pc = s.cpu.regs.pc
  | .panic => True

theorem setAreg_pc' (r : Registers) (n : Fin 8) (v : U32) : (setAreg r n v).pc = r.pc := by
  unfold setAreg
  split
  · rfl
  · split <;> rfl

theorem keepsPc_access (f : M → MRes M α) : KeepsPc (access f) := by
  intro s
  unfold access
  cases f s.mem <;> simp

theorem legal_keepsPc : Legal (M := M) True True False True KeepsPc where
  pure a s := rfl
  bind x f hx hf s := by
    have h1 := hx s
    rw [Exec.bind_apply]
    cases hxs : x s with
    | ok a s' =>
      rw [hxs] at h1
      have h2 := hf a s'
      simp only at h1 ⊢
      cases hfs : f a s' with
      | ok b s'' => rw [hfs] at h2; exact h2.trans h1
      | err v s'' => rw [hfs] at h2; exact h2.trans h1
      | panic => trivial
    | err v s' => rw [hxs] at h1; exact h1
    | panic => trivial
  trap v s := rfl
  getR f s := rfl
  load _ sz a := by
    unfold Spec.load
    split
    · exact fun s => rfl
    · exact keepsPc_access _
  store _ sz a v := by
    unfold Spec.store
    split
    · exact fun s => rfl
    · exact keepsPc_access _
  movemLoad _ sz a _ _ := by
    intro s
    unfold Spec.movemLoad
    rw [Exec.map_apply]
    have := keepsPc_access (memGet sz a) s
    cases h : access (memGet sz a) s <;> rw [h] at this <;> exact this
  movemStore _ sz a v _ _ := keepsPc_access _
  dreg n f s := rfl
  areg n f s := setAreg_pc' _ _ _
  flags f s := rfl
  jump h := h.elim
  halt s := rfl
  signalReset _ s := rfl
  usp n s := rfl

/-- The action does not access the memory. -/
def KeepsMem (x : Exec M α) : Prop := ∀ s,
  match x s with
  | .ok _ s' => s'.mem = s.mem
  | .err _ s' => s'.mem = s.mem
  | .panic => True

theorem legal_keepsMem : Legal (M := M) False False True False KeepsMem where
  pure a s := rfl
  bind x f hx hf s := by
    have h1 := hx s
    rw [Exec.bind_apply]
    cases hxs : x s with
    | ok a s' =>
      rw [hxs] at h1
      have h2 := hf a s'
      simp only at h1 ⊢
      cases hfs : f a s' with
      | ok b s'' => rw [hfs] at h2; exact h2.trans h1
      | err v s'' => rw [hfs] at h2; exact h2.trans h1
      | panic => trivial
    | err v s' => rw [hxs] at h1; exact h1
    | panic => trivial
  trap v s := rfl
  getR f s := rfl
  load h := h.elim
  store h := h.elim
  movemLoad h := h.elim
  movemStore h := h.elim
  dreg n f s := rfl
  areg n f s := rfl
  flags f s := rfl
  jump _ a s := rfl
  halt s := rfl
  signalReset h := h.elim
  usp n s := rfl

theorem _root_.M68k.Spec.Reads.trans {m m' m'' : M} (h : Reads m m') (h' : Reads m' m'') : Reads m m'' := by
  induction h' with
  | refl => exact h
  | byte _ h2 ih => exact .byte ih h2
  | word _ ho h2 ih => exact .word ih ho h2
  | long _ ho h2 ih => exact .long ih ho h2

theorem _root_.M68k.Spec.Reads.get {m m' : M} {sz : Size} {a : U32} (ha : ¬ (sz ≠ .Byte ∧ Spec.Odd a)) (h : memGet sz a m = .none m' ∨ ∃ v, memGet sz a m = .val v m') : Reads m m' := by
  cases sz with
  | Byte => exact .byte (.refl m) h
  | Word => exact .word (.refl m) (fun ho => ha ⟨by decide, ho⟩) h
  | Long => exact .long (.refl m) (fun ho => ha ⟨by decide, ho⟩) h

/-- The action only reads the memory. -/
def OnlyReads (x : Exec M α) : Prop := ∀ s,
  match x s with
  | .ok _ s' => Reads s.mem s'.mem
  | .err _ s' => Reads s.mem s'.mem
  | .panic => True

theorem onlyReads_get (sz : Size) (a : U32) (ha : ¬ (sz ≠ .Byte ∧ Spec.Odd a)) : OnlyReads (M := M) (access (memGet sz a)) := by
  intro s
  unfold access
  cases h : memGet sz a s.mem with
  | val v m => exact Reads.get ha (.inr ⟨v, h⟩)
  | none m => exact Reads.get ha (.inl h)
  | panic => trivial

theorem legal_onlyReads : Legal (M := M) True False True False OnlyReads where
  pure a s := .refl _
  bind x f hx hf s := by
    have h1 := hx s
    rw [Exec.bind_apply]
    cases hxs : x s with
    | ok a s' =>
      rw [hxs] at h1
      have h2 := hf a s'
      simp only at h1 ⊢
      cases hfs : f a s' with
      | ok b s'' => rw [hfs] at h2; exact h1.trans h2
      | err v s'' => rw [hfs] at h2; exact h1.trans h2
      | panic => trivial
    | err v s' => rw [hxs] at h1; exact h1
    | panic => trivial
  trap v s := .refl _
  getR f s := .refl _
  load _ sz a := by
    unfold Spec.load
    split
    · exact fun s => .refl _
    · exact onlyReads_get _ _ ‹_›
  store h := h.elim
  movemLoad _ sz a _ ha := by
    intro s
    unfold Spec.movemLoad
    rw [Exec.map_apply]
    have := onlyReads_get sz a (fun h => ha h.2) s
    cases h : access (memGet sz a) s <;> rw [h] at this <;> exact this
  movemStore h := h.elim
  dreg n f s := .refl _
  areg n f s := .refl _
  flags f s := .refl _
  jump _ a s := .refl _
  halt s := .refl _
  signalReset h := h.elim
  usp n s := .refl _

theorem fetchWords_reads {k : Nat} {ws : List U16} (h : fetchWords k s = .ok ws s2) : Reads s.mem s2.mem := by
  induction k generalizing s ws with
  | zero => cases h; exact .refl _
  | succ k ih =>
    simp only [fetchWords] at h
    obtain ⟨w, s', h1, h2⟩ := bind_ok h
    obtain ⟨ws', s'', h3, h4⟩ := bind_ok h2
    cases h4
    obtain ⟨ho, m, hm, rfl⟩ := fetch_ok' h1
    exact (Reads.word (.refl _) ho (.inr ⟨_, hm⟩)).trans (ih h3)

/-- The action does not panic on a memory of the kind `I`. -/
def NoPanic (I : M → Prop) (x : Exec M α) : Prop := ∀ s, I s.mem →
  match x s with
  | .ok _ s' => I s'.mem
  | .err _ s' => I s'.mem
  | .panic => False

theorem noPanic_access {I : M → Prop} {f : M → MRes M α} (hf : ∀ m, I m → ServedAs I (f m)) : NoPanic I (access f) := by
  intro s hs
  unfold access
  have := hf s.mem hs
  cases h : f s.mem with
  | panic => rw [h] at this; exact this
  | val => rw [h] at this; exact this
  | none => rw [h] at this; exact this

theorem legal_noPanic {I : M → Prop} (hM : Serves I) : Legal (M := M) True True True True (NoPanic I) where
  pure a s hs := hs
  bind x f hx hf s hs := by
    rw [Exec.bind_apply]
    have h1 := hx s hs
    cases hxs : x s with
    | ok a s' => rw [hxs] at h1; exact hf a s' h1
    | err v s' => rw [hxs] at h1; exact h1
    | panic => rw [hxs] at h1; exact h1
  trap v s hs := hs
  getR f s hs := hs
  load _ sz a := by
    unfold Spec.load
    split
    · exact fun s hs => hs
    · exact noPanic_access fun m hm => hM.get sz a m ‹_› hm
  store _ sz a v := by
    unfold Spec.store
    split
    · exact fun s hs => hs
    · exact noPanic_access fun m hm => hM.set sz a v m ‹_› hm
  movemLoad _ sz a _ ha := by
    intro s hs
    unfold Spec.movemLoad
    rw [Exec.map_apply]
    have := noPanic_access (fun m hm => hM.get sz a m (fun h => ha h.2) hm) s hs
    cases h : access (memGet sz a) s with
    | panic => rw [h] at this; exact this
    | _ => rw [h] at this; exact this
  movemStore _ sz a v _ ha := noPanic_access fun m hm => hM.set sz a _ m (fun h => ha h.2) hm
  dreg n f s hs := hs
  areg n f s hs := hs
  flags f s hs := hs
  jump _ a s hs := hs
  halt s hs := hs
  signalReset _ s hs := hM.reset _ hs
  usp n s hs := hs

theorem fetchWords_served {I : M → Prop} (hM : Serves I) {k : Nat} {ws : List U16} (h : fetchWords k s = .ok ws s2) (hs : I s.mem) : I s2.mem := by
  induction k generalizing s ws with
  | zero => cases h; exact hs
  | succ k ih =>
    simp only [fetchWords] at h
    obtain ⟨w, s', h1, h2⟩ := bind_ok h
    obtain ⟨ws', s'', h3, h4⟩ := bind_ok h2
    cases h4
    obtain ⟨ho, m, hm, rfl⟩ := fetch_ok' h1
    refine ih h3 ?_
    have := hM.get .Word _ _ (fun h => ho h.2) hs
    have hm' : memGet .Word s.cpu.regs.pc s.mem = .val w m := hm
    rw [hm'] at this
    exact this

end Exec
end M68k
