import Verif.Spec.Contents
import Verif.Lemmas.Ram
import Verif.Lemmas.EndsControl
/-
Accesses to memories that are arrays of bytes.
-/
namespace M68k
namespace Exec
open Spec
set_option linter.unusedSectionVars false
variable {M : Type} [MemoryAccess M] [Ram M] {C : CpuDetails} {s s' s1 s2 : St M} {op : U16} {sz : Size} {a : U32} {m m' : M}

theorem access_ok {α : Type} {f : M → MRes M α} {v : α} (h : access f s = .ok v s') :
    f s.mem = .val v s'.mem ∧ s' = { s with mem := s'.mem } := by
  unfold access at h
  cases hf : f s.mem with
  | val x m => rw [hf] at h; cases h; exact ⟨rfl, rfl⟩
  | none m => rw [hf] at h; cases h
  | panic => rw [hf] at h; cases h

theorem holds_unique {v w : Val sz} (hv : Holds m a v) (hw : Holds m a w) : v = w :=
  val_ext fun k hk => Option.some.inj ((hv k hk).symm.trans (hw k hk))

theorem _root_.M68k.Spec.Holds.present {v : Val sz} (h : Holds m a v) : Present m a (bytes sz) := fun k hk => by rw [h k hk]; rfl

/-- The operand is still there if its bytes are the same. -/
theorem _root_.M68k.Spec.Holds.of_eq {v : Val sz} (h : Holds m a v) (he : ∀ k < bytes sz, Ram.peek m' (at_ a k) = Ram.peek m (at_ a k)) : Holds m' a v :=
  fun k hk => (he k hk).trans (h k hk)

theorem memGet_holds {v : Val sz} (ha : AlignedFor sz a) (h : Holds m a v) : memGet sz a m = .val v m := by
  obtain ⟨w, hw⟩ := Ram.get_present (M := M) ha h.present
  rw [hw, holds_unique (Ram.get_val ha hw).2 h]

theorem load_done {v : Val sz} (h : load sz a s = .ok v s') : AlignedFor sz a ∧ s' = s ∧ Holds s.mem a v := by
  unfold load at h
  split at h
  · cases h
  · rename_i ha
    obtain ⟨h1, h2⟩ := access_ok h
    obtain ⟨h3, h4⟩ := Ram.get_val ha h1
    refine ⟨ha, ?_, h4⟩
    rw [h3] at h2
    exact h2

theorem load_holds {v : Val sz} (ha : AlignedFor sz a) (h : Holds s.mem a v) : load sz a s = .ok v s := by
  unfold load
  rw [if_neg ha]
  unfold access
  rw [memGet_holds ha h]

theorem access_set {v : Val sz} (ha : AlignedFor sz a) (h : access (memSet sz a v) s = .ok () s') :
    s' = { s with mem := s'.mem } ∧ Holds s'.mem a v ∧ SameExcept s.mem s'.mem a (bytes sz) := by
  obtain ⟨h1, h2⟩ := access_ok h
  exact ⟨h2, Ram.set_val ha h1⟩

theorem store_done {v : Val sz} (h : store sz a v s = .ok () s') :
    AlignedFor sz a ∧ s' = { s with mem := s'.mem } ∧ Holds s'.mem a v ∧ SameExcept s.mem s'.mem a (bytes sz) := by
  unfold store at h
  split at h
  · cases h
  · rename_i ha
    exact ⟨ha, access_set ha h⟩

theorem store_present [Writable M] {v : Val sz} (ha : AlignedFor sz a) (hp : Present s.mem a (bytes sz)) :
    ∃ m', store sz a v s = .ok () { s with mem := m' } := by
  obtain ⟨m', hm⟩ := Writable.set_present' (M := M) (v := v) ha hp
  refine ⟨m', ?_⟩
  unfold store
  rw [if_neg ha]
  unfold access
  rw [hm]

/-- Nothing appears or disappears. -/
def SamePresent (m m' : M) : Prop := ∀ b, (Ram.peek m' b).isSome = (Ram.peek m b).isSome

theorem store_samePresent {v : Val sz} (h : store sz a v s = .ok () s') : SamePresent s.mem s'.mem := by
  unfold store at h
  split at h
  · cases h
  · rename_i ha
    exact Ram.set_present ha (access_ok h).1

theorem even_word {a : U32} (h : ¬ Spec.Odd a) : AlignedFor sz a := fun h' => h h'.2

/-- Fetching leaves such a memory as it is. -/
theorem fetch_ram {w : U16} (h : fetch s = .ok w s') : s' = s.withRegs fun r => { r with pc := r.pc + 2 } := by
  unfold fetch at h
  split at h
  · cases h
  · rename_i ho
    cases hm : MemoryAccess.getWord s.cpu.regs.pc s.mem with
    | val x m =>
      rw [hm] at h
      cases h
      have := (Ram.get_val (M := M) (sz := .Word) (even_word ho) hm).1
      subst this
      rfl
    | none m => rw [hm] at h; cases h
    | panic => rw [hm] at h; cases h

theorem _root_.M68k.Spec.Ready.ram (h : Ready s op s1) : s1.mem = s.mem := by
  obtain ⟨m, hm, rfl⟩ := h.opcode
  exact (Ram.get_val (M := M) (sz := .Word) (even_word h.even) hm).1

/-- The states differ in the program counter only. -/
def PcOnly (s s' : St M) : Prop := s' = s.withRegs fun r => { r with pc := s'.cpu.regs.pc }

omit [MemoryAccess M] [Ram M] in
theorem PcOnly.refl (s : St M) : PcOnly s s := rfl
omit [MemoryAccess M] [Ram M] in
theorem PcOnly.trans {s s' s'' : St M} (h : PcOnly s s') (h' : PcOnly s' s'') : PcOnly s s'' := by
  unfold PcOnly at *
  rw [h'] 
  rw [h]
  rfl
omit [MemoryAccess M] [Ram M] in
theorem PcOnly.mem (h : PcOnly s s') : s'.mem = s.mem := by rw [h]; rfl
omit [MemoryAccess M] [Ram M] in
theorem PcOnly.regs (h : PcOnly s s') : s'.cpu.regs = { s.cpu.regs with pc := s'.cpu.regs.pc } := by
  conv => lhs; rw [h]
  rfl

theorem fetch_pcOnly {w : U16} (h : fetch s = .ok w s') : PcOnly s s' := by
  rw [fetch_ram h]; rfl

theorem map_ok {α β : Type} {f : α → β} {x : Exec M α} {b : β} (h : (f <$> x) s = .ok b s') : ∃ a, x s = .ok a s' ∧ b = f a := by
  rw [Exec.map_apply] at h
  cases hx : x s with
  | ok a s2 => rw [hx] at h; cases h; exact ⟨a, rfl, rfl⟩
  | err v s2 => rw [hx] at h; cases h
  | panic => rw [hx] at h; cases h

theorem fetchLong_pcOnly {w : U32} (h : fetchLong s = .ok w s') : PcOnly s s' := by
  unfold fetchLong at h
  obtain ⟨_, _, h1, h⟩ := bind_ok h
  obtain ⟨_, _, h2, h⟩ := bind_ok h
  cases h
  exact (fetch_pcOnly h1).trans (fetch_pcOnly h2)

theorem fetchMode_pcOnly {sz : Option Size} {mode reg : Fin 8} {md : Mode} (h : fetchMode sz mode reg s = .ok md s') : PcOnly s s' := by
  unfold fetchMode at h
  split at h
  · cases h; exact .refl _
  · cases h; exact .refl _
  · cases h; exact .refl _
  · cases h; exact .refl _
  · cases h; exact .refl _
  · obtain ⟨_, h, _⟩ := map_ok h; exact fetch_pcOnly h
  · obtain ⟨_, h, _⟩ := map_ok h; exact fetch_pcOnly h
  · split at h
    · obtain ⟨_, h, _⟩ := map_ok h; exact fetch_pcOnly h
    · obtain ⟨_, h, _⟩ := map_ok h; exact fetchLong_pcOnly h
    · rw [getR_bind_apply] at h; obtain ⟨_, h, _⟩ := map_ok h; exact fetch_pcOnly h
    · rw [getR_bind_apply] at h; obtain ⟨_, h, _⟩ := map_ok h; exact fetch_pcOnly h
    · split at h
      · cases h
      · obtain ⟨_, h, _⟩ := map_ok h; exact fetchLong_pcOnly h
      · obtain ⟨_, h, _⟩ := map_ok h; exact fetch_pcOnly h
    · cases h

theorem fetchEa_pcOnly {sz : Option Size} {md : Mode} (h : fetchEa sz op s = .ok md s') : PcOnly s s' := fetchMode_pcOnly h

theorem readAt_ram {p : Place} {v : Val sz} (h : readAt sz p s = .ok v s') : s' = s := by
  unfold readAt at h
  split at h
  · cases h; rfl
  · split at h
    · cases h
    · cases h; rfl
  · exact (load_done h).2.1
  · cases h; rfl

/-- Reading an operand moves the address register, and that is all. -/
theorem read_ram {md : Mode} {p : Place} {v : Val sz} (h : Spec.read sz md s = .ok (p, v) s') :
    p = (place sz s.cpu.regs md).1 ∧ s' = s.withRegs (fun r => (place sz r md).2) ∧ readAt sz p s' = .ok v s' := by
  unfold Spec.read at h
  obtain ⟨q, t, h1, h⟩ := bind_ok h
  obtain ⟨w, t', h2, h⟩ := bind_ok h
  cases h
  cases h1
  have := readAt_ram h2
  subst this
  exact ⟨rfl, rfl, h2⟩

theorem place_sr (r : Registers) (md : Mode) : (place sz r md).2.sr = r.sr := by
  unfold place
  split <;> first | rfl | exact setAreg_sr _ _ _

theorem _root_.M68k.Spec.SameExcept.trans {m m' m'' : M} {n : Nat} (h : SameExcept m m' a n) (h' : SameExcept m' m'' a n) : SameExcept m m'' a n :=
  fun b hb => (h' b hb).trans (h b hb)

omit [Ram M] in
theorem endsWith_completes {α : Type} {r : Res M α} (he : EndsWith C s r) (hc : Completes C s s') : (∃ a, r = .ok a s') ∨ ∃ v, r = .err v s' ∧ traced s = some v := by
  obtain ⟨c, hc⟩ := hc
  cases r with
  | ok a t =>
    obtain ⟨c', he⟩ := he
    rw [hc] at he
    cases he
    exact .inl ⟨a, rfl⟩
  | err v t =>
    have he : interpreterException C s = .ok (0, some v) t := he
    rw [hc] at he
    injection he with he1 he2
    injection he1 with he3 he4
    subst he2
    exact .inr ⟨v, rfl, he4⟩
  | panic =>
    have he : interpreterException C s = .panic := he
    rw [hc] at he
    cases he

end Exec
end M68k
