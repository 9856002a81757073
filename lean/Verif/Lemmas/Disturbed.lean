import Verif.Spec.Disturbed
import Verif.Props.C25
import Verif.Props.C71
import Verif.Props.C81
/-
Lemmas for C89: a fenced memory is an array of bytes, and programs executed line by line are interrupted.
-/
namespace M68k.Exec
open Spec Props
set_option linter.unusedSectionVars false
variable {M : Type} [MemoryAccess M] [Ram M] {P : U32 → Bool}

theorem bytesIn_iff {sz : Size} {a : U32} : bytesIn P sz a = true ↔ ∀ k < bytes sz, P (at_ a k) = true := by simp [bytesIn]

theorem fenced_get {sz : Size} {a : U32} {m : Fenced (bytesIn P) M} : memGet sz a m = if bytesIn P sz a then Fenced.lift (memGet sz a m.mem) else .panic := by cases sz <;> rfl
theorem fenced_set {sz : Size} {a : U32} {v : Val sz} {m : Fenced (bytesIn P) M} : memSet sz a v m = if bytesIn P sz a then Fenced.lift (memSet sz a v m.mem) else .panic := by cases sz <;> rfl

theorem fenced_present {m : Fenced (bytesIn P) M} {b : U32} (h : (Fenced.peekIn P m b).isSome) : P b = true ∧ (Ram.peek m.mem b).isSome := by
  unfold Fenced.peekIn at h
  split at h
  · rename_i hp; exact ⟨hp, h⟩
  · cases h

instance : Ram (Fenced (bytesIn P) M) where
  peek := Fenced.peekIn P
  get_val {sz a m m' v} ha h := by
    rw [fenced_get] at h
    split at h
    · rename_i hb
      cases hx : memGet sz a m.mem with
      | val w n =>
        rw [hx] at h
        cases h
        obtain ⟨rfl, h2⟩ := Ram.get_val ha hx
        exact ⟨rfl, fun k hk => by unfold Fenced.peekIn; rw [bytesIn_iff.1 hb k hk]; exact h2 k hk⟩
      | none n => rw [hx] at h; cases h
      | panic => rw [hx] at h; cases h
    · cases h
  get_none {sz a m m'} ha h := by
    rw [fenced_get] at h
    split at h
    · cases hx : memGet sz a m.mem with
      | val w n => rw [hx] at h; cases h
      | none n =>
        rw [hx] at h
        cases h
        obtain ⟨rfl, k, hk, h2⟩ := Ram.get_none ha hx
        exact ⟨rfl, k, hk, by unfold Fenced.peekIn; rw [h2, ite_self]⟩
      | panic => rw [hx] at h; cases h
    · cases h
  set_val {sz a v m m'} ha h := by
    rw [fenced_set] at h
    split at h
    · rename_i hb
      cases hx : memSet sz a v m.mem with
      | val w n =>
        rw [hx] at h
        cases h
        obtain ⟨h1, h2⟩ := Ram.set_val ha hx
        exact ⟨fun k hk => by unfold Fenced.peekIn; rw [bytesIn_iff.1 hb k hk]; exact h1 k hk, fun b hb => by unfold Fenced.peekIn; rw [h2 b hb]⟩
      | none n => rw [hx] at h; cases h
      | panic => rw [hx] at h; cases h
    · cases h
  set_present {sz a v m m'} ha h b := by
    rw [fenced_set] at h
    split at h
    · cases hx : memSet sz a v m.mem with
      | val w n =>
        rw [hx] at h
        cases h
        unfold Fenced.peekIn
        split
        · exact Ram.set_present ha hx b
        · rfl
      | none n => rw [hx] at h; cases h
      | panic => rw [hx] at h; cases h
    · cases h
  get_present {sz a m} ha h := by
    obtain ⟨v, hv⟩ := Ram.get_present (m := m.mem) ha fun k hk => (fenced_present (h k hk)).2
    refine ⟨v, ?_⟩
    rw [fenced_get, if_pos (bytesIn_iff.2 fun k hk => (fenced_present (h k hk)).1), hv]
    rfl
  reset_peek m a := by
    unfold Fenced.peekIn
    rw [show (MemoryAccess.resetInstruction m).mem = MemoryAccess.resetInstruction m.mem from rfl, Ram.reset_peek]

instance [Writable M] : Writable (Fenced (bytesIn P) M) where
  set_present' {sz a v m} ha h := by
    obtain ⟨n, hn⟩ := Writable.set_present' (v := v) (m := m.mem) ha fun k hk => (fenced_present (h k hk)).2
    refine ⟨⟨n⟩, ?_⟩
    rw [fenced_set, if_pos (bytesIn_iff.2 fun k hk => (fenced_present (h k hk)).1), hn]
    rfl

theorem peek_in {m : M} {b : U32} (h : P b = true) : Ram.peek (⟨m⟩ : Fenced (bytesIn P) M) b = Ram.peek m b := by
  show Fenced.peekIn P _ b = _
  unfold Fenced.peekIn
  rw [if_pos h]

/-! ### Undisturbed runs -/
section
variable {N : Type} [MemoryAccess N] {C : CpuDetails} {s s1 x : St N} {c : Nat} {ds : List Nat}

theorem undisturbed_front (h : Undisturbed C ds s x) : (ds = [] ∧ x = s) ∨ ∃ c ds' s1, ds = ds' ++ [c] ∧ s.cpu.stop = false ∧ interpreterException C s = .ok (c, none) s1 ∧ Undisturbed C ds' s1 x := by
  induction h with
  | none s => exact .inl ⟨rfl, rfl⟩
  | @more cs c s s' s'' h hs hx ih =>
    rcases ih with ⟨rfl, rfl⟩ | ⟨c0, ds', s1, rfl, hs0, hx0, h0⟩
    · exact .inr ⟨c, [], s'', rfl, hs, hx, .none _⟩
    · exact .inr ⟨c0, c :: ds', s1, rfl, hs0, hx0, .more h0 hs hx⟩

theorem undisturbed_back (hs : s.cpu.stop = false) (hx : interpreterException C s = .ok (c, none) s1) (h : Undisturbed C ds s1 x) : Undisturbed C (ds ++ [c]) s x := by
  induction h with
  | none s1 => exact .more (.none _) hs hx
  | more _ hs' hx' ih => exact .more (ih hx) hs' hx'

variable [Ram N] {p : List Source} {a : U32} {n k : Nat} {s' : St N}

theorem executes_undisturbed (hp : ∀ l ∈ p, l.Plain) (h : Executes C p a n k s s') (hu : s.cpu.regs.sr.s = false) (hm : s.cpu.regs.sr.interruptMask.toNat < 8) :
    ∃ cs, (cs.length = n ∧ cs.sum = k) ∧ Undisturbed C cs s s' ∧ ∀ ds x, ds.length ≤ n → Undisturbed C ds s x → SameSystem s.cpu.regs.sr x.cpu.regs.sr ∧ x.cpu.regs.ssp = s.cpu.regs.ssp := by
  induction h with
  | done s =>
    refine ⟨[], ⟨rfl, rfl⟩, .none s, fun ds x hd h => ?_⟩
    obtain rfl : ds = [] := List.eq_nil_of_length_eq_zero (by omega)
    cases h
    exact ⟨⟨rfl, rfl, rfl⟩, rfl⟩
  | @line n c k l ws s s1 s' hat hb ht he _ ih =>
    have hx := C81_line_partial (C := C) hb hat
    rw [he] at hx
    have hx : Exec.interpreterException C s = .ok (c, if l.privileged then none else traced s) s1 := hx
    have ht' : traced s = none := by unfold traced; rw [ht]; rfl
    rw [ht', ite_self] at hx
    have hccr : CcrImmediates s := by
      intro op t w t' hr hi _
      obtain ⟨ho, hh⟩ := atLine_holds hat
      have hne : ws ≠ [] := fun hn => assemble_ne_nil l (hn ▸ hat.words)
      have h0 : Holds (sz := .Word) s.mem s.cpu.regs.pc (ws.headD 0) := by
        cases ws with
        | nil => exact absurd rfl hne
        | cons w ws =>
          have := hh 0 (by simp)
          rwa [Nat.mul_zero, at_zero] at this
      obtain ⟨m, hg, -⟩ := hr.opcode
      have hg' : MemoryAccess.getWord s.cpu.regs.pc s.mem = .val (ws.headD 0) s.mem := memGet_holds (sz := .Word) (even_word hr.even) h0
      rw [hg'] at hg
      cases hg
      obtain ⟨b, f, ws0, hpe, -⟩ := hat.here
      have hpl := hp l (by rw [hpe]; simp) ws hat.words
      rcases hi with hi | hi
      · exact absurd hi hpl.1
      · exact absurd hi hpl.2
    obtain ⟨h1, h2, -⟩ := C25_step_partial hu hm hat.idle hccr hx
    obtain ⟨cs, ⟨hl, hsum⟩, hun, hall⟩ := ih (h1.2.1.trans hu) (by rw [h1.2.2]; exact hm)
    refine ⟨cs ++ [c], ⟨by simp [hl], by simp [hsum, Nat.add_comm]⟩, undisturbed_back hat.running hx hun, fun ds x hd h => ?_⟩
    rcases undisturbed_front h with ⟨rfl, rfl⟩ | ⟨c', ds', t1, rfl, -, hx', h'⟩
    · exact ⟨⟨rfl, rfl, rfl⟩, rfl⟩
    · rw [hx] at hx'
      cases hx'
      obtain ⟨h3, h4⟩ := hall ds' x (by simpa using hd) h'
      exact ⟨⟨h3.1.trans h1.1, h3.2.1.trans h1.2.1, h3.2.2.trans h1.2.2⟩, h4.trans h2⟩
end

/-- A program executed line by line behind the fence is executed with the same effect in the whole memory under any schedule of exceptions that are served. Its own
instructions take the same time. -/
theorem executes_interrupted [Writable M] {C : CpuDetails} {p : List Source} {a : U32} {n k : Nat} {s : St M} {u : St (Fenced (bytesIn P) M)} (hp : ∀ l ∈ p, l.Plain)
    (h : Executes C p a n k (⟨s.cpu, ⟨s.mem⟩⟩ : St (Fenced (bytesIn P) M)) u) (hidle : s.cpu.exceptions = []) (hu : s.cpu.regs.sr.s = false) (hm : s.cpu.regs.sr.interruptMask.toNat ≤ 7)
    (hpres : ∀ b, P b = true → (Ram.peek s.mem b).isSome) :
    ∃ cs, (cs.length = n ∧ cs.sum = k) ∧ ∀ {F : U32 → Bool} {depth : Nat} {I : List U8 → M → Prop} {τ : Nat → List U8}, Served C P F depth I τ s →
      ∃ t, Interrupted C τ cs s t ∧ t.cpu.regs = u.cpu.regs ∧ t.cpu.stop = u.cpu.stop ∧ t.cpu.exceptions = [] ∧ AgreeIn P u.mem.mem t.mem ∧ I (requested τ n) t.mem := by
  obtain ⟨cs, ⟨hl, hsum⟩, hun, hall⟩ := executes_undisturbed hp h hu (by show s.cpu.regs.sr.interruptMask.toNat < 8; omega)
  refine ⟨cs, ⟨hl, hsum⟩, fun {F depth I τ} hS => ?_⟩
  obtain ⟨t, h1, h2, h3, h4, h5, h6⟩ := C71_transparent (σ := τ) hun hidle (fun b hb => by
      obtain ⟨v, hv⟩ := Option.isSome_iff_exists.1 (hpres b hb)
      exact ⟨v, hv, hv⟩) hS.ready hS.service hS.own (fun ds w hd hw v hv => by
      obtain ⟨hs, hssp⟩ := hall ds w (by omega) hw
      have e1 : w.cpu.regs.ssp = s.cpu.regs.ssp := hssp
      have e2 : w.cpu.regs.sr.interruptMask = s.cpu.regs.sr.interruptMask := hs.2.2
      refine ⟨?_, ?_, ?_⟩
      · unfold StackIn; rw [e1]; exact hS.stack
      · rw [e2]; exact hS.unmasked _ v hv
      · rw [e2]; exact hm)
  rw [hl] at h6
  exact ⟨t, h1, h2, h3, h4, h5, h6⟩

end M68k.Exec
