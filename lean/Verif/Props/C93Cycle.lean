import Verif.Props.C93
import Verif.Props.C36
import Verif.Props.C60
/-
C93: the time of a compiled program is the argument with which `cycle` executes exactly this program.
-/
namespace M68k.Props
open Spec Exec
set_option linter.unusedSectionVars false
variable {M : Type} [MemoryAccess M] [Ram M] {C : CpuDetails} {s s' t : St M} {n r q w d : Nat} {st : Stmt n} {a : U32} {σ σ' : Store n}

theorem returns_unique (h : Returns (cycle C w s) r s') (h' : Returns (cycle C w s) q t) : r = q ∧ s' = t := by
  obtain ⟨k, h⟩ := h
  obtain ⟨j, h'⟩ := h'
  have e := cycleLoop_mono k j 0 s h
  have e' := cycleLoop_mono j k 0 s h'
  rw [Nat.add_comm] at e'
  rw [e] at e'
  cases e'
  exact ⟨rfl, rfl⟩

theorem line_call {p : List Source} {l : Source} {ws : List U16} {c : Nat} (hat : AtLine p a l ws s) (hb : ∀ b v, l ≠ .btstStatic b (.imm v)) (ht : s.cpu.regs.sr.t = false)
    (he : l.effect C s.cpu.regs.pc (afterWords s ws) = .ok c t) : interpreterException C s = .ok (c, none) t := by
  have hx := C81_line_partial (C := C) hb hat
  rw [he] at hx
  have hx : interpreterException C s = .ok (c, if l.privileged then none else traced s) t := hx
  have ht : traced s = none := by unfold traced; rw [ht]; rfl
  rwa [ht, ite_self] at hx

theorem executes_running {p : List Source} {i k : Nat} (h : Executes C p a i k s s') (hs : s'.cpu.stop = false) : s.cpu.stop = false := by
  cases h with
  | done => exact hs
  | line hat => exact hat.running

theorem executes_cycle (hC : C = mc68000 ∨ C = scc68070) {p : List Source} {i k : Nat} (h : Executes C p a i k s s') (hs : s'.cpu.stop = false) :
    ∀ total, cycleLoop C (total + k) i total s = .done (total + k) s' ∧ cycleUntilExceptionLoop C (total + k) i total s = .done (total + k, none) s' := by
  induction h with
  | done s =>
    intro total
    unfold cycleLoop cycleUntilExceptionLoop
    rw [if_neg (by omega), if_neg (by omega)]
    exact ⟨rfl, rfl⟩
  | @line i c k l ws s s1 s' hat hb ht he hx ih =>
    intro total
    have hi := line_call hat hb ht he
    have hc := quiet_pos hC hat.running hi
    have hr := executes_running hx hs
    have hj : interpreter C s = .ok c s1 := (bind_eq hi).trans rfl
    obtain ⟨h1, h2⟩ := ih hs (total + c)
    rw [show total + (c + k) = total + c + k by omega]
    unfold cycleLoop cycleUntilExceptionLoop
    rw [if_pos (by omega), if_pos (by omega), hj, hi]
    dsimp only
    rw [hr, if_neg (by decide), if_neg (by decide)]
    exact ⟨h1, h2⟩

theorem executes_part {p : List Source} {i k b : Nat} (h : Executes C p a i k s s') (hs : s'.cpu.stop = false) :
    ∀ total, b ≤ total + k → ∃ r t j k', cycleLoop C b i total s = .done r t ∧ b ≤ r ∧ r + k' = total + k ∧ Executes C p a j k' t s' := by
  induction h with
  | done s => exact fun total hb => ⟨total, s, 0, 0, cycleLoop_done _ _ (by omega) _, hb, rfl, .done s⟩
  | @line i c k l ws s s1 s' hat hb ht he hx ih =>
    intro total hk
    by_cases hl : total < b
    · obtain ⟨r, t, j, k', h1, h2, h3, h4⟩ := ih hs (total + c) (by omega)
      refine ⟨r, t, j, k', ?_, h2, by omega, h4⟩
      have hj : interpreter C s = .ok c s1 := (bind_eq (line_call hat hb ht he)).trans rfl
      unfold cycleLoop
      rw [if_pos hl, hj]
      dsimp only
      rw [executes_running hx hs, if_neg (by decide)]
      exact h1
    · exact ⟨total, s, i + 1, c + k, cycleLoop_done _ _ hl _, by omega, rfl, .line hat hb ht he hx⟩

theorem executes_slices (hC : C = mc68000 ∨ C = scc68070) {p : List Source} (hs : s'.cpu.stop = false) : ∀ (ns : List Nat) {i k d : Nat} {s : St M},
    Executes C p a i k s s' → d + k = ns.sum → Sliced C ns d s 0 s'
  | [], i, k, d, s, h, hk => by
    have hk : d + k = 0 := hk
    obtain ⟨rfl, rfl⟩ : d = 0 ∧ k = 0 := ⟨by omega, by omega⟩
    have := (executes_cycle hC h hs 0).1
    rw [cycleLoop_done _ _ (by omega)] at this
    cases this
    exact .nil 0 _
  | n :: ns, i, k, d, s, h, hk => by
    rw [List.sum_cons] at hk
    by_cases hd : n ≤ d
    · refine .cons (r := 0) (t := s) ⟨0, ?_⟩ (executes_running h hs) (executes_slices hC hs ns h (by omega))
      rw [show n - d = 0 by omega]
      exact cycleLoop_done _ _ (by omega) _
    · obtain ⟨r, t, j, k', h1, h2, h3, h4⟩ := executes_part (b := n - d) h hs 0 (by omega)
      exact .cons ⟨i, h1⟩ (executes_running h4 hs) (executes_slices hC hs ns h4 (by omega))

variable [Writable M]

/-- Called with the time that the statement has in the source, `cycle` and `cycle_until_exception` execute the statement and nothing else: they return this time, without an
exception, and leave the core behind the code with the values of the source in the variables. -/
theorem C93_cycle (hC : C = mc68000 ∨ C = scc68070) (h : Prepared st a σ s) (hr : PerformsTimed C st σ σ' w) :
    ∃ s', Returns (cycle C w s) w s' ∧ Returns (cycleUntilException C w s) (w, none) s' ∧ Finished st a σ' s s' := by
  obtain ⟨all, hl, he⟩ := prepared_env h
  obtain ⟨op, d, sr, m', ⟨i, hx⟩, hd, hs, ho, he'⟩ := Timed.stmt_ends (C := C) hr he (Nat.le_refl _) (prepared_here h) (placed_all st a)
  rw [Nat.zero_add] at hx he'
  obtain ⟨h1, h2⟩ := executes_cycle hC hx he'.running 0
  rw [Nat.zero_add] at h1 h2
  exact ⟨_, ⟨i, h1⟩, ⟨i, h2⟩, rfl, he'.vars, ho, ⟨rfl, rfl, rfl⟩, hd, hs, he'.running, he'.idle⟩

/-- So does a host that divides this time into any number of slices of any lengths, and takes what a slice has run over from the following ones: all slices return, after the last one there
is no debt, and the statement is finished. -/
theorem C93_slices (hC : C = mc68000 ∨ C = scc68070) (h : Prepared st a σ s) {ns : List Nat} (hr : PerformsTimed C st σ σ' ns.sum) :
    (∃ t, Sliced C ns 0 s 0 t) ∧ ∀ {d t}, Sliced C ns 0 s d t → d = 0 ∧ Finished st a σ' s t := by
  constructor
  · obtain ⟨all, hl, he⟩ := prepared_env h
    obtain ⟨op, d, sr, m', ⟨i, hx⟩, hd, hs, ho, he'⟩ := Timed.stmt_ends (C := C) hr he (Nat.le_refl _) (prepared_here h) (placed_all st a)
    exact ⟨_, executes_slices hC he'.running ns hx (Nat.zero_add _)⟩
  · intro d t hs
    obtain ⟨s', h1, -, hf⟩ := C93_cycle hC h hr
    obtain ⟨h2, rfl⟩ := returns_unique h1 (C60_slices hs h.running)
    exact ⟨by omega, hf⟩

/-- The program of C87 with `x = 3`: `cycle(1020)`. -/
example : ∃ s', Returns (cycle mc68000 1020 addUpDemo) 1020 s' ∧ s'.cpu.regs.pc = at_ 0x10 (2 * addUp.size) := by
  obtain ⟨σ', hr⟩ := addUp_time 3 addUpStore rfl (by decide)
  obtain ⟨s', h, -, hf⟩ := C93_cycle (.inl rfl) addUp_prepared hr
  exact ⟨s', h, hf.pc⟩

/-- Three slices of 5, 1000 and 15 cycles. -/
example : ∃ t, Sliced mc68000 [5, 1000, 15] 0 addUpDemo 0 t ∧ t.cpu.regs.pc = at_ 0x10 (2 * addUp.size) := by
  obtain ⟨σ', hr⟩ := addUp_time 3 addUpStore rfl (by decide)
  obtain ⟨⟨t, ht⟩, h⟩ := C93_slices (.inl rfl) addUp_prepared (ns := [5, 1000, 15]) hr
  exact ⟨t, ht, (h ht).2.pc⟩

end M68k.Props
