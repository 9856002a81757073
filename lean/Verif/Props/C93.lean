import Verif.Lemmas.CompileTime
import Verif.Props.C87
/-
C93: the time of compiled programs.

`Spec/CompileTime.lean` adds the time to the meaning of the language of C87 (`PerformsTimed C st σ σ' w`: the statement takes `w` cycles), in terms of the source and of the timing table
of the CPU. The time of the machine code is this time, to the cycle.
-/
namespace M68k.Props
open Spec Exec
set_option linter.unusedSectionVars false
variable {M : Type} [MemoryAccess M] [Ram M] [Writable M] {C : CpuDetails} {s s' t : St M} {n m j w v : Nat} {st : Stmt n} {a : U32} {σ σ' τ τ' : Store n}

/-- The time adds nothing to the meaning: a statement ends with certain values if and only if it does so in some time. -/
theorem C93_meaning : Performs st σ σ' ↔ ∃ w, PerformsTimed C st σ σ' w := by
  constructor
  · intro h
    induction h with
    | skip σ => exact ⟨_, .skip σ⟩
    | assign i e σ => exact ⟨_, .assign i e σ⟩
    | seq _ _ ih1 ih2 => exact ih1.elim fun _ h1 => ih2.elim fun _ h2 => ⟨_, .seq h1 h2⟩
    | iteTrue hc _ ih => exact ih.elim fun _ h => ⟨_, .iteTrue hc h⟩
    | iteFalse hc _ ih => exact ih.elim fun _ h => ⟨_, .iteFalse hc h⟩
    | loopEnd hc => exact ⟨_, .loopEnd hc⟩
    | loopTurn hc _ _ ih1 ih2 => exact ih1.elim fun _ h1 => ih2.elim fun _ h2 => ⟨_, .loopTurn hc h1 h2⟩
  · rintro ⟨w, h⟩
    induction h with
    | skip σ => exact .skip σ
    | assign i e σ => exact .assign i e σ
    | seq _ _ ih1 ih2 => exact .seq ih1 ih2
    | iteTrue hc _ ih => exact .iteTrue hc ih
    | iteFalse hc _ ih => exact .iteFalse hc ih
    | loopEnd hc => exact .loopEnd hc
    | loopTurn hc _ _ ih1 ih2 => exact .loopTurn hc ih1 ih2

theorem line_within {l : Source} {ws all : List U16} (hw : Source.program (st.code a) = some all) (hl : all.length = st.size) (hat : AtLine (st.code a) a l ws t) :
    ∃ j < st.size, t.cpu.regs.pc = at_ a (2 * j) := by
  obtain ⟨b, f, ws0, hp, h0, hpc⟩ := hat.here
  refine ⟨ws0.length, ?_, hpc⟩
  obtain ⟨w0, w1, hw0, hw1, hall⟩ := program_append (hp ▸ hw)
  obtain rfl : ws0 = w0 := Option.some.inj (h0.symm.trans hw0)
  have hlen : w1.length ≠ 0 := by
    intro hz
    unfold Source.program at hw1
    rw [hat.words] at hw1
    split at hw1
    · rename_i x y hx hy
      cases hx
      cases hw1
      rw [List.length_append] at hz
      have : ws = [] := List.eq_nil_of_length_eq_zero (by omega)
      exact assemble_ne_nil l (this ▸ hat.words)
    · cases hw1
  have := congrArg List.length hall
  rw [List.length_append] at this
  omega

/-- The calls of `interpreter` that complete the statement return, taken together, the time that the statement has in the source. Fewer calls leave the program counter within its code. -/
theorem C93_time (h : Prepared st a σ s) (hr : PerformsTimed C st σ σ' w) : ∃ m s', calls C m s = .ok w s' ∧ Finished st a σ' s s' ∧
    ∀ j < m, ∃ c t, calls C j s = .ok c t ∧ ∃ l < st.size, t.cpu.regs.pc = at_ a (2 * l) := by
  obtain ⟨all, hl, he⟩ := prepared_env h
  obtain ⟨op, d, sr, m', ⟨i, hx⟩, hd, hs, ho, he'⟩ := Timed.stmt_ends (C := C) hr he (Nat.le_refl _) (prepared_here h) (placed_all st a)
  rw [Nat.zero_add] at hx he'
  refine ⟨i, _, C81_program_partial hx, ⟨rfl, he'.vars, ho, ⟨rfl, rfl, rfl⟩, hd, hs, he'.running, he'.idle⟩, fun j hj => ?_⟩
  obtain ⟨c, t, l, ws, hx', hat⟩ := executes_prefix hx hj
  exact ⟨c, t, C81_program_partial hx', line_within he.words hl hat⟩

/-- A host that calls `interpreter` until the program counter is behind the code has counted exactly this time, and finds the values of the source in the variables. -/
theorem C93_host (h : Prepared st a σ s) (hs : 2 * st.size < 2 ^ 32) (hr : PerformsTimed C st σ σ' w)
    (hc : calls C m s = .ok v t) (hp : t.cpu.regs.pc = at_ a (2 * st.size))
    (hf : ∀ j < m, ∀ {c u}, calls C j s = .ok c u → u.cpu.regs.pc ≠ at_ a (2 * st.size)) : v = w ∧ Finished st a σ' s t := by
  obtain ⟨i, s', hi, hd, hw⟩ := C93_time h hr
  rcases Nat.lt_trichotomy m i with hlt | rfl | hgt
  · obtain ⟨c, u, hu, l, hl, hpc⟩ := hw m hlt
    rw [hc] at hu
    cases hu
    have := at_inj (by omega) (by omega) (hp.symm.trans hpc)
    omega
  · rw [hc] at hi
    cases hi
    exact ⟨rfl, hd⟩
  · exact absurd hd.pc (hf i hgt hi)

/-- Statement, timing table and values of the variables determine the time (and the values at the end). -/
theorem C93_unique (h : PerformsTimed C st σ σ' w) (h' : PerformsTimed C st σ τ' v) : σ' = τ' ∧ w = v := by
  induction h generalizing τ' v with
  | skip σ => cases h'; exact ⟨rfl, rfl⟩
  | assign i e σ => cases h'; exact ⟨rfl, rfl⟩
  | seq _ _ ih1 ih2 =>
    cases h' with
    | seq h1 h2 =>
      obtain ⟨rfl, rfl⟩ := ih1 h1
      obtain ⟨rfl, rfl⟩ := ih2 h2
      exact ⟨rfl, rfl⟩
  | iteTrue hc _ ih =>
    cases h' with
    | iteTrue _ h1 => obtain ⟨rfl, rfl⟩ := ih h1; exact ⟨rfl, rfl⟩
    | iteFalse hc' _ => rw [hc] at hc'; cases hc'
  | iteFalse hc _ ih =>
    cases h' with
    | iteTrue hc' _ => rw [hc] at hc'; cases hc'
    | iteFalse _ h1 => obtain ⟨rfl, rfl⟩ := ih h1; exact ⟨rfl, rfl⟩
  | loopEnd hc =>
    cases h' with
    | loopEnd _ => exact ⟨rfl, rfl⟩
    | loopTurn hc' _ _ => rw [hc] at hc'; cases hc'
  | loopTurn hc _ _ ih1 ih2 =>
    cases h' with
    | loopEnd hc' => rw [hc] at hc'; cases hc'
    | loopTurn _ h1 h2 =>
      obtain ⟨rfl, rfl⟩ := ih1 h1
      obtain ⟨rfl, rfl⟩ := ih2 h2
      exact ⟨rfl, rfl⟩

/-- A statement without alternatives and loops takes the same time whatever the values of its variables: nothing can be learned about them from the time. -/
theorem C93_straight (hs : st.Straight) (h : PerformsTimed C st σ σ' w) (h' : PerformsTimed C st τ τ' v) : w = v := by
  induction h generalizing τ τ' v with
  | skip σ => cases h'; rfl
  | assign i e σ => cases h'; rfl
  | seq _ _ ih1 ih2 =>
    cases h' with
    | seq h1 h2 => rw [ih1 hs.1 h1, ih2 hs.2 h2]
  | iteTrue | iteFalse | loopEnd | loopTurn => exact hs.elim

/-! ### A program whose time is known for all inputs -/

/-- `while (x ≠ 0 && !(x < 0)) { y := y + x; x := x - 1 }` (of C87) takes 314 cycles for each turn and 78 for the last test on the MC68000, for every `x` that is not negative. -/
theorem addUp_time (k : Nat) : ∀ σ : Store 2, (σ 0).toNat = k → k < 2 ^ 31 → ∃ σ', PerformsTimed mc68000 addUp σ σ' (314 * k + 78) := by
  induction k with
  | zero =>
    intro σ h0 _
    have h0 : σ 0 = 0 := BitVec.eq_of_toNat_eq h0
    have hc : (Cond.and (.rel .ne (.var 0) (.const 0)) (.not (.rel .lt (.var 0) (.const 0)))).eval σ = false := by
      simp [Cond.eval, Expr.eval, Rel.holds, h0]
    have ht : (Cond.and (.rel .ne (.var 0) (.const 0)) (.not (.rel .lt (.var 0) (.const 0)))).time mc68000 σ = 78 := by
      simp only [Cond.time, Cond.eval, Expr.eval, Rel.holds, h0]
      rfl
    have := PerformsTimed.loopEnd (C := mc68000) (s := .seq (.assign 1 (.bin .add (.var 1) (.var 0))) (.assign 0 (.bin .sub (.var 0) (.const 1)))) hc
    rw [ht] at this
    exact ⟨σ, this⟩
  | succ k ih =>
    intro σ hk hlt
    have h0 : σ 0 ≠ 0 := fun h => by rw [h] at hk; cases hk
    have hn : ¬ (σ 0).toInt < (0 : U32).toInt := by
      rw [BitVec.toInt_eq_toNat_of_lt (by omega)]
      show ¬ ((σ 0).toNat : Int) < 0
      omega
    have e1 : Rel.ne.holds (σ 0) 0 = true := decide_eq_true h0
    have e2 : Rel.lt.holds (σ 0) 0 = false := decide_eq_false hn
    have hc : (Cond.and (.rel .ne (.var 0) (.const 0)) (.not (.rel .lt (.var 0) (.const 0)))).eval σ = true := by
      simp only [Cond.eval, Expr.eval, e1, e2]
      rfl
    have ht : (Cond.and (.rel .ne (.var 0) (.const 0)) (.not (.rel .lt (.var 0) (.const 0)))).time mc68000 σ = 146 := by
      simp only [Cond.time, Cond.eval, Expr.eval, e1, e2]
      rfl
    have hb := PerformsTimed.seq (C := mc68000) (.assign 1 (.bin .add (.var 1) (.var 0)) σ) (.assign 0 (.bin .sub (.var 0) (.const 1)) _)
    obtain ⟨σ', h'⟩ := ih _ (show (((σ.set 1 (σ 1 + σ 0)).set 0 ((σ.set 1 (σ 1 + σ 0)) 0 - 1)) 0).toNat = k from by
      show (σ 0 - 1).toNat = k
      rw [BitVec.toNat_sub, hk]
      show (2 ^ 32 - 1 + (k + 1)) % 2 ^ 32 = k
      omega) (by omega)
    have := PerformsTimed.loopTurn hc hb h'
    rw [ht] at this
    refine ⟨σ', ?_⟩
    have e : 314 * (k + 1) + 78 = 146 + (156 + (12 + (314 * k + 78))) := by omega
    rw [e]
    exact this

/-- The core takes exactly this time to execute it, for all values of `x` (below 2^31) and `y`, wherever the code, the variables and the stack are. -/
theorem C93_addUp {σ : Store 2} (h : Prepared addUp a σ s) (hx : (σ 0).toNat < 2 ^ 31) :
    ∃ m s', calls mc68000 m s = .ok (314 * (σ 0).toNat + 78) s' ∧ s'.cpu.regs.pc = at_ a (2 * addUp.size) := by
  obtain ⟨σ', hr⟩ := addUp_time _ σ rfl hx
  obtain ⟨m, s', hc, hf, -⟩ := C93_time h hr
  exact ⟨m, s', hc, hf.pc⟩

/-- The hypotheses: the state of C87 with `x = 3`, 1020 cycles. -/
example : ∃ m s', calls mc68000 m addUpDemo = .ok 1020 s' ∧ s'.cpu.regs.pc = 0x72 :=
  C93_addUp addUp_prepared (by decide)

/-- The host that stops behind this code. -/
example {m v : Nat} {t : St WordSlice} (hc : calls mc68000 m addUpDemo = .ok v t) (hp : t.cpu.regs.pc = at_ 0x10 (2 * addUp.size))
    (hf : ∀ j < m, ∀ {c u}, calls mc68000 j addUpDemo = .ok c u → u.cpu.regs.pc ≠ at_ 0x10 (2 * addUp.size)) : v = 1020 := by
  obtain ⟨σ', hr⟩ := addUp_time 3 addUpStore rfl (by decide)
  exact (C93_host addUp_prepared (by decide) hr hc hp hf).1

/-- The assignment `y := (x + y) * -x` is straight. -/
example : (Stmt.assign 1 (.bin .mul (.bin .add (.var 0) (.var 1)) (.un .neg (.var 0))) : Stmt 2).Straight ∧ ∀ σ : Store 2, ∃ σ',
    PerformsTimed mc68000 (Stmt.assign 1 (.bin .mul (.bin .add (.var 0) (.var 1)) (.un .neg (.var 0))) : Stmt 2) σ σ' 196 := ⟨trivial, fun σ => ⟨_, .assign _ _ σ⟩⟩

end M68k.Props
