import Verif.Lemmas.CompileStmt
import Verif.Props.C81
import Verif.Props.Demo
/-
C87: programs compiled with the assembler compute what their source means.

`Spec/Compile.lean` has a small language (32-bit expressions, conditions, assignments, alternatives, loops), its meaning (`Performs st σ σ'`: the statement `st` begun with the values `σ` of
the variables ends with `σ'`), and a compiler that writes the code with the functions of the assembler. `Prepared` says that the code is loaded and that its variables and stack exist;
`Finished` says what is different at the end.
-/
namespace M68k.Props
open Spec Exec
set_option linter.unusedSectionVars false
variable {M : Type} [MemoryAccess M] [Ram M] [Writable M] {C : CpuDetails} {s : St M} {n : Nat} {st : Stmt n} {a : U32} {σ σ' : Store n}

/-- Every statement compiles: no function of the assembler panics, and the code has as many words as the compiler reckons with. -/
theorem C87_assembles (st : Stmt n) (a : U32) : ∃ ws, Source.program (st.code a) = some ws ∧ ws.length = st.size := stmt_sized st a

theorem prepared_env (h : Prepared st a σ s) : ∃ all, all.length = st.size ∧ Env (st.code a) all a (s.cpu.regs.a 6) σ (areg s.cpu.regs 7) st.room s := by
  obtain ⟨ws, hw, hl⟩ := stmt_sized st a
  obtain ⟨ws', hw', hh⟩ := h.code
  obtain rfl : ws = ws' := Option.some.inj (hw.symm.trans hw')
  exact ⟨ws, hl, hl ▸ h.apart, hw, hh, h.running, h.idle, h.untraced, rfl, rfl, h.vars, h.room⟩

theorem prepared_here (h : Prepared st a σ s) : s.cpu.regs.pc = at_ a (2 * 0) := h.here.trans (at_zero a).symm

theorem placed_all (st : Stmt n) (a : U32) : PartAt (st.code a) (st.code (at_ a (2 * 0))) 0 := by
  rw [Nat.mul_zero, at_zero]
  exact ⟨[], [], by simp, [], rfl, rfl⟩

/-- A statement that ends: some number of calls of `interpreter` completes it, with the values of its variables that it has in the source. -/
theorem C87_ends (h : Prepared st a σ s) (hr : Performs st σ σ') : ∃ m c s', calls C m s = .ok c s' ∧ Finished st a σ' s s' := by
  obtain ⟨all, hl, he⟩ := prepared_env h
  obtain ⟨op, d, sr, m', ⟨i, c, -, hx⟩, hd, hs, ho, he'⟩ := stmt_ends (C := C) hr he (Nat.le_refl _) (prepared_here h) (placed_all st a)
  rw [Nat.zero_add] at hx he'
  exact ⟨i, c, _, C81_program_partial hx, rfl, he'.vars, ho, ⟨rfl, rfl, rfl⟩, hd, hs, he'.running, he'.idle⟩

theorem executes_prefix {p : List Source} {s s' : St M} {i k : Nat} (h : Executes C p a i k s s') : ∀ {j}, j < i → ∃ c t l ws, Executes C p a j c s t ∧ AtLine p a l ws t := by
  induction h with
  | done s => intro j hj; omega
  | @line i c k l ws s s1 s' hat hb ht he _ ih =>
    intro j hj
    match j with
    | 0 => exact ⟨0, s, l, ws, .done s, hat⟩
    | j + 1 =>
      obtain ⟨c', t, l', ws', hx, ha⟩ := ih (j := j) (by omega)
      exact ⟨c + c', t, l', ws', .line hat hb ht he hx, ha⟩

/-- A statement that does not end: the core goes on for ever in its code, whatever the number of calls. -/
theorem C87_forever (h : Prepared st a σ s) (hr : ¬ ∃ σ', Performs st σ σ') (m : Nat) : ∃ c t, calls C m s = .ok c t ∧ ∃ j < st.size, t.cpu.regs.pc = at_ a (2 * j) := by
  obtain ⟨all, hl, he⟩ := prepared_env h
  have hn : runFor (m + 1) st σ = none := by
    cases hx : runFor (m + 1) st σ with
    | none => rfl
    | some σ' => exact absurd ⟨σ', runFor_sound _ st _ _ hx⟩ hr
  obtain ⟨u, i, k, hi, hx⟩ := stmt_lasts (C := C) (m + 1) st he (Nat.le_refl _) (prepared_here h) (placed_all st a) hn
  obtain ⟨c, t, l, ws, hx', hat⟩ := executes_prefix hx (j := m) (by omega)
  refine ⟨c, t, C81_program_partial hx', ?_⟩
  obtain ⟨b, f, ws0, hp, h0, hpc⟩ := hat.here
  refine ⟨ws0.length, ?_, hpc⟩
  obtain ⟨w0, w1, hw0, hw1, hall⟩ := program_append (hp ▸ he.words)
  obtain rfl : ws0 = w0 := Option.some.inj (h0.symm.trans hw0)
  have hlen : w1.length ≠ 0 := by
    intro hz
    unfold Source.program at hw1
    rw [hat.words] at hw1
    split at hw1
    · rename_i x y hx hy
      cases hx
      cases hw1
      rw [List.length_append] at hz
      have : ws = [] := List.eq_nil_of_length_eq_zero (by omega)
      exact assemble_ne_nil l (this ▸ hat.words)
    · cases hw1
  have := congrArg List.length hall
  rw [List.length_append] at this
  omega

/-- The core gets behind the code if and only if the statement ends. -/
theorem C87_iff (h : Prepared st a σ s) (hs : 2 * st.size < 2 ^ 32) :
    (∃ m c t, calls C m s = .ok c t ∧ t.cpu.regs.pc = at_ a (2 * st.size)) ↔ ∃ σ', Performs st σ σ' := by
  constructor
  · rintro ⟨m, c, t, hc, hp⟩
    refine Classical.byContradiction fun hn => ?_
    obtain ⟨c', t', hc', j, hj, hp'⟩ := C87_forever (C := C) h hn m
    rw [hc] at hc'
    cases hc'
    have := at_inj (by omega) (by omega) (hp.symm.trans hp')
    omega
  · rintro ⟨σ', hr⟩
    obtain ⟨m, c, s', hc, hf⟩ := C87_ends (C := C) h hr
    exact ⟨m, c, s', hc, hf.pc⟩

/-! ### The hypotheses are met -/

/-- `while (x ≠ 0 && !(x < 0)) { y := y + x; x := x - 1 }` -/
def addUp : Stmt 2 := .loop (.and (.rel .ne (.var 0) (.const 0)) (.not (.rel .lt (.var 0) (.const 0))))
  (.seq (.assign 1 (.bin .add (.var 1) (.var 0))) (.assign 0 (.bin .sub (.var 0) (.const 1))))

/-- Its code at 0x10. -/
def addUpWords : List U16 := [0x203C, 0, 0, 0x2F00, 0x202E, 0, 0x221F, 0xB081, 0x6606, 0x4EF9, 0, 0x0072, 0x203C, 0, 0, 0x2F00, 0x202E, 0, 0x221F, 0xB081, 0x6D06, 0x4EF9, 0, 0x0046, 0x4EF9, 0, 0x0072, 0x202E, 0, 0x2F00, 0x202E, 4, 0x221F, 0xD081, 0x2D40, 4, 0x203C, 0, 1, 0x2F00, 0x202E, 0, 0x221F, 0x9081, 0x2D40, 0, 0x4EF9, 0, 16]

theorem addUp_words : Source.program (addUp.code 0x10) = some addUpWords := by decide +kernel

def addUpStore : Store 2 := fun i => if i = 0 then 3 else 10

/-- The code at 0x10, the variables at 0x74, four bytes of stack below 0x80. -/
def addUpDemo : St WordSlice :=
  { mem := ⟨List.replicate 8 0xAAAA ++ addUpWords ++ [0xBBBB] ++ [0, 3, 0, 10] ++ [0xCCCC, 0xDDDD]⟩
    cpu := { regs := { Demo.regs [1, 2, 3] [0, 0, 0, 0, 0, 0, 0x74, 0x80] with pc := 0x10 }, currentOpcode := 0, stop := false, exceptions := [] } }

theorem addUp_apart : SplitMem 2 49 4 0x10 0x74 0x80 where
  codeEven := by decide
  varsEven := by decide
  stackEven := by decide
  count := by decide
  stack := by decide
  codeVars := by
    have h : ∀ (i : Fin 98) (j : Fin 8), at_ 0x10 i.val ≠ at_ 0x74 j.val := by decide +kernel
    exact fun i hi j hj => h ⟨i, hi⟩ ⟨j, hj⟩
  codeStack := by
    have h : ∀ (i : Fin 98) (k : Fin 4), at_ 0x10 i.val ≠ 0x80 - BitVec.ofNat 32 (k.val + 1) := by decide +kernel
    exact fun i hi ⟨k, hk, e⟩ => h ⟨i, hi⟩ ⟨k, hk⟩ e
  varsStack := by
    have h : ∀ (i : Fin 8) (k : Fin 4), at_ 0x74 i.val ≠ 0x80 - BitVec.ofNat 32 (k.val + 1) := by decide +kernel
    exact fun i hi ⟨k, hk, e⟩ => h ⟨i, hi⟩ ⟨k, hk⟩ e

theorem addUp_prepared : Prepared addUp 0x10 addUpStore addUpDemo where
  apart := addUp_apart
  running := rfl
  idle := rfl
  untraced := rfl
  here := rfl
  code := ⟨addUpWords, addUp_words, by
    have h : ∀ (i : Fin 49) (k : Fin 2), Ram.peek addUpDemo.mem (at_ (at_ 0x10 (2 * i.val)) k.val) = some (beByte (sz := .Word) (addUpWords[i.val]'i.isLt) k.val) := by decide +kernel
    exact fun i hi k hk => h ⟨i, hi⟩ ⟨k, hk⟩⟩
  vars := by
    have h : ∀ (i : Fin 2) (k : Fin 4), Ram.peek addUpDemo.mem (at_ (at_ 0x74 (4 * i.val)) k.val) = some (beByte (sz := .Long) (addUpStore i) k.val) := by decide +kernel
    exact fun i k hk => h i ⟨k, hk⟩
  room := by
    have h : ∀ k : Fin 4, (Ram.peek addUpDemo.mem (0x80 - BitVec.ofNat 32 (k.val + 1))).isSome := by decide +kernel
    rintro b ⟨k, hk, rfl⟩
    exact h ⟨k, hk⟩

/-- 10 + 3 + 2 + 1. -/
theorem addUp_performs : ∃ σ', Performs addUp addUpStore σ' ∧ σ' 0 = 0 ∧ σ' 1 = 16 := by
  have h : (match runFor 4 addUp addUpStore with | some σ => σ 0 == 0 && σ 1 == 16 | none => false) = true := by decide +kernel
  split at h
  · next σ e =>
    simp only [Bool.and_eq_true, beq_iff_eq] at h
    exact ⟨σ, runFor_sound _ _ _ _ e, h.1, h.2⟩
  · exact nomatch h

example : ∃ m c s' σ', calls mc68000 m addUpDemo = .ok c s' ∧ Finished addUp 0x10 σ' addUpDemo s' ∧ σ' 1 = 16 := by
  obtain ⟨σ', hr, -, h1⟩ := addUp_performs
  obtain ⟨m, c, s', hc, hf⟩ := C87_ends (C := mc68000) addUp_prepared hr
  exact ⟨m, c, s', σ', hc, hf, h1⟩

/-- A statement that does not end: `while (x = x) {}`. -/
example (σ : Store 1) : ¬ ∃ σ', Performs (.loop (.rel .eq (.var 0) (.var 0)) .skip) σ σ' := by
  rintro ⟨σ', h⟩
  generalize hst : (Stmt.loop (.rel .eq (.var 0) (.var 0)) .skip : Stmt 1) = st at h
  induction h with
  | loopEnd hc => cases hst; simp [Cond.eval, Rel.holds] at hc
  | loopTurn hc _ _ _ ih => exact ih hst
  | _ => cases hst

end M68k.Props
