import Verif.Lemmas.RoutinesRun
import Verif.Props.C87
/-
C88: compiled programs with recursive procedures compute what their source means, whatever the depth of the calls.

`Spec/Routines.lean` adds procedures (`call f`) and local variables (`keep i s`) to the language of C87. `PerformsIn ps st σ σ' u` is its meaning: with the procedures `ps`, the statement
`st` begun with `σ` ends with `σ'` and uses at most `u` bytes of the stack. `ExceedsIn ps st σ r` says that `r` bytes are not enough. Calls are JSR and RTS, local values are on the stack.
-/
namespace M68k.Props
open Spec Exec
set_option linter.unusedSectionVars false
variable {M : Type} [MemoryAccess M] [Ram M] [Writable M] {C : CpuDetails} {s : St M} {n : Nat} {ps : List (Cmd n)} {st : Cmd n} {a : U32} {σ σ' : Store n} {room u : Nat}

/-- Every program compiles: no function of the assembler panics, and the code has as many words as the compiler reckons with. -/
theorem C88_assembles (ps : List (Cmd n)) (st : Cmd n) (a : U32) : ∃ ws, Source.program (wholeCode ps st a) = some ws ∧ ws.length = wholeSize ps st :=
  sized_append (routines_sized ps _ _) (cmd_sized st _ _)

theorem launched_env (h : Launched ps st a σ room s) : ∃ all, all.length = wholeSize ps st ∧ Env (wholeCode ps st a) all a (s.cpu.regs.a 6) σ (areg s.cpu.regs 7) room s := by
  obtain ⟨ws, hw, hl⟩ := C88_assembles ps st a
  obtain ⟨ws', hw', hh⟩ := h.code
  obtain rfl : ws = ws' := Option.some.inj (hw.symm.trans hw')
  exact ⟨ws, hl, hl ▸ h.apart, hw, hh, h.running, h.idle, h.untraced, rfl, rfl, h.vars, h.room⟩

theorem placed_routines (ps : List (Cmd n)) (st : Cmd n) (a : U32) : PartAt (wholeCode ps st a) (routinesCode (entryOf ps a) a ps) 0 := ⟨[], _, rfl, [], rfl, rfl⟩

theorem placed_main (ps : List (Cmd n)) (st : Cmd n) (a : U32) : PartAt (wholeCode ps st a) (st.code (entryOf ps a) (at_ a (2 * routinesSize ps))) (routinesSize ps) :=
  ⟨_, [], by rw [List.append_nil]; rfl, routines_sized ps _ _⟩

/-- A statement that ends, with the stack it needs: some number of calls of `interpreter` completes it, with the values of its variables that it has in the source. -/
theorem C88_ends (h : Launched ps st a σ room s) (hr : PerformsIn ps st σ σ' u) (hu : u ≤ room) : ∃ m c s', calls C m s = .ok c s' ∧ Landed ps st a σ' room s s' := by
  obtain ⟨all, hl, he⟩ := launched_env h
  obtain ⟨op, d, sr, m', ⟨i, c, -, hx⟩, hd, hs, ho, he'⟩ := cmd_ends (C := C) (placed_routines ps st a) hr he hu h.here (placed_main ps st a)
  exact ⟨i, c, _, C81_program_partial hx, rfl, he'.vars, ho, ⟨rfl, rfl, rfl⟩, hd, hs, he'.running, he'.idle⟩

theorem within_code {p : List Source} {all ws : List U16} {l : Source} {t : St M} (hw : Source.program p = some all) (hat : AtLine p a l ws t) : ∃ j < all.length, t.cpu.regs.pc = at_ a (2 * j) := by
  obtain ⟨b, f, ws0, hp, h0, hpc⟩ := hat.here
  refine ⟨ws0.length, ?_, hpc⟩
  obtain ⟨w0, w1, hw0, hw1, hall⟩ := program_append (hp ▸ hw)
  obtain rfl : ws0 = w0 := Option.some.inj (h0.symm.trans hw0)
  have hlen : w1.length ≠ 0 := by
    intro hz
    unfold Source.program at hw1
    rw [hat.words] at hw1
    split at hw1
    · rename_i x y hx hy
      cases hx
      cases hw1
      rw [List.length_append] at hz
      have : ws = [] := List.eq_nil_of_length_eq_zero (by omega)
      exact assemble_ne_nil l (this ▸ hat.words)
    · cases hw1
  have := congrArg List.length hall
  rw [List.length_append] at this
  omega

/-- A statement that does not end, and whose stack is never too small: the core goes on for ever in the code of the program, whatever the number of calls. -/
theorem C88_forever (h : Launched ps st a σ room s) (hr : ¬ ∃ σ' u, PerformsIn ps st σ σ' u) (hx : ¬ ExceedsIn ps st σ room) (m : Nat) :
    ∃ c t, calls C m s = .ok c t ∧ ∃ j < wholeSize ps st, t.cpu.regs.pc = at_ a (2 * j) := by
  obtain ⟨all, hl, he⟩ := launched_env h
  have hright := runIn_right (ps := ps) (m + 1) room st room σ (by omega)
  have hn : runIn ps (m + 1) room st room σ = .more := by
    cases ho : runIn ps (m + 1) room st room σ with
    | done σ' => rw [ho] at hright; obtain ⟨u, -, hp⟩ := hright; exact absurd ⟨σ', u, hp⟩ hr
    | over => rw [ho] at hright; exact absurd hright hx
    | more => rfl
  obtain ⟨v, i, k, hi, hx⟩ := runIn_lasts (C := C) (placed_routines ps st a) (m + 1) room st room σ (by omega) he h.here (placed_main ps st a) hn
  obtain ⟨c, t, l, ws, hx', hat⟩ := executes_prefix hx (j := m) (by omega)
  exact ⟨c, t, C81_program_partial hx', hl ▸ within_code he.words hat⟩

/-- What a statement ends with is determined; and it ends within any stack that is not too small. -/
theorem C88_determined (h : PerformsIn ps st σ σ' u) : (∀ σ'' v, PerformsIn ps st σ σ'' v → σ'' = σ' ∧ v = u) ∧ (¬ ExceedsIn ps st σ room → u ≤ room) :=
  ⟨fun _ _ h' => performs_unique h h', fun hx => Nat.le_of_not_lt fun hlt => hx (performs_exceeds h hlt)⟩

/-- If the stack is never too small, the core gets behind the code if and only if the statement ends. -/
theorem C88_iff (h : Launched ps st a σ room s) (hx : ¬ ExceedsIn ps st σ room) (hs : 2 * wholeSize ps st < 2 ^ 32) :
    (∃ m c t, calls C m s = .ok c t ∧ t.cpu.regs.pc = at_ a (2 * wholeSize ps st)) ↔ ∃ σ' u, PerformsIn ps st σ σ' u := by
  constructor
  · rintro ⟨m, c, t, hc, hp⟩
    refine Classical.byContradiction fun hn => ?_
    obtain ⟨c', t', hc', j, hj, hp'⟩ := C88_forever (C := C) h hn hx m
    rw [hc] at hc'
    cases hc'
    have := at_inj (by omega) (by omega) (hp.symm.trans hp')
    omega
  · rintro ⟨σ', u, hr⟩
    obtain ⟨m, c, s', hc, hf⟩ := C88_ends (C := C) h hr ((C88_determined hr).2 hx)
    exact ⟨m, c, s', hc, hf.pc⟩

/-! ### The hypotheses are met -/

/-- `procedure 0: if (x ≠ 0) { { local x; x := x - 1; call 0 }; y := y + x }` -/
def addDown : Cmd 2 := .ite (.rel .ne (.var 0) (.const 0))
  (.seq (.keep 0 (.seq (.assign 0 (.bin .sub (.var 0) (.const 1))) (.call 0))) (.assign 1 (.bin .add (.var 1) (.var 0)))) .skip

/-- x + (x - 1) + … + 1 -/
def upTo : Nat → U32
  | 0 => 0
  | x + 1 => upTo x + BitVec.ofNat 32 (x + 1)

/-- For every value of x, by recursion of that depth: y gets the sum of the numbers to x added, x is as it was, and the stack used is 8 * x + 8. -/
theorem addDown_performs (x : Nat) : ∀ σ : Store 2, σ 0 = BitVec.ofNat 32 x → x < 2 ^ 32 → ∃ σ', PerformsIn [addDown] (.call 0) σ σ' (8 * x + 8) ∧ σ' 0 = σ 0 ∧ σ' 1 = σ 1 + upTo x := by
  induction x with
  | zero =>
    intro σ h _
    refine ⟨σ, .call (u := 4) rfl (.iteFalse (u := 0) ?_ (.skip σ)), rfl, ?_⟩
    · simp [Cond.eval, Rel.holds, Expr.eval, h]
    · simp [upTo]
  | succ x ih =>
    intro σ h hx
    obtain ⟨σ1, h1, h2, h3⟩ := ih (σ.set 0 (σ 0 - 1)) (by
      show σ 0 - 1 = _
      rw [h]
      apply BitVec.eq_of_toNat_eq
      simp only [BitVec.toNat_sub, BitVec.toNat_ofNat]
      have : (1 : U32).toNat = 1 := rfl
      omega) (by omega)
    have e : 8 * (x + 1) + 8 = 4 + max 4 (max (4 + max 4 (8 * x + 8)) 4) := by omega
    rw [e]
    refine ⟨(σ1.set 0 (σ 0)).set 1 (σ1 1 + σ 0), .call (u := max 4 (max (4 + max 4 (8 * x + 8)) 4)) rfl (.iteTrue (u := max (4 + max 4 (8 * x + 8)) 4) ?_ (.seq (.keep (.seq (.assign 0 _ _) h1)) ?_)), rfl, ?_⟩
    · simp only [Cond.eval, Rel.holds, Expr.eval, h, bne_iff_ne, ne_eq, decide_eq_true_eq]
      intro h0
      have := congrArg BitVec.toNat h0
      simp only [BitVec.toNat_ofNat] at this
      have : (0 : U32).toNat = 0 := rfl
      omega
    · exact .assign 1 (.bin .add (.var 1) (.var 0)) _
    · show σ1 1 + σ 0 = _
      rw [h3, h]
      show σ 1 + upTo x + _ = σ 1 + (upTo x + _)
      rw [BitVec.add_assoc]

/-- The code of the procedure and of `call 0`, at 0x10. -/
def addDownWords : List U16 := [0x203C, 0, 0, 0x2F00, 0x202E, 0, 0x221F, 0xB081, 0x6606, 0x4EF9, 0, 0x0066, 0x202E, 0, 0x2F00, 0x203C, 0, 1, 0x2F00, 0x202E, 0, 0x221F, 0x9081, 0x2D40, 0, 0x4EB9, 0, 0x0010, 0x221F, 0x2D41, 0, 0x202E, 0, 0x2F00, 0x202E, 4, 0x221F, 0xD081, 0x2D40, 4, 0x4EF9, 0, 0x0066, 0x4E75, 0x4EB9, 0, 0x0010]

theorem addDown_words : Source.program (wholeCode [addDown] (.call 0) 0x10) = some addDownWords := by decide +kernel

def addDownStore : Store 2 := fun i => if i = 0 then 3 else 10

/-- The code at 0x10, the variables at 0x70, 32 bytes of stack below 0x98. -/
def addDownDemo : St WordSlice :=
  { mem := ⟨List.replicate 8 0xAAAA ++ addDownWords ++ [0xBBBB] ++ [0, 3, 0, 10] ++ List.replicate 16 0xCCCC⟩
    cpu := { regs := { Demo.regs [1, 2, 3] [0, 0, 0, 0, 0, 0, 0x70, 0x98] with pc := 0x68 }, currentOpcode := 0, stop := false, exceptions := [] } }

theorem addDown_apart : SplitMem 2 47 32 0x10 0x70 0x98 where
  codeEven := by decide
  varsEven := by decide
  stackEven := by decide
  count := by decide
  stack := by decide
  codeVars := by
    have h : ∀ (i : Fin 94) (j : Fin 8), at_ 0x10 i.val ≠ at_ 0x70 j.val := by decide +kernel
    exact fun i hi j hj => h ⟨i, hi⟩ ⟨j, hj⟩
  codeStack := by
    have h : ∀ (i : Fin 94) (k : Fin 32), at_ 0x10 i.val ≠ 0x98 - BitVec.ofNat 32 (k.val + 1) := by decide +kernel
    exact fun i hi ⟨k, hk, e⟩ => h ⟨i, hi⟩ ⟨k, hk⟩ e
  varsStack := by
    have h : ∀ (i : Fin 8) (k : Fin 32), at_ 0x70 i.val ≠ 0x98 - BitVec.ofNat 32 (k.val + 1) := by decide +kernel
    exact fun i hi ⟨k, hk, e⟩ => h ⟨i, hi⟩ ⟨k, hk⟩ e

theorem addDown_launched : Launched [addDown] (.call 0) 0x10 addDownStore 32 addDownDemo where
  apart := addDown_apart
  running := rfl
  idle := rfl
  untraced := rfl
  here := rfl
  code := ⟨addDownWords, addDown_words, by
    have h : ∀ (i : Fin 47) (k : Fin 2), Ram.peek addDownDemo.mem (at_ (at_ 0x10 (2 * i.val)) k.val) = some (beByte (sz := .Word) (addDownWords[i.val]'i.isLt) k.val) := by decide +kernel
    exact fun i hi k hk => h ⟨i, hi⟩ ⟨k, hk⟩⟩
  vars := by
    have h : ∀ (i : Fin 2) (k : Fin 4), Ram.peek addDownDemo.mem (at_ (at_ 0x70 (4 * i.val)) k.val) = some (beByte (sz := .Long) (addDownStore i) k.val) := by decide +kernel
    exact fun i k hk => h i ⟨k, hk⟩
  room := by
    have h : ∀ k : Fin 32, (Ram.peek addDownDemo.mem (0x98 - BitVec.ofNat 32 (k.val + 1))).isSome := by decide +kernel
    rintro b ⟨k, hk, rfl⟩
    exact h ⟨k, hk⟩

/-- 10 + 1 + 2 + 3, with four calls at a time. -/
example : ∃ m c s' σ', calls mc68000 m addDownDemo = .ok c s' ∧ Landed [addDown] (.call 0) 0x10 σ' 32 addDownDemo s' ∧ σ' 0 = 3 ∧ σ' 1 = 16 := by
  obtain ⟨σ', hr, h0, h1⟩ := addDown_performs 3 addDownStore rfl (by decide)
  obtain ⟨m, c, s', hc, hf⟩ := C88_ends (C := mc68000) addDown_launched hr (Nat.le_refl _)
  exact ⟨m, c, s', σ', hc, hf, h0, h1⟩

/-- 31 bytes are not enough. -/
example : ExceedsIn [addDown] (.call 0) addDownStore 31 := by
  obtain ⟨σ', hr, -, -⟩ := addDown_performs 3 addDownStore rfl (by decide)
  exact performs_exceeds hr (by decide)

/-- A statement that does not end within a bounded stack: `while (x = x) { call 0 }` with a procedure that does nothing. -/
def spinning : Cmd 1 := .loop (.rel .eq (.var 0) (.var 0)) (.call 0)

example (σ : Store 1) : (¬ ∃ σ' u, PerformsIn [.skip] spinning σ σ' u) ∧ ¬ ExceedsIn [.skip] spinning σ 4 := by
  constructor
  · rintro ⟨σ', u, h⟩
    generalize hst : spinning = st at h
    induction h with
    | loopEnd hc => cases hst; simp [Cond.eval, Rel.holds] at hc
    | loopTurn hc _ _ _ ih => exact ih hst
    | _ => cases hst
  · intro h
    generalize hst : spinning = st at h
    generalize h4 : 4 = r at h
    have hcall : ∀ σ : Store 1, ¬ ExceedsIn [.skip] (.call 0) σ 4 := by
      intro σ h
      generalize h4 : 4 = r at h
      cases h with
      | callNone h => cases h
      | callSave h => omega
      | callBody h1 h2 => cases h1; cases h2
    induction h with
    | loopCond hr => cases hst; subst h4; exact absurd hr (by decide)
    | loopBody _ h => cases hst; subst h4; exact hcall _ h
    | loopRest _ _ _ ih => exact ih hst h4
    | _ => cases hst

end M68k.Props
