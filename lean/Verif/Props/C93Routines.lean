import Verif.Lemmas.RoutinesTime
import Verif.Props.C88
import Verif.Props.C93Cycle
/-
C93: the time of compiled programs with recursive procedures and local variables, the language of C88 (`PerformsInTimed C ps st σ σ' u w`: the statement takes `w` cycles).
-/
namespace M68k.Props
open Spec Exec
set_option linter.unusedSectionVars false
variable {M : Type} [MemoryAccess M] [Ram M] [Writable M] {C : CpuDetails} {s t : St M} {n : Nat} {ps : List (Cmd n)} {st : Cmd n} {a : U32} {σ σ' τ' : Store n} {room u u' w v m : Nat}

/-- The time adds nothing to the meaning. -/
theorem C93_proceduresMeaning : PerformsIn ps st σ σ' u ↔ ∃ w, PerformsInTimed C ps st σ σ' u w := by
  constructor
  · intro h
    induction h with
    | skip σ => exact ⟨_, .skip σ⟩
    | assign i e σ => exact ⟨_, .assign i e σ⟩
    | seq _ _ ih1 ih2 => exact ih1.elim fun _ h1 => ih2.elim fun _ h2 => ⟨_, .seq h1 h2⟩
    | iteTrue hc _ ih => exact ih.elim fun _ h => ⟨_, .iteTrue hc h⟩
    | iteFalse hc _ ih => exact ih.elim fun _ h => ⟨_, .iteFalse hc h⟩
    | loopEnd hc => exact ⟨_, .loopEnd hc⟩
    | loopTurn hc _ _ ih1 ih2 => exact ih1.elim fun _ h1 => ih2.elim fun _ h2 => ⟨_, .loopTurn hc h1 h2⟩
    | keep _ ih => exact ih.elim fun _ h => ⟨_, .keep h⟩
    | call hf _ ih => exact ih.elim fun _ h => ⟨_, .call hf h⟩
  · rintro ⟨w, h⟩
    induction h with
    | skip σ => exact .skip σ
    | assign i e σ => exact .assign i e σ
    | seq _ _ ih1 ih2 => exact .seq ih1 ih2
    | iteTrue hc _ ih => exact .iteTrue hc ih
    | iteFalse hc _ ih => exact .iteFalse hc ih
    | loopEnd hc => exact .loopEnd hc
    | loopTurn hc _ _ ih1 ih2 => exact .loopTurn hc ih1 ih2
    | keep _ ih => exact .keep ih
    | call hf _ ih => exact .call hf ih

/-- The source, the timing table and the values of the variables determine the time. -/
theorem C93_proceduresUnique (h : PerformsInTimed C ps st σ σ' u w) (h' : PerformsInTimed C ps st σ τ' u' v) : σ' = τ' ∧ w = v := by
  induction h generalizing τ' u' v with
  | skip σ => cases h'; exact ⟨rfl, rfl⟩
  | assign i e σ => cases h'; exact ⟨rfl, rfl⟩
  | seq _ _ ih1 ih2 =>
    cases h' with
    | seq h1 h2 =>
      obtain ⟨rfl, rfl⟩ := ih1 h1
      obtain ⟨rfl, rfl⟩ := ih2 h2
      exact ⟨rfl, rfl⟩
  | iteTrue hc _ ih =>
    cases h' with
    | iteTrue _ h1 => obtain ⟨rfl, rfl⟩ := ih h1; exact ⟨rfl, rfl⟩
    | iteFalse hc' _ => rw [hc] at hc'; cases hc'
  | iteFalse hc _ ih =>
    cases h' with
    | iteTrue hc' _ => rw [hc] at hc'; cases hc'
    | iteFalse _ h1 => obtain ⟨rfl, rfl⟩ := ih h1; exact ⟨rfl, rfl⟩
  | loopEnd hc =>
    cases h' with
    | loopEnd _ => exact ⟨rfl, rfl⟩
    | loopTurn hc' _ _ => rw [hc] at hc'; cases hc'
  | loopTurn hc _ _ ih1 ih2 =>
    cases h' with
    | loopEnd hc' => rw [hc] at hc'; cases hc'
    | loopTurn _ h1 h2 =>
      obtain ⟨rfl, rfl⟩ := ih1 h1
      obtain ⟨rfl, rfl⟩ := ih2 h2
      exact ⟨rfl, rfl⟩
  | keep _ ih =>
    cases h' with
    | keep h1 => obtain ⟨rfl, rfl⟩ := ih h1; exact ⟨rfl, rfl⟩
  | call hf _ ih =>
    cases h' with
    | call hf' h1 =>
      obtain rfl := Option.some.inj (hf.symm.trans hf')
      obtain ⟨rfl, rfl⟩ := ih h1
      exact ⟨rfl, rfl⟩

/-- The calls of `interpreter` that complete the statement return, taken together, the time that it has in the source. Fewer calls leave the program counter within the code of the program. -/
theorem C93_procedures (h : Launched ps st a σ room s) (hr : PerformsInTimed C ps st σ σ' u w) (hu : u ≤ room) : ∃ m s', calls C m s = .ok w s' ∧ Landed ps st a σ' room s s' ∧
    ∀ j < m, ∃ c t, calls C j s = .ok c t ∧ ∃ l < wholeSize ps st, t.cpu.regs.pc = at_ a (2 * l) := by
  obtain ⟨all, hl, he⟩ := launched_env h
  obtain ⟨op, d, sr, m', ⟨i, hx⟩, hd, hs, ho, he'⟩ := Timed.cmd_ends (C := C) (placed_routines ps st a) hr he hu h.here (placed_main ps st a)
  refine ⟨i, _, C81_program_partial hx, ⟨rfl, he'.vars, ho, ⟨rfl, rfl, rfl⟩, hd, hs, he'.running, he'.idle⟩, fun j hj => ?_⟩
  obtain ⟨c, t, l, ws, hx', hat⟩ := executes_prefix hx hj
  exact ⟨c, t, C81_program_partial hx', hl ▸ within_code he.words hat⟩

/-- A host that calls `interpreter` until the program counter is behind the code has counted exactly this time. -/
theorem C93_proceduresHost (h : Launched ps st a σ room s) (hs : 2 * wholeSize ps st < 2 ^ 32) (hr : PerformsInTimed C ps st σ σ' u w) (hu : u ≤ room)
    (hc : calls C m s = .ok v t) (hp : t.cpu.regs.pc = at_ a (2 * wholeSize ps st))
    (hf : ∀ j < m, ∀ {c u}, calls C j s = .ok c u → u.cpu.regs.pc ≠ at_ a (2 * wholeSize ps st)) : v = w ∧ Landed ps st a σ' room s t := by
  obtain ⟨i, s', hi, hd, hw⟩ := C93_procedures h hr hu
  rcases Nat.lt_trichotomy m i with hlt | rfl | hgt
  · obtain ⟨c, u, hu, l, hl, hpc⟩ := hw m hlt
    rw [hc] at hu
    cases hu
    have := at_inj (by omega) (by omega) (hp.symm.trans hpc)
    omega
  · rw [hc] at hi
    cases hi
    exact ⟨rfl, hd⟩
  · exact absurd hd.pc (hf i hgt hi)

/-- Called with this time, `cycle` and `cycle_until_exception` execute the program and nothing else. -/
theorem C93_proceduresCycle (hC : C = mc68000 ∨ C = scc68070) (h : Launched ps st a σ room s) (hr : PerformsInTimed C ps st σ σ' u w) (hu : u ≤ room) :
    ∃ s', Returns (cycle C w s) w s' ∧ Returns (cycleUntilException C w s) (w, none) s' ∧ Landed ps st a σ' room s s' := by
  obtain ⟨all, hl, he⟩ := launched_env h
  obtain ⟨op, d, sr, m', ⟨i, hx⟩, hd, hs, ho, he'⟩ := Timed.cmd_ends (C := C) (placed_routines ps st a) hr he hu h.here (placed_main ps st a)
  obtain ⟨h1, h2⟩ := executes_cycle hC hx he'.running 0
  rw [Nat.zero_add] at h1 h2
  exact ⟨_, ⟨i, h1⟩, ⟨i, h2⟩, rfl, he'.vars, ho, ⟨rfl, rfl, rfl⟩, hd, hs, he'.running, he'.idle⟩

/-! ### A recursive program whose time is known for all inputs -/

/-- `procedure 0: if (x ≠ 0) { { local x; x := x - 1; call 0 }; y := y + x }` (of C88) takes 328 cycles for each level of the recursion and 114 for the last one on the MC68000. -/
theorem addDown_time (x : Nat) : ∀ σ : Store 2, σ 0 = BitVec.ofNat 32 x → x < 2 ^ 32 → ∃ σ', PerformsInTimed mc68000 [addDown] (.call 0) σ σ' (8 * x + 8) (328 * x + 114) := by
  induction x with
  | zero =>
    intro σ h _
    have h : σ 0 = 0 := h
    have hc : (Cond.rel .ne (.var 0) (.const 0)).eval σ = false := by simp [Cond.eval, Rel.holds, Expr.eval, h]
    have ht : (Cond.rel .ne (.var 0) (.const 0)).time mc68000 σ = 78 := by
      simp only [Cond.time, Expr.eval, Rel.holds, h]
      rfl
    have := PerformsInTimed.call (C := mc68000) (ps := [addDown]) (f := 0) rfl
      (.iteFalse (s := .seq (.keep 0 (.seq (.assign 0 (.bin .sub (.var 0) (.const 1))) (.call 0))) (.assign 1 (.bin .add (.var 1) (.var 0)))) hc (.skip σ))
    rw [ht] at this
    exact ⟨σ, this⟩
  | succ x ih =>
    intro σ h hx
    obtain ⟨σ1, h1⟩ := ih (σ.set 0 (σ 0 - 1)) (by
      show σ 0 - 1 = _
      rw [h]
      apply BitVec.eq_of_toNat_eq
      simp only [BitVec.toNat_sub, BitVec.toNat_ofNat]
      have : (1 : U32).toNat = 1 := rfl
      omega) (by omega)
    have hn : σ 0 ≠ 0 := by
      rw [h]
      intro h0
      have := congrArg BitVec.toNat h0
      simp only [BitVec.toNat_ofNat] at this
      have : (0 : U32).toNat = 0 := rfl
      omega
    have e1 : Rel.ne.holds (σ 0) 0 = true := decide_eq_true hn
    have hc : (Cond.rel .ne (.var 0) (.const 0)).eval σ = true := e1
    have ht : (Cond.rel .ne (.var 0) (.const 0)).time mc68000 σ = 68 := by
      simp only [Cond.time, Expr.eval, e1]
      rfl
    have := PerformsInTimed.call (C := mc68000) (ps := [addDown]) (f := 0) rfl (.iteTrue (t := .skip) hc
      (.seq (.keep (i := 0) (.seq (.assign 0 (.bin .sub (.var 0) (.const 1)) σ) h1)) (.assign 1 (.bin .add (.var 1) (.var 0)) _)))
    rw [ht] at this
    rw [show 8 * (x + 1) + 8 = 4 + max 4 (max (4 + max 4 (8 * x + 8)) 4) by omega, show 328 * (x + 1) + 114 = 20 + (68 + ((16 + 24 + 16 + (76 + (328 * x + 114)) + 80) + 12)) + 16 by omega]
    exact ⟨_, this⟩

/-- The core takes exactly this time, for all values of `x` for which there is enough stack. -/
theorem C93_addDown {σ : Store 2} (h : Launched [addDown] (.call 0) a σ room s) (hu : 8 * (σ 0).toNat + 8 ≤ room) :
    ∃ m s', calls mc68000 m s = .ok (328 * (σ 0).toNat + 114) s' ∧ s'.cpu.regs.pc = at_ a (2 * wholeSize [addDown] (.call 0)) := by
  obtain ⟨σ', hr⟩ := addDown_time (σ 0).toNat σ (by simp) (σ 0).isLt
  obtain ⟨m, s', hc, hf, -⟩ := C93_procedures h hr hu
  exact ⟨m, s', hc, hf.pc⟩

/-- The state of C88 with `x = 3`: 1098 cycles. -/
example : ∃ m s', calls mc68000 m addDownDemo = .ok 1098 s' ∧ s'.cpu.regs.pc = 0x6E :=
  C93_addDown addDown_launched (by decide)

end M68k.Props
