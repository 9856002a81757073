import Verif.Spec.Secret
import Verif.Props.C93Routines
/-
C95: the time of a compiled program does not tell anything about the variables that its conditions do not depend on.
-/
namespace M68k.Props
open Spec Exec
set_option linter.unusedSectionVars false
variable {M N : Type} [MemoryAccess M] [Ram M] [Writable M] [MemoryAccess N] [Ram N] [Writable N] {C : CpuDetails} {s : St M} {t : St N} {n : Nat} {ps : List (Cmd n)} {st : Cmd n} {a b : U32}
  {σ σ' τ τ' : Store n} {room space u w : Nat} {L : Fin n → Prop}

theorem expr_public {e : Expr n} (he : e.Public L) (h : SamePublic L σ τ) : e.eval σ = e.eval τ := by
  induction e with
  | const k => rfl
  | var i => exact h i he
  | un o e ih => simp only [Expr.eval, ih he]
  | bin o e1 e2 ih1 ih2 => simp only [Expr.eval, ih1 he.1, ih2 he.2]

theorem cond_public {c : Cond n} (hc : c.Public L) (h : SamePublic L σ τ) : c.eval σ = c.eval τ := by
  induction c with
  | rel r e1 e2 => simp only [Cond.eval, expr_public hc.1 h, expr_public hc.2 h]
  | not c ih => simp only [Cond.eval, ih hc]
  | and c1 c2 ih1 ih2 => simp only [Cond.eval, ih1 hc.1, ih2 hc.2]
  | or c1 c2 ih1 ih2 => simp only [Cond.eval, ih1 hc.1, ih2 hc.2]

theorem cond_time_public {c : Cond n} (hc : c.Public L) (h : SamePublic L σ τ) : c.time C σ = c.time C τ := by
  induction c with
  | rel r e1 e2 => simp only [Cond.time, expr_public hc.1 h, expr_public hc.2 h]
  | not c ih => simp only [Cond.time, ih hc, cond_public (c := c) hc h]
  | and c1 c2 ih1 ih2 => simp only [Cond.time, ih1 hc.1, ih2 hc.2, cond_public hc.1 h]
  | or c1 c2 ih1 ih2 => simp only [Cond.time, ih1 hc.1, ih2 hc.2, cond_public hc.1 h]

theorem set_public {i : Fin n} {x y : U32} (h : SamePublic L σ τ) (hx : L i → x = y) : SamePublic L (σ.set i x) (τ.set i y) := by
  intro j hj
  unfold Store.set
  split
  · next e => exact hx (e ▸ hj)
  · exact h j hj

/-- In terms of the source: begun with other values of the secret variables the statement ends too, has used the same stack and has taken the same time, and the public variables have the same
values. -/
theorem C95_source (hps : ∀ p ∈ ps, p.Discreet L) (hst : st.Discreet L) (h : SamePublic L σ τ) (hr : PerformsInTimed C ps st σ σ' u w) :
    ∃ τ', PerformsInTimed C ps st τ τ' u w ∧ SamePublic L σ' τ' := by
  induction hr generalizing τ with
  | skip σ => exact ⟨τ, .skip τ, h⟩
  | assign i e σ => exact ⟨_, .assign i e τ, set_public h fun hi => expr_public (hst hi) h⟩
  | seq _ _ ih1 ih2 =>
    obtain ⟨τ1, h1, h2⟩ := ih1 hst.1 h
    obtain ⟨τ2, h3, h4⟩ := ih2 hst.2 h2
    exact ⟨τ2, .seq h1 h3, h4⟩
  | iteTrue hc _ ih =>
    obtain ⟨τ1, h1, h2⟩ := ih hst.2.1 h
    rw [cond_time_public hst.1 h]
    exact ⟨τ1, .iteTrue (cond_public hst.1 h ▸ hc) h1, h2⟩
  | iteFalse hc _ ih =>
    obtain ⟨τ1, h1, h2⟩ := ih hst.2.2 h
    rw [cond_time_public hst.1 h]
    exact ⟨τ1, .iteFalse (cond_public hst.1 h ▸ hc) h1, h2⟩
  | loopEnd hc =>
    rw [cond_time_public hst.1 h]
    exact ⟨τ, .loopEnd (cond_public hst.1 h ▸ hc), h⟩
  | loopTurn hc _ _ ih1 ih2 =>
    obtain ⟨τ1, h1, h2⟩ := ih1 hst.2 h
    obtain ⟨τ2, h3, h4⟩ := ih2 hst h2
    rw [cond_time_public hst.1 h]
    exact ⟨τ2, .loopTurn (cond_public hst.1 h ▸ hc) h1 h3, h4⟩
  | keep _ ih =>
    obtain ⟨τ1, h1, h2⟩ := ih hst h
    exact ⟨_, .keep h1, set_public h2 fun hi => h _ hi⟩
  | call hf _ ih =>
    obtain ⟨τ1, h1, h2⟩ := ih (hps _ (List.mem_of_getElem? hf)) h
    exact ⟨τ1, .call hf h1, h2⟩

/-- On the core: two machines, whose memories may be of different kinds, have the same program at any addresses, and the same values in the public variables. If the program ends on one of them, it
ends on the other one, after calls of `interpreter` that take the same number of cycles, with the same values in the public variables. -/
theorem C95_time (hps : ∀ p ∈ ps, p.Discreet L) (hst : st.Discreet L) (h : SamePublic L σ τ) (hs : Launched ps st a σ room s) (ht : Launched ps st b τ space t)
    (hr : PerformsIn ps st σ σ' u) (hu : u ≤ room) (hu' : u ≤ space) :
    ∃ w τ', (∃ k s', calls C k s = .ok w s' ∧ Landed ps st a σ' room s s') ∧ (∃ j t', calls C j t = .ok w t' ∧ Landed ps st b τ' space t t') ∧ SamePublic L σ' τ' := by
  obtain ⟨w, hw⟩ := (C93_proceduresMeaning (C := C)).1 hr
  obtain ⟨τ', hw', hp⟩ := C95_source hps hst h hw
  obtain ⟨k, s', h1, h2, -⟩ := C93_procedures hs hw hu
  obtain ⟨j, t', h3, h4, -⟩ := C93_procedures ht hw' hu'
  exact ⟨w, τ', ⟨k, s', h1, h2⟩, ⟨j, t', h3, h4⟩, hp⟩

/-- What a host observes that calls `interpreter` until the program counter is behind the code: the number of cycles it has counted is the same for both. -/
theorem C95_host {k j v v' : Nat} {s' : St M} {t' : St N} (hps : ∀ p ∈ ps, p.Discreet L) (hst : st.Discreet L) (h : SamePublic L σ τ) (hsize : 2 * wholeSize ps st < 2 ^ 32)
    (hs : Launched ps st a σ room s) (ht : Launched ps st b τ space t) (hr : PerformsIn ps st σ σ' u) (hu : u ≤ room) (hu' : u ≤ space)
    (hc : calls C k s = .ok v s') (hp : s'.cpu.regs.pc = at_ a (2 * wholeSize ps st)) (hf : ∀ i < k, ∀ {c x}, calls C i s = .ok c x → x.cpu.regs.pc ≠ at_ a (2 * wholeSize ps st))
    (hc' : calls C j t = .ok v' t') (hp' : t'.cpu.regs.pc = at_ b (2 * wholeSize ps st)) (hf' : ∀ i < j, ∀ {c x}, calls C i t = .ok c x → x.cpu.regs.pc ≠ at_ b (2 * wholeSize ps st)) :
    v = v' := by
  obtain ⟨w, hw⟩ := (C93_proceduresMeaning (C := C)).1 hr
  obtain ⟨τ', hw', -⟩ := C95_source hps hst h hw
  rw [(C93_proceduresHost hs hsize hw hu hc hp hf).1, (C93_proceduresHost ht hsize hw' hu' hc' hp' hf').1]

/-! ### The hypotheses are met, and are needed -/

/-- The variable 0 is public. -/
def onlyX : Fin 2 → Prop := fun i => i = 0

/-- `if (x ≠ 0) { { local x; x := x - 1; call 0 }; y := y + x }` (of C88) does not use `y` in a condition. -/
theorem addDown_discreet : ∀ p ∈ [addDown], p.Discreet onlyX := by
  intro p hp
  rw [List.mem_singleton.1 hp]
  exact ⟨⟨rfl, trivial⟩, ⟨⟨fun _ => ⟨rfl, trivial⟩, trivial⟩, fun h => nomatch h⟩, trivial⟩

/-- Any other machine with this program and `x = 3`, whatever `y` it has, takes as long as that of C88. -/
example {τ : Store 2} (hx : τ 0 = 3) (ht : Launched [addDown] (.call 0) b τ 32 t) :
    ∃ w, (∃ k s', calls mc68000 k addDownDemo = .ok w s' ∧ s'.cpu.regs.pc = 0x6E) ∧ ∃ j t', calls mc68000 j t = .ok w t' ∧ t'.cpu.regs.pc = at_ b 94 := by
  obtain ⟨σ', hr⟩ := addDown_time 3 addDownStore rfl (by decide)
  obtain ⟨w, τ', ⟨k, s', h1, h2⟩, ⟨j, t', h3, h4⟩, -⟩ := C95_time (C := mc68000) addDown_discreet (st := .call 0) trivial (fun i hi => by rw [show i = 0 from hi, hx]; rfl) addDown_launched ht
    (C93_proceduresMeaning.2 ⟨_, hr⟩) (by decide) (by decide)
  exact ⟨w, ⟨k, s', h1, h2.pc⟩, ⟨j, t', h3, h4.pc⟩⟩

/-- With a secret in a condition the time can tell it: `if (y ≠ 0) { }` takes 80 cycles if `y` is not 0, else 78. -/
theorem C95_needed {σ τ : Store 2} (h1 : σ 1 ≠ 0) (h2 : τ 1 = 0) :
    PerformsInTimed mc68000 [] (.ite (.rel .ne (.var 1) (.const 0)) .skip .skip) σ σ 4 80 ∧ PerformsInTimed mc68000 [] (.ite (.rel .ne (.var 1) (.const 0)) .skip .skip) τ τ 4 78 := by
  have e1 : Rel.ne.holds (σ 1) 0 = true := decide_eq_true h1
  have e2 : Rel.ne.holds (τ 1) 0 = false := decide_eq_false fun h => h h2
  have t1 : (Cond.rel .ne (.var 1) (.const 0)).time mc68000 σ = 68 := by
    simp only [Cond.time, Expr.eval, e1]
    rfl
  have t2 : (Cond.rel .ne (.var 1) (.const 0)).time mc68000 τ = 78 := by
    simp only [Cond.time, Expr.eval, e2]
    rfl
  have p1 := PerformsInTimed.iteTrue (C := mc68000) (ps := []) (c := .rel .ne (.var 1) (.const 0)) (t := .skip) e1 (.skip σ)
  have p2 := PerformsInTimed.iteFalse (C := mc68000) (ps := []) (c := .rel .ne (.var 1) (.const 0)) (s := .skip) e2 (.skip τ)
  rw [t1] at p1
  rw [t2] at p2
  exact ⟨p1, p2⟩

end M68k.Props
