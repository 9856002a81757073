import Verif.Lemmas.RoutinesCmd
/-
Lemmas for C88: how much of the stack is used, and statements that do not end.
-/
namespace M68k.Exec
open Spec
set_option linter.unusedSectionVars false
variable {M : Type} [MemoryAccess M] [Ram M] {C : CpuDetails} {s s' s1 s2 : St M} {p : List Source} {a fp sp : U32} {n k room : Nat} {all : List U16} {σ σ' : Store n} {ps : List (Cmd n)}

/-- A statement that ends and uses more than there is, needs more than there is. -/
theorem performs_exceeds {st : Cmd n} {u r : Nat} (h : PerformsIn ps st σ σ' u) (hr : r < u) : ExceedsIn ps st σ r := by
  induction h generalizing r with
  | skip σ => omega
  | assign i e σ => exact .assign hr
  | @seq s t σ σ1 σ' u v h1 h2 ih1 ih2 =>
    by_cases hu : r < u
    · exact .seqFirst (ih1 hu)
    · exact .seqSecond h1 (ih2 (by omega))
  | @iteTrue c s t σ σ' u hc h ih =>
    by_cases hu : r < c.room
    · exact .iteCond hu
    · exact .iteTrue hc (ih (by omega))
  | @iteFalse c s t σ σ' u hc h ih =>
    by_cases hu : r < c.room
    · exact .iteCond hu
    · exact .iteFalse hc (ih (by omega))
  | loopEnd hc => exact .loopCond hr
  | @loopTurn c s σ σ1 σ' u v hc h1 h2 ih1 ih2 =>
    by_cases hu : r < c.room
    · exact .loopCond hu
    · by_cases hu : r < u
      · exact .loopBody hc (ih1 hu)
      · exact .loopRest hc h1 (ih2 (by omega))
  | @keep i s σ σ' u h ih =>
    by_cases hu : r < 4
    · exact .keepSave hu
    · obtain ⟨r, rfl⟩ : ∃ x, r = 4 + x := ⟨r - 4, by omega⟩
      exact .keepBody (ih (by omega))
  | @call f s σ σ' u hf h ih =>
    by_cases hu : r < 4
    · exact .callSave hu
    · obtain ⟨r, rfl⟩ : ∃ x, r = 4 + x := ⟨r - 4, by omega⟩
      exact .callBody hf (ih (by omega))

/-- The values and the room that a statement ends with are determined. -/
theorem performs_unique {st : Cmd n} {u u' : Nat} {σ'' : Store n} (h : PerformsIn ps st σ σ' u) (h' : PerformsIn ps st σ σ'' u') : σ'' = σ' ∧ u' = u := by
  induction h generalizing u' σ'' with
  | skip σ => cases h'; exact ⟨rfl, rfl⟩
  | assign i e σ => cases h'; exact ⟨rfl, rfl⟩
  | seq _ _ ih1 ih2 =>
    cases h' with
    | seq h1 h2 =>
      obtain ⟨rfl, rfl⟩ := ih1 h1
      obtain ⟨rfl, rfl⟩ := ih2 h2
      exact ⟨rfl, rfl⟩
  | iteTrue hc _ ih =>
    cases h' with
    | iteTrue _ h => obtain ⟨rfl, rfl⟩ := ih h; exact ⟨rfl, rfl⟩
    | iteFalse hc' _ => rw [hc] at hc'; cases hc'
  | iteFalse hc _ ih =>
    cases h' with
    | iteFalse _ h => obtain ⟨rfl, rfl⟩ := ih h; exact ⟨rfl, rfl⟩
    | iteTrue hc' _ => rw [hc] at hc'; cases hc'
  | loopEnd hc =>
    cases h' with
    | loopEnd _ => exact ⟨rfl, rfl⟩
    | loopTurn hc' _ _ => rw [hc] at hc'; cases hc'
  | loopTurn hc _ _ ih1 ih2 =>
    cases h' with
    | loopEnd hc' => rw [hc] at hc'; cases hc'
    | loopTurn _ h1 h2 =>
      obtain ⟨rfl, rfl⟩ := ih1 h1
      obtain ⟨rfl, rfl⟩ := ih2 h2
      exact ⟨rfl, rfl⟩
  | keep _ ih =>
    cases h' with
    | keep h => obtain ⟨rfl, rfl⟩ := ih h; exact ⟨rfl, rfl⟩
  | call hf _ ih =>
    cases h' with
    | call hf' h =>
      obtain rfl := Option.some.inj (hf.symm.trans hf')
      obtain ⟨rfl, rfl⟩ := ih h
      exact ⟨rfl, rfl⟩

/-! ### A bounded interpreter of the source -/

/-- What is known after a bounded number of turns. -/
inductive Outcome (n : Nat)
  | done (σ : Store n)
  | over
  | more

def Outcome.andThen : Outcome n → (Store n → Outcome n) → Outcome n
  | done σ, f => f σ
  | over, _ => over
  | more, _ => more

/-- At most `g` turns of a loop. -/
def turnsIn (c : Cond n) (r : Nat) (body : Store n → Outcome n) : Nat → Store n → Outcome n
  | 0, _ => .more
  | g + 1, σ => if r < c.room then .over else if c.eval σ then (body σ).andThen (turnsIn c r body g) else .done σ

/-- The statement with `r` bytes of stack, with at most `f` turns of each loop; `callee` performs the procedures. -/
def cmdRun (ps : List (Cmd n)) (f : Nat) (callee : Cmd n → Nat → Store n → Outcome n) : Cmd n → Nat → Store n → Outcome n
  | .skip, _, σ => .done σ
  | .assign i e, r, σ => if r < e.room then .over else .done (σ.set i (e.eval σ))
  | .seq s t, r, σ => (cmdRun ps f callee s r σ).andThen (cmdRun ps f callee t r)
  | .ite c s t, r, σ => if r < c.room then .over else if c.eval σ then cmdRun ps f callee s r σ else cmdRun ps f callee t r σ
  | .loop c s, r, σ => turnsIn c r (cmdRun ps f callee s r) f σ
  | .keep i s, r, σ => if r < 4 then .over else (cmdRun ps f callee s (r - 4) σ).andThen fun σ' => .done (σ'.set i (σ i))
  | .call g, r, σ => if r < 4 then .over else match ps[g]? with
    | none => .over
    | some s => callee s (r - 4) σ

/-- Calls to the depth `d`. -/
def runIn (ps : List (Cmd n)) (f : Nat) : Nat → Cmd n → Nat → Store n → Outcome n
  | 0 => cmdRun ps f fun _ _ _ => .over
  | d + 1 => cmdRun ps f (runIn ps f d)

/-- The outcome is right. -/
def Outcome.Right (ps : List (Cmd n)) (st : Cmd n) (r : Nat) (σ : Store n) : Outcome n → Prop
  | done σ' => ∃ u, u ≤ r ∧ PerformsIn ps st σ σ' u
  | over => ExceedsIn ps st σ r
  | more => True

theorem turnsIn_right {c : Cond n} {st : Cmd n} {r : Nat} {body : Store n → Outcome n} (hb : ∀ σ, (body σ).Right ps st r σ) : ∀ (g : Nat) (σ : Store n), (turnsIn c r body g σ).Right ps (.loop c st) r σ := by
  intro g
  induction g with
  | zero => intro σ; exact trivial
  | succ g ih =>
    intro σ
    unfold turnsIn
    split
    · rename_i h; exact ExceedsIn.loopCond h
    · rename_i hr
      split
      · rename_i hc
        have h := hb σ
        cases hx : body σ with
        | done σ1 =>
          rw [hx] at h
          obtain ⟨u, hu, hp⟩ := h
          have h2 := ih σ1
          show (turnsIn c r body g σ1).Right _ _ _ _
          cases hy : turnsIn c r body g σ1 with
          | done σ2 =>
            rw [hy] at h2
            obtain ⟨v, hv, hp2⟩ := h2
            exact ⟨_, by omega, .loopTurn hc hp hp2⟩
          | over => rw [hy] at h2; exact ExceedsIn.loopRest hc hp h2
          | more => exact trivial
        | over => rw [hx] at h; exact ExceedsIn.loopBody hc h
        | more => exact trivial
      · rename_i hc
        exact ⟨_, by omega, .loopEnd (Bool.eq_false_iff.mpr hc)⟩

theorem cmdRun_right {f R : Nat} {callee : Cmd n → Nat → Store n → Outcome n} (hcall : ∀ st r σ, r + 4 ≤ R → (callee st r σ).Right ps st r σ) (st : Cmd n) :
    ∀ (r : Nat) (σ : Store n), r ≤ R → (cmdRun ps f callee st r σ).Right ps st r σ := by
  induction st with
  | skip => intro r σ _; exact ⟨0, by omega, .skip _⟩
  | assign i e =>
    intro r σ _
    simp only [cmdRun]
    split
    · rename_i h; exact ExceedsIn.assign h
    · exact ⟨_, by omega, .assign i e σ⟩
  | seq s t ih1 ih2 =>
    intro r σ hr
    simp only [cmdRun]
    have h1 := ih1 r σ hr
    cases hx : cmdRun ps f callee s r σ with
    | done σ1 =>
      rw [hx] at h1
      obtain ⟨u, hu, hp⟩ := h1
      have h2 := ih2 r σ1 hr
      show (cmdRun ps f callee t r σ1).Right _ _ _ _
      cases hy : cmdRun ps f callee t r σ1 with
      | done σ2 =>
        rw [hy] at h2
        obtain ⟨v, hv, hp2⟩ := h2
        exact ⟨_, by omega, .seq hp hp2⟩
      | over => rw [hy] at h2; exact ExceedsIn.seqSecond hp h2
      | more => exact trivial
    | over => rw [hx] at h1; exact ExceedsIn.seqFirst h1
    | more => exact trivial
  | ite c s t ih1 ih2 =>
    intro r σ hr
    simp only [cmdRun]
    split
    · rename_i h; exact ExceedsIn.iteCond h
    · rename_i hc0
      split
      · rename_i hc
        have h1 := ih1 r σ hr
        cases hx : cmdRun ps f callee s r σ with
        | done σ1 => rw [hx] at h1; obtain ⟨u, hu, hp⟩ := h1; exact ⟨_, by omega, .iteTrue hc hp⟩
        | over => rw [hx] at h1; exact ExceedsIn.iteTrue hc h1
        | more => exact trivial
      · rename_i hc
        have h1 := ih2 r σ hr
        cases hx : cmdRun ps f callee t r σ with
        | done σ1 => rw [hx] at h1; obtain ⟨u, hu, hp⟩ := h1; exact ⟨_, by omega, .iteFalse (Bool.eq_false_iff.mpr hc) hp⟩
        | over => rw [hx] at h1; exact ExceedsIn.iteFalse (Bool.eq_false_iff.mpr hc) h1
        | more => exact trivial
  | loop c s ih => intro r σ hr; exact turnsIn_right (fun σ => ih r σ hr) f σ
  | keep i s ih =>
    intro r σ hr
    simp only [cmdRun]
    split
    · rename_i h; exact ExceedsIn.keepSave h
    · obtain ⟨r, rfl⟩ : ∃ x, r = 4 + x := ⟨r - 4, by omega⟩
      rw [Nat.add_sub_cancel_left]
      have h1 := ih r σ (by omega)
      cases hx : cmdRun ps f callee s r σ with
      | done σ1 => rw [hx] at h1; obtain ⟨u, hu, hp⟩ := h1; exact ⟨_, by omega, .keep hp⟩
      | over => rw [hx] at h1; exact ExceedsIn.keepBody h1
      | more => exact trivial
  | call g =>
    intro r σ hr
    simp only [cmdRun]
    split
    · rename_i h; exact ExceedsIn.callSave h
    · obtain ⟨r, rfl⟩ : ∃ x, r = 4 + x := ⟨r - 4, by omega⟩
      rw [Nat.add_sub_cancel_left]
      split
      · rename_i h; exact ExceedsIn.callNone h
      · rename_i b hb
        have h1 := hcall b r σ (by omega)
        cases hx : callee b r σ with
        | done σ1 => rw [hx] at h1; obtain ⟨u, hu, hp⟩ := h1; exact ⟨_, by omega, .call hb hp⟩
        | over => rw [hx] at h1; exact ExceedsIn.callBody hb h1
        | more => exact trivial

theorem runIn_right (f : Nat) : ∀ (d : Nat) (st : Cmd n) (r : Nat) (σ : Store n), r ≤ 4 * d + 3 → (runIn ps f d st r σ).Right ps st r σ := by
  intro d
  induction d with
  | zero => intro st r σ hr; exact cmdRun_right (R := 3) (fun _ _ _ h => by omega) st r σ hr
  | succ d ih => intro st r σ hr; exact cmdRun_right (R := 4 * d + 7) (fun st r σ h => ih st r σ (by omega)) st r σ (by omega)

/-! ### As many lines as wanted -/

theorem turnsIn_lasts [Writable M] {c : Cond n} {st : Cmd n} {f : Nat} {body : Store n → Outcome n} (hps : PartAt p (routinesCode (entryOf ps a) a ps) 0)
    (hp : PartAt p ((Cmd.loop c st).code (entryOf ps a) (at_ a (2 * k))) k) (hb : ∀ σ, (body σ).Right ps st room σ)
    (ih : ∀ {σ : Store n} {s : St M}, Env p all a fp σ sp room s → s.cpu.regs.pc = at_ a (2 * (k + c.size)) → body σ = .more → StmtLasts C p a f s) :
    ∀ (g : Nat) (σ : Store n) (s : St M), g ≤ f → Env p all a fp σ sp room s → s.cpu.regs.pc = at_ a (2 * k) → turnsIn c room body g σ = .more → StmtLasts C p a g s := by
  obtain ⟨p0, p1, p2⟩ := placed_loop' hp
  intro g
  induction g with
  | zero => intro σ s _ _ _ _; exact ⟨s, Reach.refl s⟩
  | succ g ihg =>
    intro σ s hg h hpc hn
    unfold turnsIn at hn
    split at hn
    · cases hn
    · rename_i hr
      have hr1 : c.room ≤ room := by omega
      split at hn
      · rename_i hc
        obtain ⟨op, d, sr, m, r, hd, hs, q⟩ := cond_decides (C := C) c h hr1 hpc p0
        rw [hc] at r
        have h1 := h.moved (op := op) (d := d) (pc := at_ a (2 * (k + c.size))) hs (q.mono hr1)
        cases hx : body σ with
        | done σ1 =>
          have h2 := hb σ
          rw [hx] at hn h2
          obtain ⟨u, hu, hpf⟩ := h2
          refine (StmtLasts.after (f := g) r ?_).weaken (by omega)
          refine (cmd_ends (C := C) hps hpf h1 hu rfl p1).lasts fun t ht hpt => ?_
          exact (jmp_ends (C := C) ht hpt p2).lasts fun u hu hpu => ihg σ1 u (by omega) hu hpu hn
        | over => rw [hx] at hn; cases hn
        | more => exact ((ih h1 rfl hx).after r).weaken (by omega)
      · cases hn

/-- What is to be shown of a statement whose outcome is not known after `f` turns. -/
def LastsIf (C : CpuDetails) (M : Type) [MemoryAccess M] [Ram M] (p : List Source) (all : List U16) (a fp : U32) (entry : Nat → U32) (f : Nat) (st : Cmd n) (r : Nat) (σ : Store n) (o : Outcome n) : Prop :=
  ∀ {k : Nat} {sp : U32} {s : St M}, Env p all a fp σ sp r s → s.cpu.regs.pc = at_ a (2 * k) → PartAt p (st.code entry (at_ a (2 * k))) k → o = .more → StmtLasts C p a f s

theorem cmdRun_lasts [Writable M] {f R : Nat} {callee : Cmd n → Nat → Store n → Outcome n} (hps : PartAt p (routinesCode (entryOf ps a) a ps) 0)
    (hcall : ∀ st r σ, r + 4 ≤ R → (callee st r σ).Right ps st r σ) (hlast : ∀ st r σ, r + 4 ≤ R → LastsIf C M p all a fp (entryOf ps a) f st r σ (callee st r σ)) (st : Cmd n) :
    ∀ (r : Nat) (σ : Store n), r ≤ R → LastsIf C M p all a fp (entryOf ps a) f st r σ (cmdRun ps f callee st r σ) := by
  induction st with
  | skip => intro r σ _ k sp s h hpc hp hn; cases hn
  | assign i e =>
    intro r σ _ k sp s h hpc hp hn
    simp only [cmdRun] at hn
    split at hn <;> cases hn
  | seq st tt ih1 ih2 =>
    intro r σ hR k sp s h hpc hp hn
    rw [Cmd.code, at_add, ← Nat.mul_add] at hp
    simp only [cmdRun] at hn
    cases hx : cmdRun ps f callee st r σ with
    | done σ1 =>
      have h1 := cmdRun_right (f := f) hcall st r σ hR
      rw [hx] at hn h1
      obtain ⟨u, hu, hpf⟩ := h1
      exact (cmd_ends (C := C) hps hpf h hu hpc (placed_left hp)).lasts fun t ht hpt => ih2 r σ1 hR ht hpt (placed_right hp (cmd_sized st _ _)) hn
    | over => rw [hx] at hn; cases hn
    | more => exact ih1 r σ hR h hpc (placed_left hp) hx
  | ite c st tt ih1 ih2 =>
    intro r σ hR k sp s h hpc hp hn
    obtain ⟨p0, p1, p2, p3⟩ := placed_ite' hp
    simp only [cmdRun] at hn
    split at hn
    · cases hn
    · have hr1 : c.room ≤ r := by omega
      obtain ⟨op, d, sr, m, rr, hd, hs, q⟩ := cond_decides (C := C) c h hr1 hpc p0
      split at hn
      · rename_i hc
        rw [hc] at rr
        have h1 := h.moved (op := op) (d := d) (pc := at_ a (2 * (k + c.size))) hs (q.mono hr1)
        exact ((ih1 r σ hR h1 rfl p1 hn).after rr).weaken (by omega)
      · rename_i hc
        rw [Bool.eq_false_iff.mpr hc] at rr
        have h1 := h.moved (op := op) (d := d) (pc := at_ a (2 * (k + (c.size + (st.size + 3))))) hs (q.mono hr1)
        exact ((ih2 r σ hR h1 rfl p3 hn).after rr).weaken (by omega)
  | loop c st ih =>
    intro r σ hR k sp s h hpc hp hn
    obtain ⟨p0, p1, p2⟩ := placed_loop' hp
    exact turnsIn_lasts hps hp (fun σ => cmdRun_right hcall st r σ hR) (fun h1 hpc1 hn1 => ih r _ hR h1 hpc1 p1 hn1) f σ s (Nat.le_refl _) h hpc hn
  | keep i st ih =>
    intro r σ hR k sp s h hpc hp hn
    simp only [cmdRun] at hn
    split at hn
    · cases hn
    · obtain ⟨r, rfl⟩ : ∃ x, r = 4 + x := ⟨r - 4, by omega⟩
      rw [Nat.add_sub_cancel_left] at hn
      obtain ⟨p0, p1, p2, p3, p4⟩ := placed_keep hp
      obtain ⟨op0, sr0, r0, hs0⟩ := line_var (C := C) h hpc p0
      have h0 := h.moved (op := op0) (d := putD s.cpu.regs.d 0 (σ i)) (pc := at_ a (2 * (k + 2))) hs0 (KeptBut.refl _)
      obtain ⟨op1, sr1, m1, r1, hs1, hv1, q1⟩ := line_push (C := C) h0 rfl p1
      have h1 := h0.lowered (op := op1) (pc := at_ a (2 * (k + 2 + 1))) hs1 q1
      cases hx : cmdRun ps f callee st r σ with
      | done σ1 => rw [hx] at hn; cases hn
      | over => rw [hx] at hn; cases hn
      | more => exact (((ih r σ (by omega) (k := k + 3) h1 rfl p2 hx).after r1).after r0).weaken (by omega)
  | call g =>
    intro r σ hR k sp s h hpc hp hn
    simp only [cmdRun] at hn
    split at hn
    · cases hn
    · obtain ⟨r, rfl⟩ : ∃ x, r = 4 + x := ⟨r - 4, by omega⟩
      rw [Nat.add_sub_cancel_left] at hn
      split at hn
      · cases hn
      · rename_i b hb
        obtain ⟨op1, m1, r1, hv1, q1⟩ := line_jsr (C := C) h hpc hp
        have h1 := h.lowered (op := op1) (pc := entryOf ps a g) ⟨rfl, rfl, rfl⟩ q1
        have hb := routine_placed (k := 0) (by rw [Nat.mul_zero, at_zero]; exact hps) hb
        rw [Nat.zero_add] at hb
        exact ((hlast b r σ (by omega) (k := routinesSize (ps.take g)) h1 rfl (placed_left hb) hn).after r1).weaken (by omega)

theorem runIn_lasts [Writable M] (hps : PartAt p (routinesCode (entryOf ps a) a ps) 0) (f : Nat) : ∀ (d : Nat) (st : Cmd n) (r : Nat) (σ : Store n), r ≤ 4 * d + 3 →
    LastsIf C M p all a fp (entryOf ps a) f st r σ (runIn ps f d st r σ) := by
  intro d
  induction d with
  | zero => intro st r σ hr; exact cmdRun_lasts (R := 3) hps (fun _ _ _ h => by omega) (fun _ _ _ h => by omega) st r σ hr
  | succ d ih => intro st r σ hr; exact cmdRun_lasts (R := 4 * d + 7) hps (fun st r σ h => runIn_right f d st r σ (by omega)) (fun st r σ h => ih st r σ (by omega)) st r σ (by omega)

end M68k.Exec
