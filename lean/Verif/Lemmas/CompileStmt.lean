import Verif.Lemmas.CompileExpr
/-
Lemmas for C87: the code of statements.
-/
namespace M68k.Exec
open Spec
set_option linter.unusedSectionVars false
variable {M : Type} [MemoryAccess M] [Ram M] {C : CpuDetails} {s s' s1 s2 : St M} {p : List Source} {a fp sp : U32} {n k room : Nat} {all : List U16} {σ σ' : Store n}

/-- The code of a statement has been executed: the program counter is at `pc`, the variables are `σ'`. -/
def StmtEnds (C : CpuDetails) (p : List Source) (all : List U16) (a fp sp : U32) (room : Nat) (σ' : Store n) (pc : U32) (s : St M) : Prop :=
  ∃ op d sr m', Reach C p a 0 s (moved s op d sr pc m') ∧ (∀ i : Fin 8, 2 ≤ i.val → d i = s.cpu.regs.d i) ∧ SameSystem s.cpu.regs.sr sr ∧
    (∀ b, ¬ StackByte sp room b → (∀ j < 4 * n, b ≠ at_ fp j) → Ram.peek m' b = Ram.peek s.mem b) ∧ Env p all a fp σ' sp room (moved s op d sr pc m')

theorem at_ne_of_lt {x : U32} {i j : Nat} (hi : i < 2 ^ 32) (hj : j < 2 ^ 32) (h : i ≠ j) : at_ x i ≠ at_ x j := fun e => h (at_inj hi hj e)

theorem line_assign [Writable M] {i : Fin n} (h : Env p all a fp σ sp room s) (hpc : s.cpu.regs.pc = at_ a (2 * k)) (hp : PartAt p [.move .Long (.disp 6 (varDisp i)) (.dn 0)] k) :
    StmtEnds C p all a fp sp room (σ.set i (s.cpu.regs.d 0)) (at_ a (2 * (k + 2))) s := by
  obtain ⟨ws, hw, hl⟩ := words_assign (varDisp i)
  have hi := i.isLt
  have hc := h.apart.count
  have hev : AlignedFor .Long (at_ fp (4 * i.val)) := even_word (var_even h.apart.varsEven _)
  obtain ⟨m', hm⟩ := store_present (v := low .Long (s.cpu.regs.d 0)) (s := moved s (ws.headD 0) s.cpu.regs.d s.cpu.regs.sr (at_ a (2 * (k + 2))) s.mem) hev (h.varsPresent i)
  obtain ⟨-, -, h2, h3⟩ := store_done hm
  have h4 := store_samePresent hm
  rw [low_long] at h2
  refine ⟨ws.headD 0, s.cpu.regs.d, logicFlags (low .Long (s.cpu.regs.d 0)) s.cpu.regs.sr, m', (reach_line (h.loaded hpc) hp hw (fun _ _ h => nomatch h) ?_).weaken (Nat.zero_le _),
    fun _ _ => rfl, ⟨rfl, rfl, rfl⟩, fun b hb hv => h3 b fun j hj => ?_, ?_⟩
  · rw [afterWords_moved hpc hl]
    refine ⟨_, bind_eq (v := ()) ?_⟩
    show (Spec.move .Long (.disp 6 (varDisp i)) (.dn 0) : Exec M Unit) _ = _
    have er : (read .Long (.dn 0) : Exec M _) (moved s (ws.headD 0) s.cpu.regs.d s.cpu.regs.sr (at_ a (2 * (k + 2))) s.mem) =
      .ok (.dreg 0, low .Long (s.cpu.regs.d 0)) (moved s (ws.headD 0) s.cpu.regs.d s.cpu.regs.sr (at_ a (2 * (k + 2))) s.mem) := rfl
    have ew : (write .Long (.disp 6 (varDisp i)) (low .Long (s.cpu.regs.d 0)) : Exec M _) (moved s (ws.headD 0) s.cpu.regs.d s.cpu.regs.sr (at_ a (2 * (k + 2))) s.mem) =
        .ok () (moved s (ws.headD 0) s.cpu.regs.d s.cpu.regs.sr (at_ a (2 * (k + 2))) m') := by
      have ea : s.cpu.regs.a 6 + signExt (varDisp i) = at_ fp (4 * i.val) := by rw [h.frame, varDisp_ext i h.apart.count]; rfl
      show store .Long (s.cpu.regs.a 6 + signExt (varDisp i)) (low .Long (s.cpu.regs.d 0)) (moved s (ws.headD 0) s.cpu.regs.d s.cpu.regs.sr (at_ a (2 * (k + 2))) s.mem) = _
      rw [ea, hm]
      rfl
    simp only [Spec.move]
    rw [bind_eq er, bind_eq ew]
    rfl
  · have hj' : j < 4 := hj
    rw [at_add]
    exact hv _ (by omega)
  · refine ⟨h.apart, h.words, holdsWords_kept h.held fun j hj => h3 _ fun q hq => ?_, h.running, h.idle, h.untraced, h.frame, h.stack, fun j => ?_, fun b hb => (h4 b).trans (h.room b hb)⟩
    · have hq' : q < 4 := hq
      rw [at_add]
      exact h.apart.codeVars j hj _ (by omega)
    · unfold Store.set
      split
      · rename_i e; rw [e]; exact h2
      · rename_i e
        have hj := j.isLt
        have : j.val ≠ i.val := fun h => e (Fin.ext h)
        refine (h.vars j).of_eq fun q hq => h3 _ fun q' hq' => ?_
        have hq1 : q < 4 := hq
        have hq2 : q' < 4 := hq'
        rw [at_add, at_add]
        exact at_ne_of_lt (by omega) (by omega) (by omega)

theorem StmtEnds.of_kept {op : U16} {d : Fin 8 → U32} {sr : StatusRegister} {m : M} {pc pc' : U32} {j : Nat} (h : Env p all a fp σ sp room s) (hr : j ≤ room)
    (r : Reach C p a k s (moved s op d sr pc' m)) (hd : ∀ i : Fin 8, 2 ≤ i.val → d i = s.cpu.regs.d i) (hs : SameSystem s.cpu.regs.sr sr) (q : KeptBut s.mem m sp j)
    (he : StmtEnds C p all a fp sp room σ' pc (moved s op d sr pc' m)) : StmtEnds C p all a fp sp room σ' pc s := by
  obtain ⟨op', d', sr', m', r', hd', hs', ho', h'⟩ := he
  exact ⟨op', d', sr', m', (r.trans r').weaken (Nat.zero_le _), fun i hi => (hd' i hi).trans (hd i hi), sameSystem_trans hs hs',
    fun b hb hv => (ho' b hb hv).trans (q.same b fun hb' => hb (stackByte_mono hb' hr)), h'⟩

theorem StmtEnds.trans {σ1 : Store n} {pc' pc : U32} (h : StmtEnds C p all a fp sp room σ1 pc' s)
    (h' : ∀ t : St M, Env p all a fp σ1 sp room t → t.cpu.regs.pc = pc' → StmtEnds C p all a fp sp room σ' pc t) : StmtEnds C p all a fp sp room σ' pc s := by
  obtain ⟨op, d, sr, m, r, hd, hs, ho, he⟩ := h
  obtain ⟨op', d', sr', m', r', hd', hs', ho', he'⟩ := h' _ he rfl
  exact ⟨op', d', sr', m', (r.trans r').weaken (Nat.zero_le _), fun i hi => (hd' i hi).trans (hd i hi), sameSystem_trans hs hs',
    fun b hb hv => (ho' b hb hv).trans (ho b hb hv), he'⟩

theorem jmp_ends {x : U32} (h : Env p all a fp σ sp room s) (hpc : s.cpu.regs.pc = at_ a (2 * k)) (hp : PartAt p [.jmp (.absL x)] k) : StmtEnds C p all a fp sp room σ x s := by
  obtain ⟨op, r⟩ := line_jmp (C := C) (h.loaded hpc) hp
  exact ⟨op, _, _, _, r.weaken (Nat.zero_le _), fun _ _ => rfl, ⟨rfl, rfl, rfl⟩, fun _ _ _ => rfl, h.moved ⟨rfl, rfl, rfl⟩ (KeptBut.refl _)⟩

/-- The parts of an alternative. -/
theorem placed_ite {c : Cond n} {st tt : Stmt n} (hp : PartAt p ((Stmt.ite c st tt).code (at_ a (2 * k))) k) :
    PartAt p (c.code (at_ a (2 * k)) (at_ a (2 * (k + (c.size + (st.size + 3)))))) k ∧ PartAt p (st.code (at_ a (2 * (k + c.size)))) (k + c.size) ∧
    PartAt p [.jmp (.absL (at_ a (2 * (k + (Stmt.ite c st tt).size))))] (k + c.size + st.size) ∧
    PartAt p (tt.code (at_ a (2 * (k + (c.size + (st.size + 3)))))) (k + (c.size + (st.size + 3))) := by
  rw [Stmt.code, at_add, at_add, at_add, ← Nat.mul_add, ← Nat.mul_add, ← Nat.mul_add] at hp
  have p1 := placed_right hp (cond_sized c _ _)
  have p2 := placed_right p1 (stmt_sized st _)
  have p3 := placed_right p2 (words_jmp _).sized
  rw [show k + c.size + st.size + 3 = k + (c.size + (st.size + 3)) by omega] at p3
  exact ⟨placed_left hp, placed_left p1, placed_left p2, p3⟩

/-- The parts of a loop. -/
theorem placed_loop {c : Cond n} {st : Stmt n} (hp : PartAt p ((Stmt.loop c st).code (at_ a (2 * k))) k) :
    PartAt p (c.code (at_ a (2 * k)) (at_ a (2 * (k + (Stmt.loop c st).size)))) k ∧ PartAt p (st.code (at_ a (2 * (k + c.size)))) (k + c.size) ∧
    PartAt p [.jmp (.absL (at_ a (2 * k)))] (k + c.size + st.size) := by
  rw [Stmt.code, at_add, at_add, ← Nat.mul_add, ← Nat.mul_add] at hp
  have p1 := placed_right hp (cond_sized c _ _)
  exact ⟨placed_left hp, placed_left p1, placed_right p1 (stmt_sized st _)⟩

theorem stmt_ends [Writable M] {st : Stmt n} (hrun : Performs st σ σ') : ∀ {k : Nat} {s : St M}, Env p all a fp σ sp room s → st.room ≤ room → s.cpu.regs.pc = at_ a (2 * k) → PartAt p (st.code (at_ a (2 * k))) k →
    StmtEnds C p all a fp sp room σ' (at_ a (2 * (k + st.size))) s := by
  induction hrun with
  | skip σ =>
    intro k s h hr hpc hp
    exact ⟨s.cpu.currentOpcode, s.cpu.regs.d, s.cpu.regs.sr, s.mem, cast (congrArg _ (show s = _ by rw [show at_ a (2 * (k + (Stmt.skip : Stmt n).size)) = s.cpu.regs.pc from hpc.symm]; rfl)) (Reach.refl s), fun _ _ => rfl, ⟨rfl, rfl, rfl⟩,
      fun _ _ _ => rfl, h.moved ⟨rfl, rfl, rfl⟩ (KeptBut.refl _)⟩
  | assign i e σ =>
    intro k s h hr hpc hp
    obtain ⟨op, d, sr, m, r, v, hd, hs, q⟩ := expr_gives (C := C) e h hr hpc (placed_left hp)
    have h1 := h.moved (op := op) (d := d) (pc := at_ a (2 * (k + e.size))) hs (q.mono hr)
    have h2 := line_assign (C := C) h1 rfl (placed_right hp (expr_sized e))
    rw [show (moved s op d sr (at_ a (2 * (k + e.size))) m).cpu.regs.d 0 = e.eval σ from v, Nat.add_assoc] at h2
    exact StmtEnds.of_kept h hr r hd hs q h2
  | @seq st tt σ σ1 σ' _ _ ih1 ih2 =>
    intro k s h hr hpc hp
    rw [Stmt.code, at_add, ← Nat.mul_add] at hp
    refine (ih1 h (Nat.le_trans (Nat.le_max_left ..) hr) hpc (placed_left hp)).trans fun t ht hpt => ?_
    rw [show k + (Stmt.seq st tt).size = k + st.size + tt.size by simp only [Stmt.size]; omega]
    exact ih2 ht (Nat.le_trans (Nat.le_max_right ..) hr) hpt (placed_right hp (stmt_sized st _))
  | @iteTrue c st tt σ σ' hc _ ih =>
    intro k s h hr hpc hp
    have hr1 : c.room ≤ room := Nat.le_trans (Nat.le_max_left ..) hr
    have hr2 : st.room ≤ room := Nat.le_trans (Nat.le_trans (Nat.le_max_left ..) (Nat.le_max_right ..)) hr
    obtain ⟨p0, p1, p2, p3⟩ := placed_ite hp
    obtain ⟨op, d, sr, m, r, hd, hs, q⟩ := cond_decides (C := C) c h hr1 hpc p0
    rw [hc] at r
    have h1 := h.moved (op := op) (d := d) (pc := at_ a (2 * (k + c.size))) hs (q.mono hr1)
    exact StmtEnds.of_kept h hr1 r hd hs q ((ih h1 hr2 rfl p1).trans fun t ht hpt => jmp_ends ht hpt p2)
  | @iteFalse c st tt σ σ' hc _ ih =>
    intro k s h hr hpc hp
    have hr1 : c.room ≤ room := Nat.le_trans (Nat.le_max_left ..) hr
    have hr2 : tt.room ≤ room := Nat.le_trans (Nat.le_trans (Nat.le_max_right ..) (Nat.le_max_right ..)) hr
    obtain ⟨p0, p1, p2, p3⟩ := placed_ite hp
    obtain ⟨op, d, sr, m, r, hd, hs, q⟩ := cond_decides (C := C) c h hr1 hpc p0
    rw [hc] at r
    have h1 := h.moved (op := op) (d := d) (pc := at_ a (2 * (k + (c.size + (st.size + 3))))) hs (q.mono hr1)
    have h2 := ih h1 hr2 rfl p3
    rw [show k + (c.size + (st.size + 3)) + tt.size = k + (Stmt.ite c st tt).size by simp only [Stmt.size]; omega] at h2
    exact StmtEnds.of_kept h hr1 r hd hs q h2
  | @loopEnd c st σ hc =>
    intro k s h hr hpc hp
    have hr1 : c.room ≤ room := Nat.le_trans (Nat.le_max_left ..) hr
    obtain ⟨p0, p1, p2⟩ := placed_loop hp
    obtain ⟨op, d, sr, m, r, hd, hs, q⟩ := cond_decides (C := C) c h hr1 hpc p0
    rw [hc] at r
    exact ⟨op, d, sr, m, r.weaken (Nat.zero_le _), hd, hs, fun b hb _ => q.same b fun hb' => hb (stackByte_mono hb' hr1), h.moved hs (q.mono hr1)⟩
  | @loopTurn c st σ σ1 σ' hc _ _ ih1 ih2 =>
    intro k s h hr hpc hp
    have hr1 : c.room ≤ room := Nat.le_trans (Nat.le_max_left ..) hr
    have hr2 : st.room ≤ room := Nat.le_trans (Nat.le_max_right ..) hr
    obtain ⟨p0, p1, p2⟩ := placed_loop hp
    obtain ⟨op, d, sr, m, r, hd, hs, q⟩ := cond_decides (C := C) c h hr1 hpc p0
    rw [hc] at r
    have h1 := h.moved (op := op) (d := d) (pc := at_ a (2 * (k + c.size))) hs (q.mono hr1)
    exact StmtEnds.of_kept h hr1 r hd hs q ((ih1 h1 hr2 rfl p1).trans fun t ht hpt => (jmp_ends ht hpt p2).trans fun u hu hpu => ih2 hu hr hpu hp)

/-! ### Statements that do not end -/

/-- At most `f` turns of a loop. -/
def turns (c : Store n → Bool) (body : Store n → Option (Store n)) : Nat → Store n → Option (Store n)
  | 0, _ => none
  | f + 1, σ => if c σ then (body σ).bind (turns c body f) else some σ

/-- The statement with at most `f` turns of each loop. -/
def runFor (f : Nat) : Stmt n → Store n → Option (Store n)
  | .skip, σ => some σ
  | .assign i e, σ => some (σ.set i (e.eval σ))
  | .seq s t, σ => (runFor f s σ).bind (runFor f t)
  | .ite c s t, σ => if c.eval σ then runFor f s σ else runFor f t σ
  | .loop c s, σ => turns (fun σ => c.eval σ) (runFor f s) f σ

theorem turns_sound {c : Cond n} {st : Stmt n} {body : Store n → Option (Store n)} (hb : ∀ σ σ', body σ = some σ' → Performs st σ σ') : ∀ (f : Nat) (σ σ' : Store n), turns (fun σ => c.eval σ) body f σ = some σ' → Performs (.loop c st) σ σ' := by
  intro f
  induction f with
  | zero => intro σ σ' h; cases h
  | succ f ih =>
    intro σ σ' h
    unfold turns at h
    split at h
    · rename_i hc
      cases hb' : body σ with
      | none => rw [hb'] at h; cases h
      | some σ1 => rw [hb'] at h; exact .loopTurn hc (hb _ _ hb') (ih _ _ h)
    · rename_i hc
      cases h
      exact .loopEnd (Bool.eq_false_iff.mpr hc)

theorem runFor_sound (f : Nat) (st : Stmt n) : ∀ σ σ' : Store n, runFor f st σ = some σ' → Performs st σ σ' := by
  induction st with
  | skip => intro σ σ' h; cases h; exact .skip _
  | assign i e => intro σ σ' h; cases h; exact .assign i e _
  | seq s t h1 h2 =>
    intro σ σ' h
    simp only [runFor] at h
    cases hs : runFor f s σ with
    | none => rw [hs] at h; cases h
    | some σ1 => rw [hs] at h; exact .seq (h1 _ _ hs) (h2 _ _ h)
  | ite c s t h1 h2 =>
    intro σ σ' h
    simp only [runFor] at h
    split at h
    · rename_i hc; exact .iteTrue hc (h1 _ _ h)
    · rename_i hc; exact .iteFalse (Bool.eq_false_iff.mpr hc) (h2 _ _ h)
  | loop c s ih => intro σ σ' h; exact turns_sound ih f σ σ' h

/-- As many lines as wanted. -/
def StmtLasts (C : CpuDetails) (p : List Source) (a : U32) (f : Nat) (s : St M) : Prop := ∃ t, Reach C p a f s t

theorem StmtLasts.after {t : St M} {j f : Nat} (h : Reach C p a j s t) (h' : StmtLasts C p a f t) : StmtLasts C p a (j + f) s := h'.elim fun u hu => ⟨u, h.trans hu⟩
theorem StmtLasts.weaken {j f : Nat} (h : StmtLasts C p a j s) (hf : f ≤ j) : StmtLasts C p a f s := h.elim fun u hu => ⟨u, hu.weaken hf⟩

theorem StmtEnds.lasts {σ1 : Store n} {pc : U32} {f : Nat} (h : StmtEnds C p all a fp sp room σ1 pc s) (h' : ∀ t : St M, Env p all a fp σ1 sp room t → t.cpu.regs.pc = pc → StmtLasts C p a f t) : StmtLasts C p a f s := by
  obtain ⟨op, d, sr, m, r, -, -, -, he⟩ := h
  exact ((h' _ he rfl).after r).weaken (Nat.le_add_left ..)

theorem turns_lasts [Writable M] {c : Cond n} {st : Stmt n} {f : Nat} (hr : (Stmt.loop c st).room ≤ room) (hp : PartAt p ((Stmt.loop c st).code (at_ a (2 * k))) k)
    (ih : ∀ {σ : Store n} {s : St M}, Env p all a fp σ sp room s → s.cpu.regs.pc = at_ a (2 * (k + c.size)) → runFor f st σ = none → StmtLasts C p a f s) :
    ∀ (g : Nat) (σ : Store n) (s : St M), g ≤ f → Env p all a fp σ sp room s → s.cpu.regs.pc = at_ a (2 * k) → turns (fun σ => c.eval σ) (runFor f st) g σ = none → StmtLasts C p a g s := by
  have hr1 : c.room ≤ room := Nat.le_trans (Nat.le_max_left ..) hr
  have hr2 : st.room ≤ room := Nat.le_trans (Nat.le_max_right ..) hr
  obtain ⟨p0, p1, p2⟩ := placed_loop hp
  intro g
  induction g with
  | zero => intro σ s _ _ _ _; exact ⟨s, Reach.refl s⟩
  | succ g ihg =>
    intro σ s hg h hpc hn
    unfold turns at hn
    split at hn
    · rename_i hc
      obtain ⟨op, d, sr, m, r, hd, hs, q⟩ := cond_decides (C := C) c h hr1 hpc p0
      have hc' : c.eval σ = true := hc
      rw [hc'] at r
      have h1 := h.moved (op := op) (d := d) (pc := at_ a (2 * (k + c.size))) hs (q.mono hr1)
      cases hb : runFor f st σ with
      | none => exact ((ih h1 rfl hb).after r).weaken (by omega)
      | some σ1 =>
        rw [hb] at hn
        refine (StmtLasts.after (f := g) r ?_).weaken (by omega)
        refine (stmt_ends (C := C) (runFor_sound f st _ _ hb) h1 hr2 rfl p1).lasts fun t ht hpt => ?_
        exact (jmp_ends (C := C) ht hpt p2).lasts fun u hu hpu => ihg σ1 u (by omega) hu hpu hn
    · cases hn

theorem stmt_lasts [Writable M] (f : Nat) (st : Stmt n) : ∀ {k : Nat} {σ : Store n} {s : St M}, Env p all a fp σ sp room s → st.room ≤ room → s.cpu.regs.pc = at_ a (2 * k) → PartAt p (st.code (at_ a (2 * k))) k →
    runFor f st σ = none → StmtLasts C p a f s := by
  induction st with
  | skip => intro k σ s h hr hpc hp hn; cases hn
  | assign i e => intro k σ s h hr hpc hp hn; cases hn
  | seq st tt ih1 ih2 =>
    intro k σ s h hr hpc hp hn
    have hr1 : st.room ≤ room := Nat.le_trans (Nat.le_max_left ..) hr
    have hr2 : tt.room ≤ room := Nat.le_trans (Nat.le_max_right ..) hr
    rw [Stmt.code, at_add, ← Nat.mul_add] at hp
    simp only [runFor] at hn
    cases hb : runFor f st σ with
    | none => exact ih1 h hr1 hpc (placed_left hp) hb
    | some σ1 =>
      rw [hb] at hn
      exact (stmt_ends (C := C) (runFor_sound f st _ _ hb) h hr1 hpc (placed_left hp)).lasts fun t ht hpt => ih2 ht hr2 hpt (placed_right hp (stmt_sized st _)) hn
  | ite c st tt ih1 ih2 =>
    intro k σ s h hr hpc hp hn
    have hr1 : c.room ≤ room := Nat.le_trans (Nat.le_max_left ..) hr
    have hr2 : st.room ≤ room := Nat.le_trans (Nat.le_trans (Nat.le_max_left ..) (Nat.le_max_right ..)) hr
    have hr3 : tt.room ≤ room := Nat.le_trans (Nat.le_trans (Nat.le_max_right ..) (Nat.le_max_right ..)) hr
    obtain ⟨p0, p1, p2, p3⟩ := placed_ite hp
    obtain ⟨op, d, sr, m, r, hd, hs, q⟩ := cond_decides (C := C) c h hr1 hpc p0
    simp only [runFor] at hn
    split at hn
    · rename_i hc
      rw [hc] at r
      have h1 := h.moved (op := op) (d := d) (pc := at_ a (2 * (k + c.size))) hs (q.mono hr1)
      exact ((ih1 h1 hr2 rfl p1 hn).after r).weaken (by omega)
    · rename_i hc
      rw [Bool.eq_false_iff.mpr hc] at r
      have h1 := h.moved (op := op) (d := d) (pc := at_ a (2 * (k + (c.size + (st.size + 3))))) hs (q.mono hr1)
      exact ((ih2 h1 hr3 rfl p3 hn).after r).weaken (by omega)
  | loop c st ih =>
    intro k σ s h hr hpc hp hn
    obtain ⟨p0, p1, p2⟩ := placed_loop hp
    exact turns_lasts hr hp (fun h1 hpc1 hn1 => ih h1 (Nat.le_trans (Nat.le_max_right ..) hr) hpc1 p1 hn1) f σ s (Nat.le_refl _) h hpc hn

end M68k.Exec
