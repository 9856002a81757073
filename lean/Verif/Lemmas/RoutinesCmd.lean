import Verif.Lemmas.Routines
/-
Lemmas for C88: the code of statements and procedures that end.
-/
namespace M68k.Exec
open Spec
set_option linter.unusedSectionVars false
variable {M : Type} [MemoryAccess M] [Ram M] {C : CpuDetails} {s s' s1 s2 : St M} {p : List Source} {a fp sp : U32} {n k room : Nat} {all : List U16} {σ σ' : Store n}

theorem line_restore [Writable M] {i : Fin n} (h : Env p all a fp σ sp room s) (hpc : s.cpu.regs.pc = at_ a (2 * k)) (hp : PartAt p [.move .Long (.disp 6 (varDisp i)) (.dn 1)] k) :
    StmtEnds C p all a fp sp room (σ.set i (s.cpu.regs.d 1)) (at_ a (2 * (k + 2))) s := by
  obtain ⟨ws, hw, hl⟩ := words_restore (varDisp i)
  have hi := i.isLt
  have hc := h.apart.count
  have hev : AlignedFor .Long (at_ fp (4 * i.val)) := even_word (var_even h.apart.varsEven _)
  obtain ⟨m', hm⟩ := store_present (v := low .Long (s.cpu.regs.d 1)) (s := moved s (ws.headD 0) s.cpu.regs.d s.cpu.regs.sr (at_ a (2 * (k + 2))) s.mem) hev (h.varsPresent i)
  obtain ⟨-, -, h2, h3⟩ := store_done hm
  have h4 := store_samePresent hm
  rw [low_long] at h2
  refine ⟨ws.headD 0, s.cpu.regs.d, logicFlags (low .Long (s.cpu.regs.d 1)) s.cpu.regs.sr, m', (reach_line (h.loaded hpc) hp hw (fun _ _ h => nomatch h) ?_).weaken (Nat.zero_le _),
    fun _ _ => rfl, ⟨rfl, rfl, rfl⟩, fun b hb hv => h3 b fun j hj => ?_, ?_⟩
  · rw [afterWords_moved hpc hl]
    refine ⟨_, bind_eq (v := ()) ?_⟩
    show (Spec.move .Long (.disp 6 (varDisp i)) (.dn 1) : Exec M Unit) _ = _
    have er : (read .Long (.dn 1) : Exec M _) (moved s (ws.headD 0) s.cpu.regs.d s.cpu.regs.sr (at_ a (2 * (k + 2))) s.mem) =
      .ok (.dreg 1, low .Long (s.cpu.regs.d 1)) (moved s (ws.headD 0) s.cpu.regs.d s.cpu.regs.sr (at_ a (2 * (k + 2))) s.mem) := rfl
    have ew : (write .Long (.disp 6 (varDisp i)) (low .Long (s.cpu.regs.d 1)) : Exec M _) (moved s (ws.headD 0) s.cpu.regs.d s.cpu.regs.sr (at_ a (2 * (k + 2))) s.mem) =
        .ok () (moved s (ws.headD 0) s.cpu.regs.d s.cpu.regs.sr (at_ a (2 * (k + 2))) m') := by
      have ea : s.cpu.regs.a 6 + signExt (varDisp i) = at_ fp (4 * i.val) := by rw [h.frame, varDisp_ext i h.apart.count]; rfl
      show store .Long (s.cpu.regs.a 6 + signExt (varDisp i)) (low .Long (s.cpu.regs.d 1)) (moved s (ws.headD 0) s.cpu.regs.d s.cpu.regs.sr (at_ a (2 * (k + 2))) s.mem) = _
      rw [ea, hm]
      rfl
    simp only [Spec.move]
    rw [bind_eq er, bind_eq ew]
    rfl
  · have hj' : j < 4 := hj
    rw [at_add]
    exact hv _ (by omega)
  · refine ⟨h.apart, h.words, holdsWords_kept h.held fun j hj => h3 _ fun q hq => ?_, h.running, h.idle, h.untraced, h.frame, h.stack, fun j => ?_, fun b hb => (h4 b).trans (h.room b hb)⟩
    · have hq' : q < 4 := hq
      rw [at_add]
      exact h.apart.codeVars j hj _ (by omega)
    · unfold Store.set
      split
      · rename_i e; rw [e]; exact h2
      · rename_i e
        have hj := j.isLt
        have : j.val ≠ i.val := fun h => e (Fin.ext h)
        refine (h.vars j).of_eq fun q hq => h3 _ fun q' hq' => ?_
        have hq1 : q < 4 := hq
        have hq2 : q' < 4 := hq'
        rw [at_add, at_add]
        exact at_ne_of_lt (by omega) (by omega) (by omega)

/-- A part of the code that runs above a saved long word ends, and the saved word is still there. -/
theorem above_word {op1 : U16} {sr1 : StatusRegister} {pc1 pc v : U32} {m1 : M} (h : Env p all a fp σ sp (4 + room) s) (hs1 : SameSystem s.cpu.regs.sr sr1) (q : KeptBut s.mem m1 sp (4 + room))
    (hv : Holds (sz := .Long) m1 (sp - 4) v) (he : StmtEnds C p all a fp (sp - 4) room σ' pc (lowered s op1 sr1 pc1 m1)) :
    ∃ op d sr m, Reach C p a 0 (lowered s op1 sr1 pc1 m1) (moved (lowered s op1 sr1 pc1 m1) op d sr pc m) ∧ (∀ i : Fin 8, 2 ≤ i.val → d i = s.cpu.regs.d i) ∧ SameSystem s.cpu.regs.sr sr ∧
      Holds (sz := .Long) m (sp - 4) v ∧ (∀ b, ¬ StackByte sp (4 + room) b → (∀ j < 4 * n, b ≠ at_ fp j) → Ram.peek m b = Ram.peek s.mem b) ∧
      Env p all a fp σ' (sp - 4) room (moved (lowered s op1 sr1 pc1 m1) op d sr pc m) ∧
      ∀ op' d' sr' pc', SameSystem s.cpu.regs.sr sr' → Env p all a fp σ' sp (4 + room) (moved s op' d' sr' pc' m) := by
  obtain ⟨op, d, sr, m, r, hd, hs, ho, he⟩ := he
  have hv' : Holds (sz := .Long) m (sp - 4) v := by
    refine hv.of_eq fun i hi => ho _ (not_stackByte_top hi ?_) fun j hj e => ?_
    · have := h.apart.stack; omega
    · exact h.apart.varsStack j hj (e ▸ stackByte_top hi)
  refine ⟨op, d, sr, m, r, fun i hi => (hd i hi).trans ?_, sameSystem_trans hs1 hs, hv', fun b hb hv => (ho b (fun hb' => hb (stackByte_four hb')) hv).trans (q.same b hb), he,
    fun op' d' sr' pc' hs' => ⟨h.apart, h.words, he.held, h.running, h.idle, hs'.1.trans h.untraced, h.frame, (areg7_eq hs').trans h.stack, he.vars, fun b hb => ?_⟩⟩
  · obtain ⟨⟨⟨d, aa, usp, ssp, ⟨t, sv, im, x, nn, z, v, c⟩, pc⟩, op, st, ex⟩, m⟩ := s
    cases sv <;> rfl
  · rcases stackByte_split hb with ⟨i, hi, rfl⟩ | hb'
    · show (Ram.peek m (at_ (sp - 4) i)).isSome = true
      rw [hv' i hi]; rfl
    · exact he.room b hb'

/-- The parts of an alternative. -/
theorem placed_ite' {entry : Nat → U32} {c : Cond n} {st tt : Cmd n} (hp : PartAt p ((Cmd.ite c st tt).code entry (at_ a (2 * k))) k) :
    PartAt p (c.code (at_ a (2 * k)) (at_ a (2 * (k + (c.size + (st.size + 3)))))) k ∧ PartAt p (st.code entry (at_ a (2 * (k + c.size)))) (k + c.size) ∧
    PartAt p [.jmp (.absL (at_ a (2 * (k + (Cmd.ite c st tt).size))))] (k + c.size + st.size) ∧
    PartAt p (tt.code entry (at_ a (2 * (k + (c.size + (st.size + 3)))))) (k + (c.size + (st.size + 3))) := by
  rw [Cmd.code, at_add, at_add, at_add, ← Nat.mul_add, ← Nat.mul_add, ← Nat.mul_add] at hp
  have p1 := placed_right hp (cond_sized c _ _)
  have p2 := placed_right p1 (cmd_sized st _ _)
  have p3 := placed_right p2 (words_jmp _).sized
  rw [show k + c.size + st.size + 3 = k + (c.size + (st.size + 3)) by omega] at p3
  exact ⟨placed_left hp, placed_left p1, placed_left p2, p3⟩

/-- The parts of a loop. -/
theorem placed_loop' {entry : Nat → U32} {c : Cond n} {st : Cmd n} (hp : PartAt p ((Cmd.loop c st).code entry (at_ a (2 * k))) k) :
    PartAt p (c.code (at_ a (2 * k)) (at_ a (2 * (k + (Cmd.loop c st).size)))) k ∧ PartAt p (st.code entry (at_ a (2 * (k + c.size)))) (k + c.size) ∧
    PartAt p [.jmp (.absL (at_ a (2 * k)))] (k + c.size + st.size) := by
  rw [Cmd.code, at_add, at_add, ← Nat.mul_add, ← Nat.mul_add] at hp
  have p1 := placed_right hp (cond_sized c _ _)
  exact ⟨placed_left hp, placed_left p1, placed_right p1 (cmd_sized st _ _)⟩

/-- The parts of a statement with a local variable. -/
theorem placed_keep {entry : Nat → U32} {i : Fin n} {st : Cmd n} (hp : PartAt p ((Cmd.keep i st).code entry (at_ a (2 * k))) k) :
    PartAt p [.move .Long (.dn 0) (.disp 6 (varDisp i))] k ∧ PartAt p [.move .Long (.predec 7) (.dn 0)] (k + 2) ∧ PartAt p (st.code entry (at_ a (2 * (k + 3)))) (k + 3) ∧
    PartAt p [.move .Long (.dn 1) (.postinc 7)] (k + 3 + st.size) ∧ PartAt p [.move .Long (.disp 6 (varDisp i)) (.dn 1)] (k + 3 + st.size + 1) := by
  rw [Cmd.code, at_add, ← Nat.mul_add] at hp
  have p1 := placed_right hp (words_var _).sized
  have p2 := placed_right p1 words_push.sized
  have p3 := placed_right p2 (cmd_sized st _ _)
  have p4 := placed_cons p3 words_pop
  exact ⟨placed_left hp, placed_left p1, placed_left p2, p4.1, p4.2⟩

theorem cmd_ends [Writable M] {ps : List (Cmd n)} {st : Cmd n} {u : Nat} (hps : PartAt p (routinesCode (entryOf ps a) a ps) 0) (hrun : PerformsIn ps st σ σ' u) :
    ∀ {k : Nat} {sp : U32} {room : Nat} {s : St M}, Env p all a fp σ sp room s → u ≤ room → s.cpu.regs.pc = at_ a (2 * k) → PartAt p (st.code (entryOf ps a) (at_ a (2 * k))) k →
    StmtEnds C p all a fp sp room σ' (at_ a (2 * (k + st.size))) s := by
  induction hrun with
  | skip σ =>
    intro k sp room s h hr hpc hp
    exact ⟨s.cpu.currentOpcode, s.cpu.regs.d, s.cpu.regs.sr, s.mem, cast (congrArg _ (show s = _ by rw [show at_ a (2 * (k + (Cmd.skip : Cmd n).size)) = s.cpu.regs.pc from hpc.symm]; rfl)) (Reach.refl s), fun _ _ => rfl, ⟨rfl, rfl, rfl⟩,
      fun _ _ _ => rfl, h.moved ⟨rfl, rfl, rfl⟩ (KeptBut.refl _)⟩
  | assign i e σ =>
    intro k sp room s h hr hpc hp
    obtain ⟨op, d, sr, m, r, v, hd, hs, q⟩ := expr_gives (C := C) e h hr hpc (placed_left hp)
    have h1 := h.moved (op := op) (d := d) (pc := at_ a (2 * (k + e.size))) hs (q.mono hr)
    have h2 := line_assign (C := C) h1 rfl (placed_right hp (expr_sized e))
    rw [show (moved s op d sr (at_ a (2 * (k + e.size))) m).cpu.regs.d 0 = e.eval σ from v, Nat.add_assoc] at h2
    exact StmtEnds.of_kept h hr r hd hs q h2
  | @seq st tt σ σ1 σ' u v _ _ ih1 ih2 =>
    intro k sp room s h hr hpc hp
    rw [Cmd.code, at_add, ← Nat.mul_add] at hp
    refine (ih1 h (Nat.le_trans (Nat.le_max_left ..) hr) hpc (placed_left hp)).trans fun t ht hpt => ?_
    rw [show k + (Cmd.seq st tt).size = k + st.size + tt.size by simp only [Cmd.size]; omega]
    exact ih2 ht (Nat.le_trans (Nat.le_max_right ..) hr) hpt (placed_right hp (cmd_sized st _ _))
  | @iteTrue c st tt σ σ' u hc _ ih =>
    intro k sp room s h hr hpc hp
    have hr1 : c.room ≤ room := Nat.le_trans (Nat.le_max_left ..) hr
    have hr2 : u ≤ room := Nat.le_trans (Nat.le_max_right ..) hr
    obtain ⟨p0, p1, p2, p3⟩ := placed_ite' hp
    obtain ⟨op, d, sr, m, r, hd, hs, q⟩ := cond_decides (C := C) c h hr1 hpc p0
    rw [hc] at r
    have h1 := h.moved (op := op) (d := d) (pc := at_ a (2 * (k + c.size))) hs (q.mono hr1)
    exact StmtEnds.of_kept h hr1 r hd hs q ((ih h1 hr2 rfl p1).trans fun t ht hpt => jmp_ends ht hpt p2)
  | @iteFalse c st tt σ σ' u hc _ ih =>
    intro k sp room s h hr hpc hp
    have hr1 : c.room ≤ room := Nat.le_trans (Nat.le_max_left ..) hr
    have hr2 : u ≤ room := Nat.le_trans (Nat.le_max_right ..) hr
    obtain ⟨p0, p1, p2, p3⟩ := placed_ite' hp
    obtain ⟨op, d, sr, m, r, hd, hs, q⟩ := cond_decides (C := C) c h hr1 hpc p0
    rw [hc] at r
    have h1 := h.moved (op := op) (d := d) (pc := at_ a (2 * (k + (c.size + (st.size + 3))))) hs (q.mono hr1)
    have h2 := ih h1 hr2 rfl p3
    rw [show k + (c.size + (st.size + 3)) + tt.size = k + (Cmd.ite c st tt).size by simp only [Cmd.size]; omega] at h2
    exact StmtEnds.of_kept h hr1 r hd hs q h2
  | @loopEnd c st σ hc =>
    intro k sp room s h hr hpc hp
    obtain ⟨p0, p1, p2⟩ := placed_loop' hp
    obtain ⟨op, d, sr, m, r, hd, hs, q⟩ := cond_decides (C := C) c h hr hpc p0
    rw [hc] at r
    exact ⟨op, d, sr, m, r.weaken (Nat.zero_le _), hd, hs, fun b hb _ => q.same b fun hb' => hb (stackByte_mono hb' hr), h.moved hs (q.mono hr)⟩
  | @loopTurn c st σ σ1 σ' u v hc _ _ ih1 ih2 =>
    intro k sp room s h hr hpc hp
    have hr1 : c.room ≤ room := Nat.le_trans (Nat.le_max_left ..) hr
    have hr2 : u ≤ room := Nat.le_trans (Nat.le_trans (Nat.le_max_left ..) (Nat.le_max_right ..)) hr
    have hr3 : v ≤ room := Nat.le_trans (Nat.le_trans (Nat.le_max_right ..) (Nat.le_max_right ..)) hr
    obtain ⟨p0, p1, p2⟩ := placed_loop' hp
    obtain ⟨op, d, sr, m, r, hd, hs, q⟩ := cond_decides (C := C) c h hr1 hpc p0
    rw [hc] at r
    have h1 := h.moved (op := op) (d := d) (pc := at_ a (2 * (k + c.size))) hs (q.mono hr1)
    exact StmtEnds.of_kept h hr1 r hd hs q ((ih1 h1 hr2 rfl p1).trans fun t ht hpt => (jmp_ends ht hpt p2).trans fun u hu hpu => ih2 hu hr3 hpu hp)
  | @keep i st σ σ' u _ ih =>
    intro k sp room s h hr hpc hp
    obtain ⟨room, rfl⟩ : ∃ r, room = 4 + r := ⟨room - 4, by omega⟩
    obtain ⟨p0, p1, p2, p3, p4⟩ := placed_keep hp
    obtain ⟨op0, sr0, r0, hs0⟩ := line_var (C := C) h hpc p0
    have h0 := h.moved (op := op0) (d := putD s.cpu.regs.d 0 (σ i)) (pc := at_ a (2 * (k + 2))) hs0 (KeptBut.refl _)
    refine StmtEnds.of_kept (j := 0) (k := 1) h (Nat.zero_le _) r0 (fun j hj => ?_) hs0 (KeptBut.refl _) ?_
    · have : j ≠ 0 := by rintro rfl; simp at hj
      simp [putD, this]
    generalize hs1 : moved s op0 (putD s.cpu.regs.d 0 (σ i)) sr0 (at_ a (2 * (k + 2))) s.mem = s1 at h0
    have hd0 : s1.cpu.regs.d 0 = σ i := by subst hs1; simp [moved, putD]
    have hpc1 : s1.cpu.regs.pc = at_ a (2 * (k + 2)) := by subst hs1; rfl
    clear hs1 r0 hs0 h hpc
    obtain ⟨op1, sr1, m1, r1, hs1, hv1, q1⟩ := line_push (C := C) h0 hpc1 p1
    rw [hd0] at hv1
    have h1 := h0.lowered (op := op1) (pc := at_ a (2 * (k + 2 + 1))) hs1 q1
    obtain ⟨op2, d2, sr2, m2, r2, hd2, hs2, hv2, ho2, he2, hup⟩ := above_word h0 hs1 q1 hv1 (ih (k := k + 3) h1 (by omega) rfl p2)
    obtain ⟨op3, sr3, r3, hs3⟩ := line_pop (C := C) he2 hs2 h0.stack hv2 p3
    have h3 := hup op3 (putD d2 1 (σ i)) sr3 (at_ a (2 * (k + 3 + st.size + 1))) hs3
    obtain ⟨op4, d4, sr4, m4, r4, hd4, hs4, ho4, he4⟩ := line_restore (C := C) h3 rfl p4
    rw [show (moved s1 op3 (putD d2 1 (σ i)) sr3 (at_ a (2 * (k + 3 + st.size + 1))) m2).cpu.regs.d 1 = σ i by simp [moved, putD],
      show k + 3 + st.size + 1 + 2 = k + (Cmd.keep i st).size by simp only [Cmd.size]; omega] at he4
    rw [show k + 3 + st.size + 1 + 2 = k + (Cmd.keep i st).size by simp only [Cmd.size]; omega] at r4
    refine ⟨op4, d4, sr4, m4, (r1.trans (r2.trans (r3.trans r4))).weaken (Nat.zero_le _), fun j hj => (hd4 j hj).trans ?_, sameSystem_trans hs3 hs4, fun b hb hv => (ho4 b hb hv).trans (ho2 b hb hv), he4⟩
    have : j ≠ 1 := by rintro rfl; simp at hj
    have e : putD d2 1 (σ i) j = d2 j := by simp [putD, this]
    exact e.trans (hd2 j hj)
  | @call f b σ σ' u hf _ ih =>
    intro k sp room s h hr hpc hp
    obtain ⟨room, rfl⟩ : ∃ r, room = 4 + r := ⟨room - 4, by omega⟩
    obtain ⟨op1, m1, r1, hv1, q1⟩ := line_jsr (C := C) h hpc hp
    have hs1 : SameSystem s.cpu.regs.sr s.cpu.regs.sr := ⟨rfl, rfl, rfl⟩
    have h1 := h.lowered (op := op1) (pc := entryOf ps a f) hs1 q1
    have hb := routine_placed (k := 0) (by rw [Nat.mul_zero, at_zero]; exact hps) hf
    rw [Nat.zero_add] at hb
    obtain ⟨op2, d2, sr2, m2, r2, hd2, hs2, hv2, ho2, he2, hup⟩ := above_word h hs1 q1 hv1 (ih (k := routinesSize (ps.take f)) h1 (by omega) rfl (placed_left hb))
    obtain ⟨op3, r3⟩ := line_rts (C := C) he2 hs2 h.stack hv2 (placed_right hb (cmd_sized b _ _))
    exact ⟨op3, d2, sr2, m2, (r1.trans (r2.trans r3)).weaken (Nat.zero_le _), hd2, hs2, ho2, hup _ _ _ _ hs2⟩

end M68k.Exec
