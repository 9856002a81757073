import Verif.Lemmas.CompileMem
/-
Lemmas for C87: the code of expressions and conditions.
-/
namespace M68k.Exec
open Spec
set_option linter.unusedSectionVars false
variable {M : Type} [MemoryAccess M] [Ram M] {C : CpuDetails} {s s' s1 s2 : St M} {p : List Source} {a fp sp : U32} {n k room : Nat} {all : List U16} {σ : Store n}

theorem areg7_eq {r : Registers} {d : Fin 8 → U32} {sr : StatusRegister} {pc : U32} (h : SameSystem r.sr sr) : areg { r with d := d, sr := sr, pc := pc } 7 = areg r 7 := by
  unfold areg
  rw [dif_neg (by decide), dif_neg (by decide), h.2.1]

/-- Data registers, flags, program counter and bytes below the stack pointer do not matter. -/
theorem Env.moved (h : Env p all a fp σ sp room s) {op : U16} {d : Fin 8 → U32} {sr : StatusRegister} {pc : U32} {m : M} (hs : SameSystem s.cpu.regs.sr sr) (hk : KeptBut s.mem m sp room) :
    Env p all a fp σ sp room (moved s op d sr pc m) := h.keep rfl rfl hs.1 rfl (areg7_eq hs) hk

theorem areg7_lowered {r : Registers} {x : U32} {sr : StatusRegister} {pc : U32} (h : SameSystem r.sr sr) : areg { setAreg r 7 x with sr := sr, pc := pc } 7 = x := by
  obtain ⟨d, aa, usp, ssp, ⟨t, sv, im, x, nn, z, v, c⟩, pc⟩ := r
  obtain ⟨t2, sv2, im2, x2, nn2, z2, v2, c2⟩ := sr
  obtain ⟨-, h, -⟩ := h
  cases h
  cases sv <;> rfl

theorem a6_lowered {r : Registers} {x : U32} : (setAreg r 7 x).a = r.a := by
  obtain ⟨d, aa, usp, ssp, ⟨t, sv, im, x, nn, z, v, c⟩, pc⟩ := r
  cases sv <;> rfl

theorem Env.lowered (h : Env p all a fp σ sp (4 + room) s) {op : U16} {sr : StatusRegister} {pc : U32} {m : M} (hs : SameSystem s.cpu.regs.sr sr) (hk : KeptBut s.mem m sp (4 + room)) :
    Env p all a fp σ (sp - 4) room (Exec.lowered s op sr pc m) :=
  h.lower rfl rfl hs.1 (congrFun a6_lowered 6) ((areg7_lowered hs).trans (by rw [h.stack])) hk

/-- `j` words of code at the word `k` are executed to the end, with `D0` and `D1` as given; only they, the flags and at most `room` bytes below the stack pointer have changed. -/
def ExprGives (C : CpuDetails) (p : List Source) (a sp : U32) (k j room : Nat) (s : St M) (P : (Fin 8 → U32) → Prop) : Prop :=
  ∃ op d sr m', Reach C p a 1 s (moved s op d sr (at_ a (2 * (k + j))) m') ∧ P d ∧ (∀ i : Fin 8, 2 ≤ i.val → d i = s.cpu.regs.d i) ∧ SameSystem s.cpu.regs.sr sr ∧ KeptBut s.mem m' sp room

/-- The two operands of an operator or a relation. -/
theorem pair_gives [Writable M] {e1 e2 : Expr n} {rest : List Source}
    (ih1 : ∀ {k : Nat} {s : St M} {sp : U32} {room : Nat}, Env p all a fp σ sp room s → e1.room ≤ room → s.cpu.regs.pc = at_ a (2 * k) → PartAt p e1.code k → ExprGives C p a sp k e1.size e1.room s fun d => d 0 = e1.eval σ)
    (ih2 : ∀ {k : Nat} {s : St M} {sp : U32} {room : Nat}, Env p all a fp σ sp room s → e2.room ≤ room → s.cpu.regs.pc = at_ a (2 * k) → PartAt p e2.code k → ExprGives C p a sp k e2.size e2.room s fun d => d 0 = e2.eval σ)
    (h : Env p all a fp σ sp room s) (hr : max e2.room (4 + e1.room) ≤ room) (hpc : s.cpu.regs.pc = at_ a (2 * k))
    (hp : PartAt p (e2.code ++ ([.move .Long (.predec 7) (.dn 0)] ++ (e1.code ++ (.move .Long (.dn 1) (.postinc 7) :: rest)))) k) :
    ExprGives C p a sp k (e2.size + (1 + (e1.size + 1))) (max e2.room (4 + e1.room)) s (fun d => d 0 = e1.eval σ ∧ d 1 = e2.eval σ) ∧ PartAt p rest (k + (e2.size + (1 + (e1.size + 1)))) := by
  have hr1 : e2.room ≤ room := Nat.le_trans (Nat.le_max_left ..) hr
  have hr2 : 4 + e1.room ≤ room := Nat.le_trans (Nat.le_max_right ..) hr
  have p1 := placed_right hp (expr_sized e2)
  have p2 := placed_right p1 words_push.sized
  have p3 := placed_right p2 (expr_sized e1)
  have p4 := placed_cons p3 words_pop
  obtain ⟨op1, d1, sr1, m1, r1, v1, k1, s1, q1⟩ := ih2 h hr1 hpc (placed_left hp)
  have h1 := (h.moved (op := op1) (d := d1) (pc := at_ a (2 * (k + e2.size))) s1 (q1.mono hr1)).mono hr2
  obtain ⟨op2, sr2, m2, r2, s2, v2, q2⟩ := line_push (C := C) h1 rfl (placed_left p1)
  have h2 := h1.lowered (op := op2) (pc := at_ a (2 * (k + e2.size + 1))) s2 q2
  obtain ⟨op3, d3, sr3, m3, r3, v3, k3, s3, q3⟩ := ih1 h2 (Nat.le_refl _) rfl (placed_left p2)
  have hs3 : SameSystem s.cpu.regs.sr sr3 := sameSystem_trans s1 (sameSystem_trans s2 s3)
  have hv : Holds (sz := .Long) m3 (sp - 4) (e2.eval σ) := by
    rw [← v1]
    exact v2.of_eq fun i hi => q3.same _ (not_stackByte_top hi h2.apart.stack)
  obtain ⟨op4, sr4, r4, s4⟩ := line_pop (C := C) (k := k + e2.size + 1 + e1.size) (h2.moved (op := op3) (d := d3) (pc := at_ a (2 * (k + e2.size + 1 + e1.size))) s3 q3)
    (sameSystem_trans s2 s3) h1.stack hv p4.1
  have e : k + e2.size + 1 + e1.size + 1 = k + (e2.size + (1 + (e1.size + 1))) := by omega
  rw [e] at r4 p4
  refine ⟨⟨op4, _, sr4, m3, (((r1.trans r2).trans r3).trans r4).weaken (by decide), ⟨v3, rfl⟩, fun i hi => ?_, sameSystem_trans s1 s4, ?_⟩, p4.2⟩
  · have hi1 : i ≠ 1 := fun h => by rw [h] at hi; exact absurd hi (by decide)
    show putD d3 1 (e2.eval σ) i = _
    unfold putD
    rw [if_neg hi1, k3 i hi]
    exact (congrFun (setAreg_d _ _ _) i).trans (k1 i hi)
  · have q2' : KeptBut m1 m2 sp (4 + e1.room) := q2
    have q3' : KeptBut m2 m3 sp (4 + e1.room) := ⟨fun b hb => q3.same b fun hb' => hb (stackByte_four hb'), q3.present⟩
    exact (q1.mono (Nat.le_max_left ..)).trans ((q2'.trans q3').mono (Nat.le_max_right ..))

theorem expr_gives [Writable M] (e : Expr n) : ∀ {k : Nat} {s : St M} {sp : U32} {room : Nat}, Env p all a fp σ sp room s → e.room ≤ room → s.cpu.regs.pc = at_ a (2 * k) → PartAt p e.code k →
    ExprGives C p a sp k e.size e.room s fun d => d 0 = e.eval σ := by
  induction e with
  | const v =>
    intro k s sp room h hr hpc hp
    obtain ⟨op, sr, r, hs⟩ := line_const (C := C) (h.loaded hpc) hp
    exact ⟨op, _, sr, s.mem, r, rfl, fun i hi => if_neg fun h => by rw [h] at hi; exact absurd hi (by decide), hs, KeptBut.refl _⟩
  | var i =>
    intro k s sp room h hr hpc hp
    obtain ⟨op, sr, r, hs⟩ := line_var (C := C) h hpc hp
    exact ⟨op, _, sr, s.mem, r, rfl, fun i hi => if_neg fun h => by rw [h] at hi; exact absurd hi (by decide), hs, KeptBut.refl _⟩
  | un o e ih =>
    intro k s sp room h hr hpc hp
    obtain ⟨op, d, sr, m, r, v, hd, hs, q⟩ := ih h hr hpc (placed_left hp)
    have h1 := h.moved (op := op) (d := d) (pc := at_ a (2 * (k + e.size))) hs (q.mono hr)
    obtain ⟨op', sr', r', hs'⟩ := line_un (C := C) (h1.loaded rfl) (placed_right hp (expr_sized e))
    refine ⟨op', _, sr', m, (r.trans r').weaken (by decide), ?_, fun i hi => (if_neg fun h => by rw [h] at hi; exact absurd hi (by decide)).trans (hd i hi), sameSystem_trans hs hs', q⟩
    show o.apply (d 0) = _
    rw [v]; rfl
  | bin o e1 e2 ih1 ih2 =>
    intro k s sp room h hr hpc hp
    obtain ⟨⟨op, d, sr, m, r, v, hd, hs, q⟩, hp'⟩ := pair_gives (C := C) ih1 ih2 h hr hpc hp
    have h1 := h.moved (op := op) (d := d) (pc := at_ a (2 * (k + (e2.size + (1 + (e1.size + 1)))))) hs (q.mono hr)
    obtain ⟨op', sr', r', hs'⟩ := line_bin (C := C) (h1.loaded rfl) hp'
    refine ⟨op', _, sr', m, (r.trans r').weaken (by decide), ?_, fun i hi => (if_neg fun h => by rw [h] at hi; exact absurd hi (by decide)).trans (hd i hi), sameSystem_trans hs hs', q⟩
    show o.apply (d 0) (d 1) = _
    rw [v.1, v.2]; rfl

/-- The code of a condition goes on behind itself or jumps. -/
def Decides (C : CpuDetails) (p : List Source) (a sp yes no : U32) (room : Nat) (b : Bool) (s : St M) : Prop :=
  ∃ op d sr m', Reach C p a 1 s (moved s op d sr (if b then yes else no) m') ∧ (∀ i : Fin 8, 2 ≤ i.val → d i = s.cpu.regs.d i) ∧ SameSystem s.cpu.regs.sr sr ∧ KeptBut s.mem m' sp room

theorem cond_decides [Writable M] (c : Cond n) : ∀ {k : Nat} {s : St M} {sp no : U32} {room : Nat}, Env p all a fp σ sp room s → c.room ≤ room → s.cpu.regs.pc = at_ a (2 * k) → PartAt p (c.code (at_ a (2 * k)) no) k →
    Decides C p a sp (at_ a (2 * (k + c.size))) no c.room (c.eval σ) s := by
  induction c with
  | rel r e1 e2 =>
    intro k s sp no room h hr hpc hp
    obtain ⟨⟨op, d, sr, m, r1, v, hd, hs, q⟩, hp1⟩ := pair_gives (C := C) (expr_gives e1) (expr_gives e2) h hr hpc hp
    have h1 := h.moved (op := op) (d := d) (pc := at_ a (2 * (k + (e2.size + (1 + (e1.size + 1)))))) hs (q.mono hr)
    obtain ⟨p1, hp2⟩ := placed_cons hp1 words_cmp
    obtain ⟨p2, hp3⟩ := placed_cons hp2 (words_bcc r)
    obtain ⟨op2, sr2, r2, o2⟩ := line_cmp (C := C) (h1.loaded rfl) p1
    have hs2 : SameSystem s.cpu.regs.sr sr2 := sameSystem_trans hs o2.system
    have h2 := h.moved (op := op2) (d := d) (pc := at_ a (2 * (k + (e2.size + (1 + (e1.size + 1))) + 1))) hs2 (q.mono hr)
    have o2' : OrderCodes (e1.eval σ) (e2.eval σ) sr sr2 := by
      rw [← v.1, ← v.2]; exact o2
    obtain ⟨op3, r3⟩ := line_bcc (C := C) (h2.loaded rfl) p2 o2'
    cases hb : r.holds (e1.eval σ) (e2.eval σ)
    · rw [hb] at r3
      have h3 := h.moved (op := op3) (d := d) (pc := at_ a (2 * (k + (e2.size + (1 + (e1.size + 1))) + 1 + 1))) hs2 (q.mono hr)
      obtain ⟨op4, r4⟩ := line_jmp (C := C) (h3.loaded rfl) hp3
      simp only [Cond.eval, hb]
      exact ⟨op4, d, sr2, m, (((r1.trans r2).trans r3).trans r4).weaken (by decide), hd, hs2, q⟩
    · rw [hb] at r3
      have e : k + (e2.size + (1 + (e1.size + 1))) + 1 + 4 = k + (Cond.rel r e1 e2).size := by simp only [Cond.size]; omega
      rw [e] at r3
      simp only [Cond.eval, hb]
      exact ⟨op3, d, sr2, m, ((r1.trans r2).trans r3).weaken (by decide), hd, hs2, q⟩
  | not c ih =>
    intro k s sp no room h hr hpc hp
    rw [Cond.code, at_add, ← Nat.mul_add] at hp
    obtain ⟨op, d, sr, m, r, hd, hs, q⟩ := ih h hr hpc (placed_left hp)
    simp only [Cond.eval]
    cases hb : c.eval σ
    · rw [hb] at r
      exact ⟨op, d, sr, m, r, hd, hs, q⟩
    · rw [hb] at r
      have h1 := h.moved (op := op) (d := d) (pc := at_ a (2 * (k + c.size))) hs (q.mono hr)
      obtain ⟨op', r'⟩ := line_jmp (C := C) (h1.loaded rfl) (placed_right hp (cond_sized c _ _))
      exact ⟨op', d, sr, m, (r.trans r').weaken (by decide), hd, hs, q⟩
  | and c1 c2 ih1 ih2 =>
    intro k s sp no room h hr hpc hp
    have hr1 : c1.room ≤ room := Nat.le_trans (Nat.le_max_left ..) hr
    have hr2 : c2.room ≤ room := Nat.le_trans (Nat.le_max_right ..) hr
    rw [Cond.code, at_add, ← Nat.mul_add] at hp
    obtain ⟨op, d, sr, m, r, hd, hs, q⟩ := ih1 h hr1 hpc (placed_left hp)
    simp only [Cond.eval]
    cases hb : c1.eval σ
    · rw [hb] at r
      exact ⟨op, d, sr, m, r, hd, hs, q.mono (Nat.le_max_left ..)⟩
    · rw [hb] at r
      have h1 := h.moved (op := op) (d := d) (pc := at_ a (2 * (k + c1.size))) hs (q.mono hr1)
      obtain ⟨op', d', sr', m', r', hd', hs', q'⟩ := ih2 h1 hr2 rfl (placed_right hp (cond_sized c1 _ _))
      rw [Nat.add_assoc] at r'
      exact ⟨op', d', sr', m', (r.trans r').weaken (by decide), fun i hi => (hd' i hi).trans (hd i hi), sameSystem_trans hs hs', (q.mono (Nat.le_max_left ..)).trans (KeptBut.mono q' (Nat.le_max_right ..))⟩
  | or c1 c2 ih1 ih2 =>
    intro k s sp no room h hr hpc hp
    have hr1 : c1.room ≤ room := Nat.le_trans (Nat.le_max_left ..) hr
    have hr2 : c2.room ≤ room := Nat.le_trans (Nat.le_max_right ..) hr
    rw [Cond.code, at_add, at_add, ← Nat.mul_add, ← Nat.mul_add] at hp
    obtain ⟨op, d, sr, m, r, hd, hs, q⟩ := ih1 h hr1 hpc (placed_left hp)
    have p1 := placed_right hp (cond_sized c1 _ _)
    simp only [Cond.eval]
    cases hb : c1.eval σ
    · rw [hb] at r
      have h1 := h.moved (op := op) (d := d) (pc := at_ a (2 * (k + (c1.size + 3)))) hs (q.mono hr1)
      have p2 := placed_right p1 (words_jmp _).sized
      rw [Nat.add_assoc] at p2
      obtain ⟨op', d', sr', m', r', hd', hs', q'⟩ := ih2 h1 hr2 rfl p2
      rw [show k + (c1.size + 3) + c2.size = k + (Cond.or c1 c2).size by simp only [Cond.size]; omega] at r'
      exact ⟨op', d', sr', m', (r.trans r').weaken (by decide), fun i hi => (hd' i hi).trans (hd i hi), sameSystem_trans hs hs', (q.mono (Nat.le_max_left ..)).trans (KeptBut.mono q' (Nat.le_max_right ..))⟩
    · rw [hb] at r
      have h1 := h.moved (op := op) (d := d) (pc := at_ a (2 * (k + c1.size))) hs (q.mono hr1)
      obtain ⟨op', r'⟩ := line_jmp (C := C) (h1.loaded rfl) (placed_left p1)
      exact ⟨op', d, sr, m, (r.trans r').weaken (by decide), hd, hs, q.mono (Nat.le_max_left ..)⟩

end M68k.Exec
