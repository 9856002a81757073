import Verif.Spec.Compile
import Verif.Lemmas.Programs
import Verif.Lemmas.Lock
import Verif.Lemmas.Claims
/-
Lemmas for C87: the code of expressions, conditions and statements.
-/
namespace M68k.Exec
open Spec
set_option linter.unusedSectionVars false
variable {M : Type} [MemoryAccess M] [Ram M] {C : CpuDetails} {s s' s1 s2 : St M} {p : List Source} {a fp sp : U32} {n k : Nat}

/-! ### Sizes -/

/-- The lines assemble to `k` words. -/
def Sized (c : List Source) (k : Nat) : Prop := ∃ ws, Source.program c = some ws ∧ ws.length = k

theorem program_append' {c d : List Source} {ws vs : List U16} (h : Source.program c = some ws) (h' : Source.program d = some vs) : Source.program (c ++ d) = some (ws ++ vs) := by
  induction c generalizing ws with
  | nil => cases h; exact h'
  | cons l c ih =>
    unfold Source.program at h
    split at h
    · rename_i us rest hu hr
      cases h
      rw [List.cons_append, Source.program, hu, ih hr, List.append_assoc]
    · cases h

theorem sized_append {c d : List Source} {j : Nat} (h : Sized c k) (h' : Sized d j) : Sized (c ++ d) (k + j) := by
  obtain ⟨ws, h, hl⟩ := h
  obtain ⟨vs, h', hl'⟩ := h'
  exact ⟨ws ++ vs, program_append' h h', by rw [List.length_append, hl, hl']⟩

theorem sized_single {l : Source} {ws : List U16} (h : l.assemble = some ws) : Sized [l] ws.length := ⟨ws, by unfold Source.program; rw [h]; simp [Source.program], rfl⟩

theorem sized_one {l : Source} {ws : List U16} (h : l.assemble = some ws) (hk : ws.length = k) : Sized [l] k := hk ▸ sized_single h

theorem sized_two {l l' : Source} {ws ws' : List U16} (h : l.assemble = some ws) (h' : l'.assemble = some ws') : Sized [l, l'] (ws.length + ws'.length) := sized_append (sized_single h) (sized_single h')

/-- Each line of the compiler assembles, to a known number of words. -/
def Words (l : Source) (k : Nat) : Prop := ∃ ws, l.assemble = some ws ∧ ws.length = k

theorem Words.sized {l : Source} (h : Words l k) : Sized [l] k := h.elim fun _ h => sized_one h.1 h.2

theorem words_const (v : U32) : Words (.move .Long (.dn 0) (.imm v)) 3 := ⟨_, rfl, rfl⟩
theorem words_var (d : U16) : Words (.move .Long (.dn 0) (.disp 6 d)) 2 := ⟨_, rfl, rfl⟩
theorem words_assign (d : U16) : Words (.move .Long (.disp 6 d) (.dn 0)) 2 := ⟨_, rfl, rfl⟩
theorem words_push : Words (.move .Long (.predec 7) (.dn 0)) 1 := ⟨_, rfl, rfl⟩
theorem words_pop : Words (.move .Long (.dn 1) (.postinc 7)) 1 := ⟨_, rfl, rfl⟩
theorem words_bin (o : BinOp) : Words o.line 1 := by cases o <;> exact ⟨_, rfl, rfl⟩
theorem words_un (o : UnOp) : Words o.line 1 := by cases o <;> exact ⟨_, rfl, rfl⟩
theorem words_cmp : Words (.cmp .Long 0 (.dn 1)) 1 := ⟨_, rfl, rfl⟩
theorem words_bcc (r : Rel) : Words (.bcc r.condition 6) 1 := by cases r <;> exact ⟨_, rfl, rfl⟩
theorem words_jmp (x : U32) : Words (.jmp (.absL x)) 3 := ⟨_, rfl, rfl⟩

theorem expr_sized (e : Expr n) : Sized e.code e.size := by
  induction e with
  | const v => exact (words_const v).sized
  | var i => exact (words_var _).sized
  | un o e ih => exact sized_append ih (words_un o).sized
  | bin o e1 e2 h1 h2 => exact sized_append h2 (sized_append words_push.sized (sized_append h1 (sized_append words_pop.sized (words_bin o).sized)))

theorem cond_sized (c : Cond n) (pc no : U32) : Sized (c.code pc no) c.size := by
  induction c generalizing pc no with
  | rel r e1 e2 =>
    exact sized_append (expr_sized e2) (sized_append words_push.sized (sized_append (expr_sized e1)
      (sized_append words_pop.sized (sized_append words_cmp.sized (sized_append (words_bcc r).sized (words_jmp no).sized)))))
  | not c ih => exact sized_append (ih _ _) (words_jmp _).sized
  | and c1 c2 h1 h2 => exact sized_append (h1 _ _) (h2 _ _)
  | or c1 c2 h1 h2 => exact sized_append (h1 _ _) (sized_append (words_jmp _).sized (h2 _ _))

theorem stmt_sized (st : Stmt n) (pc : U32) : Sized (st.code pc) st.size := by
  induction st generalizing pc with
  | skip => exact ⟨[], rfl, rfl⟩
  | assign i e => exact sized_append (expr_sized e) (words_assign _).sized
  | seq s t h1 h2 => exact sized_append (h1 _) (h2 _)
  | ite c s t h1 h2 => exact sized_append (cond_sized c _ _) (sized_append (h1 _) (sized_append (words_jmp _).sized (h2 _)))
  | loop c s ih => exact sized_append (cond_sized c _ _) (sized_append (ih _) (words_jmp _).sized)

/-! ### Parts of a program -/

/-- The lines `c` are in the program `p`, `k` words after its beginning. -/
def PartAt (p c : List Source) (k : Nat) : Prop := ∃ before after, p = before ++ (c ++ after) ∧ Sized before k

theorem placed_left {c d : List Source} (h : PartAt p (c ++ d) k) : PartAt p c k := by
  obtain ⟨b, f, hp, hs⟩ := h
  exact ⟨b, d ++ f, by rw [hp, List.append_assoc], hs⟩

theorem placed_right {c d : List Source} {j : Nat} (h : PartAt p (c ++ d) k) (hc : Sized c j) : PartAt p d (k + j) := by
  obtain ⟨b, f, hp, hs⟩ := h
  exact ⟨b ++ c, f, by rw [hp, List.append_assoc, List.append_assoc], sized_append hs hc⟩

theorem placed_cons {l : Source} {d : List Source} {j : Nat} (h : PartAt p (l :: d) k) (hl : Words l j) : PartAt p [l] k ∧ PartAt p d (k + j) :=
  ⟨placed_left (c := [l]) h, placed_right (c := [l]) h hl.sized⟩

/-! ### Memory -/

/-- The two memories have the same bytes, except perhaps for the `room` bytes below `sp`, and the same addresses are present. -/
structure KeptBut (m m' : M) (sp : U32) (room : Nat) : Prop where
  same : ∀ b, ¬ StackByte sp room b → Ram.peek m' b = Ram.peek m b
  present : SamePresent m m'

theorem KeptBut.refl (m : M) : KeptBut m m sp k := ⟨fun _ _ => rfl, fun _ => rfl⟩

theorem stackByte_mono {j : Nat} {b : U32} (h : StackByte sp k b) (hj : k ≤ j) : StackByte sp j b := h.elim fun i hi => ⟨i, Nat.lt_of_lt_of_le hi.1 hj, hi.2⟩

theorem KeptBut.mono {m m' : M} {j : Nat} (h : KeptBut m m' sp k) (hj : k ≤ j) : KeptBut m m' sp j := ⟨fun b hb => h.same b fun hb' => hb (stackByte_mono hb' hj), h.present⟩

theorem KeptBut.trans {m m' m'' : M} (h : KeptBut m m' sp k) (h' : KeptBut m' m'' sp k) : KeptBut m m'' sp k :=
  ⟨fun b hb => (h'.same b hb).trans (h.same b hb), fun b => (h'.present b).trans (h.present b)⟩

theorem stackByte_four {b : U32} (h : StackByte (sp - 4) k b) : StackByte sp (4 + k) b := by
  obtain ⟨i, hi, rfl⟩ := h
  refine ⟨4 + i, by omega, ?_⟩
  apply BitVec.eq_of_toNat_eq
  simp only [BitVec.toNat_sub, BitVec.toNat_ofNat]
  have e4 : (4 : U32).toNat = 4 := rfl
  rw [e4]
  have := sp.isLt
  omega

theorem stackByte_top {i : Nat} (hi : i < 4) : StackByte sp (4 + k) (at_ (sp - 4) i) := by
  refine ⟨3 - i, by omega, ?_⟩
  apply BitVec.eq_of_toNat_eq
  simp only [at_, BitVec.toNat_sub, BitVec.toNat_add, BitVec.toNat_ofNat]
  have e4 : (4 : U32).toNat = 4 := rfl
  rw [e4]
  have := sp.isLt
  omega

theorem not_stackByte_top {i : Nat} (hi : i < 4) (hk : k ≤ 2 ^ 31) : ¬ StackByte (sp - 4) k (at_ (sp - 4) i) := by
  rintro ⟨j, hj, h⟩
  have := congrArg BitVec.toNat h
  simp only [at_, BitVec.toNat_sub, BitVec.toNat_add, BitVec.toNat_ofNat] at this
  have e4 : (4 : U32).toNat = 4 := rfl
  rw [e4] at this
  have := sp.isLt
  omega

/-- The state in which code of the program `p` with the words `all` is executed: the variables are at `fp`, the stack of `room` bytes below `sp`. -/
structure Env (p : List Source) (all : List U16) (a fp : U32) (σ : Store n) (sp : U32) (room : Nat) (s : St M) : Prop where
  apart : SplitMem n all.length room a fp sp
  words : Source.program p = some all
  held : HoldsWords s.mem a all
  running : s.cpu.stop = false
  idle : s.cpu.exceptions = []
  untraced : s.cpu.regs.sr.t = false
  frame : s.cpu.regs.a 6 = fp
  stack : areg s.cpu.regs 7 = sp
  vars : HoldsStore s.mem fp σ
  room : ∀ b, StackByte sp room b → (Ram.peek s.mem b).isSome

variable {all : List U16} {σ : Store n} {room : Nat}

theorem Env.loaded (h : Env p all a fp σ sp room s) (hp : s.cpu.regs.pc = at_ a (2 * k)) : Loaded p a k s :=
  ⟨⟨all, h.words, h.held⟩, h.apart.codeEven, h.running, h.idle, h.untraced, hp⟩

theorem apart_mono {len j : Nat} (h : SplitMem n len room a fp sp) (hj : j ≤ room) : SplitMem n len j a fp sp :=
  { h with
    stack := Nat.le_trans hj h.stack
    codeStack := fun i hi hb => h.codeStack i hi (stackByte_mono hb hj)
    varsStack := fun i hi hb => h.varsStack i hi (stackByte_mono hb hj) }

theorem odd_sub_four (h : ¬ Spec.Odd sp) : ¬ Spec.Odd (sp - 4) := by
  unfold Spec.Odd at h ⊢
  simp only [BitVec.toNat_sub]
  have e4 : (4 : U32).toNat = 4 := rfl
  rw [e4]
  have := sp.isLt
  omega

theorem apart_push {len : Nat} (h : SplitMem n len (4 + room) a fp sp) : SplitMem n len room a fp (sp - 4) :=
  { h with
    stackEven := odd_sub_four h.stackEven
    stack := by have := h.stack; omega
    codeStack := fun i hi hb => h.codeStack i hi (stackByte_four hb)
    varsStack := fun i hi hb => h.varsStack i hi (stackByte_four hb) }

theorem Env.mono {j : Nat} (h : Env p all a fp σ sp room s) (hj : j ≤ room) : Env p all a fp σ sp j s :=
  { h with apart := apart_mono h.apart hj, room := fun b hb => h.room b (stackByte_mono hb hj) }

theorem holdsWords_kept {m m' : M} {ws : List U16} (h : HoldsWords m a ws) (hk : ∀ i < 2 * ws.length, Ram.peek m' (at_ a i) = Ram.peek m (at_ a i)) : HoldsWords m' a ws := by
  intro i hi j hj
  have hj' : j < 2 := hj
  rw [← h i hi j hj, at_add]
  exact hk _ (by omega)

theorem holdsStore_kept {m m' : M} (h : HoldsStore m fp σ) (hk : ∀ j < 4 * n, Ram.peek m' (at_ fp j) = Ram.peek m (at_ fp j)) : HoldsStore m' fp σ := by
  intro i j hj
  have hj' : j < 4 := hj
  have := i.isLt
  rw [← h i j hj, at_add]
  exact hk _ (by omega)

/-- Other data registers, flags and bytes below the stack pointer. -/
theorem Env.keep (h : Env p all a fp σ sp room s) (hr : s'.cpu.stop = s.cpu.stop) (he : s'.cpu.exceptions = s.cpu.exceptions) (ht : s'.cpu.regs.sr.t = s.cpu.regs.sr.t)
    (h6 : s'.cpu.regs.a 6 = s.cpu.regs.a 6) (h7 : areg s'.cpu.regs 7 = areg s.cpu.regs 7) (hk : KeptBut s.mem s'.mem sp room) : Env p all a fp σ sp room s' where
  apart := h.apart
  words := h.words
  held := holdsWords_kept h.held fun i hi => hk.same _ (h.apart.codeStack i hi)
  running := hr.trans h.running
  idle := he.trans h.idle
  untraced := ht.trans h.untraced
  frame := h6.trans h.frame
  stack := h7.trans h.stack
  vars := holdsStore_kept h.vars fun j hj => hk.same _ (h.apart.varsStack j hj)
  room := fun b hb => (hk.present b).trans (h.room b hb)

/-- The stack pointer four bytes lower. -/
theorem Env.lower (h : Env p all a fp σ sp (4 + room) s) (hr : s'.cpu.stop = s.cpu.stop) (he : s'.cpu.exceptions = s.cpu.exceptions) (ht : s'.cpu.regs.sr.t = s.cpu.regs.sr.t)
    (h6 : s'.cpu.regs.a 6 = s.cpu.regs.a 6) (h7 : areg s'.cpu.regs 7 = sp - 4) (hk : KeptBut s.mem s'.mem sp (4 + room)) : Env p all a fp σ (sp - 4) room s' where
  apart := apart_push h.apart
  words := h.words
  held := holdsWords_kept h.held fun i hi => hk.same _ (h.apart.codeStack i hi)
  running := hr.trans h.running
  idle := he.trans h.idle
  untraced := ht.trans h.untraced
  frame := h6.trans h.frame
  stack := h7
  vars := holdsStore_kept h.vars fun j hj => hk.same _ (h.apart.varsStack j hj)
  room := fun b hb => (hk.present b).trans (h.room b (stackByte_four hb))

/-! ### Execution -/

/-- At least `j` lines are executed between the two states. -/
def Reach (C : CpuDetails) (p : List Source) (a : U32) (j : Nat) (s s' : St M) : Prop := ∃ i k, j ≤ i ∧ Executes C p a i k s s'

theorem Reach.refl (s : St M) : Reach C p a 0 s s := ⟨0, 0, Nat.le_refl _, .done s⟩

theorem Reach.trans {j : Nat} (h : Reach C p a j s s1) (h' : Reach C p a k s1 s') : Reach C p a (j + k) s s' := by
  obtain ⟨i, c, hi, he⟩ := h
  obtain ⟨i', c', hi', he'⟩ := h'
  exact ⟨i + i', c + c', Nat.add_le_add hi hi', executes_trans he he'⟩

theorem Reach.weaken {j : Nat} (h : Reach C p a j s s') (hk : k ≤ j) : Reach C p a k s s' := by
  obtain ⟨i, c, hi, he⟩ := h
  exact ⟨i, c, Nat.le_trans hk hi, he⟩

theorem reach_line {l : Source} {ws : List U16} (h : Loaded p a k s) (hp : PartAt p [l] k) (hw : l.assemble = some ws) (hb : ∀ b v, l ≠ .btstStatic b (.imm v))
    (he : ∃ c, l.effect C s.cpu.regs.pc (afterWords s ws) = .ok c s1) : Reach C p a 1 s s1 := by
  obtain ⟨b, f, hp, ws0, h0, hl⟩ := hp
  obtain ⟨c, he⟩ := one_line (C := C) b f h hp h0 hl.symm hw hb he
  exact ⟨1, c, Nat.le_refl _, he⟩

/-- `s` with another opcode, other data registers, flags and program counter, and another memory. -/
def moved (s : St M) (op : U16) (d : Fin 8 → U32) (sr : StatusRegister) (pc : U32) (m : M) : St M :=
  ⟨{ s.cpu with currentOpcode := op, regs := { s.cpu.regs with d := d, sr := sr, pc := pc } }, m⟩

/-- The state after the words of a line. -/
theorem afterWords_moved {ws : List U16} {j : Nat} (hp : s.cpu.regs.pc = at_ a (2 * k)) (hl : ws.length = j) :
    afterWords s ws = moved s (ws.headD 0) s.cpu.regs.d s.cpu.regs.sr (at_ a (2 * (k + j))) s.mem := by
  unfold afterWords moved
  rw [hp, hl, at_add, ← Nat.mul_add]

end M68k.Exec
