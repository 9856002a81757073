import Verif.Lemmas.Disturbed
import Verif.Props.C71Tick
import Verif.Props.C88
/-
C89: compiled programs compute what their source means while the machine serves interrupts.

A compiled program with recursive procedures (C88) is executed in user mode. Before any of its instructions, any number of exceptions may be requested (`τ`), whose handlers are in the rest of
the memory (`Served`, from `Service` of C71). `Interrupted C τ cs s t` is the run: one element of `cs` for each instruction of the program, and all calls that the exceptions need between them.
-/
namespace M68k.Props
open Spec Exec
set_option linter.unusedSectionVars false
variable {M : Type} [MemoryAccess M] [Ram M] [Writable M] {C : CpuDetails} {s : St M} {n : Nat} {ps : List (Cmd n)} {st : Cmd n} {a : U32} {σ σ' : Store n} {room u : Nat} {P : U32 → Bool}

/-! ### No line of a compiled program is ORI or EORI to CCR -/

theorem plain_of {l : Source} {ws : List U16} (w : U16) (h : l.assemble = some ws) (hw : ws.headD 0 = w) (h1 : instr w ≠ .Oriccr ∧ instr w ≠ .Eoriccr) : l.Plain := by
  intro ws' h'
  rw [h] at h'
  cases h'
  rw [hw]
  exact h1

theorem plain_append {p q : List Source} (hp : ∀ l ∈ p, l.Plain) (hq : ∀ l ∈ q, l.Plain) : ∀ l ∈ p ++ q, l.Plain := fun l hl => (List.mem_append.1 hl).elim (hp l) (hq l)

theorem plain_cons {l : Source} {q : List Source} (hl : l.Plain) (hq : ∀ l ∈ q, l.Plain) : ∀ x ∈ l :: q, x.Plain := fun x hx => by
  rcases List.mem_cons.1 hx with rfl | hx
  · exact hl
  · exact hq x hx

theorem plain_nil : ∀ l ∈ ([] : List Source), l.Plain := fun _ h => nomatch h

theorem plain_const (v : U32) : (Source.move .Long (.dn 0) (.imm v)).Plain := plain_of 0x203C rfl (by simp only [List.headD_cons, show ((Mode.imm v).toAM.assemble Size.Long.isLong).fst = 0x3C from rfl]; rfl) (by decide)
theorem plain_var (d : U16) : (Source.move .Long (.dn 0) (.disp 6 d)).Plain := plain_of 0x202E rfl (by simp only [List.headD_cons, show ((Mode.disp 6 d).toAM.assemble Size.Long.isLong).fst = 0x2E from rfl]; rfl) (by decide)
theorem plain_assign (d : U16) : (Source.move .Long (.disp 6 d) (.dn 0)).Plain := plain_of 0x2D40 rfl (by simp only [List.headD_cons]; rfl) (by decide)
theorem plain_restore (d : U16) : (Source.move .Long (.disp 6 d) (.dn 1)).Plain := plain_of 0x2D41 rfl (by simp only [List.headD_cons]; rfl) (by decide)
theorem plain_push : (Source.move .Long (.predec 7) (.dn 0)).Plain := plain_of 0x2F00 rfl rfl (by decide)
theorem plain_pop : (Source.move .Long (.dn 1) (.postinc 7)).Plain := plain_of 0x221F rfl rfl (by decide)
theorem plain_bin (o : BinOp) : o.line.Plain := by cases o <;> exact plain_of _ rfl rfl (by decide)
theorem plain_un (o : UnOp) : o.line.Plain := by cases o <;> exact plain_of _ rfl rfl (by decide)
theorem plain_cmp : (Source.cmp .Long 0 (.dn 1)).Plain := plain_of _ rfl rfl (by decide)
theorem plain_bcc (r : Rel) : (Source.bcc r.condition 6).Plain := by cases r <;> exact plain_of _ rfl rfl (by decide)
theorem plain_jmp (x : U32) : (Source.jmp (.absL x)).Plain := plain_of 0x4EF9 rfl rfl (by decide)
theorem plain_jsr (x : U32) : (Source.jsr (.absL x)).Plain := plain_of 0x4EB9 rfl rfl (by decide)
theorem plain_rts : Source.rts.Plain := plain_of _ rfl rfl (by decide)

theorem expr_plain (e : Expr n) : ∀ l ∈ e.code, l.Plain := by
  induction e with
  | const k => exact plain_cons (plain_const k) plain_nil
  | var i => exact plain_cons (plain_var _) plain_nil
  | un o e ih => exact plain_append ih (plain_cons (plain_un o) plain_nil)
  | bin o e1 e2 ih1 ih2 => exact plain_append ih2 (plain_append (plain_cons plain_push plain_nil) (plain_append ih1 (plain_cons plain_pop (plain_cons (plain_bin o) plain_nil))))

theorem cond_plain (c : Cond n) : ∀ pc no, ∀ l ∈ c.code pc no, l.Plain := by
  induction c with
  | rel r e1 e2 =>
    intro pc no
    exact plain_append (expr_plain e2) (plain_append (plain_cons plain_push plain_nil) (plain_append (expr_plain e1)
      (plain_cons plain_pop (plain_cons plain_cmp (plain_cons (plain_bcc r) (plain_cons (plain_jmp _) plain_nil))))))
  | not c ih => intro pc no; exact plain_append (ih _ _) (plain_cons (plain_jmp _) plain_nil)
  | and c1 c2 ih1 ih2 => intro pc no; exact plain_append (ih1 _ _) (ih2 _ _)
  | or c1 c2 ih1 ih2 => intro pc no; exact plain_append (ih1 _ _) (plain_append (plain_cons (plain_jmp _) plain_nil) (ih2 _ _))

theorem cmd_plain (st : Cmd n) (entry : Nat → U32) : ∀ pc, ∀ l ∈ st.code entry pc, l.Plain := by
  induction st with
  | skip => intro pc; exact plain_nil
  | assign i e => intro pc; exact plain_append (expr_plain e) (plain_cons (plain_assign _) plain_nil)
  | seq s t ih1 ih2 => intro pc; exact plain_append (ih1 _) (ih2 _)
  | ite c s t ih1 ih2 => intro pc; exact plain_append (cond_plain c _ _) (plain_append (ih1 _) (plain_append (plain_cons (plain_jmp _) plain_nil) (ih2 _)))
  | loop c s ih => intro pc; exact plain_append (cond_plain c _ _) (plain_append (ih _) (plain_cons (plain_jmp _) plain_nil))
  | keep i s ih =>
    intro pc
    exact plain_append (plain_cons (plain_var _) plain_nil) (plain_append (plain_cons plain_push plain_nil) (plain_append (ih _) (plain_cons plain_pop (plain_cons (plain_restore _) plain_nil))))
  | call f => intro pc; exact plain_cons (plain_jsr _) plain_nil

theorem routines_plain (ps : List (Cmd n)) (entry : Nat → U32) : ∀ pc, ∀ l ∈ routinesCode entry pc ps, l.Plain := by
  induction ps with
  | nil => intro pc; exact plain_nil
  | cons s ps ih => intro pc; exact plain_append (cmd_plain s _ _) (plain_append (plain_cons plain_rts plain_nil) (ih _))

theorem whole_plain (ps : List (Cmd n)) (st : Cmd n) (a : U32) : ∀ l ∈ wholeCode ps st a, l.Plain := plain_append (routines_plain ps _ _) (cmd_plain st _ _)

/-! ### The program behind the fence -/

theorem launched_fenced (h : Launched ps st a σ room s) (hP : ∀ b, WholeByte ps st a (s.cpu.regs.a 6) (areg s.cpu.regs 7) room b → P b = true) :
    Launched ps st a σ room (⟨s.cpu, ⟨s.mem⟩⟩ : St (Fenced (bytesIn P) M)) where
  apart := h.apart
  running := h.running
  idle := h.idle
  untraced := h.untraced
  here := h.here
  code := by
    obtain ⟨ws, hw, hh⟩ := h.code
    obtain ⟨ws', hw', hl⟩ := C88_assembles ps st a
    obtain rfl : ws = ws' := Option.some.inj (hw.symm.trans hw')
    refine ⟨ws, hw, fun q hq k hk => ?_⟩
    have hk2 : k < 2 := hk
    have hb : P (at_ (at_ a (2 * q)) k) = true := by
      rw [at_add]
      exact hP _ (.inl ⟨2 * q + k, by omega, rfl⟩)
    exact (peek_in (m := s.mem) hb).trans (hh q hq k hk)
  vars i k hk := by
    have hk4 : k < 4 := hk
    have hi := i.isLt
    have hb : P (at_ (at_ (s.cpu.regs.a 6) (4 * i.val)) k) = true := by
      rw [at_add]
      exact hP _ (.inr (.inl ⟨4 * i.val + k, by omega, rfl⟩))
    exact (peek_in (m := s.mem) hb).trans (h.vars i k hk)
  room b hb := by
    have := peek_in (m := s.mem) (hP b (.inr (.inr hb)))
    show (Ram.peek (⟨s.mem⟩ : Fenced (bytesIn P) M) b).isSome = true
    rw [this]
    exact h.room b hb

/-- Any program of assembly lines (C81), not only a compiled one, that is executed line by line in user mode and accesses only `P` (it does not panic behind the fence): with any exceptions
requested before its lines, it ends with the same registers and the same bytes in `P`, and its own lines take the same time `k`. Its lines are not ORI or EORI to CCR, with which the code can change the system byte (C25). -/
theorem C89_program {p : List Source} {i k : Nat} {u : St (Fenced (bytesIn P) M)} (hp : ∀ l ∈ p, l.Plain) (h : Executes C p a i k (⟨s.cpu, ⟨s.mem⟩⟩ : St (Fenced (bytesIn P) M)) u)
    (hidle : s.cpu.exceptions = []) (huser : s.cpu.regs.sr.s = false) (hmask : s.cpu.regs.sr.interruptMask.toNat ≤ 7) (hpres : ∀ b, P b = true → (Ram.peek s.mem b).isSome) :
    ∃ cs, (cs.length = i ∧ cs.sum = k) ∧ ∀ {F : U32 → Bool} {depth : Nat} {I : List U8 → M → Prop} {τ : Nat → List U8}, Served C P F depth I τ s →
      ∃ t, Interrupted C τ cs s t ∧ t.cpu.regs = u.cpu.regs ∧ t.cpu.stop = u.cpu.stop ∧ t.cpu.exceptions = [] ∧ AgreeIn P u.mem.mem t.mem ∧ I (requested τ i) t.mem :=
  executes_interrupted hp h hidle huser hmask hpres

/-- A statement that ends, in user mode, with the stack it needs. There is a number of instructions after which, whatever exceptions are requested before any of them, and however often, the
program has done what its source means, and every exception has been served. -/
theorem C89_ends (h : Launched ps st a σ room s) (hr : PerformsIn ps st σ σ' u) (hu : u ≤ room) (huser : s.cpu.regs.sr.s = false) (hmask : s.cpu.regs.sr.interruptMask.toNat ≤ 7)
    (hP : ∀ b, WholeByte ps st a (s.cpu.regs.a 6) (areg s.cpu.regs 7) room b → P b = true) (hpres : ∀ b, P b = true → (Ram.peek s.mem b).isSome) :
    ∃ cs, ∀ {F : U32 → Bool} {depth : Nat} {I : List U8 → M → Prop} {τ : Nat → List U8}, Served C P F depth I τ s →
      ∃ t, Interrupted C τ cs s t ∧ Completed ps st a σ' s t ∧ I (requested τ cs.length) t.mem := by
  obtain ⟨all, hl, he⟩ := launched_env (launched_fenced h hP)
  obtain ⟨op, d, sr, m', ⟨i, c, -, hx⟩, hd, hs, ho, he'⟩ := cmd_ends (C := C) (placed_routines ps st a) hr he hu h.here (placed_main ps st a)
  obtain ⟨cs, ⟨hlen, -⟩, hall⟩ := executes_interrupted (whole_plain ps st a) hx h.idle huser hmask hpres
  refine ⟨cs, fun hS => ?_⟩
  obtain ⟨t, h1, h2, h3, h4, h5, h6⟩ := hall hS
  have hag : ∀ b, P b = true → Ram.peek t.mem b = Ram.peek m' b := fun b hb => by
    obtain ⟨v, hv, hv'⟩ := h5 b hb
    have : Ram.peek m' b = Ram.peek m'.mem b := peek_in hb
    rw [hv', this]
    exact hv.symm
  refine ⟨t, h1, ⟨by rw [h2]; rfl, fun j k hk => ?_, fun j hj => ?_, by rw [h2]; exact ⟨rfl, rfl, rfl⟩, by rw [h2]; exact hd, by rw [h2]; exact hs, h3.trans he'.running, h4⟩, hlen ▸ h6⟩
  · have hk4 : k < 4 := hk
    have hj := j.isLt
    rw [hag _ (by rw [at_add]; exact hP _ (.inr (.inl ⟨4 * j.val + k, by omega, rfl⟩)))]
    exact he'.vars j k hk
  · have hb := hP _ (.inl ⟨j, hj, rfl⟩)
    rw [hag _ hb]
    refine (ho _ (h.apart.codeStack j hj) fun q hq => h.apart.codeVars j hj q hq).trans (peek_in hb)

/-- A statement that does not end, and whose stack is never too small: after any number of its instructions, whatever exceptions are requested before them, the program is still in its code,
and every exception has been served. -/
theorem C89_forever (h : Launched ps st a σ room s) (hr : ¬ ∃ σ' u, PerformsIn ps st σ σ' u) (hx : ¬ ExceedsIn ps st σ room) (huser : s.cpu.regs.sr.s = false)
    (hmask : s.cpu.regs.sr.interruptMask.toNat ≤ 7) (hP : ∀ b, WholeByte ps st a (s.cpu.regs.a 6) (areg s.cpu.regs 7) room b → P b = true)
    (hpres : ∀ b, P b = true → (Ram.peek s.mem b).isSome) (m : Nat) :
    ∃ cs, cs.length = m ∧ ∀ {F : U32 → Bool} {depth : Nat} {I : List U8 → M → Prop} {τ : Nat → List U8}, Served C P F depth I τ s →
      ∃ t, Interrupted C τ cs s t ∧ (∃ j < wholeSize ps st, t.cpu.regs.pc = at_ a (2 * j)) ∧ t.cpu.regs.sr.s = false ∧ t.cpu.exceptions = [] ∧ I (requested τ m) t.mem := by
  obtain ⟨all, hl, he⟩ := launched_env (launched_fenced h hP)
  have hright := runIn_right (ps := ps) (m + 1) room st room σ (by omega)
  have hn : runIn ps (m + 1) room st room σ = .more := by
    cases ho : runIn ps (m + 1) room st room σ with
    | done σ' => rw [ho] at hright; obtain ⟨u, -, hp⟩ := hright; exact absurd ⟨σ', u, hp⟩ hr
    | over => rw [ho] at hright; exact absurd hright hx
    | more => rfl
  obtain ⟨v, i, k, hi, hx⟩ := runIn_lasts (C := C) (placed_routines ps st a) (m + 1) room st room σ (by omega) he h.here (placed_main ps st a) hn
  obtain ⟨c, t, l, ws, hx', hat⟩ := executes_prefix hx (j := m) (by omega)
  obtain ⟨cs, ⟨hlen, -⟩, hall⟩ := executes_interrupted (whole_plain ps st a) hx' h.idle huser hmask hpres
  obtain ⟨cs', ⟨hlen', -⟩, hun', hsys⟩ := executes_undisturbed (whole_plain ps st a) hx' huser (by show s.cpu.regs.sr.interruptMask.toNat < 8; omega)
  refine ⟨cs, hlen, fun hS => ?_⟩
  obtain ⟨t', h1, h2, -, h4, -, h6⟩ := hall hS
  refine ⟨t', h1, ?_, ?_, h4, h6⟩
  · rw [h2]; exact hl ▸ within_code he.words hat
  · rw [h2]; exact ((hsys cs' t (by omega) hun').1.2.1).trans huser

/-! ### With a timer -/

/-- The machine with the timer of C71: its interrupt `v` is requested `τ k` times before instruction `k`. -/
theorem tick_served {F : U32 → Bool} {v : U8} {h : U32} {w : U16} {τ : Nat → Nat} (hI : Ticks F v h w [] s.mem) (hl : TickLayout P F v h w) (h0 : v ≠ 0) (hs : ¬ LongFrame v)
    (hst : StackIn F (frameBytes C.STACK_FORMAT v) s) (hm : ¬ Masked s.cpu.regs.sr.interruptMask v) :
    Served C P F (frameBytes C.STACK_FORMAT v) (Ticks F v h w) (fun k => List.replicate (τ k) v) s where
  ready := hI
  service k v' hv' := by rw [List.eq_of_mem_replicate hv']; exact C71_tick_service hl h0 hs
  own l m m' hm hc := ticks_changed (D := fun a => P a = true) hm (fun a ha => by rw [hc a (hl.stack a ha)]; exact hm.stack a ha) (fun a ha => hc a (by simpa using ha))
      (fun k hk => by rw [(hl.vector k hk).1]; decide) (fun k hk => by rw [(hl.code k hk).1]; decide) (hm.count.of_eq fun k hk => hc _ (hl.count k hk).1)
  stack := hst
  unmasked k v' hv' := by rw [List.eq_of_mem_replicate hv']; exact hm

theorem requested_replicate (τ : Nat → Nat) (v : U8) (k : Nat) : (requested (fun k => List.replicate (τ k) v) k).length = ((List.range k).map τ).sum := by
  induction k with
  | zero => rfl
  | succ k ih => rw [List.range_succ, requested, List.length_append, ih, List.length_replicate]; simp

/-- A compiled program and a timer whose handler is `ADDQ.W #1,count; RTE`: however often the timer interrupts the program, the program computes what its source means, and `count` is the
number of interrupts. -/
theorem C89_timer (h : Launched ps st a σ room s) (hr : PerformsIn ps st σ σ' u) (hu : u ≤ room) (huser : s.cpu.regs.sr.s = false) (hmask : s.cpu.regs.sr.interruptMask.toNat ≤ 7)
    (hP : ∀ b, WholeByte ps st a (s.cpu.regs.a 6) (areg s.cpu.regs 7) room b → P b = true) (hpres : ∀ b, P b = true → (Ram.peek s.mem b).isSome)
    {F : U32 → Bool} {v : U8} {hd : U32} {w : U16} (hI : Ticks F v hd w [] s.mem) (hl : TickLayout P F v hd w) (h0 : v ≠ 0) (hs : ¬ LongFrame v)
    (hst : StackIn F (frameBytes C.STACK_FORMAT v) s) (hm : ¬ Masked s.cpu.regs.sr.interruptMask v) :
    ∃ cs, ∀ τ : Nat → Nat, ∃ t, Interrupted C (fun k => List.replicate (τ k) v) cs s t ∧ Completed ps st a σ' s t ∧
      Holds (sz := .Word) t.mem (signExt w) (BitVec.ofNat 16 ((List.range cs.length).map τ).sum) := by
  obtain ⟨cs, hc⟩ := C89_ends (C := C) h hr hu huser hmask hP hpres
  refine ⟨cs, fun τ => ?_⟩
  obtain ⟨t, h1, h2, h3⟩ := hc (tick_served (τ := τ) hI hl h0 hs hst hm)
  exact ⟨t, h1, h2, requested_replicate τ v _ ▸ h3.count⟩

/-! ### The hypotheses are met -/

/-- The code of `addDown` and of `call 0`, at 0x100. -/
def timedWords : List U16 := [0x203C, 0, 0, 0x2F00, 0x202E, 0, 0x221F, 0xB081, 0x6606, 0x4EF9, 0, 0x0156, 0x202E, 0, 0x2F00, 0x203C, 0, 1, 0x2F00, 0x202E, 0, 0x221F, 0x9081, 0x2D40, 0, 0x4EB9, 0, 0x0100, 0x221F, 0x2D41, 0, 0x202E, 0, 0x2F00, 0x202E, 4, 0x221F, 0xD081, 0x2D40, 4, 0x4EF9, 0, 0x0156, 0x4E75, 0x4EB9, 0, 0x0100]

theorem timed_words : Source.program (wholeCode [addDown] (.call 0) 0x100) = some timedWords := by decide +kernel

/-- The vector of interrupt level 2 at 0x68, the code at 0x100, the variables at 0x160, 32 bytes of stack below 0x188, the supervisor stack below 0x198, the handler at 0x1A0 and its counter
at 0x1A8. -/
def timedDemo : St WordSlice :=
  { mem := ⟨List.replicate 52 0xAAAA ++ [0, 0x1A0] ++ List.replicate 74 0xAAAA ++ timedWords ++ [0xBBBB] ++ [0, 3, 0, 10] ++ List.replicate 24 0xCCCC ++ List.replicate 4 0xDDDD ++ [0x5278, 0x1A8, 0x4E73, 0xEEEE, 0]⟩
    cpu := { regs := { Demo.regs [1, 2, 3] [0, 0, 0, 0, 0, 0, 0x160, 0x188] with pc := 0x158, ssp := 0x198 }, currentOpcode := 0, stop := false, exceptions := [] } }

def timedProgram (b : U32) : Bool := decide (0x100 ≤ b.toNat ∧ b.toNat < 0x15E) || decide (0x160 ≤ b.toNat ∧ b.toNat < 0x188)
def timedStack (b : U32) : Bool := decide (0x192 ≤ b.toNat ∧ b.toNat < 0x198)

theorem timed_apart : SplitMem 2 47 32 0x100 0x160 0x188 where
  codeEven := by decide
  varsEven := by decide
  stackEven := by decide
  count := by decide
  stack := by decide
  codeVars := by
    have h : ∀ (i : Fin 94) (j : Fin 8), at_ 0x100 i.val ≠ at_ 0x160 j.val := by decide +kernel
    exact fun i hi j hj => h ⟨i, hi⟩ ⟨j, hj⟩
  codeStack := by
    have h : ∀ (i : Fin 94) (k : Fin 32), at_ 0x100 i.val ≠ 0x188 - BitVec.ofNat 32 (k.val + 1) := by decide +kernel
    exact fun i hi ⟨k, hk, e⟩ => h ⟨i, hi⟩ ⟨k, hk⟩ e
  varsStack := by
    have h : ∀ (i : Fin 8) (k : Fin 32), at_ 0x160 i.val ≠ 0x188 - BitVec.ofNat 32 (k.val + 1) := by decide +kernel
    exact fun i hi ⟨k, hk, e⟩ => h ⟨i, hi⟩ ⟨k, hk⟩ e

theorem timed_launched : Launched [addDown] (.call 0) 0x100 addDownStore 32 timedDemo where
  apart := timed_apart
  running := rfl
  idle := rfl
  untraced := rfl
  here := rfl
  code := ⟨timedWords, timed_words, by
    have h : ∀ (i : Fin 47) (k : Fin 2), Ram.peek timedDemo.mem (at_ (at_ 0x100 (2 * i.val)) k.val) = some (beByte (sz := .Word) (timedWords[i.val]'i.isLt) k.val) := by decide +kernel
    exact fun i hi k hk => h ⟨i, hi⟩ ⟨k, hk⟩⟩
  vars := by
    have h : ∀ (i : Fin 2) (k : Fin 4), Ram.peek timedDemo.mem (at_ (at_ 0x160 (4 * i.val)) k.val) = some (beByte (sz := .Long) (addDownStore i) k.val) := by decide +kernel
    exact fun i k hk => h i ⟨k, hk⟩
  room := by
    have h : ∀ k : Fin 32, (Ram.peek timedDemo.mem (0x188 - BitVec.ofNat 32 (k.val + 1))).isSome := by decide +kernel
    rintro b ⟨k, hk, rfl⟩
    exact h ⟨k, hk⟩

theorem timed_whole : ∀ b, WholeByte [addDown] (.call 0) 0x100 0x160 0x188 32 b → timedProgram b = true := by
  have h1 : ∀ i : Fin 94, timedProgram (at_ 0x100 i.val) = true := by decide +kernel
  have h2 : ∀ i : Fin 8, timedProgram (at_ 0x160 i.val) = true := by decide +kernel
  have h3 : ∀ k : Fin 32, timedProgram (0x188 - BitVec.ofNat 32 (k.val + 1)) = true := by decide +kernel
  rintro b (⟨i, hi, rfl⟩ | ⟨j, hj, rfl⟩ | ⟨k, hk, rfl⟩)
  · exact h1 ⟨i, hi⟩
  · exact h2 ⟨j, hj⟩
  · exact h3 ⟨k, hk⟩

theorem timed_present {b : U32} (h : b.toNat < 0x1AA) : (Ram.peek timedDemo.mem b).isSome := by
  show (timedDemo.mem.words[b.toNat / 2]?.map _).isSome
  have : b.toNat / 2 < timedDemo.mem.words.length := Nat.lt_of_lt_of_le (show b.toNat / 2 < 213 by omega) (by decide +kernel)
  rw [List.getElem?_eq_getElem this]
  rfl

theorem timed_ticks : Ticks timedStack 26 0x1A0 0x1A8 [] timedDemo.mem where
  vector := by
    have h : ∀ k : Fin 4, Ram.peek timedDemo.mem (at_ (vectorAddress 26) k.val) = some (beByte (sz := .Long) (0x1A0 : U32) k.val) := by decide +kernel
    exact fun k hk => h ⟨k, hk⟩
  code := by
    have h : ∀ (i : Fin 3) (k : Fin 2), Ram.peek timedDemo.mem (at_ (at_ 0x1A0 (2 * i.val)) k.val) = some (beByte (sz := .Word) ([0x5278, 0x1A8, 0x4E73][i.val]'i.isLt : U16) k.val) := by decide +kernel
    exact fun i hi k hk => h ⟨i, hi⟩ ⟨k, hk⟩
  count := by
    have h : ∀ k : Fin 2, Ram.peek timedDemo.mem (at_ (signExt (0x1A8 : U16)) k.val) = some (beByte (sz := .Word) (0 : U16) k.val) := by decide +kernel
    exact fun k hk => h ⟨k, hk⟩
  stack b hb := timed_present (by
    have : 0x192 ≤ b.toNat ∧ b.toNat < 0x198 := by simpa [timedStack] using hb
    omega)

theorem timed_layout : TickLayout timedProgram timedStack 26 0x1A0 0x1A8 where
  evenHandler := by decide
  evenCount := by decide
  stack b hb := by
    have : 0x192 ≤ b.toNat ∧ b.toNat < 0x198 := by simpa [timedStack] using hb
    simp only [timedProgram, Bool.or_eq_false_iff, decide_eq_false_iff_not]
    omega
  vector := by decide +kernel
  code := by decide +kernel
  count := by decide +kernel
  countVector := by decide +kernel
  countCode := by decide +kernel

theorem timed_program_present (b : U32) (hb : timedProgram b = true) : (Ram.peek timedDemo.mem b).isSome := timed_present (by
  have : (0x100 ≤ b.toNat ∧ b.toNat < 0x15E) ∨ (0x160 ≤ b.toNat ∧ b.toNat < 0x188) := by simpa [timedProgram] using hb
  omega)

/-- 10 + 1 + 2 + 3 by recursion, however often the timer interrupts it. -/
example : ∃ cs σ', σ' 0 = 3 ∧ σ' 1 = 16 ∧ ∀ τ : Nat → Nat, ∃ t, Interrupted mc68000 (fun k => List.replicate (τ k) 26) cs timedDemo t ∧ Completed [addDown] (.call 0) 0x100 σ' timedDemo t ∧
    Holds (sz := .Word) t.mem 0x1A8 (BitVec.ofNat 16 ((List.range cs.length).map τ).sum) := by
  obtain ⟨σ', hr, h0, h1⟩ := addDown_performs 3 addDownStore rfl (by decide)
  obtain ⟨cs, hc⟩ := C89_timer (C := mc68000) (P := timedProgram) timed_launched hr (Nat.le_refl _) rfl (by decide) timed_whole timed_program_present timed_ticks timed_layout (by decide) (by decide)
    ⟨by decide, by decide +kernel⟩ (by decide)
  exact ⟨cs, σ', h0, h1, hc⟩

/-- The hypotheses of `C89_ends` and `C89_forever` about the exceptions, for any number of timer interrupts before each instruction. -/
example (τ : Nat → Nat) : Served mc68000 timedProgram timedStack 6 (Ticks timedStack 26 0x1A0 0x1A8) (fun k => List.replicate (τ k) 26) timedDemo :=
  tick_served timed_ticks timed_layout (by decide) (by decide) ⟨by decide, by decide +kernel⟩ (by decide)

end M68k.Props
