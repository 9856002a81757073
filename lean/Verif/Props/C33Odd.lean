import Verif.Lemmas.EndsMul
import Verif.Lemmas.Shifts
import Verif.Lemmas.MovemRam
import Verif.Lemmas.Stack
import Verif.Spec.OddAddress
import Verif.Props.C15
/-
C33, second part: a word or long operand at an odd address is exception 3, for every instruction that has one.
MOVEM is in C18 (`C18_odd`), the stack frames of exceptions in C26.
-/
namespace M68k.Props
open Spec Exec
set_option linter.unusedSectionVars false
variable {M : Type} [MemoryAccess M] {C : CpuDetails} {s s1 s2 s3 s' : St M} {op : U16} {sz : Size} {m : Mode} {a : U32} {g : Registers}

theorem raises_of_exec {v : U8} (h : Ready s op s1) (hi : instr op ≠ .Unknown) (hx : Spec.exec C (instr op) op s1 = .err v s') : Raises C s v s' := by
  have hf := step_finish C h
  rw [decoder_of_map op hi] at hf
  simp only [finishStep, hx] at hf
  exact hf

theorem bind_left {α β : Type} {x : Exec M α} {f : α → Exec M β} {v : U8} (h : x s = .err v s') : (x >>= f) s = .err v s' := by
  rw [Exec.bind_apply, h]

theorem bind_right {α β : Type} {x : Exec M α} {f : α → Exec M β} {b : α} (h : x s = .ok b s2) : (x >>= f) s = f b s2 := by
  rw [Exec.bind_apply, h]

theorem cost_left {α : Type} {x : Exec M α} {t : Nat} {v : U8} (h : x s = .err v s') : cost x t s = .err v s' := by
  unfold cost; rw [Exec.map_apply, h]

theorem locate_at (hp : place sz s.cpu.regs m = (.mem a, g)) : (locate sz m : Exec M _) s = .ok (.mem a) (s.withRegs fun _ => g) := by
  unfold locate; rw [hp]; rfl

theorem readAt_odd (hw : sz ≠ .Byte) (ho : Spec.Odd a) : (readAt sz (.mem a) : Exec M _) s = .err 3 s := by
  simp only [readAt, load]; rw [if_pos ⟨hw, ho⟩]; rfl

theorem writeAt_odd {v : Val sz} (hw : sz ≠ .Byte) (ho : Spec.Odd a) : (writeAt sz (.mem a) v : Exec M _) s = .err 3 s := by
  simp only [writeAt, store]; rw [if_pos ⟨hw, ho⟩]; rfl

theorem read_odd (hw : sz ≠ .Byte) (hp : place sz s.cpu.regs m = (.mem a, g)) (ho : Spec.Odd a) :
    (Spec.read sz m : Exec M _) s = .err 3 (s.withRegs fun _ => g) := by
  unfold Spec.read
  rw [bind_right (locate_at hp)]
  exact bind_left (readAt_odd hw ho)

theorem write_odd {v : Val sz} (hw : sz ≠ .Byte) (hp : place sz s.cpu.regs m = (.mem a, g)) (ho : Spec.Odd a) :
    (Spec.write sz m v : Exec M _) s = .err 3 (s.withRegs fun _ => g) := by
  unfold Spec.write
  rw [bind_right (locate_at hp)]
  exact writeAt_odd hw ho

theorem rmw_odd {f} (hw : sz ≠ .Byte) (hp : place sz s.cpu.regs m = (.mem a, g)) (ho : Spec.Odd a) :
    (Spec.rmw sz m f : Exec M _) s = .err 3 (s.withRegs fun _ => g) := bind_left (read_odd hw hp ho)

theorem readExt_odd (hw : sz ≠ .Byte) (hp : place sz s.cpu.regs m = (.mem a, g)) (ho : Spec.Odd a) :
    (Spec.readExt sz m : Exec M _) s = .err 3 (s.withRegs fun _ => g) := bind_left (read_odd hw hp ho)

theorem fetchEa_word : (fetchEa (some .Byte) op : Exec M _) = fetchEa (some .Word) op := by
  unfold fetchEa fetchMode
  rfl

theorem opToEa_odd {n f} (hw : sz ≠ .Byte) (hp : place sz s.cpu.regs m = (.mem a, g)) (ho : Spec.Odd a) :
    (Spec.opToEa sz n m f : Exec M _) s = .err 3 (s.withRegs fun _ => g) := by
  unfold opToEa
  rw [getR_bind_apply]
  exact rmw_odd hw hp ho

theorem binary_odd {f} {t1 t2 t3 t4 t5 : Nat} (hsz : opSize op = some sz) (hm : fetchEa (some sz) op s1 = .ok m s2) (hw : sz ≠ .Byte) (hp : place sz s2.cpu.regs m = (.mem a, g)) (ho : Spec.Odd a) :
    (Spec.binary C op f t1 t2 t3 t4 t5 : Exec M _) s1 = .err 3 (s2.withRegs fun _ => g) := by
  unfold binary
  rw [sized_some hsz, bind_right hm]
  split
  · exact cost_left (opToEa_odd hw hp ho)
  · exact cost_left (bind_left (read_odd hw hp ho))

theorem immediate_odd {f} {t1 t2 t3 t4 : Nat} (hsz : opSize op = some sz) (hm : (fetchImm sz >>= fun _ => fetchEa (some sz) op : Exec M _) s1 = .ok m s2) (hw : sz ≠ .Byte) (hp : place sz s2.cpu.regs m = (.mem a, g)) (ho : Spec.Odd a) :
    (Spec.immediate C op f t1 t2 t3 t4 : Exec M _) s1 = .err 3 (s2.withRegs fun _ => g) := by
  obtain ⟨v, t, h1, h2⟩ := bind_ok hm
  unfold immediate
  rw [sized_some hsz, bind_right h1, bind_right h2]
  exact cost_left (rmw_odd hw hp ho)

theorem unary_odd {x : (sz : Size) → Mode → Exec M Unit} {t1 t2 t3 t4 : Nat} (hsz : opSize op = some sz) (hm : fetchEa (some sz) op s1 = .ok m s2)
    (hx : x sz m s2 = .err 3 (s2.withRegs fun _ => g)) :
    (Spec.unary C op t1 t2 t3 t4 x : Exec M _) s1 = .err 3 (s2.withRegs fun _ => g) := by
  unfold unary
  rw [sized_some hsz, bind_right hm]
  exact cost_left hx

theorem shiftMem_odd {l r} {t : Nat} (hm : fetchEa (some .Word) op s1 = .ok m s2) (hp : place .Word s2.cpu.regs m = (.mem a, g)) (ho : Spec.Odd a) :
    (Spec.shiftMem C op l r t : Exec M _) s1 = .err 3 (s2.withRegs fun _ => g) := by
  unfold shiftMem
  rw [fetchEa_word, bind_right hm]
  exact cost_left (rmw_odd (by decide) hp ho)

theorem quick_odd {b d} (hw : sz ≠ .Byte) (hp : place sz s.cpu.regs m = (.mem a, g)) (ho : Spec.Odd a) :
    (Spec.quickOp b d sz m : Exec M _) s = .err 3 (s.withRegs fun _ => g) := by
  unfold quickOp
  split
  · cases hp
  · exact rmw_odd hw hp ho

theorem clearC_place (hp : place sz s.cpu.regs m = (.mem a, g)) :
    place sz (clearC s).cpu.regs m = (.mem a, { g with sr := { g.sr with c := false } }) := by
  have e := locate_clearC sz m s
  rw [locate_at hp] at e
  unfold locate at e
  have e1 : (place sz (clearC s).cpu.regs m).1 = .mem a := by injection e
  have e2 : (place sz (clearC s).cpu.regs m).2 = { g with sr := { g.sr with c := false } } := by
    injection e with _ e
    exact congrArg (fun x : St M => x.cpu.regs) e
  exact Prod.ext e1 e2

theorem wordToDn_odd {x : Fin 8 → Mode → Exec M Unit} {t : Nat} (hm : fetchEa (some .Word) op s1 = .ok m s2) (hx : x (regField op 9) m s2 = .err 3 s') :
    (Spec.wordToDn C op x t : Exec M _) s1 = .err 3 s' := by
  unfold wordToDn
  rw [bind_right hm]
  exact cost_left hx

theorem bind_fetch {α : Type} {k : Mode → Exec M α} (hm : fetchEa (some sz) op s1 = .ok m s2) (hx : k m s2 = .err 3 s') :
    (fetchEa (some sz) op >>= k) s1 = .err 3 s' := by rw [bind_right hm]; exact hx

theorem sized_odd {k : Size → Mode → Exec M Nat} (hs : opSize op = some sz) (hm : fetchEa (some sz) op s1 = .ok m s2) (hx : k sz m s2 = .err 3 s') :
    (sized op fun sz => fetchEa (some sz) op >>= k sz) s1 = .err 3 s' := by
  rw [sized_some hs, bind_right hm]; exact hx

theorem cmpi_odd {k : Size → U32 → Mode → Exec M Nat} (hs : opSize op = some sz) (hm : (fetchImm sz >>= fun _ => fetchEa (some sz) op : Exec M _) s1 = .ok m s2)
    (hx : ∀ v, k sz v m s2 = .err 3 s') : (sized op fun sz => fetchImm sz >>= fun v => fetchEa (some sz) op >>= k sz v) s1 = .err 3 s' := by
  obtain ⟨v, t, h1, h2⟩ := bind_ok hm
  rw [sized_some hs, bind_right h1, bind_right h2]
  exact hx v

theorem movea_odd {n : Fin 8} {t : Mode → Size → Nat} (hs : moveOpSize op = some sz) (hm : fetchEa (some sz) op s1 = .ok m s2) (hw : sz ≠ .Byte)
    (hp : place sz s2.cpu.regs m = (.mem a, g)) (ho : Spec.Odd a) :
    (moveSized op fun sz => fetchEa (some sz) op >>= fun m => cost (movea sz n m) (t m sz) : Exec M _) s1 = .err 3 (s2.withRegs fun _ => g) := by
  rw [moveSized_some hs, bind_right hm]
  exact cost_left (bind_left (readExt_odd hw hp ho))

theorem clearC_read_odd (hp : place .Word s2.cpu.regs m = (.mem a, g)) (ho : Spec.Odd a) :
    (Spec.read .Word m : Exec M _) (s2.withRegs fun r => { r with sr := { r.sr with c := false } }) = .err 3 (s2.withRegs fun _ => { g with sr := { g.sr with c := false } }) :=
  read_odd (s := clearC s2) (by decide) (clearC_place hp) ho

theorem divu_odd {n : Fin 8} (hp : place .Word s2.cpu.regs m = (.mem a, g)) (ho : Spec.Odd a) :
    (divu n m : Exec M _) s2 = .err 3 (s2.withRegs fun _ => { g with sr := { g.sr with c := false } }) := by
  unfold divu setFlags
  rw [modR_bind_apply]
  exact bind_left (clearC_read_odd hp ho)

theorem divs_odd {n : Fin 8} (hp : place .Word s2.cpu.regs m = (.mem a, g)) (ho : Spec.Odd a) :
    (divs n m : Exec M _) s2 = .err 3 (s2.withRegs fun _ => { g with sr := { g.sr with c := false } }) := by
  unfold divs setFlags
  rw [modR_bind_apply]
  exact bind_left (clearC_read_odd hp ho)

theorem sizeBit_of {sz : Size} (hs : some (if op.toNat / 2 ^ 8 % 2 = 1 then Size.Long else .Word) = some sz) : sizeBit op 8 = sz := by
  injection hs with hs
  rw [← hs]
  simp only [sizeBit, flag, decide_eq_true_eq]

/-- Reading extension words changes no register but the program counter. -/
def PcMoves (s s' : St M) : Prop := s'.cpu.regs = { s.cpu.regs with pc := s'.cpu.regs.pc }

theorem PcMoves.trans {s s' s'' : St M} (h : PcMoves s s') (h' : PcMoves s' s'') : PcMoves s s'' := by
  unfold PcMoves at *
  rw [h', h]
theorem PcMoves.areg (h : PcMoves s s') (n : Fin 8) : areg s'.cpu.regs n = areg s.cpu.regs n := by rw [h]; rfl
theorem PcMoves.sr (h : PcMoves s s') : s'.cpu.regs.sr = s.cpu.regs.sr := by rw [h]

theorem fetch_moves {w : U16} (h : fetch s = .ok w s') : PcMoves s s' := by
  unfold PcMoves; rw [fetch_regs h]
theorem fetchLong_moves {w : U32} (h : fetchLong s = .ok w s') : PcMoves s s' := by
  unfold fetchLong at h
  obtain ⟨_, _, h1, h⟩ := bind_ok h
  obtain ⟨_, _, h2, h⟩ := bind_ok h
  cases h
  exact (fetch_moves h1).trans (fetch_moves h2)
theorem fetchMode_moves {isz : Option Size} {mode reg : Fin 8} {md : Mode} (h : fetchMode isz mode reg s = .ok md s') : PcMoves s s' := by
  unfold fetchMode at h
  split at h
  · cases h; rfl
  · cases h; rfl
  · cases h; rfl
  · cases h; rfl
  · cases h; rfl
  · obtain ⟨_, h, _⟩ := map_ok' h; exact fetch_moves h
  · obtain ⟨_, h, _⟩ := map_ok' h; exact fetch_moves h
  · split at h
    · obtain ⟨_, h, _⟩ := map_ok' h; exact fetch_moves h
    · obtain ⟨_, h, _⟩ := map_ok' h; exact fetchLong_moves h
    · rw [getR_bind_apply] at h; obtain ⟨_, h, _⟩ := map_ok' h; exact fetch_moves h
    · rw [getR_bind_apply] at h; obtain ⟨_, h, _⟩ := map_ok' h; exact fetch_moves h
    · split at h
      · cases h
      · obtain ⟨_, h, _⟩ := map_ok' h; exact fetchLong_moves h
      · obtain ⟨_, h, _⟩ := map_ok' h; exact fetch_moves h
    · cases h
theorem fetchDisp_moves {w : U16} (h : fetchDisp op s = .ok w s') : PcMoves s s' := by
  unfold fetchDisp at h
  split at h
  · exact fetch_moves h
  · cases h; rfl

/-- A word or long operand at an odd address `a` is exception 3, whatever the instruction that reads or writes it and whatever else is in the registers. It is not accessed: the
memory is as after the words of the instruction have been read. The registers are as after the evaluation of the effective address, but for C, which the divisions
clear. -/
theorem C33_odd_operand (h : Ready s op s1) (hs : eaSize (instr op) op = some sz) (hw : sz ≠ .Byte) (hm : eaMode (instr op) sz op s1 = .ok m s2)
    (hp : place sz s2.cpu.regs m = (.mem a, g)) (ho : Spec.Odd a) : ∃ c, Raises C s 3 (s2.withRegs fun _ => { g with sr := { g.sr with c := c } }) := by
  have hu : instr op ≠ .Unknown := by intro e; rw [e] at hs; cases hs
  suffices hx : ∃ c, Spec.exec C (instr op) op s1 = .err 3 (s2.withRegs fun _ => { g with sr := { g.sr with c := c } }) from
    hx.imp fun _ => raises_of_exec h hu
  generalize instr op = i at hs hm
  have key : ∀ {x : Exec M Nat}, x s1 = .err 3 (s2.withRegs fun _ => g) → ∃ c, x s1 = .err 3 (s2.withRegs fun _ => { g with sr := { g.sr with c := c } }) :=
    fun hx => ⟨g.sr.c, hx⟩
  cases i
  case Add => simp only [Spec.exec]; exact key (binary_odd hs hm hw hp ho)
  case Sub => simp only [Spec.exec]; exact key (binary_odd hs hm hw hp ho)
  case And => simp only [Spec.exec]; exact key (binary_odd hs hm hw hp ho)
  case Or => simp only [Spec.exec]; exact key (binary_odd hs hm hw hp ho)
  case Addi => simp only [Spec.exec]; exact key (immediate_odd hs hm hw hp ho)
  case Subi => simp only [Spec.exec]; exact key (immediate_odd hs hm hw hp ho)
  case Andi => simp only [Spec.exec]; exact key (immediate_odd hs hm hw hp ho)
  case Ori => simp only [Spec.exec]; exact key (immediate_odd hs hm hw hp ho)
  case Eori => simp only [Spec.exec]; exact key (immediate_odd hs hm hw hp ho)
  case Neg => simp only [Spec.exec]; exact key (unary_odd hs hm (rmw_odd hw hp ho))
  case Negx => simp only [Spec.exec]; exact key (unary_odd hs hm (rmw_odd hw hp ho))
  case Not => simp only [Spec.exec]; exact key (unary_odd hs hm (bind_left (read_odd hw hp ho)))
  case Asm => cases hs; simp only [Spec.exec]; exact key (shiftMem_odd hm hp ho)
  case Lsm => cases hs; simp only [Spec.exec]; exact key (shiftMem_odd hm hp ho)
  case Rom => cases hs; simp only [Spec.exec]; exact key (shiftMem_odd hm hp ho)
  case Roxm => cases hs; simp only [Spec.exec]; exact key (shiftMem_odd hm hp ho)
  case Tas => cases hs; exact absurd rfl hw
  case Scc => cases hs; exact absurd rfl hw
  case Nbcd => cases hs; exact absurd rfl hw
  case Btst => cases hs; exact absurd rfl hw
  case Bchg => cases hs; exact absurd rfl hw
  case Bclr => cases hs; exact absurd rfl hw
  case Bset => cases hs; exact absurd rfl hw
  case Mulu => cases hs; simp only [Spec.exec]; exact key (wordToDn_odd hm (bind_left (read_odd hw hp ho)))
  case Muls => cases hs; simp only [Spec.exec]; exact key (wordToDn_odd hm (bind_left (read_odd hw hp ho)))
  case Divu => cases hs; simp only [Spec.exec]; exact ⟨false, wordToDn_odd hm (divu_odd hp ho)⟩
  case Divs => cases hs; simp only [Spec.exec]; exact ⟨false, wordToDn_odd hm (divs_odd hp ho)⟩
  case Chk => cases hs; simp only [Spec.exec]; exact key (bind_fetch hm (cost_left (bind_left (read_odd hw hp ho))))
  case Moveccr => cases hs; simp only [Spec.exec]; exact key (bind_fetch hm (bind_left (read_odd hw hp ho)))
  case Movefsr => cases hs; simp only [Spec.exec]; exact key (bind_fetch hm (cost_left (write_odd hw hp ho)))
  case Adda => simp only [Spec.exec, sizeBit_of hs]; exact key (bind_fetch hm (bind_left (readExt_odd hw hp ho)))
  case Suba => simp only [Spec.exec, sizeBit_of hs]; exact key (bind_fetch hm (bind_left (readExt_odd hw hp ho)))
  case Cmpa => simp only [Spec.exec, sizeBit_of hs]; exact key (bind_fetch hm (bind_left (readExt_odd hw hp ho)))
  case Addq => simp only [Spec.exec]; exact key (sized_odd hs hm (cost_left (quick_odd hw hp ho)))
  case Subq => simp only [Spec.exec]; exact key (sized_odd hs hm (cost_left (quick_odd hw hp ho)))
  case Cmp => simp only [Spec.exec]; exact key (sized_odd hs hm (bind_left (read_odd hw hp ho)))
  case Tst => simp only [Spec.exec]; exact key (sized_odd hs hm (bind_left (read_odd hw hp ho)))
  case Clr => simp only [Spec.exec]; exact key (sized_odd hs hm (bind_left (write_odd hw hp ho)))
  case Eor => simp only [Spec.exec]; exact key (sized_odd hs hm (cost_left (opToEa_odd hw hp ho)))
  case Cmpi => simp only [Spec.exec]; exact key (cmpi_odd hs hm (fun _ => bind_left (read_odd hw hp ho)))
  case Movea => simp only [Spec.exec]; exact key (movea_odd hs hm hw hp ho)
  all_goals cases hs

/-- `TST.W (A0)`, `ADDI.L #1,(A0)+`, `DIVU (A0),D1` and `CLR.W (A0)` with A0 = 5. -/
example : (∃ (s s1 s2 : St WordSlice) (m : Mode) (g : Registers), Ready s 0x4A50 s1 ∧ eaSize (instr 0x4A50) 0x4A50 = some .Word ∧
      eaMode (instr 0x4A50) .Word 0x4A50 s1 = .ok m s2 ∧ place .Word s2.cpu.regs m = (.mem 5, g) ∧ Spec.Odd (5 : U32)) ∧
    (∃ (s s1 s2 : St WordSlice) (m : Mode) (g : Registers), Ready s 0x0698 s1 ∧ eaSize (instr 0x0698) 0x0698 = some .Long ∧
      eaMode (instr 0x0698) .Long 0x0698 s1 = .ok m s2 ∧ place .Long s2.cpu.regs m = (.mem 5, g)) ∧
    (∃ (s s1 s2 : St WordSlice) (m : Mode) (g : Registers), Ready s 0x82D0 s1 ∧ eaSize (instr 0x82D0) 0x82D0 = some .Word ∧
      eaMode (instr 0x82D0) .Word 0x82D0 s1 = .ok m s2 ∧ place .Word s2.cpu.regs m = (.mem 5, g)) ∧
    ∃ (s s1 s2 : St WordSlice) (m : Mode) (g : Registers), Ready s 0x4250 s1 ∧ eaSize (instr 0x4250) 0x4250 = some .Word ∧
      eaMode (instr 0x4250) .Word 0x4250 s1 = .ok m s2 ∧ place .Word s2.cpu.regs m = (.mem 5, g) :=
  ⟨⟨Demo.st [0x4A50, 0, 0, 0] (Demo.regs [] [5]), _, _, _, _, ⟨rfl, rfl, by decide, _, rfl, rfl⟩, rfl, rfl, rfl, by decide⟩,
   ⟨Demo.st [0x0698, 0, 1, 0] (Demo.regs [] [5]), _, _, _, _, ⟨rfl, rfl, by decide, _, rfl, rfl⟩, rfl, rfl, rfl⟩,
   ⟨Demo.st [0x82D0, 0, 1, 0] (Demo.regs [] [5]), _, _, _, _, ⟨rfl, rfl, by decide, _, rfl, rfl⟩, rfl, rfl, rfl⟩,
   ⟨Demo.st [0x4250, 0, 1, 0] (Demo.regs [] [5]), _, _, _, _, ⟨rfl, rfl, by decide, _, rfl, rfl⟩, rfl, rfl, rfl⟩⟩

/-- The source of MOVE. -/
theorem C33_odd_source {dst : Mode} (h : Ready s op s1) (hi : instr op = .Move) (hs : moveOpSize op = some sz) (hw : sz ≠ .Byte)
    (hm : fetchEa (some sz) op s1 = .ok m s2) (hd : fetchMode (some sz) (regField op 6) (regField op 9) s2 = .ok dst s3)
    (hp : place sz s3.cpu.regs m = (.mem a, g)) (ho : Spec.Odd a) : Raises C s 3 (s3.withRegs fun _ => g) := by
  refine raises_of_exec h (by rw [hi]; decide) ?_
  rw [hi]
  simp only [Spec.exec]
  rw [moveSized_some hs, bind_right hm, bind_right hd]
  exact cost_left (bind_left (read_odd hw hp ho))

/-- The destination of MOVE: it is evaluated when the source has been read, and nothing is written. -/
theorem C33_odd_destination {dst : Mode} {p : Place} {v : Val sz} {s4 : St M} (h : Ready s op s1) (hi : instr op = .Move) (hs : moveOpSize op = some sz) (hw : sz ≠ .Byte)
    (hm : fetchEa (some sz) op s1 = .ok m s2) (hd : fetchMode (some sz) (regField op 6) (regField op 9) s2 = .ok dst s3) (hr : Spec.read sz m s3 = .ok (p, v) s4)
    (hp : place sz s4.cpu.regs dst = (.mem a, g)) (ho : Spec.Odd a) : Raises C s 3 (s4.withRegs fun _ => g) := by
  refine raises_of_exec h (by rw [hi]; decide) ?_
  rw [hi]
  simp only [Spec.exec]
  rw [moveSized_some hs, bind_right hm, bind_right hd]
  refine cost_left ?_
  unfold Spec.move
  rw [bind_right hr]
  exact bind_left (write_odd hw hp ho)

/-- `MOVE.W (A0),(A1)` with A0 = 5, and with A0 = 2 and A1 = 5. -/
example : (∃ (s s1 s2 s3 : St WordSlice) (m dst : Mode) (g : Registers), Ready s 0x3290 s1 ∧ instr 0x3290 = .Move ∧ moveOpSize 0x3290 = some .Word ∧
      fetchEa (some .Word) 0x3290 s1 = .ok m s2 ∧ fetchMode (some .Word) (regField 0x3290 6) (regField 0x3290 9) s2 = .ok dst s3 ∧
      place .Word s3.cpu.regs m = (.mem 5, g)) ∧
    ∃ (s s1 s2 s3 s4 : St WordSlice) (m dst : Mode) (p : Place) (v : U16) (g : Registers), Ready s 0x3290 s1 ∧ fetchEa (some .Word) 0x3290 s1 = .ok m s2 ∧
      fetchMode (some .Word) (regField 0x3290 6) (regField 0x3290 9) s2 = .ok dst s3 ∧ Spec.read .Word m s3 = .ok (p, v) s4 ∧
      place .Word s4.cpu.regs dst = (.mem 5, g) :=
  ⟨⟨Demo.st [0x3290, 0, 0, 0] (Demo.regs [] [5, 2]), _, _, _, _, _, _, ⟨rfl, rfl, by decide, _, rfl, rfl⟩, rfl, rfl, rfl, rfl, rfl⟩,
   ⟨Demo.st [0x3290, 0, 0, 0] (Demo.regs [] [2, 5]), _, _, _, _, _, _, _, _, _, ⟨rfl, rfl, by decide, _, rfl, rfl⟩, rfl, rfl, rfl, rfl⟩⟩

/-- The operand of MOVE to SR, in supervisor mode; the status register does not change. -/
theorem C33_odd_movesr (h : Ready s op s1) (hi : instr op = .Movesr) (hsup : s.cpu.regs.sr.s = true) (hm : fetchEa (some .Word) op s1 = .ok m s2)
    (hp : place .Word s2.cpu.regs m = (.mem a, g)) (ho : Spec.Odd a) : Raises C s 3 (s2.withRegs fun _ => g) := by
  refine raises_of_exec h (by rw [hi]; decide) ?_
  rw [hi]
  simp only [Spec.exec]
  have e : s2.cpu.regs.sr.s = true := by rw [(fetchMode_moves hm).sr, h.sr]; exact hsup
  have hv : (privileged : Exec M Unit) s2 = .ok () s2 := by unfold privileged; rw [getR_bind_apply, e]; rfl
  rw [bind_right hm, bind_right hv]
  exact bind_left (read_odd (by decide) hp ho)

/-- `MOVE (A0),SR` with A0 = 5 in supervisor mode. -/
example : ∃ (s s1 s2 : St WordSlice) (m : Mode) (g : Registers), Ready s 0x46D0 s1 ∧ instr 0x46D0 = .Movesr ∧ s.cpu.regs.sr.s = true ∧
    fetchEa (some .Word) 0x46D0 s1 = .ok m s2 ∧ place .Word s2.cpu.regs m = (.mem 5, g) :=
  ⟨(Demo.st [0x46D0, 0, 0, 0] (Demo.regs [] [5])).withRegs fun r => { r with sr := { r.sr with s := true } }, _, _, _, _,
    ⟨rfl, rfl, by decide, _, rfl, rfl⟩, rfl, rfl, rfl, rfl⟩

theorem noErr_fetchDisp : NoErr (fetchDisp op : Exec M U16) := by
  unfold fetchDisp
  split
  · exact noErr_fetch
  · exact noErr_pure _

theorem address_only {md : Mode} {isz : Size} (h3 : ∀ n, md ≠ .postinc n) (h4 : ∀ n, md ≠ .predec n) :
    NoErr (address isz md : Exec M U32) ∧ ∀ (s s' : St M) a, (address isz md : Exec M U32) s = .ok a s' → PcMoves s s' := by
  cases md
  case postinc n => exact absurd rfl (h3 n)
  case predec n => exact absurd rfl (h4 n)
  all_goals exact ⟨fun s v s' h => (by cases h), fun s s' a h => (by cases h <;> rfl)⟩

theorem control_only (md : Mode) : NoErr (Spec.control md : Exec M U32) ∧ ∀ (s s' : St M) a, (Spec.control md : Exec M U32) s = .ok a s' → PcMoves s s' := by
  unfold Spec.control
  split
  · exact ⟨noErr_crash, fun s s' a h => by cases h⟩
  · exact ⟨noErr_crash, fun s s' a h => by cases h⟩
  · rename_i h3 h4
    exact address_only h3 h4

theorem odd_sub (hw : sz ≠ .Byte) : Spec.Odd (a - BitVec.ofNat 32 (bytes sz)) ↔ Spec.Odd a := by
  rw [← odd_at (a := a - BitVec.ofNat 32 (bytes sz)) (bytes_even hw), at_sub]

theorem odd_add (hw : sz ≠ .Byte) : Spec.Odd (a + BitVec.ofNat 32 (bytes sz)) ↔ Spec.Odd a := odd_at (bytes_even hw)

theorem step_size {n : Fin 8} (hw : sz ≠ .Byte) : Spec.step n sz = BitVec.ofNat 32 (bytes sz) := by
  unfold Spec.step
  rw [if_neg (fun h => hw h.2)]

theorem push_odd_any {v : Val sz} (hw : sz ≠ .Byte) (ho : Spec.Odd (areg s.cpu.regs 7)) : ∃ s', (push sz v : Exec M Unit) s = .err 3 s' ∧ s'.mem = s.mem := by
  refine ⟨_, write_odd hw (m := .predec 7) (a := areg s.cpu.regs 7 - Spec.step 7 sz) rfl ?_, rfl⟩
  rw [step_size hw]
  exact (odd_sub hw).2 ho

theorem pop_odd_any (hw : sz ≠ .Byte) (ho : Spec.Odd (areg s.cpu.regs 7)) : ∃ s', (pop sz : Exec M _) s = .err 3 s' ∧ s'.mem = s.mem :=
  ⟨_, bind_left (read_odd hw (m := .postinc 7) (a := areg s.cpu.regs 7) rfl ho), rfl⟩

theorem two_odd {m1 m2 : Mode} {a1 a2 : U32} {g1 g2 : Registers} {α : Type} {k : Place → Val sz → Val sz → Exec M α} (hw : sz ≠ .Byte)
    (hp1 : place sz s.cpu.regs m1 = (.mem a1, g1)) (hp2 : place sz g1 m2 = (.mem a2, g2)) :
    (Spec.Odd a1 → ∃ s', (do let src ← locate sz m1; let dst ← locate sz m2; let x ← readAt sz src; let y ← readAt sz dst; k dst x y : Exec M α) s = .err 3 s' ∧ s'.mem = s.mem) ∧
    ∀ (v : Val sz) (mem : M), ¬ Spec.Odd a1 → memGet sz a1 s.mem = .val v mem → Spec.Odd a2 →
      ∃ s', (do let src ← locate sz m1; let dst ← locate sz m2; let x ← readAt sz src; let y ← readAt sz dst; k dst x y : Exec M α) s = .err 3 s' ∧ s'.mem = mem := by
  have e2 : (locate sz m2 : Exec M _) (s.withRegs fun _ => g1) = .ok (.mem a2) ((s.withRegs fun _ => g1).withRegs fun _ => g2) := locate_at hp2
  constructor
  · intro ho
    refine ⟨(s.withRegs fun _ => g1).withRegs fun _ => g2, ?_, rfl⟩
    rw [bind_right (locate_at hp1), bind_right e2]
    exact bind_left (readAt_odd hw ho)
  · intro v mem ho hg ho2
    have hl : (readAt sz (.mem a1) : Exec M _) ((s.withRegs fun _ => g1).withRegs fun _ => g2) =
        .ok v { (s.withRegs fun _ => g1).withRegs (fun _ => g2) with mem := mem } := by
      simp only [readAt, load]
      rw [if_neg (fun h => ho h.2)]
      unfold access
      have : ((s.withRegs fun _ => g1).withRegs fun _ => g2).mem = s.mem := rfl
      rw [this, hg]
    refine ⟨{ (s.withRegs fun _ => g1).withRegs (fun _ => g2) with mem := mem }, ?_, rfl⟩
    rw [bind_right (locate_at hp1), bind_right e2, bind_right hl]
    exact bind_left (readAt_odd hw ho2)

theorem odd_setAreg_sub {r : Registers} {x y : Fin 8} (hw : sz ≠ .Byte) (ho : Spec.Odd (areg r x)) :
    Spec.Odd (areg (setAreg r y (areg r y - Spec.step y sz)) x - Spec.step x sz) := by
  rw [step_size hw, step_size hw, odd_sub hw, areg_setAreg]
  split
  · rename_i e; rw [odd_sub hw, ← e]; exact ho
  · exact ho

theorem odd_setAreg_add {r : Registers} {x y : Fin 8} (hw : sz ≠ .Byte) (ho : Spec.Odd (areg r x)) :
    Spec.Odd (areg (setAreg r y (areg r y + Spec.step y sz)) x) := by
  rw [step_size hw, areg_setAreg]
  split
  · rename_i e; rw [odd_add hw, ← e]; exact ho
  · exact ho

theorem pair_odd {x y : Fin 8} {f} (hw : sz ≠ .Byte) :
    (Spec.Odd (areg s.cpu.regs y) → ∃ s', (Spec.pair sz true x y f : Exec M _) s = .err 3 s' ∧ s'.mem = s.mem) ∧
    ∀ (v : Val sz) (mem : M), ¬ Spec.Odd (areg s.cpu.regs y - BitVec.ofNat 32 (bytes sz)) → memGet sz (areg s.cpu.regs y - BitVec.ofNat 32 (bytes sz)) s.mem = .val v mem →
      Spec.Odd (areg s.cpu.regs x) → ∃ s', (Spec.pair sz true x y f : Exec M _) s = .err 3 s' ∧ s'.mem = mem := by
  have := two_odd (s := s) (α := Unit) (k := fun dst x y => do let r ← compute (f y x); writeAt sz dst r) hw (m1 := .predec y) (m2 := .predec x) rfl rfl
  refine ⟨fun ho => this.1 ?_, fun v mem h1 h2 h3 => this.2 v mem ?_ ?_ (odd_setAreg_sub hw h3)⟩
  · rw [step_size hw, odd_sub hw]; exact ho
  · rw [step_size hw]; exact h1
  · rw [step_size hw]; exact h2

theorem cmpm_odd {x y : Fin 8} (hw : sz ≠ .Byte) :
    (Spec.Odd (areg s.cpu.regs y) → ∃ s', (Spec.cmpm sz x y : Exec M _) s = .err 3 s' ∧ s'.mem = s.mem) ∧
    ∀ (v : Val sz) (mem : M), ¬ Spec.Odd (areg s.cpu.regs y) → memGet sz (areg s.cpu.regs y) s.mem = .val v mem →
      Spec.Odd (areg s.cpu.regs x) → ∃ s', (Spec.cmpm sz x y : Exec M _) s = .err 3 s' ∧ s'.mem = mem := by
  have := two_odd (s := s) (α := Unit) (k := fun _ x y => compareWith y x) hw (m1 := .postinc y) (m2 := .postinc x) rfl rfl
  exact ⟨fun ho => this.1 ho, fun v mem h1 h2 h3 => this.2 v mem h1 h2 (odd_setAreg_add hw h3)⟩

/-- One of the two operands `-(Ay)`, `-(Ax)` of ADDX and SUBX or `(Ay)+`, `(Ax)+` of CMPM: if the address of the first is odd nothing is accessed, and if it
can be read, as `v`, and the second address is odd, nothing is written. -/
theorem C33_odd_pair (h : Ready s op s1) (hi : (instr op = .Addx ∨ instr op = .Subx) ∧ flag op 3 = true ∨ instr op = .Cmpm)
    (hs : opSize op = some sz) (hw : sz ≠ .Byte) :
    (Spec.Odd (areg s.cpu.regs (regField op 0)) → ∃ s', Raises C s 3 s' ∧ s'.mem = s1.mem) ∧
    ∀ (src : U32) (v : Val sz) (mem : M),
      src = (if instr op = .Cmpm then areg s.cpu.regs (regField op 0) else areg s.cpu.regs (regField op 0) - BitVec.ofNat 32 (bytes sz)) →
      ¬ Spec.Odd src → memGet sz src s1.mem = .val v mem → Spec.Odd (areg s.cpu.regs (regField op 9)) →
      ∃ s', Raises C s 3 s' ∧ s'.mem = mem := by
  have hreg : ∀ n, areg s1.cpu.regs n = areg s.cpu.regs n := fun n => by rw [h.regs]; rfl
  have hu : instr op ≠ .Unknown := by rcases hi with ⟨e | e, -⟩ | e <;> rw [e] <;> decide
  have hex : ∀ {mm : M}, (∃ s', Spec.exec C (instr op) op s1 = .err 3 s' ∧ s'.mem = mm) → ∃ s', Raises C s 3 s' ∧ s'.mem = mm :=
    fun ⟨s', hx, e⟩ => ⟨s', raises_of_exec h hu hx, e⟩
  have hc : ∀ {x : Exec M Unit} {t : Nat} {mm : M}, (∃ s', x s1 = .err 3 s' ∧ s'.mem = mm) → ∃ s', cost x t s1 = .err 3 s' ∧ s'.mem = mm :=
    fun ⟨s', hx, e⟩ => ⟨s', cost_left hx, e⟩
  rcases hi with ⟨hi, hf⟩ | hi
  · have hne : instr op ≠ .Cmpm := by rcases hi with e | e <;> rw [e] <;> decide
    have hp := fun f => pair_odd (s := s1) (x := regField op 9) (y := regField op 0) (f := f) hw
    simp only [hreg] at hp
    refine ⟨fun ho => hex ?_, fun src v mem hsrc h1 h2 h3 => hex ?_⟩
    · rcases hi with e | e <;> rw [e] <;> simp only [Spec.exec] <;> rw [sized_some hs, hf] <;> exact hc ((hp _).1 ho)
    · rw [if_neg hne] at hsrc
      subst hsrc
      rcases hi with e | e <;> rw [e] <;> simp only [Spec.exec] <;> rw [sized_some hs, hf] <;> exact hc ((hp _).2 v mem h1 h2 h3)
  · have hp := cmpm_odd (s := s1) (x := regField op 9) (y := regField op 0) hw
    simp only [hreg] at hp
    refine ⟨fun ho => hex ?_, fun src v mem hsrc h1 h2 h3 => hex ?_⟩
    · rw [hi]
      simp only [Spec.exec]
      rw [sized_some hs]
      exact hc (hp.1 ho)
    · rw [if_pos hi] at hsrc
      subst hsrc
      rw [hi]
      simp only [Spec.exec]
      rw [sized_some hs]
      exact hc (hp.2 v mem h1 h2 h3)

/-- `ADDX.W -(A0),-(A1)` with A0 = 5, and with A0 = 4 and A1 = 7; `CMPM.W (A0)+,(A1)+` with A0 = 2 and A1 = 5. -/
example : (∃ s s1 : St WordSlice, Ready s 0xD348 s1 ∧ instr 0xD348 = .Addx ∧ flag 0xD348 3 = true ∧ opSize 0xD348 = some .Word ∧
      Spec.Odd (areg s.cpu.regs (regField 0xD348 0))) ∧
    (∃ s s1 : St WordSlice, ∃ v mem, Ready s 0xD348 s1 ∧ ¬ Spec.Odd (areg s.cpu.regs (regField 0xD348 0) - 2) ∧
      memGet .Word (areg s.cpu.regs (regField 0xD348 0) - 2) s1.mem = .val v mem ∧ Spec.Odd (areg s.cpu.regs (regField 0xD348 9))) ∧
    ∃ s s1 : St WordSlice, ∃ v mem, Ready s 0xB348 s1 ∧ instr 0xB348 = .Cmpm ∧ opSize 0xB348 = some .Word ∧ ¬ Spec.Odd (areg s.cpu.regs (regField 0xB348 0)) ∧
      memGet .Word (areg s.cpu.regs (regField 0xB348 0)) s1.mem = .val v mem ∧ Spec.Odd (areg s.cpu.regs (regField 0xB348 9)) :=
  ⟨⟨Demo.st [0xD348, 0, 0, 0] (Demo.regs [] [5, 2]), _, ⟨rfl, rfl, by decide, _, rfl, rfl⟩, rfl, rfl, rfl, by decide⟩,
   ⟨Demo.st [0xD348, 0, 0, 0] (Demo.regs [] [4, 7]), _, _, _, ⟨rfl, rfl, by decide, _, rfl, rfl⟩, by decide, rfl, by decide⟩,
   ⟨Demo.st [0xB348, 0, 0, 0] (Demo.regs [] [2, 5]), _, _, _, ⟨rfl, rfl, by decide, _, rfl, rfl⟩, rfl, rfl, by decide, rfl, by decide⟩⟩

/-- The instructions that use the stack: an odd stack pointer is exception 3. -/
theorem C33_odd_stack {c : Nat} {e : Option U8} (h : Ready s op s1) (hi : usesStack (instr op) = true) (hsup : instr op = .Rte → s.cpu.regs.sr.s = true)
    (ho : Spec.Odd (areg s.cpu.regs 7)) (hr : interpreterException C s = .ok (c, e) s') : c = 0 ∧ e = some 3 := by
  have ho1 : Spec.Odd (areg s1.cpu.regs 7) := by rw [h.regs]; exact ho
  have hu : instr op ≠ .Unknown := by intro e; rw [e] at hi; cases hi
  suffices hx : (∃ s'', Spec.exec C (instr op) op s1 = .err 3 s'') ∨ Spec.exec C (instr op) op s1 = .panic by
    rcases hx with ⟨s'', hx⟩ | hx
    · have := raises_of_exec h hu hx
      unfold Raises at this
      rw [this] at hr
      cases hr
      exact ⟨rfl, rfl⟩
    · have hf := step_finish C h
      rw [decoder_of_map op hu] at hf
      simp only [finishStep, hx] at hf
      rw [hf] at hr
      cases hr
  have hpush : ∀ {v : U32} {t : St M}, PcMoves s1 t → ∃ s'', (push .Long v : Exec M Unit) t = .err 3 s'' := by
    intro v t ht
    obtain ⟨s'', hx, -⟩ := push_odd_any (sz := .Long) (v := v) (by decide) (by rw [ht.areg]; exact ho1)
    exact ⟨s'', hx⟩
  have hpop : ∀ {sz : Size}, sz ≠ .Byte → ∃ s'', (pop sz : Exec M _) s1 = .err 3 s'' := by
    intro sz hw
    obtain ⟨s'', hx, -⟩ := pop_odd_any hw ho1
    exact ⟨s'', hx⟩
  have after : ∀ {α β : Type} {x : Exec M α} {k : α → Exec M β}, NoErr x → (∀ v t, x s1 = .ok v t → (∃ s'', k v t = .err 3 s'') ∨ k v t = .panic) →
      (∃ s'', (x >>= k) s1 = .err 3 s'') ∨ (x >>= k) s1 = .panic := by
    intro α β x k hne hk
    rw [Exec.bind_apply]
    cases hx : x s1 with
    | ok v t => exact hk v t hx
    | err v t => exact (hne _ _ _ hx).elim
    | panic => exact .inr rfl
  cases hii : instr op <;> rw [hii] at hi <;> try (exact Bool.noConfusion hi)
  case Bsr =>
    simp only [Spec.exec]
    rw [getR_bind_apply]
    refine after noErr_fetchDisp fun v t hx => .inl ?_
    obtain ⟨s'', hp⟩ := hpush (v := t.cpu.regs.pc) (fetchDisp_moves hx)
    exact ⟨s'', cost_left (by unfold bsr; rw [getR_bind_apply]; exact bind_left hp)⟩
  case Jsr =>
    simp only [Spec.exec]
    refine after (fetchEa_noErr _ _) fun m t hx => .inl ?_
    obtain ⟨s'', hp⟩ := hpush (v := t.cpu.regs.pc) (fetchMode_moves hx)
    exact ⟨s'', cost_left (by unfold jsr; rw [getR_bind_apply]; exact bind_left hp)⟩
  case Pea =>
    simp only [Spec.exec]
    refine after (fetchEa_noErr _ _) fun m t hx => ?_
    cases hc : Spec.control m t with
    | ok a t' =>
      obtain ⟨s'', hp⟩ := hpush (v := a) ((fetchMode_moves hx).trans ((control_only m).2 _ _ _ hc))
      exact .inl ⟨s'', by rw [bind_right hc]; exact cost_left hp⟩
    | err v t' => exact ((control_only m).1 _ _ _ hc).elim
    | panic => exact .inr (by rw [Exec.bind_apply, hc])
  case Link =>
    simp only [Spec.exec]
    refine after noErr_fetch fun v t hx => .inl ?_
    obtain ⟨s'', hp⟩ := hpush (v := areg t.cpu.regs (regField op 0)) (fetch_moves hx)
    exact ⟨s'', cost_left (by unfold link; rw [getR_bind_apply]; exact bind_left hp)⟩
  case Rts =>
    obtain ⟨s'', hp⟩ := hpop (sz := .Long) (by decide)
    exact .inl ⟨s'', cost_left (bind_left hp)⟩
  case Rtr =>
    obtain ⟨s'', hp⟩ := hpop (sz := .Word) (by decide)
    exact .inl ⟨s'', cost_left (bind_left hp)⟩
  case Rte =>
    obtain ⟨s'', hp⟩ := hpop (sz := .Word) (by decide)
    have e : s1.cpu.regs.sr.s = true := by rw [h.sr]; exact hsup hii
    have hv : (privileged : Exec M Unit) s1 = .ok () s1 := by unfold privileged; rw [getR_bind_apply, e]; rfl
    refine .inl ⟨s'', ?_⟩
    simp only [Spec.exec]
    rw [Exec.map_apply]
    unfold rte
    rw [bind_right hv, bind_left hp]

/-- `BSR`, `JSR (A0)`, `PEA (A0)`, `LINK A0,#0`, `RTS` and `RTR` with A7 = 7. -/
example : ∀ w ∈ [(0x6102 : U16), 0x4E90, 0x4850, 0x4E50, 0x4E75, 0x4E77], ∃ (s1 s' : St WordSlice) (c : Nat) (e : Option U8),
    Ready (Demo.st [w, 0, 0, 0] (Demo.regs [] [2, 0, 0, 0, 0, 0, 0, 7])) w s1 ∧ usesStack (instr w) = true ∧ instr w ≠ .Rte ∧
    interpreterException mc68000 (Demo.st [w, 0, 0, 0] (Demo.regs [] [2, 0, 0, 0, 0, 0, 0, 7])) = .ok (c, e) s' ∧
    Spec.Odd (areg (Demo.st [w, 0, 0, 0] (Demo.regs [] [2, 0, 0, 0, 0, 0, 0, 7])).cpu.regs 7) := by
  intro w hw
  simp only [List.mem_cons, List.not_mem_nil, or_false] at hw
  rcases hw with rfl | rfl | rfl | rfl | rfl | rfl <;>
    exact ⟨_, _, _, _, ⟨rfl, rfl, by decide, _, rfl, rfl⟩, rfl, by decide, rfl, by decide⟩

/-- UNLK pops from the address register. -/
theorem C33_odd_unlk (h : Ready s op s1) (hi : instr op = .Unlk) (ho : Spec.Odd (areg s.cpu.regs (regField op 0))) :
    ∃ s', Raises C s 3 s' ∧ s'.mem = s1.mem := by
  have ho1 : Spec.Odd (areg s1.cpu.regs (regField op 0)) := by rw [h.regs]; exact ho
  obtain ⟨s', hp, hmem⟩ := pop_odd_any (M := M) (sz := .Long) (s := s1.withRegs fun r => setAreg r 7 (areg r (regField op 0))) (by decide)
    (by show Spec.Odd (areg (setAreg s1.cpu.regs 7 (areg s1.cpu.regs (regField op 0))) 7)
        rw [areg_setAreg, if_pos rfl]; exact ho1)
  refine ⟨s', raises_of_exec h (by rw [hi]; decide) ?_, hmem⟩
  rw [hi]
  simp only [Spec.exec]
  refine cost_left ?_
  unfold unlk
  rw [modR_bind_apply]
  exact bind_left hp

/-- `UNLK A0` with A0 = 5. -/
example : ∃ s s1 : St WordSlice, Ready s 0x4E58 s1 ∧ instr 0x4E58 = .Unlk ∧ Spec.Odd (areg s.cpu.regs (regField 0x4E58 0)) :=
  ⟨Demo.st [0x4E58, 0, 0, 0] (Demo.regs [] [5]), _, ⟨rfl, rfl, by decide, _, rfl, rfl⟩, rfl, by decide⟩

end M68k.Props
