import Verif.Lemmas.Pending
import Verif.Props.DemoRam
/-
C26: exception entry.
-/
namespace M68k.Props
open Spec Exec
set_option linter.unusedSectionVars false
variable {M : Type} [MemoryAccess M] {C : CpuDetails} {s s' : St M} {v : U8}

theorem sorted_one (e : Exception) : Sorted [e] := List.pairwise_singleton _ _

/-- The call with one pending exception that is not held back. -/
theorem call_one (hr : s.cpu.stop = false) (hp : s.cpu.exceptions = [⟨v⟩]) (hm : ¬ Masked s.cpu.regs.sr.interruptMask v) :
    interpreterException C s = (processList C [⟨v⟩] 0 >>= fun n => fastInstruction C n) (s.withPending []) := by
  rw [call_pending hr (by rw [hp]; exact List.cons_ne_nil _ _), Exec.bind_apply, Exec.bind_apply, process_eq (by rw [hp]; exact sorted_one _), hp]
  have hh : isHeld s.cpu.regs.sr.interruptMask ⟨v⟩ = false := by
    rw [Bool.eq_false_iff]
    exact fun h => hm (held_iff.1 h)
  rw [List.filter_cons_of_pos (by rw [hh]; rfl), List.filter_cons_of_neg (by rw [hh]; decide)]
  rfl

/-- A running core with the pending exception `v`, which is not a masked interrupt. The supervisor stack pointer is even and there is writable
memory for the frame and a vector. Then the call of `interpreter_exception` enters the exception, so that it is no longer pending, and goes on in the resulting
state `s'`, that `Entered` describes: frame, registers and memory. -/
theorem C26_entry [Ram M] [Writable M] (hr : s.cpu.stop = false) (hp : s.cpu.exceptions = [⟨v⟩]) (h0 : v ≠ 0) (hm : ¬ Masked s.cpu.regs.sr.interruptMask v)
    (he : ¬ Spec.Odd s.cpu.regs.ssp)
    (hframe : Present s.mem (s.cpu.regs.ssp - BitVec.ofNat 32 (frameBytes C.STACK_FORMAT v)) (frameBytes C.STACK_FORMAT v))
    (hvec : Present s.mem (vectorAddress v) 4) :
    ∃ s', Entered C v (s.withPending []) s' ∧ interpreterException C s = later (C.vectorExecutionTime v) (interpreterException C s') := by
  obtain ⟨t, ht⟩ := enter_present (s := s.withPending []) (C := C) (v := v) he hframe hvec
  obtain ⟨hent, -⟩ := enter_done ht
  obtain ⟨hex, hst⟩ := entered_exceptions hent
  refine ⟨t, hent, ?_⟩
  rw [call_one hr hp hm]
  have : processList C [⟨v⟩] 0 (s.withPending []) = .ok (C.vectorExecutionTime v) t := by
    unfold processList
    dsimp only
    rw [if_neg h0, processException_eq, ht]
    show Res.ok (0 + C.vectorExecutionTime v) t = _
    rw [Nat.zero_add]
  rw [bind_eq this, instruction_later, instruction_idle (hst.trans hr) hex]

/-- The frame ends where the supervisor stack was, and has the words of `frame`. -/
theorem C26_frame (sr opcode : U16) (pc : U32) (f : StackFormat) : 2 * (frame f v sr pc opcode).length = frameBytes f v := frame_length _ _ _ _ _

/-- What every successful entry does, whatever the memory: if the entry of `v` ends without error, it is an `Entered`, in the time of the vector. -/
theorem C26_entered [Ram M] {n : Nat} (h : processException C v s = .ok n s') : Entered C v s s' ∧ n = C.vectorExecutionTime v := by
  rw [processException_eq] at h
  exact enter_done h

/-- Interrupt level 5 (vector 29), MC68000, mask 2: the frame holds SR and PC, and the mask is 5. -/
example : ∃ s', processException mc68000 29 (Demo.ram [0, 0] 62 { Demo.regs [] [] with ssp := 0x7C, pc := 0x12345678, sr := srOf 0x8210 }) = .ok 44 s' ∧
    s'.cpu.regs.ssp = 0x76 ∧ s'.mem.words.drop 59 = [0x8210, 0x1234, 0x5678] ∧ s'.cpu.regs.sr = srOf 0x2510 :=
  ⟨_, rfl, rfl, rfl, rfl⟩

/-- The hypotheses of `C26_entry`: TRAP #0 (vector 32) on the SCC68070. -/
example : ∃ s : St WordSlice, s.cpu.stop = false ∧ s.cpu.exceptions = [⟨32⟩] ∧ ¬ Masked s.cpu.regs.sr.interruptMask 32 ∧ ¬ Spec.Odd s.cpu.regs.ssp ∧
    Present s.mem (s.cpu.regs.ssp - BitVec.ofNat 32 (frameBytes scc68070.STACK_FORMAT 32)) (frameBytes scc68070.STACK_FORMAT 32) ∧
    Present s.mem (vectorAddress 32) 4 := by
  refine ⟨(Demo.ram [0, 0] 80 { Demo.regs [] [] with ssp := 0x98 }).withPending [⟨32⟩], rfl, rfl, by decide, by decide, ?_, ?_⟩
  · intro k hk
    have hk : k < 8 := hk
    obtain e | e | e | e | e | e | e | e : k = 0 ∨ k = 1 ∨ k = 2 ∨ k = 3 ∨ k = 4 ∨ k = 5 ∨ k = 6 ∨ k = 7 := by omega
    all_goals (subst e; rfl)
  · intro k hk
    obtain e | e | e | e : k = 0 ∨ k = 1 ∨ k = 2 ∨ k = 3 := by omega
    all_goals (subst e; rfl)

/-- The first push of a frame. -/
def firstPush (f : StackFormat) : U32 :=
  match f with
  | .MC68000 => 4
  | .SCC68070 => 2

theorem push_odd {sz : Size} {x : Val sz} (hsz : sz ≠ .Byte) (hs : s.cpu.regs.sr.s = true) (ho : Spec.Odd s.cpu.regs.ssp) :
    Spec.push sz x s = .err 3 (s.withRegs fun r => { r with ssp := r.ssp - BitVec.ofNat 32 (bytes sz) }) := by
  unfold Spec.push write
  have hl : locate sz (.predec 7) s = .ok (.mem (s.cpu.regs.ssp - BitVec.ofNat 32 (bytes sz))) (s.withRegs fun r => { r with ssp := r.ssp - BitVec.ofNat 32 (bytes sz) }) := by
    unfold locate place St.withRegs
    dsimp only
    rw [setAreg7_s _ hs, areg7_s _ hs, step7 hsz]
  rw [bind_eq hl]
  show store sz _ x _ = _
  unfold store
  rw [if_pos ?_]
  · rfl
  · refine ⟨hsz, ?_⟩
    rw [← at_sub s.cpu.regs.ssp (bytes sz)] at ho
    exact (odd_at (bytes_even hsz)).1 ho

theorem enter_odd (ho : Spec.Odd s.cpu.regs.ssp) :
    enter C v s = .err 3 (s.withRegs fun r => { r with sr := entrySr v r.sr, ssp := r.ssp - firstPush C.STACK_FORMAT }) := by
  unfold enter
  rw [bind_eq (x := setFlags (entrySr v)) (s' := s.withRegs fun r => { r with sr := entrySr v r.sr }) rfl, Exec.bind_apply]
  have hp : ∀ (sr opcode : U16) (pc : U32), pushItems (frameItems C.STACK_FORMAT v sr pc opcode) (s.withRegs fun r => { r with sr := entrySr v r.sr }) =
      .err 3 (s.withRegs fun r => { r with sr := entrySr v r.sr, ssp := r.ssp - firstPush C.STACK_FORMAT }) := by
    intro sr opcode pc
    unfold frameItems
    cases C.STACK_FORMAT with
    | MC68000 =>
      show (Spec.push .Long pc >>= _) _ = _
      rw [Exec.bind_apply, push_odd (s := s.withRegs fun r => { r with sr := entrySr v r.sr }) (by decide) rfl ho]
      rfl
    | SCC68070 =>
      dsimp only
      split
      · show (Spec.push .Word 0 >>= _) _ = _
        rw [Exec.bind_apply, push_odd (s := s.withRegs fun r => { r with sr := entrySr v r.sr }) (by decide) rfl ho]
        rfl
      · show (Spec.push .Word _ >>= _) _ = _
        rw [Exec.bind_apply, push_odd (s := s.withRegs fun r => { r with sr := entrySr v r.sr }) (by decide) rfl ho]
        rfl
  rw [hp]

theorem later_zero (r : Res M (Nat × Option U8)) : later 0 r = r := by
  cases r with
  | ok x t => obtain ⟨c, e⟩ := x; show Res.ok (0 + c, e) t = _; rw [Nat.zero_add]
  | err e t => rfl
  | panic => rfl

/-- With an odd supervisor stack pointer no exception can be entered: nothing is written, the pending exception is replaced by an address error,
and the core goes on, in supervisor mode, with the instruction at the program counter. (A 68000 would halt.) -/
theorem C26_oddStack (hr : s.cpu.stop = false) (hp : s.cpu.exceptions = [⟨v⟩]) (h0 : v ≠ 0) (hm : ¬ Masked s.cpu.regs.sr.interruptMask v)
    (ho : Spec.Odd s.cpu.regs.ssp) :
    interpreterException C s = leaving [⟨3⟩] (interpreterException C
      ((s.withRegs fun r => { r with sr := entrySr v r.sr, ssp := r.ssp - firstPush C.STACK_FORMAT }).withPending [])) := by
  rw [call_one hr hp hm]
  have hen := enter_odd (C := C) (v := v) (s := s.withPending []) ho
  have : processList C [⟨v⟩] 0 (s.withPending []) =
      .ok 0 ((s.withRegs fun r => { r with sr := entrySr v r.sr, ssp := r.ssp - firstPush C.STACK_FORMAT }).withPending [⟨3⟩]) := by
    unfold processList
    dsimp only
    rw [if_neg h0, processException_eq, hen]
    rfl
  rw [bind_eq this]
  refine (instruction_eq (s := (s.withRegs fun r => { r with sr := entrySr v r.sr, ssp := r.ssp - firstPush C.STACK_FORMAT }).withPending [⟨3⟩]) hr 0).trans ?_
  rw [later_zero, leaving_eq]
  rfl

/-- Such a state. -/
example : ∃ s : St WordSlice, s.cpu.stop = false ∧ s.cpu.exceptions = [⟨32⟩] ∧ ¬ Masked s.cpu.regs.sr.interruptMask 32 ∧ Spec.Odd s.cpu.regs.ssp ∧
    ∃ x s', interpreterException mc68000 s = .ok x s' ∧ s'.cpu.exceptions = [⟨3⟩] ∧ s'.mem = s.mem :=
  ⟨(Demo.st [0x4E71] { Demo.regs [] [] with ssp := 0x99 }).withPending [⟨32⟩], rfl, rfl, by decide, by decide, _, _, rfl, rfl, rfl⟩

end M68k.Props
