import Verif.Props.C29
/-
C31: reset.
-/
namespace M68k.Props
open Spec Exec
set_option linter.unusedSectionVars false
variable {M : Type} [MemoryAccess M] [Ram M] {C : CpuDetails} {s s' : St M} {m : M} {ssp pc : U32}

theorem memExpect_holds {a x : U32} (ha : ¬ Spec.Odd a) (h : Holds (sz := .Long) s.mem a x) : memExpect (MemoryAccess.getLong a) s = .ok x s := by
  have : MemoryAccess.getLong a s.mem = .val x s.mem := memGet_holds (sz := .Long) (even_word ha) h
  unfold memExpect
  rw [this]

/-- The state after a reset. -/
def afterReset (s : St M) (ssp pc : U32) : St M :=
  { s with cpu := { s.cpu with stop := false, exceptions := [], regs := { s.cpu.regs with ssp := ssp, pc := pc, sr := { s.cpu.regs.sr with t := false, s := true, interruptMask := 7 } } } }

theorem reset_holds (h0 : Holds (sz := .Long) s.mem 0 ssp) (h4 : Holds (sz := .Long) s.mem 4 pc) :
    reset C (s.withPending []) = .ok C.VECTOR_RESET (afterReset s ssp pc) := by
  unfold reset
  rw [bind_eq (memExpect_holds (s := s.withPending []) (by decide) h0), bind_eq (x := modifyRegs fun r => { r with ssp := ssp }) (s' := (s.withPending []).withRegs fun r => { r with ssp := ssp }) rfl,
    bind_eq (memExpect_holds (s := (s.withPending []).withRegs fun r => { r with ssp := ssp }) (by decide) h4)]
  rfl

/-- If the first of the pending exceptions is a reset. -/
theorem reset_first {es : List Exception} (hr : s.cpu.stop = false) (hs : Sorted s.cpu.exceptions) (hp : s.cpu.exceptions = ⟨0⟩ :: es)
    (h0 : Holds (sz := .Long) s.mem 0 ssp) (h4 : Holds (sz := .Long) s.mem 4 pc) :
    interpreterException C s = later C.VECTOR_RESET (interpreterException C (afterReset s ssp pc)) := by
  rw [call_pending hr (by rw [hp]; exact List.cons_ne_nil _ _), Exec.bind_apply, process_eq hs, hp]
  have hh : isHeld s.cpu.regs.sr.interruptMask ⟨0⟩ = false := rfl
  rw [List.filter_cons_of_pos (by rw [hh]; rfl)]
  unfold processList
  have := reset_holds (C := C) h0 h4
  dsimp only
  rw [if_pos rfl]
  have h' : reset C { s.withPending (List.filter (fun e => isHeld s.cpu.regs.sr.interruptMask e) (⟨0⟩ :: es)) with
      cpu := { (s.withPending (List.filter (fun e => isHeld s.cpu.regs.sr.interruptMask e) (⟨0⟩ :: es))).cpu with exceptions := [] } } =
      .ok C.VECTOR_RESET (afterReset s ssp pc) := this
  rw [h']
  dsimp only
  rw [instruction_later, instruction_idle rfl rfl]

/-- The first call on a new core, whatever the memory: the supervisor stack pointer and the program counter are the long words at 0 and 4, the status register is
0x2700, nothing is pending, and the first instruction runs. -/
theorem C31_new (h0 : Holds (sz := .Long) m 0 ssp) (h4 : Holds (sz := .Long) m 4 pc) : ∃ s : St M,
    interpreterException C ⟨Cpu.new, m⟩ = later C.VECTOR_RESET (interpreterException C s) ∧
    s.cpu.regs.ssp = ssp ∧ s.cpu.regs.pc = pc ∧ srWord s.cpu.regs.sr = 0x2700 ∧ s.cpu.exceptions = [] ∧ s.cpu.stop = false ∧ s.mem = m :=
  ⟨_, reset_first (s := ⟨Cpu.new, m⟩) rfl (history_sorted (.new (C := C) m)) rfl h0 h4, rfl, rfl,
    show srWord { Registers.default.sr with t := false, s := true, interruptMask := 7 } = 0x2700 by decide, rfl, rfl, rfl⟩

/-- Exceptions requested between `new` and the first call are discarded by the reset: those that are processed later, because of their rank, too. -/
theorem C31_discards (vs : List U8) (h0 : Holds (sz := .Long) m 0 ssp) (h4 : Holds (sz := .Long) m 4 pc) : ∃ s : St M,
    interpreterException C ⟨vs.foldl (fun c v => c.exception ⟨v⟩) Cpu.new, m⟩ = later C.VECTOR_RESET (interpreterException C s) ∧
    s.cpu.regs.ssp = ssp ∧ s.cpu.regs.pc = pc ∧ srWord s.cpu.regs.sr = 0x2700 ∧ s.cpu.exceptions = [] ∧ s.cpu.stop = false ∧ s.mem = m := by
  have key : ∀ (vs : List U8) (c : Cpu), (∃ es, c.exceptions = ⟨0⟩ :: es) → Sorted c.exceptions → c.stop = false → c.regs = Registers.default →
      ∃ es, (vs.foldl (fun c v => c.exception ⟨v⟩) c).exceptions = ⟨0⟩ :: es ∧ Sorted (vs.foldl (fun c v => c.exception ⟨v⟩) c).exceptions ∧
        (vs.foldl (fun c v => c.exception ⟨v⟩) c).stop = false ∧ (vs.foldl (fun c v => c.exception ⟨v⟩) c).regs = Registers.default := by
    intro vs
    induction vs with
    | nil => exact fun c ⟨es, h⟩ hs hr hd => ⟨es, h, hs, hr, hd⟩
    | cons v vs ih =>
      rintro c ⟨es, h⟩ hs hr hd
      refine ih _ ?_ ?_ ?_ ?_
      · rw [exception_exceptions, h]
        unfold insertException
        split
        · exact ⟨_, rfl⟩
        · split
          · rename_i h1 h2
            exfalso
            have : (getVectorPriority v).toNat ≤ 255 := by have := (getVectorPriority v).isLt; omega
            have h2 : (255#8).toNat < (getVectorPriority v).toNat := h2
            simp at h2
            omega
          · exact ⟨_, rfl⟩
      · rw [exception_exceptions]; exact sorted_insert hs
      · unfold Cpu.exception
        dsimp only
        split
        · rfl
        · exact hr
      · rw [exception_regs]; exact hd
  obtain ⟨es, h1, h2, h3, h5⟩ := key vs Cpu.new ⟨[], rfl⟩ (history_sorted (.new (C := C) m)) rfl rfl
  refine ⟨_, reset_first (s := ⟨vs.foldl (fun c v => c.exception ⟨v⟩) Cpu.new, m⟩) h3 h2 h1 h0 h4, rfl, rfl, ?_, rfl, rfl, rfl⟩
  show srWord { (vs.foldl (fun c v => c.exception ⟨v⟩) Cpu.new).regs.sr with t := false, s := true, interruptMask := 7 } = _
  rw [h5]
  decide

/-- A reset requested later, if no other exception of the last rank (TRAP and others) is pending: the core starts anew, also if it was stopped, and all pending
exceptions are discarded. The condition codes and other registers are kept. Without this condition the request is lost (`C31_lost`). -/
theorem C31_requested (h : History C s) (hn : ∀ e ∈ s.cpu.exceptions, rank e.vector ≠ 6)
    (h0 : Holds (sz := .Long) s.mem 0 ssp) (h4 : Holds (sz := .Long) s.mem 4 pc) :
    interpreterException C { s with cpu := s.cpu.exception ⟨0⟩ } = later C.VECTOR_RESET (interpreterException C
      { s with cpu := { s.cpu with stop := false, exceptions := [], regs := { s.cpu.regs with ssp := ssp, pc := pc, sr := { s.cpu.regs.sr with t := false, s := true, interruptMask := 7 } } } }) := by
  have hp : (s.cpu.exception ⟨0⟩).exceptions = ⟨0⟩ :: s.cpu.exceptions := by
    rw [exception_exceptions]
    cases he : s.cpu.exceptions with
    | nil => rfl
    | cons e es =>
      have := hn e (by rw [he]; exact List.mem_cons_self)
      have hpr : ¬ (⟨0⟩ : Exception).priority = e.priority := fun h => this (rank_eq.1 h).symm
      have hlt : e.priority < (⟨0⟩ : Exception).priority := by
        refine rank_lt.2 ?_
        have : rank e.vector ≤ 6 := by unfold rank; repeat' split <;> try omega
        show rank e.vector < 6
        omega
      unfold insertException
      rw [if_neg hpr, if_pos hlt]
  exact reset_first (s := { s with cpu := s.cpu.exception ⟨0⟩ }) rfl (history_sorted (h.act (.request s 0))) hp h0 h4

/-- The hypotheses: a memory with the vectors 0x2000 and 8. -/
example : Holds (sz := .Long) (⟨[0, 0x2000, 0, 8, 0x4E71]⟩ : WordSlice) 0 0x2000 ∧ Holds (sz := .Long) (⟨[0, 0x2000, 0, 8, 0x4E71]⟩ : WordSlice) 4 8 := by
  constructor
  all_goals
    intro k hk
    have hk : k < 4 := hk
    obtain e | e | e | e : k = 0 ∨ k = 1 ∨ k = 2 ∨ k = 3 := by omega
    all_goals (subst e; rfl)

/-- And the first call on it: 40 cycles for the reset and 4 for NOP. -/
example : ∃ s', interpreterException mc68000 ⟨Cpu.new, (⟨[0, 0x2000, 0, 8, 0x4E71]⟩ : WordSlice)⟩ = .ok (44, none) s' ∧ s'.cpu.regs.ssp = 0x2000 ∧ s'.cpu.regs.pc = 10 :=
  ⟨_, rfl, rfl, rfl⟩

/-- A reset requested while TRAP #0 is pending is lost: the next call does not read the reset vectors. -/
theorem C31_lost : ∃ s s' : St WordSlice, History mc68000 s ∧ s.cpu.exceptions = [⟨32⟩] ∧ (s.cpu.exception ⟨0⟩).exceptions = [⟨32⟩] ∧
    interpreterException mc68000 { s with cpu := s.cpu.exception ⟨0⟩ } = .ok (38, none) s' ∧ s'.cpu.regs.pc = 10 ∧ s'.cpu.regs.ssp = 0x76 := by
  have hh := (History.newNoReset (C := mc68000) (⟨[0, 0x2000, 0, 0x20, 0x4E71] ++ List.replicate 60 0 ++ [8]⟩ : WordSlice))
    |>.act (.request _ 32) |>.act (.host _ { Demo.regs [] [] with ssp := 0x7C, sr := srOf 0x0100 } false ⟨[0, 0x2000, 0, 0x20, 0x4E71] ++ List.replicate 60 0 ++ [8]⟩)
  exact ⟨_, _, hh, rfl, by decide, rfl, rfl, rfl⟩

end M68k.Props
