import Verif.Lemmas.Pending
import Verif.Props.DemoRam
import Verif.Props.C01
/-
C27: exception entry followed by RTE.
-/
namespace M68k.Props
open Spec Exec
set_option linter.unusedSectionVars false
variable {M : Type} [MemoryAccess M] [Ram M] {C : CpuDetails} {s s' t t1 : St M} {v : U8} {m : M} {a : U32}

theorem srOf_srWord {sr : StatusRegister} (h : sr.interruptMask.toNat ≤ 7) : srOf (srWord sr) = sr := by
  rw [← toU16_eq, ← ofU16_eq]
  exact C01_sr_round_trip sr h

theorem holds_words {x : U32} (h : Run .Word m a (Spec.words x)) : Holds (sz := .Long) m a x := by
  have hx := x.isLt
  obtain ⟨h0, h1⟩ := run_cons.1 h
  obtain ⟨h1, -⟩ := run_cons.1 h1
  intro k hk
  have hk : k < 4 := hk
  have a0 := h0 0 (by decide)
  have a1 := h0 1 (by decide)
  have a2 := h1 0 (by decide)
  have a3 := h1 1 (by decide)
  rw [at_add] at a2 a3
  unfold beByte at *
  simp only [bytes, width, BitVec.toNat_ofNat] at *
  obtain e | e | e | e : k = 0 ∨ k = 1 ∨ k = 2 ∨ k = 3 := by omega
  all_goals subst e
  · refine a0.trans (congrArg some (congrArg (BitVec.ofNat 8) ?_)); omega
  · refine a1.trans (congrArg some ?_)
    apply BitVec.eq_of_toNat_eq; simp only [BitVec.toNat_ofNat]; omega
  · refine a2.trans (congrArg some ?_)
    apply BitVec.eq_of_toNat_eq; simp only [BitVec.toNat_ofNat]; omega
  · refine a3.trans (congrArg some ?_)
    apply BitVec.eq_of_toNat_eq; simp only [BitVec.toNat_ofNat]; omega

/-- The pops of RTE. -/
theorem rte_pops (hs : t.cpu.regs.sr.s = true) (he : ¬ Spec.Odd t.cpu.regs.ssp) {w : U16} {pc : U32} {f : Exec M Bool}
    (h : Run .Word t.mem t.cpu.regs.ssp ([w] ++ words pc)) :
    (do let w ← pop .Word
        let pc ← pop .Long
        jump pc
        let long ← f
        setFlags fun _ => srOf w
        pure long) t =
    (do let long ← f
        setFlags fun _ => srOf w
        pure long) (t.withRegs fun r => { r with ssp := at_ r.ssp 6, pc := pc }) := by
  obtain ⟨hw, hpc⟩ := run_append.1 h
  have hw := (run_cons.1 hw).1
  have hpc := holds_words hpc
  have hw' : pop .Word t = .ok w (t.withRegs fun r => { r with ssp := at_ r.ssp 2 }) := by
    rw [pop_holds (v := w) (sz := .Word) (by rw [areg7_s _ hs]; exact even_word he) (by rw [areg7_s _ hs]; exact hw)]
    unfold St.withRegs
    dsimp only
    rw [setAreg7_s _ hs, areg7_s _ hs]
    rfl
  have hp' : pop .Long (t.withRegs fun r => { r with ssp := at_ r.ssp 2 }) = .ok pc (t.withRegs fun r => { r with ssp := at_ r.ssp 6 }) := by
    have e2 : ¬ Spec.Odd (at_ t.cpu.regs.ssp 2) := fun h => he ((odd_at (by decide)).1 h)
    have ha : areg (t.withRegs fun r => { r with ssp := at_ r.ssp 2 }).cpu.regs 7 = at_ t.cpu.regs.ssp 2 := areg7_s _ hs
    rw [pop_holds (s := t.withRegs fun r => { r with ssp := at_ r.ssp 2 }) (v := pc) (sz := .Long)
      (by rw [ha]; exact even_word e2) (by rw [ha]; exact hpc)]
    unfold St.withRegs
    dsimp only
    rw [setAreg7_s _ (by exact hs), areg7_s _ (by exact hs)]
    dsimp only
    rw [show at_ t.cpu.regs.ssp 2 + Spec.step 7 .Long = at_ t.cpu.regs.ssp 6 from at_add _ 2 4]
  rw [bind_eq hw', bind_eq hp']
  rfl

/-- The format word of the SCC68070. -/
theorem rte_format (hs : t.cpu.regs.sr.s = true) (he : ¬ Spec.Odd t.cpu.regs.ssp) {f : U16} (h : Holds (sz := .Word) t.mem t.cpu.regs.ssp f)
    (hf : f.toNat / 4096 = 15 ∨ f.toNat / 4096 = 0) :
    (do let f ← pop .Word
        if f.toNat / 4096 = 15 then
          updateA 7 fun sp => sp + 26
          pure true
        else if f.toNat / 4096 = 0 then pure false
        else trap 14) t = .ok (decide (f.toNat / 4096 = 15)) (t.withRegs fun r => { r with ssp := at_ r.ssp (if f.toNat / 4096 = 15 then 28 else 2) }) := by
  have hw' : pop .Word t = .ok f (t.withRegs fun r => { r with ssp := at_ r.ssp 2 }) := by
    rw [pop_holds (v := f) (sz := .Word) (by rw [areg7_s _ hs]; exact even_word he) (by rw [areg7_s _ hs]; exact h)]
    unfold St.withRegs
    dsimp only
    rw [setAreg7_s _ hs, areg7_s _ hs]
    rfl
  rw [bind_eq hw']
  by_cases hl : f.toNat / 4096 = 15
  · rw [if_pos hl, if_pos hl, decide_eq_true hl]
    have : updateA 7 (fun sp => sp + 26) (t.withRegs fun r => { r with ssp := at_ r.ssp 2 }) = .ok () (t.withRegs fun r => { r with ssp := at_ r.ssp 28 }) := by
      unfold updateA
      rw [modR_apply]
      unfold St.withRegs
      dsimp only
      rw [setAreg7_s _ (by exact hs), areg7_s _ (by exact hs)]
      dsimp only
      rw [show at_ t.cpu.regs.ssp 2 + 26 = at_ t.cpu.regs.ssp 28 from at_add _ 2 26]
    rw [bind_eq this]
    rfl
  · rw [if_neg hl, if_pos (by omega), if_neg hl, decide_eq_false hl]
    rfl

/-- The bytes a handler on the 68000 has to take from the stack before RTE: the first four words of the frames of access and address errors. -/
def extra (f : StackFormat) (v : U8) : Nat := if f = .MC68000 ∧ LongFrame v then 8 else 0

theorem resume_rte (h : Entered C v s s') (hm : s.cpu.regs.sr.interruptMask.toNat ≤ 7) (he : ¬ Spec.Odd s.cpu.regs.ssp)
    (hr : Ready t 0x4E73 t1) (hs : t.cpu.regs.sr.s = true) (hsp : t.cpu.regs.ssp = at_ s'.cpu.regs.ssp (extra C.STACK_FORMAT v))
    (hf : ∀ k < frameBytes C.STACK_FORMAT v, Ram.peek t.mem (at_ s'.cpu.regs.ssp k) = Ram.peek s'.mem (at_ s'.cpu.regs.ssp k)) :
    rte C.STACK_FORMAT t1 = .ok (decide (C.STACK_FORMAT = .SCC68070 ∧ LongFrame v)) (t1.withRegs fun r => { r with pc := s.cpu.regs.pc, sr := s.cpu.regs.sr, ssp := s.cpu.regs.ssp }) := by
  obtain ⟨x, hx⟩ : ∃ x, rte C.STACK_FORMAT t1 = x := ⟨_, rfl⟩
  rw [hx]
  unfold rte at hx
  have hr1 : t1.cpu.regs.sr.s = true := by rw [hr.sr]; exact hs
  rw [bind_eq (privileged_ok hr1)] at hx
  have hsp1 : t1.cpu.regs.ssp = at_ s'.cpu.regs.ssp (extra C.STACK_FORMAT v) := by rw [hr.regs]; exact hsp
  have hssp : s'.cpu.regs.ssp = s.cpu.regs.ssp - BitVec.ofNat 32 (frameBytes C.STACK_FORMAT v) := by rw [h.regs]
  have hback : at_ s'.cpu.regs.ssp (frameBytes C.STACK_FORMAT v) = s.cpu.regs.ssp := by rw [hssp]; exact at_sub _ _
  have hev : ∀ k, k % 2 = 0 → ¬ Spec.Odd (at_ s'.cpu.regs.ssp k) := by
    intro k hk ho
    apply he
    rw [← hback]
    refine (odd_at ?_).2 ((odd_at hk).1 ho)
    unfold frameBytes
    cases C.STACK_FORMAT <;> dsimp only <;> split <;> rfl
  have hfr : Run .Word t1.mem s'.cpu.regs.ssp (frame C.STACK_FORMAT v (srWord s.cpu.regs.sr) s.cpu.regs.pc s.cpu.currentOpcode) := by
    intro k hk
    refine (h.frame k hk).of_eq fun j hj => ?_
    have hl := frame_length C.STACK_FORMAT v (srWord s.cpu.regs.sr) s.cpu.regs.pc s.cpu.currentOpcode
    have hj : j < 2 := hj
    rw [hr.ram, at_add]
    exact hf _ (by omega)
  have hsr := srOf_srWord hm
  unfold extra at hsp1
  unfold frameBytes at hback
  unfold frame at hfr
  generalize C.STACK_FORMAT = f at *
  cases f with
  | MC68000 =>
    dsimp only at hback hfr
    by_cases hl : LongFrame v
    · rw [if_pos ⟨rfl, hl⟩] at hsp1
      rw [if_pos hl] at hback hfr
      rw [List.append_assoc] at hfr
      have hfr := (run_append.1 hfr).2
      rw [rte_pops hr1 (by rw [hsp1]; exact hev _ rfl) (by rw [hsp1]; exact hfr), if_neg (by decide)] at hx
      rw [← hback, ← hsr, ← at_add (k := 6) (j := 8), ← hsp1]
      rw [decide_eq_false (by rintro ⟨h, -⟩; cases h)]
      exact hx.symm
    · rw [if_neg (fun h => hl h.2), at_zero] at hsp1
      rw [if_neg hl] at hback hfr
      rw [rte_pops hr1 (by rw [hsp1, ← at_zero s'.cpu.regs.ssp]; exact hev _ rfl) (by rw [hsp1]; exact hfr), if_neg (by decide)] at hx
      rw [← hback, ← hsr, ← hsp1]
      rw [decide_eq_false (by rintro ⟨h, -⟩; cases h)]
      exact hx.symm
  | SCC68070 =>
    rw [if_neg (fun h => absurd h.1 (by decide)), at_zero] at hsp1
    rw [if_pos rfl] at hx
    dsimp only at hback hfr
    have hv := v.isLt
    have h6 : ¬ Spec.Odd (at_ t1.cpu.regs.ssp 6) := by rw [hsp1]; exact hev _ rfl
    have h0 : ¬ Spec.Odd t1.cpu.regs.ssp := by rw [hsp1, ← at_zero s'.cpu.regs.ssp]; exact hev _ rfl
    by_cases hl : LongFrame v
    · rw [if_pos hl] at hback hfr
      obtain ⟨hfr, hw⟩ := run_append.1 hfr
      have hw := (run_cons.1 hw).1
      have hn : (BitVec.ofNat 16 (0xF000 + 4 * v.toNat)).toNat / 4096 = 15 := by rw [BitVec.toNat_ofNat]; omega
      rw [rte_pops hr1 h0 (by rw [hsp1]; exact hfr)] at hx
      have := rte_format (t := t1.withRegs fun r => { r with ssp := at_ r.ssp 6, pc := s.cpu.regs.pc }) (by exact hr1) h6
        (f := BitVec.ofNat 16 (0xF000 + 4 * v.toNat)) (by rw [← hsp1] at hw; exact hw) (.inl hn)
      rw [bind_eq this, if_pos hn] at hx
      rw [← hback, ← hsr, ← at_add (k := 28) (j := 6), ← hsp1]
      rw [decide_eq_true (⟨rfl, hl⟩ : StackFormat.SCC68070 = .SCC68070 ∧ LongFrame v)]
      rw [decide_eq_true hn] at hx
      exact hx.symm
    · rw [if_neg hl] at hback hfr
      obtain ⟨hfr, hw⟩ := run_append.1 hfr
      have hw := (run_cons.1 hw).1
      have hn : (BitVec.ofNat 16 (4 * v.toNat)).toNat / 4096 = 0 := by rw [BitVec.toNat_ofNat]; omega
      rw [rte_pops hr1 h0 (by rw [hsp1]; exact hfr)] at hx
      have := rte_format (t := t1.withRegs fun r => { r with ssp := at_ r.ssp 6, pc := s.cpu.regs.pc }) (by exact hr1) h6
        (f := BitVec.ofNat 16 (4 * v.toNat)) (by rw [← hsp1] at hw; exact hw) (.inr hn)
      rw [bind_eq this, if_neg (by omega)] at hx
      rw [← hback, ← hsr, ← at_add (k := 2) (j := 6), ← hsp1]
      rw [decide_eq_false fun h => hl h.2]
      rw [decide_eq_false (by omega)] at hx
      exact hx.symm

/-- `s'` is the state after the entry of exception `v` in the state `s`. Later, in the state `t`, RTE (0x4E73) is about to be executed in supervisor mode, the supervisor
stack pointer is where the entry has left it (plus the 8 additional bytes of access and address errors on the MC68000, which its RTE does not know), and the
bytes of the frame are as the entry has written them. Whatever else has happened since, the program continues with the program counter, the status
register and the supervisor stack pointer of `s`, and RTE changes nothing else. -/
theorem C27_resume (h : Entered C v s s') (hm : s.cpu.regs.sr.interruptMask.toNat ≤ 7) (he : ¬ Spec.Odd s.cpu.regs.ssp)
    (hr : Ready t 0x4E73 t1) (hs : t.cpu.regs.sr.s = true) (hsp : t.cpu.regs.ssp = at_ s'.cpu.regs.ssp (extra C.STACK_FORMAT v))
    (hf : ∀ k < frameBytes C.STACK_FORMAT v, Ram.peek t.mem (at_ s'.cpu.regs.ssp k) = Ram.peek s'.mem (at_ s'.cpu.regs.ssp k)) :
    CompletesPrivileged C t (t1.withRegs fun r => { r with pc := s.cpu.regs.pc, sr := s.cpu.regs.sr, ssp := s.cpu.regs.ssp }) := by
  have hx := step_endsPrivileged C hr (i := .Rte) (by decide) (by decide) rfl
  simp only [Spec.exec] at hx
  rw [endsPrivileged_map, resume_rte h hm he hr hs hsp hf] at hx
  exact hx

/-- The same with the time of RTE: the SCC68070 takes longer for the long frames. -/
theorem C27_resumeTime (h : Entered C v s s') (hm : s.cpu.regs.sr.interruptMask.toNat ≤ 7) (he : ¬ Spec.Odd s.cpu.regs.ssp)
    (hr : Ready t 0x4E73 t1) (hs : t.cpu.regs.sr.s = true) (hsp : t.cpu.regs.ssp = at_ s'.cpu.regs.ssp (extra C.STACK_FORMAT v))
    (hf : ∀ k < frameBytes C.STACK_FORMAT v, Ram.peek t.mem (at_ s'.cpu.regs.ssp k) = Ram.peek s'.mem (at_ s'.cpu.regs.ssp k)) :
    interpreterException C t = .ok (if C.STACK_FORMAT = .SCC68070 ∧ LongFrame v then C.RTE + 101 else C.RTE, none)
      (t1.withRegs fun r => { r with pc := s.cpu.regs.pc, sr := s.cpu.regs.sr, ssp := s.cpu.regs.ssp }) := by
  rw [step_finish C hr, show decoder 0x4E73 = .Rte by decide]
  unfold finishStep
  simp only [Spec.exec]
  rw [Exec.map_apply, resume_rte h hm he hr hs hsp hf]
  simp [show Isa.Rte.isPrivileged = true from rfl]

/-- The whole of it on one machine: TRAP #0 (vector 32) on the SCC68070 and an RTE as handler at address 0. -/
example : ∃ n s' t1, processException scc68070 32 (Demo.ram [0x4E73, 0] 80 { Demo.regs [] [] with ssp := 0x98, pc := 0x12345678, sr := srOf 0x8211 }) = .ok n s' ∧
    s'.cpu.regs.pc = 0 ∧ s'.cpu.regs.sr = srOf 0x2211 ∧ extra scc68070.STACK_FORMAT 32 = 0 ∧ Ready s' 0x4E73 t1 ∧
    CompletesPrivileged scc68070 s' (t1.withRegs fun r => { r with pc := 0x12345678, sr := srOf 0x8211, ssp := 0x98 }) :=
  ⟨_, _, _, rfl, rfl, rfl, rfl, ⟨rfl, rfl, by decide, _, rfl, rfl⟩, _, rfl⟩

/-- The full property would have no exception for the long frames of the MC68000. It is false there: with RTE as the handler of an address error the program
does not continue where it was, but at address 0 with status register 0. -/
theorem C27_longFrames_refuted : ∃ (s s' t1 t' : St WordSlice), processException mc68000 3 s = .ok 50 s' ∧ Ready s' 0x4E73 t1 ∧
    CompletesPrivileged mc68000 s' t' ∧ s.cpu.regs.pc = 0x12345678 ∧ t'.cpu.regs.pc = 0 ∧ s.cpu.regs.sr = srOf 0x2000 ∧ t'.cpu.regs.sr = srOf 0 ∧
    s.cpu.regs.ssp = 0x48 ∧ t'.cpu.regs.ssp = 0x40 :=
  ⟨Demo.ram [0, 0, 0, 0, 0, 0, 0, 16, 0x4E73] 36 { Demo.regs [] [] with ssp := 0x48, pc := 0x12345678, sr := srOf 0x2000 }, _, _, _, rfl,
    ⟨rfl, rfl, by decide, _, rfl, rfl⟩, ⟨_, rfl⟩, rfl, rfl, rfl, rfl, rfl, rfl⟩

end M68k.Props
