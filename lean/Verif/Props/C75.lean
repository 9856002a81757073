import Verif.Spec.Nested
import Verif.Props.C21
import Verif.Props.C40
import Verif.Lemmas.Recursion
import Verif.Props.Demo
/-
C75: subroutine calls nested to any depth return to their callers.
-/
namespace M68k.Props
open Spec Exec
set_option linter.unusedSectionVars false
variable {M : Type} [MemoryAccess M] [Ram M] {C : CpuDetails} {s s' s1 s2 t u v w : St M} {op : U16} {n k : Nat} {ret : U32}

/-- A call that completes has pushed the address of the next instruction. -/
theorem callsSub_called (h : CallsSub C s t ret) : ∃ target, Called s t ret target := by
  obtain ⟨op, s1, hr, hi, hc, rfl⟩ := h
  obtain ⟨c, hx⟩ := hc
  have hm : ¬ MovemMisfit op := by
    intro hm
    have hu : instr op ≠ .Unknown := by rcases hi with hi | hi <;> rw [hi] <;> decide
    have hf := decoder_form op
    rw [decoder_of_map op hu] at hf
    unfold MovemMisfit at hm
    simp only [BitVec.le_def, BitVec.ofNat_eq_ofNat, BitVec.reduceToNat] at hm
    rcases hi with hi | hi <;> (rw [hi] at hf; simp only [formCheck, beq_iff_eq] at hf; omega)
  obtain ⟨ws, s2, hf, hpc⟩ := C40_branch hr hm hx
  have hd := decoder_of_not_misfit hm
  rcases hi with hi | hi
  · rw [hi] at hf hpc hd ⊢
    have hp := Pre.fetchDisp (M := M) op s1
    rw [show extensionWords .Bsr op = if op.toNat % 256 = 0 then 1 else 0 from rfl] at hf hpc ⊢
    rw [hf] at hp
    obtain ⟨d, hd', -⟩ := hp
    have h1 := C21_bsr hr hi hd' ⟨c, hx⟩
    rw [show s.cpu.regs.pc + 2 + BitVec.ofNat 32 (2 * if op.toNat % 256 = 0 then 1 else 0) = s.cpu.regs.pc + if op.toNat % 256 = 0 then 4 else 2 by
      split <;> rw [BitVec.add_assoc] <;> rfl]
    exact ⟨_, h1⟩
  · rw [hi] at hf hpc hd ⊢
    have hl : legalCheck .Jsr op.toNat = true := by rw [← hd]; exact decoder_legal op
    simp only [legalCheck, Bool.and_eq_true, bne_iff_ne] at hl
    obtain ⟨⟨h2, h3⟩, h4⟩ := hl
    have h7 : op.toNat / 8 % 8 < 7 ∨ op.toNat % 8 ≤ 3 := by
      simp only [eaInMemory, Bool.or_eq_true, Bool.and_eq_true, decide_eq_true_eq, beq_iff_eq] at h2
      omega
    have hp := pre_ea' (M := M) (sz := none) (imm := 0) op h7 s1
    rw [show extensionWords .Jsr op = opEaWords 0 op from rfl] at hf hpc ⊢
    rw [hf] at hp
    obtain ⟨md, hd', hfit⟩ := hp
    have hmem : ∀ r : Registers, ∃ a, (place .Long r md).1 = .mem a := by
      intro r
      simp only [eaInMemory, Bool.or_eq_true, Bool.and_eq_true, decide_eq_true_eq, beq_iff_eq] at h2
      cases md <;> obtain ⟨e1, e2⟩ := hfit <;> first | exact ⟨_, rfl⟩ | (exfalso; omega)
    obtain ⟨a, ha⟩ := hmem (setAreg s2.cpu.regs 7 (areg s2.cpu.regs 7 - 4))
    have hmode : regField op 3 ≠ 3 ∧ regField op 3 ≠ 4 := by
      have e3 : (regField op 3).val = op.toNat / 8 % 8 := by simp [regField, Fin.ofNat]
      exact ⟨fun h => h3 (by rw [← e3, h]; rfl), fun h => h4 (by rw [← e3, h]; rfl)⟩
    have h1 := C21_jsr hr hi hd' hmode ha ⟨c, hx⟩
    rw [← hpc]
    exact ⟨_, h1⟩

theorem at_sub_add (a : U32) (k j : Nat) : at_ (a - BitVec.ofNat 32 k) (k + j) = at_ a j := by
  rw [← at_add, at_sub]

/-- What the caller keeps, after a call. -/
theorem kept_call {target : U32} (h : Called s t ret target) (hn : n + 4 ≤ 2 ^ 32) (j : Nat) (hj : j < n) :
    Ram.peek t.mem (at_ (areg s.cpu.regs 7) j) = Ram.peek s.mem (at_ (areg s.cpu.regs 7) j) := by
  refine h.mem _ fun k hk he => ?_
  rw [← at_sub_add _ 4 j] at he
  have := at_inj (by omega) (by omega) he
  omega

theorem kept_return {target : U32} (hcall : Called s t ret target) (hn : n + 4 ≤ 2 ^ 32) (hk : Kept (n + 4) t u) (hr : ReturnsSub C u v) :
    v.cpu.regs.pc = ret ∧ v.mem = u.mem ∧ Kept n s v ∧ (∀ i, i ≠ 7 → areg v.cpu.regs i = areg u.cpu.regs i) ∧ v.cpu.regs.d = u.cpu.regs.d ∧
      v.cpu.regs.sr = u.cpu.regs.sr := by
  obtain ⟨op, u1, hr, hi, hc⟩ := hr
  obtain ⟨v', h1, h2, h3, h4, h5⟩ := C21_return (C := C) hcall hr hi hk.1 fun k hk' => hk.2 k (by omega)
  rw [completes_unique hc h1]
  refine ⟨h3, h2, ⟨h4, fun j hj => ?_⟩, h5⟩
  rw [h2, ← kept_call hcall hn j hj]
  have := hk.2 (4 + j) (by omega)
  rw [hcall.sp, show (4 : U32) = BitVec.ofNat 32 4 from rfl, at_sub_add] at this
  exact this

/-- A nested execution leaves the stack pointer and what is above it. -/
theorem C75_kept (h : Nested C n s t) : Kept n s t := by
  induction h with
  | nil n s => exact ⟨rfl, fun _ _ => rfl⟩
  | plain _ hk _ ih =>
    refine ⟨ih.1.trans hk.1, fun j hj => ?_⟩
    have := ih.2 j hj
    rw [hk.1] at this
    exact this.trans (hk.2 j hj)
  | @frame n k s t u v w hn ha _ hf _ ih1 ih2 =>
    obtain ⟨-, ha1, ha2⟩ := ha
    obtain ⟨-, hf1, hf2⟩ := hf
    have hsp : areg v.cpu.regs 7 = areg s.cpu.regs 7 := by rw [hf1, ih1.1, ha1, BitVec.sub_add_cancel]
    refine ⟨ih2.1.trans hsp, fun j hj => ?_⟩
    have h1 := ih2.2 j hj
    have h2 := hf2 j hj
    have h3 := ih1.2 (k + j) (by omega)
    rw [ha1, at_sub_add] at h3
    rw [hsp] at h1 h2
    exact h1.trans (h2.trans (h3.trans (ha2 j hj)))
  | call hn hc _ hr _ ih1 ih2 =>
    obtain ⟨target, hcall⟩ := callsSub_called hc
    have hk := (kept_return hcall hn ih1 hr).2.2.1
    refine ⟨ih2.1.trans hk.1, fun j hj => ?_⟩
    have := ih2.2 j hj
    rw [hk.1] at this
    exact this.trans (hk.2 j hj)

/-- After a call and a nested execution, RTS completes: execution continues with the instruction after the call, with the stack pointer of before the call and what is
above it. Memory and the other registers are as the subroutine left them. -/
theorem C75_return (hn : n + 4 ≤ 2 ^ 32) (hc : CallsSub C s t ret) (h : Nested C (n + 4) t u) (hr : Ready u op s1) (hi : instr op = .Rts) :
    ∃ v, Completes C u v ∧ v.cpu.regs.pc = ret ∧ v.mem = u.mem ∧ Kept n s v ∧ (∀ i, i ≠ 7 → areg v.cpu.regs i = areg u.cpu.regs i) ∧
      v.cpu.regs.d = u.cpu.regs.d ∧ v.cpu.regs.sr = u.cpu.regs.sr := by
  obtain ⟨target, hcall⟩ := callsSub_called hc
  have hk := C75_kept h
  obtain ⟨v, h1, -⟩ := C21_return (C := C) hcall hr hi hk.1 fun k hk' => hk.2 k (by omega)
  exact ⟨v, h1, kept_return hcall hn hk ⟨op, s1, hr, hi, h1⟩⟩

/-- The subroutine that calls itself as often as the word in D0 says returns, at every depth for which the stack has room: after `5 n + 4` instructions, with D0 counted
down and D1 counted up by `n + 1`, the return address popped, every byte not on the stack below it and every other register, the flags apart, unchanged. -/
theorem C75_recursion [Writable M] (h : CountReady s n ret) : ∃ t : St M, Steps C (5 * n + 4) s t ∧
    Updated s t ret (s.cpu.regs.d 0 - BitVec.ofNat 32 (n + 1)) (s.cpu.regs.d 1 + BitVec.ofNat 32 (n + 1)) (areg s.cpu.regs 7 + 4) ∧
    ∀ b, ¬ Below (areg s.cpu.regs 7) (4 * n) b → Ram.peek t.mem b = Ram.peek s.mem b := by
  obtain ⟨t, h1, h2, h3, -⟩ := count_run (C := C) h
  exact ⟨t, h1, h2, h3⟩

/-- `BSR f; NOP; f: BSR g; RTS; g: RTS`. -/
def nestedDemo : St WordSlice := Demo.ram [0x6102, 0x4E71, 0x6102, 0x4E75, 0x4E75] 32 (Demo.regs [] [0, 0, 0, 0, 0, 0, 0, 0x40])

/-- The call in the call. -/
example : ∃ t u v : St WordSlice, CallsSub mc68000 nestedDemo t 2 ∧ Nested mc68000 (0 + 4) t u ∧ t.cpu.regs.pc = 4 ∧ u.cpu.regs.pc = 6 ∧
    (∃ s1, Ready u 0x4E75 s1) ∧ instr 0x4E75 = .Rts ∧ Completes mc68000 u v ∧ v.cpu.regs.pc = 2 :=
  ⟨_, _, _, ⟨0x6102, _, ⟨rfl, rfl, by decide, _, rfl, rfl⟩, .inl rfl, ⟨_, rfl⟩, rfl⟩,
    .call (ret := 6) (by decide) ⟨0x6102, _, ⟨rfl, rfl, by decide, _, rfl, rfl⟩, .inl rfl, ⟨_, rfl⟩, rfl⟩ (.nil _ _)
      ⟨0x4E75, _, ⟨rfl, rfl, by decide, _, rfl, rfl⟩, rfl, ⟨_, rfl⟩⟩ (.nil _ _), rfl, rfl, ⟨_, ⟨rfl, rfl, by decide, _, rfl, rfl⟩⟩, rfl, ⟨_, rfl⟩, rfl⟩

/-- `LINK A6,#-4` and `UNLK A6` are the two ends of a frame of 8 bytes. -/
example : ∃ t u : St WordSlice, Completes mc68000 (Demo.ram [0x4E56, 0xFFFC, 0x4E5E] 40 (Demo.regs [] [0, 0, 0, 0, 0, 0, 9, 0x40])) t ∧ areg t.cpu.regs 7 = 0x38 ∧
    Nested mc68000 16 (Demo.ram [0x4E56, 0xFFFC, 0x4E5E] 40 (Demo.regs [] [0, 0, 0, 0, 0, 0, 9, 0x40])) u ∧ u.cpu.regs.pc = 6 :=
  ⟨_, _, ⟨_, rfl⟩, rfl, .frame (k := 8) (by decide) ⟨⟨_, rfl⟩, rfl, by decide⟩ (.nil _ _) ⟨⟨_, rfl⟩, rfl, by decide⟩ (.nil _ _), rfl⟩

/-- The recursive subroutine with the counter 3 and the return address 0x123456. -/
def recursionDemo : St WordSlice :=
  Demo.st [0x5340, 0x6702, 0x61FA, 0x5281, 0x4E75, 0, 0, 0, 0, 0, 0x12, 0x3456] (Demo.regs [3, 10] [0, 0, 0, 0, 0, 0, 0, 20])

example : CountReady recursionDemo 2 0x123456 where
  running := rfl
  idle := rfl
  even := by decide
  program := by
    have h : ∀ (i : Fin 5) (k : Fin 2), Ram.peek recursionDemo.mem (at_ (at_ recursionDemo.cpu.regs.pc (2 * i.val)) k.val) = some (beByte (sz := .Word) (countDown[i]) k.val) := by
      decide
    exact fun i hi k hk => h ⟨i, hi⟩ ⟨k, hk⟩
  counter := rfl
  evenSp := by decide
  onStack := by unfold Holds; decide
  room := by
    intro b ⟨o, h1, h2, hb⟩
    subst hb
    have : o = 1 ∨ o = 2 ∨ o = 3 ∨ o = 4 ∨ o = 5 ∨ o = 6 ∨ o = 7 ∨ o = 8 := by omega
    rcases this with h | h | h | h | h | h | h | h <;> subst h <;> rfl
  kept := by
    intro k hk ⟨o, h1, h2, hb⟩
    have := congrArg BitVec.toNat hb
    have hsp : areg recursionDemo.cpu.regs 7 = 20 := rfl
    have hpc : recursionDemo.cpu.regs.pc = 0 := rfl
    rw [hsp, hpc] at this
    unfold at_ at this
    simp only [BitVec.toNat_add, BitVec.toNat_sub, BitVec.toNat_ofNat, BitVec.ofNat_eq_ofNat] at this
    omega

/-- It returns with D1 = 13, having called itself twice. -/
example : (areg recursionDemo.cpu.regs 7, recursionDemo.cpu.regs.d 1) = (20, 10) ∧ ∃ t, Steps mc68000 14 recursionDemo t ∧ t.cpu.regs.pc = 0x123456 ∧ t.cpu.regs.d 1 = 13 ∧
    areg t.cpu.regs 7 = 24 :=
  ⟨rfl, _, .more (.more (.more (.more (.more (.more (.more (.more (.more (.more (.more (.more (.more (.more (.none _) ⟨_, rfl⟩) ⟨_, rfl⟩) ⟨_, rfl⟩) ⟨_, rfl⟩) ⟨_, rfl⟩) ⟨_, rfl⟩)
    ⟨_, rfl⟩) ⟨_, rfl⟩) ⟨_, rfl⟩) ⟨_, rfl⟩) ⟨_, rfl⟩) ⟨_, rfl⟩) ⟨_, rfl⟩) ⟨_, rfl⟩, rfl, rfl, rfl⟩

end M68k.Props
