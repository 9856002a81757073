import Verif.Lemmas.Stack
import Verif.Props.DemoRam
/-
C21: subroutine calls return.
-/
namespace M68k.Props
open Spec Exec
set_option linter.unusedSectionVars false
variable {M : Type} [MemoryAccess M] {C : CpuDetails} {s s' s1 s2 t t' t1 : St M} {op op' : U16} {d : U16} {md : Mode}

/-- The state after the call of a subroutine at `target` from a call that ends at the address `ret`: the return address was pushed. -/
structure Called [Ram M] (s s' : St M) (ret target : U32) : Prop where
  pc : s'.cpu.regs.pc = target
  /-- The return address is on the stack. -/
  pushed : Holds (sz := .Long) s'.mem (areg s.cpu.regs 7 - 4) ret
  mem : SameExcept s.mem s'.mem (areg s.cpu.regs 7 - 4) 4
  sp : areg s'.cpu.regs 7 = areg s.cpu.regs 7 - 4
  even : ¬ Spec.Odd (areg s.cpu.regs 7 - 4)
  /-- The other registers are as before. -/
  areg : ∀ i, i ≠ 7 → areg s'.cpu.regs i = areg s.cpu.regs i
  data : s'.cpu.regs.d = s.cpu.regs.d
  sr : s'.cpu.regs.sr = s.cpu.regs.sr

section
variable [Ram M]

/-- A push of the program counter followed by a jump. -/
theorem called_of (h : Ready s op s1) (hs : PcOnly s1 s2) {target : U32} (hp : push .Long s2.cpu.regs.pc s2 = .ok () t)
    (he : s' = t.withRegs fun r => { r with pc := target }) : Called s s' s2.cpu.regs.pc target := by
  obtain ⟨h1, h2, h3, h4⟩ := push_done hp
  have hm : s2.mem = s.mem := by rw [hs.mem, h.ram]
  have hr : s2.cpu.regs = { s.cpu.regs with pc := s2.cpu.regs.pc } := by
    have := hs.regs
    rw [h.regs] at this
    exact this
  have ha : ∀ i, Spec.areg s2.cpu.regs i = Spec.areg s.cpu.regs i := by intro i; rw [hr]; rfl
  have e : Spec.step 7 .Long = 4 := rfl
  rw [e, ha] at h1 h3 h4
  subst he
  refine ⟨rfl, h3, ?_, ?_, fun ho => h1 ⟨by decide, ho⟩, ?_, ?_, ?_⟩
  · rw [← hm]; exact h4
  · show Spec.areg t.cpu.regs 7 = _
    rw [h2]
    simp only [St.withRegs, areg_setAreg, if_true, ha]
    rfl
  · intro i hi
    show Spec.areg t.cpu.regs i = _
    rw [h2]
    simp only [St.withRegs, areg_setAreg, if_neg hi, ha]
  · show t.cpu.regs.d = _
    rw [h2]
    simp only [St.withRegs, setAreg_d]
    rw [hr]
  · show t.cpu.regs.sr = _
    rw [h2]
    simp only [St.withRegs, setAreg_sr]
    rw [hr]

/-- BSR: pushes the address of the next instruction (after the displacement word, if there is one), and continues at the address after the
opcode plus the displacement. -/
theorem C21_bsr (h : Ready s op s1) (hi : instr op = .Bsr) (hd : fetchDisp op s1 = .ok d s2) (hc : Completes C s s') :
    Called s s' (s.cpu.regs.pc + if op.toNat % 256 = 0 then 4 else 2) (s.cpu.regs.pc + 2 + signExt d) := by
  have hx := step_ends C h hi (by decide) rfl
  simp only [Spec.exec] at hx
  rw [getR_bind_apply, endsWith_bind_ok hd, endsWith_cost] at hx
  have hs : PcOnly s1 s2 ∧ s2.cpu.regs.pc = s.cpu.regs.pc + if op.toNat % 256 = 0 then 4 else 2 := by
    unfold fetchDisp at hd
    split at hd
    · rename_i h0
      refine ⟨fetch_pcOnly hd, ?_⟩
      rw [if_pos h0, fetch_regs hd]
      show s1.cpu.regs.pc + 2 = _
      rw [h.pc, BitVec.add_assoc]
      rfl
    · rename_i h0
      cases hd
      refine ⟨.refl _, ?_⟩
      rw [if_neg h0, h.pc]
  unfold bsr at hx
  rw [getR_bind_apply] at hx
  rw [← hs.2, ← h.pc]
  rcases endsWith_completes hx hc with ⟨_, hx⟩ | ⟨e, hx, ht⟩
  · obtain ⟨_, t, hp, hx⟩ := bind_ok hx
    cases hx
    exact called_of h hs.1 hp rfl
  · rcases bind_err hx with hx | ⟨_, t, hp, hx⟩
    · exact absurd ht (traced_ne (push_err hx))
    · cases hx

/-- JSR: pushes the address after its extension words and continues at the effective address, which the code computes with the registers
after the push. -/
theorem C21_jsr {a : U32} (h : Ready s op s1) (hi : instr op = .Jsr) (hd : fetchEa none op s1 = .ok md s2)
    (hmode : regField op 3 ≠ 3 ∧ regField op 3 ≠ 4)
    (ha : (place .Long (setAreg s2.cpu.regs 7 (areg s2.cpu.regs 7 - 4)) md).1 = .mem a) (hc : Completes C s s') :
    Called s s' s2.cpu.regs.pc a := by
  have hx := step_ends C h hi (by decide) rfl
  simp only [Spec.exec] at hx
  rw [endsWith_bind_ok hd, endsWith_cost] at hx
  unfold jsr at hx
  rw [getR_bind_apply] at hx
  have hctl : ∀ u : St M, (place .Long u.cpu.regs md).1 = .mem a → control md u = .ok a u := by
    intro u hu
    have hf := fetchMode_field hd
    exact control_of (by rw [hf]; exact fin8_ne hmode.1) (by rw [hf]; exact fin8_ne hmode.2) hu
  have hstep : Spec.step 7 .Long = 4 := rfl
  rcases endsWith_completes hx hc with ⟨_, hx⟩ | ⟨e, hx, ht⟩
  · obtain ⟨_, t, hp, hx⟩ := bind_ok hx
    have ht : (place .Long t.cpu.regs md).1 = .mem a := by
      obtain ⟨-, h2, -⟩ := push_done hp
      rw [h2]
      exact ha
    rw [bind_eq (hctl t ht)] at hx
    cases hx
    exact called_of h (fetchEa_pcOnly hd) hp rfl
  · rcases bind_err hx with hx | ⟨_, t, hp, hx⟩
    · exact absurd ht (traced_ne (push_err hx))
    · have ht : (place .Long t.cpu.regs md).1 = .mem a := by
        obtain ⟨-, h2, -⟩ := push_done hp
        rw [h2]
        exact ha
      rw [bind_eq (hctl t ht)] at hx
      cases hx

/-- The effective address depends on the stack pointer. -/
def usesSp : Mode → Bool
  | .ind n => n = 7
  | .disp n _ => n = 7
  | .index n x => n = 7 ∨ (x.toNat / 2 ^ 15 % 2 = 1 ∧ regField x 12 = 7)
  | .pcIndex _ x => x.toNat / 2 ^ 15 % 2 = 1 ∧ regField x 12 = 7
  | _ => false

theorem indexValue_setSp {r : Registers} {x : U16} (v : U32) (h : ¬ (x.toNat / 2 ^ 15 % 2 = 1 ∧ regField x 12 = 7)) :
    indexValue (setAreg r 7 v) x = indexValue r x := by
  unfold indexValue
  simp only [areg_setAreg, setAreg_d]
  by_cases h1 : x.toNat / 2 ^ 15 % 2 = 1
  · have h2 : regField x 12 ≠ 7 := fun h2 => h ⟨h1, h2⟩
    rw [if_neg h2]
  · rw [if_neg h1, if_neg h1]

/-- JSR with an effective address that does not depend on the stack pointer. -/
theorem C21_jsr_address {a : U32} (h : Ready s op s1) (hi : instr op = .Jsr) (hd : fetchEa none op s1 = .ok md s2)
    (hmode : regField op 3 ≠ 3 ∧ regField op 3 ≠ 4) (hsp : usesSp md = false)
    (ha : (place .Long s2.cpu.regs md).1 = .mem a) (hc : Completes C s s') : Called s s' s2.cpu.regs.pc a := by
  refine C21_jsr h hi hd hmode ?_ hc
  rw [← ha]
  have hf := fetchMode_field hd
  have h3 := fin8_ne hmode.1
  have h4 := fin8_ne hmode.2
  cases md with
  | postinc n => exact absurd hf.symm h3
  | predec n => exact absurd hf.symm h4
  | ind n => simp only [place, areg_setAreg]; rw [if_neg (by simpa [usesSp] using hsp)]
  | disp n d => simp only [place, areg_setAreg]; rw [if_neg (by simpa [usesSp] using hsp)]
  | index n x =>
    simp only [usesSp, decide_eq_false_iff_not, not_or] at hsp
    simp only [place, areg_setAreg]
    rw [if_neg hsp.1, indexValue_setSp _ hsp.2]
  | pcIndex p x =>
    simp only [usesSp, decide_eq_false_iff_not] at hsp
    simp only [place]
    rw [indexValue_setSp _ hsp]
  | dn n => rfl
  | an n => cases ha
  | absW x => rfl
  | absL x => rfl
  | pcDisp p d => rfl
  | imm v => rfl

/-- The 68000 computes the address before the push. The code does not: `JSR (A7)` with A7 = $40 continues at $3C. -/
theorem C21_jsr_stackPointer : ∃ s s1 s2 s' : St WordSlice, Ready s 0x4E97 s1 ∧ instr 0x4E97 = .Jsr ∧ fetchEa none 0x4E97 s1 = .ok (.ind 7) s2 ∧
    areg s.cpu.regs 7 = 0x40 ∧ Completes mc68000 s s' ∧ s'.cpu.regs.pc = 0x3C :=
  ⟨Demo.ram [0x4E97] 32 (Demo.regs [] [0, 0, 0, 0, 0, 0, 0, 0x40]), _, _, _, ⟨rfl, rfl, by decide, _, rfl, rfl⟩, rfl, rfl, rfl, ⟨_, rfl⟩, rfl⟩

/-- On a writable stack calls complete. -/
theorem C21_call_completes [Writable M] (h : Ready s op s1)
    (hcall : (instr op = .Bsr ∧ ∃ d, fetchDisp op s1 = .ok d s2) ∨
      (instr op = .Jsr ∧ regField op 3 ≠ 3 ∧ regField op 3 ≠ 4 ∧ ∃ md, fetchEa none op s1 = .ok md s2 ∧ md.isMem = true))
    (he : ¬ Spec.Odd (areg s.cpu.regs 7 - 4)) (hp : Present s.mem (areg s.cpu.regs 7 - 4) 4) : ∃ s', Completes C s s' := by
  have hpush : PcOnly s1 s2 → ∃ t, push .Long s2.cpu.regs.pc s2 = .ok () t := by
    intro hs
    have ha : areg s2.cpu.regs 7 = areg s.cpu.regs 7 := by rw [hs.regs, h.regs]; rfl
    exact push_present (sz := .Long) (by rw [ha]; exact even_word he) (by rw [ha, hs.mem, h.ram]; exact hp)
  rcases hcall with ⟨hi, d, hd⟩ | ⟨hi, h3, h4, md, hd, hmem⟩
  · have hx := step_ends C h hi (by decide) rfl
    simp only [Spec.exec] at hx
    rw [getR_bind_apply, endsWith_bind_ok hd, endsWith_cost] at hx
    have hs : PcOnly s1 s2 := by
      unfold fetchDisp at hd
      split at hd
      · exact fetch_pcOnly hd
      · cases hd; exact .refl _
    obtain ⟨t, ht⟩ := hpush hs
    unfold bsr at hx
    rw [getR_bind_apply, endsWith_bind_ok ht] at hx
    exact ⟨_, hx⟩
  · have hx := step_ends C h hi (by decide) rfl
    simp only [Spec.exec] at hx
    rw [endsWith_bind_ok hd, endsWith_cost] at hx
    obtain ⟨t, ht⟩ := hpush (fetchEa_pcOnly hd)
    unfold jsr at hx
    rw [getR_bind_apply, endsWith_bind_ok ht] at hx
    have hf := fetchMode_field hd
    have hpl : ∃ a, (place .Long t.cpu.regs md).1 = .mem a := by
      cases md <;> first | (cases hmem; done) | exact ⟨_, rfl⟩
    obtain ⟨a, ha⟩ := hpl
    rw [endsWith_bind_ok (control_of (by rw [hf]; exact fin8_ne h3) (by rw [hf]; exact fin8_ne h4) ha)] at hx
    exact ⟨_, hx⟩

theorem setAreg_withPc (r : Registers) (n : Fin 8) (v p q : U32) :
    { setAreg { r with pc := p } n v with pc := q } = { setAreg r n v with pc := q } := by
  unfold setAreg
  split
  · rfl
  · dsimp only
    split <;> rfl

/-- RTS: continues at the long word on the stack, which is popped. -/
theorem C21_rts {a : U32} (h : Ready t op t1) (hi : instr op = .Rts) (he : ¬ Spec.Odd (areg t.cpu.regs 7))
    (hv : Holds (sz := .Long) t.mem (areg t.cpu.regs 7) a) :
    ∃ t', Completes C t t' ∧ t'.mem = t.mem ∧ t'.cpu.regs = { setAreg t.cpu.regs 7 (areg t.cpu.regs 7 + 4) with pc := a } := by
  have hx := step_ends C h hi (by decide) rfl
  simp only [Spec.exec] at hx
  rw [endsWith_cost] at hx
  unfold rts at hx
  have ha : areg t1.cpu.regs 7 = areg t.cpu.regs 7 := by rw [h.regs]; rfl
  have hp := pop_holds (sz := .Long) (v := a) (s := t1) (by rw [ha]; exact even_word he) (by rw [ha, h.ram]; exact hv)
  rw [endsWith_bind_ok hp] at hx
  refine ⟨_, hx, h.ram, ?_⟩
  show { setAreg t1.cpu.regs 7 (areg t1.cpu.regs 7 + 4) with pc := a } = _
  rw [ha, h.regs]
  exact setAreg_withPc _ _ _ _ _

/-- After any code that leaves the stack pointer and the return address as the call made them, RTS completes and the program continues after
the call with the stack pointer of before it. -/
theorem C21_return {ret target : U32} (hcall : Called s s' ret target) (h : Ready t op t1) (hi : instr op = .Rts)
    (hsp : areg t.cpu.regs 7 = areg s'.cpu.regs 7)
    (hk : ∀ k < 4, Ram.peek t.mem (at_ (areg s'.cpu.regs 7) k) = Ram.peek s'.mem (at_ (areg s'.cpu.regs 7) k)) :
    ∃ t', Completes C t t' ∧ t'.mem = t.mem ∧ t'.cpu.regs.pc = ret ∧ areg t'.cpu.regs 7 = areg s.cpu.regs 7 ∧
      (∀ i, i ≠ 7 → areg t'.cpu.regs i = areg t.cpu.regs i) ∧ t'.cpu.regs.d = t.cpu.regs.d ∧ t'.cpu.regs.sr = t.cpu.regs.sr := by
  rw [hcall.sp] at hsp hk
  obtain ⟨t', h1, h2, h3⟩ := C21_rts (C := C) (a := ret) h hi (by rw [hsp]; exact hcall.even) (by rw [hsp]; exact hcall.pushed.of_eq hk)
  refine ⟨t', h1, h2, by rw [h3], ?_, ?_, ?_, ?_⟩
  · rw [h3]
    show areg (setAreg t.cpu.regs 7 (areg t.cpu.regs 7 + 4)) 7 = _
    rw [areg_setAreg, if_pos rfl, hsp, BitVec.sub_add_cancel]
  · intro i hi
    rw [h3]
    show areg (setAreg t.cpu.regs 7 (areg t.cpu.regs 7 + 4)) i = _
    rw [areg_setAreg, if_neg hi]
  · rw [h3]; exact setAreg_d _ _ _
  · rw [h3]; exact setAreg_sr _ _ _

end

/-- `BSR *+6` with the stack pointer $40, and `RTS` there. -/
example : ∃ s1 s2 s', Ready (Demo.ram [0x6104, 0x4E71, 0x4E71, 0x4E75] 32 (Demo.regs [] [0, 0, 0, 0, 0, 0, 0, 0x40])) 0x6104 s1 ∧ instr 0x6104 = .Bsr ∧
    fetchDisp 0x6104 s1 = .ok 4 s2 ∧ Completes mc68000 (Demo.ram [0x6104, 0x4E71, 0x4E71, 0x4E75] 32 (Demo.regs [] [0, 0, 0, 0, 0, 0, 0, 0x40])) s' ∧
    ∃ t1 t', Ready s' 0x4E75 t1 ∧ instr 0x4E75 = .Rts ∧ Completes mc68000 s' t' ∧ t'.cpu.regs.pc = 2 ∧ areg t'.cpu.regs 7 = 0x40 :=
  ⟨_, _, _, ⟨rfl, rfl, by decide, _, rfl, rfl⟩, rfl, rfl, ⟨_, rfl⟩, _, _, ⟨rfl, rfl, by decide, _, rfl, rfl⟩, rfl, ⟨_, rfl⟩, rfl, rfl⟩
/-- `JSR $10.L`. -/
example : ∃ s1 s2 s', Ready (Demo.ram [0x4EB9, 0, 0x10] 32 (Demo.regs [] [0, 0, 0, 0, 0, 0, 0, 0x40])) 0x4EB9 s1 ∧ instr 0x4EB9 = .Jsr ∧
    fetchEa none 0x4EB9 s1 = .ok (.absL 0x10) s2 ∧ regField 0x4EB9 3 ≠ 3 ∧ regField 0x4EB9 3 ≠ 4 ∧
    Completes mc68000 (Demo.ram [0x4EB9, 0, 0x10] 32 (Demo.regs [] [0, 0, 0, 0, 0, 0, 0, 0x40])) s' ∧ s'.cpu.regs.pc = 0x10 :=
  ⟨_, _, _, ⟨rfl, rfl, by decide, _, rfl, rfl⟩, rfl, rfl, by decide, by decide, ⟨_, rfl⟩, rfl⟩

end M68k.Props
