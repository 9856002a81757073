import Verif.Lemmas.Stack
import Verif.Props.DemoRam
/-
C20: LINK and UNLK.
-/
namespace M68k.Props
open Spec Exec
set_option linter.unusedSectionVars false
variable {M : Type} [MemoryAccess M] [Ram M] {C : CpuDetails} {s s' s1 s2 t t' t1 : St M} {op op' : U16} {d : U16} {n : Fin 8}

theorem ends_link (h : Ready s op s1) (hi : instr op = .Link) (hn : regField op 0 = n) (hd : fetch s1 = .ok d s2) :
    EndsWith C s (link n d s2) := by
  have hx := step_ends C h hi (by decide) rfl
  simp only [Spec.exec] at hx
  rw [endsWith_bind_ok hd, endsWith_cost, hn] at hx
  exact hx

theorem link_done (hl : link n d s2 = .ok () s') :
    s' = { s2.withRegs (fun r => setAreg (setAreg (setAreg r 7 (areg r 7 - 4)) n (areg r 7 - 4)) 7 (areg r 7 - 4 + signExt d)) with mem := s'.mem } ∧
    Holds (sz := .Long) s'.mem (areg s2.cpu.regs 7 - 4) (areg s2.cpu.regs n) ∧ SameExcept s2.mem s'.mem (areg s2.cpu.regs 7 - 4) 4 := by
  unfold link at hl
  rw [getR_bind_apply] at hl
  obtain ⟨_, t, hp, hl⟩ := bind_ok hl
  obtain ⟨-, h1, h2, h3⟩ := push_done hp
  rw [h1, modR_bind_apply] at hl
  cases hl
  refine ⟨?_, h2, h3⟩
  have e : Spec.step 7 .Long = 4 := rfl
  rw [e]
  simp only [St.withRegs, areg_setAreg, if_true]
  have : (if (7 : Fin 8) = n then areg s2.cpu.regs 7 - 4 else areg s2.cpu.regs 7 - 4) = areg s2.cpu.regs 7 - 4 := by split <;> rfl
  rw [this]

/-- LINK An,#d: pushes An, copies the decremented stack pointer to An, adds the displacement to the stack pointer. Nothing else changes,
except the program counter. -/
theorem C20_link (h : Ready s op s1) (hi : instr op = .Link) (hn : regField op 0 = n) (hd : fetch s1 = .ok d s2) (hc : Completes C s s') :
    Holds (sz := .Long) s'.mem (areg s.cpu.regs 7 - 4) (areg s.cpu.regs n) ∧ SameExcept s.mem s'.mem (areg s.cpu.regs 7 - 4) 4 ∧
    areg s'.cpu.regs 7 = areg s.cpu.regs 7 - 4 + signExt d ∧
    (∀ i, i ≠ 7 → areg s'.cpu.regs i = if i = n then areg s.cpu.regs 7 - 4 else areg s.cpu.regs i) ∧
    s'.cpu.regs.d = s.cpu.regs.d ∧ s'.cpu.regs.sr = s.cpu.regs.sr ∧ s'.cpu.regs.pc = s.cpu.regs.pc + 4 := by
  have hm : s2.mem = s.mem := by rw [fetch_ram hd]; exact h.ram
  have hr : s2.cpu.regs = { s.cpu.regs with pc := s.cpu.regs.pc + 4 } := by
    rw [fetch_regs hd, h.regs]
    congr 1
    rw [BitVec.add_assoc]
    rfl
  have ha : ∀ i, areg s2.cpu.regs i = areg s.cpu.regs i := by intro i; rw [hr]; rfl
  rcases endsWith_completes (ends_link (C := C) h hi hn hd) hc with ⟨_, hl⟩ | ⟨e, hl, ht⟩
  · obtain ⟨h1, h2, h3⟩ := link_done hl
    rw [ha, ha] at h2
    rw [ha, hm] at h3
    refine ⟨h2, h3, ?_, ?_, ?_, ?_, ?_⟩
    · rw [h1]; simp only [St.withRegs, areg_setAreg, if_true, ha]
    · intro i hi
      rw [h1]; simp only [St.withRegs, areg_setAreg, if_neg hi, ha]
    · rw [h1]; simp only [St.withRegs, setAreg_d]; rw [hr]
    · rw [h1]; simp only [St.withRegs, setAreg_sr]; rw [hr]
    · rw [h1]; simp only [St.withRegs, setAreg_pc]; rw [hr]
  · unfold link at hl
    rw [getR_bind_apply] at hl
    rcases bind_err hl with hl | ⟨_, t, hp, hl⟩
    · exact absurd ht (traced_ne (push_err hl))
    · cases hl

/-- LINK completes when the stack is writable and even. -/
theorem C20_link_completes [Writable M] (h : Ready s op s1) (hi : instr op = .Link) (hd : fetch s1 = .ok d s2)
    (he : ¬ Spec.Odd (areg s.cpu.regs 7 - 4)) (hp : Present s.mem (areg s.cpu.regs 7 - 4) 4) : ∃ s', Completes C s s' := by
  have hx := ends_link (C := C) h hi rfl hd
  have ha : areg s2.cpu.regs 7 = areg s.cpu.regs 7 := by rw [fetch_regs hd, h.regs]; rfl
  have hm : s2.mem = s.mem := by rw [fetch_ram hd]; exact h.ram
  unfold link at hx
  rw [getR_bind_apply] at hx
  obtain ⟨t, hp⟩ := push_present (sz := .Long) (s := s2) (v := areg s2.cpu.regs (regField op 0)) (by rw [ha]; exact even_word he)
    (by rw [ha, hm]; exact hp)
  rw [endsWith_bind_ok hp] at hx
  exact ⟨_, hx⟩

theorem ends_unlk (h : Ready t op t1) (hi : instr op = .Unlk) (hn : regField op 0 = n) : EndsWith C t (unlk n t1) := by
  have hx := step_ends C h hi (by decide) rfl
  simp only [Spec.exec] at hx
  rw [endsWith_cost, hn] at hx
  exact hx

/-- UNLK An on a readable frame: loads the stack pointer from An, then pops An. -/
theorem C20_unlk {v : U32} (h : Ready t op t1) (hi : instr op = .Unlk) (hn : regField op 0 = n)
    (he : ¬ Spec.Odd (areg t.cpu.regs n)) (hv : Holds (sz := .Long) t.mem (areg t.cpu.regs n) v) :
    ∃ t', Completes C t t' ∧ t'.mem = t.mem ∧ (n ≠ 7 → areg t'.cpu.regs 7 = areg t.cpu.regs n + 4) ∧
      (∀ i, i ≠ 7 ∨ n = 7 → areg t'.cpu.regs i = if i = n then v else areg t.cpu.regs i) ∧
      t'.cpu.regs.d = t.cpu.regs.d ∧ t'.cpu.regs.sr = t.cpu.regs.sr ∧ t'.cpu.regs.pc = t.cpu.regs.pc + 2 := by
  have hx := ends_unlk (C := C) h hi hn
  have ha : ∀ i, areg t1.cpu.regs i = areg t.cpu.regs i := by intro i; rw [h.regs]; rfl
  unfold unlk at hx
  rw [modR_bind_apply] at hx
  have h7 : areg (t1.withRegs fun r => setAreg r 7 (areg r n)).cpu.regs 7 = areg t.cpu.regs n := by
    simp only [St.withRegs, areg_setAreg, if_true, ha]
  have hp := pop_holds (sz := .Long) (v := v) (s := t1.withRegs fun r => setAreg r 7 (areg r n))
    (by rw [h7]; exact even_word he) (by rw [h7]; show Holds (sz := .Long) t1.mem _ v; rw [h.ram]; exact hv)
  rw [endsWith_bind_ok hp] at hx
  refine ⟨_, hx, h.ram, ?_, ?_, ?_, ?_, ?_⟩
  · intro hn
    simp only [St.withRegs, areg_setAreg, if_true, ha, if_neg (Ne.symm hn)]
    rfl
  · intro i hi
    simp only [St.withRegs, areg_setAreg, ha]
    rcases hi with hi | rfl
    · simp [hi]
    · by_cases h : i = 7 <;> simp [h]
  · simp only [St.withRegs, setAreg_d]; rw [h.regs]
  · simp only [St.withRegs, setAreg_sr]; rw [h.regs]
  · simp only [St.withRegs, setAreg_pc]; rw [h.regs]

/-- LINK An … UNLK An: in whatever state `t` UNLK is executed, if An and the saved value in memory are as LINK left them, UNLK completes and
the stack pointer and An are those of before LINK. `t` may have another stack pointer. -/
theorem C20_linkUnlk (h : Ready s op s1) (hi : instr op = .Link) (hn : regField op 0 = n) (h7 : n ≠ 7) (hd : fetch s1 = .ok d s2)
    (hc : Completes C s s')
    (ht : Ready t op' t1) (hi' : instr op' = .Unlk) (hn' : regField op' 0 = n) (ha : areg t.cpu.regs n = areg s'.cpu.regs n)
    (hk : ∀ k < 4, Ram.peek t.mem (at_ (areg s'.cpu.regs n) k) = Ram.peek s'.mem (at_ (areg s'.cpu.regs n) k)) :
    ∃ t', Completes C t t' ∧ areg t'.cpu.regs 7 = areg s.cpu.regs 7 ∧ areg t'.cpu.regs n = areg s.cpu.regs n ∧
      ∀ i, i ≠ 7 → i ≠ n → areg t'.cpu.regs i = areg t.cpu.regs i := by
  obtain ⟨h1, -, -, h4, -⟩ := C20_link h hi hn hd hc
  have hf : areg s'.cpu.regs n = areg s.cpu.regs 7 - 4 := by rw [h4 n h7, if_pos rfl]
  have he : ¬ Spec.Odd (areg s.cpu.regs 7 - 4) := by
    rcases endsWith_completes (ends_link (C := C) h hi hn hd) hc with ⟨_, hl⟩ | ⟨e, hl, ht⟩
    · unfold link at hl
      rw [getR_bind_apply] at hl
      obtain ⟨_, t, hp, hl⟩ := bind_ok hl
      have := (push_done hp).1
      have ha : areg s2.cpu.regs 7 = areg s.cpu.regs 7 := by rw [fetch_regs hd, h.regs]; rfl
      rw [ha] at this
      intro ho
      exact this ⟨by decide, ho⟩
    · unfold link at hl
      rw [getR_bind_apply] at hl
      rcases bind_err hl with hl | ⟨_, t, hp, hl⟩
      · exact absurd ht (traced_ne (push_err hl))
      · cases hl
  rw [hf] at ha hk
  obtain ⟨t', hc', -, k1, k2, -⟩ := C20_unlk (C := C) (v := areg s.cpu.regs n) ht hi' hn' (by rw [ha]; exact he)
    (by rw [ha]; exact h1.of_eq hk)
  refine ⟨t', hc', ?_, ?_, ?_⟩
  · rw [k1 h7, ha, BitVec.sub_add_cancel]
  · rw [k2 n (.inl h7), if_pos rfl]
  · intro i hi hin
    rw [k2 i (.inl hi), if_neg hin]

/-- `LINK A6,#-8` with A6 = $1234 and the stack pointer $40: it completes. Then `UNLK A6`. -/
example : ∃ s1 s2 s', Ready (Demo.ram [0x4E56, 0xFFF8, 0x4E5E] 32 (Demo.regs [] [0, 0, 0, 0, 0, 0, 0x1234, 0x40])) 0x4E56 s1 ∧
    instr 0x4E56 = .Link ∧ regField 0x4E56 0 = 6 ∧ fetch s1 = .ok 0xFFF8 s2 ∧
    Completes mc68000 (Demo.ram [0x4E56, 0xFFF8, 0x4E5E] 32 (Demo.regs [] [0, 0, 0, 0, 0, 0, 0x1234, 0x40])) s' ∧
    areg s'.cpu.regs 7 = 0x34 ∧ areg s'.cpu.regs 6 = 0x3C ∧
    ∃ t1 t', Ready s' 0x4E5E t1 ∧ instr 0x4E5E = .Unlk ∧ regField 0x4E5E 0 = 6 ∧ Completes mc68000 s' t' ∧
      areg t'.cpu.regs 7 = 0x40 ∧ areg t'.cpu.regs 6 = 0x1234 :=
  ⟨_, _, _, ⟨rfl, rfl, by decide, _, rfl, rfl⟩, rfl, rfl, rfl, ⟨_, rfl⟩, rfl, rfl,
    _, _, ⟨rfl, rfl, by decide, _, rfl, rfl⟩, rfl, rfl, ⟨_, rfl⟩, rfl, rfl⟩

end M68k.Props
