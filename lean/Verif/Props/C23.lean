import Verif.Lemmas.EndsControl
import Verif.Spec.Program
import Verif.Props.Demo
/-
C23: DBcc, and the number of turns of a loop closed by DBF.
-/
namespace M68k.Props
open Spec Exec
variable {M : Type} [MemoryAccess M] {C : CpuDetails} {s s' s1 s2 : St M} {op w : U16}

theorem ends_dbcc {d : U16} {f : DbccRes → Nat} {pc : U32} {cc : Fin 16} {n : Fin 8}
    (hx : EndsWith C s (((f <$> dbcc pc cc n d : Exec M Nat)) s2)) :
    Completes C s (if holds cc s2.cpu.regs.sr then s2
      else if (low .Word (s2.cpu.regs.d n)).toNat = 0 then
        s2.withRegs fun r => setDreg r n (insertLow .Word (r.d n) (low .Word (r.d n) - 1))
      else s2.withRegs fun r => { setDreg r n (insertLow .Word (r.d n) (low .Word (r.d n) - 1)) with pc := pc + signExt d }) := by
  rw [endsWith_map] at hx
  unfold Spec.dbcc Spec.test at hx
  rw [getR_bind_apply] at hx
  by_cases hc : holds cc s2.cpu.regs.sr = true
  · simp only [hc, if_true] at hx ⊢
    exact hx
  · simp only [hc, Bool.false_eq_true, if_false] at hx ⊢
    rw [getR_bind_apply, modR_bind_apply] at hx
    by_cases hz : (low .Word (s2.cpu.regs.d n)).toNat = 0
    · rw [if_pos hz] at hx ⊢; exact hx
    · rw [if_neg hz] at hx ⊢; exact hx

/-- A true condition ends the loop: nothing changes, execution continues after the instruction. -/
theorem C23_condition (h : Ready s op s1) (hi : instr op = .Dbcc) (hw : fetch s1 = .ok w s2)
    (hc : holds (ccField op) s.cpu.regs.sr = true) : Completes C s s2 ∧ s2.cpu.regs = { s.cpu.regs with pc := s.cpu.regs.pc + 4 } := by
  have hx := step_ends C h hi (by decide) rfl
  simp only [Spec.exec] at hx
  rw [getR_bind_apply, endsWith_bind_ok hw] at hx
  have := ends_dbcc hx
  have hr : s2.cpu.regs = { s.cpu.regs with pc := s.cpu.regs.pc + 4 } := by
    rw [fetch_regs hw, h.regs]; simp only [BitVec.add_assoc]; rfl
  rw [if_pos (by rw [hr]; exact hc)] at this
  exact ⟨this, hr⟩

/-- A false condition with a counter word that is not zero: the counter word is decremented, its upper half
is unchanged, and execution continues at the target. -/
theorem C23_branch (h : Ready s op s1) (hi : instr op = .Dbcc) (hw : fetch s1 = .ok w s2)
    (hc : holds (ccField op) s.cpu.regs.sr = false) (hk : (s.cpu.regs.d (regField op 0)).toNat % 65536 ≠ 0) :
    Completes C s (s2.withRegs fun r =>
      { setDreg r (regField op 0) (s.cpu.regs.d (regField op 0) - 1) with pc := s.cpu.regs.pc + 2 + signExt w }) := by
  have hx := step_ends C h hi (by decide) rfl
  simp only [Spec.exec] at hx
  rw [getR_bind_apply, endsWith_bind_ok hw] at hx
  have := ends_dbcc hx
  have hr : s2.cpu.regs = { s.cpu.regs with pc := s.cpu.regs.pc + 4 } := by
    rw [fetch_regs hw, h.regs]; simp only [BitVec.add_assoc]; rfl
  rw [if_neg (by rw [hr]; simp [hc]), if_neg (by rw [hr]; unfold low; rw [BitVec.toNat_ofNat]; exact hk), h.pc] at this
  unfold St.withRegs at this ⊢
  rw [hr] at this ⊢
  have hv : insertLow .Word (s.cpu.regs.d (regField op 0)) (low .Word (s.cpu.regs.d (regField op 0)) - 1) = s.cpu.regs.d (regField op 0) - 1 := by
    generalize s.cpu.regs.d (regField op 0) = x at *
    apply BitVec.eq_of_toNat_eq
    unfold insertLow low
    simp only [BitVec.toNat_ofNat, BitVec.toNat_sub, Nat.reducePow, BitVec.ofNat_eq_ofNat, show (2 ^ width .Word) = 65536 from rfl]
    have := x.isLt
    omega
  simp only [hv] at this
  exact this

/-- A false condition with a counter word 0: the counter word becomes 0xFFFF, its upper half is unchanged, and
execution continues after the instruction. -/
theorem C23_expired (h : Ready s op s1) (hi : instr op = .Dbcc) (hw : fetch s1 = .ok w s2)
    (hc : holds (ccField op) s.cpu.regs.sr = false) (hk : (s.cpu.regs.d (regField op 0)).toNat % 65536 = 0) :
    Completes C s (s2.withRegs fun r => setDreg r (regField op 0) (s.cpu.regs.d (regField op 0) + 0xFFFF)) ∧
    s2.cpu.regs = { s.cpu.regs with pc := s.cpu.regs.pc + 4 } := by
  have hx := step_ends C h hi (by decide) rfl
  simp only [Spec.exec] at hx
  rw [getR_bind_apply, endsWith_bind_ok hw] at hx
  have := ends_dbcc hx
  have hr : s2.cpu.regs = { s.cpu.regs with pc := s.cpu.regs.pc + 4 } := by
    rw [fetch_regs hw, h.regs]; simp only [BitVec.add_assoc]; rfl
  rw [if_neg (by rw [hr]; simp [hc]), if_pos (by rw [hr]; unfold low; rw [BitVec.toNat_ofNat]; exact hk)] at this
  refine ⟨?_, hr⟩
  unfold St.withRegs at this ⊢
  rw [hr] at this ⊢
  have hv : insertLow .Word (s.cpu.regs.d (regField op 0)) (low .Word (s.cpu.regs.d (regField op 0)) - 1) = s.cpu.regs.d (regField op 0) + 0xFFFF := by
    generalize s.cpu.regs.d (regField op 0) = x at *
    apply BitVec.eq_of_toNat_eq
    unfold insertLow low
    simp only [BitVec.toNat_ofNat, BitVec.toNat_sub, BitVec.toNat_add, Nat.reducePow, BitVec.ofNat_eq_ofNat, show (2 ^ width .Word) = 65536 from rfl]
    have := x.isLt
    omega
  simp only [hv] at this
  exact this

/-- `DBF Dn,*` closes on itself at address `a`: the memory holds the opcode 0x51C8 + n at `a` and the displacement
-2 after it. Reading it has no side effect. -/
structure LoopAt (m : M) (a : U32) (n : Fin 8) : Prop where
  even : ¬ Spec.Odd a
  opcode : MemoryAccess.getWord a m = .val (BitVec.ofNat 16 (0x51C8 + n.val)) m
  disp : MemoryAccess.getWord (a + 2) m = .val 0xFFFE m

theorem loop_ready {a : U32} {n : Fin 8} (hl : LoopAt s.mem a n) (hpc : s.cpu.regs.pc = a) (hr : s.cpu.stop = false) (he : s.cpu.exceptions = []) :
    ∃ s1 s2, Ready s (BitVec.ofNat 16 (0x51C8 + n.val)) s1 ∧ fetch s1 = .ok 0xFFFE s2 ∧
      s2 = { s with cpu := { s.cpu with currentOpcode := BitVec.ofNat 16 (0x51C8 + n.val), regs := { s.cpu.regs with pc := a + 4 } } } := by
  refine ⟨_, _, ⟨hr, he, by rw [hpc]; exact hl.even, _, by rw [hpc]; exact hl.opcode, rfl⟩, ?_, rfl⟩
  unfold fetch
  have he2 : ¬ Spec.Odd (s.cpu.regs.pc + 2) := by
    have := hl.even
    unfold Spec.Odd at *
    rw [hpc, BitVec.toNat_add]
    simp only [BitVec.ofNat_eq_ofNat, BitVec.reduceToNat]
    omega
  simp only
  rw [if_neg he2, hpc, hl.disp]
  simp only [BitVec.add_assoc]; rfl

theorem dbf_op (n : Fin 8) : instr (BitVec.ofNat 16 (0x51C8 + n.val)) = .Dbcc ∧ ccField (BitVec.ofNat 16 (0x51C8 + n.val)) = 1 ∧
    regField (BitVec.ofNat 16 (0x51C8 + n.val)) 0 = n := by revert n; decide

/-- One turn: the counter word is not 0. -/
theorem dbf_turn {a : U32} {n : Fin 8} (hl : LoopAt s.mem a n) (hpc : s.cpu.regs.pc = a) (hr : s.cpu.stop = false) (he : s.cpu.exceptions = [])
    (hk : (s.cpu.regs.d n).toNat % 65536 ≠ 0) :
    Completes C s { s with cpu := { s.cpu with currentOpcode := BitVec.ofNat 16 (0x51C8 + n.val), regs := setDreg s.cpu.regs n (s.cpu.regs.d n - 1) } } := by
  obtain ⟨s1, s2, h, hw, h2⟩ := loop_ready hl hpc hr he
  obtain ⟨hi, hcc, hreg⟩ := dbf_op n
  have := C23_branch (C := C) h hi hw (by rw [hcc]; rfl) (by rw [hreg]; exact hk)
  rw [hreg, h2] at this
  unfold St.withRegs setDreg at this
  unfold setDreg
  simp only at this
  rw [show s.cpu.regs.pc + 2 + signExt (0xFFFE : U16) = s.cpu.regs.pc by
    rw [show signExt (0xFFFE : U16) = (0xFFFFFFFE : U32) by decide, BitVec.add_assoc]; exact BitVec.add_zero _] at this
  exact this

/-- The counter and the program counter after `k` turns of the loop. -/
theorem C23_turns {a : U32} {n : Fin 8} (hl : LoopAt s.mem a n) (hpc : s.cpu.regs.pc = a) (hr : s.cpu.stop = false) (he : s.cpu.exceptions = [])
    (k : Nat) (hk : k ≤ (s.cpu.regs.d n).toNat % 65536) :
    ∃ s', Steps C k s s' ∧ s'.mem = s.mem ∧ s'.cpu = { s.cpu with currentOpcode := s'.cpu.currentOpcode, regs := setDreg s.cpu.regs n (s.cpu.regs.d n - BitVec.ofNat 32 k) } := by
  induction k with
  | zero =>
    refine ⟨s, .none s, rfl, ?_⟩
    have : setDreg s.cpu.regs n (s.cpu.regs.d n - BitVec.ofNat 32 0) = s.cpu.regs := by
      unfold setDreg
      have : (fun i => if i = n then s.cpu.regs.d n - BitVec.ofNat 32 0 else s.cpu.regs.d i) = s.cpu.regs.d := by
        funext i
        split
        · next h => rw [h]; exact BitVec.sub_zero _
        · rfl
      rw [this]
    rw [this]
  | succ k ih =>
    obtain ⟨s', hs, hm, hcpu⟩ := ih (by omega)
    have hd : (s'.cpu.regs.d n) = s.cpu.regs.d n - BitVec.ofNat 32 k := by rw [hcpu]; simp [setDreg]
    have ht : Completes C s' _ := dbf_turn (C := C) (a := a) (n := n) (by rw [hm]; exact hl) (by rw [hcpu]; exact hpc) (by rw [hcpu]; exact hr)
      (by rw [hcpu]; exact he) (by
        rw [hd, BitVec.toNat_sub, BitVec.toNat_ofNat]
        have := (s.cpu.regs.d n).isLt
        omega)
    refine ⟨_, .more hs ht, hm, ?_⟩
    rw [hd]
    simp only
    have : setDreg s'.cpu.regs n (s.cpu.regs.d n - BitVec.ofNat 32 k - 1) = setDreg s.cpu.regs n (s.cpu.regs.d n - BitVec.ofNat 32 (k + 1)) := by
      rw [hcpu]
      unfold setDreg
      simp only
      congr 1
      funext i
      split
      · apply BitVec.eq_of_toNat_eq
        simp only [BitVec.toNat_sub, BitVec.toNat_ofNat, BitVec.ofNat_eq_ofNat]
        have := (s.cpu.regs.d n).isLt
        omega
      · rfl
    rw [this, hcpu]

/-- `DBF Dn,*` with the counter word `k` in Dn: it branches `k` times to itself, then falls through with the counter
word 0xFFFF and the upper half of Dn unchanged. Nothing else changes. -/
theorem C23_loop {a : U32} {n : Fin 8} (hl : LoopAt s.mem a n) (hpc : s.cpu.regs.pc = a) (hr : s.cpu.stop = false) (he : s.cpu.exceptions = []) :
    (∀ k ≤ (s.cpu.regs.d n).toNat % 65536, ∃ s', Steps C k s s' ∧ s'.cpu.regs.pc = a ∧
      (s'.cpu.regs.d n).toNat % 65536 = (s.cpu.regs.d n).toNat % 65536 - k) ∧
    ∃ s', Steps C ((s.cpu.regs.d n).toNat % 65536 + 1) s s' ∧ s'.mem = s.mem ∧
      s'.cpu = { s.cpu with currentOpcode := BitVec.ofNat 16 (0x51C8 + n.val), regs := { s.cpu.regs with
        pc := a + 4, d := fun i => if i = n then BitVec.ofNat 32 ((s.cpu.regs.d n).toNat / 65536 * 65536 + 0xFFFF) else s.cpu.regs.d i } } := by
  constructor
  · intro k hk
    obtain ⟨s', hs, hm, hcpu⟩ := C23_turns (C := C) hl hpc hr he k hk
    refine ⟨s', hs, by rw [hcpu]; exact hpc, ?_⟩
    rw [hcpu]
    simp only [setDreg, if_true, BitVec.toNat_sub, BitVec.toNat_ofNat]
    have := (s.cpu.regs.d n).isLt
    omega
  · obtain ⟨s', hs, hm, hcpu⟩ := C23_turns (C := C) hl hpc hr he _ (Nat.le_refl _)
    obtain ⟨s1, s2, h, hw, h2⟩ := loop_ready (s := s') (a := a) (n := n) (by rw [hm]; exact hl) (by rw [hcpu]; exact hpc) (by rw [hcpu]; exact hr) (by rw [hcpu]; exact he)
    obtain ⟨hi, hcc, hreg⟩ := dbf_op n
    have hd : (s'.cpu.regs.d n) = s.cpu.regs.d n - BitVec.ofNat 32 ((s.cpu.regs.d n).toNat % 65536) := by rw [hcpu]; simp [setDreg]
    have := (C23_expired (C := C) h hi hw (by rw [hcc]; rfl) (by
      rw [hreg, hd, BitVec.toNat_sub, BitVec.toNat_ofNat]
      have := (s.cpu.regs.d n).isLt
      omega)).1
    refine ⟨_, .more hs this, ?_, ?_⟩
    · rw [h2]; exact hm
    · have hv : s.cpu.regs.d n - BitVec.ofNat 32 ((s.cpu.regs.d n).toNat % 65536) + 0xFFFF =
          BitVec.ofNat 32 ((s.cpu.regs.d n).toNat / 65536 * 65536 + 0xFFFF) := by
        generalize s.cpu.regs.d n = x
        apply BitVec.eq_of_toNat_eq
        rw [BitVec.toNat_add, BitVec.toNat_sub, BitVec.toNat_ofNat, BitVec.toNat_ofNat]
        simp only [BitVec.ofNat_eq_ofNat, BitVec.reduceToNat]
        have := x.isLt
        omega
      rw [hreg, hd, h2, hv]
      unfold St.withRegs
      simp only
      rw [hcpu]
      unfold setDreg
      simp only
      have hf : ∀ (v w : U32), (fun i => if i = n then w else if i = n then v else s.cpu.regs.d i) = fun i => if i = n then w else s.cpu.regs.d i := by
        intro v w; funext i; by_cases hin : i = n
        · rw [if_pos hin, if_pos hin]
        · rw [if_neg hin, if_neg hin, if_neg hin]
      rw [hf]

/-- `DBF D3,*` at address 0. -/
example : LoopAt (M := WordSlice) ⟨[0x51CB, 0xFFFE]⟩ 0 3 := ⟨by decide, rfl, rfl⟩

/-- `DBEQ D0,*` with Z set, and DBF with the counter words 2 and 0. -/
example : (∃ (s s1 s2 : St WordSlice), Ready s 0x57C8 s1 ∧ instr 0x57C8 = .Dbcc ∧ fetch s1 = .ok 0xFFFE s2 ∧ holds (ccField 0x57C8) s.cpu.regs.sr = true) ∧
    (∃ s1 s2, Ready (Demo.st [0x51C9, 0xFFFE] (Demo.regs [0, 0x70002] [])) 0x51C9 s1 ∧ instr 0x51C9 = .Dbcc ∧ fetch s1 = .ok 0xFFFE s2 ∧
      holds (ccField 0x51C9) s1.cpu.regs.sr = false ∧ (s1.cpu.regs.d (regField 0x51C9 0)).toNat % 65536 ≠ 0) ∧
    ∃ s1 s2, Ready (Demo.st [0x51C9, 0xFFFE] (Demo.regs [0, 0x70000] [])) 0x51C9 s1 ∧ instr 0x51C9 = .Dbcc ∧ fetch s1 = .ok 0xFFFE s2 ∧
      holds (ccField 0x51C9) s1.cpu.regs.sr = false ∧ (s1.cpu.regs.d (regField 0x51C9 0)).toNat % 65536 = 0 :=
  ⟨⟨Demo.st [0x57C8, 0xFFFE] { Demo.regs [] [] with sr := srOf 4 }, _, _, ⟨rfl, rfl, by decide, _, rfl, rfl⟩, rfl, rfl, rfl⟩,
   ⟨_, _, ⟨rfl, rfl, by decide, _, rfl, rfl⟩, rfl, rfl, rfl, by decide⟩,
   _, _, ⟨rfl, rfl, by decide, _, rfl, rfl⟩, rfl, rfl, rfl, rfl⟩

end M68k.Props
