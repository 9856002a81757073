import Verif.Lemmas.EndsMul
import Verif.Lemmas.Regs
import Verif.Lemmas.EndsShift
import Verif.Props.Demo
/-
C13: EXG, SWAP, EXT, MOVEQ.

The code takes the flags of EXT.W from the 32 bits of the register: `C13_ext_word_partial` has the condition
under which they are those of the extended word, `C13_ext_word_refuted` is a case where they are not.
-/
namespace M68k.Props
open Spec Exec
variable {M : Type} [MemoryAccess M] {C : CpuDetails} {s s1 s2 s3 : St M} {op : U16}

/-- EXG of two data registers (opmode 01000). -/
theorem C13_exg_data (h : Ready s op s1) (hi : instr op = .Exg) (hk : op.toNat / 8 % 32 = 8) :
    Completes C s (s1.withRegs fun g => { g with d := (fun i =>
      if i = regField op 0 then g.d (regField op 9) else if i = regField op 9 then g.d (regField op 0) else g.d i) }) := by
  have hx := step_ends C h hi (by decide) rfl
  simp only [Spec.exec, hk, if_true] at hx
  rw [endsWith_cost] at hx
  exact hx

/-- `EXG D0,D1`. -/
example : ∃ s1, Ready (Demo.st [0xC141] (Demo.regs [1, 2] [])) 0xC141 s1 ∧ instr 0xC141 = .Exg ∧ (0xC141 : U16).toNat / 8 % 32 = 8 :=
  ⟨_, ⟨rfl, rfl, by decide, _, rfl, rfl⟩, rfl, rfl⟩

/-- EXG of two address registers (opmode 01001): each has the value of the other, A7 being the active stack
pointer, and every other address register, the data registers, the status register and the program counter
are as after the fetch. -/
theorem C13_exg_address (h : Ready s op s1) (hi : instr op = .Exg) (hk : op.toNat / 8 % 32 = 9) :
    ∃ g : Registers, Completes C s (s1.withRegs fun _ => g) ∧
      (∀ i, areg g i = if i = regField op 0 then areg s.cpu.regs (regField op 9)
        else if i = regField op 9 then areg s.cpu.regs (regField op 0) else areg s.cpu.regs i) ∧
      g.d = s.cpu.regs.d ∧ g.sr = s.cpu.regs.sr ∧ g.pc = s.cpu.regs.pc + 2 ∧
      (if s.cpu.regs.sr.s then g.usp = s.cpu.regs.usp else g.ssp = s.cpu.regs.ssp) := by
  have hx := step_ends C h hi (by decide) rfl
  simp only [Spec.exec, hk, if_true] at hx
  rw [endsWith_cost] at hx
  refine ⟨_, hx, ?_, ?_, ?_, ?_, ?_⟩
  · intro i
    rw [h.regs, areg_setAreg, areg_setAreg]
    have e : ∀ j, areg { s.cpu.regs with pc := s.cpu.regs.pc + 2 } j = areg s.cpu.regs j := fun _ => rfl
    simp only [e]
    by_cases h1 : i = regField op 9
    · by_cases h2 : i = regField op 0
      · rw [← h1, ← h2]
      · rw [h1] at h2; simp [h1, h2]
    · simp [h1]
  · rw [setAreg_d, setAreg_d, h.regs]
  · rw [setAreg_sr, setAreg_sr, h.regs]
  · rw [setAreg_pc, setAreg_pc, h.regs]
  · rw [h.regs]
    cases hs : s.cpu.regs.sr.s
    · simp only [Bool.false_eq_true, if_false]
      rw [setAreg_ssp _ _ _ (by rw [setAreg_sr]; exact hs), setAreg_ssp _ _ _ (by exact hs)]
    · simp only [if_true]
      rw [setAreg_usp _ _ _ (by rw [setAreg_sr]; exact hs), setAreg_usp _ _ _ (by exact hs)]

/-- `EXG A0,A7`. -/
example : ∃ s1, Ready (Demo.st [0xC14F] (Demo.regs [] [1, 0, 0, 0, 0, 0, 0, 8])) 0xC14F s1 ∧ instr 0xC14F = .Exg ∧ (0xC14F : U16).toNat / 8 % 32 = 9 :=
  ⟨_, ⟨rfl, rfl, by decide, _, rfl, rfl⟩, rfl, rfl⟩

/-- EXG of a data and an address register (opmode 10001). -/
theorem C13_exg_data_address (h : Ready s op s1) (hi : instr op = .Exg) (hk : op.toNat / 8 % 32 = 17) :
    Completes C s (s1.withRegs fun g =>
      setDreg (setAreg g (regField op 0) (s.cpu.regs.d (regField op 9))) (regField op 9) (areg s.cpu.regs (regField op 0))) := by
  have hx := step_ends C h hi (by decide) rfl
  simp only [Spec.exec, hk] at hx
  rw [endsWith_cost] at hx
  have e : areg s1.cpu.regs (regField op 0) = areg s.cpu.regs (regField op 0) := by rw [h.regs]; rfl
  have e2 : s1.cpu.regs.d = s.cpu.regs.d := by rw [h.regs]
  rw [← e, ← e2]
  exact hx

/-- `EXG D0,A7`. -/
example : ∃ s1, Ready (Demo.st [0xC18F] (Demo.regs [] [1, 0, 0, 0, 0, 0, 0, 8])) 0xC18F s1 ∧ instr 0xC18F = .Exg ∧ (0xC18F : U16).toNat / 8 % 32 = 17 :=
  ⟨_, ⟨rfl, rfl, by decide, _, rfl, rfl⟩, rfl, rfl⟩

/-- Executing the same EXG twice restores all registers but the program counter. -/
theorem C13_exg_twice {s1' : St M} (h : Ready s op s1) (hi : instr op = .Exg) (hc : Completes C s s2)
    (h' : Ready s2 op s1') (hc' : Completes C s2 s3) : s3.cpu.regs = { s.cpu.regs with pc := s.cpu.regs.pc + 4 } := by
  have hx := step_ends C h hi (by decide) rfl
  have hx' := step_ends C h' hi (by decide) rfl
  simp only [Spec.exec] at hx hx'
  rw [endsWith_cost, exg_apply] at hx hx'
  generalize (if op.toNat / 8 % 32 = 8 then Direction.ExchangeData else if op.toNat / 8 % 32 = 9 then Direction.ExchangeAddress
      else Direction.ExchangeDataAddress) = k at *
  have e := (completes_unique hx hc).symm
  have e' := (completes_unique hx' hc').symm
  have f : s2.cpu.regs = exgRegs k (regField op 9) (regField op 0) s1.cpu.regs := by rw [e]; rfl
  have f' : s3.cpu.regs = exgRegs k (regField op 9) (regField op 0) s1'.cpu.regs := by rw [e']; rfl
  rw [f', h'.regs, f, h.regs, exgRegs_twice]
  simp only [exgRegs_pc, BitVec.add_assoc]
  rfl

/-- `EXG D0,A1` twice, in supervisor mode. -/
example : ∃ s1 s2 s1' s3, Ready (Demo.st [0xC189, 0xC189] (Demo.regs [5] [0, 6])) 0xC189 s1 ∧ instr 0xC189 = .Exg ∧
    Completes mc68000 (Demo.st [0xC189, 0xC189] (Demo.regs [5] [0, 6])) s2 ∧ Ready s2 0xC189 s1' ∧ Completes mc68000 s2 s3 :=
  ⟨_, _, _, _, ⟨rfl, rfl, by decide, _, rfl, rfl⟩, rfl, ⟨_, rfl⟩, ⟨rfl, rfl, by decide, _, rfl, rfl⟩, ⟨_, rfl⟩⟩

/-- SWAP: the halves of the register are exchanged; the flags are those of the 32 bits. -/
theorem C13_swap (h : Ready s op s1) (hi : instr op = .Swap) :
    ∃ (hi lo : BitVec 16) (sr' : StatusRegister), s.cpu.regs.d (regField op 0) = hi ++ lo ∧ LogicCodes (lo ++ hi) s.cpu.regs.sr sr' ∧
      Completes C s (s1.withRegs fun g => { setDreg g (regField op 0) (lo ++ hi) with sr := sr' }) := by
  have hx := step_ends C h hi (by decide) rfl
  simp only [Spec.exec] at hx
  rw [endsWith_cost] at hx
  have hs := Ready.sameD h
  refine ⟨(s.cpu.regs.d (regField op 0)).extractLsb' 16 16, (s.cpu.regs.d (regField op 0)).extractLsb' 0 16, _, ?_, logicCodes_logicFlags _ _, ?_⟩
  · exact append_halves _
  · rw [← swap_value, ← hs.1, ← hs.2]
    have : s1.cpu.regs.d (regField op 0) = (fun g : Registers => g.d (regField op 0)) s1.cpu.regs := rfl
    unfold Spec.swap at hx
    rw [modR_bind_apply] at hx
    simp only [modR_apply, St.withRegs, setDreg, if_true] at hx
    exact hx

/-- `SWAP D0`. -/
example : ∃ s1, Ready (Demo.st [0x4840] (Demo.regs [0x12345678] [])) 0x4840 s1 ∧ instr 0x4840 = .Swap :=
  ⟨_, ⟨rfl, rfl, by decide, _, rfl, rfl⟩, rfl⟩

/-- Executing the same SWAP twice restores the data registers. -/
theorem C13_swap_twice {s1' : St M} (h : Ready s op s1) (hi : instr op = .Swap) (hc : Completes C s s2)
    (h' : Ready s2 op s1') (hc' : Completes C s2 s3) : s3.cpu.regs.d = s.cpu.regs.d := by
  obtain ⟨a, b, sr, e, -, hx⟩ := C13_swap (C := C) h hi
  obtain ⟨a', b', sr', e', -, hx'⟩ := C13_swap (C := C) h' hi
  have d1 := (Ready.sameD h).1
  have d2 := (Ready.sameD h').1
  have f : s2.cpu.regs.d = fun i => if i = regField op 0 then b ++ a else s.cpu.regs.d i := by
    rw [completes_unique hc hx, ← d1]; rfl
  have f' : s3.cpu.regs.d = fun i => if i = regField op 0 then b' ++ a' else s2.cpu.regs.d i := by
    rw [completes_unique hc' hx', ← d2]; rfl
  rw [f] at e'
  simp only [if_true] at e'
  have ha : a = b' := by
    have := congrArg (BitVec.extractLsb' 0 16) e'
    rwa [BitVec.extractLsb'_append_eq_right, BitVec.extractLsb'_append_eq_right] at this
  have hb : b = a' := by
    have := congrArg (BitVec.extractLsb' 16 16) e'
    rwa [BitVec.extractLsb'_append_eq_left, BitVec.extractLsb'_append_eq_left] at this
  rw [f', f]
  funext i
  by_cases hn : i = regField op 0
  · subst hn
    simp only [if_true]
    rw [e, ha, hb]
  · simp only [hn, if_false]

/-- `SWAP D0` twice. -/
example : ∃ s1 s2 s1' s3, Ready (Demo.st [0x4840, 0x4840] (Demo.regs [0x12345678] [])) 0x4840 s1 ∧ instr 0x4840 = .Swap ∧
    Completes mc68000 (Demo.st [0x4840, 0x4840] (Demo.regs [0x12345678] [])) s2 ∧ s2.cpu.regs.d 0 = 0x56781234 ∧ Ready s2 0x4840 s1' ∧
    Completes mc68000 s2 s3 :=
  ⟨_, _, _, _, ⟨rfl, rfl, by decide, _, rfl, rfl⟩, rfl, ⟨_, rfl⟩, rfl, ⟨rfl, rfl, by decide, _, rfl, rfl⟩, ⟨_, rfl⟩⟩

/-- MOVEQ: the low byte of the opcode, sign extended. -/
theorem C13_moveq (h : Ready s op s1) (hi : instr op = .Moveq) :
    ∃ (v : U32) (sr' : StatusRegister), v.toInt = (op.setWidth 8).toInt ∧ LogicCodes v s.cpu.regs.sr sr' ∧
      Completes C s (s1.withRegs fun g => { setDreg g (regField op 9) v with sr := sr' }) := by
  have hx := step_ends C h hi (by decide) rfl
  simp only [Spec.exec] at hx
  rw [endsWith_cost] at hx
  have hs := Ready.sameD h
  have hb : BitVec.ofNat 8 op.toNat = op.setWidth 8 := by apply BitVec.eq_of_toNat_eq; simp
  have hv : (signExt (op.setWidth 8)).toInt = (op.setWidth 8).toInt := toInt_signExt (by decide) _
  refine ⟨signExt (op.setWidth 8), logicFlags (signExt (op.setWidth 8)) s.cpu.regs.sr, hv, ?_, ?_⟩
  · exact logicCodes_logicFlags _ _
  · rw [hb] at hx
    have : logicFlags (signExt (op.setWidth 8)) s.cpu.regs.sr = logicFlags (op.setWidth 8) s.cpu.regs.sr := by
      unfold logicFlags neg zero
      rw [hv]
      have : ((signExt (op.setWidth 8)).toNat = 0) = ((op.setWidth 8).toNat = 0) := by
        rw [← toInt_zero_iff, ← toInt_zero_iff, hv]
      simp only [this]
    rw [this, ← hs.2]
    exact hx

/-- `MOVEQ #-1,D7`. -/
example : ∃ s1, Ready (Demo.st [0x7EFF] (Demo.regs [] [])) 0x7EFF s1 ∧ instr 0x7EFF = .Moveq :=
  ⟨_, ⟨rfl, rfl, by decide, _, rfl, rfl⟩, rfl⟩

/-- EXT.L: the low word is extended to the whole register. -/
theorem C13_ext_long (h : Ready s op s1) (hi : instr op = .Ext) (hk : op.toNat / 64 % 8 = 3) :
    ∃ (v : U32) (sr' : StatusRegister), v.toInt = ((s.cpu.regs.d (regField op 0)).setWidth 16).toInt ∧ LogicCodes v s.cpu.regs.sr sr' ∧
      Completes C s (s1.withRegs fun g => { setDreg g (regField op 0) v with sr := sr' }) := by
  have hx := step_ends C h hi (by decide) rfl
  simp only [Spec.exec, hk] at hx
  rw [endsWith_cost] at hx
  have hs := Ready.sameD h
  have hb : low .Word (s.cpu.regs.d (regField op 0)) = (s.cpu.regs.d (regField op 0)).setWidth 16 := by
    apply BitVec.eq_of_toNat_eq; simp [low]
  refine ⟨_, _, toInt_signExt (by decide) _, logicCodes_logicFlags _ _, ?_⟩
  rw [← hb, ← hs.1, ← hs.2]
  unfold Spec.ext at hx
  rw [modR_bind_apply] at hx
  simp only [modR_apply, St.withRegs, setDreg, if_true, decide_true, ne_eq, Nat.reduceEqDiff, not_false_eq_true] at hx
  exact hx

/-- `EXT.L D0`. -/
example : ∃ s1, Ready (Demo.st [0x48C0] (Demo.regs [0x8000] [])) 0x48C0 s1 ∧ instr 0x48C0 = .Ext ∧ (0x48C0 : U16).toNat / 64 % 8 = 3 :=
  ⟨_, ⟨rfl, rfl, by decide, _, rfl, rfl⟩, rfl, rfl⟩

/-- EXT.W: the low byte is extended to the low word `v`, the high word is kept. The claim has the flags of
`v` here, but the code sets those of the 32 bits of the register. -/
theorem C13_ext_word_partial (h : Ready s op s1) (hi : instr op = .Ext) (hk : op.toNat / 64 % 8 = 2) :
    ∃ (v : Val .Word) (sr' : StatusRegister), v.toInt = ((s.cpu.regs.d (regField op 0)).setWidth 8).toInt ∧
      LogicCodes (insertLow .Word (s.cpu.regs.d (regField op 0)) v) s.cpu.regs.sr sr' ∧
      (signExt v = insertLow .Word (s.cpu.regs.d (regField op 0)) v → LogicCodes v s.cpu.regs.sr sr') ∧
      Completes C s (s1.withRegs fun g => { setDreg g (regField op 0) (insertLow .Word (g.d (regField op 0)) v) with sr := sr' }) := by
  have hx := step_ends C h hi (by decide) rfl
  simp only [Spec.exec, hk] at hx
  rw [endsWith_cost] at hx
  have hs := Ready.sameD h
  have hb : low .Byte (s.cpu.regs.d (regField op 0)) = (s.cpu.regs.d (regField op 0)).setWidth 8 := by
    apply BitVec.eq_of_toNat_eq; simp [low]
  refine ⟨BitVec.ofInt 16 (low .Byte (s.cpu.regs.d (regField op 0))).toInt, _, ?_, logicCodes_logicFlags _ _, ?_, ?_⟩
  · rw [hb, BitVec.toInt_ofInt, show (2 ^ width .Word) = 65536 from rfl, Int.bmod_eq_of_le]
    all_goals
      have := BitVec.le_toInt ((s.cpu.regs.d (regField op 0)).setWidth 8)
      have := BitVec.toInt_lt (x := (s.cpu.regs.d (regField op 0)).setWidth 8)
      omega
  · intro he
    rw [← he]
    generalize BitVec.ofInt 16 (low .Byte (s.cpu.regs.d (regField op 0))).toInt = v
    have hv : (signExt v).toInt = v.toInt := toInt_signExt (by decide) _
    have := logicCodes_logicFlags (signExt v) s.cpu.regs.sr
    exact ⟨by rw [← hv]; exact this.negative, by rw [← toInt_zero_iff, ← hv, toInt_zero_iff]; exact this.zero, rfl, rfl, rfl, this.system⟩
  · rw [← hs.1, ← hs.2]
    unfold Spec.ext at hx
    rw [modR_bind_apply] at hx
    simp only [modR_apply, St.withRegs, setDreg, if_true, ne_eq, not_true, decide_false, Bool.false_eq_true, if_false] at hx
    exact hx

/-- `EXT.W D0`. -/
example : ∃ s1, Ready (Demo.st [0x4880] (Demo.regs [0xFFFF0080] [])) 0x4880 s1 ∧ instr 0x4880 = .Ext ∧ (0x4880 : U16).toNat / 64 % 8 = 2 ∧
    signExt (0xFF80 : Val .Word) = insertLow .Word 0xFFFF0080 0xFF80 :=
  ⟨_, ⟨rfl, rfl, by decide, _, rfl, rfl⟩, rfl, rfl, rfl⟩

/-- `EXT.W D0` with D0 = 0x00010080: the extended word 0xFF80 is negative but N is clear. -/
theorem C13_ext_word_refuted : ∃ c s', interpreterException mc68000 (Demo.st [0x4880] (Demo.regs [0x00010080] [])) = .ok (c, none) s' ∧
    s'.cpu.regs.d 0 = 0x0001FF80 ∧ s'.cpu.regs.sr.n = false ∧ ((s'.cpu.regs.d 0).setWidth 16).toInt < 0 :=
  ⟨_, _, rfl, rfl, rfl, by decide⟩

end M68k.Props
