import Verif.Lemmas.EndsControl
import Verif.Lemmas.EndsMul
import Verif.Lemmas.Sr
import Verif.Props.C01
import Verif.Props.Demo
/-
C47: moves and logical operations on the condition codes and the status register. The value of a status
register is that of the conversion to `u16` (`toU16`, C01). The implemented bits are 0xA71F, those of the
condition codes 0x001F.

The code does not mask the immediate word of ORI and EORI to CCR: the theorems about these have the suffix
`_partial`, they need a word whose high byte is clear, and `C47_ori_ccr_refuted`, `C47_eori_ccr_refuted` show the effect of
another word. MOVE from SR and RTR are below.
-/
namespace M68k.Props
open Spec Exec
variable {M : Type} [MemoryAccess M] {C : CpuDetails} {s s' s1 s2 : St M} {op w : U16}

/-- The state in which the status register is `sr`. -/
def withSr (s : St M) (sr : StatusRegister) : St M := s.withRegs fun r => { r with sr := sr }

theorem toU16_implemented (sr : StatusRegister) (h : sr.interruptMask.toNat ≤ 7) : sr.toU16 &&& 0xA71F = sr.toU16 := by
  rw [← C01_word_round_trip, C01_sr_round_trip sr h]

theorem fetch_sr (hw : fetch s1 = .ok w s2) : s2.cpu.regs.sr = s1.cpu.regs.sr := by rw [fetch_regs hw]

/-- ANDI to CCR: the five condition codes are and-ed with the low bits of the word, all else is as before. -/
theorem C47_andi_ccr (h : Ready s op s1) (hi : instr op = .Andiccr) (hm : s.cpu.regs.sr.interruptMask.toNat ≤ 7) (hw : fetch s1 = .ok w s2) :
    ∃ sr', Completes C s (withSr s2 sr') ∧ sr'.toU16 = s.cpu.regs.sr.toU16 &&& (w ||| 0xFFE0) ∧ sr'.interruptMask.toNat ≤ 7 := by
  have hx := step_ends C h hi (by decide) rfl
  simp only [Spec.exec] at hx
  rw [endsWith_bind_ok hw, endsWith_cost, ← funext (andAssign_eq · (w ||| 0xA700))] at hx
  have hsr : s2.cpu.regs.sr = s.cpu.regs.sr := (fetch_sr hw).trans h.sr
  refine ⟨s2.cpu.regs.sr.andAssign (w ||| 0xA700), hx, ?_⟩
  rw [hsr]
  obtain ⟨h1, h2⟩ := C01_and s.cpu.regs.sr (w ||| 0xA700) hm
  refine ⟨?_, h2⟩
  rw [h1, ← toU16_implemented _ hm]
  apply BitVec.eq_of_getLsbD_eq
  intro i hi
  simp only [BitVec.getLsbD_and, BitVec.getLsbD_or]
  bit_cases hi <;> simp

/-- `ANDI #$FFFE,CCR`. -/
example : ∃ s1 s2, Ready (Demo.st [0x023C, 0xFFFE] (Demo.regs [] [])) 0x023C s1 ∧ instr 0x023C = .Andiccr ∧ fetch s1 = .ok 0xFFFE s2 :=
  ⟨_, _, ⟨rfl, rfl, by decide, _, rfl, rfl⟩, rfl, rfl⟩

theorem ccr_bits (hw : w.toNat < 256) : w &&& 0xA71F = w &&& 0x1F := by
  apply BitVec.eq_of_getLsbD_eq
  intro i hi
  simp only [BitVec.getLsbD_and]
  have hb : 8 ≤ i → w.getLsbD i = false := by
    intro h8
    rw [← BitVec.testBit_toNat]
    exact Nat.testBit_lt_two_pow (Nat.lt_of_lt_of_le hw (Nat.pow_le_pow_right (n := 2) (by omega) h8))
  by_cases h8 : 8 ≤ i
  · rw [hb h8, Bool.false_and, Bool.false_and]
  · have : i < 8 := by omega
    bit_cases hi <;> first | omega | simp

/-- ORI to CCR, if the high byte of the word is clear. -/
theorem C47_ori_ccr_partial (h : Ready s op s1) (hi : instr op = .Oriccr) (hm : s.cpu.regs.sr.interruptMask.toNat ≤ 7) (hw : fetch s1 = .ok w s2)
    (hb : w.toNat < 256) :
    ∃ sr', Completes C s (withSr s2 sr') ∧ sr'.toU16 = s.cpu.regs.sr.toU16 ||| (w &&& 0x1F) ∧ sr'.interruptMask.toNat ≤ 7 := by
  have hx := step_ends C h hi (by decide) rfl
  simp only [Spec.exec] at hx
  rw [endsWith_bind_ok hw, endsWith_cost, ← funext (orAssign_eq · w)] at hx
  have hsr : s2.cpu.regs.sr = s.cpu.regs.sr := (fetch_sr hw).trans h.sr
  refine ⟨s2.cpu.regs.sr.orAssign w, hx, ?_⟩
  rw [hsr, ← ccr_bits hb]
  exact C01_or _ _ hm

/-- EORI to CCR, if the high byte of the word is clear. -/
theorem C47_eori_ccr_partial (h : Ready s op s1) (hi : instr op = .Eoriccr) (hm : s.cpu.regs.sr.interruptMask.toNat ≤ 7) (hw : fetch s1 = .ok w s2)
    (hb : w.toNat < 256) :
    ∃ sr', Completes C s (withSr s2 sr') ∧ sr'.toU16 = s.cpu.regs.sr.toU16 ^^^ (w &&& 0x1F) ∧ sr'.interruptMask.toNat ≤ 7 := by
  have hx := step_ends C h hi (by decide) rfl
  simp only [Spec.exec] at hx
  rw [endsWith_bind_ok hw, endsWith_cost, ← funext (xorAssign_eq · w)] at hx
  have hsr : s2.cpu.regs.sr = s.cpu.regs.sr := (fetch_sr hw).trans h.sr
  refine ⟨s2.cpu.regs.sr.xorAssign w, hx, ?_⟩
  rw [hsr, ← ccr_bits hb]
  exact C01_xor _ _ hm

/-- `ORI #$11,CCR` and `EORI #$11,CCR`. -/
example : (∃ s1 s2, Ready (Demo.st [0x003C, 0x11] (Demo.regs [] [])) 0x003C s1 ∧ instr 0x003C = .Oriccr ∧ fetch s1 = .ok 0x11 s2) ∧
    ∃ s1 s2, Ready (Demo.st [0x0A3C, 0x11] (Demo.regs [] [])) 0x0A3C s1 ∧ instr 0x0A3C = .Eoriccr ∧ fetch s1 = .ok 0x11 s2 :=
  ⟨⟨_, _, ⟨rfl, rfl, by decide, _, rfl, rfl⟩, rfl, rfl⟩, _, _, ⟨rfl, rfl, by decide, _, rfl, rfl⟩, rfl, rfl⟩

/-- `ORI #$8700,CCR` sets T and the interrupt mask: the condition codes are not the only bits changed. -/
theorem C47_ori_ccr_refuted : ∃ c s', interpreterException mc68000 (Demo.st [0x003C, 0x8700] (Demo.regs [] [])) = .ok (c, none) s' ∧
    (Demo.st [0x003C, 0x8700] (Demo.regs [] [])).cpu.regs.sr.toU16 = 0 ∧ s'.cpu.regs.sr.toU16 = 0x8700 := ⟨_, _, rfl, by decide, by decide⟩

/-- `EORI #$8700,CCR`, the same. -/
theorem C47_eori_ccr_refuted : ∃ c s', interpreterException mc68000 (Demo.st [0x0A3C, 0x8700] (Demo.regs [] [])) = .ok (c, none) s' ∧
    (Demo.st [0x0A3C, 0x8700] (Demo.regs [] [])).cpu.regs.sr.toU16 = 0 ∧ s'.cpu.regs.sr.toU16 = 0x8700 := ⟨_, _, rfl, by decide, by decide⟩

theorem setCcr_word (sr : StatusRegister) (w : U16) (hm : sr.interruptMask.toNat ≤ 7) : (sr.setCcr w).toU16 = (sr.toU16 &&& 0xA700) ||| (w &&& 0x1F) := by
  apply BitVec.eq_of_getLsbD_eq
  intro i hi
  rw [toU16_bit _ _ hi]
  simp only [BitVec.getLsbD_and, BitVec.getLsbD_or]
  rw [toU16_bit _ _ hi]
  have h3 : sr.interruptMask[3] = false := mask_bit hm 3 (by omega)
  have h4 : sr.interruptMask[4] = false := mask_bit hm 4 (by omega)
  have h5 : sr.interruptMask[5] = false := mask_bit hm 5 (by omega)
  have h6 : sr.interruptMask[6] = false := mask_bit hm 6 (by omega)
  have h7 : sr.interruptMask[7] = false := mask_bit hm 7 (by omega)
  simp only [StatusRegister.setCcr, bit_getLsbD, Nat.reduceLT]
  bit_cases hi <;> simp [h3, h4, h5, h6, h7]

/-- MOVE to CCR. -/
theorem C47_move_ccr {p : Place} {v : Val .Word} (h : Ready s op s1) (hi : instr op = .Moveccr) (hm : s.cpu.regs.sr.interruptMask.toNat ≤ 7)
    (hv : operand .Word op s1 = .ok (p, v) s2) :
    ∃ sr', Completes C s (withSr s2 sr') ∧ sr'.toU16 = (s.cpu.regs.sr.toU16 &&& 0xA700) ||| (v &&& 0x1F) ∧ sr'.interruptMask.toNat ≤ 7 := by
  have hx := step_ends C h hi (by decide) rfl
  simp only [Spec.exec] at hx
  obtain ⟨m, s', hea, hr⟩ := operand_ok hv
  have hs := operand_same h hv
  rw [endsWith_bind_ok hea, endsWith_bind_ok hr, endsWith_cost] at hx
  simp only at hx
  refine ⟨withCcr s2.cpu.regs.sr v, hx, ?_⟩
  rw [hs.2, ← setCcr_eq]
  exact ⟨setCcr_word _ _ hm, hm⟩

/-- `MOVE D1,CCR`. -/
example : ∃ s1 s2, Ready (Demo.st [0x44C1] (Demo.regs [0, 0xFFFF] [])) 0x44C1 s1 ∧ instr 0x44C1 = .Moveccr ∧ operand .Word 0x44C1 s1 = .ok (.dreg 1, 0xFFFF) s2 :=
  ⟨_, _, ⟨rfl, rfl, by decide, _, rfl, rfl⟩, rfl, rfl⟩

/-! ### The whole status register, in supervisor mode -/

/-- ANDI to SR. -/
theorem C47_andi_sr (h : Ready s op s1) (hi : instr op = .Andisr) (hsup : s.cpu.regs.sr.s = true) (hm : s.cpu.regs.sr.interruptMask.toNat ≤ 7)
    (hw : fetch s1 = .ok w s2) :
    ∃ sr', CompletesPrivileged C s (withSr s2 sr') ∧ sr'.toU16 = s.cpu.regs.sr.toU16 &&& w ∧ sr'.interruptMask.toNat ≤ 7 := by
  have hx := step_endsPrivileged C h hi (by decide) rfl
  simp only [Spec.exec] at hx
  have hsr : s2.cpu.regs.sr = s.cpu.regs.sr := (fetch_sr hw).trans h.sr
  rw [endsPrivileged_bind_ok hw, endsPrivileged_bind_ok (privileged_ok (by rw [hsr]; exact hsup)), endsPrivileged_cost, ← funext (andAssign_eq · w)] at hx
  refine ⟨s2.cpu.regs.sr.andAssign w, hx, ?_⟩
  rw [hsr]
  exact C01_and _ _ hm

/-- ORI to SR. -/
theorem C47_ori_sr (h : Ready s op s1) (hi : instr op = .Orisr) (hsup : s.cpu.regs.sr.s = true) (hm : s.cpu.regs.sr.interruptMask.toNat ≤ 7)
    (hw : fetch s1 = .ok w s2) :
    ∃ sr', CompletesPrivileged C s (withSr s2 sr') ∧ sr'.toU16 = s.cpu.regs.sr.toU16 ||| (w &&& 0xA71F) ∧ sr'.interruptMask.toNat ≤ 7 := by
  have hx := step_endsPrivileged C h hi (by decide) rfl
  simp only [Spec.exec] at hx
  have hsr : s2.cpu.regs.sr = s.cpu.regs.sr := (fetch_sr hw).trans h.sr
  rw [endsPrivileged_bind_ok hw, endsPrivileged_bind_ok (privileged_ok (by rw [hsr]; exact hsup)), endsPrivileged_cost, ← funext (orAssign_eq · w)] at hx
  refine ⟨s2.cpu.regs.sr.orAssign w, hx, ?_⟩
  rw [hsr]
  exact C01_or _ _ hm

/-- EORI to SR. -/
theorem C47_eori_sr (h : Ready s op s1) (hi : instr op = .Eorisr) (hsup : s.cpu.regs.sr.s = true) (hm : s.cpu.regs.sr.interruptMask.toNat ≤ 7)
    (hw : fetch s1 = .ok w s2) :
    ∃ sr', CompletesPrivileged C s (withSr s2 sr') ∧ sr'.toU16 = s.cpu.regs.sr.toU16 ^^^ (w &&& 0xA71F) ∧ sr'.interruptMask.toNat ≤ 7 := by
  have hx := step_endsPrivileged C h hi (by decide) rfl
  simp only [Spec.exec] at hx
  have hsr : s2.cpu.regs.sr = s.cpu.regs.sr := (fetch_sr hw).trans h.sr
  rw [endsPrivileged_bind_ok hw, endsPrivileged_bind_ok (privileged_ok (by rw [hsr]; exact hsup)), endsPrivileged_cost, ← funext (xorAssign_eq · w)] at hx
  refine ⟨s2.cpu.regs.sr.xorAssign w, hx, ?_⟩
  rw [hsr]
  exact C01_xor _ _ hm

/-- MOVE to SR. -/
theorem C47_move_sr {p : Place} {v : Val .Word} (h : Ready s op s1) (hi : instr op = .Movesr) (hsup : s.cpu.regs.sr.s = true)
    (hv : operand .Word op s1 = .ok (p, v) s2) :
    ∃ sr', CompletesPrivileged C s (withSr s2 sr') ∧ sr'.toU16 = v &&& 0xA71F ∧ sr'.interruptMask.toNat ≤ 7 := by
  have hx := step_endsPrivileged C h hi (by decide) rfl
  simp only [Spec.exec] at hx
  obtain ⟨m, s', hea, hr⟩ := operand_ok hv
  have hs : SameD s s' := sameD_rel.trans (Ready.sameD h) ((Keeps.of_fetchEa sameD_rel _ _).ok hea)
  rw [endsPrivileged_bind_ok hea, endsPrivileged_bind_ok (privileged_ok (by rw [hs.2]; exact hsup)), endsPrivileged_bind_ok hr, endsPrivileged_cost] at hx
  simp only at hx
  refine ⟨srOf v, hx, ?_⟩
  rw [← ofU16_eq]
  exact ⟨C01_word_round_trip v, C01_mask v⟩

/-- `ANDI #$F8FF,SR`, `ORI #$700,SR`, `EORI #$8000,SR`, `MOVE D0,SR` in supervisor mode. -/
example : (srOf 0x2700).s = true ∧ (∃ s1 s2, Ready (Demo.st [0x027C, 0xF8FF] { Demo.regs [] [] with sr := srOf 0x2700 }) 0x027C s1 ∧ instr 0x027C = .Andisr ∧ fetch s1 = .ok 0xF8FF s2) ∧
    (∃ s1 s2, Ready (Demo.st [0x007C, 0x0700] { Demo.regs [] [] with sr := srOf 0x2700 }) 0x007C s1 ∧ instr 0x007C = .Orisr ∧ fetch s1 = .ok 0x0700 s2) ∧
    (∃ s1 s2, Ready (Demo.st [0x0A7C, 0x8000] { Demo.regs [] [] with sr := srOf 0x2700 }) 0x0A7C s1 ∧ instr 0x0A7C = .Eorisr ∧ fetch s1 = .ok 0x8000 s2) ∧
    ∃ s1 s2, Ready (Demo.st [0x46C0] { Demo.regs [0x2000] [] with sr := srOf 0x2700 }) 0x46C0 s1 ∧ instr 0x46C0 = .Movesr ∧ operand .Word 0x46C0 s1 = .ok (.dreg 0, 0x2000) s2 :=
  ⟨rfl, ⟨_, _, ⟨rfl, rfl, by decide, _, rfl, rfl⟩, rfl, rfl⟩, ⟨_, _, ⟨rfl, rfl, by decide, _, rfl, rfl⟩, rfl, rfl⟩,
   ⟨_, _, ⟨rfl, rfl, by decide, _, rfl, rfl⟩, rfl, rfl⟩, _, _, ⟨rfl, rfl, by decide, _, rfl, rfl⟩, rfl, rfl⟩

/-- MOVE from SR writes the 16-bit value of the status register, in both modes. -/
theorem C47_move_from_sr {m : Mode} (h : Ready s op s1) (hi : instr op = .Movefsr) (hm : fetchEa (some .Word) op s1 = .ok m s2) :
    EndsWith C s (write .Word m s.cpu.regs.sr.toU16 s2) := by
  have hx := step_ends C h hi (by decide) rfl
  simp only [Spec.exec] at hx
  have hs : SameD s s2 := sameD_rel.trans (Ready.sameD h) ((Keeps.of_fetchEa sameD_rel _ _).ok hm)
  rw [endsWith_bind_ok hm, getR_bind_apply, endsWith_cost, ← toU16_eq, hs.2] at hx
  exact hx

/-- MOVE from SR to a data register: the low word becomes the value, the rest is unchanged. -/
theorem C47_move_from_sr_dn (h : Ready s op s1) (hi : instr op = .Movefsr) (hm : regField op 3 = 0) :
    Completes C s (s1.withRegs fun r => setDreg r (regField op 0) (insertLow .Word (r.d (regField op 0)) s.cpu.regs.sr.toU16)) := by
  have hea : (fetchEa (some .Word) op : Exec M Mode) s1 = .ok (.dn (regField op 0)) s1 := by unfold fetchEa; rw [hm]; rfl
  exact C47_move_from_sr (C := C) h hi hea

/-- `MOVE SR,D2`. -/
example : ∃ s1 s2, Ready (Demo.st [0x40C2] (Demo.regs [] [])) 0x40C2 s1 ∧ instr 0x40C2 = .Movefsr ∧ regField 0x40C2 3 = 0 ∧
    fetchEa (some .Word) 0x40C2 s1 = .ok (.dn 2) s2 := ⟨_, _, ⟨rfl, rfl, by decide, _, rfl, rfl⟩, rfl, rfl, rfl⟩

/-- RTR pops a word whose low five bits become the condition codes (`sr'` is the status register with these) and
then the program counter. -/
theorem C47_rtr {s3 : St M} {pc : U32} {sr' : StatusRegister} (h : Ready s op s1) (hi : instr op = .Rtr) (hm : s.cpu.regs.sr.interruptMask.toNat ≤ 7)
    (hw : pop .Word s1 = .ok w s2) (hsr : sr'.toU16 = (s.cpu.regs.sr.toU16 &&& 0xA700) ||| (w &&& 0x1F)) (hm' : sr'.interruptMask.toNat ≤ 7)
    (hp : pop .Long (withSr s2 sr') = .ok pc s3) : Completes C s (s3.withRegs fun r => { r with pc := pc }) := by
  have hx := step_ends C h hi (by decide) rfl
  simp only [Spec.exec] at hx
  rw [endsWith_cost] at hx
  unfold rtr at hx
  have hs : SameD s s2 := by
    refine sameD_rel.trans (Ready.sameD h) (Keeps.ok (Keeps.bind sameD_rel (Keeps.of_read sameD_rel _ _) fun _ => Keeps.of_pure sameD_rel _) hw)
  rw [endsWith_bind_ok hw] at hx
  change EndsWith C s ((pop .Long >>= fun pc => jump pc) (withSr s2 (withCcr { s2.cpu.regs.sr with interruptMask := BitVec.ofNat 8 (s2.cpu.regs.sr.interruptMask.toNat % 8) } w))) at hx
  have hmask : BitVec.ofNat 8 (s2.cpu.regs.sr.interruptMask.toNat % 8) = s2.cpu.regs.sr.interruptMask := by
    rw [Nat.mod_eq_of_lt (by rw [hs.2]; omega), BitVec.ofNat_toNat, BitVec.setWidth_eq]
  have he : sr' = withCcr { s2.cpu.regs.sr with interruptMask := s2.cpu.regs.sr.interruptMask } w := by
    change sr' = withCcr s2.cpu.regs.sr w
    rw [hs.2, ← setCcr_eq, ← C01_sr_round_trip sr' hm', hsr, ← setCcr_word _ _ hm, C01_sr_round_trip (s.cpu.regs.sr.setCcr w) hm]
  rw [hmask, ← he, endsWith_bind_ok hp] at hx
  exact hx

/-- `RTR` with the words 0x001F, 0x0000, 0x0010 on the stack: all condition codes are set, PC = 16. -/
example : ∃ s1 s2 s3, Ready (Demo.st [0x4E77, 0x001F, 0, 16] (Demo.regs [] [0, 0, 0, 0, 0, 0, 0, 2])) 0x4E77 s1 ∧ instr 0x4E77 = .Rtr ∧
    pop .Word s1 = .ok 0x1F s2 ∧ (srOf 0x1F).toU16 = (s1.cpu.regs.sr.toU16 &&& 0xA700) ||| (0x1F &&& 0x1F) ∧
    pop .Long (withSr s2 (srOf 0x1F)) = .ok 16 s3 :=
  ⟨_, _, _, ⟨rfl, rfl, by decide, _, rfl, rfl⟩, rfl, rfl, by decide, rfl⟩

end M68k.Props
