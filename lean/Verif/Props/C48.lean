import Verif.Lemmas.EndsControl
import Verif.Lemmas.EndsMul
import Verif.Lemmas.EndsBit
import Verif.Props.C09
import Verif.Props.Demo
/-
C48: TAS, Scc, CLR, TST and CHK.
-/
namespace M68k.Props
open Spec Exec
variable {M : Type} [MemoryAccess M] {C : CpuDetails} {s s' s1 s2 : St M} {op w : U16} {sz : Size}

/-- The byte with bit 7 set. -/
def withBit7 (v : U8) : U8 := BitVec.ofNat 8 (v.toNat % 128 + 128)

theorem withBit7_eq (v : BitVec 8) : BitOp.set.apply v 7 = withBit7 v := by revert v; decide +kernel

/-- TAS of any operand `p` of value `v`: the condition codes come from `v` as for a test, and then `v` with bit 7
set is written back. -/
theorem C48_tas {p : Place} {v : Val .Byte} (h : Ready s op s1) (hi : instr op = .Tas) (hv : operand .Byte op s1 = .ok (p, v) s2) :
    ∃ sr', LogicCodes v s.cpu.regs.sr sr' ∧ EndsWith C s (writeAt .Byte p (withBit7 v) (s2.withRegs fun g => { g with sr := sr' })) := by
  have hx := step_ends C h hi (by decide) rfl
  simp only [Spec.exec] at hx
  obtain ⟨m, s', hm, hr⟩ := operand_ok hv
  have hs := operand_same h hv
  rw [endsWith_bind_ok hm, endsWith_cost] at hx
  have := ends_rmw hr hx
  rw [hs.2, withBit7_eq] at this
  exact ⟨_, logicCodes_logicFlags v _, this⟩

/-- `TAS D1` and `TAS (A0)`. -/
example : (∃ s1 s2, Ready (Demo.st [0x4AC1] (Demo.regs [0, 0x17F] [])) 0x4AC1 s1 ∧ instr 0x4AC1 = .Tas ∧ operand .Byte 0x4AC1 s1 = .ok (.dreg 1, 0x7F) s2) ∧
    ∃ s1 s2, Ready (Demo.st [0x4AD0, 0x0012] (Demo.regs [] [3])) 0x4AD0 s1 ∧ instr 0x4AD0 = .Tas ∧ operand .Byte 0x4AD0 s1 = .ok (.mem 3, 0x12) s2 :=
  ⟨⟨_, _, ⟨rfl, rfl, by decide, _, rfl, rfl⟩, rfl, rfl⟩, _, _, ⟨rfl, rfl, by decide, _, rfl, rfl⟩, rfl, rfl⟩

/-- Scc writes 0xFF if the condition holds and 0 if not; no flag changes. -/
theorem C48_scc {m : Mode} (h : Ready s op s1) (hi : instr op = .Scc) (hm : fetchEa (some .Byte) op s1 = .ok m s2) :
    EndsWith C s (write .Byte m (if holds (ccField op) s.cpu.regs.sr then 0xFF else 0) s2) := by
  have hx := step_ends C h hi (by decide) rfl
  simp only [Spec.exec] at hx
  have hs : SameD s s2 := sameD_rel.trans (Ready.sameD h) ((Keeps.of_fetchEa sameD_rel _ _).ok hm)
  rw [endsWith_bind_ok hm, endsWith_map] at hx
  unfold scc test at hx
  rw [getR_bind_apply, hs.2] at hx
  rw [Exec.bind_apply] at hx
  generalize write Size.Byte m (if holds (ccField op) s.cpu.regs.sr = true then 255#8 else 0#8) s2 = r at *
  cases r <;> exact hx

/-- Scc of a data register. -/
theorem C48_scc_dn (h : Ready s op s1) (hi : instr op = .Scc) (hm : regField op 3 = 0) :
    Completes C s (s1.withRegs fun r => setDreg r (regField op 0)
      (insertLow .Byte (r.d (regField op 0)) (if holds (ccField op) s.cpu.regs.sr then 0xFF else 0))) := by
  have hea : (fetchEa (some .Byte) op : Exec M Mode) s1 = .ok (.dn (regField op 0)) s1 := by unfold fetchEa; rw [hm]; rfl
  exact C48_scc (C := C) h hi hea

/-- `SNE D1`, `SEQ (A0)`. -/
example : (∃ s1, Ready (Demo.st [0x56C1] (Demo.regs [] [])) 0x56C1 s1 ∧ instr 0x56C1 = .Scc ∧ regField 0x56C1 3 = 0 ∧ holds (ccField 0x56C1) s1.cpu.regs.sr = true) ∧
    ∃ s1 s2, Ready (Demo.st [0x57D0, 0] (Demo.regs [] [2])) 0x57D0 s1 ∧ instr 0x57D0 = .Scc ∧ fetchEa (some .Byte) 0x57D0 s1 = .ok (.ind 0) s2 :=
  ⟨⟨_, ⟨rfl, rfl, by decide, _, rfl, rfl⟩, rfl, rfl, rfl⟩, _, _, ⟨rfl, rfl, by decide, _, rfl, rfl⟩, rfl, rfl⟩

/-- CLR writes 0; Z is set, N, V and C are clear and X is kept. -/
theorem C48_clr {m : Mode} {s3 : St M} (h : Ready s op s1) (hi : instr op = .Clr) (hsz : opSize op = some sz)
    (hm : fetchEa (some sz) op s1 = .ok m s2) (hw : write sz m 0 s2 = .ok () s3) :
    Completes C s (s3.withRegs fun r => { r with sr := { r.sr with n := false, z := true, v := false, c := false } }) := by
  have hx := step_ends C h hi (by decide) rfl
  simp only [Spec.exec] at hx
  rw [sized_some hsz, endsWith_bind_ok hm, endsWith_bind_ok hw, endsWith_cost] at hx
  cases sz <;> exact hx

/-- CLR of an operand that cannot be written raises the exception of the access. -/
theorem C48_clr_fails {m : Mode} {v : U8} (h : Ready s op s1) (hi : instr op = .Clr) (hsz : opSize op = some sz)
    (hm : fetchEa (some sz) op s1 = .ok m s2) (hw : write sz m 0 s2 = .err v s') : Raises C s v s' := by
  have hx := step_ends C h hi (by decide) rfl
  simp only [Spec.exec] at hx
  rwa [sized_some hsz, endsWith_bind_ok hm, endsWith_bind_err hw] at hx

/-- CLR of a data register clears its low bits. -/
theorem C48_clr_dn (h : Ready s op s1) (hi : instr op = .Clr) (hsz : opSize op = some sz) (hm : regField op 3 = 0) :
    Completes C s (s1.withRegs fun r => { setDreg r (regField op 0) (insertLow sz (r.d (regField op 0)) 0) with
      sr := { r.sr with n := false, z := true, v := false, c := false } }) := by
  have hea : (fetchEa (some sz) op : Exec M Mode) s1 = .ok (.dn (regField op 0)) s1 := by unfold fetchEa; rw [hm]; rfl
  exact C48_clr (C := C) (m := .dn (regField op 0)) h hi hsz hea rfl

/-- `CLR.W D1`, `CLR.L (A0)+`, `CLR.W` of an odd address. -/
example : (∃ s1, Ready (Demo.st [0x4241] (Demo.regs [0, 0x12345678] [])) 0x4241 s1 ∧ instr 0x4241 = .Clr ∧ opSize 0x4241 = some .Word ∧ regField 0x4241 3 = 0) ∧
    (∃ s1 s2 s3, Ready (Demo.st [0x4298, 1, 2] (Demo.regs [] [2])) 0x4298 s1 ∧ instr 0x4298 = .Clr ∧ opSize 0x4298 = some .Long ∧
      fetchEa (some .Long) 0x4298 s1 = .ok (.postinc 0) s2 ∧ write .Long (.postinc 0) 0 s2 = .ok () s3 ∧ s3.mem.words = [0x4298, 0, 0]) ∧
    ∃ s1 s2 s3, Ready (Demo.st [0x4250] (Demo.regs [] [1])) 0x4250 s1 ∧ instr 0x4250 = .Clr ∧ opSize 0x4250 = some .Word ∧
      fetchEa (some .Word) 0x4250 s1 = .ok (.ind 0) s2 ∧ write .Word (.ind 0) 0 s2 = .err 3 s3 :=
  ⟨⟨_, ⟨rfl, rfl, by decide, _, rfl, rfl⟩, rfl, rfl, rfl⟩, ⟨_, _, _, ⟨rfl, rfl, by decide, _, rfl, rfl⟩, rfl, rfl, rfl, rfl, rfl⟩,
   _, _, _, ⟨rfl, rfl, by decide, _, rfl, rfl⟩, rfl, rfl, rfl, rfl⟩

/-- TST sets the condition codes from the operand and does nothing else. -/
theorem C48_tst {p : Place} {v : Val sz} (h : Ready s op s1) (hi : instr op = .Tst) (hsz : opSize op = some sz)
    (hv : operand sz op s1 = .ok (p, v) s2) :
    ∃ sr', LogicCodes v s.cpu.regs.sr sr' ∧ Completes C s (s2.withRegs fun r => { r with sr := sr' }) := by
  have hx := step_ends C h hi (by decide) rfl
  simp only [Spec.exec] at hx
  obtain ⟨m, s', hm, hr⟩ := operand_ok hv
  have hs := operand_same h hv
  rw [sized_some hsz, endsWith_bind_ok hm, endsWith_bind_ok hr, endsWith_cost] at hx
  refine ⟨_, logicCodes_logicFlags v _, ?_⟩
  rw [← hs.2]
  exact hx

/-- `TST.L D0` with D0 negative. -/
example : ∃ s1 s2, Ready (Demo.st [0x4A80] (Demo.regs [0x80000000] [])) 0x4A80 s1 ∧ instr 0x4A80 = .Tst ∧ opSize 0x4A80 = some .Long ∧
    operand .Long 0x4A80 s1 = .ok (.dreg 0, 0x80000000) s2 := ⟨_, _, ⟨rfl, rfl, by decide, _, rfl, rfl⟩, rfl, rfl, rfl⟩

/-- CHK with a value outside of 0..bound yields vector 6; no register changes. -/
theorem C48_chk_outside {p : Place} {bound : Val .Word} (h : Ready s op s1) (hi : instr op = .Chk) (hv : operand .Word op s1 = .ok (p, bound) s2)
    (hb : (low .Word (s.cpu.regs.d (regField op 9))).toInt < 0 ∨ bound.toInt < (low .Word (s.cpu.regs.d (regField op 9))).toInt) :
    Raises C s 6 s2 := by
  have hx := step_ends C h hi (by decide) rfl
  simp only [Spec.exec] at hx
  obtain ⟨m, s', hm, hr⟩ := operand_ok hv
  have hs := operand_same h hv
  rw [endsWith_bind_ok hm, endsWith_cost] at hx
  unfold chk at hx
  rw [endsWith_bind_ok hr] at hx
  simp only [getR_bind_apply] at hx
  rw [hs.1, if_pos hb] at hx
  exact hx

/-- CHK with a value in 0..bound does nothing. -/
theorem C48_chk_inside {p : Place} {bound : Val .Word} (h : Ready s op s1) (hi : instr op = .Chk) (hv : operand .Word op s1 = .ok (p, bound) s2)
    (hb : 0 ≤ (low .Word (s.cpu.regs.d (regField op 9))).toInt) (hb' : (low .Word (s.cpu.regs.d (regField op 9))).toInt ≤ bound.toInt) :
    Completes C s s2 := by
  have hx := step_ends C h hi (by decide) rfl
  simp only [Spec.exec] at hx
  obtain ⟨m, s', hm, hr⟩ := operand_ok hv
  have hs := operand_same h hv
  rw [endsWith_bind_ok hm, endsWith_cost] at hx
  unfold chk at hx
  rw [endsWith_bind_ok hr] at hx
  simp only [getR_bind_apply] at hx
  rw [hs.1, if_neg (by omega)] at hx
  exact hx

/-- `CHK D1,D0` with D1 = 5 and D0 = 5, 6, -1. -/
example : (∃ s1 s2, Ready (Demo.st [0x4181] (Demo.regs [5, 5] [])) 0x4181 s1 ∧ instr 0x4181 = .Chk ∧ operand .Word 0x4181 s1 = .ok (.dreg 1, 5) s2 ∧
      0 ≤ (low .Word (s1.cpu.regs.d (regField 0x4181 9))).toInt ∧ (low .Word (s1.cpu.regs.d (regField 0x4181 9))).toInt ≤ (5 : U16).toInt) ∧
    (∃ s1 s2, Ready (Demo.st [0x4181] (Demo.regs [6, 5] [])) 0x4181 s1 ∧ instr 0x4181 = .Chk ∧ operand .Word 0x4181 s1 = .ok (.dreg 1, 5) s2 ∧
      (5 : U16).toInt < (low .Word (s1.cpu.regs.d (regField 0x4181 9))).toInt) ∧
    ∃ s1 s2, Ready (Demo.st [0x4181] (Demo.regs [0x1FFFF, 5] [])) 0x4181 s1 ∧ instr 0x4181 = .Chk ∧ operand .Word 0x4181 s1 = .ok (.dreg 1, 5) s2 ∧
      (low .Word (s1.cpu.regs.d (regField 0x4181 9))).toInt < 0 :=
  ⟨⟨_, _, ⟨rfl, rfl, by decide, _, rfl, rfl⟩, rfl, rfl, by decide, by decide⟩, ⟨_, _, ⟨rfl, rfl, by decide, _, rfl, rfl⟩, rfl, rfl, by decide⟩,
   _, _, ⟨rfl, rfl, by decide, _, rfl, rfl⟩, rfl, rfl, by decide⟩

/-- An operand of TAS, TST or CHK that cannot be read raises the exception of the access. -/
theorem C48_operand_error {v : U8} (h : Ready s op s1)
    (hi : (instr op = .Tas ∧ sz = .Byte) ∨ (instr op = .Tst ∧ opSize op = some sz) ∨ (instr op = .Chk ∧ sz = .Word))
    (hv : operand sz op s1 = .err v s2) : Raises C s v s2 := by
  rcases bind_err hv with hm | ⟨m, s', hm, hr⟩
  · exact absurd hm (fetchEa_noErr _ _ _ _ _)
  rcases hi with ⟨hi, hsz⟩ | ⟨hi, hsz⟩ | ⟨hi, hsz⟩
  · subst hsz
    have hx := step_ends C h hi (by decide) rfl
    simp only [Spec.exec] at hx
    rw [endsWith_bind_ok hm, endsWith_cost] at hx
    unfold tas at hx
    rw [rmw_err _ _ _ _ hr] at hx
    exact hx
  · have hx := step_ends C h hi (by decide) rfl
    simp only [Spec.exec] at hx
    rwa [sized_some hsz, endsWith_bind_ok hm, endsWith_bind_err hr] at hx
  · subst hsz
    have hx := step_ends C h hi (by decide) rfl
    simp only [Spec.exec] at hx
    rw [endsWith_bind_ok hm, endsWith_cost] at hx
    unfold chk at hx
    rwa [endsWith_bind_err hr] at hx

/-- `TST.W (A0)` at an odd address. -/
example : ∃ s1 s2, Ready (Demo.st [0x4A50] (Demo.regs [] [1])) 0x4A50 s1 ∧ instr 0x4A50 = .Tst ∧ opSize 0x4A50 = some .Word ∧
    operand .Word 0x4A50 s1 = .err 3 s2 := ⟨_, _, ⟨rfl, rfl, by decide, _, rfl, rfl⟩, rfl, rfl, rfl⟩

end M68k.Props
