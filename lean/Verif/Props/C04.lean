import Verif.Lemmas.Ends
import Verif.Lemmas.Claims
import Verif.Props.Demo
/-
C04: SUB, SUBI, SUBQ, NEG compute the difference and its flags.

`IsDifference d v sr r sr'` (Spec/Claims.lean) says on integers that `r` is the difference `d - v` and that the
condition codes of `sr'` are those of this subtraction. `operand sz op` (Spec/Step.lean, Spec/Machine.lean)
evaluates the effective address field of the opcode and reads the operand.
-/
namespace M68k.Props
open Spec Exec
variable {M : Type} [MemoryAccess M] {C : CpuDetails} {s s1 s2 s3 : St M} {op : U16} {sz : Size}

/-- `SUB ea,Dn`: the low bits of Dn become the difference, the flags are those of the subtraction, everything
else is as after the evaluation of the operand. -/
theorem C04_sub_to_register {p : Place} {v : Val sz} (h : Ready s op s1) (hi : instr op = .Sub)
    (hsz : opSize op = some sz) (hdir : flag op 8 = false) (hv : operand sz op s1 = .ok (p, v) s2) :
    ∃ r sr', IsDifference (low sz (s.cpu.regs.d (regField op 9))) v s.cpu.regs.sr r sr' ∧
      Completes C s (s2.withRegs fun g =>
        { setDreg g (regField op 9) (insertLow sz (g.d (regField op 9)) r) with sr := sr' }) := by
  have hx := step_ends C h hi (by decide) rfl
  simp only [Spec.exec] at hx
  have := ends_binary_dn h hsz hdir hv hx
  exact ⟨_, _, isDifference_difference _ _ _, this⟩

/-- `SUB.W D1,D0` with D0 = 0x12340000, D1 = 1: the low word wraps. -/
example : ∃ s1 s2 p v, Ready (Demo.st [0x9041] (Demo.regs [0x12340000, 1] [])) 0x9041 s1 ∧ instr 0x9041 = .Sub ∧
    opSize 0x9041 = some .Word ∧ flag 0x9041 8 = false ∧ operand .Word 0x9041 s1 = .ok (p, v) s2 ∧ v = 1 :=
  ⟨_, _, _, _, ⟨rfl, rfl, by decide, _, rfl, rfl⟩, rfl, rfl, rfl, rfl, rfl⟩

/-- `SUB Dn,ea`: the difference is written to the operand that was read, after the flags changed. -/
theorem C04_sub_to_operand {p : Place} {d : Val sz} (h : Ready s op s1) (hi : instr op = .Sub)
    (hsz : opSize op = some sz) (hdir : flag op 8 = true) (hv : operand sz op s1 = .ok (p, d) s2) :
    ∃ r sr', IsDifference d (low sz (s.cpu.regs.d (regField op 9))) s.cpu.regs.sr r sr' ∧
      EndsWith C s (writeAt sz p r (s2.withRegs fun g => { g with sr := sr' })) := by
  have hx := step_ends C h hi (by decide) rfl
  simp only [Spec.exec] at hx
  exact ⟨_, _, isDifference_difference _ _ _, ends_binary_ea h hsz hdir hv hx⟩

/-- `SUB.B D1,(A0)+` on the byte 1. -/
example : ∃ s1 s2 p v, Ready (Demo.st [0x9318, 0x0100] (Demo.regs [0, 2] [2])) 0x9318 s1 ∧ instr 0x9318 = .Sub ∧
    opSize 0x9318 = some .Byte ∧ flag 0x9318 8 = true ∧ operand .Byte 0x9318 s1 = .ok (p, v) s2 ∧ p = .mem 2 ∧ v = 1 :=
  ⟨_, _, _, _, ⟨rfl, rfl, by decide, _, rfl, rfl⟩, rfl, rfl, rfl, rfl, rfl, rfl⟩

/-- SUB: an operand that cannot be read raises the exception of the access; nothing else changes. -/
theorem C04_sub_operand_error {v : U8} (h : Ready s op s1) (hi : instr op = .Sub)
    (hsz : opSize op = some sz) (hv : operand sz op s1 = .err v s2) : Raises C s v s2 := by
  have hx := step_ends C h hi (by decide) rfl
  simp only [Spec.exec] at hx
  exact ends_binary_err hsz hv hx

/-- `SUB.W (A0),D0` with an odd A0. -/
example : ∃ s1 s2, Ready (Demo.st [0x9050] (Demo.regs [0] [1])) 0x9050 s1 ∧ instr 0x9050 = .Sub ∧
    opSize 0x9050 = some .Word ∧ operand .Word 0x9050 s1 = .err 3 s2 :=
  ⟨_, _, ⟨rfl, rfl, by decide, _, rfl, rfl⟩, rfl, rfl, rfl⟩

/-- `SUBI #i,ea`. -/
theorem C04_subi {i : U32} {p : Place} {d : Val sz} (h : Ready s op s1) (hi : instr op = .Subi)
    (hsz : opSize op = some sz) (himm : fetchImm sz s1 = .ok i s2) (hv : operand sz op s2 = .ok (p, d) s3) :
    ∃ r sr', IsDifference d (low sz i) s.cpu.regs.sr r sr' ∧
      EndsWith C s (writeAt sz p r (s3.withRegs fun g => { g with sr := sr' })) := by
  have hx := step_ends C h hi (by decide) rfl
  simp only [Spec.exec] at hx
  exact ⟨_, _, isDifference_difference _ _ _, ends_immediate h hsz himm hv hx⟩

/-- `SUBI.L #0x80000001,D2` with D2 = 0x7FFFFFFF. -/
example : ∃ s1 s2 s3 i p d, Ready (Demo.st [0x0482, 0x8000, 1] (Demo.regs [0, 0, 0x7FFFFFFF] [])) 0x0482 s1 ∧
    instr 0x0482 = .Subi ∧ opSize 0x0482 = some .Long ∧ fetchImm .Long s1 = .ok i s2 ∧
    operand .Long 0x0482 s2 = .ok (p, d) s3 ∧ i = 0x80000001 ∧ d = 0x7FFFFFFF :=
  ⟨_, _, _, _, _, _, ⟨rfl, rfl, by decide, _, rfl, rfl⟩, rfl, rfl, rfl, rfl, rfl, rfl⟩

/-- SUBI: an operand that cannot be read. -/
theorem C04_subi_operand_error {i : U32} {v : U8} (h : Ready s op s1) (hi : instr op = .Subi)
    (hsz : opSize op = some sz) (himm : fetchImm sz s1 = .ok i s2) (hv : operand sz op s2 = .err v s3) : Raises C s v s3 := by
  have hx := step_ends C h hi (by decide) rfl
  simp only [Spec.exec] at hx
  exact ends_immediate_err hsz himm hv hx

/-- `SUBI.W #1,(A0)` with A0 outside of the memory. -/
example : ∃ s1 s2 s3 i, Ready (Demo.st [0x0450, 1] (Demo.regs [] [0x100])) 0x0450 s1 ∧ instr 0x0450 = .Subi ∧
    opSize 0x0450 = some .Word ∧ fetchImm .Word s1 = .ok i s2 ∧ operand .Word 0x0450 s2 = .err 2 s3 :=
  ⟨_, _, _, _, ⟨rfl, rfl, by decide, _, rfl, rfl⟩, rfl, rfl, rfl, rfl⟩

/-- `SUBQ #k,ea` for an operand that is not an address register: `k` is 1 to 8, 0 standing for 8. -/
theorem C04_subq {p : Place} {d : Val sz} (h : Ready s op s1) (hi : instr op = .Subq)
    (hsz : opSize op = some sz) (hm : regField op 3 ≠ 1) (hv : operand sz op s1 = .ok (p, d) s2) :
    ∃ r sr', IsDifference d (BitVec.ofNat _ (if regField op 9 = 0 then 8 else (regField op 9).val)) s.cpu.regs.sr r sr' ∧
      EndsWith C s (writeAt sz p r (s2.withRegs fun g => { g with sr := sr' })) := by
  have hx := step_ends C h hi (by decide) rfl
  simp only [Spec.exec, sized_some hsz] at hx
  have hq : quick (regField op 9) = if regField op 9 = 0 then 8 else (regField op 9).val := by
    unfold quick; simp only [Fin.ext_iff]; rfl
  rw [← hq]
  exact ⟨_, _, isDifference_difference _ _ _, ends_quick (sub := true) h hm hv hx⟩

/-- `SUBQ.B #8,D3` (data field 0). -/
example : ∃ s1 s2 p d, Ready (Demo.st [0x5103] (Demo.regs [0, 0, 0, 0xF9] [])) 0x5103 s1 ∧ instr 0x5103 = .Subq ∧
    opSize 0x5103 = some .Byte ∧ regField 0x5103 3 ≠ 1 ∧ operand .Byte 0x5103 s1 = .ok (p, d) s2 ∧ d = 0xF9 :=
  ⟨_, _, _, _, ⟨rfl, rfl, by decide, _, rfl, rfl⟩, rfl, rfl, by decide, rfl, rfl⟩

/-- `SUBQ #k,An`: all 32 bits of An change, whatever the size, and the flags do not. -/
theorem C04_subq_address (h : Ready s op s1) (hi : instr op = .Subq) (hsz : opSize op = some sz) (hm : regField op 3 = 1) :
    Completes C s (s1.withRegs fun g => setAreg g (regField op 0)
      (areg g (regField op 0) - BitVec.ofNat 32 (if regField op 9 = 0 then 8 else (regField op 9).val))) := by
  have hx := step_ends C h hi (by decide) rfl
  simp only [Spec.exec, sized_some hsz] at hx
  have hq : quick (regField op 9) = if regField op 9 = 0 then 8 else (regField op 9).val := by
    unfold quick; simp only [Fin.ext_iff]; rfl
  rw [← hq]
  exact ends_quick_an (sub := true) hm hx

/-- `SUBQ.W #1,A0`. -/
example : ∃ s1, Ready (Demo.st [0x5348] (Demo.regs [] [0xFFFF])) 0x5348 s1 ∧ instr 0x5348 = .Subq ∧
    opSize 0x5348 = some .Word ∧ regField 0x5348 3 = 1 :=
  ⟨_, ⟨rfl, rfl, by decide, _, rfl, rfl⟩, rfl, rfl, rfl⟩

/-- `SUBA ea,An`: the operand is sign extended and subtracted from the 32 bits of An; the flags do not change. -/
theorem C04_suba {p : Place} {v : Val (sizeBit op 8)} (h : Ready s op s1) (hi : instr op = .Suba)
    (hv : operand (sizeBit op 8) op s1 = .ok (p, v) s2) :
    Completes C s (s2.withRegs fun g => setAreg g (regField op 9) (areg g (regField op 9) - BitVec.ofInt 32 v.toInt)) := by
  have hx := step_ends C h hi (by decide) rfl
  obtain ⟨m, s', hm, hr⟩ := operand_ok hv
  simp only [Spec.exec] at hx
  rw [endsWith_bind_ok hm] at hx
  unfold readExt at hx
  rw [bind_assoc, endsWith_bind_ok hr, pure_bind, endsWith_cost] at hx
  exact hx

/-- `SUBA.W D0,A0` with D0 = 0x8000: A0 increases by 0x8000. -/
example : ∃ s1 s2 p v, Ready (Demo.st [0x90C0] (Demo.regs [0x8000] [0x10000])) 0x90C0 s1 ∧ instr 0x90C0 = .Suba ∧
    sizeBit 0x90C0 8 = .Word ∧ operand (sizeBit 0x90C0 8) 0x90C0 s1 = .ok (p, v) s2 ∧ v.toInt = -0x8000 :=
  ⟨_, _, _, _, ⟨rfl, rfl, by decide, _, rfl, rfl⟩, rfl, rfl, rfl, rfl⟩

/-- `NEG ea`: the operand is subtracted from 0. -/
theorem C04_neg {p : Place} {d : Val sz} (h : Ready s op s1) (hi : instr op = .Neg)
    (hsz : opSize op = some sz) (hv : operand sz op s1 = .ok (p, d) s2) :
    ∃ r sr', IsDifference 0 d s.cpu.regs.sr r sr' ∧
      EndsWith C s (writeAt sz p r (s2.withRegs fun g => { g with sr := sr' })) := by
  have hx := step_ends C h hi (by decide) rfl
  simp only [Spec.exec] at hx
  have := ends_unary (f := fun d => difference false 0 d) (fun _ => rfl) h hsz hv hx
  exact ⟨_, _, isDifference_difference _ _ _, this⟩

/-- `NEG.B D0` on 0x80, which has no opposite: V is set by the theorem. -/
example : ∃ s1 s2 p d, Ready (Demo.st [0x4400] (Demo.regs [0xAA80] [])) 0x4400 s1 ∧ instr 0x4400 = .Neg ∧
    opSize 0x4400 = some .Byte ∧ operand .Byte 0x4400 s1 = .ok (p, d) s2 ∧ d = 0x80 :=
  ⟨_, _, _, _, ⟨rfl, rfl, by decide, _, rfl, rfl⟩, rfl, rfl, rfl, rfl⟩

/-- NEG: an operand that cannot be read. -/
theorem C04_neg_operand_error {v : U8} (h : Ready s op s1) (hi : instr op = .Neg)
    (hsz : opSize op = some sz) (hv : operand sz op s1 = .err v s2) : Raises C s v s2 := by
  have hx := step_ends C h hi (by decide) rfl
  simp only [Spec.exec] at hx
  exact ends_unary_err rmw_err hsz hv hx

/-- `NEG.L (A1)` with an odd A1. -/
example : ∃ s1 s2, Ready (Demo.st [0x4491] (Demo.regs [] [0, 7])) 0x4491 s1 ∧ instr 0x4491 = .Neg ∧
    opSize 0x4491 = some .Long ∧ operand .Long 0x4491 s1 = .err 3 s2 :=
  ⟨_, _, ⟨rfl, rfl, by decide, _, rfl, rfl⟩, rfl, rfl, rfl⟩

end M68k.Props
