import Verif.Lemmas.Ends
import Verif.Lemmas.Claims
import Verif.Props.Demo
/-
C03: ADD, ADDI, ADDQ compute the sum and its flags.

`IsSum d v sr r sr'` (Spec/Claims.lean) says on integers that `r` is the sum of `d` and `v` and that the
condition codes of `sr'` are those of this addition. `operand sz op` (Spec/Step.lean, Spec/Machine.lean)
evaluates the effective address field of the opcode and reads the operand.
-/
namespace M68k.Props
open Spec Exec
variable {M : Type} [MemoryAccess M] {C : CpuDetails} {s s1 s2 s3 : St M} {op : U16} {sz : Size}

/-- `ADD ea,Dn`: the low bits of Dn become the sum, the flags are those of the addition, everything
else is as after the evaluation of the operand. -/
theorem C03_add_to_register {p : Place} {v : Val sz} (h : Ready s op s1) (hi : instr op = .Add)
    (hsz : opSize op = some sz) (hdir : flag op 8 = false) (hv : operand sz op s1 = .ok (p, v) s2) :
    ∃ r sr', IsSum (low sz (s.cpu.regs.d (regField op 9))) v s.cpu.regs.sr r sr' ∧
      Completes C s (s2.withRegs fun g =>
        { setDreg g (regField op 9) (insertLow sz (g.d (regField op 9)) r) with sr := sr' }) := by
  have hx := step_ends C h hi (by decide) rfl
  simp only [Spec.exec] at hx
  have := ends_binary_dn h hsz hdir hv hx
  exact ⟨_, _, isSum_sum _ _ _, this⟩

/-- `ADD.W D1,D0` with D0 = 0x1234FFFF, D1 = 1: the low word wraps. -/
example : ∃ s1 s2 p v, Ready (Demo.st [0xD041] (Demo.regs [0x1234FFFF, 1] [])) 0xD041 s1 ∧ instr 0xD041 = .Add ∧
    opSize 0xD041 = some .Word ∧ flag 0xD041 8 = false ∧ operand .Word 0xD041 s1 = .ok (p, v) s2 ∧ v = 1 :=
  ⟨_, _, _, _, ⟨rfl, rfl, by decide, _, rfl, rfl⟩, rfl, rfl, rfl, rfl, rfl⟩

/-- `ADD Dn,ea`: the sum is written to the operand that was read, after the flags changed. -/
theorem C03_add_to_operand {p : Place} {d : Val sz} (h : Ready s op s1) (hi : instr op = .Add)
    (hsz : opSize op = some sz) (hdir : flag op 8 = true) (hv : operand sz op s1 = .ok (p, d) s2) :
    ∃ r sr', IsSum d (low sz (s.cpu.regs.d (regField op 9))) s.cpu.regs.sr r sr' ∧
      EndsWith C s (writeAt sz p r (s2.withRegs fun g => { g with sr := sr' })) := by
  have hx := step_ends C h hi (by decide) rfl
  simp only [Spec.exec] at hx
  exact ⟨_, _, isSum_sum _ _ _, ends_binary_ea h hsz hdir hv hx⟩

/-- `ADD.B D1,(A0)+` on the byte 0xFF. -/
example : ∃ s1 s2 p v, Ready (Demo.st [0xD318, 0xFF00] (Demo.regs [0, 2] [2])) 0xD318 s1 ∧ instr 0xD318 = .Add ∧
    opSize 0xD318 = some .Byte ∧ flag 0xD318 8 = true ∧ operand .Byte 0xD318 s1 = .ok (p, v) s2 ∧ p = .mem 2 ∧ v = 0xFF :=
  ⟨_, _, _, _, ⟨rfl, rfl, by decide, _, rfl, rfl⟩, rfl, rfl, rfl, rfl, rfl, rfl⟩

/-- ADD: an operand that cannot be read raises the exception of the access; nothing else changes. -/
theorem C03_add_operand_error {v : U8} (h : Ready s op s1) (hi : instr op = .Add)
    (hsz : opSize op = some sz) (hv : operand sz op s1 = .err v s2) : Raises C s v s2 := by
  have hx := step_ends C h hi (by decide) rfl
  simp only [Spec.exec] at hx
  exact ends_binary_err hsz hv hx

/-- `ADD.W (A0),D0` with an odd A0. -/
example : ∃ s1 s2, Ready (Demo.st [0xD050] (Demo.regs [0] [1])) 0xD050 s1 ∧ instr 0xD050 = .Add ∧
    opSize 0xD050 = some .Word ∧ operand .Word 0xD050 s1 = .err 3 s2 :=
  ⟨_, _, ⟨rfl, rfl, by decide, _, rfl, rfl⟩, rfl, rfl, rfl⟩

/-- `ADDI #i,ea`. -/
theorem C03_addi {i : U32} {p : Place} {d : Val sz} (h : Ready s op s1) (hi : instr op = .Addi)
    (hsz : opSize op = some sz) (himm : fetchImm sz s1 = .ok i s2) (hv : operand sz op s2 = .ok (p, d) s3) :
    ∃ r sr', IsSum d (low sz i) s.cpu.regs.sr r sr' ∧
      EndsWith C s (writeAt sz p r (s3.withRegs fun g => { g with sr := sr' })) := by
  have hx := step_ends C h hi (by decide) rfl
  simp only [Spec.exec] at hx
  exact ⟨_, _, isSum_sum _ _ _, ends_immediate h hsz himm hv hx⟩

/-- `ADDI.L #0x80000001,D2` with D2 = 0x7FFFFFFF. -/
example : ∃ s1 s2 s3 i p d, Ready (Demo.st [0x0682, 0x8000, 1] (Demo.regs [0, 0, 0x7FFFFFFF] [])) 0x0682 s1 ∧
    instr 0x0682 = .Addi ∧ opSize 0x0682 = some .Long ∧ fetchImm .Long s1 = .ok i s2 ∧
    operand .Long 0x0682 s2 = .ok (p, d) s3 ∧ i = 0x80000001 ∧ d = 0x7FFFFFFF :=
  ⟨_, _, _, _, _, _, ⟨rfl, rfl, by decide, _, rfl, rfl⟩, rfl, rfl, rfl, rfl, rfl, rfl⟩

/-- ADDI: an operand that cannot be read. -/
theorem C03_addi_operand_error {i : U32} {v : U8} (h : Ready s op s1) (hi : instr op = .Addi)
    (hsz : opSize op = some sz) (himm : fetchImm sz s1 = .ok i s2) (hv : operand sz op s2 = .err v s3) : Raises C s v s3 := by
  have hx := step_ends C h hi (by decide) rfl
  simp only [Spec.exec] at hx
  exact ends_immediate_err hsz himm hv hx

/-- `ADDI.W #1,(A0)` with A0 outside of the memory. -/
example : ∃ s1 s2 s3 i, Ready (Demo.st [0x0650, 1] (Demo.regs [] [0x100])) 0x0650 s1 ∧ instr 0x0650 = .Addi ∧
    opSize 0x0650 = some .Word ∧ fetchImm .Word s1 = .ok i s2 ∧ operand .Word 0x0650 s2 = .err 2 s3 :=
  ⟨_, _, _, _, ⟨rfl, rfl, by decide, _, rfl, rfl⟩, rfl, rfl, rfl, rfl⟩

/-- `ADDQ #k,ea` for an operand that is not an address register: `k` is 1 to 8, 0 standing for 8. -/
theorem C03_addq {p : Place} {d : Val sz} (h : Ready s op s1) (hi : instr op = .Addq)
    (hsz : opSize op = some sz) (hm : regField op 3 ≠ 1) (hv : operand sz op s1 = .ok (p, d) s2) :
    ∃ r sr', IsSum d (BitVec.ofNat _ (if regField op 9 = 0 then 8 else (regField op 9).val)) s.cpu.regs.sr r sr' ∧
      EndsWith C s (writeAt sz p r (s2.withRegs fun g => { g with sr := sr' })) := by
  have hx := step_ends C h hi (by decide) rfl
  simp only [Spec.exec, sized_some hsz] at hx
  have hq : quick (regField op 9) = if regField op 9 = 0 then 8 else (regField op 9).val := by
    unfold quick; simp only [Fin.ext_iff]; rfl
  rw [← hq]
  exact ⟨_, _, isSum_sum _ _ _, ends_quick (sub := false) h hm hv hx⟩

/-- `ADDQ.B #8,D3` (data field 0). -/
example : ∃ s1 s2 p d, Ready (Demo.st [0x5003] (Demo.regs [0, 0, 0, 0xF9] [])) 0x5003 s1 ∧ instr 0x5003 = .Addq ∧
    opSize 0x5003 = some .Byte ∧ regField 0x5003 3 ≠ 1 ∧ operand .Byte 0x5003 s1 = .ok (p, d) s2 ∧ d = 0xF9 :=
  ⟨_, _, _, _, ⟨rfl, rfl, by decide, _, rfl, rfl⟩, rfl, rfl, by decide, rfl, rfl⟩

/-- `ADDQ #k,An`: all 32 bits of An change, whatever the size, and the flags do not. -/
theorem C03_addq_address (h : Ready s op s1) (hi : instr op = .Addq) (hsz : opSize op = some sz) (hm : regField op 3 = 1) :
    Completes C s (s1.withRegs fun g => setAreg g (regField op 0)
      (areg g (regField op 0) + BitVec.ofNat 32 (if regField op 9 = 0 then 8 else (regField op 9).val))) := by
  have hx := step_ends C h hi (by decide) rfl
  simp only [Spec.exec, sized_some hsz] at hx
  have hq : quick (regField op 9) = if regField op 9 = 0 then 8 else (regField op 9).val := by
    unfold quick; simp only [Fin.ext_iff]; rfl
  rw [← hq]
  exact ends_quick_an (sub := false) hm hx

/-- `ADDQ.W #1,A0`. -/
example : ∃ s1, Ready (Demo.st [0x5248] (Demo.regs [] [0xFFFF])) 0x5248 s1 ∧ instr 0x5248 = .Addq ∧
    opSize 0x5248 = some .Word ∧ regField 0x5248 3 = 1 :=
  ⟨_, ⟨rfl, rfl, by decide, _, rfl, rfl⟩, rfl, rfl, rfl⟩

/-- `ADDA ea,An`: the operand is sign extended and added to the 32 bits of An; the flags do not change. -/
theorem C03_adda {p : Place} {v : Val (sizeBit op 8)} (h : Ready s op s1) (hi : instr op = .Adda)
    (hv : operand (sizeBit op 8) op s1 = .ok (p, v) s2) :
    Completes C s (s2.withRegs fun g => setAreg g (regField op 9) (areg g (regField op 9) + BitVec.ofInt 32 v.toInt)) := by
  have hx := step_ends C h hi (by decide) rfl
  obtain ⟨m, s', hm, hr⟩ := operand_ok hv
  simp only [Spec.exec] at hx
  rw [endsWith_bind_ok hm] at hx
  unfold readExt at hx
  rw [bind_assoc, endsWith_bind_ok hr, pure_bind, endsWith_cost] at hx
  exact hx

/-- `ADDA.W D0,A0` with D0 = 0x8000: A0 decreases by 0x8000. -/
example : ∃ s1 s2 p v, Ready (Demo.st [0xD0C0] (Demo.regs [0x8000] [0x10000])) 0xD0C0 s1 ∧ instr 0xD0C0 = .Adda ∧
    sizeBit 0xD0C0 8 = .Word ∧ operand (sizeBit 0xD0C0 8) 0xD0C0 s1 = .ok (p, v) s2 ∧ v.toInt = -0x8000 :=
  ⟨_, _, _, _, ⟨rfl, rfl, by decide, _, rfl, rfl⟩, rfl, rfl, rfl, rfl⟩

end M68k.Props
