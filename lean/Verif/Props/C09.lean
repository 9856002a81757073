import Verif.Lemmas.Ends
import Verif.Lemmas.Claims
import Verif.Props.Demo
/-
C09: AND, OR, EOR, NOT and their immediate forms.

`LogicCodes r sr sr'` (Spec/Claims.lean): N and Z of `sr'` describe `r`, V and C are clear, the rest is
as in `sr`. The bitwise functions are those of `BitVec` on exactly the width of the operand.
-/
namespace M68k.Props
open Spec Exec
variable {M : Type} [MemoryAccess M] {C : CpuDetails} {s s1 s2 s3 : St M} {op : U16} {sz : Size}

/-- `AND ea,Dn`. -/
theorem C09_and_to_register {p : Place} {v : Val sz} (h : Ready s op s1) (hi : instr op = .And)
    (hsz : opSize op = some sz) (hdir : flag op 8 = false) (hv : operand sz op s1 = .ok (p, v) s2) :
    ∃ sr', LogicCodes (low sz (s.cpu.regs.d (regField op 9)) &&& v) s.cpu.regs.sr sr' ∧
      Completes C s (s2.withRegs fun g =>
        { setDreg g (regField op 9) (insertLow sz (g.d (regField op 9)) (low sz (s.cpu.regs.d (regField op 9)) &&& v))
          with sr := sr' }) := by
  have hx := step_ends C h hi (by decide) rfl
  simp only [Spec.exec] at hx
  have := ends_binary_dn h hsz hdir hv hx
  exact ⟨_, logicCodes_logicFlags _ _, this⟩

/-- `AND.W D1,D0`. -/
example : ∃ s1 s2 p v, Ready (Demo.st [0xC041] (Demo.regs [0x1234FF0F, 0xF0FF] [])) 0xC041 s1 ∧ instr 0xC041 = .And ∧
    opSize 0xC041 = some .Word ∧ flag 0xC041 8 = false ∧ operand .Word 0xC041 s1 = .ok (p, v) s2 ∧ v = 0xF0FF :=
  ⟨_, _, _, _, ⟨rfl, rfl, by decide, _, rfl, rfl⟩, rfl, rfl, rfl, rfl, rfl⟩

/-- `AND Dn,ea`. -/
theorem C09_and_to_operand {p : Place} {d : Val sz} (h : Ready s op s1) (hi : instr op = .And)
    (hsz : opSize op = some sz) (hdir : flag op 8 = true) (hv : operand sz op s1 = .ok (p, d) s2) :
    ∃ sr', LogicCodes (d &&& low sz (s.cpu.regs.d (regField op 9))) s.cpu.regs.sr sr' ∧
      EndsWith C s (writeAt sz p (d &&& low sz (s.cpu.regs.d (regField op 9))) (s2.withRegs fun g => { g with sr := sr' })) := by
  have hx := step_ends C h hi (by decide) rfl
  simp only [Spec.exec] at hx
  have := ends_binary_ea h hsz hdir hv hx
  exact ⟨_, logicCodes_logicFlags _ _, this⟩

/-- `AND.B D1,(A0)+`. -/
example : ∃ s1 s2 p v, Ready (Demo.st [0xC318, 0xF300] (Demo.regs [0, 0xF] [2])) 0xC318 s1 ∧ instr 0xC318 = .And ∧
    opSize 0xC318 = some .Byte ∧ flag 0xC318 8 = true ∧ operand .Byte 0xC318 s1 = .ok (p, v) s2 ∧ p = .mem 2 ∧ v = 0xF3 :=
  ⟨_, _, _, _, ⟨rfl, rfl, by decide, _, rfl, rfl⟩, rfl, rfl, rfl, rfl, rfl, rfl⟩

/-- AND: an operand that cannot be read raises the exception of the access. -/
theorem C09_and_operand_error {v : U8} (h : Ready s op s1) (hi : instr op = .And)
    (hsz : opSize op = some sz) (hv : operand sz op s1 = .err v s2) : Raises C s v s2 := by
  have hx := step_ends C h hi (by decide) rfl
  simp only [Spec.exec] at hx
  exact ends_binary_err hsz hv hx

/-- `AND.W (A0),D0` with an odd A0. -/
example : ∃ s1 s2, Ready (Demo.st [0xC050] (Demo.regs [0] [1])) 0xC050 s1 ∧ instr 0xC050 = .And ∧
    opSize 0xC050 = some .Word ∧ operand .Word 0xC050 s1 = .err 3 s2 :=
  ⟨_, _, ⟨rfl, rfl, by decide, _, rfl, rfl⟩, rfl, rfl, rfl⟩

/-- `OR ea,Dn`. -/
theorem C09_or_to_register {p : Place} {v : Val sz} (h : Ready s op s1) (hi : instr op = .Or)
    (hsz : opSize op = some sz) (hdir : flag op 8 = false) (hv : operand sz op s1 = .ok (p, v) s2) :
    ∃ sr', LogicCodes (low sz (s.cpu.regs.d (regField op 9)) ||| v) s.cpu.regs.sr sr' ∧
      Completes C s (s2.withRegs fun g =>
        { setDreg g (regField op 9) (insertLow sz (g.d (regField op 9)) (low sz (s.cpu.regs.d (regField op 9)) ||| v))
          with sr := sr' }) := by
  have hx := step_ends C h hi (by decide) rfl
  simp only [Spec.exec] at hx
  have := ends_binary_dn h hsz hdir hv hx
  exact ⟨_, logicCodes_logicFlags _ _, this⟩

/-- `OR.W D1,D0`. -/
example : ∃ s1 s2 p v, Ready (Demo.st [0x8041] (Demo.regs [0x1234FF0F, 0xF0FF] [])) 0x8041 s1 ∧ instr 0x8041 = .Or ∧
    opSize 0x8041 = some .Word ∧ flag 0x8041 8 = false ∧ operand .Word 0x8041 s1 = .ok (p, v) s2 ∧ v = 0xF0FF :=
  ⟨_, _, _, _, ⟨rfl, rfl, by decide, _, rfl, rfl⟩, rfl, rfl, rfl, rfl, rfl⟩

/-- `OR Dn,ea`. -/
theorem C09_or_to_operand {p : Place} {d : Val sz} (h : Ready s op s1) (hi : instr op = .Or)
    (hsz : opSize op = some sz) (hdir : flag op 8 = true) (hv : operand sz op s1 = .ok (p, d) s2) :
    ∃ sr', LogicCodes (d ||| low sz (s.cpu.regs.d (regField op 9))) s.cpu.regs.sr sr' ∧
      EndsWith C s (writeAt sz p (d ||| low sz (s.cpu.regs.d (regField op 9))) (s2.withRegs fun g => { g with sr := sr' })) := by
  have hx := step_ends C h hi (by decide) rfl
  simp only [Spec.exec] at hx
  have := ends_binary_ea h hsz hdir hv hx
  exact ⟨_, logicCodes_logicFlags _ _, this⟩

/-- `OR.B D1,(A0)+`. -/
example : ∃ s1 s2 p v, Ready (Demo.st [0x8318, 0xF300] (Demo.regs [0, 0xF] [2])) 0x8318 s1 ∧ instr 0x8318 = .Or ∧
    opSize 0x8318 = some .Byte ∧ flag 0x8318 8 = true ∧ operand .Byte 0x8318 s1 = .ok (p, v) s2 ∧ p = .mem 2 ∧ v = 0xF3 :=
  ⟨_, _, _, _, ⟨rfl, rfl, by decide, _, rfl, rfl⟩, rfl, rfl, rfl, rfl, rfl, rfl⟩

/-- OR: an operand that cannot be read raises the exception of the access. -/
theorem C09_or_operand_error {v : U8} (h : Ready s op s1) (hi : instr op = .Or)
    (hsz : opSize op = some sz) (hv : operand sz op s1 = .err v s2) : Raises C s v s2 := by
  have hx := step_ends C h hi (by decide) rfl
  simp only [Spec.exec] at hx
  exact ends_binary_err hsz hv hx

/-- `OR.W (A0),D0` with an odd A0. -/
example : ∃ s1 s2, Ready (Demo.st [0x8050] (Demo.regs [0] [1])) 0x8050 s1 ∧ instr 0x8050 = .Or ∧
    opSize 0x8050 = some .Word ∧ operand .Word 0x8050 s1 = .err 3 s2 :=
  ⟨_, _, ⟨rfl, rfl, by decide, _, rfl, rfl⟩, rfl, rfl, rfl⟩

/-- `ANDI #i,ea`. -/
theorem C09_andi {i : U32} {p : Place} {d : Val sz} (h : Ready s op s1) (hi : instr op = .Andi)
    (hsz : opSize op = some sz) (himm : fetchImm sz s1 = .ok i s2) (hv : operand sz op s2 = .ok (p, d) s3) :
    ∃ sr', LogicCodes (d &&& low sz i) s.cpu.regs.sr sr' ∧
      EndsWith C s (writeAt sz p (d &&& low sz i) (s3.withRegs fun g => { g with sr := sr' })) := by
  have hx := step_ends C h hi (by decide) rfl
  simp only [Spec.exec] at hx
  have := ends_immediate h hsz himm hv hx
  exact ⟨_, logicCodes_logicFlags _ _, this⟩

/-- `ANDI.L #0x80000001,D2`. -/
example : ∃ s1 s2 s3 i p d, Ready (Demo.st [0x0282, 0x8000, 1] (Demo.regs [0, 0, 0x7FFFFFFF] [])) 0x0282 s1 ∧
    instr 0x0282 = .Andi ∧ opSize 0x0282 = some .Long ∧ fetchImm .Long s1 = .ok i s2 ∧
    operand .Long 0x0282 s2 = .ok (p, d) s3 ∧ i = 0x80000001 ∧ d = 0x7FFFFFFF :=
  ⟨_, _, _, _, _, _, ⟨rfl, rfl, by decide, _, rfl, rfl⟩, rfl, rfl, rfl, rfl, rfl, rfl⟩

/-- ANDI: an operand that cannot be read. -/
theorem C09_andi_operand_error {i : U32} {v : U8} (h : Ready s op s1) (hi : instr op = .Andi)
    (hsz : opSize op = some sz) (himm : fetchImm sz s1 = .ok i s2) (hv : operand sz op s2 = .err v s3) : Raises C s v s3 := by
  have hx := step_ends C h hi (by decide) rfl
  simp only [Spec.exec] at hx
  exact ends_immediate_err hsz himm hv hx

/-- `ANDI.W #1,(A0)` with A0 outside of the memory. -/
example : ∃ s1 s2 s3 i, Ready (Demo.st [0x0250, 1] (Demo.regs [] [0x100])) 0x0250 s1 ∧ instr 0x0250 = .Andi ∧
    opSize 0x0250 = some .Word ∧ fetchImm .Word s1 = .ok i s2 ∧ operand .Word 0x0250 s2 = .err 2 s3 :=
  ⟨_, _, _, _, ⟨rfl, rfl, by decide, _, rfl, rfl⟩, rfl, rfl, rfl, rfl⟩

/-- `ORI #i,ea`. -/
theorem C09_ori {i : U32} {p : Place} {d : Val sz} (h : Ready s op s1) (hi : instr op = .Ori)
    (hsz : opSize op = some sz) (himm : fetchImm sz s1 = .ok i s2) (hv : operand sz op s2 = .ok (p, d) s3) :
    ∃ sr', LogicCodes (d ||| low sz i) s.cpu.regs.sr sr' ∧
      EndsWith C s (writeAt sz p (d ||| low sz i) (s3.withRegs fun g => { g with sr := sr' })) := by
  have hx := step_ends C h hi (by decide) rfl
  simp only [Spec.exec] at hx
  have := ends_immediate h hsz himm hv hx
  exact ⟨_, logicCodes_logicFlags _ _, this⟩

/-- `ORI.L #0x80000001,D2`. -/
example : ∃ s1 s2 s3 i p d, Ready (Demo.st [0x0082, 0x8000, 1] (Demo.regs [0, 0, 0x7FFFFFFF] [])) 0x0082 s1 ∧
    instr 0x0082 = .Ori ∧ opSize 0x0082 = some .Long ∧ fetchImm .Long s1 = .ok i s2 ∧
    operand .Long 0x0082 s2 = .ok (p, d) s3 ∧ i = 0x80000001 ∧ d = 0x7FFFFFFF :=
  ⟨_, _, _, _, _, _, ⟨rfl, rfl, by decide, _, rfl, rfl⟩, rfl, rfl, rfl, rfl, rfl, rfl⟩

/-- ORI: an operand that cannot be read. -/
theorem C09_ori_operand_error {i : U32} {v : U8} (h : Ready s op s1) (hi : instr op = .Ori)
    (hsz : opSize op = some sz) (himm : fetchImm sz s1 = .ok i s2) (hv : operand sz op s2 = .err v s3) : Raises C s v s3 := by
  have hx := step_ends C h hi (by decide) rfl
  simp only [Spec.exec] at hx
  exact ends_immediate_err hsz himm hv hx

/-- `ORI.W #1,(A0)` with A0 outside of the memory. -/
example : ∃ s1 s2 s3 i, Ready (Demo.st [0x0050, 1] (Demo.regs [] [0x100])) 0x0050 s1 ∧ instr 0x0050 = .Ori ∧
    opSize 0x0050 = some .Word ∧ fetchImm .Word s1 = .ok i s2 ∧ operand .Word 0x0050 s2 = .err 2 s3 :=
  ⟨_, _, _, _, ⟨rfl, rfl, by decide, _, rfl, rfl⟩, rfl, rfl, rfl, rfl⟩

/-- `EORI #i,ea`. -/
theorem C09_eori {i : U32} {p : Place} {d : Val sz} (h : Ready s op s1) (hi : instr op = .Eori)
    (hsz : opSize op = some sz) (himm : fetchImm sz s1 = .ok i s2) (hv : operand sz op s2 = .ok (p, d) s3) :
    ∃ sr', LogicCodes (d ^^^ low sz i) s.cpu.regs.sr sr' ∧
      EndsWith C s (writeAt sz p (d ^^^ low sz i) (s3.withRegs fun g => { g with sr := sr' })) := by
  have hx := step_ends C h hi (by decide) rfl
  simp only [Spec.exec] at hx
  have := ends_immediate h hsz himm hv hx
  exact ⟨_, logicCodes_logicFlags _ _, this⟩

/-- `EORI.L #0x80000001,D2`. -/
example : ∃ s1 s2 s3 i p d, Ready (Demo.st [0x0A82, 0x8000, 1] (Demo.regs [0, 0, 0x7FFFFFFF] [])) 0x0A82 s1 ∧
    instr 0x0A82 = .Eori ∧ opSize 0x0A82 = some .Long ∧ fetchImm .Long s1 = .ok i s2 ∧
    operand .Long 0x0A82 s2 = .ok (p, d) s3 ∧ i = 0x80000001 ∧ d = 0x7FFFFFFF :=
  ⟨_, _, _, _, _, _, ⟨rfl, rfl, by decide, _, rfl, rfl⟩, rfl, rfl, rfl, rfl, rfl, rfl⟩

/-- EORI: an operand that cannot be read. -/
theorem C09_eori_operand_error {i : U32} {v : U8} (h : Ready s op s1) (hi : instr op = .Eori)
    (hsz : opSize op = some sz) (himm : fetchImm sz s1 = .ok i s2) (hv : operand sz op s2 = .err v s3) : Raises C s v s3 := by
  have hx := step_ends C h hi (by decide) rfl
  simp only [Spec.exec] at hx
  exact ends_immediate_err hsz himm hv hx

/-- `EORI.W #1,(A0)` with A0 outside of the memory. -/
example : ∃ s1 s2 s3 i, Ready (Demo.st [0x0A50, 1] (Demo.regs [] [0x100])) 0x0A50 s1 ∧ instr 0x0A50 = .Eori ∧
    opSize 0x0A50 = some .Word ∧ fetchImm .Word s1 = .ok i s2 ∧ operand .Word 0x0A50 s2 = .err 2 s3 :=
  ⟨_, _, _, _, ⟨rfl, rfl, by decide, _, rfl, rfl⟩, rfl, rfl, rfl, rfl⟩

/-- `EOR Dn,ea`. -/
theorem C09_eor {p : Place} {d : Val sz} (h : Ready s op s1) (hi : instr op = .Eor)
    (hsz : opSize op = some sz) (hv : operand sz op s1 = .ok (p, d) s2) :
    ∃ sr', LogicCodes (d ^^^ low sz (s.cpu.regs.d (regField op 9))) s.cpu.regs.sr sr' ∧
      EndsWith C s (writeAt sz p (d ^^^ low sz (s.cpu.regs.d (regField op 9))) (s2.withRegs fun g => { g with sr := sr' })) := by
  have hx := step_ends C h hi (by decide) rfl
  simp only [Spec.exec, sized_some hsz] at hx
  have := ends_opToEa h hsz hv hx
  exact ⟨_, logicCodes_logicFlags _ _, this⟩

/-- `EOR.B D1,(A0)+`. -/
example : ∃ s1 s2 p v, Ready (Demo.st [0xB318, 0xF300] (Demo.regs [0, 0xF] [2])) 0xB318 s1 ∧ instr 0xB318 = .Eor ∧
    opSize 0xB318 = some .Byte ∧ operand .Byte 0xB318 s1 = .ok (p, v) s2 ∧ p = .mem 2 ∧ v = 0xF3 :=
  ⟨_, _, _, _, ⟨rfl, rfl, by decide, _, rfl, rfl⟩, rfl, rfl, rfl, rfl, rfl⟩

/-- `NOT ea`. The complement is written first; the flags change if the write succeeds. -/
theorem C09_not {p : Place} {d : Val sz} (h : Ready s op s1) (hi : instr op = .Not)
    (hsz : opSize op = some sz) (hv : operand sz op s1 = .ok (p, d) s2) :
    (∀ s3, writeAt sz p (~~~d) s2 = .ok () s3 →
      ∃ sr', LogicCodes (~~~d) s3.cpu.regs.sr sr' ∧ Completes C s (s3.withRegs fun g => { g with sr := sr' })) ∧
    (∀ v s3, writeAt sz p (~~~d) s2 = .err v s3 → Raises C s v s3) ∧
    (writeAt sz p (~~~d) s2 = .panic → interpreterException C s = .panic) := by
  have hx := step_ends C h hi (by decide) rfl
  simp only [Spec.exec] at hx
  unfold unary at hx
  rw [sized_some hsz] at hx
  obtain ⟨m, s', hm, hr⟩ := operand_ok hv
  rw [endsWith_bind_ok hm, endsWith_cost, endsWith_bind_ok hr] at hx
  refine ⟨?_, ?_, ?_⟩
  · intro s3 hw
    rw [endsWith_bind_ok hw] at hx
    exact ⟨_, logicCodes_logicFlags _ _, hx⟩
  · intro v s3 hw
    rwa [endsWith_bind_err hw] at hx
  · intro hw
    rw [bind_apply, hw] at hx
    exact hx

/-- `NOT.W (A0)`. -/
example : ∃ s1 s2 s3 p d, Ready (Demo.st [0x4650, 0x0FF0] (Demo.regs [] [2])) 0x4650 s1 ∧ instr 0x4650 = .Not ∧
    opSize 0x4650 = some .Word ∧ operand .Word 0x4650 s1 = .ok (p, d) s2 ∧ d = 0x0FF0 ∧
    writeAt .Word p (~~~d) s2 = .ok () s3 :=
  ⟨_, _, _, _, _, ⟨rfl, rfl, by decide, _, rfl, rfl⟩, rfl, rfl, rfl, rfl, rfl⟩

end M68k.Props
