import Verif.Lemmas.Alike
import Verif.Lemmas.Pending
/-
The two interpreters execute the same instruction bodies with the same operands.
-/
namespace M68k.Exec
variable {M : Type} [MemoryAccess M]
set_option linter.unusedSectionVars false

/-- Operands decoded to a tuple and used at once, or packed in `Operands` and unpacked. -/
theorem agree_withIter {α : Type} (x : Dec M α) (h : α → Exec M Nat) (z : α → Dec M Operands) (K : α → Operands) (g : Operands → Exec M Nat)
    (hz : ∀ a, z a = pure (K a)) (hg : ∀ a, g (K a) = h a) (s : St M) :
    Exec.bind (withIter x) h s = Exec.bind (withIter (Dec.bind x z)) g s := by
  have hz : z = fun a => pure (K a) := funext hz
  subst hz
  unfold Exec.bind withIter Dec.bind
  dsimp only
  cases x ⟨s.mem, s.cpu.regs.pc⟩ with
  | none => rfl
  | some p => exact (congrFun (hg p.1) _).symm

/-- What the disassembling interpreter executes after the opcode has been read, as one action. -/
def decodeExecute (C : CpuDetails) (isa : Isa) : Exec M Nat := fun s =>
  Exec.bind (withIter (isaEntryDecode isa s.cpu.currentOpcode)) (fun ops => instructionExecute C isa ⟨s.cpu.currentOpcode, s.cpu.regs.pc - 2, ops⟩) s

theorem fastExecute_decode (C : CpuDetails) (isa : Isa) (s : St M) : fastExecute C isa s = decodeExecute C isa s := by
  have hpc : s.cpu.regs.pc - 2 + 2 = s.cpu.regs.pc := by rw [BitVec.sub_add_cancel]
  unfold decodeExecute
  cases isa
  case Unknown => rfl
  case Abcd =>
    exact agree_withIter (Decode.registerSizeModeRegister s.cpu.currentOpcode) (fun x => match x with | (rx, _, mode, ry) => executeAbcd C rx mode ry) (fun x => match x with | (a, b, c, d) => pure (.RegisterSizeModeRegister a b c d)) (fun x => match x with | (a, b, c, d) => .RegisterSizeModeRegister a b c d)
      (fun ops => instructionExecute C .Abcd ⟨s.cpu.currentOpcode, s.cpu.regs.pc - 2, ops⟩) (fun _ => rfl) (fun _ => rfl) s
  case Add =>
    exact agree_withIter (Decode.registerDirectionSizeEffectiveAddress s.cpu.currentOpcode) (fun x => match x with | (reg, dir, size, am) => executeAdd C reg dir size am) (fun x => match x with | (a, b, c, d) => pure (.RegisterDirectionSizeEffectiveAddress a b c d)) (fun x => match x with | (a, b, c, d) => .RegisterDirectionSizeEffectiveAddress a b c d)
      (fun ops => instructionExecute C .Add ⟨s.cpu.currentOpcode, s.cpu.regs.pc - 2, ops⟩) (fun _ => rfl) (fun _ => rfl) s
  case Adda =>
    exact agree_withIter (Decode.registerSizeEffectiveAddress s.cpu.currentOpcode) (fun x => match x with | (reg, size, am) => executeAdda C reg size am) (fun x => match x with | (a, b, c) => pure (.RegisterSizeEffectiveAddress a b c)) (fun x => match x with | (a, b, c) => .RegisterSizeEffectiveAddress a b c)
      (fun ops => instructionExecute C .Adda ⟨s.cpu.currentOpcode, s.cpu.regs.pc - 2, ops⟩) (fun _ => rfl) (fun _ => rfl) s
  case Addi =>
    exact agree_withIter (Decode.sizeEffectiveAddressImmediate s.cpu.currentOpcode) (fun x => match x with | (size, am, imm) => executeAddi C size am imm) (fun x => match x with | (a, b, c) => pure (.SizeEffectiveAddressImmediate a b c)) (fun x => match x with | (a, b, c) => .SizeEffectiveAddressImmediate a b c)
      (fun ops => instructionExecute C .Addi ⟨s.cpu.currentOpcode, s.cpu.regs.pc - 2, ops⟩) (fun _ => rfl) (fun _ => rfl) s
  case Addq =>
    exact agree_withIter (Decode.dataSizeEffectiveAddress s.cpu.currentOpcode) (fun x => match x with | (imm, size, am) => executeAddq C imm size am) (fun x => match x with | (a, b, c) => pure (.DataSizeEffectiveAddress a b c)) (fun x => match x with | (a, b, c) => .DataSizeEffectiveAddress a b c)
      (fun ops => instructionExecute C .Addq ⟨s.cpu.currentOpcode, s.cpu.regs.pc - 2, ops⟩) (fun _ => rfl) (fun _ => rfl) s
  case Addx =>
    exact agree_withIter (Decode.registerSizeModeRegister s.cpu.currentOpcode) (fun x => match x with | (rx, size, mode, ry) => executeAddx C rx size mode ry) (fun x => match x with | (a, b, c, d) => pure (.RegisterSizeModeRegister a b c d)) (fun x => match x with | (a, b, c, d) => .RegisterSizeModeRegister a b c d)
      (fun ops => instructionExecute C .Addx ⟨s.cpu.currentOpcode, s.cpu.regs.pc - 2, ops⟩) (fun _ => rfl) (fun _ => rfl) s
  case And =>
    exact agree_withIter (Decode.registerDirectionSizeEffectiveAddress s.cpu.currentOpcode) (fun x => match x with | (reg, dir, size, am) => executeAnd C reg dir size am) (fun x => match x with | (a, b, c, d) => pure (.RegisterDirectionSizeEffectiveAddress a b c d)) (fun x => match x with | (a, b, c, d) => .RegisterDirectionSizeEffectiveAddress a b c d)
      (fun ops => instructionExecute C .And ⟨s.cpu.currentOpcode, s.cpu.regs.pc - 2, ops⟩) (fun _ => rfl) (fun _ => rfl) s
  case Andi =>
    exact agree_withIter (Decode.sizeEffectiveAddressImmediate s.cpu.currentOpcode) (fun x => match x with | (size, am, imm) => executeAndi C size am imm) (fun x => match x with | (a, b, c) => pure (.SizeEffectiveAddressImmediate a b c)) (fun x => match x with | (a, b, c) => .SizeEffectiveAddressImmediate a b c)
      (fun ops => instructionExecute C .Andi ⟨s.cpu.currentOpcode, s.cpu.regs.pc - 2, ops⟩) (fun _ => rfl) (fun _ => rfl) s
  case Andiccr =>
    exact agree_withIter (Decode.immediate) (fun imm => executeAndiccr C imm) (fun a => pure (.Immediate a)) (fun a => .Immediate a)
      (fun ops => instructionExecute C .Andiccr ⟨s.cpu.currentOpcode, s.cpu.regs.pc - 2, ops⟩) (fun _ => rfl) (fun _ => rfl) s
  case Andisr =>
    exact agree_withIter (Decode.immediate) (fun imm => executeAndisr C imm) (fun a => pure (.Immediate a)) (fun a => .Immediate a)
      (fun ops => instructionExecute C .Andisr ⟨s.cpu.currentOpcode, s.cpu.regs.pc - 2, ops⟩) (fun _ => rfl) (fun _ => rfl) s
  case Asm =>
    exact agree_withIter (Decode.directionEffectiveAddress s.cpu.currentOpcode) (fun x => match x with | (dir, am) => executeAsm C dir am) (fun x => match x with | (a, b) => pure (.DirectionEffectiveAddress a b)) (fun x => match x with | (a, b) => .DirectionEffectiveAddress a b)
      (fun ops => instructionExecute C .Asm ⟨s.cpu.currentOpcode, s.cpu.regs.pc - 2, ops⟩) (fun _ => rfl) (fun _ => rfl) s
  case Asr =>
    exact agree_withIter (Decode.rotationDirectionSizeModeRegister s.cpu.currentOpcode) (fun x => match x with | (rot, dir, size, ir, reg) => executeAsr C rot dir size ir reg) (fun x => match x with | (a, b, c, d, e) => pure (.RotationDirectionSizeModeRegister a b c d e)) (fun x => match x with | (a, b, c, d, e) => .RotationDirectionSizeModeRegister a b c d e)
      (fun ops => instructionExecute C .Asr ⟨s.cpu.currentOpcode, s.cpu.regs.pc - 2, ops⟩) (fun _ => rfl) (fun _ => rfl) s
  case Bcc =>
    exact agree_withIter (Decode.conditionDisplacement s.cpu.currentOpcode) (fun x => match x with | (condition, displacement) => executeBcc C s.cpu.regs.pc condition displacement) (fun x => match x with | (a, b) => pure (.ConditionDisplacement a b)) (fun x => match x with | (a, b) => .ConditionDisplacement a b)
      (fun ops => instructionExecute C .Bcc ⟨s.cpu.currentOpcode, s.cpu.regs.pc - 2, ops⟩) (fun _ => rfl) (fun a => by
      show instructionExecute C .Bcc ⟨s.cpu.currentOpcode, s.cpu.regs.pc - 2, _⟩ = _
      rw [show instructionExecute C .Bcc ⟨s.cpu.currentOpcode, s.cpu.regs.pc - 2, (fun x => match x with | (a, b) => .ConditionDisplacement a b) a⟩ = (fun x => match x with | (condition, displacement) => executeBcc C (s.cpu.regs.pc - 2 + 2) condition displacement) a from rfl, hpc]) s
  case Bchg =>
    exact agree_withIter (Decode.effectiveAddressCount s.cpu.currentOpcode) (fun x => match x with | (am, count) => executeBchg C am count) (fun x => match x with | (a, b) => pure (.EffectiveAddressCount a b)) (fun x => match x with | (a, b) => .EffectiveAddressCount a b)
      (fun ops => instructionExecute C .Bchg ⟨s.cpu.currentOpcode, s.cpu.regs.pc - 2, ops⟩) (fun _ => rfl) (fun _ => rfl) s
  case Bclr =>
    exact agree_withIter (Decode.effectiveAddressCount s.cpu.currentOpcode) (fun x => match x with | (am, count) => executeBclr C am count) (fun x => match x with | (a, b) => pure (.EffectiveAddressCount a b)) (fun x => match x with | (a, b) => .EffectiveAddressCount a b)
      (fun ops => instructionExecute C .Bclr ⟨s.cpu.currentOpcode, s.cpu.regs.pc - 2, ops⟩) (fun _ => rfl) (fun _ => rfl) s
  case Bra =>
    exact agree_withIter (Decode.displacement s.cpu.currentOpcode) (fun disp => executeBra C s.cpu.regs.pc disp) (fun a => pure (.Displacement a)) (fun a => .Displacement a)
      (fun ops => instructionExecute C .Bra ⟨s.cpu.currentOpcode, s.cpu.regs.pc - 2, ops⟩) (fun _ => rfl) (fun a => by
      show instructionExecute C .Bra ⟨s.cpu.currentOpcode, s.cpu.regs.pc - 2, _⟩ = _
      rw [show instructionExecute C .Bra ⟨s.cpu.currentOpcode, s.cpu.regs.pc - 2, (fun a => .Displacement a) a⟩ = (fun disp => executeBra C (s.cpu.regs.pc - 2 + 2) disp) a from rfl, hpc]) s
  case Bset =>
    exact agree_withIter (Decode.effectiveAddressCount s.cpu.currentOpcode) (fun x => match x with | (am, count) => executeBset C am count) (fun x => match x with | (a, b) => pure (.EffectiveAddressCount a b)) (fun x => match x with | (a, b) => .EffectiveAddressCount a b)
      (fun ops => instructionExecute C .Bset ⟨s.cpu.currentOpcode, s.cpu.regs.pc - 2, ops⟩) (fun _ => rfl) (fun _ => rfl) s
  case Bsr =>
    exact agree_withIter (Decode.displacement s.cpu.currentOpcode) (fun disp => executeBsr C s.cpu.regs.pc disp) (fun a => pure (.Displacement a)) (fun a => .Displacement a)
      (fun ops => instructionExecute C .Bsr ⟨s.cpu.currentOpcode, s.cpu.regs.pc - 2, ops⟩) (fun _ => rfl) (fun a => by
      show instructionExecute C .Bsr ⟨s.cpu.currentOpcode, s.cpu.regs.pc - 2, _⟩ = _
      rw [show instructionExecute C .Bsr ⟨s.cpu.currentOpcode, s.cpu.regs.pc - 2, (fun a => .Displacement a) a⟩ = (fun disp => executeBsr C (s.cpu.regs.pc - 2 + 2) disp) a from rfl, hpc]) s
  case Btst =>
    exact agree_withIter (Decode.effectiveAddressCount s.cpu.currentOpcode) (fun x => match x with | (am, count) => executeBtst C am count) (fun x => match x with | (a, b) => pure (.EffectiveAddressCount a b)) (fun x => match x with | (a, b) => .EffectiveAddressCount a b)
      (fun ops => instructionExecute C .Btst ⟨s.cpu.currentOpcode, s.cpu.regs.pc - 2, ops⟩) (fun _ => rfl) (fun _ => rfl) s
  case Chk =>
    exact agree_withIter (Decode.registerEffectiveAddress s.cpu.currentOpcode) (fun x => match x with | (reg, am) => executeChk C reg am) (fun x => match x with | (a, b) => pure (.RegisterEffectiveAddress a b)) (fun x => match x with | (a, b) => .RegisterEffectiveAddress a b)
      (fun ops => instructionExecute C .Chk ⟨s.cpu.currentOpcode, s.cpu.regs.pc - 2, ops⟩) (fun _ => rfl) (fun _ => rfl) s
  case Clr =>
    exact agree_withIter (Decode.sizeEffectiveAddress s.cpu.currentOpcode) (fun x => match x with | (size, am) => executeClr C size am) (fun x => match x with | (a, b) => pure (.SizeEffectiveAddress a b)) (fun x => match x with | (a, b) => .SizeEffectiveAddress a b)
      (fun ops => instructionExecute C .Clr ⟨s.cpu.currentOpcode, s.cpu.regs.pc - 2, ops⟩) (fun _ => rfl) (fun _ => rfl) s
  case Cmp =>
    exact agree_withIter (Decode.registerDirectionSizeEffectiveAddress s.cpu.currentOpcode) (fun x => match x with | (reg, _, size, am) => executeCmp C reg size am) (fun x => match x with | (a, b, c, d) => pure (.RegisterDirectionSizeEffectiveAddress a b c d)) (fun x => match x with | (a, b, c, d) => .RegisterDirectionSizeEffectiveAddress a b c d)
      (fun ops => instructionExecute C .Cmp ⟨s.cpu.currentOpcode, s.cpu.regs.pc - 2, ops⟩) (fun _ => rfl) (fun _ => rfl) s
  case Cmpa =>
    exact agree_withIter (Decode.registerSizeEffectiveAddress s.cpu.currentOpcode) (fun x => match x with | (reg, size, am) => executeCmpa C reg size am) (fun x => match x with | (a, b, c) => pure (.RegisterSizeEffectiveAddress a b c)) (fun x => match x with | (a, b, c) => .RegisterSizeEffectiveAddress a b c)
      (fun ops => instructionExecute C .Cmpa ⟨s.cpu.currentOpcode, s.cpu.regs.pc - 2, ops⟩) (fun _ => rfl) (fun _ => rfl) s
  case Cmpi =>
    exact agree_withIter (Decode.sizeEffectiveAddressImmediate s.cpu.currentOpcode) (fun x => match x with | (size, am, imm) => executeCmpi C size am imm) (fun x => match x with | (a, b, c) => pure (.SizeEffectiveAddressImmediate a b c)) (fun x => match x with | (a, b, c) => .SizeEffectiveAddressImmediate a b c)
      (fun ops => instructionExecute C .Cmpi ⟨s.cpu.currentOpcode, s.cpu.regs.pc - 2, ops⟩) (fun _ => rfl) (fun _ => rfl) s
  case Cmpm =>
    exact agree_withIter (Decode.registerSizeRegister s.cpu.currentOpcode) (fun x => match x with | (ax, size, ay) => executeCmpm C ax size ay) (fun x => match x with | (a, b, c) => pure (.RegisterSizeRegister a b c)) (fun x => match x with | (a, b, c) => .RegisterSizeRegister a b c)
      (fun ops => instructionExecute C .Cmpm ⟨s.cpu.currentOpcode, s.cpu.regs.pc - 2, ops⟩) (fun _ => rfl) (fun _ => rfl) s
  case Dbcc =>
    exact agree_withIter (Decode.conditionRegisterDisplacement s.cpu.currentOpcode) (fun x => match x with | (cc, reg, disp) => executeDbcc C s.cpu.regs.pc cc reg disp) (fun x => match x with | (a, b, c) => pure (.ConditionRegisterDisplacement a b c)) (fun x => match x with | (a, b, c) => .ConditionRegisterDisplacement a b c)
      (fun ops => instructionExecute C .Dbcc ⟨s.cpu.currentOpcode, s.cpu.regs.pc - 2, ops⟩) (fun _ => rfl) (fun a => by
      show instructionExecute C .Dbcc ⟨s.cpu.currentOpcode, s.cpu.regs.pc - 2, _⟩ = _
      rw [show instructionExecute C .Dbcc ⟨s.cpu.currentOpcode, s.cpu.regs.pc - 2, (fun x => match x with | (a, b, c) => .ConditionRegisterDisplacement a b c) a⟩ = (fun x => match x with | (cc, reg, disp) => executeDbcc C (s.cpu.regs.pc - 2 + 2) cc reg disp) a from rfl, hpc]) s
  case Divs =>
    exact agree_withIter (Decode.registerEffectiveAddress s.cpu.currentOpcode) (fun x => match x with | (reg, am) => executeDivs C reg am) (fun x => match x with | (a, b) => pure (.RegisterEffectiveAddress a b)) (fun x => match x with | (a, b) => .RegisterEffectiveAddress a b)
      (fun ops => instructionExecute C .Divs ⟨s.cpu.currentOpcode, s.cpu.regs.pc - 2, ops⟩) (fun _ => rfl) (fun _ => rfl) s
  case Divu =>
    exact agree_withIter (Decode.registerEffectiveAddress s.cpu.currentOpcode) (fun x => match x with | (reg, am) => executeDivu C reg am) (fun x => match x with | (a, b) => pure (.RegisterEffectiveAddress a b)) (fun x => match x with | (a, b) => .RegisterEffectiveAddress a b)
      (fun ops => instructionExecute C .Divu ⟨s.cpu.currentOpcode, s.cpu.regs.pc - 2, ops⟩) (fun _ => rfl) (fun _ => rfl) s
  case Eor =>
    exact agree_withIter (Decode.registerDirectionSizeEffectiveAddress s.cpu.currentOpcode) (fun x => match x with | (reg, _, size, am) => executeEor C reg size am) (fun x => match x with | (a, b, c, d) => pure (.RegisterDirectionSizeEffectiveAddress a b c d)) (fun x => match x with | (a, b, c, d) => .RegisterDirectionSizeEffectiveAddress a b c d)
      (fun ops => instructionExecute C .Eor ⟨s.cpu.currentOpcode, s.cpu.regs.pc - 2, ops⟩) (fun _ => rfl) (fun _ => rfl) s
  case Eori =>
    exact agree_withIter (Decode.sizeEffectiveAddressImmediate s.cpu.currentOpcode) (fun x => match x with | (size, am, imm) => executeEori C size am imm) (fun x => match x with | (a, b, c) => pure (.SizeEffectiveAddressImmediate a b c)) (fun x => match x with | (a, b, c) => .SizeEffectiveAddressImmediate a b c)
      (fun ops => instructionExecute C .Eori ⟨s.cpu.currentOpcode, s.cpu.regs.pc - 2, ops⟩) (fun _ => rfl) (fun _ => rfl) s
  case Eoriccr =>
    exact agree_withIter (Decode.immediate) (fun imm => executeEoriccr C imm) (fun a => pure (.Immediate a)) (fun a => .Immediate a)
      (fun ops => instructionExecute C .Eoriccr ⟨s.cpu.currentOpcode, s.cpu.regs.pc - 2, ops⟩) (fun _ => rfl) (fun _ => rfl) s
  case Eorisr =>
    exact agree_withIter (Decode.immediate) (fun imm => executeEorisr C imm) (fun a => pure (.Immediate a)) (fun a => .Immediate a)
      (fun ops => instructionExecute C .Eorisr ⟨s.cpu.currentOpcode, s.cpu.regs.pc - 2, ops⟩) (fun _ => rfl) (fun _ => rfl) s
  case Exg =>
    exact agree_withIter (Decode.registerOpmodeRegister s.cpu.currentOpcode) (fun x => match x with | (rx, mode, ry) => executeExg C rx mode ry) (fun x => match x with | (a, b, c) => pure (.RegisterOpmodeRegister a b c)) (fun x => match x with | (a, b, c) => .RegisterOpmodeRegister a b c)
      (fun ops => instructionExecute C .Exg ⟨s.cpu.currentOpcode, s.cpu.regs.pc - 2, ops⟩) (fun _ => rfl) (fun _ => rfl) s
  case Ext =>
    exact agree_withIter (Decode.opmodeRegister s.cpu.currentOpcode) (fun x => match x with | (mode, reg) => executeExt C mode reg) (fun x => match x with | (a, b) => pure (.OpmodeRegister a b)) (fun x => match x with | (a, b) => .OpmodeRegister a b)
      (fun ops => instructionExecute C .Ext ⟨s.cpu.currentOpcode, s.cpu.regs.pc - 2, ops⟩) (fun _ => rfl) (fun _ => rfl) s
  case Illegal => rfl
  case Jmp =>
    exact agree_withIter (Decode.effectiveAddress s.cpu.currentOpcode) (fun am => executeJmp C am) (fun a => pure (.EffectiveAddress a)) (fun a => .EffectiveAddress a)
      (fun ops => instructionExecute C .Jmp ⟨s.cpu.currentOpcode, s.cpu.regs.pc - 2, ops⟩) (fun _ => rfl) (fun _ => rfl) s
  case Jsr =>
    exact agree_withIter (Decode.effectiveAddress s.cpu.currentOpcode) (fun am => executeJsr C am) (fun a => pure (.EffectiveAddress a)) (fun a => .EffectiveAddress a)
      (fun ops => instructionExecute C .Jsr ⟨s.cpu.currentOpcode, s.cpu.regs.pc - 2, ops⟩) (fun _ => rfl) (fun _ => rfl) s
  case Lea =>
    exact agree_withIter (Decode.registerEffectiveAddress s.cpu.currentOpcode) (fun x => match x with | (reg, am) => executeLea C reg am) (fun x => match x with | (a, b) => pure (.RegisterEffectiveAddress a b)) (fun x => match x with | (a, b) => .RegisterEffectiveAddress a b)
      (fun ops => instructionExecute C .Lea ⟨s.cpu.currentOpcode, s.cpu.regs.pc - 2, ops⟩) (fun _ => rfl) (fun _ => rfl) s
  case Link =>
    exact agree_withIter (Decode.registerDisplacement s.cpu.currentOpcode) (fun x => match x with | (reg, disp) => executeLink C reg disp) (fun x => match x with | (a, b) => pure (.RegisterDisplacement a b)) (fun x => match x with | (a, b) => .RegisterDisplacement a b)
      (fun ops => instructionExecute C .Link ⟨s.cpu.currentOpcode, s.cpu.regs.pc - 2, ops⟩) (fun _ => rfl) (fun _ => rfl) s
  case Lsm =>
    exact agree_withIter (Decode.directionEffectiveAddress s.cpu.currentOpcode) (fun x => match x with | (dir, am) => executeLsm C dir am) (fun x => match x with | (a, b) => pure (.DirectionEffectiveAddress a b)) (fun x => match x with | (a, b) => .DirectionEffectiveAddress a b)
      (fun ops => instructionExecute C .Lsm ⟨s.cpu.currentOpcode, s.cpu.regs.pc - 2, ops⟩) (fun _ => rfl) (fun _ => rfl) s
  case Lsr =>
    exact agree_withIter (Decode.rotationDirectionSizeModeRegister s.cpu.currentOpcode) (fun x => match x with | (rot, dir, size, ir, reg) => executeLsr C rot dir size ir reg) (fun x => match x with | (a, b, c, d, e) => pure (.RotationDirectionSizeModeRegister a b c d e)) (fun x => match x with | (a, b, c, d, e) => .RotationDirectionSizeModeRegister a b c d e)
      (fun ops => instructionExecute C .Lsr ⟨s.cpu.currentOpcode, s.cpu.regs.pc - 2, ops⟩) (fun _ => rfl) (fun _ => rfl) s
  case Move =>
    exact agree_withIter (Decode.sizeEffectiveAddressEffectiveAddress s.cpu.currentOpcode) (fun x => match x with | (size, amdst, amsrc) => executeMove C size amdst amsrc) (fun x => match x with | (a, b, c) => pure (.SizeEffectiveAddressEffectiveAddress a b c)) (fun x => match x with | (a, b, c) => .SizeEffectiveAddressEffectiveAddress a b c)
      (fun ops => instructionExecute C .Move ⟨s.cpu.currentOpcode, s.cpu.regs.pc - 2, ops⟩) (fun _ => rfl) (fun _ => rfl) s
  case Movea =>
    exact agree_withIter (Decode.sizeRegisterEffectiveAddress s.cpu.currentOpcode) (fun x => match x with | (size, reg, am) => executeMovea C size reg am) (fun x => match x with | (a, b, c) => pure (.SizeRegisterEffectiveAddress a b c)) (fun x => match x with | (a, b, c) => .SizeRegisterEffectiveAddress a b c)
      (fun ops => instructionExecute C .Movea ⟨s.cpu.currentOpcode, s.cpu.regs.pc - 2, ops⟩) (fun _ => rfl) (fun _ => rfl) s
  case Moveccr =>
    exact agree_withIter (Decode.effectiveAddress s.cpu.currentOpcode) (fun am => executeMoveccr C am) (fun a => pure (.EffectiveAddress a)) (fun a => .EffectiveAddress a)
      (fun ops => instructionExecute C .Moveccr ⟨s.cpu.currentOpcode, s.cpu.regs.pc - 2, ops⟩) (fun _ => rfl) (fun _ => rfl) s
  case Movefsr =>
    exact agree_withIter (Decode.effectiveAddress s.cpu.currentOpcode) (fun am => executeMovefsr C am) (fun a => pure (.EffectiveAddress a)) (fun a => .EffectiveAddress a)
      (fun ops => instructionExecute C .Movefsr ⟨s.cpu.currentOpcode, s.cpu.regs.pc - 2, ops⟩) (fun _ => rfl) (fun _ => rfl) s
  case Movesr =>
    exact agree_withIter (Decode.effectiveAddress s.cpu.currentOpcode) (fun am => executeMovesr C am) (fun a => pure (.EffectiveAddress a)) (fun a => .EffectiveAddress a)
      (fun ops => instructionExecute C .Movesr ⟨s.cpu.currentOpcode, s.cpu.regs.pc - 2, ops⟩) (fun _ => rfl) (fun _ => rfl) s
  case Moveusp =>
    exact agree_withIter (Decode.directionRegister s.cpu.currentOpcode) (fun x => match x with | (dir, reg) => executeMoveusp C dir reg) (fun x => match x with | (a, b) => pure (.DirectionRegister a b)) (fun x => match x with | (a, b) => .DirectionRegister a b)
      (fun ops => instructionExecute C .Moveusp ⟨s.cpu.currentOpcode, s.cpu.regs.pc - 2, ops⟩) (fun _ => rfl) (fun _ => rfl) s
  case Movem =>
    exact agree_withIter (Decode.directionSizeEffectiveAddressList s.cpu.currentOpcode) (fun x => match x with | (dir, size, am, list) => executeMovem C dir size am list) (fun x => match x with | (a, b, c, d) => pure (.DirectionSizeEffectiveAddressList a b c d)) (fun x => match x with | (a, b, c, d) => .DirectionSizeEffectiveAddressList a b c d)
      (fun ops => instructionExecute C .Movem ⟨s.cpu.currentOpcode, s.cpu.regs.pc - 2, ops⟩) (fun _ => rfl) (fun _ => rfl) s
  case Movep =>
    exact agree_withIter (Decode.registerDirectionSizeRegisterDisplacement s.cpu.currentOpcode) (fun x => match x with | (data, dir, size, addr, disp) => executeMovep C data dir size addr disp) (fun x => match x with | (a, b, c, d, e) => pure (.RegisterDirectionSizeRegisterDisplacement a b c d e)) (fun x => match x with | (a, b, c, d, e) => .RegisterDirectionSizeRegisterDisplacement a b c d e)
      (fun ops => instructionExecute C .Movep ⟨s.cpu.currentOpcode, s.cpu.regs.pc - 2, ops⟩) (fun _ => rfl) (fun _ => rfl) s
  case Moveq =>
    exact agree_withIter (Decode.registerData s.cpu.currentOpcode) (fun x => match x with | (reg, data) => executeMoveq C reg data) (fun x => match x with | (a, b) => pure (.RegisterData a b)) (fun x => match x with | (a, b) => .RegisterData a b)
      (fun ops => instructionExecute C .Moveq ⟨s.cpu.currentOpcode, s.cpu.regs.pc - 2, ops⟩) (fun _ => rfl) (fun _ => rfl) s
  case Muls =>
    exact agree_withIter (Decode.registerEffectiveAddress s.cpu.currentOpcode) (fun x => match x with | (reg, am) => executeMuls C reg am) (fun x => match x with | (a, b) => pure (.RegisterEffectiveAddress a b)) (fun x => match x with | (a, b) => .RegisterEffectiveAddress a b)
      (fun ops => instructionExecute C .Muls ⟨s.cpu.currentOpcode, s.cpu.regs.pc - 2, ops⟩) (fun _ => rfl) (fun _ => rfl) s
  case Mulu =>
    exact agree_withIter (Decode.registerEffectiveAddress s.cpu.currentOpcode) (fun x => match x with | (reg, am) => executeMulu C reg am) (fun x => match x with | (a, b) => pure (.RegisterEffectiveAddress a b)) (fun x => match x with | (a, b) => .RegisterEffectiveAddress a b)
      (fun ops => instructionExecute C .Mulu ⟨s.cpu.currentOpcode, s.cpu.regs.pc - 2, ops⟩) (fun _ => rfl) (fun _ => rfl) s
  case Nbcd =>
    exact agree_withIter (Decode.effectiveAddress s.cpu.currentOpcode) (fun am => executeNbcd C am) (fun a => pure (.EffectiveAddress a)) (fun a => .EffectiveAddress a)
      (fun ops => instructionExecute C .Nbcd ⟨s.cpu.currentOpcode, s.cpu.regs.pc - 2, ops⟩) (fun _ => rfl) (fun _ => rfl) s
  case Neg =>
    exact agree_withIter (Decode.sizeEffectiveAddress s.cpu.currentOpcode) (fun x => match x with | (size, am) => executeNeg C size am) (fun x => match x with | (a, b) => pure (.SizeEffectiveAddress a b)) (fun x => match x with | (a, b) => .SizeEffectiveAddress a b)
      (fun ops => instructionExecute C .Neg ⟨s.cpu.currentOpcode, s.cpu.regs.pc - 2, ops⟩) (fun _ => rfl) (fun _ => rfl) s
  case Negx =>
    exact agree_withIter (Decode.sizeEffectiveAddress s.cpu.currentOpcode) (fun x => match x with | (size, am) => executeNegx C size am) (fun x => match x with | (a, b) => pure (.SizeEffectiveAddress a b)) (fun x => match x with | (a, b) => .SizeEffectiveAddress a b)
      (fun ops => instructionExecute C .Negx ⟨s.cpu.currentOpcode, s.cpu.regs.pc - 2, ops⟩) (fun _ => rfl) (fun _ => rfl) s
  case Nop => rfl
  case Not =>
    exact agree_withIter (Decode.sizeEffectiveAddress s.cpu.currentOpcode) (fun x => match x with | (size, am) => executeNot C size am) (fun x => match x with | (a, b) => pure (.SizeEffectiveAddress a b)) (fun x => match x with | (a, b) => .SizeEffectiveAddress a b)
      (fun ops => instructionExecute C .Not ⟨s.cpu.currentOpcode, s.cpu.regs.pc - 2, ops⟩) (fun _ => rfl) (fun _ => rfl) s
  case Or =>
    exact agree_withIter (Decode.registerDirectionSizeEffectiveAddress s.cpu.currentOpcode) (fun x => match x with | (reg, dir, size, am) => executeOr C reg dir size am) (fun x => match x with | (a, b, c, d) => pure (.RegisterDirectionSizeEffectiveAddress a b c d)) (fun x => match x with | (a, b, c, d) => .RegisterDirectionSizeEffectiveAddress a b c d)
      (fun ops => instructionExecute C .Or ⟨s.cpu.currentOpcode, s.cpu.regs.pc - 2, ops⟩) (fun _ => rfl) (fun _ => rfl) s
  case Ori =>
    exact agree_withIter (Decode.sizeEffectiveAddressImmediate s.cpu.currentOpcode) (fun x => match x with | (size, am, imm) => executeOri C size am imm) (fun x => match x with | (a, b, c) => pure (.SizeEffectiveAddressImmediate a b c)) (fun x => match x with | (a, b, c) => .SizeEffectiveAddressImmediate a b c)
      (fun ops => instructionExecute C .Ori ⟨s.cpu.currentOpcode, s.cpu.regs.pc - 2, ops⟩) (fun _ => rfl) (fun _ => rfl) s
  case Oriccr =>
    exact agree_withIter (Decode.immediate) (fun imm => executeOriccr C imm) (fun a => pure (.Immediate a)) (fun a => .Immediate a)
      (fun ops => instructionExecute C .Oriccr ⟨s.cpu.currentOpcode, s.cpu.regs.pc - 2, ops⟩) (fun _ => rfl) (fun _ => rfl) s
  case Orisr =>
    exact agree_withIter (Decode.immediate) (fun imm => executeOrisr C imm) (fun a => pure (.Immediate a)) (fun a => .Immediate a)
      (fun ops => instructionExecute C .Orisr ⟨s.cpu.currentOpcode, s.cpu.regs.pc - 2, ops⟩) (fun _ => rfl) (fun _ => rfl) s
  case Pea =>
    exact agree_withIter (Decode.effectiveAddress s.cpu.currentOpcode) (fun am => executePea C am) (fun a => pure (.EffectiveAddress a)) (fun a => .EffectiveAddress a)
      (fun ops => instructionExecute C .Pea ⟨s.cpu.currentOpcode, s.cpu.regs.pc - 2, ops⟩) (fun _ => rfl) (fun _ => rfl) s
  case Reset => rfl
  case Rom =>
    exact agree_withIter (Decode.directionEffectiveAddress s.cpu.currentOpcode) (fun x => match x with | (dir, am) => executeRom C dir am) (fun x => match x with | (a, b) => pure (.DirectionEffectiveAddress a b)) (fun x => match x with | (a, b) => .DirectionEffectiveAddress a b)
      (fun ops => instructionExecute C .Rom ⟨s.cpu.currentOpcode, s.cpu.regs.pc - 2, ops⟩) (fun _ => rfl) (fun _ => rfl) s
  case Ror =>
    exact agree_withIter (Decode.rotationDirectionSizeModeRegister s.cpu.currentOpcode) (fun x => match x with | (rot, dir, size, ir, reg) => executeRor C rot dir size ir reg) (fun x => match x with | (a, b, c, d, e) => pure (.RotationDirectionSizeModeRegister a b c d e)) (fun x => match x with | (a, b, c, d, e) => .RotationDirectionSizeModeRegister a b c d e)
      (fun ops => instructionExecute C .Ror ⟨s.cpu.currentOpcode, s.cpu.regs.pc - 2, ops⟩) (fun _ => rfl) (fun _ => rfl) s
  case Roxm =>
    exact agree_withIter (Decode.directionEffectiveAddress s.cpu.currentOpcode) (fun x => match x with | (dir, am) => executeRoxm C dir am) (fun x => match x with | (a, b) => pure (.DirectionEffectiveAddress a b)) (fun x => match x with | (a, b) => .DirectionEffectiveAddress a b)
      (fun ops => instructionExecute C .Roxm ⟨s.cpu.currentOpcode, s.cpu.regs.pc - 2, ops⟩) (fun _ => rfl) (fun _ => rfl) s
  case Roxr =>
    exact agree_withIter (Decode.rotationDirectionSizeModeRegister s.cpu.currentOpcode) (fun x => match x with | (rot, dir, size, ir, reg) => executeRoxr C rot dir size ir reg) (fun x => match x with | (a, b, c, d, e) => pure (.RotationDirectionSizeModeRegister a b c d e)) (fun x => match x with | (a, b, c, d, e) => .RotationDirectionSizeModeRegister a b c d e)
      (fun ops => instructionExecute C .Roxr ⟨s.cpu.currentOpcode, s.cpu.regs.pc - 2, ops⟩) (fun _ => rfl) (fun _ => rfl) s
  case Rte => rfl
  case Rtr => rfl
  case Rts => rfl
  case Sbcd =>
    exact agree_withIter (Decode.registerSizeModeRegister s.cpu.currentOpcode) (fun x => match x with | (ry, _, mode, rx) => executeSbcd C ry mode rx) (fun x => match x with | (a, b, c, d) => pure (.RegisterSizeModeRegister a b c d)) (fun x => match x with | (a, b, c, d) => .RegisterSizeModeRegister a b c d)
      (fun ops => instructionExecute C .Sbcd ⟨s.cpu.currentOpcode, s.cpu.regs.pc - 2, ops⟩) (fun _ => rfl) (fun _ => rfl) s
  case Scc =>
    exact agree_withIter (Decode.conditionEffectiveAddress s.cpu.currentOpcode) (fun x => match x with | (cc, am) => executeScc C cc am) (fun x => match x with | (a, b) => pure (.ConditionEffectiveAddress a b)) (fun x => match x with | (a, b) => .ConditionEffectiveAddress a b)
      (fun ops => instructionExecute C .Scc ⟨s.cpu.currentOpcode, s.cpu.regs.pc - 2, ops⟩) (fun _ => rfl) (fun _ => rfl) s
  case Stop =>
    exact agree_withIter (Decode.immediate) (fun imm => executeStop C imm) (fun a => pure (.Immediate a)) (fun a => .Immediate a)
      (fun ops => instructionExecute C .Stop ⟨s.cpu.currentOpcode, s.cpu.regs.pc - 2, ops⟩) (fun _ => rfl) (fun _ => rfl) s
  case Sub =>
    exact agree_withIter (Decode.registerDirectionSizeEffectiveAddress s.cpu.currentOpcode) (fun x => match x with | (reg, dir, size, am) => executeSub C reg dir size am) (fun x => match x with | (a, b, c, d) => pure (.RegisterDirectionSizeEffectiveAddress a b c d)) (fun x => match x with | (a, b, c, d) => .RegisterDirectionSizeEffectiveAddress a b c d)
      (fun ops => instructionExecute C .Sub ⟨s.cpu.currentOpcode, s.cpu.regs.pc - 2, ops⟩) (fun _ => rfl) (fun _ => rfl) s
  case Suba =>
    exact agree_withIter (Decode.registerSizeEffectiveAddress s.cpu.currentOpcode) (fun x => match x with | (reg, size, am) => executeSuba C reg size am) (fun x => match x with | (a, b, c) => pure (.RegisterSizeEffectiveAddress a b c)) (fun x => match x with | (a, b, c) => .RegisterSizeEffectiveAddress a b c)
      (fun ops => instructionExecute C .Suba ⟨s.cpu.currentOpcode, s.cpu.regs.pc - 2, ops⟩) (fun _ => rfl) (fun _ => rfl) s
  case Subi =>
    exact agree_withIter (Decode.sizeEffectiveAddressImmediate s.cpu.currentOpcode) (fun x => match x with | (size, am, imm) => executeSubi C size am imm) (fun x => match x with | (a, b, c) => pure (.SizeEffectiveAddressImmediate a b c)) (fun x => match x with | (a, b, c) => .SizeEffectiveAddressImmediate a b c)
      (fun ops => instructionExecute C .Subi ⟨s.cpu.currentOpcode, s.cpu.regs.pc - 2, ops⟩) (fun _ => rfl) (fun _ => rfl) s
  case Subq =>
    exact agree_withIter (Decode.dataSizeEffectiveAddress s.cpu.currentOpcode) (fun x => match x with | (imm, size, am) => executeSubq C imm size am) (fun x => match x with | (a, b, c) => pure (.DataSizeEffectiveAddress a b c)) (fun x => match x with | (a, b, c) => .DataSizeEffectiveAddress a b c)
      (fun ops => instructionExecute C .Subq ⟨s.cpu.currentOpcode, s.cpu.regs.pc - 2, ops⟩) (fun _ => rfl) (fun _ => rfl) s
  case Subx =>
    exact agree_withIter (Decode.registerSizeModeRegister s.cpu.currentOpcode) (fun x => match x with | (ry, size, mode, rx) => executeSubx C ry size mode rx) (fun x => match x with | (a, b, c, d) => pure (.RegisterSizeModeRegister a b c d)) (fun x => match x with | (a, b, c, d) => .RegisterSizeModeRegister a b c d)
      (fun ops => instructionExecute C .Subx ⟨s.cpu.currentOpcode, s.cpu.regs.pc - 2, ops⟩) (fun _ => rfl) (fun _ => rfl) s
  case Swap =>
    exact agree_withIter (Decode.register s.cpu.currentOpcode) (fun reg => executeSwap C reg) (fun a => pure (.Register a)) (fun a => .Register a)
      (fun ops => instructionExecute C .Swap ⟨s.cpu.currentOpcode, s.cpu.regs.pc - 2, ops⟩) (fun _ => rfl) (fun _ => rfl) s
  case Tas =>
    exact agree_withIter (Decode.effectiveAddress s.cpu.currentOpcode) (fun am => executeTas C am) (fun a => pure (.EffectiveAddress a)) (fun a => .EffectiveAddress a)
      (fun ops => instructionExecute C .Tas ⟨s.cpu.currentOpcode, s.cpu.regs.pc - 2, ops⟩) (fun _ => rfl) (fun _ => rfl) s
  case Trap =>
    exact agree_withIter (Decode.vector s.cpu.currentOpcode) (fun vector => executeTrap vector) (fun a => pure (.Vector a)) (fun a => .Vector a)
      (fun ops => instructionExecute C .Trap ⟨s.cpu.currentOpcode, s.cpu.regs.pc - 2, ops⟩) (fun _ => rfl) (fun _ => rfl) s
  case Trapv => rfl
  case Tst =>
    exact agree_withIter (Decode.sizeEffectiveAddress s.cpu.currentOpcode) (fun x => match x with | (size, am) => executeTst C size am) (fun x => match x with | (a, b) => pure (.SizeEffectiveAddress a b)) (fun x => match x with | (a, b) => .SizeEffectiveAddress a b)
      (fun ops => instructionExecute C .Tst ⟨s.cpu.currentOpcode, s.cpu.regs.pc - 2, ops⟩) (fun _ => rfl) (fun _ => rfl) s
  case Unlk =>
    exact agree_withIter (Decode.register s.cpu.currentOpcode) (fun reg => executeUnlk C reg) (fun a => pure (.Register a)) (fun a => .Register a)
      (fun ops => instructionExecute C .Unlk ⟨s.cpu.currentOpcode, s.cpu.regs.pc - 2, ops⟩) (fun _ => rfl) (fun _ => rfl) s
end M68k.Exec

namespace M68k.Exec
open Spec
variable {M : Type} [MemoryAccess M]

/-- The outcomes of the two kinds of calls: equal but for the address that the second returns, or both an access error with a program counter that is
two further after the first. -/
def Agree : Res M (Nat × Option U8) → Res M (U32 × Nat × Option U8) → Prop
  | .ok (c, e) t, .ok (_, c', e') t' => c' = c ∧ e' = e ∧ (t' = t ∨ e = some 2 ∧ t = t'.withRegs fun r => { r with pc := r.pc + 2 })
  | .err e t, .err e' t' => e' = e ∧ t' = t
  | .panic, .panic => True
  | _, _ => False

theorem agree_word (C : CpuDetails) (k : Nat) {s : St M} {op : U16} {m : M} (ho : ¬ Spec.Odd s.cpu.regs.pc)
    (hg : MemoryAccess.getWord s.cpu.regs.pc s.mem = .val op m) : disassemblerInstruction C k s =
      match fastInstruction C k s with
      | .ok (c, e) t => .ok (s.cpu.regs.pc, c, e) t
      | .err e t => .err e t
      | .panic => .panic := by
  unfold fastInstruction disassemblerInstruction getNextInstruction Instruction.fromMemory Iter.next
  dsimp only
  rw [getNextWord_even ho, if_pos ((isEven_iff _).2 ho), hg]
  dsimp only
  have hx : (fastExecute C (decoder op) : Exec M Nat) = decodeExecute C (decoder op) := funext (fastExecute_decode C _)
  rw [hx]
  unfold finishStep decodeExecute withIter Exec.bind Instruction.fromOpcode
  dsimp only
  have hd : (do let operands ← (isaEntryDecode (decoder op) op : Dec M Operands)
                pure ({ opcode := op, pc := s.cpu.regs.pc, operands := operands } : Instruction) : Dec M Instruction) ⟨m, s.cpu.regs.pc + 2⟩ =
      match (isaEntryDecode (decoder op) op : Dec M Operands) ⟨m, s.cpu.regs.pc + 2⟩ with
      | some (ops, it) => some (⟨op, s.cpu.regs.pc, ops⟩, it)
      | none => none := by
    show Dec.bind _ _ _ = _
    unfold Dec.bind
    cases (isaEntryDecode (decoder op) op : Dec M Operands) ⟨m, s.cpu.regs.pc + 2⟩ <;> rfl
  rw [hd]
  cases hdec : (isaEntryDecode (decoder op) op : Dec M Operands) ⟨m, s.cpu.regs.pc + 2⟩ with
  | none => rfl
  | some p =>
    obtain ⟨ops, it⟩ := p
    dsimp only
    rw [BitVec.add_sub_cancel]
    cases instructionExecute C (decoder op) ⟨op, s.cpu.regs.pc, ops⟩
        (⟨{ s.cpu with regs := { s.cpu.regs with pc := it.nextAddr }, currentOpcode := op }, it.mem⟩ : St M) <;> rfl

theorem agree_instruction (C : CpuDetails) (k : Nat) (s : St M) : Agree (fastInstruction C k s) (disassemblerInstruction C k s) := by
  by_cases ho : Spec.Odd s.cpu.regs.pc
  · unfold fastInstruction disassemblerInstruction getNextInstruction Instruction.fromMemory Iter.next
    dsimp only
    rw [getNextWord_odd ho, if_neg (fun h => (isEven_iff _).1 h ho)]
    exact ⟨rfl, rfl, .inl rfl⟩
  · cases hg : MemoryAccess.getWord s.cpu.regs.pc s.mem with
    | val op m =>
      rw [agree_word C k ho hg]
      cases fastInstruction C k s with
      | ok x t => exact ⟨rfl, rfl, .inl rfl⟩
      | err e t => exact ⟨rfl, rfl⟩
      | panic => trivial
    | none m =>
      unfold fastInstruction disassemblerInstruction getNextInstruction Instruction.fromMemory Iter.next
      dsimp only
      rw [getNextWord_even ho, if_pos ((isEven_iff _).2 ho), hg]
      exact ⟨rfl, rfl, .inr ⟨rfl, rfl⟩⟩
    | panic =>
      unfold fastInstruction disassemblerInstruction getNextInstruction Instruction.fromMemory Iter.next
      dsimp only
      rw [getNextWord_even ho, if_pos ((isEven_iff _).2 ho), hg]
      trivial

theorem agree_call (C : CpuDetails) (s : St M) : Agree (interpreterException C s) (disassemblerInterpreterException C s) := by
  unfold interpreterException disassemblerInterpreterException
  by_cases h : s.cpu.stop = true
  · rw [if_pos h, if_pos h]
    exact ⟨rfl, rfl, .inl rfl⟩
  · rw [if_neg h, if_neg h]
    show Agree (Exec.bind _ _ s) (Exec.bind _ _ s)
    unfold Exec.bind
    cases pendingCycles C s with
    | ok k t => exact agree_instruction C k t
    | err e t => exact ⟨rfl, rfl⟩
    | panic => trivial

/-- Equal but for the address. -/
def Same : Res M (Nat × Option U8) → Res M (U32 × Nat × Option U8) → Prop
  | .ok (c, e) t, .ok (_, c', e') t' => c' = c ∧ e' = e ∧ t' = t
  | .err e t, .err e' t' => e' = e ∧ t' = t
  | .panic, .panic => True
  | _, _ => False

theorem agree_always (hM : ∀ (a : U32) (m m' : M), MemoryAccess.getWord a m ≠ .none m') (C : CpuDetails) (s : St M) :
    Same (interpreterException C s) (disassemblerInterpreterException C s) := by
  have key : ∀ (k : Nat) (s : St M), Same (fastInstruction C k s) (disassemblerInstruction C k s) := by
    intro k s
    by_cases ho : Spec.Odd s.cpu.regs.pc
    · unfold fastInstruction disassemblerInstruction getNextInstruction Instruction.fromMemory Iter.next
      dsimp only
      rw [getNextWord_odd ho, if_neg (fun h => (isEven_iff _).1 h ho)]
      exact ⟨rfl, rfl, rfl⟩
    · cases hg : MemoryAccess.getWord s.cpu.regs.pc s.mem with
      | val op m =>
        rw [agree_word C k ho hg]
        cases fastInstruction C k s with
        | ok x t => exact ⟨rfl, rfl, rfl⟩
        | err e t => exact ⟨rfl, rfl⟩
        | panic => trivial
      | none m => exact absurd hg (hM _ _ _)
      | panic =>
        unfold fastInstruction disassemblerInstruction getNextInstruction Instruction.fromMemory Iter.next
        dsimp only
        rw [getNextWord_even ho, if_pos ((isEven_iff _).2 ho), hg]
        trivial
  unfold interpreterException disassemblerInterpreterException
  by_cases h : s.cpu.stop = true
  · rw [if_pos h, if_pos h]
    exact ⟨rfl, rfl, rfl⟩
  · rw [if_neg h, if_neg h]
    show Same (Exec.bind _ _ s) (Exec.bind _ _ s)
    unfold Exec.bind
    cases pendingCycles C s with
    | ok k t => exact key k t
    | err e t => exact ⟨rfl, rfl⟩
    | panic => trivial

end M68k.Exec
