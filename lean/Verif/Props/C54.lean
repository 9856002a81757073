import Verif.Lemmas.TextPrint
import Verif.Props.C50
/-
C54: the text of a disassembled instruction.
-/
namespace M68k.Props
open Spec Exec
set_option linter.unusedSectionVars false
variable {M : Type} [MemoryAccess M] {C : CpuDetails} {it it' : Iter M} {inst : Instruction}

/-- The instruction decoded at an address has the word at this address as its opcode and the address as its `pc`. -/
theorem fromMemory_ok (h : Instruction.fromMemory it = .ok inst it') :
    (∃ m, MemoryAccess.getWord it.nextAddr it.mem = .val inst.opcode m) ∧ inst.pc = it.nextAddr ∧
    ∃ it1, Instruction.fromOpcode inst.opcode it.nextAddr it1 = some (inst, it') := by
  unfold Instruction.fromMemory Iter.next at h
  dsimp only at h
  by_cases he : isEven it.nextAddr = true
  · rw [if_pos he] at h
    cases hg : MemoryAccess.getWord it.nextAddr it.mem with
    | none m => rw [hg] at h; cases h
    | panic => rw [hg] at h; cases h
    | val op m =>
      rw [hg] at h
      dsimp only at h
      cases hf : Instruction.fromOpcode op it.nextAddr (⟨m, it.nextAddr + 2⟩ : Iter M) with
      | none => rw [hf] at h; cases h
      | some r =>
        rw [hf] at h
        cases h
        obtain ⟨ho, hp, -⟩ := written hf
        subst ho
        exact ⟨⟨m, rfl⟩, hp, _, hf⟩
  · rw [if_neg he] at h; cases h

/-! ### Reading the text back -/

/-- The text of a decoded instruction names the instruction and all of its operands: an independent reader of assembly lines finds the instruction the
opcode stands for, the source of its bit number if it is a bit manipulation, and its operands, up to the three unused bits of the brief extension words and the address
of the extension words of the PC-relative modes. -/
theorem C54_reads_back (h : Instruction.fromMemory it = .ok inst it') (hu : decoder inst.opcode ≠ .Unknown) :
    ∃ t, inst.disassemble = some t ∧
      Reader.line it.nextAddr t = some (.instruction (decoder inst.opcode) (Reader.inRegister (decoder inst.opcode) inst.opcode) inst.operands.canonical) := by
  obtain ⟨-, hp, it1, hf⟩ := fromMemory_ok h
  obtain ⟨t, ht, hl⟩ := Reader.text_reads hu (written hf).2.2
  exact ⟨t, ht, hp ▸ hl⟩

/-- `MOVE.L (-2, A1), D5`, `LSR.B #8, D1` and `BTST D2, (A3)`. -/
example : ((match Instruction.fromMemory (⟨⟨[0x2A29, 0xFFFE]⟩, 0⟩ : Iter WordSlice) with | .ok i _ => i.disassemble | _ => none) = some "MOVE.L (-2, A1), D5".toList) ∧
    ((match Instruction.fromMemory (⟨⟨[0xE009]⟩, 0⟩ : Iter WordSlice) with | .ok i _ => i.disassemble | _ => none) = some "LSR.B #8, D1".toList) ∧
    ((match Instruction.fromMemory (⟨⟨[0x0513]⟩, 0⟩ : Iter WordSlice) with | .ok i _ => i.disassemble | _ => none) = some "BTST D2, (A3)".toList) := by
  decide +kernel

/-- The same for the instructions of the 68000 opcode map. -/
theorem C54_map (h : Instruction.fromMemory it = .ok inst it') (hi : instr inst.opcode ≠ .Unknown) :
    ∃ t, inst.disassemble = some t ∧
      Reader.line it.nextAddr t = some (.instruction (instr inst.opcode) (Reader.inRegister (instr inst.opcode) inst.opcode) inst.operands.canonical) := by
  have hd := decoder_of_map inst.opcode hi
  have := C54_reads_back h (by rw [hd]; exact hi)
  rwa [hd] at this

/-- `Bcc` backwards at address 2. -/
example : ∃ i it', Instruction.fromMemory (⟨⟨[0x4E71, 0x66FC]⟩, 2⟩ : Iter WordSlice) = .ok i it' ∧ instr i.opcode ≠ .Unknown ∧ i.disassemble = some "BNE -4 <0x0>".toList :=
  ⟨_, _, rfl, by decide +kernel, by decide +kernel⟩

/-- A word that is no instruction: the text has the word and the address. -/
theorem C54_unknown (h : Instruction.fromMemory it = .ok inst it') (hu : decoder inst.opcode = .Unknown) :
    ∃ t, inst.disassemble = some t ∧ Reader.line it.nextAddr t = some (.unknown inst.opcode.toNat it.nextAddr.toNat) := by
  obtain ⟨-, hp, -⟩ := fromMemory_ok h
  refine ⟨_, by unfold Instruction.disassemble; rw [hu]; rfl, ?_⟩
  rw [hp]
  exact unknown_reads _ _

example : ∃ i it', Instruction.fromMemory (⟨⟨[0x4E71, 0x00C0]⟩, 2⟩ : Iter WordSlice) = .ok i it' ∧ decoder i.opcode = .Unknown ∧
    i.disassemble = some "Unknown instruction 00C0 at 0x2".toList :=
  ⟨_, _, rfl, by decide +kernel, by decide +kernel⟩

/-- Two instructions at the same address, in any memories, with the same text are the same instruction with the same operands; two unknown words with the same text are
the same word. -/
theorem C54_injective {N : Type} [MemoryAccess N] {jt jt' : Iter N} {other : Instruction} {t : Text} (ha : jt.nextAddr = it.nextAddr)
    (h : Instruction.fromMemory it = .ok inst it') (h' : Instruction.fromMemory jt = .ok other jt') (ht : inst.disassemble = some t) (ht' : other.disassemble = some t) :
    decoder inst.opcode = decoder other.opcode ∧
    (decoder inst.opcode = .Unknown → inst.opcode = other.opcode) ∧
    (decoder inst.opcode ≠ .Unknown → inst.operands.canonical = other.operands.canonical ∧
      Reader.inRegister (decoder inst.opcode) inst.opcode = Reader.inRegister (decoder other.opcode) other.opcode) := by
  by_cases hu : decoder inst.opcode = .Unknown
  · obtain ⟨u, hu1, hu2⟩ := C54_unknown h hu
    cases hu1.symm.trans ht
    by_cases hv : decoder other.opcode = .Unknown
    · obtain ⟨v, hv1, hv2⟩ := C54_unknown h' hv
      cases hv1.symm.trans ht'
      rw [ha, hu2] at hv2
      injection hv2 with hv2
      injection hv2 with hv2
      exact ⟨hu.trans hv.symm, fun _ => BitVec.eq_of_toNat_eq hv2, fun hn => absurd hu hn⟩
    · obtain ⟨v, hv1, hv2⟩ := C54_reads_back h' hv
      cases hv1.symm.trans ht'
      rw [ha, hu2] at hv2
      cases hv2
  · obtain ⟨u, hu1, hu2⟩ := C54_reads_back h hu
    cases hu1.symm.trans ht
    by_cases hv : decoder other.opcode = .Unknown
    · obtain ⟨v, hv1, hv2⟩ := C54_unknown h' hv
      cases hv1.symm.trans ht'
      rw [ha, hu2] at hv2
      cases hv2
    · obtain ⟨v, hv1, hv2⟩ := C54_reads_back h' hv
      cases hv1.symm.trans ht'
      rw [ha, hu2] at hv2
      injection hv2 with hv2
      injection hv2 with h1 h2 h3
      exact ⟨h1, fun hn => absurd hn hu, fun _ => ⟨h3, h2⟩⟩

/-- The text does not determine the encoding: the short and the long form of a branch have the same text (`BRA 4 <0x6>`), as have two brief extension words that differ
in their unused bits. -/
theorem C54_forms : ∃ w w' : List U16, w ≠ w' ∧ ∃ i it i' it', Instruction.fromMemory (⟨⟨w⟩, 0⟩ : Iter WordSlice) = .ok i it ∧
    Instruction.fromMemory (⟨⟨w'⟩, 0⟩ : Iter WordSlice) = .ok i' it' ∧ i.disassemble = i'.disassemble :=
  ⟨[0x6004], [0x6000, 4], by decide, _, _, _, _, rfl, rfl, by decide +kernel⟩

/-- The texts are printable ASCII, without NUL. -/
theorem C54_printable {t : Text} (h : inst.disassemble = some t) : (∀ c ∈ t, 32 ≤ c.toNat ∧ c.toNat < 127) ∧ (0 : U8) ∉ t.bytes := by
  have hp : Printable t := printable_dlut _ _ t h
  refine ⟨hp, ?_⟩
  intro hm
  obtain ⟨c, hc, he⟩ := List.mem_map.1 hm
  have := hp c hc
  have he : (BitVec.ofNat 8 c.toNat).toNat = 0 := by rw [he]; rfl
  rw [BitVec.toNat_ofNat] at he
  omega

theorem line_nil (pc : U32) : Reader.line pc [] = none := by
  have hm : Reader.names.all (fun n => !(n == [])) = true := by decide +kernel
  rw [← Reader.names_eq pc, List.all_map] at hm
  have hf : (Reader.mnemonics pc).find? (fun e => e.1 == []) = none := by
    rw [List.find?_eq_none]
    intro e he
    have := List.all_eq_true.1 hm e he
    simpa using this
  unfold Reader.line
  rw [List.takeWhile_nil, if_neg (by decide +kernel)]
  show ((Reader.mnemonics pc).find? (fun e => e.1 == [])).bind (fun x => x.2 none []) = none
  rw [hf]
  rfl

/-- A decoded instruction always has a text, and it is not empty. -/
theorem C54_total (h : Instruction.fromMemory it = .ok inst it') : ∃ t, inst.disassemble = some t ∧ t ≠ [] := by
  by_cases hu : decoder inst.opcode = .Unknown
  · obtain ⟨t, h1, h2⟩ := C54_unknown h hu
    exact ⟨t, h1, by rintro rfl; rw [line_nil] at h2; cases h2⟩
  · obtain ⟨t, h1, h2⟩ := C54_reads_back h hu
    exact ⟨t, h1, by rintro rfl; rw [line_nil] at h2; cases h2⟩

/-! ### The formats of an addressing mode -/

/-- Hexadecimal digits written in lower case, in upper case. -/
def upperDigit (c : Char) : Char := if 'a' ≤ c ∧ c ≤ 'f' then Char.ofNat (c.toNat - 32) else c

theorem upper_lower (d : Nat) : upperDigit (Text.lower (Text.digit d)) = Text.digit d := by
  by_cases h : d < 16
  · have : ∀ d : Fin 16, upperDigit (Text.lower (Text.digit d.val)) = Text.digit d.val := by decide +kernel
    exact this ⟨d, h⟩
  · have : Text.digit d = '?' := by
      unfold Text.digit
      rw [List.getD_eq_getElem?_getD, List.getElem?_eq_none (by simpa using h)]
      rfl
    rw [this]
    decide

theorem upper_lower_digits (fuel n : Nat) : ((Text.digitsAux 16 fuel n).map Text.lower).map upperDigit = Text.digitsAux 16 fuel n := by
  induction fuel generalizing n with
  | zero => rfl
  | succ fuel ih =>
    unfold Text.digitsAux
    split
    · simp [upper_lower]
    · simp only [List.map_append, List.map_cons, List.map_nil, ih, upper_lower]

theorem operands_one {t : Text} {o : Reader.Opnd} (h : Reader.Reads t o) : Reader.operands t = some [o] := by
  have h' := h [] (.inl rfl)
  rw [List.append_nil] at h'
  unfold Reader.operands
  split
  · have : Reader.operand [] = none := by decide +kernel
    rw [this] at h'; cases h'
  · simp [h']

/-- `{}` and `{:X}` of an addressing mode are read back as that mode, and the text determines the mode up to the unused bits of brief extension words and the address of the
extension word. `{:x}` is `{}` but for immediate values, which it writes as `{:X}` does, in lower case. -/
theorem C54_formats (am : AddressingMode) :
    (∃ o, Reader.operands am.text = some [o] ∧ Reader.operands am.hexText = some [o] ∧ o.mode = some am.canonical) ∧
    ((∀ v, am ≠ .Immediate v) → am.lowerHexText = am.text) ∧
    ∀ v, am = .Immediate v → am.lowerHexText.map upperDigit = am.hexText ∧ am.lowerHexText.take 3 = "#0x".toList := by
  refine ⟨⟨Reader.opndOf am, ?_, ?_, Reader.mode_opndOf am⟩, ?_, ?_⟩
  · exact operands_one (Reader.reads_mode am)
  · exact operands_one (Reader.reads_hexMode am)
  · intro h
    cases am <;> first | rfl | exact absurd rfl (h _)
  · rintro v rfl
    refine ⟨?_, rfl⟩
    unfold AddressingMode.lowerHexText AddressingMode.hexText Text.lowerHex Text.hex Text.digits
    rw [List.map_append, List.map_append, upper_lower_digits]
    rfl

/-- `#255`, `#0xFF` and `#0xff`. -/
example : (AddressingMode.Immediate 255).text = "#255".toList ∧ (AddressingMode.Immediate 255).hexText = "#0xFF".toList ∧
    (AddressingMode.Immediate 255).lowerHexText = "#0xff".toList := by decide +kernel

/-! ### The texts the interpreters return -/

variable {s s' : St M} {addr : U32} {t : Text} {c : Nat} {e : Option U8}

/-- The text is all that `disassembler_interpreter_exception` adds: apart from it, it returns and does the same as the model's function without text, for which the other properties
are proved (C34). -/
theorem C54_interpreter : disassemblerInterpreterException C s = ((fun x => (x.1, x.2.2)) <$> disassemblerInterpreterExceptionText C) s := text_call C s

/-- An instruction that is executed is disassembled as it was fetched: after the pending exceptions, in the state `s1`, the word at the program counter is fetched and
decoded, and the address and the text returned are those of this instruction. Without an instruction the text is empty and the address 0: the core is stopped or the
fetch fails, and then an exception is returned. -/
theorem C54_executed (h : disassemblerInterpreterExceptionText C s = .ok (addr, t, c, e) s') :
    (∃ k s1 it', pendingCycles C s = .ok k s1 ∧ addr = s1.cpu.regs.pc ∧
      ∃ i, Instruction.fromMemory ⟨s1.mem, addr⟩ = .ok i it' ∧ i.disassemble = some t ∧ t ≠ []) ∨
    (t = [] ∧ addr = 0 ∧ ((s.cpu.stop = true ∧ e = none ∧ c = 0 ∧ s' = s) ∨ (s.cpu.stop = false ∧ e ≠ none))) := by
  unfold disassemblerInterpreterExceptionText at h
  by_cases hs : s.cpu.stop = true
  · rw [if_pos hs] at h
    cases h
    exact .inr ⟨rfl, rfl, .inl ⟨hs, rfl, rfl, rfl⟩⟩
  · rw [if_neg hs, bind_apply] at h
    cases hp : pendingCycles C s with
    | panic => rw [hp] at h; cases h
    | err v s1 => rw [hp] at h; cases h
    | ok k s1 =>
      rw [hp] at h
      dsimp only at h
      unfold disassemblerInstructionText getNextInstruction at h
      cases hf : Instruction.fromMemory (⟨s1.mem, s1.cpu.regs.pc⟩ : Iter M) with
      | panic => rw [hf] at h; cases h
      | err v it => rw [hf] at h; cases h; exact .inr ⟨rfl, rfl, .inr ⟨by simpa using hs, by simp⟩⟩
      | ok i it =>
        rw [hf] at h
        dsimp only at h
        obtain ⟨u, hu, hne⟩ := C54_total hf
        rw [hu] at h
        dsimp only at h
        have hpc := (fromMemory_ok hf).2.1
        left
        split at h
        · cases h
          exact ⟨k, s1, it, rfl, hpc, i, by rw [hpc]; exact hf, hu, hne⟩
        · cases h
        · cases h

/-- `ADDQ.W #1, D0` is executed at address 2. -/
example : ∃ s', disassemblerInterpreterExceptionText mc68000 (Demo.ram [0, 0x5240] 4 { Demo.regs [7] [] with pc := 2 }) =
    .ok (2, "ADDQ.W #1, D0".toList, 4, none) s' := ⟨_, rfl⟩

/-! ### The C interface -/

/-- With a buffer of `len` bytes and `len` at least 1, the C functions return what the Rust function returns, and the buffer has the text, cut to `len - 1` characters, and a NUL; the bytes
after the first `len` are unchanged. -/
theorem C54_c_string {U : Type} {s s' : St (FfiMemory U)} {buf : List U8} {len : Nat} (hb : len ≤ buf.length) (hl : 1 ≤ len)
    (h : disassemblerInterpreterExceptionText C s = .ok (addr, t, c, e) s') :
    ∃ buf', ffiDisassemblerInterpreterException C buf len s = .ok (addr, c, e.getD 0, buf') s' ∧ buf'.length = buf.length ∧
      (∃ k, k = min t.length (len - 1) ∧ buf'.take k = t.bytes.take k ∧ buf'[k]? = some 0) ∧ ∀ i, len ≤ i → buf'[i]? = buf[i]? := by
  have hn : (0 : U8) ∉ t.bytes := by
    rcases C54_executed h with ⟨k, s1, it', -, -, i, -, hi, -⟩ | ⟨rfl, -⟩
    · exact (C54_printable hi).2
    · intro h; cases h
  obtain ⟨buf', h1, h2, ⟨k, hk, h3⟩, h4⟩ := C50_string hb hl hn
  refine ⟨buf', ?_, h2, ⟨k, by rw [hk]; simp [Text.bytes], h3⟩, h4⟩
  unfold ffiDisassemblerInterpreterException
  rw [bind_apply, h]
  dsimp only
  rw [h1]
  rfl

/-- The same for the function that also requests the processing of the exception. -/
theorem C54_c_interpreter {U : Type} {s s' : St (FfiMemory U)} {buf : List U8} {len : Nat} (hb : len ≤ buf.length) (hl : 1 ≤ len)
    (h : disassemblerInterpreterText C s = .ok (addr, t, c) s') :
    ∃ buf', ffiDisassemblerInterpreter C buf len s = .ok (addr, c, buf') s' ∧ buf'.length = buf.length ∧
      (∃ k, k = min t.length (len - 1) ∧ buf'.take k = t.bytes.take k ∧ buf'[k]? = some 0) ∧ ∀ i, len ≤ i → buf'[i]? = buf[i]? := by
  have hn : (0 : U8) ∉ t.bytes := by
    unfold disassemblerInterpreterText at h
    rw [bind_apply] at h
    cases hx : disassemblerInterpreterExceptionText C s with
    | panic => rw [hx] at h; cases h
    | err v s1 => rw [hx] at h; cases h
    | ok x s1 =>
      obtain ⟨a1, t1, c1, e1⟩ := x
      rw [hx] at h
      dsimp only at h
      rw [bind_apply] at h
      have ht : t1 = t := by
        split at h
        · cases h; rfl
        · cases h
        · cases h
      subst ht
      rcases C54_executed hx with ⟨k, s1, it', -, -, i, -, hi, -⟩ | ⟨rfl, -⟩
      · exact (C54_printable hi).2
      · intro h; cases h
  obtain ⟨buf', h1, h2, ⟨k, hk, h3⟩, h4⟩ := C50_string hb hl hn
  refine ⟨buf', ?_, h2, ⟨k, by rw [hk]; simp [Text.bytes], h3⟩, h4⟩
  unfold ffiDisassemblerInterpreter
  rw [bind_apply, h]
  dsimp only
  rw [h1]
  rfl

end M68k.Props
