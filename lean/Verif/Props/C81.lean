import Verif.Lemmas.SourceCases
import Verif.Lemmas.SourceProgram
import Verif.Lemmas.Stack
import Verif.Props.C38
import Verif.Props.DemoRam
/-
C81: executing assembled code. The words that a function of the assembler returns, put in memory, do when they are executed what the call asked for: the effect
of the instruction with the operands of the call. `Source` (Verif/Spec/Source.lean) has one line for each function of the assembler; its `effect` is written from the
operands of the line alone and does not mention words.
-/
namespace M68k.Props
open Spec Exec
set_option linter.unusedSectionVars false
variable {M : Type} [MemoryAccess M] {C : CpuDetails} {s s' s1 : St M} {op : U16} {ws : List U16}

/-- A line that assembles does what it says: for every memory, state, CPU model and combination of operands. Missing: the static BTST of an immediate operand, see
`C81_btst_refuted`. -/
theorem C81_execute_partial (l : Source) (hl : ∀ b v, l ≠ .btstStatic b (.imm v)) (h : l.assemble = some ws) (hw : AtWords s ws s1) :
    EndsAs C s l.privileged (l.effect C s.cpu.regs.pc s1) := by
  cases l with
  | btstStatic k m => exact faithful_btstStatic k m (fun v hm => hl k v (by rw [hm])) h hw
  | abcd x0 x1 x2 => exact faithful_abcd x0 x1 x2 h hw
  | sbcd x0 x1 x2 => exact faithful_sbcd x0 x1 x2 h hw
  | addx x0 x1 x2 x3 => exact faithful_addx x0 x1 x2 x3 h hw
  | subx x0 x1 x2 x3 => exact faithful_subx x0 x1 x2 x3 h hw
  | add x0 x1 x2 x3 => exact faithful_add x0 x1 x2 x3 h hw
  | sub x0 x1 x2 x3 => exact faithful_sub x0 x1 x2 x3 h hw
  | and x0 x1 x2 x3 => exact faithful_and x0 x1 x2 x3 h hw
  | or x0 x1 x2 x3 => exact faithful_or x0 x1 x2 x3 h hw
  | adda x0 x1 x2 => exact faithful_adda x0 x1 x2 h hw
  | suba x0 x1 x2 => exact faithful_suba x0 x1 x2 h hw
  | cmpa x0 x1 x2 => exact faithful_cmpa x0 x1 x2 h hw
  | addi x0 x1 x2 => exact faithful_addi x0 x1 x2 h hw
  | subi x0 x1 x2 => exact faithful_subi x0 x1 x2 h hw
  | andi x0 x1 x2 => exact faithful_andi x0 x1 x2 h hw
  | ori x0 x1 x2 => exact faithful_ori x0 x1 x2 h hw
  | eori x0 x1 x2 => exact faithful_eori x0 x1 x2 h hw
  | cmpi x0 x1 x2 => exact faithful_cmpi x0 x1 x2 h hw
  | addq x0 x1 x2 => exact faithful_addq x0 x1 x2 h hw
  | subq x0 x1 x2 => exact faithful_subq x0 x1 x2 h hw
  | andiccr x0 => exact faithful_andiccr x0 h hw
  | oriccr x0 => exact faithful_oriccr x0 h hw
  | eoriccr x0 => exact faithful_eoriccr x0 h hw
  | andisr x0 => exact faithful_andisr x0 h hw
  | orisr x0 => exact faithful_orisr x0 h hw
  | eorisr x0 => exact faithful_eorisr x0 h hw
  | stop x0 => exact faithful_stop x0 h hw
  | asm x0 x1 => exact faithful_asm x0 x1 h hw
  | lsm x0 x1 => exact faithful_lsm x0 x1 h hw
  | rom x0 x1 => exact faithful_rom x0 x1 h hw
  | roxm x0 x1 => exact faithful_roxm x0 x1 h hw
  | asr x0 x1 x2 x3 x4 => exact faithful_asr x0 x1 x2 x3 x4 h hw
  | lsr x0 x1 x2 x3 x4 => exact faithful_lsr x0 x1 x2 x3 x4 h hw
  | ror x0 x1 x2 x3 x4 => exact faithful_ror x0 x1 x2 x3 x4 h hw
  | roxr x0 x1 x2 x3 x4 => exact faithful_roxr x0 x1 x2 x3 x4 h hw
  | bcc x0 x1 => exact faithful_bcc x0 x1 h hw
  | bra x0 => exact faithful_bra x0 h hw
  | bsr x0 => exact faithful_bsr x0 h hw
  | bchgDynamic x0 x1 => exact faithful_bchgDynamic x0 x1 h hw
  | bchgStatic x0 x1 => exact faithful_bchgStatic x0 x1 h hw
  | bclrDynamic x0 x1 => exact faithful_bclrDynamic x0 x1 h hw
  | bclrStatic x0 x1 => exact faithful_bclrStatic x0 x1 h hw
  | bsetDynamic x0 x1 => exact faithful_bsetDynamic x0 x1 h hw
  | bsetStatic x0 x1 => exact faithful_bsetStatic x0 x1 h hw
  | btstDynamic x0 x1 => exact faithful_btstDynamic x0 x1 h hw
  | chk x0 x1 => exact faithful_chk x0 x1 h hw
  | divs x0 x1 => exact faithful_divs x0 x1 h hw
  | divu x0 x1 => exact faithful_divu x0 x1 h hw
  | muls x0 x1 => exact faithful_muls x0 x1 h hw
  | mulu x0 x1 => exact faithful_mulu x0 x1 h hw
  | clr x0 x1 => exact faithful_clr x0 x1 h hw
  | neg x0 x1 => exact faithful_neg x0 x1 h hw
  | negx x0 x1 => exact faithful_negx x0 x1 h hw
  | not x0 x1 => exact faithful_not x0 x1 h hw
  | tst x0 x1 => exact faithful_tst x0 x1 h hw
  | cmp x0 x1 x2 => exact faithful_cmp x0 x1 x2 h hw
  | cmpm x0 x1 x2 => exact faithful_cmpm x0 x1 x2 h hw
  | dbcc x0 x1 x2 => exact faithful_dbcc x0 x1 x2 h hw
  | eor x0 x1 x2 => exact faithful_eor x0 x1 x2 h hw
  | exg x0 x1 x2 => exact faithful_exg x0 x1 x2 h hw
  | ext x0 x1 => exact faithful_ext x0 x1 h hw
  | illegal => exact faithful_illegal h hw
  | nop => exact faithful_nop h hw
  | reset => exact faithful_reset h hw
  | rte => exact faithful_rte h hw
  | rtr => exact faithful_rtr h hw
  | rts => exact faithful_rts h hw
  | trapv => exact faithful_trapv h hw
  | jmp x0 => exact faithful_jmp x0 h hw
  | jsr x0 => exact faithful_jsr x0 h hw
  | pea x0 => exact faithful_pea x0 h hw
  | lea x0 x1 => exact faithful_lea x0 x1 h hw
  | link x0 x1 => exact faithful_link x0 x1 h hw
  | move x0 x1 x2 => exact faithful_move x0 x1 x2 h hw
  | movea x0 x1 x2 => exact faithful_movea x0 x1 x2 h hw
  | moveccr x0 => exact faithful_moveccr x0 h hw
  | movesr x0 => exact faithful_movesr x0 h hw
  | movefsr x0 => exact faithful_movefsr x0 h hw
  | nbcd x0 => exact faithful_nbcd x0 h hw
  | tas x0 => exact faithful_tas x0 h hw
  | moveusp x0 x1 => exact faithful_moveusp x0 x1 h hw
  | movem x0 x1 x2 x3 => exact faithful_movem x0 x1 x2 x3 h hw
  | movep x0 x1 x2 x3 x4 => exact faithful_movep x0 x1 x2 x3 x4 h hw
  | moveq x0 x1 => exact faithful_moveq x0 x1 h hw
  | scc x0 x1 => exact faithful_scc x0 x1 h hw
  | swap x0 => exact faithful_swap x0 h hw
  | unlk x0 => exact faithful_unlk x0 h hw
  | trap x0 => exact faithful_trap x0 h hw

/-- The exception: no static BTST of an immediate operand exists, but the assembler accepts it; executing its words is an illegal instruction. -/
theorem C81_btst_refuted (k : U8) (v : U32) : ∃ ws, (Source.btstStatic k (.imm v)).assemble = some (0x083C :: ws) ∧
    ∀ (s s1 : St M), Ready s 0x083C s1 → Raises C s 4 s1 :=
  ⟨_, rfl, fun _ _ h => C38_unimplemented_partial h (by decide +kernel) (by unfold MovemMisfit; decide)⟩

/-- Where an immediate operand is kept in one word, nothing is cut that the size of the operation would not cut: the value read is the low part of the number in the line. -/
theorem C81_immediate (sz : Size) (v pc : U32) : (Prod.snd <$> read sz ((Mode.imm v).kept sz.isLong pc) : Exec M (Val sz)) s = .ok (low sz v) s := by
  show Res.ok (low sz (if sz.isLong then v else v &&& 0xFFFF)) s = _
  congr 1
  cases sz
  · apply BitVec.eq_of_toNat_eq
    show (v &&& 0xFFFF).toNat % 256 = v.toNat % 256
    rw [BitVec.toNat_and, show BitVec.toNat (0xFFFF : U32) = 2 ^ 16 - 1 from rfl, Nat.and_two_pow_sub_one_eq_mod]
    omega
  · apply BitVec.eq_of_toNat_eq
    show (v &&& 0xFFFF).toNat % 65536 = v.toNat % 65536
    rw [BitVec.toNat_and, show BitVec.toNat (0xFFFF : U32) = 2 ^ 16 - 1 from rfl, Nat.and_two_pow_sub_one_eq_mod]
    omega
  · rfl

variable [Ram M] {p : List Source} {a : U32} {l : Source}

/-- The same for a line of a program in memory. -/
theorem C81_line_partial (hl : ∀ b v, l ≠ .btstStatic b (.imm v)) (h : AtLine p a l ws s) : EndsAs C s l.privileged (l.effect C s.cpu.regs.pc (afterWords s ws)) :=
  C81_execute_partial l hl h.words (atLine_words (fun hn => assemble_ne_nil l (hn ▸ h.words)) h)

/-- A program executed line by line is executed by as many calls of `interpreter`, with the same final state and the same number of cycles. -/
theorem C81_program_partial {n k : Nat} (h : Executes C p a n k s s') : calls C n s = .ok k s' := by
  induction h with
  | done s => rfl
  | @line n c k l ws s s1 s' hat hb ht he _ ih =>
    have hx := C81_line_partial (C := C) hb hat
    rw [he] at hx
    have hx : Exec.interpreterException C s = .ok (c, if l.privileged then none else traced s) s1 := hx
    have ht : traced s = none := by unfold traced; rw [ht]; rfl
    rw [ht, ite_self] at hx
    show (interpreter C >>= fun c => calls C n >>= fun k => pure (c + k)) s = _
    have hi : interpreter C s = .ok c s1 := (bind_eq hx).trans rfl
    rw [bind_eq hi, bind_eq ih]
    rfl

/-! ### Concrete lines and programs -/

/-- `ADD.W D0,(A0)`, `BNE *-126`, `MOVE.L #$12345678,4(A1)` and `ADDI.B #$FF,D3` with their words. -/
example : (Source.add true .Word 0 (.ind 0)).assemble = some [0xD150] ∧ (Source.bcc .NE 0xFF80).assemble = some [0x6680] ∧
    (Source.move .Long (.disp 1 4) (.imm 0x12345678)).assemble = some [0x237C, 0x1234, 0x5678, 4] ∧ (Source.addi .Byte (.dn 3) 0xFF).assemble = some [0x0603, 0xFF] :=
  ⟨rfl, rfl, rfl, rfl⟩

/-- `ADD.W (2,PC),D0` at address 0: the words are there, and the effect adds the word at 4. -/
def addPc : St WordSlice := Demo.st [0xD07A, 2, 7] (Demo.regs [5] [])
example : (Source.add false .Word 0 (.pcDisp 0 2)).assemble = some [0xD07A, 2] ∧ ∃ s1, AtWords addPc [0xD07A, 2] s1 ∧
    ∃ c s', (Source.add false .Word 0 (.pcDisp 0 2)).effect mc68000 0 s1 = .ok c s' ∧ s'.cpu.regs.d 0 = 12 ∧ s'.cpu.regs.pc = 4 :=
  ⟨rfl, _, ⟨rfl, rfl, _, _, rfl, .cons (by decide) rfl (.cons (by decide) rfl (.nil _)), rfl⟩, _, _, rfl, rfl, rfl⟩

/-- `MOVEQ #5,D0; ADD.W (4,PC),D0; BRA *-6`, followed by the word 7 that the second line reads. -/
def addProgram : List Source := [.moveq 0 5, .add false .Word 0 (.pcDisp 0 4), .bra 0xFFF8]
def addMemory : St WordSlice := Demo.st [0x7005, 0xD07A, 4, 0x60F8, 7] (Demo.regs [] [])

theorem addProgram_held : HoldsWords addMemory.mem 0 [0x7005, 0xD07A, 4, 0x60F8] := by
  have h : ∀ (i : Fin 4) (k : Fin 2), Ram.peek addMemory.mem (at_ (at_ 0 (2 * i.val)) k.val) = some (beByte (sz := .Word) ([0x7005, 0xD07A, 4, 0x60F8][i]) k.val) := by decide
  exact fun i hi k hk => h ⟨i, hi⟩ ⟨k, hk⟩

example : ∃ k s', Executes mc68000 addProgram 0 3 k addMemory s' ∧ s'.cpu.regs.d 0 = 12 ∧ s'.cpu.regs.pc = 0 ∧ k = 26 :=
  ⟨_, _,
    .line (l := .moveq 0 5) ⟨⟨_, rfl, addProgram_held⟩, by decide, rfl, rfl, rfl, [], _, _, rfl, rfl, rfl⟩ (fun _ _ h => nomatch h) rfl rfl
      (.line (l := .add false .Word 0 (.pcDisp 0 4)) ⟨⟨_, rfl, addProgram_held⟩, by decide, rfl, rfl, rfl, [.moveq 0 5], _, _, rfl, rfl, rfl⟩ (fun _ _ h => nomatch h) rfl rfl
        (.line (l := .bra 0xFFF8) ⟨⟨_, rfl, addProgram_held⟩, by decide, rfl, rfl, rfl, [.moveq 0 5, .add false .Word 0 (.pcDisp 0 4)], _, _, rfl, rfl, rfl⟩
          (fun _ _ h => nomatch h) rfl rfl (.done _))), rfl, rfl, rfl⟩

/-- The hypothesis of the exception is met too. -/
example : ∃ s1, Ready (Demo.st [0x083C, 1, 2] (Demo.regs [] [])) 0x083C s1 ∧ (Source.btstStatic 1 (.imm 2)).assemble = some [0x083C, 1, 2] :=
  ⟨_, ⟨rfl, rfl, by decide, _, rfl, rfl⟩, rfl⟩

end M68k.Props
