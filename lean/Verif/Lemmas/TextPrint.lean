import Verif.Lemmas.TextDecode
import Verif.Model.TextRun
/-
The texts are made of printable ASCII characters; the word that is no instruction is read back; the interpreter with the text and the
one without it are the same.
-/
namespace M68k
open Spec Reader Text

/-- Only printable ASCII characters. -/
def Printable (t : Text) : Prop := ∀ c ∈ t, 32 ≤ c.toNat ∧ c.toNat < 127

theorem Printable.append {t u : Text} (h : Printable t) (h' : Printable u) : Printable (t ++ u) := fun c hc =>
  (List.mem_append.1 hc).elim (h c) (h' c)

instance (t : Text) : Decidable (Printable t) := inferInstanceAs (Decidable (∀ c ∈ t, 32 ≤ c.toNat ∧ c.toNat < 127))

theorem printable_digit (d : Nat) : Printable [digit d] := by
  by_cases h : d < 16
  · have : ∀ d : Fin 16, Printable [digit d.val] := by decide +kernel
    exact this ⟨d, h⟩
  · have : digit d = '?' := by
      unfold digit
      rw [List.getD_eq_getElem?_getD, List.getElem?_eq_none (by simpa using h)]
      rfl
    rw [this]; decide

theorem printable_aux (b : Nat) : ∀ fuel n, Printable (digitsAux b fuel n)
  | 0, _ => by intro c hc; cases hc
  | fuel + 1, n => by
    unfold digitsAux
    split
    · exact printable_digit n
    · exact (printable_aux b fuel _).append (printable_digit _)

theorem printable_digits (b n : Nat) : Printable (digits b n) := printable_aux b _ _
theorem printable_dec {w : Nat} (x : BitVec w) : Printable (dec x) := printable_digits _ _
theorem printable_hex {w : Nat} (x : BitVec w) : Printable (hex x) := .append (by decide +kernel) (printable_digits _ _)
theorem printable_sdec {w : Nat} (x : BitVec w) : Printable (sdec x) := by
  unfold sdec
  split
  · exact .append (t := ['-']) (by decide) (printable_digits _ _)
  · exact printable_digits _ _
theorem printable_hex4 {w : Nat} (x : BitVec w) : Printable (hex4 x) :=
  .append (fun c hc => by rw [(List.mem_replicate.1 hc).2]; decide) (printable_digits _ _)
theorem printable_size (s : Size) : Printable s.text := by cases s <;> decide +kernel
theorem printable_dir (d : Direction) : Printable d.text := by cases d <;> decide +kernel
theorem printable_cond (c : U8) : Printable (conditionalTest c) := by
  unfold conditionalTest
  split <;> decide +kernel

/-- The pieces of the texts. -/
macro "pieces" : tactic => `(tactic| repeat first
  | with_reducible apply Printable.append
  | with_reducible exact printable_dec _
  | with_reducible exact printable_sdec _
  | with_reducible exact printable_hex _
  | with_reducible exact printable_hex4 _
  | with_reducible exact printable_size _
  | with_reducible exact printable_dir _
  | with_reducible exact printable_cond _
  | decide +kernel)

theorem printable_bew (b : BriefExtensionWord) : Printable b.text := by
  unfold BriefExtensionWord.text
  dsimp only
  refine .append (.append (.append ?_ (printable_dec _)) (by decide +kernel)) ?_
  · split <;> decide +kernel
  · split <;> decide +kernel

theorem printable_mode (am : AddressingMode) : Printable am.text := by
  cases am <;> (unfold AddressingMode.text; pieces; all_goals first | exact printable_bew _ | decide +kernel)

theorem printable_hexMode (am : AddressingMode) : Printable am.hexText := by
  cases am <;> (unfold AddressingMode.hexText; pieces; try exact printable_mode _)

/-- What a function that may panic returns has the property `P`. -/
def OPost {α : Type} (x : Option α) (P : α → Prop) : Prop := ∀ a, x = some a → P a

theorem OPost.step {α β : Type} {x : Option α} {f : α → Option β} {P : β → Prop} (h : ∀ a, OPost (f a) P) : OPost (x >>= f) P := by
  intro b hb
  cases x with
  | none => cases hb
  | some a => exact h a b hb

theorem OPost.ofPure {α : Type} {a : α} {P : α → Prop} (h : P a) : OPost (pure a) P := by
  intro b hb
  cases hb
  exact h

theorem OPost.ite {α : Type} {c : Prop} [Decidable c] {x y : Option α} {P : α → Prop} (h : OPost x P) (h' : OPost y P) : OPost (if c then x else y) P := by
  split
  · exact h
  · exact h'

macro "texts" : tactic => `(tactic| repeat first
  | with_reducible apply Printable.append
  | with_reducible exact printable_mode _
  | with_reducible exact printable_hexMode _
  | with_reducible exact printable_dec _
  | with_reducible exact printable_sdec _
  | with_reducible exact printable_hex _
  | with_reducible exact printable_hex4 _
  | with_reducible exact printable_size _
  | with_reducible exact printable_dir _
  | with_reducible exact printable_cond _
  | decide +kernel
  | with_reducible apply OPost.ofPure
  | with_reducible apply OPost.ite
  | (with_reducible apply OPost.step; intro _)
  | split)

theorem printable_unknownInstructionText (inst : Instruction) : OPost (Dis.unknownInstructionText inst) Printable := by unfold Dis.unknownInstructionText; texts
theorem printable_abcdText (inst : Instruction) : OPost (Dis.abcdText inst) Printable := by unfold Dis.abcdText; texts
theorem printable_addText (inst : Instruction) : OPost (Dis.addText inst) Printable := by unfold Dis.addText; texts
theorem printable_addaText (inst : Instruction) : OPost (Dis.addaText inst) Printable := by unfold Dis.addaText; texts
theorem printable_addiText (inst : Instruction) : OPost (Dis.addiText inst) Printable := by unfold Dis.addiText; texts
theorem printable_addqText (inst : Instruction) : OPost (Dis.addqText inst) Printable := by unfold Dis.addqText; texts
theorem printable_addxText (inst : Instruction) : OPost (Dis.addxText inst) Printable := by unfold Dis.addxText; texts
theorem printable_andText (inst : Instruction) : OPost (Dis.andText inst) Printable := by unfold Dis.andText; texts
theorem printable_andiText (inst : Instruction) : OPost (Dis.andiText inst) Printable := by unfold Dis.andiText; texts
theorem printable_andiccrText (inst : Instruction) : OPost (Dis.andiccrText inst) Printable := by unfold Dis.andiccrText; texts
theorem printable_andisrText (inst : Instruction) : OPost (Dis.andisrText inst) Printable := by unfold Dis.andisrText; texts
theorem printable_asmText (inst : Instruction) : OPost (Dis.asmText inst) Printable := by unfold Dis.asmText; texts
theorem printable_asrText (inst : Instruction) : OPost (Dis.asrText inst) Printable := by unfold Dis.asrText; texts
theorem printable_bccText (inst : Instruction) : OPost (Dis.bccText inst) Printable := by unfold Dis.bccText; texts
theorem printable_bchgText (inst : Instruction) : OPost (Dis.bchgText inst) Printable := by unfold Dis.bchgText; texts
theorem printable_bclrText (inst : Instruction) : OPost (Dis.bclrText inst) Printable := by unfold Dis.bclrText; texts
theorem printable_braText (inst : Instruction) : OPost (Dis.braText inst) Printable := by unfold Dis.braText; texts
theorem printable_bsetText (inst : Instruction) : OPost (Dis.bsetText inst) Printable := by unfold Dis.bsetText; texts
theorem printable_bsrText (inst : Instruction) : OPost (Dis.bsrText inst) Printable := by unfold Dis.bsrText; texts
theorem printable_btstText (inst : Instruction) : OPost (Dis.btstText inst) Printable := by unfold Dis.btstText; texts
theorem printable_chkText (inst : Instruction) : OPost (Dis.chkText inst) Printable := by unfold Dis.chkText; texts
theorem printable_clrText (inst : Instruction) : OPost (Dis.clrText inst) Printable := by unfold Dis.clrText; texts
theorem printable_cmpText (inst : Instruction) : OPost (Dis.cmpText inst) Printable := by unfold Dis.cmpText; texts
theorem printable_cmpaText (inst : Instruction) : OPost (Dis.cmpaText inst) Printable := by unfold Dis.cmpaText; texts
theorem printable_cmpiText (inst : Instruction) : OPost (Dis.cmpiText inst) Printable := by unfold Dis.cmpiText; texts
theorem printable_cmpmText (inst : Instruction) : OPost (Dis.cmpmText inst) Printable := by unfold Dis.cmpmText; texts
theorem printable_dbccText (inst : Instruction) : OPost (Dis.dbccText inst) Printable := by unfold Dis.dbccText; texts
theorem printable_divsText (inst : Instruction) : OPost (Dis.divsText inst) Printable := by unfold Dis.divsText; texts
theorem printable_divuText (inst : Instruction) : OPost (Dis.divuText inst) Printable := by unfold Dis.divuText; texts
theorem printable_eorText (inst : Instruction) : OPost (Dis.eorText inst) Printable := by unfold Dis.eorText; texts
theorem printable_eoriText (inst : Instruction) : OPost (Dis.eoriText inst) Printable := by unfold Dis.eoriText; texts
theorem printable_eoriccrText (inst : Instruction) : OPost (Dis.eoriccrText inst) Printable := by unfold Dis.eoriccrText; texts
theorem printable_eorisrText (inst : Instruction) : OPost (Dis.eorisrText inst) Printable := by unfold Dis.eorisrText; texts
theorem printable_exgText (inst : Instruction) : OPost (Dis.exgText inst) Printable := by unfold Dis.exgText; texts
theorem printable_extText (inst : Instruction) : OPost (Dis.extText inst) Printable := by unfold Dis.extText; texts
theorem printable_illegalText (inst : Instruction) : OPost (Dis.illegalText inst) Printable := by unfold Dis.illegalText; texts
theorem printable_jmpText (inst : Instruction) : OPost (Dis.jmpText inst) Printable := by unfold Dis.jmpText; texts
theorem printable_jsrText (inst : Instruction) : OPost (Dis.jsrText inst) Printable := by unfold Dis.jsrText; texts
theorem printable_leaText (inst : Instruction) : OPost (Dis.leaText inst) Printable := by unfold Dis.leaText; texts
theorem printable_linkText (inst : Instruction) : OPost (Dis.linkText inst) Printable := by unfold Dis.linkText; texts
theorem printable_lsmText (inst : Instruction) : OPost (Dis.lsmText inst) Printable := by unfold Dis.lsmText; texts
theorem printable_lsrText (inst : Instruction) : OPost (Dis.lsrText inst) Printable := by unfold Dis.lsrText; texts
theorem printable_moveText (inst : Instruction) : OPost (Dis.moveText inst) Printable := by unfold Dis.moveText; texts
theorem printable_moveaText (inst : Instruction) : OPost (Dis.moveaText inst) Printable := by unfold Dis.moveaText; texts
theorem printable_moveccrText (inst : Instruction) : OPost (Dis.moveccrText inst) Printable := by unfold Dis.moveccrText; texts
theorem printable_movefsrText (inst : Instruction) : OPost (Dis.movefsrText inst) Printable := by unfold Dis.movefsrText; texts
theorem printable_movesrText (inst : Instruction) : OPost (Dis.movesrText inst) Printable := by unfold Dis.movesrText; texts
theorem printable_moveuspText (inst : Instruction) : OPost (Dis.moveuspText inst) Printable := by unfold Dis.moveuspText; texts
theorem printable_movemText (inst : Instruction) : OPost (Dis.movemText inst) Printable := by unfold Dis.movemText; texts
theorem printable_movepText (inst : Instruction) : OPost (Dis.movepText inst) Printable := by unfold Dis.movepText; texts
theorem printable_moveqText (inst : Instruction) : OPost (Dis.moveqText inst) Printable := by unfold Dis.moveqText; texts
theorem printable_mulsText (inst : Instruction) : OPost (Dis.mulsText inst) Printable := by unfold Dis.mulsText; texts
theorem printable_muluText (inst : Instruction) : OPost (Dis.muluText inst) Printable := by unfold Dis.muluText; texts
theorem printable_nbcdText (inst : Instruction) : OPost (Dis.nbcdText inst) Printable := by unfold Dis.nbcdText; texts
theorem printable_negText (inst : Instruction) : OPost (Dis.negText inst) Printable := by unfold Dis.negText; texts
theorem printable_negxText (inst : Instruction) : OPost (Dis.negxText inst) Printable := by unfold Dis.negxText; texts
theorem printable_nopText (inst : Instruction) : OPost (Dis.nopText inst) Printable := by unfold Dis.nopText; texts
theorem printable_notText (inst : Instruction) : OPost (Dis.notText inst) Printable := by unfold Dis.notText; texts
theorem printable_orText (inst : Instruction) : OPost (Dis.orText inst) Printable := by unfold Dis.orText; texts
theorem printable_oriText (inst : Instruction) : OPost (Dis.oriText inst) Printable := by unfold Dis.oriText; texts
theorem printable_oriccrText (inst : Instruction) : OPost (Dis.oriccrText inst) Printable := by unfold Dis.oriccrText; texts
theorem printable_orisrText (inst : Instruction) : OPost (Dis.orisrText inst) Printable := by unfold Dis.orisrText; texts
theorem printable_peaText (inst : Instruction) : OPost (Dis.peaText inst) Printable := by unfold Dis.peaText; texts
theorem printable_resetText (inst : Instruction) : OPost (Dis.resetText inst) Printable := by unfold Dis.resetText; texts
theorem printable_romText (inst : Instruction) : OPost (Dis.romText inst) Printable := by unfold Dis.romText; texts
theorem printable_rorText (inst : Instruction) : OPost (Dis.rorText inst) Printable := by unfold Dis.rorText; texts
theorem printable_roxmText (inst : Instruction) : OPost (Dis.roxmText inst) Printable := by unfold Dis.roxmText; texts
theorem printable_roxrText (inst : Instruction) : OPost (Dis.roxrText inst) Printable := by unfold Dis.roxrText; texts
theorem printable_rteText (inst : Instruction) : OPost (Dis.rteText inst) Printable := by unfold Dis.rteText; texts
theorem printable_rtrText (inst : Instruction) : OPost (Dis.rtrText inst) Printable := by unfold Dis.rtrText; texts
theorem printable_rtsText (inst : Instruction) : OPost (Dis.rtsText inst) Printable := by unfold Dis.rtsText; texts
theorem printable_sbcdText (inst : Instruction) : OPost (Dis.sbcdText inst) Printable := by unfold Dis.sbcdText; texts
theorem printable_sccText (inst : Instruction) : OPost (Dis.sccText inst) Printable := by unfold Dis.sccText; texts
theorem printable_stopText (inst : Instruction) : OPost (Dis.stopText inst) Printable := by unfold Dis.stopText; texts
theorem printable_subText (inst : Instruction) : OPost (Dis.subText inst) Printable := by unfold Dis.subText; texts
theorem printable_subaText (inst : Instruction) : OPost (Dis.subaText inst) Printable := by unfold Dis.subaText; texts
theorem printable_subiText (inst : Instruction) : OPost (Dis.subiText inst) Printable := by unfold Dis.subiText; texts
theorem printable_subqText (inst : Instruction) : OPost (Dis.subqText inst) Printable := by unfold Dis.subqText; texts
theorem printable_subxText (inst : Instruction) : OPost (Dis.subxText inst) Printable := by unfold Dis.subxText; texts
theorem printable_swapText (inst : Instruction) : OPost (Dis.swapText inst) Printable := by unfold Dis.swapText; texts
theorem printable_tasText (inst : Instruction) : OPost (Dis.tasText inst) Printable := by unfold Dis.tasText; texts
theorem printable_trapText (inst : Instruction) : OPost (Dis.trapText inst) Printable := by unfold Dis.trapText; texts
theorem printable_trapvText (inst : Instruction) : OPost (Dis.trapvText inst) Printable := by unfold Dis.trapvText; texts
theorem printable_tstText (inst : Instruction) : OPost (Dis.tstText inst) Printable := by unfold Dis.tstText; texts
theorem printable_unlkText (inst : Instruction) : OPost (Dis.unlkText inst) Printable := by unfold Dis.unlkText; texts

theorem printable_dlut (isa : Isa) (inst : Instruction) : OPost (Dis.dlut isa inst) Printable := by
  cases isa
  case Unknown => exact printable_unknownInstructionText inst
  case Abcd => exact printable_abcdText inst
  case Add => exact printable_addText inst
  case Adda => exact printable_addaText inst
  case Addi => exact printable_addiText inst
  case Addq => exact printable_addqText inst
  case Addx => exact printable_addxText inst
  case And => exact printable_andText inst
  case Andi => exact printable_andiText inst
  case Andiccr => exact printable_andiccrText inst
  case Andisr => exact printable_andisrText inst
  case Asm => exact printable_asmText inst
  case Asr => exact printable_asrText inst
  case Bcc => exact printable_bccText inst
  case Bchg => exact printable_bchgText inst
  case Bclr => exact printable_bclrText inst
  case Bra => exact printable_braText inst
  case Bset => exact printable_bsetText inst
  case Bsr => exact printable_bsrText inst
  case Btst => exact printable_btstText inst
  case Chk => exact printable_chkText inst
  case Clr => exact printable_clrText inst
  case Cmp => exact printable_cmpText inst
  case Cmpa => exact printable_cmpaText inst
  case Cmpi => exact printable_cmpiText inst
  case Cmpm => exact printable_cmpmText inst
  case Dbcc => exact printable_dbccText inst
  case Divs => exact printable_divsText inst
  case Divu => exact printable_divuText inst
  case Eor => exact printable_eorText inst
  case Eori => exact printable_eoriText inst
  case Eoriccr => exact printable_eoriccrText inst
  case Eorisr => exact printable_eorisrText inst
  case Exg => exact printable_exgText inst
  case Ext => exact printable_extText inst
  case Illegal => exact printable_illegalText inst
  case Jmp => exact printable_jmpText inst
  case Jsr => exact printable_jsrText inst
  case Lea => exact printable_leaText inst
  case Link => exact printable_linkText inst
  case Lsm => exact printable_lsmText inst
  case Lsr => exact printable_lsrText inst
  case Move => exact printable_moveText inst
  case Movea => exact printable_moveaText inst
  case Moveccr => exact printable_moveccrText inst
  case Movefsr => exact printable_movefsrText inst
  case Movesr => exact printable_movesrText inst
  case Moveusp => exact printable_moveuspText inst
  case Movem => exact printable_movemText inst
  case Movep => exact printable_movepText inst
  case Moveq => exact printable_moveqText inst
  case Muls => exact printable_mulsText inst
  case Mulu => exact printable_muluText inst
  case Nbcd => exact printable_nbcdText inst
  case Neg => exact printable_negText inst
  case Negx => exact printable_negxText inst
  case Nop => exact printable_nopText inst
  case Not => exact printable_notText inst
  case Or => exact printable_orText inst
  case Ori => exact printable_oriText inst
  case Oriccr => exact printable_oriccrText inst
  case Orisr => exact printable_orisrText inst
  case Pea => exact printable_peaText inst
  case Reset => exact printable_resetText inst
  case Rom => exact printable_romText inst
  case Ror => exact printable_rorText inst
  case Roxm => exact printable_roxmText inst
  case Roxr => exact printable_roxrText inst
  case Rte => exact printable_rteText inst
  case Rtr => exact printable_rtrText inst
  case Rts => exact printable_rtsText inst
  case Sbcd => exact printable_sbcdText inst
  case Scc => exact printable_sccText inst
  case Stop => exact printable_stopText inst
  case Sub => exact printable_subText inst
  case Suba => exact printable_subaText inst
  case Subi => exact printable_subiText inst
  case Subq => exact printable_subqText inst
  case Subx => exact printable_subxText inst
  case Swap => exact printable_swapText inst
  case Tas => exact printable_tasText inst
  case Trap => exact printable_trapText inst
  case Trapv => exact printable_trapvText inst
  case Tst => exact printable_tstText inst
  case Unlk => exact printable_unlkText inst

/-! ### A word that is no instruction -/

theorem digits_zeros (k : Nat) (cs : List Char) : Reader.digits 16 0 (List.replicate k '0' ++ cs) = Reader.digits 16 0 cs := by
  induction k with
  | zero => rfl
  | succ k ih =>
    rw [List.replicate_succ, List.cons_append]
    exact (digits_digit (b := 16) (acc := 0) (d := 0) (by omega) (by omega) _).trans ih

theorem skip_append (p cs : List Char) : skip p (p ++ cs) = some cs := by
  induction p with
  | nil => rfl
  | cons c p ih => rw [List.cons_append, skip, if_pos rfl, ih]

theorem unknown_reads (op : U16) (pc : U32) : line pc ("Unknown instruction ".toList ++ hex4 op ++ " at ".toList ++ hex pc) = some (.unknown op.toNat pc.toNat) := by
  have e : "Unknown instruction ".toList ++ hex4 op ++ " at ".toList ++ hex pc =
      "Unknown".toList ++ ' ' :: ("instruction ".toList ++ (List.replicate (4 - (Text.digits 16 op.toNat).length) '0' ++ (Text.digits 16 op.toNat ++ (" at ".toList ++ hex pc)))) := by
    simp [hex4]
  have hs : ' ' ∉ "Unknown".toList := by decide +kernel
  have hst : Stops (" at ".toList ++ hex pc) := by
    intro c r h
    have : " at ".toList = ' ' :: "at ".toList := by decide +kernel
    rw [this] at h
    cases h
    decide
  have hn := number_hex (x := pc) (hw := by omega) (cs := []) (by intro c r h; cases h)
  rw [List.append_nil] at hn
  unfold line
  rw [e, takeWhile_name hs, dropWhile_name hs, if_pos rfl, List.tail_cons, unknownWord, skip_append, Option.bind_eq_bind, Option.bind_some, digits_zeros,
    digits_hex (Nat.lt_trans op.isLt (by decide)) hst]
  dsimp only
  rw [skip_append, Option.bind_some, hn]

/-! ### The interpreter with the text -/

theorem disassemble_some {M : Type} [MemoryAccess M] {op : U16} {pc : U32} {it it' : Iter M} {inst : Instruction}
    (h : Instruction.fromOpcode op pc it = some (inst, it')) : ∃ t, inst.disassemble = some t := by
  obtain ⟨ho, hp, hw⟩ := written h
  unfold Instruction.disassemble
  rw [ho]
  by_cases hu : decoder op = .Unknown
  · rw [hu]; exact ⟨_, rfl⟩
  · obtain ⟨t, ht, -⟩ := text_reads hu hw
    exact ⟨t, ht⟩

namespace Exec
variable {M : Type} [MemoryAccess M]

/-- The result without the text. -/
def dropText : U32 × Text × Nat × Option U8 → U32 × Nat × Option U8 := fun x => (x.1, x.2.2)

theorem nextInstruction_ok {s s1 : St M} {inst : Instruction} (h : getNextInstruction s = .ok inst s1) :
    ∃ op it1 it2, (⟨s.mem, s.cpu.regs.pc⟩ : Iter M).next = .ok op it1 ∧ Instruction.fromOpcode op s.cpu.regs.pc it1 = some (inst, it2) := by
  unfold getNextInstruction Instruction.fromMemory at h
  dsimp only at h
  cases hn : (⟨s.mem, s.cpu.regs.pc⟩ : Iter M).next with
  | panic => rw [hn] at h; cases h
  | err v it => rw [hn] at h; cases h
  | ok op it1 =>
    rw [hn] at h
    dsimp only at h
    cases hf : Instruction.fromOpcode op s.cpu.regs.pc it1 with
    | none => rw [hf] at h; cases h
    | some r =>
      rw [hf] at h
      cases h
      exact ⟨op, it1, r.2, rfl, hf⟩

theorem text_instruction (C : CpuDetails) (k : Nat) (s : St M) : disassemblerInstruction C k s = (dropText <$> disassemblerInstructionText C k) s := by
  rw [map_apply]
  unfold disassemblerInstruction disassemblerInstructionText
  cases h : getNextInstruction s with
  | panic => rfl
  | err e s1 => rfl
  | ok inst s1 =>
    obtain ⟨op, it1, it2, -, hf⟩ := nextInstruction_ok h
    obtain ⟨t, ht⟩ := disassemble_some hf
    dsimp only
    rw [ht]
    dsimp only
    cases finishStep (decoder inst.opcode) k (instructionExecute C (decoder inst.opcode) inst)
      (⟨{ s1.cpu with currentOpcode := inst.opcode }, s1.mem⟩ : St M) <;> rfl

theorem text_call (C : CpuDetails) (s : St M) : disassemblerInterpreterException C s = (dropText <$> disassemblerInterpreterExceptionText C) s := by
  rw [map_apply]
  unfold disassemblerInterpreterException disassemblerInterpreterExceptionText
  by_cases h : s.cpu.stop = true
  · rw [if_pos h, if_pos h]; rfl
  · rw [if_neg h, if_neg h, bind_apply, bind_apply]
    cases pendingCycles C s with
    | panic => rfl
    | err e t => rfl
    | ok k t =>
      dsimp only
      rw [text_instruction, map_apply]

end Exec

end M68k
