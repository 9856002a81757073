import Verif.Spec.SourceProgram
import Verif.Lemmas.SourceStep
import Verif.Lemmas.Contents
import Verif.Lemmas.MovemRam
/-
Programs in memory.
-/
namespace M68k.Exec
open Spec
set_option linter.unusedSectionVars false
variable {M : Type} [MemoryAccess M] [Ram M] {C : CpuDetails} {s s' s1 : St M} {a : U32} {m : M} {ws vs : List U16} {l : Source} {p q : List Source}

theorem holdsWords_cons {w : U16} : HoldsWords m a (w :: ws) ↔ Holds (sz := .Word) m a w ∧ HoldsWords m (a + 2) ws := by
  constructor
  · intro h
    refine ⟨?_, fun k hk => ?_⟩
    · have := h 0 (by simp)
      rwa [show at_ a (2 * 0) = a from at_zero a] at this
    · have := h (k + 1) (by simpa using hk)
      rw [two_at, at_add, show 2 + 2 * k = 2 * (k + 1) by omega]
      simpa using this
  · rintro ⟨h0, h1⟩ k hk
    cases k with
    | zero => rw [show at_ a (2 * 0) = a from at_zero a]; exact h0
    | succ k =>
      have := h1 k (by simpa using hk)
      rw [two_at, at_add, show 2 + 2 * k = 2 * (k + 1) by omega] at this
      simpa using this

theorem holdsWords_append : HoldsWords m a (ws ++ vs) ↔ HoldsWords m a ws ∧ HoldsWords m (at_ a (2 * ws.length)) vs := by
  induction ws generalizing a with
  | nil => simp only [List.nil_append, List.length_nil, Nat.mul_zero, at_zero]; exact ⟨fun h => ⟨fun k hk => absurd hk (Nat.not_lt_zero k), h⟩, And.right⟩
  | cons w ws ih =>
    rw [List.cons_append, holdsWords_cons, holdsWords_cons, ih, two_at, at_add, List.length_cons, show 2 + 2 * ws.length = 2 * (ws.length + 1) by omega, and_assoc]

theorem feeds_holds (ha : ¬ Spec.Odd a) (h : HoldsWords m a ws) : Feeds ⟨m, a⟩ ws ⟨m, at_ a (2 * ws.length)⟩ := by
  induction ws generalizing a with
  | nil => rw [List.length_nil, Nat.mul_zero, at_zero]; exact .nil _
  | cons w ws ih =>
    obtain ⟨h0, h1⟩ := holdsWords_cons.1 h
    have h2 := ih (fun h => ha ((odd_two a).1 h)) h1
    rw [two_at, at_add, show 2 + 2 * ws.length = 2 * (w :: ws).length by rw [List.length_cons]; omega] at h2
    exact .cons ha (memGet_holds (sz := .Word) (fun h => ha h.2) h0) h2

theorem program_append {all : List U16} (h : Source.program (p ++ q) = some all) : ∃ ws vs, Source.program p = some ws ∧ Source.program q = some vs ∧ all = ws ++ vs := by
  induction p generalizing all with
  | nil => exact ⟨[], all, rfl, h, rfl⟩
  | cons l p ih =>
    rw [List.cons_append] at h
    unfold Source.program at h
    split at h
    · rename_i ws rest h1 h2
      obtain ⟨w1, w2, h3, h4, rfl⟩ := ih h2
      cases h
      refine ⟨ws ++ w1, w2, ?_, h4, by rw [List.append_assoc]⟩
      unfold Source.program
      rw [h1, h3]
    · cases h

/-- The words of a line of a program are where the line is. -/
theorem atLine_holds (h : AtLine p a l ws s) : ¬ Spec.Odd s.cpu.regs.pc ∧ HoldsWords s.mem s.cpu.regs.pc ws := by
  obtain ⟨all, ha, hh⟩ := h.held
  obtain ⟨p1, p2, w1, rfl, h1, hpc⟩ := h.here
  obtain ⟨v1, v2, h2, h3, rfl⟩ := program_append ha
  rw [h1] at h2
  cases h2
  unfold Source.program at h3
  rw [h.words] at h3
  split at h3
  · rename_i hw hr
    cases hw
    cases h3
    have := (holdsWords_append.1 (holdsWords_append.1 hh).2).1
    rw [hpc]
    exact ⟨fun ho => h.even ((odd_at (by omega)).1 ho), this⟩
  · cases h3

theorem atLine_words (hne : ws ≠ []) (h : AtLine p a l ws s) : AtWords s ws (afterWords s ws) := by
  obtain ⟨he, hh⟩ := atLine_holds h
  refine ⟨h.running, h.idle, ?_⟩
  cases ws with
  | nil => exact absurd rfl hne
  | cons op ws => exact ⟨op, _, rfl, feeds_holds he hh, rfl⟩

/-! ### Every line has words -/

theorem ne_nil_bind {α : Type} {o : Option α} {f : α → Option (List U16)} (h : ∀ x, f x ≠ some []) : (o >>= f) ≠ some [] := by
  cases o with
  | none => exact fun h => nomatch h
  | some x => exact h x

theorem ne_nil_of {ws : List U16} (h : ws.length ≠ 0) : (pure ws : Option (List U16)) ≠ some [] := by
  intro he; cases he; exact h rfl

theorem conditionDisplacement_ne (c : Asm.Condition) (d : U16) : (Asm.conditionDisplacement c d).length ≠ 0 := by
  unfold Asm.conditionDisplacement; dsimp only; split <;> exact Nat.succ_ne_zero _

theorem sizeEffectiveAddressImmediate_ne (b : U16) (sz : Size) (am : AddressingMode) (v : U32) : (Asm.sizeEffectiveAddressImmediate b sz am v).length ≠ 0 := by
  unfold Asm.sizeEffectiveAddressImmediate; dsimp only; split <;> (try split) <;> exact Nat.succ_ne_zero _

theorem assemble_ne_nil (l : Source) : l.assemble ≠ some [] := by
  cases l <;> simp only [Source.assemble, Asm.abcd, Asm.add, Asm.adda, Asm.addi, Asm.addq, Asm.addx, Asm.and, Asm.andi, Asm.andiccr, Asm.andisr, Asm.asm, Asm.asr, Asm.bcc, Asm.bchgDynamic, Asm.bchgStatic, Asm.bclrDynamic, Asm.bclrStatic, Asm.bra, Asm.bsetDynamic, Asm.bsetStatic, Asm.bsr, Asm.btstDynamic, Asm.btstStatic, Asm.chk, Asm.clr, Asm.cmp, Asm.cmpa, Asm.cmpi, Asm.cmpm, Asm.dbcc, Asm.divs, Asm.divu, Asm.eor, Asm.eori, Asm.eoriccr, Asm.eorisr, Asm.exg, Asm.ext, Asm.illegal, Asm.jmp, Asm.jsr, Asm.lea, Asm.link, Asm.lsm, Asm.lsr, Asm.move, Asm.movea, Asm.moveccr, Asm.movefsr, Asm.movesr, Asm.moveusp, Asm.movem, Asm.movep, Asm.moveq, Asm.muls, Asm.mulu, Asm.nbcd, Asm.neg, Asm.negx, Asm.nop, Asm.not, Asm.or, Asm.ori, Asm.oriccr, Asm.orisr, Asm.pea, Asm.reset, Asm.rom, Asm.ror, Asm.roxm, Asm.roxr, Asm.rte, Asm.rtr, Asm.rts, Asm.sbcd, Asm.scc, Asm.stop, Asm.sub, Asm.suba, Asm.subi, Asm.subq, Asm.subx, Asm.swap, Asm.tas, Asm.trap, Asm.trapv, Asm.tst, Asm.unlk, Asm.registerSizeEffectiveAddress, Asm.sizeEffectiveAddressEffectiveAddress]
  all_goals
    repeat' (first | (apply ne_nil_bind; intro _) | exact ne_nil_of (conditionDisplacement_ne _ _) | exact ne_nil_of (sizeEffectiveAddressImmediate_ne _ _ _ _) | exact ne_nil_of (Nat.succ_ne_zero _) | split)

end M68k.Exec
