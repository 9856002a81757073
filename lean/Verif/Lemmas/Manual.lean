import Verif.Spec.Manual
import Verif.Lemmas.Legal
/-
The times of the crate's MC68000 and the tables of the manual.
-/
namespace M68k
namespace Exec
open Spec

/-- The destination of MOVEA, and the modes of MOVEM apart from the words that are not instructions of the 68000. -/
def movemCheck (i : Isa) (op : Nat) : Bool :=
  match i with
  | .Movem => movemExtra op || (eaInMemory (op / 8 % 8) (op % 8) && if op / 1024 % 2 = 1 then op / 8 % 8 != 4 else op / 8 % 8 != 3 && (op / 8 % 8 < 7 || op % 8 ≤ 1))
  | .Movea => op / 64 % 8 == 1
  | _ => true

theorem ea_fin : ∀ m r : Fin 8, (m.val < 7 ∨ r.val ≤ 4) → eaCycles mc68000 m.val r.val = Manual.ea false m.val r.val ∧
    eaCycles mc68000 m.val r.val + (if 2 ≤ m.val then 4 else 0) = Manual.ea true m.val r.val := by decide

theorem ea_word {m r : Nat} (hm : m < 8) (hr : r < 8) (h : m < 7 ∨ r ≤ 4) : eaCycles mc68000 m r = Manual.ea false m r := (ea_fin ⟨m, hm⟩ ⟨r, hr⟩ h).1
theorem ea_long {m r : Nat} (hm : m < 8) (hr : r < 8) (h : m < 7 ∨ r ≤ 4) :
    eaCycles mc68000 m r + (if 2 ≤ m then 4 else 0) = Manual.ea true m r := (ea_fin ⟨m, hm⟩ ⟨r, hr⟩ h).2

theorem ea_read {m r : Nat} {sz : Size} (hm : m < 8) (hr : r < 8) (h : m < 7 ∨ r ≤ 4) :
    eaCycles mc68000 m r + longReadCycles sz m = Manual.ea (decide (sz = .Long)) m r := by
  unfold longReadCycles
  by_cases hs : sz = .Long
  · simp only [hs, true_and, decide_true]; exact ea_long hm hr h
  · simp only [hs, false_and, if_false, decide_false, Nat.add_zero]; exact ea_word hm hr h

theorem mem_alterable {m r : Nat} (hm : m < 8) (h : m < 7 ∨ r ≤ 1) : eaInMemory m r = decide (2 ≤ m) := by
  unfold eaInMemory
  rw [Bool.eq_iff_iff]
  simp only [Bool.or_eq_true, Bool.and_eq_true, decide_eq_true_eq, beq_iff_eq]
  omega

theorem ea_write {m r : Nat} {sz : Size} (hm : m < 8) (hr : r < 8) (h : m < 7 ∨ r ≤ 1) :
    eaCycles mc68000 m r + longWriteCycles sz m r = Manual.ea (decide (sz = .Long)) m r := by
  rw [← ea_read hm hr (by omega)]
  unfold longWriteCycles longReadCycles
  rw [mem_alterable hm h]
  simp only [decide_eq_true_eq]

theorem long_iff {op : U16} : ((opSize op).getD .Byte = .Long) = (op.toNat / 64 % 4 = 2) := by
  unfold opSize
  have : op.toNat / 64 % 4 < 4 := Nat.mod_lt _ (by decide)
  rcases (show op.toNat / 64 % 4 = 0 ∨ op.toNat / 64 % 4 = 1 ∨ op.toNat / 64 % 4 = 2 ∨ op.toNat / 64 % 4 = 3 by omega) with h | h | h | h <;> rw [h] <;> simp

theorem moveLong_iff {op : U16} : ((moveOpSize op).getD .Byte = .Long) = (op.toNat / 4096 % 4 = 2) := by
  unfold moveOpSize
  rcases (show op.toNat / 4096 % 4 = 0 ∨ op.toNat / 4096 % 4 = 1 ∨ op.toNat / 4096 % 4 = 2 ∨ op.toNat / 4096 % 4 = 3 by omega) with h | h | h | h <;> rw [h] <;> simp

theorem bitLong_iff {op : U16} {i : Nat} : (sizeBit op i = .Long) = (flag op i = true) := by
  unfold sizeBit
  cases flag op i <;> simp

theorem bySize_of {sz : Size} {p : Prop} [Decidable p] (h : (sz = .Long) = p) (a b : Nat) : bySize sz a b = if p then b else a := by
  unfold bySize; subst h; congr
theorem longRead_of {sz : Size} {p : Prop} [Decidable p] (h : (sz = .Long) = p) (m : Nat) : longReadCycles sz m = if p ∧ 2 ≤ m then 4 else 0 := by
  unfold longReadCycles; subst h; congr
theorem longWrite_of {sz : Size} {p : Prop} [Decidable p] (h : (sz = .Long) = p) (m r : Nat) :
    longWriteCycles sz m r = if p ∧ eaInMemory m r then 4 else 0 := by
  unfold longWriteCycles; subst h; congr

theorem move_fin : ∀ m r d e : Fin 8, (m.val < 7 ∨ r.val ≤ 4) → (d.val < 7 ∨ e.val ≤ 1) →
    (if d.val = 4 then 2 else 4) + eaCycles mc68000 m.val r.val + eaCycles mc68000 d.val e.val =
      (Manual.moveWordTable.getD (Manual.row m.val r.val) []).getD (Manual.row d.val e.val) 0 ∧
    (if d.val = 4 then 2 else 4) + eaCycles mc68000 m.val r.val + (if 2 ≤ m.val then 4 else 0) + eaCycles mc68000 d.val e.val + (if eaInMemory d.val e.val then 4 else 0) =
      (Manual.moveLongTable.getD (Manual.row m.val r.val) []).getD (Manual.row d.val e.val) 0 := by decide +kernel

theorem jmp_fin : ∀ m r : Fin 8, eaInMemory m.val r.val = true → m.val ≠ 3 → m.val ≠ 4 →
    controlCycles 8 10 14 10 12 10 14 m.val r.val = Manual.controlRow [8, 0, 0, 10, 14, 10, 12, 10, 14] m.val r.val ∧
    controlCycles 16 18 22 18 20 18 22 m.val r.val = Manual.controlRow [16, 0, 0, 18, 22, 18, 20, 18, 22] m.val r.val ∧
    controlCycles 4 8 12 8 12 8 12 m.val r.val = Manual.controlRow [4, 0, 0, 8, 12, 8, 12, 8, 12] m.val r.val ∧
    controlCycles 12 16 20 16 20 16 20 m.val r.val = Manual.controlRow [12, 0, 0, 16, 20, 16, 20, 16, 20] m.val r.val := by decide

theorem movem_fin : ∀ m r : Fin 8, eaInMemory m.val r.val = true →
    (m.val ≠ 4 → movemCycles mc68000 m.val r.val + 4 = Manual.controlRow [12, 12, 0, 16, 18, 16, 20, 16, 18] m.val r.val) ∧
    (m.val ≠ 3 → (m.val < 7 ∨ r.val ≤ 1) → movemCycles mc68000 m.val r.val = Manual.controlRow [8, 0, 8, 12, 14, 12, 16, 0, 0] m.val r.val) := by decide

set_option maxRecDepth 100000 in
set_option maxHeartbeats 4000000 in
theorem movemCheck_all : checkTable movemCheck = true := by apply checkTable_intro <;> decide +kernel

/-- Compares a time with the manual for all values of the effective address field, the size field and bit 8. -/
macro "compare" : tactic => `(tactic| (
  intro op r ws hl
  have hm : op.toNat / 8 % 8 < 8 := Nat.mod_lt _ (by decide)
  have hg : op.toNat % 8 < 8 := Nat.mod_lt _ (by decide)
  have hz : op.toNat / 64 % 4 < 4 := Nat.mod_lt _ (by decide)
  have hy : op.toNat / 256 % 2 < 2 := Nat.mod_lt _ (by decide)
  simp only [legalCheck] at hl
  simp only [cycles, Manual.time, Manual.modifiesLong, bySize_of long_iff, bySize_of bitLong_iff, longRead_of long_iff, longRead_of bitLong_iff,
    longWrite_of long_iff]
  clear r ws
  generalize flag op 8 = f at *
  generalize op.toNat / 64 % 4 = z at *
  generalize op.toNat / 256 % 2 = y at *
  generalize op.toNat / 8 % 8 = m at *
  generalize op.toNat % 8 = g at *
  clear op
  revert hl; revert f
  first | (clear hy y) | revert y
  revert g; revert z; revert m
  decide +kernel))

def AsManual (i : Isa) : Prop := ∀ (op : U16) (r : Registers) (ws : List U16), legalCheck i op.toNat = true →
  cycles mc68000 i op r ws = Manual.time i op r ws + 4 * (Manual.modifiesLong i op).toNat

theorem manual_Add : AsManual .Add := by compare
theorem manual_Sub : AsManual .Sub := by compare
theorem manual_And : AsManual .And := by compare
theorem manual_Or : AsManual .Or := by compare
theorem manual_Addi : AsManual .Addi := by compare
theorem manual_Subi : AsManual .Subi := by compare
theorem manual_Andi : AsManual .Andi := by compare
theorem manual_Ori : AsManual .Ori := by compare
theorem manual_Eori : AsManual .Eori := by compare
theorem manual_Eor : AsManual .Eor := by compare
theorem manual_Neg : AsManual .Neg := by compare
theorem manual_Negx : AsManual .Negx := by compare
theorem manual_Not : AsManual .Not := by compare
theorem manual_Cmpi : AsManual .Cmpi := by compare
theorem manual_Tst : AsManual .Tst := by compare
theorem manual_Clr : AsManual .Clr := by compare
theorem manual_Cmp : AsManual .Cmp := by compare
theorem manual_Adda : AsManual .Adda := by compare
theorem manual_Suba : AsManual .Suba := by compare
theorem manual_Cmpa : AsManual .Cmpa := by compare
theorem manual_Addq : AsManual .Addq := by compare
theorem manual_Subq : AsManual .Subq := by compare
theorem manual_Nbcd : AsManual .Nbcd := by compare
theorem manual_Tas : AsManual .Tas := by compare
theorem manual_Mulu : AsManual .Mulu := by compare
theorem manual_Muls : AsManual .Muls := by compare
theorem manual_Divu : AsManual .Divu := by compare
theorem manual_Divs : AsManual .Divs := by compare
theorem manual_Chk : AsManual .Chk := by compare
theorem manual_Moveccr : AsManual .Moveccr := by compare
theorem manual_Movesr : AsManual .Movesr := by compare
theorem manual_Movefsr : AsManual .Movefsr := by compare
theorem manual_Btst : AsManual .Btst := by compare
theorem manual_Bchg : AsManual .Bchg := by compare
theorem manual_Bclr : AsManual .Bclr := by compare
theorem manual_Bset : AsManual .Bset := by compare
theorem manual_Asm : AsManual .Asm := by compare
theorem manual_Lsm : AsManual .Lsm := by compare
theorem manual_Rom : AsManual .Rom := by compare
theorem manual_Roxm : AsManual .Roxm := by compare
theorem manual_Lea : AsManual .Lea := by compare
theorem manual_Pea : AsManual .Pea := by compare
theorem manual_Jmp : AsManual .Jmp := by compare
theorem manual_Jsr : AsManual .Jsr := by compare

theorem manual_Scc : AsManual .Scc := by
  intro op r ws hl
  have hm : op.toNat / 8 % 8 < 8 := Nat.mod_lt _ (by decide)
  have hg : op.toNat % 8 < 8 := Nat.mod_lt _ (by decide)
  simp only [legalCheck] at hl
  simp only [cycles, Manual.time, Manual.modifiesLong, Bool.and_false]
  generalize holds (ccField op) r.sr = f at *
  clear r ws
  generalize op.toNat / 8 % 8 = m at *
  generalize op.toNat % 8 = g at *
  clear op
  revert hl; revert f; revert g; revert m
  decide +kernel

theorem manual_Move : AsManual .Move := by
  intro op r ws hl
  simp only [legalCheck, Bool.and_eq_true, Bool.or_eq_true, bne_iff_ne, decide_eq_true_eq] at hl
  obtain ⟨⟨⟨⟨-, h1⟩, -⟩, h2⟩, -⟩ := hl
  have h := move_fin ⟨op.toNat / 8 % 8, Nat.mod_lt _ (by decide)⟩ ⟨op.toNat % 8, Nat.mod_lt _ (by decide)⟩ ⟨op.toNat / 64 % 8, Nat.mod_lt _ (by decide)⟩
    ⟨op.toNat / 512 % 8, Nat.mod_lt _ (by decide)⟩ h1 h2
  simp only [cycles, Manual.time, Manual.modifiesLong, Bool.and_false, Bool.toNat_false, Nat.mul_zero, Nat.add_zero, longRead_of moveLong_iff, longWrite_of moveLong_iff]
  by_cases hs : op.toNat / 4096 % 4 = 2
  · simp only [hs, true_and, if_true]
    exact h.2
  · simp only [hs, false_and, if_false, Nat.add_zero]
    exact h.1

theorem manual_Movea (op : U16) (r : Registers) (ws : List U16) (hl : legalCheck .Movea op.toNat = true) (hd : op.toNat / 64 % 8 = 1) :
    cycles mc68000 .Movea op r ws = Manual.time .Movea op r ws + 4 * (Manual.modifiesLong .Movea op).toNat := by
  simp only [legalCheck, Bool.and_eq_true, Bool.or_eq_true, bne_iff_ne, decide_eq_true_eq] at hl
  obtain ⟨⟨-, h1⟩, -⟩ := hl
  have h := move_fin ⟨op.toNat / 8 % 8, Nat.mod_lt _ (by decide)⟩ ⟨op.toNat % 8, Nat.mod_lt _ (by decide)⟩ 1 0 h1 (.inl (by decide))
  simp only [cycles, Manual.time, Manual.modifiesLong, Bool.and_false, Bool.toNat_false, Nat.mul_zero, Nat.add_zero, longRead_of moveLong_iff]
  have hrow : Manual.row (op.toNat / 64 % 8) (op.toNat / 512 % 8) = 1 := by rw [hd]; rfl
  rw [hrow]
  by_cases hs : op.toNat / 4096 % 4 = 2
  · simp only [hs, true_and, if_true]
    exact h.2
  · simp only [hs, false_and, if_false, Nat.add_zero]
    exact h.1

theorem manual_Movem (op : U16) (r : Registers) (ws : List U16) (hc : movemCheck .Movem op.toNat = true) (hx : movemExtra op.toNat = false) :
    cycles mc68000 .Movem op r ws = Manual.time .Movem op r ws + 4 * (Manual.modifiesLong .Movem op).toNat := by
  simp only [movemCheck, hx, Bool.false_or, Bool.and_eq_true] at hc
  obtain ⟨h1, h2⟩ := hc
  have h := movem_fin ⟨op.toNat / 8 % 8, Nat.mod_lt _ (by decide)⟩ ⟨op.toNat % 8, Nat.mod_lt _ (by decide)⟩ h1
  simp only [cycles, Manual.time, Manual.modifiesLong, Bool.and_false, Bool.toNat_false, Nat.mul_zero, Nat.add_zero, bySize_of bitLong_iff]
  rw [Nat.mul_comm (listCount ws)]
  have hf : flag op 10 = decide (op.toNat / 1024 % 2 = 1) := rfl
  by_cases hd : op.toNat / 1024 % 2 = 1
  · rw [if_pos hd] at h2
    rw [hf, decide_eq_true hd, if_pos rfl, if_pos rfl, ← h.1 (by simpa using h2)]
    rfl
  · rw [if_neg hd] at h2
    simp only [Bool.and_eq_true, Bool.or_eq_true, bne_iff_ne, decide_eq_true_eq] at h2
    simp only [hf, decide_eq_false hd, Bool.false_eq_true, if_false]
    rw [← h.2 h2.1 h2.2]
    rfl

/-- The shifts of a register. -/
macro "compareShift" : tactic => `(tactic| (
  intro op r ws _
  simp only [cycles, Manual.time, Manual.modifiesLong, Bool.and_false, Bool.toNat_false, Nat.mul_zero, Nat.add_zero, bySize_of long_iff, decide_eq_true_eq]
  rfl))
theorem manual_Asr : AsManual .Asr := by compareShift
theorem manual_Lsr : AsManual .Lsr := by compareShift
theorem manual_Ror : AsManual .Ror := by compareShift
theorem manual_Roxr : AsManual .Roxr := by compareShift

/-- The instructions without effective address. -/
macro "compareOther" : tactic => `(tactic| (
  intro op r ws _
  simp only [cycles, Manual.time, Manual.modifiesLong, Bool.and_false, Bool.toNat_false, Nat.mul_zero, Nat.add_zero, bySize_of long_iff, bySize_of bitLong_iff,
    decide_eq_true_eq] <;>
  first | rfl | (split <;> first | rfl | (split <;> rfl))))
theorem manual_Addx : AsManual .Addx := by compareOther
theorem manual_Subx : AsManual .Subx := by compareOther
theorem manual_Abcd : AsManual .Abcd := by compareOther
theorem manual_Sbcd : AsManual .Sbcd := by compareOther
theorem manual_Cmpm : AsManual .Cmpm := by compareOther
theorem manual_Moveq : AsManual .Moveq := by compareOther
theorem manual_Movep : AsManual .Movep := by compareOther
theorem manual_Exg : AsManual .Exg := by compareOther
theorem manual_Ext : AsManual .Ext := by compareOther
theorem manual_Swap : AsManual .Swap := by compareOther
theorem manual_Link : AsManual .Link := by compareOther
theorem manual_Unlk : AsManual .Unlk := by compareOther
theorem manual_Bcc : AsManual .Bcc := by compareOther
theorem manual_Bra : AsManual .Bra := by compareOther
theorem manual_Bsr : AsManual .Bsr := by compareOther
theorem manual_Dbcc : AsManual .Dbcc := by compareOther
theorem manual_Rts : AsManual .Rts := by compareOther
theorem manual_Rtr : AsManual .Rtr := by compareOther
theorem manual_Rte : AsManual .Rte := by compareOther
theorem manual_Nop : AsManual .Nop := by compareOther
theorem manual_Trapv : AsManual .Trapv := by compareOther
theorem manual_Andiccr : AsManual .Andiccr := by compareOther
theorem manual_Oriccr : AsManual .Oriccr := by compareOther
theorem manual_Eoriccr : AsManual .Eoriccr := by compareOther
theorem manual_Andisr : AsManual .Andisr := by compareOther
theorem manual_Orisr : AsManual .Orisr := by compareOther
theorem manual_Eorisr : AsManual .Eorisr := by compareOther
theorem manual_Moveusp : AsManual .Moveusp := by compareOther
theorem manual_Stop : AsManual .Stop := by compareOther
theorem manual_Reset : AsManual .Reset := by compareOther
theorem manual_Unknown : AsManual .Unknown := by compareOther
theorem manual_Illegal : AsManual .Illegal := by compareOther
theorem manual_Trap : AsManual .Trap := by compareOther

/-- All instructions. -/
theorem as_manual (op : U16) (r : Registers) (ws : List U16) (hx : movemExtra op.toNat = false) :
    cycles mc68000 (decoder op) op r ws = Manual.time (decoder op) op r ws + 4 * (Manual.modifiesLong (decoder op) op).toNat := by
  have hl := decoder_of_check legalCheck legalCheck_all op
  have hc := decoder_of_check movemCheck movemCheck_all op
  revert hl hc
  cases decoder op with
  | Add => exact fun hl _ => manual_Add op r ws hl
  | Sub => exact fun hl _ => manual_Sub op r ws hl
  | And => exact fun hl _ => manual_And op r ws hl
  | Or => exact fun hl _ => manual_Or op r ws hl
  | Addi => exact fun hl _ => manual_Addi op r ws hl
  | Subi => exact fun hl _ => manual_Subi op r ws hl
  | Andi => exact fun hl _ => manual_Andi op r ws hl
  | Ori => exact fun hl _ => manual_Ori op r ws hl
  | Eori => exact fun hl _ => manual_Eori op r ws hl
  | Eor => exact fun hl _ => manual_Eor op r ws hl
  | Neg => exact fun hl _ => manual_Neg op r ws hl
  | Negx => exact fun hl _ => manual_Negx op r ws hl
  | Not => exact fun hl _ => manual_Not op r ws hl
  | Cmpi => exact fun hl _ => manual_Cmpi op r ws hl
  | Tst => exact fun hl _ => manual_Tst op r ws hl
  | Clr => exact fun hl _ => manual_Clr op r ws hl
  | Cmp => exact fun hl _ => manual_Cmp op r ws hl
  | Adda => exact fun hl _ => manual_Adda op r ws hl
  | Suba => exact fun hl _ => manual_Suba op r ws hl
  | Cmpa => exact fun hl _ => manual_Cmpa op r ws hl
  | Addq => exact fun hl _ => manual_Addq op r ws hl
  | Subq => exact fun hl _ => manual_Subq op r ws hl
  | Nbcd => exact fun hl _ => manual_Nbcd op r ws hl
  | Tas => exact fun hl _ => manual_Tas op r ws hl
  | Mulu => exact fun hl _ => manual_Mulu op r ws hl
  | Muls => exact fun hl _ => manual_Muls op r ws hl
  | Divu => exact fun hl _ => manual_Divu op r ws hl
  | Divs => exact fun hl _ => manual_Divs op r ws hl
  | Chk => exact fun hl _ => manual_Chk op r ws hl
  | Moveccr => exact fun hl _ => manual_Moveccr op r ws hl
  | Movesr => exact fun hl _ => manual_Movesr op r ws hl
  | Movefsr => exact fun hl _ => manual_Movefsr op r ws hl
  | Btst => exact fun hl _ => manual_Btst op r ws hl
  | Bchg => exact fun hl _ => manual_Bchg op r ws hl
  | Bclr => exact fun hl _ => manual_Bclr op r ws hl
  | Bset => exact fun hl _ => manual_Bset op r ws hl
  | Asm => exact fun hl _ => manual_Asm op r ws hl
  | Lsm => exact fun hl _ => manual_Lsm op r ws hl
  | Rom => exact fun hl _ => manual_Rom op r ws hl
  | Roxm => exact fun hl _ => manual_Roxm op r ws hl
  | Lea => exact fun hl _ => manual_Lea op r ws hl
  | Pea => exact fun hl _ => manual_Pea op r ws hl
  | Jmp => exact fun hl _ => manual_Jmp op r ws hl
  | Jsr => exact fun hl _ => manual_Jsr op r ws hl
  | Scc => exact fun hl _ => manual_Scc op r ws hl
  | Move => exact fun hl _ => manual_Move op r ws hl
  | Asr => exact fun hl _ => manual_Asr op r ws hl
  | Lsr => exact fun hl _ => manual_Lsr op r ws hl
  | Ror => exact fun hl _ => manual_Ror op r ws hl
  | Roxr => exact fun hl _ => manual_Roxr op r ws hl
  | Addx => exact fun hl _ => manual_Addx op r ws hl
  | Subx => exact fun hl _ => manual_Subx op r ws hl
  | Abcd => exact fun hl _ => manual_Abcd op r ws hl
  | Sbcd => exact fun hl _ => manual_Sbcd op r ws hl
  | Cmpm => exact fun hl _ => manual_Cmpm op r ws hl
  | Moveq => exact fun hl _ => manual_Moveq op r ws hl
  | Movep => exact fun hl _ => manual_Movep op r ws hl
  | Exg => exact fun hl _ => manual_Exg op r ws hl
  | Ext => exact fun hl _ => manual_Ext op r ws hl
  | Swap => exact fun hl _ => manual_Swap op r ws hl
  | Link => exact fun hl _ => manual_Link op r ws hl
  | Unlk => exact fun hl _ => manual_Unlk op r ws hl
  | Bcc => exact fun hl _ => manual_Bcc op r ws hl
  | Bra => exact fun hl _ => manual_Bra op r ws hl
  | Bsr => exact fun hl _ => manual_Bsr op r ws hl
  | Dbcc => exact fun hl _ => manual_Dbcc op r ws hl
  | Rts => exact fun hl _ => manual_Rts op r ws hl
  | Rtr => exact fun hl _ => manual_Rtr op r ws hl
  | Rte => exact fun hl _ => manual_Rte op r ws hl
  | Nop => exact fun hl _ => manual_Nop op r ws hl
  | Trapv => exact fun hl _ => manual_Trapv op r ws hl
  | Andiccr => exact fun hl _ => manual_Andiccr op r ws hl
  | Oriccr => exact fun hl _ => manual_Oriccr op r ws hl
  | Eoriccr => exact fun hl _ => manual_Eoriccr op r ws hl
  | Andisr => exact fun hl _ => manual_Andisr op r ws hl
  | Orisr => exact fun hl _ => manual_Orisr op r ws hl
  | Eorisr => exact fun hl _ => manual_Eorisr op r ws hl
  | Moveusp => exact fun hl _ => manual_Moveusp op r ws hl
  | Stop => exact fun hl _ => manual_Stop op r ws hl
  | Reset => exact fun hl _ => manual_Reset op r ws hl
  | Unknown => exact fun hl _ => manual_Unknown op r ws hl
  | Illegal => exact fun hl _ => manual_Illegal op r ws hl
  | Trap => exact fun hl _ => manual_Trap op r ws hl
  | Movea => exact fun hl hc => manual_Movea op r ws hl (by simpa [movemCheck] using hc)
  | Movem => exact fun _ hc => manual_Movem op r ws hc hx

end Exec
end M68k
