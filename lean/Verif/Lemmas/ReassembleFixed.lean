import Verif.Lemmas.ReassembleEa
import Verif.Lemmas.Length
/-
The formats without an effective address, Scc and MOVEM.
-/
set_option linter.unusedSectionVars false
namespace M68k.Exec
open Spec Decode
variable {op : U16} {ws : List U16} {pc : U32}

theorem op_of {n : Nat} (h : op.toNat = n) : op = BitVec.ofNat 16 n := by rw [← h]; simp

/-- What an instruction without extension words is assembled to. -/
def again (i : Isa) (op : U16) : Option (List U16) := reassemble i (flag op 8) (operandsOf i op 0 [])

theorem t_Swap : ∀ k : Fin 8, again .Swap (BitVec.ofNat 16 (0x4840 + k.val)) = some [BitVec.ofNat 16 (0x4840 + k.val)] := by decide +kernel
theorem t_Unlk : ∀ k : Fin 8, again .Unlk (BitVec.ofNat 16 (0x4E58 + k.val)) = some [BitVec.ofNat 16 (0x4E58 + k.val)] := by decide +kernel
theorem t_Ext : ∀ (b : Fin 2) (k : Fin 8), again .Ext (BitVec.ofNat 16 (0x4880 + 64 * b.val + k.val)) = some [BitVec.ofNat 16 (0x4880 + 64 * b.val + k.val)] := by decide +kernel
theorem t_Trap : ∀ k : Fin 16, again .Trap (BitVec.ofNat 16 (0x4E40 + k.val)) = some [BitVec.ofNat 16 (0x4E40 + k.val)] := by decide +kernel
theorem t_Moveusp : ∀ k : Fin 16, again .Moveusp (BitVec.ofNat 16 (0x4E60 + k.val)) = some [BitVec.ofNat 16 (0x4E60 + k.val)] := by decide +kernel
theorem t_Exg : ∀ (k j : Fin 8) (o : Fin 3), again .Exg (BitVec.ofNat 16 (0xC100 + 512 * k.val + 8 * [8, 9, 17].getD o.val 0 + j.val)) =
    some [BitVec.ofNat 16 (0xC100 + 512 * k.val + 8 * [8, 9, 17].getD o.val 0 + j.val)] := by decide +kernel
theorem t_Moveq : ∀ (k : Fin 8) (d : Fin 256), again .Moveq (BitVec.ofNat 16 (0x7000 + 512 * k.val + d.val)) = some [BitVec.ofNat 16 (0x7000 + 512 * k.val + d.val)] := by decide +kernel
theorem t_Abcd : ∀ (k : Fin 8) (j : Fin 16), again .Abcd (BitVec.ofNat 16 (0xC100 + 512 * k.val + j.val)) = some [BitVec.ofNat 16 (0xC100 + 512 * k.val + j.val)] := by decide +kernel
theorem t_Sbcd : ∀ (k : Fin 8) (j : Fin 16), again .Sbcd (BitVec.ofNat 16 (0x8100 + 512 * k.val + j.val)) = some [BitVec.ofNat 16 (0x8100 + 512 * k.val + j.val)] := by decide +kernel
theorem t_Addx : ∀ (k : Fin 8) (s : Fin 3) (j : Fin 16), again .Addx (BitVec.ofNat 16 (0xD100 + 512 * k.val + 64 * s.val + j.val)) =
    some [BitVec.ofNat 16 (0xD100 + 512 * k.val + 64 * s.val + j.val)] := by decide +kernel
theorem t_Subx : ∀ (k : Fin 8) (s : Fin 3) (j : Fin 16), again .Subx (BitVec.ofNat 16 (0x9100 + 512 * k.val + 64 * s.val + j.val)) =
    some [BitVec.ofNat 16 (0x9100 + 512 * k.val + 64 * s.val + j.val)] := by decide +kernel
theorem t_Cmpm : ∀ (k : Fin 8) (s : Fin 3) (j : Fin 8), again .Cmpm (BitVec.ofNat 16 (0xB108 + 512 * k.val + 64 * s.val + j.val)) =
    some [BitVec.ofNat 16 (0xB108 + 512 * k.val + 64 * s.val + j.val)] := by decide +kernel
theorem t_Asr : ∀ (k : Fin 16) (s : Fin 3) (m : Fin 2) (j : Fin 8), again .Asr (BitVec.ofNat 16 (0xE000 + 256 * k.val + 64 * s.val + 32 * m.val + j.val)) =
    some [BitVec.ofNat 16 (0xE000 + 256 * k.val + 64 * s.val + 32 * m.val + j.val)] := by decide +kernel
theorem t_Lsr : ∀ (k : Fin 16) (s : Fin 3) (m : Fin 2) (j : Fin 8), again .Lsr (BitVec.ofNat 16 (0xE008 + 256 * k.val + 64 * s.val + 32 * m.val + j.val)) =
    some [BitVec.ofNat 16 (0xE008 + 256 * k.val + 64 * s.val + 32 * m.val + j.val)] := by decide +kernel
theorem t_Roxr : ∀ (k : Fin 16) (s : Fin 3) (m : Fin 2) (j : Fin 8), again .Roxr (BitVec.ofNat 16 (0xE010 + 256 * k.val + 64 * s.val + 32 * m.val + j.val)) =
    some [BitVec.ofNat 16 (0xE010 + 256 * k.val + 64 * s.val + 32 * m.val + j.val)] := by decide +kernel
theorem t_Ror : ∀ (k : Fin 16) (s : Fin 3) (m : Fin 2) (j : Fin 8), again .Ror (BitVec.ofNat 16 (0xE018 + 256 * k.val + 64 * s.val + 32 * m.val + j.val)) =
    some [BitVec.ofNat 16 (0xE018 + 256 * k.val + 64 * s.val + 32 * m.val + j.val)] := by decide +kernel


theorem re_Swap (hf : formCheck .Swap op.toNat = true) (hl : ws.length = extensionWords .Swap op) : reassemble .Swap (flag op 8) (operandsOf .Swap op pc ws) = some (canonicalWords .Swap op ws) := by
  simp only [formCheck, beq_iff_eq] at hf
  obtain rfl : ws = [] := List.length_eq_zero_iff.1 hl
  rw [op_of (show op.toNat = 0x4840 + op.toNat % 8 by omega)]
  exact t_Swap ⟨op.toNat % 8, by omega⟩
theorem re_Unlk (hf : formCheck .Unlk op.toNat = true) (hl : ws.length = extensionWords .Unlk op) : reassemble .Unlk (flag op 8) (operandsOf .Unlk op pc ws) = some (canonicalWords .Unlk op ws) := by
  simp only [formCheck, beq_iff_eq] at hf
  obtain rfl : ws = [] := List.length_eq_zero_iff.1 hl
  rw [op_of (show op.toNat = 0x4E58 + op.toNat % 8 by omega)]
  exact t_Unlk ⟨op.toNat % 8, by omega⟩
theorem re_Ext (hf : formCheck .Ext op.toNat = true) (hl : ws.length = extensionWords .Ext op) : reassemble .Ext (flag op 8) (operandsOf .Ext op pc ws) = some (canonicalWords .Ext op ws) := by
  simp only [formCheck, Bool.or_eq_true, beq_iff_eq] at hf
  obtain rfl : ws = [] := List.length_eq_zero_iff.1 hl
  rw [op_of (show op.toNat = 0x4880 + 64 * (op.toNat / 64 % 2) + op.toNat % 8 by omega)]
  exact t_Ext ⟨op.toNat / 64 % 2, by omega⟩ ⟨op.toNat % 8, by omega⟩
theorem re_Trap (hf : formCheck .Trap op.toNat = true) (hl : ws.length = extensionWords .Trap op) : reassemble .Trap (flag op 8) (operandsOf .Trap op pc ws) = some (canonicalWords .Trap op ws) := by
  simp only [formCheck, beq_iff_eq] at hf
  obtain rfl : ws = [] := List.length_eq_zero_iff.1 hl
  rw [op_of (show op.toNat = 0x4E40 + op.toNat % 16 by omega)]
  exact t_Trap ⟨op.toNat % 16, by omega⟩
theorem re_Moveusp (hf : formCheck .Moveusp op.toNat = true) (hl : ws.length = extensionWords .Moveusp op) :
    reassemble .Moveusp (flag op 8) (operandsOf .Moveusp op pc ws) = some (canonicalWords .Moveusp op ws) := by
  simp only [formCheck, beq_iff_eq] at hf
  obtain rfl : ws = [] := List.length_eq_zero_iff.1 hl
  rw [op_of (show op.toNat = 0x4E60 + op.toNat % 16 by omega)]
  exact t_Moveusp ⟨op.toNat % 16, by omega⟩
theorem re_Exg (hf : formCheck .Exg op.toNat = true) (hl : ws.length = extensionWords .Exg op) : reassemble .Exg (flag op 8) (operandsOf .Exg op pc ws) = some (canonicalWords .Exg op ws) := by
  simp only [formCheck, Bool.and_eq_true, Bool.or_eq_true, beq_iff_eq] at hf
  obtain rfl : ws = [] := List.length_eq_zero_iff.1 hl
  obtain ⟨hf, (h | h) | h⟩ := hf
  · rw [op_of (show op.toNat = 0xC100 + 512 * (op.toNat / 512 % 8) + 8 * 8 + op.toNat % 8 by omega)]
    exact t_Exg ⟨op.toNat / 512 % 8, by omega⟩ ⟨op.toNat % 8, by omega⟩ 0
  · rw [op_of (show op.toNat = 0xC100 + 512 * (op.toNat / 512 % 8) + 8 * 9 + op.toNat % 8 by omega)]
    exact t_Exg ⟨op.toNat / 512 % 8, by omega⟩ ⟨op.toNat % 8, by omega⟩ 1
  · rw [op_of (show op.toNat = 0xC100 + 512 * (op.toNat / 512 % 8) + 8 * 17 + op.toNat % 8 by omega)]
    exact t_Exg ⟨op.toNat / 512 % 8, by omega⟩ ⟨op.toNat % 8, by omega⟩ 2
theorem re_Moveq (hf : formCheck .Moveq op.toNat = true) (hl : ws.length = extensionWords .Moveq op) : reassemble .Moveq (flag op 8) (operandsOf .Moveq op pc ws) = some (canonicalWords .Moveq op ws) := by
  simp only [formCheck, Bool.and_eq_true, beq_iff_eq] at hf
  obtain rfl : ws = [] := List.length_eq_zero_iff.1 hl
  rw [op_of (show op.toNat = 0x7000 + 512 * (op.toNat / 512 % 8) + op.toNat % 256 by omega)]
  exact t_Moveq ⟨op.toNat / 512 % 8, by omega⟩ ⟨op.toNat % 256, by omega⟩
theorem re_Abcd (hf : formCheck .Abcd op.toNat = true) (hl : ws.length = extensionWords .Abcd op) : reassemble .Abcd (flag op 8) (operandsOf .Abcd op pc ws) = some (canonicalWords .Abcd op ws) := by
  simp only [formCheck, Bool.and_eq_true, beq_iff_eq] at hf
  obtain rfl : ws = [] := List.length_eq_zero_iff.1 hl
  rw [op_of (show op.toNat = 0xC100 + 512 * (op.toNat / 512 % 8) + op.toNat % 16 by omega)]
  exact t_Abcd ⟨op.toNat / 512 % 8, by omega⟩ ⟨op.toNat % 16, by omega⟩
theorem re_Sbcd (hf : formCheck .Sbcd op.toNat = true) (hl : ws.length = extensionWords .Sbcd op) : reassemble .Sbcd (flag op 8) (operandsOf .Sbcd op pc ws) = some (canonicalWords .Sbcd op ws) := by
  simp only [formCheck, Bool.and_eq_true, beq_iff_eq] at hf
  obtain rfl : ws = [] := List.length_eq_zero_iff.1 hl
  rw [op_of (show op.toNat = 0x8100 + 512 * (op.toNat / 512 % 8) + op.toNat % 16 by omega)]
  exact t_Sbcd ⟨op.toNat / 512 % 8, by omega⟩ ⟨op.toNat % 16, by omega⟩
theorem re_Addx (hf : formCheck .Addx op.toNat = true) (hl : ws.length = extensionWords .Addx op) : reassemble .Addx (flag op 8) (operandsOf .Addx op pc ws) = some (canonicalWords .Addx op ws) := by
  simp only [formCheck, Bool.and_eq_true, beq_iff_eq, bne_iff_ne] at hf
  obtain rfl : ws = [] := List.length_eq_zero_iff.1 hl
  rw [op_of (show op.toNat = 0xD100 + 512 * (op.toNat / 512 % 8) + 64 * (op.toNat / 64 % 4) + op.toNat % 16 by omega)]
  exact t_Addx ⟨op.toNat / 512 % 8, by omega⟩ ⟨op.toNat / 64 % 4, by omega⟩ ⟨op.toNat % 16, by omega⟩
theorem re_Subx (hf : formCheck .Subx op.toNat = true) (hl : ws.length = extensionWords .Subx op) : reassemble .Subx (flag op 8) (operandsOf .Subx op pc ws) = some (canonicalWords .Subx op ws) := by
  simp only [formCheck, Bool.and_eq_true, beq_iff_eq, bne_iff_ne] at hf
  obtain rfl : ws = [] := List.length_eq_zero_iff.1 hl
  rw [op_of (show op.toNat = 0x9100 + 512 * (op.toNat / 512 % 8) + 64 * (op.toNat / 64 % 4) + op.toNat % 16 by omega)]
  exact t_Subx ⟨op.toNat / 512 % 8, by omega⟩ ⟨op.toNat / 64 % 4, by omega⟩ ⟨op.toNat % 16, by omega⟩
theorem re_Cmpm (hf : formCheck .Cmpm op.toNat = true) (hl : ws.length = extensionWords .Cmpm op) : reassemble .Cmpm (flag op 8) (operandsOf .Cmpm op pc ws) = some (canonicalWords .Cmpm op ws) := by
  simp only [formCheck, Bool.and_eq_true, beq_iff_eq, bne_iff_ne] at hf
  obtain rfl : ws = [] := List.length_eq_zero_iff.1 hl
  rw [op_of (show op.toNat = 0xB108 + 512 * (op.toNat / 512 % 8) + 64 * (op.toNat / 64 % 4) + op.toNat % 8 by omega)]
  exact t_Cmpm ⟨op.toNat / 512 % 8, by omega⟩ ⟨op.toNat / 64 % 4, by omega⟩ ⟨op.toNat % 8, by omega⟩
theorem re_Asr (hf : formCheck .Asr op.toNat = true) (hl : ws.length = extensionWords .Asr op) : reassemble .Asr (flag op 8) (operandsOf .Asr op pc ws) = some (canonicalWords .Asr op ws) := by
  simp only [formCheck, Bool.and_eq_true, beq_iff_eq, bne_iff_ne] at hf
  obtain rfl : ws = [] := List.length_eq_zero_iff.1 hl
  rw [op_of (show op.toNat = 0xE000 + 256 * (op.toNat / 256 % 16) + 64 * (op.toNat / 64 % 4) + 32 * (op.toNat / 32 % 2) + op.toNat % 8 by omega)]
  exact t_Asr ⟨op.toNat / 256 % 16, by omega⟩ ⟨op.toNat / 64 % 4, by omega⟩ ⟨op.toNat / 32 % 2, by omega⟩ ⟨op.toNat % 8, by omega⟩
theorem re_Lsr (hf : formCheck .Lsr op.toNat = true) (hl : ws.length = extensionWords .Lsr op) : reassemble .Lsr (flag op 8) (operandsOf .Lsr op pc ws) = some (canonicalWords .Lsr op ws) := by
  simp only [formCheck, Bool.and_eq_true, beq_iff_eq, bne_iff_ne] at hf
  obtain rfl : ws = [] := List.length_eq_zero_iff.1 hl
  rw [op_of (show op.toNat = 0xE008 + 256 * (op.toNat / 256 % 16) + 64 * (op.toNat / 64 % 4) + 32 * (op.toNat / 32 % 2) + op.toNat % 8 by omega)]
  exact t_Lsr ⟨op.toNat / 256 % 16, by omega⟩ ⟨op.toNat / 64 % 4, by omega⟩ ⟨op.toNat / 32 % 2, by omega⟩ ⟨op.toNat % 8, by omega⟩
theorem re_Roxr (hf : formCheck .Roxr op.toNat = true) (hl : ws.length = extensionWords .Roxr op) : reassemble .Roxr (flag op 8) (operandsOf .Roxr op pc ws) = some (canonicalWords .Roxr op ws) := by
  simp only [formCheck, Bool.and_eq_true, beq_iff_eq, bne_iff_ne] at hf
  obtain rfl : ws = [] := List.length_eq_zero_iff.1 hl
  rw [op_of (show op.toNat = 0xE010 + 256 * (op.toNat / 256 % 16) + 64 * (op.toNat / 64 % 4) + 32 * (op.toNat / 32 % 2) + op.toNat % 8 by omega)]
  exact t_Roxr ⟨op.toNat / 256 % 16, by omega⟩ ⟨op.toNat / 64 % 4, by omega⟩ ⟨op.toNat / 32 % 2, by omega⟩ ⟨op.toNat % 8, by omega⟩
theorem re_Ror (hf : formCheck .Ror op.toNat = true) (hl : ws.length = extensionWords .Ror op) : reassemble .Ror (flag op 8) (operandsOf .Ror op pc ws) = some (canonicalWords .Ror op ws) := by
  simp only [formCheck, Bool.and_eq_true, beq_iff_eq, bne_iff_ne] at hf
  obtain rfl : ws = [] := List.length_eq_zero_iff.1 hl
  rw [op_of (show op.toNat = 0xE018 + 256 * (op.toNat / 256 % 16) + 64 * (op.toNat / 64 % 4) + 32 * (op.toNat / 32 % 2) + op.toNat % 8 by omega)]
  exact t_Ror ⟨op.toNat / 256 % 16, by omega⟩ ⟨op.toNat / 64 % 4, by omega⟩ ⟨op.toNat / 32 % 2, by omega⟩ ⟨op.toNat % 8, by omega⟩

/-! ### One extension word -/

theorem t_Link : ∀ k : Fin 8, (0b0100111001010 <<< 3 ||| (toU16 (BitVec.ofNat 8 k.val) &&& 7) : U16) = BitVec.ofNat 16 (0x4E50 + k.val) := by decide +kernel
theorem re_Link (hf : formCheck .Link op.toNat = true) (hl : ws.length = extensionWords .Link op) : reassemble .Link (flag op 8) (operandsOf .Link op pc ws) = some (canonicalWords .Link op ws) := by
  simp only [formCheck, beq_iff_eq] at hf
  obtain ⟨w, rfl⟩ := List.length_eq_one_iff.1 (show _ = 1 from hl)
  show Asm.link (BitVec.ofNat 8 (op.toNat % 8)) w = some [op, w]
  unfold Asm.link
  rw [guard_then (reg_ok _)]
  exact congrArg (fun x => some [x, w]) ((t_Link ⟨op.toNat % 8, by omega⟩).trans (op_of (by dsimp only; omega)).symm)

theorem t_Movep : ∀ (k j : Fin 8) (d l : Bool),
    (let opcode := ((toU16 (BitVec.ofNat 8 k.val) &&& 7) <<< 9 ||| 0b100001 <<< 3 ||| (toU16 (BitVec.ofNat 8 j.val) &&& 7) : U16)
     let opcode := if (if d then Direction.RegisterToMemory else .MemoryToRegister) = .RegisterToMemory then opcode ||| 0x0080 else opcode
     if (if l then Size.Long else .Word).isLong then opcode ||| 0x0040 else opcode) = BitVec.ofNat 16 (512 * k.val + 264 + (if d then 128 else 0) + (if l then 64 else 0) + j.val) := by decide +kernel
theorem re_Movep (hf : formCheck .Movep op.toNat = true) (hl : ws.length = extensionWords .Movep op) : reassemble .Movep (flag op 8) (operandsOf .Movep op pc ws) = some (canonicalWords .Movep op ws) := by
  simp only [formCheck, Bool.and_eq_true, beq_iff_eq] at hf
  obtain ⟨w, rfl⟩ := List.length_eq_one_iff.1 (show _ = 1 from hl)
  show Asm.movep (BitVec.ofNat 8 (op.toNat / 512 % 8)) (if flag op 7 then .RegisterToMemory else .MemoryToRegister) (sizeBit op 6) (BitVec.ofNat 8 (op.toNat % 8)) w = some [op, w]
  unfold Asm.movep
  rw [guard_then (reg_ok _), guard_then (by cases flag op 7 <;> simp), guard_then (by unfold sizeBit; cases flag op 6 <;> decide), guard_then (reg_ok _)]
  refine congrArg (fun x => some [x, w]) ((t_Movep ⟨op.toNat / 512 % 8, by omega⟩ ⟨op.toNat % 8, by omega⟩ (flag op 7) (flag op 6)).trans (op_of ?_).symm)
  have h7 : (if flag op 7 = true then 128 else 0) = 128 * (op.toNat / 128 % 2) := by unfold flag; by_cases h : op.toNat / 2 ^ 7 % 2 = 1 <;> simp [h] <;> omega
  have h6 : (if flag op 6 = true then 64 else 0) = 64 * (op.toNat / 64 % 2) := by unfold flag; by_cases h : op.toNat / 2 ^ 6 % 2 = 1 <;> simp [h] <;> omega
  rw [h7, h6]
  dsimp only
  omega

theorem t_Dbcc : ∀ (c : Fin 16) (k : Fin 8), (0b0101 <<< 12 ||| (conditionOf (BitVec.ofNat 8 c.val)).toU16 <<< 8 ||| 0b11001 <<< 3 ||| (toU16 (BitVec.ofNat 8 k.val) &&& 7) : U16) =
    BitVec.ofNat 16 (0x50C8 + 256 * c.val + k.val) := by decide +kernel
theorem re_Dbcc (hf : formCheck .Dbcc op.toNat = true) (hl : ws.length = extensionWords .Dbcc op) : reassemble .Dbcc (flag op 8) (operandsOf .Dbcc op pc ws) = some (canonicalWords .Dbcc op ws) := by
  simp only [formCheck, Bool.and_eq_true, beq_iff_eq] at hf
  obtain ⟨w, rfl⟩ := List.length_eq_one_iff.1 (show _ = 1 from hl)
  show Asm.dbcc (conditionOf (BitVec.ofNat 8 (op.toNat / 256 % 16))) (BitVec.ofNat 8 (op.toNat % 8)) w = some [op, w]
  unfold Asm.dbcc
  rw [guard_then (reg_ok _)]
  exact congrArg (fun x => some [x, w]) ((t_Dbcc ⟨op.toNat / 256 % 16, by omega⟩ ⟨op.toNat % 8, by omega⟩).trans (op_of (by dsimp only; omega)).symm)

/-! ### Branches -/

theorem t_short : ∀ b : Fin 256, b.val ≠ 0 → (let d := (BitVec.ofNat 8 b.val).signExtend 16; (d.slt (-128) || (127 : U16).slt d || d = 0) = false ∧ toU16 (toU8 d) = BitVec.ofNat 16 b.val) := by decide +kernel

theorem or_byte {x y : U16} (hx : x.toNat % 256 = 0) (hy : y.toNat < 256) : x ||| y = x + y := by
  apply BitVec.eq_of_toNat_eq
  rw [or_low (k := 8) (by simpa using hx) (by simpa using hy), BitVec.toNat_add]
  have := x.isLt
  omega

theorem re_branch {c : Asm.Condition} (hc : (0b0110 <<< 12 ||| c.toU16 <<< 8 : U16).toNat = 256 * (op.toNat / 256)) (hl : ws.length = if op.toNat % 256 = 0 then 1 else 0) :
    Asm.conditionDisplacement c (if op.toNat % 256 = 0 then ws.headD 0 else (op.setWidth 8 : U8).signExtend 16) = canonicalWords .Bcc op ws := by
  unfold Asm.conditionDisplacement
  generalize (0b0110 <<< 12 ||| c.toU16 <<< 8 : U16) = x at hc
  by_cases h0 : op.toNat % 256 = 0
  · simp only [h0, if_true] at hl ⊢
    obtain ⟨w, rfl⟩ := List.length_eq_one_iff.1 hl
    have hx : x = op := BitVec.eq_of_toNat_eq (by omega)
    subst hx
    show _ = (if w ≠ 0 ∧ -128 ≤ w.toInt ∧ w.toInt ≤ 127 then [x + (w &&& 0xFF)] else [x, w])
    have e1 : (w.slt (-128) = true) ↔ w.toInt < -128 := by rw [BitVec.slt_iff_toInt_lt]; exact Iff.rfl
    have e2 : ((127 : U16).slt w = true) ↔ 127 < w.toInt := by rw [BitVec.slt_iff_toInt_lt]; exact Iff.rfl
    show (if w.slt (-128) || (127 : U16).slt w || decide (w = 0) then [x, w] else [x ||| toU16 (toU8 w)]) = _
    by_cases hp : w ≠ 0 ∧ -128 ≤ w.toInt ∧ w.toInt ≤ 127
    · rw [if_pos hp, if_neg]
      · have hb : toU16 (toU8 w) = w &&& 0xFF := by
          apply BitVec.eq_of_toNat_eq
          simp only [toU16, toU8, BitVec.toNat_setWidth, BitVec.toNat_and]
          rw [show (0xFF : U16).toNat = 2 ^ 8 - 1 from rfl, Nat.and_two_pow_sub_one_eq_mod]
          omega
        rw [hb]
        refine congrArg (fun v => [v]) (or_byte h0 ?_)
        rw [BitVec.toNat_and, show (0xFF : U16).toNat = 2 ^ 8 - 1 from rfl, Nat.and_two_pow_sub_one_eq_mod]
        omega
      · simp only [Bool.or_eq_true, decide_eq_true_eq, e1, e2]
        rintro ((h | h) | h)
        · omega
        · omega
        · exact hp.1 h
    · rw [if_neg hp, if_pos]
      simp only [Bool.or_eq_true, decide_eq_true_eq, e1, e2]
      by_cases hw : w = 0
      · exact .inr hw
      · left
        by_cases h1 : w.toInt < -128
        · exact .inl h1
        · refine .inr (Decidable.byContradiction fun h2 => hp ⟨hw, by omega, by omega⟩)
  · simp only [h0, if_false] at hl ⊢
    obtain rfl := List.length_eq_zero_iff.1 hl
    have hop := op.isLt
    have ht := t_short ⟨op.toNat % 256, by omega⟩ h0
    have he : (op.setWidth 8 : U8) = BitVec.ofNat 8 (op.toNat % 256) := by
      apply BitVec.eq_of_toNat_eq
      rw [BitVec.toNat_setWidth, BitVec.toNat_ofNat]
      omega
    rw [he]
    dsimp only at ht
    rw [ht.1, ht.2]
    show [x ||| BitVec.ofNat 16 (op.toNat % 256)] = [op]
    refine congrArg (fun v => [v]) (BitVec.eq_of_toNat_eq ?_)
    have hb : (BitVec.ofNat 16 (op.toNat % 256)).toNat = op.toNat % 256 := by rw [BitVec.toNat_ofNat]; omega
    rw [or_low (k := 8) (by omega) (by omega), hb, hc]
    omega

theorem re_Bra (hf : formCheck .Bra op.toNat = true) (hl : ws.length = extensionWords .Bra op) : reassemble .Bra (flag op 8) (operandsOf .Bra op pc ws) = some (canonicalWords .Bra op ws) := by
  simp only [formCheck, beq_iff_eq] at hf
  exact congrArg some (re_branch (c := .T) (by rw [hf]; rfl) hl)
theorem re_Bsr (hf : formCheck .Bsr op.toNat = true) (hl : ws.length = extensionWords .Bsr op) : reassemble .Bsr (flag op 8) (operandsOf .Bsr op pc ws) = some (canonicalWords .Bsr op ws) := by
  simp only [formCheck, beq_iff_eq] at hf
  exact congrArg some (re_branch (c := .F) (by rw [hf]; rfl) hl)
theorem t_Bcc : ∀ c : Fin 16, (0b0110 <<< 12 ||| (conditionOf (BitVec.ofNat 8 c.val)).toU16 <<< 8 : U16).toNat = 256 * (0x60 + c.val) ∧
    (2 ≤ c.val → conditionOf (BitVec.ofNat 8 c.val) ≠ .T ∧ conditionOf (BitVec.ofNat 8 c.val) ≠ .F) := by decide +kernel
theorem re_Bcc (hf : formCheck .Bcc op.toNat = true) (hl : ws.length = extensionWords .Bcc op) : reassemble .Bcc (flag op 8) (operandsOf .Bcc op pc ws) = some (canonicalWords .Bcc op ws) := by
  simp only [formCheck, Bool.and_eq_true, beq_iff_eq, decide_eq_true_eq] at hf
  have ht := t_Bcc ⟨op.toNat / 256 % 16, by omega⟩
  show Asm.bcc (conditionOf (BitVec.ofNat 8 (op.toNat / 256 % 16))) (if op.toNat % 256 = 0 then ws.headD 0 else (op.setWidth 8 : U8).signExtend 16) = _
  unfold Asm.bcc
  rw [guard_then (ht.2 hf.2)]
  exact congrArg some (re_branch (ht.1.trans (by dsimp only; omega)) hl)

/-! ### Scc and MOVEM -/

theorem t_Scc : ∀ c : Fin 16, (0b0101 <<< 12 ||| (conditionOf (BitVec.ofNat 8 c.val)).toU16 <<< 8 ||| 0b11 <<< 6 : U16).toNat = 64 * (0x50C0 / 64 + 4 * c.val) := by decide +kernel
theorem re_Scc (hf : formCheck .Scc op.toNat = true) (hc : legalCheck .Scc op.toNat = true) (hl : ws.length = extensionWords .Scc op) :
    reassemble .Scc (flag op 8) (operandsOf .Scc op pc ws) = some (canonicalWords .Scc op ws) := by
  facts hf hc
  show Asm.scc (conditionOf (BitVec.ofNat 8 (op.toNat / 256 % 16))) _ = some (op :: ws)
  unfold Asm.scc
  rw [guard_then (ok_dataAlterable (by omega) (by omega) (by omega) (by omega) hl), modeOf_assemble (by omega) (by omega) (by omega) hl fun _ _ => rfl]
  exact congrArg (fun x => some (x :: ws)) (word_eq ((t_Scc ⟨op.toNat / 256 % 16, by omega⟩).trans (by dsimp only; omega)))

theorem t_Movem : ∀ d l : Bool, (0b01001 <<< 11 ||| (if (if d then Direction.MemoryToRegister else .RegisterToMemory) = .MemoryToRegister then (1 : U16) else 0) <<< 10 ||| 0b001 <<< 7 ||| (if l then (1 : U16) else 0) <<< 6 : U16).toNat =
    64 * (0x4880 / 64 + (if d then 16 else 0) + (if l then 1 else 0)) := by decide +kernel
theorem re_Movem (hf : formCheck .Movem op.toNat = true) (hc : legalCheck .Movem op.toNat = true) (hm : op.toNat / 8 % 8 ≠ if flag op 10 then 4 else 3) (hl : ws.length = extensionWords .Movem op) :
    reassemble .Movem (flag op 8) (operandsOf .Movem op pc ws) = some (canonicalWords .Movem op ws) := by
  facts hf hc
  match ws, hl with
  | [], hl => exact absurd hl (by simp only [List.length_nil, extensionWords]; omega)
  | w :: ws, hl =>
    have hl : ws.length = opEaWords 1 op := by
      have : ws.length + 1 = 1 + opEaWords 1 op := hl
      omega
    show Asm.movem (if flag op 10 then .MemoryToRegister else .RegisterToMemory) (sizeBit op 6) (modeOf (pc + BitVec.ofNat 32 2) (op.toNat / 8 % 8) (op.toNat % 8) ws) w = some (op :: w :: ws)
    have h10 : (if flag op 10 = true then 16 else 0) = 16 * (op.toNat / 1024 % 2) := by unfold flag; by_cases h : op.toNat / 2 ^ 10 % 2 = 1 <;> simp [h] <;> omega
    have h6 : (if flag op 6 = true then 1 else 0) = op.toNat / 64 % 2 := by unfold flag; by_cases h : op.toNat / 2 ^ 6 % 2 = 1 <;> simp [h] <;> omega
    have ht := t_Movem (flag op 10) (flag op 6)
    rw [h10, h6] at ht
    unfold Asm.movem
    rw [guard_then (by cases flag op 10 <;> simp), guard_then (by unfold sizeBit; cases flag op 6 <;> decide)]
    have hb : (sizeBit op 6).intoBit = some (if flag op 6 then 1 else 0) := by unfold sizeBit; cases flag op 6 <;> rfl
    have h7 : op.toNat / 8 % 8 = 7 → op.toNat % 8 ≤ 3 := by omega
    rw [modeOf_assemble (by omega) (by omega) (fun h => by have := h7 h; omega) hl fun h1 h2 => by have := h7 h1; omega, hb]
    have key : ∀ x : Option Unit, x = some () → (x >>= fun _ => (some ((0b01001 <<< 11 ||| (if (if flag op 10 then Direction.MemoryToRegister else .RegisterToMemory) = .MemoryToRegister then (1 : U16) else 0) <<< 10 |||
        0b001 <<< 7 ||| (if flag op 6 then (1 : U16) else 0) <<< 6 ||| BitVec.ofNat 16 (8 * (op.toNat / 8 % 8) + op.toNat % 8)) :: w :: ws) : Option (List U16))) = some (op :: w :: ws) := by
      rintro _ rfl
      exact congrArg (fun x => some (x :: w :: ws)) (word_eq (ht.trans (by omega)))
    apply key
    cases h : flag op 10 with
    | true =>
      rw [h] at hm
      simp only [if_true] at hm ⊢
      refine guard_some (ok_load (by omega) (by omega) ?_ h7 hl)
      unfold flag at h
      simp only [decide_eq_true_eq] at h
      omega
    | false =>
      rw [h] at hm
      simp only [Bool.false_eq_true, if_false, reduceCtorEq] at hm ⊢
      unfold flag at h
      simp only [decide_eq_false_iff_not] at h
      refine guard_some (ok_store (by omega) (by omega) ?_ ?_ hl) <;> omega

/-! ### Every instruction -/

/-- A decoded instruction is assembled to its words, in the form of `canonicalWords`. -/
theorem reassemble_eq (hu : decoder op ≠ .Unknown) (hm : decoder op = .Movem → op.toNat / 8 % 8 ≠ if flag op 10 then 4 else 3) (hl : ws.length = extensionWords (decoder op) op) :
    reassemble (decoder op) (flag op 8) (operandsOf (decoder op) op pc ws) = some (canonicalWords (decoder op) op ws) := by
  have hf := decoder_form op
  have hc := decoder_legal op
  generalize decoder op = i at *
  cases i with
  | Unknown => exact absurd rfl hu
  | Movem => exact re_Movem hf hc (hm rfl) hl
  | Add => exact re_Add hf hc hl
  | Sub => exact re_Sub hf hc hl
  | And => exact re_And hf hc hl
  | Or => exact re_Or hf hc hl
  | Cmp => exact re_Cmp hf hc hl
  | Eor => exact re_Eor hf hc hl
  | Adda => exact re_Adda hf hc hl
  | Suba => exact re_Suba hf hc hl
  | Cmpa => exact re_Cmpa hf hc hl
  | Addi => exact re_Addi hf hc hl
  | Subi => exact re_Subi hf hc hl
  | Andi => exact re_Andi hf hc hl
  | Ori => exact re_Ori hf hc hl
  | Eori => exact re_Eori hf hc hl
  | Cmpi => exact re_Cmpi hf hc hl
  | Addq => exact re_Addq hf hc hl
  | Subq => exact re_Subq hf hc hl
  | Neg => exact re_Neg hf hc hl
  | Negx => exact re_Negx hf hc hl
  | Not => exact re_Not hf hc hl
  | Tst => exact re_Tst hf hc hl
  | Clr => exact re_Clr hf hc hl
  | Nbcd => exact re_Nbcd hf hc hl
  | Tas => exact re_Tas hf hc hl
  | Moveccr => exact re_Moveccr hf hc hl
  | Movesr => exact re_Movesr hf hc hl
  | Movefsr => exact re_Movefsr hf hc hl
  | Pea => exact re_Pea hf hc hl
  | Jmp => exact re_Jmp hf hc hl
  | Jsr => exact re_Jsr hf hc hl
  | Scc => exact re_Scc hf hc hl
  | Mulu => exact re_Mulu hf hc hl
  | Muls => exact re_Muls hf hc hl
  | Divu => exact re_Divu hf hc hl
  | Divs => exact re_Divs hf hc hl
  | Chk => exact re_Chk hf hc hl
  | Lea => exact re_Lea hf hc hl
  | Asm => exact re_Asm hf hc hl
  | Lsm => exact re_Lsm hf hc hl
  | Roxm => exact re_Roxm hf hc hl
  | Rom => exact re_Rom hf hc hl
  | Btst => exact re_Btst hf hc hl
  | Bchg => exact re_Bchg hf hc hl
  | Bclr => exact re_Bclr hf hc hl
  | Bset => exact re_Bset hf hc hl
  | Move => exact re_Move hf hc hl
  | Movea => exact re_Movea hf hc hl
  | Movep => exact re_Movep hf hl
  | Moveq => exact re_Moveq hf hl
  | Link => exact re_Link hf hl
  | Unlk => exact re_Unlk hf hl
  | Swap => exact re_Swap hf hl
  | Ext => exact re_Ext hf hl
  | Exg => exact re_Exg hf hl
  | Trap => exact re_Trap hf hl
  | Moveusp => exact re_Moveusp hf hl
  | Dbcc => exact re_Dbcc hf hl
  | Bra => exact re_Bra hf hl
  | Bsr => exact re_Bsr hf hl
  | Bcc => exact re_Bcc hf hl
  | Abcd => exact re_Abcd hf hl
  | Sbcd => exact re_Sbcd hf hl
  | Addx => exact re_Addx hf hl
  | Subx => exact re_Subx hf hl
  | Cmpm => exact re_Cmpm hf hl
  | Asr => exact re_Asr hf hl
  | Lsr => exact re_Lsr hf hl
  | Roxr => exact re_Roxr hf hl
  | Ror => exact re_Ror hf hl
  | Illegal =>
    obtain rfl := op_of (beq_iff_eq.1 hf)
    obtain rfl : ws = [] := List.length_eq_zero_iff.1 hl
    rfl
  | Nop =>
    obtain rfl := op_of (beq_iff_eq.1 hf)
    obtain rfl : ws = [] := List.length_eq_zero_iff.1 hl
    rfl
  | Reset =>
    obtain rfl := op_of (beq_iff_eq.1 hf)
    obtain rfl : ws = [] := List.length_eq_zero_iff.1 hl
    rfl
  | Rte =>
    obtain rfl := op_of (beq_iff_eq.1 hf)
    obtain rfl : ws = [] := List.length_eq_zero_iff.1 hl
    rfl
  | Rtr =>
    obtain rfl := op_of (beq_iff_eq.1 hf)
    obtain rfl : ws = [] := List.length_eq_zero_iff.1 hl
    rfl
  | Rts =>
    obtain rfl := op_of (beq_iff_eq.1 hf)
    obtain rfl : ws = [] := List.length_eq_zero_iff.1 hl
    rfl
  | Trapv =>
    obtain rfl := op_of (beq_iff_eq.1 hf)
    obtain rfl : ws = [] := List.length_eq_zero_iff.1 hl
    rfl
  | Stop =>
    obtain rfl := op_of (beq_iff_eq.1 hf)
    obtain ⟨w, rfl⟩ := List.length_eq_one_iff.1 (show _ = 1 from hl)
    rfl
  | Andiccr =>
    obtain rfl := op_of (beq_iff_eq.1 hf)
    obtain ⟨w, rfl⟩ := List.length_eq_one_iff.1 (show _ = 1 from hl)
    rfl
  | Andisr =>
    obtain rfl := op_of (beq_iff_eq.1 hf)
    obtain ⟨w, rfl⟩ := List.length_eq_one_iff.1 (show _ = 1 from hl)
    rfl
  | Eoriccr =>
    obtain rfl := op_of (beq_iff_eq.1 hf)
    obtain ⟨w, rfl⟩ := List.length_eq_one_iff.1 (show _ = 1 from hl)
    rfl
  | Eorisr =>
    obtain rfl := op_of (beq_iff_eq.1 hf)
    obtain ⟨w, rfl⟩ := List.length_eq_one_iff.1 (show _ = 1 from hl)
    rfl
  | Oriccr =>
    obtain rfl := op_of (beq_iff_eq.1 hf)
    obtain ⟨w, rfl⟩ := List.length_eq_one_iff.1 (show _ = 1 from hl)
    rfl
  | Orisr =>
    obtain rfl := op_of (beq_iff_eq.1 hf)
    obtain ⟨w, rfl⟩ := List.length_eq_one_iff.1 (show _ = 1 from hl)
    rfl

end M68k.Exec
