import Verif.Lemmas.Programs
import Verif.Props.C81
/-
C83: programs written with the assembler compute what they should.
-/
namespace M68k.Props
open Spec Exec
set_option linter.unusedSectionVars false
variable {M : Type} [MemoryAccess M] [Ram M] {C : CpuDetails} {s s' s1 s2 : St M} {p : List Source} {a : U32}

/-- **C83.** Euclid's algorithm, written with the assembler and placed at any even address, leaves the greatest common divisor of the words in D0 and D1 in D0, for every such words, every core and every memory that keeps what is
written to it: some number of calls of `interpreter`, at most seven per unit of D1 and two more, reach the state in which D0 holds the divisor, D1 zero, the program counter is after the program, and every other register and the memory are as they were. -/
theorem C83_gcd (h : Loaded gcdProgram a 0 s) (h0 : (s.cpu.regs.d 0).toNat < 65536) (h1 : (s.cpu.regs.d 1).toNat < 65536) :
    ∃ (n cycles : Nat) (s' : St M), n ≤ 7 * (s.cpu.regs.d 1).toNat + 2 ∧ calls C n s = .ok cycles s' ∧
      (s'.cpu.regs.d 0).toNat = Nat.gcd (s.cpu.regs.d 0).toNat (s.cpu.regs.d 1).toNat ∧ s'.cpu.regs.d 1 = 0 ∧ (∀ i, i ≠ 0 → i ≠ 1 → s'.cpu.regs.d i = s.cpu.regs.d i) ∧
      s'.cpu.regs.a = s.cpu.regs.a ∧ s'.cpu.regs.usp = s.cpu.regs.usp ∧ s'.cpu.regs.ssp = s.cpu.regs.ssp ∧ s'.cpu.regs.pc = at_ a 14 ∧
      s'.cpu.regs.sr = { s.cpu.regs.sr with n := false, z := true, v := false, c := false } ∧ s'.cpu.stop = false ∧ s'.cpu.exceptions = [] ∧ s'.mem = s.mem := by
  obtain ⟨m, k, hm, e⟩ := gcd_executes (C := C) _ s h h0 h1 (Nat.le_refl _)
  refine ⟨m, k, _, hm, C81_program_partial e, ?_, rfl, ?_, rfl, rfl, rfl, rfl, rfl, h.running, h.idle, rfl⟩
  · show (BitVec.ofNat 32 _).toNat = _
    have : Nat.gcd (s.cpu.regs.d 0).toNat (s.cpu.regs.d 1).toNat < 2 ^ 32 := by
      by_cases hz : (s.cpu.regs.d 1).toNat = 0
      · rw [hz, Nat.gcd_zero_right]; omega
      · have := Nat.gcd_le_right (s.cpu.regs.d 0).toNat (Nat.pos_of_ne_zero hz)
        omega
    rw [BitVec.toNat_ofNat]
    exact Nat.mod_eq_of_lt this
  · intro i i0 i1
    show (if i = 1 then (0 : U32) else if i = 0 then _ else s.cpu.regs.d i) = s.cpu.regs.d i
    rw [if_neg i1, if_neg i0]

/-- **C83.** The block copy, written with the assembler and placed at any even address, copies the `n + 1` bytes at A0 to A1, `n` being the low word of D0, for every contents of the memory, if the bytes exist, the copy does not
overwrite the program and no byte is overwritten before it is copied (the two blocks may overlap otherwise): after exactly `2 * (n + 1)` calls of `interpreter` each byte at A1 is the one that was at A0, no other byte has changed,
A0 and A1 are after the blocks, the low word of D0 is 0xFFFF, the flags are those of the last byte, the program counter is after the program, and everything else in the core is as it was. -/
theorem C83_copy [Writable M] {n : Nat} (h : Loaded copyProgram a 0 s) (hn : (s.cpu.regs.d 0).toNat % 65536 = n) (hc : CanCopy n (s.cpu.regs.a 0) (s.cpu.regs.a 1) a 6 s.mem) :
    ∃ (cycles : Nat) (s' : St M), calls C (2 * (n + 1)) s = .ok cycles s' ∧
      (∀ i ≤ n, Ram.peek s'.mem (at_ (s.cpu.regs.a 1) i) = Ram.peek s.mem (at_ (s.cpu.regs.a 0) i)) ∧
      (∀ x, (∀ i ≤ n, x ≠ at_ (s.cpu.regs.a 1) i) → Ram.peek s'.mem x = Ram.peek s.mem x) ∧
      s'.cpu.regs.a 0 = at_ (s.cpu.regs.a 0) (n + 1) ∧ s'.cpu.regs.a 1 = at_ (s.cpu.regs.a 1) (n + 1) ∧ (∀ i, i ≠ 0 → i ≠ 1 → s'.cpu.regs.a i = s.cpu.regs.a i) ∧
      (s'.cpu.regs.d 0).toNat % 65536 = 65535 ∧ (s'.cpu.regs.d 0).toNat / 65536 = (s.cpu.regs.d 0).toNat / 65536 ∧ (∀ i, i ≠ 0 → s'.cpu.regs.d i = s.cpu.regs.d i) ∧
      (∃ b : U8, Ram.peek s.mem (at_ (s.cpu.regs.a 0) n) = some b ∧ s'.cpu.regs.sr = { s.cpu.regs.sr with n := decide (128 ≤ b.toNat), z := decide (b.toNat = 0), v := false, c := false }) ∧
      s'.cpu.regs.usp = s.cpu.regs.usp ∧ s'.cpu.regs.ssp = s.cpu.regs.ssp ∧ s'.cpu.regs.pc = at_ a 6 ∧ s'.cpu.stop = false ∧ s'.cpu.exceptions = [] := by
  obtain ⟨c, b, m', e, hb, h1, h2⟩ := copy_executes (C := C) n s h hn hc
  have hw : (insertLow .Word (s.cpu.regs.d 0) 0xFFFF).toNat = (s.cpu.regs.d 0).toNat / 65536 * 65536 + 65535 := by
    have := (s.cpu.regs.d 0).isLt
    have e : (0xFFFF : Val .Word).toNat = 65535 := rfl
    simp only [insertLow, width, BitVec.toNat_ofNat, e]
    omega
  refine ⟨c, _, C81_program_partial e, h1, fun x hx => h2 x fun i hi => hx i (Nat.le_of_lt_succ hi), rfl, rfl, ?_, ?_, ?_, ?_, ⟨b, hb, ?_⟩, rfl, rfl, rfl, h.running, h.idle⟩
  · intro i i0 i1
    show (if i = 1 then _ else if i = 0 then _ else s.cpu.regs.a i) = s.cpu.regs.a i
    rw [if_neg i1, if_neg i0]
  · show (insertLow .Word (s.cpu.regs.d 0) 0xFFFF).toNat % 65536 = 65535
    rw [hw]; omega
  · show (insertLow .Word (s.cpu.regs.d 0) 0xFFFF).toNat / 65536 = _
    rw [hw]; omega
  · intro i i0
    show (if i = 0 then _ else s.cpu.regs.d i) = s.cpu.regs.d i
    rw [if_neg i0]
  · have hneg : neg b = decide (128 ≤ b.toNat) := by
      have := b.isLt
      have ht := BitVec.toInt_eq_toNat_cond b
      simp only [neg]
      apply decide_eq_decide.mpr
      rw [ht]
      split <;> omega
    show logicFlags b s.cpu.regs.sr = _
    simp only [logicFlags, hneg, Spec.zero]

/-! ### The hypotheses are met -/

/-- The words of the programs. -/
example : Source.program gcdProgram = some [0x4A41, 0x670A, 0x80C1, 0x4240, 0x4840, 0xC141, 0x60F2] ∧ Source.program copyProgram = some [0x12D8, 0x51C8, 0xFFFC] := by decide +kernel

/-- Euclid's algorithm at address 0, on 48 and 36. -/
def gcdDemo : St WordSlice := Demo.st [0x4A41, 0x670A, 0x80C1, 0x4240, 0x4840, 0xC141, 0x60F2] (Demo.regs [48, 36, 7] [])

theorem gcdDemo_held : HoldsWords gcdDemo.mem 0 [0x4A41, 0x670A, 0x80C1, 0x4240, 0x4840, 0xC141, 0x60F2] := by
  have h : ∀ (i : Fin 7) (k : Fin 2), Ram.peek gcdDemo.mem (at_ (at_ 0 (2 * i.val)) k.val) = some (beByte (sz := .Word) ([0x4A41, 0x670A, 0x80C1, 0x4240, 0x4840, 0xC141, 0x60F2][i]) k.val) := by decide
  exact fun i hi k hk => h ⟨i, hi⟩ ⟨k, hk⟩

example : Loaded gcdProgram 0 0 gcdDemo ∧ (gcdDemo.cpu.regs.d 0).toNat = 48 ∧ (gcdDemo.cpu.regs.d 1).toNat = 36 :=
  ⟨⟨⟨_, by decide +kernel, gcdDemo_held⟩, by decide, rfl, rfl, rfl, rfl⟩, rfl, rfl⟩

/-- Sixteen calls later: the divisor is 12. -/
example : ∃ k s', calls mc68000 16 gcdDemo = .ok k s' ∧ s'.cpu.regs.d 0 = 12 ∧ s'.cpu.regs.d 1 = 0 ∧ s'.cpu.regs.d 2 = 7 ∧ s'.cpu.regs.pc = 14 := by
  have h : (match calls mc68000 16 gcdDemo with | .ok _ s' => s'.cpu.regs.d 0 == 12 && s'.cpu.regs.d 1 == 0 && s'.cpu.regs.d 2 == 7 && s'.cpu.regs.pc == 14 | _ => false) = true := by decide +kernel
  split at h
  · next k s' e =>
    simp only [Bool.and_eq_true, beq_iff_eq] at h
    exact ⟨k, s', e, h.1.1.1, h.1.1.2, h.1.2, h.2⟩
  · exact nomatch h

/-- The block copy at address 0, of the four bytes at 8 to 7: the blocks overlap. -/
def blockDemo : St WordSlice := Demo.st [0x12D8, 0x51C8, 0xFFFC, 0, 0x1122, 0x3344] (Demo.regs [0xABCD0003] [8, 7])

theorem blockDemo_held : HoldsWords blockDemo.mem 0 [0x12D8, 0x51C8, 0xFFFC] := by
  have h : ∀ (i : Fin 3) (k : Fin 2), Ram.peek blockDemo.mem (at_ (at_ 0 (2 * i.val)) k.val) = some (beByte (sz := .Word) ([0x12D8, 0x51C8, 0xFFFC][i]) k.val) := by decide
  exact fun i hi k hk => h ⟨i, hi⟩ ⟨k, hk⟩

example : Loaded copyProgram 0 0 blockDemo ∧ (blockDemo.cpu.regs.d 0).toNat % 65536 = 3 ∧ CanCopy 3 (blockDemo.cpu.regs.a 0) (blockDemo.cpu.regs.a 1) 0 6 blockDemo.mem :=
  ⟨⟨⟨_, copy_words, blockDemo_held⟩, by decide, rfl, rfl, rfl, rfl⟩, rfl,
    { source := by
        have h : ∀ i : Fin 4, (Ram.peek blockDemo.mem (at_ (blockDemo.cpu.regs.a 0) i.val)).isSome := by decide
        exact fun i hi => h ⟨i, Nat.lt_succ_of_le hi⟩
      room := by
        have h : ∀ i : Fin 4, (Ram.peek blockDemo.mem (at_ (blockDemo.cpu.regs.a 1) i.val)).isSome := by decide
        exact fun i hi => h ⟨i, Nat.lt_succ_of_le hi⟩
      apart := by
        have h : ∀ (i : Fin 4) (j : Fin 6), at_ (blockDemo.cpu.regs.a 1) i.val ≠ at_ 0 j.val := by decide
        exact fun i hi j hj => h ⟨i, Nat.lt_succ_of_le hi⟩ ⟨j, hj⟩
      forward := by
        have h : ∀ i j : Fin 4, i.val < j.val → at_ (blockDemo.cpu.regs.a 1) i.val ≠ at_ (blockDemo.cpu.regs.a 0) j.val := by decide
        exact fun i j hi hj => h ⟨i, by omega⟩ ⟨j, by omega⟩ hi }⟩

end M68k.Props
