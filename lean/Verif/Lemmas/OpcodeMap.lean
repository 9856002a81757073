import Verif.Lemmas.Table
import Verif.Spec.OpcodeMap
/-
The decoder table against the opcode map, evaluated by the kernel on the 65536 entries.
-/
namespace M68k

theorem Isa.beq_self (i : Isa) : (i == i) = true := by simp

/-- MOVEM with an addressing mode the 68000 does not have: registers to `(An)+` and memory `-(An)`
to registers. -/
def movemExtra (op : Nat) : Bool :=
  (op / 4096 == 4 && op / 128 % 32 == 0x11 && op / 8 % 8 == 3) ||
  (op / 4096 == 4 && op / 128 % 32 == 0x19 && op / 8 % 8 == 4)

/-- The test evaluated on each entry. -/
def mapCheck (i : Isa) (op : Nat) : Bool :=
  if movemExtra op then i == .Movem && Spec.opcodeMap op == .Unknown else i == Spec.opcodeMap op

set_option maxRecDepth 100000 in
set_option maxHeartbeats 4000000 in
theorem mapCheck_all : checkTable mapCheck = true := by apply checkTable_intro <;> decide +kernel

theorem decoder_of_map (op : U16) (h : Spec.instr op ≠ .Unknown) : decoder op = Spec.instr op := by
  have := decoder_of_check mapCheck mapCheck_all op
  unfold mapCheck at this
  split at this
  · simp only [Bool.and_eq_true, beq_iff_eq] at this
    exact absurd this.2 h
  · exact (beq_iff_eq.mp this)

end M68k
