import Verif.Lemmas.GeneratorCheck
import Verif.Props.C40
/-
C37: the decoder table is the 68000 opcode map, and the output of the generator program.

The table differs from the opcode map of the 68000 for 32 opcodes, MOVEM of registers to `(An)+` and MOVEM from
`-(An)` to registers, which the generator includes: `C37_opcodeMap_refuted`, `C37_differences`.
-/
namespace M68k.Props
open Spec
variable {op : U16}

/-- Every opcode but the 32 has the instruction of the opcode map, or none as there. -/
theorem C37_opcodeMap_partial (op : U16) (hm : ¬ MovemMisfit op) : decoder op = instr op := decoder_of_not_misfit hm

/-- The table differs from the opcode map for the 32 opcodes exactly: it has MOVEM where the map has nothing. -/
theorem C37_differences (op : U16) : decoder op ≠ instr op ↔ MovemMisfit op := by
  constructor
  · intro h
    exact Classical.byContradiction fun hm => h (decoder_of_not_misfit hm)
  · intro hm
    have hd := decoder_of_check mapCheck mapCheck_all op
    unfold mapCheck at hd
    rw [if_pos (extra_of_misfit hm), Bool.and_eq_true] at hd
    have h1 := beq_iff_eq.mp hd.1
    have h2 : instr op = .Unknown := beq_iff_eq.mp hd.2
    rw [h1, h2]; decide

/-- Every instruction of the opcode map is in the table. -/
theorem C37_complete (op : U16) (h : instr op ≠ .Unknown) : decoder op = instr op := decoder_of_map op h

/-- `MOVEM.W D0/…,(A0)+`, opcode 0x4898. -/
theorem C37_opcodeMap_refuted : ∃ op : U16, decoder op ≠ instr op := ⟨0x4898, by decide⟩

/-- The generator program runs to its end, without failed assertion, index out of bounds or overflow, and the array
that it prints is the decoder table. -/
theorem C37_generator : ∃ t, generatedTable = some t ∧ ∀ op : U16, t op.toNat = decoder op := by
  have hh : ∀ k (hk : k < 65536), Gen.hits Gen.entries k = Gen.writers (decoder (BitVec.ofNat 16 k)) := fun k hk => by
    have := Gen.hits_decoder (BitVec.ofNat 16 k)
    rwa [BitVec.toNat_ofNat, Nat.mod_eq_of_lt (show k < 2 ^ 16 from hk)] at this
  obtain ⟨t, ht, hv⟩ := Gen.run_steps genSteps Gen.entries Gen.entries_eq Gen.entries_ok (fun _ => .Unknown)
    (fun k hk => by rw [hh k hk]; unfold Gen.writers; split <;> simp)
    (fun k hk h => absurd rfl h)
  refine ⟨t, ht, fun op => ?_⟩
  rw [hv _ op.isLt, Gen.hits_decoder]
  unfold Gen.writers
  split
  · rename_i h
    split at h
    · rename_i hu; exact hu.symm
    · simp at h
  · rename_i i l h
    split at h
    · simp at h
    · simp at h; exact h.1.symm

/-- Two opcodes of the map, one of the 32, one that is not in the map. -/
example : decoder 0xD240 = .Add ∧ decoder 0x4E75 = .Rts ∧ decoder 0x4898 = .Movem ∧ decoder 0x4AFB = .Unknown ∧
    ¬ MovemMisfit 0xD240 := by unfold MovemMisfit; decide
/-- A statement of the generator writes its opcodes (here four of them), and refuses to write one twice. -/
example : ((GenStep.opcodes "010011100110abbb" [V0_1, [1, 5]] .Moveusp).run fun _ => .Unknown).map
      (fun t => [t 0x4E61, t 0x4E65, t 0x4E69, t 0x4E6D, t 0x4E60, t 0x4E62]) =
      some [.Moveusp, .Moveusp, .Moveusp, .Moveusp, .Unknown, .Unknown] ∧
    ((GenStep.opcodes "010011100110abbb" [V0_1, [1, 5]] .Moveusp).run fun k => if k = 0x4E6D then .Nop else .Unknown).isNone := by
  decide +kernel

end M68k.Props
