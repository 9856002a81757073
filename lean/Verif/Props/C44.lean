import Verif.Lemmas.Alike
import Verif.Lemmas.Ram
import Verif.Props.Demo
/-
C44: default long accesses. A memory implementing only byte and word accesses gets long accesses that are
the high word at addr followed by the low word at addr+2, stopping at the first failure.
-/
namespace M68k.Props
open Spec Exec
variable {M : Type}

/-- A memory system that implements the required methods only (any functions). -/
@[reducible] def byteWordMemory (getByte : U32 → M → MRes M U8) (getWord : U32 → M → MRes M U16)
    (setByte : U32 → U8 → M → MRes M Unit) (setWord : U32 → U16 → M → MRes M Unit) (reset : M → M) : MemoryAccess M :=
  { getByte := getByte, getWord := getWord, setByte := setByte, setWord := setWord, resetInstruction := reset }

variable {gb : U32 → M → MRes M U8} {gw : U32 → M → MRes M U16} {sb : U32 → U8 → M → MRes M Unit} {sw : U32 → U16 → M → MRes M Unit} {rs : M → M}

/-- Both word reads succeed: the value is `hi * 2^16 + lo` and the memory is the one after both. -/
theorem C44_get {a : U32} {m m1 m2 : M} {hi lo : U16} (h1 : gw a m = .val hi m1) (h2 : gw (a + 2) m1 = .val lo m2) :
    ∃ v, (byteWordMemory gb gw sb sw rs).getLong a m = .val v m2 ∧ v.toNat = hi.toNat * 65536 + lo.toNat := by
  refine ⟨_, ?_, long_of_words hi lo⟩
  show (match gw a m with
    | .val hi m1 => match gw (a + 2) m1 with
      | .val lo m2 => MRes.val (toU32 hi <<< 16 ||| toU32 lo) m2
      | .none m2 => .none m2
      | .panic => .panic
    | .none m1 => .none m1
    | .panic => .panic) = _
  rw [h1]
  simp only
  rw [h2]

/-- The first word cannot be read: the second is not accessed. -/
theorem C44_get_first_fails {a : U32} {m m1 : M} (h1 : gw a m = .none m1) :
    (byteWordMemory gb gw sb sw rs).getLong a m = .none m1 := by
  show (match gw a m with
    | .val hi m1 => match gw (a + 2) m1 with
      | .val lo m2 => MRes.val (toU32 hi <<< 16 ||| toU32 lo) m2
      | .none m2 => .none m2
      | .panic => .panic
    | .none m1 => .none m1
    | .panic => .panic) = _
  rw [h1]

/-- The second word cannot be read. -/
theorem C44_get_second_fails {a : U32} {m m1 m2 : M} {hi : U16} (h1 : gw a m = .val hi m1) (h2 : gw (a + 2) m1 = .none m2) :
    (byteWordMemory gb gw sb sw rs).getLong a m = .none m2 := by
  show (match gw a m with
    | .val hi m1 => match gw (a + 2) m1 with
      | .val lo m2 => MRes.val (toU32 hi <<< 16 ||| toU32 lo) m2
      | .none m2 => .none m2
      | .panic => .panic
    | .none m1 => .none m1
    | .panic => .panic) = _
  rw [h1]
  simp only
  rw [h2]

/-- A long write is the write of the word `v / 2^16` at `a`, then of the word `v mod 2^16` at `a + 2`. -/
theorem C44_set {a v : U32} {m m1 : M} (h1 : sw a (BitVec.ofNat 16 (v.toNat / 65536)) m = .val () m1) :
    (byteWordMemory gb gw sb sw rs).setLong a v m = sw (a + 2) (BitVec.ofNat 16 v.toNat) m1 := by
  have e1 : toU16 (v >>> 16) = BitVec.ofNat 16 (v.toNat / 65536) := by
    apply BitVec.eq_of_toNat_eq
    unfold toU16
    rw [BitVec.toNat_setWidth, BitVec.toNat_ushiftRight, BitVec.toNat_ofNat, Nat.shiftRight_eq_div_pow]
  have e2 : toU16 v = BitVec.ofNat 16 v.toNat := by
    apply BitVec.eq_of_toNat_eq
    unfold toU16
    rw [BitVec.toNat_setWidth, BitVec.toNat_ofNat]
  show (match sw a (toU16 (v >>> 16)) m with
    | .val _ m1 => sw (a + 2) (toU16 v) m1
    | .none m1 => .none m1
    | .panic => .panic) = _
  rw [e1, e2, h1]

/-- The first word cannot be written: the second is not accessed. -/
theorem C44_set_fails {a v : U32} {m m1 : M} (h1 : sw a (BitVec.ofNat 16 (v.toNat / 65536)) m = .none m1) :
    (byteWordMemory gb gw sb sw rs).setLong a v m = .none m1 := by
  have e1 : toU16 (v >>> 16) = BitVec.ofNat 16 (v.toNat / 65536) := by
    apply BitVec.eq_of_toNat_eq
    unfold toU16
    rw [BitVec.toNat_setWidth, BitVec.toNat_ushiftRight, BitVec.toNat_ofNat, Nat.shiftRight_eq_div_pow]
  show (match sw a (toU16 (v >>> 16)) m with
    | .val _ m1 => sw (a + 2) (toU16 v) m1
    | .none m1 => .none m1
    | .panic => .panic) = _
  rw [e1, h1]

/-- The address of the second word wraps: the long at 0xFFFFFFFE has its low word at 0. -/
example : ∃ v, (inferInstance : MemoryAccess FullRam).getLong 0xFFFFFFFE ⟨fun a => BitVec.ofNat 8 a.toNat⟩ = .val v ⟨fun a => BitVec.ofNat 8 a.toNat⟩ ∧
    v = 0xFEFF0001 := ⟨_, rfl, by decide⟩

end M68k.Props
