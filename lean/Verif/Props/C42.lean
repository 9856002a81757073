import Verif.Lemmas.Length
import Verif.Lemmas.Ram
import Verif.Props.C40
/-
C42: no panic on executable code. `Serves I` (Spec/Length.lean): the memory is of a kind `I` whose methods do not panic.
-/
namespace M68k.Props
open Spec Exec
variable {M : Type} [MemoryAccess M] {C : CpuDetails} {s s' s1 s2 : St M} {op : U16}

/-- A call of `interpreter_exception` that finds an opcode whose extension words can be read does not panic, whatever the
opcode, the registers and the outcome of the other accesses. The memory remains one whose methods do not panic. -/
theorem C42_noPanic {I : M → Prop} {ws : List U16} (hM : Serves I) (hs : I s.mem) (h : Ready s op s1) (hm : ¬ MovemMisfit op)
    (hf : fetchWords (extensionWords (instr op) op) s1 = .ok ws s2) : ∃ x s', interpreterException C s = .ok x s' ∧ I s'.mem := by
  have hd := decoder_of_not_misfit hm
  rw [← hd] at hf
  rcases step_split (legal_noPanic hM) C h (fun _ => trivial) (fun _ => trivial) (fun _ => trivial) (fun _ => trivial) with
    ⟨ws, s2', z, hf', hz, hx⟩ | ⟨hp, -⟩
  · rw [hf] at hf'
    cases hf'
    have h1 : I s1.mem := by
      obtain ⟨-, -, he, m, h4, h5⟩ := h
      subst h5
      have := hM.get .Word _ _ (fun h => he h.2) hs
      have h4' : memGet .Word s.cpu.regs.pc s.mem = .val op m := h4
      rw [h4'] at this
      exact this
    have h2 := hz s2 (fetchWords_served hM hf h1)
    rw [step_finish C h]
    unfold finishStep
    rw [hx]
    cases hr : z s2 with
    | ok a s' => rw [hr] at h2; exact ⟨_, _, rfl, h2⟩
    | err v s' => rw [hr] at h2; exact ⟨_, _, rfl, h2⟩
    | panic => rw [hr] at h2; exact h2.elim
  · rw [hp] at hf; cases hf

/-- The same for the 32 opcodes that the decoder takes as MOVEM, with the length of a MOVEM. -/
theorem C42_misfit {I : M → Prop} {ws : List U16} (hM : Serves I) (hs : I s.mem) (h : Ready s op s1) (hm : MovemMisfit op)
    (hf : fetchWords (extensionWords .Movem op) s1 = .ok ws s2) : ∃ x s', interpreterException C s = .ok x s' ∧ I s'.mem := by
  have hd := decoder_of_misfit hm
  rcases step_split (legal_noPanic hM) C h (fun _ => trivial) (fun _ => trivial) (fun _ => trivial) (fun _ => trivial) with
    ⟨ws, s2', z, hf', hz, hx⟩ | ⟨hp, -⟩
  · rw [hd, hf] at hf'
    cases hf'
    have h1 : I s1.mem := by
      obtain ⟨-, -, he, m, h4, h5⟩ := h
      subst h5
      have := hM.get .Word _ _ (fun h => he h.2) hs
      have h4' : memGet .Word s.cpu.regs.pc s.mem = .val op m := h4
      rw [h4'] at this
      exact this
    have h2 := hz s2 (fetchWords_served hM hf h1)
    rw [step_finish C h]
    unfold finishStep
    rw [hx]
    cases hr : z s2 with
    | ok a s' => rw [hr] at h2; exact ⟨_, _, rfl, h2⟩
    | err v s' => rw [hr] at h2; exact ⟨_, _, rfl, h2⟩
    | panic => rw [hr] at h2; exact h2.elim
  · rw [hd, hf] at hp; cases hp

/-- The condition on the extension words is necessary: if one of them cannot be read the call panics. -/
theorem C42_extensionWord (h : Ready s op s1) (hm : ¬ MovemMisfit op) (hf : fetchWords (extensionWords (instr op) op) s1 = .panic) :
    interpreterException C s = .panic := by
  have hd := decoder_of_not_misfit hm
  rw [← hd] at hf
  rcases step_split (legal_noPanic (M := M) (I := fun _ => False) ⟨fun _ _ _ _ h => h.elim, fun _ _ _ _ _ h => h.elim, fun _ h => h⟩) C h
    (fun _ => trivial) (fun _ => trivial) (fun h => trivial) (fun _ => trivial) with ⟨ws, s2, z, hf', -, -⟩ | ⟨-, hp⟩
  · rw [hf] at hf'; cases hf'
  · exact hp

/-- A memory with the default `get_long` and `set_long`. -/
theorem serves_of_words {I : M → Prop} (gb : ∀ a m, I m → ServedAs I (MemoryAccess.getByte a m : MRes M U8))
    (gw : ∀ a m, ¬ Spec.Odd a → I m → ServedAs I (MemoryAccess.getWord a m : MRes M U16))
    (sb : ∀ a v m, I m → ServedAs I (MemoryAccess.setByte a v m : MRes M Unit))
    (sw : ∀ a v m, ¬ Spec.Odd a → I m → ServedAs I (MemoryAccess.setWord a v m : MRes M Unit))
    (gl : ∀ a (m : M), MemoryAccess.getLong a m = match (MemoryAccess.getWord a m : MRes M U16) with
      | .val hi m1 =>
        match MemoryAccess.getWord (a + 2) m1 with
        | .val lo m2 => .val (toU32 hi <<< 16 ||| toU32 lo) m2
        | .none m2 => .none m2
        | .panic => .panic
      | .none m1 => .none m1
      | .panic => .panic)
    (sl : ∀ a v (m : M), MemoryAccess.setLong a v m = match (MemoryAccess.setWord a (toU16 (v >>> 16)) m : MRes M Unit) with
      | .val _ m1 => MemoryAccess.setWord (a + 2) (toU16 v) m1
      | .none m1 => .none m1
      | .panic => .panic)
    (rs : ∀ m, I m → I (MemoryAccess.resetInstruction m)) : Serves I where
  get sz a m ha hm := by
    cases sz with
    | Byte => exact gb a m hm
    | Word => exact gw a m (fun ho => ha ⟨by decide, ho⟩) hm
    | Long =>
      have ho : ¬ Spec.Odd a := fun ho => ha ⟨by decide, ho⟩
      have h1 := gw a m ho hm
      have hl := gl a m
      show ServedAs I (MemoryAccess.getLong a m)
      rw [hl]
      cases hg : (MemoryAccess.getWord a m : MRes M U16) with
      | val hi m1 =>
        rw [hg] at h1
        have h2 := gw (a + 2) m1 (fun h => ho ((odd_two a).1 h)) h1
        simp only
        cases hg2 : (MemoryAccess.getWord (a + 2) m1 : MRes M U16) <;> rw [hg2] at h2 <;> exact h2
      | none m1 => rw [hg] at h1; exact h1
      | panic => rw [hg] at h1; exact h1
  set sz a v m ha hm := by
    cases sz with
    | Byte => exact sb a v m hm
    | Word => exact sw a v m (fun ho => ha ⟨by decide, ho⟩) hm
    | Long =>
      have ho : ¬ Spec.Odd a := fun ho => ha ⟨by decide, ho⟩
      have h1 := sw a (toU16 (v >>> 16)) m ho hm
      have hl := sl a v m
      show ServedAs I (MemoryAccess.setLong a v m)
      rw [hl]
      cases hg : (MemoryAccess.setWord a (toU16 (v >>> 16)) m : MRes M Unit) with
      | val hi m1 => rw [hg] at h1; exact sw (a + 2) _ m1 (fun h => ho ((odd_two a).1 h)) h1
      | none m1 => rw [hg] at h1; exact h1
      | panic => rw [hg] at h1; exact h1
  reset := rs

/-- The methods of a `[u16]` do not panic. -/
theorem C42_words : Serves (fun _ : WordSlice => True) := by
  refine serves_of_words ?_ ?_ ?_ ?_ (fun _ _ => rfl) (fun _ _ _ => rfl) (fun _ h => h)
  · intro a m _
    simp only [MemoryAccess.getByte, wordSliceGetByte]
    split
    · split <;> trivial
    · trivial
  · intro a m _ _
    simp only [MemoryAccess.getWord, wordSliceGetWord]
    split <;> trivial
  · intro a v m _
    simp only [MemoryAccess.setByte, wordSliceSetByte]
    split
    · split <;> trivial
    · trivial
  · intro a v m _ _
    simp only [MemoryAccess.setWord, wordSliceSetWord]
    split <;> trivial

/-- The methods of a `[u8]` of even length do not panic. -/
theorem C42_bytes : Serves (fun m : ByteSlice => m.bytes.length % 2 = 0) := by
  refine serves_of_words ?_ ?_ ?_ ?_ (fun _ _ => rfl) (fun _ _ _ => rfl) (fun _ h => h)
  · intro a m h
    simp only [MemoryAccess.getByte, byteSliceGetByte]
    split <;> exact h
  · intro a m ho h
    unfold Spec.Odd at ho
    simp only [MemoryAccess.getWord, byteSliceGetWord]
    split
    · split
      · exact h
      · omega
    · exact h
  · intro a v m h
    simp only [MemoryAccess.setByte, byteSliceSetByte]
    split
    · simpa [MRes.ofWrite, ServedAs] using h
    · exact h
  · intro a v m ho h
    unfold Spec.Odd at ho
    simp only [MemoryAccess.setWord, byteSliceSetWord]
    split
    · split
      · simpa [MRes.ofWrite, ServedAs] using h
      · omega
    · exact h

/-- A jump to address 0x10000, `MOVEM.L D0-A7,-(A0)` on missing addresses; `MOVE.W #`, at the end of the memory. -/
example : (∃ s1 ws s2, Ready (Demo.st [0x4EF9, 1, 0] (Demo.regs [] [])) 0x4EF9 s1 ∧ ¬ MovemMisfit 0x4EF9 ∧
      fetchWords (extensionWords (instr 0x4EF9) 0x4EF9) s1 = .ok ws s2) ∧
    (∃ s1 ws s2, Ready (Demo.st [0x48E0, 0xFFFF] (Demo.regs [] [])) 0x48E0 s1 ∧ ¬ MovemMisfit 0x48E0 ∧
      fetchWords (extensionWords (instr 0x48E0) 0x48E0) s1 = .ok ws s2) ∧
    ∃ s1, Ready (Demo.st [0x303C] (Demo.regs [] [])) 0x303C s1 ∧ fetchWords (extensionWords (instr 0x303C) 0x303C) s1 = .panic ∧
      interpreterException mc68000 (Demo.st [0x303C] (Demo.regs [] [])) = .panic :=
  ⟨⟨_, _, _, ⟨rfl, rfl, by decide, _, rfl, rfl⟩, by unfold MovemMisfit; decide, rfl⟩,
   ⟨_, _, _, ⟨rfl, rfl, by decide, _, rfl, rfl⟩, by unfold MovemMisfit; decide, rfl⟩,
   _, ⟨rfl, rfl, by decide, _, rfl, rfl⟩, rfl, rfl⟩

end M68k.Props
