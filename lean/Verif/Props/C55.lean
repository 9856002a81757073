import Verif.Lemmas.WrittenExec
import Verif.Props.C41
import Verif.Props.C53
/-
C55: an instruction writes only to its destination operand. `written` (Spec/Written.lean) gives the addresses of the destination from the
opcode, the extension words and the registers before the instruction; `Touches W m m'` says that the accesses leading from `m` to `m'` are reads
and writes of operands all of whose bytes are at addresses of `W`.
-/
set_option linter.unusedSectionVars false
namespace M68k.Props
open Spec Exec
variable {M : Type} [MemoryAccess M] {C : CpuDetails} {s s' s1 s2 : St M} {op : U16} {c : Nat} {e : Option U8}

theorem decoder_storeCheck (op : U16) : movemStoreCheck (decoder op) op.toNat = true := decoder_of_check movemStoreCheck movemStoreCheck_all op

/-- Whatever the memory and however the instruction ends, by completing, trapping or with an address or access error: every write access
concerns bytes of the destination only. RESET calls the reset method of the memory instead (C53). -/
theorem C55_writes {ws : List U16} (h : Ready s op s1) (hm : ¬ MovemMisfit op) (hrs : instr op ≠ .Reset)
    (hf : fetchWords (extensionWords (instr op) op) s1 = .ok ws s2) (hr : interpreterException C s = .ok (c, e) s') :
    Touches (written (instr op) op s.cpu.regs ws) s.mem s'.mem := by
  by_cases hw : writesMemory (instr op) op = false
  · exact (C41_reads h hm hw hrs hr).touches
  · have hw : writesMemory (instr op) op = true := by simpa using hw
    have hd := decoder_of_not_misfit hm
    rw [← hd] at hw hf ⊢
    have hx := confined (M := M) (C := C) (decoder_legal op) (decoder_storeCheck op) hw s1
    rw [hf] at hx
    obtain ⟨z, hz, hx⟩ := hx
    have h3 : Reads s.mem s1.mem := by
      obtain ⟨-, -, ho, m, h4, h5⟩ := h
      subst h5
      exact (Reads.word (.refl _) ho (.inr ⟨_, h4⟩))
    have h4 := hz s2
    have h5 : written (decoder op) op s2.cpu.regs ws = written (decoder op) op s.cpu.regs ws := by
      rw [fetchWords_cpu hf]
      obtain ⟨-, -, -, m, -, rfl⟩ := h
      rw [written_withPc]
      exact written_withPc _ _ _ _ _
    rw [h5] at h4
    unfold TouchAt at h4
    rw [← hx] at h4
    refine h3.touches.trans ((fetchWords_reads hf).touches.trans ?_)
    rcases step_result h hr with ⟨c', h6⟩ | ⟨v, h6⟩ <;> rw [h6] at h4 <;> exact h4

theorem touches_ram [Ram M] [Contained M] {W : List U32} {m m' : M} (h : Touches W m m') (b : U32) (hb : b ∉ W) : Ram.peek m' b = Ram.peek m b := by
  induction h with
  | refl => rfl
  | get _ ha h2 ih =>
    rcases h2 with h2 | ⟨v, h2⟩
    · rw [(Ram.get_none ha h2).1, ih]
    · rw [(Ram.get_val ha h2).1, ih]
  | set _ ha hw h2 ih =>
    rw [← ih]
    rcases h2 with h2 | h2
    · exact Contained.set_none ha h2 b fun k hk e => hb (e ▸ hw k hk)
    · exact (Ram.set_val ha h2).2 b fun k hk e => hb (e ▸ hw k hk)

/-- On a memory that is an array of bytes, all bytes outside of the destination are unchanged. -/
theorem C55_unchanged [Ram M] [Contained M] {ws : List U16} (h : Ready s op s1) (hm : ¬ MovemMisfit op)
    (hf : fetchWords (extensionWords (instr op) op) s1 = .ok ws s2) (hr : interpreterException C s = .ok (c, e) s') (b : U32)
    (hb : b ∉ written (instr op) op s.cpu.regs ws) : Ram.peek s'.mem b = Ram.peek s.mem b := by
  by_cases hrs : instr op = .Reset
  · have h1 : s1.mem = s.mem := by
      obtain ⟨-, -, ho, m, h4, rfl⟩ := h
      exact (Ram.get_val (sz := .Word) (fun hc => ho hc.2) h4).1
    have hd : decoder op = .Reset := (decoder_of_not_misfit hm).trans hrs
    have hx : ∀ r, Spec.exec C (decoder op) op s1 = r → (match r with
        | .ok _ s2 => Ram.peek s2.mem b = Ram.peek s.mem b
        | .err _ s2 => Ram.peek s2.mem b = Ram.peek s.mem b
        | .panic => True) := by
      rintro r rfl
      rw [hd]
      cases hs : s1.cpu.regs.sr.s <;>
        simp [Spec.exec, Spec.cost, resetDevices, privileged, Exec.map_apply, Exec.bind_apply, getR, hs, trap, signalReset, h1, Ram.reset_peek, Exec.pure_apply]
    rcases step_result h hr with ⟨c', h6⟩ | ⟨v, h6⟩
    · exact hx _ h6
    · exact hx _ h6
  · exact touches_ram (C55_writes h hm hrs hf hr) b hb

/-- The memories of the crate are such memories: a refused write changes nothing there, a refused long write at most the first word. -/
theorem containedOfWords {M : Type} [MemoryAccess M] {peek : M → U32 → Option U8} (h : WordLaws M peek)
    (hb : ∀ a v (m m' : M), MemoryAccess.setByte a v m = .none m' → m' = m) (hw : ∀ a v (m m' : M), MemoryAccess.setWord a v m = .none m' → m' = m) :
    @Contained M _ (ramOfWords h) := by
  letI := ramOfWords h
  refine @Contained.mk M _ (ramOfWords h) ?_
  intro sz a v m m' ha hn
  cases sz with
  | Byte => rw [hb _ _ _ _ hn]; exact fun _ _ => rfl
  | Word => rw [hw _ _ _ _ hn]; exact fun _ _ => rfl
  | Long =>
    have ho : ¬ Spec.Odd a := fun ho => ha ⟨by decide, ho⟩
    have hn : MemoryAccess.setLong a v m = .none m' := hn
    rw [h.setLong] at hn
    cases h1 : MemoryAccess.setWord a (toU16 (v >>> 16)) m with
    | none m1 => rw [h1] at hn; cases hn; rw [hw _ _ _ _ h1]; exact fun _ _ => rfl
    | panic => rw [h1] at hn; cases hn
    | val u m1 =>
      rw [h1] at hn
      rw [hw _ _ _ _ hn]
      intro b hb
      exact ((ramOfWords h).set_val (sz := .Word) (fun hc => ho hc.2) h1).2 b fun k hk => hb k (Nat.lt_trans hk (by decide))

instance : Contained FullRam := containedOfWords fullRam_laws (fun _ _ _ _ h => by cases h) (fun _ _ _ _ h => by cases h)
instance : Contained ByteSlice := containedOfWords byteSlice_laws
  (fun a v m m' h => by
    simp only [MemoryAccess.setByte, byteSliceSetByte] at h
    split at h <;> cases h
    rfl)
  (fun a v m m' h => by
    simp only [MemoryAccess.setWord, byteSliceSetWord] at h
    split at h
    · split at h <;> cases h
      try rfl
    · cases h; rfl)
instance : Contained WordSlice := containedOfWords wordSlice_laws
  (fun a v m m' h => by
    simp only [MemoryAccess.setByte, wordSliceSetByte] at h
    split at h
    · split at h <;> cases h
    · cases h; rfl)
  (fun a v m m' h => by
    simp only [MemoryAccess.setWord, wordSliceSetWord] at h
    split at h <;> cases h
    rfl)

/-- `MOVE.W (A0)+,4(A0)`: the displacement is added to A0 after the increment, and the two bytes there are the only ones written. -/
example : written .Move 0x3158 (Demo.regs [] [0x100]) [4] = [0x106, 0x107] := by decide
/-- `MOVEM.L D0/A6,-(A7)` from A7 = 0x1000: eight bytes below. `PEA` and `ADDQ.B #1,-(A7)`: four bytes and one byte. -/
example : written .Movem 0x48E7 (Demo.regs [] [0, 0, 0, 0, 0, 0, 0, 0x1000]) [0x8002] = [0xFF8, 0xFF9, 0xFFA, 0xFFB, 0xFFC, 0xFFD, 0xFFE, 0xFFF] ∧
    written .Pea 0x4850 (Demo.regs [] [0, 0, 0, 0, 0, 0, 0, 0x1000]) [] = [0xFFC, 0xFFD, 0xFFE, 0xFFF] ∧
    written .Addq 0x5227 (Demo.regs [] [0, 0, 0, 0, 0, 0, 0, 0x1000]) [] = [0xFFE] := by decide
/-- `ADDI.W #5,(8).W` in memory: the call writes the word at 8 and the theorem applies to it. -/
example : ∃ s1 s2 s', Ready (Demo.st [0x0678, 5, 8, 0, 0x1234] (Demo.regs [] [])) 0x0678 s1 ∧ ¬ MovemMisfit 0x0678 ∧ instr 0x0678 = .Addi ∧
    fetchWords (extensionWords .Addi 0x0678) s1 = .ok [5, 8] s2 ∧ written .Addi 0x0678 (Demo.regs [] []) [5, 8] = [8, 9] ∧
    (∃ c, interpreterException mc68000 (Demo.st [0x0678, 5, 8, 0, 0x1234] (Demo.regs [] [])) = .ok (c, none) s') ∧ s'.mem.words = [0x0678, 5, 8, 0, 0x1239] :=
  ⟨_, _, _, ⟨rfl, rfl, by decide, _, rfl, rfl⟩, by unfold MovemMisfit; decide, rfl, rfl, by decide, ⟨_, rfl⟩, rfl⟩

end M68k.Props
