import Verif.Lemmas.Length
import Verif.Lemmas.Ram
import Verif.Spec.Alike
import Verif.Props.C40
/-
C41: the memory accesses of an instruction. `readsMemory` and `writesMemory` (Spec/Length.lean) tell by instruction and
addressing mode whether it has operands in memory.
-/
namespace M68k.Props
open Spec Exec
variable {M : Type} [MemoryAccess M] {C : CpuDetails} {s s' s1 s2 : St M} {op : U16} {c : Nat} {e : Option U8}

/-- An instruction without an operand in memory: the state of the memory after it is the one after its words have been read.
RESET calls the reset method of the memory and is excepted. -/
theorem C41_registers (h : Ready s op s1) (hm : ¬ MovemMisfit op) (hrd : readsMemory (instr op) op = false)
    (hwr : writesMemory (instr op) op = false) (hrs : instr op ≠ .Reset) (hr : interpreterException C s = .ok (c, e) s') :
    ∃ ws s2, fetchWords (extensionWords (instr op) op) s1 = .ok ws s2 ∧ s'.mem = s2.mem := by
  have hd := decoder_of_not_misfit hm
  rw [← hd] at hrd hwr hrs ⊢
  rcases step_split legal_keepsMem C h (fun h => by rw [hrd] at h; cases h) (fun h => by rw [hwr] at h; cases h) (fun _ => trivial) (fun h => hrs h) with
    ⟨ws, s2, z, hf, hz, hx⟩ | ⟨-, hp⟩
  · refine ⟨ws, s2, hf, ?_⟩
    have h2 := hz s2
    rw [← hx] at h2
    rcases step_result h hr with ⟨c', h4⟩ | ⟨v, h4⟩ <;> rw [h4] at h2 <;> exact h2
  · rw [hp] at hr; cases hr

/-- The accesses made by reading the words of an instruction, the last one first. -/
def wordReads (pc : U32) : Nat → List (Size × U32)
  | 0 => []
  | k + 1 => (.Word, pc + BitVec.ofNat 32 (2 * k)) :: wordReads pc k

theorem fetchWords_log {s s2 : St (Recorded M)} {k : Nat} {ws : List U16} (h : fetchWords k s = .ok ws s2) :
    s2.mem.log = wordReads s.cpu.regs.pc k ++ s.mem.log := by
  induction k generalizing s2 ws with
  | zero => cases h; rfl
  | succ k ih =>
    have hs : fetchWords (k + 1) s = _ := fetchWords_add k 1 s
    rw [h] at hs
    have := Eq.symm hs
    obtain ⟨ws1, s', h1, h2⟩ := bind_ok this
    obtain ⟨ws2, s'', h3, h4⟩ := bind_ok h2
    cases h4
    simp only [fetchWords] at h3
    obtain ⟨w, s3, h5, h6⟩ := bind_ok h3
    obtain ⟨ws3, s4, h7, h8⟩ := bind_ok h6
    cases h7
    cases h8
    obtain ⟨-, m, hm, rfl⟩ := fetch_ok' h5
    have hc := fetchWords_cpu h1
    have hpc : s'.cpu.regs.pc = s.cpu.regs.pc + BitVec.ofNat 32 (2 * k) := by rw [hc]
    have hl : m.log = (.Word, s'.cpu.regs.pc) :: s'.mem.log := by
      have hm : s'.mem.note .Word s'.cpu.regs.pc (MemoryAccess.getWord s'.cpu.regs.pc s'.mem.mem) = .val w m := hm
      cases hg : MemoryAccess.getWord s'.cpu.regs.pc s'.mem.mem <;> rw [hg] at hm <;> cases hm <;> rfl
    simp only [wordReads, hl, hpc, ih h1, List.cons_append]

/-- With a memory that records the accesses: the record grows by the reads of the words of the instruction, in their order,
and by nothing else. -/
theorem C41_accesses {s s' s1 : St (Recorded M)} (h : Ready s op s1) (hm : ¬ MovemMisfit op) (hrd : readsMemory (instr op) op = false)
    (hwr : writesMemory (instr op) op = false) (hrs : instr op ≠ .Reset) (hr : interpreterException C s = .ok (c, e) s') :
    s'.mem.log = wordReads s.cpu.regs.pc (extensionWords (instr op) op + 1) ++ s.mem.log := by
  obtain ⟨ws, s2, hf, he⟩ := C41_registers h hm hrd hwr hrs hr
  obtain ⟨h1, h2, h3, m, h4, rfl⟩ := h
  have h5 : s.mem.note .Word s.cpu.regs.pc (MemoryAccess.getWord s.cpu.regs.pc s.mem.mem) = .val op m := h4
  have hl : m.log = (.Word, s.cpu.regs.pc) :: s.mem.log := by
    cases hg : MemoryAccess.getWord s.cpu.regs.pc s.mem.mem <;> rw [hg] at h5 <;> cases h5 <;> rfl
  have hw : ∀ k (l : List (Size × U32)), wordReads (s.cpu.regs.pc + 2) k ++ (Size.Word, s.cpu.regs.pc) :: l = wordReads s.cpu.regs.pc (k + 1) ++ l := by
    intro k l
    induction k with
    | zero => simp [wordReads]
    | succ k ih =>
      rw [wordReads, wordReads, List.cons_append, List.cons_append, ih]
      congr 2
      rw [BitVec.add_assoc]
      congr 1
      apply BitVec.eq_of_toNat_eq
      simp only [BitVec.toNat_add, BitVec.toNat_ofNat, BitVec.ofNat_eq_ofNat]
      omega
  rw [he, fetchWords_log hf, hl]
  exact hw _ _

/-- The instructions that compare or test. -/
def Compares (i : Isa) : Prop := i = .Cmp ∨ i = .Cmpi ∨ i = .Cmpa ∨ i = .Cmpm ∨ i = .Tst ∨ i = .Btst ∨ i = .Chk

/-- An instruction that has no operand to write calls no method of the memory but those that read. -/
theorem C41_reads (h : Ready s op s1) (hm : ¬ MovemMisfit op) (hwr : writesMemory (instr op) op = false) (hrs : instr op ≠ .Reset)
    (hr : interpreterException C s = .ok (c, e) s') : Reads s.mem s'.mem := by
  have hd := decoder_of_not_misfit hm
  rw [← hd] at hwr hrs
  rcases step_split legal_onlyReads C h (fun _ => trivial) (fun h => by rw [hwr] at h; cases h) (fun _ => trivial) (fun h => hrs h) with
    ⟨ws, s2, z, hf, hz, hx⟩ | ⟨-, hp⟩
  · have h2 := hz s2
    rw [← hx] at h2
    have h3 : Reads s.mem s1.mem := by
      obtain ⟨-, -, ho, m, h4, h5⟩ := h
      subst h5
      exact (Reads.word (.refl _) ho (.inr ⟨_, h4⟩))
    refine h3.trans ((fetchWords_reads hf).trans ?_)
    rcases step_result h hr with ⟨c', h4⟩ | ⟨v, h4⟩ <;> rw [h4] at h2 <;> exact h2
  · rw [hp] at hr; cases hr

/-- CMP, CMPI, CMPA, CMPM, TST, BTST and CHK only read. -/
theorem C41_compare (h : Ready s op s1) (hi : Compares (instr op)) (hr : interpreterException C s = .ok (c, e) s') : Reads s.mem s'.mem := by
  have hm : ¬ MovemMisfit op := by
    intro hm
    have hu : instr op ≠ .Unknown := by intro hc; rw [hc] at hi; rcases hi with h | h | h | h | h | h | h <;> cases h
    have hd := decoder_of_map op hu
    rw [decoder_of_misfit hm] at hd
    rw [← hd] at hi
    rcases hi with h | h | h | h | h | h | h <;> cases h
  refine C41_reads h hm ?_ ?_ hr <;> rcases hi with h | h | h | h | h | h | h <;> rw [h] <;> first | rfl | (intro hc; cases hc)

theorem reads_ram [Ram M] {m m' : M} (h : Reads m m') : m' = m := by
  induction h with
  | refl => rfl
  | byte _ h2 ih =>
    subst ih
    rcases h2 with h2 | ⟨v, h2⟩
    · exact (Ram.get_none (sz := .Byte) (fun hc => hc.1 rfl) h2).1
    · exact (Ram.get_val (sz := .Byte) (fun hc => hc.1 rfl) h2).1
  | word _ ho h2 ih =>
    subst ih
    rcases h2 with h2 | ⟨v, h2⟩
    · exact (Ram.get_none (sz := .Word) (fun hc => ho hc.2) h2).1
    · exact (Ram.get_val (sz := .Word) (fun hc => ho hc.2) h2).1
  | long _ ho h2 ih =>
    subst ih
    rcases h2 with h2 | ⟨v, h2⟩
    · exact (Ram.get_none (sz := .Long) (fun hc => ho hc.2) h2).1
    · exact (Ram.get_val (sz := .Long) (fun hc => ho hc.2) h2).1

/-- So a memory that is an array of bytes does not change. -/
theorem C41_unchanged [Ram M] (h : Ready s op s1) (hi : Compares (instr op)) (hr : interpreterException C s = .ok (c, e) s') :
    s'.mem = s.mem := reads_ram (C41_compare h hi hr)

/-- `ADD.W D0,D1`, `CMPI.L #1,D0`, `BTST #0,(A0)`, `CMPM.B (A0)+,(A1)+`. -/
example : (∃ s1 c e s', Ready (Demo.st [0xD240] (Demo.regs [1] [])) 0xD240 s1 ∧ ¬ MovemMisfit 0xD240 ∧ readsMemory (instr 0xD240) 0xD240 = false ∧
      writesMemory (instr 0xD240) 0xD240 = false ∧ instr 0xD240 ≠ .Reset ∧ interpreterException mc68000 (Demo.st [0xD240] (Demo.regs [1] [])) = .ok (c, e) s') ∧
    (∃ s1 c e s', Ready (M := Recorded WordSlice) { Demo.st [] (Demo.regs [] []) with mem := ⟨⟨[0x0C80, 0, 1]⟩, []⟩ } 0x0C80 s1 ∧
      interpreterException (M := Recorded WordSlice) mc68000 { Demo.st [] (Demo.regs [] []) with mem := ⟨⟨[0x0C80, 0, 1]⟩, []⟩ } = .ok (c, e) s' ∧
      readsMemory (instr 0x0C80) 0x0C80 = false ∧ s'.mem.log = [(.Word, 4), (.Word, 2), (.Word, 0)]) ∧
    (∃ s1 c e s', Ready (Demo.st [0x0810, 0] (Demo.regs [1] [0])) 0x0810 s1 ∧ Compares (instr 0x0810) ∧
      interpreterException mc68000 (Demo.st [0x0810, 0] (Demo.regs [1] [0])) = .ok (c, e) s') ∧
    ∃ s1 c e s', Ready (Demo.st [0xB308, 0] (Demo.regs [1] [0, 1])) 0xB308 s1 ∧ Compares (instr 0xB308) ∧
      interpreterException mc68000 (Demo.st [0xB308, 0] (Demo.regs [1] [0, 1])) = .ok (c, e) s' :=
  ⟨⟨_, _, _, _, ⟨rfl, rfl, by decide, _, rfl, rfl⟩, by unfold MovemMisfit; decide, rfl, rfl, by decide, rfl⟩,
   ⟨_, _, _, _, ⟨rfl, rfl, by decide, _, rfl, rfl⟩, rfl, rfl, rfl⟩,
   ⟨_, _, _, _, ⟨rfl, rfl, by decide, _, rfl, rfl⟩, by unfold Compares; decide, rfl⟩,
   _, _, _, _, ⟨rfl, rfl, by decide, _, rfl, rfl⟩, by unfold Compares; decide, rfl⟩

end M68k.Props
