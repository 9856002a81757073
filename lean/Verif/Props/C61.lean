import Verif.Spec.Listing
import Verif.Props.C40
import Verif.Props.C54
import Verif.Props.C39
import Verif.Props.C39Fixed
/-
C61: listing a program with `Instruction::from_memory`. `Lists`, `Line`, `programWords` and `programAt` are in Spec/Listing.lean.
-/
namespace M68k.Props
open Spec Exec
set_option linter.unusedSectionVars false
variable {M N : Type} [MemoryAccess M] [MemoryAccess N] {C : CpuDetails} {it it' : Iter M} {p : List Line} {s s' s1 : St M} {i : Instruction}

/-- A program whose lines decode (C39: those made by the assembler functions), placed anywhere in a memory, is listed completely and in order: as many calls as there
are lines return its instructions with their addresses and operands, and the iterator is behind the last one. -/
theorem C61_program (hp : ∀ l ∈ p, Decodes l.words l.isa l.operands) (h : Feeds it (programWords p) it') :
    Lists it (programAt it.nextAddr p) it' := by
  induction p generalizing it with
  | nil => cases h; exact .nil _
  | cons l p ih =>
    obtain ⟨it1, h1, h2⟩ := feeds_append h
    obtain ⟨op, ho, -, hf⟩ := hp l (List.mem_cons_self ..) M it it1 h1
    have hh : l.words.headD 0 = op := by
      cases hl : l.words with
      | nil => rw [hl] at ho; cases ho
      | cons w ws => rw [hl] at ho; cases ho; rfl
    have hr := ih (fun l' hl' => hp l' (List.mem_cons_of_mem _ hl')) h2
    rw [Feeds.addr h1] at hr
    unfold programAt
    rw [hh]
    exact .cons hf hr

/-- The instruction each of them is. -/
theorem C61_instructions (hp : ∀ l ∈ p, Decodes l.words l.isa l.operands) (h : Feeds it (programWords p) it') (a : U32) :
    (programAt a p).map (fun i => decoder i.opcode) = p.map (·.isa) := by
  induction p generalizing it a with
  | nil => rfl
  | cons l p ih =>
    obtain ⟨it1, h1, h2⟩ := feeds_append h
    obtain ⟨op, ho, hd, -⟩ := hp l (List.mem_cons_self ..) M it it1 h1
    have hh : l.words.headD 0 = op := by
      cases hl : l.words with
      | nil => rw [hl] at ho; cases ho
      | cons w ws => rw [hl] at ho; cases ho; rfl
    have hr := ih (fun l' hl' => hp l' (List.mem_cons_of_mem _ hl')) h2 (a + BitVec.ofNat 32 (2 * l.words.length))
    unfold programAt
    rw [List.map_cons, List.map_cons, hh, hd, hr]

/-- `MOVEQ #5,D0`; `ADD.L $1000.L,D0`; `LEA 4(PC),A0`; `BRA -2`: ten words, which a memory lists as these four instructions. -/
def demoProgram : List Line :=
  [⟨[0x7005], .Moveq, fun _ => .RegisterData 0 5⟩,
   ⟨[0xD0B9, 0x0000, 0x1000], .Add, fun pc => .RegisterDirectionSizeEffectiveAddress 0 .DstReg .Long (placedAt (pc + 2) (held true (.AbsLong 0x1000)))⟩,
   ⟨[0x41FA, 0x0004], .Lea, fun pc => .RegisterEffectiveAddress 0 (placedAt (pc + 2) (.Pciwd 0 4))⟩,
   ⟨[0x60FE], .Bra, fun _ => .Displacement 0xFFFE⟩]
example : (∀ l ∈ demoProgram, Decodes l.words l.isa l.operands) ∧
    (∃ it', Feeds (⟨(Demo.st [0x7005, 0xD0B9, 0x0000, 0x1000, 0x41FA, 0x0004, 0x60FE] (Demo.regs [] [])).mem, 0⟩ : Iter _) (programWords demoProgram) it') ∧
    (programAt 0 demoProgram).map (fun i => (i.pc, i.operands)) = [(0, .RegisterData 0 5), (2, .RegisterDirectionSizeEffectiveAddress 0 .DstReg .Long (.AbsLong 0x1000)),
      (8, .RegisterEffectiveAddress 0 (.Pciwd 10 4)), (12, .Displacement 0xFFFE)] := by
  refine ⟨?_, ⟨_, .cons (by decide) rfl (.cons (by decide) rfl (.cons (by decide) rfl (.cons (by decide) rfl (.cons (by decide) rfl (.cons (by decide) rfl
    (.cons (by decide) rfl (.nil _)))))))⟩, rfl⟩
  intro l hl
  simp only [demoProgram, List.mem_cons, List.not_mem_nil, or_false] at hl
  rcases hl with rfl | rfl | rfl | rfl
  · exact C39_moveq (reg := 0) (data := 5) rfl
  · exact C39_add (reg := 0) (dir := .DstReg) (size := .Long) (am := .AbsLong 0x1000) rfl
  · exact C39_lea (reg := 0) (am := .Pciwd 0 4) rfl
  · exact C39_bra (disp := 0xFFFE) rfl

/-- The text of such a program reads as this program: each line names the instruction and its operands. -/
theorem C61_text (hp : ∀ l ∈ p, Decodes l.words l.isa l.operands ∧ l.isa ≠ .Unknown) (h : Feeds it (programWords p) it') :
    ∀ x ∈ (programAt it.nextAddr p).zip (p.map (·.isa)), ∃ t, x.1.disassemble = some t ∧
      Reader.line x.1.pc t = some (.instruction x.2 (Reader.inRegister x.2 x.1.opcode) x.1.operands.canonical) := by
  induction p generalizing it with
  | nil => intro x hx; cases hx
  | cons l p ih =>
    obtain ⟨it1, h1, h2⟩ := feeds_append h
    obtain ⟨op, ho, hd, hf⟩ := (hp l (List.mem_cons_self ..)).1 M it it1 h1
    have hh : l.words.headD 0 = op := by
      cases hl : l.words with
      | nil => rw [hl] at ho; cases ho
      | cons w ws => rw [hl] at ho; cases ho; rfl
    have hr := ih (fun l' hl' => hp l' (List.mem_cons_of_mem _ hl')) h2
    rw [Feeds.addr h1] at hr
    unfold programAt
    rw [hh, List.map_cons, List.zip_cons_cons]
    intro x hx
    rcases List.mem_cons.1 hx with rfl | hx
    · have hu : decoder op ≠ .Unknown := by rw [hd]; exact (hp l (List.mem_cons_self ..)).2
      have := C54_reads_back hf hu
      rwa [hd] at this
    · exact hr x hx

/-! ### Errors -/

/-- `from_memory` returns an address error exactly at an odd address; nothing is read and the iterator stays. -/
theorem C61_odd (ho : Odd it.nextAddr) : Instruction.fromMemory it = .err 3 it := by
  unfold Instruction.fromMemory Iter.next
  have : isEven it.nextAddr = false := by
    cases hc : isEven it.nextAddr with
    | false => rfl
    | true => exact absurd ho ((isEven_iff _).1 hc)
  simp only [this]
  rfl

/-- It returns an access error exactly if the opcode cannot be read. -/
theorem C61_missing {m : M} (ho : ¬ Odd it.nextAddr) (hg : MemoryAccess.getWord it.nextAddr it.mem = .none m) :
    Instruction.fromMemory it = .err 2 ⟨m, it.nextAddr + 2⟩ := by
  unfold Instruction.fromMemory Iter.next
  simp only [(isEven_iff _).2 ho, if_true, hg]
  rfl

/-- There is no other error. -/
theorem C61_errors {v : U8} (h : Instruction.fromMemory it = .err v it') :
    (v = 3 ∧ Odd it.nextAddr ∧ it' = it) ∨ (v = 2 ∧ ¬ Odd it.nextAddr ∧ MemoryAccess.getWord it.nextAddr it.mem = .none it'.mem ∧ it'.nextAddr = it.nextAddr + 2) := by
  by_cases ho : Odd it.nextAddr
  · rw [C61_odd ho] at h; cases h; exact .inl ⟨rfl, ho, rfl⟩
  · unfold Instruction.fromMemory Iter.next at h
    simp only [(isEven_iff _).2 ho, if_true] at h
    cases hg : MemoryAccess.getWord it.nextAddr it.mem with
    | none m => rw [hg] at h; cases h; exact .inr ⟨rfl, ho, rfl, rfl⟩
    | panic => rw [hg] at h; cases h
    | val w m =>
      rw [hg] at h
      dsimp only at h
      split at h <;> cases h

/-- An odd address; the end of a memory. -/
example : Instruction.fromMemory (⟨⟨[0x4E71]⟩, 1⟩ : Iter WordSlice) = .err 3 ⟨⟨[0x4E71]⟩, 1⟩ ∧ Instruction.fromMemory (⟨⟨[0x4E71]⟩, 2⟩ : Iter WordSlice) = .err 2 ⟨⟨[0x4E71]⟩, 4⟩ := ⟨rfl, rfl⟩

/-- The documentation says that `from_memory` returns an error "when there was an error when reading memory". It does so only for the opcode: `ADD.L $1000.L,D0` at the end of a
memory, with its second extension word missing, panics. -/
theorem C61_documented_refuted : MemoryAccess.getWord 0 (⟨[0xD0B9, 0x0000]⟩ : WordSlice) = .val 0xD0B9 ⟨[0xD0B9, 0x0000]⟩ ∧
    MemoryAccess.getWord 4 (⟨[0xD0B9, 0x0000]⟩ : WordSlice) = .none ⟨[0xD0B9, 0x0000]⟩ ∧
    Instruction.fromMemory (⟨⟨[0xD0B9, 0x0000]⟩, 0⟩ : Iter WordSlice) = .panic := ⟨rfl, rfl, rfl⟩

/-! ### Execution follows the listing -/

/-- An instruction that is no branch leaves the program counter where `from_memory` leaves its iterator, at the next instruction of the listing. -/
theorem C61_next {c : Nat} {e : Option U8} (h : Ready s i.opcode s1) (hl : Instruction.fromMemory ⟨s.mem, s.cpu.regs.pc⟩ = .ok i it') (hm : ¬ MovemMisfit i.opcode)
    (hb : branches (instr i.opcode) = false) (hr : interpreterException C s = .ok (c, e) s') : s'.cpu.regs.pc = it'.nextAddr := by
  rw [C40_length h hm hb hr, C40_decoder_next hl hm]

/-- `ADDI.W #1,D0`. -/
example : ∃ i it' s1 c e s', Ready (Demo.st [0x0640, 1, 0x4E71] (Demo.regs [] [])) i.opcode s1 ∧
    Instruction.fromMemory ⟨(Demo.st [0x0640, 1, 0x4E71] (Demo.regs [] [])).mem, (Demo.st [0x0640, 1, 0x4E71] (Demo.regs [] [])).cpu.regs.pc⟩ = .ok i it' ∧ ¬ MovemMisfit i.opcode ∧
    branches (instr i.opcode) = false ∧ interpreterException mc68000 (Demo.st [0x0640, 1, 0x4E71] (Demo.regs [] [])) = .ok (c, e) s' ∧ it'.nextAddr = 4 :=
  ⟨_, _, _, _, _, _, ⟨rfl, rfl, by decide, _, rfl, rfl⟩, rfl, by unfold MovemMisfit; decide, rfl, rfl, rfl⟩

end M68k.Props
