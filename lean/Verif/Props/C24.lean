import Verif.Lemmas.Length
import Verif.Props.C32
import Verif.Props.C40
/-
C24: privileged instructions in user mode.
-/
namespace M68k.Props
open Spec Exec
variable {M : Type} [MemoryAccess M] {C : CpuDetails} {s s' s1 s2 : St M} {op : U16} {c : Nat} {e : Option U8}

theorem userTraps {α : Type} (f : Unit → Exec M α) (s : St M) (h : s.cpu.regs.sr.s = false) : (privileged >>= f) s = .err 8 s := by
  rw [Exec.bind_apply]
  have : (privileged : Exec M Unit) s = .err 8 s := by
    unfold privileged
    rw [getR_bind_apply, h]
    rfl
  rw [this]

theorem userTraps_map {α β : Type} {x : Exec M α} (g : α → β) (s : St M) (h : x s = .err 8 s) : (g <$> x) s = .err 8 s := by
  rw [Exec.map_apply, h]

theorem userTraps_cost {α : Type} (n : Nat) {x : Exec M α} (s : St M) (h : x s = .err 8 s) : (cost x n) s = .err 8 s := by
  unfold cost
  rw [Exec.map_apply, h]

theorem split_privileged (op : U16) (hp : Privileged (decoder op)) :
    Split (extensionWords (decoder op) op) (fun z => ∀ s : St M, s.cpu.regs.sr.s = false → z s = .err 8 s) (Spec.exec C (decoder op) op) := by
  have hl := decoder_legal op
  generalize decoder op = i at hl hp
  rcases hp with rfl | rfl | rfl | rfl | rfl | rfl | rfl | rfl <;>
    simp only [legalCheck, Bool.and_eq_true, Bool.or_eq_true, bne_iff_ne, decide_eq_true_eq] at hl <;>
    simp only [Spec.exec, extensionWords]
  · exact Split.last Pre.fetch fun _ _ => userTraps _
  · exact Split.last Pre.fetch fun _ _ => userTraps _
  · exact Split.last Pre.fetch fun _ _ => userTraps _
  · exact Split.last (pre_ea op (by omega) rfl) fun _ _ => userTraps _
  · exact Split.here fun s h => userTraps_cost _ _ (userTraps _ s h)
  · exact Split.here fun s h => userTraps_cost _ _ (userTraps _ s h)
  · exact Split.here fun s h => userTraps_map _ _ (userTraps _ s h)
  · exact Split.last Pre.fetch fun _ _ s h => userTraps_cost _ _ (userTraps _ s h)

/-- A privileged instruction in user mode yields vector 8. The state is the one after its own words have been read:
no other memory access is made. -/
theorem C24_traps {ws : List U16} (h : Ready s op s1) (hp : Privileged (instr op)) (hu : s.cpu.regs.sr.s = false)
    (hf : fetchWords (extensionWords (instr op) op) s1 = .ok ws s2) : Raises C s 8 s2 := by
  have hd : decoder op = instr op := decoder_of_map op (by intro hc; rw [hc] at hp; revert hp; decide)
  rw [← hd] at hp hf
  have hx := split_privileged (C := C) op hp s1
  rw [hf] at hx
  obtain ⟨z, h1, h2⟩ := hx
  have h3 := fetchWords_cpu hf
  have h4 : z s2 = .err 8 s2 := h1 s2 (by rw [h3]; exact (congrArg StatusRegister.s h.sr).trans hu)
  unfold Raises
  rw [step_finish C h]
  unfold finishStep
  rw [h2, h4]

/-- What the state after the words of the instruction is: only the program counter has changed. -/
theorem C24_state {k : Nat} {ws : List U16} (h : Ready s op s1) (hf : fetchWords k s1 = .ok ws s2) :
    s2.cpu = { s.cpu with currentOpcode := op, regs := { s.cpu.regs with pc := s.cpu.regs.pc + 2 + BitVec.ofNat 32 (2 * k) } } ∧
    Reads s.mem s2.mem := by
  refine ⟨?_, ?_⟩
  · rw [fetchWords_cpu hf]
    obtain ⟨-, -, -, m, -, h5⟩ := h
    subst h5
    rfl
  · obtain ⟨-, -, ho, m, h4, h5⟩ := h
    subst h5
    exact (Reads.word (.refl _) ho (.inr ⟨_, h4⟩)).trans (fetchWords_reads hf)

/-- Whatever a call that starts with a privileged instruction in user mode returns, it is vector 8 with 0 cycles and
unchanged registers. -/
theorem C24_always (h : Ready s op s1) (hp : Privileged (instr op)) (hu : s.cpu.regs.sr.s = false)
    (hr : interpreterException C s = .ok (c, e) s') :
    c = 0 ∧ e = some 8 ∧ s'.cpu = { s.cpu with currentOpcode := op, regs := { s.cpu.regs with pc := s'.cpu.regs.pc } } := by
  obtain ⟨ws, s2, hf, -⟩ := C40_branch h (fun hm => by
    have hd : decoder op = instr op := decoder_of_map op (by intro hc; rw [hc] at hp; revert hp; decide)
    rw [decoder_of_misfit hm] at hd
    rw [← hd] at hp
    revert hp; decide) hr
  have hx : interpreterException C s = _ := C24_traps (C := C) h hp hu hf
  rw [hx] at hr
  cases hr
  refine ⟨rfl, rfl, ?_⟩
  rw [(C24_state h hf).1]

/-- The privileged opcodes, checked against the whole decoder table. -/
def privilegedCheck (i : Isa) (n : Nat) : Bool :=
  i.isPrivileged == (bif Nat.ble n 0x0A7C then n.beq 0x007C || n.beq 0x027C || n.beq 0x0A7C else
    bif Nat.ble 0x46C0 n then
      bif Nat.ble n 0x46FC then !(n / 8 % 8).beq 1 else
      bif Nat.ble n 0x4E73 then bif Nat.ble 0x4E60 n then Nat.ble n 0x4E70 || n.beq 0x4E72 || n.beq 0x4E73 else false else false
    else false)
set_option maxRecDepth 100000 in
set_option maxHeartbeats 4000000 in
theorem privilegedCheck_all : checkTable privilegedCheck = true := by apply checkTable_intro <;> decide +kernel

/-- The privileged opcodes: ORI, ANDI and EORI to SR, RESET, STOP, RTE, MOVE USP, and MOVE to SR with the data addressing modes. -/
theorem C24_opcodes (op : U16) : Privileged (instr op) ↔
    op = 0x007C ∨ op = 0x027C ∨ op = 0x0A7C ∨ op = 0x4E70 ∨ op = 0x4E72 ∨ op = 0x4E73 ∨ (0x4E60 ≤ op ∧ op ≤ 0x4E6F) ∨
    (0x46C0 ≤ op ∧ op ≤ 0x46FC ∧ op.toNat / 8 % 8 ≠ 1) := by
  have hd := decoder_of_check privilegedCheck privilegedCheck_all op
  unfold privilegedCheck at hd
  have hi : Privileged (instr op) ↔ (decoder op).isPrivileged = true := by
    rw [privileged_iff]
    by_cases hm : MovemMisfit op
    · have h1 := extra_of_misfit hm
      have h2 := decoder_of_check mapCheck mapCheck_all op
      unfold mapCheck at h2
      rw [if_pos h1, Bool.and_eq_true, beq_iff_eq, beq_iff_eq] at h2
      have h3 : instr op = .Unknown := h2.2
      rw [h2.1, h3]
      decide
    · rw [decoder_of_not_misfit hm]
  rw [hi, beq_iff_eq.mp hd]
  simp only [BitVec.le_def, BitVec.ofNat_eq_ofNat, BitVec.reduceToNat, ← BitVec.toNat_inj, cond_eq_ite, Nat.ble_eq]
  repeat' split
  all_goals simp only [Bool.or_eq_true, Nat.beq_eq, Bool.not_eq_true', Nat.ble_eq, reduceCtorEq, false_iff, ← Bool.not_eq_true]
  all_goals omega

/-- RESET, STOP #$2700, `MOVE $100.L,SR` (the address is not accessed). -/
example : (∃ s1, Ready (Demo.st [0x4E70] (Demo.regs [] [])) 0x4E70 s1 ∧ Privileged (instr 0x4E70)) ∧
    (∃ s1 ws s2, Ready (Demo.st [0x4E72, 0x2700] (Demo.regs [] [])) 0x4E72 s1 ∧ Privileged (instr 0x4E72) ∧
      fetchWords (extensionWords (instr 0x4E72) 0x4E72) s1 = .ok ws s2 ∧ s1.cpu.regs.sr.s = false) ∧
    ∃ s1 ws s2, Ready (Demo.st [0x46F9, 0, 0x100] (Demo.regs [] [])) 0x46F9 s1 ∧ Privileged (instr 0x46F9) ∧
      fetchWords (extensionWords (instr 0x46F9) 0x46F9) s1 = .ok ws s2 ∧
      interpreterException mc68000 (Demo.st [0x46F9, 0, 0x100] (Demo.regs [] [])) = .ok (0, some 8) s2 :=
  ⟨⟨_, ⟨rfl, rfl, by decide, _, rfl, rfl⟩, by decide⟩, ⟨_, _, _, ⟨rfl, rfl, by decide, _, rfl, rfl⟩, by decide, rfl, rfl⟩,
   _, _, _, ⟨rfl, rfl, by decide, _, rfl, rfl⟩, by decide, rfl, rfl⟩

end M68k.Props
