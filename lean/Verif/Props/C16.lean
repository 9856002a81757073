import Verif.Lemmas.ShiftsMove
import Verif.Lemmas.EndsShift
import Verif.Props.C15
/-
C16: predecrement and postincrement.
-/
namespace M68k.Props
open Spec Exec
set_option linter.unusedSectionVars false
variable {M : Type} [MemoryAccess M] {C : CpuDetails} {s s' s'' s1 s2 s3 s4 t1 : St M} {op op' : U16} {sz : Size} {n : Fin 8} {i : Isa}

/-- The size of an operand in bytes, but 2 for a byte through A7. -/
def operandStep (n : Fin 8) (sz : Size) : U32 :=
  match sz with
  | .Byte => if n = 7 then 2 else 1
  | .Word => 2
  | .Long => 4

theorem operandStep_eq : operandStep n sz = Spec.step n sz := by
  unfold operandStep Spec.step
  cases sz <;> simp [bytes]

/-- What the operand with these mode and register fields adds to An. -/
def autoStep (sz : Size) (n mode reg : Fin 8) : U32 :=
  if reg = n then (if mode = 3 then operandStep n sz else if mode = 4 then - operandStep n sz else 0) else 0

theorem autoStep_eq {mode reg : Fin 8} : autoStep sz n mode reg = Shifts.shift sz n mode reg := by
  unfold autoStep Shifts.shift
  rw [operandStep_eq]

theorem eaSize_plain (h : eaSize i op = some sz) : i ≠ .Unknown ∧ i.isPrivileged = false := by
  cases i <;> first | (cases h; done) | exact ⟨by decide, rfl⟩

/-- `(An)+`: every instruction that reads, writes or modifies such an operand adds its size to An, once. (An is not the address register that ADDA, SUBA or
MOVEA write.) -/
theorem C16_postincrement (h : Ready s op s1) (hi : instr op = i) (hsz : eaSize i op = some sz) (hm : regField op 3 = 3)
    (hn : regField op 0 = n) (hd : toAddressRegister i = true → regField op 9 ≠ n) (hc : Completes C s s') :
    areg s'.cpu.regs n = areg s.cpu.regs n + operandStep n sz := by
  have he : ∀ isz, (fetchEa isz op : Exec M Mode) = pure (.postinc n) := by
    intro isz
    unfold fetchEa
    rw [hm, hn]; rfl
  have := (shifts_step h hi (eaSize_plain hsz).1 (eaSize_plain hsz).2 (Shifts.exec (C := C) (n := n) he rfl hsz hd) hc).1
  rw [this, operandStep_eq]
  simp [Shifts.delta]

/-- `ADD.L D0,(A3)+` at the last long of the address space: A3 wraps to 0. -/
example : ∃ s1, Ready (Demo.st [0xD19B] (Demo.regs [1] [0, 0, 0, 0xFFFFFFFC])) 0xD19B s1 ∧ instr 0xD19B = .Add ∧ eaSize .Add 0xD19B = some .Long ∧
    regField 0xD19B 3 = 3 ∧ regField 0xD19B 0 = 3 := ⟨_, ⟨rfl, rfl, by decide, _, rfl, rfl⟩, rfl, rfl, rfl, rfl⟩
/-- `CLR.B (A7)+` completes; A7 moves by 2. -/
example : ∃ s1 s', Ready (Demo.ram [0x421F] 8 { Demo.regs [] [] with ssp := 8, sr := srOf 0x2700 }) 0x421F s1 ∧ instr 0x421F = .Clr ∧
    eaSize .Clr 0x421F = some .Byte ∧ regField 0x421F 3 = 3 ∧ regField 0x421F 0 = 7 ∧
    Completes mc68000 (Demo.ram [0x421F] 8 { Demo.regs [] [] with ssp := 8, sr := srOf 0x2700 }) s' ∧ areg s'.cpu.regs 7 = 10 :=
  ⟨_, _, ⟨rfl, rfl, by decide, _, rfl, rfl⟩, rfl, rfl, rfl, rfl, ⟨_, rfl⟩, rfl⟩

/-- `-(An)`: every instruction that reads, writes or modifies such an operand subtracts its size from An, once. -/
theorem C16_predecrement (h : Ready s op s1) (hi : instr op = i) (hsz : eaSize i op = some sz) (hm : regField op 3 = 4)
    (hn : regField op 0 = n) (hd : toAddressRegister i = true → regField op 9 ≠ n) (hc : Completes C s s') :
    areg s'.cpu.regs n = areg s.cpu.regs n - operandStep n sz := by
  have he : ∀ isz, (fetchEa isz op : Exec M Mode) = pure (.predec n) := by
    intro isz
    unfold fetchEa
    rw [hm, hn]; rfl
  have := (shifts_step h hi (eaSize_plain hsz).1 (eaSize_plain hsz).2 (Shifts.exec (C := C) (n := n) he rfl hsz hd) hc).1
  rw [this, operandStep_eq]
  simp [Shifts.delta, BitVec.sub_eq_add_neg]

/-- `TAS -(A2)`. -/
example : ∃ s1 s', Ready (Demo.ram [0x4AE2] 8 (Demo.regs [] [0, 0, 5])) 0x4AE2 s1 ∧ instr 0x4AE2 = .Tas ∧
    eaSize .Tas 0x4AE2 = some .Byte ∧ regField 0x4AE2 3 = 4 ∧ regField 0x4AE2 0 = 2 ∧
    Completes mc68000 (Demo.ram [0x4AE2] 8 (Demo.regs [] [0, 0, 5])) s' ∧ areg s'.cpu.regs 2 = 4 :=
  ⟨_, _, ⟨rfl, rfl, by decide, _, rfl, rfl⟩, rfl, rfl, rfl, rfl, ⟨_, rfl⟩, rfl⟩

/-- MOVE: each address register moves by what its operands say; `MOVE (A0)+,-(A0)` leaves A0 where it was. -/
theorem C16_move (h : Ready s op s1) (hi : instr op = .Move) (hsz : moveOpSize op = some sz) (hc : Completes C s s') (n : Fin 8) :
    areg s'.cpu.regs n = areg s.cpu.regs n + autoStep sz n (regField op 3) (regField op 0) + autoStep sz n (regField op 6) (regField op 9) := by
  have hd : regField op 6 ≠ 1 := by
    have hl := decoder_of_check legalCheck legalCheck_all op
    rw [decoder_of_map op (by rw [hi]; decide), hi] at hl
    intro h1
    have : op.toNat / 64 % 8 = 1 := congrArg Fin.val h1
    simp [legalCheck, this] at hl
  have := (shifts_step h hi (by decide) rfl (Shifts.move (C := C) (n := n) hsz hd) hc).1
  rw [this, autoStep_eq, autoStep_eq, BitVec.add_assoc]

/-- `MOVE.W (A0)+,-(A1)`. -/
example : ∃ s1 s', Ready (Demo.ram [0x3318] 8 (Demo.regs [] [4, 10])) 0x3318 s1 ∧ instr 0x3318 = .Move ∧
    moveOpSize 0x3318 = some .Word ∧ Completes mc68000 (Demo.ram [0x3318] 8 (Demo.regs [] [4, 10])) s' ∧
    areg s'.cpu.regs 0 = 6 ∧ areg s'.cpu.regs 1 = 8 :=
  ⟨_, _, ⟨rfl, rfl, by decide, _, rfl, rfl⟩, rfl, rfl, ⟨_, rfl⟩, rfl, rfl⟩

/-- ADDX, SUBX, ABCD and SBCD `-(Ay),-(Ax)`: both registers are decremented (twice if they are the same). -/
theorem C16_pair (h : Ready s op s1) (hi : instr op = i) (hsz : opSize op = some sz)
    (h4 : i = .Addx ∨ i = .Subx ∨ ((i = .Abcd ∨ i = .Sbcd) ∧ sz = .Byte)) (hm : op.toNat / 8 % 2 = 1) (hc : Completes C s s') (n : Fin 8) :
    areg s'.cpu.regs n = areg s.cpu.regs n + autoStep sz n 4 (regField op 0) + autoStep sz n 4 (regField op 9) := by
  have hf : flag op 3 = true := by simp [flag, hm]
  rw [BitVec.add_assoc, autoStep_eq, autoStep_eq]
  rcases h4 with rfl | rfl | ⟨rfl | rfl, rfl⟩
  · refine (shifts_step h hi (by decide) rfl (C := C) ?_ hc).1
    simp only [Spec.exec]
    rw [hf]
    exact Shifts.sized hsz (Shifts.cost _ (Shifts.pair fun _ _ _ => rfl))
  · refine (shifts_step h hi (by decide) rfl (C := C) ?_ hc).1
    simp only [Spec.exec]
    rw [hf]
    exact Shifts.sized hsz (Shifts.cost _ (Shifts.pair fun _ _ _ => rfl))
  · refine (shifts_step h hi (by decide) rfl (C := C) ?_ hc).1
    simp only [Spec.exec]
    rw [hf]
    exact Shifts.sized hsz (Shifts.cost _ (Shifts.pair fun _ _ _ => Shifts.decimalSum_s _ _ _))
  · refine (shifts_step h hi (by decide) rfl (C := C) ?_ hc).1
    simp only [Spec.exec]
    rw [hf]
    exact Shifts.sized hsz (Shifts.cost _ (Shifts.pair fun _ _ _ => Shifts.bcd_s _ _ _))

/-- `ADDX.L -(A1),-(A0)`. -/
example : ∃ s1 s', Ready (Demo.ram [0xD189] 8 (Demo.regs [] [8, 12])) 0xD189 s1 ∧ instr 0xD189 = .Addx ∧ opSize 0xD189 = some .Long ∧
    (0xD189 : U16).toNat / 8 % 2 = 1 ∧ Completes mc68000 (Demo.ram [0xD189] 8 (Demo.regs [] [8, 12])) s' ∧
    areg s'.cpu.regs 0 = 4 ∧ areg s'.cpu.regs 1 = 8 :=
  ⟨_, _, ⟨rfl, rfl, by decide, _, rfl, rfl⟩, rfl, rfl, rfl, ⟨_, rfl⟩, rfl, rfl⟩
/-- `SBCD -(A1),-(A0)`. -/
example : ∃ s1, Ready (Demo.ram [0x8109] 8 (Demo.regs [] [8, 12])) 0x8109 s1 ∧ instr 0x8109 = .Sbcd ∧ opSize 0x8109 = some .Byte :=
  ⟨_, ⟨rfl, rfl, by decide, _, rfl, rfl⟩, rfl, rfl⟩

/-- CMPM `(Ay)+,(Ax)+`: both registers are incremented. -/
theorem C16_cmpm (h : Ready s op s1) (hi : instr op = .Cmpm) (hsz : opSize op = some sz) (hc : Completes C s s') (n : Fin 8) :
    areg s'.cpu.regs n = areg s.cpu.regs n + autoStep sz n 3 (regField op 0) + autoStep sz n 3 (regField op 9) := by
  rw [BitVec.add_assoc, autoStep_eq, autoStep_eq]
  refine (shifts_step h hi (by decide) rfl (C := C) ?_ hc).1
  simp only [Spec.exec]
  exact Shifts.sized hsz (Shifts.cost _ Shifts.cmpm)

/-- `CMPM.B (A7)+,(A6)+`. -/
example : ∃ s1 s', Ready (Demo.ram [0xBD0F] 8 { Demo.regs [] [0, 0, 0, 0, 0, 0, 5] with usp := 8 }) 0xBD0F s1 ∧ instr 0xBD0F = .Cmpm ∧
    opSize 0xBD0F = some .Byte ∧ Completes mc68000 (Demo.ram [0xBD0F] 8 { Demo.regs [] [0, 0, 0, 0, 0, 0, 5] with usp := 8 }) s' ∧
    areg s'.cpu.regs 6 = 6 ∧ areg s'.cpu.regs 7 = 10 :=
  ⟨_, _, ⟨rfl, rfl, by decide, _, rfl, rfl⟩, rfl, rfl, ⟨_, rfl⟩, rfl, rfl⟩

section
variable [Ram M]

/-- Push and pop: `MOVE x,-(An)` then `MOVE (An)+,Dm`, of the same size, x not moving An: An is as before and the low bits of Dm are the operand pushed. -/
theorem C16_pushPop {src : Mode} {p : Place} {v : Val sz} {m : Fin 8} (h : Ready s op s1) (hi : instr op = .Move) (hsz : moveOpSize op = some sz)
    (hs : fetchEa (some sz) op s1 = .ok src s2) (hv : Spec.read sz src s2 = .ok (p, v) s3)
    (hpush : regField op 6 = 4 ∧ regField op 9 = n) (hsrc : ¬ (regField op 0 = n ∧ (regField op 3 = 3 ∨ regField op 3 = 4)))
    (hc : Completes C s s')
    (h' : Ready s' op' t1) (hi' : instr op' = .Move) (hsz' : moveOpSize op' = some sz)
    (hpop : regField op' 3 = 3 ∧ regField op' 0 = n) (hdst : regField op' 6 = 0 ∧ regField op' 9 = m) (hc' : Completes C s' s'') :
    areg s''.cpu.regs n = areg s.cpu.regs n ∧ low sz (s''.cpu.regs.d m) = v := by
  have hA := C16_move h hi hsz hc n
  have hB := C16_move h' hi' hsz' hc' n
  have e0 : autoStep sz n (regField op 3) (regField op 0) = 0 := by
    unfold autoStep
    by_cases h1 : regField op 0 = n
    · rw [if_pos h1, if_neg (fun h3 => hsrc ⟨h1, .inl h3⟩), if_neg (fun h3 => hsrc ⟨h1, .inr h3⟩)]
    · rw [if_neg h1]
  have e1 : autoStep sz n (regField op 6) (regField op 9) = - operandStep n sz := by
    unfold autoStep
    rw [if_pos hpush.2, hpush.1]; rfl
  have e2 : autoStep sz n (regField op' 3) (regField op' 0) = operandStep n sz := by
    unfold autoStep
    rw [if_pos hpop.2, hpop.1]; rfl
  have e3 : autoStep sz n (regField op' 6) (regField op' 9) = 0 := by
    unfold autoStep
    rw [hdst.1]
    split <;> rfl
  rw [e0, e1, add0] at hA
  rw [e2, e3, add0, hA] at hB
  refine ⟨by rw [hB, BitVec.add_assoc, BitVec.add_comm (-_), ← BitVec.sub_eq_add_neg, BitVec.sub_self]; exact add0 _, ?_⟩
  have hmv : moveSize op = some sz := hsz
  have hmv' : moveSize op' = some sz := hsz'
  have hd : fetchMode (some sz) (regField op 6) (regField op 9) s2 = .ok (.predec n) s2 := by rw [hpush.1, hpush.2]; rfl
  have hn2 : areg s3.cpu.regs n = areg s.cpu.regs n := by
    have h3 := (Shifts.read (n := n) sz src : Shifts n _ (Spec.read sz src : Exec M _)) s2
    rw [hv] at h3
    have h4 := (Shifts.fetchMode (n := n) (M := M) (some sz) (regField op 3) (regField op 0)) s1
    have hs' : fetchMode (some sz) (regField op 3) (regField op 0) s1 = .ok src s2 := hs
    rw [hs'] at h4
    have hδ := (Shifts.fetchMode_delta (n := n) hs').1 sz
    rw [← autoStep_eq, e0] at hδ
    obtain ⟨mm, -, he⟩ := h.opcode
    rw [h3.1, hδ, add0, h4.1, add0, he]
    rfl
  obtain ⟨hh, -, -⟩ := C15_memory h hi hmv hs hd hv (a := areg s.cpu.regs n - operandStep n sz)
    (by show Place.mem (areg s3.cpu.regs n - Spec.step n sz) = _; rw [hn2, operandStep_eq]) hc
  -- the pop
  have hs2 : fetchEa (some sz) op' t1 = .ok (.postinc n) t1 := by unfold fetchEa; rw [hpop.1, hpop.2]; rfl
  have hd2 : fetchMode (some sz) (regField op' 6) (regField op' 9) t1 = .ok (.dn m) t1 := by rw [hdst.1, hdst.2]; rfl
  have hx := step_ends C h' hi' (by decide) rfl
  simp only [Spec.exec] at hx
  rw [moveSized_some hmv', endsWith_bind_ok hs2, endsWith_bind_ok hd2, endsWith_cost] at hx
  have ht1 : areg t1.cpu.regs n = areg s.cpu.regs n - operandStep n sz ∧ t1.mem = s'.mem := by
    obtain ⟨mm, -, he⟩ := h'.opcode
    refine ⟨?_, h'.ram⟩
    rw [he, BitVec.sub_eq_add_neg, ← hA]
    rfl
  rcases endsWith_completes hx hc' with ⟨_, hx⟩ | ⟨e, hx, ht⟩
  · unfold Spec.move at hx
    obtain ⟨⟨q, w⟩, t3, hr, hx⟩ := bind_ok hx
    obtain ⟨hq, hr1, hr⟩ := read_ram hr
    have hq' : q = .mem (areg s.cpu.regs n - operandStep n sz) := by rw [← ht1.1]; exact hq
    subst hq'
    obtain ⟨-, hr2, hl⟩ := load_done hr
    have hmem : t3.mem = s'.mem := by rw [hr1]; exact ht1.2
    rw [hmem] at hl
    have hw := holds_unique hl hh
    subst hw
    cases hx
    show low sz ((setDreg t3.cpu.regs m (insertLow sz (t3.cpu.regs.d m) w)).d m) = _
    simp only [setDreg, if_true]
    exact low_insertLow sz _ _
  · have hk : Shifts n _ (Spec.move sz (.dn m) (.postinc n) : Exec M Unit) :=
      Shifts.bind (Shifts.read sz _) fun x => Shifts.first (Shifts.writeAny (fun _ h => (by cases h)) _) fun _ => Shifts.flags fun _ => rfl
    have hk := hk t1
    rw [hx] at hk
    unfold traced at ht
    split at ht
    · exact absurd (Option.some.inj ht).symm hk
    · cases ht

/-- `MOVE.B D0,-(A7)` then `MOVE.B (A7)+,D1`. -/
example : ∃ s1 s' t1 s'', Ready (Demo.ram [0x1F00, 0x121F] 8 { Demo.regs [0x12] [] with usp := 8 }) 0x1F00 s1 ∧ instr 0x1F00 = .Move ∧
    moveOpSize 0x1F00 = some .Byte ∧ regField 0x1F00 6 = 4 ∧ regField 0x1F00 9 = 7 ∧
    Completes mc68000 (Demo.ram [0x1F00, 0x121F] 8 { Demo.regs [0x12] [] with usp := 8 }) s' ∧ Ready s' 0x121F t1 ∧ instr 0x121F = .Move ∧
    regField 0x121F 3 = 3 ∧ regField 0x121F 0 = 7 ∧ regField 0x121F 6 = 0 ∧ regField 0x121F 9 = 1 ∧ Completes mc68000 s' s'' :=
  ⟨_, _, _, _, ⟨rfl, rfl, by decide, _, rfl, rfl⟩, rfl, rfl, rfl, rfl, ⟨_, rfl⟩, ⟨rfl, rfl, by decide, _, rfl, rfl⟩, rfl, rfl, rfl, rfl, rfl, ⟨_, rfl⟩⟩

end

end M68k.Props
