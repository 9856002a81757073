import Verif.Lemmas.Contents
import Verif.Spec.Claims
import Verif.Props.DemoRam
/-
C15: MOVE copies and reads back.
-/
namespace M68k.Props
open Spec Exec
set_option linter.unusedSectionVars false
variable {M : Type} [MemoryAccess M] {C : CpuDetails} {s s' s1 s2 s3 s4 : St M} {op : U16} {sz : Size} {a : U32}
  {src dst : Mode} {p : Place} {v w : Val sz}

/-- The size in bits 13-12 of MOVE. -/
def moveSize (op : U16) : Option Size :=
  match op.toNat / 4096 % 4 with
  | 1 => some .Byte
  | 3 => some .Word
  | 2 => some .Long
  | _ => none

theorem moveSized_some (h : moveSize op = some sz) (k : Size → Exec M Nat) : moveSized op k = k sz := by
  unfold moveSize at h
  unfold moveSized
  have hlt : op.toNat / 4096 % 4 < 4 := Nat.mod_lt _ (by omega)
  match hh : op.toNat / 4096 % 4, hlt with
  | 0, _ => rw [hh] at h; cases h
  | 1, _ => rw [hh] at h; cases h; simp
  | 2, _ => rw [hh] at h; cases h; simp
  | 3, _ => rw [hh] at h; cases h; simp

/-- MOVE up to the write of the destination. -/
theorem ends_move (h : Ready s op s1) (hi : instr op = .Move) (hsz : moveSize op = some sz)
    (hs : fetchEa (some sz) op s1 = .ok src s2) (hd : fetchMode (some sz) (regField op 6) (regField op 9) s2 = .ok dst s3)
    (hv : Spec.read sz src s3 = .ok (p, v) s4) :
    EndsWith C s ((do write sz dst v; setFlags (logicFlags v) : Exec M Unit) s4) := by
  have hx := step_ends C h hi (by decide) rfl
  simp only [Spec.exec] at hx
  rw [moveSized_some hsz, endsWith_bind_ok hs, endsWith_bind_ok hd, endsWith_cost] at hx
  unfold Spec.move at hx
  rw [endsWith_bind_ok hv] at hx
  exact hx

theorem move_sr (h : Ready s op s1) (hs : fetchEa (some sz) op s1 = .ok src s2)
    (hd : fetchMode (some sz) (regField op 6) (regField op 9) s2 = .ok dst s3)
    (hv : Spec.read sz src s3 = .ok (p, v) s4) : s4.cpu.regs.sr = s.cpu.regs.sr := by
  have h1 := (Keeps.of_fetchEa sameD_rel _ _).ok hs
  have h2 := (Keeps.of_fetchMode sameD_rel _ _ _).ok hd
  have h3 := (Keeps.of_read sameD_rel _ _).ok hv
  rw [h3.2, h2.2, h1.2, h.sr]

/-- MOVE to a data register: its low bits are the source operand, N and Z describe it, V and C are cleared, X is kept. -/
theorem C15_register {n : Fin 8} (h : Ready s op s1) (hi : instr op = .Move) (hsz : moveSize op = some sz)
    (hs : fetchEa (some sz) op s1 = .ok src s2) (hd : fetchMode (some sz) (regField op 6) (regField op 9) s2 = .ok (.dn n) s3)
    (hv : Spec.read sz src s3 = .ok (p, v) s4) :
    ∃ sr, LogicCodes v s.cpu.regs.sr sr ∧
      Completes C s (s4.withRegs fun r => { setDreg r n (insertLow sz (r.d n) v) with sr := sr }) := by
  have hx := ends_move (C := C) h hi hsz hs hd hv
  refine ⟨logicFlags v s.cpu.regs.sr, logicCodes_logicFlags v _, ?_⟩
  rw [← move_sr h hs hd hv]
  exact hx

section
variable [Ram M]

theorem store_err {v : Val sz} {e : U8} (h : store sz a v s = .err e s') : e = 2 ∨ e = 3 := by
  unfold store at h
  split at h
  · cases h; exact .inr rfl
  · unfold access at h
    split at h
    · cases h
    · cases h; exact .inl rfl
    · cases h

/-- MOVE to memory: the memory holds the source operand at the effective address, big-endian, and is otherwise as before. The registers are
those after the evaluation of the two effective addresses. -/
theorem C15_memory (h : Ready s op s1) (hi : instr op = .Move) (hsz : moveSize op = some sz)
    (hs : fetchEa (some sz) op s1 = .ok src s2) (hd : fetchMode (some sz) (regField op 6) (regField op 9) s2 = .ok dst s3)
    (hv : Spec.read sz src s3 = .ok (p, v) s4) (ha : (place sz s4.cpu.regs dst).1 = .mem a) (hc : Completes C s s') :
    Holds s'.mem a v ∧ SameExcept s.mem s'.mem a (bytes sz) ∧
      ∃ sr, LogicCodes v s.cpu.regs.sr sr ∧ s'.cpu.regs = { (place sz s4.cpu.regs dst).2 with sr := sr } := by
  have hx := ends_move (C := C) h hi hsz hs hd hv
  have hm : s4.mem = s.mem := by
    obtain ⟨-, hr, -⟩ := read_ram hv
    rw [hr]
    show s3.mem = s.mem
    rw [(fetchMode_pcOnly hd).mem, (fetchEa_pcOnly hs).mem, h.ram]
  have hsr := move_sr h hs hd hv
  rcases endsWith_completes hx hc with ⟨_, hx⟩ | ⟨e, hx, ht⟩
  · obtain ⟨_, t, hx, hf⟩ := bind_ok hx
    obtain ⟨q, t', hl, hx⟩ := bind_ok hx
    cases hl
    rw [ha] at hx
    obtain ⟨-, h1, h2, h3⟩ := store_done hx
    cases hf
    refine ⟨h2, ?_, logicFlags v s.cpu.regs.sr, logicCodes_logicFlags v _, ?_⟩
    · rw [← hm]
      exact h3
    · rw [h1]
      show { (place sz s4.cpu.regs dst).2 with sr := logicFlags v (place sz s4.cpu.regs dst).2.sr } = _
      rw [place_sr, hsr]
  · rcases bind_err hx with hx | ⟨_, t, _, hf⟩
    · rcases bind_err hx with hl | ⟨q, t', hl, hx⟩
      · cases hl
      · cases hl
        rw [ha] at hx
        rcases store_err hx with rfl | rfl
        · unfold traced at ht; split at ht <;> cases ht
        · unfold traced at ht; split at ht <;> cases ht
    · cases hf

/-- On a memory whose bytes can be written, MOVE to existing addresses does complete. -/
theorem C15_completes [Writable M] (h : Ready s op s1) (hi : instr op = .Move) (hsz : moveSize op = some sz)
    (hs : fetchEa (some sz) op s1 = .ok src s2) (hd : fetchMode (some sz) (regField op 6) (regField op 9) s2 = .ok dst s3)
    (hv : Spec.read sz src s3 = .ok (p, v) s4) (ha : (place sz s4.cpu.regs dst).1 = .mem a)
    (hal : AlignedFor sz a) (hp : Present s.mem a (bytes sz)) : ∃ s', Completes C s s' := by
  have hx := ends_move (C := C) h hi hsz hs hd hv
  have hm : s4.mem = s.mem := by
    obtain ⟨-, hr, -⟩ := read_ram hv
    rw [hr]
    show s3.mem = s.mem
    rw [(fetchMode_pcOnly hd).mem, (fetchEa_pcOnly hs).mem, h.ram]
  obtain ⟨m', hm'⟩ := store_present (s := s4.withRegs fun r => (place sz r dst).2) (v := v) hal
    (show Present s4.mem a (bytes sz) by rw [hm]; exact hp)
  have hw : write sz dst v s4 = .ok () { s4.withRegs (fun r => (place sz r dst).2) with mem := m' } := by
    show writeAt sz (place sz s4.cpu.regs dst).1 v (s4.withRegs fun r => (place sz r dst).2) = _
    rw [ha]
    exact hm'
  rw [endsWith_bind_ok hw] at hx
  exact ⟨_, hx⟩

/-- MOVE to an odd address (word and long) is an address error and changes no memory. -/
theorem C15_odd (h : Ready s op s1) (hi : instr op = .Move) (hsz : moveSize op = some sz)
    (hs : fetchEa (some sz) op s1 = .ok src s2) (hd : fetchMode (some sz) (regField op 6) (regField op 9) s2 = .ok dst s3)
    (hv : Spec.read sz src s3 = .ok (p, v) s4) (ha : (place sz s4.cpu.regs dst).1 = .mem a) (hal : ¬ AlignedFor sz a) :
    ∃ s', Raises C s 3 s' ∧ s'.mem = s.mem ∧ s'.cpu.regs.sr = s.cpu.regs.sr := by
  have hx := ends_move (C := C) h hi hsz hs hd hv
  have hw : write sz dst v s4 = .err 3 (s4.withRegs (fun r => (place sz r dst).2)) := by
    show writeAt sz (place sz s4.cpu.regs dst).1 v (s4.withRegs fun r => (place sz r dst).2) = _
    rw [ha]
    show store sz a v _ = _
    unfold store
    rw [if_pos (Classical.not_not.mp hal)]
    rfl
  rw [endsWith_bind_err hw] at hx
  refine ⟨_, hx, ?_, ?_⟩
  · obtain ⟨-, hr, -⟩ := read_ram hv
    show s4.mem = s.mem
    rw [hr]
    show s3.mem = s.mem
    rw [(fetchMode_pcOnly hd).mem, (fetchEa_pcOnly hs).mem, h.ram]
  · show (place sz s4.cpu.regs dst).2.sr = _
    rw [place_sr, move_sr h hs hd hv]

/-- Reading back: as long as the bytes written by MOVE stay, an instruction reading an operand of the same size there reads the value
written. -/
theorem C15_readBack {t t1 t2 : St M} {op' : U16} (h : Ready s op s1) (hi : instr op = .Move) (hsz : moveSize op = some sz)
    (hs : fetchEa (some sz) op s1 = .ok src s2) (hd : fetchMode (some sz) (regField op 6) (regField op 9) s2 = .ok dst s3)
    (hv : Spec.read sz src s3 = .ok (p, v) s4) (ha : (place sz s4.cpu.regs dst).1 = .mem a) (hc : Completes C s s')
    (hk : ∀ k < bytes sz, Ram.peek t.mem (at_ a k) = Ram.peek s'.mem (at_ a k))
    (h' : Ready t op' t1) (hr : operand sz op' t1 = .ok (.mem a, w) t2) : w = v := by
  obtain ⟨h1, -, -⟩ := C15_memory h hi hsz hs hd hv ha hc
  obtain ⟨md, t', hm, hr⟩ := operand_ok hr
  obtain ⟨-, he, hr⟩ := read_ram hr
  obtain ⟨-, -, hl⟩ := load_done hr
  have hmem : t2.mem = t.mem := by
    rw [he]
    show t'.mem = _
    rw [(fetchEa_pcOnly hm).mem, h'.ram]
  rw [hmem] at hl
  exact holds_unique hl (h1.of_eq hk)

end

/-- `MOVE.L D0,$20`, on an array of 32 words: it completes and the value is there. -/
example : ∃ s1 s2 s3 s4 p v s', Ready (Demo.ram [0x21C0, 0x20] 32 (Demo.regs [0x12345678] [])) 0x21C0 s1 ∧ instr 0x21C0 = .Move ∧
    moveSize 0x21C0 = some .Long ∧ fetchEa (some .Long) 0x21C0 s1 = .ok (.dn 0) s2 ∧
    fetchMode (some .Long) (regField 0x21C0 6) (regField 0x21C0 9) s2 = .ok (.absW 0x20) s3 ∧ Spec.read .Long (.dn 0) s3 = .ok (p, v) s4 ∧
    (place .Long s4.cpu.regs (.absW 0x20)).1 = .mem 0x20 ∧
    Completes mc68000 (Demo.ram [0x21C0, 0x20] 32 (Demo.regs [0x12345678] [])) s' ∧
    (s'.mem.words.drop 15).take 4 = [0, 0x1234, 0x5678, 0] :=
  ⟨_, _, _, _, _, _, _, ⟨rfl, rfl, by decide, _, rfl, rfl⟩, rfl, rfl, rfl, rfl, rfl, rfl, ⟨_, rfl⟩, rfl⟩
/-- `MOVE.W D0,$21`. -/
example : ∃ s1 s2 s3 s4 p v, Ready (Demo.ram [0x31C0, 0x21] 32 (Demo.regs [0x12345678] [])) 0x31C0 s1 ∧ instr 0x31C0 = .Move ∧
    moveSize 0x31C0 = some .Word ∧ fetchEa (some .Word) 0x31C0 s1 = .ok (.dn 0) s2 ∧
    fetchMode (some .Word) (regField 0x31C0 6) (regField 0x31C0 9) s2 = .ok (.absW 0x21) s3 ∧ Spec.read .Word (.dn 0) s3 = .ok (p, v) s4 ∧
    (place .Word s4.cpu.regs (.absW 0x21)).1 = .mem 0x21 ∧ ¬ AlignedFor .Word 0x21 :=
  ⟨_, _, _, _, _, _, ⟨rfl, rfl, by decide, _, rfl, rfl⟩, rfl, rfl, rfl, rfl, rfl, rfl, by decide⟩
/-- `MOVE.B #$7F,D3`. -/
example : ∃ s1 s2 s3 s4 p v, Ready (Demo.st [0x163C, 0x7F] (Demo.regs [] [])) 0x163C s1 ∧ instr 0x163C = .Move ∧
    moveSize 0x163C = some .Byte ∧ fetchEa (some .Byte) 0x163C s1 = .ok (.imm 0x7F) s2 ∧
    fetchMode (some .Byte) (regField 0x163C 6) (regField 0x163C 9) s2 = .ok (.dn 3) s3 ∧ Spec.read .Byte (.imm 0x7F) s3 = .ok (p, v) s4 :=
  ⟨_, _, _, _, _, _, ⟨rfl, rfl, by decide, _, rfl, rfl⟩, rfl, rfl, rfl, rfl, rfl⟩

end M68k.Props
