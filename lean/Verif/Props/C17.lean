import Verif.Spec.Effective
import Verif.Spec.Length
import Verif.Lemmas.Stack
import Verif.Props.DemoRam
/-
C17: effective addresses.
-/
namespace M68k.Props
open Spec Exec
set_option linter.unusedSectionVars false
variable {M : Type} [MemoryAccess M] {C : CpuDetails} {s s' s1 s2 : St M} {op : U16} {sz : Size} {a : U32} {mode reg : Fin 8}

theorem fetchLong_ok {hi lo : U16} {t : St M} (h1 : fetch s1 = .ok hi t) (h2 : fetch t = .ok lo s2) :
    fetchLong s1 = .ok (hi ++ lo) s2 := by
  unfold fetchLong
  rw [bind_eq h1, bind_eq h2]
  show Res.ok _ _ = _
  congr 1
  apply BitVec.eq_of_toNat_eq
  have := hi.isLt
  have := lo.isLt
  rw [BitVec.toNat_ofNat, BitVec.toNat_append, Nat.shiftLeft_eq, Nat.mod_eq_of_lt (by omega), ← Nat.shiftLeft_eq, ← Nat.shiftLeft_add_eq_or_of_lt (by omega), Nat.shiftLeft_eq]

theorem map_eq {α β : Type} {f : α → β} {x : Exec M α} {v : α} (h : x s = .ok v s') : (f <$> x) s = .ok (f v) s' := by
  rw [Exec.map_apply, h]

/-- The mode fetched for an effective address denotes the memory operand at this address, and its evaluation changes no register. -/
theorem effective_mode (h : Effective s1 mode reg a s2) (isz : Option Size) : ∃ md, fetchMode isz mode reg s1 = .ok md s2 ∧
    Mode.field md ≠ 3 ∧ Mode.field md ≠ 4 ∧ ∀ sz, place sz s2.cpu.regs md = (.mem a, s2.cpu.regs) := by
  cases h with
  | ind => exact ⟨_, rfl, fun h => (by cases h), fun h => (by cases h), fun _ => rfl⟩
  | disp hf =>
    refine ⟨.disp reg _, map_eq hf, fun h => (by cases h), fun h => (by cases h), fun _ => ?_⟩
    rw [fetch_regs hf]; rfl
  | index hf =>
    refine ⟨.index reg _, map_eq hf, fun h => (by cases h), fun h => (by cases h), fun _ => ?_⟩
    rw [fetch_regs hf]; rfl
  | absShort hf => exact ⟨.absW _, map_eq hf, fun h => (by cases h), fun h => (by cases h), fun _ => rfl⟩
  | absLong h1 h2 => exact ⟨.absL _, map_eq (fetchLong_ok h1 h2), fun h => (by cases h), fun h => (by cases h), fun _ => rfl⟩
  | pcDisp hf => exact ⟨.pcDisp s1.cpu.regs.pc _, map_eq hf, fun h => (by cases h), fun h => (by cases h), fun _ => rfl⟩
  | pcIndex hf =>
    refine ⟨.pcIndex s1.cpu.regs.pc _, map_eq hf, fun h => (by cases h), fun h => (by cases h), fun _ => ?_⟩
    rw [fetch_regs hf]; rfl

/-- LEA loads the effective address. -/
theorem C17_lea (h : Ready s op s1) (hi : instr op = .Lea) (he : Effective s1 (regField op 3) (regField op 0) a s2) :
    Completes C s (s2.withRegs fun r => setAreg r (regField op 9) a) := by
  obtain ⟨md, hm, h3, h4, hp⟩ := effective_mode he (some .Long)
  have hx := step_ends C h hi (by decide) rfl
  simp only [Spec.exec] at hx
  rw [endsWith_bind_ok (show fetchEa (some .Long) op s1 = _ from hm),
    endsWith_bind_ok (control_of h3 h4 (by rw [hp])), endsWith_cost] at hx
  exact hx

/-- JMP continues at the effective address. -/
theorem C17_jmp (h : Ready s op s1) (hi : instr op = .Jmp) (he : Effective s1 (regField op 3) (regField op 0) a s2) :
    Completes C s (s2.withRegs fun r => { r with pc := a }) := by
  obtain ⟨md, hm, h3, h4, hp⟩ := effective_mode he none
  have hx := step_ends C h hi (by decide) rfl
  simp only [Spec.exec] at hx
  rw [endsWith_bind_ok (show fetchEa none op s1 = _ from hm),
    endsWith_bind_ok (control_of h3 h4 (by rw [hp])), endsWith_cost] at hx
  exact hx

/-- PEA pushes the effective address. -/
theorem C17_pea [Ram M] (h : Ready s op s1) (hi : instr op = .Pea) (he : Effective s1 (regField op 3) (regField op 0) a s2)
    (hc : Completes C s s') :
    Holds (sz := .Long) s'.mem (areg s.cpu.regs 7 - 4) a ∧ SameExcept s.mem s'.mem (areg s.cpu.regs 7 - 4) 4 ∧
      s'.cpu.regs = setAreg s2.cpu.regs 7 (areg s.cpu.regs 7 - 4) := by
  obtain ⟨md, hm, h3, h4, hp⟩ := effective_mode he (some .Long)
  have hx := step_ends C h hi (by decide) rfl
  simp only [Spec.exec] at hx
  rw [endsWith_bind_ok (show fetchEa (some .Long) op s1 = _ from hm),
    endsWith_bind_ok (control_of h3 h4 (by rw [hp])), endsWith_cost] at hx
  have hs := fetchMode_pcOnly hm
  have ha : areg s2.cpu.regs 7 = areg s.cpu.regs 7 := by rw [hs.regs, h.regs]; rfl
  rcases endsWith_completes hx hc with ⟨_, hx⟩ | ⟨e, hx, ht⟩
  · obtain ⟨-, k2, k3, k4⟩ := push_done hx
    have e : Spec.step 7 .Long = 4 := rfl
    rw [e, ha] at k3 k4
    rw [hs.mem, h.ram] at k4
    refine ⟨k3, k4, ?_⟩
    rw [k2, ← ha]
    rfl
  · exact absurd ht (traced_ne (push_err hx))

/-- The operand of an instruction with this effective address is at this address. -/
theorem C17_operand (he : Effective s1 (regField op 3) (regField op 0) a s2) :
    operand sz op s1 = ((fun v => (Place.mem a, v)) <$> load sz a) s2 := by
  obtain ⟨md, hm, h3, h4, hp⟩ := effective_mode he (some sz)
  unfold operand
  rw [bind_eq (show fetchEa (some sz) op s1 = _ from hm)]
  unfold Spec.read
  have hl : locate sz md s2 = .ok (.mem a) s2 := by
    unfold locate
    rw [hp]
  rw [bind_eq hl]
  rfl

/-- The destination operand of an instruction with this effective address is written at this address. -/
theorem C17_destination {v : Val sz} (he : Effective s1 mode reg a s2) :
    (do let md ← fetchMode (some sz) mode reg; write sz md v : Exec M Unit) s1 = store sz a v s2 := by
  obtain ⟨md, hm, h3, h4, hp⟩ := effective_mode he (some sz)
  rw [bind_eq hm]
  unfold write
  have hl : locate sz md s2 = .ok (.mem a) s2 := by
    unfold locate
    rw [hp]
  rw [bind_eq hl]
  rfl

/-- `(An)+`: the operand is at An, which then moves by the operand size. -/
theorem C17_postinc {n : Fin 8} (hm : regField op 3 = 3) (hn : regField op 0 = n) :
    operand sz op s1 = ((fun v => (Place.mem (areg s1.cpu.regs n), v)) <$> load sz (areg s1.cpu.regs n))
      (s1.withRegs fun r => setAreg r n (areg r n + if n = 7 ∧ sz = .Byte then 2 else BitVec.ofNat 32 (bytes sz))) := by
  unfold operand fetchEa
  rw [hm, hn]
  rfl

/-- `-(An)`: An moves back by the operand size and the operand is there. -/
theorem C17_predec {n : Fin 8} (hm : regField op 3 = 4) (hn : regField op 0 = n) :
    operand sz op s1 = (fun a => ((fun v => (Place.mem a, v)) <$> load sz a) (s1.withRegs fun r => setAreg r n a))
      (areg s1.cpu.regs n - if n = 7 ∧ sz = .Byte then 2 else BitVec.ofNat 32 (bytes sz)) := by
  unfold operand fetchEa
  rw [hm, hn]
  rfl

/-- Every control addressing mode has an effective address, if its extension words can be read. -/
theorem C17_total {ws : List U16} (hm : mode = 2 ∨ mode = 5 ∨ mode = 6 ∨ (mode = 7 ∧ reg.val < 4))
    (hw : fetchWords (if mode = 2 then 0 else if mode = 7 ∧ reg = 1 then 2 else 1) s1 = .ok ws s2) : ∃ a, Effective s1 mode reg a s2 := by
  have one : ∀ {t : St M} {l : List U16} {u : St M}, fetchWords 1 t = .ok l u → ∃ w, fetch t = .ok w u := by
    intro t l u h
    obtain ⟨w, t', h1, h⟩ := bind_ok h
    obtain ⟨_, t'', h2, h⟩ := bind_ok h
    cases h2; cases h
    exact ⟨w, h1⟩
  rcases hm with rfl | rfl | rfl | ⟨rfl, hr⟩
  · cases hw
    exact ⟨_, .ind⟩
  · obtain ⟨w, hw⟩ := one hw
    exact ⟨_, .disp hw⟩
  · obtain ⟨w, hw⟩ := one hw
    exact ⟨_, .index hw⟩
  · match reg, hr with
    | 0, _ => obtain ⟨w, hw⟩ := one hw; exact ⟨_, .absShort hw⟩
    | 1, _ =>
      obtain ⟨w, t', h1, h⟩ := bind_ok hw
      obtain ⟨_, t'', h2, h⟩ := bind_ok h
      obtain ⟨w', h2⟩ := one h2
      cases h
      exact ⟨_, .absLong h1 h2⟩
    | 2, _ => obtain ⟨w, hw⟩ := one hw; exact ⟨_, .pcDisp hw⟩
    | 3, _ => obtain ⟨w, hw⟩ := one hw; exact ⟨_, .pcIndex hw⟩

/-- `LEA -2(A1,D2.W),A0` with A1 = 0, D2 = $FFFF: the address wraps. -/
example : ∃ s1 s2, Ready (Demo.st [0x41F1, 0x20FE] (Demo.regs [0, 0, 0xFFFF] [])) 0x41F1 s1 ∧ instr 0x41F1 = .Lea ∧
    Effective s1 (regField 0x41F1 3) (regField 0x41F1 0) 0xFFFFFFFD s2 :=
  ⟨_, _, ⟨rfl, rfl, by decide, _, rfl, rfl⟩, rfl, .index (n := 1) (x := 0x20FE) rfl⟩
/-- `JMP 4(PC,A2.L)` and `JMP $12345678`. -/
example : (∃ s1 s2, Ready (Demo.st [0x4EFB, 0xA804] (Demo.regs [] [0, 0, 0x10000])) 0x4EFB s1 ∧ instr 0x4EFB = .Jmp ∧
      Effective s1 (regField 0x4EFB 3) (regField 0x4EFB 0) 0x10006 s2) ∧
    ∃ s1 s2, Ready (Demo.st [0x4EF9, 0x1234, 0x5678] (Demo.regs [] [])) 0x4EF9 s1 ∧ instr 0x4EF9 = .Jmp ∧
      Effective s1 (regField 0x4EF9 3) (regField 0x4EF9 0) 0x12345678 s2 :=
  ⟨⟨_, _, ⟨rfl, rfl, by decide, _, rfl, rfl⟩, rfl, .pcIndex (x := 0xA804) rfl⟩,
   _, _, ⟨rfl, rfl, by decide, _, rfl, rfl⟩, rfl, .absLong (hi := 0x1234) (lo := 0x5678) rfl rfl⟩
/-- `PEA -4(A3)` completes. -/
example : ∃ s1 s2 s', Ready (Demo.ram [0x486B, 0xFFFC] 32 (Demo.regs [] [0, 0, 0, 0x1000, 0, 0, 0, 0x40])) 0x486B s1 ∧ instr 0x486B = .Pea ∧
    Effective s1 (regField 0x486B 3) (regField 0x486B 0) 0xFFC s2 ∧
    Completes mc68000 (Demo.ram [0x486B, 0xFFFC] 32 (Demo.regs [] [0, 0, 0, 0x1000, 0, 0, 0, 0x40])) s' :=
  ⟨_, _, _, ⟨rfl, rfl, by decide, _, rfl, rfl⟩, rfl, .disp (n := 3) (d := 0xFFFC) rfl, ⟨_, rfl⟩⟩

end M68k.Props
