import Verif.Lemmas.NamedExec
import Verif.Props.C40
/-
C14: partial register writes. `dataBits` and `changesAddress` (Spec/Named.lean) give by opcode the low order bits of the data
registers and the address registers that the instruction names as destinations.
-/
namespace M68k.Props
open Spec Exec
variable {M : Type} [MemoryAccess M] {C : CpuDetails} {s s' s1 s2 : St M} {op : U16} {c : Nat} {e : Option U8}

/-- Whether it completes or ends with an exception, an instruction changes only the registers it names, and of the data
registers only as many low order bits as its size says. -/
theorem C14_registers (h : Ready s op s1) (hm : ¬ MovemMisfit op) (hr : interpreterException C s = .ok (c, e) s') :
    OnlyChanges (dataBits (instr op) op) (changesAddress (instr op) op) s.cpu.regs s'.cpu.regs := by
  have hw := within_exec (M := M) C op (instr op) s1
  rw [← decoder_of_not_misfit hm] at hw ⊢
  have h1 : OnlyChanges (dataBits (decoder op) op) (changesAddress (decoder op) op) s.cpu.regs s1.cpu.regs := by
    obtain ⟨-, -, -, m, -, rfl⟩ := h
    exact ⟨fun _ => rfl, fun _ _ => rfl, fun _ => ⟨rfl, rfl⟩⟩
  refine h1.trans ?_
  rcases step_result h hr with ⟨c', h4⟩ | ⟨v, h4⟩ <;> rw [h4] at hw <;> exact hw

/-- The high bytes of a data register that is the destination of a byte or word instruction are unchanged: byte size. -/
theorem C14_byte (h : Ready s op s1) (hm : ¬ MovemMisfit op) (hr : interpreterException C s = .ok (c, e) s') (n : Fin 8)
    (hb : dataBits (instr op) op n ≤ 8) : (s'.cpu.regs.d n).toNat / 256 = (s.cpu.regs.d n).toNat / 256 := by
  have := (C14_registers h hm hr).data n
  obtain ⟨k, hk⟩ := Nat.exists_eq_add_of_le hb
  have e8 : 256 = 2 ^ dataBits (instr op) op n * 2 ^ k := by rw [← Nat.pow_add, ← hk]
  rw [e8, ← Nat.div_div_eq_div_mul, ← Nat.div_div_eq_div_mul, this]

/-- The high word is unchanged: byte and word size. -/
theorem C14_word (h : Ready s op s1) (hm : ¬ MovemMisfit op) (hr : interpreterException C s = .ok (c, e) s') (n : Fin 8)
    (hb : dataBits (instr op) op n ≤ 16) : (s'.cpu.regs.d n).toNat / 65536 = (s.cpu.regs.d n).toNat / 65536 := by
  have := (C14_registers h hm hr).data n
  obtain ⟨k, hk⟩ := Nat.exists_eq_add_of_le hb
  have e8 : 65536 = 2 ^ dataBits (instr op) op n * 2 ^ k := by rw [← Nat.pow_add, ← hk]
  rw [e8, ← Nat.div_div_eq_div_mul, ← Nat.div_div_eq_div_mul, this]

/-- A data register that is not named is unchanged. -/
theorem C14_unnamed (h : Ready s op s1) (hm : ¬ MovemMisfit op) (hr : interpreterException C s = .ok (c, e) s') (n : Fin 8)
    (hb : dataBits (instr op) op n = 0) : s'.cpu.regs.d n = s.cpu.regs.d n := by
  have := (C14_registers h hm hr).data n
  rw [hb] at this
  apply BitVec.eq_of_toNat_eq
  simpa using this

/-- MOVEA writes the 32 bits of the register: a word is sign-extended. -/
theorem C14_movea {sz : Size} {p : Place} {v : Val sz} (h : Ready s op s1) (hi : instr op = .Movea)
    (hsz : op.toNat / 4096 % 4 = if sz = .Long then 2 else 3) (hb : sz ≠ .Byte) (hv : operand sz op s1 = .ok (p, v) s2) :
    Completes C s (s2.withRegs fun r => setAreg r (regField op 9) (signExt v)) ∧ (signExt v).toInt = v.toInt := by
  refine ⟨?_, ?_⟩
  · have hx := step_ends C h hi (by decide) rfl
    simp only [Spec.exec] at hx
    obtain ⟨m, s', hm, hr⟩ := operand_ok hv
    have hms : ∀ f : Size → Exec M Nat, moveSized op f = f sz := by
      intro f
      unfold moveSized
      cases sz with
      | Byte => exact absurd rfl hb
      | Word => simp at hsz; rw [hsz]; simp
      | Long => simp at hsz; rw [hsz]; simp
    rw [hms, endsWith_bind_ok hm, endsWith_cost] at hx
    have hre : (Spec.readExt sz m : Exec M U32) s' = .ok (signExt v) s2 := by
      unfold Spec.readExt
      rw [Exec.bind_apply, hr]
      rfl
    unfold movea at hx
    rw [endsWith_bind_ok hre] at hx
    exact hx
  · unfold signExt
    have h1 := v.toInt_lt
    have h2 := v.le_toInt
    rw [BitVec.toInt_ofInt]
    cases sz with
    | Byte => exact absurd rfl hb
    | Word => simp only [width] at *; rw [Int.bmod_eq_of_le] <;> omega
    | Long => simp only [width] at *; rw [Int.bmod_eq_of_le] <;> omega

/-- `ADD.B D0,D1`, `MOVE.W D0,D1` and `NEG.B $100` on a missing address. -/
example : (∃ s1 c e s', Ready (Demo.st [0xD200] (Demo.regs [0xFF, 0x123456FF] [])) 0xD200 s1 ∧ ¬ MovemMisfit 0xD200 ∧
      interpreterException mc68000 (Demo.st [0xD200] (Demo.regs [0xFF, 0x123456FF] [])) = .ok (c, e) s' ∧ dataBits (instr 0xD200) 0xD200 1 = 8 ∧
      dataBits (instr 0xD200) 0xD200 0 = 0 ∧ s'.cpu.regs.d 1 = 0x123456FE) ∧
    (∃ s1 c e s', Ready (Demo.st [0x3200] (Demo.regs [0xFF, 0x123456FF] [])) 0x3200 s1 ∧ ¬ MovemMisfit 0x3200 ∧
      interpreterException mc68000 (Demo.st [0x3200] (Demo.regs [0xFF, 0x123456FF] [])) = .ok (c, e) s' ∧ dataBits (instr 0x3200) 0x3200 1 = 16 ∧
      s'.cpu.regs.d 1 = 0x123400FF) ∧
    ∃ s1 c e s', Ready (Demo.st [0x4438, 0x100] (Demo.regs [] [])) 0x4438 s1 ∧ ¬ MovemMisfit 0x4438 ∧
      interpreterException mc68000 (Demo.st [0x4438, 0x100] (Demo.regs [] [])) = .ok (c, e) s' :=
  ⟨⟨_, _, _, _, ⟨rfl, rfl, by decide, _, rfl, rfl⟩, by unfold MovemMisfit; decide, rfl, rfl, rfl, rfl⟩,
   ⟨_, _, _, _, ⟨rfl, rfl, by decide, _, rfl, rfl⟩, by unfold MovemMisfit; decide, rfl, rfl, rfl⟩,
   _, _, _, _, ⟨rfl, rfl, by decide, _, rfl, rfl⟩, by unfold MovemMisfit; decide, rfl⟩
/-- `MOVEA.W #$8000,A0`. -/
example : ∃ s1 p v s2, Ready (Demo.st [0x307C, 0x8000] (Demo.regs [] [])) 0x307C s1 ∧ instr 0x307C = .Movea ∧
    operand .Word 0x307C s1 = .ok (p, v) s2 ∧ signExt v = 0xFFFF8000 :=
  ⟨_, _, _, _, ⟨rfl, rfl, by decide, _, rfl, rfl⟩, rfl, rfl, rfl⟩

end M68k.Props
