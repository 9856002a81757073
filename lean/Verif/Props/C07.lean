import Verif.Lemmas.EndsMul
import Mathlib.Tactic.Linarith
import Mathlib.Tactic.NormNum
import Verif.Lemmas.Claims
import Verif.Props.Demo
/-
C07: MULU and MULS give the exact product.
-/
namespace M68k.Props
open Spec Exec
variable {M : Type} [MemoryAccess M] {C : CpuDetails} {s s1 s2 s3 : St M} {op : U16}

/-- MULU: the 32 bits of Dn become the product of its low word and the operand, unsigned. -/
theorem C07_mulu {p : Place} {v : Val .Word} (h : Ready s op s1) (hi : instr op = .Mulu)
    (hv : operand .Word op s1 = .ok (p, v) s2) :
    ∃ (prod : U32) (sr' : StatusRegister), prod.toNat = (low .Word (s.cpu.regs.d (regField op 9))).toNat * v.toNat ∧
      LogicCodes prod s.cpu.regs.sr sr' ∧
      Completes C s (s2.withRegs fun g => { setDreg g (regField op 9) prod with sr := sr' }) := by
  have hx := step_ends C h hi (by decide) rfl
  simp only [Spec.exec] at hx
  have := mul_ends h hv hx _ rfl
  refine ⟨_, _, ?_, logicCodes_logicFlags _ _, this⟩
  simp only [Bool.false_eq_true, if_false]
  rw [BitVec.toNat_ofNat, Nat.mod_eq_of_lt]
  have h1 : (low .Word (s.cpu.regs.d (regField op 9))).toNat < 2 ^ 16 := BitVec.isLt _
  have h2 : v.toNat < 2 ^ 16 := v.isLt
  have := Nat.mul_le_mul (Nat.le_of_lt_succ h1) (Nat.le_of_lt_succ h2)
  simp at this ⊢
  omega

/-- `MULU D1,D0` with 0xFFFF and 0x8000. -/
example : ∃ s1 s2 p v, Ready (Demo.st [0xC0C1] (Demo.regs [0x1234FFFF, 0x8000] [])) 0xC0C1 s1 ∧ instr 0xC0C1 = .Mulu ∧
    operand .Word 0xC0C1 s1 = .ok (p, v) s2 ∧ v = 0x8000 :=
  ⟨_, _, _, _, ⟨rfl, rfl, by decide, _, rfl, rfl⟩, rfl, rfl, rfl⟩

/-- MULS: as MULU with the two's complement values. -/
theorem C07_muls {p : Place} {v : Val .Word} (h : Ready s op s1) (hi : instr op = .Muls)
    (hv : operand .Word op s1 = .ok (p, v) s2) :
    ∃ (prod : U32) (sr' : StatusRegister), prod.toInt = (low .Word (s.cpu.regs.d (regField op 9))).toInt * v.toInt ∧
      LogicCodes prod s.cpu.regs.sr sr' ∧
      Completes C s (s2.withRegs fun g => { setDreg g (regField op 9) prod with sr := sr' }) := by
  have hx := step_ends C h hi (by decide) rfl
  simp only [Spec.exec] at hx
  have := mul_ends h hv hx _ rfl
  refine ⟨_, _, ?_, logicCodes_logicFlags _ _, this⟩
  simp only [if_true]
  rw [BitVec.toInt_ofInt, Int.bmod_eq_of_le]
  all_goals
    have h1 := BitVec.le_toInt (low .Word (s.cpu.regs.d (regField op 9)))
    have h2 := BitVec.toInt_lt (x := low .Word (s.cpu.regs.d (regField op 9)))
    have h3 := BitVec.le_toInt v
    have h4 := BitVec.toInt_lt (x := v)
    clear this
    generalize (low .Word (s.cpu.regs.d (regField op 9))).toInt = a at *
    generalize v.toInt = b at *
    simp only [width] at h1 h2 h3 h4
    norm_num at *
    nlinarith

/-- `MULS (A0),D0` with -32768 and -32768. -/
example : ∃ s1 s2 p v, Ready (Demo.st [0xC1D0, 0x8000] (Demo.regs [0x8000] [2])) 0xC1D0 s1 ∧ instr 0xC1D0 = .Muls ∧
    operand .Word 0xC1D0 s1 = .ok (p, v) s2 ∧ v.toInt = -32768 :=
  ⟨_, _, _, _, ⟨rfl, rfl, by decide, _, rfl, rfl⟩, rfl, rfl, rfl⟩

/-- MULU, MULS: an operand that cannot be read raises the exception of the access; nothing else changes. -/
theorem C07_operand_error {e : U8} (h : Ready s op s1) (hi : instr op = .Mulu ∨ instr op = .Muls)
    (hv : operand .Word op s1 = .err e s2) : Raises C s e s2 := by
  have key : ∀ {b t}, EndsWith C s (wordToDn C op (mul b) t s1) → Raises C s e s2 := by
    intro b t hx
    unfold wordToDn at hx
    rcases bind_err hv with hm | ⟨m, s', hm, hr⟩
    · rwa [endsWith_bind_err hm] at hx
    · rw [endsWith_bind_ok hm, endsWith_cost] at hx
      unfold mul at hx
      rwa [endsWith_bind_err hr] at hx
  rcases hi with hi | hi
  · have hx := step_ends C h hi (by decide) rfl
    simp only [Spec.exec] at hx
    exact key hx
  · have hx := step_ends C h hi (by decide) rfl
    simp only [Spec.exec] at hx
    exact key hx

/-- `MULU (A0),D0` with an odd A0. -/
example : ∃ s1 s2, Ready (Demo.st [0xC0D0] (Demo.regs [0] [1])) 0xC0D0 s1 ∧ instr 0xC0D0 = .Mulu ∧
    operand .Word 0xC0D0 s1 = .err 3 s2 :=
  ⟨_, _, ⟨rfl, rfl, by decide, _, rfl, rfl⟩, rfl, rfl⟩

end M68k.Props
