import Verif.Lemmas.EndsBit
import Verif.Lemmas.EndsShift
import Verif.Props.Demo
/-
C12: bit instructions.

`IsBitOp` and `bitNumber` are in Spec/ClaimsBit.lean.
-/
namespace M68k.Props
open Spec Exec
variable {M : Type} [MemoryAccess M] {C : CpuDetails} {s s1 s2 s3 : St M} {op : U16} {isa : Isa} {k : Nat}

/-- A data register: the bit number counts modulo 32. -/
theorem C12_register (h : Ready s op s1) (hi : instr op = isa) (hisa : isa = .Btst ∨ isa = .Bchg ∨ isa = .Bclr ∨ isa = .Bset)
    (hm : regField op 3 = 0) (hk : bitNumber op s1 = .ok k s2) :
    ∃ r sr', IsBitOp isa (k % 32) (s.cpu.regs.d (regField op 0)) s.cpu.regs.sr r sr' ∧
      Completes C s (s2.withRegs fun g => { setDreg g (regField op 0) r with sr := sr' }) := by
  obtain ⟨o, ho⟩ : ∃ o, bitOpOf isa = some o := by rcases hisa with h | h | h | h <;> subst h <;> exact ⟨_, rfl⟩
  obtain ⟨a, b, c, d, hx⟩ := step_bit (C := C) h hi ho
  have hea : fetchEa (some .Byte) op s2 = .ok (.dn (regField op 0)) s2 := by unfold fetchEa; rw [hm]; rfl
  have hx := ends_bitInstr hk hea hx
  have hs := sameD_rel.trans (Ready.sameD h) (bitNumber_same hk)
  refine ⟨_, _, isBitOp_apply ho (k % 32) (Nat.mod_lt _ (by omega)) _ _, ?_⟩
  simp only [bitOp] at hx
  by_cases hot : o = .test
  · subst hot
    rw [bitOpAt_test] at hx
    have e : (s2.withRegs fun g => { setDreg g (regField op 0) (BitOp.test.apply (s.cpu.regs.d (regField op 0)) (k % 32)) with
        sr := { s.cpu.regs.sr with z := !(s.cpu.regs.d (regField op 0)).getLsbD (k % 32) } }) =
        s2.withRegs fun g => { g with sr := { g.sr with z := !(g.d (regField op 0)).getLsbD (k % 32) } } := by
      simp only [St.withRegs, setDreg, BitOp.apply, hs.1, hs.2]
      congr 3
      funext i
      split
      · rename_i hh; rw [hh]
      · rfl
    rw [e]
    have l : ∀ x : U32, low .Long x = x := fun x => low_long x
    have hr : (read .Long (.dn (regField op 0)) : Exec M _) s2 = .ok (.dreg (regField op 0), low .Long (s2.cpu.regs.d (regField op 0))) s2 := rfl
    rw [endsWith_bind_ok hr, l] at hx
    exact hx
  · rw [bitOpAt_rmw o hot] at hx
    have := ends_rmw_dn hx
    have l : ∀ x : U32, low .Long x = x := fun x => low_long x
    simp only [insertLow_long, l, hs.1, hs.2] at this
    exact this

/-- `BCHG D1,D0` with D1 = 63: bit 31 of D0. -/
example : ∃ s1 s2 k, Ready (Demo.st [0x0340] (Demo.regs [5, 63] [])) 0x0340 s1 ∧ instr 0x0340 = .Bchg ∧ regField 0x0340 3 = 0 ∧
    bitNumber 0x0340 s1 = .ok k s2 ∧ k % 32 = 31 :=
  ⟨_, _, _, ⟨rfl, rfl, by decide, _, rfl, rfl⟩, rfl, rfl, rfl, rfl⟩

/-- BCHG, BCLR, BSET of a byte in memory: the bit number counts modulo 8. -/
theorem C12_memory {p : Place} {v : Val .Byte} (h : Ready s op s1) (hi : instr op = isa) (hisa : isa = .Bchg ∨ isa = .Bclr ∨ isa = .Bset)
    (hm : regField op 3 ≠ 0) (hk : bitNumber op s1 = .ok k s2) (hv : operand .Byte op s2 = .ok (p, v) s3) :
    ∃ r sr', IsBitOp isa (k % 8) v s.cpu.regs.sr r sr' ∧
      EndsWith C s (writeAt .Byte p r (s3.withRegs fun g => { g with sr := sr' })) := by
  obtain ⟨o, ho, hot⟩ : ∃ o, bitOpOf isa = some o ∧ o ≠ .test := by
    rcases hisa with h | h | h <;> subst h <;> exact ⟨_, rfl, by decide⟩
  obtain ⟨a, b, c, d, hx⟩ := step_bit (C := C) h hi ho
  obtain ⟨m, s', hea, hr⟩ := operand_ok hv
  have hx := ends_bitInstr hk hea hx
  have hs := sameD_rel.trans (sameD_rel.trans (Ready.sameD h) (bitNumber_same hk)) ((Keeps.of_operand sameD_rel _ _).ok hv)
  rw [bitOp_other o k m (fetchMode_not_dn hea hm), bitOpAt_rmw o hot] at hx
  have := ends_rmw hr hx
  rw [hs.2] at this
  exact ⟨_, _, isBitOp_apply ho (k % 8) (Nat.mod_lt _ (by decide)) _ _, this⟩

/-- `BSET #9,(A0)`: bit 1. -/
example : ∃ s1 s2 s3 k p v, Ready (Demo.st [0x08D0, 9, 0xFD00] (Demo.regs [] [4])) 0x08D0 s1 ∧ instr 0x08D0 = .Bset ∧ regField 0x08D0 3 ≠ 0 ∧
    bitNumber 0x08D0 s1 = .ok k s2 ∧ k % 8 = 1 ∧ operand .Byte 0x08D0 s2 = .ok (p, v) s3 ∧ p = .mem 4 ∧ v = 0xFD :=
  ⟨_, _, _, _, _, _, ⟨rfl, rfl, by decide, _, rfl, rfl⟩, rfl, by decide, rfl, rfl, rfl, rfl, rfl⟩

/-- BTST of a byte in memory or immediate: nothing is written. -/
theorem C12_btst_memory {p : Place} {v : Val .Byte} (h : Ready s op s1) (hi : instr op = .Btst)
    (hm : regField op 3 ≠ 0) (hk : bitNumber op s1 = .ok k s2) (hv : operand .Byte op s2 = .ok (p, v) s3) :
    Completes C s (s3.withRegs fun g => { g with sr := { g.sr with z := !v.getLsbD (k % 8) } }) := by
  obtain ⟨a, b, c, d, hx⟩ := step_bit (C := C) h hi rfl
  obtain ⟨m, s', hea, hr⟩ := operand_ok hv
  have hx := ends_bitInstr hk hea hx
  rw [bitOp_other _ k m (fetchMode_not_dn hea hm), bitOpAt_test, endsWith_bind_ok hr] at hx
  exact hx

/-- `BTST D1,#0x0F` with D1 = 3. -/
example : ∃ s1 s2 s3 k p v, Ready (Demo.st [0x033C, 0x000F] (Demo.regs [0, 3] [])) 0x033C s1 ∧ instr 0x033C = .Btst ∧ regField 0x033C 3 ≠ 0 ∧
    bitNumber 0x033C s1 = .ok k s2 ∧ operand .Byte 0x033C s2 = .ok (p, v) s3 ∧ v.getLsbD (k % 8) = true :=
  ⟨_, _, _, _, _, _, ⟨rfl, rfl, by decide, _, rfl, rfl⟩, rfl, by decide, rfl, rfl, rfl⟩

/-- A memory operand that cannot be read raises the exception of the access; nothing else changes. -/
theorem C12_operand_error {e : U8} (h : Ready s op s1) (hi : instr op = isa) (hisa : isa = .Btst ∨ isa = .Bchg ∨ isa = .Bclr ∨ isa = .Bset)
    (hm : regField op 3 ≠ 0) (hk : bitNumber op s1 = .ok k s2) (hv : operand .Byte op s2 = .err e s3) : Raises C s e s3 := by
  obtain ⟨o, ho⟩ : ∃ o, bitOpOf isa = some o := by rcases hisa with h | h | h | h <;> subst h <;> exact ⟨_, rfl⟩
  obtain ⟨a, b, c, d, hx⟩ := step_bit (C := C) h hi ho
  rcases bind_err hv with hea | ⟨m, s', hea, hr⟩
  · exact absurd hea (fetchEa_noErr _ _ _ _ _)
  have hx := ends_bitInstr hk hea hx
  rw [bitOp_other _ k m (fetchMode_not_dn hea hm)] at hx
  by_cases hot : o = .test
  · subst hot
    rwa [bitOpAt_test, endsWith_bind_err hr] at hx
  · rw [bitOpAt_rmw o hot, rmw_err _ _ _ _ hr] at hx
    exact hx

/-- `BCLR #0,(A0)` with A0 outside of the memory. -/
example : ∃ s1 s2 s3 k, Ready (Demo.st [0x0890, 0] (Demo.regs [] [0x100])) 0x0890 s1 ∧ instr 0x0890 = .Bclr ∧ regField 0x0890 3 ≠ 0 ∧
    bitNumber 0x0890 s1 = .ok k s2 ∧ operand .Byte 0x0890 s2 = .err 2 s3 :=
  ⟨_, _, _, _, ⟨rfl, rfl, by decide, _, rfl, rfl⟩, rfl, by decide, rfl, rfl⟩

/-- Two BCHG of the same bit restore the operand. -/
theorem C12_bchg_twice {n i : Nat} {v r q : BitVec n} {sr sr' sr'' sr''' : StatusRegister}
    (h1 : IsBitOp .Bchg i v sr r sr') (h2 : IsBitOp .Bchg i r sr'' q sr''') : q = v := by
  apply BitVec.eq_of_getLsbD_eq
  intro j _
  by_cases hj : j = i
  · subst hj
    have a := h1.bit
    have b := h2.bit
    simp only [changedBit, Option.some.injEq] at a b
    rw [b, a, Bool.not_not]
  · rw [h2.others j hj, h1.others j hj]

/-- Bit 7 of 0x55. -/
example : IsBitOp .Bchg 7 (0x55 : BitVec 8) StatusRegister.default 0xD5 { StatusRegister.default with z := true } :=
  isBitOp_apply (o := .change) rfl 7 (by decide) (0x55 : BitVec 8) _

end M68k.Props
