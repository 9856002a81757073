import Verif.Lemmas.EndsShift
import Verif.Props.Demo
/-
C11: rotations.

`IsRol`, `IsRor`, `IsRoxl`, `IsRoxr` (Spec/ClaimsShift.lean) say where each bit goes and what the flags are.
In `Isa`, `Ror` and `Roxr` stand for the register rotations of both directions.
-/
namespace M68k.Props
open Spec Exec
variable {M : Type} [MemoryAccess M] {C : CpuDetails} {s s1 s2 s3 : St M} {op : U16} {sz : Size}

/-- ROL Dn. -/
theorem C11_rol (h : Ready s op s1) (hi : instr op = .Ror) (hdir : flag op 8 = true) (hsz : opSize op = some sz) :
    ∃ r sr', IsRol (countOf s op) (low sz (s.cpu.regs.d (regField op 0))) s.cpu.regs.sr r sr' ∧
      Completes C s (s1.withRegs fun g =>
        { setDreg g (regField op 0) (insertLow sz (g.d (regField op 0)) r) with sr := sr' }) := by
  have hx := step_ends C h hi (by decide) rfl
  simp only [Spec.exec] at hx
  have := ends_shift h hsz (fun n => if_pos hdir) hx
  exact ⟨_, _, isRol_rol _ _ _, this⟩

/-- `ROL.L D1,D0` with D1 = 33. -/
example : ∃ s1, Ready (Demo.st [0xE3B8] (Demo.regs [0x80000001, 33] [])) 0xE3B8 s1 ∧ instr 0xE3B8 = .Ror ∧
    flag 0xE3B8 8 = true ∧ opSize 0xE3B8 = some .Long :=
  ⟨_, ⟨rfl, rfl, by decide, _, rfl, rfl⟩, rfl, rfl, rfl⟩

/-- ROR Dn. -/
theorem C11_ror (h : Ready s op s1) (hi : instr op = .Ror) (hdir : flag op 8 = false) (hsz : opSize op = some sz) :
    ∃ r sr', IsRor (countOf s op) (low sz (s.cpu.regs.d (regField op 0))) s.cpu.regs.sr r sr' ∧
      Completes C s (s1.withRegs fun g =>
        { setDreg g (regField op 0) (insertLow sz (g.d (regField op 0)) r) with sr := sr' }) := by
  have hx := step_ends C h hi (by decide) rfl
  simp only [Spec.exec] at hx
  have := ends_shift h hsz (fun n => if_neg (by rw [hdir]; decide)) hx
  exact ⟨_, _, isRor_ror _ _ _, this⟩

/-- `ROR.B #8,D0`. -/
example : ∃ s1, Ready (Demo.st [0xE018] (Demo.regs [0x181] [])) 0xE018 s1 ∧ instr 0xE018 = .Ror ∧
    flag 0xE018 8 = false ∧ opSize 0xE018 = some .Byte :=
  ⟨_, ⟨rfl, rfl, by decide, _, rfl, rfl⟩, rfl, rfl, rfl⟩

/-- ROXL Dn. -/
theorem C11_roxl (h : Ready s op s1) (hi : instr op = .Roxr) (hdir : flag op 8 = true) (hsz : opSize op = some sz) :
    ∃ r sr', IsRoxl (countOf s op) (low sz (s.cpu.regs.d (regField op 0))) s.cpu.regs.sr r sr' ∧
      Completes C s (s1.withRegs fun g =>
        { setDreg g (regField op 0) (insertLow sz (g.d (regField op 0)) r) with sr := sr' }) := by
  have hx := step_ends C h hi (by decide) rfl
  simp only [Spec.exec] at hx
  have := ends_shift h hsz (fun n => if_pos hdir) hx
  exact ⟨_, _, isRoxl_roxl _ _ _, this⟩

/-- `ROXL.W D1,D0` with D1 = 17. -/
example : ∃ s1, Ready (Demo.st [0xE370] (Demo.regs [0x4000, 17] [])) 0xE370 s1 ∧ instr 0xE370 = .Roxr ∧
    flag 0xE370 8 = true ∧ opSize 0xE370 = some .Word :=
  ⟨_, ⟨rfl, rfl, by decide, _, rfl, rfl⟩, rfl, rfl, rfl⟩

/-- ROXR Dn. -/
theorem C11_roxr (h : Ready s op s1) (hi : instr op = .Roxr) (hdir : flag op 8 = false) (hsz : opSize op = some sz) :
    ∃ r sr', IsRoxr (countOf s op) (low sz (s.cpu.regs.d (regField op 0))) s.cpu.regs.sr r sr' ∧
      Completes C s (s1.withRegs fun g =>
        { setDreg g (regField op 0) (insertLow sz (g.d (regField op 0)) r) with sr := sr' }) := by
  have hx := step_ends C h hi (by decide) rfl
  simp only [Spec.exec] at hx
  have := ends_shift h hsz (fun n => if_neg (by rw [hdir]; decide)) hx
  exact ⟨_, _, isRoxr_roxr _ _ _, this⟩

/-- `ROXR.W D1,D0` with D1 = 0. -/
example : ∃ s1, Ready (Demo.st [0xE270] (Demo.regs [0x8001, 0] [])) 0xE270 s1 ∧ instr 0xE270 = .Roxr ∧
    flag 0xE270 8 = false ∧ opSize 0xE270 = some .Word :=
  ⟨_, ⟨rfl, rfl, by decide, _, rfl, rfl⟩, rfl, rfl, rfl⟩

/-- ROL of a word in memory, by one. -/
theorem C11_rol_memory {p : Place} {v : Val .Word} (h : Ready s op s1) (hi : instr op = .Rom) (hdir : flag op 8 = true)
    (hv : operand .Word op s1 = .ok (p, v) s2) :
    ∃ r sr', IsRol 1 v s.cpu.regs.sr r sr' ∧ EndsWith C s (writeAt .Word p r (s2.withRegs fun g => { g with sr := sr' })) := by
  have hx := step_ends C h hi (by decide) rfl
  simp only [Spec.exec] at hx
  have := ends_shiftMem h (if_pos hdir) hv hx
  exact ⟨_, _, isRol_rol _ _ _, this⟩

/-- `ROL (A0)`. -/
example : ∃ s1 s2 p v, Ready (Demo.st [0xE7D0, 0x8001] (Demo.regs [] [2])) 0xE7D0 s1 ∧ instr 0xE7D0 = .Rom ∧
    flag 0xE7D0 8 = true ∧ operand .Word 0xE7D0 s1 = .ok (p, v) s2 ∧ p = .mem 2 ∧ v = 0x8001 :=
  ⟨_, _, _, _, ⟨rfl, rfl, by decide, _, rfl, rfl⟩, rfl, rfl, rfl, rfl, rfl⟩

/-- ROR of a word in memory, by one. -/
theorem C11_ror_memory {p : Place} {v : Val .Word} (h : Ready s op s1) (hi : instr op = .Rom) (hdir : flag op 8 = false)
    (hv : operand .Word op s1 = .ok (p, v) s2) :
    ∃ r sr', IsRor 1 v s.cpu.regs.sr r sr' ∧ EndsWith C s (writeAt .Word p r (s2.withRegs fun g => { g with sr := sr' })) := by
  have hx := step_ends C h hi (by decide) rfl
  simp only [Spec.exec] at hx
  have := ends_shiftMem h (if_neg (by rw [hdir]; decide)) hv hx
  exact ⟨_, _, isRor_ror _ _ _, this⟩

/-- `ROR (A0)`. -/
example : ∃ s1 s2 p v, Ready (Demo.st [0xE6D0, 0x8001] (Demo.regs [] [2])) 0xE6D0 s1 ∧ instr 0xE6D0 = .Rom ∧
    flag 0xE6D0 8 = false ∧ operand .Word 0xE6D0 s1 = .ok (p, v) s2 ∧ p = .mem 2 ∧ v = 0x8001 :=
  ⟨_, _, _, _, ⟨rfl, rfl, by decide, _, rfl, rfl⟩, rfl, rfl, rfl, rfl, rfl⟩

/-- ROXL of a word in memory, by one. -/
theorem C11_roxl_memory {p : Place} {v : Val .Word} (h : Ready s op s1) (hi : instr op = .Roxm) (hdir : flag op 8 = true)
    (hv : operand .Word op s1 = .ok (p, v) s2) :
    ∃ r sr', IsRoxl 1 v s.cpu.regs.sr r sr' ∧ EndsWith C s (writeAt .Word p r (s2.withRegs fun g => { g with sr := sr' })) := by
  have hx := step_ends C h hi (by decide) rfl
  simp only [Spec.exec] at hx
  have := ends_shiftMem h (if_pos hdir) hv hx
  exact ⟨_, _, isRoxl_roxl _ _ _, this⟩

/-- `ROXL (A0)`. -/
example : ∃ s1 s2 p v, Ready (Demo.st [0xE5D0, 0x4001] (Demo.regs [] [2])) 0xE5D0 s1 ∧ instr 0xE5D0 = .Roxm ∧
    flag 0xE5D0 8 = true ∧ operand .Word 0xE5D0 s1 = .ok (p, v) s2 ∧ p = .mem 2 ∧ v = 0x4001 :=
  ⟨_, _, _, _, ⟨rfl, rfl, by decide, _, rfl, rfl⟩, rfl, rfl, rfl, rfl, rfl⟩

/-- ROXR of a word in memory, by one. -/
theorem C11_roxr_memory {p : Place} {v : Val .Word} (h : Ready s op s1) (hi : instr op = .Roxm) (hdir : flag op 8 = false)
    (hv : operand .Word op s1 = .ok (p, v) s2) :
    ∃ r sr', IsRoxr 1 v s.cpu.regs.sr r sr' ∧ EndsWith C s (writeAt .Word p r (s2.withRegs fun g => { g with sr := sr' })) := by
  have hx := step_ends C h hi (by decide) rfl
  simp only [Spec.exec] at hx
  have := ends_shiftMem h (if_neg (by rw [hdir]; decide)) hv hx
  exact ⟨_, _, isRoxr_roxr _ _ _, this⟩

/-- `ROXR (A0)`. -/
example : ∃ s1 s2 p v, Ready (Demo.st [0xE4D0, 0x8001] (Demo.regs [] [2])) 0xE4D0 s1 ∧ instr 0xE4D0 = .Roxm ∧
    flag 0xE4D0 8 = false ∧ operand .Word 0xE4D0 s1 = .ok (p, v) s2 ∧ p = .mem 2 ∧ v = 0x8001 :=
  ⟨_, _, _, _, ⟨rfl, rfl, by decide, _, rfl, rfl⟩, rfl, rfl, rfl, rfl, rfl⟩

/-- A memory operand that cannot be read raises the exception of the access; nothing else changes. -/
theorem C11_operand_error {e : U8} (h : Ready s op s1) (hi : instr op = .Rom ∨ instr op = .Roxm)
    (hv : operand .Word op s1 = .err e s2) : Raises C s e s2 := by
  rcases hi with hi | hi <;>
  · have hx := step_ends C h hi (by decide) rfl
    simp only [Spec.exec] at hx
    exact ends_shiftMem_err hv hx

/-- An odd address. -/
example : ∃ s1 s2, Ready (Demo.st [0xE6D0] (Demo.regs [0] [1])) 0xE6D0 s1 ∧ instr 0xE6D0 = .Rom ∧
    operand .Word 0xE6D0 s1 = .err 3 s2 :=
  ⟨_, _, ⟨rfl, rfl, by decide, _, rfl, rfl⟩, rfl, rfl⟩

/-- ROL by `k` undoes ROR by `k`. -/
theorem C11_rol_undoes_ror {n k : Nat} {d r q : BitVec n} {sr sr' sr'' : StatusRegister} (h1 : IsRor k d sr r sr') (h2 : IsRol k r sr' q sr'') :
    q = d := by
  apply BitVec.eq_of_getLsbD_eq
  intro j hj
  have hn : 0 < n := by omega
  have hm : k % n < n := Nat.mod_lt _ hn
  have e : ((j + (n - k % n)) % n + k) % n = j := by
    rw [Nat.mod_add_mod, show j + (n - k % n) + k = j + (k / n) * n + n by have := Nat.div_add_mod' k n; omega,
      Nat.add_mod_right, Nat.add_mul_mod_self_right, Nat.mod_eq_of_lt hj]
  have a := h2.bits ((j + (n - k % n)) % n) (Nat.mod_lt _ hn)
  have b := h1.bits ((j + (n - k % n)) % n) (Nat.mod_lt _ hn)
  rw [e] at a b
  rw [a, b]

/-- ROR by `k` undoes ROL by `k`. -/
theorem C11_ror_undoes_rol {n k : Nat} {d r q : BitVec n} {sr sr' sr'' : StatusRegister} (h1 : IsRol k d sr r sr') (h2 : IsRor k r sr' q sr'') :
    q = d := by
  apply BitVec.eq_of_getLsbD_eq
  intro j hj
  rw [h2.bits j hj, h1.bits j hj]

/-- Executing `ROR.sz #k,Dn` and then `ROL.sz #k,Dn` restores the register. -/
theorem C11_register_restored {op' : U16} {s1' : St M} (h : Ready s op s1) (hi : instr op = .Ror) (hdir : flag op 8 = false) (hsz : opSize op = some sz)
    (himm : flag op 5 = false) (hc : Completes C s s2)
    (h' : Ready s2 op' s1') (hi' : instr op' = .Ror) (hdir' : flag op' 8 = true) (hsz' : opSize op' = some sz)
    (himm' : flag op' 5 = false) (hk : regField op' 9 = regField op 9) (hn : regField op' 0 = regField op 0)
    (hc' : Completes C s2 s3) : s3.cpu.regs.d = s.cpu.regs.d := by
  obtain ⟨r, sr', hr, hx⟩ := C11_ror (C := C) h hi hdir hsz
  obtain ⟨q, sr'', hq, hx'⟩ := C11_rol (C := C) h' hi' hdir' hsz'
  obtain ⟨_, e1⟩ := hc
  obtain ⟨_, e2⟩ := hx
  rw [e1] at e2
  cases e2
  obtain ⟨_, e1⟩ := hc'
  obtain ⟨_, e2⟩ := hx'
  rw [e1] at e2
  cases e2
  have hd1 := (Ready.sameD h).1
  have hd2 := (Ready.sameD h').1
  have hcnt : countOf (s1.withRegs fun g => { setDreg g (regField op 0) (insertLow sz (g.d (regField op 0)) r) with sr := sr' }) op' = countOf s op := by
    simp only [countOf, himm, himm', hk, Bool.false_eq_true, if_false]
  rw [hcnt, hn] at hq
  have hlow : low sz ((s1.withRegs fun g => { setDreg g (regField op 0) (insertLow sz (g.d (regField op 0)) r) with sr := sr' }).cpu.regs.d (regField op 0)) = r := by
    simp only [St.withRegs, setDreg, if_true]
    exact low_insertLow _ _ _
  rw [hlow] at hq
  have := C11_rol_undoes_ror hr hq
  funext i
  simp only [St.withRegs, setDreg, hn, this]
  by_cases hii : i = regField op 0
  · subst hii
    simp only [if_true, hd2, St.withRegs, setDreg, hd1]
    rw [insertLow_insertLow, insertLow_low]
  · simp only [hii, if_false, hd2, St.withRegs, setDreg, hd1]

/-- `ROR.B #3,D0` then `ROL.B #3,D0`. -/
example : ∃ s1 s2 s1', Ready (Demo.st [0xE618, 0xE718] (Demo.regs [0x12345681] [])) 0xE618 s1 ∧ instr 0xE618 = .Ror ∧
    Completes mc68000 (Demo.st [0xE618, 0xE718] (Demo.regs [0x12345681] [])) s2 ∧ Ready s2 0xE718 s1' ∧ instr 0xE718 = .Ror ∧
    s2.cpu.regs.d 0 = 0x12345630 :=
  ⟨_, _, _, ⟨rfl, rfl, by decide, _, rfl, rfl⟩, rfl, ⟨_, rfl⟩, ⟨rfl, rfl, by decide, _, rfl, rfl⟩, rfl, rfl⟩

end M68k.Props
