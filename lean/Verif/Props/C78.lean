import Verif.Spec.Undo
import Verif.Lemmas.Chain
import Verif.Props.C03
import Verif.Props.C04
import Verif.Props.C09
import Verif.Props.C12
import Verif.Props.DemoRam
/-
C78: instructions that undo each other.

Spec/Undo.lean lists, by opcode, the instructions that add to, subtract from, exclusive-or, complement or negate their operand (`changeOf`), the size of
the operand and the source of the operation.
-/
set_option linter.unusedSectionVars false
namespace M68k.Props
open Spec Exec
variable {M : Type} [MemoryAccess M] [Ram M] {C : CpuDetails} {s s' s1 s2 s3 t t' t1 t2 t3 : St M} {op op' : U16} {sz : Size} {c c' : Change}

theorem isSum_value {n : Nat} {d x r : BitVec n} {sr sr' : StatusRegister} (h : IsSum d x sr r sr') : r = d + x := by
  apply BitVec.eq_of_toNat_eq
  rw [h.1.value, BitVec.toNat_add, Nat.add_zero]

theorem isDifference_value {n : Nat} {d x r : BitVec n} {sr sr' : StatusRegister} (h : IsDifference d x sr r sr') : r = d - x := by
  apply BitVec.eq_of_toNat_eq
  have hv := h.1.value
  have hd := d.isLt
  have hx := x.isLt
  rw [BitVec.toNat_sub]
  have e : (((2 ^ n - x.toNat + d.toNat) % 2 ^ n : Nat) : Int) = ((d.toNat : Int) - x.toNat - (0 : Nat)) % 2 ^ n := by
    have h1 : ((2 ^ n - x.toNat + d.toNat : Nat) : Int) = ((d.toNat : Int) - x.toNat) + (2 ^ n : Nat) := by omega
    rw [Int.natCast_emod, h1]
    have h2 : ((2 ^ n : Nat) : Int) = 2 ^ n := by norm_cast
    rw [h2, Int.add_emod_right]
    simp
  rw [← e] at hv
  exact_mod_cast hv

theorem bchg_value {n i : Nat} {v r : BitVec n} {sr sr' : StatusRegister} (hi : i < n) (h : IsBitOp .Bchg i v sr r sr') : r = v ^^^ BitVec.twoPow n i := by
  apply BitVec.eq_of_getLsbD_eq
  intro j hj
  rw [BitVec.getLsbD_xor, BitVec.getLsbD_twoPow]
  by_cases hji : j = i
  · subst hji
    have := h.bit
    simp only [changedBit, Option.some.injEq] at this
    rw [this]
    simp [hj]
  · rw [h.others j hji]
    have : ¬ i = j := fun e => hji e.symm
    simp [this]

/-- What the instruction does: the changed value is written to the place of the operand. -/
def Writes (sz : Size) (s3 : St M) (p : Place) (v : Val sz) (s' : St M) : Prop :=
  ∃ u u' : St M, u.mem = s3.mem ∧ u.cpu.regs.d = s3.cpu.regs.d ∧ writeAt sz p v u = .ok () u' ∧ s'.mem = u'.mem ∧ s'.cpu.regs.d = u'.cpu.regs.d

theorem writes_of_ends {p : Place} {v : Val sz} {sr' : StatusRegister} (h : EndsWith C s (writeAt sz p v (s3.withRegs fun g => { g with sr := sr' })))
    (hc : Completes C s s') : Writes sz s3 p v s' := by
  rcases endsWith_completes h hc with ⟨⟨⟩, hx⟩ | ⟨e, hx, ht⟩
  · exact ⟨s3.withRegs fun g => { g with sr := sr' }, s', rfl, rfl, hx, rfl, rfl⟩
  · exact absurd ht (traced_ne (Err23.writeAt _ _ _ _ _ _ hx))

theorem change_writes {x d : Val sz} {p : Place} (h : Ready s op s1) (hi : changeOf op = some c) (hsz : changeSize op = some sz)
    (hx : changeSource sz op s1 = .ok x s2) (hv : operand sz op s2 = .ok (p, d) s3) (hc : Completes C s s') :
    Writes sz s3 p (c.value x d) s' := by
  have hd := (Ready.sameD h).1
  unfold changeOf at hi
  unfold changeSize at hsz
  unfold changeSource at hx
  cases hI : instr op <;> simp only [hI] at hi hx hsz <;> try contradiction
  case Add =>
    split at hi
    · cases hi
      cases hx
      obtain ⟨r, sr', hr, he⟩ := C03_add_to_operand (C := C) h hI hsz (by assumption) hv
      rw [isSum_value hr] at he
      rw [← hd] at he
      exact writes_of_ends he hc
    · cases hi
  case Sub =>
    split at hi
    · cases hi
      cases hx
      obtain ⟨r, sr', hr, he⟩ := C04_sub_to_operand (C := C) h hI hsz (by assumption) hv
      rw [isDifference_value hr] at he
      rw [← hd] at he
      exact writes_of_ends he hc
    · cases hi
  case Addi =>
    cases hi
    obtain ⟨y, h1, rfl⟩ := map_ok hx
    obtain ⟨r, sr', hr, he⟩ := C03_addi (C := C) h hI hsz h1 hv
    rw [isSum_value hr] at he
    exact writes_of_ends he hc
  case Subi =>
    cases hi
    obtain ⟨y, h1, rfl⟩ := map_ok hx
    obtain ⟨r, sr', hr, he⟩ := C04_subi (C := C) h hI hsz h1 hv
    rw [isDifference_value hr] at he
    exact writes_of_ends he hc
  case Addq =>
    split at hi
    · cases hi
    · cases hi
      cases hx
      obtain ⟨r, sr', hr, he⟩ := C03_addq (C := C) h hI hsz (by assumption) hv
      rw [isSum_value hr] at he
      exact writes_of_ends he hc
  case Subq =>
    split at hi
    · cases hi
    · cases hi
      cases hx
      obtain ⟨r, sr', hr, he⟩ := C04_subq (C := C) h hI hsz (by assumption) hv
      rw [isDifference_value hr] at he
      exact writes_of_ends he hc
  case Eor =>
    cases hi
    cases hx
    obtain ⟨sr', hr, he⟩ := C09_eor (C := C) h hI hsz hv
    rw [← hd] at he
    exact writes_of_ends he hc
  case Eori =>
    cases hi
    obtain ⟨y, h1, rfl⟩ := map_ok hx
    obtain ⟨sr', hr, he⟩ := C09_eori (C := C) h hI hsz h1 hv
    exact writes_of_ends he hc
  case Neg =>
    cases hi
    cases hx
    obtain ⟨r, sr', hr, he⟩ := C04_neg (C := C) h hI hsz hv
    rw [isDifference_value hr, show (0 : Val sz) - d = - d from BitVec.zero_sub d] at he
    exact writes_of_ends he hc
  case Not =>
    cases hi
    cases hx
    obtain ⟨h1, h2, h3⟩ := C09_not (C := C) h hI hsz hv
    cases hw : writeAt sz p (~~~ d) s3 with
    | ok a u =>
      cases a
      obtain ⟨sr', -, hc'⟩ := h1 u hw
      rw [completes_unique hc hc']
      exact ⟨_, _, rfl, rfl, hw, rfl, rfl⟩
    | err v u =>
      have hr := h2 v u hw
      obtain ⟨k, hc⟩ := hc
      unfold Raises at hr
      rw [hr] at hc
      injection hc with hc1 hc2
      injection hc1 with hc3 hc4
      exact absurd hc4.symm (traced_ne (Err23.writeAt _ _ _ _ _ _ hw))
    | panic =>
      obtain ⟨k, hc⟩ := hc
      rw [h3 hw] at hc
      cases hc
  case Bchg =>
    cases hi
    obtain ⟨k, h1, rfl⟩ := map_ok hx
    by_cases hm : regField op 3 = 0
    · simp only [hm, if_true, Option.some.injEq] at hsz
      subst hsz
      obtain ⟨r, sr', hr, he⟩ := C12_register (C := C) h hI (.inr (.inl rfl)) hm h1
      have hea : fetchEa (some .Long) op s2 = .ok (.dn (regField op 0)) s2 := by unfold fetchEa; rw [hm]; rfl
      have hv' : operand .Long op s2 = .ok (.dreg (regField op 0), low .Long (s2.cpu.regs.d (regField op 0))) s2 := by
        unfold operand
        rw [bind_apply, hea]
        rfl
      rw [hv'] at hv
      cases hv
      have hb := bchg_value (by exact Nat.mod_lt _ (by decide)) hr
      have hs := sameD_rel.trans (Ready.sameD h) (bitNumber_same h1)
      rw [completes_unique hc he]
      refine ⟨_, _, rfl, rfl, rfl, rfl, ?_⟩
      simp only [St.withRegs, Change.value]
      rw [hb, hs.1, insertLow_long, show low .Long (s.cpu.regs.d (regField op 0)) = s.cpu.regs.d (regField op 0) from low_long _]
    · simp only [hm, if_true, if_false, Option.some.injEq] at hsz
      subst hsz
      obtain ⟨r, sr', hr, he⟩ := C12_memory (C := C) h hI (.inl rfl) hm h1 hv
      rw [bchg_value (Nat.mod_lt _ (by decide)) hr] at he
      exact writes_of_ends he hc

theorem value_inverse {n : Nat} (c : Change) (x d : BitVec n) : c.inverse.value x (c.value x d) = d := by
  cases c with
  | plus => exact BitVec.add_sub_cancel d x
  | minus => exact BitVec.sub_add_cancel d x
  | differ => show d ^^^ x ^^^ x = d; rw [BitVec.xor_assoc, BitVec.xor_self, BitVec.xor_zero]
  | complement => exact BitVec.not_not
  | negate => exact BitVec.neg_neg

theorem fetchImm_pcOnly {x : U32} (h : fetchImm sz s1 = .ok x s2) : PcOnly s1 s2 := by
  unfold fetchImm at h
  split at h
  · exact fetchLong_pcOnly h
  · obtain ⟨_, _, h1, h⟩ := bind_ok h
    cases h
    exact fetch_pcOnly h1

theorem bitNumber_pcOnly {k : Nat} (h : bitNumber op s1 = .ok k s2) : PcOnly s1 s2 := by
  unfold bitNumber at h
  split at h
  · cases h; exact .refl _
  · obtain ⟨_, h, _⟩ := map_ok h
    exact fetch_pcOnly h

theorem changeSource_pcOnly {x : Val sz} (h : changeSource sz op s1 = .ok x s2) : PcOnly s1 s2 := by
  unfold changeSource at h
  cases hI : instr op <;> simp only [hI] at h
  case Addi => obtain ⟨_, h, _⟩ := map_ok h; exact fetchImm_pcOnly h
  case Subi => obtain ⟨_, h, _⟩ := map_ok h; exact fetchImm_pcOnly h
  case Eori => obtain ⟨_, h, _⟩ := map_ok h; exact fetchImm_pcOnly h
  case Bchg => obtain ⟨_, h, _⟩ := map_ok h; exact bitNumber_pcOnly h
  all_goals (cases h; exact .refl _)

theorem source_pcOnly {x : Val sz} (h : changeSource sz op s1 = .ok x s2) : s2.mem = s1.mem ∧ s2.cpu.regs.d = s1.cpu.regs.d := by
  have := changeSource_pcOnly h
  exact ⟨this.mem, by rw [this.regs]⟩

theorem operand_done {d : Val sz} {p : Place} (h : operand sz op s2 = .ok (p, d) s3) :
    s3.mem = s2.mem ∧ s3.cpu.regs.d = s2.cpu.regs.d ∧ (∀ n, p = .dreg n → d = low sz (s2.cpu.regs.d n)) ∧ (∀ a, p = .mem a → Holds s2.mem a d) := by
  have hd := ((Keeps.of_operand sameD_rel _ _).ok h).1
  obtain ⟨m, u, h1, h2⟩ := operand_ok h
  obtain ⟨-, e2, e3⟩ := read_ram h2
  have hp := fetchEa_pcOnly h1
  have hm : s3.mem = s2.mem := by rw [e2]; exact hp.mem
  refine ⟨hm, hd, ?_, ?_⟩
  · rintro n rfl
    cases e3
    rw [← hd]
  · rintro a rfl
    rw [← hm]
    exact (load_done e3).2.2

/-- The operand is in a data register. -/
theorem change_register {x d : Val sz} {n : Fin 8} (h : Ready s op s1) (hi : changeOf op = some c) (hsz : changeSize op = some sz)
    (hx : changeSource sz op s1 = .ok x s2) (hv : operand sz op s2 = .ok (.dreg n, d) s3) (hc : Completes C s s') :
    s'.mem = s.mem ∧ s'.cpu.regs.d = (fun i => if i = n then insertLow sz (s.cpu.regs.d n) (c.value x (low sz (s.cpu.regs.d n))) else s.cpu.regs.d i) := by
  obtain ⟨u, u', hm, hd, hw, hm', hd'⟩ := change_writes h hi hsz hx hv hc
  obtain ⟨e1, e2⟩ := source_pcOnly hx
  obtain ⟨e3, e4, e5, -⟩ := operand_done hv
  have e0 := (Ready.sameD h).1
  have em := h.ram
  cases hw
  refine ⟨by rw [hm']; show u.mem = _; rw [hm, e3, e1, em], ?_⟩
  rw [hd']
  funext i
  show (setDreg u.cpu.regs n _).d i = _
  simp only [setDreg, hd, e4, e2, e0, e5 n rfl]

/-- The operand is in memory. -/
theorem change_memory {x d : Val sz} {a : U32} (h : Ready s op s1) (hi : changeOf op = some c) (hsz : changeSize op = some sz)
    (hx : changeSource sz op s1 = .ok x s2) (hv : operand sz op s2 = .ok (.mem a, d) s3) (hc : Completes C s s') :
    s'.cpu.regs.d = s.cpu.regs.d ∧ Holds s.mem a d ∧ Holds s'.mem a (c.value x d) ∧ SameExcept s.mem s'.mem a (bytes sz) := by
  obtain ⟨u, u', hm, hd, hw, hm', hd'⟩ := change_writes h hi hsz hx hv hc
  obtain ⟨e1, e2⟩ := source_pcOnly hx
  obtain ⟨e3, e4, -, e5⟩ := operand_done hv
  have e0 := (Ready.sameD h).1
  have em := h.ram
  obtain ⟨-, w1, w2, w3⟩ := store_done hw
  have hmem : u.mem = s.mem := by rw [hm, e3, e1, em]
  refine ⟨?_, ?_, ?_, ?_⟩
  · rw [hd', w1]; show u.cpu.regs.d = _; rw [hd, e4, e2, e0]
  · have := e5 a rfl; rwa [e1, em] at this
  · rw [hm']; exact w2
  · rw [hm', ← hmem]; exact w3

/-- An operand in a data register: the instruction, then anything that leaves the operand as it is, then the inverse instruction with the same source and the
same operand. The operand is what it was before the first; the second changes nothing else in the data registers and nothing in memory. -/
theorem C78_register {x d d' : Val sz} {n : Fin 8} (h : Ready s op s1) (hi : changeOf op = some c) (hsz : changeSize op = some sz)
    (hx : changeSource sz op s1 = .ok x s2) (hv : operand sz op s2 = .ok (.dreg n, d) s3) (hc : Completes C s s')
    (hkeep : low sz (t.cpu.regs.d n) = low sz (s'.cpu.regs.d n))
    (h' : Ready t op' t1) (hi' : changeOf op' = some c.inverse) (hsz' : changeSize op' = some sz)
    (hx' : changeSource sz op' t1 = .ok x t2) (hv' : operand sz op' t2 = .ok (.dreg n, d') t3) (hc' : Completes C t t') :
    t'.cpu.regs.d n = insertLow sz (t.cpu.regs.d n) (low sz (s.cpu.regs.d n)) ∧ (∀ i, i ≠ n → t'.cpu.regs.d i = t.cpu.regs.d i) ∧ t'.mem = t.mem := by
  obtain ⟨-, e⟩ := change_register h hi hsz hx hv hc
  obtain ⟨hm, e'⟩ := change_register h' hi' hsz' hx' hv' hc'
  refine ⟨?_, fun i hin => by rw [e']; exact if_neg hin, hm⟩
  rw [e']
  show (if n = n then _ else _) = _
  rw [if_pos rfl, hkeep, e]
  show insertLow sz _ (c.inverse.value x (low sz (if n = n then _ else _))) = _
  rw [if_pos rfl, low_insertLow, value_inverse]

/-- `ADDQ.B #3,D0`, then D7 and the upper part of D0 change, then `SUBI.B #3,D0`. -/
example : ∃ (s1 s2 s3 s' t1 t2 t3 t' : St WordSlice) (x d d' : Val .Byte), Ready (Demo.st [0x5600] (Demo.regs [0x123456FE] [])) 0x5600 s1 ∧
    changeOf 0x5600 = some .plus ∧ changeSize 0x5600 = some .Byte ∧ changeSource .Byte 0x5600 s1 = .ok x s2 ∧
    operand .Byte 0x5600 s2 = .ok (.dreg 0, d) s3 ∧ Completes mc68000 (Demo.st [0x5600] (Demo.regs [0x123456FE] [])) s' ∧
    low .Byte ((Demo.st [0x0400, 0x0003] (Demo.regs [0x9901, 0, 0, 0, 0, 0, 0, 7] [])).cpu.regs.d 0) = low .Byte (s'.cpu.regs.d 0) ∧
    Ready (Demo.st [0x0400, 0x0003] (Demo.regs [0x9901, 0, 0, 0, 0, 0, 0, 7] [])) 0x0400 t1 ∧
    changeOf 0x0400 = some (Change.inverse .plus) ∧ changeSize 0x0400 = some .Byte ∧ changeSource .Byte 0x0400 t1 = .ok x t2 ∧
    operand .Byte 0x0400 t2 = .ok (.dreg 0, d') t3 ∧
    Completes mc68000 (Demo.st [0x0400, 0x0003] (Demo.regs [0x9901, 0, 0, 0, 0, 0, 0, 7] [])) t' ∧ t'.cpu.regs.d 0 = 0x99FE :=
  ⟨_, _, _, _, _, _, _, _, _, _, _, ⟨rfl, rfl, by decide, _, rfl, rfl⟩, rfl, rfl, rfl, rfl, ⟨_, rfl⟩, rfl,
    ⟨rfl, rfl, by decide, _, rfl, rfl⟩, rfl, rfl, rfl, rfl, ⟨_, rfl⟩, rfl⟩

/-- One directly after the other: all data registers and the memory are as before. -/
theorem C78_register_twice {x d d' : Val sz} {n : Fin 8} (h : Ready s op s1) (hi : changeOf op = some c) (hsz : changeSize op = some sz)
    (hx : changeSource sz op s1 = .ok x s2) (hv : operand sz op s2 = .ok (.dreg n, d) s3) (hc : Completes C s t)
    (h' : Ready t op' t1) (hi' : changeOf op' = some c.inverse) (hsz' : changeSize op' = some sz)
    (hx' : changeSource sz op' t1 = .ok x t2) (hv' : operand sz op' t2 = .ok (.dreg n, d') t3) (hc' : Completes C t t') :
    t'.cpu.regs.d = s.cpu.regs.d ∧ t'.mem = s.mem := by
  obtain ⟨hm, e⟩ := change_register h hi hsz hx hv hc
  obtain ⟨f1, f2, f3⟩ := C78_register h hi hsz hx hv hc rfl h' hi' hsz' hx' hv' hc'
  refine ⟨?_, f3.trans hm⟩
  funext i
  by_cases hin : i = n
  · subst hin
    rw [f1, e]
    show insertLow sz (if i = i then _ else _) _ = _
    rw [if_pos rfl, insertLow_insertLow, insertLow_low]
  · rw [f2 i hin, e]
    exact if_neg hin

/-- `BCHG #4,D0` then `EORI.L #0x10,D0`. -/
example : ∃ (s1 s2 s3 t t1 t2 t3 t' : St WordSlice) (x d d' : Val .Long),
    Ready (Demo.st [0x0840, 0x0004, 0x0A80, 0x0000, 0x0010] (Demo.regs [0x12345678] [])) 0x0840 s1 ∧
    changeOf 0x0840 = some .differ ∧ changeSize 0x0840 = some .Long ∧ changeSource .Long 0x0840 s1 = .ok x s2 ∧
    operand .Long 0x0840 s2 = .ok (.dreg 0, d) s3 ∧
    Completes mc68000 (Demo.st [0x0840, 0x0004, 0x0A80, 0x0000, 0x0010] (Demo.regs [0x12345678] [])) t ∧ t.cpu.regs.d 0 = 0x12345668 ∧
    Ready t 0x0A80 t1 ∧ changeOf 0x0A80 = some (Change.inverse .differ) ∧ changeSize 0x0A80 = some .Long ∧ changeSource .Long 0x0A80 t1 = .ok x t2 ∧
    operand .Long 0x0A80 t2 = .ok (.dreg 0, d') t3 ∧ Completes mc68000 t t' :=
  ⟨_, _, _, _, _, _, _, _, _, _, _, ⟨rfl, rfl, by decide, _, rfl, rfl⟩, rfl, rfl, rfl, rfl, ⟨_, rfl⟩, rfl,
    ⟨rfl, rfl, by decide, _, rfl, rfl⟩, rfl, rfl, rfl, rfl, ⟨_, rfl⟩⟩

/-- An operand in memory: the instruction, then anything that leaves the bytes of the operand as they are, then the inverse instruction with the same source
and the same operand. The bytes of the operand are what they were before the first; the second changes no other byte and no data register. -/
theorem C78_memory {x d d' : Val sz} {a : U32} (h : Ready s op s1) (hi : changeOf op = some c) (hsz : changeSize op = some sz)
    (hx : changeSource sz op s1 = .ok x s2) (hv : operand sz op s2 = .ok (.mem a, d) s3) (hc : Completes C s s')
    (hkeep : ∀ k < bytes sz, Ram.peek t.mem (at_ a k) = Ram.peek s'.mem (at_ a k))
    (h' : Ready t op' t1) (hi' : changeOf op' = some c.inverse) (hsz' : changeSize op' = some sz)
    (hx' : changeSource sz op' t1 = .ok x t2) (hv' : operand sz op' t2 = .ok (.mem a, d') t3) (hc' : Completes C t t') :
    (∀ k < bytes sz, Ram.peek t'.mem (at_ a k) = Ram.peek s.mem (at_ a k)) ∧ SameExcept t.mem t'.mem a (bytes sz) ∧
      t'.cpu.regs.d = t.cpu.regs.d := by
  obtain ⟨-, e1, e2, e3⟩ := change_memory h hi hsz hx hv hc
  obtain ⟨f0, f1, f2, f3⟩ := change_memory h' hi' hsz' hx' hv' hc'
  have : d' = c.value x d := holds_unique f1 (e2.of_eq hkeep)
  rw [this, value_inverse] at f2
  exact ⟨fun k hk => by rw [f2 k hk, e1 k hk], f3, f0⟩

/-- `ADD.W D1,(A0)+` then `SUB.W D1,-(A0)`. -/
example : ∃ (s1 s2 s3 t t1 t2 t3 t' : St WordSlice) (x d d' : Val .Word),
    Ready (Demo.ram [0xD358, 0x9360] 4 (Demo.regs [0, 5] [6])) 0xD358 s1 ∧
    changeOf 0xD358 = some .plus ∧ changeSize 0xD358 = some .Word ∧ changeSource .Word 0xD358 s1 = .ok x s2 ∧
    operand .Word 0xD358 s2 = .ok (.mem 6, d) s3 ∧ Completes mc68000 (Demo.ram [0xD358, 0x9360] 4 (Demo.regs [0, 5] [6])) t ∧
    Ready t 0x9360 t1 ∧ changeOf 0x9360 = some (Change.inverse .plus) ∧ changeSize 0x9360 = some .Word ∧ changeSource .Word 0x9360 t1 = .ok x t2 ∧
    operand .Word 0x9360 t2 = .ok (.mem 6, d') t3 ∧ Completes mc68000 t t' :=
  ⟨_, _, _, _, _, _, _, _, _, _, _, ⟨rfl, rfl, by decide, _, rfl, rfl⟩, rfl, rfl, rfl, rfl, ⟨_, rfl⟩,
    ⟨rfl, rfl, by decide, _, rfl, rfl⟩, rfl, rfl, rfl, rfl, ⟨_, rfl⟩⟩

/-- One directly after the other: all data registers and all bytes of the memory are as before. -/
theorem C78_memory_twice {x d d' : Val sz} {a : U32} (h : Ready s op s1) (hi : changeOf op = some c) (hsz : changeSize op = some sz)
    (hx : changeSource sz op s1 = .ok x s2) (hv : operand sz op s2 = .ok (.mem a, d) s3) (hc : Completes C s t)
    (h' : Ready t op' t1) (hi' : changeOf op' = some c.inverse) (hsz' : changeSize op' = some sz)
    (hx' : changeSource sz op' t1 = .ok x t2) (hv' : operand sz op' t2 = .ok (.mem a, d') t3) (hc' : Completes C t t') :
    t'.cpu.regs.d = s.cpu.regs.d ∧ ∀ b, Ram.peek t'.mem b = Ram.peek s.mem b := by
  obtain ⟨e0, -, -, e3⟩ := change_memory h hi hsz hx hv hc
  obtain ⟨f1, f2, f3⟩ := C78_memory h hi hsz hx hv hc (fun _ _ => rfl) h' hi' hsz' hx' hv' hc'
  refine ⟨f3.trans e0, fun b => ?_⟩
  by_cases hb : ∀ k < bytes sz, b ≠ at_ a k
  · rw [f2 b hb, e3 b hb]
  · obtain ⟨k, hk⟩ := Classical.not_forall.1 hb
    obtain ⟨hk, he⟩ := Classical.not_imp.1 hk
    have he := Classical.not_not.1 he
    rw [he, f1 k hk]

/-- `NOT.B (A0)` twice. -/
example : ∃ (s1 s2 s3 t t1 t2 t3 t' : St WordSlice) (x d d' : Val .Byte),
    Ready (Demo.ram [0x4610, 0x4610] 4 (Demo.regs [] [7])) 0x4610 s1 ∧
    changeOf 0x4610 = some .complement ∧ changeSize 0x4610 = some .Byte ∧ changeSource .Byte 0x4610 s1 = .ok x s2 ∧
    operand .Byte 0x4610 s2 = .ok (.mem 7, d) s3 ∧ Completes mc68000 (Demo.ram [0x4610, 0x4610] 4 (Demo.regs [] [7])) t ∧
    Ready t 0x4610 t1 ∧ changeOf 0x4610 = some (Change.inverse .complement) ∧ changeSize 0x4610 = some .Byte ∧
    changeSource .Byte 0x4610 t1 = .ok x t2 ∧ operand .Byte 0x4610 t2 = .ok (.mem 7, d') t3 ∧ Completes mc68000 t t' :=
  ⟨_, _, _, _, _, _, _, _, _, _, _, ⟨rfl, rfl, by decide, _, rfl, rfl⟩, rfl, rfl, rfl, rfl, ⟨_, rfl⟩,
    ⟨rfl, rfl, by decide, _, rfl, rfl⟩, rfl, rfl, rfl, rfl, ⟨_, rfl⟩⟩

/-- `ADD ea,Dn` then `SUB ea',Dn` with the same value of the operand, or the reverse: Dn, and so all data registers, are as before. -/
theorem C78_to_register {x : Val sz} {p p' : Place} (h : Ready s op s1) (hi : instr op = .Add ∧ instr op' = .Sub ∨ instr op = .Sub ∧ instr op' = .Add)
    (hsz : opSize op = some sz) (hdir : flag op 8 = false) (hv : operand sz op s1 = .ok (p, x) s2) (hc : Completes C s t)
    (h' : Ready t op' t1) (hsz' : opSize op' = some sz) (hdir' : flag op' 8 = false) (hn : regField op' 9 = regField op 9)
    (hv' : operand sz op' t1 = .ok (p', x) t2) (hc' : Completes C t t') : t'.cpu.regs.d = s.cpu.regs.d := by
  have e1 : s2.cpu.regs.d = s.cpu.regs.d := ((sameD_rel.trans (Ready.sameD h) ((Keeps.of_operand sameD_rel _ _).ok hv))).1
  have e2 : t2.cpu.regs.d = t.cpu.regs.d := ((sameD_rel.trans (Ready.sameD h') ((Keeps.of_operand sameD_rel _ _).ok hv'))).1
  have key : ∀ r q : Val sz, t.cpu.regs.d = (setDreg s2.cpu.regs (regField op 9) (insertLow sz (s2.cpu.regs.d (regField op 9)) r)).d →
      t'.cpu.regs.d = (setDreg t2.cpu.regs (regField op' 9) (insertLow sz (t2.cpu.regs.d (regField op' 9)) q)).d →
      (low sz (t.cpu.regs.d (regField op 9)) = r → q = low sz (s.cpu.regs.d (regField op 9))) → t'.cpu.regs.d = s.cpu.regs.d := by
    intro r q f f' g
    rw [hn] at f'
    simp only [setDreg, e1] at f
    simp only [setDreg, e2] at f'
    have hr : low sz (t.cpu.regs.d (regField op 9)) = r := by
      rw [f]
      show low sz (if regField op 9 = regField op 9 then _ else _) = r
      rw [if_pos rfl, low_insertLow]
    have g := g hr
    subst g
    rw [f']
    funext i
    show (if i = regField op 9 then _ else _) = _
    by_cases hin : i = regField op 9
    · subst hin
      rw [if_pos rfl, f]
      show insertLow sz (if regField op 9 = regField op 9 then _ else _) _ = _
      rw [if_pos rfl, insertLow_insertLow, insertLow_low]
    · rw [if_neg hin, f]
      exact if_neg hin
  rcases hi with ⟨hi, hi'⟩ | ⟨hi, hi'⟩
  · obtain ⟨r, sr, hr, hx⟩ := C03_add_to_register (C := C) h hi hsz hdir hv
    obtain ⟨q, sr', hq, hx'⟩ := C04_sub_to_register (C := C) h' hi' hsz' hdir' hv'
    refine key r q (by rw [completes_unique hc hx]; rfl) (by rw [completes_unique hc' hx']; rfl) fun hl => ?_
    rw [isDifference_value hq, hn, hl, isSum_value hr]
    exact BitVec.add_sub_cancel _ x
  · obtain ⟨r, sr, hr, hx⟩ := C04_sub_to_register (C := C) h hi hsz hdir hv
    obtain ⟨q, sr', hq, hx'⟩ := C03_add_to_register (C := C) h' hi' hsz' hdir' hv'
    refine key r q (by rw [completes_unique hc hx]; rfl) (by rw [completes_unique hc' hx']; rfl) fun hl => ?_
    rw [isSum_value hq, hn, hl, isDifference_value hr]
    exact BitVec.sub_add_cancel _ x

/-- `SUB.W D1,D0` then `ADD.W D1,D0`. -/
example : ∃ (s1 s2 t t1 t2 t' : St WordSlice) (x : Val .Word) (p p' : Place),
    Ready (Demo.st [0x9041, 0xD041] (Demo.regs [0x12340001, 5] [])) 0x9041 s1 ∧ instr 0x9041 = .Sub ∧ instr 0xD041 = .Add ∧
    opSize 0x9041 = some .Word ∧ flag 0x9041 8 = false ∧ operand .Word 0x9041 s1 = .ok (p, x) s2 ∧
    Completes mc68000 (Demo.st [0x9041, 0xD041] (Demo.regs [0x12340001, 5] [])) t ∧ t.cpu.regs.d 0 = 0x1234FFFC ∧
    Ready t 0xD041 t1 ∧ opSize 0xD041 = some .Word ∧ flag 0xD041 8 = false ∧ regField 0xD041 9 = regField 0x9041 9 ∧
    operand .Word 0xD041 t1 = .ok (p', x) t2 ∧ Completes mc68000 t t' :=
  ⟨_, _, _, _, _, _, _, _, _, ⟨rfl, rfl, by decide, _, rfl, rfl⟩, rfl, rfl, rfl, rfl, rfl, ⟨_, rfl⟩, rfl,
    ⟨rfl, rfl, by decide, _, rfl, rfl⟩, rfl, rfl, rfl, rfl, ⟨_, rfl⟩⟩

/-- `ADDQ #k,An` then `SUBQ #k,An`, or the reverse, whatever their sizes: all registers but the program counter are as before. -/
theorem C78_quick_address {sz' : Size} (h : Ready s op s1) (hi : instr op = .Addq ∧ instr op' = .Subq ∨ instr op = .Subq ∧ instr op' = .Addq)
    (hsz : opSize op = some sz) (hm : regField op 3 = 1) (hc : Completes C s t)
    (h' : Ready t op' t1) (hsz' : opSize op' = some sz') (hm' : regField op' 3 = 1) (hn : regField op' 0 = regField op 0) (hk : regField op' 9 = regField op 9)
    (hc' : Completes C t t') : t'.cpu.regs = { s.cpu.regs with pc := s.cpu.regs.pc + 4 } := by
  have key : ∀ (r : Registers) (n : Fin 8) (x y : U32) (p q : U32), y = areg r n →
      setAreg { setAreg { r with pc := p } n x with pc := q } n y = { r with pc := q } := by
    rintro r n x y p q rfl
    unfold setAreg areg
    by_cases h7 : n.val < 7
    · simp only [h7, dif_pos]
      congr 1
      funext i
      split
      · rename_i e; rw [e]
      · rfl
    · simp only [h7, dif_neg, not_false_eq_true]
      cases hs : r.sr.s <;> simp [hs]
  have fin : ∀ (f g : U32 → U32), (∀ x, g (f x) = x) →
      t = s1.withRegs (fun r => setAreg r (regField op 0) (f (areg r (regField op 0)))) →
      t' = t1.withRegs (fun r => setAreg r (regField op 0) (g (areg r (regField op 0)))) →
      t'.cpu.regs = { s.cpu.regs with pc := s.cpu.regs.pc + 4 } := by
    intro f g hfg ht ht'
    have e : t.cpu.regs = setAreg { s.cpu.regs with pc := s.cpu.regs.pc + 2 } (regField op 0) (f (areg s.cpu.regs (regField op 0))) := by
      rw [ht]
      show setAreg s1.cpu.regs _ _ = _
      rw [h.regs]
      rfl
    have hpc : t.cpu.regs.pc = s.cpu.regs.pc + 2 := by rw [e, setAreg_pc]
    have ha : areg t.cpu.regs (regField op 0) = f (areg s.cpu.regs (regField op 0)) := by rw [e, M68k.areg_setAreg, if_pos rfl]
    rw [ht']
    show setAreg t1.cpu.regs _ (g (areg t1.cpu.regs _)) = _
    rw [h'.regs]
    show setAreg _ _ (g (areg t.cpu.regs _)) = _
    rw [ha, hfg, hpc, e, key _ _ _ _ _ _ rfl, BitVec.add_assoc]
    rfl
  rcases hi with ⟨hi, hi'⟩ | ⟨hi, hi'⟩
  · have hx := C03_addq_address (C := C) h hi hsz hm
    have hx' := C04_subq_address (C := C) h' hi' hsz' hm'
    rw [hn, hk] at hx'
    exact fin (fun x => x + _) (fun x => x - _) (fun x => BitVec.add_sub_cancel x _) (completes_unique hc hx) (completes_unique hc' hx')
  · have hx := C04_subq_address (C := C) h hi hsz hm
    have hx' := C03_addq_address (C := C) h' hi' hsz' hm'
    rw [hn, hk] at hx'
    exact fin (fun x => x - _) (fun x => x + _) (fun x => BitVec.sub_add_cancel x _) (completes_unique hc hx) (completes_unique hc' hx')

/-- `ADDQ.W #8,A7` then `SUBQ.L #8,A7`. -/
example : ∃ (s1 t t1 t' : St WordSlice),
    Ready (Demo.st [0x504F, 0x518F] (Demo.regs [] [0, 0, 0, 0, 0, 0, 0, 0xFFFFFFFE])) 0x504F s1 ∧ instr 0x504F = .Addq ∧ instr 0x518F = .Subq ∧
    opSize 0x504F = some .Word ∧ regField 0x504F 3 = 1 ∧ Completes mc68000 (Demo.st [0x504F, 0x518F] (Demo.regs [] [0, 0, 0, 0, 0, 0, 0, 0xFFFFFFFE])) t ∧
    t.cpu.regs.usp = 6 ∧ Ready t 0x518F t1 ∧ opSize 0x518F = some .Long ∧ regField 0x518F 3 = 1 ∧ regField 0x518F 0 = regField 0x504F 0 ∧
    regField 0x518F 9 = regField 0x504F 9 ∧ Completes mc68000 t t' :=
  ⟨_, _, _, _, ⟨rfl, rfl, by decide, _, rfl, rfl⟩, rfl, rfl, rfl, rfl, ⟨_, rfl⟩, rfl,
    ⟨rfl, rfl, by decide, _, rfl, rfl⟩, rfl, rfl, rfl, rfl, ⟨_, rfl⟩⟩

/-- `ADDA ea,An` then `SUBA ea',An` with operands of the same value (their sizes may differ), or the reverse, when the evaluation of the operands does not
move An: An is as before. -/
theorem C78_address {p p' : Place} {v : Val (sizeBit op 8)} {v' : Val (sizeBit op' 8)} (h : Ready s op s1)
    (hi : instr op = .Adda ∧ instr op' = .Suba ∨ instr op = .Suba ∧ instr op' = .Adda)
    (hv : operand (sizeBit op 8) op s1 = .ok (p, v) s2) (hs : areg s2.cpu.regs (regField op 9) = areg s.cpu.regs (regField op 9)) (hc : Completes C s t)
    (h' : Ready t op' t1) (hv' : operand (sizeBit op' 8) op' t1 = .ok (p', v') t2)
    (ht : areg t2.cpu.regs (regField op' 9) = areg t.cpu.regs (regField op' 9)) (hc' : Completes C t t')
    (hn : regField op' 9 = regField op 9) (he : v'.toInt = v.toInt) :
    areg t'.cpu.regs (regField op 9) = areg s.cpu.regs (regField op 9) := by
  rcases hi with ⟨hi, hi'⟩ | ⟨hi, hi'⟩
  · have hx := C03_adda (C := C) h hi hv
    have hx' := C04_suba (C := C) h' hi' hv'
    have e : areg t.cpu.regs (regField op 9) = areg s.cpu.regs (regField op 9) + BitVec.ofInt 32 v.toInt := by
      rw [completes_unique hc hx, ← hs]
      show areg (setAreg _ _ _) _ = _
      rw [M68k.areg_setAreg, if_pos rfl]
    rw [completes_unique hc' hx']
    show areg (setAreg _ _ _) _ = _
    rw [M68k.areg_setAreg, if_pos hn.symm, ht, hn, e, he]
    exact BitVec.add_sub_cancel _ _
  · have hx := C04_suba (C := C) h hi hv
    have hx' := C03_adda (C := C) h' hi' hv'
    have e : areg t.cpu.regs (regField op 9) = areg s.cpu.regs (regField op 9) - BitVec.ofInt 32 v.toInt := by
      rw [completes_unique hc hx, ← hs]
      show areg (setAreg _ _ _) _ = _
      rw [M68k.areg_setAreg, if_pos rfl]
    rw [completes_unique hc' hx']
    show areg (setAreg _ _ _) _ = _
    rw [M68k.areg_setAreg, if_pos hn.symm, ht, hn, e, he]
    exact BitVec.sub_add_cancel _ _

/-- `ADDA.W D0,A1` with D0 = -4 then `SUBA.L #-4,A1`. -/
example : ∃ (s1 s2 t t1 t2 t' : St WordSlice) (p p' : Place) (v : Val (sizeBit 0xD2C0 8)) (v' : Val (sizeBit 0x93FC 8)),
    Ready (Demo.st [0xD2C0, 0x93FC, 0xFFFF, 0xFFFC] (Demo.regs [0xFFFC] [0, 2])) 0xD2C0 s1 ∧ instr 0xD2C0 = .Adda ∧ instr 0x93FC = .Suba ∧
    operand (sizeBit 0xD2C0 8) 0xD2C0 s1 = .ok (p, v) s2 ∧ areg s2.cpu.regs (regField 0xD2C0 9) = 2 ∧
    Completes mc68000 (Demo.st [0xD2C0, 0x93FC, 0xFFFF, 0xFFFC] (Demo.regs [0xFFFC] [0, 2])) t ∧ areg t.cpu.regs 1 = 0xFFFFFFFE ∧
    Ready t 0x93FC t1 ∧ operand (sizeBit 0x93FC 8) 0x93FC t1 = .ok (p', v') t2 ∧ areg t2.cpu.regs (regField 0x93FC 9) = areg t.cpu.regs (regField 0x93FC 9) ∧
    Completes mc68000 t t' ∧ regField 0x93FC 9 = regField 0xD2C0 9 ∧ v'.toInt = v.toInt :=
  ⟨_, _, _, _, _, _, _, _, _, _, ⟨rfl, rfl, by decide, _, rfl, rfl⟩, rfl, rfl, rfl, rfl, ⟨_, rfl⟩, rfl,
    ⟨rfl, rfl, by decide, _, rfl, rfl⟩, rfl, rfl, ⟨_, rfl⟩, rfl, rfl⟩

end M68k.Props
