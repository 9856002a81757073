import Verif.Lemmas.MovemRam
import Verif.Lemmas.Step
import Verif.Spec.Claims
import Verif.Props.DemoRam
/-
C19: MOVEP transfers bytes to and from every second address.
-/
namespace M68k.Props
open Spec Exec
set_option linter.unusedSectionVars false
variable {M : Type} [MemoryAccess M] [Ram M] {C : CpuDetails} {s s' s1 s2 t t' t1 t2 : St M} {op op' d d' : U16} {sz : Size} {a : U32} {n : Fin 8}

/-- Bit 6 of MOVEP: word or long. -/
def movepSize (op : U16) : Size := if op.toNat / 2 ^ 6 % 2 = 1 then .Long else .Word
theorem movepSize_eq : movepSize op = sizeBit op 6 := by
  unfold movepSize sizeBit flag
  by_cases h : op.toNat / 2 ^ 6 % 2 = 1 <;> simp [h]

/-- Every second byte from `a` on holds the operand, most significant byte first. -/
def HoldsSpread {sz : Size} (m : M) (a : U32) (v : Val sz) : Prop := ∀ k < bytes sz, Ram.peek m (at_ a (2 * k)) = some (beByte v k)

theorem beByte_byte (b : U8) : beByte (sz := .Byte) b 0 = b := by
  unfold beByte
  apply BitVec.eq_of_toNat_eq
  have : b.toNat < 256 := b.isLt
  simp [bytes]

theorem beByte_low (x : U32) (k : Nat) (hk : k < bytes sz) : beByte (low sz x) k = byteOf x (bytes sz - 1 - k) := by
  have := x.isLt
  apply BitVec.eq_of_toNat_eq
  unfold beByte byteOf low
  cases sz with
  | Byte => simp [bytes, width] at *
  | Word =>
    obtain rfl | rfl : k = 0 ∨ k = 1 := by simp [bytes] at hk; omega
    · simp [bytes, width]; omega
    · simp [bytes, width]
  | Long =>
    obtain rfl | rfl | rfl | rfl : k = 0 ∨ k = 1 ∨ k = 2 ∨ k = 3 := by simp [bytes] at hk; omega
    all_goals (simp [bytes, width])

theorem two_at (a : U32) : a + 2 = at_ a 2 := rfl

theorem movepStores_done {k : Nat} (hk : k ≤ 4) (h : movepStores n k a s = .ok () s') :
    s' = { s with mem := s'.mem } ∧ (∀ j < k, Ram.peek s'.mem (at_ a (2 * j)) = some (byteOf (s.cpu.regs.d n) (k - 1 - j))) ∧
    ∀ b, (∀ j < k, b ≠ at_ a (2 * j)) → Ram.peek s'.mem b = Ram.peek s.mem b := by
  induction k generalizing a s with
  | zero => cases h; exact ⟨rfl, fun j hj => absurd hj (Nat.not_lt_zero j), fun _ _ => rfl⟩
  | succ k ih =>
    unfold movepStores at h
    rw [getR_bind_apply] at h
    obtain ⟨_, u, h1, h2⟩ := bind_ok h
    obtain ⟨-, e1, e2, e3⟩ := store_done h1
    obtain ⟨f1, f2, f3⟩ := ih (by omega) h2
    have hc : u.cpu = s.cpu := by rw [e1]
    rw [hc] at f2
    refine ⟨by rw [f1, e1], fun j hj => ?_, fun b hb => ?_⟩
    · cases j with
      | zero =>
        rw [f3 _ fun j hj heq => ?_]
        · have := e2 0 (by decide)
          rw [beByte_byte] at this
          exact this
        · rw [two_at, at_add] at heq
          have := at_inj (by omega) (by omega) heq
          omega
      | succ j =>
        have := f2 j (by omega)
        rw [two_at, at_add, show 2 + 2 * j = 2 * (j + 1) by omega] at this
        rw [this, show k + 1 - 1 - (j + 1) = k - 1 - j by omega]
    · rw [f3 b fun j hj => ?_, e3 b fun j hj => ?_]
      · obtain rfl : j = 0 := by simp [bytes] at hj; exact hj
        exact hb 0 (by omega)
      · rw [two_at, at_add, show 2 + 2 * j = 2 * (j + 1) by omega]
        exact hb _ (by omega)

theorem movepStores_present [Writable M] {k : Nat} (hp : ∀ j < k, (Ram.peek s.mem (at_ a (2 * j))).isSome) : ∃ s', movepStores n k a s = .ok () s' := by
  induction k generalizing a s with
  | zero => exact ⟨s, rfl⟩
  | succ k ih =>
    obtain ⟨m', hm⟩ := store_present (M := M) (s := s) (sz := .Byte) (a := a) (v := byteOf (s.cpu.regs.d n) k) (fun h => h.1 rfl)
      (fun j hj => by obtain rfl : j = 0 := by simp [bytes] at hj; exact hj
                      exact hp 0 (by omega))
    have hsame := store_samePresent hm
    obtain ⟨u, hu⟩ := ih (s := { s with mem := m' }) (a := a + 2) fun j hj => by
      rw [two_at, at_add, show 2 + 2 * j = 2 * (j + 1) by omega, hsame]
      exact hp _ (by omega)
    refine ⟨u, ?_⟩
    unfold movepStores
    rw [getR_bind_apply, bind_eq hm]
    exact hu

/-- What the loads make of a register, `b i` being the new byte `i`. -/
def setBytes (b : Nat → U8) : Nat → U32 → U32
  | 0, x => x
  | k + 1, x => setBytes b k (setByteOf x k (b k))

theorem setDreg_setDreg (r : Registers) (x y : U32) : setDreg (setDreg r n x) n y = setDreg r n y := by
  unfold setDreg
  congr 1
  funext j
  dsimp only
  split <;> rfl
theorem setDreg_d (r : Registers) (x : U32) : (setDreg r n x).d n = x := by simp [setDreg]
theorem setDreg_self (r : Registers) : setDreg r n (r.d n) = r := by
  unfold setDreg
  have : (fun j => if j = n then r.d n else r.d j) = r.d := by funext j; split <;> simp_all
  rw [this]

theorem movepLoads_run {k : Nat} {b : Nat → U8} (hb : ∀ j < k, Ram.peek s.mem (at_ a (2 * j)) = some (b (k - 1 - j))) :
    movepLoads n k a s = .ok () (s.withRegs fun r => setDreg r n (setBytes b k (r.d n))) := by
  induction k generalizing a s with
  | zero =>
    show Res.ok () s = _
    unfold St.withRegs setBytes
    dsimp only
    rw [setDreg_self]
  | succ k ih =>
    have h0 : Holds (sz := .Byte) s.mem a (b k) := by
      intro j hj
      obtain rfl : j = 0 := by simp [bytes] at hj; exact hj
      rw [beByte_byte]
      exact hb 0 (by omega)
    unfold movepLoads
    rw [bind_eq (load_holds (fun h => h.1 rfl) h0), modR_bind_apply, ih]
    · congr 1
      unfold St.withRegs
      dsimp only
      rw [setDreg_setDreg, setDreg_d]
      rfl
    · intro j hj
      rw [two_at, at_add, show 2 + 2 * j = 2 * (j + 1) by omega]
      have := hb (j + 1) (by omega)
      rw [show k + 1 - 1 - (j + 1) = k - 1 - j by omega] at this
      exact this

theorem movepLoads_done {k : Nat} {b : Nat → U8} (hb : ∀ j < k, Ram.peek s.mem (at_ a (2 * j)) = some (b (k - 1 - j)))
    (h : movepLoads n k a s = .ok () s') : s' = s.withRegs fun r => setDreg r n (setBytes b k (r.d n)) := by
  rw [movepLoads_run hb] at h
  cases h
  rfl

theorem setBytes_word (x : U32) (v : U16) : setBytes (fun i => BitVec.ofNat 8 (v.toNat / 256 ^ i)) 2 (insertLow .Word x (0 : U16)) = insertLow .Word x v := by
  have hx := x.isLt
  have hv := v.isLt
  apply BitVec.eq_of_toNat_eq
  simp [setBytes, setByteOf, insertLow, width]
  omega
theorem setBytes_long (x : U32) (v : U32) : setBytes (fun i => BitVec.ofNat 8 (v.toNat / 256 ^ i)) 4 (insertLow .Long x (0 : U32)) = insertLow .Long x v := by
  have hx := x.isLt
  have hv := v.isLt
  apply BitVec.eq_of_toNat_eq
  simp [setBytes, setByteOf, insertLow, width]
  omega
theorem setBytes_low (hsz : sz ≠ .Byte) (x : U32) (v : Val sz) :
    setBytes (fun i => BitVec.ofNat 8 (v.toNat / 256 ^ i)) (bytes sz) (insertLow sz x 0) = insertLow sz x v := by
  cases sz with
  | Byte => exact absurd rfl hsz
  | Word => exact setBytes_word x v
  | Long => exact setBytes_long x v

theorem movepSize_ne : movepSize op ≠ .Byte := by unfold movepSize; split <;> decide

theorem ends_movep (h : Ready s op s1) (hi : instr op = .Movep) (hf : fetch s1 = .ok d s2) :
    EndsWith C s (movep (flag op 7) (movepSize op) (regField op 9) (regField op 0) d s2) := by
  have hx := step_ends C h hi (by decide) rfl
  simp only [Spec.exec] at hx
  rw [endsWith_bind_ok hf, ← movepSize_eq, endsWith_cost] at hx
  exact hx

theorem movep_pc (h : Ready s op s1) (hf : fetch s1 = .ok d s2) : s2.mem = s.mem ∧ s2.cpu.regs = { s.cpu.regs with pc := s2.cpu.regs.pc } := by
  have h1 := fetch_pcOnly hf
  refine ⟨by rw [h1.mem, h.ram], ?_⟩
  obtain ⟨mm, -, he⟩ := h.opcode
  rw [h1.regs, he]

theorem movep_done (h : Ready s op s1) (hi : instr op = .Movep) (hf : fetch s1 = .ok d s2) (hc : Completes C s s') :
    movep (flag op 7) (movepSize op) (regField op 9) (regField op 0) d s2 = .ok () s' := by
  rcases endsWith_completes (ends_movep (C := C) h hi hf) hc with ⟨_, hx⟩ | ⟨e, hx, ht⟩
  · exact hx
  · refine absurd ht (traced_ne ?_)
    have : Err23 (movep (flag op 7) (movepSize op) (regField op 9) (regField op 0) d : Exec M Unit) := by
      unfold movep
      refine Err23.bind (Err23.getR _) fun _ => ?_
      split
      · exact Err23.movepStores _ _ _
      · exact Err23.bind (Err23.modR _) fun _ => Err23.movepLoads _ _ _
    exact this _ _ _ hx

theorem bytes_spread (v : Val sz) (h : HoldsSpread s.mem a v) :
    ∀ j < bytes sz, Ram.peek s.mem (at_ a (2 * j)) = some ((fun i => BitVec.ofNat 8 (v.toNat / 256 ^ i)) (bytes sz - 1 - j)) := h

/-- `MOVEP Dx,d(An)` puts the word or long operand in the register, most significant byte first, in every second byte from An + d on. No other
byte of memory changes and no register but the program counter. -/
theorem C19_store (h : Ready s op s1) (hi : instr op = .Movep) (hdir : op.toNat / 2 ^ 7 % 2 = 1) (hf : fetch s1 = .ok d s2)
    (ha : a = areg s.cpu.regs (regField op 0) + signExt d) (hc : Completes C s s') :
    HoldsSpread s'.mem a (low (movepSize op) (s.cpu.regs.d (regField op 9))) ∧
    (∀ b, (∀ k < bytes (movepSize op), b ≠ at_ a (2 * k)) → Ram.peek s'.mem b = Ram.peek s.mem b) ∧
    s'.cpu.regs = { s.cpu.regs with pc := s2.cpu.regs.pc } := by
  have hx := movep_done h hi hf hc
  obtain ⟨hmem, hregs⟩ := movep_pc h hf
  have hb : flag op 7 = true := by unfold flag; rw [hdir]; decide
  have hA : areg s2.cpu.regs (regField op 0) = areg s.cpu.regs (regField op 0) := by rw [hregs]; rfl
  unfold movep at hx
  rw [getR_bind_apply, hb, if_pos rfl, hA, ← ha] at hx
  obtain ⟨e1, e2, e3⟩ := movepStores_done (bytes_le _) hx
  refine ⟨fun k hk => ?_, ?_, ?_⟩
  · rw [beByte_low _ _ hk, e2 k hk, hregs]
  · rw [← hmem]; exact e3
  · rw [e1, ← hregs]

/-- `MOVEP.L D1,4(A0)`: the bytes of D1 are at 9, 11, 13 and 15. -/
example : ∃ s1 s2 s', Ready (Demo.ram [0x03C8, 4] 8 (Demo.regs [0, 0x11223344] [5])) 0x03C8 s1 ∧ instr 0x03C8 = .Movep ∧
    (0x03C8 : U16).toNat / 2 ^ 7 % 2 = 1 ∧ fetch s1 = .ok 4 s2 ∧ Completes mc68000 (Demo.ram [0x03C8, 4] 8 (Demo.regs [0, 0x11223344] [5])) s' ∧
    s'.mem.words.drop 4 = [0x11, 0x22, 0x33, 0x44] :=
  ⟨_, _, _, ⟨rfl, rfl, by decide, _, rfl, rfl⟩, rfl, rfl, rfl, ⟨_, rfl⟩, rfl⟩

/-- On a memory whose bytes can be written it completes if the bytes exist; An + d need not be even. -/
theorem C19_store_completes [Writable M] (h : Ready s op s1) (hi : instr op = .Movep) (hdir : op.toNat / 2 ^ 7 % 2 = 1) (hf : fetch s1 = .ok d s2)
    (ha : a = areg s.cpu.regs (regField op 0) + signExt d) (hp : ∀ k < bytes (movepSize op), (Ram.peek s.mem (at_ a (2 * k))).isSome) :
    ∃ s', Completes C s s' := by
  have hx := ends_movep (C := C) h hi hf
  obtain ⟨hmem, hregs⟩ := movep_pc h hf
  have hb : flag op 7 = true := by unfold flag; rw [hdir]; decide
  have hA : areg s2.cpu.regs (regField op 0) = areg s.cpu.regs (regField op 0) := by rw [hregs]; rfl
  unfold movep at hx
  rw [getR_bind_apply, hb, if_pos rfl, hA, ← ha] at hx
  obtain ⟨u, hu⟩ := movepStores_present (s := s2) (n := regField op 9) (by rw [hmem]; exact hp)
  rw [hu] at hx
  exact ⟨_, hx⟩

/-- `MOVEP d(An),Dx` reads the operand from every second byte from An + d on and puts it in the low part of the register. Memory and the
other registers, but the program counter, are unchanged. It completes. -/
theorem C19_load (h : Ready s op s1) (hi : instr op = .Movep) (hdir : op.toNat / 2 ^ 7 % 2 = 0) (hf : fetch s1 = .ok d s2)
    {v : Val (movepSize op)} (hv : HoldsSpread s.mem (areg s.cpu.regs (regField op 0) + signExt d) v) :
    ∃ s', Completes C s s' ∧ s'.mem = s.mem ∧
      s'.cpu.regs = setDreg { s.cpu.regs with pc := s2.cpu.regs.pc } (regField op 9) (insertLow (movepSize op) (s.cpu.regs.d (regField op 9)) v) := by
  have hx := ends_movep (C := C) h hi hf
  obtain ⟨hmem, hregs⟩ := movep_pc h hf
  have hb : flag op 7 = false := by unfold flag; rw [hdir]; decide
  have hA : areg s2.cpu.regs (regField op 0) = areg s.cpu.regs (regField op 0) := by rw [hregs]; rfl
  unfold movep at hx
  rw [getR_bind_apply, hb, if_neg (by decide), hA, modR_bind_apply] at hx
  have hv' : HoldsSpread (s2.withRegs fun r => setDreg r (regField op 9) (insertLow (movepSize op) (r.d (regField op 9)) 0)).mem
      (areg s.cpu.regs (regField op 0) + signExt d) v := by
    show HoldsSpread s2.mem _ v
    rw [hmem]; exact hv
  rw [movepLoads_run (b := fun i => BitVec.ofNat 8 (v.toNat / 256 ^ i)) (bytes_spread v hv')] at hx
  refine ⟨_, hx, hmem, ?_⟩
  show setDreg (setDreg s2.cpu.regs _ _) _ (setBytes _ _ ((setDreg s2.cpu.regs _ _).d _)) = _
  rw [setDreg_setDreg, setDreg_d, setBytes_low movepSize_ne, hregs]

/-- `MOVEP.W 4(A0),D1`: from addresses 9 and 11. -/
example : ∃ s1 s2, Ready (Demo.st [0x0308, 4, 0, 0, 0x11, 0x22] (Demo.regs [0, 0x55667788] [5])) 0x0308 s1 ∧ instr 0x0308 = .Movep ∧
    (0x0308 : U16).toNat / 2 ^ 7 % 2 = 0 ∧ fetch s1 = .ok 4 s2 ∧ movepSize 0x0308 = .Word ∧
    HoldsSpread (sz := .Word) (Demo.st [0x0308, 4, 0, 0, 0x11, 0x22] (Demo.regs [0, 0x55667788] [5])).mem (5 + 4) (0x1122 : U16) :=
  ⟨_, _, ⟨rfl, rfl, by decide, _, rfl, rfl⟩, rfl, rfl, rfl, rfl, by
    intro k hk
    obtain rfl | rfl : k = 0 ∨ k = 1 := by simp [bytes] at hk; omega
    all_goals rfl⟩

/-- Round trip: `MOVEP Dx,d(An)`, then anything that leaves the bytes written as they are, then `MOVEP d'(Am),Dy` of the same size from the same
address: the low part of Dy is the value that was in Dx. -/
theorem C19_roundTrip (h : Ready s op s1) (hi : instr op = .Movep) (hdir : op.toNat / 2 ^ 7 % 2 = 1) (hf : fetch s1 = .ok d s2) (hc : Completes C s s')
    (ha : a = areg s.cpu.regs (regField op 0) + signExt d)
    (hkeep : ∀ k < bytes (movepSize op), Ram.peek t.mem (at_ a (2 * k)) = Ram.peek s'.mem (at_ a (2 * k)))
    (h' : Ready t op' t1) (hi' : instr op' = .Movep) (hdir' : op'.toNat / 2 ^ 7 % 2 = 0) (hf' : fetch t1 = .ok d' t2)
    (hsz : movepSize op' = movepSize op) (ha' : areg t.cpu.regs (regField op' 0) + signExt d' = a) (hc' : Completes C t t') :
    t'.cpu.regs.d (regField op' 9) =
      insertLow (movepSize op) (t.cpu.regs.d (regField op' 9)) (low (movepSize op) (s.cpu.regs.d (regField op 9))) := by
  obtain ⟨e1, -, -⟩ := C19_store h hi hdir hf ha hc
  have hv : HoldsSpread t.mem (areg t.cpu.regs (regField op' 0) + signExt d') (low (movepSize op') (s.cpu.regs.d (regField op 9))) := by
    rw [ha', hsz]
    intro k hk
    rw [hkeep k hk]
    exact e1 k hk
  obtain ⟨u, hu, -, hr⟩ := C19_load h' hi' hdir' hf' hv
  rw [completes_unique hc' hu, hr, setDreg_d, hsz]

/-- Satisfied: the two examples above are such a pair of states, up to the displacement and the size. -/
example : ∃ s1 s2 s' t1 t2, Ready (Demo.ram [0x0388, 4] 6 (Demo.regs [0, 0x11223344] [5])) 0x0388 s1 ∧ fetch s1 = .ok 4 s2 ∧
    Completes mc68000 (Demo.ram [0x0388, 4] 6 (Demo.regs [0, 0x11223344] [5])) s' ∧
    (∀ k < 2, Ram.peek (Demo.st [0x0308, 2, 0, 0, 0x33, 0x44] (Demo.regs [] [7])).mem (at_ 9 (2 * k)) = Ram.peek s'.mem (at_ 9 (2 * k))) ∧
    Ready (Demo.st [0x0308, 2, 0, 0, 0x33, 0x44] (Demo.regs [] [7])) 0x0308 t1 ∧ fetch t1 = .ok 2 t2 ∧ movepSize 0x0308 = movepSize 0x0388 :=
  ⟨_, _, _, _, _, ⟨rfl, rfl, by decide, _, rfl, rfl⟩, rfl, ⟨_, rfl⟩, by
    intro k hk
    obtain rfl | rfl : k = 0 ∨ k = 1 := by omega
    all_goals rfl, ⟨rfl, rfl, by decide, _, rfl, rfl⟩, rfl, rfl⟩

end M68k.Props
