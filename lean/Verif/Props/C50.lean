import Verif.Model.Ffi
import Verif.Props.C15
import Verif.Props.C48
import Verif.Props.C51
/-
C50: memory callbacks and string buffers of the C interface.
-/
namespace M68k.Props
open Spec Exec
set_option linter.unusedSectionVars false
variable {U : Type} {C : CpuDetails} {s s' s1 : St (FfiMemory U)} {op : U16} {sz : Size} {a : U32}

/-- The callback that reads an operand: what it returns and the user data afterwards. -/
def readCallback (sz : Size) (m : FfiMemory U) (a : U32) : MemoryResult × U :=
  match sz with
  | .Byte => m.cb.getByte a m.user
  | .Word => m.cb.getWord a m.user
  | .Long => m.cb.getLong a m.user

/-- The callback that writes an operand. -/
def writeCallback (sz : Size) (m : FfiMemory U) (a : U32) (v : Val sz) : MemoryResult × U :=
  match sz with
  | .Byte => m.cb.setByte a v m.user
  | .Word => m.cb.setWord a v m.user
  | .Long => m.cb.setLong a v m.user

/-- The state after a callback left the user data `u`. -/
def withUser (s : St (FfiMemory U)) (u : U) : St (FfiMemory U) := { s with mem := { s.mem with user := u } }

theorem low_eq (x : U32) : (toU8 x = low .Byte x) ∧ (toU16 x = low .Word x) ∧ (id x = low .Long x) :=
  ⟨BitVec.eq_of_toNat_eq (by simp [toU8, low, width]), BitVec.eq_of_toNat_eq (by simp [toU16, low, width]), by simp [low, width]⟩

theorem memGet_ffi (m : FfiMemory U) : memGet sz a m = m.result (low sz) (readCallback sz m a) := by
  cases sz
  · show m.result toU8 _ = _
    rw [show toU8 = low .Byte from funext fun x => (low_eq x).1]; rfl
  · show m.result toU16 _ = _
    rw [show toU16 = low .Word from funext fun x => (low_eq x).2.1]; rfl
  · show m.result id _ = _
    rw [show id = low .Long from funext fun x => (low_eq x).2.2]; rfl

theorem access_ffi {α : Type} {f : U32 → α} {r : MemoryResult × U} {g : FfiMemory U → MRes (FfiMemory U) α} (hg : g s.mem = s.mem.result f r) :
    access g s = if r.1.exception = 0 then .ok (f r.1.data) (withUser s r.2) else .err 2 (withUser s r.2) := by
  unfold access
  rw [hg]
  unfold FfiMemory.result
  by_cases h : r.1.exception = 0
  · simp only [h, if_true]; rfl
  · simp only [h, if_false]; rfl

/-- A read of the memory by the CPU calls the read callback of the operand's size once: exception 0 makes the low bits of `data` the value read, anything else
is an access error. -/
theorem load_ffi (hal : AlignedFor sz a) : load sz a s =
    if (readCallback sz s.mem a).1.exception = 0 then .ok (low sz (readCallback sz s.mem a).1.data) (withUser s (readCallback sz s.mem a).2)
    else .err 2 (withUser s (readCallback sz s.mem a).2) := by
  unfold load
  rw [if_neg hal]
  exact access_ffi (memGet_ffi _)

theorem store_ffi {v : Val sz} (hal : AlignedFor sz a) : store sz a v s =
    if (writeCallback sz s.mem a v).1.exception = 0 then .ok () (withUser s (writeCallback sz s.mem a v).2)
    else .err 2 (withUser s (writeCallback sz s.mem a v).2) := by
  unfold store
  rw [if_neg hal]
  exact access_ffi (f := fun _ => ()) (by cases sz <;> rfl)

/-- TST of the operand at the address in an address register, aligned: the read callback of the size is called once, with this address. If it reports no
exception the low bits of its `data` are the operand. -/
theorem C50_read (h : Ready s op s1) (hi : instr op = .Tst) (hsz : opSize op = some sz) (hm : regField op 3 = 2)
    (hal : AlignedFor sz (areg s.cpu.regs (regField op 0)))
    (he : (readCallback sz s1.mem (areg s.cpu.regs (regField op 0))).1.exception = 0) :
    ∃ sr', LogicCodes (low sz (readCallback sz s1.mem (areg s.cpu.regs (regField op 0))).1.data) s.cpu.regs.sr sr' ∧
      Completes C s ((withUser s1 (readCallback sz s1.mem (areg s.cpu.regs (regField op 0))).2).withRegs fun r => { r with sr := sr' }) := by
  have ha : areg s1.cpu.regs (regField op 0) = areg s.cpu.regs (regField op 0) := by obtain ⟨m, -, e⟩ := h.opcode; rw [e]; rfl
  refine C48_tst (p := .mem (areg s.cpu.regs (regField op 0))) h hi hsz ?_
  have hl := load_ffi (s := s1) hal
  rw [if_pos he] at hl
  unfold operand fetchEa
  rw [hm]
  show (Spec.read sz (.ind (regField op 0)) : Exec _ _) s1 = _
  unfold Spec.read
  show (do let v ← load sz (areg s1.cpu.regs (regField op 0)); pure (Place.mem (areg s1.cpu.regs (regField op 0)), v) : Exec _ _) s1 = _
  rw [ha, Exec.bind_apply, hl]
  rfl

/-- If it reports one, whatever its number, the instruction raises an access error. -/
theorem C50_read_fails (h : Ready s op s1) (hi : instr op = .Tst) (hsz : opSize op = some sz) (hm : regField op 3 = 2)
    (hal : AlignedFor sz (areg s.cpu.regs (regField op 0)))
    (he : (readCallback sz s1.mem (areg s.cpu.regs (regField op 0))).1.exception ≠ 0) :
    Raises C s 2 (withUser s1 (readCallback sz s1.mem (areg s.cpu.regs (regField op 0))).2) := by
  have ha : areg s1.cpu.regs (regField op 0) = areg s.cpu.regs (regField op 0) := by obtain ⟨m, -, e⟩ := h.opcode; rw [e]; rfl
  have hl := load_ffi (s := s1) hal
  rw [if_neg he] at hl
  have hx := step_ends C h hi (by decide) rfl
  simp only [Spec.exec] at hx
  have hf : (fetchEa (some sz) op : Exec _ Mode) s1 = .ok (.ind (regField op 0)) s1 := by unfold fetchEa; rw [hm]; rfl
  rw [sized_some hsz, endsWith_bind_ok hf] at hx
  have hr : Spec.read sz (.ind (regField op 0)) s1 = .err 2 (withUser s1 (readCallback sz s1.mem (areg s.cpu.regs (regField op 0))).2) := by
    show (do let v ← load sz (areg s1.cpu.regs (regField op 0)); pure (Place.mem (areg s1.cpu.regs (regField op 0)), v) : Exec _ _) s1 = _
    rw [ha, Exec.bind_apply, hl]
  rw [endsWith_bind_err hr] at hx
  exact hx

/-- MOVE of a data register to the aligned address in an address register: the write callback of the size is called once with this address and the low bits of
the register. Exception 0 means it is done. -/
theorem C50_write (h : Ready s op s1) (hi : instr op = .Move) (hsz : moveSize op = some sz) (hm : regField op 3 = 0) (hd : regField op 6 = 2)
    (hal : AlignedFor sz (areg s.cpu.regs (regField op 9)))
    (he : (writeCallback sz s1.mem (areg s.cpu.regs (regField op 9)) (low sz (s.cpu.regs.d (regField op 0)))).1.exception = 0) :
    ∃ sr', LogicCodes (low sz (s.cpu.regs.d (regField op 0))) s.cpu.regs.sr sr' ∧
      Completes C s ((withUser s1 (writeCallback sz s1.mem (areg s.cpu.regs (regField op 9)) (low sz (s.cpu.regs.d (regField op 0)))).2).withRegs
        fun r => { r with sr := sr' }) := by
  have ha : areg s1.cpu.regs (regField op 9) = areg s.cpu.regs (regField op 9) := by obtain ⟨m, -, e⟩ := h.opcode; rw [e]; rfl
  have hv : s1.cpu.regs.d = s.cpu.regs.d := by obtain ⟨m, -, e⟩ := h.opcode; rw [e]
  have hsr := h.sr
  have hl := store_ffi (s := s1) (v := low sz (s.cpu.regs.d (regField op 0))) hal
  rw [if_pos he] at hl
  have hs : (fetchEa (some sz) op : Exec _ Mode) s1 = .ok (.dn (regField op 0)) s1 := by unfold fetchEa; rw [hm]; rfl
  have ht : (fetchMode (some sz) (regField op 6) (regField op 9) : Exec _ Mode) s1 = .ok (.ind (regField op 9)) s1 := by rw [hd]; rfl
  have hr : Spec.read sz (.dn (regField op 0)) s1 = .ok (.dreg (regField op 0), low sz (s.cpu.regs.d (regField op 0))) s1 := by rw [← hv]; rfl
  have hx := ends_move (C := C) h hi hsz hs ht hr
  have hw : write sz (.ind (regField op 9)) (low sz (s.cpu.regs.d (regField op 0))) s1 = store sz (areg s1.cpu.regs (regField op 9)) (low sz (s.cpu.regs.d (regField op 0))) s1 := rfl
  rw [ha, hl] at hw
  rw [endsWith_bind_ok hw] at hx
  refine ⟨_, logicCodes_logicFlags _ _, ?_⟩
  rw [← hsr]
  exact hx

/-- Any other result is an access error. -/
theorem C50_write_fails (h : Ready s op s1) (hi : instr op = .Move) (hsz : moveSize op = some sz) (hm : regField op 3 = 0) (hd : regField op 6 = 2)
    (hal : AlignedFor sz (areg s.cpu.regs (regField op 9)))
    (he : (writeCallback sz s1.mem (areg s.cpu.regs (regField op 9)) (low sz (s.cpu.regs.d (regField op 0)))).1.exception ≠ 0) :
    Raises C s 2 (withUser s1 (writeCallback sz s1.mem (areg s.cpu.regs (regField op 9)) (low sz (s.cpu.regs.d (regField op 0)))).2) := by
  have ha : areg s1.cpu.regs (regField op 9) = areg s.cpu.regs (regField op 9) := by obtain ⟨m, -, e⟩ := h.opcode; rw [e]; rfl
  have hv : s1.cpu.regs.d = s.cpu.regs.d := by obtain ⟨m, -, e⟩ := h.opcode; rw [e]
  have hl := store_ffi (s := s1) (v := low sz (s.cpu.regs.d (regField op 0))) hal
  rw [if_neg he] at hl
  have hs : (fetchEa (some sz) op : Exec _ Mode) s1 = .ok (.dn (regField op 0)) s1 := by unfold fetchEa; rw [hm]; rfl
  have ht : (fetchMode (some sz) (regField op 6) (regField op 9) : Exec _ Mode) s1 = .ok (.ind (regField op 9)) s1 := by rw [hd]; rfl
  have hr : Spec.read sz (.dn (regField op 0)) s1 = .ok (.dreg (regField op 0), low sz (s.cpu.regs.d (regField op 0))) s1 := by rw [← hv]; rfl
  have hx := ends_move (C := C) h hi hsz hs ht hr
  have hw : write sz (.ind (regField op 9)) (low sz (s.cpu.regs.d (regField op 0))) s1 = store sz (areg s1.cpu.regs (regField op 9)) (low sz (s.cpu.regs.d (regField op 0))) s1 := rfl
  rw [ha, hl] at hw
  rw [endsWith_bind_err hw] at hx
  exact hx

/-- The opcode is the low word of the `data` of the word callback at the program counter; a reported exception is an access error. -/
theorem C50_opcode (hr : s.cpu.stop = false) (hi : s.cpu.exceptions = []) (he : ¬ Spec.Odd s.cpu.regs.pc) :
    ((readCallback .Word s.mem s.cpu.regs.pc).1.exception = 0 → ∃ s1, Ready s (low .Word (readCallback .Word s.mem s.cpu.regs.pc).1.data) s1 ∧
      s1.mem = { s.mem with user := (readCallback .Word s.mem s.cpu.regs.pc).2 }) ∧
    ((readCallback .Word s.mem s.cpu.regs.pc).1.exception ≠ 0 →
      Raises C s 2 ((withUser s (readCallback .Word s.mem s.cpu.regs.pc).2).withRegs fun r => { r with pc := r.pc + 2 })) := by
  constructor
  · intro h0
    refine ⟨_, ⟨hr, hi, he, _, ?_, rfl⟩, rfl⟩
    have := memGet_ffi (sz := .Word) (a := s.cpu.regs.pc) s.mem
    unfold FfiMemory.result at this
    rw [if_pos h0] at this
    exact this
  · intro h0
    have hm := memGet_ffi (sz := .Word) (a := s.cpu.regs.pc) s.mem
    unfold FfiMemory.result at hm
    rw [if_neg h0] at hm
    have hw : (getNextWord : Exec _ U16) s = .err 2 ((withUser s (readCallback .Word s.mem s.cpu.regs.pc).2).withRegs fun r => { r with pc := r.pc + 2 }) := by
      rw [getNextWord_even he]
      rw [show MemoryAccess.getWord s.cpu.regs.pc s.mem = _ from hm]
      rfl
    unfold Raises interpreterException
    rw [if_neg (by rw [hr]; decide), bind_eq (x := pendingCycles C) (v := 0) (s' := s) (by simp [pendingCycles, hi])]
    unfold fastInstruction
    rw [hw]

/-- In the results of `m68000_*_interpreter_exception`, exception 0 means that there was none: no exception has this vector. -/
theorem C50_exceptionField {r : ExceptionResult} (h : ffiInterpreterException C s = .ok r s') :
    ∃ v, interpreterException C s = .ok (r.cycles, v) s' ∧ (r.exception = 0 ↔ v = none) ∧ ∀ e, v = some e → r.exception = e := by
  unfold ffiInterpreterException at h
  obtain ⟨⟨c, v⟩, t, hx, h⟩ := bind_ok h
  cases h
  refine ⟨v, hx, ?_, ?_⟩
  · cases v with
    | none => exact ⟨fun _ => rfl, fun _ => rfl⟩
    | some e =>
      have := C51_raised hx
      constructor
      · intro h0
        have h0 : e = 0 := h0
        subst h0
        exact absurd this (by decide)
      · intro h; cases h
  · rintro e rfl; rfl

/-- `m68000_*_peek_next_word` returns the low word that the word callback gives for the program counter, or exception 2 if it refuses, and leaves the registers. -/
theorem C50_peek (he : ¬ Spec.Odd s.cpu.regs.pc) : ∃ r, ffiPeekNextWord s = .ok r (withUser s (readCallback .Word s.mem s.cpu.regs.pc).2) ∧
    ((readCallback .Word s.mem s.cpu.regs.pc).1.exception = 0 → r.exception = 0 ∧ r.data.toNat = (readCallback .Word s.mem s.cpu.regs.pc).1.data.toNat % 2 ^ 16) ∧
    ((readCallback .Word s.mem s.cpu.regs.pc).1.exception ≠ 0 → r.exception = 2) := by
  have hm := memGet_ffi (sz := .Word) (a := s.cpu.regs.pc) s.mem
  unfold FfiMemory.result at hm
  have hp : (peekNextWord : Exec (FfiMemory U) U16) s = Exec.mem (MemoryAccess.getWord s.cpu.regs.pc) s := by
    unfold peekNextWord
    rw [Exec.bind_apply]
    simp only [getPc]
    rw [Exec.bind_apply]
    unfold Exec.even
    rw [if_pos ((isEven_iff _).2 he)]
    rfl
  unfold ffiPeekNextWord ffiRead
  rw [hp]
  unfold Exec.mem
  rw [show MemoryAccess.getWord s.cpu.regs.pc s.mem = _ from hm]
  by_cases h0 : (readCallback .Word s.mem s.cpu.regs.pc).1.exception = 0
  · rw [if_pos h0]
    refine ⟨_, rfl, fun _ => ⟨rfl, ?_⟩, fun h => absurd h0 h⟩
    simp [low, width]
    omega
  · rw [if_neg h0]
    exact ⟨_, rfl, fun h => absurd h h0, fun _ => rfl⟩

/-- `m68000_*_get_next_word` does the same and advances the program counter by 2. -/
theorem C50_nextWord (he : ¬ Spec.Odd s.cpu.regs.pc) :
    ∃ r, ffiGetNextWord s = .ok r ((withUser s (readCallback .Word s.mem s.cpu.regs.pc).2).withRegs fun r => { r with pc := r.pc + 2 }) ∧
    ((readCallback .Word s.mem s.cpu.regs.pc).1.exception = 0 → r.exception = 0 ∧ r.data.toNat = (readCallback .Word s.mem s.cpu.regs.pc).1.data.toNat % 2 ^ 16) ∧
    ((readCallback .Word s.mem s.cpu.regs.pc).1.exception ≠ 0 → r.exception = 2) := by
  have hm := memGet_ffi (sz := .Word) (a := s.cpu.regs.pc) s.mem
  unfold FfiMemory.result at hm
  unfold ffiGetNextWord ffiRead
  rw [getNextWord_even he]
  rw [show MemoryAccess.getWord s.cpu.regs.pc s.mem = _ from hm]
  by_cases h0 : (readCallback .Word s.mem s.cpu.regs.pc).1.exception = 0
  · rw [if_pos h0]
    refine ⟨_, rfl, fun _ => ⟨rfl, ?_⟩, fun h => absurd h0 h⟩
    simp [low, width]
    omega
  · rw [if_neg h0]
    exact ⟨_, rfl, fun h => absurd h h0, fun _ => rfl⟩

/-- At an odd program counter no callback is called and exception 3 is returned. -/
theorem C50_nextWord_odd (he : Spec.Odd s.cpu.regs.pc) : ffiGetNextWord s = .ok { data := 0, exception := 3 } s := by
  unfold ffiGetNextWord ffiRead
  rw [getNextWord_odd he]

/-- A memory of callbacks that counts the accesses in its user data and refuses those above 0x100. -/
def counting : FfiMemory Nat :=
  { user := 0
    cb := { getByte := fun a n => ({ data := 0xABCD, exception := if a.toNat < 256 then 0 else 7 }, n + 1)
            getWord := fun a n => ({ data := if a = 0 then 0x12344A50 else if a = 2 then 0x3281 else 5, exception := if a.toNat < 256 then 0 else 2 }, n + 1)
            getLong := fun a n => ({ data := 7, exception := if a.toNat < 256 then 0 else 2 }, n + 1)
            setByte := fun a _ n => ({ data := 0, exception := if a.toNat < 256 then 0 else 2 }, n + 1)
            setWord := fun a _ n => ({ data := 0, exception := if a.toNat < 256 then 0 else 2 }, n + 1)
            setLong := fun a _ n => ({ data := 0, exception := if a.toNat < 256 then 0 else 2 }, n + 1)
            resetInstruction := id } }

def countingState (pc a0 a1 : U32) : St (FfiMemory Nat) :=
  { mem := counting
    cpu := { (Demo.st [] { Demo.regs [0, 3] [a0, a1] with pc := pc }).cpu with exceptions := [] } }

/-- `TST.W (A0)` at the address 0 and `MOVE.W D1,(A1)` at 2, with accepted and refused accesses, and a refused opcode. -/
example : (∃ s1, Ready (countingState 0 8 0) 0x4A50 s1 ∧ (readCallback .Word s1.mem 8).1.exception = 0) ∧
    (∃ s1, Ready (countingState 0 0x200 0) 0x4A50 s1 ∧ (readCallback .Word s1.mem 0x200).1.exception ≠ 0) ∧
    (∃ s1, Ready (countingState 2 0 8) 0x3281 s1 ∧ (writeCallback .Word s1.mem 8 3).1.exception = 0) ∧
    (∃ s1, Ready (countingState 2 0 0x200) 0x3281 s1 ∧ (writeCallback .Word s1.mem 0x200 3).1.exception ≠ 0) ∧
    instr 0x4A50 = .Tst ∧ opSize 0x4A50 = some .Word ∧ regField 0x4A50 3 = 2 ∧
    instr 0x3281 = .Move ∧ moveSize 0x3281 = some .Word ∧ regField 0x3281 3 = 0 ∧ regField 0x3281 6 = 2 ∧
    (readCallback .Word (countingState 0x200 0 0).mem 0x200).1.exception ≠ 0 :=
  ⟨⟨_, ⟨rfl, rfl, by decide, _, rfl, rfl⟩, rfl⟩, ⟨_, ⟨rfl, rfl, by decide, _, rfl, rfl⟩, by decide⟩,
   ⟨_, ⟨rfl, rfl, by decide, _, rfl, rfl⟩, rfl⟩, ⟨_, ⟨rfl, rfl, by decide, _, rfl, rfl⟩, by decide⟩,
   rfl, rfl, rfl, rfl, rfl, rfl, rfl, by decide⟩

/-! ### The string buffer -/

/-- `n` bytes of a buffer whose size is at least the claimed one, at least 1: the copy of the text succeeds, the buffer then begins with as much of the text as fits
before a NUL, and nothing from `len` on is changed. -/
theorem C50_string {buf dis : List U8} {len : Nat} (hb : len ≤ buf.length) (hl : 1 ≤ len) (hn : 0 ∉ dis) :
    ∃ buf', copyDisassembly buf len dis = some buf' ∧ buf'.length = buf.length ∧
      (∃ k, k = min dis.length (len - 1) ∧ buf'.take k = dis.take k ∧ buf'[k]? = some 0) ∧
      ∀ i, len ≤ i → buf'[i]? = buf[i]? := by
  unfold copyDisassembly
  rw [if_neg (by simpa using hn)]
  simp only
  split
  next h =>
    simp only [List.length_append, List.length_cons, List.length_nil, Nat.zero_add] at h
    refine ⟨_, by unfold copyBytes; rw [if_pos ⟨by simp; omega, Nat.le_refl _⟩], ?_, ⟨dis.length, by omega, ?_, ?_⟩, ?_⟩
    · simp; omega
    · rw [List.take_length, List.append_assoc, List.take_left, List.take_length]
    · rw [List.take_length, List.append_assoc, List.getElem?_append_right (Nat.le_refl _)]
      simp
    · intro i hi
      rw [List.take_length, List.getElem?_append_right (by simp; omega), List.getElem?_drop]
      congr 1
      simp
      omega
  next h =>
    simp only [List.length_append, List.length_cons, List.length_nil, Nat.zero_add] at h
    rw [if_neg (by omega)]
    have h1 : copyBytes buf (dis ++ [0]) (len - 1) = some ((dis ++ [0]).take (len - 1) ++ buf.drop (len - 1)) := by
      unfold copyBytes
      rw [if_pos ⟨by omega, by simp; omega⟩]
    have ht : (dis ++ [0]).take (len - 1) = dis.take (len - 1) := List.take_append_of_le_length (by omega)
    have hlen : (dis.take (len - 1)).length = len - 1 := by rw [List.length_take]; omega
    rw [h1, ht]
    refine ⟨(dis.take (len - 1) ++ buf.drop (len - 1)).set (len - 1) 0, ?_, ?_, ⟨len - 1, by omega, ?_, ?_⟩, ?_⟩
    · show pokeByte _ _ _ = _
      unfold pokeByte
      rw [if_pos (by rw [List.length_append, hlen, List.length_drop]; omega)]
    · rw [List.length_set, List.length_append, hlen, List.length_drop]; omega
    · rw [List.take_set_of_le (Nat.le_refl _), List.take_append_of_le_length (by omega), List.take_of_length_le (by omega)]
    · rw [List.getElem?_set_self (by rw [List.length_append, hlen, List.length_drop]; omega)]
    · intro i hi
      rw [List.getElem?_set_ne (by omega), List.getElem?_append_right (by omega), hlen, List.getElem?_drop]
      congr 1
      omega

/-- The text and its NUL are there entirely if the buffer is large enough. -/
theorem C50_string_fits {buf dis : List U8} {len : Nat} (hb : len ≤ buf.length) (hl : dis.length < len) (hn : 0 ∉ dis) :
    ∃ buf', copyDisassembly buf len dis = some buf' ∧ buf'.take (dis.length + 1) = dis ++ [0] := by
  obtain ⟨b, h1, h2, ⟨k, hk, h3, h4⟩, -⟩ := C50_string hb (by omega) hn
  have hk : k = dis.length := by omega
  subst hk
  refine ⟨b, h1, ?_⟩
  rw [List.take_add_one, h3, h4, List.take_length]
  rfl

/-- "NOP" in a buffer of 6 bytes: with a size of 6, and with a size of 3 (truncated). -/
example : copyDisassembly [9, 9, 9, 9, 9, 9] 6 [78, 79, 80] = some [78, 79, 80, 0, 9, 9] ∧
    copyDisassembly [9, 9, 9, 9, 9, 9] 3 [78, 79, 80] = some [78, 79, 0, 9, 9, 9] := ⟨rfl, rfl⟩

/-- A size of 0 is not handled: whatever the text, the computation of `len - 1` overflows. -/
theorem C50_string_zero (buf dis : List U8) : copyDisassembly buf 0 dis = none := by
  unfold copyDisassembly
  split
  · rfl
  · simp

end M68k.Props
