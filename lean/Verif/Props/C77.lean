import Verif.Spec.CExample
import Verif.Lemmas.Alike
import Verif.Lemmas.Claims
import Verif.Props.C50
import Verif.Props.C68
import Verif.Props.C43
/-
C77: the memory of the C example.
-/
namespace M68k.Props
open Spec Exec
set_option linter.unusedSectionVars false
variable {C : CpuDetails} {sz : Size} {a : U32} {f : Nat → U8} {u : CBuffer}

theorem toNat_plus {k : Nat} (h : a.toNat + k < 4294967296) : (a + BitVec.ofNat 32 k).toNat = a.toNat + k := by
  rw [BitVec.toNat_add, BitVec.toNat_ofNat, Nat.mod_eq_of_lt (a := k) (by omega), Nat.mod_eq_of_lt (by omega)]

theorem word_data (x y : U8) : (x.setWidth 32 <<< 8 ||| y.setWidth 32 : U32).toNat = x.toNat * 256 + y.toNat := by
  have hx := x.isLt
  have hy := y.isLt
  rw [BitVec.toNat_or, BitVec.toNat_shiftLeft, BitVec.toNat_setWidth, BitVec.toNat_setWidth, Nat.mod_eq_of_lt (a := x.toNat) (by omega),
    Nat.mod_eq_of_lt (a := y.toNat) (by omega), Nat.shiftLeft_eq, Nat.mod_eq_of_lt (by omega), Nat.mul_comm,
    ← Nat.two_pow_add_eq_or_of_lt (i := 8) (by omega)]

theorem long_data (x y z w : U8) : (x.setWidth 32 <<< 24 ||| y.setWidth 32 <<< 16 ||| z.setWidth 32 <<< 8 ||| w.setWidth 32 : U32).toNat =
    ((x.toNat * 256 + y.toNat) * 256 + z.toNat) * 256 + w.toNat := by
  have hx := x.isLt
  have hy := y.isLt
  have hz := z.isLt
  have hw := w.isLt
  simp only [BitVec.toNat_or, BitVec.toNat_shiftLeft, BitVec.toNat_setWidth, Nat.shiftLeft_eq]
  rw [Nat.mod_eq_of_lt (a := x.toNat) (by omega), Nat.mod_eq_of_lt (a := y.toNat) (by omega), Nat.mod_eq_of_lt (a := z.toNat) (by omega),
    Nat.mod_eq_of_lt (a := w.toNat) (by omega), Nat.mod_eq_of_lt (a := x.toNat * _) (by omega), Nat.mod_eq_of_lt (a := y.toNat * _) (by omega),
    Nat.mod_eq_of_lt (a := z.toNat * _) (by omega)]
  have e1 : x.toNat * 2 ^ 24 ||| y.toNat * 2 ^ 16 = 2 ^ 16 * (x.toNat * 256 + y.toNat) := by
    rw [show x.toNat * 2 ^ 24 = 2 ^ 24 * x.toNat by omega, ← Nat.two_pow_add_eq_or_of_lt (i := 24) (by omega)]
    omega
  have e2 : 2 ^ 16 * (x.toNat * 256 + y.toNat) ||| z.toNat * 2 ^ 8 = 2 ^ 8 * ((x.toNat * 256 + y.toNat) * 256 + z.toNat) := by
    rw [← Nat.two_pow_add_eq_or_of_lt (i := 16) (by omega)]
    omega
  rw [e1, e2, ← Nat.two_pow_add_eq_or_of_lt (i := 8) (by omega)]
  omega

theorem load_inside {i : U32} (h : i.toNat < 1048576) : u.load i = (u.bytes i.toNat, u) := by
  unfold CBuffer.load
  rw [show decide (i.toNat < MEMSIZE) = true from decide_eq_true h]
  simp

theorem store_inside {i : U32} (h : i.toNat < 1048576) (b : U8) :
    u.store i b = { u with bytes := fun j => if j = i.toNat then b else u.bytes j } := by
  unfold CBuffer.store
  rw [show decide (i.toNat < MEMSIZE) = true from decide_eq_true h]
  simp

theorem ofNat_byte {n : Nat} {b : U8} (h : n % 256 = b.toNat) : BitVec.ofNat 8 n = b := BitVec.eq_of_toNat_eq (by rw [BitVec.toNat_ofNat]; exact h)

/-- A read of bytes that are in the buffer: the callback reports no exception, its data are the bytes in big-endian order and nothing changes. -/
theorem C77_read (h : Inside sz a) : ∃ data : U32, readCallback sz ⟨exampleCallbacks, u⟩ a = (⟨data, 0⟩, u) ∧
    data.toNat < 256 ^ bytes sz ∧ ∀ k < bytes sz, beByte (low sz data) k = u.bytes (a.toNat + k) := by
  have hlt := a.isLt
  cases sz with
  | Byte =>
    have h0 : a.toNat < 1048576 := by simp only [Inside, bytes] at h; omega
    refine ⟨(u.bytes a.toNat).setWidth 32, ?_, ?_, ?_⟩
    · show exampleGetByte a u = _
      unfold exampleGetByte
      rw [if_pos (show a.toNat < MEMSIZE from h0), load_inside h0]
    · have := (u.bytes a.toNat).isLt
      rw [BitVec.toNat_setWidth]
      show _ < 256 ^ 1
      omega
    · intro k hk
      simp only [bytes] at hk
      obtain rfl : k = 0 := by omega
      unfold beByte
      apply ofNat_byte
      have := (u.bytes a.toNat).isLt
      simp only [low, width, bytes, BitVec.toNat_setWidth, BitVec.toNat_ofNat, Nat.add_zero, Nat.reduceSub, Nat.reducePow]
      omega
  | Word =>
    have h1 : a.toNat + 1 < 1048576 := by simp only [Inside, bytes] at h; omega
    have h0 : a.toNat < 1048576 := by omega
    have e1 : (a + 1).toNat = a.toNat + 1 := toNat_plus (k := 1) (by omega)
    refine ⟨(u.bytes a.toNat).setWidth 32 <<< 8 ||| (u.bytes (a.toNat + 1)).setWidth 32, ?_, ?_, ?_⟩
    · show exampleGetWord a u = _
      unfold exampleGetWord
      rw [if_pos (show a.toNat < MEMSIZE from h0), load_inside h0]
      dsimp only
      rw [load_inside (by rw [e1]; exact h1), e1]
    · have := (u.bytes a.toNat).isLt
      have := (u.bytes (a.toNat + 1)).isLt
      rw [word_data]
      show _ < 256 ^ 2
      omega
    · intro k hk
      simp only [bytes] at hk
      have := (u.bytes a.toNat).isLt
      have := (u.bytes (a.toNat + 1)).isLt
      unfold beByte
      apply ofNat_byte
      simp only [low, width, bytes, BitVec.toNat_ofNat, word_data]
      obtain rfl | rfl : k = 0 ∨ k = 1 := by omega
      all_goals simp only [Nat.add_zero, Nat.reduceSub, Nat.reducePow]; omega
  | Long =>
    have h3 : a.toNat + 3 < 1048576 := by simp only [Inside, bytes] at h; omega
    have h0 : a.toNat < 1048576 := by omega
    have e1 : (a + 1).toNat = a.toNat + 1 := toNat_plus (k := 1) (by omega)
    have e2 : (a + 2).toNat = a.toNat + 2 := toNat_plus (k := 2) (by omega)
    have e3 : (a + 3).toNat = a.toNat + 3 := toNat_plus (k := 3) (by omega)
    refine ⟨(u.bytes a.toNat).setWidth 32 <<< 24 ||| (u.bytes (a.toNat + 1)).setWidth 32 <<< 16 ||| (u.bytes (a.toNat + 2)).setWidth 32 <<< 8 |||
      (u.bytes (a.toNat + 3)).setWidth 32, ?_, ?_, ?_⟩
    · show exampleGetLong a u = _
      unfold exampleGetLong
      rw [if_pos (show a.toNat < MEMSIZE from h0), load_inside h0]
      dsimp only
      rw [load_inside (by rw [e1]; omega), e1]
      dsimp only
      rw [load_inside (by rw [e2]; omega), e2]
      dsimp only
      rw [load_inside (by rw [e3]; omega), e3]
    · have := (u.bytes a.toNat).isLt
      have := (u.bytes (a.toNat + 1)).isLt
      have := (u.bytes (a.toNat + 2)).isLt
      have := (u.bytes (a.toNat + 3)).isLt
      rw [long_data]
      show _ < 256 ^ 4
      omega
    · intro k hk
      simp only [bytes] at hk
      have := (u.bytes a.toNat).isLt
      have := (u.bytes (a.toNat + 1)).isLt
      have := (u.bytes (a.toNat + 2)).isLt
      have := (u.bytes (a.toNat + 3)).isLt
      unfold beByte
      apply ofNat_byte
      simp only [low, width, bytes, BitVec.toNat_ofNat, long_data]
      obtain rfl | rfl | rfl | rfl : k = 0 ∨ k = 1 ∨ k = 2 ∨ k = 3 := by omega
      all_goals simp only [Nat.add_zero, Nat.reduceSub, Nat.reducePow]; omega

theorem shifted_byte {w : Nat} (v : BitVec w) (n : Nat) : (v >>> n).setWidth 8 = BitVec.ofNat 8 (v.toNat / 2 ^ n) := by
  apply BitVec.eq_of_toNat_eq
  rw [BitVec.toNat_setWidth, BitVec.toNat_ushiftRight, Nat.shiftRight_eq_div_pow, BitVec.toNat_ofNat]

theorem low_byte {w : Nat} (v : BitVec w) : v.setWidth 8 = BitVec.ofNat 8 v.toNat := BitVec.eq_of_toNat_eq (by rw [BitVec.toNat_setWidth, BitVec.toNat_ofNat])

/-- A write of bytes that are in the buffer: the callback reports no exception, the bytes are those of the operand in big-endian order and nothing else changes. -/
theorem C77_write (h : Inside sz a) (v : Val sz) : ∃ u' : CBuffer, writeCallback sz ⟨exampleCallbacks, u⟩ a v = (⟨0, 0⟩, u') ∧
    u'.stray = u.stray ∧ ∀ j, u'.bytes j = if a.toNat ≤ j ∧ j < a.toNat + bytes sz then beByte v (j - a.toNat) else u.bytes j := by
  have hlt := a.isLt
  cases sz with
  | Byte =>
    have h0 : a.toNat < 1048576 := by simp only [Inside, bytes] at h; omega
    refine ⟨u.store a v, if_pos h0, by rw [store_inside h0], fun j => ?_⟩
    rw [store_inside h0, show bytes .Byte = 1 from rfl]
    dsimp only
    by_cases hj : j = a.toNat
    · subst hj
      rw [if_pos rfl, if_pos (by omega), Nat.sub_self]
      exact (ofNat_byte (by have := v.isLt; simp only [bytes, width] at this ⊢; omega)).symm
    · rw [if_neg hj, if_neg (by omega)]
  | Word =>
    have h1 : a.toNat + 1 < 1048576 := by simp only [Inside, bytes] at h; omega
    have h0 : a.toNat < 1048576 := by omega
    have e1 : (a + 1).toNat = a.toNat + 1 := toNat_plus (k := 1) (by omega)
    have e : (u.store a ((v >>> 8).setWidth 8)).store (a + 1) (v.setWidth 8) = ⟨fun j => if j = a.toNat + 1 then v.setWidth 8 else
        if j = a.toNat then (v >>> 8).setWidth 8 else u.bytes j, u.stray⟩ := by
      rw [store_inside (i := a + 1) (by rw [e1]; exact h1), store_inside h0, e1]
    refine ⟨_, if_pos h0, by rw [e], fun j => ?_⟩
    rw [e, show bytes .Word = 2 from rfl]
    dsimp only
    by_cases hj1 : j = a.toNat + 1
    · subst hj1
      rw [if_pos rfl, if_pos (by omega), Nat.add_sub_cancel_left, low_byte]
      simp [beByte, bytes]
    rw [if_neg hj1]
    by_cases hj : j = a.toNat
    · subst hj
      rw [if_pos rfl, if_pos (by omega), Nat.sub_self, shifted_byte]
      simp [beByte, bytes]
    · rw [if_neg hj, if_neg (by omega)]
  | Long =>
    have h3 : a.toNat + 3 < 1048576 := by simp only [Inside, bytes] at h; omega
    have h0 : a.toNat < 1048576 := by omega
    have e1 : (a + 1).toNat = a.toNat + 1 := toNat_plus (k := 1) (by omega)
    have e2 : (a + 2).toNat = a.toNat + 2 := toNat_plus (k := 2) (by omega)
    have e3 : (a + 3).toNat = a.toNat + 3 := toNat_plus (k := 3) (by omega)
    have e : (((u.store a ((v >>> 24).setWidth 8)).store (a + 1) ((v >>> 16).setWidth 8)).store (a + 2) ((v >>> 8).setWidth 8)).store (a + 3) (v.setWidth 8) =
        ⟨fun j => if j = a.toNat + 3 then v.setWidth 8 else if j = a.toNat + 2 then (v >>> 8).setWidth 8 else
          if j = a.toNat + 1 then (v >>> 16).setWidth 8 else if j = a.toNat then (v >>> 24).setWidth 8 else u.bytes j, u.stray⟩ := by
      rw [store_inside (i := a + 3) (by rw [e3]; exact h3), store_inside (i := a + 2) (by rw [e2]; omega), store_inside (i := a + 1) (by rw [e1]; omega),
        store_inside h0, e1, e2, e3]
    refine ⟨_, if_pos h0, by rw [e], fun j => ?_⟩
    rw [e, show bytes .Long = 4 from rfl]
    dsimp only
    by_cases hj3 : j = a.toNat + 3
    · subst hj3
      rw [if_pos rfl, if_pos (by omega), Nat.add_sub_cancel_left, low_byte]
      simp [beByte, bytes]
    rw [if_neg hj3]
    by_cases hj2 : j = a.toNat + 2
    · subst hj2
      rw [if_pos rfl, if_pos (by omega), Nat.add_sub_cancel_left, shifted_byte]
      simp [beByte, bytes]
    rw [if_neg hj2]
    by_cases hj1 : j = a.toNat + 1
    · subst hj1
      rw [if_pos rfl, if_pos (by omega), Nat.add_sub_cancel_left, shifted_byte]
      simp [beByte, bytes]
    rw [if_neg hj1]
    by_cases hj : j = a.toNat
    · subst hj
      rw [if_pos rfl, if_pos (by omega), Nat.sub_self, shifted_byte]
      simp [beByte, bytes]
    · rw [if_neg hj, if_neg (by omega)]

/-- An access that begins behind the buffer is reported as an access error and changes nothing. -/
theorem C77_refused (h : 1048576 ≤ a.toNat) (v : Val sz) :
    readCallback sz ⟨exampleCallbacks, u⟩ a = (⟨0, 2⟩, u) ∧ writeCallback sz ⟨exampleCallbacks, u⟩ a v = (⟨0, 2⟩, u) := by
  have h' : ¬ a.toNat < MEMSIZE := Nat.not_lt.2 h
  cases sz <;>
    simp [readCallback, writeCallback, exampleCallbacks, exampleGetByte, exampleGetWord, exampleGetLong, exampleSetByte, exampleSetWord, exampleSetLong, h', exampleError]

/-! ### With a core -/

/-- The accesses with an even address that are neither inside nor refused. -/
theorem inside_or {sz : Size} {a : U32} (ha : AlignedFor sz a) (hc : ¬ Crossing sz a) : Inside sz a ∨ 1048576 ≤ a.toNat := by
  unfold Inside
  by_cases h : 1048576 ≤ a.toNat
  · exact .inr h
  refine .inl ?_
  cases sz with
  | Byte => simp only [bytes]; omega
  | Word =>
    have ho : ¬ Spec.Odd a := fun ho => ha ⟨by decide, ho⟩
    unfold Spec.Odd at ho
    simp only [bytes]
    omega
  | Long =>
    have ho : ¬ Spec.Odd a := fun ho => ha ⟨by decide, ho⟩
    unfold Spec.Odd at ho
    have hne : a.toNat ≠ 1048574 := fun e => hc ⟨rfl, BitVec.eq_of_toNat_eq e⟩
    simp only [bytes]
    omega

/-- Whatever program a core executes, from whatever state and however the host uses it: if something outside of the buffer has been accessed, then there has been an
access to the long at address 1048574 (0xFFFFE), whose first two bytes are in the buffer. The full property would be that nothing outside is ever accessed. -/
theorem C77_stays_inside_partial {s s' : St (Recorded (FfiMemory CBuffer))} (hcb : s.mem.mem.cb = exampleCallbacks) (h0 : s.mem.mem.user.stray = false)
    (h : Runs C s s') (hs : s'.mem.mem.user.stray = true) : (Size.Long, (1048574 : U32)) ∈ s'.mem.log := by
  let I : Recorded (FfiMemory CBuffer) → Prop := fun r => r.mem.cb = exampleCallbacks ∧ (r.mem.user.stray = true → (Size.Long, (1048574 : U32)) ∈ r.log)
  let R : Recorded (FfiMemory CBuffer) → Recorded (FfiMemory CBuffer) → Prop := fun r r' => r = r' ∧ I r
  have note : ∀ {α : Type} (r : Recorded (FfiMemory CBuffer)) (sz : Size) (a : U32) (x : MRes (FfiMemory CBuffer) α), I r →
      (∀ y m, x = .val y m → m.cb = r.mem.cb ∧ (¬ Crossing sz a → m.user.stray = r.mem.user.stray)) →
      (∀ m, x = .none m → m.cb = r.mem.cb ∧ (¬ Crossing sz a → m.user.stray = r.mem.user.stray)) →
      SameOutcome R (r.note sz a x) (r.note sz a x) := by
    intro α r sz a x hr hv hn
    have key : ∀ m : FfiMemory CBuffer, m.cb = r.mem.cb ∧ (¬ Crossing sz a → m.user.stray = r.mem.user.stray) → I ⟨m, (sz, a) :: r.log⟩ := by
      rintro m ⟨h1, h2⟩
      refine ⟨h1.trans hr.1, fun hm => ?_⟩
      by_cases hc : Crossing sz a
      · obtain ⟨rfl, rfl⟩ := hc
        exact List.mem_cons_self
      · exact List.mem_cons_of_mem _ (hr.2 ((h2 hc).symm.trans hm))
    cases x with
    | val y m => exact ⟨rfl, rfl, key m (hv y m rfl)⟩
    | none m => exact ⟨rfl, key m (hn m rfl)⟩
    | panic => trivial
  have rd : ∀ (m : FfiMemory CBuffer) (sz : Size) (a : U32), m.cb = exampleCallbacks → AlignedFor sz a → ¬ Crossing sz a →
      (readCallback sz m a).2 = m.user ∧ ∀ v, (writeCallback sz m a v).2.stray = m.user.stray := by
    rintro ⟨cb, u⟩ sz a hm ha hc
    obtain rfl : cb = exampleCallbacks := hm
    rcases inside_or ha hc with hi | ho
    · obtain ⟨d, h1, -⟩ := C77_read (u := u) hi
      refine ⟨by rw [h1], fun v => ?_⟩
      obtain ⟨u', h2, h3, -⟩ := C77_write (u := u) hi v
      rw [h2]
      exact h3
    · refine ⟨?_, fun v => ?_⟩
      · rw [(C77_refused ho 0).1]
      · rw [(C77_refused ho v).2]
  have res : ∀ {α : Type} (m m' : FfiMemory CBuffer) (f : U32 → α) (r : MemoryResult × CBuffer),
      (∀ y, m.result f r = .val y m' → m'.cb = m.cb ∧ m'.user = r.2) ∧ (m.result f r = .none m' → m'.cb = m.cb ∧ m'.user = r.2) := by
    intro α m m' f r
    unfold FfiMemory.result
    split
    · exact ⟨fun y h => (by cases h; exact ⟨rfl, rfl⟩), fun h => (by cases h)⟩
    · exact ⟨fun y h => (by cases h), fun h => (by cases h; exact ⟨rfl, rfl⟩)⟩
  have get : ∀ {α : Type} (r : Recorded (FfiMemory CBuffer)) (sz : Size) (a : U32) (f : U32 → α), I r → AlignedFor sz a →
      SameOutcome R (r.note sz a (r.mem.result f (readCallback sz r.mem a))) (r.note sz a (r.mem.result f (readCallback sz r.mem a))) := by
    intro α r sz a f hr ha
    refine note r sz a _ hr (fun y m e => ?_) fun m e => ?_
    · obtain ⟨h1, h2⟩ := (res r.mem m f _).1 y e
      exact ⟨h1, fun hc => by rw [h2, (rd r.mem sz a hr.1 ha hc).1]⟩
    · obtain ⟨h1, h2⟩ := (res r.mem m f _).2 e
      exact ⟨h1, fun hc => by rw [h2, (rd r.mem sz a hr.1 ha hc).1]⟩
  have set : ∀ {α : Type} (r : Recorded (FfiMemory CBuffer)) (sz : Size) (a : U32) (v : Val sz) (f : U32 → α), I r → AlignedFor sz a →
      SameOutcome R (r.note sz a (r.mem.result f (writeCallback sz r.mem a v))) (r.note sz a (r.mem.result f (writeCallback sz r.mem a v))) := by
    intro α r sz a v f hr ha
    refine note r sz a _ hr (fun y m e => ?_) fun m e => ?_
    · obtain ⟨h1, h2⟩ := (res r.mem m f _).1 y e
      exact ⟨h1, fun hc => by rw [h2, (rd r.mem sz a hr.1 ha hc).2]⟩
    · obtain ⟨h1, h2⟩ := (res r.mem m f _).2 e
      exact ⟨h1, fun hc => by rw [h2, (rd r.mem sz a hr.1 ha hc).2]⟩
  have hR : Alike R :=
    { getByte := by rintro r _ a ⟨rfl, hr⟩; exact get r .Byte a toU8 hr (fun h => h.1 rfl)
      getWord := by rintro r _ a ⟨rfl, hr⟩ h; exact get r .Word a toU16 hr (fun h' => h h'.2)
      getLong := by rintro r _ a ⟨rfl, hr⟩ h; exact get r .Long a id hr (fun h' => h h'.2)
      setByte := by rintro r _ a v ⟨rfl, hr⟩; exact set r .Byte a v (fun _ => ()) hr (fun h => h.1 rfl)
      setWord := by rintro r _ a v ⟨rfl, hr⟩ h; exact set r .Word a v (fun _ => ()) hr (fun h' => h h'.2)
      setLong := by rintro r _ a v ⟨rfl, hr⟩ h; exact set r .Long a v (fun _ => ()) hr (fun h' => h h'.2)
      resetInstruction := by
        rintro r _ ⟨rfl, hr⟩
        refine ⟨rfl, hr.1, fun h => hr.2 ?_⟩
        have h' : (r.mem.cb.resetInstruction r.mem.user).stray = true := h
        rw [hr.1] at h'
        exact h' }
  have inv : I s'.mem := by
    clear hs
    induction h with
    | start => exact ⟨hcb, fun h => by rw [h0] at h; cases h⟩
    | call _ hx ih =>
      have h1 := sim_interpreterException hR C _ _ ⟨rfl, rfl, ih⟩
      rw [hx] at h1
      exact h1.2.2.2
    | host cpu _ ih => exact ih
  exact inv.2 hs

/-! ### The buffer as a Rust slice -/

theorem at_toNat {k : Nat} (h : a.toNat + k < 4294967296) : (at_ a k).toNat = a.toNat + k := toNat_plus h

theorem same_peek {m : FfiMemory CBuffer} {b : ByteSlice} (h : AsSlice m b) (hi : Inside sz a) {k : Nat} (hk : k < bytes sz) :
    Ram.peek b (at_ a k) = some (m.user.bytes (a.toNat + k)) := by
  unfold Inside at hi
  show b.bytes[(at_ a k).toNat]? = _
  rw [at_toNat (by omega)]
  exact h.bytes _ (by omega)

theorem same_get {m : FfiMemory CBuffer} {b : ByteSlice} (h : AsSlice m b) (ha : AlignedFor sz a) (hc : ¬ Crossing sz a) :
    SameOutcome AsSlice (memGet sz a m) (memGet sz a b) := by
  obtain ⟨cb, u⟩ := m
  obtain rfl : cb = exampleCallbacks := h.cb
  rw [memGet_ffi]
  rcases inside_or ha hc with hi | ho
  · obtain ⟨d, h1, -, h2⟩ := C77_read (u := u) hi
    obtain ⟨v, hv⟩ := Ram.get_present (m := b) ha (fun k hk => by rw [same_peek h hi hk]; rfl)
    obtain ⟨-, h3⟩ := Ram.get_val ha hv
    rw [h1, hv]
    refine ⟨beByte_ext fun k hk => ?_, h⟩
    have := (same_peek h hi hk).symm.trans (h3 k hk)
    rw [h2 k hk]
    exact Option.some.inj this
  · rw [(C77_refused ho 0).1, (C43_bytes_refused (m := b) (sz := sz) 0 (by rw [h.length]; exact ho)).1]
    exact h

theorem same_set {m : FfiMemory CBuffer} {b : ByteSlice} (h : AsSlice m b) (ha : AlignedFor sz a) (hc : ¬ Crossing sz a) (v : Val sz) :
    SameOutcome AsSlice (memSet sz a v m) (memSet sz a v b) := by
  obtain ⟨cb, u⟩ := m
  obtain rfl : cb = exampleCallbacks := h.cb
  rw [show memSet sz a v (⟨exampleCallbacks, u⟩ : FfiMemory CBuffer) =
    FfiMemory.result ⟨exampleCallbacks, u⟩ (fun _ => ()) (writeCallback sz ⟨exampleCallbacks, u⟩ a v) by cases sz <;> rfl]
  rcases inside_or ha hc with hi | ho
  · obtain ⟨u', h1, h2, h3⟩ := C77_write (u := u) hi v
    obtain ⟨b', hb⟩ := Writable.set_present' (m := b) (v := v) ha (fun k hk => by rw [same_peek h hi hk]; rfl)
    obtain ⟨h4, h5⟩ := Ram.set_val ha hb
    have h6 := Ram.set_present ha hb
    rw [h1, hb]
    unfold Inside at hi
    have peek : ∀ i < 1048576, b'.bytes[i]? = some (u'.bytes i) := by
      intro i hlt
      have ei : (BitVec.ofNat 32 i).toNat = i := by rw [BitVec.toNat_ofNat]; exact Nat.mod_eq_of_lt (by omega)
      have eb : ∀ c : ByteSlice, Ram.peek c (BitVec.ofNat 32 i) = c.bytes[i]? := fun c => by show c.bytes[(BitVec.ofNat 32 i).toNat]? = _; rw [ei]
      rw [h3 i]
      by_cases hr : a.toNat ≤ i ∧ i < a.toNat + bytes sz
      · rw [if_pos hr]
        have := h4 (i - a.toNat) (by omega)
        rw [show at_ a (i - a.toNat) = BitVec.ofNat 32 i from BitVec.eq_of_toNat_eq (by rw [at_toNat (by omega), ei]; omega), eb] at this
        exact this
      · rw [if_neg hr, ← eb b', h5 _ (fun k hk e => hr ?_), eb b]
        · exact h.bytes i hlt
        · have := congrArg BitVec.toNat e
          rw [ei, at_toNat (by omega)] at this
          omega
    refine ⟨rfl, rfl, h2.trans h.clean, ?_, peek⟩
    have hl : (Ram.peek b' (1048576 : U32)).isSome = (Ram.peek b (1048576 : U32)).isSome := h6 _
    have hn : Ram.peek b (1048576 : U32) = none := List.getElem?_eq_none (Nat.le_of_eq h.length)
    rw [hn] at hl
    have h7 : b'.bytes.length ≤ 1048576 := by
      cases hx : Ram.peek b' (1048576 : U32) with
      | none => exact List.getElem?_eq_none_iff.1 hx
      | some y => rw [hx] at hl; cases hl
    have h8 : 1048575 < b'.bytes.length := (List.getElem?_eq_some_iff.1 (peek 1048575 (by omega))).1
    omega
  · rw [(C77_refused ho v).2, (C43_bytes_refused (m := b) (sz := sz) v (by rw [h.length]; exact ho)).2]
    exact h

theorem same_alike : AlikeIn notCrossing AsSlice := by
  have nc : ∀ {sz : Size} {a : U32}, notCrossing sz a = true → ¬ Crossing sz a := by
    rintro sz a h ⟨rfl, rfl⟩
    exact absurd h (by decide)
  exact
    { getByte := fun m n a h hA => same_get (sz := .Byte) h (fun h => h.1 rfl) (nc hA)
      getWord := fun m n a h hA ho => same_get (sz := .Word) h (fun h' => ho h'.2) (nc hA)
      getLong := fun m n a h hA ho => same_get (sz := .Long) h (fun h' => ho h'.2) (nc hA)
      setByte := fun m n a v h hA => same_set (sz := .Byte) h (fun h => h.1 rfl) (nc hA) v
      setWord := fun m n a v h hA ho => same_set (sz := .Word) h (fun h' => ho h'.2) (nc hA) v
      setLong := fun m n a v h hA ho => same_set (sz := .Long) h (fun h' => ho h'.2) (nc hA) v
      resetInstruction := fun m n h => ⟨h.cb, by show (m.cb.resetInstruction _).stray = _; rw [h.cb]; exact h.clean, h.length,
        fun i hi => by show _ = some ((m.cb.resetInstruction _).bytes i); rw [h.cb]; exact h.bytes i hi⟩ }

/-- A call on the memory of the example that does not access the long at 1048574 (behind a fence that keeps it away): on the Rust slice of 1048576 bytes with the same
content the call has the same result, and afterwards the contents are the same again. What is missing is the access to this long. -/
theorem C77_as_slice_partial {c c' : Cpu} {m m' : FfiMemory CBuffer} {b : ByteSlice} {x : Nat × Option U8} (h : AsSlice m b)
    (hx : interpreterException C (⟨c, ⟨m⟩⟩ : St (Fenced notCrossing (FfiMemory CBuffer))) = .ok x ⟨c', ⟨m'⟩⟩) :
    interpreterException C ⟨c, m⟩ = .ok x ⟨c', m'⟩ ∧ ∃ b', interpreterException C ⟨c, b⟩ = .ok x ⟨c', b'⟩ ∧ AsSlice m' b' := by
  refine ⟨?_, C68_call same_alike h hx⟩
  have refl : AlikeIn (M := FfiMemory CBuffer) notCrossing Eq := by
    have same : ∀ {α : Type} (r : MRes (FfiMemory CBuffer) α), SameOutcome Eq r r := by
      intro α r
      cases r <;> first | exact ⟨rfl, rfl⟩ | exact rfl | trivial
    exact ⟨fun m n a h _ => h ▸ same _, fun m n a h _ _ => h ▸ same _, fun m n a h _ _ => h ▸ same _, fun m n a v h _ => h ▸ same _,
      fun m n a v h _ _ => h ▸ same _, fun m n a v h _ _ => h ▸ same _, fun m n h => h ▸ rfl⟩
  obtain ⟨n', h1, rfl⟩ := C68_call refl rfl hx
  exact h1

/-- The same for `cycle`, whatever the number of turns. -/
theorem C77_cycle_as_slice_partial {c : Cpu} {m : FfiMemory CBuffer} {b : ByteSlice} (h : AsSlice m b) (k turns : Nat) :
    SameLoopUnlessPanic (fun (f : Fenced notCrossing (FfiMemory CBuffer)) b => AsSlice f.mem b) (cycle C k (⟨c, ⟨m⟩⟩ : St (Fenced notCrossing (FfiMemory CBuffer))) turns)
      (cycle C k ⟨c, b⟩ turns) := C68_cycle same_alike h k turns

/-- A Rust slice for every content. -/
theorem C77_slice (f : Nat → U8) : ∃ b : ByteSlice, AsSlice (exampleMemory f) b := by
  have key : ∀ n : Nat, ∃ l : List U8, l.length = n ∧ ∀ i < n, l[i]? = some (f i) := fun n =>
    ⟨(List.range n).map f, by rw [List.length_map, List.length_range], fun i hi => by rw [List.getElem?_map, List.getElem?_range hi]; rfl⟩
  obtain ⟨l, h1, h2⟩ := key 1048576
  exact ⟨⟨l⟩, rfl, rfl, h1, h2⟩

/-- The content of the buffer for the example below: the stack pointer, the program counter 8 and MOVE.L ($FFFFE).L,D0. -/
def crossingProgram (i : Nat) : U8 := ([0, 0, 16, 0, 0, 0, 0, 8, 0x20, 0x39, 0x00, 0x0F, 0xFF, 0xFE] : List U8).getD i 0

/-- The full property is false: the one call of the example's `main`, on a new core, reads two bytes behind the buffer when the program reads the long at
0xFFFFE. It is not reported as an access error. -/
theorem C77_read_refuted : ∃ (n : Nat) (s' : St (FfiMemory CBuffer)), interpreter mc68000 ⟨Cpu.new, exampleMemory crossingProgram⟩ = .ok n s' ∧
    s'.mem.user.stray = true ∧ s'.cpu.exceptions = [] := ⟨_, _, rfl, rfl, rfl⟩

/-- MOVE.L D0,($FFFFE).L. -/
def crossingStore (i : Nat) : U8 := ([0, 0, 16, 0, 0, 0, 0, 8, 0x23, 0xC0, 0x00, 0x0F, 0xFF, 0xFE] : List U8).getD i 1

/-- A write to this long overwrites two bytes behind the buffer. -/
theorem C77_write_refuted : ∃ (n : Nat) (s' : St (FfiMemory CBuffer)), interpreter mc68000 ⟨Cpu.new, exampleMemory crossingStore⟩ = .ok n s' ∧
    s'.mem.user.stray = true ∧ s'.mem.user.bytes 1048576 ≠ crossingStore 1048576 ∧ s'.cpu.exceptions = [] := ⟨_, _, rfl, rfl, by decide, rfl⟩

/-- A new core that executes MOVE.L ($1000).L,D0 on the memory of the example, with the fence. -/
example : ∃ (x : Nat × Option U8) (c' : Cpu) (m' : FfiMemory CBuffer), interpreterException mc68000
    (⟨Cpu.new, ⟨exampleMemory fun i => ([0, 0, 16, 0, 0, 0, 0, 8, 0x20, 0x39, 0x00, 0x00, 0x10, 0x00] : List U8).getD i 7⟩⟩ :
      St (Fenced notCrossing (FfiMemory CBuffer))) = .ok x ⟨c', ⟨m'⟩⟩ ∧ c'.regs.d 0 = 0x07070707 := ⟨_, _, _, rfl, rfl⟩

/-- Addresses inside and behind the buffer. -/
example : Inside .Long 1048572 ∧ Inside .Word 1048574 ∧ ¬ Inside .Long 1048574 ∧ 1048576 ≤ (0xFFFFFFFF : U32).toNat := by
  unfold Inside; decide

end M68k.Props
