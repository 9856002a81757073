import Verif.Lemmas.Fence
import Verif.Lemmas.Ram
import Verif.Spec.Loop
import Verif.Props.DemoRam
/-
C68: what a program does depends only on the addresses it accesses. `Fenced A M` (Spec/Fence.lean) is the memory `M` with a fence around the region `A`.
-/
namespace M68k.Props
open Spec Exec
set_option linter.unusedSectionVars false
variable {M N : Type} [MemoryAccess M] [MemoryAccess N] {C : CpuDetails} {A : Region} {R : M → N → Prop} {c : Cpu} {m : M} {n : N}

/-- The fence leads every memory that answers alike in the region. -/
theorem leads_of_alikeIn (h : AlikeIn A R) : Fence.Leads (M := Fenced A M) (fun (f : Fenced A M) n => R f.mem n) := by
  have lift : ∀ {α : Type} {x : MRes M α} {y : MRes N α} {b : Bool}, (b = true → SameOutcome R x y) →
      Fence.LedOutcome (fun (f : Fenced A M) n => R f.mem n) (if b = true then Fenced.lift x else .panic) y := by
    intro α x y b hxy
    cases b with
    | false => trivial
    | true =>
      have := hxy rfl
      rw [if_pos rfl]
      cases x <;> cases y <;> first | exact this.elim | exact this
  refine ⟨fun f n a hr => lift fun hA => h.getByte _ _ _ hr hA, fun f n a hr ho => lift fun hA => h.getWord _ _ _ hr hA ho,
    fun f n a hr ho => lift fun hA => h.getLong _ _ _ hr hA ho, fun f n a v hr => lift fun hA => h.setByte _ _ _ _ hr hA,
    fun f n a v hr ho => lift fun hA => h.setWord _ _ _ _ hr hA ho, fun f n a v hr ho => lift fun hA => h.setLong _ _ _ _ hr hA ho,
    fun f n hr => h.resetInstruction _ _ hr⟩

/-- A call of `interpreter_exception` that makes no access outside the region, on one memory, does the same on every memory that answers alike in the region: the
same cycles, exception and processor state, and the memories answer alike again. -/
theorem C68_call {x : Nat × Option U8} {s' : St (Fenced A M)} (hR : AlikeIn A R) (h : R m n)
    (hx : interpreterException C (⟨c, ⟨m⟩⟩ : St (Fenced A M)) = .ok x s') :
    ∃ n', interpreterException C ⟨c, n⟩ = .ok x ⟨s'.cpu, n'⟩ ∧ R s'.mem.mem n' := by
  have h1 := Fence.sim_interpreterException (leads_of_alikeIn hR) C ⟨c, ⟨m⟩⟩ ⟨c, n⟩ ⟨rfl, h⟩
  rw [hx] at h1
  cases hy : interpreterException C (⟨c, n⟩ : St N) with
  | ok y t => rw [hy] at h1; obtain ⟨rfl, hc, hr⟩ := h1; exact ⟨t.mem, by rw [hc], hr⟩
  | err v t => rw [hy] at h1; exact h1.elim
  | panic => rw [hy] at h1; exact h1.elim

/-- The same for `interpreter`. -/
theorem C68_interpreter {k : Nat} {s' : St (Fenced A M)} (hR : AlikeIn A R) (h : R m n)
    (hx : interpreter C (⟨c, ⟨m⟩⟩ : St (Fenced A M)) = .ok k s') : ∃ n', interpreter C ⟨c, n⟩ = .ok k ⟨s'.cpu, n'⟩ ∧ R s'.mem.mem n' := by
  have h1 := Fence.sim_interpreter (leads_of_alikeIn hR) C ⟨c, ⟨m⟩⟩ ⟨c, n⟩ ⟨rfl, h⟩
  rw [hx] at h1
  cases hy : interpreter C (⟨c, n⟩ : St N) with
  | ok y t => rw [hy] at h1; obtain ⟨rfl, hc, hr⟩ := h1; exact ⟨t.mem, by rw [hc], hr⟩
  | err v t => rw [hy] at h1; exact h1.elim
  | panic => rw [hy] at h1; exact h1.elim

/-- The same for `cycle`, whatever the number of turns. -/
theorem C68_cycle (hR : AlikeIn A R) (h : R m n) (k turns : Nat) :
    SameLoopUnlessPanic (fun (f : Fenced A M) n => R f.mem n) (cycle C k (⟨c, ⟨m⟩⟩ : St (Fenced A M)) turns) (cycle C k ⟨c, n⟩ turns) := by
  have key : ∀ (turns total : Nat) (s : St (Fenced A M)) (t : St N), SameState (fun (f : Fenced A M) n => R f.mem n) s t →
      SameLoopUnlessPanic (fun (f : Fenced A M) n => R f.mem n) (cycleLoop C k turns total s) (cycleLoop C k turns total t) := by
    intro turns
    induction turns with
    | zero =>
      intro total s t hst
      unfold cycleLoop
      split
      · exact ⟨rfl, hst⟩
      · exact ⟨rfl, hst⟩
    | succ j ih =>
      intro total s t hst
      have h1 := Fence.sim_interpreter (leads_of_alikeIn hR) C s t hst
      unfold cycleLoop
      split
      · cases hx : interpreter C s <;> cases hy : interpreter C t <;> rw [hx, hy] at h1 <;> first | exact h1.elim | trivial | skip
        · obtain ⟨rfl, h2⟩ := h1
          dsimp only
          rw [← h2.1]
          split
          · exact ⟨rfl, h2⟩
          · exact ih _ _ _ h2
      · exact ⟨rfl, hst⟩
  exact key turns 0 _ _ ⟨rfl, h⟩

/-- The same for `cycle_until_exception`. -/
theorem C68_cycleUntilException (hR : AlikeIn A R) (h : R m n) (k turns : Nat) :
    SameLoopUnlessPanic (fun (f : Fenced A M) n => R f.mem n) (cycleUntilException C k (⟨c, ⟨m⟩⟩ : St (Fenced A M)) turns) (cycleUntilException C k ⟨c, n⟩ turns) := by
  have key : ∀ (turns total : Nat) (s : St (Fenced A M)) (t : St N), SameState (fun (f : Fenced A M) n => R f.mem n) s t →
      SameLoopUnlessPanic (fun (f : Fenced A M) n => R f.mem n) (cycleUntilExceptionLoop C k turns total s) (cycleUntilExceptionLoop C k turns total t) := by
    intro turns
    induction turns with
    | zero =>
      intro total s t hst
      unfold cycleUntilExceptionLoop
      split
      · exact ⟨rfl, hst⟩
      · exact ⟨rfl, hst⟩
    | succ j ih =>
      intro total s t hst
      have h1 := Fence.sim_interpreterException (leads_of_alikeIn hR) C s t hst
      unfold cycleUntilExceptionLoop
      split
      · cases hx : interpreterException C s <;> cases hy : interpreterException C t <;> rw [hx, hy] at h1 <;> first | exact h1.elim | trivial | skip
        · obtain ⟨rfl, h2⟩ := h1
          dsimp only
          rw [← h2.1]
          split
          · exact ⟨rfl, h2⟩
          · exact ih _ _ _ h2
      · exact ⟨rfl, hst⟩
  exact key turns 0 _ _ ⟨rfl, h⟩

/-- The same for `loop_until_exception_stop`. -/
theorem C68_loopUntilExceptionStop (hR : AlikeIn A R) (h : R m n) (turns : Nat) :
    SameLoopUnlessPanic (fun (f : Fenced A M) n => R f.mem n) (loopUntilExceptionStop C (⟨c, ⟨m⟩⟩ : St (Fenced A M)) turns) (loopUntilExceptionStop C ⟨c, n⟩ turns) := by
  have key : ∀ (turns total : Nat) (s : St (Fenced A M)) (t : St N), SameState (fun (f : Fenced A M) n => R f.mem n) s t →
      SameLoopUnlessPanic (fun (f : Fenced A M) n => R f.mem n) (loopUntilExceptionStopLoop C turns total s) (loopUntilExceptionStopLoop C turns total t) := by
    intro turns
    induction turns with
    | zero => intro total s t hst; exact ⟨rfl, hst⟩
    | succ j ih =>
      intro total s t hst
      have h1 := Fence.sim_interpreterException (leads_of_alikeIn hR) C s t hst
      unfold loopUntilExceptionStopLoop
      cases hx : interpreterException C s <;> cases hy : interpreterException C t <;> rw [hx, hy] at h1 <;> first | exact h1.elim | trivial | skip
      · obtain ⟨rfl, h2⟩ := h1
        dsimp only
        rw [← h2.1]
        split
        · exact ⟨rfl, h2⟩
        · exact ih _ _ _ h2
  exact key turns 0 _ _ ⟨rfl, h⟩

/-! ### Memories that are arrays of bytes -/

section
variable [Ram M] [Ram N] [Writable M] [Writable N] {P : U32 → Bool}

theorem bytesIn_iff {sz : Size} {a : U32} : bytesIn P sz a = true ↔ ∀ k < bytes sz, P (at_ a k) = true := by
  unfold bytesIn
  rw [List.all_eq_true]
  exact ⟨fun h k hk => h k (List.mem_range.2 hk), fun h k hk => h k (List.mem_range.1 hk)⟩

theorem beByte_ext {sz : Size} {v w : Val sz} (h : ∀ k < bytes sz, beByte v k = beByte w k) : v = w := by
  cases sz with
  | Byte =>
    have h0 := h 0 (by decide)
    rw [beByte_byte, beByte_byte] at h0
    exact h0
  | Word =>
    have h0 := congrArg BitVec.toNat (h 0 (by decide))
    have h1 := congrArg BitVec.toNat (h 1 (by decide))
    simp only [beByte, bytes, BitVec.toNat_ofNat] at h0 h1
    apply BitVec.eq_of_toNat_eq
    have hv : v.toNat < 65536 := v.isLt
    have hw : w.toNat < 65536 := w.isLt
    omega
  | Long =>
    have h0 := congrArg BitVec.toNat (h 0 (by decide))
    have h1 := congrArg BitVec.toNat (h 1 (by decide))
    have h2 := congrArg BitVec.toNat (h 2 (by decide))
    have h3 := congrArg BitVec.toNat (h 3 (by decide))
    simp only [beByte, bytes, BitVec.toNat_ofNat] at h0 h1 h2 h3
    apply BitVec.eq_of_toNat_eq
    have hv : v.toNat < 4294967296 := v.isLt
    have hw : w.toNat < 4294967296 := w.isLt
    omega

/-- Two arrays of bytes that agree where `P` holds answer alike there, and each changes only there. -/
theorem alikeIn_bytes (P : U32 → Bool) (n0 : N) : AlikeIn (M := M) (N := N) (bytesIn P) fun m n => AgreeIn P m n ∧ ChangedIn P n0 n := by
  have get : ∀ (sz : Size) (m : M) (n : N) (a : U32), AgreeIn P m n ∧ ChangedIn P n0 n → bytesIn P sz a = true → AlignedFor sz a →
      SameOutcome (fun m n => AgreeIn P m n ∧ ChangedIn P n0 n) (memGet sz a m) (memGet sz a n) := by
    intro sz m n a hr hA ha
    have hA := bytesIn_iff.1 hA
    obtain ⟨v, hv⟩ := Ram.get_present (m := m) ha fun k hk => by obtain ⟨b, h, -⟩ := hr.1 _ (hA k hk); rw [h]; rfl
    obtain ⟨w, hw⟩ := Ram.get_present (m := n) ha fun k hk => by obtain ⟨b, -, h⟩ := hr.1 _ (hA k hk); rw [h]; rfl
    rw [hv, hw]
    refine ⟨?_, hr⟩
    have h1 := (Ram.get_val ha hv).2
    have h2 := (Ram.get_val ha hw).2
    refine beByte_ext fun k hk => ?_
    obtain ⟨b, hm, hn⟩ := hr.1 _ (hA k hk)
    exact (Option.some.inj (hm.symm.trans (h1 k hk))).symm.trans (Option.some.inj (hn.symm.trans (h2 k hk)))
  have set : ∀ (sz : Size) (m : M) (n : N) (a : U32) (v : Val sz), AgreeIn P m n ∧ ChangedIn P n0 n → bytesIn P sz a = true → AlignedFor sz a →
      SameOutcome (fun m n => AgreeIn P m n ∧ ChangedIn P n0 n) (memSet sz a v m) (memSet sz a v n) := by
    intro sz m n a v hr hA ha
    have hA := bytesIn_iff.1 hA
    obtain ⟨m', hm⟩ := Writable.set_present' (m := m) (v := v) ha fun k hk => by obtain ⟨b, h, -⟩ := hr.1 _ (hA k hk); rw [h]; rfl
    obtain ⟨n', hn⟩ := Writable.set_present' (m := n) (v := v) ha fun k hk => by obtain ⟨b, -, h⟩ := hr.1 _ (hA k hk); rw [h]; rfl
    rw [hm, hn]
    have h1 := Ram.set_val ha hm
    have h2 := Ram.set_val ha hn
    refine ⟨rfl, fun b hb => ?_, fun b hb => ?_⟩
    · by_cases hk : ∃ k < bytes sz, b = at_ a k
      · obtain ⟨k, hk, rfl⟩ := hk
        exact ⟨_, h1.1 k hk, h2.1 k hk⟩
      · obtain ⟨x, hx, hy⟩ := hr.1 b hb
        exact ⟨x, (h1.2 b fun k hk' he => hk ⟨k, hk', he⟩).trans hx, (h2.2 b fun k hk' he => hk ⟨k, hk', he⟩).trans hy⟩
    · refine (h2.2 b fun k hk he => ?_).trans (hr.2 b hb)
      rw [he, hA k hk] at hb
      cases hb
  refine ⟨fun m n a hr hA => get .Byte m n a hr hA (fun h => h.1 rfl), fun m n a hr hA ho => get .Word m n a hr hA (fun h => ho h.2),
    fun m n a hr hA ho => get .Long m n a hr hA (fun h => ho h.2), fun m n a v hr hA => set .Byte m n a v hr hA (fun h => h.1 rfl),
    fun m n a v hr hA ho => set .Word m n a v hr hA (fun h => ho h.2), fun m n a v hr hA ho => set .Long m n a v hr hA (fun h => ho h.2),
    fun m n hr => ⟨fun a ha => ?_, fun a ha => ?_⟩⟩
  · rw [Ram.reset_peek, Ram.reset_peek]; exact hr.1 a ha
  · rw [Ram.reset_peek]; exact hr.2 a ha

/-- Two memories, of any kind and size, that agree on a set of addresses. A call that makes no access outside this set on the first one has on the second one the
same cycles, exception and processor state. The memories agree on the set again, and nothing else in the second one has changed. -/
theorem C68_memory {x : Nat × Option U8} {s' : St (Fenced (bytesIn P) M)} (h : AgreeIn P m n)
    (hx : interpreterException C (⟨c, ⟨m⟩⟩ : St (Fenced (bytesIn P) M)) = .ok x s') :
    ∃ n', interpreterException C ⟨c, n⟩ = .ok x ⟨s'.cpu, n'⟩ ∧ AgreeIn P s'.mem.mem n' ∧ ChangedIn P n n' :=
  C68_call (alikeIn_bytes P n) ⟨h, fun _ _ => rfl⟩ hx

/-- The same for `cycle`: whole runs. -/
theorem C68_memory_cycle (h : AgreeIn P m n) (k turns : Nat) :
    SameLoopUnlessPanic (fun (f : Fenced (bytesIn P) M) n' => AgreeIn P f.mem n' ∧ ChangedIn P n n') (cycle C k (⟨c, ⟨m⟩⟩ : St (Fenced (bytesIn P) M)) turns) (cycle C k ⟨c, n⟩ turns) :=
  C68_cycle (alikeIn_bytes P n) ⟨h, fun _ _ => rfl⟩ k turns

end

/-- A byte slice and a longer one that begins with it. -/
def LongerBy (L : Nat) (r : List U8) (m n : ByteSlice) : Prop := m.bytes.length = L ∧ n.bytes = m.bytes ++ r

theorem alikeIn_longer (L : Nat) (r : List U8) : AlikeIn (bytesIn fun a => a.toNat < L) (LongerBy L r) := by
  have byte : ∀ {a : U32}, bytesIn (fun a => a.toNat < L) .Byte a = true → a.toNat < L := by
    intro a hA
    have := bytesIn_iff.1 hA 0 (by decide)
    rw [at_zero] at this
    simpa using this
  have word : ∀ {a : U32}, bytesIn (fun a => a.toNat < L) .Word a = true → ¬ Spec.Odd a → a.toNat + 1 < L := by
    intro a hA ho
    have := bytesIn_iff.1 hA 1 (by decide)
    rw [show at_ a 1 = a + 1 from rfl] at this
    have := of_decide_eq_true this
    rw [toNat_succ ho] at this
    exact this
  have gw : ∀ (m n : ByteSlice) (a : U32), LongerBy L r m n → a.toNat + 1 < L → ∃ v, (MemoryAccess.getWord a m : MRes ByteSlice U16) = .val v m ∧
      (MemoryAccess.getWord a n : MRes ByteSlice U16) = .val v n := by
    intro m n a ⟨h1, h2⟩ ha
    have e0 : a.toNat < m.bytes.length := by omega
    have e1 : a.toNat + 1 < m.bytes.length := by omega
    have f0 : a.toNat < (m.bytes ++ r).length := by rw [List.length_append]; omega
    have f1 : a.toNat + 1 < (m.bytes ++ r).length := by rw [List.length_append]; omega
    refine ⟨_, by simp only [MemoryAccess.getWord, byteSliceGetWord, dif_pos e0, dif_pos e1, MRes.ofRead]; rfl, ?_⟩
    simp only [MemoryAccess.getWord, byteSliceGetWord, h2, dif_pos f0, dif_pos f1, MRes.ofRead, List.getElem_append_left e0, List.getElem_append_left e1]
  have sw : ∀ (m n : ByteSlice) (a : U32) (v : U16), LongerBy L r m n → a.toNat + 1 < L → ∃ m' n', (MemoryAccess.setWord a v m : MRes ByteSlice Unit) = .val () m' ∧
      (MemoryAccess.setWord a v n : MRes ByteSlice Unit) = .val () n' ∧ LongerBy L r m' n' := by
    intro m n a v ⟨h1, h2⟩ ha
    have e0 : a.toNat < m.bytes.length := by omega
    have e1 : a.toNat + 1 < m.bytes.length := by omega
    have f0 : a.toNat < (m.bytes ++ r).length := by rw [List.length_append]; omega
    have f1 : a.toNat + 1 < (m.bytes ++ r).length := by rw [List.length_append]; omega
    refine ⟨_, _, by simp only [MemoryAccess.setWord, byteSliceSetWord, if_pos e0, if_pos e1, MRes.ofWrite]; rfl,
      by simp only [MemoryAccess.setWord, byteSliceSetWord, h2, if_pos f0, if_pos f1, MRes.ofWrite]; rfl, ?_, ?_⟩
    · simp only [List.length_set]; exact h1
    · simp only
      rw [List.set_append_left _ _ e0, List.set_append_left _ _ (by rw [List.length_set]; exact e1)]
  have long : ∀ {a : U32}, bytesIn (fun a => a.toNat < L) .Long a = true → ¬ Spec.Odd a → a.toNat + 1 < L ∧ (a + 2).toNat + 1 < L := by
    intro a hA ho
    have h := bytesIn_iff.1 hA
    refine ⟨word (bytesIn_iff.2 fun k hk => h k (Nat.lt_trans hk (by decide))) ho, word (bytesIn_iff.2 fun k hk => ?_) (fun h => ho ((odd_two a).1 h))⟩
    have : at_ (a + 2) k = at_ a (2 + k) := by rw [← at_add]; rfl
    rw [this]
    refine h _ ?_
    have : k < 2 := hk
    show 2 + k < 4
    omega
  refine ⟨?_, ?_, ?_, ?_, ?_, ?_, fun _ _ h => h⟩
  · intro m n a hr hA
    have ha := byte hA
    obtain ⟨h1, h2⟩ := hr
    have e0 : a.toNat < m.bytes.length := by omega
    have f0 : a.toNat < (m.bytes ++ r).length := by rw [List.length_append]; omega
    simp only [MemoryAccess.getByte, byteSliceGetByte, h2, dif_pos e0, dif_pos f0, MRes.ofRead, List.getElem_append_left e0]
    exact ⟨rfl, h1, h2⟩
  · intro m n a hr hA ho
    obtain ⟨v, h1, h2⟩ := gw m n a hr (word hA ho)
    rw [h1, h2]
    exact ⟨rfl, hr⟩
  · intro m n a hr hA ho
    obtain ⟨v, h1, h2⟩ := gw m n a hr (long hA ho).1
    obtain ⟨w, h3, h4⟩ := gw m n (a + 2) hr (long hA ho).2
    have em := byteSlice_laws.getLong a m
    have en := byteSlice_laws.getLong a n
    rw [h1] at em
    rw [h2] at en
    dsimp only at em en
    rw [h3] at em
    rw [h4] at en
    rw [em, en]
    exact ⟨rfl, hr⟩
  · intro m n a v hr hA
    have ha := byte hA
    obtain ⟨h1, h2⟩ := hr
    have e0 : a.toNat < m.bytes.length := by omega
    have f0 : a.toNat < (m.bytes ++ r).length := by rw [List.length_append]; omega
    simp only [MemoryAccess.setByte, byteSliceSetByte, h2, if_pos e0, if_pos f0, MRes.ofWrite]
    exact ⟨rfl, by simp only [List.length_set]; exact h1, by simp only; rw [List.set_append_left _ _ e0]⟩
  · intro m n a v hr hA ho
    obtain ⟨m', n', h1, h2, h3⟩ := sw m n a v hr (word hA ho)
    rw [h1, h2]
    exact ⟨rfl, h3⟩
  · intro m n a v hr hA ho
    obtain ⟨m', n', h1, h2, h3⟩ := sw m n a (toU16 (v >>> 16)) hr (long hA ho).1
    obtain ⟨m2, n2, h4, h5, h6⟩ := sw m' n' (a + 2) (toU16 v) h3 (long hA ho).2
    rw [byteSlice_laws.setLong, byteSlice_laws.setLong, h1, h2]
    dsimp only
    rw [h4, h5]
    exact ⟨rfl, h6⟩

/-- A byte slice and a longer one that begins with it: a call that stays in the first is the same in the second. The rest of the longer slice does not change. -/
theorem C68_longer {m r : List U8} {x : Nat × Option U8} {s' : St (Fenced (bytesIn fun a => a.toNat < m.length) ByteSlice)}
    (hx : interpreterException C (⟨c, ⟨⟨m⟩⟩⟩ : St (Fenced (bytesIn fun a => a.toNat < m.length) ByteSlice)) = .ok x s') :
    ∃ m', m'.length = m.length ∧ s'.mem.mem = ⟨m'⟩ ∧ interpreterException C (⟨c, ⟨m ++ r⟩⟩ : St ByteSlice) = .ok x ⟨s'.cpu, ⟨m' ++ r⟩⟩ := by
  obtain ⟨n', h1, h2, h3⟩ := C68_call (alikeIn_longer m.length r) (m := ⟨m⟩) (n := ⟨m ++ r⟩) ⟨rfl, rfl⟩ hx
  obtain ⟨n'⟩ := n'
  dsimp only at h3
  subst h3
  exact ⟨s'.mem.mem.bytes, h2, rfl, h1⟩

/-- In a longer slice the program may do more than in a shorter one: accesses outside the shorter one are refused there and succeed in the longer one. The fence is
necessary. `MOVE.B $8,D0` in six and in ten bytes. -/
theorem C68_fence_needed : ∃ c s s', interpreterException mc68000 (⟨c, ⟨[0x10, 0x38, 0, 8, 0, 0]⟩⟩ : St ByteSlice) = .ok (0, some 2) s ∧
    interpreterException mc68000 (⟨c, ⟨[0x10, 0x38, 0, 8, 0, 0] ++ [7, 7, 7, 7]⟩⟩ : St ByteSlice) = .ok (12, none) s' :=
  ⟨Cpu.newNoReset, _, _, rfl, rfl⟩

/-- `MOVE.W D0,$4` behind a fence around six bytes. -/
example : ∃ s', interpreterException mc68000 (⟨Cpu.newNoReset, ⟨⟨[0x31, 0xC0, 0, 4, 1, 1]⟩⟩⟩ :
    St (Fenced (bytesIn fun a => a.toNat < [0x31, 0xC0, 0, 4, 1, (1 : U8)].length) ByteSlice)) = .ok (12, none) s' := ⟨_, rfl⟩

/-- A byte slice and a word slice that agree on the first two bytes only. -/
example : AgreeIn (fun a => a.toNat < 2) (⟨[0x4E, 0x71]⟩ : ByteSlice) (⟨[0x4E71, 0xFFFF]⟩ : WordSlice) := by
  intro a ha
  have ha : a.toNat < 2 := by simpa using ha
  have h0 : a = 0 ∨ a = 1 := by
    rcases (by omega : a.toNat = 0 ∨ a.toNat = 1) with h | h
    · exact .inl (BitVec.eq_of_toNat_eq h)
    · exact .inr (BitVec.eq_of_toNat_eq h)
  rcases h0 with rfl | rfl
  · exact ⟨0x4E, rfl, rfl⟩
  · exact ⟨0x71, rfl, rfl⟩

end M68k.Props
