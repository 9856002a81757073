import Verif.Lemmas.MovemRam
import Verif.Lemmas.Refine
import Verif.Lemmas.Alike
import Verif.Spec.Exception
/-
Exception entry.
-/
namespace M68k
namespace Exec
open Spec
set_option linter.unusedSectionVars false
variable {M : Type} [MemoryAccess M] {s s' : St M} {sz : Size} {a a' : U32} {C : CpuDetails} {v : U8}

/-- A word or a long word to push. -/
inductive Item
  | w (x : U16)
  | l (x : U32)

def Item.words : Item → List U16
  | .w x => [x]
  | .l x => Spec.words x

def Item.push : Item → Exec M Unit
  | .w x => Spec.push .Word x
  | .l x => Spec.push .Long x

def pushItems : List Item → Exec M Unit
  | [] => pure ()
  | i :: is => do
    i.push
    pushItems is

/-- What is in memory after the pushes. -/
def stacked : List Item → List U16
  | [] => []
  | i :: is => stacked is ++ i.words

theorem interruptVector_iff : isInterrupt v = true ↔ InterruptVector v := by
  unfold isInterrupt InterruptVector
  simp [BitVec.le_def]

theorem level_eq : v &&& 7 = BitVec.ofNat 8 (level v) := by
  apply BitVec.eq_of_toNat_eq
  unfold level
  rw [BitVec.toNat_and]
  have : (7 : U8).toNat = 2 ^ 3 - 1 := rfl
  rw [this, Nat.and_two_pow_sub_one_eq_mod, BitVec.toNat_ofNat]
  omega

theorem held_iff {mask : U8} {e : Exception} : isHeld mask e = true ↔ Masked mask e.vector := by
  unfold isHeld Masked Exception.isInterrupt
  have h : level e.vector < 8 := Nat.mod_lt _ (by decide)
  have h7 : e.vector &&& 7 = 7 ↔ level e.vector = 7 := by
    rw [level_eq]
    constructor
    · intro h'
      have := congrArg BitVec.toNat h'
      simp at this
      omega
    · intro h'; rw [h']; rfl
  rw [Bool.and_eq_true, interruptVector_iff, Bool.and_eq_true, bne_iff_ne, ne_eq, h7, decide_eq_true_eq]
  rw [level_eq, BitVec.le_def, BitVec.toNat_ofNat, Nat.mod_eq_of_lt (by omega)]
  constructor
  · rintro ⟨h1, h2, h3⟩; exact ⟨h1, h3, h2⟩
  · rintro ⟨h1, h2, h3⟩; exact ⟨h1, h3, h2⟩

/-- The pushes of a frame. -/
def frameItems (format : StackFormat) (v : U8) (sr : U16) (pc : U32) (opcode : U16) : List Item :=
  match format with
  | .MC68000 => [.l pc, .w sr] ++ (if LongFrame v then [.w opcode, .l 0, .w 0] else [])
  | .SCC68070 =>
    (if LongFrame v then [.w 0, .w opcode, .w opcode, .l 0, .l 0, .l 0, .w 0, .w 0, .w 0, .w 0, .w (BitVec.ofNat 16 (0xF000 + 4 * v.toNat))]
      else [.w (BitVec.ofNat 16 (4 * v.toNat))]) ++ [.l pc, .w sr]

theorem stacked_frame (format : StackFormat) (v : U8) (sr : U16) (pc : U32) (opcode : U16) :
    stacked (frameItems format v sr pc opcode) = frame format v sr pc opcode := by
  unfold frameItems frame
  cases format <;> dsimp only <;> split <;> rfl

theorem frame_length (format : StackFormat) (v : U8) (sr : U16) (pc : U32) (opcode : U16) :
    2 * (frame format v sr pc opcode).length = frameBytes format v := by
  unfold frame frameBytes
  cases format <;> dsimp only <;> split <;> rfl

/-- Exception entry. -/
def enter (C : CpuDetails) (v : U8) : Exec M Nat := fun s =>
  (do
    setFlags (entrySr v)
    pushItems (frameItems C.STACK_FORMAT v (srWord s.cpu.regs.sr) s.cpu.regs.pc s.cpu.currentOpcode)
    let pc ← access (MemoryAccess.getLong (vectorAddress v))
    jump pc
    pure (C.vectorExecutionTime v) : Exec M Nat) s

theorem toU32_vector : toU32 v * 4 = vectorAddress v := by
  apply BitVec.eq_of_toNat_eq
  unfold toU32 vectorAddress
  have : v.toNat < 256 := v.isLt
  simp
  omega
theorem toU16_vector : toU16 v * 4 = BitVec.ofNat 16 (4 * v.toNat) := by
  apply BitVec.eq_of_toNat_eq
  unfold toU16
  have : v.toNat < 256 := v.isLt
  simp
  omega
theorem format_vector : (0xF000 ||| (toU16 v * 4) : U16) = BitVec.ofNat 16 (0xF000 + 4 * v.toNat) := by
  rw [toU16_vector]
  apply BitVec.eq_of_toNat_eq
  have : v.toNat < 256 := v.isLt
  rw [BitVec.toNat_or, BitVec.toNat_ofNat, BitVec.toNat_ofNat]
  rw [Nat.mod_eq_of_lt (show 4 * v.toNat < 2 ^ 16 by omega), Nat.mod_eq_of_lt (show 0xF000 + 4 * v.toNat < 2 ^ 16 by omega)]
  have := Nat.two_pow_add_eq_or_of_lt (i := 12) (b := 4 * v.toNat) (by omega) 15
  exact this.symm

theorem getOpcode_bind {α : Type} (f : U16 → Exec M α) : (getCurrentOpcode >>= f) s = f s.cpu.currentOpcode s := rfl

theorem bind_congr_at {α β : Type} {x x' : Exec M α} {f f' : α → Exec M β} (hx : x s = x' s) (hf : ∀ a t, x' s = .ok a t → f a t = f' a t) :
    (x >>= f) s = (x' >>= f') s := by
  rw [Exec.bind_apply, Exec.bind_apply, hx]
  cases h : x' s with
  | ok a t => exact hf a t h
  | err e t => rfl
  | panic => rfl

theorem access_cpu {α : Type} {f : M → MRes M α} {x : α} (h : access f s = .ok x s') : s'.cpu = s.cpu := by
  unfold access at h
  split at h
  · cases h; rfl
  · cases h
  · cases h

/-- A push leaves the opcode and the program counter alone. -/
theorem push_keeps {sz : Size} {x : Val sz} (h : Spec.push sz x s = .ok () s') : s'.cpu.currentOpcode = s.cpu.currentOpcode ∧ s'.cpu.regs.pc = s.cpu.regs.pc := by
  unfold Spec.push write at h
  obtain ⟨p, t, h1, h⟩ := bind_ok h
  cases h1
  have h : store sz _ x (s.withRegs fun r => setAreg r 7 (areg r 7 - Spec.step 7 sz)) = .ok () s' := h
  unfold store at h
  split at h
  · cases h
  · rw [access_cpu h]
    exact ⟨rfl, setAreg_pc _ _ _⟩

theorem frameMC68000 (sr : U16) :
    pushFrameMC68000 v sr s = pushItems (frameItems .MC68000 v sr s.cpu.regs.pc s.cpu.currentOpcode) s := by
  unfold pushFrameMC68000 frameItems
  rw [getPc_eq, getR_bind_apply]
  have hl : (v = 2 || v = 3 : Bool) = decide (LongFrame v) := by
    rw [← Bool.decide_or]; exact decide_eq_decide.2 Iff.rfl
  rw [pushLong_eq]
  refine bind_congr_at rfl fun _ t ht => ?_
  rw [pushWord_eq]
  have ht : Spec.push .Long _ s = .ok () t := ht
  refine bind_congr_at rfl fun _ u hu => ?_
  have hu : Spec.push .Word _ t = .ok () u := hu
  have ho : u.cpu.currentOpcode = s.cpu.currentOpcode := by rw [(push_keeps hu).1, (push_keeps ht).1]
  by_cases h : LongFrame v
  · have : (v = 2 || v = 3 : Bool) = true := by rw [hl]; exact decide_eq_true h
    rw [if_pos (by simpa using this), getOpcode_bind, if_pos h, ho, pushWord_eq, pushWord_eq, pushLong_eq]
    refine bind_congr_at rfl fun _ t ht => ?_
    refine bind_congr_at rfl fun _ t ht => ?_
    exact congrFun (bind_pure_unit (x := Spec.push .Word (0 : U16))).symm t
  · have : ¬ (v = 2 || v = 3 : Bool) = true := by rw [hl]; simpa using h
    rw [if_neg (by simpa using this), if_neg h]
    rfl

theorem pushItems_append (is js : List Item) : (pushItems (is ++ js) : Exec M Unit) = (do pushItems is; pushItems js) := by
  induction is with
  | nil => rfl
  | cons i is ih =>
    show (i.push >>= fun _ => pushItems (is ++ js)) = ((i.push >>= fun _ => pushItems is) >>= fun _ => pushItems js)
    rw [ih, bind_assoc]

theorem pushItems_keeps {is : List Item} (h : pushItems is s = .ok () s') : s'.cpu.currentOpcode = s.cpu.currentOpcode ∧ s'.cpu.regs.pc = s.cpu.regs.pc := by
  induction is generalizing s with
  | nil => cases h; exact ⟨rfl, rfl⟩
  | cons i is ih =>
    obtain ⟨_, t, h1, h2⟩ := bind_ok h
    obtain ⟨e1, e2⟩ := ih h2
    have : t.cpu.currentOpcode = s.cpu.currentOpcode ∧ t.cpu.regs.pc = s.cpu.regs.pc := by
      cases i with
      | w x => exact push_keeps h1
      | l x => exact push_keeps h1
    exact ⟨e1.trans this.1, e2.trans this.2⟩

theorem frameSCC68070 (sr : U16) :
    pushFrameSCC68070 v sr s = pushItems (frameItems .SCC68070 v sr s.cpu.regs.pc s.cpu.currentOpcode) s := by
  unfold pushFrameSCC68070 frameItems
  have hl : (v = 2 || v = 3 : Bool) = decide (LongFrame v) := by
    rw [← Bool.decide_or]; exact decide_eq_decide.2 Iff.rfl
  dsimp only
  rw [pushItems_append]
  refine bind_congr_at ?_ fun _ t ht => ?_
  · by_cases h : LongFrame v
    · have : (v = 2 || v = 3 : Bool) = true := by rw [hl]; exact decide_eq_true h
      rw [if_pos (by simpa using this), if_pos h, pushWord_eq]
      refine bind_congr_at rfl fun _ t ht => ?_
      have ht : Spec.push .Word _ s = .ok () t := ht
      rw [getOpcode_bind, (push_keeps ht).1, pushWord_eq]
      refine bind_congr_at rfl fun _ u hu => ?_
      have hu : Spec.push .Word _ t = .ok () u := hu
      rw [getOpcode_bind, (push_keeps hu).1, (push_keeps ht).1, pushWord_eq]
      refine bind_congr_at rfl fun _ t ht => ?_
      rw [pushLong_eq]
      refine bind_congr_at rfl fun _ t ht => ?_
      refine bind_congr_at rfl fun _ t ht => ?_
      refine bind_congr_at rfl fun _ t ht => ?_
      rw [pushWord_eq]
      refine bind_congr_at rfl fun _ t ht => ?_
      refine bind_congr_at rfl fun _ t ht => ?_
      refine bind_congr_at rfl fun _ t ht => ?_
      refine bind_congr_at rfl fun _ t ht => ?_
      rw [format_vector]
      exact congrFun (bind_pure_unit (x := Spec.push .Word _)).symm t
    · have : ¬ (v = 2 || v = 3 : Bool) = true := by rw [hl]; simpa using h
      rw [if_neg (by simpa using this), if_neg h, pushWord_eq, toU16_vector]
      exact congrFun (bind_pure_unit (x := Spec.push .Word _)).symm s
  · rw [getPc_eq, getR_bind_apply, (pushItems_keeps ht).2, pushLong_eq]
    refine bind_congr_at rfl fun _ t ht => ?_
    rw [pushWord_eq]
    exact congrFun (bind_pure_unit (x := Spec.push .Word _)).symm t

theorem processException_eq : processException C v s = enter C v s := by
  unfold processException enter
  rw [getSr_eq, getR_bind_apply]
  have h1 : ∀ (f : Exec M Nat), (modifySr (fun sr => { sr with t := false, s := true }) >>= fun _ =>
      (if isInterrupt v then modifySr fun sr => { sr with interruptMask := v &&& 7 } else pure ()) >>= fun _ => f) s =
      (setFlags (entrySr v) >>= fun _ => f) s := by
    intro f
    by_cases h : InterruptVector v
    · rw [if_pos (interruptVector_iff.2 h)]
      show f _ = f _
      congr 1
      have : entrySr v s.cpu.regs.sr = { s.cpu.regs.sr with t := false, s := true, interruptMask := v &&& 7 } := by
        unfold entrySr
        rw [if_pos h, level_eq]
      dsimp only
      rw [this]
    · rw [if_neg (fun h' => h (interruptVector_iff.1 h'))]
      show f _ = f _
      congr 1
      have : entrySr v s.cpu.regs.sr = { s.cpu.regs.sr with t := false, s := true } := by
        unfold entrySr
        rw [if_neg h]
      dsimp only
      rw [this]
  rw [h1]
  refine bind_congr_at rfl fun _ t ht => ?_
  cases ht
  refine bind_congr_at ?_ fun _ t ht => ?_
  · rw [toU16_eq]
    cases C.STACK_FORMAT with
    | MC68000 => exact frameMC68000 _
    | SCC68070 => exact frameSCC68070 _
  · rw [mem_eq, toU32_vector]
    rfl

section
variable [Ram M] {m : M}

theorem holdsWords_run {ws : List U16} : HoldsWords m a ws ↔ Run .Word m a ws := Iff.rfl

theorem words_holds {x : U32} (h : Holds (sz := .Long) m a x) : Run .Word m a (Spec.words x) := by
  have hx := x.isLt
  have h0 := h 0 (by decide)
  have h1 := h 1 (by decide)
  have h2 := h 2 (by decide)
  have h3 := h 3 (by decide)
  unfold beByte at h0 h1 h2 h3
  simp only [bytes] at h0 h1 h2 h3
  unfold Spec.words
  rw [run_cons, run_cons]
  refine ⟨?_, ?_, Run.nil⟩
  · intro k hk
    obtain rfl | rfl : k = 0 ∨ k = 1 := by simp [bytes] at hk; omega
    · rw [h0]
      congr 1
      apply BitVec.eq_of_toNat_eq
      unfold beByte
      simp [bytes, width]
      omega
    · rw [h1]
      congr 1
      apply BitVec.eq_of_toNat_eq
      unfold beByte
      simp [bytes, width]
      try omega
  · intro k hk
    rw [at_add]
    obtain rfl | rfl : k = 0 ∨ k = 1 := by simp [bytes] at hk; omega
    · rw [show bytes .Word + 0 = 2 from rfl, h2]
      congr 1
      apply BitVec.eq_of_toNat_eq
      unfold beByte
      simp [bytes, width]
      omega
    · rw [show bytes .Word + 1 = 3 from rfl, h3]
      congr 1
      apply BitVec.eq_of_toNat_eq
      unfold beByte
      simp [bytes, width]
      try omega

theorem step7 (hsz : sz ≠ .Byte) : Spec.step 7 sz = BitVec.ofNat 32 (bytes sz) := by
  cases sz <;> first | exact absurd rfl hsz | rfl

theorem areg7_s (r : Registers) (h : r.sr.s = true) : areg r 7 = r.ssp := by
  unfold areg
  rw [dif_neg (by decide), if_pos h]
theorem setAreg7_s (r : Registers) (h : r.sr.s = true) (x : U32) : setAreg r 7 x = { r with ssp := x } := by
  unfold setAreg
  rw [dif_neg (by decide), if_pos h]

/-- One push in supervisor mode. -/
theorem item_done {i : Item} (hs : s.cpu.regs.sr.s = true) (h : i.push s = .ok () s') :
    s' = { s.withRegs (fun r => { r with ssp := s.cpu.regs.ssp - BitVec.ofNat 32 (2 * i.words.length) }) with mem := s'.mem } ∧
    Run .Word s'.mem (s.cpu.regs.ssp - BitVec.ofNat 32 (2 * i.words.length)) i.words ∧
    SameExcept s.mem s'.mem (s.cpu.regs.ssp - BitVec.ofNat 32 (2 * i.words.length)) (2 * i.words.length) := by
  cases i with
  | w x =>
    obtain ⟨-, e2, e3, e4⟩ := push_done (sz := .Word) h
    rw [areg7_s _ hs, step7 (by decide)] at e3 e4
    refine ⟨?_, ?_, e4⟩
    · rw [e2]
      unfold St.withRegs
      dsimp only
      rw [setAreg7_s _ hs, areg7_s _ hs, step7 (by decide)]
      rfl
    · exact run_cons.2 ⟨e3, Run.nil⟩
  | l x =>
    obtain ⟨-, e2, e3, e4⟩ := push_done (sz := .Long) h
    rw [areg7_s _ hs, step7 (by decide)] at e3 e4
    refine ⟨?_, words_holds e3, e4⟩
    rw [e2]
    unfold St.withRegs
    dsimp only
    rw [setAreg7_s _ hs, areg7_s _ hs, step7 (by decide)]
    rfl

theorem stacked_cons (i : Item) (is : List Item) : 2 * (stacked (i :: is)).length = 2 * (stacked is).length + 2 * i.words.length := by
  show 2 * (stacked is ++ i.words).length = _
  rw [List.length_append]; omega

theorem sub_sub_ofNat (a : U32) (j k : Nat) : a - BitVec.ofNat 32 j - BitVec.ofNat 32 k = a - BitVec.ofNat 32 (k + j) := by
  rw [BitVec.sub_sub, BitVec.ofNat_add, BitVec.add_comm]

theorem at_sub_le (a : U32) {j k : Nat} : at_ (a - BitVec.ofNat 32 (j + k)) j = a - BitVec.ofNat 32 k := by
  rw [show j + k = k + j from Nat.add_comm _ _, BitVec.ofNat_add, ← BitVec.sub_sub]
  exact at_sub _ _

/-- The pushes in supervisor mode. -/
theorem pushItems_done {is : List Item} (hs : s.cpu.regs.sr.s = true) (hl : 2 * (stacked is).length < 2 ^ 32) (h : pushItems is s = .ok () s') :
    s' = { s.withRegs (fun r => { r with ssp := s.cpu.regs.ssp - BitVec.ofNat 32 (2 * (stacked is).length) }) with mem := s'.mem } ∧
    Run .Word s'.mem (s.cpu.regs.ssp - BitVec.ofNat 32 (2 * (stacked is).length)) (stacked is) ∧
    SameExcept s.mem s'.mem (s.cpu.regs.ssp - BitVec.ofNat 32 (2 * (stacked is).length)) (2 * (stacked is).length) := by
  induction is generalizing s with
  | nil =>
    have hss : s' = s := by cases h; rfl
    rw [hss]
    refine ⟨?_, Run.nil, fun _ _ => rfl⟩
    show s = { s with cpu := { s.cpu with regs := { s.cpu.regs with ssp := s.cpu.regs.ssp - 0 } } }
    rw [show s.cpu.regs.ssp - 0 = s.cpu.regs.ssp from BitVec.sub_zero _]
  | cons i is ih =>
    obtain ⟨_, t, h1, h2⟩ := bind_ok h
    obtain ⟨e1, e2, e3⟩ := item_done hs h1
    rw [stacked_cons] at hl
    have hst : t.cpu.regs.sr.s = true := by rw [e1]; exact hs
    obtain ⟨f1, f2, f3⟩ := ih hst (by omega) h2
    have hssp : t.cpu.regs.ssp = s.cpu.regs.ssp - BitVec.ofNat 32 (2 * i.words.length) := by rw [e1]; rfl
    rw [hssp, sub_sub_ofNat, ← stacked_cons] at f1 f2 f3
    refine ⟨?_, ?_, ?_⟩
    · rw [f1, e1]; rfl
    · show Run .Word _ _ (stacked is ++ i.words)
      rw [run_append]
      refine ⟨f2, ?_⟩
      have hat : at_ (s.cpu.regs.ssp - BitVec.ofNat 32 (2 * (stacked (i :: is)).length)) (2 * (stacked is).length) =
          s.cpu.regs.ssp - BitVec.ofNat 32 (2 * i.words.length) := by
        rw [stacked_cons]
        exact at_sub_le _
      rw [show bytes .Word * (stacked is).length = 2 * (stacked is).length from rfl, hat]
      intro k hk
      refine (e2 k hk).of_eq fun j hj => ?_
      refine f3 _ fun n hn heq => ?_
      rw [← hat, at_add, at_add] at heq
      rw [show bytes .Word = 2 from rfl] at heq hj
      have := at_inj (by omega) (by omega) heq
      omega
    · intro b hb
      rw [f3 b fun k hk => hb k (by rw [stacked_cons]; omega), e3 b fun k hk => ?_]
      have hat : at_ (s.cpu.regs.ssp - BitVec.ofNat 32 (2 * (stacked (i :: is)).length)) (2 * (stacked is).length) =
          s.cpu.regs.ssp - BitVec.ofNat 32 (2 * i.words.length) := by
        rw [stacked_cons]
        exact at_sub_le _
      rw [← hat, at_add]
      exact hb _ (by rw [stacked_cons]; omega)

theorem push_samePresent {sz : Size} {x : Val sz} (h : Spec.push sz x s = .ok () s') : SamePresent s.mem s'.mem := by
  unfold Spec.push write at h
  obtain ⟨p, t, h1, h⟩ := bind_ok h
  cases h1
  have h : store sz _ x (s.withRegs fun r => setAreg r 7 (areg r 7 - Spec.step 7 sz)) = .ok () s' := h
  have := store_samePresent h
  exact this

theorem item_samePresent {i : Item} (h : i.push s = .ok () s') : SamePresent s.mem s'.mem := by
  cases i with
  | w x => exact push_samePresent (sz := .Word) h
  | l x => exact push_samePresent (sz := .Long) h

theorem pushItems_samePresent {is : List Item} (h : pushItems is s = .ok () s') : SamePresent s.mem s'.mem := by
  induction is generalizing s with
  | nil => cases h; exact fun _ => rfl
  | cons i is ih =>
    obtain ⟨_, t, h1, h2⟩ := bind_ok h
    exact fun b => (ih h2 b).trans (item_samePresent h1 b)

theorem even_sub {a : U32} (h : ¬ Spec.Odd a) (k : Nat) : ¬ Spec.Odd (a - BitVec.ofNat 32 (2 * k)) := by
  intro h'
  apply h
  rw [← at_sub a (2 * k)]
  exact (odd_at (by omega)).2 h'

theorem item_present [Writable M] {i : Item} (hs : s.cpu.regs.sr.s = true) (he : ¬ Spec.Odd s.cpu.regs.ssp)
    (hp : Present s.mem (s.cpu.regs.ssp - BitVec.ofNat 32 (2 * i.words.length)) (2 * i.words.length)) : ∃ s', i.push s = .ok () s' := by
  have he' := even_sub he i.words.length
  cases i with
  | w x =>
    refine push_present (sz := .Word) (v := x) ?_ ?_
    · rw [areg7_s _ hs, step7 (by decide)]; exact fun h => he' h.2
    · rw [areg7_s _ hs, step7 (by decide)]; exact hp
  | l x =>
    refine push_present (sz := .Long) (v := x) ?_ ?_
    · rw [areg7_s _ hs, step7 (by decide)]; exact fun h => he' h.2
    · rw [areg7_s _ hs, step7 (by decide)]; exact hp

theorem pushItems_present [Writable M] {is : List Item} (hs : s.cpu.regs.sr.s = true) (he : ¬ Spec.Odd s.cpu.regs.ssp)
    (hp : Present s.mem (s.cpu.regs.ssp - BitVec.ofNat 32 (2 * (stacked is).length)) (2 * (stacked is).length)) : ∃ s', pushItems is s = .ok () s' := by
  induction is generalizing s with
  | nil => exact ⟨s, rfl⟩
  | cons i is ih =>
    have hat : at_ (s.cpu.regs.ssp - BitVec.ofNat 32 (2 * (stacked (i :: is)).length)) (2 * (stacked is).length) =
        s.cpu.regs.ssp - BitVec.ofNat 32 (2 * i.words.length) := by
      rw [stacked_cons]
      exact at_sub_le _
    obtain ⟨t, ht⟩ := item_present (i := i) hs he (fun k hk => by
      rw [← hat, at_add]
      exact hp _ (by rw [stacked_cons]; omega))
    obtain ⟨e1, -, -⟩ := item_done hs ht
    have hsame := item_samePresent ht
    have hst : t.cpu.regs.sr.s = true := by rw [e1]; exact hs
    have hssp : t.cpu.regs.ssp = s.cpu.regs.ssp - BitVec.ofNat 32 (2 * i.words.length) := by rw [e1]; rfl
    obtain ⟨u, hu⟩ := ih hst (by rw [hssp]; exact even_sub he _) (fun k hk => by
      rw [hssp, sub_sub_ofNat, ← stacked_cons, hsame]
      exact hp k (by rw [stacked_cons]; omega))
    exact ⟨u, by show (i.push >>= fun _ => pushItems is) s = _; rw [bind_eq ht]; exact hu⟩

theorem frameBytes_small (f : StackFormat) : frameBytes f v < 2 ^ 32 := by
  unfold frameBytes
  cases f <;> dsimp only <;> split <;> decide

theorem vector_aligned : AlignedFor .Long (vectorAddress v) := by
  rintro ⟨-, h⟩
  unfold Spec.Odd vectorAddress at h
  have : v.toNat < 256 := v.isLt
  simp at h
  omega

/-- A successful entry. -/
theorem enter_done {n : Nat} (h : enter C v s = .ok n s') : Entered C v s s' ∧ n = C.vectorExecutionTime v := by
  unfold enter at h
  obtain ⟨_, t, h1, h2⟩ := bind_ok h
  have ht : t = s.withRegs fun r => { r with sr := entrySr v r.sr } := by cases h1; rfl
  obtain ⟨_, u, h3, h4⟩ := bind_ok h2
  obtain ⟨pc, w, h5, h6⟩ := bind_ok h4
  have hst : t.cpu.regs.sr.s = true := by rw [ht]; rfl
  have hlen := frame_length C.STACK_FORMAT v (srWord s.cpu.regs.sr) s.cpu.regs.pc s.cpu.currentOpcode
  obtain ⟨e1, e2, e3⟩ := pushItems_done hst (by rw [stacked_frame, hlen]; exact frameBytes_small _) h3
  rw [stacked_frame, hlen] at e1 e2 e3
  have hssp : t.cpu.regs.ssp = s.cpu.regs.ssp := by rw [ht]; rfl
  have hmem : t.mem = s.mem := by rw [ht]; rfl
  rw [hssp] at e1 e2 e3
  rw [hmem] at e3
  obtain ⟨g1, g2⟩ := access_ok h5
  have h6' : s' = w.withRegs fun r => { r with pc := pc } := by cases h6; rfl
  have hn : n = C.vectorExecutionTime v := by cases h6; rfl
  obtain ⟨g3, g4⟩ := Ram.get_val (sz := .Long) vector_aligned g1
  have hw : w = u := by rw [g2, g3]
  subst hw
  have hm : s'.mem = w.mem := by rw [h6']; rfl
  have hr : s'.cpu.regs = { s.cpu.regs with
    ssp := s.cpu.regs.ssp - BitVec.ofNat 32 (frameBytes C.STACK_FORMAT v), sr := entrySr v s.cpu.regs.sr, pc := pc } := by
    rw [h6', e1, ht]; rfl
  have hpc : s'.cpu.regs.pc = pc := by rw [hr]
  have hsp : s'.cpu.regs.ssp = s.cpu.regs.ssp - BitVec.ofNat 32 (frameBytes C.STACK_FORMAT v) := by rw [hr]
  refine ⟨⟨?_, ?_, ?_, ?_, ?_⟩, hn⟩
  · rw [hpc]; exact hr
  · rw [h6', e1, ht]; rfl
  · rw [hm, hpc]; exact g4
  · rw [hm, hsp]; exact e2
  · rw [hm, hsp]; exact e3

/-- The entry succeeds if the stack pointer is even and the frame and the vector exist. -/
theorem enter_present [Writable M] (he : ¬ Spec.Odd s.cpu.regs.ssp)
    (hp : Present s.mem (s.cpu.regs.ssp - BitVec.ofNat 32 (frameBytes C.STACK_FORMAT v)) (frameBytes C.STACK_FORMAT v))
    (hv : Present s.mem (vectorAddress v) 4) : ∃ s', enter C v s = .ok (C.vectorExecutionTime v) s' := by
  have hlen := frame_length C.STACK_FORMAT v (srWord s.cpu.regs.sr) s.cpu.regs.pc s.cpu.currentOpcode
  obtain ⟨u, hu⟩ := pushItems_present (s := s.withRegs fun r => { r with sr := entrySr v r.sr })
    (is := frameItems C.STACK_FORMAT v (srWord s.cpu.regs.sr) s.cpu.regs.pc s.cpu.currentOpcode) rfl he
    (by rw [stacked_frame, hlen]; exact hp)
  have hsame := pushItems_samePresent hu
  obtain ⟨pc, hpc⟩ := Ram.get_present (M := M) (sz := .Long) (a := vectorAddress v) (m := u.mem) vector_aligned (fun k hk => by
    rw [hsame]; exact hv k hk)
  have hacc : access (MemoryAccess.getLong (vectorAddress v)) u = .ok pc u := by
    unfold access
    have hpc : MemoryAccess.getLong (vectorAddress v) u.mem = .val pc u.mem := hpc
    rw [hpc]
  refine ⟨u.withRegs fun r => { r with pc := pc }, ?_⟩
  unfold enter
  rw [bind_eq (x := setFlags (entrySr v)) (s' := s.withRegs fun r => { r with sr := entrySr v r.sr }) rfl, bind_eq hu, bind_eq hacc]
  rfl

end

end Exec
end M68k
