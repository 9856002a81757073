import Verif.Model.Board
import Verif.Props.C31
import Verif.Props.C33
import Verif.Props.C53
/-
C66: the example board.
-/
namespace M68k.Props
open Spec Exec
set_option linter.unusedSectionVars false
variable {C : CpuDetails} {b b' : Board} {s s' : St Board}

theorem reset_reads {M : Type} [MemoryAccess M] {m m1 m2 : M} {ssp pc : U32} (h0 : MemoryAccess.getLong 0 m = .val ssp m1) (h4 : MemoryAccess.getLong 4 m1 = .val pc m2) :
    interpreterException C ⟨Cpu.new, m⟩ = later C.VECTOR_RESET (interpreterException C (afterReset ⟨Cpu.new, m2⟩ ssp pc)) := by
  have hs : Sorted (⟨Cpu.new, m⟩ : St M).cpu.exceptions := history_sorted (.new (C := C) m)
  rw [call_pending (s := ⟨Cpu.new, m⟩) rfl (List.cons_ne_nil _ _), Exec.bind_apply, process_eq hs]
  have hr : reset C (⟨Cpu.newNoReset, m⟩ : St M) = .ok C.VECTOR_RESET (afterReset ⟨Cpu.new, m2⟩ ssp pc) := by
    unfold reset
    have e0 : memExpect (MemoryAccess.getLong 0) (⟨Cpu.newNoReset, m⟩ : St M) = .ok ssp ⟨Cpu.newNoReset, m1⟩ := by
      unfold memExpect; rw [h0]
    rw [bind_eq e0, bind_eq (x := modifyRegs fun r => { r with ssp := ssp }) (s' := (⟨Cpu.newNoReset, m1⟩ : St M).withRegs fun r => { r with ssp := ssp }) rfl]
    have e4 : memExpect (MemoryAccess.getLong 4) ((⟨Cpu.newNoReset, m1⟩ : St M).withRegs fun r => { r with ssp := ssp }) =
        .ok pc ((⟨Cpu.newNoReset, m2⟩ : St M).withRegs fun r => { r with ssp := ssp }) := by
      unfold memExpect
      have h4' : MemoryAccess.getLong 4 ((⟨Cpu.newNoReset, m1⟩ : St M).withRegs fun r => { r with ssp := ssp }).mem = .val pc m2 := h4
      rw [h4']
      rfl
    rw [bind_eq e4]
    rfl
  have hl : processList C [⟨0⟩] 0 (⟨Cpu.newNoReset, m⟩ : St M) = .ok C.VECTOR_RESET (afterReset ⟨Cpu.new, m2⟩ ssp pc) := by
    unfold processList
    dsimp only
    rw [if_pos rfl]
    have h' : reset C { (⟨Cpu.newNoReset, m⟩ : St M) with cpu := { (⟨Cpu.newNoReset, m⟩ : St M).cpu with exceptions := [] } } = _ := hr
    rw [h']
  have hx : processList C ((⟨Cpu.new, m⟩ : St M).cpu.exceptions.filter fun e => !isHeld (⟨Cpu.new, m⟩ : St M).cpu.regs.sr.interruptMask e) 0
      ((⟨Cpu.new, m⟩ : St M).withPending ((⟨Cpu.new, m⟩ : St M).cpu.exceptions.filter fun e => isHeld (⟨Cpu.new, m⟩ : St M).cpu.regs.sr.interruptMask e)) = _ := hl
  rw [hx]
  dsimp only
  rw [instruction_later, instruction_idle rfl rfl]

theorem word_append (x y : U8) : (toU16 x <<< 8 ||| toU16 y : U16) = x ++ y := by
  apply BitVec.eq_of_getLsbD_eq
  intro j hj
  unfold toU16
  rw [BitVec.getLsbD_append]
  simp only [BitVec.getLsbD_or, BitVec.getLsbD_shiftLeft, BitVec.getLsbD_setWidth]
  by_cases h8 : j < 8
  · simp [h8, hj]
  · have h10 : j - 8 < 16 := by omega
    simp [h8, hj, h10, BitVec.getLsbD_of_ge y j (by omega)]

theorem long_append (x y : U16) : (toU32 x <<< 16 ||| toU32 y : U32) = x ++ y := by
  apply BitVec.eq_of_getLsbD_eq
  intro j hj
  unfold toU32
  rw [BitVec.getLsbD_append]
  simp only [BitVec.getLsbD_or, BitVec.getLsbD_shiftLeft, BitVec.getLsbD_setWidth]
  by_cases h8 : j < 16
  · simp [h8, hj]
  · have h10 : j - 16 < 32 := by omega
    simp [h8, hj, h10, BitVec.getLsbD_of_ge y j (by omega)]

theorem getByte_at {pre ws : List U8} {x : U8} {a : U32} (hr : b.ram = pre ++ x :: ws) (ha : a.toNat = pre.length) : Board.getByte a b = .val x b := by
  have hx : b.ram[a.toNat]? = some x := by
    rw [hr, ha, List.getElem?_append_right (Nat.le_refl _), Nat.sub_self]
    rfl
  obtain ⟨h1, h2⟩ := List.getElem?_eq_some_iff.1 hx
  unfold Board.getByte
  rw [dif_pos h1, h2]

theorem board_getLong {a : U32} {b b1 b2 : Board} {hi lo : U16} (h1 : Board.getWord a b = .val hi b1) (h2 : Board.getWord (a + 2) b1 = .val lo b2) :
    MemoryAccess.getLong a b = .val (hi ++ lo) b2 := by
  simp only [MemoryAccess.getLong, h1, h2, long_append]

theorem twoBytes_of {hi lo : U32} {x y : U8} (g1 : Board.getByte hi b = .val x b) (g2 : Board.getByte lo b = .val y b) : Board.twoBytes hi lo b = .val (x ++ y) b := by
  unfold Board.twoBytes
  rw [g1]
  dsimp only
  rw [g2]
  dsimp only
  rw [word_append]

theorem swapped_word {pre ws : List U8} {x y : U8} {a : U32} (h0 : (a + 0x400000).toNat = pre.length) (h1 : (a + 0x400001).toNat = pre.length + 1) (hb : b.swap < 4)
    (hr : b.ram = pre ++ x :: y :: ws) : Board.getWord a b = .val (x ++ y) { b with swap := b.swap + 1 } := by
  have g1 := getByte_at (b := { b with swap := b.swap + 1 }) hr h0
  have g2 := getByte_at (b := { b with swap := b.swap + 1 }) (a := a + 0x400001) (pre := pre ++ [x]) (x := y) (ws := ws) (by rw [List.append_assoc]; exact hr)
    (by rw [List.length_append]; exact h1)
  unfold Board.getWord
  rw [if_pos hb]
  exact twoBytes_of g1 g2

theorem boot_at (b0 b1 b2 b3 b4 b5 b6 b7 : U8) (tail z : List U8) (hlen : z.length = 0x400000) (B : Board) (hsw : B.swap = 0)
    (hm : B.ram = z ++ (b0 :: b1 :: b2 :: b3 :: b4 :: b5 :: b6 :: b7 :: tail)) : ∃ s : St Board,
    interpreterException C ⟨Cpu.new, B⟩ = later C.VECTOR_RESET (interpreterException C s) ∧
    s.cpu.regs.ssp = (b0 ++ b1) ++ (b2 ++ b3) ∧ s.cpu.regs.pc = (b4 ++ b5) ++ (b6 ++ b7) ∧ srWord s.cpu.regs.sr = 0x2700 ∧ s.cpu.exceptions = [] ∧ s.cpu.stop = false ∧
    s.mem = { B with swap := 4 } := by
  obtain ⟨sw, ram, printed⟩ := B
  have hsw : sw = 0 := hsw
  have hm : ram = z ++ (b0 :: b1 :: b2 :: b3 :: b4 :: b5 :: b6 :: b7 :: tail) := hm
  subst hsw
  have l2 : (z ++ [b0, b1]).length = 0x400002 := by rw [List.length_append, hlen]; simp
  have l4 : (z ++ [b0, b1, b2, b3]).length = 0x400004 := by rw [List.length_append, hlen]; simp
  have l6 : (z ++ [b0, b1, b2, b3, b4, b5]).length = 0x400006 := by rw [List.length_append, hlen]; simp
  have w0 := swapped_word (b := ⟨0, ram, printed⟩) (a := 0) (pre := z) (by rw [hlen]; decide) (by rw [hlen]; decide) (show 0 < 4 by decide) hm
  have w2 := swapped_word (b := ⟨1, ram, printed⟩) (a := 0 + 2) (pre := z ++ [b0, b1]) (x := b2) (y := b3) (ws := b4 :: b5 :: b6 :: b7 :: tail)
    (by rw [l2]; decide) (by rw [l2]; decide) (show 1 < 4 by decide) (by rw [List.append_assoc]; exact hm)
  have w4 := swapped_word (b := ⟨2, ram, printed⟩) (a := 4) (pre := z ++ [b0, b1, b2, b3]) (x := b4) (y := b5) (ws := b6 :: b7 :: tail)
    (by rw [l4]; decide) (by rw [l4]; decide) (show 2 < 4 by decide) (by rw [List.append_assoc]; exact hm)
  have w6 := swapped_word (b := ⟨3, ram, printed⟩) (a := 4 + 2) (pre := z ++ [b0, b1, b2, b3, b4, b5]) (x := b6) (y := b7) (ws := tail)
    (by rw [l6]; decide) (by rw [l6]; decide) (show 3 < 4 by decide) (by rw [List.append_assoc]; exact hm)
  refine ⟨_, reset_reads (board_getLong w0 w2) (board_getLong w4 w6), rfl, rfl, ?_, rfl, rfl, rfl⟩
  show srWord { Registers.default.sr with t := false, s := true, interruptMask := 7 } = 0x2700
  decide

theorem take_eight (z t : List U8) (n : Nat) (b0 b1 b2 b3 b4 b5 b6 b7 : U8) (rest : List U8) :
    z ++ (b0 :: b1 :: b2 :: b3 :: b4 :: b5 :: b6 :: b7 :: rest).take (n + 8) ++ t = z ++ (b0 :: b1 :: b2 :: b3 :: b4 :: b5 :: b6 :: b7 :: (rest.take n ++ t)) := by
  rw [List.append_assoc]
  rfl

/-- The board starts the program of its ROM, which is at 0x400000: the first call takes the supervisor stack pointer and the program counter from the first eight bytes of the ROM file,
not from the RAM at 0, and continues with the first instruction; from then on the memory is not swapped. -/
theorem C66_boot (b0 b1 b2 b3 b4 b5 b6 b7 : U8) (rest : List U8) : ∃ s : St Board,
    interpreterException C (Board.load (b0 :: b1 :: b2 :: b3 :: b4 :: b5 :: b6 :: b7 :: rest)) = later C.VECTOR_RESET (interpreterException C s) ∧
    s.cpu.regs.ssp = (b0 ++ b1) ++ (b2 ++ b3) ∧ s.cpu.regs.pc = (b4 ++ b5) ++ (b6 ++ b7) ∧ srWord s.cpu.regs.sr = 0x2700 ∧ s.cpu.exceptions = [] ∧ s.cpu.stop = false ∧
    s.mem = { (Board.load (b0 :: b1 :: b2 :: b3 :: b4 :: b5 :: b6 :: b7 :: rest)).mem with swap := 4 } := by
  have hz : (List.replicate 0x400000 (0 : U8)).length = 0x400000 := List.length_replicate
  exact boot_at b0 b1 b2 b3 b4 b5 b6 b7 _ (List.replicate 0x400000 0) hz (Board.load (b0 :: b1 :: b2 :: b3 :: b4 :: b5 :: b6 :: b7 :: rest)).mem rfl
    (take_eight (List.replicate 0x400000 0) _ 0xFFFF8 b0 b1 b2 b3 b4 b5 b6 b7 rest)

/-! ### After the boot -/

/-- What the board never changes after the boot: the swap counter and the size of the RAM; what it has printed stays printed. -/
def Booted (n : Nat) (out : List U8) (b : Board) : Prop := b.swap = 4 ∧ b.ram.length = n ∧ out <+: b.printed

theorem booted_alike (n : Nat) (out : List U8) : Alike (fun b b' : Board => b = b' ∧ Booted n out b) := by
  have gb : ∀ (b : Board) (a : U32), Booted n out b → SameOutcome (fun b b' : Board => b = b' ∧ Booted n out b) (b.getByte a) (b.getByte a) := by
    intro b a hb
    unfold Board.getByte
    repeat' split
    all_goals first | exact ⟨rfl, rfl, hb⟩ | exact ⟨rfl, hb⟩
  have gw : ∀ (b : Board) (a : U32), Booted n out b → SameOutcome (fun b b' : Board => b = b' ∧ Booted n out b) (b.getWord a) (b.getWord a) := by
    intro b a hb
    unfold Board.getWord
    rw [if_neg (by rw [hb.1]; decide)]
    unfold Board.twoBytes
    have h1 := gb b a hb
    cases e1 : Board.getByte a b with
    | val x b1 =>
      rw [e1] at h1
      have h2 := gb b1 (a + 1) h1.2.2
      dsimp only
      cases e2 : Board.getByte (a + 1) b1 with
      | val y b2 => rw [e2] at h2; exact ⟨rfl, rfl, h2.2.2⟩
      | none b2 => rw [e2] at h2; exact ⟨rfl, h2.2⟩
      | panic => trivial
    | none b1 => rw [e1] at h1; exact ⟨rfl, h1.2⟩
    | panic => trivial
  have sb : ∀ (b : Board) (a : U32) (v : U8), Booted n out b → SameOutcome (fun b b' : Board => b = b' ∧ Booted n out b) (b.setByte a v) (b.setByte a v) := by
    intro b a v hb
    unfold Board.setByte
    repeat' split
    · exact ⟨rfl, rfl, hb.1, by rw [← hb.2.1]; exact List.length_set, hb.2.2⟩
    · exact ⟨rfl, rfl, hb.1, hb.2.1, hb.2.2.trans (List.prefix_append _ _)⟩
    · exact ⟨rfl, rfl, hb⟩
    · exact ⟨rfl, hb⟩
  have sw : ∀ (b : Board) (a : U32) (v : U16), Booted n out b → SameOutcome (fun b b' : Board => b = b' ∧ Booted n out b) (b.setWord a v) (b.setWord a v) := by
    intro b a v hb
    unfold Board.setWord
    have h1 := sb b a (toU8 (v >>> 8)) hb
    cases e1 : Board.setByte a (toU8 (v >>> 8)) b with
    | val x b1 => rw [e1] at h1; exact sb b1 (a + 1) (toU8 v) h1.2.2
    | none b1 => rw [e1] at h1; exact ⟨rfl, h1.2⟩
    | panic => trivial
  refine { getByte := ?_, getWord := ?_, getLong := ?_, setByte := ?_, setWord := ?_, setLong := ?_, resetInstruction := ?_ }
  · rintro b _ a ⟨rfl, hb⟩; exact gb b a hb
  · rintro b _ a ⟨rfl, hb⟩ _; exact gw b a hb
  · rintro b _ a ⟨rfl, hb⟩ _
    simp only [MemoryAccess.getLong]
    have h1 := gw b a hb
    cases e1 : Board.getWord a b with
    | val x b1 =>
      rw [e1] at h1
      have h2 := gw b1 (a + 2) h1.2.2
      dsimp only
      cases e2 : Board.getWord (a + 2) b1 with
      | val y b2 => rw [e2] at h2; exact ⟨rfl, rfl, h2.2.2⟩
      | none b2 => rw [e2] at h2; exact ⟨rfl, h2.2⟩
      | panic => trivial
    | none b1 => rw [e1] at h1; exact ⟨rfl, h1.2⟩
    | panic => trivial
  · rintro b _ a v ⟨rfl, hb⟩; exact sb b a v hb
  · rintro b _ a v ⟨rfl, hb⟩ _; exact sw b a v hb
  · rintro b _ a v ⟨rfl, hb⟩ _
    simp only [MemoryAccess.setLong]
    have h1 := sw b a (toU16 (v >>> 16)) hb
    cases e1 : Board.setWord a (toU16 (v >>> 16)) b with
    | val x b1 => rw [e1] at h1; exact sw b1 (a + 2) (toU16 v) h1.2.2
    | none b1 => rw [e1] at h1; exact ⟨rfl, h1.2⟩
    | panic => trivial
  · rintro b _ ⟨rfl, hb⟩; exact ⟨rfl, hb⟩

/-- Whatever program runs: after the boot the memory is never swapped again, the RAM keeps its size, and what was printed stays. -/
theorem C66_runs (h0 : s.mem.swap = 4) (h : Runs C s s') : s'.mem.swap = 4 ∧ s'.mem.ram.length = s.mem.ram.length ∧ s.mem.printed <+: s'.mem.printed := by
  have key : Booted s.mem.ram.length s.mem.printed s'.mem := by
    generalize hn : s.mem.ram.length = n
    generalize ho : s.mem.printed = out
    induction h with
    | start => exact ⟨h0, hn, by rw [← ho]; exact List.prefix_refl _⟩
    | @call t u x hr hx ih =>
      have h1 := sim_interpreterException (booted_alike n out) C t t ⟨rfl, rfl, ih⟩
      rw [hx] at h1
      exact h1.2.2.2
    | host cpu _ ih => exact ih
  exact key

/-- After the boot, accesses within the RAM are those of a byte slice (C43), for every size. -/
theorem C66_ram (h0 : b.swap = 4) {a : U32} {sz : Size} (hl : b.ram.length < 2 ^ 32) (ha : a.toNat + bytes sz ≤ b.ram.length) :
    SameOutcome (fun b' m => b' = { b with ram := m.bytes }) (memGet sz a b) (memGet sz a (⟨b.ram⟩ : ByteSlice)) ∧
    ∀ v, SameOutcome (fun b' m => b' = { b with ram := m.bytes }) (memSet sz a v b) (memSet sz a v (⟨b.ram⟩ : ByteSlice)) := by
  have gb : ∀ (r : List U8) (a : U32) (h : a.toNat < r.length), Board.getByte a { b with ram := r } = .val r[a.toNat] { b with ram := r } := by
    intro r a h
    unfold Board.getByte
    exact dif_pos h
  have one : ∀ (r : List U8) (a : U32), r.length < 2 ^ 32 → a.toNat + 2 ≤ r.length → (a + 1).toNat = a.toNat + 1 := by
    intro r a h h'
    rw [BitVec.toNat_add]
    show (a.toNat + 1) % 2 ^ 32 = _
    omega
  have two : ∀ (r : List U8) (a : U32), r.length < 2 ^ 32 → a.toNat + 4 ≤ r.length → (a + 2).toNat = a.toNat + 2 := by
    intro r a h h'
    rw [BitVec.toNat_add]
    show (a.toNat + 2) % 2 ^ 32 = _
    omega
  have gw : ∀ (r : List U8) (a : U32), r.length < 2 ^ 32 → a.toNat + 2 ≤ r.length → ∃ w, Board.getWord a { b with ram := r } = .val w { b with ram := r } ∧
      MemoryAccess.getWord a (⟨r⟩ : ByteSlice) = .val w ⟨r⟩ := by
    intro r a h h'
    have e := one r a h h'
    refine ⟨r[a.toNat] ++ r[a.toNat + 1], ?_, ?_⟩
    · unfold Board.getWord
      rw [if_neg (by show ¬ b.swap < 4; rw [h0]; decide)]
      refine twoBytes_of (gb r a (by omega)) ?_
      rw [gb r (a + 1) (by omega)]
      simp only [e]
    · show MRes.ofRead _ (byteSliceGetWord r a) = _
      unfold byteSliceGetWord
      rw [dif_pos (by omega), dif_pos (by omega), word_append]
      rfl
  have sb : ∀ (r : List U8) (a : U32) (v : U8), a.toNat < r.length → Board.setByte a v { b with ram := r } = .val () { b with ram := r.set a.toNat v } := by
    intro r a v h
    unfold Board.setByte
    exact if_pos h
  have sw : ∀ (r : List U8) (a : U32) (v : U16), r.length < 2 ^ 32 → a.toNat + 2 ≤ r.length → ∃ r', Board.setWord a v { b with ram := r } = .val () { b with ram := r' } ∧
      MemoryAccess.setWord a v (⟨r⟩ : ByteSlice) = .val () ⟨r'⟩ ∧ r'.length = r.length := by
    intro r a v h h'
    have e := one r a h h'
    refine ⟨(r.set a.toNat (toU8 (v >>> 8))).set (a.toNat + 1) (toU8 v), ?_, ?_, ?_⟩
    · unfold Board.setWord
      rw [sb r a _ (by omega)]
      dsimp only
      rw [sb _ (a + 1) _ (by rw [List.length_set]; omega), e]
    · show MRes.ofWrite _ _ (byteSliceSetWord r a v) = _
      unfold byteSliceSetWord
      rw [if_pos (by omega), if_pos (by omega)]
      rfl
    · rw [List.length_set, List.length_set]
  have hb : b = { b with ram := b.ram } := rfl
  cases sz with
  | Byte =>
    have ha : a.toNat + 1 ≤ b.ram.length := ha
    constructor
    · show SameOutcome _ (Board.getByte a b) (MRes.ofRead _ (byteSliceGetByte b.ram a))
      have : Board.getByte a b = .val b.ram[a.toNat] b := gb b.ram a (by omega)
      rw [this]
      unfold byteSliceGetByte
      rw [dif_pos (by omega)]
      exact ⟨rfl, rfl⟩
    · intro v
      show SameOutcome _ (Board.setByte a v b) (MRes.ofWrite _ _ (byteSliceSetByte b.ram a v))
      have := sb b.ram a v (by omega)
      rw [← hb] at this
      rw [this]
      unfold byteSliceSetByte
      rw [if_pos (by omega)]
      exact ⟨rfl, rfl⟩
  | Word =>
    have ha : a.toNat + 2 ≤ b.ram.length := ha
    constructor
    · obtain ⟨w, h1, h2⟩ := gw b.ram a hl ha
      show SameOutcome _ (Board.getWord a b) (MemoryAccess.getWord a (⟨b.ram⟩ : ByteSlice))
      rw [← hb] at h1
      rw [h1, h2]
      exact ⟨rfl, rfl⟩
    · intro v
      obtain ⟨r, h1, h2, -⟩ := sw b.ram a v hl ha
      show SameOutcome _ (Board.setWord a v b) (MemoryAccess.setWord a v (⟨b.ram⟩ : ByteSlice))
      rw [← hb] at h1
      rw [h1, h2]
      exact ⟨rfl, rfl⟩
  | Long =>
    have ha : a.toNat + 4 ≤ b.ram.length := ha
    have e := two b.ram a hl ha
    constructor
    · obtain ⟨w, h1, h2⟩ := gw b.ram a hl (by omega)
      obtain ⟨x, h3, h4⟩ := gw b.ram (a + 2) hl (by omega)
      show SameOutcome _ (MemoryAccess.getLong a b) (MemoryAccess.getLong a (⟨b.ram⟩ : ByteSlice))
      rw [← hb] at h1 h3
      have h2 : MRes.ofRead (⟨b.ram⟩ : ByteSlice) (byteSliceGetWord b.ram a) = _ := h2
      have h4 : MRes.ofRead (⟨b.ram⟩ : ByteSlice) (byteSliceGetWord b.ram (a + 2)) = _ := h4
      rw [board_getLong h1 h3]
      simp only [MemoryAccess.getLong, h2, h4, long_append]
      exact ⟨rfl, rfl⟩
    · intro v
      obtain ⟨r, h1, h2, h3⟩ := sw b.ram a (toU16 (v >>> 16)) hl (by omega)
      obtain ⟨r', h4, h5, -⟩ := sw r (a + 2) (toU16 v) (by omega) (by omega)
      show SameOutcome _ (MemoryAccess.setLong a v b) (MemoryAccess.setLong a v (⟨b.ram⟩ : ByteSlice))
      rw [← hb] at h1
      have h2 : MRes.ofWrite (⟨b.ram⟩ : ByteSlice) ByteSlice.mk (byteSliceSetWord b.ram a (toU16 (v >>> 16))) = _ := h2
      have h5 : MRes.ofWrite (⟨r⟩ : ByteSlice) ByteSlice.mk (byteSliceSetWord r (a + 2) (toU16 v)) = _ := h5
      simp only [MemoryAccess.setLong, h1, h2, h4, h5]
      exact ⟨rfl, rfl⟩

/-- The whole program: after any number of turns of its loop, whatever the ROM (of at least eight bytes), the RAM has its 0x500000 bytes and is not swapped. -/
theorem C66_main (b0 b1 b2 b3 b4 b5 b6 b7 : U8) (rest : List U8) (n : Nat)
    (h : Board.run C (n + 1) (Board.load (b0 :: b1 :: b2 :: b3 :: b4 :: b5 :: b6 :: b7 :: rest)) = .ok () s') : s'.mem.swap = 4 ∧ s'.mem.ram.length = 0x500000 := by
  have runs : ∀ (n : Nat) (s s' : St Board), Board.run C n s = .ok () s' → Runs C s s' := by
    have trans : ∀ {s t u : St Board}, Runs C t u → Runs C s t → Runs C s u := by
      intro s t u h h1
      induction h with
      | start => exact h1
      | call _ hx ih => exact .call ih hx
      | host cpu _ ih => exact .host cpu ih
    intro n
    induction n with
    | zero => intro s s' h; cases h; exact .start _
    | succ n ih =>
      intro s s' h
      unfold Board.run at h
      obtain ⟨k, t, h1, h2⟩ := bind_ok h
      obtain ⟨e, u, h3, h4⟩ := run_call h1
      refine trans (ih t s' h2) ?_
      have h5 : Runs C s u := .call (.start s) h3
      cases e with
      | none => cases h4; exact h5
      | some e => cases h4; exact .host _ h5
  obtain ⟨k, t, h1, h2⟩ := bind_ok (show (interpreter C >>= fun _ => Board.run C n) _ = _ from h)
  obtain ⟨e, u, h3, h4⟩ := run_call h1
  have hut : t.mem = u.mem := by
    cases e with
    | none => cases h4; rfl
    | some e => cases h4; rfl
  obtain ⟨v, g1, -, -, -, -, -, g2⟩ := C66_boot (C := C) b0 b1 b2 b3 b4 b5 b6 b7 rest
  rw [g1] at h3
  cases hv : interpreterException C v with
  | ok x w =>
    rw [hv] at h3
    cases h3
    have r1 : Runs C v u := .call (.start v) hv
    have hl : (Board.load (b0 :: b1 :: b2 :: b3 :: b4 :: b5 :: b6 :: b7 :: rest)).mem.ram.length = 0x500000 := by
      unfold Board.load
      dsimp only
      rw [List.length_append, List.length_append, List.length_replicate, List.length_replicate, List.length_take]
      omega
    have f1 := C66_runs (by rw [g2]) r1
    have f2 := C66_runs (by rw [hut]; exact f1.1) (runs n t s' h2)
    refine ⟨f2.1, ?_⟩
    rw [f2.2.1, hut, f1.2.1, g2]
    exact hl
  | err x w => rw [hv] at h3; cases h3
  | panic => rw [hv] at h3; cases h3

/-! ### Cases -/

theorem take_ten (z t : List U8) (n : Nat) (b0 b1 b2 b3 b4 b5 b6 b7 x y : U8) (rest : List U8) :
    z ++ (b0 :: b1 :: b2 :: b3 :: b4 :: b5 :: b6 :: b7 :: x :: y :: rest).take (n + 10) ++ t = (z ++ [b0, b1, b2, b3, b4, b5, b6, b7]) ++ x :: y :: (rest.take n ++ t) := by
  rw [List.append_assoc, List.append_assoc]
  rfl

/-- A ROM with the stack pointer 0x1000, the program counter 0x400008 and there `NOP`: the first turn of the loop completes. -/
example : ∃ s', Board.run scc68070 1 (Board.load [0, 0, 0x10, 0, 0, 0x40, 0, 8, 0x4E, 0x71]) = .ok () s' := by
  obtain ⟨v, g1, -, gp, -, gi, gs, gm⟩ := C66_boot (C := scc68070) 0 0 0x10 0 0 0x40 0 8 [0x4E, 0x71]
  have hpc : v.cpu.regs.pc = 0x400008 := gp.trans (by decide)
  have hr : ∃ pre tail, v.mem.ram = pre ++ 0x4E :: 0x71 :: tail ∧ pre.length = 0x400008 := by
    rw [gm]
    exact ⟨List.replicate 0x400000 0 ++ [0, 0, 0x10, 0, 0, 0x40, 0, 8], ([] : List U8).take 0xFFFF6 ++ List.replicate (0x100000 - 10) 0,
      take_ten (List.replicate 0x400000 0) (List.replicate (0x100000 - 10) 0) 0xFFFF6 0 0 0x10 0 0 0x40 0 8 0x4E 0x71 [],
      by rw [List.length_append, List.length_replicate]; simp⟩
  obtain ⟨pre, tail, hr, hl⟩ := hr
  have hw : MemoryAccess.getWord v.cpu.regs.pc v.mem = .val 0x4E71 v.mem := by
    rw [hpc]
    show Board.getWord 0x400008 v.mem = _
    unfold Board.getWord
    rw [if_neg (by rw [gm]; decide)]
    have e1 := getByte_at (a := 0x400008) hr (by rw [hl]; decide)
    have e2 := getByte_at (b := v.mem) (a := 0x400009) (pre := pre ++ [0x4E]) (x := 0x71) (ws := tail) (by rw [List.append_assoc]; exact hr) (by rw [List.length_append, hl]; decide)
    exact twoBytes_of e1 e2
  obtain ⟨c, hc⟩ := C53_nop (C := scc68070) (s := v) (op := 0x4E71) ⟨gs, gi, by rw [hpc]; decide, _, hw, rfl⟩ (by decide)
  rw [hc] at g1
  have hi : ∃ n u, interpreter scc68070 (Board.load [0, 0, 0x10, 0, 0, 0x40, 0, 8, 0x4E, 0x71]) = .ok n u := by
    unfold interpreter
    rw [bind_eq g1]
    unfold traced
    split
    · exact ⟨_, _, rfl⟩
    · exact ⟨_, _, rfl⟩
  obtain ⟨n, u, hi⟩ := hi
  refine ⟨u, ?_⟩
  show (interpreter scc68070 >>= fun _ => Board.run scc68070 0) _ = _
  rw [bind_eq hi]
  rfl

/-- A small board that has booted; a character written to the serial port is printed. -/
example : (⟨4, [1, 2, 3, 4], []⟩ : Board).ram.length < 2 ^ 32 ∧ (0 : U32).toNat + bytes .Long ≤ (⟨4, [1, 2, 3, 4], []⟩ : Board).ram.length ∧
    memGet .Long 0 (⟨4, [1, 2, 3, 4], []⟩ : Board) = .val (0x01020304 : U32) ⟨4, [1, 2, 3, 4], []⟩ ∧
    memSet .Byte 0x80002019 (0x41 : U8) (⟨4, [1, 2, 3, 4], []⟩ : Board) = .val () ⟨4, [1, 2, 3, 4], [0x41]⟩ := ⟨by decide, by decide, rfl, rfl⟩

end M68k.Props
