import Verif.Model.BoardFfi
import Verif.Spec.Boards
import Verif.Props.C66
import Verif.Props.C68
/-
C82: the two example boards run the same.
-/
namespace M68k.Props
open Spec Exec
set_option linter.unusedSectionVars false
variable {C : CpuDetails} {b b' : Board} {s s' : St Board}

/-- The two boards in the same situation after the boot. -/
def SameBoard (n : Nat) (b : Board) (m : FfiMemory Board) : Prop := m = ⟨FfiBoard.callbacks, b⟩ ∧ b.swap = 4 ∧ b.ram.length = n

theorem ffi_val {α : Type} {f : U32 → α} {d : U32} : FfiMemory.result (⟨FfiBoard.callbacks, b⟩ : FfiMemory Board) f (⟨d, 0⟩, b') = .val (f d) ⟨FfiBoard.callbacks, b'⟩ := rfl
theorem ffi_done {α : Type} {f : U32 → α} : FfiMemory.result (⟨FfiBoard.callbacks, b⟩ : FfiMemory Board) f (FfiBoard.done, b') = .val (f 0) ⟨FfiBoard.callbacks, b'⟩ := rfl
theorem ffi_none {α : Type} {f : U32 → α} : FfiMemory.result (⟨FfiBoard.callbacks, b⟩ : FfiMemory Board) f (FfiBoard.fault, b') = .none ⟨FfiBoard.callbacks, b'⟩ := rfl

theorem narrow_byte (x : U8) : toU8 (x.setWidth 32 : U32) = x := by
  unfold toU8
  rw [BitVec.setWidth_setWidth_of_le _ (by decide), BitVec.setWidth_eq]

theorem narrow_word (x : U16) : toU16 (x.setWidth 32 : U32) = x := by
  unfold toU16
  rw [BitVec.setWidth_setWidth_of_le _ (by decide), BitVec.setWidth_eq]

theorem long_bytes (v : U32) : toU8 (toU16 (v >>> 16) >>> 8) = toU8 (v >>> 24) ∧ toU8 (toU16 (v >>> 16)) = toU8 (v >>> 16) ∧ toU8 (toU16 v >>> 8) = toU8 (v >>> 8) ∧
    toU8 (toU16 v) = toU8 v := by
  refine ⟨?_, ?_, ?_, ?_⟩ <;> apply BitVec.eq_of_toNat_eq <;> simp [toU8, toU16, Nat.shiftRight_eq_div_pow] <;> omega

/-- A byte that is neither in the RAM nor a register. -/
theorem board_noByte {a : U32} (h : b.ram.length ≤ a.toNat) (hr : a.toNat < 0x80002011 ∨ 0x8000201B < a.toNat) : Board.getByte a b = .none b ∧ ∀ v, Board.setByte a v b = .none b := by
  unfold Board.getByte Board.setByte
  rw [dif_neg (by omega), if_neg (by omega)]
  refine ⟨rfl, fun v => ?_⟩
  rw [if_neg (by omega), if_neg (by omega)]

theorem board_getWord_in {a : U32} (h4 : b.swap = 4) (h : a.toNat + 2 ≤ b.ram.length) (hl : b.ram.length < 2 ^ 32) :
    Board.getWord a b = .val (b.ram[a.toNat] ++ b.ram[a.toNat + 1]) b := by
  have e : (a + 1).toNat = a.toNat + 1 := by rw [BitVec.toNat_add]; show (a.toNat + 1) % 2 ^ 32 = _; omega
  unfold Board.getWord
  rw [if_neg (by omega)]
  refine twoBytes_of ?_ ?_
  · unfold Board.getByte; rw [dif_pos (by omega)]
  · unfold Board.getByte; rw [dif_pos (by omega)]; simp only [e]

theorem board_setWord_in {a : U32} {v : U16} (h : a.toNat + 2 ≤ b.ram.length) (hl : b.ram.length < 2 ^ 32) :
    Board.setWord a v b = .val () { b with ram := (b.ram.set a.toNat (toU8 (v >>> 8))).set (a.toNat + 1) (toU8 v) } := by
  have e : (a + 1).toNat = a.toNat + 1 := by rw [BitVec.toNat_add]; show (a.toNat + 1) % 2 ^ 32 = _; omega
  unfold Board.setWord
  have e1 : Board.setByte a (toU8 (v >>> 8)) b = .val () { b with ram := b.ram.set a.toNat (toU8 (v >>> 8)) } := by unfold Board.setByte; rw [if_pos (by omega)]
  rw [e1]
  dsimp only
  unfold Board.setByte
  rw [if_pos (by show _ < (b.ram.set _ _).length; rw [List.length_set]; omega), e]

theorem board_noWord {a : U32} (h4 : b.swap = 4) (h : b.ram.length ≤ a.toNat) (hr : a.toNat < 0x80002011 ∨ 0x8000201B < a.toNat) :
    Board.getWord a b = .none b ∧ ∀ v, Board.setWord a v b = .none b := by
  obtain ⟨h1, h2⟩ := board_noByte h hr
  have h3 : ¬ b.swap < 4 := by omega
  constructor
  · unfold Board.getWord
    rw [if_neg h3]
    unfold Board.twoBytes
    simp only [h1]
  · intro v
    unfold Board.setWord
    simp only [h2]

/-- The boards answer alike to plain accesses. -/
theorem boards_alike {n : Nat} (hn : n ≤ 0x80000000) : AlikeIn (plainAccess n) (SameBoard n) := by
  have hw : ∀ {a : U32}, plainAccess n .Word a = true → a.toNat + 2 ≤ n ∨ n ≤ a.toNat ∧ (a.toNat < 0x80002010 ∨ 0x8000201B < a.toNat) := by
    intro a h
    simp only [plainAccess, Bool.or_eq_true, Bool.and_eq_true, decide_eq_true_eq] at h
    omega
  have hll : ∀ {a : U32}, plainAccess n .Long a = true → a.toNat + 4 ≤ n ∨ n ≤ a.toNat ∧ (a.toNat < 0x80002010 ∨ 0x8000201B < a.toNat) := by
    intro a h
    simp only [plainAccess, Bool.or_eq_true, Bool.and_eq_true, decide_eq_true_eq] at h
    omega
  refine { getByte := ?_, getWord := ?_, getLong := ?_, setByte := ?_, setWord := ?_, setLong := ?_, resetInstruction := ?_ }
  · rintro b _ a ⟨rfl, h4, hl⟩ -
    show SameOutcome _ (Board.getByte a b) (FfiMemory.result _ toU8 (FfiBoard.getByte a b))
    unfold Board.getByte FfiBoard.getByte
    repeat' split
    · rw [ffi_val, narrow_byte]; exact ⟨rfl, rfl, h4, hl⟩
    · exact ⟨rfl, rfl, h4, hl⟩
    · exact ⟨rfl, rfl, h4, hl⟩
    · exact ⟨rfl, h4, hl⟩
  · rintro b _ a ⟨rfl, h4, hl⟩ hA ho
    show SameOutcome _ (Board.getWord a b) (FfiMemory.result _ toU16 (FfiBoard.getWord a b))
    unfold FfiBoard.getWord FfiBoard.swapped
    rw [if_neg (by omega)]
    dsimp only
    rcases hw hA with h | ⟨h, h'⟩
    · rw [board_getWord_in h4 (by omega) (by omega), dif_pos (by omega), ffi_val, narrow_word]
      exact ⟨rfl, rfl, h4, hl⟩
    · rw [(board_noWord h4 (by omega) (by omega)).1, dif_neg (by omega), ffi_none]
      exact ⟨rfl, h4, hl⟩
  · rintro b _ a ⟨rfl, h4, hl⟩ hA ho
    show SameOutcome _ (MemoryAccess.getLong a b) (FfiMemory.result _ id (FfiBoard.getLong a b))
    unfold FfiBoard.getLong FfiBoard.swapped
    rw [if_neg (by omega)]
    dsimp only
    rcases hll hA with h | ⟨h, h'⟩
    · have e : (a + 2).toNat = a.toNat + 2 := by rw [BitVec.toNat_add]; show (a.toNat + 2) % 2 ^ 32 = _; omega
      rw [board_getLong (board_getWord_in h4 (by omega) (by omega)) (board_getWord_in h4 (by omega) (by omega)), dif_pos (by omega), ffi_val]
      simp only [e]
      exact ⟨rfl, rfl, h4, hl⟩
    · rw [dif_neg (by omega), ffi_none]
      simp only [MemoryAccess.getLong, (board_noWord h4 (show b.ram.length ≤ a.toNat by omega) (by omega)).1]
      exact ⟨rfl, h4, hl⟩
  · rintro b _ a v ⟨rfl, h4, hl⟩ -
    show SameOutcome _ (Board.setByte a v b) (FfiMemory.result _ (fun _ => ()) (FfiBoard.setByte a v b))
    unfold Board.setByte FfiBoard.setByte
    repeat' split
    · exact ⟨rfl, rfl, h4, by rw [← hl]; exact List.length_set⟩
    · exact ⟨rfl, rfl, h4, hl⟩
    · exact ⟨rfl, rfl, h4, hl⟩
    · exact ⟨rfl, h4, hl⟩
  · rintro b _ a v ⟨rfl, h4, hl⟩ hA ho
    show SameOutcome _ (Board.setWord a v b) (FfiMemory.result _ (fun _ => ()) (FfiBoard.setWord a v b))
    unfold FfiBoard.setWord
    rcases hw hA with h | ⟨h, h'⟩
    · rw [board_setWord_in (by omega) (by omega), if_pos (by omega), ffi_done]
      exact ⟨rfl, rfl, h4, by simp only [List.length_set]; exact hl⟩
    · rw [(board_noWord h4 (by omega) (by omega)).2, if_neg (by omega), if_neg (by omega), ffi_none]
      exact ⟨rfl, h4, hl⟩
  · rintro b _ a v ⟨rfl, h4, hl⟩ hA ho
    show SameOutcome _ (MemoryAccess.setLong a v b) (FfiMemory.result _ (fun _ => ()) (FfiBoard.setLong a v b))
    unfold FfiBoard.setLong
    rcases hll hA with h | ⟨h, h'⟩
    · have e : (a + 2).toNat = a.toNat + 2 := by rw [BitVec.toNat_add]; show (a.toNat + 2) % 2 ^ 32 = _; omega
      simp only [MemoryAccess.setLong]
      have w1 := board_setWord_in (b := b) (a := a) (v := toU16 (v >>> 16)) (by omega) (by omega)
      rw [w1]
      dsimp only
      rw [board_setWord_in (by simp only [List.length_set]; omega) (by simp only [List.length_set]; omega), if_pos (by omega), ffi_done, e]
      obtain ⟨e1, e2, e3, e4⟩ := long_bytes v
      rw [e1, e2, e3, e4]
      exact ⟨rfl, rfl, h4, by simp only [List.length_set]; exact hl⟩
    · rw [if_neg (by omega), if_neg (by omega), ffi_none]
      simp only [MemoryAccess.setLong, (board_noWord h4 (show b.ram.length ≤ a.toNat by omega) (by omega)).2]
      exact ⟨rfl, h4, hl⟩
  · rintro b _ ⟨rfl, h4, hl⟩; exact ⟨rfl, h4, hl⟩

/-! ### The boot -/

theorem ffi_long_at {pre ws : List U8} {x y z w : U8} {a : U32} (h0 : (a + 0x400000).toNat = pre.length) (hb : b.swap < 4) (hr : b.ram = pre ++ x :: y :: z :: w :: ws) :
    MemoryAccess.getLong a (⟨FfiBoard.callbacks, b⟩ : FfiMemory Board) = .val ((x ++ y) ++ (z ++ w)) ⟨FfiBoard.callbacks, { b with swap := b.swap + 2 }⟩ := by
  have hl : b.ram.length = pre.length + (ws.length + 4) := by rw [hr, List.length_append]; rfl
  have e : FfiBoard.getLong a b = (⟨(x ++ y) ++ (z ++ w), 0⟩, { b with swap := b.swap + 2 }) := by
    have g : ∀ k v (hk : pre.length + k < b.ram.length), (x :: y :: z :: w :: ws)[k]? = some v → b.ram[pre.length + k] = v := by
      intro k v hk hv
      have : b.ram[pre.length + k]? = some v := by rw [hr, List.getElem?_append_right (by omega), Nat.add_sub_cancel_left]; exact hv
      exact (List.getElem?_eq_some_iff.1 this).2
    unfold FfiBoard.getLong FfiBoard.swapped
    rw [if_pos hb]
    dsimp only
    generalize a + 0x400000 = q at h0
    have hq : q.toNat < b.ram.length - 3 := by omega
    rw [dif_pos hq]
    simp only [h0]
    rw [g 1 y (by omega) rfl, g 2 z (by omega) rfl, g 3 w (by omega) rfl, show b.ram[pre.length] = x from g 0 x (by omega) rfl]
  show FfiMemory.result _ id (FfiBoard.getLong a b) = _
  rw [e]
  rfl

/-- What the first eight bytes of a ROM say. -/
theorem boot_both (b0 b1 b2 b3 b4 b5 b6 b7 : U8) (tail z : List U8) (hlen : z.length = 0x400000) (B : Board) (hsw : B.swap = 0)
    (hm : B.ram = z ++ (b0 :: b1 :: b2 :: b3 :: b4 :: b5 :: b6 :: b7 :: tail)) :
    interpreterException C ⟨Cpu.new, B⟩ = later C.VECTOR_RESET (interpreterException C (afterReset ⟨Cpu.new, { B with swap := 4 }⟩ ((b0 ++ b1) ++ (b2 ++ b3)) ((b4 ++ b5) ++ (b6 ++ b7)))) ∧
    interpreterException C (⟨Cpu.new, ⟨FfiBoard.callbacks, B⟩⟩ : St (FfiMemory Board)) = later C.VECTOR_RESET
      (interpreterException C (afterReset ⟨Cpu.new, ⟨FfiBoard.callbacks, { B with swap := 4 }⟩⟩ ((b0 ++ b1) ++ (b2 ++ b3)) ((b4 ++ b5) ++ (b6 ++ b7)))) := by
  obtain ⟨sw, ram, printed⟩ := B
  have hsw : sw = 0 := hsw
  have hm : ram = z ++ (b0 :: b1 :: b2 :: b3 :: b4 :: b5 :: b6 :: b7 :: tail) := hm
  subst hsw
  have l2 : (z ++ [b0, b1]).length = 0x400002 := by rw [List.length_append, hlen]; simp
  have l4 : (z ++ [b0, b1, b2, b3]).length = 0x400004 := by rw [List.length_append, hlen]; simp
  have l6 : (z ++ [b0, b1, b2, b3, b4, b5]).length = 0x400006 := by rw [List.length_append, hlen]; simp
  have w0 := swapped_word (b := ⟨0, ram, printed⟩) (a := 0) (pre := z) (by rw [hlen]; decide) (by rw [hlen]; decide) (show 0 < 4 by decide) hm
  have w2 := swapped_word (b := ⟨1, ram, printed⟩) (a := 0 + 2) (pre := z ++ [b0, b1]) (x := b2) (y := b3) (ws := b4 :: b5 :: b6 :: b7 :: tail)
    (by rw [l2]; decide) (by rw [l2]; decide) (show 1 < 4 by decide) (by rw [List.append_assoc]; exact hm)
  have w4 := swapped_word (b := ⟨2, ram, printed⟩) (a := 4) (pre := z ++ [b0, b1, b2, b3]) (x := b4) (y := b5) (ws := b6 :: b7 :: tail)
    (by rw [l4]; decide) (by rw [l4]; decide) (show 2 < 4 by decide) (by rw [List.append_assoc]; exact hm)
  have w6 := swapped_word (b := ⟨3, ram, printed⟩) (a := 4 + 2) (pre := z ++ [b0, b1, b2, b3, b4, b5]) (x := b6) (y := b7) (ws := tail)
    (by rw [l6]; decide) (by rw [l6]; decide) (show 3 < 4 by decide) (by rw [List.append_assoc]; exact hm)
  have f0 := ffi_long_at (b := ⟨0, ram, printed⟩) (a := 0) (pre := z) (by rw [hlen]; decide) (show 0 < 4 by decide) hm
  have f4 := ffi_long_at (b := ⟨2, ram, printed⟩) (a := 4) (pre := z ++ [b0, b1, b2, b3]) (x := b4) (y := b5) (z := b6) (w := b7) (ws := tail)
    (by rw [l4]; decide) (show 2 < 4 by decide) (by rw [List.append_assoc]; exact hm)
  exact ⟨reset_reads (board_getLong w0 w2) (board_getLong w4 w6), reset_reads f0 f4⟩

/-! ### Runs -/

section
variable {M : Type} [MemoryAccess M] {u v : St M}

theorem turns_later {k : Nat} (h : interpreterException C u = later k (interpreterException C v)) (n : Nat) : boardTurns C (n + 1) u = boardTurns C (n + 1) v := by
  show (interpreter C >>= fun _ => boardTurns C n) u = (interpreter C >>= fun _ => boardTurns C n) v
  unfold interpreter
  simp only [Exec.bind_apply]
  rw [h]
  cases interpreterException C v with
  | ok x t =>
    obtain ⟨c, e⟩ := x
    simp only [later]
    cases raiseOption e t <;> rfl
  | err e t => rfl
  | panic => rfl
end

theorem run_eq (n : Nat) : Board.run C n = boardTurns C n := by
  induction n with
  | zero => rfl
  | succ n ih => unfold Board.run boardTurns; rw [ih]

theorem ffi_run_eq (n : Nat) : FfiBoard.run C n = boardTurns C n := by
  induction n with
  | zero => rfl
  | succ n ih => unfold FfiBoard.run boardTurns; rw [ih]

/-- A run of the first board that makes plain accesses only is the same on the other. -/
theorem turns_same {k n : Nat} (hk : k ≤ 0x80000000) {c : Cpu} {t : St (Fenced (plainAccess k) Board)} (h4 : b.swap = 4) (hl : b.ram.length = k)
    (h : boardTurns C n (⟨c, ⟨b⟩⟩ : St (Fenced (plainAccess k) Board)) = .ok () t) :
    boardTurns C n (⟨c, b⟩ : St Board) = .ok () ⟨t.cpu, t.mem.mem⟩ ∧ boardTurns C n (⟨c, ⟨FfiBoard.callbacks, b⟩⟩ : St (FfiMemory Board)) = .ok () ⟨t.cpu, ⟨FfiBoard.callbacks, t.mem.mem⟩⟩ := by
  have self : AlikeIn (plainAccess k) (fun b b' : Board => b = b' ∧ Booted k [] b) := by
    have := booted_alike k []
    exact ⟨fun m n a h _ => this.getByte m n a h, fun m n a h _ => this.getWord m n a h, fun m n a h _ => this.getLong m n a h, fun m n a v h _ => this.setByte m n a v h,
      fun m n a v h _ => this.setWord m n a v h, fun m n a v h _ => this.setLong m n a v h, this.resetInstruction⟩
  induction n generalizing c b with
  | zero => cases h; exact ⟨rfl, rfl⟩
  | succ n ih =>
    obtain ⟨x, u, h1, h2⟩ := bind_ok (show (interpreter C >>= fun _ => boardTurns C n) _ = _ from h)
    obtain ⟨b1, e1, rfl, g4, gl, -⟩ := C68_interpreter (n := b) self ⟨rfl, h4, hl, List.nil_prefix⟩ h1
    obtain ⟨m1, e2, rfl, -, -⟩ := C68_interpreter (n := ⟨FfiBoard.callbacks, b⟩) (boards_alike hk) ⟨rfl, h4, hl⟩ h1
    obtain ⟨r1, r2⟩ := ih g4 gl h2
    constructor
    · show (interpreter C >>= fun _ => boardTurns C n) _ = _
      rw [bind_eq e1]
      exact r1
    · show (interpreter C >>= fun _ => boardTurns C n) _ = _
      rw [bind_eq e2]
      exact r2

/-- The same ROM on the two example boards, of at least eight bytes and at most 0x100000: after the reset, and then any number of turns in which the program makes plain accesses only (bytes anywhere; words and
long words in the RAM, or outside of it and not at the registers), the two boards have the same processor state, RAM and output. -/
theorem C82_same (b0 b1 b2 b3 b4 b5 b6 b7 : U8) (rest : List U8) (hr : rest.length + 8 ≤ 0x100000) : ∃ (s : St Board) (f : St (FfiMemory Board)),
    FfiBoard.load (b0 :: b1 :: b2 :: b3 :: b4 :: b5 :: b6 :: b7 :: rest) = some f ∧
    interpreterException C (Board.load (b0 :: b1 :: b2 :: b3 :: b4 :: b5 :: b6 :: b7 :: rest)) = later C.VECTOR_RESET (interpreterException C s) ∧
    s.cpu.regs.ssp = (b0 ++ b1) ++ (b2 ++ b3) ∧ s.cpu.regs.pc = (b4 ++ b5) ++ (b6 ++ b7) ∧ s.cpu.exceptions = [] ∧ s.cpu.stop = false ∧
    s.mem = { (Board.load (b0 :: b1 :: b2 :: b3 :: b4 :: b5 :: b6 :: b7 :: rest)).mem with swap := 4 } ∧
    ∀ (n : Nat) (t : St (Fenced (plainAccess 0x500000) Board)), boardTurns C (n + 1) ⟨s.cpu, ⟨s.mem⟩⟩ = .ok () t →
      Board.run C (n + 1) (Board.load (b0 :: b1 :: b2 :: b3 :: b4 :: b5 :: b6 :: b7 :: rest)) = .ok () ⟨t.cpu, t.mem.mem⟩ ∧
      FfiBoard.run C (n + 1) f = .ok () ⟨t.cpu, ⟨FfiBoard.callbacks, t.mem.mem⟩⟩ := by
  have hz : (List.replicate 0x400000 (0 : U8)).length = 0x400000 := List.length_replicate
  have hlen : (b0 :: b1 :: b2 :: b3 :: b4 :: b5 :: b6 :: b7 :: rest).length = rest.length + 8 := rfl
  have hload : FfiBoard.load (b0 :: b1 :: b2 :: b3 :: b4 :: b5 :: b6 :: b7 :: rest) =
      some ⟨Cpu.new, ⟨FfiBoard.callbacks, (Board.load (b0 :: b1 :: b2 :: b3 :: b4 :: b5 :: b6 :: b7 :: rest)).mem⟩⟩ := by
    unfold FfiBoard.load Board.load
    rw [if_pos (by rw [hlen]; omega), List.take_of_length_le (by rw [hlen]; exact hr)]
  have hl : (Board.load (b0 :: b1 :: b2 :: b3 :: b4 :: b5 :: b6 :: b7 :: rest)).mem.ram.length = 0x500000 := by
    unfold Board.load
    dsimp only
    rw [List.length_append, List.length_append, List.length_replicate, List.length_replicate, List.length_take]
    omega
  obtain ⟨g1, g2⟩ := boot_both (C := C) b0 b1 b2 b3 b4 b5 b6 b7 _ (List.replicate 0x400000 0) hz (Board.load (b0 :: b1 :: b2 :: b3 :: b4 :: b5 :: b6 :: b7 :: rest)).mem rfl
    (take_eight (List.replicate 0x400000 0) _ 0xFFFF8 b0 b1 b2 b3 b4 b5 b6 b7 rest)
  have hb : Board.load (b0 :: b1 :: b2 :: b3 :: b4 :: b5 :: b6 :: b7 :: rest) = ⟨Cpu.new, (Board.load (b0 :: b1 :: b2 :: b3 :: b4 :: b5 :: b6 :: b7 :: rest)).mem⟩ := rfl
  generalize Board.load (b0 :: b1 :: b2 :: b3 :: b4 :: b5 :: b6 :: b7 :: rest) = L at *
  obtain ⟨lc, B⟩ := L
  cases hb
  refine ⟨_, _, hload, g1, rfl, rfl, rfl, rfl, rfl, fun n t ht => ?_⟩
  obtain ⟨r1, r2⟩ := turns_same (k := 0x500000) (by decide) (b := { B with swap := 4 }) rfl hl ht
  constructor
  · rw [run_eq, turns_later g1]
    exact r1
  · rw [ffi_run_eq, turns_later g2]
    exact r2

/-- Plain accesses only: the other accesses have other effects. A word written to 0x80002018 is printed by the first board only. A word read from a register is 14 on the first board, an access error on the other.
A long word written to the last word of the RAM is refused by both, but has been written in half on the first. -/
theorem C82_differences (h4 : b.swap = 4) (hl : b.ram.length = 0x500000) (v : U16) (w : U32) :
    MemoryAccess.setWord 0x80002018 v b = .val () { b with printed := b.printed ++ [v.setWidth 8] } ∧
    MemoryAccess.setWord 0x80002018 v (⟨FfiBoard.callbacks, b⟩ : FfiMemory Board) = .val () ⟨FfiBoard.callbacks, b⟩ ∧
    MemoryAccess.getWord 0x80002012 b = .val 14 b ∧
    MemoryAccess.getWord 0x80002012 (⟨FfiBoard.callbacks, b⟩ : FfiMemory Board) = .none ⟨FfiBoard.callbacks, b⟩ ∧
    (∃ b', MemoryAccess.setLong 0x4FFFFE w b = .none b' ∧ b'.ram = (b.ram.set 0x4FFFFE ((w >>> 24).setWidth 8)).set 0x4FFFFF ((w >>> 16).setWidth 8)) ∧
    MemoryAccess.setLong 0x4FFFFE w (⟨FfiBoard.callbacks, b⟩ : FfiMemory Board) = .none ⟨FfiBoard.callbacks, b⟩ := by
  have no : ∀ a : Nat, 0x500000 ≤ a → ¬ a < b.ram.length := fun a h => by omega
  have sb : ∀ (a : U32) (x : U8), 0x500000 ≤ a.toNat → 0x80002011 ≤ a.toNat ∧ a.toNat ≤ 0x80002019 → a ≠ 0x80002019 → Board.setByte a x b = .val () b := by
    intro a x h h' hne
    unfold Board.setByte
    rw [if_neg (no _ h), if_pos h', if_neg hne]
  have gb : ∀ (a : U32), 0x500000 ≤ a.toNat → 0x80002011 ≤ a.toNat ∧ a.toNat ≤ 0x8000201B → Board.getByte a b = .val (if a = 0x80002013 then 14 else 0) b := by
    intro a h h'
    unfold Board.getByte
    rw [dif_neg (no _ h), if_pos h']
    split <;> rfl
  refine ⟨?_, ?_, ?_, ?_, ?_, ?_⟩
  · show Board.setWord _ _ _ = _
    unfold Board.setWord
    rw [sb _ _ (by decide) (by decide) (by decide)]
    dsimp only
    unfold Board.setByte
    rw [if_neg (no _ (by decide)), if_pos (by decide), if_pos (by decide)]
    rfl
  · show FfiMemory.result _ _ (FfiBoard.setWord _ _ b) = _
    unfold FfiBoard.setWord
    rw [if_neg (by have := no 0x80002018 (by decide); show ¬ 0x80002018 < _; omega), if_pos (by decide)]
    rfl
  · show Board.getWord _ _ = _
    unfold Board.getWord
    rw [if_neg (by omega)]
    rw [twoBytes_of (gb _ (by decide) (by decide)) (gb _ (by decide) (by decide))]
    rfl
  · show FfiMemory.result _ _ (FfiBoard.getWord _ b) = _
    unfold FfiBoard.getWord FfiBoard.swapped
    rw [if_neg (by omega)]
    dsimp only
    rw [dif_neg (by have := no 0x80002012 (by decide); show ¬ 0x80002012 < _; omega)]
    rfl
  · have w1 := board_setWord_in (b := b) (a := 0x4FFFFE) (v := toU16 (w >>> 16)) (by rw [hl]; decide) (by rw [hl]; decide)
    simp only [MemoryAccess.setLong]
    rw [w1]
    dsimp only
    have w2 := (board_noWord (b := { b with ram := (b.ram.set (BitVec.toNat (0x4FFFFE : U32)) (toU8 (toU16 (w >>> 16) >>> 8))).set (BitVec.toNat (0x4FFFFE : U32) + 1) (toU8 (toU16 (w >>> 16))) })
      (a := 0x4FFFFE + 2) h4 (by simp only [List.length_set]; rw [hl]; decide) (by decide)).2 (toU16 w)
    rw [w2]
    refine ⟨_, rfl, ?_⟩
    obtain ⟨e1, e2, -, -⟩ := long_bytes w
    rw [e1, e2]
    rfl
  · show FfiMemory.result _ _ (FfiBoard.setLong _ _ b) = _
    unfold FfiBoard.setLong
    rw [if_neg (by rw [hl]; decide), if_neg (by decide)]
    rfl

/-- A ROM that does not fit: the second board does not start; the first takes what fits. -/
theorem C82_oversized (rom : List U8) : (FfiBoard.load rom = none ↔ 0x100000 < rom.length) ∧ (0x100000 < rom.length → Board.load rom = Board.load (rom.take 0x100000)) := by
  constructor
  · unfold FfiBoard.load
    split
    · rename_i h
      refine ⟨fun h' => ?_, fun h' => absurd h' (by omega)⟩
      cases h'
    · rename_i h
      refine ⟨fun _ => ?_, fun _ => rfl⟩
      omega
  · intro h
    have h1 : 0x100000 - rom.length = 0x100000 - (rom.take 0x100000).length := by rw [List.length_take]; omega
    have h2 : (rom.take 0x100000).take 0x100000 = rom.take 0x100000 := by rw [List.take_take, Nat.min_self]
    unfold Board.load
    rw [h2, h1]

/-! ### Cases -/

/-- A ROM with the stack pointer 0x1000, the program counter 0x400008 and there `NOP`: a turn after the reset makes plain accesses only. -/
example : ∃ (s : St Board) (t : St (Fenced (plainAccess 0x500000) Board)),
    interpreterException scc68070 (Board.load [0, 0, 0x10, 0, 0, 0x40, 0, 8, 0x4E, 0x71]) = later scc68070.VECTOR_RESET (interpreterException scc68070 s) ∧
    boardTurns scc68070 1 ⟨s.cpu, ⟨s.mem⟩⟩ = .ok () t := by
  obtain ⟨v, f, -, g1, -, gp, gi, gs, gm, -⟩ := C82_same (C := scc68070) 0 0 0x10 0 0 0x40 0 8 [0x4E, 0x71] (by decide)
  have hpc : v.cpu.regs.pc = 0x400008 := gp.trans (by decide)
  have hr : ∃ pre tail, v.mem.ram = pre ++ 0x4E :: 0x71 :: tail ∧ pre.length = 0x400008 := by
    rw [gm]
    exact ⟨List.replicate 0x400000 0 ++ [0, 0, 0x10, 0, 0, 0x40, 0, 8], ([] : List U8).take 0xFFFF6 ++ List.replicate (0x100000 - 10) 0,
      take_ten (List.replicate 0x400000 0) (List.replicate (0x100000 - 10) 0) 0xFFFF6 0 0 0x10 0 0 0x40 0 8 0x4E 0x71 [],
      by rw [List.length_append, List.length_replicate]; simp⟩
  obtain ⟨pre, tail, hr, hl⟩ := hr
  have hw : MemoryAccess.getWord v.cpu.regs.pc v.mem = .val 0x4E71 v.mem := by
    rw [hpc]
    show Board.getWord 0x400008 v.mem = _
    unfold Board.getWord
    rw [if_neg (by rw [gm]; decide)]
    have e1 := getByte_at (a := 0x400008) hr (by rw [hl]; decide)
    have e2 := getByte_at (b := v.mem) (a := 0x400009) (pre := pre ++ [0x4E]) (x := 0x71) (ws := tail) (by rw [List.append_assoc]; exact hr) (by rw [List.length_append, hl]; decide)
    exact twoBytes_of e1 e2
  have hf : MemoryAccess.getWord v.cpu.regs.pc (⟨v.mem⟩ : Fenced (plainAccess 0x500000) Board) = .val 0x4E71 ⟨v.mem⟩ := by
    show (if plainAccess 0x500000 .Word v.cpu.regs.pc = true then _ else _) = _
    rw [if_pos (by rw [hpc]; decide), hw]
    rfl
  obtain ⟨c, hc⟩ := C53_nop (C := scc68070) (s := (⟨v.cpu, ⟨v.mem⟩⟩ : St (Fenced (plainAccess 0x500000) Board))) (op := 0x4E71) ⟨gs, gi, by rw [hpc]; decide, _, hf, rfl⟩ (by decide)
  have hi : ∃ n u, interpreter scc68070 (⟨v.cpu, ⟨v.mem⟩⟩ : St (Fenced (plainAccess 0x500000) Board)) = .ok n u := by
    unfold interpreter
    rw [bind_eq hc]
    unfold traced
    split
    · exact ⟨_, _, rfl⟩
    · exact ⟨_, _, rfl⟩
  obtain ⟨n, u, hi⟩ := hi
  refine ⟨v, u, g1, ?_⟩
  show (interpreter scc68070 >>= fun _ => boardTurns scc68070 0) _ = _
  rw [bind_eq hi]
  rfl

/-- A RAM of the size of the boards. -/
example : ∃ b : Board, b.swap = 4 ∧ b.ram.length = 0x500000 := ⟨⟨4, List.replicate 0x500000 0, []⟩, rfl, List.length_replicate⟩

end M68k.Props
