import Verif.Model.Bench
import Verif.Lemmas.Alike
import Verif.Lemmas.Exec
/-
C92: the benchmarks execute what the example boards execute.
-/
namespace M68k.Props
open Spec Exec
variable {C : CpuDetails} {rom : List U8} {n : Nat}

/-- The memory of a benchmark and the memory of an example board in the same situation: the same 0x500000 bytes of RAM, and as many words read at the start. What the board has
printed is not in the memory of the benchmark. -/
def AsOnBoard (m : BenchMemory) (b : Board) : Prop := m.swap = b.swap ∧ m.ram = b.ram ∧ b.ram.length = 0x500000

/-- The same through the C interface. -/
def AsOnFfiBoard (m : FfiMemory BenchMemory) (f : FfiMemory Board) : Prop := m.cb = Bench.callbacks ∧ f.cb = FfiBoard.callbacks ∧ AsOnBoard m.user f.user

/-! ### The two memories answer alike -/

theorem bench_getByte (m : BenchMemory) (b : Board) (a : U32) (h : AsOnBoard m b) : SameOutcome AsOnBoard (Bench.getByte a m) (Board.getByte a b) := by
  obtain ⟨sw, ram⟩ := m
  obtain ⟨sw', ram', pr⟩ := b
  obtain ⟨rfl, rfl, hl⟩ := h
  have hl' : ram.length = 0x500000 := hl
  unfold Bench.getByte Board.getByte
  by_cases h1 : 0x80002011 ≤ a.toNat ∧ a.toNat ≤ 0x8000201B
  · rw [if_pos h1, dif_neg (show ¬ a.toNat < ram.length by omega), if_pos h1]
    split
    · exact ⟨rfl, rfl, rfl, hl⟩
    · exact ⟨rfl, rfl, rfl, hl⟩
  · rw [if_neg h1]
    by_cases h2 : a.toNat < ram.length
    · rw [dif_pos h2, dif_pos h2]; exact ⟨rfl, rfl, rfl, hl⟩
    · rw [dif_neg h2, dif_neg h2, if_neg h1]; exact ⟨rfl, rfl, hl⟩

theorem bench_setByte (m : BenchMemory) (b : Board) (a : U32) (v : U8) (h : AsOnBoard m b) : SameOutcome AsOnBoard (Bench.setByte a v m) (Board.setByte a v b) := by
  obtain ⟨sw, ram⟩ := m
  obtain ⟨sw', ram', pr⟩ := b
  obtain ⟨rfl, rfl, hl⟩ := h
  have hl' : ram.length = 0x500000 := hl
  unfold Bench.setByte Board.setByte
  by_cases h1 : 0x80002011 ≤ a.toNat ∧ a.toNat ≤ 0x80002019
  · rw [if_pos h1, if_neg (show ¬ a.toNat < ram.length by omega), if_pos h1]
    split
    · exact ⟨rfl, rfl, rfl, hl⟩
    · exact ⟨rfl, rfl, rfl, hl⟩
  · rw [if_neg h1]
    by_cases h2 : a.toNat < ram.length
    · rw [if_pos h2, if_pos h2]; exact ⟨rfl, rfl, rfl, by rw [← hl]; exact List.length_set⟩
    · rw [if_neg h2, if_neg h2, if_neg h1]; exact ⟨rfl, rfl, hl⟩

theorem bench_twoBytes (m : BenchMemory) (b : Board) (hi lo : U32) (h : AsOnBoard m b) : SameOutcome AsOnBoard (Bench.twoBytes hi lo m) (Board.twoBytes hi lo b) := by
  unfold Bench.twoBytes Board.twoBytes
  have h1 := bench_getByte m b hi h
  generalize Bench.getByte hi m = x at h1
  generalize Board.getByte hi b = y at h1
  match x, y, h1 with
  | .val x m1, .val _ b1, ⟨rfl, hr⟩ =>
    have h2 := bench_getByte m1 b1 lo hr
    dsimp only
    generalize Bench.getByte lo m1 = z at h2
    generalize Board.getByte lo b1 = w at h2
    match z, w, h2 with
    | .val z m2, .val _ b2, ⟨rfl, hr⟩ => exact ⟨rfl, hr⟩
    | .none _, .none _, hr => exact hr
    | .panic, .panic, _ => trivial
  | .none _, .none _, hr => exact hr
  | .panic, .panic, _ => trivial

theorem bench_getWord (m : BenchMemory) (b : Board) (a : U32) (h : AsOnBoard m b) : SameOutcome AsOnBoard (Bench.getWord a m) (Board.getWord a b) := by
  obtain ⟨sw, ram⟩ := m
  obtain ⟨sw', ram', pr⟩ := b
  obtain ⟨h1, h2, hl⟩ := h
  obtain rfl : sw = sw' := h1
  unfold Bench.getWord Board.getWord
  dsimp only
  by_cases hs : sw < 4
  · rw [if_pos hs, if_pos hs]
    have h3 : AsOnBoard ⟨sw + 1, ram⟩ ⟨sw + 1, ram', pr⟩ := ⟨rfl, h2, hl⟩
    generalize a + 0x400000 = hi
    generalize a + 0x400001 = lo
    exact bench_twoBytes _ _ hi lo h3
  · rw [if_neg hs, if_neg hs]
    have h3 : AsOnBoard ⟨sw, ram⟩ ⟨sw, ram', pr⟩ := ⟨rfl, h2, hl⟩
    exact bench_twoBytes _ _ a (a + 1) h3

theorem bench_setWord (m : BenchMemory) (b : Board) (a : U32) (v : U16) (h : AsOnBoard m b) : SameOutcome AsOnBoard (Bench.setWord a v m) (Board.setWord a v b) := by
  unfold Bench.setWord Board.setWord
  have h1 := bench_setByte m b a (toU8 (v >>> 8)) h
  generalize Bench.setByte a (toU8 (v >>> 8)) m = x at h1
  generalize Board.setByte a (toU8 (v >>> 8)) b = y at h1
  match x, y, h1 with
  | .val _ m1, .val _ b1, ⟨_, hr⟩ => exact bench_setByte m1 b1 (a + 1) (toU8 v) hr
  | .none _, .none _, hr => exact hr
  | .panic, .panic, _ => trivial

theorem bench_alike : Alike AsOnBoard where
  getByte m b a h := bench_getByte m b a h
  getWord m b a h _ := bench_getWord m b a h
  getLong m b a h _ := by
    simp only [MemoryAccess.getLong]
    have h1 := bench_getWord m b a h
    generalize Bench.getWord a m = x at h1
    generalize Board.getWord a b = y at h1
    match x, y, h1 with
    | .val x m1, .val _ b1, ⟨rfl, hr⟩ =>
      have h2 := bench_getWord m1 b1 (a + 2) hr
      dsimp only
      generalize Bench.getWord (a + 2) m1 = z at h2
      generalize Board.getWord (a + 2) b1 = w at h2
      match z, w, h2 with
      | .val z m2, .val _ b2, ⟨rfl, hr⟩ => exact ⟨rfl, hr⟩
      | .none _, .none _, hr => exact hr
      | .panic, .panic, _ => trivial
    | .none _, .none _, hr => exact hr
    | .panic, .panic, _ => trivial
  setByte m b a v h := bench_setByte m b a v h
  setWord m b a v h _ := bench_setWord m b a v h
  setLong m b a v h _ := by
    simp only [MemoryAccess.setLong]
    have h1 := bench_setWord m b a (toU16 (v >>> 16)) h
    generalize Bench.setWord a (toU16 (v >>> 16)) m = x at h1
    generalize Board.setWord a (toU16 (v >>> 16)) b = y at h1
    match x, y, h1 with
    | .val x m1, .val _ b1, ⟨_, hr⟩ => exact bench_setWord m1 b1 (a + 2) (toU16 v) hr
    | .none _, .none _, hr => exact hr
    | .panic, .panic, _ => trivial
  resetInstruction m b h := h

/-- One callback. -/
theorem ffi_pair {α : Type} {m : BenchMemory} {b : Board} (f : U32 → α) {x : MemoryResult × BenchMemory} {y : MemoryResult × Board} (h : x.1 = y.1 ∧ AsOnBoard x.2 y.2) :
    SameOutcome AsOnFfiBoard (FfiMemory.result ⟨Bench.callbacks, m⟩ f x) (FfiMemory.result ⟨FfiBoard.callbacks, b⟩ f y) := by
  obtain ⟨r, m1⟩ := x
  obtain ⟨r', b1⟩ := y
  obtain ⟨h1, h2⟩ := h
  obtain rfl : r = r' := h1
  unfold FfiMemory.result
  dsimp only
  by_cases he : r.exception = 0
  · rw [if_pos he, if_pos he]; exact ⟨rfl, rfl, rfl, h2⟩
  · rw [if_neg he, if_neg he]; exact ⟨rfl, rfl, h2⟩

theorem ffiBench_alike : Alike AsOnFfiBoard := by
  refine { getByte := ?_, getWord := ?_, getLong := ?_, setByte := ?_, setWord := ?_, setLong := ?_, resetInstruction := ?_ }
  · rintro ⟨_, m⟩ ⟨_, b⟩ a ⟨rfl, rfl, h⟩
    refine ffi_pair toU8 ?_
    obtain ⟨sw, ram⟩ := m; obtain ⟨sw', ram', pr⟩ := b; obtain ⟨rfl, rfl, hl⟩ := h
    show (Bench.ffiGetByte a _).1 = (FfiBoard.getByte a _).1 ∧ AsOnBoard (Bench.ffiGetByte a _).2 (FfiBoard.getByte a _).2
    unfold Bench.ffiGetByte FfiBoard.getByte
    repeat' split
    all_goals exact ⟨rfl, rfl, rfl, hl⟩
  · rintro ⟨_, m⟩ ⟨_, b⟩ a ⟨rfl, rfl, h⟩ -
    refine ffi_pair toU16 ?_
    obtain ⟨sw, ram⟩ := m; obtain ⟨sw', ram', pr⟩ := b; obtain ⟨rfl, rfl, hl⟩ := h
    show (Bench.ffiGetWord a _).1 = (FfiBoard.getWord a _).1 ∧ AsOnBoard (Bench.ffiGetWord a _).2 (FfiBoard.getWord a _).2
    unfold Bench.ffiGetWord FfiBoard.getWord Bench.swapped FfiBoard.swapped
    dsimp only
    by_cases hs : sw < 4
    · rw [if_pos hs, if_pos hs]
      dsimp only
      split
      all_goals exact ⟨rfl, rfl, rfl, hl⟩
    · rw [if_neg hs, if_neg hs]
      dsimp only
      split
      all_goals exact ⟨rfl, rfl, rfl, hl⟩
  · rintro ⟨_, m⟩ ⟨_, b⟩ a ⟨rfl, rfl, h⟩ -
    refine ffi_pair id ?_
    obtain ⟨sw, ram⟩ := m; obtain ⟨sw', ram', pr⟩ := b; obtain ⟨rfl, rfl, hl⟩ := h
    show (Bench.ffiGetLong a _).1 = (FfiBoard.getLong a _).1 ∧ AsOnBoard (Bench.ffiGetLong a _).2 (FfiBoard.getLong a _).2
    unfold Bench.ffiGetLong FfiBoard.getLong Bench.swapped FfiBoard.swapped
    dsimp only
    by_cases hs : sw < 4
    · rw [if_pos hs, if_pos hs]
      dsimp only
      split
      all_goals exact ⟨rfl, rfl, rfl, hl⟩
    · rw [if_neg hs, if_neg hs]
      dsimp only
      split
      all_goals exact ⟨rfl, rfl, rfl, hl⟩
  · rintro ⟨_, m⟩ ⟨_, b⟩ a v ⟨rfl, rfl, h⟩
    refine ffi_pair _ ?_
    obtain ⟨sw, ram⟩ := m; obtain ⟨sw', ram', pr⟩ := b; obtain ⟨rfl, rfl, hl⟩ := h
    show (Bench.ffiSetByte a v _).1 = (FfiBoard.setByte a v _).1 ∧ AsOnBoard (Bench.ffiSetByte a v _).2 (FfiBoard.setByte a v _).2
    unfold Bench.ffiSetByte FfiBoard.setByte
    repeat' split
    all_goals first | exact ⟨rfl, rfl, rfl, hl⟩ | exact ⟨rfl, rfl, rfl, by rw [← hl]; exact List.length_set⟩
  · rintro ⟨_, m⟩ ⟨_, b⟩ a v ⟨rfl, rfl, h⟩ -
    refine ffi_pair _ ?_
    obtain ⟨sw, ram⟩ := m; obtain ⟨sw', ram', pr⟩ := b; obtain ⟨rfl, rfl, hl⟩ := h
    show (Bench.ffiSetWord a v _).1 = (FfiBoard.setWord a v _).1 ∧ AsOnBoard (Bench.ffiSetWord a v _).2 (FfiBoard.setWord a v _).2
    unfold Bench.ffiSetWord FfiBoard.setWord
    repeat' split
    all_goals first | exact ⟨rfl, rfl, rfl, hl⟩ | exact ⟨rfl, rfl, rfl, by rw [← hl]; simp only [List.length_set]⟩
  · rintro ⟨_, m⟩ ⟨_, b⟩ a v ⟨rfl, rfl, h⟩ -
    refine ffi_pair _ ?_
    obtain ⟨sw, ram⟩ := m; obtain ⟨sw', ram', pr⟩ := b; obtain ⟨rfl, rfl, hl⟩ := h
    show (Bench.ffiSetLong a v _).1 = (FfiBoard.setLong a v _).1 ∧ AsOnBoard (Bench.ffiSetLong a v _).2 (FfiBoard.setLong a v _).2
    unfold Bench.ffiSetLong FfiBoard.setLong
    repeat' split
    all_goals first | exact ⟨rfl, rfl, rfl, hl⟩ | exact ⟨rfl, rfl, rfl, by rw [← hl]; simp only [List.length_set]⟩
  · rintro ⟨_, m⟩ ⟨_, b⟩ ⟨rfl, rfl, h⟩
    exact ⟨rfl, rfl, h⟩

theorem sim_turns {M N α : Type} [MemoryAccess M] [MemoryAccess N] {R : M → N → Prop} {x : Exec M α} {y : Exec N α} (h : Exec.Sim R x y) : ∀ n, Exec.Sim R (Bench.turns x n) (Bench.turns y n)
  | 0 => .pure _
  | n + 1 => .bind h fun _ => .bind (sim_turns h n) fun _ => .pure _

theorem bench_start {s : St BenchMemory} (h : Bench.setup rom = some s) : SameState AsOnBoard s (Board.load rom) := by
  unfold Bench.setup Bench.memory at h
  split at h
  · next hr =>
    cases h
    refine ⟨rfl, rfl, ?_, ?_⟩
    · show _ = List.replicate 0x400000 0 ++ rom.take 0x100000 ++ List.replicate (0x100000 - rom.length) 0
      rw [List.take_of_length_le (by omega)]
    · show (List.replicate 0x400000 0 ++ rom.take 0x100000 ++ List.replicate (0x100000 - rom.length) 0).length = _
      simp only [List.length_append, List.length_replicate, List.length_take]
      omega
  · cases h

theorem ffiBench_start {s : St (FfiMemory BenchMemory)} (h : Bench.ffiSetup rom = some s) : ∃ t, FfiBoard.load rom = some t ∧ SameState AsOnFfiBoard s t := by
  unfold Bench.ffiSetup Bench.memory at h
  unfold FfiBoard.load
  split at h
  · next hr =>
    cases h
    rw [if_pos hr]
    refine ⟨_, rfl, rfl, rfl, rfl, rfl, rfl, ?_⟩
    show (List.replicate 0x400000 0 ++ rom ++ List.replicate (0x100000 - rom.length) 0).length = _
    simp only [List.length_append, List.length_replicate]
    omega
  · cases h

/-! ### The properties -/

/-- Whatever the ROM and the number of turns: the calls of `interpreter` the Rust benchmark makes return the same numbers of cycles, and leave the same core and the same RAM, as the same
calls on the example board (and panic if and only if these do). -/
theorem C92_interpreter {s : St BenchMemory} (h : Bench.setup rom = some s) :
    SameResult AsOnBoard (Bench.interpreterBench C n s) (Bench.turns (interpreter C) n (Board.load rom)) :=
  sim_turns (Exec.sim_interpreter bench_alike C) n _ _ (bench_start h)

/-- The same for the benchmark of `interpreter_exception`, with the exceptions it returns. -/
theorem C92_exception {s : St BenchMemory} (h : Bench.setup rom = some s) :
    SameResult AsOnBoard (Bench.exceptionBench C n s) (Bench.turns (interpreterException C) n (Board.load rom)) :=
  sim_turns (Exec.sim_interpreterException bench_alike C) n _ _ (bench_start h)

/-- The same for the benchmarks of the C interface and its example. -/
theorem C92_ffi {s : St (FfiMemory BenchMemory)} (h : Bench.ffiSetup rom = some s) : ∃ t, FfiBoard.load rom = some t ∧
    SameResult AsOnFfiBoard (Bench.ffiInterpreterBench C n s) (Bench.turns (interpreter C) n t) ∧
    SameResult AsOnFfiBoard (Bench.ffiExceptionBench C n s) (Bench.turns (ffiInterpreterException C) n t) := by
  obtain ⟨t, h1, h2⟩ := ffiBench_start h
  refine ⟨t, h1, sim_turns (Exec.sim_interpreter ffiBench_alike C) n _ _ h2, sim_turns ?_ n _ _ h2⟩
  exact .bind (Exec.sim_interpreterException ffiBench_alike C) fun _ => .pure _

/-- The loops of the examples are these turns, the numbers of cycles being thrown away. -/
theorem C92_loops : Board.run C n = (do let _ ← Bench.turns (interpreter C) n; return ()) ∧ FfiBoard.run C n = (do let _ ← Bench.turns (interpreter C) n; return ()) := by
  induction n with
  | zero => exact ⟨rfl, rfl⟩
  | succ n ih =>
    obtain ⟨h1, h2⟩ := ih
    constructor
    · unfold Board.run Bench.turns
      rw [h1]
      simp only [bind_assoc, pure_bind]
    · unfold FfiBoard.run Bench.turns
      rw [h2]
      simp only [bind_assoc, pure_bind]

/-- The benchmarks start with the 0x500000 bytes of RAM, the ROM at 0x400000 and zeros elsewhere, exactly for the ROMs that fit; both panic for the others. -/
theorem C92_setup : (rom.length ≤ 0x100000 → ∃ m, Bench.setup rom = some { cpu := Cpu.new, mem := m } ∧
      Bench.ffiSetup rom = some { cpu := Cpu.new, mem := { cb := Bench.callbacks, user := m } } ∧ m.swap = 0 ∧ m.ram.length = 0x500000 ∧
      (∀ i, i < rom.length → m.ram[0x400000 + i]? = rom[i]?) ∧ (∀ i, i < 0x500000 → i < 0x400000 ∨ 0x400000 + rom.length ≤ i → m.ram[i]? = some 0)) ∧
    (0x100000 < rom.length → Bench.setup rom = none ∧ Bench.ffiSetup rom = none) := by
  unfold Bench.setup Bench.ffiSetup Bench.memory
  constructor
  · intro h
    rw [if_pos (by omega)]
    refine ⟨_, rfl, rfl, rfl, ?_, ?_, ?_⟩
    · dsimp only
      simp only [List.length_append, List.length_replicate]
      omega
    · intro i hi
      dsimp only
      rw [List.getElem?_append_left (by simp only [List.length_append, List.length_replicate]; omega), List.getElem?_append_right (by simp only [List.length_replicate]; omega)]
      rw [List.length_replicate, Nat.add_sub_cancel_left]
    · intro i hi ho
      dsimp only
      rcases ho with ho | ho
      · rw [List.append_assoc, List.getElem?_append_left (by simp only [List.length_replicate]; omega), List.getElem?_replicate_of_lt ho]
      · rw [List.getElem?_append_right (by simp only [List.length_append, List.length_replicate]; omega)]
        simp only [List.length_append, List.length_replicate]
        rw [List.getElem?_replicate_of_lt (by omega)]
  · intro h
    rw [if_neg (by omega)]
    exact ⟨rfl, rfl⟩

/-- A ROM of 256 KiB fits, one of 2 MiB does not. -/
example : (∃ s, Bench.setup (List.replicate 0x40000 0x4E) = some s) ∧ (∃ s, Bench.ffiSetup (List.replicate 0x40000 0x4E) = some s) ∧ Bench.setup (List.replicate 0x200000 0x4E) = none := by
  have h1 : (List.replicate 0x40000 (0x4E : U8)).length = 0x40000 := List.length_replicate
  have h2 : (List.replicate 0x200000 (0x4E : U8)).length = 0x200000 := List.length_replicate
  obtain ⟨m, h3, h4, _⟩ := (C92_setup (rom := List.replicate 0x40000 0x4E)).1 (by omega)
  exact ⟨⟨_, h3⟩, ⟨_, h4⟩, ((C92_setup (rom := List.replicate 0x200000 0x4E)).2 (by omega)).1⟩

/-- Each of the 10,000,000 turns of the benchmark of a ROM of 256 KiB, on the SCC68070. -/
example : ∃ s, Bench.setup (List.replicate 0x40000 0x4E) = some s ∧ ∀ n ≤ 10000000,
    SameResult AsOnBoard (Bench.interpreterBench scc68070 n s) (Bench.turns (interpreter scc68070) n (Board.load (List.replicate 0x40000 0x4E))) := by
  have h1 : (List.replicate 0x40000 (0x4E : U8)).length = 0x40000 := List.length_replicate
  obtain ⟨m, h3, _⟩ := (C92_setup (rom := List.replicate 0x40000 0x4E)).1 (by omega)
  exact ⟨_, h3, fun n _ => C92_interpreter h3⟩

/-- A character sent to the serial port: the board prints it, the benchmark does not, and both go on. -/
example : Bench.setByte 0x80002019 0x41 ⟨4, [1, 2]⟩ = .val () ⟨4, [1, 2]⟩ ∧ Board.setByte 0x80002019 0x41 ⟨4, [1, 2], []⟩ = .val () ⟨4, [1, 2], [0x41]⟩ := ⟨rfl, rfl⟩

end M68k.Props
