import Verif.Lemmas.Cores
import Verif.Props.DemoRam
/-
C84: several cores that share a memory, and a spin lock made with TAS.
-/
namespace M68k.Props
open Spec Exec
set_option linter.unusedSectionVars false
variable {ι M : Type} [DecidableEq ι] [MemoryAccess M] [Ram M] {C : ι → CpuDetails} {w w' : Cores ι M} {a l k : U32} {v : U16}

theorem LockStart.locked (h : LockStart a l k v w) : Locked a l k v (fun _ => 0) none w := by
  refine ⟨⟨h.loaded, fun _ => (by decide), h.lock, h.counter⟩, ?_, h.value, fun i => ⟨(fun h => nomatch h), ?_⟩, fun _ h => (nomatch h), fun _ h => (nomatch h)⟩
  · intro j hj
    have : j = 0 := Nat.lt_one_iff.mp hj
    rw [this, at_zero]
    exact h.free.trans (congrArg some (show (0 : U8) = beByte (sz := .Byte) (0 : U8) 0 by decide +kernel))
  · simp

theorem LockStart.apart (h : LockStart a l k v w) : Apart a l k := ⟨h.even, h.lockApart, h.counterApart, h.lockCounter⟩

theorem Locked.alone {line : ι → Nat} {holder : Option ι} (h : Locked a l k v line holder w) (i : ι) (hi : HasLock a (w.core i)) : holder = some i := by
  obtain ⟨j, h2, h5, hj⟩ := hi
  have h1 : (w.core i).regs.pc = at_ a (2 * line i) := (h.placed.loaded i).here
  have hl := h.placed.lt i
  have := at_inj (by omega) (by omega) (h1.symm.trans hj)
  exact (h.holds i).mpr (Or.inr (by omega))

/-- **C84.** However many cores share a memory that keeps what is written to it, whatever the model of each, and in whatever order the host calls them: if all run the program that takes the lock with TAS, increments the counter and gives the lock back,
then no call panics, no two cores are ever between the taking and the giving back, and no increment is lost: the counter is what it was plus the number of times that a core executed the line that writes it. -/
theorem C84_lock [Writable M] (h : LockStart a l k v w) (is : List ι) : ∃ n w', schedule C (at_ a 8) is w = some (n, w') ∧
    (∀ i j, HasLock a (w'.core i) → HasLock a (w'.core j) → i = j) ∧ Holds (sz := .Word) w'.mem k (v + BitVec.ofNat 16 n) := by
  obtain ⟨n, w', line, holder, hs, h1⟩ := Locked.schedule (C := C) (LockStart.apart h) is _ _ _ _ (LockStart.locked h)
  refine ⟨n, w', hs, fun i j hi hj => ?_, h1.value⟩
  exact Option.some.inj ((Locked.alone h1 i hi).symm.trans (Locked.alone h1 j hj))

/-- **C84.** The lock does not block: at every point of every schedule there is a core, and if a core is between the taking and the giving back it is that one, that needs at most seven calls, without the help of the others, to write the counter once more. -/
theorem C84_progress [Writable M] [Nonempty ι] {is : List ι} {n : Nat} (h : LockStart a l k v w) (hs : schedule C (at_ a 8) is w = some (n, w')) :
    ∃ i m w'', (∀ j, HasLock a (w'.core j) → j = i) ∧ m ≤ 7 ∧ schedule C (at_ a 8) (List.replicate m i) w' = some (1, w'') := by
  obtain ⟨n', w1, line, holder, hs1, h1⟩ := Locked.schedule (C := C) (LockStart.apart h) is _ _ _ _ (LockStart.locked h)
  obtain ⟨rfl, rfl⟩ := Prod.mk.inj (Option.some.inj (hs.symm.trans hs1))
  have most (b : Bool) (j : Nat) : turnsLeft b j ≤ 7 := by
    unfold turnsLeft; repeat (first | omega | split)
  cases hh : holder with
  | none =>
    obtain ⟨i⟩ := ‹Nonempty ι›
    obtain ⟨m, w'', hm, hs2⟩ := Locked.progress (C := C) (LockStart.apart h) i 7 _ _ _ _ h1 (Or.inl hh) (most _ _)
    exact ⟨i, m, w'', (fun j hj => nomatch hh.symm.trans (Locked.alone h1 j hj)), hm, hs2⟩
  | some i =>
    obtain ⟨m, w'', hm, hs2⟩ := Locked.progress (C := C) (LockStart.apart h) i 7 _ _ _ _ h1 (Or.inr hh) (most _ _)
    exact ⟨i, m, w'', fun j hj => Option.some.inj ((Locked.alone h1 j hj).symm.trans hh), hm, hs2⟩

/-! ### Two cores -/

/-- The program at address 0, the counter at 14 and the lock at 16, for two cores. -/
def lockDemo : Cores Bool WordSlice :=
  let s := Demo.st [0x4AD0, 0x6BFC, 0x3011, 0x5240, 0x3280, 0x4210, 0x60F2, 41, 0] (Demo.regs [] [16, 14])
  ⟨fun _ => s.cpu, s.mem⟩

/-- A core of each kind. -/
def lockCores (b : Bool) : CpuDetails := if b then scc68070 else mc68000

theorem lockDemo_start : LockStart 0 16 14 41 lockDemo := by
  have held : HoldsWords lockDemo.mem 0 [0x4AD0, 0x6BFC, 0x3011, 0x5240, 0x3280, 0x4210, 0x60F2] := by
    have h : ∀ (i : Fin 7) (k : Fin 2), Ram.peek lockDemo.mem (at_ (at_ 0 (2 * i.val)) k.val) = some (beByte (sz := .Word) ([0x4AD0, 0x6BFC, 0x3011, 0x5240, 0x3280, 0x4210, 0x60F2][i]) k.val) := by decide
    exact fun i hi k hk => h ⟨i, hi⟩ ⟨k, hk⟩
  have value : ∀ k < 2, Ram.peek lockDemo.mem (at_ 14 k) = some (beByte (sz := .Word) (41 : U16) k) := by decide
  exact ⟨fun _ => ⟨⟨_, lock_words, held⟩, by decide, rfl, rfl, rfl, rfl⟩, fun _ => rfl, fun _ => rfl, by decide, value, by decide, by decide, by decide, by decide⟩

/-- The first core is stopped by the host between its reading of the counter and its writing; the second spins until the first goes on. Both then have written once. -/
example : ∃ w', schedule lockCores (at_ 0 8) [false, false, false, true, true, true, true, false, false, false, true, true, true, true, true] lockDemo = some (2, w') ∧
    Holds (sz := .Word) w'.mem 14 (43 : U16) :=
  let ⟨n, w', hs, _, hv⟩ := C84_lock (C := lockCores) lockDemo_start [false, false, false, true, true, true, true, false, false, false, true, true, true, true, true]
  have hn : (schedule lockCores (at_ 0 8) [false, false, false, true, true, true, true, false, false, false, true, true, true, true, true] lockDemo).map (·.1) = some 2 := by decide +kernel
  have e : n = 2 := by rw [hs] at hn; exact Option.some.inj hn
  have hv : Holds (sz := .Word) w'.mem 14 (41 + BitVec.ofNat 16 2 : U16) := e ▸ hv
  ⟨w', e ▸ hs, hv⟩

/-- Without the lock (the same program from its third line on) the same order of the lines loses an increment: two writes, and the counter is 42. -/
example : (schedule lockCores (at_ 0 8) [false, true, true, true, false, false] ⟨fun b => { lockDemo.core b with regs := { (lockDemo.core b).regs with pc := 4 } }, lockDemo.mem⟩).map (fun p => (p.1, Ram.peek p.2.mem 15)) = some (2, some 42) := by
  decide +kernel

end M68k.Props
