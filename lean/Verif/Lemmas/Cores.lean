import Verif.Lemmas.Lock
import Verif.Lemmas.MovemRam
import Verif.Props.C81
/-
Lemmas for C84: the invariant of the cores that run the lock program.
-/
namespace M68k.Exec
open Spec
set_option linter.unusedSectionVars false
variable {ι M : Type} [DecidableEq ι] [MemoryAccess M] [Ram M] {C : ι → CpuDetails} {w w' : Cores ι M} {a l k : U32} {v : U16} {i : ι}

theorem lock_words : Source.program lockProgram = some [0x4AD0, 0x6BFC, 0x3011, 0x5240, 0x3280, 0x4210, 0x60F2] := by decide +kernel

/-- Where the cores are in the program: the core `i` at the line `line i`. -/
structure Placed (a l k : U32) (line : ι → Nat) (w : Cores ι M) : Prop where
  loaded : ∀ i, Loaded lockProgram a (line i) (w.view i)
  lt : ∀ i, line i < 7
  lock : ∀ i, (w.core i).regs.a 0 = l
  counter : ∀ i, (w.core i).regs.a 1 = k

/-- The place of the data: neither the lock nor the counter is in the program or in the other. -/
structure Apart (a l k : U32) : Prop where
  even : ¬ Odd k
  lock : ∀ j < 14, l ≠ at_ a j
  counter : ∀ i < 2, ∀ j < 14, at_ k i ≠ at_ a j
  both : ∀ i < 2, l ≠ at_ k i

/-- The registers and the memory after a turn of the core `i`. -/
def after (w : Cores ι M) (i : ι) (op : U16) (r : Registers) (m' : M) : Cores ι M :=
  ⟨fun j => if j = i then { w.core i with currentOpcode := op, regs := r } else w.core j, m'⟩

theorem after_self (w : Cores ι M) (i : ι) (op : U16) (r : Registers) (m' : M) : (after w i op r m').core i = { w.core i with currentOpcode := op, regs := r } := if_pos rfl

theorem after_other (w : Cores ι M) {i x : ι} (hx : x ≠ i) (op : U16) (r : Registers) (m' : M) : (after w i op r m').core x = w.core x := if_neg hx

theorem Placed.turn {line : ι → Nat} {j : Nat} {P : Registers → M → Prop} (h : Placed a l k line w) (hj : j < 7) (g : Goes (C i) a (w.view i) j P)
    (hm : ∀ r m', P r m' → HoldsWords w.mem a [0x4AD0, 0x6BFC, 0x3011, 0x5240, 0x3280, 0x4210, 0x60F2] → HoldsWords m' a [0x4AD0, 0x6BFC, 0x3011, 0x5240, 0x3280, 0x4210, 0x60F2]) :
    ∃ op r m', Spec.turn C i w = some (after w i op r m') ∧ P r m' ∧ Placed a l k (fun x => if x = i then j else line x) (after w i op r m') := by
  obtain ⟨c, op, r, m', he, ha, ht, hp, hP⟩ := g
  have e : Exec.interpreter (C i) (w.view i) = .ok c ⟨{ (w.view i).cpu with currentOpcode := op, regs := r }, m'⟩ := by
    have e := Props.C81_program_partial he
    simp only [calls] at e
    cases hi : Exec.interpreter (C i) (w.view i) with
    | ok c' s' =>
      rw [bind_eq hi] at e
      have e2 : (pure 0 : Exec M Nat) s' = .ok 0 s' := rfl
      rw [bind_eq e2] at e
      exact e
    | err x s' => simp only [bind, Exec.bind, hi] at e; cases e
    | panic => simp only [bind, Exec.bind, hi] at e; cases e
  refine ⟨op, r, m', by simp only [Spec.turn, e]; rfl, hP, ?_⟩
  have held (x : ι) : ∃ all, Source.program lockProgram = some all ∧ HoldsWords m' a all := by
    obtain ⟨all, h1, h2⟩ := (h.loaded x).held
    rw [lock_words] at h1
    cases h1
    exact ⟨_, lock_words, hm r m' hP h2⟩
  constructor
  · intro x
    by_cases hx : x = i
    · subst hx
      have h0 := h.loaded x
      refine ⟨held x, h0.even, ?_, ?_, ?_, ?_⟩ <;> simp only [Cores.view, after]
      · exact h0.running
      · exact h0.idle
      · exact ht.trans h0.untraced
      · exact hp
    · have h0 := h.loaded x
      refine ⟨held x, h0.even, ?_, ?_, ?_, ?_⟩ <;> simp only [Cores.view, after, if_neg hx]
      · exact h0.running
      · exact h0.idle
      · exact h0.untraced
      · exact h0.here
  · intro x
    split
    · exact hj
    · exact h.lt x
  · intro x
    by_cases hx : x = i
    · subst hx; rw [after_self]; show r.a _ = _; rw [ha]; exact h.lock x
    · rw [after_other w hx]; exact h.lock x
  · intro x
    by_cases hx : x = i
    · subst hx; rw [after_self]; show r.a _ = _; rw [ha]; exact h.counter x
    · rw [after_other w hx]; exact h.counter x

/-- The invariant: who has the lock, what the lock and the counter hold, and what a core that has read the counter has in D0. -/
structure Locked (a l k : U32) (v : U16) (line : ι → Nat) (holder : Option ι) (w : Cores ι M) : Prop where
  placed : Placed a l k line w
  lock : Holds (sz := .Byte) w.mem l (if holder.isSome then 0x80 else 0)
  value : Holds (sz := .Word) w.mem k v
  holds : ∀ i, holder = some i ↔ (line i = 1 ∧ (w.core i).regs.sr.n = false) ∨ (2 ≤ line i ∧ line i ≤ 5)
  three : ∀ i, line i = 3 → low .Word ((w.core i).regs.d 0) = v
  four : ∀ i, line i = 4 → low .Word ((w.core i).regs.d 0) = v + 1

/-- The line that follows. -/
def nextLine (n : Bool) (j : Nat) : Nat := if j = 1 then (if n then 0 else 2) else if j = 6 then 0 else j + 1

/-- The holder of the lock after the line. -/
def nextHolder (i : ι) (j : Nat) (holder : Option ι) : Option ι := if j = 0 then (if holder.isSome then holder else some i) else if j = 5 then none else holder

theorem lock_kept {m m' : M} {x : U32} {n : Nat} (hs : SameExcept m m' x n) (hx : ∀ i < n, ∀ j < 14, at_ x i ≠ at_ a j)
    (h : HoldsWords m a [0x4AD0, 0x6BFC, 0x3011, 0x5240, 0x3280, 0x4210, 0x60F2]) : HoldsWords m' a [0x4AD0, 0x6BFC, 0x3011, 0x5240, 0x3280, 0x4210, 0x60F2] :=
  holdsWords_sameExcept h hs hx

theorem holds_sameExcept {sz : Size} {m m' : M} {x y : U32} {n : Nat} {v : Val sz} (h : Holds m x v) (hs : SameExcept m m' y n) (hx : ∀ i < bytes sz, ∀ j < n, at_ x i ≠ at_ y j) : Holds m' x v :=
  fun i hi => (hs _ (hx i hi)).trans (h i hi)

theorem Apart.lock1 (h : Apart a l k) : ∀ i < 1, ∀ j < 14, at_ l i ≠ at_ a j := fun i hi j hj => by
  have : i = 0 := by omega
  rw [this, at_zero]; exact h.lock j hj

theorem Apart.counterLock (h : Apart a l k) : ∀ i < bytes .Word, ∀ j < 1, at_ k i ≠ at_ l j := fun i hi j hj => by
  have : j = 0 := by omega
  rw [this, at_zero]; exact (h.both i hi).symm

theorem Apart.lockCounter (h : Apart a l k) : ∀ i < bytes .Byte, ∀ j < 2, at_ l i ≠ at_ k j := fun i hi j hj => by
  have : i = 0 := Nat.lt_one_iff.mp hi
  rw [this, at_zero]; exact h.both j hj

/-- The invariant after a turn, from what the turn did to the core. -/
theorem Locked.step {line : ι → Nat} {holder holder' : Option ι} {j : Nat} {v' : U16} {op : U16} {r : Registers} {m' : M} (h : Locked a l k v line holder w)
    (hp : Placed a l k (fun x => if x = i then j else line x) (after w i op r m')) (hl : Holds (sz := .Byte) m' l (if holder'.isSome then 0x80 else 0)) (hv : Holds (sz := .Word) m' k v')
    (hi : holder' = some i ↔ (j = 1 ∧ r.sr.n = false) ∨ (2 ≤ j ∧ j ≤ 5)) (ho : ∀ x ≠ i, holder' = some x ↔ holder = some x) (h3 : j = 3 → low .Word (r.d 0) = v') (h4 : j = 4 → low .Word (r.d 0) = v' + 1)
    (hs : v' = v ∨ holder = some i) : Locked a l k v' (fun x => if x = i then j else line x) holder' (after w i op r m') := by
  have other (x : ι) (hx : x ≠ i) (hx2 : 2 ≤ line x ∧ line x ≤ 5) : v' = v := by
    rcases hs with hs | hs
    · exact hs
    · have := (h.holds x).mpr (Or.inr hx2)
      rw [hs] at this
      exact absurd (Option.some.inj this).symm hx
  refine ⟨hp, hl, hv, ?_, ?_, ?_⟩ <;> intro x <;> by_cases hx : x = i
  · subst hx; rw [if_pos rfl, after_self]; exact hi
  · rw [if_neg hx, after_other w hx, ho x hx]; exact h.holds x
  · subst hx; rw [if_pos rfl, after_self]; exact h3
  · rw [if_neg hx, after_other w hx]; intro e; rw [other x hx (by omega)]; exact h.three x e
  · subst hx; rw [if_pos rfl, after_self]; exact h4
  · rw [if_neg hx, after_other w hx]; intro e; rw [other x hx (by omega)]; exact h.four x e

/-- One turn of a core. -/
theorem Locked.turn [Writable M] {line : ι → Nat} {holder : Option ι} (h : Locked a l k v line holder w) (hd : Apart a l k) (i : ι) :
    ∃ w', Spec.turn C i w = some w' ∧
      Locked a l k (if line i = 4 then v + 1 else v) (fun x => if x = i then nextLine (w.core i).regs.sr.n (line i) else line x) (nextHolder i (line i) holder) w' := by
  have hl := h.placed.lt i
  have hload := h.placed.loaded i
  have hi := h.holds i
  have h3 := h.three i
  have h4 := h.four i
  have hk := h.lock
  have e0 : (w.view i).cpu.regs.a 0 = l := h.placed.lock i
  have e1 : (w.view i).cpu.regs.a 1 = k := h.placed.counter i
  have ev : ¬ Odd ((w.view i).cpu.regs.a 1) := by rw [e1]; exact hd.even
  have key : line i = 0 ∨ line i = 1 ∨ line i = 2 ∨ line i = 3 ∨ line i = 4 ∨ line i = 5 ∨ line i = 6 := by omega
  have same (x : ι) (_ : x ≠ i) : holder = some x ↔ holder = some x := Iff.rfl
  rcases key with e | e | e | e | e | e | e <;> rw [e] at hload hi h3 h4 ⊢
  · -- TAS
    obtain ⟨op, r, m', ht, ⟨hn, hb, hs⟩, hp⟩ := h.placed.turn (C := C) (i := i) (by decide) (tas_line hload (e0 ▸ h.lock)) (fun _ _ h => lock_kept h.2.2 (by rw [e0]; exact hd.lock1))
    rw [e0] at hb hs
    refine ⟨_, ht, h.step hp ?_ (holds_sameExcept h.value hs hd.counterLock) ?_ ?_ (fun h => nomatch h) (fun h => nomatch h) (Or.inl rfl)⟩
    · cases holder with
      | none =>
        have e : BitOp.set.apply (0 : U8) 7 = 0x80 := by decide +kernel
        exact e ▸ hb
      | some y =>
        have e : BitOp.set.apply (0x80 : U8) 7 = 0x80 := by decide +kernel
        exact e ▸ hb
    · cases holder with
      | none =>
        have hn : r.sr.n = false := hn.trans (show neg (0 : U8) = false by decide +kernel)
        exact ⟨fun _ => Or.inl ⟨rfl, hn⟩, fun _ => rfl⟩
      | some y =>
        have hn : r.sr.n = true := hn.trans (show neg (0x80 : U8) = true by decide +kernel)
        show some y = some i ↔ _
        rw [hi, hn]
        simp [nextLine]
    · intro x hx
      cases holder with
      | none => simp [nextHolder, hx.symm]
      | some y => exact Iff.rfl
  · -- BMI
    obtain ⟨op, r, m', ht, hm, hp⟩ := h.placed.turn (C := C) (i := i) (by split <;> decide) (bmi_line hload) (fun _ _ h => by rw [h]; exact id)
    subst hm
    change Placed a l k (fun x => if x = i then nextLine (w.core i).regs.sr.n 1 else line x) _ at hp
    refine ⟨_, ht, h.step hp hk h.value ?_ same ?_ ?_ (Or.inl rfl)⟩
    · show holder = some i ↔ _
      rw [hi]
      cases (w.core i).regs.sr.n <;> simp [nextLine]
    · cases (w.core i).regs.sr.n <;> exact fun h => nomatch h
    · cases (w.core i).regs.sr.n <;> exact fun h => nomatch h
  · -- MOVE
    obtain ⟨op, r, m', ht, ⟨hm, hv⟩, hp⟩ := h.placed.turn (C := C) (i := i) (by decide) (get_line hload ev (e1 ▸ h.value)) (fun _ _ h => by rw [h.1]; exact id)
    subst hm
    refine ⟨_, ht, h.step hp hk h.value ?_ same (fun _ => hv) (fun h => nomatch h) (Or.inl rfl)⟩
    exact ⟨fun _ => Or.inr (by simp [nextLine]), fun _ => hi.mpr (Or.inr (by decide))⟩
  · -- ADDQ
    obtain ⟨op, r, m', ht, ⟨hm, hv⟩, hp⟩ := h.placed.turn (C := C) (i := i) (by decide) (add_line hload) (fun _ _ h => by rw [h.1]; exact id)
    subst hm
    refine ⟨_, ht, h.step hp hk h.value ?_ same (fun h => nomatch h) (fun _ => hv.trans (congrArg (· + 1) (h3 rfl))) (Or.inl rfl)⟩
    exact ⟨fun _ => Or.inr (by simp [nextLine]), fun _ => hi.mpr (Or.inr (by decide))⟩
  · -- MOVE
    obtain ⟨op, r, m', ht, ⟨hv, hs⟩, hp⟩ := h.placed.turn (C := C) (i := i) (by decide) (put_line hload ev (e1 ▸ h.value)) (fun _ _ h => lock_kept h.2 (by rw [e1]; exact hd.counter))
    rw [e1] at hv hs
    have hh := hi.mpr (Or.inr (by decide))
    refine ⟨_, ht, h.step hp (holds_sameExcept hk hs hd.lockCounter) (h4 rfl ▸ hv) ?_ same (fun h => nomatch h) (fun h => nomatch h) (Or.inr hh)⟩
    exact ⟨fun _ => Or.inr (by simp [nextLine]), fun _ => hh⟩
  · -- CLR
    obtain ⟨op, r, m', ht, ⟨hb, hs⟩, hp⟩ := h.placed.turn (C := C) (i := i) (by decide) (clr_line hload (e0 ▸ h.lock)) (fun _ _ h => lock_kept h.2 (by rw [e0]; exact hd.lock1))
    rw [e0] at hb hs
    have hh := hi.mpr (Or.inr (by decide))
    refine ⟨_, ht, h.step hp hb (holds_sameExcept h.value hs hd.counterLock) ?_ ?_ (fun h => nomatch h) (fun h => nomatch h) (Or.inl rfl)⟩
    · show none = some i ↔ _
      simp [nextLine]
    · intro x hx
      rw [hh]
      exact ⟨(fun h => nomatch h), fun h => absurd (Option.some.inj h).symm hx⟩
  · -- BRA
    obtain ⟨op, r, m', ht, hm, hp⟩ := h.placed.turn (C := C) (i := i) (by decide) (bra_line hload) (fun _ _ h => by rw [h]; exact id)
    subst hm
    refine ⟨_, ht, h.step hp hk h.value ?_ same (fun h => nomatch h) (fun h => nomatch h) (Or.inl rfl)⟩
    show holder = some i ↔ _
    rw [hi]
    simp [nextLine]

theorem Locked.here {line : ι → Nat} {holder : Option ι} (h : Locked a l k v line holder w) (i : ι) : (w.core i).regs.pc = at_ a 8 ↔ line i = 4 := by
  have h1 : (w.core i).regs.pc = at_ a (2 * line i) := (h.placed.loaded i).here
  have h2 := h.placed.lt i
  rw [h1]
  refine ⟨fun e => ?_, fun e => by rw [e]⟩
  have := at_inj (by omega) (by omega) e
  omega

theorem Locked.schedule [Writable M] (hd : Apart a l k) (is : List ι) : ∀ (w : Cores ι M) (v : U16) (line : ι → Nat) (holder : Option ι), Locked a l k v line holder w →
    ∃ n w' line' holder', Spec.schedule C (at_ a 8) is w = some (n, w') ∧ Locked a l k (v + BitVec.ofNat 16 n) line' holder' w' := by
  induction is with
  | nil => exact fun w v line holder h => ⟨0, w, line, holder, rfl, (BitVec.add_zero (x := v)).symm ▸ h⟩
  | cons i is ih =>
    intro w v line holder h
    obtain ⟨w1, ht, h1⟩ := h.turn (C := C) hd i
    obtain ⟨n, w', line', holder', hs, h2⟩ := ih _ _ _ _ h1
    refine ⟨if (w.core i).regs.pc = at_ a 8 then n + 1 else n, w', line', holder', ?_, ?_⟩
    · simp only [Spec.schedule, ht, Option.bind_some, hs, Option.map_some]
    · by_cases e : line i = 4
      · rw [if_pos e] at h2
        rw [if_pos ((h.here i).mpr e), BitVec.ofNat_add, BitVec.add_comm (BitVec.ofNat 16 n), ← BitVec.add_assoc]
        exact h2
      · rw [if_neg e] at h2
        rw [if_neg (fun h' => e ((h.here i).mp h'))]
        exact h2

/-- How many turns the core needs to write the counter. -/
def turnsLeft (n : Bool) (j : Nat) : Nat := if j = 0 then 5 else if j = 1 then (if n then 6 else 4) else if j = 5 then 7 else if j = 6 then 6 else 5 - j

theorem Locked.progress [Writable M] (hd : Apart a l k) (i : ι) (d : Nat) : ∀ (w : Cores ι M) (v : U16) (line : ι → Nat) (holder : Option ι), Locked a l k v line holder w →
    (holder = none ∨ holder = some i) → turnsLeft (w.core i).regs.sr.n (line i) ≤ d → ∃ m w', m ≤ d ∧ Spec.schedule C (at_ a 8) (List.replicate m i) w = some (1, w') := by
  induction d with
  | zero =>
    intro w v line holder h _ hl
    have := h.placed.lt i
    unfold turnsLeft at hl
    split at hl <;> repeat (first | omega | split at hl)
  | succ d ih =>
    intro w v line holder h hh hl
    obtain ⟨w1, ht, h1⟩ := h.turn (C := C) hd i
    by_cases e : line i = 4
    · exact ⟨1, w1, by omega, by simp only [List.replicate, Spec.schedule, ht, Option.bind_some, Option.map_some, if_pos ((h.here i).mpr e)]⟩
    · rw [if_neg e] at h1
      have hi := h.holds i
      have hlt := h.placed.lt i
      have hi1 := h1.holds i
      rw [if_pos rfl] at hi1
      have next : (nextHolder i (line i) holder = none ∨ nextHolder i (line i) holder = some i) ∧ turnsLeft (w1.core i).regs.sr.n (nextLine (w.core i).regs.sr.n (line i)) ≤ d := by
        have key : line i = 0 ∨ line i = 1 ∨ line i = 2 ∨ line i = 3 ∨ line i = 5 ∨ line i = 6 := by omega
        rcases key with e' | e' | e' | e' | e' | e' <;> rw [e'] at hl hi hi1 ⊢
        · have hn : holder = none := by
            rcases hh with hh | hh
            · exact hh
            · exact absurd (hi.mp hh) (by simp)
          subst hn
          have hn : (w1.core i).regs.sr.n = false := by
            have := hi1.mp rfl
            simpa [nextLine] using this
          refine ⟨Or.inr rfl, ?_⟩
          rw [hn]
          simp [turnsLeft, nextLine] at hl ⊢
          omega
        · refine ⟨hh, ?_⟩
          cases hn : (w.core i).regs.sr.n <;> rw [hn] at hl <;> simp [turnsLeft, nextLine] at hl ⊢ <;> exact hl
        · exact ⟨hh, by simp [turnsLeft, nextLine] at hl ⊢; omega⟩
        · exact ⟨hh, by simp [turnsLeft, nextLine] at hl ⊢; omega⟩
        · exact ⟨Or.inl rfl, by simp [turnsLeft, nextLine] at hl ⊢; omega⟩
        · exact ⟨hh, by simp [turnsLeft, nextLine] at hl ⊢; omega⟩
      obtain ⟨m, w', hm, hs⟩ := ih _ _ _ _ h1 next.1 (by rw [if_pos rfl]; exact next.2)
      refine ⟨m + 1, w', by omega, ?_⟩
      simp only [List.replicate, Spec.schedule, ht, Option.bind_some, hs, Option.map_some, if_neg (fun h' => e ((h.here i).mp h'))]

end M68k.Exec
