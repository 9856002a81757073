import Verif.Lemmas.Territory
import Verif.Lemmas.Stack
import Verif.Props.DemoRam
/-
C85: cores that keep to their own parts of a memory do not disturb each other.
-/
namespace M68k.Props
open Spec Exec
set_option linter.unusedSectionVars false
variable {ι M : Type} [DecidableEq ι] [MemoryAccess M] [Ram M] [Writable M] {C : ι → CpuDetails} {rd wr : ι → U32 → Bool} {w : Cores ι M} {m : M}

theorem turns_alone (ho : ∀ i a, wr i a = true → rd i a = true) (hd : ∀ i j, i ≠ j → ∀ a, wr i a = true → rd j a = false) (t' : (i : ι) → St (Owned (rd i) (wr i) M)) (is : List ι) :
    ∀ (w : Cores ι M), (∀ i, ∃ (t : St (Owned (rd i) (wr i) M)) (k : Nat), t.cpu = w.core i ∧ AgreeIn (rd i) t.mem.mem w.mem ∧ calls (C i) (is.count i) t = .ok k (t' i)) →
      ∃ w', runTurns C is w = some w' ∧ (∀ i, w'.core i = (t' i).cpu ∧ AgreeIn (rd i) (t' i).mem.mem w'.mem) ∧ ∀ a, (∀ i, wr i a = false) → Ram.peek w'.mem a = Ram.peek w.mem a := by
  induction is with
  | nil =>
    intro w h
    refine ⟨w, rfl, fun i => ?_, fun _ _ => rfl⟩
    obtain ⟨t, k, h1, h2, h3⟩ := h i
    have e : t = t' i := by
      have : (Res.ok 0 t : Res _ Nat) = .ok k (t' i) := h3
      exact (Res.ok.inj this).2
    exact ⟨by rw [← e]; exact h1.symm, by rw [← e]; exact h2⟩
  | cons i is ih =>
    intro w h
    obtain ⟨t, k, h1, h2, h3⟩ := h i
    rw [List.count_cons_self] at h3
    simp only [calls] at h3
    cases hi : Exec.interpreter (C i) t with
    | err x s' => simp only [bind, Exec.bind, hi] at h3; cases h3
    | panic => simp only [bind, Exec.bind, hi] at h3; cases h3
    | ok c t1 =>
      rw [bind_eq hi] at h3
      cases hn : calls (C i) (is.count i) t1 with
      | err x s' => simp only [bind, Exec.bind, hn] at h3; cases h3
      | panic => simp only [bind, Exec.bind, hn] at h3; cases h3
      | ok c2 t2 =>
        rw [bind_eq hn] at h3
        have e : t2 = t' i := (Res.ok.inj h3).2
        obtain ⟨n', h4, h5, h6⟩ := owned_call (c := t.cpu) (f := t.mem) (ho i) h2 hi
        have ht : turn C i w = some ⟨fun j => if j = i then t1.cpu else w.core j, n'⟩ := by
          simp only [turn, Cores.view, ← h1, h4]
        obtain ⟨w', hw, h7, h8⟩ := ih ⟨fun j => if j = i then t1.cpu else w.core j, n'⟩ (fun j => by
          by_cases hj : j = i
          · subst hj
            exact ⟨t1, c2, (if_pos rfl).symm, h5, e ▸ hn⟩
          · obtain ⟨u, l, g1, g2, g3⟩ := h j
            rw [List.count_cons_of_ne (Ne.symm hj)] at g3
            refine ⟨u, l, g1.trans (if_neg hj).symm, fun a ha => ?_, g3⟩
            obtain ⟨b, g4, g5⟩ := g2 a ha
            refine ⟨b, g4, (h6 a ?_).trans g5⟩
            cases hw : wr i a with
            | false => rfl
            | true => rw [hd i j (Ne.symm hj) a hw] at ha; cases ha)
        refine ⟨w', by simp only [runTurns, ht, Option.bind_some]; exact hw, h7, fun a ha => (h8 a ha).trans (h6 a (ha i))⟩

/-- **C85.** Cores that share a memory, each of which keeps to its own part of it, are not disturbed by each other, whatever the order in which the host calls them: if each core alone, behind a fence around its part, makes as many calls as the schedule has turns for it,
then the schedule runs without a panic, every core ends in the state it has alone, with the same bytes in its part, and the bytes that no core may write are as they were. -/
theorem C85_alone {t : (i : ι) → St (Owned (rd i) (wr i) M)} (hp : Parts rd wr w.mem) (is : List ι) (h : ∀ i, ∃ k, alone C rd wr w i (is.count i) = .ok k (t i)) :
    ∃ w', runTurns C is w = some w' ∧ (∀ i, w'.core i = (t i).cpu ∧ ∀ a, rd i a = true → Ram.peek w'.mem a = Ram.peek (t i).mem.mem a) ∧ ∀ a, (∀ i, wr i a = false) → Ram.peek w'.mem a = Ram.peek w.mem a := by
  obtain ⟨w', h1, h2, h3⟩ := turns_alone (C := C) hp.own hp.apart t is w (fun i => by
    obtain ⟨k, hk⟩ := h i
    refine ⟨⟨w.core i, ⟨w.mem⟩⟩, k, rfl, fun a ha => ?_, hk⟩
    obtain ⟨b, hb⟩ := Option.isSome_iff_exists.mp (hp.present i a ha)
    exact ⟨b, hb, hb⟩)
  refine ⟨w', h1, fun i => ⟨(h2 i).1, fun a ha => ?_⟩, h3⟩
  obtain ⟨b, g1, g2⟩ := (h2 i).2 a ha
  rw [g1, g2]

/-- **C85.** The order of the calls does not matter: two schedules with the same number of turns for each core end with the same cores and the same bytes of memory. -/
theorem C85_order {t : (i : ι) → St (Owned (rd i) (wr i) M)} (hp : Parts rd wr w.mem) {is js : List ι} (hc : ∀ i, is.count i = js.count i) (h : ∀ i, ∃ k, alone C rd wr w i (is.count i) = .ok k (t i)) :
    ∃ w1 w2, runTurns C is w = some w1 ∧ runTurns C js w = some w2 ∧ w1.core = w2.core ∧ ∀ a, Ram.peek w1.mem a = Ram.peek w2.mem a := by
  obtain ⟨w1, h1, h2, h3⟩ := C85_alone hp is h
  obtain ⟨w2, g1, g2, g3⟩ := C85_alone (C := C) hp js (fun i => hc i ▸ h i)
  refine ⟨w1, w2, h1, g1, funext fun i => (h2 i).1.trans (g2 i).1.symm, fun a => ?_⟩
  by_cases ha : ∀ i, wr i a = false
  · rw [h3 a ha, g3 a ha]
  · obtain ⟨i, hi⟩ := Classical.not_forall.mp ha
    have hr := hp.own i a (Bool.not_eq_false _ |>.mp hi)
    rw [(h2 i).2 a hr, (g2 i).2 a hr]

/-! ### Two cores with one program -/

/-- `ADDQ.W #1,(A0); BRA` back to it, at address 0, shared by two cores; the counter of the first is at 4 and that of the second at 6. -/
def partsDemo : Cores Bool WordSlice :=
  let s := Demo.st [0x5250, 0x60FC, 10, 20] (Demo.regs [] [4])
  ⟨fun b => if b then { s.cpu with regs := { s.cpu.regs with a := fun n => if n = 0 then 6 else 0 } } else s.cpu, s.mem⟩

/-- The counter of the core. -/
def partsWr (b : Bool) (a : U32) : Bool := if b then a = 6 || a = 7 else a = 4 || a = 5

/-- The program and the counter of the core. -/
def partsRd (b : Bool) (a : U32) : Bool := a = 0 || a = 1 || a = 2 || a = 3 || partsWr b a

theorem partsDemo_parts : Parts partsRd partsWr partsDemo.mem := by
  refine ⟨fun i a h => by simp [partsRd, h], fun i j hij a h => ?_, fun i a h => ?_⟩
  · cases i <;> cases j <;> simp [partsWr, partsRd] at h hij ⊢ <;> rcases h with rfl | rfl <;> decide
  · have : a = 0 ∨ a = 1 ∨ a = 2 ∨ a = 3 ∨ a = 4 ∨ a = 5 ∨ a = 6 ∨ a = 7 := by
      cases i <;> simp [partsWr, partsRd] at h <;> grind
    rcases this with rfl | rfl | rfl | rfl | rfl | rfl | rfl | rfl <;> decide

/-- The state of a core after `n` calls alone. -/
def partsAlone (n : Nat) (i : Bool) : St (Owned (partsRd i) (partsWr i) WordSlice) :=
  match alone (fun _ => mc68000) partsRd partsWr partsDemo i n with
  | .ok _ s => s
  | _ => ⟨partsDemo.core i, ⟨partsDemo.mem⟩⟩

/-- With four turns for each core, in any order, both counters are two more. -/
example (is : List Bool) (h0 : is.count false = 4) (h1 : is.count true = 4) :
    ∃ w', runTurns (fun _ => mc68000) is partsDemo = some w' ∧ Ram.peek w'.mem 5 = some 12 ∧ Ram.peek w'.mem 7 = some 22 := by
  have hc : ∀ i, is.count i = 4 := fun i => by cases i <;> assumption
  have ok : ∀ i, (match alone (fun _ => mc68000) partsRd partsWr partsDemo i 4 with | .ok _ _ => true | _ => false) = true := by decide +kernel
  obtain ⟨w', h, h2, -⟩ := C85_alone (C := fun _ => mc68000) (t := partsAlone 4) partsDemo_parts is (fun i => by
    rw [hc i]
    have := ok i
    simp only [partsAlone]
    split at this
    · rename_i k s e; exact ⟨k, by rw [e]⟩
    · cases this)
  exact ⟨w', h, ((h2 false).2 5 (by decide)).trans (by decide +kernel), ((h2 true).2 7 (by decide)).trans (by decide +kernel)⟩

end M68k.Props
