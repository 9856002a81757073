import Verif.Model.FfiCores
import Verif.Props.C50
/-
C59: the cores of a C program are independent.
-/
namespace M68k.Props
open Spec Exec
set_option linter.unusedSectionVars false
variable {U : Type} {h h' : Host U} {p q m : Ptr} {cs : List (HostCall × Answer)}

/-- The call uses the core `p`: it is a call with this core, or deletes it, or allocates it. -/
def OnCore (p : Ptr) : HostCall × Answer → Prop
  | (.new _, a) => a = .pointer p
  | (.newNoReset _, a) => a = .pointer p
  | (.delete q, _) => q = p
  | (.call q _ _, _) => q = p

/-- The call is given the memory `m`. -/
def OnMemory (m : Ptr) : HostCall × Answer → Prop
  | (.call _ k _, _) => k = m
  | _ => False

noncomputable instance (p : Ptr) : DecidablePred (OnCore p) := fun _ => Classical.propDecidable _

theorem step_core {c : HostCall} {a : Answer} (hc : c.Does h a h') (hp : ¬ OnCore p (c, a)) : h'.core p = h.core p := by
  cases hc with
  | new h1 h2 => exact if_neg fun e => hp (by rw [e]; rfl)
  | newNoReset h1 h2 => exact if_neg fun e => hp (by rw [e]; rfl)
  | delete h1 => exact if_neg fun e => hp e.symm
  | call h1 h2 => exact if_neg fun e => hp e.symm

theorem step_memory {c : HostCall} {a : Answer} (hc : c.Does h a h') (hp : ¬ OnMemory m (c, a)) : h'.memory m = h.memory m := by
  cases hc with
  | new h1 h2 => rfl
  | newNoReset h1 h2 => rfl
  | delete h1 => rfl
  | call h1 h2 => exact if_neg fun e => hp e.symm

/-- Calls that do not use a core leave it as it is, whatever they do with other cores. -/
theorem C59_others (hr : Host.Runs cs h h') (hp : ∀ c ∈ cs, ¬ OnCore p c) : h'.core p = h.core p := by
  induction hr with
  | nil => rfl
  | cons h1 h2 ih => rw [ih fun c hc => hp c (List.mem_cons_of_mem _ hc), step_core h1 (hp _ List.mem_cons_self)]

/-- A new core is not one that exists already: the pointer is new and the other cores remain. -/
theorem C59_new {C : CpuDetails} {a : Answer} (hc : (HostCall.new C).Does h a h' ∨ (HostCall.newNoReset C).Does h a h') :
    ∃ p, a = .pointer p ∧ h.core p = none ∧ (h'.core p).isSome ∧ ∀ q, (h.core q).isSome → q ≠ p ∧ h'.core q = h.core q := by
  rcases hc with hc | hc
  · cases hc with
    | @new _ _ p h1 h2 =>
      refine ⟨p, rfl, h2, by simp [Host.setCore], fun q hq => ?_⟩
      have : q ≠ p := by rintro rfl; rw [h2] at hq; cases hq
      exact ⟨this, if_neg this⟩
  · cases hc with
    | @newNoReset _ _ p h1 h2 =>
      refine ⟨p, rfl, h2, by simp [Host.setCore], fun q hq => ?_⟩
      have : q ≠ p := by rintro rfl; rw [h2] at hq; cases hq
      exact ⟨this, if_neg this⟩

/-- `set_registers` followed by `get_registers`, with any calls on other cores between: the registers that were set, and nothing else of the core has changed. -/
theorem C59_registers {C : CpuDetails} {cpu : Cpu} {r : Registers} {a b : Answer} {h1 h2 h3 : Host U} {m' : Ptr} (hp : h.core p = some (C, cpu))
    (hs : (HostCall.call p m (.setRegisters r)).Does h a h1) (hr : Host.Runs cs h1 h2) (hc : ∀ c ∈ cs, ¬ OnCore p c)
    (hg : (HostCall.call p m' .getRegisters).Does h2 b h3) : b = .registers r ∧ h3.core p = some (C, { cpu with regs := r }) := by
  cases hs with
  | call k1 k2 =>
    rw [hp] at k1
    cases k1
    cases k2
    have h4 := C59_others hr hc
    cases hg with
    | call k3 k4 =>
      rw [h4] at k3
      simp only [Host.setCore, Host.setMemory, if_true] at k3
      cases k3
      cases k4
      exact ⟨rfl, by simp [Host.setCore, Host.setMemory]⟩

/-- The calls of a program that use one core. -/
noncomputable def only (p : Ptr) (cs : List (HostCall × Answer)) : List (HostCall × Answer) := cs.filter fun c => decide (OnCore p c)

theorem same_step {c : HostCall} {a : Answer} {g : Host U} (hc : c.Does h a h') (hu : OnCore p (c, a)) (h1 : g.core p = h.core p) (h2 : g.memory m = h.memory m)
    (hm : ∀ k, OnMemory k (c, a) → k = m) : ∃ g', c.Does g a g' ∧ g'.core p = h'.core p ∧ g'.memory m = h'.memory m := by
  cases hc with
  | @new C _ q k1 k2 =>
    cases hu
    exact ⟨_, .new k1 (h1.trans k2), by simp [Host.setCore], h2⟩
  | @newNoReset C _ q k1 k2 =>
    cases hu
    exact ⟨_, .newNoReset k1 (h1.trans k2), by simp [Host.setCore], h2⟩
  | delete k1 =>
    cases hu
    exact ⟨_, .delete (by rw [h1]; exact k1), by simp [Host.setCore], h2⟩
  | @call _ q k c C cpu _ s' k1 k2 =>
    cases hu
    have hk : k = m := hm k rfl
    subst hk
    rw [← h2] at k2
    exact ⟨_, .call (h1.trans k1) k2, by simp [Host.setCore, Host.setMemory], by simp [Host.setMemory]⟩

/-- A program with several cores, in whatever order it calls them. If the core `p` is only used with the memory `m`, and this memory with no other core, its calls
get the same answers, and the core and its memory end in the same state, as in a program that makes only these calls. -/
theorem C59_independent (hr : Host.Runs cs h h') (h1 : ∀ c ∈ cs, OnCore p c → ∀ k, OnMemory k c → k = m) (h2 : ∀ c ∈ cs, OnMemory m c → OnCore p c) :
    ∃ g, Host.Runs (only p cs) h g ∧ g.core p = h'.core p ∧ g.memory m = h'.memory m := by
  have key : ∀ g : Host U, g.core p = h.core p → g.memory m = h.memory m →
      ∃ g', Host.Runs (only p cs) g g' ∧ g'.core p = h'.core p ∧ g'.memory m = h'.memory m := by
    induction hr with
    | nil => exact fun g hg hg' => ⟨g, .nil _, hg, hg'⟩
    | @cons c a cs h h1' h'' k1 k2 ih =>
      intro g hg hg'
      have ih := ih (fun c hc => h1 c (List.mem_cons_of_mem _ hc)) (fun c hc => h2 c (List.mem_cons_of_mem _ hc))
      by_cases hu : OnCore p (c, a)
      · obtain ⟨g1, e1, e2, e3⟩ := same_step k1 hu hg hg' (h1 _ List.mem_cons_self hu)
        obtain ⟨g2, e4, e5, e6⟩ := ih g1 e2 e3
        refine ⟨g2, ?_, e5, e6⟩
        have : only p ((c, a) :: cs) = (c, a) :: only p cs := by unfold only; rw [List.filter_cons_of_pos (by simpa using hu)]
        rw [this]
        exact .cons e1 e4
      · have e1 := step_core k1 hu
        have e2 := step_memory (m := m) k1 fun hm => hu (h2 _ List.mem_cons_self hm)
        obtain ⟨g2, e4, e5, e6⟩ := ih g (hg.trans e1.symm) (hg'.trans e2.symm)
        refine ⟨g2, ?_, e5, e6⟩
        have : only p ((c, a) :: cs) = only p cs := by unfold only; rw [List.filter_cons_of_neg (by simpa using hu)]
        rw [this]
        exact e4
  exact key h rfl rfl

/-- After `delete` there is no core behind the pointer: no further call with it has a defined result until it is allocated again. -/
theorem C59_delete {a b : Answer} {h1 h2 h3 : Host U} {c : CoreCall} (hd : (HostCall.delete p).Does h a h1) (hr : Host.Runs cs h1 h2) (hc : ∀ c ∈ cs, ¬ OnCore p c) :
    ¬ (HostCall.call p m c).Does h2 b h3 := by
  intro k
  have h4 := C59_others hr hc
  cases hd with
  | delete k1 =>
    cases k with
    | call k2 k3 =>
      rw [h4] at k2
      simp [Host.setCore] at k2

/-- Two cores with interleaved calls. -/
example : ∃ (U : Type) (h h' : Host U), Host.Runs [(.newNoReset mc68000, .pointer 8), (.newNoReset scc68070, .pointer 16), (.call 8 1 (.setRegisters { Registers.default with pc := 3 }), .none),
      (.call 16 2 .getRegisters, .registers Registers.default), (.call 8 1 .interpreter, .cycles 0), (.delete 16, .none)] h h' ∧ (h'.core 8).isSome ∧ h'.core 16 = none := by
  refine ⟨Unit, ⟨fun _ => none, fun _ => ⟨⟨fun _ u => (⟨0, 0⟩, u), fun _ u => (⟨0, 0⟩, u), fun _ u => (⟨0, 0⟩, u), fun _ _ u => (⟨0, 0⟩, u), fun _ _ u => (⟨0, 0⟩, u),
    fun _ _ u => (⟨0, 0⟩, u), id⟩, ()⟩⟩, _, .cons (.newNoReset (p := 8) (by decide) rfl) (.cons (.newNoReset (p := 16) (by decide) rfl)
    (.cons (.call rfl (.setRegisters _ _)) (.cons (.call rfl (.getRegisters _)) (.cons (.call rfl (.interpreter rfl)) (.cons (.delete (by decide)) (.nil _)))))), rfl, rfl⟩

end M68k.Props
