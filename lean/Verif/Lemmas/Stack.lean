import Verif.Lemmas.Contents
/-
Pushes and pops on memories that are arrays of bytes.
-/
namespace M68k
namespace Exec
open Spec
set_option linter.unusedSectionVars false
variable {M : Type} [MemoryAccess M] [Ram M] {C : CpuDetails} {s s' s1 s2 : St M} {op : U16} {sz : Size} {a : U32} {m m' : M}

omit [Ram M] in
theorem bind_eq {α β : Type} {x : Exec M α} {f : α → Exec M β} {v : α} (h : x s = .ok v s') : (x >>= f) s = f v s' := by
  rw [Exec.bind_apply, h]

/-- The operand at an address. -/
theorem read_holds {md : Mode} {v : Val sz} (hp : (place sz s.cpu.regs md).1 = .mem a) (ha : AlignedFor sz a) (h : Holds s.mem a v) :
    Spec.read sz md s = .ok (.mem a, v) (s.withRegs fun r => (place sz r md).2) := by
  unfold Spec.read
  have hl : locate sz md s = .ok (.mem a) (s.withRegs fun r => (place sz r md).2) := by
    unfold locate
    rw [hp]
    rfl
  rw [bind_eq hl]
  have : readAt sz (.mem a) (s.withRegs fun r => (place sz r md).2) = .ok v (s.withRegs fun r => (place sz r md).2) := load_holds ha h
  rw [bind_eq this]
  rfl

theorem push_done {v : Val sz} (h : push sz v s = .ok () s') :
    AlignedFor sz (areg s.cpu.regs 7 - Spec.step 7 sz) ∧
    s' = { s.withRegs (fun r => setAreg r 7 (areg r 7 - Spec.step 7 sz)) with mem := s'.mem } ∧
    Holds s'.mem (areg s.cpu.regs 7 - Spec.step 7 sz) v ∧ SameExcept s.mem s'.mem (areg s.cpu.regs 7 - Spec.step 7 sz) (bytes sz) := by
  unfold push write at h
  obtain ⟨p, t, h1, h⟩ := bind_ok h
  cases h1
  exact store_done h

theorem push_present [Writable M] {v : Val sz} (ha : AlignedFor sz (areg s.cpu.regs 7 - Spec.step 7 sz))
    (hp : Present s.mem (areg s.cpu.regs 7 - Spec.step 7 sz) (bytes sz)) : ∃ s', push sz v s = .ok () s' := by
  obtain ⟨m', hm⟩ := store_present (s := s.withRegs fun r => setAreg r 7 (areg r 7 - Spec.step 7 sz)) (v := v) ha hp
  exact ⟨_, hm⟩

theorem push_err {v : Val sz} {e : U8} (h : push sz v s = .err e s') : e = 2 ∨ e = 3 := by
  unfold push write at h
  rcases bind_err h with h | ⟨p, t, h1, h⟩
  · cases h
  · cases h1
    have h : store sz _ v _ = .err e s' := h
    unfold store at h
    split at h
    · cases h; exact .inr rfl
    · unfold access at h
      split at h
      · cases h
      · cases h; exact .inl rfl
      · cases h

theorem pop_done {v : Val sz} (h : pop sz s = .ok v s') :
    AlignedFor sz (areg s.cpu.regs 7) ∧ Holds s.mem (areg s.cpu.regs 7) v ∧
    s' = s.withRegs (fun r => setAreg r 7 (areg r 7 + Spec.step 7 sz)) := by
  unfold pop at h
  obtain ⟨p, t, h1, h⟩ := bind_ok h
  obtain ⟨p, w⟩ := p
  cases h
  obtain ⟨hp, ht, hr⟩ := read_ram h1
  subst hp
  obtain ⟨h1, -, h3⟩ := load_done hr
  refine ⟨h1, ?_, ht⟩
  rw [ht] at h3
  exact h3

theorem pop_holds {v : Val sz} (ha : AlignedFor sz (areg s.cpu.regs 7)) (h : Holds s.mem (areg s.cpu.regs 7) v) :
    pop sz s = .ok v (s.withRegs fun r => setAreg r 7 (areg r 7 + Spec.step 7 sz)) := by
  unfold pop
  rw [bind_eq (read_holds rfl ha h)]
  rfl

theorem pop_err {e : U8} (h : pop sz s = .err e s') : e = 2 ∨ e = 3 := by
  unfold pop at h
  rcases bind_err h with h | ⟨p, t, h1, h⟩
  · unfold Spec.read at h
    rcases bind_err h with h | ⟨p, t, h1, h⟩
    · cases h
    · rcases bind_err h with h | ⟨v, t', h2, h⟩
      · cases h1
        have h : load sz _ _ = .err e s' := h
        unfold load at h
        split at h
        · cases h; exact .inr rfl
        · unfold access at h
          split at h
          · cases h
          · cases h; exact .inl rfl
          · cases h
      · cases h
  · cases h

theorem traced_ne {e : U8} (h : e = 2 ∨ e = 3) : traced s ≠ some e := by
  unfold traced
  rcases h with rfl | rfl <;> split <;> simp

end Exec
end M68k

namespace M68k
namespace Exec
open Spec
variable {M : Type} [MemoryAccess M] {s s' s1 s2 : St M} {op : U16} {a : U32}

/-- The mode field of a fetched mode. -/
def Mode.field : Spec.Mode → Nat
  | .dn _ => 0
  | .an _ => 1
  | .ind _ => 2
  | .postinc _ => 3
  | .predec _ => 4
  | .disp _ _ => 5
  | .index _ _ => 6
  | _ => 7

theorem map_ok' {α β : Type} {f : α → β} {x : Exec M α} {b : β} (h : (f <$> x) s = .ok b s') : ∃ a, x s = .ok a s' ∧ b = f a := by
  rw [Exec.map_apply] at h
  cases hx : x s with
  | ok a s2 => rw [hx] at h; cases h; exact ⟨a, rfl, rfl⟩
  | err v s2 => rw [hx] at h; cases h
  | panic => rw [hx] at h; cases h

theorem fetchMode_field {sz : Option Size} {mode reg : Fin 8} {md : Spec.Mode} (h : fetchMode sz mode reg s = .ok md s') :
    Mode.field md = mode.val := by
  unfold fetchMode at h
  split at h
  · cases h; rfl
  · cases h; rfl
  · cases h; rfl
  · cases h; rfl
  · cases h; rfl
  · obtain ⟨_, _, rfl⟩ := map_ok' h; rfl
  · obtain ⟨_, _, rfl⟩ := map_ok' h; rfl
  · split at h
    · obtain ⟨_, _, rfl⟩ := map_ok' h; rfl
    · obtain ⟨_, _, rfl⟩ := map_ok' h; rfl
    · rw [getR_bind_apply] at h; obtain ⟨_, _, rfl⟩ := map_ok' h; rfl
    · rw [getR_bind_apply] at h; obtain ⟨_, _, rfl⟩ := map_ok' h; rfl
    · split at h
      · cases h
      · obtain ⟨_, _, rfl⟩ := map_ok' h; rfl
      · obtain ⟨_, _, rfl⟩ := map_ok' h; rfl
    · cases h

/-- The address of a control mode. -/
theorem control_of {md : Spec.Mode} (h3 : Mode.field md ≠ 3) (h4 : Mode.field md ≠ 4) (h : (place .Long s.cpu.regs md).1 = .mem a) :
    control md s = .ok a s := by
  cases md <;> first
    | exact absurd rfl h3
    | exact absurd rfl h4
    | (cases h; done)
    | (cases h; rfl)

theorem fin8_ne {n : Fin 8} {k : Fin 8} (h : n ≠ k) : n.val ≠ k.val := fun h' => h (Fin.ext h')

end Exec
end M68k
