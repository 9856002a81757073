import Verif.Spec.Territory
import Verif.Lemmas.Fence
import Verif.Props.C68
/-
Lemmas for C85.
-/
namespace M68k.Exec
open Spec
set_option linter.unusedSectionVars false
variable {ι M : Type} [MemoryAccess M] [Ram M] [Writable M] {C : CpuDetails} {rd wr : U32 → Bool}

/-- The bytes that may be read are the same, and since `n0` only bytes that may be written have changed. -/
def Follows (rd wr : U32 → Bool) (n0 : M) (f : Owned rd wr M) (n : M) : Prop := AgreeIn rd f.mem n ∧ ChangedIn wr n0 n

theorem owned_leads (h : ∀ a, wr a = true → rd a = true) (n0 : M) : Fence.Leads (Follows rd wr n0) := by
  have get : ∀ (sz : Size) (f : Owned rd wr M) (n : M) (a : U32), Follows rd wr n0 f n → AlignedFor sz a →
      Fence.LedOutcome (Follows rd wr n0) (if bytesIn rd sz a then Owned.lift (memGet sz a f.mem) else .panic) (memGet sz a n) := by
    intro sz f n a hr ha
    by_cases hA : bytesIn rd sz a = true
    · rw [if_pos hA]
      have hA := Props.bytesIn_iff.1 hA
      obtain ⟨v, hv⟩ := Ram.get_present (m := f.mem) ha fun k hk => by obtain ⟨b, h, -⟩ := hr.1 _ (hA k hk); rw [h]; rfl
      obtain ⟨w, hw⟩ := Ram.get_present (m := n) ha fun k hk => by obtain ⟨b, -, h⟩ := hr.1 _ (hA k hk); rw [h]; rfl
      rw [hv, hw]
      refine ⟨?_, hr⟩
      have h1 := (Ram.get_val ha hv).2
      have h2 := (Ram.get_val ha hw).2
      refine Props.beByte_ext fun k hk => ?_
      obtain ⟨b, hm, hn⟩ := hr.1 _ (hA k hk)
      exact (Option.some.inj (hm.symm.trans (h1 k hk))).symm.trans (Option.some.inj (hn.symm.trans (h2 k hk)))
    · rw [if_neg hA]; trivial
  have set : ∀ (sz : Size) (f : Owned rd wr M) (n : M) (a : U32) (v : Val sz), Follows rd wr n0 f n → AlignedFor sz a →
      Fence.LedOutcome (Follows rd wr n0) (if bytesIn wr sz a then Owned.lift (memSet sz a v f.mem) else .panic) (memSet sz a v n) := by
    intro sz f n a v hr ha
    by_cases hA : bytesIn wr sz a = true
    · rw [if_pos hA]
      have hA := Props.bytesIn_iff.1 hA
      obtain ⟨m', hm⟩ := Writable.set_present' (m := f.mem) (v := v) ha fun k hk => by obtain ⟨b, h, -⟩ := hr.1 _ (h _ (hA k hk)); rw [h]; rfl
      obtain ⟨n', hn⟩ := Writable.set_present' (m := n) (v := v) ha fun k hk => by obtain ⟨b, -, h⟩ := hr.1 _ (h _ (hA k hk)); rw [h]; rfl
      rw [hm, hn]
      have h1 := Ram.set_val ha hm
      have h2 := Ram.set_val ha hn
      refine ⟨rfl, fun b hb => ?_, fun b hb => ?_⟩
      · by_cases hk : ∃ k < bytes sz, b = at_ a k
        · obtain ⟨k, hk, rfl⟩ := hk
          exact ⟨_, h1.1 k hk, h2.1 k hk⟩
        · obtain ⟨x, hx, hy⟩ := hr.1 b hb
          exact ⟨x, (h1.2 b fun k hk' he => hk ⟨k, hk', he⟩).trans hx, (h2.2 b fun k hk' he => hk ⟨k, hk', he⟩).trans hy⟩
      · refine (h2.2 b fun k hk he => ?_).trans (hr.2 b hb)
        rw [he, hA k hk] at hb
        cases hb
    · rw [if_neg hA]; trivial
  refine ⟨fun f n a hr => get .Byte f n a hr (fun h => h.1 rfl), fun f n a hr ho => get .Word f n a hr (fun h => ho h.2),
    fun f n a hr ho => get .Long f n a hr (fun h => ho h.2), fun f n a v hr => set .Byte f n a v hr (fun h => h.1 rfl),
    fun f n a v hr ho => set .Word f n a v hr (fun h => ho h.2), fun f n a v hr ho => set .Long f n a v hr (fun h => ho h.2),
    fun f n hr => ⟨fun a ha => ?_, fun a ha => ?_⟩⟩
  · show ∃ b, Ram.peek (MemoryAccess.resetInstruction f.mem) a = some b ∧ _
    rw [Ram.reset_peek, Ram.reset_peek]; exact hr.1 a ha
  · rw [Ram.reset_peek]; exact hr.2 a ha

/-- One call behind the fence, and on the memory shared with the others. -/
theorem owned_call {c : Cpu} {f : Owned rd wr M} {n : M} {k : Nat} {t : St (Owned rd wr M)} (h : ∀ a, wr a = true → rd a = true) (hr : AgreeIn rd f.mem n) (hx : interpreter C ⟨c, f⟩ = .ok k t) :
    ∃ n', interpreter C ⟨c, n⟩ = .ok k ⟨t.cpu, n'⟩ ∧ AgreeIn rd t.mem.mem n' ∧ ChangedIn wr n n' := by
  have h1 := Fence.sim_interpreter (owned_leads h n) C ⟨c, f⟩ ⟨c, n⟩ ⟨rfl, hr, fun _ _ => rfl⟩
  rw [hx] at h1
  cases hy : interpreter C (⟨c, n⟩ : St M) with
  | ok y t' => rw [hy] at h1; obtain ⟨rfl, hc, hr⟩ := h1; exact ⟨t'.mem, by rw [hc], hr⟩
  | err v t' => rw [hy] at h1; exact h1.elim
  | panic => rw [hy] at h1; exact h1.elim

end M68k.Exec
