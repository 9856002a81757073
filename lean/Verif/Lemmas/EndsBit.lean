import Verif.Lemmas.EndsMul
import Verif.Lemmas.InstrBit
import Verif.Spec.ClaimsBit
/-
The bit instructions.
-/
namespace M68k
namespace Exec
open Spec
variable {M : Type} [MemoryAccess M] {C : CpuDetails} {s s1 s2 s3 : St M} {op : U16} {sz : Size}

/-- The bit operation of an instruction. -/
def bitOpOf : Isa → Option BitOp
  | .Btst => some .test
  | .Bchg => some .change
  | .Bclr => some .clear
  | .Bset => some .set
  | _ => none

theorem isBitOp_apply {n : Nat} {isa : Isa} {o : BitOp} (h : bitOpOf isa = some o) (i : Nat) (hi : i < n) (v : BitVec n) (sr : StatusRegister) :
    IsBitOp isa i v sr (o.apply v i) { sr with z := !v.getLsbD i } := by
  refine ⟨?_, ?_, rfl⟩
  · rw [BitOp_apply_bits o v i i hi]
    cases isa <;> cases h <;> simp [changedBit]
  · intro j hj
    rw [BitOp_apply_bits o v i j hi]
    simp [hj]

theorem fetchMode_dn {sz : Option Size} {reg : Fin 8} {s : St M} : (fetchMode sz 0 reg : Exec M Mode) s = .ok (.dn reg) s := rfl

/-- The bit number is read before the effective address or after it: it makes no difference. -/
theorem ends_bitInstr {o : BitOp} {a b c d k : Nat} {m : Mode}
    (hk : bitNumber op s1 = .ok k s2) (hm : fetchEa (some .Byte) op s2 = .ok m s3)
    (hx : EndsWith C s (bitInstr C op o a b c d s1)) : EndsWith C s (bitOp o k m s3) := by
  unfold bitInstr at hx
  unfold bitNumber at hk
  cases hf : flag op 8 with
  | true =>
    rw [hf, if_pos rfl] at hx hk
    cases hk
    have hs := (Keeps.of_fetchEa sameD_rel _ _).ok hm
    rw [endsWith_bind_ok hm, getR_bind_apply, endsWith_cost, hs.1] at hx
    exact hx
  | false =>
    rw [hf, if_neg (by decide)] at hx hk
    rw [Exec.map_apply] at hk
    cases hw : (fetch : Exec M U16) s1 with
    | ok w s' =>
      rw [hw] at hk
      cases hk
      rw [endsWith_bind_ok hw, endsWith_bind_ok hm, endsWith_cost] at hx
      exact hx
    | err v s' => rw [hw] at hk; cases hk
    | panic => rw [hw] at hk; cases hk

theorem bitNumber_same {k : Nat} (hk : bitNumber op s1 = .ok k s2) : SameD s1 s2 := by
  unfold bitNumber at hk
  split at hk
  · cases hk; exact sameD_rel.refl _
  · exact (Keeps.map _ (Keeps.of_fetch sameD_rel)).ok hk

theorem step_bit {isa : Isa} {o : BitOp} (h : Ready s op s1) (hi : instr op = isa) (ho : bitOpOf isa = some o) :
    ∃ a b c d, EndsWith C s (bitInstr C op o a b c d s1) := by
  cases isa <;> cases ho
  all_goals
    have hx := step_ends C h hi (by decide) rfl
    simp only [Spec.exec] at hx
    exact ⟨_, _, _, _, hx⟩

theorem fetchMode_not_dn {sz : Option Size} {mode reg : Fin 8} {s s' : St M} {m : Mode}
    (h : fetchMode sz mode reg s = .ok m s') (hm : mode ≠ 0) : isDn m = false := by
  have hmap : ∀ {α : Type} (f : α → Mode) (x : Exec M α), (∀ a, isDn (f a) = false) → (f <$> x) s = .ok m s' → isDn m = false := by
    intro α f x hf hx
    rw [Exec.map_apply] at hx
    cases hs : x s with
    | ok a s2 => rw [hs] at hx; cases hx; exact hf a
    | err v s2 => rw [hs] at hx; cases hx
    | panic => rw [hs] at hx; cases hx
  unfold fetchMode at h
  split at h
  · exact absurd rfl hm
  · cases h; rfl
  · cases h; rfl
  · cases h; rfl
  · cases h; rfl
  · exact hmap _ _ (fun a => rfl) h
  · exact hmap _ _ (fun a => rfl) h
  · split at h
    · exact hmap _ _ (fun a => rfl) h
    · exact hmap _ _ (fun a => rfl) h
    · rw [getR_bind_apply] at h; exact hmap _ _ (fun a => rfl) h
    · rw [getR_bind_apply] at h; exact hmap _ _ (fun a => rfl) h
    · split at h
      · cases h
      · exact hmap _ _ (fun a => rfl) h
      · exact hmap _ _ (fun a => rfl) h
    · cases h

end Exec
end M68k
