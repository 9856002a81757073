import Verif.Lemmas.Ends
import Verif.Lemmas.ClaimsShift
/-
The shift instructions.
-/
namespace M68k
namespace Exec
open Spec
variable {M : Type} [MemoryAccess M] {C : CpuDetails} {s s1 s2 s3 : St M} {op : U16} {sz : Size}

theorem low_insertLow (sz : Size) (o : U32) (v : Val sz) : low sz (insertLow sz o v) = v := by
  apply BitVec.eq_of_toNat_eq
  unfold low insertLow
  have hv : v.toNat < 2 ^ width sz := v.isLt
  have ho := o.isLt
  rw [BitVec.toNat_ofNat, BitVec.toNat_ofNat]
  cases sz <;> simp only [width] at * <;> omega

theorem insertLow_insertLow (sz : Size) (o : U32) (v w : Val sz) : insertLow sz (insertLow sz o v) w = insertLow sz o w := by
  apply BitVec.eq_of_toNat_eq
  unfold insertLow
  have hv : v.toNat < 2 ^ width sz := v.isLt
  have hw : w.toNat < 2 ^ width sz := w.isLt
  have ho := o.isLt
  rw [BitVec.toNat_ofNat, BitVec.toNat_ofNat, BitVec.toNat_ofNat]
  cases sz <;> simp only [width] at * <;> omega

theorem insertLow_low (sz : Size) (o : U32) : insertLow sz o (low sz o) = o := by
  apply BitVec.eq_of_toNat_eq
  unfold low insertLow
  have ho := o.isLt
  rw [BitVec.toNat_ofNat, BitVec.toNat_ofNat]
  cases sz <;> simp only [width] at * <;> omega

theorem shiftCount_of (h : Ready s op s1) : (Spec.shiftCount (flag op 5) (regField op 9) : Exec M Nat) s1 = .ok (countOf s op) s1 := by
  have hd := (Ready.sameD h).1
  unfold Spec.shiftCount countOf
  cases flag op 5 with
  | true => simp only [if_true, ← hd]; rfl
  | false =>
    simp only [Bool.false_eq_true, if_false]
    rw [Exec.pure_apply]
    congr 1
    unfold quick; simp only [Fin.ext_iff]; rfl

theorem ends_shift {left right f : {n : Nat} → Nat → BitVec n → StatusRegister → BitVec n × StatusRegister} {a b c : Nat}
    (h : Ready s op s1) (hsz : opSize op = some sz)
    (hf : ∀ n, (if flag op 8 then @left n else @right n) = @f n)
    (hx : EndsWith C s (shiftInstr op left right a b c s1)) :
    Completes C s (s1.withRegs fun g =>
      { setDreg g (regField op 0) (insertLow sz (g.d (regField op 0))
          (f (countOf s op) (low sz (s.cpu.regs.d (regField op 0))) s.cpu.regs.sr).1) with
        sr := (f (countOf s op) (low sz (s.cpu.regs.d (regField op 0))) s.cpu.regs.sr).2 }) := by
  unfold shiftInstr at hx
  rw [sized_some hsz, endsWith_map] at hx
  have hs := Ready.sameD h
  have key : ∀ {g : {n : Nat} → Nat → BitVec n → StatusRegister → BitVec n × StatusRegister},
      EndsWith C s ((shift g sz (flag op 5) (regField op 9) (regField op 0) : Exec M Nat) s1) →
      Completes C s (s1.withRegs fun r =>
      { setDreg r (regField op 0) (insertLow sz (r.d (regField op 0))
          (g (countOf s op) (low sz (s.cpu.regs.d (regField op 0))) s.cpu.regs.sr).1) with
        sr := (g (countOf s op) (low sz (s.cpu.regs.d (regField op 0))) s.cpu.regs.sr).2 }) := by
    intro g hg
    unfold shift at hg
    rw [endsWith_bind_ok (shiftCount_of h)] at hg
    rw [← hs.1, ← hs.2]
    exact hg
  rw [← hf]
  cases hd : flag op 8 with
  | true => rw [hd, if_pos rfl] at hx; exact key hx
  | false => rw [hd, if_neg (by decide)] at hx; exact key hx

theorem ends_shiftMem {left right f : Nat → BitVec 16 → StatusRegister → BitVec 16 × StatusRegister} {t : Nat} {p : Place} {v : Val .Word}
    (h : Ready s op s1) (hf : (if flag op 8 then left else right) = f)
    (hv : operand .Word op s1 = .ok (p, v) s2)
    (hx : EndsWith C s (shiftMem C op left right t s1)) :
    EndsWith C s (writeAt .Word p (f 1 v s.cpu.regs.sr).1 (s2.withRegs fun g => { g with sr := (f 1 v s.cpu.regs.sr).2 })) := by
  obtain ⟨m, s', hm, hr⟩ := operand_ok hv
  have hs := operand_same h hv
  unfold shiftMem at hx
  have hb : (fetchEa (some .Byte) op : Exec M Mode) = fetchEa (some .Word) op := rfl
  rw [hb, endsWith_bind_ok hm, endsWith_cost] at hx
  have := ends_rmw hr hx
  rw [hs.2] at this
  have h1 : (if flag op 8 = true then left 1 else right 1) = f 1 := by rw [← hf]; split <;> rfl
  rw [h1] at this
  exact this

theorem ends_shiftMem_err {left right : Nat → BitVec 16 → StatusRegister → BitVec 16 × StatusRegister} {t : Nat} {e : U8}
    (hv : operand .Word op s1 = .err e s2) (hx : EndsWith C s (shiftMem C op left right t s1)) : Raises C s e s2 := by
  unfold shiftMem at hx
  have hb : (fetchEa (some .Byte) op : Exec M Mode) = fetchEa (some .Word) op := rfl
  rcases bind_err hv with hm | ⟨m, s', hm, hr⟩
  · rwa [hb, endsWith_bind_err hm] at hx
  · rw [hb, endsWith_bind_ok hm, endsWith_cost, rmw_err _ _ _ _ hr] at hx
    exact hx

end Exec
end M68k
