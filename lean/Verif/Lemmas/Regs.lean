import Verif.Lemmas.Ends
import Verif.Lemmas.Claims
/-
Facts about registers.
-/
namespace M68k
open Spec Exec

theorem setAreg_pc (r : Registers) (n : Fin 8) (v : U32) : (setAreg r n v).pc = r.pc := by
  unfold setAreg; split
  · rfl
  · split <;> rfl

theorem areg_setAreg (r : Registers) (n i : Fin 8) (v : U32) : areg (setAreg r n v) i = if i = n then v else areg r i := by
  unfold areg setAreg
  by_cases hn : n.val < 7
  · simp only [hn, dite_true]
    by_cases hi : i.val < 7
    · simp only [hi, dite_true, Fin.mk.injEq, Fin.ext_iff]
    · simp only [hi, dite_false]
      rw [if_neg (c := i = n)]
      intro h; subst h; exact hi hn
  · simp only [hn, dite_false]
    by_cases hi : i.val < 7
    · have : i ≠ n := fun h => hn (h ▸ hi)
      cases hs : r.sr.s <;> simp [hi, this]
    · have : i = n := Fin.ext (by omega)
      subst this
      cases hs : r.sr.s <;> simp [hi, hs]

/-- Writing address registers does not change the inactive stack pointer. -/
theorem setAreg_inactive (r : Registers) (n : Fin 8) (v : U32) :
    (if r.sr.s then (setAreg r n v).usp = r.usp else (setAreg r n v).ssp = r.ssp) := by
  unfold setAreg
  by_cases hn : n.val < 7
  · simp only [hn, dite_true]; split <;> trivial
  · simp only [hn, dite_false]
    cases r.sr.s <;> simp

/-- Two register files are equal if all their parts are. -/
theorem regs_ext {r q : Registers} (hd : r.d = q.d) (hsr : r.sr = q.sr) (hpc : r.pc = q.pc)
    (ha : ∀ i, areg r i = areg q i) (hin : if r.sr.s then r.usp = q.usp else r.ssp = q.ssp) : r = q := by
  have h7 := ha 7
  have e : r.a = q.a := by
    funext i
    have := ha ⟨i.val, by omega⟩
    unfold areg at this
    have hi : i.val < 7 := i.isLt
    simpa [hi] using this
  simp only [areg, show ¬ (7 : Fin 8).val < 7 by decide, dite_false] at h7
  obtain ⟨d, a, usp, ssp, sr, pc⟩ := r
  obtain ⟨d', a', usp', ssp', sr', pc'⟩ := q
  simp only at *
  subst hd hsr hpc e
  cases hs : sr.s <;> simp_all

theorem toInt_zero_iff {n : Nat} (v : BitVec n) : v.toInt = 0 ↔ v.toNat = 0 := by
  rcases toInt_or v with h | h
  · rw [h.2]; omega
  · rw [h.2]; have := v.isLt; omega

theorem toInt_signExt {n : Nat} (hn : n ≤ 32) (v : BitVec n) : (signExt v).toInt = v.toInt := by
  unfold signExt
  have h1 := BitVec.two_mul_toInt_lt (x := v)
  have h2 := BitVec.le_two_mul_toInt (x := v)
  have h3 : (2 : Int) ^ n ≤ 2 ^ 32 := by exact_mod_cast Nat.pow_le_pow_right (by omega) hn
  have h4 : ((2 ^ 32 : Nat) : Int) = 4294967296 := rfl
  rw [BitVec.toInt_ofInt, Int.bmod_eq_of_le_mul_two]
  · rw [h4]; omega
  · rw [h4]; omega

theorem append_halves (x : U32) : x = x.extractLsb' 16 16 ++ x.extractLsb' 0 16 := by
  apply BitVec.eq_of_toNat_eq
  rw [BitVec.toNat_append, ← Nat.shiftLeft_add_eq_or_of_lt (BitVec.isLt _), Nat.shiftLeft_eq]
  simp [BitVec.extractLsb', Nat.shiftRight_eq_div_pow]
  have := x.isLt
  omega

theorem swap_value (x : U32) : BitVec.ofNat 32 (x.toNat % 65536 * 65536 + x.toNat / 65536) = x.extractLsb' 0 16 ++ x.extractLsb' 16 16 := by
  apply BitVec.eq_of_toNat_eq
  rw [BitVec.toNat_append, ← Nat.shiftLeft_add_eq_or_of_lt (BitVec.isLt _), Nat.shiftLeft_eq]
  simp only [BitVec.extractLsb', Nat.shiftRight_eq_div_pow, BitVec.toNat_ofNat]
  have := x.isLt
  rw [show (2 : Nat) ^ 0 = 1 from rfl, show (2 : Nat) ^ 16 = 65536 from rfl, Nat.div_one, Nat.mod_eq_of_lt (a := x.toNat / 65536) (by omega)]
  omega

/-- The registers after EXG. -/
def exgRegs (kind : Direction) (x y : Fin 8) (r : Registers) : Registers :=
  match kind with
  | .ExchangeData => setDreg (setDreg r x (r.d y)) y (r.d x)
  | .ExchangeAddress => setAreg (setAreg r y (areg r x)) x (areg r y)
  | _ => setDreg (setAreg r y (r.d x)) x (areg r y)

theorem exg_apply {M : Type} [MemoryAccess M] (kind : Direction) (x y : Fin 8) (t : St M) :
    exg kind x y t = .ok () (t.withRegs (exgRegs kind x y)) := by
  cases kind <;> rfl

theorem areg_setDreg (r : Registers) (n i : Fin 8) (v : U32) : areg (setDreg r n v) i = areg r i := rfl
theorem setDreg_d (r : Registers) (n : Fin 8) (v : U32) : (setDreg r n v).d = fun i => if i = n then v else r.d i := rfl

theorem inactive_iff (r q : Registers) (h : q.sr = r.sr) : (if q.sr.s then q.usp = r.usp else q.ssp = r.ssp) ↔
    (if r.sr.s then q.usp = r.usp else q.ssp = r.ssp) := by rw [h]

theorem exgRegs_d (k : Direction) (x y : Fin 8) (r : Registers) : (exgRegs k x y r).d = 
    match k with
    | .ExchangeData => fun i => if i = y then r.d x else if i = x then r.d y else r.d i
    | .ExchangeAddress => r.d
    | _ => fun i => if i = x then areg r y else r.d i := by
  cases k <;> simp [exgRegs, setDreg_d, setAreg_d]

theorem exgRegs_areg (k : Direction) (x y : Fin 8) (r : Registers) (i : Fin 8) : areg (exgRegs k x y r) i = 
    match k with
    | .ExchangeData => areg r i
    | .ExchangeAddress => if i = x then areg r y else if i = y then areg r x else areg r i
    | _ => if i = y then r.d x else areg r i := by
  cases k <;> simp [exgRegs, areg_setDreg, areg_setAreg]

theorem exgRegs_sr (k : Direction) (x y : Fin 8) (r : Registers) : (exgRegs k x y r).sr = r.sr := by
  cases k <;> simp [exgRegs, setDreg, setAreg_sr]

theorem exgRegs_pc (k : Direction) (x y : Fin 8) (r : Registers) : (exgRegs k x y r).pc = r.pc := by
  cases k <;> simp [exgRegs, setDreg, setAreg_pc]

theorem setAreg_usp (r : Registers) (n : Fin 8) (v : U32) (h : r.sr.s = true) : (setAreg r n v).usp = r.usp := by
  have := setAreg_inactive r n v
  rwa [if_pos h] at this

theorem setAreg_ssp (r : Registers) (n : Fin 8) (v : U32) (h : r.sr.s = false) : (setAreg r n v).ssp = r.ssp := by
  have := setAreg_inactive r n v
  rwa [if_neg (by simp [h])] at this

theorem exgRegs_usp (k : Direction) (x y : Fin 8) (r : Registers) (h : r.sr.s = true) : (exgRegs k x y r).usp = r.usp := by
  cases k <;> simp [exgRegs, setDreg, setAreg_usp, setAreg_sr, h]

theorem exgRegs_ssp (k : Direction) (x y : Fin 8) (r : Registers) (h : r.sr.s = false) : (exgRegs k x y r).ssp = r.ssp := by
  cases k <;> simp [exgRegs, setDreg, setAreg_ssp, setAreg_sr, h]

theorem exgRegs_twice (k : Direction) (x y : Fin 8) (r : Registers) (p q : U32) :
    exgRegs k x y { exgRegs k x y { r with pc := p } with pc := q } = { r with pc := q } := by
  have hd := exgRegs_d k x y { r with pc := p }
  have ha := exgRegs_areg k x y { r with pc := p }
  have hsr := exgRegs_sr k x y { r with pc := p }
  have husp := exgRegs_usp k x y { r with pc := p }
  have hssp := exgRegs_ssp k x y { r with pc := p }
  generalize exgRegs k x y { r with pc := p } = g at *
  have e' : ∀ p i, areg { r with pc := p } i = areg r i := fun _ _ => rfl
  have e : ∀ i, areg { g with pc := q } i = areg g i := fun _ => rfl
  simp only [e'] at ha hd
  have hd2 := exgRegs_d k x y { g with pc := q }
  have ha2 := exgRegs_areg k x y { g with pc := q }
  have hsr2 := exgRegs_sr k x y { g with pc := q }
  have hpc2 := exgRegs_pc k x y { g with pc := q }
  have husp2 := exgRegs_usp k x y { g with pc := q }
  have hssp2 := exgRegs_ssp k x y { g with pc := q }
  change exgRegs k x y { g with pc := q } = _
  generalize exgRegs k x y { g with pc := q } = f at *
  simp only [e] at ha2 hd2
  simp only [ha, hd] at ha2 hd2
  simp only at hsr hsr2 hpc2 husp2 hssp2
  apply regs_ext
  · rw [hd2]
    cases k <;> simp only <;> try rfl
    all_goals
      funext i
      by_cases h1 : i = y <;> by_cases h2 : i = x <;> simp [h1, h2]
    all_goals (intros; simp_all)
  · rw [hsr2]; exact hsr
  · rw [hpc2]
  · intro i
    rw [ha2, e']
    cases k <;> simp only <;> try rfl
    all_goals
      by_cases h1 : i = y <;> by_cases h2 : i = x <;> simp [h1, h2]
    all_goals (intros; simp_all)
  · rw [hsr2, hsr]
    rw [hsr] at husp2 hssp2
    cases hs : r.sr.s
    · simp only [Bool.false_eq_true, if_false]
      rw [hssp2 hs]
      exact hssp hs
    · simp only [if_true]
      rw [husp2 hs]
      exact husp hs

/-- One call has one outcome. -/
theorem completes_unique {M : Type} [MemoryAccess M] {C : CpuDetails} {s s' s'' : St M} (h : Completes C s s') (h' : Completes C s s'') : s' = s'' := by
  obtain ⟨_, a⟩ := h
  obtain ⟨_, b⟩ := h'
  rw [a] at b
  cases b
  rfl

end M68k
