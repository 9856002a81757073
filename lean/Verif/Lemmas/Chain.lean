import Verif.Spec.Chain
import Verif.Lemmas.MovemRam
import Verif.Lemmas.EndsShift
import Verif.Lemmas.Claims
/-
Chains of extended instructions.
-/
set_option linter.unusedSectionVars false
namespace M68k
namespace Exec
open Spec
variable {M : Type} [MemoryAccess M] {C : CpuDetails} {s s' s1 s2 : St M} {op : U16} {sz : Size}

theorem Err23.readAt (sz : Size) (p : Place) : Err23 (Spec.readAt sz p : Exec M _) := by
  cases p with
  | dreg n => intro s e s' h; cases h
  | areg n => simp only [Spec.readAt]; split; exact Err23.crash; exact Err23.getR (M := M) _
  | mem a => exact Err23.load _ _
  | imm v => exact Err23.pure _
theorem Err23.writeAt (sz : Size) (p : Place) (v : Val sz) : Err23 (Spec.writeAt sz p v : Exec M _) := by
  cases p with
  | dreg n => intro s e s' h; cases h
  | areg n => simp only [Spec.writeAt]; split; exact Err23.crash; exact Err23.modR (M := M) _
  | mem a => exact Err23.store _ _ _
  | imm v => exact Err23.crash
theorem Err23.locate (sz : Size) (m : Mode) : Err23 (Spec.locate sz m : Exec M _) := fun _ _ _ h => (by cases h)
theorem Err23.compute {α : Type} (f : StatusRegister → α × StatusRegister) : Err23 (Spec.compute f : Exec M _) := fun _ _ _ h => (by cases h)
theorem Err23.pair (b : Bool) (x y : Fin 8) (f : Val sz → Val sz → StatusRegister → Val sz × StatusRegister) :
    Err23 (Spec.pair sz b x y f : Exec M Unit) :=
  .bind (.locate _ _) fun _ => .bind (.locate _ _) fun _ => .bind (.readAt _ _) fun _ => .bind (.readAt _ _) fun _ =>
    .bind (.compute _) fun _ => .writeAt _ _ _
theorem Err23.read (sz : Size) (m : Mode) : Err23 (Spec.read sz m : Exec M _) :=
  .bind (.locate _ _) fun _ => .bind (.readAt _ _) fun _ => .pure _
theorem Err23.rmw (m : Mode) (f : Val sz → StatusRegister → Val sz × StatusRegister) : Err23 (Spec.rmw sz m f : Exec M Unit) :=
  .bind (.read _ _) fun _ => .bind (.compute _) fun _ => .writeAt _ _ _

section
variable [Ram M]

/-- What is at a place is what is read there. -/
theorem has_readAt {p : Place} {v w : Val sz} (h : Has s p v) (hr : readAt sz p s = .ok w s') : w = v := by
  cases p with
  | dreg n => cases hr; exact h
  | areg n => exact h.elim
  | mem a => exact holds_unique (load_done hr).2.2 h
  | imm v => exact h.elim

/-- What is at a place is what was written there; nothing else changes but the memory or the data registers. -/
theorem has_writeAt {p : Place} {v w : Val sz} (hr : writeAt sz p w s = .ok () s') (h : Has s' p v) :
    w = v ∧ s'.cpu.regs.sr = s.cpu.regs.sr := by
  cases p with
  | dreg n =>
    cases hr
    refine ⟨?_, rfl⟩
    have : low sz (insertLow sz (s.cpu.regs.d n) w) = v := by
      have h' : low sz ((setDreg s.cpu.regs n (insertLow sz (s.cpu.regs.d n) w)).d n) = v := h
      simpa only [setDreg, if_true] using h'
    rw [← this, low_insertLow]
  | areg n => exact h.elim
  | mem a =>
    obtain ⟨-, h1, h2, -⟩ := store_done hr
    exact ⟨holds_unique h2 h, by rw [h1]⟩
  | imm v => exact h.elim

theorem areg_sub (r : Registers) (x y : Fin 8) (a b : U32) :
    areg (setAreg r y (areg r y - b)) x - a = areg r x - a - if x = y then b else 0 := by
  rw [M68k.areg_setAreg]
  by_cases h : x = y
  · subst h
    rw [if_pos rfl, if_pos rfl, BitVec.sub_eq_add_neg, BitVec.sub_eq_add_neg, BitVec.sub_eq_add_neg, BitVec.sub_eq_add_neg,
      BitVec.add_assoc, BitVec.add_assoc, BitVec.add_comm (-b)]
  · rw [if_neg h, if_neg h]; simp

/-- One step of a chain of a two operand instruction. -/
theorem pair_step {f : Val sz → Val sz → StatusRegister → Val sz × StatusRegister} {l : Limb sz} (h : Ready s op s1)
    (hx : EndsWith C s (pair sz (flag op 3) (regField op 9) (regField op 0) f s1)) (hc : Completes C s s')
    (hd : Has s (pairPlaces sz op s.cpu.regs).1 l.d) (hv : Has s (pairPlaces sz op s.cpu.regs).2 l.v)
    (hr : Has s' (pairPlaces sz op s.cpu.regs).1 l.r) :
    l.r = (f l.d l.v s.cpu.regs.sr).1 ∧ s'.cpu.regs.sr = (f l.d l.v s.cpu.regs.sr).2 := by
  have hreg : ∀ n, areg s1.cpu.regs n = areg s.cpu.regs n ∧ s1.cpu.regs.d = s.cpu.regs.d ∧ s1.cpu.regs.sr = s.cpu.regs.sr := by
    intro n
    obtain ⟨m, -, e⟩ := h.opcode
    rw [e]
    exact ⟨rfl, rfl, rfl⟩
  have hmem := h.ram
  rcases endsWith_completes hx hc with ⟨_, hx⟩ | ⟨e, hx, ht⟩
  · unfold Spec.pair at hx
    obtain ⟨src, t1, h1, hx⟩ := bind_ok hx
    obtain ⟨dst, t2, h2, hx⟩ := bind_ok hx
    obtain ⟨v, t3, h3, hx⟩ := bind_ok hx
    obtain ⟨d, t4, h4, hx⟩ := bind_ok hx
    obtain ⟨r, t5, h5, hx⟩ := bind_ok hx
    have e3 := readAt_ram h3
    have e4 := readAt_ram h4
    subst e3 e4
    have key : dst = (pairPlaces sz op s.cpu.regs).1 ∧ src = (pairPlaces sz op s.cpu.regs).2 ∧ t4.mem = s.mem ∧
        t4.cpu.regs.d = s.cpu.regs.d ∧ t4.cpu.regs.sr = s.cpu.regs.sr := by
      cases hb : flag op 3 with
      | false =>
        have hb' : op.toNat / 8 % 2 = 0 := by
          have := of_decide_eq_false hb
          have h2 : op.toNat / 2 ^ 3 % 2 < 2 := Nat.mod_lt _ (by omega)
          omega
        rw [hb] at h1 h2
        cases h1
        cases h2
        unfold pairPlaces
        rw [if_pos hb']
        exact ⟨rfl, rfl, hmem, (hreg 0).2.1, (hreg 0).2.2⟩
      | true =>
        have hb' : ¬ op.toNat / 8 % 2 = 0 := by
          have := of_decide_eq_true hb
          omega
        rw [hb] at h1 h2
        cases h1
        cases h2
        unfold pairPlaces
        rw [if_neg hb']
        refine ⟨?_, ?_, hmem, ?_, ?_⟩
        · show Place.mem (areg (setAreg s1.cpu.regs (regField op 0) (areg s1.cpu.regs (regField op 0) - Spec.step (regField op 0) sz)) (regField op 9) - Spec.step (regField op 9) sz) = _
          rw [areg_sub, (hreg _).1]
        · show Place.mem (areg s1.cpu.regs (regField op 0) - _) = _
          rw [(hreg _).1]
        · show (setAreg (setAreg s1.cpu.regs _ _) _ _).d = _
          rw [setAreg_d, setAreg_d, (hreg 0).2.1]
        · show (setAreg (setAreg s1.cpu.regs _ _) _ _).sr = _
          rw [setAreg_sr, setAreg_sr, (hreg 0).2.2]
    obtain ⟨kd, ks, km, kr, ksr⟩ := key
    subst kd ks
    have tr : ∀ {p : Place} {w : Val sz}, Has s p w → Has t4 p w := by
      intro p w hw
      cases p with
      | dreg n => unfold Has at *; simp only at *; rw [kr]; exact hw
      | areg n => exact hw
      | mem a => unfold Has at *; simp only at *; rw [km]; exact hw
      | imm v => exact hw
    have ev := has_readAt (tr hv) h3
    have ed := has_readAt (tr hd) h4
    subst ev ed
    cases h5
    obtain ⟨w1, w2⟩ := has_writeAt hx hr
    rw [← w1, w2]
    exact ⟨by rw [ksr], by rw [← ksr]⟩
  · exact absurd ht (traced_ne (Err23.pair _ _ _ _ _ _ _ hx))

/-- The memory form changes only its destination, the two address registers, the program counter and the flags. -/
theorem pair_frame {f : Val sz → Val sz → StatusRegister → Val sz × StatusRegister} {a b : U32} {d v : Val sz} (h : Ready s op s1)
    (hx : EndsWith C s (pair sz (flag op 3) (regField op 9) (regField op 0) f s1)) (hc : Completes C s s')
    (hp : pairPlaces sz op s.cpu.regs = (.mem a, .mem b)) (hd : Holds s.mem a d) (hv : Holds s.mem b v) :
    Holds s'.mem a (f d v s.cpu.regs.sr).1 ∧ SameExcept s.mem s'.mem a (bytes sz) ∧ s'.cpu.regs.d = s.cpu.regs.d := by
  have hf : ¬ op.toNat / 8 % 2 = 0 := by
    intro h0
    unfold pairPlaces at hp
    rw [if_pos h0] at hp
    cases hp
  have hb : flag op 3 = true := by
    have h2 : op.toNat / 2 ^ 3 % 2 < 2 := Nat.mod_lt _ (by omega)
    exact decide_eq_true (by omega)
  unfold pairPlaces at hp
  rw [if_neg hf] at hp
  obtain ⟨m, -, e⟩ := h.opcode
  have hmem := h.ram
  have hreg : ∀ n, areg s1.cpu.regs n = areg s.cpu.regs n := fun n => by rw [e]; rfl
  have hda : s1.cpu.regs.d = s.cpu.regs.d := by rw [e]
  have hsr : s1.cpu.regs.sr = s.cpu.regs.sr := by rw [e]
  have ha : areg s.cpu.regs (regField op 9) - Spec.step (regField op 9) sz -
      (if regField op 9 = regField op 0 then Spec.step (regField op 0) sz else 0) = a := by
    injection hp with h1 h2; injection h1
  have hb' : areg s.cpu.regs (regField op 0) - Spec.step (regField op 0) sz = b := by
    injection hp with h1 h2; injection h2
  rw [hb] at hx
  rcases endsWith_completes hx hc with ⟨_, hx⟩ | ⟨e, hx, ht⟩
  · unfold Spec.pair at hx
    obtain ⟨src, t1, h1, hx⟩ := bind_ok hx
    obtain ⟨dst, t2, h2, hx⟩ := bind_ok hx
    obtain ⟨v', t3, h3, hx⟩ := bind_ok hx
    obtain ⟨d', t4, h4, hx⟩ := bind_ok hx
    obtain ⟨r, t5, h5, hx⟩ := bind_ok hx
    have e3 := readAt_ram h3
    have e4 := readAt_ram h4
    rw [e4, e3] at h5
    cases h1
    cases h2
    cases h5
    have hs : (setAreg (setAreg s1.cpu.regs (regField op 0) (areg s1.cpu.regs (regField op 0) - Spec.step (regField op 0) sz)) (regField op 9)
        (areg (setAreg s1.cpu.regs (regField op 0) (areg s1.cpu.regs (regField op 0) - Spec.step (regField op 0) sz)) (regField op 9) - Spec.step (regField op 9) sz)).sr
        = s.cpu.regs.sr := by rw [setAreg_sr, setAreg_sr, hsr]
    have had : areg (setAreg s1.cpu.regs (regField op 0) (areg s1.cpu.regs (regField op 0) - Spec.step (regField op 0) sz)) (regField op 9) - Spec.step (regField op 9) sz = a := by
      rw [areg_sub, hreg, ha]
    have ev : v' = v := by
      refine has_readAt (p := .mem b) ?_ (by
        have := h3
        simp only [if_true, place] at this
        rw [hreg, hb'] at this
        exact this)
      show Holds s1.mem b v
      rw [hmem]; exact hv
    have ed : d' = d := by
      refine has_readAt (p := .mem a) (s := t3) ?_ (by
        have := h4
        simp only [if_true, place] at this
        rw [had] at this
        exact this)
      rw [e3]
      show Holds s1.mem a d
      rw [hmem]; exact hd
    subst ev ed
    simp only [if_true, place] at hx
    rw [hs, had] at hx
    obtain ⟨-, w1, w2, w3⟩ := store_done (show store sz a (f d' v' s.cpu.regs.sr).1 _ = .ok () s' from hx)
    refine ⟨w2, ?_, ?_⟩
    · intro q hq
      rw [w3 q hq]
      show Ram.peek s1.mem q = _
      rw [hmem]
    · rw [w1]
      show (setAreg (setAreg s1.cpu.regs _ _) _ _).d = _
      rw [setAreg_d, setAreg_d, hda]
  · exact absurd ht (traced_ne (Err23.pair _ _ _ _ _ _ _ hx))

/-- One step of a chain of a one operand instruction. -/
theorem rmw_step {m : Mode} {f : Val sz → StatusRegister → Val sz × StatusRegister} {p : Place} {d r : Val sz}
    (hx : EndsWith C s (rmw sz m f s1)) (hc : Completes C s s') (hsr : s1.cpu.regs.sr = s.cpu.regs.sr)
    (hd : Spec.read sz m s1 = .ok (p, d) s2) (hr : Has s' p r) :
    r = (f d s.cpu.regs.sr).1 ∧ s'.cpu.regs.sr = (f d s.cpu.regs.sr).2 := by
  rcases endsWith_completes hx hc with ⟨_, hx⟩ | ⟨e, hx, ht⟩
  · unfold Spec.rmw at hx
    obtain ⟨q, t1, h1, hx⟩ := bind_ok hx
    rw [hd] at h1
    cases h1
    obtain ⟨r, t5, h5, hx⟩ := bind_ok hx
    have h2 : s2.cpu.regs.sr = s.cpu.regs.sr := by
      obtain ⟨-, e, -⟩ := read_ram hd
      rw [e, ← hsr]
      exact place_sr _ _
    cases h5
    obtain ⟨w1, w2⟩ := has_writeAt hx hr
    rw [← w1, w2]
    exact ⟨by rw [h2], by rw [← h2]⟩
  · exact absurd ht (traced_ne (Err23.rmw _ _ _ _ _ hx))
end

/-! ### The limbs of a number -/

theorem number_lt (l : List (Val sz)) : number l < 2 ^ (width sz * l.length) := by
  induction l with
  | nil => simp [number]
  | cons v t ih =>
    have := v.isLt
    rw [List.length_cons, Nat.mul_add, Nat.mul_one, Nat.pow_add, number]
    have h2 : 2 ^ (width sz) * (number t + 1) ≤ 2 ^ width sz * 2 ^ (width sz * t.length) := Nat.mul_le_mul_left _ ih
    rw [Nat.mul_add, Nat.mul_one, Nat.mul_comm (2 ^ width sz) (2 ^ (width sz * t.length))] at h2
    omega

/-- The value of a number from its low limb and the rest. -/
theorem pow_split (w n : Nat) : 2 ^ (w * (n + 1)) = 2 ^ w * 2 ^ (w * n) := by
  rw [Nat.mul_add, Nat.mul_one, Nat.pow_add, Nat.mul_comm]

theorem pow_half {w : Nat} (h : 0 < w) : ∃ q, 2 ^ w = 2 * q ∧ 2 ^ (w - 1) = q := by
  refine ⟨2 ^ (w - 1), ?_, rfl⟩
  have : w = (w - 1) + 1 := by omega
  conv => lhs; rw [this]
  rw [Nat.pow_succ, Nat.mul_comm]

theorem extend_le (sr : StatusRegister) : extend sr ≤ 1 := by unfold extend; split <;> omega
theorem extend_eq (sr : StatusRegister) : extend sr = 1 ∧ sr.x = true ∨ extend sr = 0 ∧ sr.x = false := by
  unfold extend; cases sr.x <;> simp

theorem toInt_val (v : Val sz) : (2 * v.toNat < 2 ^ width sz ∧ v.toInt = v.toNat) ∨
    (2 ^ width sz ≤ 2 * v.toNat ∧ v.toInt = v.toNat - ((2 ^ width sz : Nat) : Int)) := by
  rw [BitVec.toInt_eq_toNat_cond]
  split
  · exact .inl ⟨by assumption, rfl⟩
  · exact .inr ⟨by omega, rfl⟩

theorem wholeSum_one {d v r : Val sz} {sr sr' : StatusRegister} (h : SumCodes d v (extend sr) sr r sr')
    (hz : sr'.z = true ↔ sr.z = true ∧ r.toNat = 0) :
    WholeSum (width sz * 1) (number [d]) (number [v]) (extend sr) sr.z (number [r]) sr' := by
  have hd := toInt_val d
  have hv := toInt_val v
  have hr := toInt_val r
  have e : ∀ u : Val sz, number [u] = u.toNat := fun u => by simp [number]
  rw [e, e, e, Nat.mul_one]
  have hi : ((2 ^ width sz : Nat) : Int) = 2 ^ width sz := by norm_cast
  have hs : ∀ u : Val sz, signed (width sz) u.toNat = u.toInt := by
    intro u
    unfold signed
    rcases toInt_val u with ⟨h1, h2⟩ | ⟨h1, h2⟩
    · rw [if_pos h1, h2]
    · rw [if_neg (by omega), h2, hi]
  exact ⟨h.value, h.carry, h.extend, by rw [hs, hs]; exact h.overflow, by rw [hs]; exact h.negative, hz⟩

theorem signed_eq {w k : Nat} : (2 * k < 2 ^ w ∧ signed w k = k) ∨ (2 ^ w ≤ 2 * k ∧ signed w k = k - ((2 ^ w : Nat) : Int)) := by
  unfold signed
  have hi : ((2 ^ w : Nat) : Int) = 2 ^ w := by norm_cast
  split
  · exact .inl ⟨by assumption, rfl⟩
  · exact .inr ⟨by omega, by rw [hi]⟩

theorem fitsS_iff {w q : Nat} {z : Int} (h : 2 ^ (w - 1) = q) : FitsS w z ↔ -(q : Int) ≤ z ∧ z < q := by
  unfold FitsS
  have : ((2 ^ (w - 1) : Nat) : Int) = 2 ^ (w - 1) := by norm_cast
  rw [← this, h]

theorem mod_two {S Q : Nat} (h : S < 2 * Q) : S % Q = if S < Q then S else S - Q := by
  split
  · exact Nat.mod_eq_of_lt (by assumption)
  · rw [Nat.mod_eq_sub_mod (by omega), Nat.mod_eq_of_lt (by omega)]

/-- The facts on the low limb and the rest, with the powers of two as numbers. -/
structure Low (P Q H : Nat) : Prop where
  width : P = 256 ∨ P = 65536 ∨ P = 4294967296
  half : Q = 2 * H

theorem split_pow (sz : Size) {n : Nat} (hn : 0 < n) : ∃ P Q H, 2 ^ width sz = P ∧ 2 ^ (width sz * n) = Q ∧ 2 ^ (width sz * n - 1) = H ∧
    2 ^ (width sz * (n + 1)) = P * Q ∧ 2 ^ (width sz * (n + 1) - 1) = P * H ∧ Low P Q H := by
  have hw : 0 < width sz := by cases sz <;> decide
  have hwn : 0 < width sz * n := Nat.mul_pos hw hn
  obtain ⟨H, h1, h2⟩ := pow_half hwn
  refine ⟨2 ^ width sz, 2 ^ (width sz * n), H, rfl, rfl, h2, pow_split _ _, ?_, ?_, h1⟩
  · rw [← h2, ← Nat.pow_add]
    congr 1
    rw [Nat.mul_add]; omega
  · cases sz
    · exact .inl rfl
    · exact .inr (.inl rfl)
    · exact .inr (.inr rfl)

theorem signed_cons (v : Val sz) {l : List (Val sz)} {n : Nat} (hn : 0 < n) (h : number l < 2 ^ (width sz * n)) :
    signed (width sz * (n + 1)) (number (v :: l)) = v.toNat + ((2 ^ width sz : Nat) : Int) * signed (width sz * n) (number l) := by
  have hv := v.isLt
  obtain ⟨P, Q, H, eP, eQ, eH, ePQ, ePH, hP, hQ⟩ := split_pow sz hn
  have s1 := signed_eq (w := width sz * n) (k := number l)
  have s2 := signed_eq (w := width sz * (n + 1)) (k := number (v :: l))
  simp only [number] at s2 ⊢
  rw [eP] at hv s2 ⊢
  rw [eQ] at s1 h
  rw [ePQ] at s2
  generalize signed (width sz * n) (number l) = S1 at *
  generalize signed (width sz * (n + 1)) (v.toNat + P * number l) = S2 at *
  generalize number l = N at *
  generalize v.toNat = v0 at *
  subst hQ
  clear ePH ePQ eH eQ eP
  rcases hP with rfl | rfl | rfl <;> omega

theorem limb_carry {P d0 v0 r0 x x1 : Nat} {sr1 : StatusRegister} (hd : d0 < P) (hv : v0 < P) (hx : x ≤ 1) (hx1 : extend sr1 = x1)
    (h1 : r0 = (d0 + v0 + x) % P) (h2 : sr1.c = true ↔ P ≤ d0 + v0 + x) (h3 : sr1.x = sr1.c) : r0 + P * x1 = d0 + v0 + x := by
  subst hx1
  rcases extend_eq sr1 with ⟨a, b⟩ | ⟨a, b⟩
  · rw [a]
    have := h2.1 (h3 ▸ b)
    rw [h1, mod_two (by omega), if_neg (by omega)]; omega
  · rw [a]
    have : ¬ P ≤ d0 + v0 + x := fun hh => by rw [h3, h2.2 hh] at b; cases b
    rw [h1, Nat.mod_eq_of_lt (by omega)]; omega

theorem wholeSum_cons {d v r : Val sz} {ds vs rs : List (Val sz)} {n : Nat} {sr sr1 sr' : StatusRegister} (hn : 0 < n)
    (h : SumCodes d v (extend sr) sr r sr1)
    (hz : sr1.z = true ↔ sr.z = true ∧ r.toNat = 0)
    (hds : number ds < 2 ^ (width sz * n)) (hvs : number vs < 2 ^ (width sz * n)) (hrs : number rs < 2 ^ (width sz * n))
    (ih : WholeSum (width sz * n) (number ds) (number vs) (extend sr1) sr1.z (number rs) sr') :
    WholeSum (width sz * (n + 1)) (number (d :: ds)) (number (v :: vs)) (extend sr) sr.z (number (r :: rs)) sr' := by
  have hr := r.isLt
  have hc := limb_carry d.isLt v.isLt (extend_le sr) rfl h.value h.carry h.extend
  have hx1 := extend_le sr1
  have i1 := ih.value
  have i2 := ih.carry
  have i4 := ih.overflow
  have i5 := ih.negative
  have i6 := ih.zero
  obtain ⟨P, Q, H, eP, eQ, eH, ePQ, ePH, hP, hQ⟩ := split_pow sz hn
  rw [fitsS_iff eH] at i4
  rw [eP] at hc hr
  refine ⟨?_, ?_, ih.extend, ?_, ?_, ?_⟩
  · rw [eQ] at i1 hds hvs hrs
    rw [mod_two (by omega)] at i1
    rw [ePQ, number, number, number, eP]
    clear i2 i4 i5 i6 hz ih h eP eQ eH ePQ ePH
    generalize number ds = D at *
    generalize number vs = V at *
    generalize number rs = R at *
    rw [mod_two (by rcases hP with rfl | rfl | rfl <;> omega)]
    rcases hP with rfl | rfl | rfl <;> split at i1 <;> split <;> omega
  · rw [i2, ePQ, eQ, number, number, eP]
    rw [eQ] at hds hvs
    clear i1 i2 i4 i5 i6 hz ih h eP eQ eH ePQ ePH
    rcases hP with rfl | rfl | rfl <;> omega
  · rw [i4, fitsS_iff ePH, signed_cons d hn hds, signed_cons v hn hvs, eP]
    apply not_congr
    clear i1 i2 i4 i5 i6 hz ih h eP eQ eH ePQ ePH hds hvs hrs
    rcases hP with rfl | rfl | rfl <;> omega
  · rw [i5, signed_cons r hn hrs, eP]
    clear i1 i2 i4 i5 i6 hz ih h eP eQ eH ePQ ePH hds hvs hrs hc
    rcases hP with rfl | rfl | rfl <;> omega
  · rw [i6, hz, number, eP]
    have : r.toNat + P * number rs = 0 ↔ r.toNat = 0 ∧ number rs = 0 := by
      rcases hP with rfl | rfl | rfl <;> omega
    rw [this]
    exact and_assoc

theorem wholeDifference_one {d v r : Val sz} {sr sr' : StatusRegister} (h : DifferenceCodes d v (extend sr) sr r sr')
    (hz : sr'.z = true ↔ sr.z = true ∧ r.toNat = 0) :
    WholeDifference (width sz * 1) (number [d]) (number [v]) (extend sr) sr.z (number [r]) sr' := by
  have e : ∀ u : Val sz, number [u] = u.toNat := fun u => by simp [number]
  rw [e, e, e, Nat.mul_one]
  have hi : ((2 ^ width sz : Nat) : Int) = 2 ^ width sz := by norm_cast
  have hs : ∀ u : Val sz, signed (width sz) u.toNat = u.toInt := by
    intro u
    unfold signed
    rcases toInt_val u with ⟨h1, h2⟩ | ⟨h1, h2⟩
    · rw [if_pos h1, h2]
    · rw [if_neg (by omega), h2, hi]
  exact ⟨h.value, h.borrow, h.extend, by rw [hs, hs]; exact h.overflow, by rw [hs]; exact h.negative, hz⟩

theorem emod_two {D V x Q : Nat} (hd : D < Q) (hv : V < Q) (hx : x ≤ 1) :
    ((D : Int) - V - x) % ((Q : Nat) : Int) = (D : Int) - V - x + if D < V + x then (Q : Int) else 0 := by
  split
  · rw [← Int.add_emod_right]
    exact Int.emod_eq_of_lt (by omega) (by omega)
  · rw [Int.add_zero]
    exact Int.emod_eq_of_lt (by omega) (by omega)

theorem limb_borrow {P d0 v0 r0 x x1 : Nat} {sr1 : StatusRegister} (hd : d0 < P) (hv : v0 < P) (hx : x ≤ 1) (hx1 : extend sr1 = x1)
    (h1 : (r0 : Int) = ((d0 : Int) - v0 - x) % (P : Int)) (h2 : sr1.c = true ↔ d0 < v0 + x) (h3 : sr1.x = sr1.c) :
    r0 + v0 + x = d0 + P * x1 := by
  subst hx1
  rw [emod_two hd hv hx] at h1
  rcases extend_eq sr1 with ⟨a, b⟩ | ⟨a, b⟩
  · rw [a]
    have := h2.1 (h3 ▸ b)
    rw [if_pos this] at h1
    omega
  · rw [a]
    have : ¬ d0 < v0 + x := fun hh => by rw [h3, h2.2 hh] at b; cases b
    rw [if_neg this] at h1
    omega

theorem wholeDifference_cons {d v r : Val sz} {ds vs rs : List (Val sz)} {n : Nat} {sr sr1 sr' : StatusRegister} (hn : 0 < n)
    (h : DifferenceCodes d v (extend sr) sr r sr1)
    (hz : sr1.z = true ↔ sr.z = true ∧ r.toNat = 0)
    (hds : number ds < 2 ^ (width sz * n)) (hvs : number vs < 2 ^ (width sz * n)) (hrs : number rs < 2 ^ (width sz * n))
    (ih : WholeDifference (width sz * n) (number ds) (number vs) (extend sr1) sr1.z (number rs) sr') :
    WholeDifference (width sz * (n + 1)) (number (d :: ds)) (number (v :: vs)) (extend sr) sr.z (number (r :: rs)) sr' := by
  have hd := d.isLt
  have hv := v.isLt
  have hr := r.isLt
  have hp : ∀ w : Nat, (2 : Int) ^ w = ((2 ^ w : Nat) : Int) := fun w => by norm_cast
  have hv1 := h.value
  have i1 := ih.value
  rw [hp] at hv1 i1
  have hc := limb_borrow d.isLt v.isLt (extend_le sr) rfl hv1 h.borrow h.extend
  have hx := extend_le sr
  have hx1 := extend_le sr1
  rw [emod_two hds hvs hx1] at i1
  have i2 := ih.borrow
  have i4 := ih.overflow
  have i5 := ih.negative
  have i6 := ih.zero
  obtain ⟨P, Q, H, eP, eQ, eH, ePQ, ePH, hP, hQ⟩ := split_pow sz hn
  rw [fitsS_iff eH] at i4
  rw [eP] at hc hr hd hv
  refine ⟨?_, ?_, ih.extend, ?_, ?_, ?_⟩
  · rw [eQ] at i1 hds hvs hrs
    rw [hp, ePQ, number, number, number, eP]
    clear i2 i4 i5 i6 hz ih h eP eQ eH ePQ ePH hv1
    generalize number ds = D at *
    generalize number vs = V at *
    generalize number rs = R at *
    rw [emod_two (by rcases hP with rfl | rfl | rfl <;> omega) (by rcases hP with rfl | rfl | rfl <;> omega) hx]
    rcases hP with rfl | rfl | rfl <;> split at i1 <;> split <;> omega
  · rw [i2, number, number, eP]
    clear i1 i2 i4 i5 i6 hz ih h eP eQ eH ePQ ePH hv1
    rcases hP with rfl | rfl | rfl <;> omega
  · rw [i4, fitsS_iff ePH, signed_cons d hn hds, signed_cons v hn hvs, eP]
    apply not_congr
    clear i1 i2 i4 i5 i6 hz ih h eP eQ eH ePQ ePH hds hvs hrs hv1
    rcases hP with rfl | rfl | rfl <;> omega
  · rw [i5, signed_cons r hn hrs, eP]
    clear i1 i2 i4 i5 i6 hz ih h eP eQ eH ePQ ePH hds hvs hrs hc hv1
    rcases hP with rfl | rfl | rfl <;> omega
  · rw [i6, hz, number, eP]
    have : r.toNat + P * number rs = 0 ↔ r.toNat = 0 ∧ number rs = 0 := by
      rcases hP with rfl | rfl | rfl <;> omega
    rw [this]
    exact and_assoc

end Exec
end M68k
