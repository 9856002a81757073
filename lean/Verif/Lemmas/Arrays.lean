import Verif.Lemmas.Chain
import Verif.Props.C16
/-
Repeating ADDX, SUBX, ABCD or SBCD on two numbers in memory makes a chain over their limbs.
-/
namespace M68k.Exec
open Spec
set_option linter.unusedSectionVars false
variable {M : Type} [MemoryAccess M] [Ram M] {C : CpuDetails} {s s' s1 t u : St M} {op : U16} {sz : Size} {i : Isa} {n : Nat}

theorem _root_.M68k.Spec.Chain.congr {α : Type} {step : St M → St M → α → Prop} {sr1 sr2 sr' : StatusRegister} {l : List α} (h : Chain step sr1 l sr') (hl : l ≠ [])
    (hx : sr1.x = sr2.x) (hz : sr1.z = sr2.z) : Chain step sr2 l sr' := by
  cases h with
  | nil => exact absurd rfl hl
  | cons h1 h2 h3 h4 => exact .cons (h1.trans hx) (h2.trans hz) h3 h4

theorem below_at (a : U32) {B k : Nat} (hk : k ≤ B) : at_ (a - BitVec.ofNat 32 B) k = a - BitVec.ofNat 32 (B - k) := by
  unfold at_
  apply BitVec.eq_of_toNat_eq
  simp only [BitVec.toNat_add, BitVec.toNat_sub, BitVec.toNat_ofNat]
  omega

theorem below_inj (a : U32) {j k N : Nat} (hj : 1 ≤ j ∧ j ≤ N) (hk : 1 ≤ k ∧ k ≤ N) (hN : N ≤ 2 ^ 32)
    (h : a - BitVec.ofNat 32 j = a - BitVec.ofNat 32 k) : j = k := by
  have := congrArg BitVec.toNat h
  simp only [BitVec.toNat_sub, BitVec.toNat_ofNat] at this
  omega

theorem below_shift (a : U32) (b o : Nat) : a - BitVec.ofNat 32 b - BitVec.ofNat 32 o = a - BitVec.ofNat 32 (b + o) := by
  apply BitVec.eq_of_toNat_eq
  simp only [BitVec.toNat_sub, BitVec.toNat_ofNat]
  omega

theorem _root_.M68k.Spec.Below.tail {a b : U32} {k n : Nat} (h : Below (a - BitVec.ofNat 32 k) (k * n) b) : Below a (k * (n + 1)) b := by
  obtain ⟨o, h1, h2, h3⟩ := h
  refine ⟨k + o, by omega, ?_, ?_⟩
  · rw [Nat.mul_succ]; omega
  · rw [h3, below_shift]

theorem limb_below {a : U32} {j k n : Nat} (hj : j < n) (hk : k < bytes sz) :
    Below a (bytes sz * n) (at_ (a - BitVec.ofNat 32 (bytes sz * (j + 1))) k) := by
  have h1 : bytes sz * (j + 1) ≤ bytes sz * n := Nat.mul_le_mul_left _ hj
  have h2 : bytes sz * (j + 1) = bytes sz * j + bytes sz := Nat.mul_succ _ _
  rw [below_at a (by omega)]
  exact ⟨_, by omega, by omega, rfl⟩

/-- The limb `j + 1` is not the limb 0. -/
theorem limb_ne {a : U32} {j k k' n : Nat} (hj : j < n) (hN : bytes sz * (n + 1) ≤ 2 ^ 32) (hk : k < bytes sz) (hk' : k' < bytes sz) :
    at_ (a - BitVec.ofNat 32 (bytes sz * (j + 1 + 1))) k ≠ at_ (a - BitVec.ofNat 32 (bytes sz)) k' := by
  intro h
  have h1 : bytes sz * (j + 1 + 1) ≤ bytes sz * (n + 1) := Nat.mul_le_mul_left _ (by omega)
  have h2 : bytes sz * (j + 1 + 1) = bytes sz * j + bytes sz + bytes sz := by rw [Nat.mul_succ, Nat.mul_succ]
  rw [below_at a (by omega), below_at a (by omega)] at h
  have := below_inj a ⟨by omega, by omega⟩ ⟨by omega, by omega⟩ hN h
  omega

/-- The other limbs, seen from the address of limb 0. -/
theorem _root_.M68k.Spec.LimbsBelow.tail {m : M} {a : U32} {v : Val sz} {l : List (Val sz)} (h : LimbsBelow m a (v :: l)) :
    LimbsBelow m (a - BitVec.ofNat 32 (bytes sz)) l := by
  intro j hj
  have := h (j + 1) (by simpa using hj)
  rw [below_shift, show bytes sz + bytes sz * (j + 1) = bytes sz * (j + 1 + 1) by rw [Nat.mul_succ _ (j + 1)]; omega]
  exact this

theorem _root_.M68k.Spec.LimbsBelow.cons {m : M} {a : U32} {v : Val sz} {l : List (Val sz)} (h0 : Holds m (a - BitVec.ofNat 32 (bytes sz)) v)
    (h : LimbsBelow m (a - BitVec.ofNat 32 (bytes sz)) l) : LimbsBelow m a (v :: l) := by
  intro j hj
  match j with
  | 0 => simpa using h0
  | j + 1 =>
    have := h j (by simpa using hj)
    rw [below_shift, show bytes sz + bytes sz * (j + 1) = bytes sz * (j + 1 + 1) by rw [Nat.mul_succ _ (j + 1)]; omega] at this
    exact this

theorem _root_.M68k.Spec.LimbsBelow.of_same {m m' : M} {a : U32} {l : List (Val sz)} (h : LimbsBelow m a l)
    (hp : ∀ b, Below a (bytes sz * l.length) b → Ram.peek m' b = Ram.peek m b) : LimbsBelow m' a l := by
  intro j hj k hk
  rw [hp _ (limb_below hj hk)]
  exact h j hj k hk

/-- What the four instructions have in common. -/
structure PairInstr (C : CpuDetails) (M : Type) [MemoryAccess M] (i : Isa) (sz : Size) (op : U16) : Prop where
  instr : instr op = i
  size : opSize op = some sz
  memory : op.toNat / 8 % 2 = 1
  which : i = .Addx ∨ i = .Subx ∨ ((i = .Abcd ∨ i = .Sbcd) ∧ sz = .Byte)
  distinct : regField op 9 ≠ regField op 0
  stack : sz = .Byte → regField op 9 ≠ 7 ∧ regField op 0 ≠ 7
  ends : ∃ f : Val sz → Val sz → StatusRegister → Val sz × StatusRegister, ∀ (s s1 : St M), Ready s op s1 →
    EndsWith C s (pair sz (flag op 3) (regField op 9) (regField op 0) f s1)

theorem PairInstr.step (hp : PairInstr C M i sz op) : Spec.step (regField op 9) sz = BitVec.ofNat 32 (bytes sz) ∧
    Spec.step (regField op 0) sz = BitVec.ofNat 32 (bytes sz) := by
  have h := hp.stack
  cases sz
  · have ⟨h1, h2⟩ := h rfl
    simp [Spec.step, h1, h2, bytes]
  · simp [Spec.step, bytes]
  · simp [Spec.step, bytes]

theorem PairInstr.places (hp : PairInstr C M i sz op) (r : Registers) : pairPlaces sz op r =
    (.mem (areg r (regField op 9) - BitVec.ofNat 32 (bytes sz)), .mem (areg r (regField op 0) - BitVec.ofNat 32 (bytes sz))) := by
  unfold pairPlaces
  rw [if_neg (by rw [hp.memory]; decide), if_neg hp.distinct, hp.step.1, hp.step.2]
  congr 2
  exact BitVec.sub_zero _

theorem PairInstr.aregs (hp : PairInstr C M i sz op) (h : Ready s op s1) (hc : Completes C s s') :
    areg s'.cpu.regs (regField op 9) = areg s.cpu.regs (regField op 9) - BitVec.ofNat 32 (bytes sz) ∧
    areg s'.cpu.regs (regField op 0) = areg s.cpu.regs (regField op 0) - BitVec.ofNat 32 (bytes sz) := by
  obtain ⟨e1, e2⟩ := hp.step
  have h1 := Props.C16_pair h hp.instr hp.size hp.which hp.memory hc (regField op 9)
  have h2 := Props.C16_pair h hp.instr hp.size hp.which hp.memory hc (regField op 0)
  rw [Props.autoStep_eq, Props.autoStep_eq] at h1 h2
  unfold Shifts.shift at h1 h2
  rw [if_neg (Ne.symm hp.distinct), if_pos rfl, if_neg (by decide), if_pos rfl, e1] at h1
  rw [if_pos rfl, if_neg (by decide), if_pos rfl, if_neg hp.distinct, e2] at h2
  constructor
  · rw [h1, BitVec.sub_eq_add_neg]; congr 1; exact BitVec.add_zero _
  · rw [h2, BitVec.sub_eq_add_neg]; exact BitVec.add_zero _

theorem repeats_chain (hp : PairInstr C M i sz op) (h : Repeats C op s n s') (hN : bytes sz * n ≤ 2 ^ 32) {ds vs : List (Val sz)}
    (hdn : ds.length = n) (hvn : vs.length = n) (hd : LimbsBelow s.mem (areg s.cpu.regs (regField op 9)) ds)
    (hv : LimbsBelow s.mem (areg s.cpu.regs (regField op 0)) vs)
    (hdis : ∀ b, Below (areg s.cpu.regs (regField op 9)) (bytes sz * n) b → ¬ Below (areg s.cpu.regs (regField op 0)) (bytes sz * n) b) :
    ∃ ls : List (Limb sz), ls.map Limb.d = ds ∧ ls.map Limb.v = vs ∧ Chain (Combines (M := M) C i) s.cpu.regs.sr ls s'.cpu.regs.sr ∧
      LimbsBelow s'.mem (areg s.cpu.regs (regField op 9)) (ls.map Limb.r) ∧
      ∀ b, ¬ Below (areg s.cpu.regs (regField op 9)) (bytes sz * n) b → Ram.peek s'.mem b = Ram.peek s.mem b := by
  have one : ∀ {s s1 t : St M} {d v : Val sz} {ds vs : List (Val sz)}, Ready s op s1 → Completes C s t →
      LimbsBelow s.mem (areg s.cpu.regs (regField op 9)) (d :: ds) → LimbsBelow s.mem (areg s.cpu.regs (regField op 0)) (v :: vs) →
      ∃ r, Combines C i s t ⟨d, v, r⟩ ∧ Holds t.mem (areg s.cpu.regs (regField op 9) - BitVec.ofNat 32 (bytes sz)) r ∧
        SameExcept s.mem t.mem (areg s.cpu.regs (regField op 9) - BitVec.ofNat 32 (bytes sz)) (bytes sz) := by
    intro s s1 t d v ds vs h hc hd hv
    obtain ⟨f, hf⟩ := hp.ends
    have hd0 : Holds s.mem (areg s.cpu.regs (regField op 9) - BitVec.ofNat 32 (bytes sz)) d := by have := hd 0 (by simp); rwa [Nat.zero_add, Nat.mul_one] at this
    have hv0 : Holds s.mem (areg s.cpu.regs (regField op 0) - BitVec.ofNat 32 (bytes sz)) v := by have := hv 0 (by simp); rwa [Nat.zero_add, Nat.mul_one] at this
    obtain ⟨w1, w2, -⟩ := pair_frame h (hf s s1 h) hc (hp.places _) hd0 hv0
    refine ⟨_, ⟨op, s1, h, hp.instr, hp.size, hc, ?_, ?_, ?_⟩, w1, w2⟩
    · rw [hp.places]; exact hd0
    · rw [hp.places]; exact hv0
    · rw [hp.places]; exact w1
  induction h generalizing ds vs with
  | @last s s1 s' h hc =>
    obtain ⟨d, rfl⟩ : ∃ d, ds = [d] := List.length_eq_one_iff.1 hdn
    obtain ⟨v, rfl⟩ : ∃ v, vs = [v] := List.length_eq_one_iff.1 hvn
    obtain ⟨r, h1, h2, h3⟩ := one h hc hd hv
    refine ⟨[⟨d, v, r⟩], rfl, rfl, .cons rfl rfl h1 .nil, .cons h2 (fun j hj => absurd hj (by simp)), ?_⟩
    intro b hb
    exact h3 b fun k hk e => hb (e ▸ by simpa using limb_below (j := 0) (n := 1) (by omega) hk)
  | @next s s1 t u s' n h hc hm hx hz ha9 ha0 hr ih =>
    obtain ⟨d, ds, rfl⟩ : ∃ d l, ds = d :: l := by cases ds with | nil => simp at hdn | cons d l => exact ⟨d, l, rfl⟩
    obtain ⟨v, vs, rfl⟩ : ∃ d l, vs = d :: l := by cases vs with | nil => simp at hvn | cons d l => exact ⟨d, l, rfl⟩
    simp only [List.length_cons, Nat.add_right_cancel_iff] at hdn hvn
    obtain ⟨r, h1, h2, h3⟩ := one h hc hd hv
    obtain ⟨e9, e0⟩ := hp.aregs h hc
    rw [← ha9] at e9
    rw [← ha0] at e0
    have hN' : bytes sz * n ≤ 2 ^ 32 := Nat.le_trans (Nat.mul_le_mul_left _ (Nat.le_succ n)) hN
    have hd' : LimbsBelow u.mem (areg u.cpu.regs (regField op 9)) ds := by
      rw [e9, hm]
      intro j hj k hk
      rw [h3]
      · exact hd.tail j hj k hk
      · intro k' hk'
        rw [below_shift, show bytes sz + bytes sz * (j + 1) = bytes sz * (j + 1 + 1) by rw [Nat.mul_succ _ (j + 1)]; omega]
        exact limb_ne (n := n) (by omega) hN hk hk'
    have hv' : LimbsBelow u.mem (areg u.cpu.regs (regField op 0)) vs := by
      rw [e0, hm]
      refine hv.tail.of_same fun b hb => h3 b fun k hk e => ?_
      rw [hvn] at hb
      refine hdis b ?_ hb.tail
      rw [e]
      simpa using limb_below (j := 0) (n := n + 1) (by omega) hk
    obtain ⟨ls, l1, l2, l3, l4, l5⟩ := ih hN' hdn hvn hd' hv' (by
      rw [e9, e0]
      exact fun b h1 h2 => hdis b h1.tail h2.tail)
    have hn : ls ≠ [] := by
      rintro rfl
      simp only [List.map_nil] at l1
      rw [← l1] at hdn
      cases hr with
      | last => simp at hdn
      | next => simp at hdn
    refine ⟨⟨d, v, r⟩ :: ls, by simp [l1], by simp [l2], .cons rfl rfl h1 (l3.congr hn hx hz), ?_, ?_⟩
    · rw [e9] at l4 l5
      refine .cons ?_ l4
      intro k hk
      rw [l5, hm]
      · exact h2 k hk
      · rintro ⟨o, o1, o2, o3⟩
        rw [below_at _ (by omega), below_shift] at o3
        have := below_inj (areg s.cpu.regs (regField op 9)) (N := bytes sz * (n + 1)) ⟨by omega, by rw [Nat.mul_succ]; omega⟩
          ⟨by omega, by rw [Nat.mul_succ]; omega⟩ hN o3
        omega
    · intro b hb
      rw [e9] at l5
      rw [l5 b (fun h => hb h.tail), hm]
      exact h3 b fun k hk e => hb (e ▸ by simpa using limb_below (j := 0) (n := n + 1) (by omega) hk)

end M68k.Exec
