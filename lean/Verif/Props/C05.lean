import Verif.Lemmas.Arrays
import Verif.Props.DemoRam
/-
C05: multi-precision binary arithmetic with ADDX, SUBX and NEGX.
-/
namespace M68k.Props
open Spec Exec
set_option linter.unusedSectionVars false
variable {M : Type} [MemoryAccess M] [Ram M] {C : CpuDetails} {s s' s1 s2 : St M} {op : U16} {sz : Size} {l : Limb sz}

/-- One ADDX, on registers or on memory: the sum of the operands and X, with its codes; Z is only ever cleared. -/
theorem C05_addx (h : Combines C .Addx s s' l) : SumCodes l.d l.v (extend s.cpu.regs.sr) s.cpu.regs.sr l.r s'.cpu.regs.sr ∧
    (s'.cpu.regs.sr.z = true ↔ s.cpu.regs.sr.z = true ∧ l.r.toNat = 0) := by
  obtain ⟨op, s1, h, hi, hsz, hc, hd, hv, hr⟩ := h
  have hx := step_ends C h hi (by decide) rfl
  simp only [Spec.exec] at hx
  rw [sized_some hsz, endsWith_cost] at hx
  obtain ⟨e1, e2⟩ := pair_step h hx hc hd hv hr
  rw [e1, e2]
  refine ⟨sumCodes_sum _ _ _, ?_⟩
  simp [sum, zero, and_comm]

/-- `ADDX.L D1,D0` with X set: 0xFFFFFFFF + 0 + 1. -/
example : ∃ s' : St WordSlice, Combines mc68000 .Addx (Demo.st [0xD181] { Demo.regs [0xFFFFFFFF, 0] [] with sr := srOf 0x14 }) s'
    (⟨0xFFFFFFFF, 0, 0⟩ : Limb .Long) ∧ s'.cpu.regs.sr.z = true ∧ s'.cpu.regs.sr.x = true :=
  ⟨_, ⟨0xD181, _, ⟨rfl, rfl, by decide, _, rfl, rfl⟩, rfl, rfl, ⟨_, rfl⟩, rfl, rfl, rfl⟩, rfl, rfl⟩

/-- One SUBX. -/
theorem C05_subx (h : Combines C .Subx s s' l) : DifferenceCodes l.d l.v (extend s.cpu.regs.sr) s.cpu.regs.sr l.r s'.cpu.regs.sr ∧
    (s'.cpu.regs.sr.z = true ↔ s.cpu.regs.sr.z = true ∧ l.r.toNat = 0) := by
  obtain ⟨op, s1, h, hi, hsz, hc, hd, hv, hr⟩ := h
  have hx := step_ends C h hi (by decide) rfl
  simp only [Spec.exec] at hx
  rw [sized_some hsz, endsWith_cost] at hx
  obtain ⟨e1, e2⟩ := pair_step h hx hc hd hv hr
  rw [e1, e2]
  refine ⟨differenceCodes_difference _ _ _, ?_⟩
  simp [difference, zero, and_comm]

/-- `SUBX.W -(A1),-(A0)` with X set, on the words 5 and 7 at 12 and 10 (in the words 6 and 5 of the memory): 7 - 5 - 1. -/
example : ∃ s' : St WordSlice, Combines mc68000 .Subx (Demo.st [0x9149, 0, 0, 0, 0, 7, 5] { Demo.regs [] [12, 14] with sr := srOf 0x14 }) s'
    (⟨7, 5, 1⟩ : Limb .Word) :=
  ⟨_, ⟨0x9149, _, ⟨rfl, rfl, by decide, _, rfl, rfl⟩, rfl, rfl, ⟨_, rfl⟩,
    (by intro k hk; match k, hk with | 0, _ => rfl | 1, _ => rfl), (by intro k hk; match k, hk with | 0, _ => rfl | 1, _ => rfl),
    (by intro k hk; match k, hk with | 0, _ => rfl | 1, _ => rfl)⟩⟩

/-- One NEGX: the difference of 0 and the operand. -/
theorem C05_negx {d r : Val sz} (h : Negates C .Negx s s' (d, r)) :
    DifferenceCodes 0 d (extend s.cpu.regs.sr) s.cpu.regs.sr r s'.cpu.regs.sr ∧
    (s'.cpu.regs.sr.z = true ↔ s.cpu.regs.sr.z = true ∧ r.toNat = 0) := by
  obtain ⟨op, s1, s2, p, h, hi, hsz, hc, hd, hr⟩ := h
  have hx := step_ends C h hi (by decide) rfl
  simp only [Spec.exec] at hx
  unfold unary at hx
  obtain ⟨m, t, hm, hd⟩ := operand_ok hd
  rw [sized_some hsz, endsWith_bind_ok hm, endsWith_cost] at hx
  have hsr : t.cpu.regs.sr = s.cpu.regs.sr := by rw [((Keeps.of_fetchEa sameD_rel _ _).ok hm).2, h.sr]
  obtain ⟨e1, e2⟩ := rmw_step hx hc hsr hd hr
  simp only at e1 e2
  rw [e1, e2]
  refine ⟨differenceCodes_difference _ _ _, ?_⟩
  simp [difference, zero, and_comm]

/-- `NEGX.B D0` on 0x80 without X: V is set. -/
example : ∃ s' : St WordSlice, Negates mc68000 .Negx (Demo.st [0x4000] (Demo.regs [0x80] [])) s' ((0x80 : Val .Byte), (0x80 : Val .Byte)) ∧
    s'.cpu.regs.sr.v = true :=
  ⟨_, ⟨0x4000, _, _, _, ⟨rfl, rfl, by decide, _, rfl, rfl⟩, rfl, rfl, ⟨_, rfl⟩, rfl, rfl⟩, rfl⟩

/-- ADDX over all the limbs, least significant first: the sum of the whole numbers and X, modulo 2^(bits); X and C are the carry out of the
whole addition, V its signed overflow, N the sign of the whole result and, if Z was set beforehand, Z says whether it is zero. -/
theorem C05_addx_chain {sr sr' : StatusRegister} {ls : List (Limb sz)} (h : Chain (Combines (M := M) C .Addx) sr ls sr') (hn : ls ≠ []) :
    WholeSum (width sz * ls.length) (number (ls.map Limb.d)) (number (ls.map Limb.v)) (extend sr) sr.z (number (ls.map Limb.r)) sr' := by
  induction h with
  | nil => exact absurd rfl hn
  | @cons sr sr' s s' a l hx hz hs hrest ih =>
    obtain ⟨h1, h2⟩ := C05_addx hs
    have he : extend s.cpu.regs.sr = extend sr := by unfold extend; rw [hx]
    rw [hz] at h2
    cases l with
    | nil =>
      cases hrest
      have := wholeSum_one h1 (by rw [hz]; exact h2)
      rw [he, hz] at this
      exact this
    | cons b l =>
      have ih := ih (List.cons_ne_nil _ _)
      have := wholeSum_cons (sr := s.cpu.regs.sr) (n := (b :: l).length) (by simp) h1 (by rw [hz]; exact h2) (by simpa using number_lt ((b :: l).map Limb.d))
        (by simpa using number_lt ((b :: l).map Limb.v)) (by simpa using number_lt ((b :: l).map Limb.r)) ih
      rw [he, hz] at this
      exact this

/-- SUBX over all the limbs: the difference of the whole numbers and X, modulo 2^(bits), with its borrow and signed overflow. -/
theorem C05_subx_chain {sr sr' : StatusRegister} {ls : List (Limb sz)} (h : Chain (Combines (M := M) C .Subx) sr ls sr') (hn : ls ≠ []) :
    WholeDifference (width sz * ls.length) (number (ls.map Limb.d)) (number (ls.map Limb.v)) (extend sr) sr.z (number (ls.map Limb.r)) sr' := by
  induction h with
  | nil => exact absurd rfl hn
  | @cons sr sr' s s' a l hx hz hs hrest ih =>
    obtain ⟨h1, h2⟩ := C05_subx hs
    have he : extend s.cpu.regs.sr = extend sr := by unfold extend; rw [hx]
    rw [hz] at h2
    cases l with
    | nil =>
      cases hrest
      have := wholeDifference_one h1 (by rw [hz]; exact h2)
      rw [he, hz] at this
      exact this
    | cons b l =>
      have ih := ih (List.cons_ne_nil _ _)
      have := wholeDifference_cons (sr := s.cpu.regs.sr) (n := (b :: l).length) (by simp) h1 (by rw [hz]; exact h2)
        (by simpa using number_lt ((b :: l).map Limb.d))
        (by simpa using number_lt ((b :: l).map Limb.v)) (by simpa using number_lt ((b :: l).map Limb.r)) ih
      rw [he, hz] at this
      exact this

theorem number_zeros (l : List (Val sz × Val sz)) : number (l.map fun _ => (0 : Val sz)) = 0 := by
  induction l with
  | nil => rfl
  | cons a t ih =>
    show (0 : Val sz).toNat + 2 ^ width sz * number (t.map fun _ => (0 : Val sz)) = 0
    rw [ih]; simp

/-- NEGX over all the limbs: the negation of the whole number minus X, modulo 2^(bits), with its borrow and signed overflow. -/
theorem C05_negx_chain {sr sr' : StatusRegister} {ls : List (Val sz × Val sz)} (h : Chain (Negates (M := M) C .Negx) sr ls sr') (hn : ls ≠ []) :
    WholeDifference (width sz * ls.length) 0 (number (ls.map Prod.fst)) (extend sr) sr.z (number (ls.map Prod.snd)) sr' := by
  rw [← number_zeros ls]
  induction h with
  | nil => exact absurd rfl hn
  | @cons sr sr' s s' a l hx hz hs hrest ih =>
    obtain ⟨h1, h2⟩ := C05_negx (d := a.1) (r := a.2) hs
    have he : extend s.cpu.regs.sr = extend sr := by unfold extend; rw [hx]
    rw [hz] at h2
    cases l with
    | nil =>
      cases hrest
      have := wholeDifference_one h1 (by rw [hz]; exact h2)
      rw [he, hz] at this
      exact this
    | cons b l =>
      have ih := ih (List.cons_ne_nil _ _)
      have := wholeDifference_cons (sr := s.cpu.regs.sr) (n := (b :: l).length) (by simp) h1 (by rw [hz]; exact h2)
        (by simpa using number_lt ((b :: l).map fun _ => (0 : Val sz)))
        (by simpa using number_lt ((b :: l).map Prod.fst)) (by simpa using number_lt ((b :: l).map Prod.snd)) ih
      rw [he, hz] at this
      exact this

/-- A 64-bit addition: `ADDX.L D2,D0` then `ADDX.L D3,D1` compute 0x00000001_FFFFFFFF + 0x00000002_00000001. -/
example : ∃ sr', Chain (Combines (M := WordSlice) mc68000 .Addx) (srOf 4)
    [(⟨0xFFFFFFFF, 1, 0⟩ : Limb .Long), ⟨1, 2, 4⟩] sr' := by
  refine ⟨_, .cons (s := Demo.st [0xD182, 0xD383] { Demo.regs [0xFFFFFFFF, 1, 1, 2] [] with sr := srOf 4 }) rfl rfl
    ⟨0xD182, _, ⟨rfl, rfl, by decide, _, rfl, rfl⟩, rfl, rfl, ⟨_, rfl⟩, rfl, rfl, rfl⟩
    (.cons rfl rfl ⟨0xD383, _, ⟨rfl, rfl, by decide, _, rfl, rfl⟩, rfl, rfl, ⟨_, rfl⟩, rfl, rfl, rfl⟩ .nil)⟩

/-- Two numbers of `n` limbs in disjoint parts of the memory, below the addresses in Ax and Ay: `n` executions of
`ADDX -(Ay),-(Ax)` replace the first by the sum, with the condition codes of the whole addition, and change nothing else in memory. -/
theorem C05_addx_memory {n : Nat} {ds vs : List (Val sz)} (hi : instr op = .Addx) (hsz : opSize op = some sz) (hm : op.toNat / 8 % 2 = 1)
    (hxy : regField op 9 ≠ regField op 0) (h7 : sz = .Byte → regField op 9 ≠ 7 ∧ regField op 0 ≠ 7)
    (h : Repeats C op s n s') (hn : bytes sz * n ≤ 2 ^ 32) (hdn : ds.length = n) (hvn : vs.length = n)
    (hd : LimbsBelow s.mem (areg s.cpu.regs (regField op 9)) ds) (hv : LimbsBelow s.mem (areg s.cpu.regs (regField op 0)) vs)
    (hdis : ∀ b, Below (areg s.cpu.regs (regField op 9)) (bytes sz * n) b → ¬ Below (areg s.cpu.regs (regField op 0)) (bytes sz * n) b) :
    ∃ rs : List (Val sz), rs.length = n ∧ LimbsBelow s'.mem (areg s.cpu.regs (regField op 9)) rs ∧
      WholeSum (width sz * n) (number ds) (number vs) (extend s.cpu.regs.sr) s.cpu.regs.sr.z (number rs) s'.cpu.regs.sr ∧
      ∀ b, ¬ Below (areg s.cpu.regs (regField op 9)) (bytes sz * n) b → Ram.peek s'.mem b = Ram.peek s.mem b := by
  have hp : PairInstr C M .Addx sz op := ⟨hi, hsz, hm, .inl rfl, hxy, h7, _, fun s s1 h => by
    have hx := step_ends C h hi (by decide) rfl
    simp only [Spec.exec] at hx
    rw [sized_some hsz, endsWith_cost] at hx
    exact hx⟩
  obtain ⟨ls, l1, l2, l3, l4, l5⟩ := repeats_chain hp h hn hdn hvn hd hv hdis
  subst l1 l2
  have hlen : ls.length = n := by simpa using hdn
  refine ⟨ls.map Limb.r, by simpa using hlen, l4, ?_, l5⟩
  have := C05_addx_chain l3 (by rintro rfl; cases h <;> simp at hlen)
  rwa [hlen] at this

/-- As `C05_addx_memory`, for the difference computed by `SUBX -(Ay),-(Ax)`. -/
theorem C05_subx_memory {n : Nat} {ds vs : List (Val sz)} (hi : instr op = .Subx) (hsz : opSize op = some sz) (hm : op.toNat / 8 % 2 = 1)
    (hxy : regField op 9 ≠ regField op 0) (h7 : sz = .Byte → regField op 9 ≠ 7 ∧ regField op 0 ≠ 7)
    (h : Repeats C op s n s') (hn : bytes sz * n ≤ 2 ^ 32) (hdn : ds.length = n) (hvn : vs.length = n)
    (hd : LimbsBelow s.mem (areg s.cpu.regs (regField op 9)) ds) (hv : LimbsBelow s.mem (areg s.cpu.regs (regField op 0)) vs)
    (hdis : ∀ b, Below (areg s.cpu.regs (regField op 9)) (bytes sz * n) b → ¬ Below (areg s.cpu.regs (regField op 0)) (bytes sz * n) b) :
    ∃ rs : List (Val sz), rs.length = n ∧ LimbsBelow s'.mem (areg s.cpu.regs (regField op 9)) rs ∧
      WholeDifference (width sz * n) (number ds) (number vs) (extend s.cpu.regs.sr) s.cpu.regs.sr.z (number rs) s'.cpu.regs.sr ∧
      ∀ b, ¬ Below (areg s.cpu.regs (regField op 9)) (bytes sz * n) b → Ram.peek s'.mem b = Ram.peek s.mem b := by
  have hp : PairInstr C M .Subx sz op := ⟨hi, hsz, hm, .inr (.inl rfl), hxy, h7, _, fun s s1 h => by
    have hx := step_ends C h hi (by decide) rfl
    simp only [Spec.exec] at hx
    rw [sized_some hsz, endsWith_cost] at hx
    exact hx⟩
  obtain ⟨ls, l1, l2, l3, l4, l5⟩ := repeats_chain hp h hn hdn hvn hd hv hdis
  subst l1 l2
  have hlen : ls.length = n := by simpa using hdn
  refine ⟨ls.map Limb.r, by simpa using hlen, l4, ?_, l5⟩
  have := C05_subx_chain l3 (by rintro rfl; cases h <;> simp at hlen)
  rwa [hlen] at this

/-- A memory with two executions of `ADDX.W -(A1),-(A0)` and the numbers 0x0001FFFF and 0x00020001 at 4 and 8. -/
def twoWords : St WordSlice := Demo.st [0xD149, 0xD149, 1, 0xFFFF, 2, 1] (Demo.regs [] [8, 12])

/-- The hypotheses of `C05_addx_memory` for the limbs of `twoWords`; the result is 0x00040000. -/
example : ∃ s', Repeats mc68000 0xD149 twoWords 2 s' ∧ LimbsBelow (sz := .Word) twoWords.mem (areg twoWords.cpu.regs 0) [0xFFFF, 1] ∧
    LimbsBelow (sz := .Word) twoWords.mem (areg twoWords.cpu.regs 1) [1, 2] ∧
    (∀ b, Below (areg twoWords.cpu.regs 0) 4 b → ¬ Below (areg twoWords.cpu.regs 1) 4 b) ∧
    LimbsBelow (sz := .Word) s'.mem (areg twoWords.cpu.regs 0) [0, 4] := by
  refine ⟨_, .next ⟨rfl, rfl, by decide, _, rfl, rfl⟩ ⟨_, rfl⟩ rfl rfl rfl rfl rfl (.last ⟨rfl, rfl, by decide, _, rfl, rfl⟩ ⟨_, rfl⟩), ?_, ?_, ?_, ?_⟩
  · refine .cons ?_ (.cons ?_ fun _ h => absurd h (by simp)) <;>
      (intro k hk; match k, hk with | 0, _ => rfl | 1, _ => rfl)
  · refine .cons ?_ (.cons ?_ fun _ h => absurd h (by simp)) <;>
      (intro k hk; match k, hk with | 0, _ => rfl | 1, _ => rfl)
  · rintro b ⟨o, h1, h2, rfl⟩ ⟨p, h3, h4, h5⟩
    have h5 := congrArg BitVec.toNat h5
    rw [show areg twoWords.cpu.regs 0 = 8 from rfl, show areg twoWords.cpu.regs 1 = 12 from rfl] at h5
    simp only [BitVec.toNat_sub, BitVec.toNat_ofNat, show (8 : U32).toNat = 8 from rfl, show (12 : U32).toNat = 12 from rfl] at h5
    omega
  · refine .cons ?_ (.cons ?_ fun _ h => absurd h (by simp)) <;>
      (intro k hk; match k, hk with | 0, _ => rfl | 1, _ => rfl)

end M68k.Props
