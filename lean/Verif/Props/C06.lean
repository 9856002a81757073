import Verif.Lemmas.Decimal
import Verif.Props.DemoRam
/-
C06: packed decimal arithmetic with ABCD, SBCD and NBCD.
-/
namespace M68k.Props
open Spec Exec
set_option linter.unusedSectionVars false
variable {M : Type} [MemoryAccess M] [Ram M] {C : CpuDetails} {s s' s1 s2 : St M} {op : U16} {l : Limb .Byte}

/-- One ABCD of packed decimal bytes, in registers or in memory: the decimal sum of the operands and X, X and C being the decimal carry; Z is
only ever cleared. -/
theorem C06_abcd (h : Combines C .Abcd s s' l) (hd : ValidBcd l.d) (hv : ValidBcd l.v) :
    ValidBcd l.r ∧ fromBcd l.r = (fromBcd l.d + fromBcd l.v + extend s.cpu.regs.sr) % 100 ∧
    DecimalCodes (100 ≤ fromBcd l.d + fromBcd l.v + extend s.cpu.regs.sr) s.cpu.regs.sr.z [l.r] s'.cpu.regs.sr := by
  obtain ⟨op, s1, h, hi, hsz, hc, h1, h2, hr⟩ := h
  have hx := step_ends C h hi (by decide) rfl
  simp only [Spec.exec] at hx
  rw [sized_some hsz, endsWith_cost] at hx
  obtain ⟨e1, e2⟩ := pair_step h hx hc h1 h2 hr
  exact decimalSum_spec hd hv e1 e2

/-- `ABCD D1,D0` with X set: 58 + 41 + 1. -/
example : ∃ s' : St WordSlice, Combines mc68000 .Abcd (Demo.st [0xC101] { Demo.regs [0x58, 0x41] [] with sr := srOf 0x14 }) s'
    (⟨0x58, 0x41, 0⟩ : Limb .Byte) ∧ ValidBcd 0x58 ∧ ValidBcd 0x41 ∧ s'.cpu.regs.sr.z = true ∧ s'.cpu.regs.sr.x = true :=
  ⟨_, ⟨0xC101, _, ⟨rfl, rfl, by decide, _, rfl, rfl⟩, rfl, rfl, ⟨_, rfl⟩, rfl, rfl, rfl⟩, by decide, by decide, rfl, rfl⟩

/-- One SBCD: the decimal difference, X and C being the decimal borrow. -/
theorem C06_sbcd (h : Combines C .Sbcd s s' l) (hd : ValidBcd l.d) (hv : ValidBcd l.v) :
    ValidBcd l.r ∧ (fromBcd l.r : Int) = ((fromBcd l.d : Int) - fromBcd l.v - extend s.cpu.regs.sr) % 100 ∧
    DecimalCodes (fromBcd l.d < fromBcd l.v + extend s.cpu.regs.sr) s.cpu.regs.sr.z [l.r] s'.cpu.regs.sr := by
  obtain ⟨op, s1, h, hi, hsz, hc, h1, h2, hr⟩ := h
  have hx := step_ends C h hi (by decide) rfl
  simp only [Spec.exec] at hx
  rw [sized_some hsz, endsWith_cost] at hx
  obtain ⟨e1, e2⟩ := pair_step h hx hc h1 h2 hr
  exact decimalDifference_spec hd hv e1 e2

/-- `SBCD -(A1),-(A0)` with X set, on the bytes 0x12 and 0x35: 12 - 35 - 1 borrows and gives 76. -/
example : ∃ s' : St WordSlice, Combines mc68000 .Sbcd (Demo.st [0x8109, 0x1200, 0x3500] { Demo.regs [] [3, 5] with sr := srOf 0x14 }) s'
    (⟨0x12, 0x35, 0x76⟩ : Limb .Byte) ∧ ValidBcd 0x12 ∧ ValidBcd 0x35 ∧ s'.cpu.regs.sr.x = true :=
  ⟨_, ⟨0x8109, _, ⟨rfl, rfl, by decide, _, rfl, rfl⟩, rfl, rfl, ⟨_, rfl⟩,
    (by intro k hk; match k, hk with | 0, _ => rfl), (by intro k hk; match k, hk with | 0, _ => rfl),
    (by intro k hk; match k, hk with | 0, _ => rfl)⟩, by decide, by decide, rfl⟩

/-- One NBCD: the decimal difference of 0 and the operand. -/
theorem C06_nbcd {d r : Val .Byte} (h : Negates C .Nbcd s s' (d, r)) (hd : ValidBcd d) :
    ValidBcd r ∧ (fromBcd r : Int) = (0 - (fromBcd d : Int) - extend s.cpu.regs.sr) % 100 ∧
    DecimalCodes (0 < fromBcd d + extend s.cpu.regs.sr) s.cpu.regs.sr.z [r] s'.cpu.regs.sr := by
  obtain ⟨op, s1, s2, p, h, hi, hsz, hc, hv, hr⟩ := h
  have hx := step_ends C h hi (by decide) rfl
  simp only [Spec.exec] at hx
  obtain ⟨m, t, hm, hv⟩ := operand_ok hv
  rw [endsWith_bind_ok hm, endsWith_cost] at hx
  have hsr : t.cpu.regs.sr = s.cpu.regs.sr := by rw [((Keeps.of_fetchEa sameD_rel _ _).ok hm).2, h.sr]
  obtain ⟨e1, e2⟩ := rmw_step hx hc hsr hv hr
  exact decimalDifference_spec (d := 0) (by decide) hd e1 e2

/-- `NBCD D0` on 0x25. -/
example : ∃ s' : St WordSlice, Negates mc68000 .Nbcd (Demo.st [0x4800] (Demo.regs [0x25] [])) s' ((0x25 : Val .Byte), (0x75 : Val .Byte)) ∧
    ValidBcd 0x25 ∧ s'.cpu.regs.sr.c = true :=
  ⟨_, ⟨0x4800, _, _, _, ⟨rfl, rfl, by decide, _, rfl, rfl⟩, rfl, rfl, ⟨_, rfl⟩, rfl, rfl⟩, by decide, rfl⟩

/-- ABCD over all the bytes, least significant first: the decimal sum of the whole numbers and X, X and C being the carry out of it. -/
theorem C06_abcd_chain {sr sr' : StatusRegister} {ls : List (Limb .Byte)} (h : Chain (Combines (M := M) C .Abcd) sr ls sr') (hn : ls ≠ [])
    (hb : ∀ l ∈ ls, ValidBcd l.d ∧ ValidBcd l.v) :
    (∀ l ∈ ls, ValidBcd l.r) ∧
    decimal (ls.map Limb.r) = (decimal (ls.map Limb.d) + decimal (ls.map Limb.v) + extend sr) % 100 ^ ls.length ∧
    DecimalCodes (100 ^ ls.length ≤ decimal (ls.map Limb.d) + decimal (ls.map Limb.v) + extend sr) sr.z (ls.map Limb.r) sr' := by
  induction h with
  | nil => exact absurd rfl hn
  | @cons sr sr' s s' a l hx hz hs hrest ih =>
    obtain ⟨hd, hv⟩ := hb a List.mem_cons_self
    obtain ⟨h1, h2, h3, h4, h5⟩ := C06_abcd hs hd hv
    have he : extend s.cpu.regs.sr = extend sr := by unfold extend; rw [hx]
    rw [he] at h2 h3
    rw [hz] at h5
    cases l with
    | nil =>
      cases hrest
      refine ⟨by simpa using h1, by simpa [decimal] using h2, by simpa [decimal] using h3, h4, h5⟩
    | cons b l =>
      obtain ⟨i1, i2, i3, i4, i5⟩ := ih (List.cons_ne_nil _ _) fun l hl => hb l (List.mem_cons_of_mem _ hl)
      have hc := limb_carry (fromBcd_lt hd) (fromBcd_lt hv) (extend_le sr) rfl h2 h3 h4
      generalize b :: l = t at *
      simp only [List.map_cons, decimal, List.length_cons, Nat.pow_succ']
      obtain ⟨g1, g2⟩ := base_sum (B := 100) (T := fromBcd a.d + 100 * decimal (t.map Limb.d) + (fromBcd a.v + 100 * decimal (t.map Limb.v)) + extend sr)
        (fromBcd_lt h1) i2 (by omega)
      refine ⟨?_, g1, ?_, i4, ?_⟩
      · intro l hl
        rcases List.mem_cons.1 hl with rfl | hl
        · exact h1
        · exact i1 l hl
      · rw [i3, g2]
      · rw [i5, h5]
        simp only [decimal]
        exact ⟨fun ⟨⟨p, q⟩, r⟩ => ⟨p, by omega⟩, fun ⟨p, q⟩ => ⟨⟨p, by omega⟩, by omega⟩⟩

/-- SBCD over all the bytes: the decimal difference of the whole numbers and X, X and C being the borrow. -/
theorem C06_sbcd_chain {sr sr' : StatusRegister} {ls : List (Limb .Byte)} (h : Chain (Combines (M := M) C .Sbcd) sr ls sr') (hn : ls ≠ [])
    (hb : ∀ l ∈ ls, ValidBcd l.d ∧ ValidBcd l.v) :
    (∀ l ∈ ls, ValidBcd l.r) ∧
    (decimal (ls.map Limb.r) : Int) = ((decimal (ls.map Limb.d) : Int) - decimal (ls.map Limb.v) - extend sr) % ((100 ^ ls.length : Nat) : Int) ∧
    DecimalCodes (decimal (ls.map Limb.d) < decimal (ls.map Limb.v) + extend sr) sr.z (ls.map Limb.r) sr' := by
  induction h with
  | nil => exact absurd rfl hn
  | @cons sr sr' s s' a l hx hz hs hrest ih =>
    obtain ⟨hd, hv⟩ := hb a List.mem_cons_self
    obtain ⟨h1, h2, h3, h4, h5⟩ := C06_sbcd hs hd hv
    have he : extend s.cpu.regs.sr = extend sr := by unfold extend; rw [hx]
    rw [he] at h2 h3
    rw [hz] at h5
    cases l with
    | nil =>
      cases hrest
      refine ⟨by simpa using h1, by simpa [decimal] using h2, by simpa [decimal] using h3, h4, h5⟩
    | cons b l =>
      obtain ⟨i1, i2, i3, i4, i5⟩ := ih (List.cons_ne_nil _ _) fun l hl => hb l (List.mem_cons_of_mem _ hl)
      have hc := limb_borrow (fromBcd_lt hd) (fromBcd_lt hv) (extend_le sr) rfl h2 h3 h4
      generalize b :: l = t at *
      simp only [List.map_cons, decimal, List.length_cons, Nat.pow_succ']
      obtain ⟨g1, g2⟩ := base_difference (B := 100) (P := 100 ^ t.length)
        (T := ((fromBcd a.d + 100 * decimal (t.map Limb.d) : Nat) : Int) - ((fromBcd a.v + 100 * decimal (t.map Limb.v) : Nat) : Int) - extend sr)
        (Nat.pow_pos (by omega)) (fromBcd_lt h1) i2 (by omega)
      refine ⟨?_, g1, ?_, i4, ?_⟩
      · intro l hl
        rcases List.mem_cons.1 hl with rfl | hl
        · exact h1
        · exact i1 l hl
      · rw [i3]; omega
      · rw [i5, h5]
        simp only [decimal]
        exact ⟨fun ⟨⟨p, q⟩, r⟩ => ⟨p, by omega⟩, fun ⟨p, q⟩ => ⟨⟨p, by omega⟩, by omega⟩⟩

/-- NBCD over all the bytes: the ten's complement of the whole number (the nine's complement if X was set). -/
theorem C06_nbcd_chain {sr sr' : StatusRegister} {ls : List (Val .Byte × Val .Byte)} (h : Chain (Negates (M := M) C .Nbcd) sr ls sr') (hn : ls ≠ [])
    (hb : ∀ l ∈ ls, ValidBcd l.1) :
    (∀ l ∈ ls, ValidBcd l.2) ∧
    (decimal (ls.map Prod.snd) : Int) = (0 - (decimal (ls.map Prod.fst) : Int) - extend sr) % ((100 ^ ls.length : Nat) : Int) ∧
    DecimalCodes (0 < decimal (ls.map Prod.fst) + extend sr) sr.z (ls.map Prod.snd) sr' := by
  induction h with
  | nil => exact absurd rfl hn
  | @cons sr sr' s s' a l hx hz hs hrest ih =>
    have hv := hb a List.mem_cons_self
    obtain ⟨h1, h2, h3, h4, h5⟩ := C06_nbcd (d := a.1) (r := a.2) hs hv
    have he : extend s.cpu.regs.sr = extend sr := by unfold extend; rw [hx]
    rw [he] at h2 h3
    rw [hz] at h5
    cases l with
    | nil =>
      cases hrest
      refine ⟨by simpa using h1, by simpa [decimal] using h2, by simpa [decimal] using h3, h4, h5⟩
    | cons b l =>
      obtain ⟨i1, i2, i3, i4, i5⟩ := ih (List.cons_ne_nil _ _) fun l hl => hb l (List.mem_cons_of_mem _ hl)
      have hc := limb_borrow (P := 100) (d0 := 0) (by omega) (fromBcd_lt hv) (extend_le sr) rfl h2 h3 h4
      generalize b :: l = t at *
      simp only [List.map_cons, decimal, List.length_cons, Nat.pow_succ']
      obtain ⟨g1, g2⟩ := base_difference (B := 100) (P := 100 ^ t.length)
        (T := 0 - ((fromBcd a.1 + 100 * decimal (t.map Prod.fst) : Nat) : Int) - extend sr)
        (Nat.pow_pos (by omega)) (fromBcd_lt h1) i2 (by omega)
      refine ⟨?_, g1, ?_, i4, ?_⟩
      · intro l hl
        rcases List.mem_cons.1 hl with rfl | hl
        · exact h1
        · exact i1 l hl
      · rw [i3]; omega
      · rw [i5, h5]
        simp only [decimal]
        exact ⟨fun ⟨⟨p, q⟩, r⟩ => ⟨p, by omega⟩, fun ⟨p, q⟩ => ⟨⟨p, by omega⟩, by omega⟩⟩

/-- 0158 + 0342 by two ABCD. -/
example : ∃ sr', Chain (Combines (M := WordSlice) mc68000 .Abcd) (srOf 4) [(⟨0x58, 0x42, 0⟩ : Limb .Byte), ⟨1, 3, 5⟩] sr' ∧
    (∀ l ∈ [(⟨0x58, 0x42, 0⟩ : Limb .Byte), ⟨1, 3, 5⟩], ValidBcd l.d ∧ ValidBcd l.v) := by
  refine ⟨_, .cons (s := Demo.st [0xC102, 0xC303] { Demo.regs [0x58, 1, 0x42, 3] [] with sr := srOf 4 }) rfl rfl
    ⟨0xC102, _, ⟨rfl, rfl, by decide, _, rfl, rfl⟩, rfl, rfl, ⟨_, rfl⟩, rfl, rfl, rfl⟩
    (.cons rfl rfl ⟨0xC303, _, ⟨rfl, rfl, by decide, _, rfl, rfl⟩, rfl, rfl, ⟨_, rfl⟩, rfl, rfl, rfl⟩ .nil), ?_⟩
  intro l hl
  simp only [List.mem_cons, List.not_mem_nil, or_false] at hl
  rcases hl with rfl | rfl <;> exact ⟨by decide, by decide⟩

/-- Two packed decimal numbers of `n` bytes in disjoint parts of the memory, below the addresses in Ax and Ay: `n` executions of
`ABCD -(Ay),-(Ax)` replace the first by the decimal sum and change nothing else in memory. -/
theorem C06_abcd_memory {n : Nat} {ds vs : List (BitVec 8)} (hi : instr op = .Abcd) (hsz : opSize op = some .Byte) (hm : op.toNat / 8 % 2 = 1)
    (hxy : regField op 9 ≠ regField op 0) (h7 : regField op 9 ≠ 7 ∧ regField op 0 ≠ 7)
    (h : Repeats C op s n s') (hn : n ≤ 2 ^ 32) (hdn : ds.length = n) (hvn : vs.length = n)
    (hd : LimbsBelow (sz := .Byte) s.mem (areg s.cpu.regs (regField op 9)) ds) (hv : LimbsBelow (sz := .Byte) s.mem (areg s.cpu.regs (regField op 0)) vs)
    (hdis : ∀ b, Below (areg s.cpu.regs (regField op 9)) n b → ¬ Below (areg s.cpu.regs (regField op 0)) n b)
    (hdv : ∀ b ∈ ds, ValidBcd b) (hvv : ∀ b ∈ vs, ValidBcd b) :
    ∃ rs : List (BitVec 8), rs.length = n ∧ LimbsBelow (sz := .Byte) s'.mem (areg s.cpu.regs (regField op 9)) rs ∧ (∀ b ∈ rs, ValidBcd b) ∧
      decimal rs = (decimal ds + decimal vs + extend s.cpu.regs.sr) % 100 ^ n ∧
      DecimalCodes (100 ^ n ≤ decimal ds + decimal vs + extend s.cpu.regs.sr) s.cpu.regs.sr.z rs s'.cpu.regs.sr ∧
      ∀ b, ¬ Below (areg s.cpu.regs (regField op 9)) n b → Ram.peek s'.mem b = Ram.peek s.mem b := by
  have hp : PairInstr C M .Abcd .Byte op := ⟨hi, hsz, hm, .inr (.inr ⟨.inl rfl, rfl⟩), hxy, fun _ => h7, _, fun s s1 h => by
    have hx := step_ends C h hi (by decide) rfl
    simp only [Spec.exec] at hx
    rw [sized_some hsz, endsWith_cost] at hx
    exact hx⟩
  have e : bytes .Byte * n = n := by simp [bytes]
  obtain ⟨ls, l1, l2, l3, l4, l5⟩ := repeats_chain hp h (by rw [e]; exact hn) hdn hvn hd hv (by rw [e]; exact hdis)
  rw [e] at l5
  subst l1 l2
  have hlen : ls.length = n := by simpa using hdn
  obtain ⟨c1, c2, c3⟩ := C06_abcd_chain l3 (by rintro rfl; cases h <;> simp at hlen)
    fun l hl => ⟨hdv _ (List.mem_map_of_mem hl), hvv _ (List.mem_map_of_mem hl)⟩
  rw [hlen] at c2 c3
  refine ⟨ls.map Limb.r, by simpa using hlen, l4, ?_, c2, c3, l5⟩
  intro b hb
  obtain ⟨l, hl, rfl⟩ := List.mem_map.1 hb
  exact c1 l hl

/-- As `C06_abcd_memory`, for the difference computed by `SBCD -(Ay),-(Ax)`. -/
theorem C06_sbcd_memory {n : Nat} {ds vs : List (BitVec 8)} (hi : instr op = .Sbcd) (hsz : opSize op = some .Byte) (hm : op.toNat / 8 % 2 = 1)
    (hxy : regField op 9 ≠ regField op 0) (h7 : regField op 9 ≠ 7 ∧ regField op 0 ≠ 7)
    (h : Repeats C op s n s') (hn : n ≤ 2 ^ 32) (hdn : ds.length = n) (hvn : vs.length = n)
    (hd : LimbsBelow (sz := .Byte) s.mem (areg s.cpu.regs (regField op 9)) ds) (hv : LimbsBelow (sz := .Byte) s.mem (areg s.cpu.regs (regField op 0)) vs)
    (hdis : ∀ b, Below (areg s.cpu.regs (regField op 9)) n b → ¬ Below (areg s.cpu.regs (regField op 0)) n b)
    (hdv : ∀ b ∈ ds, ValidBcd b) (hvv : ∀ b ∈ vs, ValidBcd b) :
    ∃ rs : List (BitVec 8), rs.length = n ∧ LimbsBelow (sz := .Byte) s'.mem (areg s.cpu.regs (regField op 9)) rs ∧ (∀ b ∈ rs, ValidBcd b) ∧
      (decimal rs : Int) = ((decimal ds : Int) - decimal vs - extend s.cpu.regs.sr) % ((100 ^ n : Nat) : Int) ∧
      DecimalCodes (decimal ds < decimal vs + extend s.cpu.regs.sr) s.cpu.regs.sr.z rs s'.cpu.regs.sr ∧
      ∀ b, ¬ Below (areg s.cpu.regs (regField op 9)) n b → Ram.peek s'.mem b = Ram.peek s.mem b := by
  have hp : PairInstr C M .Sbcd .Byte op := ⟨hi, hsz, hm, .inr (.inr ⟨.inr rfl, rfl⟩), hxy, fun _ => h7, _, fun s s1 h => by
    have hx := step_ends C h hi (by decide) rfl
    simp only [Spec.exec] at hx
    rw [sized_some hsz, endsWith_cost] at hx
    exact hx⟩
  have e : bytes .Byte * n = n := by simp [bytes]
  obtain ⟨ls, l1, l2, l3, l4, l5⟩ := repeats_chain hp h (by rw [e]; exact hn) hdn hvn hd hv (by rw [e]; exact hdis)
  rw [e] at l5
  subst l1 l2
  have hlen : ls.length = n := by simpa using hdn
  obtain ⟨c1, c2, c3⟩ := C06_sbcd_chain l3 (by rintro rfl; cases h <;> simp at hlen)
    fun l hl => ⟨hdv _ (List.mem_map_of_mem hl), hvv _ (List.mem_map_of_mem hl)⟩
  rw [hlen] at c2
  refine ⟨ls.map Limb.r, by simpa using hlen, l4, ?_, c2, c3, l5⟩
  intro b hb
  obtain ⟨l, hl, rfl⟩ := List.mem_map.1 hb
  exact c1 l hl

/-- A memory with two executions of `ABCD -(A1),-(A0)` and the decimal numbers 0158 and 0342 at 4 and 6. -/
def twoDecimals : St WordSlice := Demo.st [0xC109, 0xC109, 0x0158, 0x0342] (Demo.regs [] [6, 8])

/-- The hypotheses of `C06_abcd_memory` for `twoDecimals`; the result is 0500. -/
example : ∃ s', Repeats mc68000 0xC109 twoDecimals 2 s' ∧ LimbsBelow (sz := .Byte) twoDecimals.mem (areg twoDecimals.cpu.regs 0) [0x58, 1] ∧
    LimbsBelow (sz := .Byte) twoDecimals.mem (areg twoDecimals.cpu.regs 1) [0x42, 3] ∧
    (∀ b, Below (areg twoDecimals.cpu.regs 0) 2 b → ¬ Below (areg twoDecimals.cpu.regs 1) 2 b) ∧
    LimbsBelow (sz := .Byte) s'.mem (areg twoDecimals.cpu.regs 0) [0, 5] := by
  refine ⟨_, .next ⟨rfl, rfl, by decide, _, rfl, rfl⟩ ⟨_, rfl⟩ rfl rfl rfl rfl rfl (.last ⟨rfl, rfl, by decide, _, rfl, rfl⟩ ⟨_, rfl⟩), ?_, ?_, ?_, ?_⟩
  · refine .cons ?_ (.cons ?_ fun _ h => absurd h (by simp)) <;>
      (intro k hk; match k, hk with | 0, _ => rfl)
  · refine .cons ?_ (.cons ?_ fun _ h => absurd h (by simp)) <;>
      (intro k hk; match k, hk with | 0, _ => rfl)
  · rintro b ⟨o, h1, h2, rfl⟩ ⟨p, h3, h4, h5⟩
    have h5 := congrArg BitVec.toNat h5
    rw [show areg twoDecimals.cpu.regs 0 = 6 from rfl, show areg twoDecimals.cpu.regs 1 = 8 from rfl] at h5
    simp only [BitVec.toNat_sub, BitVec.toNat_ofNat, show (6 : U32).toNat = 6 from rfl, show (8 : U32).toNat = 8 from rfl] at h5
    omega
  · refine .cons ?_ (.cons ?_ fun _ h => absurd h (by simp)) <;>
      (intro k hk; match k, hk with | 0, _ => rfl)

end M68k.Props
