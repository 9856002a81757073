import Verif.Spec.Programs
import Verif.Lemmas.Stack
import Verif.Lemmas.MovemRam
import Verif.Lemmas.EndsShift
/-
Lemmas for C83: the lines of the programs of `Verif.Spec.Programs`.
-/
namespace M68k.Exec
open Spec
set_option linter.unusedSectionVars false
variable {M : Type} [MemoryAccess M] [Ram M] {C : CpuDetails} {s s' s1 s2 : St M} {p : List Source} {a : U32}

theorem executes_trans {n k n' k' : Nat} (h : Executes C p a n k s s1) (h' : Executes C p a n' k' s1 s2) : Executes C p a (n + n') (k + k') s s2 := by
  induction h with
  | done s => rw [Nat.zero_add, Nat.zero_add]; exact h'
  | @line n c k l ws s t u hat hb ht he _ ih => rw [Nat.add_right_comm, Nat.add_assoc c k]; exact .line hat hb ht he (ih h')

/-- One line, given by what is before and after it in the program. -/
theorem one_line {k : Nat} {l : Source} {ws ws0 : List U16} (before after : List Source) (h : Loaded p a k s) (hp : p = before ++ l :: after) (h0 : Source.program before = some ws0)
    (hk : k = ws0.length) (hw : l.assemble = some ws) (hb : ∀ b v, l ≠ .btstStatic b (.imm v)) (he : ∃ c, l.effect C s.cpu.regs.pc (afterWords s ws) = .ok c s1) : ∃ c, Executes C p a 1 c s s1 :=
  he.elim fun _ he => ⟨_, .line ⟨h.held, h.even, h.running, h.idle, hw, before, after, ws0, hp, h0, by rw [h.here, hk]⟩ hb h.untraced he (.done _)⟩

/-- A state with other registers and another opcode. -/
def withOp (s : St M) (op : U16) (r : Registers) : St M := { s with cpu := { s.cpu with currentOpcode := op, regs := r } }

theorem loaded_withOp {k j : Nat} {op : U16} {r : Registers} (h : Loaded p a k s) (ht : r.sr.t = s.cpu.regs.sr.t) (hp : r.pc = at_ a (2 * j)) : Loaded p a j (withOp s op r) :=
  ⟨h.held, h.even, h.running, h.idle, ht.trans h.untraced, hp⟩

/-! ### The lines of the program -/

theorem gcd_tst (h : Loaded gcdProgram a 0 s) : ∃ c, Executes C gcdProgram a 1 c s
    (withOp s 0x4A41 { s.cpu.regs with pc := at_ a 2, sr := logicFlags (low .Word (s.cpu.regs.d 1)) s.cpu.regs.sr }) := by
  refine one_line [] _ h rfl rfl rfl rfl (fun _ _ h => nomatch h) ?_
  rw [show at_ a 2 = at_ s.cpu.regs.pc 2 by rw [h.here, at_add]]
  exact ⟨_, rfl⟩

theorem gcd_beq (h : Loaded gcdProgram a 1 s) : ∃ c, Executes C gcdProgram a 1 c s
    (withOp s 0x670A { s.cpu.regs with pc := if s.cpu.regs.sr.z then at_ a 14 else at_ a 4 }) := by
  refine one_line [.tst .Word (.dn 1)] _ h rfl rfl rfl rfl (fun _ _ h => nomatch h) ?_
  have e : at_ a 14 = s.cpu.regs.pc + 2 + signExt (10 : U16) := by
    rw [h.here]; apply BitVec.eq_of_toNat_eq; simp [at_, signExt, BitVec.toNat_add]
  have e' : at_ a 4 = at_ s.cpu.regs.pc 2 := by rw [h.here, at_add]
  rw [e, e']
  obtain ⟨⟨r, op, st, ex⟩, m⟩ := s
  obtain ⟨d, aa, usp, ssp, sr, pc⟩ := r
  obtain ⟨t, sv, im, x, n, z, v, c⟩ := sr
  cases z <;> exact ⟨_, rfl⟩

theorem divu_d1 {t : St M} (h0 : (t.cpu.regs.d 0).toNat < 65536) (h1 : (t.cpu.regs.d 1).toNat < 65536) (hne : (t.cpu.regs.d 1).toNat ≠ 0) :
    ∃ sr, Spec.divu 0 (.dn 1) t = .ok () { t with cpu := { t.cpu with regs :=
      { setDreg t.cpu.regs 0 (packWords ((t.cpu.regs.d 0).toNat % (t.cpu.regs.d 1).toNat : Nat) ((t.cpu.regs.d 0).toNat / (t.cpu.regs.d 1).toNat : Nat)) with sr := sr } } } ∧
      logicFlags (0 : U16) sr = logicFlags (0 : U16) t.cpu.regs.sr := by
  have hl : (low .Word (t.cpu.regs.d 1)).toNat = (t.cpu.regs.d 1).toNat := Nat.mod_eq_of_lt h1
  have hq : (t.cpu.regs.d 0).toNat / (t.cpu.regs.d 1).toNat < 65536 := Nat.lt_of_le_of_lt (Nat.div_le_self _ _) h0
  refine ⟨{ t.cpu.regs.sr with c := false, n := decide (32768 ≤ (t.cpu.regs.d 0).toNat / (t.cpu.regs.d 1).toNat), z := decide ((t.cpu.regs.d 0).toNat / (t.cpu.regs.d 1).toNat = 0), v := false }, ?_, rfl⟩
  have e1 : (setFlags fun sr => { sr with c := false } : Exec M Unit) t = .ok () { t with cpu := { t.cpu with regs := { t.cpu.regs with sr := { t.cpu.regs.sr with c := false } } } } := rfl
  have e2 : (read .Word (.dn 1) : Exec M _) { t with cpu := { t.cpu with regs := { t.cpu.regs with sr := { t.cpu.regs.sr with c := false } } } } =
    .ok (.dreg 1, low .Word (t.cpu.regs.d 1)) { t with cpu := { t.cpu with regs := { t.cpu.regs with sr := { t.cpu.regs.sr with c := false } } } } := rfl
  simp only [Spec.divu]
  rw [bind_eq e1, bind_eq e2]
  simp only [hl, if_neg hne]
  simp only [bind, Exec.bind, getR, if_pos hq, modR, setFlags]
  rfl

theorem gcd_divu (h : Loaded gcdProgram a 2 s) (h0 : (s.cpu.regs.d 0).toNat < 65536) (h1 : (s.cpu.regs.d 1).toNat < 65536) (hne : (s.cpu.regs.d 1).toNat ≠ 0) :
    ∃ c sr, Executes C gcdProgram a 1 c s (withOp s 0x80C1 { setDreg s.cpu.regs 0 (packWords ((s.cpu.regs.d 0).toNat % (s.cpu.regs.d 1).toNat : Nat) ((s.cpu.regs.d 0).toNat / (s.cpu.regs.d 1).toNat : Nat)) with
      pc := at_ a 6, sr := sr }) ∧ logicFlags (0 : U16) sr = logicFlags (0 : U16) s.cpu.regs.sr := by
  obtain ⟨sr, hd, hsr⟩ := divu_d1 (t := afterWords s [0x80C1]) h0 h1 hne
  refine (one_line [.tst .Word (.dn 1), .bcc .EQ 10] _ h rfl rfl rfl rfl (fun _ _ h => nomatch h) ?_).elim fun c hc => ⟨c, sr, hc, hsr⟩
  rw [show at_ a 6 = at_ s.cpu.regs.pc 2 by rw [h.here, at_add]]
  exact ⟨_, bind_eq hd⟩

theorem gcd_clr (h : Loaded gcdProgram a 3 s) : ∃ c, Executes C gcdProgram a 1 c s
    (withOp s 0x4240 { setDreg s.cpu.regs 0 (insertLow .Word (s.cpu.regs.d 0) 0) with pc := at_ a 8, sr := logicFlags (0 : U16) s.cpu.regs.sr }) := by
  refine one_line [.tst .Word (.dn 1), .bcc .EQ 10, .divu 0 (.dn 1)] _ h rfl rfl rfl rfl (fun _ _ h => nomatch h) ?_
  rw [show at_ a 8 = at_ s.cpu.regs.pc 2 by rw [h.here, at_add]]
  exact ⟨_, rfl⟩

theorem gcd_swap (h : Loaded gcdProgram a 4 s) : ∃ c w, Executes C gcdProgram a 1 c s
    (withOp s 0x4840 { setDreg s.cpu.regs 0 (BitVec.ofNat 32 ((s.cpu.regs.d 0).toNat % 65536 * 65536 + (s.cpu.regs.d 0).toNat / 65536)) with
      pc := at_ a 10, sr := logicFlags (w : U32) s.cpu.regs.sr }) := by
  refine (one_line [.tst .Word (.dn 1), .bcc .EQ 10, .divu 0 (.dn 1), .clr .Word (.dn 0)] (s1 := withOp s 0x4840 { setDreg s.cpu.regs 0 (BitVec.ofNat 32 ((s.cpu.regs.d 0).toNat % 65536 * 65536 + (s.cpu.regs.d 0).toNat / 65536)) with
      pc := at_ a 10, sr := logicFlags (BitVec.ofNat 32 ((s.cpu.regs.d 0).toNat % 65536 * 65536 + (s.cpu.regs.d 0).toNat / 65536)) s.cpu.regs.sr }) _ h rfl rfl rfl rfl (fun _ _ h => nomatch h) ?_).elim fun c hc => ⟨c, _, hc⟩
  rw [show at_ a 10 = at_ s.cpu.regs.pc 2 by rw [h.here, at_add]]
  exact ⟨_, rfl⟩

theorem gcd_exg (h : Loaded gcdProgram a 5 s) : ∃ c, Executes C gcdProgram a 1 c s
    (withOp s 0xC141 { setDreg (setDreg s.cpu.regs 0 (s.cpu.regs.d 1)) 1 (s.cpu.regs.d 0) with pc := at_ a 12 }) := by
  refine one_line [.tst .Word (.dn 1), .bcc .EQ 10, .divu 0 (.dn 1), .clr .Word (.dn 0), .swap 0] _ h rfl rfl rfl rfl (fun _ _ h => nomatch h) ?_
  rw [show at_ a 12 = at_ s.cpu.regs.pc 2 by rw [h.here, at_add]]
  exact ⟨_, rfl⟩

theorem back_14 (a : U32) : at_ a 0 = at_ a (2 * 6) + 2 + 0xFFFFFFF2 := by
  have e : (0 : U32) = BitVec.ofNat 32 (2 * 6) + (2 + 0xFFFFFFF2) := by decide +kernel
  show a + 0 = a + BitVec.ofNat 32 (2 * 6) + 2 + 0xFFFFFFF2
  rw [BitVec.add_assoc, BitVec.add_assoc, ← e]

theorem gcd_bra (h : Loaded gcdProgram a 6 s) : ∃ c, Executes C gcdProgram a 1 c s (withOp s 0x60F2 { s.cpu.regs with pc := at_ a 0 }) := by
  refine one_line [.tst .Word (.dn 1), .bcc .EQ 10, .divu 0 (.dn 1), .clr .Word (.dn 0), .swap 0, .exg .ExchangeData 0 1] _ h rfl rfl rfl (ws := [0x60F2]) (by decide +kernel) (fun _ _ h => nomatch h) ?_
  have e : at_ a 0 = s.cpu.regs.pc + 2 + signExt (0xFFF2 : U16) := by
    have e1 : signExt (0xFFF2 : U16) = 0xFFFFFFF2 := by decide +kernel
    rw [h.here, e1]; exact back_14 a
  refine ⟨C.BRA_BYTE, ?_⟩
  have hs : IsShort (0xFFF2 : U16) := by decide +kernel
  simp only [Source.effect, if_pos hs, ← e]
  rfl

theorem packWords_toNat {r q : Nat} (hr : r < 65536) (hq : q < 65536) : (packWords (r : Nat) (q : Nat)).toNat = r * 65536 + q := by
  have e : ((r : Int) % 65536 * 65536 + (q : Int) % 65536) = ((r * 65536 + q : Nat) : Int) := by omega
  simp only [packWords]
  rw [e, BitVec.ofInt_natCast, BitVec.toNat_ofNat]
  omega

theorem insertLow_zero (v : U32) : (insertLow .Word v 0).toNat = v.toNat / 65536 * 65536 := by
  have := v.isLt
  have e : (0 : Val .Word).toNat = 0 := rfl
  simp only [insertLow, width, BitVec.toNat_ofNat, e]
  omega

/-- The remainder is left in D0 by the division, the clearing of the low word and the swap. -/
theorem rest_of_division {r q : Nat} (hr : r < 65536) (hq : q < 65536) :
    BitVec.ofNat 32 ((insertLow .Word (packWords (r : Nat) (q : Nat)) 0).toNat % 65536 * 65536 + (insertLow .Word (packWords (r : Nat) (q : Nat)) 0).toNat / 65536) = BitVec.ofNat 32 r := by
  rw [insertLow_zero, packWords_toNat hr hq]
  congr 1
  omega

theorem zero_low {v : U32} (h : v.toNat < 65536) : zero (low .Word v) = decide (v.toNat = 0) := by
  have e : (low .Word v).toNat = v.toNat := Nat.mod_eq_of_lt h
  simp only [zero, e]

/-- One turn of the loop, for a divisor that is not zero. -/
theorem gcd_turn (h : Loaded gcdProgram a 0 s) (h0 : (s.cpu.regs.d 0).toNat < 65536) (h1 : (s.cpu.regs.d 1).toNat < 65536) (hne : (s.cpu.regs.d 1).toNat ≠ 0) :
    ∃ k sr, Executes C gcdProgram a 7 k s (withOp s 0x60F2 { setDreg (setDreg s.cpu.regs 0 (s.cpu.regs.d 1)) 1 (BitVec.ofNat 32 ((s.cpu.regs.d 0).toNat % (s.cpu.regs.d 1).toNat)) with
      pc := at_ a 0, sr := sr }) ∧ logicFlags (0 : U16) sr = logicFlags (0 : U16) s.cpu.regs.sr := by
  have hr : (s.cpu.regs.d 0).toNat % (s.cpu.regs.d 1).toNat < 65536 := Nat.lt_trans (Nat.mod_lt _ (Nat.pos_of_ne_zero hne)) h1
  have hq : (s.cpu.regs.d 0).toNat / (s.cpu.regs.d 1).toNat < 65536 := Nat.lt_of_le_of_lt (Nat.div_le_self _ _) h0
  obtain ⟨c1, e1⟩ := gcd_tst (C := C) h
  have g1 := loaded_withOp (op := 0x4A41) (r := { s.cpu.regs with pc := at_ a 2, sr := logicFlags (low .Word (s.cpu.regs.d 1)) s.cpu.regs.sr }) (j := 1) h rfl rfl
  obtain ⟨c2, e2⟩ := gcd_beq (C := C) g1
  have hz : (if zero (low .Word (s.cpu.regs.d 1)) = true then at_ a 14 else at_ a 4) = at_ a 4 := by
    rw [zero_low h1, decide_eq_false hne]; rfl
  replace e2 := executes_trans e1 e2
  generalize hs2 : withOp s 0x670A { s.cpu.regs with pc := at_ a 4, sr := logicFlags (low .Word (s.cpu.regs.d 1)) s.cpu.regs.sr } = s2
  replace e2 : Executes C gcdProgram a 2 (c1 + c2) s s2 := by
    rw [← hs2, ← hz]; exact e2
  have g2 : Loaded gcdProgram a 2 s2 := hs2 ▸ loaded_withOp h rfl rfl
  have d2 : s2.cpu.regs.d = s.cpu.regs.d := by rw [← hs2]; rfl
  obtain ⟨c3, sr, e3, hsr⟩ := gcd_divu (C := C) g2 (by rw [d2]; exact h0) (by rw [d2]; exact h1) (by rw [d2]; exact hne)
  rw [d2] at e3
  generalize hs3 : withOp s 0x80C1 { setDreg s.cpu.regs 0 (packWords ((s.cpu.regs.d 0).toNat % (s.cpu.regs.d 1).toNat : Nat) ((s.cpu.regs.d 0).toNat / (s.cpu.regs.d 1).toNat : Nat)) with pc := at_ a 6, sr := sr } = s3
  replace e3 : Executes C gcdProgram a 1 c3 s2 s3 := by
    rw [← hs3]; rw [← hs2] at e3 ⊢; exact e3
  have hsr : logicFlags (0 : U16) sr = logicFlags (0 : U16) s.cpu.regs.sr := by rw [hsr, ← hs2]; rfl
  have ht : sr.t = s.cpu.regs.sr.t := congrArg (·.t) hsr
  have g3 : Loaded gcdProgram a 3 s3 := hs3 ▸ loaded_withOp h ht rfl
  obtain ⟨c4, e4⟩ := gcd_clr (C := C) g3
  generalize hs4 : withOp s3 0x4240 { setDreg s3.cpu.regs 0 (insertLow .Word (s3.cpu.regs.d 0) 0) with pc := at_ a 8, sr := logicFlags (0 : U16) s3.cpu.regs.sr } = s4 at e4
  have g4 : Loaded gcdProgram a 4 s4 := hs4 ▸ loaded_withOp g3 rfl rfl
  obtain ⟨c5, w, e5⟩ := gcd_swap (C := C) g4
  have hd : BitVec.ofNat 32 ((s4.cpu.regs.d 0).toNat % 65536 * 65536 + (s4.cpu.regs.d 0).toNat / 65536) = BitVec.ofNat 32 ((s.cpu.regs.d 0).toNat % (s.cpu.regs.d 1).toNat) := by
    have e : s4.cpu.regs.d 0 = insertLow .Word (packWords ((s.cpu.regs.d 0).toNat % (s.cpu.regs.d 1).toNat : Nat) ((s.cpu.regs.d 0).toNat / (s.cpu.regs.d 1).toNat : Nat)) 0 := by
      rw [← hs4, ← hs3]; rfl
    rw [e]; exact rest_of_division hr hq
  rw [hd] at e5
  generalize BitVec.ofNat 32 ((s.cpu.regs.d 0).toNat % (s.cpu.regs.d 1).toNat) = rest at e5 ⊢
  generalize hs5 : withOp s4 0x4840 { setDreg s4.cpu.regs 0 rest with pc := at_ a 10, sr := logicFlags w s4.cpu.regs.sr } = s5 at e5
  have g5 : Loaded gcdProgram a 5 s5 := hs5 ▸ loaded_withOp g4 rfl rfl
  obtain ⟨c6, e6⟩ := gcd_exg (C := C) g5
  generalize hs6 : withOp s5 0xC141 { setDreg (setDreg s5.cpu.regs 0 (s5.cpu.regs.d 1)) 1 (s5.cpu.regs.d 0) with pc := at_ a 12 } = s6 at e6
  have g6 : Loaded gcdProgram a 6 s6 := hs6 ▸ loaded_withOp g5 rfl rfl
  obtain ⟨c7, e7⟩ := gcd_bra (C := C) g6
  have e := executes_trans (executes_trans (executes_trans (executes_trans (executes_trans e2 e3) e4) e5) e6) e7
  refine ⟨c1 + c2 + c3 + c4 + c5 + c6 + c7, logicFlags w (logicFlags (0 : U16) s.cpu.regs.sr), ?_, rfl⟩
  refine cast (congrArg _ ?_) e
  rw [← hsr, ← hs6, ← hs5, ← hs4, ← hs3]
  simp only [withOp]
  congr 3
  funext i
  simp only [setDreg]
  by_cases i1 : i = 1
  · simp [i1]
  · by_cases i0 : i = 0 <;> simp [i0, i1]

/-- The last two lines executed, when D1 is zero. -/
theorem gcd_last (h : Loaded gcdProgram a 0 s) (h1 : s.cpu.regs.d 1 = 0) :
    ∃ k, Executes C gcdProgram a 2 k s (withOp s 0x670A { s.cpu.regs with pc := at_ a 14, sr := logicFlags (0 : U16) s.cpu.regs.sr }) := by
  obtain ⟨c1, e1⟩ := gcd_tst (C := C) h
  rw [h1, show low .Word 0 = (0 : U16) from rfl] at e1
  have g1 := loaded_withOp (op := 0x4A41) (r := { s.cpu.regs with pc := at_ a 2, sr := logicFlags (0 : U16) s.cpu.regs.sr }) (j := 1) h rfl rfl
  obtain ⟨c2, e2⟩ := gcd_beq (C := C) g1
  exact ⟨_, executes_trans e1 e2⟩

theorem gcd_executes (n : Nat) : ∀ (s : St M), Loaded gcdProgram a 0 s → (s.cpu.regs.d 0).toNat < 65536 → (s.cpu.regs.d 1).toNat < 65536 → (s.cpu.regs.d 1).toNat ≤ n →
    ∃ m k, m ≤ 7 * (s.cpu.regs.d 1).toNat + 2 ∧ Executes C gcdProgram a m k s (withOp s 0x670A
      { setDreg (setDreg s.cpu.regs 0 (BitVec.ofNat 32 (Nat.gcd (s.cpu.regs.d 0).toNat (s.cpu.regs.d 1).toNat))) 1 0 with pc := at_ a 14, sr := logicFlags (0 : U16) s.cpu.regs.sr }) := by
  induction n with
  | zero =>
    intro s h h0 _ hn
    have h1 : s.cpu.regs.d 1 = 0 := BitVec.eq_of_toNat_eq (Nat.eq_zero_of_le_zero hn)
    obtain ⟨k, e⟩ := gcd_last (C := C) h h1
    refine ⟨2, k, Nat.le_add_left _ _, cast (congrArg _ ?_) e⟩
    simp only [withOp]
    congr 3
    funext i
    simp only [setDreg, h1]
    by_cases i1 : i = 1
    · simp [i1, h1]
    · by_cases i0 : i = 0 <;> simp [i0, i1]
  | succ n ih =>
    intro s h h0 h1 hn
    by_cases hne : (s.cpu.regs.d 1).toNat = 0
    · obtain ⟨m, k, hm, e⟩ := ih s h h0 h1 (by omega)
      exact ⟨m, k, hm, e⟩
    · obtain ⟨k, sr, e, hsr⟩ := gcd_turn (C := C) h h0 h1 hne
      have hr : (s.cpu.regs.d 0).toNat % (s.cpu.regs.d 1).toNat < (s.cpu.regs.d 1).toNat := Nat.mod_lt _ (Nat.pos_of_ne_zero hne)
      have hrr : (BitVec.ofNat 32 ((s.cpu.regs.d 0).toNat % (s.cpu.regs.d 1).toNat)).toNat = (s.cpu.regs.d 0).toNat % (s.cpu.regs.d 1).toNat := by
        rw [BitVec.toNat_ofNat]; exact Nat.mod_eq_of_lt (by omega)
      generalize hw : BitVec.ofNat 32 ((s.cpu.regs.d 0).toNat % (s.cpu.regs.d 1).toNat) = w at e hrr
      generalize ht : withOp s 0x60F2 { setDreg (setDreg s.cpu.regs 0 (s.cpu.regs.d 1)) 1 w with pc := at_ a 0, sr := sr } = t at e
      have t0 : t.cpu.regs.d 0 = s.cpu.regs.d 1 := by rw [← ht]; rfl
      have t1 : t.cpu.regs.d 1 = w := by rw [← ht]; rfl
      have g : Loaded gcdProgram a 0 t := ht ▸ loaded_withOp h (congrArg (·.t) hsr) rfl
      obtain ⟨m, k', hm, e'⟩ := ih t g (by rw [t0]; exact h1) (by rw [t1]; omega) (by rw [t1]; omega)
      rw [t0, t1, hrr] at e'
      rw [t1] at hm
      refine ⟨7 + m, k + k', by omega, cast (congrArg _ ?_) (executes_trans e e')⟩
      have hg : Nat.gcd (s.cpu.regs.d 0).toNat (s.cpu.regs.d 1).toNat = Nat.gcd (s.cpu.regs.d 1).toNat ((s.cpu.regs.d 0).toNat % (s.cpu.regs.d 1).toNat) := by
        rw [Nat.gcd_comm, Nat.gcd_rec, Nat.gcd_comm]
      rw [hg, ← ht, ← hsr]
      generalize Nat.gcd _ _ = q
      simp only [withOp]
      congr 3
      funext i
      simp only [setDreg]
      by_cases i1 : i = 1
      · simp [i1]
      · by_cases i0 : i = 0 <;> simp [i0, i1]

/-! ### The block copy -/

/-- A program in memory is still there after a write elsewhere. -/
theorem holdsWords_sameExcept {m m' : M} {ws : List U16} {d : U32} {n : Nat} (h : HoldsWords m a ws) (hs : SameExcept m m' d n) (hd : ∀ i < n, ∀ j < 2 * ws.length, at_ d i ≠ at_ a j) : HoldsWords m' a ws := by
  intro k hk j hj
  rw [hs]
  · exact h k hk j hj
  · intro i hi
    rw [at_add]
    exact (hd i hi _ (by have : bytes .Word = 2 := rfl; omega)).symm

theorem copy_words : Source.program copyProgram = some [0x12D8, 0x51C8, 0xFFFC] := by decide +kernel

theorem copy_move [Writable M] {b : U8} (h : Loaded copyProgram a 0 s) (hb : Ram.peek s.mem (s.cpu.regs.a 0) = some b) (hp : (Ram.peek s.mem (s.cpu.regs.a 1)).isSome) :
    ∃ c m', Executes C copyProgram a 1 c s { cpu := { s.cpu with currentOpcode := 0x12D8, regs := { setAreg (setAreg s.cpu.regs 0 (at_ (s.cpu.regs.a 0) 1)) 1 (at_ (s.cpu.regs.a 1) 1) with pc := at_ a 2, sr := logicFlags b s.cpu.regs.sr } }, mem := m' } ∧
      Ram.peek m' (s.cpu.regs.a 1) = some b ∧ SameExcept s.mem m' (s.cpu.regs.a 1) 1 ∧ (∀ x, (Ram.peek m' x).isSome = (Ram.peek s.mem x).isSome) := by
  have al (x : U32) : AlignedFor .Byte x := fun h => h.1 rfl
  have one (x : U32) (P : U32 → Prop) (hx : P x) : ∀ k < bytes .Byte, P (at_ x k) := fun k hk => by
    have : k = 0 := Nat.lt_one_iff.mp hk
    rw [this, at_zero]; exact hx
  obtain ⟨v, hv⟩ := Ram.get_present (al (s.cpu.regs.a 0)) (one (s.cpu.regs.a 0) (fun x => (Ram.peek s.mem x).isSome) (by simp only [hb]; rfl))
  have hv' := (Ram.get_val (al _) hv).2 0 (by decide)
  rw [at_zero, hb, beByte_byte] at hv'
  have hvb : v = b := (Option.some.inj hv').symm
  subst hvb
  obtain ⟨m', hm⟩ := Writable.set_present' (v := v) (al (s.cpu.regs.a 1)) (one (s.cpu.regs.a 1) (fun x => (Ram.peek s.mem x).isSome) hp)
  have hw := Ram.set_val (al _) hm
  have hw0 := hw.1 0 (by decide)
  rw [at_zero, beByte_byte] at hw0
  refine (one_line [] _ h rfl rfl rfl (ws := [0x12D8]) (by decide +kernel) (fun _ _ h => nomatch h) ?_).elim fun c hc => ⟨c, m', hc, hw0, hw.2, Ram.set_present (al _) hm⟩
  rw [show at_ a 2 = at_ s.cpu.regs.pc 2 by rw [h.here, at_add]]
  generalize ht : afterWords s [0x12D8] = t
  have tm : t.mem = s.mem := by rw [← ht]; rfl
  have ta : t.cpu.regs.a = s.cpu.regs.a := by rw [← ht]; rfl
  have e1 : (read .Byte (.postinc 0) : Exec M _) t = .ok (.mem (t.cpu.regs.a 0), v) { t with cpu := { t.cpu with regs := setAreg t.cpu.regs 0 (at_ (t.cpu.regs.a 0) 1) } } := by
    show (load .Byte (t.cpu.regs.a 0) >>= fun v => pure (Place.mem (t.cpu.regs.a 0), v)) { t with cpu := { t.cpu with regs := setAreg t.cpu.regs 0 (at_ (t.cpu.regs.a 0) 1) } } = _
    refine (bind_eq (s' := { t with cpu := { t.cpu with regs := setAreg t.cpu.regs 0 (at_ (t.cpu.regs.a 0) 1) } }) (v := v) ?_).trans rfl
    simp only [load, if_neg (al _), access]
    rw [ta, tm, hv]
  have e2 : (write .Byte (.postinc 1) v : Exec M _) { t with cpu := { t.cpu with regs := setAreg t.cpu.regs 0 (at_ (t.cpu.regs.a 0) 1) } } =
      .ok () { cpu := { t.cpu with regs := setAreg (setAreg t.cpu.regs 0 (at_ (t.cpu.regs.a 0) 1)) 1 (at_ (t.cpu.regs.a 1) 1) }, mem := m' } := by
    show store .Byte (t.cpu.regs.a 1) v { t with cpu := { t.cpu with regs := setAreg (setAreg t.cpu.regs 0 (at_ (t.cpu.regs.a 0) 1)) 1 (at_ (t.cpu.regs.a 1) 1) } } = _
    simp only [store, if_neg (al _), access]
    rw [ta, tm, hm]
  have e3 : Spec.move .Byte (.postinc 1) (.postinc 0) t = .ok () { cpu := { t.cpu with regs := { setAreg (setAreg t.cpu.regs 0 (at_ (t.cpu.regs.a 0) 1)) 1 (at_ (t.cpu.regs.a 1) 1) with sr := logicFlags v t.cpu.regs.sr } }, mem := m' } := by
    simp only [Spec.move]
    rw [bind_eq e1]
    refine (bind_eq e2).trans rfl
  have e4 := fun k : Nat => (bind_eq (f := fun _ => (pure k : Exec M Nat)) e3).trans rfl
  rw [← ht] at e4 ⊢
  exact ⟨_, e4 _⟩

theorem back_4 (a : U32) : at_ a 0 = at_ a (2 * 1) + 2 + 0xFFFFFFFC := by
  have e : (0 : U32) = BitVec.ofNat 32 (2 * 1) + (2 + 0xFFFFFFFC) := by decide +kernel
  show a + 0 = a + BitVec.ofNat 32 (2 * 1) + 2 + 0xFFFFFFFC
  rw [BitVec.add_assoc, BitVec.add_assoc, ← e]

theorem copy_dbf (h : Loaded copyProgram a 1 s) : ∃ c, Executes C copyProgram a 1 c s
    { s with cpu := { s.cpu with currentOpcode := 0x51C8, regs := { setDreg s.cpu.regs 0 (insertLow .Word (s.cpu.regs.d 0) (low .Word (s.cpu.regs.d 0) - 1)) with
      pc := if (low .Word (s.cpu.regs.d 0)).toNat = 0 then at_ a 6 else at_ a 0 } } } := by
  refine one_line [.move .Byte (.postinc 1) (.postinc 0)] _ h rfl (ws0 := [0x12D8]) (by decide +kernel) rfl (ws := [0x51C8, 0xFFFC]) (by decide +kernel) (fun _ _ h => nomatch h) ?_
  have e : at_ a 0 = s.cpu.regs.pc + 2 + signExt (0xFFFC : U16) := by
    have e1 : signExt (0xFFFC : U16) = 0xFFFFFFFC := by decide +kernel
    rw [h.here, e1]; exact back_4 a
  have e6 : at_ a 6 = at_ s.cpu.regs.pc 4 := by rw [h.here, at_add]
  generalize ht : afterWords s [0x51C8, 0xFFFC] = t
  have td : t.cpu.regs.d = s.cpu.regs.d := by rw [← ht]; rfl
  generalize hk : low .Word (s.cpu.regs.d 0) = k
  have e1 : (test (ccNumber .F) : Exec M _) t = .ok false t := rfl
  have e2 : (getR (fun r => low .Word (r.d 0)) : Exec M _) t = .ok k t := by rw [← hk, ← td]; rfl
  have em : (modR fun r => setDreg r 0 (insertLow .Word (r.d 0) (k - 1)) : Exec M Unit) t = .ok () { t with cpu := { t.cpu with regs := setDreg t.cpu.regs 0 (insertLow .Word (t.cpu.regs.d 0) (k - 1)) } } := rfl
  by_cases hz : k.toNat = 0
  · refine ⟨C.DBCC_FALSE_NO_BRANCH, ?_⟩
    have e3 : Spec.dbcc (M := M) (s.cpu.regs.pc + 2) (ccNumber .F) 0 0xFFFC t = .ok .expired { t with cpu := { t.cpu with regs := setDreg t.cpu.regs 0 (insertLow .Word (t.cpu.regs.d 0) (k - 1)) } } := by
      simp only [Spec.dbcc]
      rw [bind_eq e1, if_neg Bool.false_ne_true, bind_eq e2]
      rw [bind_eq em, if_pos hz]; rfl
    rw [if_pos hz, e6]
    refine (bind_eq e3).trans ?_
    rw [← ht]; rfl
  · refine ⟨C.DBCC_FALSE_BRANCH, ?_⟩
    have e3 : Spec.dbcc (M := M) (s.cpu.regs.pc + 2) (ccNumber .F) 0 0xFFFC t = .ok .branch { t with cpu := { t.cpu with regs := { setDreg t.cpu.regs 0 (insertLow .Word (t.cpu.regs.d 0) (k - 1)) with pc := s.cpu.regs.pc + 2 + signExt (0xFFFC : U16) } } } := by
      simp only [Spec.dbcc]
      rw [bind_eq e1, if_neg Bool.false_ne_true, bind_eq e2]
      rw [bind_eq em, if_neg hz]; rfl
    rw [if_neg hz, e]
    refine (bind_eq e3).trans ?_
    rw [← ht]; rfl

/-- One turn of the copy: one byte. -/
theorem copy_turn [Writable M] {b : U8} (h : Loaded copyProgram a 0 s) (hb : Ram.peek s.mem (s.cpu.regs.a 0) = some b) (hp : (Ram.peek s.mem (s.cpu.regs.a 1)).isSome)
    (hd : ∀ j < 6, s.cpu.regs.a 1 ≠ at_ a j) :
    ∃ c m', Executes C copyProgram a 2 c s { cpu := { s.cpu with currentOpcode := 0x51C8, regs := { setAreg (setAreg (setDreg s.cpu.regs 0 (insertLow .Word (s.cpu.regs.d 0) (low .Word (s.cpu.regs.d 0) - 1))) 0 (at_ (s.cpu.regs.a 0) 1)) 1 (at_ (s.cpu.regs.a 1) 1) with pc := if (low .Word (s.cpu.regs.d 0)).toNat = 0 then at_ a 6 else at_ a 0, sr := logicFlags b s.cpu.regs.sr } }, mem := m' } ∧
      HoldsWords m' a [0x12D8, 0x51C8, 0xFFFC] ∧
      Ram.peek m' (s.cpu.regs.a 1) = some b ∧ SameExcept s.mem m' (s.cpu.regs.a 1) 1 ∧ (∀ x, (Ram.peek m' x).isSome = (Ram.peek s.mem x).isSome) := by
  obtain ⟨c, m', e, h1, h2, h3⟩ := copy_move (C := C) h hb hp
  have hw : HoldsWords m' a [0x12D8, 0x51C8, 0xFFFC] := by
    obtain ⟨all, ha, hh⟩ := h.held
    rw [copy_words] at ha
    rw [← Option.some.inj ha] at hh
    refine holdsWords_sameExcept hh h2 fun i hi j hj => ?_
    rw [Nat.lt_one_iff.mp hi, at_zero]
    exact hd j hj
  generalize hs1 : (St.mk { s.cpu with currentOpcode := 0x12D8, regs := { setAreg (setAreg s.cpu.regs 0 (at_ (s.cpu.regs.a 0) 1)) 1 (at_ (s.cpu.regs.a 1) 1) with pc := at_ a 2, sr := logicFlags b s.cpu.regs.sr } } m' : St M) = s1 at e
  have g : Loaded copyProgram a 1 s1 := by
    rw [← hs1]
    exact ⟨⟨_, copy_words, hw⟩, h.even, h.running, h.idle, h.untraced, rfl⟩
  obtain ⟨c', e'⟩ := copy_dbf (C := C) g
  refine ⟨c + c', m', cast (congrArg _ ?_) (executes_trans e e'), hw, h1, h2, h3⟩
  rw [← hs1]
  rfl

theorem copy_executes [Writable M] (n : Nat) : ∀ (s : St M), Loaded copyProgram a 0 s → (low .Word (s.cpu.regs.d 0)).toNat = n → CanCopy n (s.cpu.regs.a 0) (s.cpu.regs.a 1) a 6 s.mem →
    ∃ (c : Nat) (b : U8) (m' : M), Executes C copyProgram a (2 * (n + 1)) c s { cpu := { s.cpu with currentOpcode := 0x51C8, regs := { setAreg (setAreg (setDreg s.cpu.regs 0 (insertLow .Word (s.cpu.regs.d 0) 0xFFFF)) 0 (at_ (s.cpu.regs.a 0) (n + 1))) 1 (at_ (s.cpu.regs.a 1) (n + 1)) with pc := at_ a 6, sr := logicFlags b s.cpu.regs.sr } }, mem := m' } ∧ Ram.peek s.mem (at_ (s.cpu.regs.a 0) n) = some b ∧
      (∀ i ≤ n, Ram.peek m' (at_ (s.cpu.regs.a 1) i) = Ram.peek s.mem (at_ (s.cpu.regs.a 0) i)) ∧ SameExcept s.mem m' (s.cpu.regs.a 1) (n + 1) := by
  induction n with
  | zero =>
    intro s h hn hc
    have hs := hc.source 0 (Nat.le_refl _)
    rw [at_zero] at hs
    obtain ⟨b, hb⟩ := Option.isSome_iff_exists.mp hs
    obtain ⟨c, m', e, -, h1, h2, -⟩ := copy_turn (C := C) h hb (by have := hc.room 0 (Nat.le_refl _); rwa [at_zero] at this) (by have := hc.apart 0 (Nat.le_refl _); rwa [at_zero] at this)
    have hk : low .Word (s.cpu.regs.d 0) = (0 : U16) := BitVec.eq_of_toNat_eq hn
    rw [if_pos hn, hk, show (0 : U16) - 1 = 0xFFFF by decide] at e
    refine ⟨c, b, m', e, by rw [at_zero]; exact hb, fun i hi => ?_, h2⟩
    rw [Nat.le_zero.mp hi, at_zero, at_zero, h1, hb]
  | succ n ih =>
    intro s h hn hc
    have hs := hc.source 0 (Nat.zero_le _)
    rw [at_zero] at hs
    obtain ⟨b, hb⟩ := Option.isSome_iff_exists.mp hs
    obtain ⟨c, m1, e, hw, h1, h2, h3⟩ := copy_turn (C := C) h hb (by have := hc.room 0 (Nat.zero_le _); rwa [at_zero] at this) (by have := hc.apart 0 (Nat.zero_le _); rwa [at_zero] at this)
    have hlt := (low .Word (s.cpu.regs.d 0)).isLt
    have hn16 : n + 1 < 65536 := by rw [← hn]; exact hlt
    have hk : (low .Word (s.cpu.regs.d 0) - 1).toNat = n := by
      generalize low .Word (s.cpu.regs.d 0) = k at hn
      have e1 : (1 : Val .Word).toNat = 1 := rfl
      have e2 : width .Word = 16 := rfl
      rw [BitVec.toNat_sub, e1, hn, e2]
      omega
    rw [if_neg (by omega)] at e
    generalize hs1 : (St.mk { s.cpu with currentOpcode := 0x51C8, regs := { setAreg (setAreg (setDreg s.cpu.regs 0 (insertLow .Word (s.cpu.regs.d 0) (low .Word (s.cpu.regs.d 0) - 1))) 0 (at_ (s.cpu.regs.a 0) 1)) 1 (at_ (s.cpu.regs.a 1) 1) with
      pc := at_ a 0, sr := logicFlags b s.cpu.regs.sr } } m1 : St M) = s1 at e
    have g : Loaded copyProgram a 0 s1 := by
      rw [← hs1]
      exact ⟨⟨_, copy_words, hw⟩, h.even, h.running, h.idle, h.untraced, rfl⟩
    have a0 : s1.cpu.regs.a 0 = at_ (s.cpu.regs.a 0) 1 := by rw [← hs1]; rfl
    have a1 : s1.cpu.regs.a 1 = at_ (s.cpu.regs.a 1) 1 := by rw [← hs1]; rfl
    have d0 : s1.cpu.regs.d 0 = insertLow .Word (s.cpu.regs.d 0) (low .Word (s.cpu.regs.d 0) - 1) := by rw [← hs1]; rfl
    have hm : s1.mem = m1 := by rw [← hs1]
    obtain ⟨c', b', m', e', hb', hcp, hse⟩ := ih s1 g (by rw [d0, low_insertLow]; exact hk) (by
      rw [a0, a1, hm]
      constructor
      · intro i hi; rw [at_add, h3]; exact hc.source _ (by omega)
      · intro i hi; rw [at_add, h3]; exact hc.room _ (by omega)
      · intro i hi j hj; rw [at_add]; exact hc.apart _ (by omega) j hj
      · intro i j hi hj; rw [at_add, at_add]; exact hc.forward _ _ (by omega) (by omega))
    rw [a0, at_add, hm] at hb'
    rw [a0, a1, hm] at hcp
    rw [a1, hm] at hse
    have back (j : Nat) (h0 : 0 < j) (hj : j ≤ n + 1) : Ram.peek m1 (at_ (s.cpu.regs.a 0) j) = Ram.peek s.mem (at_ (s.cpu.regs.a 0) j) := by
      refine h2 _ fun k hk => ?_
      rw [Nat.lt_one_iff.mp hk]
      exact (hc.forward 0 j h0 hj).symm
    refine ⟨c + c', b', m', ?_, ?_, ?_, ?_⟩
    · have e2 := executes_trans e e'
      rw [show 2 * (n + 1 + 1) = 2 + 2 * (n + 1) by omega]
      refine cast (congrArg _ ?_) e2
      rw [a0, a1, d0, insertLow_insertLow, at_add, at_add, ← hs1, Nat.add_comm 1 (n + 1)]
      generalize insertLow .Word (s.cpu.regs.d 0) 0xFFFF = w
      generalize insertLow .Word (s.cpu.regs.d 0) _ = w'
      generalize at_ (s.cpu.regs.a 0) (n + 1 + 1) = x
      generalize at_ (s.cpu.regs.a 1) (n + 1 + 1) = y
      generalize at_ (s.cpu.regs.a 0) 1 = x'
      generalize at_ (s.cpu.regs.a 1) 1 = y'
      have hd : (fun i : Fin 8 => if i = 0 then w else if i = 0 then w' else s.cpu.regs.d i) = fun i => if i = 0 then w else s.cpu.regs.d i := by
        funext i
        split <;> rfl
      have ha : (fun i : Fin 7 => if i = 1 then y else if i = 0 then x else if i = 1 then y' else if i = 0 then x' else s.cpu.regs.a i) = fun i => if i = 1 then y else if i = 0 then x else s.cpu.regs.a i := by
        funext i
        by_cases i1 : i = 1
        · simp [i1]
        · by_cases i0 : i = 0 <;> simp [i0, i1]
      show (St.mk ⟨⟨fun i : Fin 8 => if i = 0 then w else if i = 0 then w' else s.cpu.regs.d i, fun i : Fin 7 => if i = 1 then y else if i = 0 then x else if i = 1 then y' else if i = 0 then x' else s.cpu.regs.a i,
        s.cpu.regs.usp, s.cpu.regs.ssp, logicFlags b' s.cpu.regs.sr, at_ a 6⟩, 0x51C8, s.cpu.stop, s.cpu.exceptions⟩ m' : St M) = _
      rw [hd, ha]
      rfl
    · rw [Nat.add_comm 1 n] at hb'
      rw [← hb', back _ (by omega) (by omega)]
    · intro i hi
      cases i with
      | zero =>
        rw [at_zero, at_zero, hb, ← h1]
        refine hse _ fun k hk => ?_
        rw [at_add]
        intro he
        have := at_inj (a := s.cpu.regs.a 1) (j := 0) (k := 1 + k) (by omega) (by omega) (by rw [at_zero]; exact he)
        omega
      | succ i =>
        have := hcp i (by omega)
        rw [at_add, at_add, Nat.add_comm 1 i, back _ (by omega) (by omega)] at this
        exact this
    · intro x hx
      rw [hse x fun k hk => ?_, h2 x fun k hk => ?_]
      · exact hx k (by omega)
      · rw [at_add]; exact hx _ (by omega)

end M68k.Exec
