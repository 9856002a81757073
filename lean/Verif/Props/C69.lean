import Verif.Props.C15
import Verif.Props.C23
import Verif.Lemmas.MovemRam
/-
C69: a loop of MOVE and DBF copies a block of memory of any length.
-/
namespace M68k.Props
open Spec Exec
set_option linter.unusedSectionVars false
variable {M : Type} [MemoryAccess M] [Ram M] [Writable M] {C : CpuDetails} {s s' s1 s2 t t' : St M} {op w : U16} {sz : Size} {i j n : Fin 8} {a x y : U32}

theorem movePlus_fields (sz : Size) (i j : Fin 8) : instr (movePlus sz i j) = .Move ∧ moveSize (movePlus sz i j) = some sz ∧
    regField (movePlus sz i j) 3 = 3 ∧ regField (movePlus sz i j) 0 = i ∧ regField (movePlus sz i j) 6 = 3 ∧ regField (movePlus sz i j) 9 = j := by
  cases sz <;> revert i j <;> decide +kernel

theorem loadWord_ready (hr : t.cpu.stop = false) (he : t.cpu.exceptions = []) (ho : ¬ Spec.Odd t.cpu.regs.pc) (hw : Holds (sz := .Word) t.mem t.cpu.regs.pc w) :
    Ready t w { t with cpu := { t.cpu with currentOpcode := w, regs := { t.cpu.regs with pc := t.cpu.regs.pc + 2 } } } :=
  ⟨hr, he, ho, t.mem, memGet_holds (even_word ho) hw, rfl⟩

theorem setAreg_withPc_turn (r : Registers) (n : Fin 8) (v pc : U32) : setAreg { r with pc := pc } n v = { setAreg r n v with pc := pc } := by
  unfold setAreg
  split
  · rfl
  · split <;> rfl

/-- One element: `MOVE.sz (Ai)+,(Aj)+`. -/
theorem movePlus_step (hij : i ≠ j) (h7 : sz = .Byte → i ≠ 7 ∧ j ≠ 7) (hr : t.cpu.stop = false) (he : t.cpu.exceptions = [])
    (ho : ¬ Spec.Odd t.cpu.regs.pc) (hw : Holds (sz := .Word) t.mem t.cpu.regs.pc (movePlus sz i j))
    (hx : AlignedFor sz (areg t.cpu.regs i)) (hy : AlignedFor sz (areg t.cpu.regs j))
    (px : Present t.mem (areg t.cpu.regs i) (bytes sz)) (py : Present t.mem (areg t.cpu.regs j) (bytes sz)) :
    ∃ (v : Val sz) (m : M) (sr : StatusRegister), Holds t.mem (areg t.cpu.regs i) v ∧ Holds m (areg t.cpu.regs j) v ∧
      SameExcept t.mem m (areg t.cpu.regs j) (bytes sz) ∧ SamePresent t.mem m ∧ LogicCodes v t.cpu.regs.sr sr ∧
      Completes C t { mem := m, cpu := { t.cpu with currentOpcode := movePlus sz i j, regs :=
        { setAreg (setAreg t.cpu.regs i (at_ (areg t.cpu.regs i) (bytes sz))) j (at_ (areg t.cpu.regs j) (bytes sz)) with
          pc := t.cpu.regs.pc + 2, sr := sr } } } := by
  obtain ⟨f1, f2, f3, f4, f5, f6⟩ := movePlus_fields sz i j
  have h := loadWord_ready hr he ho hw
  generalize hs1 : ({ t with cpu := { t.cpu with currentOpcode := movePlus sz i j, regs := { t.cpu.regs with pc := t.cpu.regs.pc + 2 } } } : St M) = t1 at h
  have hs : fetchEa (some sz) (movePlus sz i j) t1 = .ok (.postinc i) t1 := by unfold fetchEa; rw [f3, f4]; rfl
  have hd : fetchMode (some sz) (regField (movePlus sz i j) 6) (regField (movePlus sz i j) 9) t1 = .ok (.postinc j) t1 := by rw [f5, f6]; rfl
  have hst : ∀ k : Fin 8, (sz = .Byte → k ≠ 7) → Spec.step k sz = BitVec.ofNat 32 (bytes sz) := fun k hk => by
    unfold Spec.step
    rw [if_neg (fun hh => hk hh.2 hh.1)]
  have hxa : ∀ k, areg t1.cpu.regs k = areg t.cpu.regs k := fun k => by rw [← hs1]; rfl
  have hm1 : t1.mem = t.mem := by rw [← hs1]
  obtain ⟨v, hv⟩ := Ram.get_present hx px
  have hvx : Holds t.mem (areg t.cpu.regs i) v := (Ram.get_val hx hv).2
  have hread : Spec.read sz (.postinc i) t1 = .ok (.mem (areg t.cpu.regs i), v) (t1.withRegs fun r => setAreg r i (areg r i + Spec.step i sz)) :=
    read_holds (md := .postinc i) (by rw [← hxa]; rfl) hx (by rw [hm1]; exact hvx)
  have hx2 := ends_move (C := C) h f1 f2 hs hd hread
  generalize hs2 : (t1.withRegs fun r => setAreg r i (areg r i + Spec.step i sz)) = t2 at hx2
  have hr2 : t2.cpu.regs = { setAreg t.cpu.regs i (at_ (areg t.cpu.regs i) (bytes sz)) with pc := t.cpu.regs.pc + 2 } := by
    rw [← hs2, ← hs1, hst i fun e => (h7 e).1]
    exact setAreg_withPc_turn _ _ _ _
  have hxj : areg t2.cpu.regs j = areg t.cpu.regs j := by
    rw [hr2]
    exact (M68k.areg_setAreg _ _ _ _).trans (if_neg (Ne.symm hij))
  have hm2 : t2.mem = t.mem := by rw [← hs2]; exact hm1
  obtain ⟨m', hm'⟩ := store_present (s := t2.withRegs fun r => (place sz r (.postinc j)).2) (v := v) hy
    (show Present t2.mem (areg t.cpu.regs j) (bytes sz) by rw [hm2]; exact py)
  have hw' : write sz (.postinc j) v t2 = .ok () { t2.withRegs (fun r => (place sz r (.postinc j)).2) with mem := m' } := by
    show store sz (areg t2.cpu.regs j) v (t2.withRegs fun r => (place sz r (.postinc j)).2) = _
    rw [hxj]
    exact hm'
  rw [endsWith_bind_ok hw'] at hx2
  obtain ⟨-, -, w1, w2⟩ := store_done hm'
  have w3 := store_samePresent hm'
  have w2 : SameExcept t.mem m' (areg t.cpu.regs j) (bytes sz) := by rw [← hm2]; exact w2
  have w3 : SamePresent t.mem m' := by rw [← hm2]; exact w3
  refine ⟨v, m', logicFlags v t.cpu.regs.sr, hvx, w1, w2, w3, logicCodes_logicFlags v _, ?_⟩
  have hx3 : Completes C t { mem := m', cpu := { t2.cpu with regs := { (place sz t2.cpu.regs (.postinc j)).2 with sr := logicFlags v (place sz t2.cpu.regs (.postinc j)).2.sr } } } := hx2
  rw [place_sr] at hx3
  have hp : (place sz t2.cpu.regs (.postinc j)).2 = { setAreg (setAreg t.cpu.regs i (at_ (areg t.cpu.regs i) (bytes sz))) j (at_ (areg t.cpu.regs j) (bytes sz)) with pc := t.cpu.regs.pc + 2 } := by
    show setAreg t2.cpu.regs j (areg t2.cpu.regs j + Spec.step j sz) = _
    rw [hxj, hst j fun e => (h7 e).2, hr2]
    exact setAreg_withPc_turn _ _ _ _
  have hsr : t2.cpu.regs.sr = t.cpu.regs.sr := by rw [hr2]; exact setAreg_sr _ _ _
  have hc : t2.cpu = { t.cpu with currentOpcode := movePlus sz i j, regs := t2.cpu.regs } := by rw [← hs2, ← hs1]; rfl
  rw [hp, hsr, hc] at hx3
  exact hx3

/-- The registers `r` with other contents of Ai, Aj, Dn, the status register and the program counter. -/
def turned (r : Registers) (i j n : Fin 8) (x y d : U32) (sr : StatusRegister) (pc : U32) : Registers :=
  { setAreg (setAreg r i x) j y with pc := pc, sr := sr, d := fun m => if m = n then d else r.d m }

theorem turned_areg_src {r : Registers} {d pc : U32} {sr : StatusRegister} (hij : i ≠ j) (hs : sr.s = r.sr.s) : areg (turned r i j n x y d sr pc) i = x := by
  have h : areg (turned r i j n x y d sr pc) i = areg (setAreg (setAreg r i x) j y) i := by
    unfold areg turned
    rw [show (setAreg (setAreg r i x) j y).sr.s = sr.s by rw [setAreg_sr, setAreg_sr, hs]]
  rw [h, M68k.areg_setAreg, if_neg hij, M68k.areg_setAreg, if_pos rfl]

theorem turned_areg_dst {r : Registers} {d pc : U32} {sr : StatusRegister} (hs : sr.s = r.sr.s) : areg (turned r i j n x y d sr pc) j = y := by
  have h : areg (turned r i j n x y d sr pc) j = areg (setAreg (setAreg r i x) j y) j := by
    unfold areg turned
    rw [show (setAreg (setAreg r i x) j y).sr.s = sr.s by rw [setAreg_sr, setAreg_sr, hs]]
  rw [h, M68k.areg_setAreg, if_pos rfl]

theorem turned_move {r : Registers} {d pc pc' x' y' : U32} {sr sr' : StatusRegister} (hij : i ≠ j) (hs : sr.s = r.sr.s) :
    { setAreg (setAreg (turned r i j n x y d sr pc) i x') j y' with pc := pc', sr := sr' } = turned r i j n x' y' d sr' pc' := by
  have hd : (setAreg (setAreg (turned r i j n x y d sr pc) i x') j y').d = (turned r i j n x' y' d sr' pc').d := by
    rw [setAreg_d, setAreg_d]; rfl
  have ha : (setAreg (setAreg (turned r i j n x y d sr pc) i x') j y').a = (turned r i j n x' y' d sr' pc').a ∧
      (setAreg (setAreg (turned r i j n x y d sr pc) i x') j y').usp = (turned r i j n x' y' d sr' pc').usp ∧
      (setAreg (setAreg (turned r i j n x y d sr pc) i x') j y').ssp = (turned r i j n x' y' d sr' pc').ssp := by
    have hij' : i.val ≠ j.val := fun h => hij (Fin.ext h)
    have h8 := i.isLt
    have h8' := j.isLt
    unfold turned setAreg
    by_cases h1 : i.val < 7 <;> by_cases h2 : j.val < 7
    · simp only [h1, h2, dif_pos, and_self, and_true]
      funext k
      by_cases e1 : k = ⟨j.val, h2⟩ <;> by_cases e2 : k = ⟨i.val, h1⟩ <;> simp [e1, e2, hij', Ne.symm hij']
    · cases hh : r.sr.s <;> rw [hh] at hs <;> simp only [h1, h2, dif_pos, dif_neg, not_false_iff, hh, hs, if_true, if_false, Bool.false_eq_true, and_self, and_true]
      all_goals (funext k; split <;> rfl)
    · cases hh : r.sr.s <;> rw [hh] at hs <;> simp only [h1, h2, dif_pos, dif_neg, not_false_iff, hh, hs, if_true, if_false, Bool.false_eq_true, and_self, and_true]
      all_goals (funext k; split <;> rfl)
    · omega
  obtain ⟨ha, hu, hss⟩ := ha
  generalize setAreg (setAreg (turned r i j n x y d sr pc) i x') j y' = q at *
  cases q
  simp only at hd ha hu hss
  subst hd ha hu hss
  rfl

theorem turned_count {r : Registers} {d d' pc pc' pc2 : U32} {sr : StatusRegister} :
    { setDreg { turned r i j n x y d sr pc with pc := pc' } n d' with pc := pc2 } = turned r i j n x y d' sr pc2 := by
  have h : (fun m => if m = n then d' else if m = n then d else r.d m) = fun m => if m = n then d' else r.d m := by
    funext m
    by_cases hm : m = n
    · rw [if_pos hm, if_pos hm]
    · rw [if_neg hm, if_neg hm, if_neg hm]
  unfold turned setDreg
  simp only [h]

theorem turned_count' {r : Registers} {d d' pc pc' : U32} {sr : StatusRegister} :
    setDreg { turned r i j n x y d sr pc with pc := pc' } n d' = turned r i j n x y d' sr pc' :=
  turned_count (pc' := pc') (pc2 := pc')

theorem turned_self (r : Registers) : turned r i j n (areg r i) (areg r j) (r.d n) r.sr r.pc = r := by
  have h : ∀ k, setAreg r k (areg r k) = r := fun k => by
    unfold setAreg areg
    split
    · next h =>
      cases r
      congr 1
      funext m
      simp only
      split
      · next e => rw [e]
      · rfl
    · cases hs : r.sr.s <;> (cases r; simp_all)
  unfold turned
  rw [h i, h j]
  have hd : (fun m => if m = n then r.d n else r.d m) = r.d := by
    funext m
    split
    · next e => rw [e]
    · rfl
  rw [hd]

/-- After `k` elements: the counter is `c` lower and execution is at `pc`. -/
structure Progress (sz : Size) (i j n : Fin 8) (s : St M) (k c : Nat) (pc : U32) (t : St M) : Prop where
  copied : ∀ l < bytes sz * k, Ram.peek t.mem (at_ (areg s.cpu.regs j) l) = Ram.peek s.mem (at_ (areg s.cpu.regs i) l)
  rest : SameExcept s.mem t.mem (areg s.cpu.regs j) (bytes sz * k)
  present : SamePresent s.mem t.mem
  cpu : t.cpu = { s.cpu with currentOpcode := t.cpu.currentOpcode, regs := turned s.cpu.regs i j n (at_ (areg s.cpu.regs i) (bytes sz * k)) (at_ (areg s.cpu.regs j) (bytes sz * k)) (s.cpu.regs.d n - BitVec.ofNat 32 c) t.cpu.regs.sr pc }
  system : SameSystem s.cpu.regs.sr t.cpu.regs.sr
  extend : t.cpu.regs.sr.x = s.cpu.regs.sr.x

theorem aligned_at' (ha : AlignedFor sz a) (k : Nat) : AlignedFor sz (at_ a (bytes sz * k)) := by
  by_cases h : sz = .Byte
  · intro hh; exact hh.1 h
  · exact aligned_at h ha k

theorem progress_start : Progress sz i j n s 0 0 s.cpu.regs.pc s where
  copied l hl := absurd hl (by simp)
  rest b _ := rfl
  present b := rfl
  cpu := by
    rw [Nat.mul_zero, at_zero, at_zero, show s.cpu.regs.d n - BitVec.ofNat 32 0 = s.cpu.regs.d n from BitVec.sub_zero _, turned_self]
  system := ⟨rfl, rfl, rfl⟩
  extend := rfl

theorem progress_word {len k c q : Nat} {pc : U32} (hc : CopyReady sz i j n s len) (hk : bytes sz * k ≤ len) (hp : Progress sz i j n s k c pc t) (hq : q < 3) :
    Holds (sz := .Word) t.mem (at_ s.cpu.regs.pc (2 * q)) ((copyLoop sz i j n)[q]'hq) := by
  refine (hc.program q hq).of_eq fun l hl => hp.rest _ fun p hp' => ?_
  rw [at_add]
  have hl : l < 2 := hl
  exact hc.kept _ (by omega) _ (by omega)

/-- One element is copied. -/
theorem progress_move {len k c : Nat} (hij : i ≠ j) (h7 : sz = .Byte → i ≠ 7 ∧ j ≠ 7) (hc : CopyReady sz i j n s len) (hlen : len ≤ 2 ^ 32)
    (hk : bytes sz * (k + 1) ≤ len) (hp : Progress sz i j n s k c s.cpu.regs.pc t) :
    ∃ t' v, Completes C t t' ∧ Progress sz i j n s (k + 1) c (s.cpu.regs.pc + 2) t' ∧
      Holds (sz := sz) s.mem (at_ (areg s.cpu.regs i) (bytes sz * k)) v ∧ LogicCodes v s.cpu.regs.sr t'.cpu.regs.sr := by
  have hb := bytes_pos sz
  have hk' : bytes sz * (k + 1) = bytes sz * k + bytes sz := Nat.mul_succ _ _
  have hregs : t.cpu.regs = turned s.cpu.regs i j n (at_ (areg s.cpu.regs i) (bytes sz * k))
    (at_ (areg s.cpu.regs j) (bytes sz * k)) (s.cpu.regs.d n - BitVec.ofNat 32 c) t.cpu.regs.sr s.cpu.regs.pc := congrArg Cpu.regs hp.cpu
  have hsys := hp.system.2.1
  have hi : areg t.cpu.regs i = at_ (areg s.cpu.regs i) (bytes sz * k) := by rw [hregs]; exact turned_areg_src hij hsys
  have hj : areg t.cpu.regs j = at_ (areg s.cpu.regs j) (bytes sz * k) := by rw [hregs]; exact turned_areg_dst hsys
  have hpc : t.cpu.regs.pc = s.cpu.regs.pc := by rw [hregs]; rfl
  have hw := progress_word hc (by omega) hp (show 0 < 3 by omega)
  rw [Nat.mul_zero, at_zero, ← hpc] at hw
  obtain ⟨v, m, sr, m1, m2, m3, m4, m5, m6⟩ := movePlus_step (C := C) hij h7 (t := t) (by rw [hp.cpu]; exact hc.running) (by rw [hp.cpu]; exact hc.idle)
    (by rw [hpc]; exact hc.even) hw (by rw [hi]; exact aligned_at' hc.alignedSrc k) (by rw [hj]; exact aligned_at' hc.alignedDst k)
    (by
      rw [hi]
      intro l hl
      rw [hp.present, at_add]
      exact hc.presentSrc _ (by omega))
    (by
      rw [hj]
      intro l hl
      rw [hp.present, at_add]
      exact hc.presentDst _ (by omega))
  rw [hi] at m1 m6
  rw [hj] at m2 m3 m6
  -- the element read is the one of the beginning
  have hsrc : ∀ l < bytes sz, Ram.peek s.mem (at_ (at_ (areg s.cpu.regs i) (bytes sz * k)) l) = Ram.peek t.mem (at_ (at_ (areg s.cpu.regs i) (bytes sz * k)) l) := by
    intro l hl
    refine (hp.rest _ fun q hq => ?_).symm
    rw [at_add]
    refine Ne.symm (hc.upwards q (bytes sz * k + l) (by omega) (by omega) ?_)
    have h1 : q / bytes sz < k := (Nat.div_lt_iff_lt_mul hb).2 (by rw [Nat.mul_comm]; exact hq)
    have h2 : k ≤ (bytes sz * k + l) / bytes sz := (Nat.le_div_iff_mul_le hb).2 (by rw [Nat.mul_comm]; omega)
    omega
  have hsv : Holds s.mem (at_ (areg s.cpu.regs i) (bytes sz * k)) v := m1.of_eq hsrc
  refine ⟨_, v, m6, ⟨?_, ?_, ?_, ?_, ?_, ?_⟩, hsv, ?_⟩
  · intro l hl
    by_cases hlk : l < bytes sz * k
    · refine (m3 _ fun q hq => ?_).trans (hp.copied l hlk)
      rw [at_add]
      intro he
      have := at_inj (by omega) (by omega) he
      omega
    · have h1 := m2 (l - bytes sz * k) (by omega)
      have h2 := hsv (l - bytes sz * k) (by omega)
      rw [at_add, show bytes sz * k + (l - bytes sz * k) = l by omega] at h1 h2
      rw [h1, h2]
  · intro b hb'
    refine (m3 b fun q hq => ?_).trans (hp.rest b fun q hq => hb' q (by omega))
    rw [at_add]
    exact hb' _ (by omega)
  · intro b
    rw [m4 b, hp.present b]
  · show ({ t.cpu with currentOpcode := _, regs := _ } : Cpu) = _
    rw [hp.cpu, at_add, at_add, ← hk']
    exact congrArg (fun q : Registers => ({ s.cpu with currentOpcode := movePlus sz i j, regs := q } : Cpu)) (turned_move hij hsys)
  · obtain ⟨a1, a2, a3⟩ := hp.system
    obtain ⟨b1, b2, b3⟩ := m5.system
    exact ⟨b1.trans a1, b2.trans a2, b3.trans a3⟩
  · exact m5.extend.trans hp.extend
  · obtain ⟨a1, a2, a3⟩ := hp.system
    obtain ⟨b1, b2, b3⟩ := m5.system
    exact ⟨m5.negative, m5.zero, m5.overflow, m5.carry, m5.extend.trans hp.extend, b1.trans a1, b2.trans a2, b3.trans a3⟩

/-- `DBF Dn,loop` at the end of an element: its two words, and the state after them. -/
theorem progress_dbf {len k c : Nat} (hc : CopyReady sz i j n s len) (hk : bytes sz * k ≤ len) (hp : Progress sz i j n s k c (s.cpu.regs.pc + 2) t) :
    ∃ t1 t2, Ready t (BitVec.ofNat 16 (0x51C8 + n.val)) t1 ∧ fetch t1 = .ok 0xFFFC t2 ∧
      t2 = { t with cpu := { t.cpu with currentOpcode := BitVec.ofNat 16 (0x51C8 + n.val), regs := { t.cpu.regs with pc := s.cpu.regs.pc + 6 } } } := by
  have hpc : t.cpu.regs.pc = at_ s.cpu.regs.pc 2 := by rw [hp.cpu]; rfl
  have h1 := progress_word hc hk hp (show 1 < 3 by omega)
  have h2 := progress_word hc hk hp (show 2 < 3 by omega)
  have e1 : ¬ Spec.Odd (at_ s.cpu.regs.pc 2) := fun h => hc.even ((odd_at rfl).1 h)
  have e2 : ¬ Spec.Odd (at_ s.cpu.regs.pc 4) := fun h => hc.even ((odd_at rfl).1 h)
  have hr := loadWord_ready (t := t) (w := BitVec.ofNat 16 (0x51C8 + n.val)) (by rw [hp.cpu]; exact hc.running) (by rw [hp.cpu]; exact hc.idle)
    (by rw [hpc]; exact e1) (by rw [hpc]; exact h1)
  refine ⟨_, _, hr, ?_, rfl⟩
  unfold fetch
  simp only
  have h4 : t.cpu.regs.pc + 2 = at_ s.cpu.regs.pc 4 := by rw [hpc, two_at, at_add]
  have h6 : at_ s.cpu.regs.pc 4 + 2 = s.cpu.regs.pc + 6 := by rw [two_at, at_add]; rfl
  rw [h4, if_neg e2, show MemoryAccess.getWord (at_ s.cpu.regs.pc 4) t.mem = .val 0xFFFC t.mem from memGet_holds (sz := .Word) (even_word e2) h2]
  simp only [h6]

/-- The loop goes on. -/
theorem progress_turn {len k : Nat} (hc : CopyReady sz i j n s len) (hk : bytes sz * (k + 1) ≤ len)
    (hn : k < (s.cpu.regs.d n).toNat % 65536) (hp : Progress sz i j n s (k + 1) k (s.cpu.regs.pc + 2) t) :
    ∃ t', Completes C t t' ∧ Progress sz i j n s (k + 1) (k + 1) s.cpu.regs.pc t' := by
  obtain ⟨t1, t2, h, hw, h2⟩ := progress_dbf hc hk hp
  obtain ⟨hi, hcc, hreg⟩ := dbf_op n
  have hd : t.cpu.regs.d n = s.cpu.regs.d n - BitVec.ofNat 32 k := by rw [hp.cpu]; exact if_pos rfl
  have := C23_branch (C := C) h hi hw (by rw [hcc]; rfl) (by
    rw [hreg, hd, BitVec.toNat_sub, BitVec.toNat_ofNat]
    have := (s.cpu.regs.d n).isLt
    omega)
  rw [hreg, h2, hd] at this
  refine ⟨_, this, hp.copied, hp.rest, hp.present, ?_, hp.system, hp.extend⟩
  have hpc : t.cpu.regs.pc + 2 + signExt (0xFFFC : U16) = s.cpu.regs.pc := by
    rw [show t.cpu.regs.pc = s.cpu.regs.pc + 2 by rw [hp.cpu]; rfl, show signExt (0xFFFC : U16) = (0xFFFFFFFC : U32) by decide, BitVec.add_assoc, BitVec.add_assoc]
    exact BitVec.add_zero _
  have hd2 : s.cpu.regs.d n - BitVec.ofNat 32 k - 1 = s.cpu.regs.d n - BitVec.ofNat 32 (k + 1) := by
    apply BitVec.eq_of_toNat_eq
    simp only [BitVec.toNat_sub, BitVec.toNat_ofNat, BitVec.ofNat_eq_ofNat]
    have := (s.cpu.regs.d n).isLt
    omega
  rw [hpc, hd2]
  unfold St.withRegs
  simp only
  rw [hp.cpu]
  exact congrArg (fun q : Registers => ({ s.cpu with currentOpcode := BitVec.ofNat 16 (0x51C8 + n.val), regs := q } : Cpu)) turned_count

/-- The loop ends. -/
theorem progress_end {len : Nat} (hc : CopyReady sz i j n s len) (hk : bytes sz * ((s.cpu.regs.d n).toNat % 65536 + 1) ≤ len)
    (hp : Progress sz i j n s ((s.cpu.regs.d n).toNat % 65536 + 1) ((s.cpu.regs.d n).toNat % 65536) (s.cpu.regs.pc + 2) t) :
    ∃ t', Completes C t t' ∧ t'.mem = t.mem ∧ t'.cpu = { s.cpu with currentOpcode := BitVec.ofNat 16 (0x51C8 + n.val), regs := (
      turned s.cpu.regs i j n (at_ (areg s.cpu.regs i) (bytes sz * ((s.cpu.regs.d n).toNat % 65536 + 1)))
        (at_ (areg s.cpu.regs j) (bytes sz * ((s.cpu.regs.d n).toNat % 65536 + 1)))
        (BitVec.ofNat 32 ((s.cpu.regs.d n).toNat / 65536 * 65536 + 0xFFFF)) t.cpu.regs.sr (s.cpu.regs.pc + 6)) } := by
  obtain ⟨t1, t2, h, hw, h2⟩ := progress_dbf hc hk hp
  obtain ⟨hi, hcc, hreg⟩ := dbf_op n
  have hd : t.cpu.regs.d n = s.cpu.regs.d n - BitVec.ofNat 32 ((s.cpu.regs.d n).toNat % 65536) := by rw [hp.cpu]; exact if_pos rfl
  have := (C23_expired (C := C) h hi hw (by rw [hcc]; rfl) (by
    rw [hreg, hd, BitVec.toNat_sub, BitVec.toNat_ofNat]
    have := (s.cpu.regs.d n).isLt
    omega)).1
  have hv : s.cpu.regs.d n - BitVec.ofNat 32 ((s.cpu.regs.d n).toNat % 65536) + 0xFFFF =
      BitVec.ofNat 32 ((s.cpu.regs.d n).toNat / 65536 * 65536 + 0xFFFF) := by
    generalize s.cpu.regs.d n = x
    apply BitVec.eq_of_toNat_eq
    rw [BitVec.toNat_add, BitVec.toNat_sub, BitVec.toNat_ofNat, BitVec.toNat_ofNat]
    simp only [BitVec.ofNat_eq_ofNat, BitVec.reduceToNat]
    have := x.isLt
    omega
  rw [hreg, h2, hd, hv] at this
  refine ⟨_, this, rfl, ?_⟩
  unfold St.withRegs
  simp only
  rw [hp.cpu]
  exact congrArg (fun q : Registers => ({ s.cpu with currentOpcode := BitVec.ofNat 16 (0x51C8 + n.val), regs := q } : Cpu))
    (turned_count' (r := s.cpu.regs) (i := i) (j := j) (n := n) (x := at_ (areg s.cpu.regs i) (bytes sz * ((s.cpu.regs.d n).toNat % 65536 + 1)))
      (y := at_ (areg s.cpu.regs j) (bytes sz * ((s.cpu.regs.d n).toNat % 65536 + 1))) (d := s.cpu.regs.d n - BitVec.ofNat 32 ((s.cpu.regs.d n).toNat % 65536))
      (sr := t.cpu.regs.sr) (pc := s.cpu.regs.pc + 2) (pc' := s.cpu.regs.pc + 6))

/-- The state at the beginning of each turn. -/
theorem C69_turns {k : Nat} (hij : i ≠ j) (h7 : sz = .Byte → i ≠ 7 ∧ j ≠ 7)
    (hc : CopyReady sz i j n s (bytes sz * ((s.cpu.regs.d n).toNat % 65536 + 1))) (hk : k ≤ (s.cpu.regs.d n).toNat % 65536) :
    ∃ t, Steps C (2 * k) s t ∧ Progress sz i j n s k k s.cpu.regs.pc t := by
  have h4 := bytes_le sz
  have hlen : bytes sz * ((s.cpu.regs.d n).toNat % 65536 + 1) ≤ 2 ^ 32 :=
    Nat.le_trans (Nat.mul_le_mul h4 (show (s.cpu.regs.d n).toNat % 65536 + 1 ≤ 65536 by omega)) (by decide)
  induction k with
  | zero => exact ⟨s, .none s, progress_start⟩
  | succ k ih =>
    obtain ⟨t, hs, hp⟩ := ih (by omega)
    have hle : bytes sz * (k + 1) ≤ bytes sz * ((s.cpu.regs.d n).toNat % 65536 + 1) := Nat.mul_le_mul_left _ (by omega)
    obtain ⟨u, v, h1, hp1, -, -⟩ := progress_move (C := C) hij h7 hc hlen hle hp
    obtain ⟨w, h2, hp2⟩ := progress_turn (C := C) hc hle (by omega) hp1
    exact ⟨w, .more (.more hs h1) h2, hp2⟩

/-- `loop: MOVE.sz (Ai)+,(Aj)+; DBF Dn,loop` with the counter word `c` in Dn copies `c + 1` elements: the destination holds what the source held before, no
other byte of memory changes, and execution ends behind the loop, with both pointers behind their blocks, the counter word 0xFFFF, and N and Z those of
the last element. Nothing else changes. -/
theorem C69_copy (hij : i ≠ j) (h7 : sz = .Byte → i ≠ 7 ∧ j ≠ 7)
    (hc : CopyReady sz i j n s (bytes sz * ((s.cpu.regs.d n).toNat % 65536 + 1))) :
    ∃ s' v, Steps C (2 * ((s.cpu.regs.d n).toNat % 65536 + 1)) s s' ∧
      (∀ l < bytes sz * ((s.cpu.regs.d n).toNat % 65536 + 1), Ram.peek s'.mem (at_ (areg s.cpu.regs j) l) = Ram.peek s.mem (at_ (areg s.cpu.regs i) l)) ∧
      SameExcept s.mem s'.mem (areg s.cpu.regs j) (bytes sz * ((s.cpu.regs.d n).toNat % 65536 + 1)) ∧
      Holds (sz := sz) s.mem (at_ (areg s.cpu.regs i) (bytes sz * ((s.cpu.regs.d n).toNat % 65536))) v ∧
      LogicCodes v s.cpu.regs.sr s'.cpu.regs.sr ∧
      s'.cpu = { s.cpu with currentOpcode := BitVec.ofNat 16 (0x51C8 + n.val), regs :=
        { setAreg (setAreg s.cpu.regs i (areg s.cpu.regs i + BitVec.ofNat 32 (bytes sz * ((s.cpu.regs.d n).toNat % 65536 + 1))))
            j (areg s.cpu.regs j + BitVec.ofNat 32 (bytes sz * ((s.cpu.regs.d n).toNat % 65536 + 1))) with
          pc := s.cpu.regs.pc + 6
          sr := s'.cpu.regs.sr
          d := fun m => if m = n then BitVec.ofNat 32 ((s.cpu.regs.d n).toNat / 65536 * 65536 + 0xFFFF) else s.cpu.regs.d m } } := by
  have h4 := bytes_le sz
  have hlen : bytes sz * ((s.cpu.regs.d n).toNat % 65536 + 1) ≤ 2 ^ 32 :=
    Nat.le_trans (Nat.mul_le_mul h4 (show (s.cpu.regs.d n).toNat % 65536 + 1 ≤ 65536 by omega)) (by decide)
  obtain ⟨t, hs, hp⟩ := C69_turns (C := C) hij h7 hc (Nat.le_refl _)
  obtain ⟨u, v, h1, hp1, hv, hl⟩ := progress_move (C := C) hij h7 hc hlen (Nat.le_refl _) hp
  obtain ⟨w, h2, hm, hcpu⟩ := progress_end (C := C) hc (Nat.le_refl _) hp1
  have hsr : w.cpu.regs.sr = u.cpu.regs.sr := by rw [hcpu]; rfl
  refine ⟨w, v, .more (.more hs h1) h2, ?_, ?_, hv, by rw [hsr]; exact hl, ?_⟩
  · rw [hm]; exact hp1.copied
  · rw [hm]; exact hp1.rest
  · rw [hsr]; exact hcpu

/-- `loop: MOVE.W (A0)+,(A1)+; DBF D2,loop` at 0, the blocks of 3 words at 10 and 8 overlapping. -/
def copyDemo : St WordSlice := Demo.st [0x32D8, 0x51CA, 0xFFFC, 0, 7, 1, 2, 3] (Demo.regs [0, 0, 0x50002] [10, 8])

/-- The hypotheses of `C69_copy` hold of it, and after 6 calls the words 1, 2, 3 are one place lower. -/
example : CopyReady .Word 0 1 2 copyDemo (bytes .Word * ((copyDemo.cpu.regs.d 2).toNat % 65536 + 1)) ∧
    ∃ s', Steps mc68000 6 copyDemo s' ∧ s'.mem.words = [0x32D8, 0x51CA, 0xFFFC, 0, 1, 2, 3, 3] ∧ s'.cpu.regs.pc = 6 ∧ s'.cpu.regs.d 2 = 0x5FFFF ∧
      areg s'.cpu.regs 0 = 16 ∧ areg s'.cpu.regs 1 = 14 := by
  refine ⟨⟨rfl, rfl, by decide, ?_, ?_, by decide, by decide, ?_, ?_, ?_⟩, _, .more (.more (.more (.more (.more (.more (.none _) ⟨_, rfl⟩) ⟨_, rfl⟩) ⟨_, rfl⟩) ⟨_, rfl⟩) ⟨_, rfl⟩) ⟨_, rfl⟩, rfl, rfl, rfl, rfl, rfl⟩
  · intro k hk
    match k, hk with
    | 0, _ => exact show Holds (sz := .Word) copyDemo.mem 0 (0x32D8 : U16) from fun l hl => match l, hl with | 0, _ => (by decide +kernel) | 1, _ => (by decide +kernel)
    | 1, _ => exact show Holds (sz := .Word) copyDemo.mem 2 (0x51CA : U16) from fun l hl => match l, hl with | 0, _ => (by decide +kernel) | 1, _ => (by decide +kernel)
    | 2, _ => exact show Holds (sz := .Word) copyDemo.mem 4 (0xFFFC : U16) from fun l hl => match l, hl with | 0, _ => (by decide +kernel) | 1, _ => (by decide +kernel)
  · exact fun k hk l hl h => by
      have hl : l < 6 := hl
      have h := congrArg BitVec.toNat h
      simp only [at_, BitVec.toNat_add, BitVec.toNat_ofNat, show copyDemo.cpu.regs.pc.toNat = 0 from rfl, show (areg copyDemo.cpu.regs 1).toNat = 8 from rfl] at h
      omega
  · exact fun l hl => match l, hl with | 0, _ => rfl | 1, _ => rfl | 2, _ => rfl | 3, _ => rfl | 4, _ => rfl | 5, _ => rfl
  · exact fun l hl => match l, hl with | 0, _ => rfl | 1, _ => rfl | 2, _ => rfl | 3, _ => rfl | 4, _ => rfl | 5, _ => rfl
  · intro k l hk hl hkl h
    have hk : k < 6 := hk
    have hl : l < 6 := hl
    have hkl : k / 2 < l / 2 := hkl
    have h := congrArg BitVec.toNat h
    simp only [at_, BitVec.toNat_add, BitVec.toNat_ofNat, show (areg copyDemo.cpu.regs 0).toNat = 10 from rfl, show (areg copyDemo.cpu.regs 1).toNat = 8 from rfl] at h
    omega

end M68k.Props
