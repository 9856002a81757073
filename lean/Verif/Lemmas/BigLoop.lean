import Verif.Spec.BigLoop
import Verif.Lemmas.Arrays
import Verif.Lemmas.LoopTime
import Verif.Props.C69
/-
Loops of ADDX, SUBX, ABCD or SBCD with DBF.
-/
namespace M68k.Exec
open Spec Props
set_option linter.unusedSectionVars false
variable {M : Type} [MemoryAccess M] [Ram M] [Writable M] {C : CpuDetails} {s s' s1 t u : St M} {op : U16} {sz : Size} {n x y : Fin 8}

/-- One limb. -/
theorem pair_once {f : Val sz → Val sz → StatusRegister → Val sz × StatusRegister} (hyx : y ≠ x) (h7 : sz = .Byte → x ≠ 7 ∧ y ≠ 7)
    (hends : ∀ s s1 : St M, Ready s op s1 → EndsWith C s (pair sz true x y f s1))
    (hr : t.cpu.stop = false) (he : t.cpu.exceptions = [])
    (ho : ¬ Spec.Odd t.cpu.regs.pc) (hw : Holds (sz := .Word) t.mem t.cpu.regs.pc op)
    {ax ay : U32} (hax : areg t.cpu.regs x - BitVec.ofNat 32 (bytes sz) = ax) (hay : areg t.cpu.regs y - BitVec.ofNat 32 (bytes sz) = ay)
    (hx : AlignedFor sz ax) (hy : AlignedFor sz ay)
    (px : Present t.mem ax (bytes sz)) (py : Present t.mem ay (bytes sz)) :
    ∃ t1 m d v, Ready t op t1 ∧ SameExcept t.mem m ax (bytes sz) ∧ SamePresent t.mem m ∧
      Completes C t { mem := m, cpu := { t.cpu with currentOpcode := op, regs :=
        { setAreg (setAreg t.cpu.regs y ay) x ax with pc := t.cpu.regs.pc + 2, sr := (f d v t.cpu.regs.sr).2 } } } := by
  have h := loadWord_ready hr he ho hw
  generalize hs1 : ({ t with cpu := { t.cpu with currentOpcode := op, regs := { t.cpu.regs with pc := t.cpu.regs.pc + 2 } } } : St M) = t1 at h
  have hst : ∀ k : Fin 8, (sz = .Byte → k ≠ 7) → Spec.step k sz = BitVec.ofNat 32 (bytes sz) := fun k hk => by
    unfold Spec.step
    rw [if_neg (fun hh => hk hh.2 hh.1)]
  obtain ⟨v, hv⟩ := Ram.get_present hy py
  have hv := (Ram.get_val hy hv).2
  obtain ⟨d, hd⟩ := Ram.get_present hx px
  have hd := (Ram.get_val hx hd).2
  have he1 := hends t t1 h
  unfold Spec.pair at he1
  rw [if_pos rfl, if_pos rfl] at he1
  have hsrc : place sz t1.cpu.regs (.predec y) = (.mem ay, { setAreg t.cpu.regs y ay with pc := t.cpu.regs.pc + 2 }) := by
    rw [← hs1]
    show ((Place.mem (areg t.cpu.regs y - Spec.step y sz), setAreg { t.cpu.regs with pc := t.cpu.regs.pc + 2 } y (areg t.cpu.regs y - Spec.step y sz)) : Place × Registers) = _
    rw [hst y fun e => (h7 e).2, hay, setAreg_withPc_turn]
  have hl1 : locate sz (.predec y) t1 = .ok (.mem ay) { t1 with cpu := { t1.cpu with regs := { setAreg t.cpu.regs y ay with pc := t.cpu.regs.pc + 2 } } } := by
    unfold locate
    rw [hsrc]
  rw [endsWith_bind_ok hl1] at he1
  have hxa : areg { setAreg t.cpu.regs y ay with pc := t.cpu.regs.pc + 2 } x = areg t.cpu.regs x :=
    (M68k.areg_setAreg _ _ _ _).trans (if_neg (Ne.symm hyx))
  have hdst : place sz { setAreg t.cpu.regs y ay with pc := t.cpu.regs.pc + 2 } (.predec x) =
      (.mem ax, { setAreg (setAreg t.cpu.regs y ay) x ax with pc := t.cpu.regs.pc + 2 }) := by
    unfold place
    simp only
    rw [hst x fun e => (h7 e).1, hxa, hax, setAreg_withPc_turn]
  have hl2 : locate sz (.predec x) { t1 with cpu := { t1.cpu with regs := { setAreg t.cpu.regs y ay with pc := t.cpu.regs.pc + 2 } } } =
      .ok (.mem ax) { t1 with cpu := { t1.cpu with regs := { setAreg (setAreg t.cpu.regs y ay) x ax with pc := t.cpu.regs.pc + 2 } } } := by
    unfold locate
    rw [hdst]
  rw [endsWith_bind_ok hl2] at he1
  have hm1 : t1.mem = t.mem := by rw [← hs1]
  generalize hs2 : ({ t1 with cpu := { t1.cpu with regs := { setAreg (setAreg t.cpu.regs y ay) x ax with pc := t.cpu.regs.pc + 2 } } } : St M) = t2 at he1
  have hm2 : t2.mem = t.mem := by rw [← hs2]; exact hm1
  rw [endsWith_bind_ok (show readAt sz (.mem ay) t2 = .ok v t2 from load_holds hy (by rw [hm2]; exact hv))] at he1
  rw [endsWith_bind_ok (show readAt sz (.mem ax) t2 = .ok d t2 from load_holds hx (by rw [hm2]; exact hd))] at he1
  have hsr : t2.cpu.regs.sr = t.cpu.regs.sr := by rw [← hs2]; exact (setAreg_sr _ _ _).trans (setAreg_sr _ _ _)
  have hcp : compute (f d v) t2 = .ok (f d v t.cpu.regs.sr).1 { t2 with cpu := { t2.cpu with regs := { t2.cpu.regs with sr := (f d v t.cpu.regs.sr).2 } } } := by
    unfold compute
    rw [hsr]
  rw [endsWith_bind_ok hcp] at he1
  obtain ⟨m, hm⟩ := store_present (s := { t2 with cpu := { t2.cpu with regs := { t2.cpu.regs with sr := (f d v t.cpu.regs.sr).2 } } })
    (v := (f d v t.cpu.regs.sr).1) hx (show Present t2.mem ax (bytes sz) by rw [hm2]; exact px)
  rw [show writeAt sz (.mem ax) (f d v t.cpu.regs.sr).1 { t2 with cpu := { t2.cpu with regs := { t2.cpu.regs with sr := (f d v t.cpu.regs.sr).2 } } } = _ from hm] at he1
  obtain ⟨-, -, -, w2⟩ := store_done hm
  have w3 := store_samePresent hm
  have w2 : SameExcept t.mem m ax (bytes sz) := by rw [← hm2]; exact w2
  have w3 : SamePresent t.mem m := by rw [← hm2]; exact w3
  refine ⟨t1, m, d, v, h, w2, w3, ?_⟩
  subst hs2
  subst hs1
  exact he1

theorem turned_turned {r : Registers} {d d' pc pc' x' y' a b : U32} {i j : Fin 8} {sr sr' : StatusRegister} (hij : i ≠ j) (hs : sr.s = r.sr.s) :
    turned (turned r i j n a b d sr pc) i j n x' y' d' sr' pc' = turned r i j n x' y' d' sr' pc' := by
  have h := turned_move (n := n) (d := d) (pc := pc) (pc' := pc') (x' := x') (y' := y') (x := a) (y := b) (sr' := sr') hij hs
  have hd : (fun m => if m = n then d' else (turned r i j n a b d sr pc).d m) = fun m => if m = n then d' else r.d m := by
    funext m
    by_cases hm : m = n
    · rw [if_pos hm, if_pos hm]
    · rw [if_neg hm, if_neg hm]; exact if_neg hm
  have h2 := congrArg (fun q : Registers => ({ q with d := fun m => if m = n then d' else r.d m } : Registers)) h
  refine Eq.trans ?_ (h2.trans ?_)
  · show ({ setAreg (setAreg (turned r i j n a b d sr pc) i x') j y' with pc := pc', sr := sr', d := _ } : Registers) = _
    rw [hd]
  · rfl

theorem aligned_below {a : U32} {k : Nat} (ha : AlignedFor sz a) : AlignedFor sz (a - BitVec.ofNat 32 (bytes sz * k)) := by
  intro ⟨h1, h2⟩
  apply ha
  refine ⟨h1, ?_⟩
  have h := odd_at (a := a - BitVec.ofNat 32 (bytes sz * k)) (k := bytes sz * k) (by cases sz <;> simp [bytes] at h1 ⊢ <;> omega)
  rw [at_sub] at h
  exact h.2 h2

/-- `DBF Dn,*-2` with a counter that is not zero. -/
theorem dbf_turn (hr : t.cpu.stop = false) (he : t.cpu.exceptions = []) (ho : ¬ Spec.Odd t.cpu.regs.pc)
    (h1 : Holds (sz := .Word) t.mem t.cpu.regs.pc (BitVec.ofNat 16 (0x51C8 + n.val))) (h2 : Holds (sz := .Word) t.mem (at_ t.cpu.regs.pc 2) (0xFFFC : U16))
    (hn : (t.cpu.regs.d n).toNat % 65536 ≠ 0) :
    Completes C t { t with cpu := { t.cpu with currentOpcode := BitVec.ofNat 16 (0x51C8 + n.val), regs :=
      { setDreg t.cpu.regs n (t.cpu.regs.d n - 1) with pc := t.cpu.regs.pc - 2 } } } ∧
    ∃ t1 w t2, Ready t (BitVec.ofNat 16 (0x51C8 + n.val)) t1 ∧ fetch t1 = .ok w t2 := by
  have h := loadWord_ready hr he ho h1
  obtain ⟨hi, hcc, hreg⟩ := dbf_op n
  have e2 : ¬ Spec.Odd (at_ t.cpu.regs.pc 2) := fun h => ho ((odd_at rfl).1 h)
  have hw : fetch { t with cpu := { t.cpu with currentOpcode := BitVec.ofNat 16 (0x51C8 + n.val), regs := { t.cpu.regs with pc := t.cpu.regs.pc + 2 } } } =
      .ok 0xFFFC { t with cpu := { t.cpu with currentOpcode := BitVec.ofNat 16 (0x51C8 + n.val), regs := { t.cpu.regs with pc := at_ t.cpu.regs.pc 2 + 2 } } } := by
    unfold fetch
    simp only
    rw [two_at, if_neg e2, show MemoryAccess.getWord (at_ t.cpu.regs.pc 2) t.mem = .val 0xFFFC t.mem from memGet_holds (sz := .Word) (even_word e2) h2]
  have := C23_branch (C := C) h hi hw (by rw [hcc]; rfl) (by rw [hreg]; exact hn)
  rw [hreg] at this
  have hpc : t.cpu.regs.pc + 2 + signExt (0xFFFC : U16) = t.cpu.regs.pc - 2 := by
    rw [show signExt (0xFFFC : U16) = (0xFFFFFFFC : U32) by decide, BitVec.add_assoc, BitVec.sub_eq_add_neg]
    rfl
  rw [hpc] at this
  exact ⟨this, _, _, _, h, hw⟩

/-- `DBF Dn,*-2` with the counter zero. -/
theorem dbf_end (hr : t.cpu.stop = false) (he : t.cpu.exceptions = []) (ho : ¬ Spec.Odd t.cpu.regs.pc)
    (h1 : Holds (sz := .Word) t.mem t.cpu.regs.pc (BitVec.ofNat 16 (0x51C8 + n.val))) (h2 : Holds (sz := .Word) t.mem (at_ t.cpu.regs.pc 2) (0xFFFC : U16))
    (hn : (t.cpu.regs.d n).toNat % 65536 = 0) :
    Completes C t { t with cpu := { t.cpu with currentOpcode := BitVec.ofNat 16 (0x51C8 + n.val), regs :=
      { setDreg t.cpu.regs n (t.cpu.regs.d n + 0xFFFF) with pc := t.cpu.regs.pc + 4 } } } ∧
    ∃ t1 w t2, Ready t (BitVec.ofNat 16 (0x51C8 + n.val)) t1 ∧ fetch t1 = .ok w t2 := by
  have h := loadWord_ready hr he ho h1
  obtain ⟨hi, hcc, hreg⟩ := dbf_op n
  have e2 : ¬ Spec.Odd (at_ t.cpu.regs.pc 2) := fun h => ho ((odd_at rfl).1 h)
  have hw : fetch { t with cpu := { t.cpu with currentOpcode := BitVec.ofNat 16 (0x51C8 + n.val), regs := { t.cpu.regs with pc := t.cpu.regs.pc + 2 } } } =
      .ok 0xFFFC { t with cpu := { t.cpu with currentOpcode := BitVec.ofNat 16 (0x51C8 + n.val), regs := { t.cpu.regs with pc := t.cpu.regs.pc + 4 } } } := by
    unfold fetch
    simp only
    rw [two_at, if_neg e2, show MemoryAccess.getWord (at_ t.cpu.regs.pc 2) t.mem = .val 0xFFFC t.mem from memGet_holds (sz := .Word) (even_word e2) h2]
    simp only [two_at, at_add]
    rfl
  have := (C23_expired (C := C) h hi hw (by rw [hcc]; rfl) (by rw [hreg]; exact hn)).1
  rw [hreg] at this
  exact ⟨this, _, _, _, h, hw⟩

/-- The instruction in the loop. -/
theorem pair_turn {f : Val sz → Val sz → StatusRegister → Val sz × StatusRegister} (hyx : y ≠ x) (h7 : sz = .Byte → x ≠ 7 ∧ y ≠ 7)
    (hends : ∀ s s1 : St M, Ready s op s1 → EndsWith C s (pair sz true x y f s1)) (hsys : ∀ d v sr, SameSystem sr (f d v sr).2) {c : Nat}
    (h : LoopReady sz op y x n s (bytes sz * (c + 1)))
    (px : ∀ b, Below (areg s.cpu.regs x) (bytes sz * (c + 1)) b → (Ram.peek s.mem b).isSome)
    (py : ∀ b, Below (areg s.cpu.regs y) (bytes sz * (c + 1)) b → (Ram.peek s.mem b).isSome) :
    ∃ t1 m sr, Ready s op t1 ∧ SameSystem s.cpu.regs.sr sr ∧ SamePresent s.mem m ∧
      HoldsWords m s.cpu.regs.pc [op, BitVec.ofNat 16 (0x51C8 + n.val), 0xFFFC] ∧
      Completes C s { mem := m, cpu := { s.cpu with currentOpcode := op, regs := (turned s.cpu.regs y x n (areg s.cpu.regs y - BitVec.ofNat 32 (bytes sz))
        (areg s.cpu.regs x - BitVec.ofNat 32 (bytes sz)) (s.cpu.regs.d n) sr (s.cpu.regs.pc + 2)) } } := by
  have hw := h.program 0 (show 0 < 3 by decide)
  rw [Nat.mul_zero, at_zero] at hw
  have hal : ∀ {a : U32}, AlignedFor sz a → AlignedFor sz (a - BitVec.ofNat 32 (bytes sz)) := fun {a} ha => by
    have := aligned_below (k := 1) ha
    rwa [Nat.mul_one] at this
  have hin : ∀ (a : U32) k, k < bytes sz → Below a (bytes sz * (c + 1)) (at_ (a - BitVec.ofNat 32 (bytes sz)) k) := fun a k hk => by
    have := limb_below (a := a) (j := 0) (n := c + 1) (by omega) hk
    rwa [Nat.zero_add, Nat.mul_one] at this
  obtain ⟨t1, m, d, v, h1, h2, h3, h4⟩ := pair_once (C := C) hyx h7 hends h.running h.idle h.even hw rfl rfl (hal h.alignedDst) (hal h.alignedSrc)
    (fun k hk => px _ (hin _ k hk)) (fun k hk => py _ (hin _ k hk))
  refine ⟨t1, m, (f d v s.cpu.regs.sr).2, h1, hsys _ _ _, h3, ?_, ?_⟩
  · intro k hk
    refine (h.program k hk).of_eq fun l hl => h2 _ fun q hq e => ?_
    have hk : k < 3 := hk
    have hl : l < 2 := hl
    rw [at_add] at e
    exact h.kept (2 * k + l) (by omega) (e ▸ hin _ q hq)
  · have hd : (fun m => if m = n then s.cpu.regs.d n else s.cpu.regs.d m) = s.cpu.regs.d := by
      funext m
      split
      · next e => rw [e]
      · rfl
    unfold turned
    rw [hd, show s.cpu.regs.d = (setAreg (setAreg s.cpu.regs y (areg s.cpu.regs y - BitVec.ofNat 32 (bytes sz))) x (areg s.cpu.regs x - BitVec.ofNat 32 (bytes sz))).d by
      rw [setAreg_d, setAreg_d]]
    exact h4

/-- All turns of the loop. -/
theorem pair_loop {f : Val sz → Val sz → StatusRegister → Val sz × StatusRegister} (h9 : regField op 9 = x) (h0 : regField op 0 = y)
    (hyx : y ≠ x) (h7 : sz = .Byte → x ≠ 7 ∧ y ≠ 7)
    (hends : ∀ s s1 : St M, Ready s op s1 → EndsWith C s (pair sz true x y f s1)) (hsys : ∀ d v sr, SameSystem sr (f d v sr).2)
    (hmm : ¬ MovemMisfit op) (hrte : instr op ≠ .Rte) (hext : extensionWords (instr op) op = 0) {b : Nat} (hcyc : ∀ r, cycles C (instr op) op r [] = b) {c : Nat}
    (hc : (s.cpu.regs.d n).toNat % 65536 = c) (h : LoopReady sz op y x n s (bytes sz * (c + 1)))
    (px : ∀ b, Below (areg s.cpu.regs x) (bytes sz * (c + 1)) b → (Ram.peek s.mem b).isSome)
    (py : ∀ b, Below (areg s.cpu.regs y) (bytes sz * (c + 1)) b → (Ram.peek s.mem b).isSome) :
    ∃ u s', Repeats C op s (c + 1) u ∧ Steps C (2 * (c + 1)) s s' ∧ s'.mem = u.mem ∧ s'.cpu.regs.sr = u.cpu.regs.sr ∧ LoopDone y x n (bytes sz * (c + 1)) s s' ∧
      (s.cpu.regs.sr.t = false → Quiet C (loopTimes b C.DBCC_FALSE_BRANCH C.DBCC_FALSE_NO_BRANCH c) s s') := by
  have hwords : ∀ t1 : St M, fetchWords (extensionWords (instr op) op) t1 = .ok [] t1 := fun t1 => by rw [hext]; rfl
  induction c generalizing s with
  | zero =>
    obtain ⟨t1, m, sr, k1, k2, k3, k4, k5⟩ := pair_turn (C := C) hyx h7 hends hsys h px py
    generalize ht : ({ mem := m, cpu := { s.cpu with currentOpcode := op, regs := (turned s.cpu.regs y x n (areg s.cpu.regs y - BitVec.ofNat 32 (bytes sz))
        (areg s.cpu.regs x - BitVec.ofNat 32 (bytes sz)) (s.cpu.regs.d n) sr (s.cpu.regs.pc + 2)) } } : St M) = t at k5
    have hpc : t.cpu.regs.pc = at_ s.cpu.regs.pc 2 := by rw [← ht]; rfl
    have hdn : t.cpu.regs.d n = s.cpu.regs.d n := by rw [← ht]; exact if_pos rfl
    have hm : t.mem = m := by rw [← ht]
    obtain ⟨k6, q1, qw, q2, q3, q4⟩ := dbf_end (C := C) (t := t) (n := n) (by rw [← ht]; exact h.running) (by rw [← ht]; exact h.idle)
      (by rw [hpc]; exact fun e => h.even ((odd_at rfl).1 e)) (by rw [hpc, hm]; exact k4 1 (show 1 < 3 by decide))
      (by rw [hpc, hm, at_add]; exact k4 2 (show 2 < 3 by decide)) (by rw [hdn]; exact hc)
    refine ⟨t, _, .last k1 k5, .more (.more (.none _) k5) k6, rfl, rfl, ⟨by rw [← ht]; exact k2, ?_⟩, fun htr => ?_⟩
    case refine_2 =>
      have hb := hcyc s.cpu.regs
      have := quiet_dbf (C := C) q3 q4 (by rw [← ht]; exact k2.1.trans htr) k6 (by rw [← ht]; exact h.running) (.nil _)
      rw [if_pos (show (t.cpu.regs.d n).toNat % 65536 = 0 by rw [hdn]; exact hc)] at this
      have h2 := quiet_cons k1 hmm hrte (hwords _) htr k5 (by rw [← ht]; exact h.running) this
      rw [hb] at h2
      exact h2
    have hv : s.cpu.regs.d n + 0xFFFF = BitVec.ofNat 32 ((s.cpu.regs.d n).toNat / 65536 * 65536 + 0xFFFF) := by
      generalize s.cpu.regs.d n = z at *
      apply BitVec.eq_of_toNat_eq
      rw [BitVec.toNat_add, BitVec.toNat_ofNat]
      simp only [BitVec.ofNat_eq_ofNat, BitVec.reduceToNat]
      omega
    simp only [hdn, hv, hpc]
    rw [← ht, show at_ s.cpu.regs.pc 2 + 4 = s.cpu.regs.pc + 6 by rw [show at_ s.cpu.regs.pc 2 + 4 = at_ (at_ s.cpu.regs.pc 2) 4 from rfl, at_add]; rfl, Nat.mul_one]
    exact congrArg (fun q : Registers => ({ s.cpu with currentOpcode := BitVec.ofNat 16 (0x51C8 + n.val), regs := q } : Cpu)) (turned_count (pc := s.cpu.regs.pc + 2))
  | succ c ih =>
    obtain ⟨t1, m, sr, k1, k2, k3, k4, k5⟩ := pair_turn (C := C) hyx h7 hends hsys h px py
    generalize ht : ({ mem := m, cpu := { s.cpu with currentOpcode := op, regs := (turned s.cpu.regs y x n (areg s.cpu.regs y - BitVec.ofNat 32 (bytes sz))
        (areg s.cpu.regs x - BitVec.ofNat 32 (bytes sz)) (s.cpu.regs.d n) sr (s.cpu.regs.pc + 2)) } } : St M) = t at k5
    have hpc : t.cpu.regs.pc = at_ s.cpu.regs.pc 2 := by rw [← ht]; rfl
    have hdn : t.cpu.regs.d n = s.cpu.regs.d n := by rw [← ht]; exact if_pos rfl
    have hm : t.mem = m := by rw [← ht]
    obtain ⟨k6, q1, qw, q2, q3, q4⟩ := dbf_turn (C := C) (t := t) (n := n) (by rw [← ht]; exact h.running) (by rw [← ht]; exact h.idle)
      (by rw [hpc]; exact fun e => h.even ((odd_at rfl).1 e)) (by rw [hpc, hm]; exact k4 1 (show 1 < 3 by decide))
      (by rw [hpc, hm, at_add]; exact k4 2 (show 2 < 3 by decide)) (by rw [hdn, hc]; omega)
    have hw : ({ t with cpu := { t.cpu with currentOpcode := BitVec.ofNat 16 (0x51C8 + n.val), regs := { setDreg t.cpu.regs n (t.cpu.regs.d n - 1) with pc := t.cpu.regs.pc - 2 } } } : St M) =
        { mem := m, cpu := { s.cpu with currentOpcode := BitVec.ofNat 16 (0x51C8 + n.val), regs := (turned s.cpu.regs y x n (areg s.cpu.regs y - BitVec.ofNat 32 (bytes sz))
          (areg s.cpu.regs x - BitVec.ofNat 32 (bytes sz)) (s.cpu.regs.d n - 1) sr s.cpu.regs.pc) } } := by
      simp only [hdn, hpc]
      rw [← ht, show at_ s.cpu.regs.pc 2 - 2 = s.cpu.regs.pc from BitVec.add_sub_cancel _ _]
      exact congrArg (fun q : Registers => ({ mem := m, cpu := { s.cpu with currentOpcode := BitVec.ofNat 16 (0x51C8 + n.val), regs := q } } : St M)) (turned_count (pc := s.cpu.regs.pc + 2))
    rw [hw] at k6
    clear hw
    generalize hw : ({ mem := m, cpu := { s.cpu with currentOpcode := BitVec.ofNat 16 (0x51C8 + n.val), regs := (turned s.cpu.regs y x n (areg s.cpu.regs y - BitVec.ofNat 32 (bytes sz))
          (areg s.cpu.regs x - BitVec.ofNat 32 (bytes sz)) (s.cpu.regs.d n - 1) sr s.cpu.regs.pc) } } : St M) = w at k6
    have wx : areg w.cpu.regs x = areg s.cpu.regs x - BitVec.ofNat 32 (bytes sz) := by rw [← hw]; exact turned_areg_dst k2.2.1
    have wy : areg w.cpu.regs y = areg s.cpu.regs y - BitVec.ofNat 32 (bytes sz) := by rw [← hw]; exact turned_areg_src hyx k2.2.1
    have tx : areg t.cpu.regs x = areg s.cpu.regs x - BitVec.ofNat 32 (bytes sz) := by rw [← ht]; exact turned_areg_dst k2.2.1
    have ty : areg t.cpu.regs y = areg s.cpu.regs y - BitVec.ofNat 32 (bytes sz) := by rw [← ht]; exact turned_areg_src hyx k2.2.1
    have wm : w.mem = m := by rw [← hw]
    have wpc : w.cpu.regs.pc = s.cpu.regs.pc := by rw [← hw]; rfl
    have wd : w.cpu.regs.d n = s.cpu.regs.d n - 1 := by rw [← hw]; exact if_pos rfl
    have wsr : w.cpu.regs.sr = sr := by rw [← hw]; rfl
    have tsr : t.cpu.regs.sr = sr := by rw [← ht]; rfl
    have hal : ∀ {a : U32}, AlignedFor sz a → AlignedFor sz (a - BitVec.ofNat 32 (bytes sz)) := fun {a} ha => by
      have := aligned_below (k := 1) ha
      rwa [Nat.mul_one] at this
    have hcount : (w.cpu.regs.d n).toNat % 65536 = c := by
      rw [wd, BitVec.toNat_sub]
      simp only [BitVec.ofNat_eq_ofNat, BitVec.reduceToNat]
      have := (s.cpu.regs.d n).isLt
      omega
    obtain ⟨u, s', r1, r2, r3, r4, ⟨r5, r6⟩, r7⟩ := ih (s := w) hcount
      ⟨by rw [← hw]; exact h.running, by rw [← hw]; exact h.idle, by rw [wpc]; exact h.even, by rw [wpc, wm]; exact k4,
        fun k hk e => by rw [wx, wpc] at e; exact h.kept k hk e.tail, by rw [wy]; exact hal h.alignedSrc, by rw [wx]; exact hal h.alignedDst⟩
      (fun b hb => by rw [wm, k3 b]; rw [wx] at hb; exact px b hb.tail)
      (fun b hb => by rw [wm, k3 b]; rw [wy] at hb; exact py b hb.tail)
    refine ⟨u, s', .next k1 k5 (by rw [wm, hm]) (by rw [wsr, tsr]) (by rw [wsr, tsr]) (by rw [h9, wx, tx]) (by rw [h0, wy, ty]) r1,
      .cons k5 (.cons k6 r2), r3, r4, ⟨?_, ?_⟩, fun htr => ?_⟩
    case refine_3 =>
      have hb := hcyc s.cpu.regs
      have := quiet_dbf (C := C) q3 q4 (by rw [tsr]; exact k2.1.trans htr) k6 (by rw [← hw]; exact h.running) (r7 (by rw [wsr]; exact k2.1.trans htr))
      rw [hdn, if_neg (by rw [hc]; omega)] at this
      rw [loopTimes_succ]
      have h2 := quiet_cons k1 hmm hrte (hwords _) htr k5 (by rw [← ht]; exact h.running) this
      rw [hb] at h2
      exact h2
    · rw [wsr] at r5
      exact ⟨r5.1.trans k2.1, r5.2.1.trans k2.2.1, r5.2.2.trans k2.2.2⟩
    · rw [r6, wx, wy, wd, wpc, below_shift, below_shift, show bytes sz + bytes sz * (c + 1) = bytes sz * (c + 1 + 1) by rw [Nat.mul_succ _ (c + 1)]; omega]
      have hv : (s.cpu.regs.d n - 1).toNat / 65536 = (s.cpu.regs.d n).toNat / 65536 := by
        rw [BitVec.toNat_sub]
        simp only [BitVec.ofNat_eq_ofNat, BitVec.reduceToNat]
        have := (s.cpu.regs.d n).isLt
        omega
      rw [hv, ← hw]
      exact congrArg (fun q : Registers => ({ s.cpu with currentOpcode := BitVec.ofNat 16 (0x51C8 + n.val), regs := q } : Cpu)) (turned_turned hyx k2.2.1)

end M68k.Exec
