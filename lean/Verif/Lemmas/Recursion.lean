import Verif.Spec.Nested
import Verif.Props.C03
import Verif.Props.C04
import Verif.Props.C21
import Verif.Props.C22
import Verif.Props.C69
import Verif.Lemmas.Arrays
import Verif.Lemmas.Form
import Verif.Lemmas.Entry
/-
The subroutine that calls itself.
-/
namespace M68k.Exec
open Spec Props
set_option linter.unusedSectionVars false
variable {M : Type} [MemoryAccess M] [Ram M] [Writable M] {C : CpuDetails} {s s' s1 t u v : St M} {n : Nat} {f ret pc d0 d1 sp pc' d0' d1' sp' : U32}

theorem _root_.M68k.Spec.Updated.trans (h : Updated s t pc d0 d1 sp) (h' : Updated t u pc' d0' d1' sp') : Updated s u pc' d0' d1' sp' where
  pc := h'.pc
  data := by
    rw [h'.data, h.data]
    funext m
    by_cases h0 : m = 0
    · rw [if_pos h0, if_pos h0]
    · simp only [if_neg h0]
      by_cases h1 : m = 1
      · simp only [if_pos h1]
      · simp only [if_neg h1]
  sp := h'.sp
  areg i hi := (h'.areg i hi).trans (h.areg i hi)
  system := ⟨h'.system.1.trans h.system.1, h'.system.2.1.trans h.system.2.1, h'.system.2.2.trans h.system.2.2⟩
  stop := h'.stop.trans h.stop
  exceptions := h'.exceptions.trans h.exceptions

theorem _root_.M68k.Spec.Updated.dreg0 (h : Updated s t pc d0 d1 sp) : t.cpu.regs.d 0 = d0 := by rw [h.data]; rfl
theorem _root_.M68k.Spec.Updated.dreg1 (h : Updated s t pc d0 d1 sp) : t.cpu.regs.d 1 = d1 := by rw [h.data]; rfl

theorem data_same (r : Registers) : r.d = fun m => if m = 0 then r.d 0 else if m = 1 then r.d 1 else r.d m := by
  funext m
  by_cases h0 : m = 0
  · rw [if_pos h0, h0]
  · rw [if_neg h0]
    by_cases h1 : m = 1
    · rw [if_pos h1, h1]
    · rw [if_neg h1]

theorem areg_of_system {r r' : Registers} (ha : r'.a = r.a) (hu : r'.usp = r.usp) (hs : r'.ssp = r.ssp) (hsr : r'.sr.s = r.sr.s) (i : Fin 8) : areg r' i = areg r i := by
  unfold areg
  rw [ha, hu, hs, hsr]

/-- The word at an offset of the program. -/
theorem program_ready {ws : List U16} {w : U16} (hr : t.cpu.stop = false) (he : t.cpu.exceptions = []) (hf : ¬ Spec.Odd f) (hp : HoldsWords t.mem f ws) (i : Nat)
    (hi : ws[i]? = some w) (hpc : t.cpu.regs.pc = at_ f (2 * i)) :
    Ready t w { t with cpu := { t.cpu with currentOpcode := w, regs := { t.cpu.regs with pc := at_ f (2 * i + 2) } } } := by
  have ho : ¬ Spec.Odd (at_ f (2 * i)) := fun h => hf ((odd_at (by omega)).1 h)
  obtain ⟨hl, rfl⟩ := List.getElem?_eq_some_iff.1 hi
  have := loadWord_ready (w := ws[i]) hr he (by rw [hpc]; exact ho) (by rw [hpc]; exact hp i hl)
  rw [hpc, two_at, at_add] at this
  exact this

theorem subq_word {x : U32} {r : U16} (hn : x.toNat % 65536 ≠ 0) (h : (r.toNat : Int) = (((low .Word x : U16).toNat : Int) - (1 : U16).toNat - (0 : Nat)) % 2 ^ 16) :
    insertLow .Word x r = x - 1 ∧ (r.toNat = 0 ↔ x.toNat % 65536 = 1) := by
  have hl : (low .Word x : U16).toNat = x.toNat % 65536 := by unfold low; rw [BitVec.toNat_ofNat]; rfl
  have h1 : (1 : U16).toNat = 1 := rfl
  rw [hl, h1] at h
  have hx := x.isLt
  have hr : r.toNat = x.toNat % 65536 - 1 := by omega
  refine ⟨?_, by omega⟩
  apply BitVec.eq_of_toNat_eq
  unfold insertLow
  simp only [BitVec.toNat_ofNat, BitVec.toNat_sub, Nat.reducePow, BitVec.ofNat_eq_ofNat, show (2 ^ width .Word) = 65536 from rfl]
  rw [hr]
  omega

theorem subq_step (hr : t.cpu.stop = false) (he : t.cpu.exceptions = []) (hf : ¬ Spec.Odd f) (hp : HoldsWords t.mem f countDown) (hpc : t.cpu.regs.pc = f)
    (hn : (t.cpu.regs.d 0).toNat % 65536 ≠ 0) :
    ∃ u, Completes C t u ∧ u.mem = t.mem ∧ Updated t u (at_ f 2) (t.cpu.regs.d 0 - 1) (t.cpu.regs.d 1) (areg t.cpu.regs 7) ∧
      (u.cpu.regs.sr.z = true ↔ (t.cpu.regs.d 0).toNat % 65536 = 1) := by
  have h := program_ready (w := 0x5340) hr he hf hp 0 rfl (by rw [hpc, at_zero])
  obtain ⟨r, sr', hd, hx⟩ := C04_subq (C := C) (sz := .Word) (p := .dreg 0) (d := low .Word (t.cpu.regs.d 0)) h rfl rfl (by decide) rfl
  rw [show (BitVec.ofNat (width .Word) (if regField 0x5340 9 = 0 then 8 else (regField 0x5340 9).val)) = (1 : U16) from rfl] at hd
  have hv := subq_word hn hd.1.value
  refine ⟨_, hx, rfl, ⟨rfl, ?_, ?_, ?_, hd.1.system, rfl, rfl⟩, hd.2.trans hv.2⟩
  · rw [← hv.1]
    funext m
    show (if m = 0 then _ else t.cpu.regs.d m) = _
    by_cases h0 : m = 0
    · simp only [if_pos h0]; rfl
    · simp only [if_neg h0]
      by_cases h1 : m = 1
      · simp only [if_pos h1]; rw [h1]
      · simp only [if_neg h1]
  · apply areg_of_system <;> first | rfl | exact hd.1.system.2.1
  · intro i _
    apply areg_of_system <;> first | rfl | exact hd.1.system.2.1

theorem beq_step (hr : t.cpu.stop = false) (he : t.cpu.exceptions = []) (hf : ¬ Spec.Odd f) (hp : HoldsWords t.mem f countDown) (hpc : t.cpu.regs.pc = at_ f 2) :
    ∃ u, Completes C t u ∧ u.mem = t.mem ∧
      Updated t u (if t.cpu.regs.sr.z then at_ f 6 else at_ f 4) (t.cpu.regs.d 0) (t.cpu.regs.d 1) (areg t.cpu.regs 7) := by
  have h := program_ready (w := 0x6702) hr he hf hp 1 rfl hpc
  have hx := C22_bcc_short (C := C) h rfl (by decide)
  refine ⟨_, hx, rfl, ⟨?_, data_same _, rfl, fun _ _ => rfl, ⟨rfl, rfl, rfl⟩, rfl, rfl⟩⟩
  show (if holds (ccField 0x6702) t.cpu.regs.sr then t.cpu.regs.pc + 2 + signExt (BitVec.ofNat 8 0x6702) else t.cpu.regs.pc + 2) = _
  rw [hpc, show holds (ccField 0x6702) t.cpu.regs.sr = t.cpu.regs.sr.z from rfl, two_at, at_add]
  split
  · rw [show signExt (BitVec.ofNat 8 0x6702) = (2 : U32) by decide, two_at, at_add]
  · rfl

theorem bsr_step (hr : t.cpu.stop = false) (he : t.cpu.exceptions = []) (hf : ¬ Spec.Odd f) (hp : HoldsWords t.mem f countDown) (hpc : t.cpu.regs.pc = at_ f 4)
    (ho : ¬ Spec.Odd (areg t.cpu.regs 7)) (hroom : Present t.mem (areg t.cpu.regs 7 - 4) 4) :
    ∃ u, Completes C t u ∧ Holds (sz := .Long) u.mem (areg t.cpu.regs 7 - 4) (at_ f 6) ∧ SameExcept t.mem u.mem (areg t.cpu.regs 7 - 4) 4 ∧ SamePresent t.mem u.mem ∧
      Updated t u f (t.cpu.regs.d 0) (t.cpu.regs.d 1) (areg t.cpu.regs 7 - 4) := by
  have h := program_ready (w := 0x61FA) hr he hf hp 2 rfl hpc
  generalize hs1 : ({ t with cpu := { t.cpu with currentOpcode := 0x61FA, regs := { t.cpu.regs with pc := at_ f (2 * 2 + 2) } } } : St M) = t1 at h
  have ha : ∀ i, areg t1.cpu.regs i = areg t.cpu.regs i := fun i => by rw [← hs1]; rfl
  have hm : t1.mem = t.mem := by rw [← hs1]
  have hst : Spec.step 7 .Long = 4 := rfl
  have he4 : ¬ Spec.Odd (areg t.cpu.regs 7 - 4) := by
    unfold Spec.Odd at *
    rw [BitVec.toNat_sub]
    simp only [BitVec.ofNat_eq_ofNat, BitVec.reduceToNat]
    omega
  obtain ⟨u, hpush⟩ := push_present (sz := .Long) (v := t.cpu.regs.pc + 2) (s := t1) (by rw [ha]; exact even_word he4) (by rw [ha, hm]; exact hroom)
  have htarget : t.cpu.regs.pc + 2 + signExt (BitVec.ofNat 8 (BitVec.toNat (0x61FA : U16))) = f := by
    rw [hpc, two_at, at_add, show signExt (BitVec.ofNat 8 (BitVec.toNat (0x61FA : U16))) = (0xFFFFFFFA : U32) by decide]
    unfold at_
    rw [BitVec.add_assoc]
    exact BitVec.add_zero f
  have hx := C22_bsr_short (C := C) h rfl (by decide) hpush
  rw [htarget] at hx
  have hsp := push_samePresent hpush
  obtain ⟨-, h2, h3, h4⟩ := push_done hpush
  rw [hst, ha] at h3 h4
  rw [hm] at h4 hsp
  have hv : (t.cpu.regs.pc + 2 : U32) = at_ f 6 := by rw [hpc, two_at, at_add]
  rw [hv] at h3
  have h4' : SameExcept t.mem u.mem (areg t.cpu.regs 7 - 4) 4 := h4
  have h3' : Holds (sz := .Long) u.mem (areg t.cpu.regs 7 - 4) (at_ f 6) := h3
  refine ⟨_, hx, ?_, ?_, ?_, ⟨?_, ?_, ?_, ?_, ?_, ?_, ?_⟩⟩
  · exact h3'
  · exact h4'
  · exact hsp
  · rfl
  · show u.cpu.regs.d = _
    rw [h2, ← hs1]
    exact (setAreg_d _ _ _).trans (data_same _)
  · show areg u.cpu.regs 7 = _
    rw [h2]
    exact (M68k.areg_setAreg _ _ _ _).trans ((if_pos rfl).trans (by rw [ha]; rfl))
  · intro i hi
    show areg u.cpu.regs i = _
    rw [h2]
    exact (M68k.areg_setAreg _ _ _ _).trans ((if_neg hi).trans (ha i))
  · have : u.cpu.regs.sr = t.cpu.regs.sr := by rw [h2, ← hs1]; exact setAreg_sr _ _ _
    show SameSystem _ u.cpu.regs.sr
    rw [this]
    exact ⟨rfl, rfl, rfl⟩
  · show u.cpu.stop = _
    rw [h2, ← hs1]; rfl
  · show u.cpu.exceptions = _
    rw [h2, ← hs1]; rfl

theorem addq_step (hr : t.cpu.stop = false) (he : t.cpu.exceptions = []) (hf : ¬ Spec.Odd f) (hp : HoldsWords t.mem f countDown) (hpc : t.cpu.regs.pc = at_ f 6) :
    ∃ u, Completes C t u ∧ u.mem = t.mem ∧ Updated t u (at_ f 8) (t.cpu.regs.d 0) (t.cpu.regs.d 1 + 1) (areg t.cpu.regs 7) := by
  have h := program_ready (w := 0x5281) hr he hf hp 3 rfl hpc
  obtain ⟨r, sr', hd, hx⟩ := C03_addq (C := C) (sz := .Long) (p := .dreg 1) (d := low .Long (t.cpu.regs.d 1)) h rfl rfl (by decide) rfl
  rw [show (BitVec.ofNat (width .Long) (if regField 0x5281 9 = 0 then 8 else (regField 0x5281 9).val)) = (1 : U32) from rfl] at hd
  have hv : insertLow .Long (t.cpu.regs.d 1) r = t.cpu.regs.d 1 + 1 := by
    have h1 := hd.1.value
    have hl : BitVec.toNat (low .Long (t.cpu.regs.d 1)) = (t.cpu.regs.d 1).toNat := by
      unfold low; rw [BitVec.toNat_ofNat]; exact Nat.mod_eq_of_lt (t.cpu.regs.d 1).isLt
    rw [hl] at h1
    have hx := (t.cpu.regs.d 1).isLt
    generalize t.cpu.regs.d 1 = x at *
    apply BitVec.eq_of_toNat_eq
    unfold insertLow
    simp only [BitVec.toNat_ofNat, BitVec.toNat_add, Nat.reducePow, BitVec.ofNat_eq_ofNat, show (2 ^ width .Long) = 4294967296 from rfl] at h1 ⊢
    rw [h1]
    omega
  refine ⟨_, hx, rfl, ⟨rfl, ?_, ?_, ?_, hd.1.system, rfl, rfl⟩⟩
  · rw [← hv]
    funext m
    show (if m = 1 then _ else t.cpu.regs.d m) = _
    by_cases h0 : m = 0
    · simp only [if_pos h0]; rw [h0]; rfl
    · simp only [if_neg h0]
      by_cases h1 : m = 1
      · simp only [if_pos h1]; rfl
      · simp only [if_neg h1]
  · apply areg_of_system <;> first | rfl | exact hd.1.system.2.1
  · intro i _
    apply areg_of_system <;> first | rfl | exact hd.1.system.2.1

theorem rts_step (hr : t.cpu.stop = false) (he : t.cpu.exceptions = []) (hf : ¬ Spec.Odd f) (hp : HoldsWords t.mem f countDown) (hpc : t.cpu.regs.pc = at_ f 8)
    (ho : ¬ Spec.Odd (areg t.cpu.regs 7)) (hh : Holds (sz := .Long) t.mem (areg t.cpu.regs 7) ret) :
    ∃ u, Completes C t u ∧ u.mem = t.mem ∧ Updated t u ret (t.cpu.regs.d 0) (t.cpu.regs.d 1) (areg t.cpu.regs 7 + 4) := by
  have h := program_ready (w := 0x4E75) hr he hf hp 4 rfl hpc
  have hx := step_ends C h (show instr 0x4E75 = .Rts from rfl) (by decide) rfl
  simp only [Spec.exec] at hx
  rw [endsWith_cost] at hx
  unfold Spec.rts at hx
  have hpop := pop_holds (sz := .Long) (v := ret) (s := { t with cpu := { t.cpu with currentOpcode := 0x4E75, regs := { t.cpu.regs with pc := at_ f (2 * 4 + 2) } } })
    (even_word ho) hh
  rw [endsWith_bind_ok hpop] at hx
  refine ⟨_, hx, rfl, ⟨rfl, ?_, ?_, ?_, ?_, rfl, rfl⟩⟩
  · exact (setAreg_d _ _ _).trans (data_same _)
  · exact (M68k.areg_setAreg _ _ _ _).trans (if_pos rfl)
  · exact fun i hi => (M68k.areg_setAreg _ _ _ _).trans (if_neg hi)
  · have : ∀ (r : Registers) (v : U32), SameSystem r.sr (setAreg r 7 v).sr := fun r v => by rw [setAreg_sr]; exact ⟨rfl, rfl, rfl⟩
    exact this { t.cpu.regs with pc := at_ f (2 * 4 + 2) } _

/-- A call of the subroutine. -/
theorem count_run (hret : CountReady s n ret) : ∃ t, Steps C (5 * n + 4) s t ∧
    Updated s t ret (s.cpu.regs.d 0 - BitVec.ofNat 32 (n + 1)) (s.cpu.regs.d 1 + BitVec.ofNat 32 (n + 1)) (areg s.cpu.regs 7 + 4) ∧
    (∀ b, ¬ Below (areg s.cpu.regs 7) (4 * n) b → Ram.peek t.mem b = Ram.peek s.mem b) ∧ SamePresent s.mem t.mem := by
  induction n generalizing s ret with
  | zero =>
    obtain ⟨a, c1, m1, u1, z1⟩ := subq_step (C := C) hret.running hret.idle hret.even hret.program rfl (by rw [hret.counter]; omega)
    have hz : a.cpu.regs.sr.z = true := z1.2 hret.counter
    obtain ⟨b, c2, m2, u2⟩ := beq_step (C := C) (u1.stop.trans hret.running) (u1.exceptions.trans hret.idle) hret.even (by rw [m1]; exact hret.program) u1.pc
    rw [if_pos hz] at u2
    have u12 := u1.trans u2
    obtain ⟨c, c3, m3, u3⟩ := addq_step (C := C) (u12.stop.trans hret.running) (u12.exceptions.trans hret.idle) hret.even (by rw [m2, m1]; exact hret.program) u2.pc
    have u13 := u12.trans u3
    have hsp : areg c.cpu.regs 7 = areg s.cpu.regs 7 := by rw [u3.sp, u2.sp, u1.sp]
    obtain ⟨t, c4, m4, u4⟩ := rts_step (C := C) (ret := ret) (u13.stop.trans hret.running) (u13.exceptions.trans hret.idle) hret.even (by rw [m3, m2, m1]; exact hret.program) u3.pc
      (by rw [hsp]; exact hret.evenSp) (by rw [hsp, m3, m2, m1]; exact hret.onStack)
    have u14 := u13.trans u4
    have hm : t.mem = s.mem := by rw [m4, m3, m2, m1]
    refine ⟨t, .more (.more (.more (.more (.none _) c1) c2) c3) c4, ?_, fun b _ => by rw [hm], by rw [hm]; exact fun _ => rfl⟩
    rw [hsp, u3.dreg0, u3.dreg1, u2.dreg0, u2.dreg1, u1.dreg0, u1.dreg1] at u14
    exact u14
  | succ n ih =>
    obtain ⟨a, c1, m1, u1, z1⟩ := subq_step (C := C) hret.running hret.idle hret.even hret.program rfl (by rw [hret.counter]; omega)
    have hz : ¬ a.cpu.regs.sr.z = true := fun hz => by have := z1.1 hz; rw [hret.counter] at this; omega
    obtain ⟨b, c2, m2, u2⟩ := beq_step (C := C) (u1.stop.trans hret.running) (u1.exceptions.trans hret.idle) hret.even (by rw [m1]; exact hret.program) u1.pc
    rw [if_neg hz] at u2
    have u12 := u1.trans u2
    have hspb : areg b.cpu.regs 7 = areg s.cpu.regs 7 := by rw [u2.sp, u1.sp]
    have hmb : b.mem = s.mem := by rw [m2, m1]
    have hb4 : ∀ k < 4, Below (areg s.cpu.regs 7) (4 * (n + 1)) (at_ (areg s.cpu.regs 7 - 4) k) := fun k hk =>
      ⟨4 - k, by omega, by omega, by
        unfold at_
        apply BitVec.eq_of_toNat_eq
        simp only [BitVec.toNat_add, BitVec.toNat_sub, BitVec.toNat_ofNat, BitVec.ofNat_eq_ofNat]
        omega⟩
    have htail : ∀ x, Below (areg s.cpu.regs 7 - 4) (4 * n) x → Below (areg s.cpu.regs 7) (4 * (n + 1)) x := fun x hx => hx.tail
    obtain ⟨c, c3, hpush, hsame, hpres, u3⟩ := bsr_step (C := C) (u12.stop.trans hret.running) (u12.exceptions.trans hret.idle) hret.even (by rw [hmb]; exact hret.program) u2.pc
      (by rw [hspb]; exact hret.evenSp) (by rw [hspb, hmb]; exact fun k hk => hret.room _ (hb4 k hk))
    rw [hspb] at hpush hsame u3
    rw [hmb] at hsame hpres
    have u13 := u12.trans u3
    have hprog : ∀ m : M, (∀ x, ¬ Below (areg s.cpu.regs 7) (4 * (n + 1)) x → Ram.peek m x = Ram.peek s.mem x) → HoldsWords m s.cpu.regs.pc countDown := by
      intro m hm i hi k hk
      rw [hm _ (by
        rw [at_add]
        refine hret.kept _ ?_
        have : i < 5 := hi
        have : k < 2 := hk
        omega)]
      exact hret.program i hi k hk
    have hsame' : ∀ x, ¬ Below (areg s.cpu.regs 7) (4 * (n + 1)) x → Ram.peek c.mem x = Ram.peek s.mem x := fun x hx =>
      hsame x fun k hk e => hx (e ▸ hb4 k hk)
    have hready : CountReady c n (at_ s.cpu.regs.pc 6) :=
      { running := u13.stop.trans hret.running
        idle := u13.exceptions.trans hret.idle
        even := by rw [u3.pc]; exact hret.even
        program := by rw [u3.pc]; exact hprog c.mem hsame'
        counter := by
          rw [u3.dreg0, u2.dreg0, u1.dreg0]
          have h1 := hret.counter
          have h2 := (s.cpu.regs.d 0).isLt
          rw [BitVec.toNat_sub]
          simp only [BitVec.ofNat_eq_ofNat, BitVec.reduceToNat]
          omega
        evenSp := by
          rw [u3.sp]
          have := hret.evenSp
          unfold Spec.Odd at *
          rw [BitVec.toNat_sub]
          simp only [BitVec.ofNat_eq_ofNat, BitVec.reduceToNat]
          omega
        onStack := by rw [u3.sp]; exact hpush
        room := by
          rw [u3.sp]
          intro x hx
          rw [hpres]
          exact hret.room x (htail x hx)
        kept := by
          rw [u3.sp, u3.pc]
          exact fun k hk hx => hret.kept k hk (htail _ hx) }
    obtain ⟨d, cd, ud, md, pd⟩ := ih hready
    have u1d := u13.trans ud
    rw [u3.sp] at md ud
    have hmd : ∀ x, ¬ Below (areg s.cpu.regs 7) (4 * (n + 1)) x → Ram.peek d.mem x = Ram.peek s.mem x := fun x hx =>
      (md x fun h => hx (htail x h)).trans (hsame' x hx)
    have hspd : areg d.cpu.regs 7 = areg s.cpu.regs 7 := by rw [ud.sp]; exact BitVec.sub_add_cancel _ _
    obtain ⟨e, c4, m4, u4⟩ := addq_step (C := C) (u1d.stop.trans hret.running) (u1d.exceptions.trans hret.idle) hret.even (hprog d.mem hmd) ud.pc
    have u1e := u1d.trans u4
    have hspe : areg e.cpu.regs 7 = areg s.cpu.regs 7 := by rw [u4.sp, hspd]
    have habove : ∀ k < 4, ¬ Below (areg s.cpu.regs 7) (4 * (n + 1)) (at_ (areg s.cpu.regs 7) k) := by
      intro k hk ⟨o, h1, h2, h3⟩
      have hc := hret.counter
      have := congrArg BitVec.toNat h3
      have hlt := (areg s.cpu.regs 7).isLt
      unfold at_ at this
      simp only [BitVec.toNat_add, BitVec.toNat_sub, BitVec.toNat_ofNat] at this
      omega
    have hstack : Holds (sz := .Long) e.mem (areg s.cpu.regs 7) ret := by
      rw [m4]
      intro k hk
      rw [hmd _ (habove k hk)]
      exact hret.onStack k hk
    obtain ⟨t, c5, m5, u5⟩ := rts_step (C := C) (ret := ret) (u1e.stop.trans hret.running) (u1e.exceptions.trans hret.idle) hret.even (by rw [m4]; exact hprog d.mem hmd) u4.pc
      (by rw [hspe]; exact hret.evenSp) (by rw [hspe]; exact hstack)
    have u1t := u1e.trans u5
    refine ⟨t, ?_, ?_, fun x hx => by rw [m5, m4]; exact hmd x hx, fun x => by rw [m5, m4, pd x, hpres x]⟩
    · have h3 : Steps C 3 s c := .more (.more (.more (.none _) c1) c2) c3
      have := Steps.more (Steps.more (h3.trans cd) c4) c5
      rw [show 5 * (n + 1) + 4 = 3 + (5 * n + 4) + 1 + 1 by omega]
      exact this
    · rw [hspe, u4.dreg0, u4.dreg1, ud.dreg0, ud.dreg1, u3.dreg0, u3.dreg1, u2.dreg0, u2.dreg1, u1.dreg0, u1.dreg1] at u1t
      have e0 : s.cpu.regs.d 0 - 1 - BitVec.ofNat 32 (n + 1) = s.cpu.regs.d 0 - BitVec.ofNat 32 (n + 1 + 1) := by
        rw [BitVec.ofNat_add (n + 1) 1, BitVec.add_comm, ← BitVec.sub_sub]
        rfl
      have e1 : s.cpu.regs.d 1 + BitVec.ofNat 32 (n + 1) + 1 = s.cpu.regs.d 1 + BitVec.ofNat 32 (n + 1 + 1) := by
        rw [BitVec.ofNat_add (n + 1) 1, ← BitVec.add_assoc]
        rfl
      rw [e0, e1] at u1t
      exact u1t

end M68k.Exec
