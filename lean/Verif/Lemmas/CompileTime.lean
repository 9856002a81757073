import Verif.Spec.CompileTime
import Verif.Lemmas.CompileStmt
/-
Lemmas for C93: the time of the compiled code. The proofs are those of the lemmas for C87, with the time of each line.
-/
namespace M68k.Exec.Timed
open Spec
set_option linter.unusedSectionVars false
variable {M : Type} [MemoryAccess M] [Ram M] {C : CpuDetails} {s s' s1 s2 : St M} {p : List Source} {a fp sp : U32} {n k w w' room : Nat} {all : List U16} {σ σ' : Store n}

/-- Lines that take the time `w` are executed between the two states. -/
def Takes (C : CpuDetails) (p : List Source) (a : U32) (w : Nat) (s s' : St M) : Prop := ∃ i, Executes C p a i w s s'

theorem Takes.refl (s : St M) : Takes C p a 0 s s := ⟨0, .done s⟩

theorem Takes.trans (h : Takes C p a w s s1) (h' : Takes C p a w' s1 s') : Takes C p a (w + w') s s' := by
  obtain ⟨i, he⟩ := h
  obtain ⟨i', he'⟩ := h'
  exact ⟨i + i', executes_trans he he'⟩

theorem Takes.eq (h : Takes C p a w s s') (e : w = w') : Takes C p a w' s s' := e ▸ h

theorem reach_line {l : Source} {ws : List U16} (h : Loaded p a k s) (hp : PartAt p [l] k) (hw : l.assemble = some ws) (hb : ∀ b v, l ≠ .btstStatic b (.imm v))
    (he : l.effect C s.cpu.regs.pc (afterWords s ws) = .ok w s1) : Takes C p a w s s1 := by
  obtain ⟨b, f, hp, ws0, h0, hl⟩ := hp
  exact ⟨1, .line ⟨h.held, h.even, h.running, h.idle, hw, b, f, ws0, hp, h0, by rw [h.here, hl]⟩ hb h.untraced he (.done _)⟩

theorem reach_regs {l : Source} {j : Nat} {d : Fin 8 → U32} {sr : StatusRegister} (h : Loaded p a k s) (hp : PartAt p [l] k) (hw : Words l j) (hb : ∀ b v, l ≠ .btstStatic b (.imm v))
    (he : ∀ (op : U16) (pc pc' : U32), l.effect C pc (moved s op s.cpu.regs.d s.cpu.regs.sr pc' s.mem) = .ok w (moved s op d sr pc' s.mem)) :
    ∃ op, Takes C p a w s (moved s op d sr (at_ a (2 * (k + j))) s.mem) := by
  obtain ⟨ws, hw, hl⟩ := hw
  refine ⟨ws.headD 0, reach_line h hp hw hb ?_⟩
  rw [afterWords_moved h.here hl]
  exact he _ _ _

theorem line_const {v : U32} (h : Loaded p a k s) (hp : PartAt p [.move .Long (.dn 0) (.imm v)] k) :
    ∃ op sr, Takes C p a (constTime C) s (moved s op (putD s.cpu.regs.d 0 v) sr (at_ a (2 * (k + 3))) s.mem) ∧ SameSystem s.cpu.regs.sr sr := by
  have := reach_regs (C := C) (w := constTime C) (d := putD s.cpu.regs.d 0 v) (sr := logicFlags (low .Long v) s.cpu.regs.sr) h hp (words_const v) (fun _ _ h => nomatch h) fun op pc pc' => by
    have e : putD s.cpu.regs.d 0 v = putD s.cpu.regs.d 0 (insertLow .Long (s.cpu.regs.d 0) (low .Long v)) := by rw [insertLow_long, low_long]
    rw [e]
    exact rfl
  exact this.elim fun op h => ⟨op, _, h, rfl, rfl, rfl⟩

theorem line_un {o : UnOp} (h : Loaded p a k s) (hp : PartAt p [o.line] k) :
    ∃ op sr, Takes C p a (o.time C) s (moved s op (putD s.cpu.regs.d 0 (o.apply (s.cpu.regs.d 0))) sr (at_ a (2 * (k + 1))) s.mem) ∧ SameSystem s.cpu.regs.sr sr := by
  cases o with
  | neg =>
    have := reach_regs (C := C) (d := putD s.cpu.regs.d 0 (-(s.cpu.regs.d 0))) (sr := (difference false 0 (low .Long (s.cpu.regs.d 0)) s.cpu.regs.sr).2) h hp (words_un .neg) (fun _ _ h => nomatch h) fun op pc pc' => by
      have e : putD s.cpu.regs.d 0 (-(s.cpu.regs.d 0)) = putD s.cpu.regs.d 0 (insertLow .Long (s.cpu.regs.d 0) (difference false 0 (low .Long (s.cpu.regs.d 0)) s.cpu.regs.sr).1) := by
        rw [insertLow_long]
        congr 1
        show _ = BitVec.ofInt 32 ((0 : U32).toInt - (low .Long (s.cpu.regs.d 0)).toInt - (0 : Nat))
        rw [low_long]
        apply BitVec.eq_of_toInt_eq
        rw [BitVec.toInt_neg, BitVec.toInt_ofInt]
        simp
      rw [e]
      exact rfl
    exact this.elim fun op h => ⟨op, _, h, rfl, rfl, rfl⟩
  | not =>
    have := reach_regs (C := C) (d := putD s.cpu.regs.d 0 (~~~(s.cpu.regs.d 0))) (sr := logicFlags (~~~(low .Long (s.cpu.regs.d 0))) s.cpu.regs.sr) h hp (words_un .not) (fun _ _ h => nomatch h) fun op pc pc' => by
      have e : putD s.cpu.regs.d 0 (~~~(s.cpu.regs.d 0)) = putD s.cpu.regs.d 0 (insertLow .Long (s.cpu.regs.d 0) (~~~(low .Long (s.cpu.regs.d 0)))) := by
        rw [insertLow_long, low_long]
      rw [e]
      exact rfl
    exact this.elim fun op h => ⟨op, _, h, rfl, rfl, rfl⟩

theorem line_bin {o : BinOp} (h : Loaded p a k s) (hp : PartAt p [o.line] k) :
    ∃ op sr, Takes C p a (o.time C) s (moved s op (putD s.cpu.regs.d 0 (o.apply (s.cpu.regs.d 0) (s.cpu.regs.d 1))) sr (at_ a (2 * (k + 1))) s.mem) ∧ SameSystem s.cpu.regs.sr sr := by
  have key : ∀ (v : Val .Long) (sr : StatusRegister), SameSystem s.cpu.regs.sr sr → v = o.apply (s.cpu.regs.d 0) (s.cpu.regs.d 1) →
      (∀ (op : U16) (pc pc' : U32), o.line.effect C pc (moved s op s.cpu.regs.d s.cpu.regs.sr pc' s.mem) = .ok (o.time C) (moved s op (putD s.cpu.regs.d 0 v) sr pc' s.mem)) →
      ∃ op sr, Takes C p a (o.time C) s (moved s op (putD s.cpu.regs.d 0 (o.apply (s.cpu.regs.d 0) (s.cpu.regs.d 1))) sr (at_ a (2 * (k + 1))) s.mem) ∧ SameSystem s.cpu.regs.sr sr := by
    intro v sr hs hv he
    subst hv
    exact (reach_regs (C := C) h hp (words_bin o) (by cases o <;> exact fun _ _ h => nomatch h) he).elim fun op h => ⟨op, sr, h, hs⟩
  cases o with
  | add =>
    refine key (insertLow .Long (s.cpu.regs.d 0) (sum false (low .Long (s.cpu.regs.d 0)) (low .Long (s.cpu.regs.d 1)) s.cpu.regs.sr).1) (sum false (low .Long (s.cpu.regs.d 0)) (low .Long (s.cpu.regs.d 1)) s.cpu.regs.sr).2 ⟨rfl, rfl, rfl⟩ ?_ fun op pc pc' => rfl
    rw [insertLow_long]
    show BitVec.ofNat 32 ((low .Long (s.cpu.regs.d 0)).toNat + (low .Long (s.cpu.regs.d 1)).toNat + 0) = s.cpu.regs.d 0 + s.cpu.regs.d 1
    rw [low_long, low_long]
    apply BitVec.eq_of_toNat_eq
    rw [BitVec.toNat_add, BitVec.toNat_ofNat, Nat.add_zero]
  | sub =>
    refine key (insertLow .Long (s.cpu.regs.d 0) (difference false (low .Long (s.cpu.regs.d 0)) (low .Long (s.cpu.regs.d 1)) s.cpu.regs.sr).1) (difference false (low .Long (s.cpu.regs.d 0)) (low .Long (s.cpu.regs.d 1)) s.cpu.regs.sr).2 ⟨rfl, rfl, rfl⟩ ?_ fun op pc pc' => rfl
    rw [insertLow_long]
    show BitVec.ofInt 32 ((low .Long (s.cpu.regs.d 0)).toInt - (low .Long (s.cpu.regs.d 1)).toInt - (0 : Nat)) = s.cpu.regs.d 0 - s.cpu.regs.d 1
    rw [low_long, low_long]
    apply BitVec.eq_of_toInt_eq
    rw [BitVec.toInt_sub, BitVec.toInt_ofInt]
    simp
  | and =>
    refine key (insertLow .Long (s.cpu.regs.d 0) (low .Long (s.cpu.regs.d 0) &&& low .Long (s.cpu.regs.d 1))) (logicFlags (low .Long (s.cpu.regs.d 0) &&& low .Long (s.cpu.regs.d 1)) s.cpu.regs.sr) ⟨rfl, rfl, rfl⟩ ?_ fun op pc pc' => rfl
    rw [insertLow_long]
    show low .Long (s.cpu.regs.d 0) &&& low .Long (s.cpu.regs.d 1) = _
    rw [low_long, low_long]; rfl
  | or =>
    refine key (insertLow .Long (s.cpu.regs.d 0) (low .Long (s.cpu.regs.d 0) ||| low .Long (s.cpu.regs.d 1))) (logicFlags (low .Long (s.cpu.regs.d 0) ||| low .Long (s.cpu.regs.d 1)) s.cpu.regs.sr) ⟨rfl, rfl, rfl⟩ ?_ fun op pc pc' => rfl
    rw [insertLow_long]
    show low .Long (s.cpu.regs.d 0) ||| low .Long (s.cpu.regs.d 1) = _
    rw [low_long, low_long]; rfl
  | xor =>
    refine key (insertLow .Long (s.cpu.regs.d 0) (low .Long (s.cpu.regs.d 0) ^^^ low .Long (s.cpu.regs.d 1))) (logicFlags (low .Long (s.cpu.regs.d 0) ^^^ low .Long (s.cpu.regs.d 1)) s.cpu.regs.sr) ⟨rfl, rfl, rfl⟩ ?_ fun op pc pc' => rfl
    rw [insertLow_long]
    show low .Long (s.cpu.regs.d 0) ^^^ low .Long (s.cpu.regs.d 1) = _
    rw [low_long, low_long]; rfl
  | mul =>
    exact key _ (logicFlags (BitVec.ofNat 32 ((low .Word (s.cpu.regs.d 0)).toNat * (low .Word (s.cpu.regs.d 1)).toNat)) s.cpu.regs.sr) ⟨rfl, rfl, rfl⟩ rfl fun op pc pc' => rfl

theorem line_cmp (h : Loaded p a k s) (hp : PartAt p [.cmp .Long 0 (.dn 1)] k) :
    ∃ op sr, Takes C p a C.CMP_L s (moved s op s.cpu.regs.d sr (at_ a (2 * (k + 1))) s.mem) ∧ OrderCodes (s.cpu.regs.d 0) (s.cpu.regs.d 1) s.cpu.regs.sr sr := by
  have := reach_regs (C := C) (d := s.cpu.regs.d) (sr := compareFlags (low .Long (s.cpu.regs.d 0)) (low .Long (s.cpu.regs.d 1)) s.cpu.regs.sr) h hp words_cmp (fun _ _ h => nomatch h) fun op pc pc' => rfl
  refine this.elim fun op h => ⟨op, _, h, ?_⟩
  have := orderCodes_compare (sz := .Long) (low .Long (s.cpu.regs.d 0)) (low .Long (s.cpu.regs.d 1)) s.cpu.regs.sr
  rw [low_long, low_long] at this ⊢
  exact this

theorem line_jmp {x : U32} (h : Loaded p a k s) (hp : PartAt p [.jmp (.absL x)] k) :
    ∃ op, Takes C p a C.JMP_ABSLONG s (moved s op s.cpu.regs.d s.cpu.regs.sr x s.mem) := by
  obtain ⟨ws, hw, hl⟩ := words_jmp x
  refine ⟨ws.headD 0, reach_line h hp hw (fun _ _ h => nomatch h) ?_⟩
  exact rfl

theorem line_bcc {r : Rel} {x y : U32} {sr0 : StatusRegister} (h : Loaded p a k s) (hp : PartAt p [.bcc r.condition 6] k) (ho : OrderCodes x y sr0 s.cpu.regs.sr) :
    ∃ op, Takes C p a (if r.holds x y then C.BCC_BRANCH else C.BCC_NO_BRANCH_BYTE) s (moved s op s.cpu.regs.d s.cpu.regs.sr (if r.holds x y then at_ a (2 * (k + 4)) else at_ a (2 * (k + 1))) s.mem) := by
  have hc : holds (ccNumber r.condition) s.cpu.regs.sr = r.holds x y := by
    rw [Bool.eq_iff_iff]
    cases r with
    | eq => exact ho.eq.trans decide_eq_true_iff.symm
    | ne => exact ho.ne.trans decide_eq_true_iff.symm
    | ltu => exact ho.cs.trans decide_eq_true_iff.symm
    | leu => exact ho.ls.trans decide_eq_true_iff.symm
    | gtu => exact ho.hi.trans decide_eq_true_iff.symm
    | geu => exact ho.cc.trans decide_eq_true_iff.symm
    | lt => exact ho.lt.trans decide_eq_true_iff.symm
    | le => exact ho.le.trans decide_eq_true_iff.symm
    | gt => exact ho.gt.trans decide_eq_true_iff.symm
    | ge => exact ho.ge.trans decide_eq_true_iff.symm
  obtain ⟨ws, hw, hl⟩ := words_bcc r
  refine ⟨ws.headD 0, reach_line h hp hw (fun _ _ h => nomatch h) ?_⟩
  rw [afterWords_moved h.here hl]
  have e6 := six_at s.cpu.regs.pc
  rw [h.here, at_add] at e6
  rw [h.here, ← hc]
  simp only [Source.effect, Spec.bcc, test]
  cases hb : holds (ccNumber r.condition) s.cpu.regs.sr
  · simp only [Functor.map, bind, Exec.bind, getR, moved, hb]
    rfl
  · simp only [Functor.map, bind, Exec.bind, getR, moved, hb, if_true, jump, modR, e6]
    rfl

theorem line_var {i : Fin n} (h : Env p all a fp σ sp room s) (hpc : s.cpu.regs.pc = at_ a (2 * k)) (hp : PartAt p [.move .Long (.dn 0) (.disp 6 (varDisp i))] k) :
    ∃ op sr, Takes C p a (varTime C) s (moved s op (putD s.cpu.regs.d 0 (σ i)) sr (at_ a (2 * (k + 2))) s.mem) ∧ SameSystem s.cpu.regs.sr sr := by
  have := reach_regs (C := C) (w := varTime C) (d := putD s.cpu.regs.d 0 (σ i)) (sr := logicFlags (σ i : Val .Long) s.cpu.regs.sr) (h.loaded hpc) hp (words_var _) (fun _ _ h => nomatch h) fun op pc pc' => by
    have e : putD s.cpu.regs.d 0 (σ i) = putD s.cpu.regs.d 0 (insertLow .Long (s.cpu.regs.d 0) (σ i : Val .Long)) := by rw [insertLow_long]
    rw [e]
    refine bind_eq (v := ()) ?_
    have er : (read .Long (.disp 6 (varDisp i)) : Exec M _) (moved s op s.cpu.regs.d s.cpu.regs.sr pc' s.mem) =
        .ok (.mem (at_ fp (4 * i.val)), σ i) (moved s op s.cpu.regs.d s.cpu.regs.sr pc' s.mem) := by
      have ea : s.cpu.regs.a 6 + signExt (varDisp i) = at_ fp (4 * i.val) := by rw [h.frame, varDisp_ext i h.apart.count]; rfl
      show (load .Long (s.cpu.regs.a 6 + signExt (varDisp i)) >>= fun v => pure (Place.mem (s.cpu.regs.a 6 + signExt (varDisp i)), v)) (moved s op s.cpu.regs.d s.cpu.regs.sr pc' s.mem) = _
      rw [ea]
      exact bind_eq (load_holds (s := moved s op s.cpu.regs.d s.cpu.regs.sr pc' s.mem) (even_word (var_even h.apart.varsEven _)) (h.vars i))
    show (Spec.move .Long (.dn 0) (.disp 6 (varDisp i)) : Exec M Unit) _ = _
    simp only [Spec.move]
    rw [bind_eq er]
    rfl
  exact this.elim fun op h => ⟨op, _, h, rfl, rfl, rfl⟩

theorem line_push [Writable M] (h : Env p all a fp σ sp (4 + room) s) (hpc : s.cpu.regs.pc = at_ a (2 * k)) (hp : PartAt p [.move .Long (.predec 7) (.dn 0)] k) :
    ∃ op sr m', Takes C p a (C.MOVE_DST_ARIWPR + (C.EA_ARIWPR + 4)) s (lowered s op sr (at_ a (2 * (k + 1))) m') ∧ SameSystem s.cpu.regs.sr sr ∧ Holds (sz := .Long) m' (sp - 4) (s.cpu.regs.d 0) ∧ KeptBut s.mem m' sp (4 + room) := by
  obtain ⟨ws, hw, hl⟩ := words_push
  have hpres : Present s.mem (sp - 4) (bytes .Long) := fun i hi => h.room _ (stackByte_top hi)
  have hev : AlignedFor .Long (sp - 4) := even_word (odd_sub_four h.apart.stackEven)
  obtain ⟨m', hm⟩ := store_present (v := low .Long (s.cpu.regs.d 0))
    (s := ⟨{ s.cpu with currentOpcode := ws.headD 0, regs := { setAreg s.cpu.regs 7 (areg s.cpu.regs 7 - 4) with pc := at_ a (2 * (k + 1)) } }, s.mem⟩) hev hpres
  obtain ⟨-, -, h2, h3⟩ := store_done hm
  have h4 := store_samePresent hm
  refine ⟨ws.headD 0, logicFlags (low .Long (s.cpu.regs.d 0)) s.cpu.regs.sr, m', reach_line (h.loaded hpc) hp hw (fun _ _ h => nomatch h) ?_, ⟨rfl, rfl, rfl⟩, ?_, ?_⟩
  · rw [afterWords_moved hpc hl]
    refine bind_eq (v := ()) ?_
    show (Spec.move .Long (.predec 7) (.dn 0) : Exec M Unit) _ = _
    have er : (read .Long (.dn 0) : Exec M _) (moved s (ws.headD 0) s.cpu.regs.d s.cpu.regs.sr (at_ a (2 * (k + 1))) s.mem) =
      .ok (.dreg 0, low .Long (s.cpu.regs.d 0)) (moved s (ws.headD 0) s.cpu.regs.d s.cpu.regs.sr (at_ a (2 * (k + 1))) s.mem) := rfl
    have el : (locate .Long (.predec 7) : Exec M _) (moved s (ws.headD 0) s.cpu.regs.d s.cpu.regs.sr (at_ a (2 * (k + 1))) s.mem) =
        .ok (.mem (sp - 4)) ⟨{ s.cpu with currentOpcode := ws.headD 0, regs := { setAreg s.cpu.regs 7 (areg s.cpu.regs 7 - 4) with pc := at_ a (2 * (k + 1)) } }, s.mem⟩ := by
      rw [← h.stack]
      simp only [locate, place, moved]
      congr 1
      obtain ⟨⟨⟨d, aa, usp, ssp, ⟨t, sv, im, x, nn, z, v, c⟩, pc⟩, op, st, ex⟩, m⟩ := s
      cases sv <;> rfl
    have ew : (write .Long (.predec 7) (low .Long (s.cpu.regs.d 0)) : Exec M _) (moved s (ws.headD 0) s.cpu.regs.d s.cpu.regs.sr (at_ a (2 * (k + 1))) s.mem) =
        .ok () ⟨{ s.cpu with currentOpcode := ws.headD 0, regs := { setAreg s.cpu.regs 7 (areg s.cpu.regs 7 - 4) with pc := at_ a (2 * (k + 1)) } }, m'⟩ := by
      simp only [write]
      rw [bind_eq el]
      exact hm
    simp only [Spec.move]
    rw [bind_eq er, bind_eq ew]
    simp only [setFlags, modR, lowered, setAreg_sr]
  · rw [low_long] at h2; exact h2
  · exact ⟨fun b hb => h3 b fun i hi e => hb (e ▸ stackByte_top hi), h4⟩

theorem line_pop {op1 op2 : U16} {d2 : Fin 8 → U32} {sr1 sr2 : StatusRegister} {pc1 v : U32} {m1 m2 : M} (h : Env p all a fp σ (sp - 4) room (moved (lowered s op1 sr1 pc1 m1) op2 d2 sr2 (at_ a (2 * k)) m2))
    (hs : SameSystem s.cpu.regs.sr sr2) (hsp : areg s.cpu.regs 7 = sp) (hv : Holds (sz := .Long) m2 (sp - 4) v) (hp : PartAt p [.move .Long (.dn 1) (.postinc 7)] k) :
    ∃ op sr, Takes C p a (C.MOVE_OTHER + (C.EA_ARIWPO + 4)) (moved (lowered s op1 sr1 pc1 m1) op2 d2 sr2 (at_ a (2 * k)) m2) (moved s op (putD d2 1 v) sr (at_ a (2 * (k + 1))) m2) ∧ SameSystem s.cpu.regs.sr sr := by
  obtain ⟨ws, hw, hl⟩ := words_pop
  refine ⟨ws.headD 0, logicFlags (v : Val .Long) sr2, reach_line (h.loaded rfl) hp hw (fun _ _ h => nomatch h) ?_, hs⟩
  rw [afterWords_moved (k := k) rfl hl]
  have hev : AlignedFor .Long (sp - 4) := even_word h.apart.stackEven
  have er : (read .Long (.postinc 7) : Exec M _) (moved (moved (lowered s op1 sr1 pc1 m1) op2 d2 sr2 (at_ a (2 * k)) m2) (ws.headD 0) d2 sr2 (at_ a (2 * (k + 1))) m2) =
      .ok (.mem (sp - 4), v) (moved s (ws.headD 0) d2 sr2 (at_ a (2 * (k + 1))) m2) := by
    have el : (locate .Long (.postinc 7) : Exec M _) (moved (moved (lowered s op1 sr1 pc1 m1) op2 d2 sr2 (at_ a (2 * k)) m2) (ws.headD 0) d2 sr2 (at_ a (2 * (k + 1))) m2) =
        .ok (.mem (sp - 4)) (moved s (ws.headD 0) d2 sr2 (at_ a (2 * (k + 1))) m2) := by
      have e4 : (step 7 .Long) = (4 : U32) := by decide
      clear h hv hev hp
      subst hsp
      obtain ⟨-, hs, -⟩ := hs
      obtain ⟨t2, sv2, im2, x2, nn2, z2, v2, c2⟩ := sr2
      obtain ⟨⟨⟨d, aa, usp, ssp, ⟨t, sv, im, x, nn, z, v, c⟩, pc⟩, op, st, ex⟩, m⟩ := s
      subst hs
      cases sv2
      · have e : usp - 4 + 4 = usp := BitVec.sub_add_cancel ..
        simp only [locate, place, e4]
        show Res.ok (Place.mem (usp - 4)) (St.mk ⟨⟨d2, aa, usp - 4 + 4, ssp, _, _⟩, _, _, _⟩ m2) = Res.ok (Place.mem (usp - 4)) (St.mk ⟨⟨d2, aa, usp, ssp, _, _⟩, _, _, _⟩ m2)
        rw [e]
        rfl
      · have e : ssp - 4 + 4 = ssp := BitVec.sub_add_cancel ..
        simp only [locate, place, e4]
        show Res.ok (Place.mem (ssp - 4)) (St.mk ⟨⟨d2, aa, usp, ssp - 4 + 4, _, _⟩, _, _, _⟩ m2) = Res.ok (Place.mem (ssp - 4)) (St.mk ⟨⟨d2, aa, usp, ssp, _, _⟩, _, _, _⟩ m2)
        rw [e]
        rfl
    simp only [Spec.read]
    rw [bind_eq el]
    show (load .Long (sp - 4) >>= fun v => pure (Place.mem (sp - 4), v)) _ = _
    rw [bind_eq (load_holds (v := (v : Val .Long)) hev hv)]
    rfl
  have e : putD d2 1 v = putD d2 1 (insertLow .Long (d2 1) (v : Val .Long)) := by rw [insertLow_long]
  rw [e]
  refine bind_eq (v := ()) ?_
  show (Spec.move .Long (.dn 1) (.postinc 7) : Exec M Unit) _ = _
  simp only [Spec.move]
  refine (bind_eq er).trans ?_
  rfl

/-- `j` words of code at the word `k` are executed to the end, with `D0` and `D1` as given; only they, the flags and at most `room` bytes below the stack pointer have changed. -/
def ExprGives (C : CpuDetails) (p : List Source) (a sp : U32) (w k j room : Nat) (s : St M) (P : (Fin 8 → U32) → Prop) : Prop :=
  ∃ op d sr m', Takes C p a w s (moved s op d sr (at_ a (2 * (k + j))) m') ∧ P d ∧ (∀ i : Fin 8, 2 ≤ i.val → d i = s.cpu.regs.d i) ∧ SameSystem s.cpu.regs.sr sr ∧ KeptBut s.mem m' sp room

/-- The two operands of an operator or a relation. -/
theorem pair_gives [Writable M] {e1 e2 : Expr n} {rest : List Source}
    (ih1 : ∀ {k : Nat} {s : St M} {sp : U32} {room : Nat}, Env p all a fp σ sp room s → e1.room ≤ room → s.cpu.regs.pc = at_ a (2 * k) → PartAt p e1.code k → ExprGives C p a sp (e1.time C) k e1.size e1.room s fun d => d 0 = e1.eval σ)
    (ih2 : ∀ {k : Nat} {s : St M} {sp : U32} {room : Nat}, Env p all a fp σ sp room s → e2.room ≤ room → s.cpu.regs.pc = at_ a (2 * k) → PartAt p e2.code k → ExprGives C p a sp (e2.time C) k e2.size e2.room s fun d => d 0 = e2.eval σ)
    (h : Env p all a fp σ sp room s) (hr : max e2.room (4 + e1.room) ≤ room) (hpc : s.cpu.regs.pc = at_ a (2 * k))
    (hp : PartAt p (e2.code ++ ([.move .Long (.predec 7) (.dn 0)] ++ (e1.code ++ (.move .Long (.dn 1) (.postinc 7) :: rest)))) k) :
    ExprGives C p a sp (e2.time C + e1.time C + stackTime C) k (e2.size + (1 + (e1.size + 1))) (max e2.room (4 + e1.room)) s (fun d => d 0 = e1.eval σ ∧ d 1 = e2.eval σ) ∧ PartAt p rest (k + (e2.size + (1 + (e1.size + 1)))) := by
  have hr1 : e2.room ≤ room := Nat.le_trans (Nat.le_max_left ..) hr
  have hr2 : 4 + e1.room ≤ room := Nat.le_trans (Nat.le_max_right ..) hr
  have p1 := placed_right hp (expr_sized e2)
  have p2 := placed_right p1 words_push.sized
  have p3 := placed_right p2 (expr_sized e1)
  have p4 := placed_cons p3 words_pop
  obtain ⟨op1, d1, sr1, m1, r1, v1, k1, s1, q1⟩ := ih2 h hr1 hpc (placed_left hp)
  have h1 := (h.moved (op := op1) (d := d1) (pc := at_ a (2 * (k + e2.size))) s1 (q1.mono hr1)).mono hr2
  obtain ⟨op2, sr2, m2, r2, s2, v2, q2⟩ := line_push (C := C) h1 rfl (placed_left p1)
  have h2 := h1.lowered (op := op2) (pc := at_ a (2 * (k + e2.size + 1))) s2 q2
  obtain ⟨op3, d3, sr3, m3, r3, v3, k3, s3, q3⟩ := ih1 h2 (Nat.le_refl _) rfl (placed_left p2)
  have hs3 : SameSystem s.cpu.regs.sr sr3 := sameSystem_trans s1 (sameSystem_trans s2 s3)
  have hv : Holds (sz := .Long) m3 (sp - 4) (e2.eval σ) := by
    rw [← v1]
    exact v2.of_eq fun i hi => q3.same _ (not_stackByte_top hi h2.apart.stack)
  obtain ⟨op4, sr4, r4, s4⟩ := line_pop (C := C) (k := k + e2.size + 1 + e1.size) (h2.moved (op := op3) (d := d3) (pc := at_ a (2 * (k + e2.size + 1 + e1.size))) s3 q3)
    (sameSystem_trans s2 s3) h1.stack hv p4.1
  have e : k + e2.size + 1 + e1.size + 1 = k + (e2.size + (1 + (e1.size + 1))) := by omega
  rw [e] at r4 p4
  refine ⟨⟨op4, _, sr4, m3, (((r1.trans r2).trans r3).trans r4).eq (by unfold stackTime; omega), ⟨v3, rfl⟩, fun i hi => ?_, sameSystem_trans s1 s4, ?_⟩, p4.2⟩
  · have hi1 : i ≠ 1 := fun h => by rw [h] at hi; exact absurd hi (by decide)
    show putD d3 1 (e2.eval σ) i = _
    unfold putD
    rw [if_neg hi1, k3 i hi]
    exact (congrFun (setAreg_d _ _ _) i).trans (k1 i hi)
  · have q2' : KeptBut m1 m2 sp (4 + e1.room) := q2
    have q3' : KeptBut m2 m3 sp (4 + e1.room) := ⟨fun b hb => q3.same b fun hb' => hb (stackByte_four hb'), q3.present⟩
    exact (q1.mono (Nat.le_max_left ..)).trans ((q2'.trans q3').mono (Nat.le_max_right ..))

theorem expr_gives [Writable M] (e : Expr n) : ∀ {k : Nat} {s : St M} {sp : U32} {room : Nat}, Env p all a fp σ sp room s → e.room ≤ room → s.cpu.regs.pc = at_ a (2 * k) → PartAt p e.code k →
    ExprGives C p a sp (e.time C) k e.size e.room s fun d => d 0 = e.eval σ := by
  induction e with
  | const v =>
    intro k s sp room h hr hpc hp
    obtain ⟨op, sr, r, hs⟩ := line_const (C := C) (h.loaded hpc) hp
    exact ⟨op, _, sr, s.mem, r, rfl, fun i hi => if_neg fun h => by rw [h] at hi; exact absurd hi (by decide), hs, KeptBut.refl _⟩
  | var i =>
    intro k s sp room h hr hpc hp
    obtain ⟨op, sr, r, hs⟩ := line_var (C := C) h hpc hp
    exact ⟨op, _, sr, s.mem, r, rfl, fun i hi => if_neg fun h => by rw [h] at hi; exact absurd hi (by decide), hs, KeptBut.refl _⟩
  | un o e ih =>
    intro k s sp room h hr hpc hp
    obtain ⟨op, d, sr, m, r, v, hd, hs, q⟩ := ih h hr hpc (placed_left hp)
    have h1 := h.moved (op := op) (d := d) (pc := at_ a (2 * (k + e.size))) hs (q.mono hr)
    obtain ⟨op', sr', r', hs'⟩ := line_un (C := C) (h1.loaded rfl) (placed_right hp (expr_sized e))
    refine ⟨op', _, sr', m, (r.trans r').eq rfl, ?_, fun i hi => (if_neg fun h => by rw [h] at hi; exact absurd hi (by decide)).trans (hd i hi), sameSystem_trans hs hs', q⟩
    show o.apply (d 0) = _
    rw [v]; rfl
  | bin o e1 e2 ih1 ih2 =>
    intro k s sp room h hr hpc hp
    obtain ⟨⟨op, d, sr, m, r, v, hd, hs, q⟩, hp'⟩ := pair_gives (C := C) ih1 ih2 h hr hpc hp
    have h1 := h.moved (op := op) (d := d) (pc := at_ a (2 * (k + (e2.size + (1 + (e1.size + 1)))))) hs (q.mono hr)
    obtain ⟨op', sr', r', hs'⟩ := line_bin (C := C) (h1.loaded rfl) hp'
    refine ⟨op', _, sr', m, (r.trans r').eq rfl, ?_, fun i hi => (if_neg fun h => by rw [h] at hi; exact absurd hi (by decide)).trans (hd i hi), sameSystem_trans hs hs', q⟩
    show o.apply (d 0) (d 1) = _
    rw [v.1, v.2]; rfl

/-- The code of a condition goes on behind itself or jumps. -/
def Decides (C : CpuDetails) (p : List Source) (a sp yes no : U32) (w room : Nat) (b : Bool) (s : St M) : Prop :=
  ∃ op d sr m', Takes C p a w s (moved s op d sr (if b then yes else no) m') ∧ (∀ i : Fin 8, 2 ≤ i.val → d i = s.cpu.regs.d i) ∧ SameSystem s.cpu.regs.sr sr ∧ KeptBut s.mem m' sp room

theorem cond_decides [Writable M] (c : Cond n) : ∀ {k : Nat} {s : St M} {sp no : U32} {room : Nat}, Env p all a fp σ sp room s → c.room ≤ room → s.cpu.regs.pc = at_ a (2 * k) → PartAt p (c.code (at_ a (2 * k)) no) k →
    Decides C p a sp (at_ a (2 * (k + c.size))) no (c.time C σ) c.room (c.eval σ) s := by
  induction c with
  | rel r e1 e2 =>
    intro k s sp no room h hr hpc hp
    obtain ⟨⟨op, d, sr, m, r1, v, hd, hs, q⟩, hp1⟩ := pair_gives (C := C) (expr_gives e1) (expr_gives e2) h hr hpc hp
    have h1 := h.moved (op := op) (d := d) (pc := at_ a (2 * (k + (e2.size + (1 + (e1.size + 1)))))) hs (q.mono hr)
    obtain ⟨p1, hp2⟩ := placed_cons hp1 words_cmp
    obtain ⟨p2, hp3⟩ := placed_cons hp2 (words_bcc r)
    obtain ⟨op2, sr2, r2, o2⟩ := line_cmp (C := C) (h1.loaded rfl) p1
    have hs2 : SameSystem s.cpu.regs.sr sr2 := sameSystem_trans hs o2.system
    have h2 := h.moved (op := op2) (d := d) (pc := at_ a (2 * (k + (e2.size + (1 + (e1.size + 1))) + 1))) hs2 (q.mono hr)
    have o2' : OrderCodes (e1.eval σ) (e2.eval σ) sr sr2 := by
      rw [← v.1, ← v.2]; exact o2
    obtain ⟨op3, r3⟩ := line_bcc (C := C) (h2.loaded rfl) p2 o2'
    cases hb : r.holds (e1.eval σ) (e2.eval σ)
    · rw [hb] at r3
      have h3 := h.moved (op := op3) (d := d) (pc := at_ a (2 * (k + (e2.size + (1 + (e1.size + 1))) + 1 + 1))) hs2 (q.mono hr)
      obtain ⟨op4, r4⟩ := line_jmp (C := C) (h3.loaded rfl) hp3
      simp only [Cond.eval, hb]
      exact ⟨op4, d, sr2, m, (((r1.trans r2).trans r3).trans r4).eq (by simp only [Cond.time, hb]; simp <;> omega), hd, hs2, q⟩
    · rw [hb] at r3
      have e : k + (e2.size + (1 + (e1.size + 1))) + 1 + 4 = k + (Cond.rel r e1 e2).size := by simp only [Cond.size]; omega
      rw [e] at r3
      simp only [Cond.eval, hb]
      exact ⟨op3, d, sr2, m, ((r1.trans r2).trans r3).eq (by simp only [Cond.time, hb]; simp <;> omega), hd, hs2, q⟩
  | not c ih =>
    intro k s sp no room h hr hpc hp
    rw [Cond.code, at_add, ← Nat.mul_add] at hp
    obtain ⟨op, d, sr, m, r, hd, hs, q⟩ := ih h hr hpc (placed_left hp)
    simp only [Cond.eval]
    cases hb : c.eval σ
    · rw [hb] at r
      exact ⟨op, d, sr, m, r.eq (by simp only [Cond.time, hb]; simp), hd, hs, q⟩
    · rw [hb] at r
      have h1 := h.moved (op := op) (d := d) (pc := at_ a (2 * (k + c.size))) hs (q.mono hr)
      obtain ⟨op', r'⟩ := line_jmp (C := C) (h1.loaded rfl) (placed_right hp (cond_sized c _ _))
      exact ⟨op', d, sr, m, (r.trans r').eq (by simp only [Cond.time, hb]; simp <;> omega), hd, hs, q⟩
  | and c1 c2 ih1 ih2 =>
    intro k s sp no room h hr hpc hp
    have hr1 : c1.room ≤ room := Nat.le_trans (Nat.le_max_left ..) hr
    have hr2 : c2.room ≤ room := Nat.le_trans (Nat.le_max_right ..) hr
    rw [Cond.code, at_add, ← Nat.mul_add] at hp
    obtain ⟨op, d, sr, m, r, hd, hs, q⟩ := ih1 h hr1 hpc (placed_left hp)
    simp only [Cond.eval]
    cases hb : c1.eval σ
    · rw [hb] at r
      exact ⟨op, d, sr, m, r.eq (by simp only [Cond.time, hb]; simp), hd, hs, q.mono (Nat.le_max_left ..)⟩
    · rw [hb] at r
      have h1 := h.moved (op := op) (d := d) (pc := at_ a (2 * (k + c1.size))) hs (q.mono hr1)
      obtain ⟨op', d', sr', m', r', hd', hs', q'⟩ := ih2 h1 hr2 rfl (placed_right hp (cond_sized c1 _ _))
      rw [Nat.add_assoc] at r'
      exact ⟨op', d', sr', m', (r.trans r').eq (by simp only [Cond.time, hb]; simp <;> omega), fun i hi => (hd' i hi).trans (hd i hi), sameSystem_trans hs hs', (q.mono (Nat.le_max_left ..)).trans (KeptBut.mono q' (Nat.le_max_right ..))⟩
  | or c1 c2 ih1 ih2 =>
    intro k s sp no room h hr hpc hp
    have hr1 : c1.room ≤ room := Nat.le_trans (Nat.le_max_left ..) hr
    have hr2 : c2.room ≤ room := Nat.le_trans (Nat.le_max_right ..) hr
    rw [Cond.code, at_add, at_add, ← Nat.mul_add, ← Nat.mul_add] at hp
    obtain ⟨op, d, sr, m, r, hd, hs, q⟩ := ih1 h hr1 hpc (placed_left hp)
    have p1 := placed_right hp (cond_sized c1 _ _)
    simp only [Cond.eval]
    cases hb : c1.eval σ
    · rw [hb] at r
      have h1 := h.moved (op := op) (d := d) (pc := at_ a (2 * (k + (c1.size + 3)))) hs (q.mono hr1)
      have p2 := placed_right p1 (words_jmp _).sized
      rw [Nat.add_assoc] at p2
      obtain ⟨op', d', sr', m', r', hd', hs', q'⟩ := ih2 h1 hr2 rfl p2
      rw [show k + (c1.size + 3) + c2.size = k + (Cond.or c1 c2).size by simp only [Cond.size]; omega] at r'
      exact ⟨op', d', sr', m', (r.trans r').eq (by simp only [Cond.time, hb]; simp <;> omega), fun i hi => (hd' i hi).trans (hd i hi), sameSystem_trans hs hs', (q.mono (Nat.le_max_left ..)).trans (KeptBut.mono q' (Nat.le_max_right ..))⟩
    · rw [hb] at r
      have h1 := h.moved (op := op) (d := d) (pc := at_ a (2 * (k + c1.size))) hs (q.mono hr1)
      obtain ⟨op', r'⟩ := line_jmp (C := C) (h1.loaded rfl) (placed_left p1)
      exact ⟨op', d, sr, m, (r.trans r').eq (by simp only [Cond.time, hb]; simp <;> omega), hd, hs, q.mono (Nat.le_max_left ..)⟩

/-- The code of a statement has been executed: the program counter is at `pc`, the variables are `σ'`. -/
def StmtEnds (C : CpuDetails) (p : List Source) (all : List U16) (a fp sp : U32) (w room : Nat) (σ' : Store n) (pc : U32) (s : St M) : Prop :=
  ∃ op d sr m', Takes C p a w s (moved s op d sr pc m') ∧ (∀ i : Fin 8, 2 ≤ i.val → d i = s.cpu.regs.d i) ∧ SameSystem s.cpu.regs.sr sr ∧
    (∀ b, ¬ StackByte sp room b → (∀ j < 4 * n, b ≠ at_ fp j) → Ram.peek m' b = Ram.peek s.mem b) ∧ Env p all a fp σ' sp room (moved s op d sr pc m')

theorem line_assign [Writable M] {i : Fin n} (h : Env p all a fp σ sp room s) (hpc : s.cpu.regs.pc = at_ a (2 * k)) (hp : PartAt p [.move .Long (.disp 6 (varDisp i)) (.dn 0)] k) :
    StmtEnds C p all a fp sp (varTime C) room (σ.set i (s.cpu.regs.d 0)) (at_ a (2 * (k + 2))) s := by
  obtain ⟨ws, hw, hl⟩ := words_assign (varDisp i)
  have hi := i.isLt
  have hc := h.apart.count
  have hev : AlignedFor .Long (at_ fp (4 * i.val)) := even_word (var_even h.apart.varsEven _)
  obtain ⟨m', hm⟩ := store_present (v := low .Long (s.cpu.regs.d 0)) (s := moved s (ws.headD 0) s.cpu.regs.d s.cpu.regs.sr (at_ a (2 * (k + 2))) s.mem) hev (h.varsPresent i)
  obtain ⟨-, -, h2, h3⟩ := store_done hm
  have h4 := store_samePresent hm
  rw [low_long] at h2
  refine ⟨ws.headD 0, s.cpu.regs.d, logicFlags (low .Long (s.cpu.regs.d 0)) s.cpu.regs.sr, m', reach_line (h.loaded hpc) hp hw (fun _ _ h => nomatch h) ?_,
    fun _ _ => rfl, ⟨rfl, rfl, rfl⟩, fun b hb hv => h3 b fun j hj => ?_, ?_⟩
  · rw [afterWords_moved hpc hl]
    refine bind_eq (v := ()) ?_
    show (Spec.move .Long (.disp 6 (varDisp i)) (.dn 0) : Exec M Unit) _ = _
    have er : (read .Long (.dn 0) : Exec M _) (moved s (ws.headD 0) s.cpu.regs.d s.cpu.regs.sr (at_ a (2 * (k + 2))) s.mem) =
      .ok (.dreg 0, low .Long (s.cpu.regs.d 0)) (moved s (ws.headD 0) s.cpu.regs.d s.cpu.regs.sr (at_ a (2 * (k + 2))) s.mem) := rfl
    have ew : (write .Long (.disp 6 (varDisp i)) (low .Long (s.cpu.regs.d 0)) : Exec M _) (moved s (ws.headD 0) s.cpu.regs.d s.cpu.regs.sr (at_ a (2 * (k + 2))) s.mem) =
        .ok () (moved s (ws.headD 0) s.cpu.regs.d s.cpu.regs.sr (at_ a (2 * (k + 2))) m') := by
      have ea : s.cpu.regs.a 6 + signExt (varDisp i) = at_ fp (4 * i.val) := by rw [h.frame, varDisp_ext i h.apart.count]; rfl
      show store .Long (s.cpu.regs.a 6 + signExt (varDisp i)) (low .Long (s.cpu.regs.d 0)) (moved s (ws.headD 0) s.cpu.regs.d s.cpu.regs.sr (at_ a (2 * (k + 2))) s.mem) = _
      rw [ea, hm]
      rfl
    simp only [Spec.move]
    rw [bind_eq er, bind_eq ew]
    rfl
  · have hj' : j < 4 := hj
    rw [at_add]
    exact hv _ (by omega)
  · refine ⟨h.apart, h.words, holdsWords_kept h.held fun j hj => h3 _ fun q hq => ?_, h.running, h.idle, h.untraced, h.frame, h.stack, fun j => ?_, fun b hb => (h4 b).trans (h.room b hb)⟩
    · have hq' : q < 4 := hq
      rw [at_add]
      exact h.apart.codeVars j hj _ (by omega)
    · unfold Store.set
      split
      · rename_i e; rw [e]; exact h2
      · rename_i e
        have hj := j.isLt
        have : j.val ≠ i.val := fun h => e (Fin.ext h)
        refine (h.vars j).of_eq fun q hq => h3 _ fun q' hq' => ?_
        have hq1 : q < 4 := hq
        have hq2 : q' < 4 := hq'
        rw [at_add, at_add]
        exact at_ne_of_lt (by omega) (by omega) (by omega)

theorem StmtEnds.of_kept {op : U16} {d : Fin 8 → U32} {sr : StatusRegister} {m : M} {pc pc' : U32} {j : Nat} (h : Env p all a fp σ sp room s) (hr : j ≤ room)
    (r : Takes C p a w s (moved s op d sr pc' m)) (hd : ∀ i : Fin 8, 2 ≤ i.val → d i = s.cpu.regs.d i) (hs : SameSystem s.cpu.regs.sr sr) (q : KeptBut s.mem m sp j)
    (he : StmtEnds C p all a fp sp w' room σ' pc (moved s op d sr pc' m)) : StmtEnds C p all a fp sp (w + w') room σ' pc s := by
  obtain ⟨op', d', sr', m', r', hd', hs', ho', h'⟩ := he
  exact ⟨op', d', sr', m', (r.trans r'), fun i hi => (hd' i hi).trans (hd i hi), sameSystem_trans hs hs',
    fun b hb hv => (ho' b hb hv).trans (q.same b fun hb' => hb (stackByte_mono hb' hr)), h'⟩

theorem StmtEnds.trans {σ1 : Store n} {pc' pc : U32} (h : StmtEnds C p all a fp sp w room σ1 pc' s)
    (h' : ∀ t : St M, Env p all a fp σ1 sp room t → t.cpu.regs.pc = pc' → StmtEnds C p all a fp sp w' room σ' pc t) : StmtEnds C p all a fp sp (w + w') room σ' pc s := by
  obtain ⟨op, d, sr, m, r, hd, hs, ho, he⟩ := h
  obtain ⟨op', d', sr', m', r', hd', hs', ho', he'⟩ := h' _ he rfl
  exact ⟨op', d', sr', m', (r.trans r'), fun i hi => (hd' i hi).trans (hd i hi), sameSystem_trans hs hs',
    fun b hb hv => (ho' b hb hv).trans (ho b hb hv), he'⟩

theorem jmp_ends {x : U32} (h : Env p all a fp σ sp room s) (hpc : s.cpu.regs.pc = at_ a (2 * k)) (hp : PartAt p [.jmp (.absL x)] k) : StmtEnds C p all a fp sp C.JMP_ABSLONG room σ x s := by
  obtain ⟨op, r⟩ := line_jmp (C := C) (h.loaded hpc) hp
  exact ⟨op, _, _, _, r, fun _ _ => rfl, ⟨rfl, rfl, rfl⟩, fun _ _ _ => rfl, h.moved ⟨rfl, rfl, rfl⟩ (KeptBut.refl _)⟩

theorem stmt_ends [Writable M] {st : Stmt n} (hrun : PerformsTimed C st σ σ' w) : ∀ {k : Nat} {s : St M}, Env p all a fp σ sp room s → st.room ≤ room → s.cpu.regs.pc = at_ a (2 * k) → PartAt p (st.code (at_ a (2 * k))) k →
    StmtEnds C p all a fp sp w room σ' (at_ a (2 * (k + st.size))) s := by
  induction hrun with
  | skip σ =>
    intro k s h hr hpc hp
    exact ⟨s.cpu.currentOpcode, s.cpu.regs.d, s.cpu.regs.sr, s.mem, cast (congrArg _ (show s = _ by rw [show at_ a (2 * (k + (Stmt.skip : Stmt n).size)) = s.cpu.regs.pc from hpc.symm]; rfl)) (Takes.refl s), fun _ _ => rfl, ⟨rfl, rfl, rfl⟩,
      fun _ _ _ => rfl, h.moved ⟨rfl, rfl, rfl⟩ (KeptBut.refl _)⟩
  | assign i e σ =>
    intro k s h hr hpc hp
    obtain ⟨op, d, sr, m, r, v, hd, hs, q⟩ := expr_gives (C := C) e h hr hpc (placed_left hp)
    have h1 := h.moved (op := op) (d := d) (pc := at_ a (2 * (k + e.size))) hs (q.mono hr)
    have h2 := line_assign (C := C) h1 rfl (placed_right hp (expr_sized e))
    rw [show (moved s op d sr (at_ a (2 * (k + e.size))) m).cpu.regs.d 0 = e.eval σ from v, Nat.add_assoc] at h2
    exact StmtEnds.of_kept h hr r hd hs q h2
  | @seq st tt σ σ1 σ' w1 w2 _ _ ih1 ih2 =>
    intro k s h hr hpc hp
    rw [Stmt.code, at_add, ← Nat.mul_add] at hp
    refine (ih1 h (Nat.le_trans (Nat.le_max_left ..) hr) hpc (placed_left hp)).trans fun t ht hpt => ?_
    rw [show k + (Stmt.seq st tt).size = k + st.size + tt.size by simp only [Stmt.size]; omega]
    exact ih2 ht (Nat.le_trans (Nat.le_max_right ..) hr) hpt (placed_right hp (stmt_sized st _))
  | @iteTrue c st tt σ σ' w1 hc _ ih =>
    intro k s h hr hpc hp
    have hr1 : c.room ≤ room := Nat.le_trans (Nat.le_max_left ..) hr
    have hr2 : st.room ≤ room := Nat.le_trans (Nat.le_trans (Nat.le_max_left ..) (Nat.le_max_right ..)) hr
    obtain ⟨p0, p1, p2, p3⟩ := placed_ite hp
    obtain ⟨op, d, sr, m, r, hd, hs, q⟩ := cond_decides (C := C) c h hr1 hpc p0
    rw [hc] at r
    have h1 := h.moved (op := op) (d := d) (pc := at_ a (2 * (k + c.size))) hs (q.mono hr1)
    exact StmtEnds.of_kept h hr1 r hd hs q ((ih h1 hr2 rfl p1).trans fun t ht hpt => jmp_ends ht hpt p2)
  | @iteFalse c st tt σ σ' w1 hc _ ih =>
    intro k s h hr hpc hp
    have hr1 : c.room ≤ room := Nat.le_trans (Nat.le_max_left ..) hr
    have hr2 : tt.room ≤ room := Nat.le_trans (Nat.le_trans (Nat.le_max_right ..) (Nat.le_max_right ..)) hr
    obtain ⟨p0, p1, p2, p3⟩ := placed_ite hp
    obtain ⟨op, d, sr, m, r, hd, hs, q⟩ := cond_decides (C := C) c h hr1 hpc p0
    rw [hc] at r
    have h1 := h.moved (op := op) (d := d) (pc := at_ a (2 * (k + (c.size + (st.size + 3))))) hs (q.mono hr1)
    have h2 := ih h1 hr2 rfl p3
    rw [show k + (c.size + (st.size + 3)) + tt.size = k + (Stmt.ite c st tt).size by simp only [Stmt.size]; omega] at h2
    exact StmtEnds.of_kept h hr1 r hd hs q h2
  | @loopEnd c st σ hc =>
    intro k s h hr hpc hp
    have hr1 : c.room ≤ room := Nat.le_trans (Nat.le_max_left ..) hr
    obtain ⟨p0, p1, p2⟩ := placed_loop hp
    obtain ⟨op, d, sr, m, r, hd, hs, q⟩ := cond_decides (C := C) c h hr1 hpc p0
    rw [hc] at r
    exact ⟨op, d, sr, m, r, hd, hs, fun b hb _ => q.same b fun hb' => hb (stackByte_mono hb' hr1), h.moved hs (q.mono hr1)⟩
  | @loopTurn c st σ σ1 σ' w1 w2 hc _ _ ih1 ih2 =>
    intro k s h hr hpc hp
    have hr1 : c.room ≤ room := Nat.le_trans (Nat.le_max_left ..) hr
    have hr2 : st.room ≤ room := Nat.le_trans (Nat.le_max_right ..) hr
    obtain ⟨p0, p1, p2⟩ := placed_loop hp
    obtain ⟨op, d, sr, m, r, hd, hs, q⟩ := cond_decides (C := C) c h hr1 hpc p0
    rw [hc] at r
    have h1 := h.moved (op := op) (d := d) (pc := at_ a (2 * (k + c.size))) hs (q.mono hr1)
    exact StmtEnds.of_kept h hr1 r hd hs q ((ih1 h1 hr2 rfl p1).trans fun t ht hpt => (jmp_ends ht hpt p2).trans fun u hu hpu => ih2 hu hr hpu hp)

end M68k.Exec.Timed
