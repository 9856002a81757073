import Verif.Lemmas.CompileRun
/-
Lemmas for C87: the lines that access the memory, and the code of expressions.
-/
namespace M68k.Exec
open Spec
set_option linter.unusedSectionVars false
variable {M : Type} [MemoryAccess M] [Ram M] {C : CpuDetails} {s s' s1 s2 : St M} {p : List Source} {a fp sp : U32} {n k room : Nat} {all : List U16} {σ : Store n}

theorem sameSystem_trans {x y z : StatusRegister} (h : SameSystem x y) (h' : SameSystem y z) : SameSystem x z :=
  ⟨h'.1.trans h.1, h'.2.1.trans h.2.1, h'.2.2.trans h.2.2⟩

theorem varDisp_ext (i : Fin n) (h : n ≤ 8192) : signExt (varDisp i) = BitVec.ofNat 32 (4 * i.val) := by
  have hi := i.isLt
  have e : (varDisp i).toInt = 4 * i.val := by
    unfold varDisp
    rw [BitVec.toInt_eq_toNat_cond, BitVec.toNat_ofNat]
    have : 4 * i.val % 2 ^ 16 = 4 * i.val := Nat.mod_eq_of_lt (by omega)
    rw [this, if_pos (by omega)]
    omega
  unfold signExt
  rw [e]
  apply BitVec.eq_of_toNat_eq
  rw [BitVec.toNat_ofInt, BitVec.toNat_ofNat]
  omega

theorem var_even (h : ¬ Spec.Odd fp) (i : Nat) : ¬ Spec.Odd (at_ fp (4 * i)) := by
  unfold Spec.Odd at h ⊢
  simp only [at_, BitVec.toNat_add, BitVec.toNat_ofNat]
  omega

theorem line_var {i : Fin n} (h : Env p all a fp σ sp room s) (hpc : s.cpu.regs.pc = at_ a (2 * k)) (hp : PartAt p [.move .Long (.dn 0) (.disp 6 (varDisp i))] k) :
    ∃ op sr, Reach C p a 1 s (moved s op (putD s.cpu.regs.d 0 (σ i)) sr (at_ a (2 * (k + 2))) s.mem) ∧ SameSystem s.cpu.regs.sr sr := by
  have := reach_regs (C := C) (d := putD s.cpu.regs.d 0 (σ i)) (sr := logicFlags (σ i : Val .Long) s.cpu.regs.sr) (h.loaded hpc) hp (words_var _) (fun _ _ h => nomatch h) fun op pc pc' => by
    have e : putD s.cpu.regs.d 0 (σ i) = putD s.cpu.regs.d 0 (insertLow .Long (s.cpu.regs.d 0) (σ i : Val .Long)) := by rw [insertLow_long]
    rw [e]
    refine ⟨_, bind_eq (v := ()) ?_⟩
    have er : (read .Long (.disp 6 (varDisp i)) : Exec M _) (moved s op s.cpu.regs.d s.cpu.regs.sr pc' s.mem) =
        .ok (.mem (at_ fp (4 * i.val)), σ i) (moved s op s.cpu.regs.d s.cpu.regs.sr pc' s.mem) := by
      have ea : s.cpu.regs.a 6 + signExt (varDisp i) = at_ fp (4 * i.val) := by rw [h.frame, varDisp_ext i h.apart.count]; rfl
      show (load .Long (s.cpu.regs.a 6 + signExt (varDisp i)) >>= fun v => pure (Place.mem (s.cpu.regs.a 6 + signExt (varDisp i)), v)) (moved s op s.cpu.regs.d s.cpu.regs.sr pc' s.mem) = _
      rw [ea]
      exact bind_eq (load_holds (s := moved s op s.cpu.regs.d s.cpu.regs.sr pc' s.mem) (even_word (var_even h.apart.varsEven _)) (h.vars i))
    show (Spec.move .Long (.dn 0) (.disp 6 (varDisp i)) : Exec M Unit) _ = _
    simp only [Spec.move]
    rw [bind_eq er]
    rfl
  exact this.elim fun op h => ⟨op, _, h, rfl, rfl, rfl⟩

theorem Env.varsPresent (h : Env p all a fp σ sp room s) (i : Fin n) : Present s.mem (at_ fp (4 * i.val)) (bytes .Long) := present_of_holds (h.vars i)

/-- `s` with the stack pointer four bytes lower. -/
def lowered (s : St M) (op : U16) (sr : StatusRegister) (pc : U32) (m : M) : St M :=
  ⟨{ s.cpu with currentOpcode := op, regs := { setAreg s.cpu.regs 7 (areg s.cpu.regs 7 - 4) with sr := sr, pc := pc } }, m⟩

theorem line_push [Writable M] (h : Env p all a fp σ sp (4 + room) s) (hpc : s.cpu.regs.pc = at_ a (2 * k)) (hp : PartAt p [.move .Long (.predec 7) (.dn 0)] k) :
    ∃ op sr m', Reach C p a 1 s (lowered s op sr (at_ a (2 * (k + 1))) m') ∧ SameSystem s.cpu.regs.sr sr ∧ Holds (sz := .Long) m' (sp - 4) (s.cpu.regs.d 0) ∧ KeptBut s.mem m' sp (4 + room) := by
  obtain ⟨ws, hw, hl⟩ := words_push
  have hpres : Present s.mem (sp - 4) (bytes .Long) := fun i hi => h.room _ (stackByte_top hi)
  have hev : AlignedFor .Long (sp - 4) := even_word (odd_sub_four h.apart.stackEven)
  obtain ⟨m', hm⟩ := store_present (v := low .Long (s.cpu.regs.d 0))
    (s := ⟨{ s.cpu with currentOpcode := ws.headD 0, regs := { setAreg s.cpu.regs 7 (areg s.cpu.regs 7 - 4) with pc := at_ a (2 * (k + 1)) } }, s.mem⟩) hev hpres
  obtain ⟨-, -, h2, h3⟩ := store_done hm
  have h4 := store_samePresent hm
  refine ⟨ws.headD 0, logicFlags (low .Long (s.cpu.regs.d 0)) s.cpu.regs.sr, m', reach_line (h.loaded hpc) hp hw (fun _ _ h => nomatch h) ?_, ⟨rfl, rfl, rfl⟩, ?_, ?_⟩
  · rw [afterWords_moved hpc hl]
    refine ⟨_, bind_eq (v := ()) ?_⟩
    show (Spec.move .Long (.predec 7) (.dn 0) : Exec M Unit) _ = _
    have er : (read .Long (.dn 0) : Exec M _) (moved s (ws.headD 0) s.cpu.regs.d s.cpu.regs.sr (at_ a (2 * (k + 1))) s.mem) =
      .ok (.dreg 0, low .Long (s.cpu.regs.d 0)) (moved s (ws.headD 0) s.cpu.regs.d s.cpu.regs.sr (at_ a (2 * (k + 1))) s.mem) := rfl
    have el : (locate .Long (.predec 7) : Exec M _) (moved s (ws.headD 0) s.cpu.regs.d s.cpu.regs.sr (at_ a (2 * (k + 1))) s.mem) =
        .ok (.mem (sp - 4)) ⟨{ s.cpu with currentOpcode := ws.headD 0, regs := { setAreg s.cpu.regs 7 (areg s.cpu.regs 7 - 4) with pc := at_ a (2 * (k + 1)) } }, s.mem⟩ := by
      rw [← h.stack]
      simp only [locate, place, moved]
      congr 1
      obtain ⟨⟨⟨d, aa, usp, ssp, ⟨t, sv, im, x, nn, z, v, c⟩, pc⟩, op, st, ex⟩, m⟩ := s
      cases sv <;> rfl
    have ew : (write .Long (.predec 7) (low .Long (s.cpu.regs.d 0)) : Exec M _) (moved s (ws.headD 0) s.cpu.regs.d s.cpu.regs.sr (at_ a (2 * (k + 1))) s.mem) =
        .ok () ⟨{ s.cpu with currentOpcode := ws.headD 0, regs := { setAreg s.cpu.regs 7 (areg s.cpu.regs 7 - 4) with pc := at_ a (2 * (k + 1)) } }, m'⟩ := by
      simp only [write]
      rw [bind_eq el]
      exact hm
    simp only [Spec.move]
    rw [bind_eq er, bind_eq ew]
    simp only [setFlags, modR, lowered, setAreg_sr]
  · rw [low_long] at h2; exact h2
  · exact ⟨fun b hb => h3 b fun i hi e => hb (e ▸ stackByte_top hi), h4⟩

theorem line_pop {op1 op2 : U16} {d2 : Fin 8 → U32} {sr1 sr2 : StatusRegister} {pc1 v : U32} {m1 m2 : M} (h : Env p all a fp σ (sp - 4) room (moved (lowered s op1 sr1 pc1 m1) op2 d2 sr2 (at_ a (2 * k)) m2))
    (hs : SameSystem s.cpu.regs.sr sr2) (hsp : areg s.cpu.regs 7 = sp) (hv : Holds (sz := .Long) m2 (sp - 4) v) (hp : PartAt p [.move .Long (.dn 1) (.postinc 7)] k) :
    ∃ op sr, Reach C p a 1 (moved (lowered s op1 sr1 pc1 m1) op2 d2 sr2 (at_ a (2 * k)) m2) (moved s op (putD d2 1 v) sr (at_ a (2 * (k + 1))) m2) ∧ SameSystem s.cpu.regs.sr sr := by
  obtain ⟨ws, hw, hl⟩ := words_pop
  refine ⟨ws.headD 0, logicFlags (v : Val .Long) sr2, reach_line (h.loaded rfl) hp hw (fun _ _ h => nomatch h) ?_, hs⟩
  rw [afterWords_moved (k := k) rfl hl]
  have hev : AlignedFor .Long (sp - 4) := even_word h.apart.stackEven
  have er : (read .Long (.postinc 7) : Exec M _) (moved (moved (lowered s op1 sr1 pc1 m1) op2 d2 sr2 (at_ a (2 * k)) m2) (ws.headD 0) d2 sr2 (at_ a (2 * (k + 1))) m2) =
      .ok (.mem (sp - 4), v) (moved s (ws.headD 0) d2 sr2 (at_ a (2 * (k + 1))) m2) := by
    have el : (locate .Long (.postinc 7) : Exec M _) (moved (moved (lowered s op1 sr1 pc1 m1) op2 d2 sr2 (at_ a (2 * k)) m2) (ws.headD 0) d2 sr2 (at_ a (2 * (k + 1))) m2) =
        .ok (.mem (sp - 4)) (moved s (ws.headD 0) d2 sr2 (at_ a (2 * (k + 1))) m2) := by
      have e4 : (step 7 .Long) = (4 : U32) := by decide
      clear h hv hev hp
      subst hsp
      obtain ⟨-, hs, -⟩ := hs
      obtain ⟨t2, sv2, im2, x2, nn2, z2, v2, c2⟩ := sr2
      obtain ⟨⟨⟨d, aa, usp, ssp, ⟨t, sv, im, x, nn, z, v, c⟩, pc⟩, op, st, ex⟩, m⟩ := s
      subst hs
      cases sv2
      · have e : usp - 4 + 4 = usp := BitVec.sub_add_cancel ..
        simp only [locate, place, e4]
        show Res.ok (Place.mem (usp - 4)) (St.mk ⟨⟨d2, aa, usp - 4 + 4, ssp, _, _⟩, _, _, _⟩ m2) = Res.ok (Place.mem (usp - 4)) (St.mk ⟨⟨d2, aa, usp, ssp, _, _⟩, _, _, _⟩ m2)
        rw [e]
        rfl
      · have e : ssp - 4 + 4 = ssp := BitVec.sub_add_cancel ..
        simp only [locate, place, e4]
        show Res.ok (Place.mem (ssp - 4)) (St.mk ⟨⟨d2, aa, usp, ssp - 4 + 4, _, _⟩, _, _, _⟩ m2) = Res.ok (Place.mem (ssp - 4)) (St.mk ⟨⟨d2, aa, usp, ssp, _, _⟩, _, _, _⟩ m2)
        rw [e]
        rfl
    simp only [Spec.read]
    rw [bind_eq el]
    show (load .Long (sp - 4) >>= fun v => pure (Place.mem (sp - 4), v)) _ = _
    rw [bind_eq (load_holds (v := (v : Val .Long)) hev hv)]
    rfl
  have e : putD d2 1 v = putD d2 1 (insertLow .Long (d2 1) (v : Val .Long)) := by rw [insertLow_long]
  rw [e]
  refine ⟨_, bind_eq (v := ()) ?_⟩
  show (Spec.move .Long (.dn 1) (.postinc 7) : Exec M Unit) _ = _
  simp only [Spec.move]
  refine (bind_eq er).trans ?_
  rfl

end M68k.Exec
