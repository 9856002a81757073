import Verif.Spec.Routines
import Verif.Lemmas.CompileStmt
/-
Lemmas for C88: sizes and places of the code, and the lines that call, return and restore.
-/
namespace M68k.Exec
open Spec
set_option linter.unusedSectionVars false
variable {M : Type} [MemoryAccess M] [Ram M] {C : CpuDetails} {s s' s1 s2 : St M} {p : List Source} {a fp sp : U32} {n k room : Nat} {all : List U16} {σ σ' : Store n}

theorem words_jsr (x : U32) : Words (.jsr (.absL x)) 3 := ⟨_, rfl, rfl⟩
theorem words_rts : Words .rts 1 := ⟨_, rfl, rfl⟩
theorem words_restore (d : U16) : Words (.move .Long (.disp 6 d) (.dn 1)) 2 := ⟨_, rfl, rfl⟩

theorem cmd_sized (st : Cmd n) (entry : Nat → U32) (pc : U32) : Sized (st.code entry pc) st.size := by
  induction st generalizing pc with
  | skip => exact ⟨[], rfl, rfl⟩
  | assign i e => exact sized_append (expr_sized e) (words_assign _).sized
  | seq s t h1 h2 => exact sized_append (h1 _) (h2 _)
  | ite c s t h1 h2 => exact sized_append (cond_sized c _ _) (sized_append (h1 _) (sized_append (words_jmp _).sized (h2 _)))
  | loop c s ih => exact sized_append (cond_sized c _ _) (sized_append (ih _) (words_jmp _).sized)
  | keep i s ih => exact sized_append (words_var _).sized (sized_append words_push.sized (sized_append (ih _) (sized_append words_pop.sized (words_restore _).sized)))
  | call f => exact (words_jsr _).sized

theorem routines_sized (ps : List (Cmd n)) (entry : Nat → U32) (pc : U32) : Sized (routinesCode entry pc ps) (routinesSize ps) := by
  induction ps generalizing pc with
  | nil => exact ⟨[], rfl, rfl⟩
  | cons s ps ih => exact sized_append (cmd_sized s _ _) (sized_append words_rts.sized (ih _))

/-- The code of procedure `f` in the code of the procedures. -/
theorem routine_placed {ps : List (Cmd n)} {entry : Nat → U32} {f : Nat} {b : Cmd n} (hp : PartAt p (routinesCode entry (at_ a (2 * k)) ps) k) (hf : ps[f]? = some b) :
    PartAt p (b.code entry (at_ a (2 * (k + routinesSize (ps.take f)))) ++ [.rts]) (k + routinesSize (ps.take f)) := by
  induction ps generalizing k f with
  | nil => cases hf
  | cons c ps ih =>
    rw [routinesCode, at_add, ← Nat.mul_add] at hp
    match f with
    | 0 =>
      cases hf
      obtain ⟨x, y, e, hx⟩ := hp
      exact ⟨x, routinesCode entry (at_ a (2 * (k + (b.size + 1)))) ps ++ y, by rw [e]; simp [routinesSize], hx⟩
    | f + 1 =>
      have h1 := placed_right (placed_right hp (cmd_sized c _ _)) words_rts.sized
      rw [Nat.add_assoc] at h1
      have h2 := ih h1 hf
      rw [show k + (c.size + 1) + routinesSize (ps.take f) = k + routinesSize ((c :: ps).take (f + 1)) by simp only [List.take_succ_cons, routinesSize]; omega] at h2
      exact h2

theorem stackByte_split {r : Nat} {b : U32} (h : StackByte sp (4 + r) b) : (∃ i < 4, b = at_ (sp - 4) i) ∨ StackByte (sp - 4) r b := by
  obtain ⟨j, hj, rfl⟩ := h
  have e4 : (4 : U32).toNat = 4 := rfl
  have := sp.isLt
  by_cases h : j < 4
  · refine .inl ⟨3 - j, by omega, ?_⟩
    apply BitVec.eq_of_toNat_eq
    simp only [at_, BitVec.toNat_sub, BitVec.toNat_add, BitVec.toNat_ofNat]
    rw [e4]
    omega
  · refine .inr ⟨j - 4, by omega, ?_⟩
    apply BitVec.eq_of_toNat_eq
    simp only [BitVec.toNat_sub, BitVec.toNat_ofNat]
    rw [e4]
    omega

theorem line_jsr [Writable M] {x : U32} (h : Env p all a fp σ sp (4 + room) s) (hpc : s.cpu.regs.pc = at_ a (2 * k)) (hp : PartAt p [.jsr (.absL x)] k) :
    ∃ op m', Reach C p a 1 s (lowered s op s.cpu.regs.sr x m') ∧ Holds (sz := .Long) m' (sp - 4) (at_ a (2 * (k + 3))) ∧ KeptBut s.mem m' sp (4 + room) := by
  obtain ⟨ws, hw, hl⟩ := words_jsr x
  have hpres : Present s.mem (sp - 4) (bytes .Long) := fun i hi => h.room _ (stackByte_top hi)
  have hev : AlignedFor .Long (sp - 4) := even_word (odd_sub_four h.apart.stackEven)
  obtain ⟨m', hm⟩ := store_present (v := (at_ a (2 * (k + 3)) : Val .Long))
    (s := ⟨{ s.cpu with currentOpcode := ws.headD 0, regs := { setAreg s.cpu.regs 7 (areg s.cpu.regs 7 - 4) with pc := at_ a (2 * (k + 3)) } }, s.mem⟩) hev hpres
  obtain ⟨-, -, h2, h3⟩ := store_done hm
  have h4 := store_samePresent hm
  refine ⟨ws.headD 0, m', reach_line (h.loaded hpc) hp hw (fun _ _ h => nomatch h) ?_, h2, fun b hb => h3 b fun i hi e => hb (e ▸ stackByte_top hi), h4⟩
  rw [afterWords_moved hpc hl]
  refine ⟨_, bind_eq (v := ()) ?_⟩
  show (Spec.jsr ((Mode.absL x).at _) : Exec M Unit) _ = _
  have el : (locate .Long (.predec 7) : Exec M _) (moved s (ws.headD 0) s.cpu.regs.d s.cpu.regs.sr (at_ a (2 * (k + 3))) s.mem) =
      .ok (.mem (sp - 4)) ⟨{ s.cpu with currentOpcode := ws.headD 0, regs := { setAreg s.cpu.regs 7 (areg s.cpu.regs 7 - 4) with pc := at_ a (2 * (k + 3)) } }, s.mem⟩ := by
    rw [← h.stack]
    simp only [locate, place, moved]
    congr 1
    obtain ⟨⟨⟨d, aa, usp, ssp, ⟨t, sv, im, x, nn, z, v, c⟩, pc⟩, op, st, ex⟩, m⟩ := s
    cases sv <;> rfl
  have ew : (push .Long (at_ a (2 * (k + 3))) : Exec M _) (moved s (ws.headD 0) s.cpu.regs.d s.cpu.regs.sr (at_ a (2 * (k + 3))) s.mem) =
      .ok () ⟨{ s.cpu with currentOpcode := ws.headD 0, regs := { setAreg s.cpu.regs 7 (areg s.cpu.regs 7 - 4) with pc := at_ a (2 * (k + 3)) } }, m'⟩ := by
    simp only [push, write]
    rw [bind_eq el]
    exact hm
  simp only [Spec.jsr]
  refine (bind_eq (x := (getR (·.pc) : Exec M U32)) (v := at_ a (2 * (k + 3))) (s' := moved s (ws.headD 0) s.cpu.regs.d s.cpu.regs.sr (at_ a (2 * (k + 3))) s.mem) rfl).trans ?_
  refine (bind_eq ew).trans ?_
  show Res.ok () _ = Res.ok () _
  simp only [Exec.lowered]
  congr 2
  congr 1
  obtain ⟨⟨⟨d, aa, usp, ssp, ⟨t, sv, im, x, nn, z, v, c⟩, pc⟩, op, st, ex⟩, m⟩ := s
  cases sv <;> rfl

theorem line_rts {op1 op2 : U16} {d2 : Fin 8 → U32} {sr1 sr2 : StatusRegister} {pc1 v : U32} {m1 m2 : M} (h : Env p all a fp σ (sp - 4) room (moved (lowered s op1 sr1 pc1 m1) op2 d2 sr2 (at_ a (2 * k)) m2))
    (hs : SameSystem s.cpu.regs.sr sr2) (hsp : areg s.cpu.regs 7 = sp) (hv : Holds (sz := .Long) m2 (sp - 4) v) (hp : PartAt p [.rts] k) :
    ∃ op, Reach C p a 1 (moved (lowered s op1 sr1 pc1 m1) op2 d2 sr2 (at_ a (2 * k)) m2) (moved s op d2 sr2 v m2) := by
  obtain ⟨ws, hw, hl⟩ := words_rts
  refine ⟨ws.headD 0, reach_line (h.loaded rfl) hp hw (fun _ _ h => nomatch h) ?_⟩
  rw [afterWords_moved (k := k) rfl hl]
  have hev : AlignedFor .Long (sp - 4) := even_word h.apart.stackEven
  have er : (pop .Long : Exec M _) (moved (moved (lowered s op1 sr1 pc1 m1) op2 d2 sr2 (at_ a (2 * k)) m2) (ws.headD 0) d2 sr2 (at_ a (2 * (k + 1))) m2) =
      .ok v (moved s (ws.headD 0) d2 sr2 (at_ a (2 * (k + 1))) m2) := by
    have el : (locate .Long (.postinc 7) : Exec M _) (moved (moved (lowered s op1 sr1 pc1 m1) op2 d2 sr2 (at_ a (2 * k)) m2) (ws.headD 0) d2 sr2 (at_ a (2 * (k + 1))) m2) =
        .ok (.mem (sp - 4)) (moved s (ws.headD 0) d2 sr2 (at_ a (2 * (k + 1))) m2) := by
      have e4 : (step 7 .Long) = (4 : U32) := by decide
      clear h hv hev hp
      subst hsp
      obtain ⟨-, hs, -⟩ := hs
      obtain ⟨t2, sv2, im2, x2, nn2, z2, v2, c2⟩ := sr2
      obtain ⟨⟨⟨d, aa, usp, ssp, ⟨t, sv, im, x, nn, z, v, c⟩, pc⟩, op, st, ex⟩, m⟩ := s
      subst hs
      cases sv2
      · have e : usp - 4 + 4 = usp := BitVec.sub_add_cancel ..
        simp only [locate, place, e4]
        show Res.ok (Place.mem (usp - 4)) (St.mk ⟨⟨d2, aa, usp - 4 + 4, ssp, _, _⟩, _, _, _⟩ m2) = Res.ok (Place.mem (usp - 4)) (St.mk ⟨⟨d2, aa, usp, ssp, _, _⟩, _, _, _⟩ m2)
        rw [e]
        rfl
      · have e : ssp - 4 + 4 = ssp := BitVec.sub_add_cancel ..
        simp only [locate, place, e4]
        show Res.ok (Place.mem (ssp - 4)) (St.mk ⟨⟨d2, aa, usp, ssp - 4 + 4, _, _⟩, _, _, _⟩ m2) = Res.ok (Place.mem (ssp - 4)) (St.mk ⟨⟨d2, aa, usp, ssp, _, _⟩, _, _, _⟩ m2)
        rw [e]
        rfl
    simp only [Spec.pop, Spec.read]
    have e1 : (do
        let p ← locate .Long (.postinc 7)
        match p with
        | .mem ad => (do let v ← load .Long ad; pure (Place.mem ad, v))
        | .dreg i => (do let r ← getR (·.d i); pure (Place.dreg i, low .Long r))
        | .areg i => (do let r ← getR (areg · i); pure (Place.areg i, low .Long r))
        | .imm v => pure (Place.imm v, low .Long v) : Exec M (Place × Val .Long)) (moved (moved (lowered s op1 sr1 pc1 m1) op2 d2 sr2 (at_ a (2 * k)) m2) (ws.headD 0) d2 sr2 (at_ a (2 * (k + 1))) m2) =
        .ok (.mem (sp - 4), v) (moved s (ws.headD 0) d2 sr2 (at_ a (2 * (k + 1))) m2) := by
      rw [bind_eq el]
      exact bind_eq (load_holds (v := (v : Val .Long)) hev hv)
    exact bind_eq e1
  refine ⟨_, bind_eq (v := ()) ?_⟩
  show (Spec.rts : Exec M Unit) _ = _
  simp only [Spec.rts]
  refine (bind_eq er).trans ?_
  rfl

end M68k.Exec
