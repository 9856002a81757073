import Verif.Lemmas.Compile
/-
Lemmas for C87: what the lines of the compiled code do.
-/
namespace M68k.Exec
open Spec
set_option linter.unusedSectionVars false
variable {M : Type} [MemoryAccess M] [Ram M] {C : CpuDetails} {s s' s1 s2 : St M} {p : List Source} {a fp sp : U32} {n k room : Nat} {all : List U16} {σ : Store n}

/-- Data registers with another value for one of them. -/
def putD (d : Fin 8 → U32) (i : Fin 8) (v : U32) : Fin 8 → U32 := fun j => if j = i then v else d j

/-- A line that changes data registers and flags. -/
theorem reach_regs {l : Source} {j : Nat} {d : Fin 8 → U32} {sr : StatusRegister} (h : Loaded p a k s) (hp : PartAt p [l] k) (hw : Words l j) (hb : ∀ b v, l ≠ .btstStatic b (.imm v))
    (he : ∀ (op : U16) (pc pc' : U32), ∃ c, l.effect C pc (moved s op s.cpu.regs.d s.cpu.regs.sr pc' s.mem) = .ok c (moved s op d sr pc' s.mem)) :
    ∃ op, Reach C p a 1 s (moved s op d sr (at_ a (2 * (k + j))) s.mem) := by
  obtain ⟨ws, hw, hl⟩ := hw
  refine ⟨ws.headD 0, reach_line h hp hw hb ?_⟩
  rw [afterWords_moved h.here hl]
  exact he _ _ _

theorem line_const {v : U32} (h : Loaded p a k s) (hp : PartAt p [.move .Long (.dn 0) (.imm v)] k) :
    ∃ op sr, Reach C p a 1 s (moved s op (putD s.cpu.regs.d 0 v) sr (at_ a (2 * (k + 3))) s.mem) ∧ SameSystem s.cpu.regs.sr sr := by
  have := reach_regs (C := C) (d := putD s.cpu.regs.d 0 v) (sr := logicFlags (low .Long v) s.cpu.regs.sr) h hp (words_const v) (fun _ _ h => nomatch h) fun op pc pc' => by
    have e : putD s.cpu.regs.d 0 v = putD s.cpu.regs.d 0 (insertLow .Long (s.cpu.regs.d 0) (low .Long v)) := by rw [insertLow_long, low_long]
    rw [e]
    exact ⟨_, rfl⟩
  exact this.elim fun op h => ⟨op, _, h, rfl, rfl, rfl⟩

theorem line_un {o : UnOp} (h : Loaded p a k s) (hp : PartAt p [o.line] k) :
    ∃ op sr, Reach C p a 1 s (moved s op (putD s.cpu.regs.d 0 (o.apply (s.cpu.regs.d 0))) sr (at_ a (2 * (k + 1))) s.mem) ∧ SameSystem s.cpu.regs.sr sr := by
  cases o with
  | neg =>
    have := reach_regs (C := C) (d := putD s.cpu.regs.d 0 (-(s.cpu.regs.d 0))) (sr := (difference false 0 (low .Long (s.cpu.regs.d 0)) s.cpu.regs.sr).2) h hp (words_un .neg) (fun _ _ h => nomatch h) fun op pc pc' => by
      have e : putD s.cpu.regs.d 0 (-(s.cpu.regs.d 0)) = putD s.cpu.regs.d 0 (insertLow .Long (s.cpu.regs.d 0) (difference false 0 (low .Long (s.cpu.regs.d 0)) s.cpu.regs.sr).1) := by
        rw [insertLow_long]
        congr 1
        show _ = BitVec.ofInt 32 ((0 : U32).toInt - (low .Long (s.cpu.regs.d 0)).toInt - (0 : Nat))
        rw [low_long]
        apply BitVec.eq_of_toInt_eq
        rw [BitVec.toInt_neg, BitVec.toInt_ofInt]
        simp
      rw [e]
      exact ⟨_, rfl⟩
    exact this.elim fun op h => ⟨op, _, h, rfl, rfl, rfl⟩
  | not =>
    have := reach_regs (C := C) (d := putD s.cpu.regs.d 0 (~~~(s.cpu.regs.d 0))) (sr := logicFlags (~~~(low .Long (s.cpu.regs.d 0))) s.cpu.regs.sr) h hp (words_un .not) (fun _ _ h => nomatch h) fun op pc pc' => by
      have e : putD s.cpu.regs.d 0 (~~~(s.cpu.regs.d 0)) = putD s.cpu.regs.d 0 (insertLow .Long (s.cpu.regs.d 0) (~~~(low .Long (s.cpu.regs.d 0)))) := by
        rw [insertLow_long, low_long]
      rw [e]
      exact ⟨_, rfl⟩
    exact this.elim fun op h => ⟨op, _, h, rfl, rfl, rfl⟩

theorem line_bin {o : BinOp} (h : Loaded p a k s) (hp : PartAt p [o.line] k) :
    ∃ op sr, Reach C p a 1 s (moved s op (putD s.cpu.regs.d 0 (o.apply (s.cpu.regs.d 0) (s.cpu.regs.d 1))) sr (at_ a (2 * (k + 1))) s.mem) ∧ SameSystem s.cpu.regs.sr sr := by
  have key : ∀ (v : Val .Long) (sr : StatusRegister), SameSystem s.cpu.regs.sr sr → v = o.apply (s.cpu.regs.d 0) (s.cpu.regs.d 1) →
      (∀ (op : U16) (pc pc' : U32), ∃ c, o.line.effect C pc (moved s op s.cpu.regs.d s.cpu.regs.sr pc' s.mem) = .ok c (moved s op (putD s.cpu.regs.d 0 v) sr pc' s.mem)) →
      ∃ op sr, Reach C p a 1 s (moved s op (putD s.cpu.regs.d 0 (o.apply (s.cpu.regs.d 0) (s.cpu.regs.d 1))) sr (at_ a (2 * (k + 1))) s.mem) ∧ SameSystem s.cpu.regs.sr sr := by
    intro v sr hs hv he
    subst hv
    exact (reach_regs (C := C) h hp (words_bin o) (by cases o <;> exact fun _ _ h => nomatch h) he).elim fun op h => ⟨op, sr, h, hs⟩
  cases o with
  | add =>
    refine key (insertLow .Long (s.cpu.regs.d 0) (sum false (low .Long (s.cpu.regs.d 0)) (low .Long (s.cpu.regs.d 1)) s.cpu.regs.sr).1) (sum false (low .Long (s.cpu.regs.d 0)) (low .Long (s.cpu.regs.d 1)) s.cpu.regs.sr).2 ⟨rfl, rfl, rfl⟩ ?_ fun op pc pc' => ⟨_, rfl⟩
    rw [insertLow_long]
    show BitVec.ofNat 32 ((low .Long (s.cpu.regs.d 0)).toNat + (low .Long (s.cpu.regs.d 1)).toNat + 0) = s.cpu.regs.d 0 + s.cpu.regs.d 1
    rw [low_long, low_long]
    apply BitVec.eq_of_toNat_eq
    rw [BitVec.toNat_add, BitVec.toNat_ofNat, Nat.add_zero]
  | sub =>
    refine key (insertLow .Long (s.cpu.regs.d 0) (difference false (low .Long (s.cpu.regs.d 0)) (low .Long (s.cpu.regs.d 1)) s.cpu.regs.sr).1) (difference false (low .Long (s.cpu.regs.d 0)) (low .Long (s.cpu.regs.d 1)) s.cpu.regs.sr).2 ⟨rfl, rfl, rfl⟩ ?_ fun op pc pc' => ⟨_, rfl⟩
    rw [insertLow_long]
    show BitVec.ofInt 32 ((low .Long (s.cpu.regs.d 0)).toInt - (low .Long (s.cpu.regs.d 1)).toInt - (0 : Nat)) = s.cpu.regs.d 0 - s.cpu.regs.d 1
    rw [low_long, low_long]
    apply BitVec.eq_of_toInt_eq
    rw [BitVec.toInt_sub, BitVec.toInt_ofInt]
    simp
  | and =>
    refine key (insertLow .Long (s.cpu.regs.d 0) (low .Long (s.cpu.regs.d 0) &&& low .Long (s.cpu.regs.d 1))) (logicFlags (low .Long (s.cpu.regs.d 0) &&& low .Long (s.cpu.regs.d 1)) s.cpu.regs.sr) ⟨rfl, rfl, rfl⟩ ?_ fun op pc pc' => ⟨_, rfl⟩
    rw [insertLow_long]
    show low .Long (s.cpu.regs.d 0) &&& low .Long (s.cpu.regs.d 1) = _
    rw [low_long, low_long]; rfl
  | or =>
    refine key (insertLow .Long (s.cpu.regs.d 0) (low .Long (s.cpu.regs.d 0) ||| low .Long (s.cpu.regs.d 1))) (logicFlags (low .Long (s.cpu.regs.d 0) ||| low .Long (s.cpu.regs.d 1)) s.cpu.regs.sr) ⟨rfl, rfl, rfl⟩ ?_ fun op pc pc' => ⟨_, rfl⟩
    rw [insertLow_long]
    show low .Long (s.cpu.regs.d 0) ||| low .Long (s.cpu.regs.d 1) = _
    rw [low_long, low_long]; rfl
  | xor =>
    refine key (insertLow .Long (s.cpu.regs.d 0) (low .Long (s.cpu.regs.d 0) ^^^ low .Long (s.cpu.regs.d 1))) (logicFlags (low .Long (s.cpu.regs.d 0) ^^^ low .Long (s.cpu.regs.d 1)) s.cpu.regs.sr) ⟨rfl, rfl, rfl⟩ ?_ fun op pc pc' => ⟨_, rfl⟩
    rw [insertLow_long]
    show low .Long (s.cpu.regs.d 0) ^^^ low .Long (s.cpu.regs.d 1) = _
    rw [low_long, low_long]; rfl
  | mul =>
    exact key _ (logicFlags (BitVec.ofNat 32 ((low .Word (s.cpu.regs.d 0)).toNat * (low .Word (s.cpu.regs.d 1)).toNat)) s.cpu.regs.sr) ⟨rfl, rfl, rfl⟩ rfl fun op pc pc' => ⟨_, rfl⟩

theorem line_cmp (h : Loaded p a k s) (hp : PartAt p [.cmp .Long 0 (.dn 1)] k) :
    ∃ op sr, Reach C p a 1 s (moved s op s.cpu.regs.d sr (at_ a (2 * (k + 1))) s.mem) ∧ OrderCodes (s.cpu.regs.d 0) (s.cpu.regs.d 1) s.cpu.regs.sr sr := by
  have := reach_regs (C := C) (d := s.cpu.regs.d) (sr := compareFlags (low .Long (s.cpu.regs.d 0)) (low .Long (s.cpu.regs.d 1)) s.cpu.regs.sr) h hp words_cmp (fun _ _ h => nomatch h) fun op pc pc' => ⟨_, rfl⟩
  refine this.elim fun op h => ⟨op, _, h, ?_⟩
  have := orderCodes_compare (sz := .Long) (low .Long (s.cpu.regs.d 0)) (low .Long (s.cpu.regs.d 1)) s.cpu.regs.sr
  rw [low_long, low_long] at this ⊢
  exact this

theorem line_jmp {x : U32} (h : Loaded p a k s) (hp : PartAt p [.jmp (.absL x)] k) :
    ∃ op, Reach C p a 1 s (moved s op s.cpu.regs.d s.cpu.regs.sr x s.mem) := by
  obtain ⟨ws, hw, hl⟩ := words_jmp x
  refine ⟨ws.headD 0, reach_line h hp hw (fun _ _ h => nomatch h) ?_⟩
  exact ⟨_, rfl⟩

theorem six_at (x : U32) : x + 2 + signExt (6 : U16) = at_ x 8 := by
  have e : (2 : U32) + signExt (6 : U16) = BitVec.ofNat 32 8 := by decide +kernel
  rw [BitVec.add_assoc, e]; rfl

theorem line_bcc {r : Rel} {x y : U32} {sr0 : StatusRegister} (h : Loaded p a k s) (hp : PartAt p [.bcc r.condition 6] k) (ho : OrderCodes x y sr0 s.cpu.regs.sr) :
    ∃ op, Reach C p a 1 s (moved s op s.cpu.regs.d s.cpu.regs.sr (if r.holds x y then at_ a (2 * (k + 4)) else at_ a (2 * (k + 1))) s.mem) := by
  have hc : holds (ccNumber r.condition) s.cpu.regs.sr = r.holds x y := by
    rw [Bool.eq_iff_iff]
    cases r with
    | eq => exact ho.eq.trans decide_eq_true_iff.symm
    | ne => exact ho.ne.trans decide_eq_true_iff.symm
    | ltu => exact ho.cs.trans decide_eq_true_iff.symm
    | leu => exact ho.ls.trans decide_eq_true_iff.symm
    | gtu => exact ho.hi.trans decide_eq_true_iff.symm
    | geu => exact ho.cc.trans decide_eq_true_iff.symm
    | lt => exact ho.lt.trans decide_eq_true_iff.symm
    | le => exact ho.le.trans decide_eq_true_iff.symm
    | gt => exact ho.gt.trans decide_eq_true_iff.symm
    | ge => exact ho.ge.trans decide_eq_true_iff.symm
  obtain ⟨ws, hw, hl⟩ := words_bcc r
  refine ⟨ws.headD 0, reach_line h hp hw (fun _ _ h => nomatch h) ?_⟩
  rw [afterWords_moved h.here hl]
  have e6 := six_at s.cpu.regs.pc
  rw [h.here, at_add] at e6
  rw [h.here, ← hc]
  simp only [Source.effect, Spec.bcc, test]
  cases hb : holds (ccNumber r.condition) s.cpu.regs.sr
  · refine ⟨if IsShort 6 then C.BCC_NO_BRANCH_BYTE else C.BCC_NO_BRANCH_WORD, ?_⟩
    simp only [Functor.map, bind, Exec.bind, getR, moved, hb]
    rfl
  · refine ⟨C.BCC_BRANCH, ?_⟩
    simp only [Functor.map, bind, Exec.bind, getR, moved, hb, if_true, jump, modR, e6]
    rfl

end M68k.Exec
