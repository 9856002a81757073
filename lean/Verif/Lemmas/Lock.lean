import Verif.Spec.Cores
import Verif.Lemmas.Programs
import Verif.Lemmas.Contents
/-
Lemmas for C84: the lines of the lock program.
-/
namespace M68k.Exec
open Spec
set_option linter.unusedSectionVars false
variable {M : Type} [MemoryAccess M] [Ram M] {C : CpuDetails} {s : St M} {a : U32}

/-- One line of the lock program leads to the line at the word `j`; the address registers and the trace flag are kept. -/
def Goes (C : CpuDetails) (a : U32) (s : St M) (j : Nat) (P : Registers → M → Prop) : Prop :=
  ∃ (c : Nat) (op : U16) (r : Registers) (m' : M), Executes C lockProgram a 1 c s ⟨{ s.cpu with currentOpcode := op, regs := r }, m'⟩ ∧
    r.a = s.cpu.regs.a ∧ r.sr.t = s.cpu.regs.sr.t ∧ r.pc = at_ a (2 * j) ∧ P r m'

theorem goes_of {j : Nat} {P : Registers → M → Prop} {op : U16} {r : Registers} {m' : M} (he : ∃ c, Executes C lockProgram a 1 c s ⟨{ s.cpu with currentOpcode := op, regs := r }, m'⟩)
    (ha : r.a = s.cpu.regs.a) (ht : r.sr.t = s.cpu.regs.sr.t) (hp : r.pc = at_ a (2 * j)) (h : P r m') : Goes C a s j P :=
  he.elim fun c he => ⟨c, op, r, m', he, ha, ht, hp, h⟩


theorem present_of_holds {sz : Size} {m : M} {x : U32} {v : Val sz} (h : Holds m x v) : Present m x (bytes sz) := fun k hk => by rw [h k hk]; rfl

theorem read_ind {sz : Size} {t : St M} {n : Fin 8} {x : U32} {v : Val sz} (hx : areg t.cpu.regs n = x) (ha : AlignedFor sz x) (h : Holds t.mem x v) :
    (read sz (.ind n) : Exec M _) t = .ok (.mem x, v) t := by
  subst hx
  show (load sz (areg t.cpu.regs n) >>= fun v => pure (Place.mem (areg t.cpu.regs n), v)) t = _
  rw [bind_eq (load_holds ha h)]; rfl

theorem rmw_ind {sz : Size} {t : St M} {n : Fin 8} {x : U32} {v : Val sz} {f : Val sz → StatusRegister → Val sz × StatusRegister} [Writable M] (hx : areg t.cpu.regs n = x) (ha : AlignedFor sz x) (h : Holds t.mem x v) :
    ∃ m', rmw sz (.ind n) f t = .ok () ⟨{ t.cpu with regs := { t.cpu.regs with sr := (f v t.cpu.regs.sr).2 } }, m'⟩ ∧
      Holds m' x (f v t.cpu.regs.sr).1 ∧ SameExcept t.mem m' x (bytes sz) := by
  have e1 := read_ind hx ha h
  obtain ⟨m', hm⟩ := store_present (s := ⟨{ t.cpu with regs := { t.cpu.regs with sr := (f v t.cpu.regs.sr).2 } }, t.mem⟩) (v := (f v t.cpu.regs.sr).1) ha (present_of_holds h)
  obtain ⟨-, -, h2, h3⟩ := store_done hm
  refine ⟨m', ?_, h2, h3⟩
  simp only [rmw]
  rw [bind_eq e1]
  exact hm

theorem write_ind {sz : Size} {t : St M} {n : Fin 8} {x : U32} {v w : Val sz} [Writable M] (hx : areg t.cpu.regs n = x) (ha : AlignedFor sz x) (h : Holds t.mem x v) :
    ∃ m', write sz (.ind n) w t = .ok () ⟨t.cpu, m'⟩ ∧ Holds m' x w ∧ SameExcept t.mem m' x (bytes sz) := by
  subst hx
  obtain ⟨m', hm⟩ := store_present (s := t) (v := w) ha (present_of_holds h)
  obtain ⟨-, -, h2, h3⟩ := store_done hm
  exact ⟨m', hm, h2, h3⟩

theorem tas_line [Writable M] {b : U8} (h : Loaded lockProgram a 0 s) (hb : Holds (sz := .Byte) s.mem (s.cpu.regs.a 0) b) :
    Goes C a s 1 fun r m' => r.sr.n = neg b ∧ Holds (sz := .Byte) m' (s.cpu.regs.a 0) (BitOp.set.apply b 7) ∧ SameExcept s.mem m' (s.cpu.regs.a 0) 1 := by
  obtain ⟨m', he, h1, h2⟩ := rmw_ind (sz := .Byte) (t := afterWords s [0x4AD0]) (n := 0) (x := s.cpu.regs.a 0) (f := fun v sr => (BitOp.set.apply v 7, logicFlags v sr)) (v := b) rfl (fun h => h.1 rfl) hb
  refine goes_of (op := 0x4AD0) (r := { s.cpu.regs with pc := at_ a 2, sr := logicFlags b s.cpu.regs.sr }) (m' := m') (one_line [] _ h rfl rfl rfl (ws := [0x4AD0]) (by decide +kernel) (fun _ _ h => nomatch h) ?_) rfl rfl rfl ⟨rfl, h1, h2⟩
  rw [show at_ a 2 = at_ s.cpu.regs.pc 2 by rw [h.here, at_add]]
  exact ⟨_, bind_eq he⟩

theorem bmi_line (h : Loaded lockProgram a 1 s) :
    Goes C a s (if s.cpu.regs.sr.n then 0 else 2) fun _ m' => m' = s.mem := by
  have e : at_ a 0 = s.cpu.regs.pc + 2 + signExt (0xFFFC : U16) := by
    have e1 : signExt (0xFFFC : U16) = 0xFFFFFFFC := by decide +kernel
    rw [h.here, e1]; exact back_4 a
  have e' : at_ a 4 = at_ s.cpu.regs.pc 2 := by rw [h.here, at_add]
  refine goes_of (op := 0x6BFC) (r := { s.cpu.regs with pc := if s.cpu.regs.sr.n then at_ a 0 else at_ a 4 }) (m' := s.mem)
    (one_line [.tas (.ind 0)] _ h rfl (ws0 := [0x4AD0]) (by decide +kernel) rfl (ws := [0x6BFC]) (by decide +kernel) (fun _ _ h => nomatch h) ?_) rfl rfl (by cases s.cpu.regs.sr.n <;> rfl) rfl
  rw [e, e']
  clear e e' h
  obtain ⟨⟨r, op, st, ex⟩, m⟩ := s
  obtain ⟨d, aa, usp, ssp, sr, pc⟩ := r
  obtain ⟨t, sv, im, x, n, z, v, c⟩ := sr
  cases n <;> exact ⟨_, rfl⟩

theorem get_line {v : U16} (h : Loaded lockProgram a 2 s) (hk : ¬ Odd (s.cpu.regs.a 1)) (hv : Holds (sz := .Word) s.mem (s.cpu.regs.a 1) v) :
    Goes C a s 3 fun r m' => m' = s.mem ∧ low .Word (r.d 0) = v := by
  have e1 := read_ind (sz := .Word) (t := afterWords s [0x3011]) (n := 1) (x := s.cpu.regs.a 1) (v := v) rfl (even_word hk) hv
  refine goes_of (op := 0x3011) (r := { setDreg s.cpu.regs 0 (insertLow .Word (s.cpu.regs.d 0) v) with pc := at_ a 6, sr := logicFlags v s.cpu.regs.sr }) (m' := s.mem)
    (one_line [.tas (.ind 0), .bcc .MI 0xFFFC] _ h rfl (ws0 := [0x4AD0, 0x6BFC]) (by decide +kernel) rfl (ws := [0x3011]) (by decide +kernel) (fun _ _ h => nomatch h) ?_) rfl rfl rfl ⟨rfl, low_insertLow _ _ _⟩
  rw [show at_ a 6 = at_ s.cpu.regs.pc 2 by rw [h.here, at_add]]
  refine ⟨_, bind_eq (v := ()) ?_⟩
  show (Spec.move .Word (.dn 0) (.ind 1) : Exec M Unit) (afterWords s [0x3011]) = _
  simp only [Spec.move]
  rw [bind_eq e1]
  rfl

theorem add_line (h : Loaded lockProgram a 3 s) :
    Goes C a s 4 fun r m' => m' = s.mem ∧ low .Word (r.d 0) = low .Word (s.cpu.regs.d 0) + 1 := by
  refine goes_of (op := 0x5240) (r := { setDreg s.cpu.regs 0 (insertLow .Word (s.cpu.regs.d 0) (sum false (low .Word (s.cpu.regs.d 0)) 1 s.cpu.regs.sr).1) with pc := at_ a 8, sr := (sum false (low .Word (s.cpu.regs.d 0)) 1 s.cpu.regs.sr).2 }) (m' := s.mem)
    (one_line [.tas (.ind 0), .bcc .MI 0xFFFC, .move .Word (.dn 0) (.ind 1)] _ h rfl (ws0 := [0x4AD0, 0x6BFC, 0x3011]) (by decide +kernel) rfl (ws := [0x5240]) (by decide +kernel) (fun _ _ h => nomatch h) ?_) rfl rfl rfl ⟨rfl, ?_⟩
  · rw [show at_ a 8 = at_ s.cpu.regs.pc 2 by rw [h.here, at_add]]
    exact ⟨_, rfl⟩
  · refine (low_insertLow _ _ _).trans ?_
    apply BitVec.eq_of_toNat_eq
    have hc : carryIn false s.cpu.regs.sr = 0 := rfl
    have h1 : (1 : Val .Word).toNat = 1 := rfl
    simp only [sum, hc, Nat.add_zero, BitVec.toNat_add, BitVec.toNat_ofNat, h1]

theorem put_line [Writable M] {v : U16} (h : Loaded lockProgram a 4 s) (hk : ¬ Odd (s.cpu.regs.a 1)) (hv : Holds (sz := .Word) s.mem (s.cpu.regs.a 1) v) :
    Goes C a s 5 fun _ m' => Holds (sz := .Word) m' (s.cpu.regs.a 1) (low .Word (s.cpu.regs.d 0)) ∧ SameExcept s.mem m' (s.cpu.regs.a 1) 2 := by
  obtain ⟨m', he, h1, h2⟩ := write_ind (sz := .Word) (t := afterWords s [0x3280]) (n := 1) (x := s.cpu.regs.a 1) (v := v) (w := low .Word (s.cpu.regs.d 0)) rfl (even_word hk) hv
  refine goes_of (op := 0x3280) (r := { s.cpu.regs with pc := at_ a 10, sr := logicFlags (low .Word (s.cpu.regs.d 0)) s.cpu.regs.sr }) (m' := m')
    (one_line [.tas (.ind 0), .bcc .MI 0xFFFC, .move .Word (.dn 0) (.ind 1), .addq .Word 1 (.dn 0)] _ h rfl (ws0 := [0x4AD0, 0x6BFC, 0x3011, 0x5240]) (by decide +kernel) rfl (ws := [0x3280]) (by decide +kernel) (fun _ _ h => nomatch h) ?_) rfl rfl rfl ⟨h1, h2⟩
  rw [show at_ a 10 = at_ s.cpu.regs.pc 2 by rw [h.here, at_add]]
  refine ⟨_, bind_eq (v := ()) ?_⟩
  have e1 : (read .Word (.dn 0) : Exec M _) (afterWords s [0x3280]) = .ok (.dreg 0, low .Word (s.cpu.regs.d 0)) (afterWords s [0x3280]) := rfl
  show (Spec.move .Word (.ind 1) (.dn 0) : Exec M Unit) (afterWords s [0x3280]) = _
  simp only [Spec.move]
  rw [bind_eq e1, bind_eq he]
  rfl

theorem clr_line [Writable M] {b : U8} (h : Loaded lockProgram a 5 s) (hb : Holds (sz := .Byte) s.mem (s.cpu.regs.a 0) b) :
    Goes C a s 6 fun _ m' => Holds (sz := .Byte) m' (s.cpu.regs.a 0) 0 ∧ SameExcept s.mem m' (s.cpu.regs.a 0) 1 := by
  obtain ⟨m', he, h1, h2⟩ := write_ind (sz := .Byte) (t := afterWords s [0x4210]) (n := 0) (x := s.cpu.regs.a 0) (v := b) (w := 0) rfl (fun h => h.1 rfl) hb
  refine goes_of (op := 0x4210) (r := { s.cpu.regs with pc := at_ a 12, sr := logicFlags (0 : U8) s.cpu.regs.sr }) (m' := m')
    (one_line [.tas (.ind 0), .bcc .MI 0xFFFC, .move .Word (.dn 0) (.ind 1), .addq .Word 1 (.dn 0), .move .Word (.ind 1) (.dn 0)] _ h rfl (ws0 := [0x4AD0, 0x6BFC, 0x3011, 0x5240, 0x3280]) (by decide +kernel) rfl (ws := [0x4210]) (by decide +kernel) (fun _ _ h => nomatch h) ?_) rfl rfl rfl ⟨h1, h2⟩
  rw [show at_ a 12 = at_ s.cpu.regs.pc 2 by rw [h.here, at_add]]
  simp only [Source.effect]
  rw [bind_eq he]
  exact ⟨_, rfl⟩

theorem bra_line (h : Loaded lockProgram a 6 s) : Goes C a s 0 fun _ m' => m' = s.mem := by
  refine goes_of (op := 0x60F2) (r := { s.cpu.regs with pc := at_ a 0 }) (m' := s.mem)
    (one_line [.tas (.ind 0), .bcc .MI 0xFFFC, .move .Word (.dn 0) (.ind 1), .addq .Word 1 (.dn 0), .move .Word (.ind 1) (.dn 0), .clr .Byte (.ind 0)] _ h rfl (ws0 := [0x4AD0, 0x6BFC, 0x3011, 0x5240, 0x3280, 0x4210]) (by decide +kernel) rfl (ws := [0x60F2]) (by decide +kernel) (fun _ _ h => nomatch h) ?_) rfl rfl rfl rfl
  have e : at_ a 0 = s.cpu.regs.pc + 2 + signExt (0xFFF2 : U16) := by
    have e1 : signExt (0xFFF2 : U16) = 0xFFFFFFF2 := by decide +kernel
    rw [h.here, e1]; exact back_14 a
  refine ⟨C.BRA_BYTE, ?_⟩
  have hs : IsShort (0xFFF2 : U16) := by decide +kernel
  simp only [Source.effect, if_pos hs, ← e]
  rfl

end M68k.Exec
