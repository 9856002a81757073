import Verif.Lemmas.Step
import Verif.Spec.Claims
/-
Tools to derive the property theorems from the specification of the instruction set.
-/
namespace M68k
namespace Exec
open Spec
variable {M : Type} [MemoryAccess M]

theorem endsWith_map {α β : Type} {C : CpuDetails} {s : St M} (f : α → β) (x : Exec M α) (s1 : St M) :
    EndsWith C s ((f <$> x) s1) ↔ EndsWith C s (x s1) := by
  rw [Exec.map_apply]
  cases x s1 <;> rfl

theorem endsWith_cost {α : Type} {C : CpuDetails} {s : St M} (t : Nat) (x : Exec M α) (s1 : St M) :
    EndsWith C s (cost x t s1) ↔ EndsWith C s (x s1) := endsWith_map _ x s1

theorem endsWith_bind_ok {α β : Type} {C : CpuDetails} {s : St M} {x : Exec M α} {f : α → Exec M β} {s1 s2 : St M} {a : α}
    (h : x s1 = .ok a s2) : EndsWith C s ((x >>= f) s1) ↔ EndsWith C s (f a s2) := by
  rw [Exec.bind_apply, h]

theorem endsWith_bind_err {α β : Type} {C : CpuDetails} {s : St M} {x : Exec M α} {f : α → Exec M β} {s1 s2 : St M} {v : U8}
    (h : x s1 = .err v s2) : EndsWith C s ((x >>= f) s1) ↔ Raises C s v s2 := by
  rw [Exec.bind_apply, h]; rfl

omit [MemoryAccess M] in
theorem getR_bind_apply {α β : Type} (f : Registers → α) (k : α → Exec M β) (s : St M) :
    (getR f >>= k) s = k (f s.cpu.regs) s := rfl
omit [MemoryAccess M] in
theorem modR_bind_apply {β : Type} (f : Registers → Registers) (k : Unit → Exec M β) (s : St M) :
    (modR f >>= k) s = k () (s.withRegs f) := rfl
omit [MemoryAccess M] in
theorem modR_apply (f : Registers → Registers) (s : St M) : modR f s = .ok () (s.withRegs f) := rfl

theorem bind_ok {α β : Type} {x : Exec M α} {f : α → Exec M β} {s1 s3 : St M} {b : β}
    (h : (x >>= f) s1 = .ok b s3) : ∃ a s2, x s1 = .ok a s2 ∧ f a s2 = .ok b s3 := by
  rw [Exec.bind_apply] at h
  cases hx : x s1 with
  | ok a s2 => rw [hx] at h; exact ⟨a, s2, rfl, h⟩
  | err v s2 => rw [hx] at h; cases h
  | panic => rw [hx] at h; cases h

theorem bind_err {α β : Type} {x : Exec M α} {f : α → Exec M β} {s1 s3 : St M} {v : U8}
    (h : (x >>= f) s1 = .err v s3) : x s1 = .err v s3 ∨ ∃ a s2, x s1 = .ok a s2 ∧ f a s2 = .err v s3 := by
  rw [Exec.bind_apply] at h
  cases hx : x s1 with
  | ok a s2 => rw [hx] at h; exact .inr ⟨a, s2, rfl, h⟩
  | err w s2 => rw [hx] at h; cases h; exact .inl rfl
  | panic => rw [hx] at h; cases h

theorem sized_some {op : U16} {sz : Size} (h : opSize op = some sz) (k : Size → Exec M Nat) : sized op k = k sz := by
  unfold opSize at h
  have hlt : op.toNat / 64 % 4 < 4 := Nat.mod_lt _ (by omega)
  unfold sized
  match hh : op.toNat / 64 % 4, hlt with
  | 0, _ => rw [hh] at h; cases h; simp
  | 1, _ => rw [hh] at h; cases h; simp
  | 2, _ => rw [hh] at h; cases h; simp
  | 3, _ => rw [hh] at h; cases h

theorem operand_ok {sz : Size} {op : U16} {s1 s2 : St M} {p : Place} {v : Val sz}
    (h : operand sz op s1 = .ok (p, v) s2) :
    ∃ m s', fetchEa (some sz) op s1 = .ok m s' ∧ read sz m s' = .ok (p, v) s2 := bind_ok h

/-! ### What operand evaluation leaves alone -/

theorem setAreg_d (r : Registers) (n : Fin 8) (v : U32) : (setAreg r n v).d = r.d := by
  unfold setAreg; split
  · rfl
  · split <;> rfl
theorem setAreg_sr (r : Registers) (n : Fin 8) (v : U32) : (setAreg r n v).sr = r.sr := by
  unfold setAreg; split
  · rfl
  · split <;> rfl

/-- Every final state of the action is related to the initial one. -/
def Keeps (R : St M → St M → Prop) {α : Type} (x : Exec M α) : Prop := ∀ s,
  match x s with
  | .ok _ s' => R s s'
  | .err _ s' => R s s'
  | .panic => True

/-- A relation on states closed under the effects of instruction fetch and operand evaluation: memory
accesses, changes of the program counter and of address registers. -/
structure EaRel (R : St M → St M → Prop) : Prop where
  refl : ∀ s, R s s
  trans : ∀ {s s' s''}, R s s' → R s' s'' → R s s''
  mem : ∀ (s : St M) m, R s { s with mem := m }
  pc : ∀ (s : St M) v, R s (s.withRegs fun r => { r with pc := v })
  areg : ∀ (s : St M) n v, R s (s.withRegs fun r => setAreg r n v)

namespace Keeps
variable {R : St M → St M → Prop} {α β : Type}

omit [MemoryAccess M] in
theorem ok {x : Exec M α} (h : Keeps R x) {s s' : St M} {a : α} (hx : x s = .ok a s') : R s s' := by
  have := h s; rw [hx] at this; exact this
omit [MemoryAccess M] in
theorem err {x : Exec M α} (h : Keeps R x) {s s' : St M} {v : U8} (hx : x s = .err v s') : R s s' := by
  have := h s; rw [hx] at this; exact this

omit [MemoryAccess M] in
theorem of_pure (hR : EaRel R) (a : α) : Keeps R (pure a : Exec M α) := fun s => hR.refl s
omit [MemoryAccess M] in
theorem of_crash : Keeps R (crash : Exec M α) := fun _ => trivial
omit [MemoryAccess M] in
theorem of_trap (hR : EaRel R) (v : U8) : Keeps R (trap v : Exec M α) := fun s => hR.refl s
omit [MemoryAccess M] in
theorem of_getR (hR : EaRel R) (f : Registers → α) : Keeps R (getR f : Exec M α) := fun s => hR.refl s
omit [MemoryAccess M] in
theorem bind (hR : EaRel R) {x : Exec M α} {f : α → Exec M β} (hx : Keeps R x) (hf : ∀ a, Keeps R (f a)) :
    Keeps R (x >>= f) := by
  intro s
  have h1 := hx s
  rw [Exec.bind_apply]
  cases hs : x s with
  | ok a s' =>
    rw [hs] at h1
    have h2 := hf a s'
    simp only
    cases hs2 : f a s' with
    | ok b s'' => rw [hs2] at h2; exact hR.trans h1 h2
    | err v s'' => rw [hs2] at h2; exact hR.trans h1 h2
    | panic => trivial
  | err v s' => rw [hs] at h1; exact h1
  | panic => trivial
omit [MemoryAccess M] in
theorem map {x : Exec M α} (f : α → β) (hx : Keeps R x) : Keeps R (f <$> x) := by
  intro s
  have h1 := hx s
  rw [Exec.map_apply]
  cases hs : x s with
  | ok a s' => rw [hs] at h1; exact h1
  | err v s' => rw [hs] at h1; exact h1
  | panic => trivial
theorem of_access (hR : EaRel R) (f : M → MRes M α) : Keeps R (access f) := by
  intro s
  unfold access
  cases f s.mem with
  | val a m => exact hR.mem s m
  | none m => exact hR.mem s m
  | panic => trivial
theorem of_load (hR : EaRel R) (sz : Size) (a : U32) : Keeps R (load sz a : Exec M _) := by
  unfold load
  split
  · exact of_trap hR _
  · exact of_access hR _
theorem of_store (hR : EaRel R) (sz : Size) (a : U32) (v : Val sz) : Keeps R (store sz a v : Exec M _) := by
  unfold store
  split
  · exact of_trap hR _
  · exact of_access hR _
theorem of_fetch (hR : EaRel R) : Keeps R (fetch : Exec M U16) := by
  intro s
  unfold fetch
  by_cases h : Odd s.cpu.regs.pc
  · rw [if_pos h]; trivial
  · rw [if_neg h]
    cases MemoryAccess.getWord s.cpu.regs.pc s.mem with
    | val a m => exact hR.trans (hR.mem s m) (hR.pc _ _)
    | none m => trivial
    | panic => trivial
theorem of_fetchLong (hR : EaRel R) : Keeps R (fetchLong : Exec M U32) :=
  bind hR (of_fetch hR) fun _ => bind hR (of_fetch hR) fun _ => of_pure hR _
theorem of_fetchMode (hR : EaRel R) (sz : Option Size) (mode reg : Fin 8) : Keeps R (fetchMode sz mode reg : Exec M Mode) := by
  unfold fetchMode
  split <;> try exact of_pure hR _
  · exact map _ (of_fetch hR)
  · exact map _ (of_fetch hR)
  · split
    · exact map _ (of_fetch hR)
    · exact map _ (of_fetchLong hR)
    · exact bind hR (of_getR hR _) fun _ => map _ (of_fetch hR)
    · exact bind hR (of_getR hR _) fun _ => map _ (of_fetch hR)
    · split
      · exact of_crash
      · exact map _ (of_fetchLong hR)
      · exact map _ (of_fetch hR)
    · exact of_crash
theorem of_fetchEa (hR : EaRel R) (sz : Option Size) (op : U16) : Keeps R (fetchEa sz op : Exec M Mode) :=
  of_fetchMode hR _ _ _
theorem of_fetchImm (hR : EaRel R) (sz : Size) : Keeps R (fetchImm sz : Exec M U32) := by
  unfold fetchImm
  split
  · exact of_fetchLong hR
  · exact bind hR (of_fetch hR) fun _ => of_pure hR _
omit [MemoryAccess M] in
theorem of_locate (hR : EaRel R) (sz : Size) (m : Mode) : Keeps R (locate sz m : Exec M Place) := by
  intro s
  cases m <;> first | exact hR.refl s | exact hR.areg s _ _
theorem of_readAt (hR : EaRel R) (sz : Size) (p : Place) : Keeps R (readAt sz p : Exec M _) := by
  cases p with
  | dreg n => exact of_getR hR fun r => low sz (r.d n)
  | areg n =>
    unfold readAt
    simp only
    split
    · exact of_crash
    · exact of_getR hR fun r => low sz (Spec.areg r n)
  | mem a => exact of_load hR _ _
  | imm v => exact of_pure hR _
theorem of_read (hR : EaRel R) (sz : Size) (m : Mode) : Keeps R (read sz m : Exec M _) :=
  bind hR (of_locate hR sz m) fun p => bind hR (of_readAt hR sz p) fun _ => of_pure hR _
theorem of_operand (hR : EaRel R) (sz : Size) (op : U16) : Keeps R (operand sz op : Exec M _) :=
  bind hR (of_fetchEa hR _ op) fun m => of_read hR sz m
end Keeps

/-- The two states have the same data registers and status register. -/
def SameD (s s' : St M) : Prop := s'.cpu.regs.d = s.cpu.regs.d ∧ s'.cpu.regs.sr = s.cpu.regs.sr

omit [MemoryAccess M] in
theorem sameD_rel : EaRel (SameD (M := M)) where
  refl _ := ⟨rfl, rfl⟩
  trans h h' := ⟨h'.1.trans h.1, h'.2.trans h.2⟩
  mem _ _ := ⟨rfl, rfl⟩
  pc _ _ := ⟨rfl, rfl⟩
  areg _ _ _ := ⟨setAreg_d _ _ _, setAreg_sr _ _ _⟩

theorem Ready.sameD {s : St M} {op : U16} {s1 : St M} (h : Ready s op s1) : SameD s s1 := by
  obtain ⟨-, -, -, m, -, h5⟩ := h
  rw [h5]; exact ⟨rfl, rfl⟩

/-- Operand evaluation changes neither the data registers nor the status register. -/
theorem operand_same {s s1 s2 : St M} {op : U16} (h : Ready s op s1) {sz : Size} {x}
    (hv : operand sz op s1 = .ok x s2) : SameD s s2 :=
  sameD_rel.trans (Ready.sameD h) ((Keeps.of_operand sameD_rel sz op).ok hv)

/-! ### Read-modify-write forms -/

/-- Writing the result of an operation to a data register. -/
theorem ends_rmw_dn {C : CpuDetails} {s s2 : St M} {sz : Size} {n : Fin 8}
    {f : Val sz → StatusRegister → Val sz × StatusRegister} (h : EndsWith C s (rmw sz (.dn n) f s2)) :
    Completes C s (s2.withRegs fun g =>
      { setDreg g n (insertLow sz (g.d n) (f (low sz (s2.cpu.regs.d n)) s2.cpu.regs.sr).1) with
        sr := (f (low sz (s2.cpu.regs.d n)) s2.cpu.regs.sr).2 }) := h

/-- Writing the result of an operation where the operand was read. -/
theorem ends_rmw {C : CpuDetails} {s s1 s2 : St M} {sz : Size} {m : Mode} {p : Place} {d : Val sz}
    {f : Val sz → StatusRegister → Val sz × StatusRegister} (hr : read sz m s1 = .ok (p, d) s2)
    (h : EndsWith C s (rmw sz m f s1)) :
    EndsWith C s (writeAt sz p (f d s2.cpu.regs.sr).1 (s2.withRegs fun g => { g with sr := (f d s2.cpu.regs.sr).2 })) := by
  unfold rmw at h
  rw [endsWith_bind_ok hr] at h
  exact h

/-! ### Address register operands -/

theorem fetchMode_an {sz : Option Size} {mode reg : Fin 8} {s s' : St M} {m : Mode}
    (h : fetchMode sz mode reg s = .ok m s') : (mode = 1 → m = .an reg ∧ s' = s) ∧ (mode ≠ 1 → ∀ n, m ≠ .an n) := by
  have hmap : ∀ {α : Type} (f : α → Mode) (x : Exec M α), (∀ a n, f a ≠ .an n) → (f <$> x) s = .ok m s' → ∀ n, m ≠ .an n := by
    intro α f x hf hx
    rw [Exec.map_apply] at hx
    cases hs : x s with
    | ok a s2 => rw [hs] at hx; cases hx; exact hf a
    | err v s2 => rw [hs] at hx; cases hx
    | panic => rw [hs] at hx; cases hx
  constructor
  · intro hm; subst hm; cases h; exact ⟨rfl, rfl⟩
  · intro hm
    unfold fetchMode at h
    split at h
    · cases h; intro n hn; cases hn
    · exact absurd rfl hm
    · cases h; intro n hn; cases hn
    · cases h; intro n hn; cases hn
    · cases h; intro n hn; cases hn
    · exact hmap _ _ (fun a n hn => by cases hn) h
    · exact hmap _ _ (fun a n hn => by cases hn) h
    · split at h
      · exact hmap _ _ (fun a n hn => by cases hn) h
      · exact hmap _ _ (fun a n hn => by cases hn) h
      · rw [getR_bind_apply] at h; exact hmap _ _ (fun a n hn => by cases hn) h
      · rw [getR_bind_apply] at h; exact hmap _ _ (fun a n hn => by cases hn) h
      · split at h
        · cases h
        · exact hmap _ _ (fun a n hn => by cases hn) h
        · exact hmap _ _ (fun a n hn => by cases hn) h
      · cases h

/-! ### Instruction forms -/
section
variable {C : CpuDetails} {s s1 s2 : St M} {op : U16} {sz : Size}

/-- `ea op Dn -> Dn`. -/
theorem ends_binary_dn {f : {n : Nat} → BitVec n → BitVec n → StatusRegister → BitVec n × StatusRegister} {a b c d e : Nat}
    {p : Place} {v : Val sz} (h : Ready s op s1) (hsz : opSize op = some sz) (hdir : flag op 8 = false)
    (hv : operand sz op s1 = .ok (p, v) s2) (hx : EndsWith C s (binary C op f a b c d e s1)) :
    Completes C s (s2.withRegs fun g =>
      { setDreg g (regField op 9) (insertLow sz (g.d (regField op 9))
          (f (low sz (s.cpu.regs.d (regField op 9))) v s.cpu.regs.sr).1) with
        sr := (f (low sz (s.cpu.regs.d (regField op 9))) v s.cpu.regs.sr).2 }) := by
  unfold binary at hx
  rw [sized_some hsz] at hx
  obtain ⟨m, s', hm, hr⟩ := operand_ok hv
  have hs := operand_same h hv
  rw [endsWith_bind_ok hm, hdir, if_neg (by decide), endsWith_cost] at hx
  unfold opToDn at hx
  rw [endsWith_bind_ok hr] at hx
  have := ends_rmw_dn hx
  rw [hs.1, hs.2] at this
  exact this

/-- `ea op Dn -> ea`. -/
theorem ends_binary_ea {f : {n : Nat} → BitVec n → BitVec n → StatusRegister → BitVec n × StatusRegister} {a b c d e : Nat}
    {p : Place} {v : Val sz} (h : Ready s op s1) (hsz : opSize op = some sz) (hdir : flag op 8 = true)
    (hv : operand sz op s1 = .ok (p, v) s2) (hx : EndsWith C s (binary C op f a b c d e s1)) :
    EndsWith C s (writeAt sz p (f v (low sz (s.cpu.regs.d (regField op 9))) s.cpu.regs.sr).1
      (s2.withRegs fun g => { g with sr := (f v (low sz (s.cpu.regs.d (regField op 9))) s.cpu.regs.sr).2 })) := by
  unfold binary at hx
  rw [sized_some hsz] at hx
  obtain ⟨m, s', hm, hr⟩ := operand_ok hv
  have hs := operand_same h hv
  have hs' : SameD s s' := sameD_rel.trans (Ready.sameD h) ((Keeps.of_fetchEa sameD_rel _ _).ok hm)
  rw [endsWith_bind_ok hm, hdir, if_pos rfl, endsWith_cost] at hx
  unfold opToEa at hx
  rw [getR_bind_apply] at hx
  have := ends_rmw hr hx
  rw [hs'.1, hs.2] at this
  exact this

/-- The operand cannot be read. -/
theorem ends_binary_err {f : {n : Nat} → BitVec n → BitVec n → StatusRegister → BitVec n × StatusRegister} {a b c d e : Nat}
    {v : U8} (hsz : opSize op = some sz)
    (hv : operand sz op s1 = .err v s2) (hx : EndsWith C s (binary C op f a b c d e s1)) : Raises C s v s2 := by
  unfold binary at hx
  rw [sized_some hsz] at hx
  rcases bind_err hv with hm | ⟨m, s', hm, hr⟩
  · rwa [endsWith_bind_err hm] at hx
  · rw [endsWith_bind_ok hm] at hx
    split at hx
    · rw [endsWith_cost] at hx
      unfold opToEa rmw at hx
      rw [getR_bind_apply, endsWith_bind_err hr] at hx
      exact hx
    · rw [endsWith_cost] at hx
      unfold opToDn at hx
      rwa [endsWith_bind_err hr] at hx

/-- The immediate data of an instruction, then its operand. -/
def immOperand (sz : Size) (op : U16) : Exec M (Val sz × Place × Val sz) := do
  let v ← fetchImm sz
  let (p, d) ← operand sz op
  pure (low sz v, p, d)

theorem ends_immediate {f : {n : Nat} → BitVec n → BitVec n → StatusRegister → BitVec n × StatusRegister} {a b c e : Nat}
    {i : U32} {p : Place} {d : Val sz} {s' : St M} (h : Ready s op s1) (hsz : opSize op = some sz)
    (hi : fetchImm sz s1 = .ok i s') (hv : operand sz op s' = .ok (p, d) s2)
    (hx : EndsWith C s (immediate C op f a b c e s1)) :
    EndsWith C s (writeAt sz p (f d (low sz i) s.cpu.regs.sr).1
      (s2.withRegs fun g => { g with sr := (f d (low sz i) s.cpu.regs.sr).2 })) := by
  unfold immediate at hx
  rw [sized_some hsz, endsWith_bind_ok hi] at hx
  obtain ⟨m, s'', hm, hr⟩ := operand_ok hv
  have hs : SameD s s2 := sameD_rel.trans (Ready.sameD h) (sameD_rel.trans ((Keeps.of_fetchImm sameD_rel _).ok hi)
    ((Keeps.of_operand sameD_rel _ _).ok hv))
  rw [endsWith_bind_ok hm, endsWith_cost] at hx
  have := ends_rmw hr hx
  rw [hs.2] at this
  exact this

theorem ends_immediate_err {f : {n : Nat} → BitVec n → BitVec n → StatusRegister → BitVec n × StatusRegister} {a b c e : Nat}
    {i : U32} {v : U8} {s' : St M} (hsz : opSize op = some sz)
    (hi : fetchImm sz s1 = .ok i s') (hv : operand sz op s' = .err v s2)
    (hx : EndsWith C s (immediate C op f a b c e s1)) : Raises C s v s2 := by
  unfold immediate at hx
  rw [sized_some hsz, endsWith_bind_ok hi] at hx
  rcases bind_err hv with hm | ⟨m, s', hm, hr⟩
  · rwa [endsWith_bind_err hm] at hx
  · rw [endsWith_bind_ok hm, endsWith_cost] at hx
    unfold rmw at hx
    rwa [endsWith_bind_err hr] at hx

/-- One operand, read, modified and written. -/
theorem ends_unary {f : Val sz → StatusRegister → Val sz × StatusRegister} {a b c e : Nat} {x : (sz : Size) → Mode → Exec M Unit}
    {p : Place} {d : Val sz} (hf : ∀ m, x sz m = rmw sz m f) (h : Ready s op s1) (hsz : opSize op = some sz)
    (hv : operand sz op s1 = .ok (p, d) s2) (hx : EndsWith C s (unary C op a b c e x s1)) :
    EndsWith C s (writeAt sz p (f d s.cpu.regs.sr).1 (s2.withRegs fun g => { g with sr := (f d s.cpu.regs.sr).2 })) := by
  unfold unary at hx
  rw [sized_some hsz] at hx
  obtain ⟨m, s', hm, hr⟩ := operand_ok hv
  have hs := operand_same h hv
  rw [endsWith_bind_ok hm, endsWith_cost, hf] at hx
  have := ends_rmw hr hx
  rw [hs.2] at this
  exact this

theorem ends_unary_err {a b c e : Nat} {x : (sz : Size) → Mode → Exec M Unit}
    {v : U8} (hf : ∀ m s s' v, read sz m s = .err v s' → x sz m s = .err v s') (hsz : opSize op = some sz)
    (hv : operand sz op s1 = .err v s2) (hx : EndsWith C s (unary C op a b c e x s1)) : Raises C s v s2 := by
  unfold unary at hx
  rw [sized_some hsz] at hx
  rcases bind_err hv with hm | ⟨m, s', hm, hr⟩
  · rwa [endsWith_bind_err hm] at hx
  · rw [endsWith_bind_ok hm, endsWith_cost, hf _ _ _ _ hr] at hx
    exact hx

theorem rmw_err {f : Val sz → StatusRegister → Val sz × StatusRegister} (m : Mode) (s s' : St M) (v : U8)
    (h : read sz m s = .err v s') : rmw sz m f s = .err v s' := by
  unfold rmw; rw [Exec.bind_apply, h]

/-- EOR: `Dn op ea -> ea`. -/
theorem ends_opToEa {f : Val sz → Val sz → StatusRegister → Val sz × StatusRegister} {t : Mode → Nat}
    {p : Place} {v : Val sz} (h : Ready s op s1) (hsz : opSize op = some sz)
    (hv : operand sz op s1 = .ok (p, v) s2)
    (hx : EndsWith C s ((fetchEa (some sz) op >>= fun m => cost (opToEa sz (regField op 9) m f) (t m)) s1)) :
    EndsWith C s (writeAt sz p (f v (low sz (s.cpu.regs.d (regField op 9))) s.cpu.regs.sr).1
      (s2.withRegs fun g => { g with sr := (f v (low sz (s.cpu.regs.d (regField op 9))) s.cpu.regs.sr).2 })) := by
  obtain ⟨m, s', hm, hr⟩ := operand_ok hv
  have hs := operand_same h hv
  have hs' : SameD s s' := sameD_rel.trans (Ready.sameD h) ((Keeps.of_fetchEa sameD_rel _ _).ok hm)
  rw [endsWith_bind_ok hm, endsWith_cost] at hx
  unfold opToEa at hx
  rw [getR_bind_apply] at hx
  have := ends_rmw hr hx
  rw [hs'.1, hs.2] at this
  exact this

theorem ends_quick {sub : Bool} {p : Place} {d : Val sz} {t : Mode → Nat} (h : Ready s op s1)
    (hm1 : regField op 3 ≠ 1) (hv : operand sz op s1 = .ok (p, d) s2)
    (hx : EndsWith C s ((fetchEa (some sz) op >>= fun m => cost (quickOp sub (regField op 9) sz m) (t m)) s1)) :
    EndsWith C s (writeAt sz p
      ((if sub then difference false d (BitVec.ofNat _ (quick (regField op 9))) else sum false d (BitVec.ofNat _ (quick (regField op 9)))) s.cpu.regs.sr).1
      (s2.withRegs fun g => { g with sr :=
        ((if sub then difference false d (BitVec.ofNat _ (quick (regField op 9))) else sum false d (BitVec.ofNat _ (quick (regField op 9)))) s.cpu.regs.sr).2 })) := by
  obtain ⟨m, s', hm, hr⟩ := operand_ok hv
  have hs := operand_same h hv
  rw [endsWith_bind_ok hm, endsWith_cost] at hx
  have hne := (fetchMode_an hm).2 hm1
  have hq : (quickOp sub (regField op 9) sz m : Exec M Unit) = rmw sz m fun d =>
      if sub then difference false d (BitVec.ofNat _ (quick (regField op 9)))
      else sum false d (BitVec.ofNat _ (quick (regField op 9))) := by
    cases m <;> first | rfl | exact absurd rfl (hne _)
  rw [hq] at hx
  have := ends_rmw hr hx
  rw [hs.2] at this
  exact this

theorem ends_quick_an {sub : Bool} {t : Mode → Nat} 
    (hm1 : regField op 3 = 1)
    (hx : EndsWith C s ((fetchEa (some sz) op >>= fun m => cost (quickOp sub (regField op 9) sz m) (t m)) s1)) :
    Completes C s (s1.withRegs fun g => setAreg g (regField op 0)
      (if sub then areg g (regField op 0) - BitVec.ofNat 32 (quick (regField op 9))
       else areg g (regField op 0) + BitVec.ofNat 32 (quick (regField op 9)))) := by
  unfold fetchEa at hx
  rw [hm1] at hx
  exact hx

end

end Exec
end M68k
