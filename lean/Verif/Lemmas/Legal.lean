import Verif.Lemmas.EndsControl
import Verif.Spec.Length
/-
Every instruction of the decoder table reads its extension words first and then does something that neither reads
instruction words nor panics; it accesses memory and jumps only if its opcode says so.
-/
set_option linter.unusedSectionVars false
namespace M68k
namespace Exec
open Spec
variable {M : Type} [MemoryAccess M] {α β : Type}

/-! ### Reading the extension words -/

/-- `y` reads `k` words at the program counter and does nothing else; its result satisfies `p`. -/
def Pre (k : Nat) (y : Exec M β) (p : β → Prop) : Prop := ∀ s,
  match fetchWords k s with
  | .ok _ s' => ∃ b, y s = .ok b s' ∧ p b
  | .err _ _ => False
  | .panic => y s = .panic

/-- `x` reads `k` words at the program counter and then does something that satisfies `P`. -/
def Split (k : Nat) (P : Exec M α → Prop) (x : Exec M α) : Prop := ∀ s,
  match fetchWords k s with
  | .ok _ s' => ∃ z, P z ∧ x s = z s'
  | .err _ _ => False
  | .panic => x s = .panic

theorem fetchWords_add (j k : Nat) (s : St M) :
    fetchWords (j + k) s = (fetchWords j >>= fun l => fetchWords k >>= fun l' => (pure (l ++ l') : Exec M (List U16))) s := by
  induction j generalizing s with
  | zero =>
    rw [Nat.zero_add]
    show _ = (fetchWords k >>= fun l' => (pure ([] ++ l') : Exec M (List U16))) s
    rw [Exec.bind_apply]
    cases fetchWords k s <;> rfl
  | succ j ih =>
    rw [show j + 1 + k = (j + k) + 1 by omega]
    simp only [fetchWords, Exec.bind_apply]
    cases fetch s with
    | ok w s' =>
      simp only [ih s', Exec.bind_apply]
      cases fetchWords j s' with
      | ok l s'' =>
        simp only [Exec.pure_apply]
        cases fetchWords k s'' <;> rfl
      | err => rfl
      | panic => rfl
    | err => rfl
    | panic => rfl

theorem Pre.pure {p : β → Prop} {b : β} (h : p b) : Pre (M := M) 0 (Pure.pure b) p := fun _ => ⟨b, rfl, h⟩
theorem Pre.getR {f : Registers → β} : Pre (M := M) 0 (Spec.getR f) (fun _ => True) := fun s => ⟨f s.cpu.regs, rfl, trivial⟩

theorem Pre.fetch : Pre (M := M) 1 Spec.fetch (fun _ => True) := by
  intro s
  simp only [fetchWords, Exec.bind_apply]
  cases h : Spec.fetch s with
  | ok w s' => exact ⟨w, rfl, trivial⟩
  | err v s' => exact absurd h (by unfold Spec.fetch; intro h; split at h; { cases h }; { split at h <;> cases h })
  | panic => rfl

theorem Pre.bind {j k : Nat} {y : Exec M α} {p : α → Prop} {g : α → Exec M β} {q : β → Prop} (hy : Pre j y p)
    (hg : ∀ a, p a → Pre k (g a) q) : Pre (j + k) (y >>= g) q := by
  intro s
  rw [fetchWords_add, Exec.bind_apply]
  have h := hy s
  cases hj : fetchWords j s with
  | ok l s' =>
    rw [hj] at h
    obtain ⟨a, h1, h2⟩ := h
    have h' := hg a h2 s'
    simp only [Exec.bind_apply]
    cases hk : fetchWords k s' with
    | ok l' s'' => rw [hk] at h'; simp only [h1]; exact h'
    | err => rw [hk] at h'; exact h'.elim
    | panic => rw [hk] at h'; simp only [h1]; exact h'
  | err => rw [hj] at h; exact h.elim
  | panic => rw [hj] at h; simp only [Exec.bind_apply]; simp only at h; rw [h]

theorem Pre.map {k : Nat} {y : Exec M α} {p : α → Prop} {q : β → Prop} (f : α → β) (hy : Pre k y p) (hq : ∀ a, p a → q (f a)) : Pre k (f <$> y) q := by
  have : f <$> y = y >>= fun a => (Pure.pure (f a) : Exec M β) := by
    funext s; rw [Exec.map_apply, Exec.bind_apply]; cases y s <;> rfl
  rw [this]
  exact Pre.bind (k := 0) hy fun a ha => Pre.pure (hq a ha)

theorem Pre.fetchLong : Pre (M := M) 2 Spec.fetchLong (fun _ => True) :=
  Pre.bind (j := 1) (k := 1) Pre.fetch fun _ _ => Pre.bind (j := 1) (k := 0) Pre.fetch fun _ _ => Pre.pure trivial

theorem Split.here {P : Exec M α → Prop} {x : Exec M α} (h : P x) : Split 0 P x := fun _ => ⟨x, h, rfl⟩

theorem Split.bind {j k : Nat} {y : Exec M β} {p : β → Prop} {f : β → Exec M α} {P : Exec M α → Prop} (hy : Pre j y p)
    (hf : ∀ b, p b → Split k P (f b)) : Split (j + k) P (y >>= f) := by
  intro s
  rw [fetchWords_add, Exec.bind_apply]
  have h := hy s
  cases hj : fetchWords j s with
  | ok l s' =>
    rw [hj] at h
    obtain ⟨a, h1, h2⟩ := h
    have h' := hf a h2 s'
    simp only [Exec.bind_apply]
    cases hk : fetchWords k s' with
    | ok l' s'' => rw [hk] at h'; simp only [h1]; exact h'
    | err => rw [hk] at h'; exact h'.elim
    | panic => rw [hk] at h'; simp only [h1]; exact h'
  | err => rw [hj] at h; exact h.elim
  | panic => rw [hj] at h; simp only [Exec.bind_apply]; simp only at h; rw [h]

/-- Something that reads no word first. -/
theorem Split.bind' {k : Nat} {y : Exec M β} {p : β → Prop} {f : β → Exec M α} {P : Exec M α → Prop} (hy : Pre 0 y p)
    (hf : ∀ b, p b → Split k P (f b)) : Split k P (y >>= f) := by
  have := Split.bind hy hf
  rwa [Nat.zero_add] at this

/-- The last read of extension words. -/
theorem Split.last {k : Nat} {y : Exec M β} {p : β → Prop} {f : β → Exec M α} {P : Exec M α → Prop} (hy : Pre k y p)
    (hf : ∀ b, p b → P (f b)) : Split k P (y >>= f) := Split.bind (k := 0) hy fun b hb => Split.here (hf b hb)

/-- The mode denoted by the fields `mode` and `reg`. -/
def Fits (mode reg : Nat) : Mode → Prop
  | .dn n => mode = 0 ∧ n.val = reg
  | .an n => mode = 1 ∧ n.val = reg
  | .ind n => mode = 2 ∧ n.val = reg
  | .postinc n => mode = 3 ∧ n.val = reg
  | .predec n => mode = 4 ∧ n.val = reg
  | .disp n _ => mode = 5 ∧ n.val = reg
  | .index n _ => mode = 6 ∧ n.val = reg
  | .absW _ => mode = 7 ∧ reg = 0
  | .absL _ => mode = 7 ∧ reg = 1
  | .pcDisp _ _ => mode = 7 ∧ reg = 2
  | .pcIndex _ _ => mode = 7 ∧ reg = 3
  | .imm _ => mode = 7 ∧ reg = 4

/-- The number of words of an immediate operand. -/
def immWords : Option Size → Nat
  | some .Long => 2
  | _ => 1

theorem Pre.fetchMode (sz : Option Size) (imm : Nat) (mode reg : Fin 8)
    (h : mode.val = 7 → reg.val ≤ 3 ∨ (reg.val = 4 ∧ sz ≠ none ∧ immWords sz = imm)) :
    Pre (M := M) (eaWords imm mode.val reg.val) (Spec.fetchMode sz mode reg) (Fits mode.val reg.val) := by
  match mode, h with
  | 0, _ => exact Pre.pure ⟨rfl, rfl⟩
  | 1, _ => exact Pre.pure ⟨rfl, rfl⟩
  | 2, _ => exact Pre.pure ⟨rfl, rfl⟩
  | 3, _ => exact Pre.pure ⟨rfl, rfl⟩
  | 4, _ => exact Pre.pure ⟨rfl, rfl⟩
  | 5, _ => exact Pre.map (k := 1) _ Pre.fetch fun _ _ => ⟨rfl, rfl⟩
  | 6, _ => exact Pre.map (k := 1) _ Pre.fetch fun _ _ => ⟨rfl, rfl⟩
  | 7, h =>
    match reg, h with
    | 0, _ => exact Pre.map (k := 1) _ Pre.fetch fun _ _ => ⟨rfl, rfl⟩
    | 1, _ => exact Pre.map (k := 2) _ Pre.fetchLong fun _ _ => ⟨rfl, rfl⟩
    | 2, _ => exact Pre.bind (j := 0) (k := 1) Pre.getR fun _ _ => Pre.map _ Pre.fetch fun _ _ => ⟨rfl, rfl⟩
    | 3, _ => exact Pre.bind (j := 0) (k := 1) Pre.getR fun _ _ => Pre.map _ Pre.fetch fun _ _ => ⟨rfl, rfl⟩
    | 4, h =>
      have h' := (h rfl).resolve_left (by decide)
      obtain ⟨-, h1, h2⟩ := h'
      subst h2
      match sz, h1 with
      | none, h1 => exact absurd rfl h1
      | some .Long, _ => exact Pre.map (k := 2) _ Pre.fetchLong fun _ _ => ⟨rfl, rfl⟩
      | some .Word, _ => exact Pre.map (k := 1) _ Pre.fetch fun _ _ => ⟨rfl, rfl⟩
      | some .Byte, _ => exact Pre.map (k := 1) _ Pre.fetch fun _ _ => ⟨rfl, rfl⟩
    | 5, h => exact absurd (h rfl) (by rintro (h | ⟨h, -⟩) <;> exact absurd h (by decide))
    | 6, h => exact absurd (h rfl) (by rintro (h | ⟨h, -⟩) <;> exact absurd h (by decide))
    | 7, h => exact absurd (h rfl) (by rintro (h | ⟨h, -⟩) <;> exact absurd h (by decide))

theorem Pre.fetchEa (sz : Option Size) (imm : Nat) (op : U16)
    (h : op.toNat / 8 % 8 = 7 → op.toNat % 8 ≤ 3 ∨ (op.toNat % 8 = 4 ∧ sz ≠ none ∧ immWords sz = imm)) :
    Pre (M := M) (opEaWords imm op) (Spec.fetchEa sz op) (Fits (op.toNat / 8 % 8) (op.toNat % 8)) := by
  have e0 : (regField op 0).val = op.toNat % 8 := by simp [regField, Fin.ofNat]
  have e3 : (regField op 3).val = op.toNat / 8 % 8 := by simp [regField, Fin.ofNat]
  have := Pre.fetchMode (M := M) sz imm (regField op 3) (regField op 0) (by rw [e0, e3]; exact h)
  rw [e0, e3] at this
  exact this

theorem Pre.fetchImm (sz : Size) : Pre (M := M) (immWords (some sz)) (Spec.fetchImm sz) (fun _ => True) := by
  unfold Spec.fetchImm
  cases sz with
  | Long => exact Pre.fetchLong
  | Word => exact Pre.bind (j := 1) (k := 0) Pre.fetch fun _ _ => Pre.pure trivial
  | Byte => exact Pre.bind (j := 1) (k := 0) Pre.fetch fun _ _ => Pre.pure trivial

theorem Pre.fetchDisp (op : U16) : Pre (M := M) (if op.toNat % 256 = 0 then 1 else 0) (Spec.fetchDisp op) (fun _ => True) := by
  unfold Spec.fetchDisp
  split
  · exact Pre.fetch
  · exact Pre.pure trivial

/-! ### The rest of the instruction -/

/-- `P` holds of the primitive actions, of the memory accesses only under `rd` and `wr`, of jumps only under `jmp`,
and of the RESET signal only under `rst`. -/
structure Legal (rd wr jmp rst : Prop) (P : ∀ {α : Type}, Exec M α → Prop) : Prop where
  pure : ∀ {α : Type} (a : α), P (pure a : Exec M α)
  bind : ∀ {α β : Type} (x : Exec M α) (f : α → Exec M β), P x → (∀ a, P (f a)) → P (x >>= f)
  trap : ∀ {α : Type} (v : U8), P (trap v : Exec M α)
  getR : ∀ {α : Type} (f : Registers → α), P (getR f : Exec M α)
  load : rd → ∀ (sz : Size) (a : U32), P (load sz a : Exec M _)
  store : wr → ∀ (sz : Size) (a : U32) (v : Val sz), P (store sz a v : Exec M _)
  movemLoad : rd → ∀ (sz : Size) (a : U32), sz ≠ .Byte → ¬ Spec.Odd a → P (Spec.movemLoad sz a : Exec M _)
  movemStore : wr → ∀ (sz : Size) (a v : U32), sz ≠ .Byte → ¬ Spec.Odd a → P (Spec.movemStore sz a v : Exec M _)
  dreg : ∀ (n : Fin 8) (f : Registers → U32), P (modR fun r => setDreg r n (f r) : Exec M Unit)
  areg : ∀ (n : Fin 8) (f : Registers → U32), P (modR fun r => setAreg r n (f r) : Exec M Unit)
  flags : ∀ f, P (setFlags f : Exec M Unit)
  jump : jmp → ∀ a, P (jump a : Exec M Unit)
  halt : P (halt : Exec M Unit)
  signalReset : rst → P (signalReset : Exec M Unit)
  usp : ∀ n : Fin 8, P (modR fun r => { r with usp := Spec.areg r n } : Exec M Unit)

/-- The mode can be read: not a byte of an address register. -/
def Readable (sz : Size) (m : Mode) : Prop := ∀ n, m = .an n → sz ≠ .Byte
/-- The mode can be written. -/
def Writeable (sz : Size) (m : Mode) : Prop := Readable sz m ∧ ∀ v, m ≠ .imm v

namespace Legal
variable {rd wr jmp rst : Prop} {P : ∀ {α : Type}, Exec M α → Prop} (hP : Legal rd wr jmp rst P)
include hP

theorem map (f : α → β) {x : Exec M α} (hx : P x) : P (f <$> x) := by
  have : f <$> x = x >>= fun a => Pure.pure (f a) := by
    funext s
    rw [Exec.map_apply, Exec.bind_apply]
    cases x s <;> rfl
  rw [this]
  exact hP.bind _ _ hx fun a => hP.pure _

theorem cost {x : Exec M α} (t : Nat) (hx : P x) : P (cost x t) := hP.map _ hx

theorem compute (f : StatusRegister → α × StatusRegister) : P (compute f : Exec M α) := by
  have : (Spec.compute f : Exec M α) = Spec.getR (fun r => r.sr) >>= fun sr => setFlags (fun sr => (f sr).2) >>= fun _ => Pure.pure (f sr).1 := by
    funext s; rfl
  rw [this]
  exact hP.bind _ _ (hP.getR _) fun sr => hP.bind _ _ (hP.flags _) fun _ => hP.pure _

theorem updateA (n : Fin 8) (f : U32 → U32) : P (updateA n f : Exec M Unit) := hP.areg n fun r => f (Spec.areg r n)

/-- Evaluating an effective address, then something that depends on the kind of place only. -/
theorem locate {α : Type} (sz : Size) (m : Mode) {f : Place → Exec M α} (hm : m.isMem = true → ∀ a, P (f (.mem a)))
    (hd : ∀ n, m = .dn n → P (f (.dreg n))) (ha : ∀ n, m = .an n → P (f (.areg n))) (hi : ∀ v, m = .imm v → P (f (.imm v))) :
    P (locate sz m >>= f) := by
  cases m with
  | dn n => exact hd n rfl
  | an n => exact ha n rfl
  | imm v => exact hi v rfl
  | postinc n =>
    exact hP.bind (Spec.getR fun r => Spec.areg r n) (fun a => (modR fun r => setAreg r n (Spec.areg r n + step n sz)) >>= fun _ => f (.mem a))
      (hP.getR _) fun a => hP.bind _ _ (hP.areg n _) fun _ => hm rfl a
  | predec n =>
    exact hP.bind (Spec.getR fun r => Spec.areg r n - step n sz) (fun a => (modR fun r => setAreg r n (Spec.areg r n - step n sz)) >>= fun _ => f (.mem a))
      (hP.getR _) fun a => hP.bind _ _ (hP.areg n _) fun _ => hm rfl a
  | ind n => exact hP.bind (Spec.getR fun r => Spec.areg r n) (fun a => f (.mem a)) (hP.getR _) (hm rfl)
  | disp n d => exact hP.bind (Spec.getR fun r => Spec.areg r n + signExt d) (fun a => f (.mem a)) (hP.getR _) (hm rfl)
  | index n x => exact hP.bind (Spec.getR fun r => Spec.areg r n + indexDisp x + indexValue r x) (fun a => f (.mem a)) (hP.getR _) (hm rfl)
  | absW a => exact hm rfl _
  | absL a => exact hm rfl _
  | pcDisp pc d => exact hm rfl _
  | pcIndex pc x => exact hP.bind (Spec.getR fun r => pc + indexDisp x + indexValue r x) (fun a => f (.mem a)) (hP.getR _) (hm rfl)

theorem readD (sz : Size) (n : Fin 8) : P (readAt sz (.dreg n) : Exec M _) := hP.getR fun r => low sz (r.d n)
theorem readA {sz : Size} (h : sz ≠ .Byte) (n : Fin 8) : P (readAt sz (.areg n) : Exec M _) := by
  unfold Spec.readAt; simp only [if_neg h]; exact hP.getR fun r => low sz (Spec.areg r n)
theorem writeD (sz : Size) (n : Fin 8) (v : Val sz) : P (writeAt sz (.dreg n) v : Exec M _) := hP.dreg n fun r => insertLow sz (r.d n) v
theorem writeA {sz : Size} (h : sz ≠ .Byte) (n : Fin 8) (v : Val sz) : P (writeAt sz (.areg n) v : Exec M _) := by
  unfold Spec.writeAt; simp only [if_neg h]; exact hP.areg n fun _ => signExt v

/-- Reading an operand, then something that depends on the value only. -/
theorem read {α : Type} (sz : Size) (m : Mode) (h : Readable sz m) (hrd : m.isMem = true → rd) {f : Place × Val sz → Exec M α}
    (hf : ∀ p v, P (f (p, v))) : P (read sz m >>= f) := by
  have : (Spec.read sz m >>= f : Exec M α) = Spec.locate sz m >>= fun p => Spec.readAt sz p >>= fun v => f (p, v) := by
    funext s
    simp only [Spec.read, Exec.bind_apply]
    cases Spec.locate sz m s with
    | ok p s' => simp only [Exec.bind_apply]; cases Spec.readAt sz p s' <;> rfl
    | err => rfl
    | panic => rfl
  rw [this]
  exact hP.locate sz m (fun hm a => hP.bind _ _ (hP.load (hrd hm) sz a) fun v => hf _ v) (fun n _ => hP.bind _ _ (hP.readD sz n) fun v => hf _ v)
    (fun n hn => hP.bind _ _ (hP.readA (h n hn) n) fun v => hf _ v) (fun v _ => hf _ _)

theorem readExt {α : Type} (sz : Size) (m : Mode) (h : Readable sz m) (hrd : m.isMem = true → rd) {f : U32 → Exec M α} (hf : ∀ v, P (f v)) :
    P (readExt sz m >>= f) := by
  have : (Spec.readExt sz m >>= f : Exec M α) = Spec.read sz m >>= fun pv => f (signExt pv.2) := by
    funext s
    simp only [Spec.readExt, Exec.bind_apply]
    cases Spec.read sz m s <;> rfl
  rw [this]
  exact hP.read sz m h hrd fun _ _ => hf _

theorem write (sz : Size) (m : Mode) (h : Writeable sz m) (hwr : m.isMem = true → wr) (v : Val sz) : P (write sz m v : Exec M Unit) :=
  hP.locate sz m (fun hm a => hP.store (hwr hm) sz a v) (fun n _ => hP.writeD sz n v) (fun n hn => hP.writeA (h.1 n hn) n v)
    (fun v hv => absurd hv (h.2 v))

theorem rmw (sz : Size) (m : Mode) (h : Writeable sz m) (hrd : m.isMem = true → rd ∧ wr) (f : Val sz → StatusRegister → Val sz × StatusRegister) :
    P (rmw sz m f : Exec M Unit) := by
  have : (Spec.rmw sz m f : Exec M Unit) = Spec.locate sz m >>= fun p => Spec.readAt sz p >>= fun v => Spec.compute (f v) >>= fun r => Spec.writeAt sz p r := by
    funext s
    simp only [Spec.rmw, Spec.read, Exec.bind_apply]
    cases Spec.locate sz m s with
    | ok p s' => simp only [Exec.bind_apply]; cases Spec.readAt sz p s' <;> rfl
    | err => rfl
    | panic => rfl
  rw [this]
  exact hP.locate sz m (fun hm a => hP.bind _ _ (hP.load (hrd hm).1 sz a) fun v => hP.bind _ _ (hP.compute _) fun r => hP.store (hrd hm).2 sz a r)
    (fun n _ => hP.bind _ _ (hP.readD sz n) fun v => hP.bind _ _ (hP.compute _) fun r => hP.writeD sz n r)
    (fun n hn => hP.bind _ _ (hP.readA (h.1 n hn) n) fun v => hP.bind _ _ (hP.compute _) fun r => hP.writeA (h.1 n hn) n r)
    (fun v hv => absurd hv (h.2 v))

theorem rmwD (sz : Size) (n : Fin 8) (f : Val sz → StatusRegister → Val sz × StatusRegister) : P (Spec.rmw sz (.dn n) f : Exec M Unit) :=
  hP.rmw sz _ ⟨fun _ h => (by cases h), fun _ h => (by cases h)⟩ (fun h => by cases h) f

theorem opToEa (sz : Size) (n : Fin 8) (m : Mode) (h : Writeable sz m) (hrd : m.isMem = true → rd ∧ wr)
    (f : Val sz → Val sz → StatusRegister → Val sz × StatusRegister) : P (opToEa sz n m f : Exec M Unit) :=
  hP.bind _ _ (hP.getR _) fun _ => hP.rmw _ _ h hrd _

theorem opToDn (sz : Size) (n : Fin 8) (m : Mode) (h : Readable sz m) (hrd : m.isMem = true → rd)
    (f : Val sz → Val sz → StatusRegister → Val sz × StatusRegister) : P (opToDn sz n m f : Exec M Unit) :=
  hP.read sz m h hrd fun _ _ => hP.rmwD _ _ _

theorem pair (sz : Size) (b : Bool) (x y : Fin 8) (hb : b = true → rd ∧ wr) (f : Val sz → Val sz → StatusRegister → Val sz × StatusRegister) :
    P (pair sz b x y f : Exec M Unit) := by
  unfold Spec.pair
  cases b
  · simp only [Bool.false_eq_true, if_false]
    refine hP.locate sz _ (fun h => by cases h) (fun n _ => ?_) (fun _ h => by cases h) (fun _ h => by cases h)
    refine hP.locate sz _ (fun h => by cases h) (fun n' _ => ?_) (fun _ h => by cases h) (fun _ h => by cases h)
    exact hP.bind _ _ (hP.readD _ _) fun _ => hP.bind _ _ (hP.readD _ _) fun _ => hP.bind _ _ (hP.compute _) fun _ => hP.writeD _ _ _
  · simp only [if_true]
    refine hP.locate sz _ (fun _ a => ?_) (fun _ h => by cases h) (fun _ h => by cases h) (fun _ h => by cases h)
    refine hP.locate sz _ (fun _ a' => ?_) (fun _ h => by cases h) (fun _ h => by cases h) (fun _ h => by cases h)
    exact hP.bind _ _ (hP.load (hb rfl).1 _ _) fun _ => hP.bind _ _ (hP.load (hb rfl).1 _ _) fun _ => hP.bind _ _ (hP.compute _) fun _ => hP.store (hb rfl).2 _ _ _

theorem push (hwr : wr) (sz : Size) (v : Val sz) : P (push sz v : Exec M _) := hP.write _ _ ⟨fun _ h => (by cases h), fun _ h => (by cases h)⟩ (fun _ => hwr) _
theorem pop (hrd : rd) (sz : Size) : P (pop sz : Exec M _) := hP.read _ _ (fun _ h => by cases h) (fun _ => hrd) fun _ _ => hP.pure _

/-- The address of a memory operand, then something that does not depend on it. -/
theorem address (sz : Size) (m : Mode) (h : m.isMem = true) : P (address sz m : Exec M _) :=
  hP.locate sz m (fun _ _ => hP.pure _) (fun n hn => by subst hn; cases h) (fun n hn => by subst hn; cases h) (fun n hn => by subst hn; cases h)

theorem control (m : Mode) (h : m.isMem = true) (h1 : ∀ n, m ≠ .postinc n) (h2 : ∀ n, m ≠ .predec n) : P (control m : Exec M _) := by
  unfold Spec.control
  split
  · exact absurd rfl (h1 _)
  · exact absurd rfl (h2 _)
  · exact hP.address _ _ h

theorem quickOp (b : Bool) (data : Fin 8) (sz : Size) (m : Mode) (h : ∀ v, m ≠ .imm v) (hrd : m.isMem = true → rd ∧ wr) : P (quickOp b data sz m : Exec M Unit) := by
  unfold Spec.quickOp
  split
  · exact hP.updateA _ _
  · rename_i hn
    exact hP.rmw _ _ ⟨fun n e => absurd e (hn n), h⟩ hrd _

theorem compareWith {n : Nat} (d s : BitVec n) : P (compareWith d s : Exec M Unit) := hP.flags _

theorem cmpm (hrd : rd) (sz : Size) (x y : Fin 8) : P (cmpm sz x y : Exec M Unit) := by
  unfold Spec.cmpm
  refine hP.locate sz _ (fun _ a => ?_) (fun _ h => by cases h) (fun _ h => by cases h) (fun _ h => by cases h)
  refine hP.locate sz _ (fun _ a' => ?_) (fun _ h => by cases h) (fun _ h => by cases h) (fun _ h => by cases h)
  exact hP.bind _ _ (hP.load hrd _ _) fun _ => hP.bind _ _ (hP.load hrd _ _) fun _ => hP.compareWith _ _

theorem setD (n : Fin 8) (v : U32) : P (modR (setDreg · n v) : Exec M Unit) := hP.dreg n fun _ => v

theorem mul (b : Bool) (n : Fin 8) (m : Mode) (h : Readable .Word m) (hrd : m.isMem = true → rd) : P (mul b n m : Exec M Unit) := by
  refine hP.read _ _ h hrd fun _ x => ?_
  refine hP.bind _ _ (hP.getR _) fun d => ?_
  exact hP.bind _ _ (hP.setD _ _) fun _ => hP.flags _

theorem divu (n : Fin 8) (m : Mode) (h : Readable .Word m) (hrd : m.isMem = true → rd) : P (divu n m : Exec M Unit) := by
  refine hP.bind _ _ (hP.flags _) fun _ => hP.read _ _ h hrd fun _ x => ?_
  simp only
  split
  · exact hP.bind _ _ (hP.flags _) fun _ => hP.trap _
  · refine hP.bind _ _ (hP.getR _) fun d => ?_
    split
    · exact hP.bind _ _ (hP.setD _ _) fun _ => hP.flags _
    · exact hP.flags _

theorem divs (n : Fin 8) (m : Mode) (h : Readable .Word m) (hrd : m.isMem = true → rd) : P (divs n m : Exec M Unit) := by
  refine hP.bind _ _ (hP.flags _) fun _ => hP.read _ _ h hrd fun _ x => ?_
  simp only
  split
  · exact hP.bind _ _ (hP.flags _) fun _ => hP.trap _
  · refine hP.bind _ _ (hP.getR _) fun d => ?_
    split
    · exact hP.bind _ _ (hP.setD _ _) fun _ => hP.flags _
    · exact hP.flags _

theorem bitOpAt (o : BitOp) (sz : Size) (i : Nat) (m : Mode) (h : Readable sz m) (ho : o ≠ .test → ∀ v, m ≠ .imm v) (hrd : m.isMem = true → rd)
    (hwr : o ≠ .test → m.isMem = true → wr) : P (bitOpAt o sz i m : Exec M Unit) := by
  unfold Spec.bitOpAt
  split
  · exact hP.read _ _ h hrd fun _ x => hP.flags _
  · rename_i hn
    exact hP.rmw _ _ ⟨h, ho hn⟩ (fun hm => ⟨hrd hm, hwr hn hm⟩) _

theorem bitOp (o : BitOp) (i : Nat) (m : Mode) (h : ∀ n, m ≠ .an n) (ho : o ≠ .test → ∀ v, m ≠ .imm v) (hrd : m.isMem = true → rd)
    (hwr : o ≠ .test → m.isMem = true → wr) : P (bitOp o i m : Exec M Unit) := by
  unfold Spec.bitOp
  split <;> exact hP.bitOpAt _ _ _ _ (fun n hn => absurd hn (h n)) ho hrd hwr

theorem shift (f : {n : Nat} → Nat → BitVec n → StatusRegister → BitVec n × StatusRegister) (sz : Size) (b : Bool) (r n : Fin 8) :
    P (shift f sz b r n : Exec M Nat) := by
  refine hP.bind _ _ ?_ fun k => hP.bind _ _ (hP.rmwD _ _ _) fun _ => hP.pure _
  unfold Spec.shiftCount
  split
  · exact hP.getR _
  · exact hP.pure _

theorem exg (k : Direction) (x y : Fin 8) : P (exg k x y : Exec M Unit) := by
  have hAA : ∀ x y : Fin 8, P ((modR fun r => setAreg (setAreg r y (Spec.areg r x)) x (Spec.areg r y)) : Exec M Unit) := by
    intro x y
    have : ((modR fun r => setAreg (setAreg r y (Spec.areg r x)) x (Spec.areg r y)) : Exec M Unit) =
        Spec.getR (fun r => Spec.areg r y) >>= fun v => (modR fun r => setAreg r y (Spec.areg r x)) >>= fun _ => modR fun r => setAreg r x v := by
      funext s; rfl
    rw [this]
    exact hP.bind _ _ (hP.getR _) fun _ => hP.bind _ _ (hP.areg _ _) fun _ => hP.areg _ fun _ => _
  have hDD : ∀ x y : Fin 8, P ((modR fun r => setDreg (setDreg r x (r.d y)) y (r.d x)) : Exec M Unit) := by
    intro x y
    have : ((modR fun r => setDreg (setDreg r x (r.d y)) y (r.d x)) : Exec M Unit) =
        Spec.getR (fun r => r.d x) >>= fun v => (modR fun r => setDreg r x (r.d y)) >>= fun _ => modR fun r => setDreg r y v := by
      funext s; rfl
    rw [this]
    exact hP.bind _ _ (hP.getR _) fun _ => hP.bind _ _ (hP.dreg _ _) fun _ => hP.dreg _ fun _ => _
  have hDA : ∀ x y : Fin 8, P ((modR fun r => setDreg (setAreg r y (r.d x)) x (Spec.areg r y)) : Exec M Unit) := by
    intro x y
    have : ((modR fun r => setDreg (setAreg r y (r.d x)) x (Spec.areg r y)) : Exec M Unit) =
        Spec.getR (fun r => Spec.areg r y) >>= fun v => (modR fun r => setAreg r y (r.d x)) >>= fun _ => modR fun r => setDreg r x v := by
      funext s; rfl
    rw [this]
    exact hP.bind _ _ (hP.getR _) fun _ => hP.bind _ _ (hP.areg _ _) fun _ => hP.dreg _ fun _ => _
  unfold Spec.exg
  split
  · exact hDD _ _
  · exact hAA _ _
  · exact hDA _ _

theorem setSr (n : Fin 8) : P ((modR fun r => { r with sr := logicFlags (r.d n) r.sr }) : Exec M Unit) :=
  hP.bind (Spec.getR fun r => r.d n) (fun v => setFlags (logicFlags v)) (hP.getR _) fun _ => hP.flags _

theorem addr_even {sz : Size} (hsz : sz ≠ .Byte) {a : U32} (ha : ¬ Spec.Odd a) :
    ¬ Spec.Odd (a + BitVec.ofNat 32 (bytes sz)) ∧ ¬ Spec.Odd (a - BitVec.ofNat 32 (bytes sz)) := by
  unfold Spec.Odd at *
  cases sz with
  | Byte => exact absurd rfl hsz
  | Word => simp only [bytes, BitVec.toNat_add, BitVec.toNat_sub, BitVec.toNat_ofNat]; omega
  | Long => simp only [bytes, BitVec.toNat_add, BitVec.toNat_sub, BitVec.toNat_ofNat]; omega

theorem setRegNo (i : Fin 16) (v : U32) : P (modR (setRegNo · i v) : Exec M Unit) := by
  unfold Spec.setRegNo
  by_cases h : i.val < 8
  · simp only [h, dite_true]; exact hP.dreg _ fun _ => v
  · simp only [h, dite_false]; exact hP.areg _ fun _ => v

theorem movemLoads (hrd : rd) (sz : Size) (hsz : sz ≠ .Byte) (l : List (Fin 16)) (a : U32) (ha : ¬ Spec.Odd a) : P (movemLoads sz l a : Exec M U32) := by
  induction l generalizing a with
  | nil => exact hP.pure _
  | cons i l ih =>
    exact hP.bind _ _ (hP.movemLoad hrd _ _ hsz ha) fun _ => hP.bind _ _ (hP.setRegNo _ _) fun _ => ih _ (hP.addr_even hsz ha).1

theorem movemStores (hwr : wr) (sz : Size) (hsz : sz ≠ .Byte) (l : List (Fin 16)) (a : U32) (ha : ¬ Spec.Odd a) : P (movemStores sz l a : Exec M U32) := by
  induction l generalizing a with
  | nil => exact hP.pure _
  | cons i l ih =>
    exact hP.bind _ _ (hP.getR _) fun _ => hP.bind _ _ (hP.movemStore hwr _ _ _ hsz ha) fun _ => ih _ (hP.addr_even hsz ha).1

theorem movemStoresDown (hwr : wr) (sz : Size) (hsz : sz ≠ .Byte) (l : List (Fin 16)) (a : U32) (ha : ¬ Spec.Odd a) : P (movemStoresDown sz l a : Exec M U32) := by
  induction l generalizing a with
  | nil => exact hP.pure _
  | cons i l ih =>
    exact hP.bind _ _ (hP.getR _) fun _ => hP.bind _ _ (hP.movemStore hwr _ _ _ hsz (hP.addr_even hsz ha).2) fun _ => ih _ (hP.addr_even hsz ha).2

theorem aligned (a : U32) {α : Type} {f : Unit → Exec M α} (hf : ¬ Spec.Odd a → P (f ())) : P (aligned a >>= f) := by
  by_cases h : Spec.Odd a
  · have : (Spec.aligned a >>= f) = Spec.trap 3 := by unfold Spec.aligned; rw [if_pos h]; rfl
    rw [this]; exact hP.trap _
  · have : (Spec.aligned a >>= f) = f () := by unfold Spec.aligned; rw [if_neg h]; rfl
    rw [this]; exact hf h

theorem movem (b : Bool) (sz : Size) (hsz : sz ≠ .Byte) (m : Mode) (mask : U16) (h : m.isMem = true) (hrd : b = true → rd) (hwr : b = false → wr)
    (hpre : ∀ n, m = .predec n → wr) : P (movem b sz m mask : Exec M Unit) := by
  unfold Spec.movem
  split
  · refine hP.bind _ _ (hP.getR _) fun a => hP.aligned a fun ha => hP.bind _ _ (hP.movemStoresDown (hpre _ rfl) sz hsz _ _ ha) fun _ => hP.updateA _ _
  · refine hP.bind _ _ (hP.getR _) fun a => hP.aligned a fun ha => hP.bind _ _ ?_ fun _ => hP.updateA _ _
    cases b
    · exact hP.movemStores (hwr rfl) sz hsz _ _ ha
    · exact hP.movemLoads (hrd rfl) sz hsz _ _ ha
  · refine hP.bind _ _ (hP.address _ _ h) fun a => hP.aligned a fun ha => hP.bind _ _ ?_ fun _ => hP.pure _
    cases b
    · exact hP.movemStores (hwr rfl) sz hsz _ _ ha
    · exact hP.movemLoads (hrd rfl) sz hsz _ _ ha

theorem movepStores (hwr : wr) (n : Fin 8) (k : Nat) (a : U32) : P (movepStores n k a : Exec M Unit) := by
  induction k generalizing a with
  | zero => exact hP.pure _
  | succ k ih => exact hP.bind _ _ (hP.getR _) fun _ => hP.bind _ _ (hP.store hwr _ _ _) fun _ => ih _

theorem movepLoads (hrd : rd) (n : Fin 8) (k : Nat) (a : U32) : P (movepLoads n k a : Exec M Unit) := by
  induction k generalizing a with
  | zero => exact hP.pure _
  | succ k ih => exact hP.bind _ _ (hP.load hrd .Byte _) fun b => hP.bind _ _ (hP.dreg n fun r => setByteOf (r.d n) k b) fun _ => ih _

theorem movep (b : Bool) (sz : Size) (n an : Fin 8) (d : U16) (hrd : b = false → rd) (hwr : b = true → wr) : P (movep b sz n an d : Exec M Unit) := by
  refine hP.bind _ _ (hP.getR _) fun a => ?_
  cases b
  · exact hP.bind _ _ (hP.dreg n fun r => insertLow sz (r.d n) 0) fun _ => hP.movepLoads (hrd rfl) _ _ _
  · exact hP.movepStores (hwr rfl) _ _ _

theorem test (cc : Fin 16) : P (test cc : Exec M Bool) := hP.getR _

theorem bcc (hj : jmp) (pc : U32) (cc : Fin 16) (d : U16) : P (bcc pc cc d : Exec M Bool) := by
  refine hP.bind _ _ (hP.test _) fun b => ?_
  simp only
  split
  · exact hP.bind _ _ (hP.jump hj _) fun _ => hP.pure _
  · exact hP.pure _

theorem dbcc (hj : jmp) (pc : U32) (cc : Fin 16) (n : Fin 8) (d : U16) : P (dbcc pc cc n d : Exec M _) := by
  refine hP.bind _ _ (hP.test _) fun b => ?_
  split
  · exact hP.pure _
  · refine hP.bind _ _ (hP.getR _) fun k => hP.bind _ _ (hP.dreg n fun r => insertLow .Word (r.d n) (k - 1)) fun _ => ?_
    split
    · exact hP.pure _
    · exact hP.bind _ _ (hP.jump hj _) fun _ => hP.pure _

theorem chk (n : Fin 8) (m : Mode) (h : Readable .Word m) (hrd : m.isMem = true → rd) : P (chk n m : Exec M Unit) := by
  refine hP.read _ _ h hrd fun _ x => ?_
  refine hP.bind _ _ (hP.getR _) fun v => ?_
  split
  · exact hP.trap _
  · exact hP.pure _

theorem link (hwr : wr) (n : Fin 8) (d : U16) : P (link n d : Exec M Unit) :=
  hP.bind _ _ (hP.getR _) fun _ => hP.bind _ _ (hP.push hwr _ _) fun _ =>
    hP.bind _ _ (hP.areg n fun r => Spec.areg r 7) fun _ => hP.updateA _ _

theorem unlk (hrd : rd) (n : Fin 8) : P (unlk n : Exec M Unit) :=
  hP.bind _ _ (hP.areg 7 fun r => Spec.areg r n) fun _ => hP.bind _ _ (hP.pop hrd _) fun _ => hP.updateA _ _

theorem rtr (hrd : rd) (hj : jmp) : P (rtr : Exec M Unit) :=
  hP.bind _ _ (hP.pop hrd .Word) fun _ => hP.bind _ _ (hP.flags _) fun _ => hP.bind _ _ (hP.pop hrd .Long) fun _ => hP.jump hj _

theorem privileged : P (privileged : Exec M Unit) := by
  refine hP.bind _ _ (hP.getR _) fun s => ?_
  split
  · exact hP.pure _
  · exact hP.trap _

theorem rte (hrd : rd) (hj : jmp) (f : StackFormat) : P (rte f : Exec M Bool) := by
  refine hP.bind _ _ hP.privileged fun _ => hP.bind _ _ (hP.pop hrd .Word) fun _ => hP.bind _ _ (hP.pop hrd .Long) fun _ =>
    hP.bind _ _ (hP.jump hj _) fun _ => hP.bind _ _ ?_ fun _ => hP.bind _ _ (hP.flags _) fun _ => hP.pure _
  split
  · refine hP.bind _ _ (hP.pop hrd .Word) fun f => ?_
    split
    · exact hP.bind _ _ (hP.updateA _ _) fun _ => hP.pure _
    · split
      · exact hP.pure _
      · exact hP.trap _
  · exact hP.pure _

theorem moveUsp (b : Bool) (n : Fin 8) : P (moveUsp b n : Exec M Unit) := by
  refine hP.bind _ _ hP.privileged fun _ => ?_
  split
  · exact hP.areg n fun r => r.usp
  · exact hP.usp n

end Legal

/-! ### The operand fields of the decoder table -/

/-- What the proofs use of the operand fields of each opcode of the table. -/
def legalCheck (i : Isa) (op : Nat) : Bool :=
  let mode := op / 8 % 8
  let reg := op % 8
  let sz := op / 64 % 4
  let any := mode < 7 || reg ≤ 4
  let alterable := mode < 7 || reg ≤ 1
  let notAn := mode != 1
  let mem := eaInMemory mode reg
  match i with
  | .Add | .Sub | .And | .Or => sz != 3 && any && (sz != 0 || notAn) && (op / 256 % 2 != 1 || (alterable && mem))
  | .Cmp => sz != 3 && any && (sz != 0 || notAn)
  | .Addq | .Subq => sz != 3 && alterable
  | .Eor | .Neg | .Negx | .Not | .Clr | .Addi | .Subi | .Andi | .Ori | .Eori | .Cmpi | .Tst => sz != 3 && alterable && notAn
  | .Adda | .Suba | .Cmpa => any
  | .Nbcd | .Tas | .Scc | .Movefsr | .Asm | .Lsm | .Rom | .Roxm | .Bchg | .Bclr | .Bset => alterable && notAn
  | .Mulu | .Muls | .Divu | .Divs | .Chk | .Moveccr | .Movesr | .Btst => any && notAn
  | .Move => op / 4096 % 4 != 0 && any && (op / 4096 % 4 != 1 || notAn) && (op / 64 % 8 < 7 || op / 512 % 8 ≤ 1) && op / 64 % 8 != 1
  | .Movea => op / 4096 % 4 != 0 && any && (op / 4096 % 4 != 1 || notAn)
  | .Movem => mem
  | .Lea | .Pea | .Jmp | .Jsr => mem && mode != 3 && mode != 4
  | .Addx | .Subx | .Cmpm | .Abcd | .Sbcd | .Asr | .Lsr | .Ror | .Roxr => sz != 3
  | _ => true

set_option maxRecDepth 100000 in
set_option maxHeartbeats 4000000 in
theorem legalCheck_all : checkTable legalCheck = true := by apply checkTable_intro <;> decide +kernel

theorem fits_mem {mode reg : Nat} {m : Mode} (h : Fits mode reg m) (hm : m.isMem = true) (hr : reg < 8) : eaInMemory mode reg = true := by
  cases m <;> simp [Mode.isMem] at hm <;> (obtain ⟨h1, h2⟩ := h; unfold eaInMemory; simp; omega)

theorem isMem_of_fits {mode reg : Nat} {m : Mode} (h : Fits mode reg m) (hm : eaInMemory mode reg = true) : m.isMem = true := by
  cases m <;> first | rfl | (obtain ⟨h1, h2⟩ := h; simp [eaInMemory] at hm; omega)

theorem fits_an {mode reg : Nat} {m : Mode} (h : Fits mode reg m) (hm : mode ≠ 1) : ∀ n, m ≠ .an n := by
  rintro n rfl; exact hm h.1
theorem fits_imm {mode reg : Nat} {m : Mode} (h : Fits mode reg m) (hm : mode < 7 ∨ reg ≤ 1) : ∀ v, m ≠ .imm v := by
  rintro n rfl; obtain ⟨h1, h2⟩ := h; omega
theorem fits_readable {mode reg : Nat} {m : Mode} (h : Fits mode reg m) {sz : Size} (hm : mode = 1 → sz ≠ .Byte) : Readable sz m := by
  rintro n rfl; exact hm h.1


theorem split_sized {op : U16} (h : op.toNat / 64 % 4 ≠ 3) {P : Exec M Nat → Prop} {f : Size → Exec M Nat} {k : Nat}
    (hf : ∀ sz, opSize op = some sz → sizedImm op = immWords (some sz) → (sz = .Byte ↔ op.toNat / 64 % 4 = 0) → Split k P (f sz)) : Split k P (sized op f) := by
  unfold Spec.sized
  split
  · rename_i h0; exact hf _ (by simp [opSize, h0]) (by simp [sizedImm, h0, immWords]) (by simp [h0])
  · split
    · rename_i h0; exact hf _ (by simp [opSize, h0]) (by simp [sizedImm, h0, immWords]) (by simp [h0])
    · split
      · rename_i h0; exact hf _ (by simp [opSize, h0]) (by simp [sizedImm, h0, immWords]) (by simp [h0])
      · omega

theorem split_moveSized {op : U16} (h : op.toNat / 4096 % 4 ≠ 0) {P : Exec M Nat → Prop} {f : Size → Exec M Nat} {k : Nat}
    (hf : ∀ sz, moveImm op = immWords (some sz) → (sz = .Byte ↔ op.toNat / 4096 % 4 = 1) → Split k P (f sz)) : Split k P (moveSized op f) := by
  unfold Spec.moveSized
  split
  · rename_i h0; exact hf _ (by simp [moveImm, h0, immWords]) (by simp [h0])
  · split
    · rename_i h0; exact hf _ (by simp [moveImm, h0, immWords]) (by simp [h0])
    · split
      · rename_i h0; exact hf _ (by simp [moveImm, h0, immWords]) (by simp [h0])
      · omega

/-- The extension words of the effective address, with everything the rest needs to know about the mode. -/
theorem pre_ea {sz : Size} {imm : Nat} (op : U16) (hany : op.toNat / 8 % 8 < 7 ∨ op.toNat % 8 ≤ 4) (himm : immWords (some sz) = imm) :
    Pre (M := M) (opEaWords imm op) (Spec.fetchEa (some sz) op) (Fits (op.toNat / 8 % 8) (op.toNat % 8)) :=
  Pre.fetchEa _ _ _ fun h => by
    have : op.toNat % 8 ≤ 4 := by omega
    by_cases h4 : op.toNat % 8 = 4
    · exact .inr ⟨h4, by simp, himm⟩
    · exact .inl (by omega)

/-- The extension words of an effective address that is not immediate. -/
theorem pre_ea' {sz : Option Size} {imm : Nat} (op : U16) (hany : op.toNat / 8 % 8 < 7 ∨ op.toNat % 8 ≤ 3) :
    Pre (M := M) (opEaWords imm op) (Spec.fetchEa sz op) (Fits (op.toNat / 8 % 8) (op.toNat % 8)) :=
  Pre.fetchEa _ _ _ fun h => .inl (by omega)

end Exec
end M68k
