import Verif.Lemmas.Commute
/-
The multiplications and divisions.
-/
namespace M68k
namespace Exec
open Spec
variable {M : Type} [MemoryAccess M] {C : CpuDetails} {s s1 s2 s3 : St M} {op : U16}

/-- The action never ends with an exception. -/
def NoErr {α : Type} (x : Exec M α) : Prop := ∀ s v s', x s ≠ .err v s'

theorem noErr_fetch : NoErr (fetch : Exec M U16) := by
  intro s v s' h
  unfold fetch at h
  by_cases ho : Odd s.cpu.regs.pc
  · rw [if_pos ho] at h; cases h
  · rw [if_neg ho] at h
    cases hm : MemoryAccess.getWord s.cpu.regs.pc s.mem <;> rw [hm] at h <;> cases h

omit [MemoryAccess M] in
theorem noErr_map {α β : Type} (f : α → β) {x : Exec M α} (h : NoErr x) : NoErr (f <$> x) := by
  intro s v s' hx
  rw [Exec.map_apply] at hx
  cases hs : x s with
  | ok a s1 => rw [hs] at hx; cases hx
  | err w s1 => exact h _ _ _ hs
  | panic => rw [hs] at hx; cases hx

omit [MemoryAccess M] in
theorem noErr_bind {α β : Type} {x : Exec M α} {f : α → Exec M β} (h : NoErr x) (hf : ∀ a, NoErr (f a)) : NoErr (x >>= f) := by
  intro s v s' hx
  rw [Exec.bind_apply] at hx
  cases hs : x s with
  | ok a s1 => rw [hs] at hx; exact hf _ _ _ _ hx
  | err w s1 => exact h _ _ _ hs
  | panic => rw [hs] at hx; cases hx

omit [MemoryAccess M] in
theorem noErr_pure {α : Type} (a : α) : NoErr (pure a : Exec M α) := by intro s v s' h; cases h
omit [MemoryAccess M] in
theorem noErr_getR {α : Type} (f : Registers → α) : NoErr (getR f : Exec M α) := by intro s v s' h; cases h
omit [MemoryAccess M] in
theorem noErr_crash {α : Type} : NoErr (crash : Exec M α) := by intro s v s' h; cases h

theorem noErr_fetchLong : NoErr (fetchLong : Exec M U32) :=
  noErr_bind noErr_fetch fun _ => noErr_bind noErr_fetch fun _ => noErr_pure _

theorem noErr_fetchMode (sz : Option Size) (mode reg : Fin 8) : NoErr (fetchMode sz mode reg : Exec M Mode) := by
  unfold fetchMode
  split <;> try exact noErr_pure _
  · exact noErr_map _ noErr_fetch
  · exact noErr_map _ noErr_fetch
  · split
    · exact noErr_map _ noErr_fetch
    · exact noErr_map _ noErr_fetchLong
    · exact noErr_bind (noErr_getR _) fun _ => noErr_map _ noErr_fetch
    · exact noErr_bind (noErr_getR _) fun _ => noErr_map _ noErr_fetch
    · split
      · exact noErr_crash
      · exact noErr_map _ noErr_fetchLong
      · exact noErr_map _ noErr_fetch
    · exact noErr_crash

theorem fetchEa_noErr (sz : Option Size) (op : U16) : NoErr (fetchEa sz op : Exec M Mode) := noErr_fetchMode _ _ _

theorem mul_ends {signed : Bool} {t : Nat} {p : Place} {v : Val .Word} (h : Ready s op s1)
    (hv : operand .Word op s1 = .ok (p, v) s2) (hx : EndsWith C s (wordToDn C op (mul signed) t s1)) (prod : U32)
    (hp : prod = if signed then BitVec.ofInt 32 ((low .Word (s.cpu.regs.d (regField op 9))).toInt * v.toInt)
      else BitVec.ofNat 32 ((low .Word (s.cpu.regs.d (regField op 9))).toNat * v.toNat)) :
    Completes C s (s2.withRegs fun g => { setDreg g (regField op 9) prod with sr := logicFlags prod s.cpu.regs.sr }) := by
  obtain ⟨m, s', hm, hr⟩ := operand_ok hv
  have hs := operand_same h hv
  unfold wordToDn at hx
  rw [endsWith_bind_ok hm, endsWith_cost] at hx
  unfold mul at hx
  rw [endsWith_bind_ok hr] at hx
  simp only [getR_bind_apply, hs.1] at hx
  rw [hp, ← hs.2]
  exact hx


/-- The divisions clear C before they read the operand. -/
theorem div_ends {x : Fin 8 → Mode → Exec M Unit} {k : Fin 8 → Place × Val .Word → Exec M Unit} {t : Nat} {p : Place} {v : Val .Word}
    (hk : ∀ n m, x n m = (do setFlags fun sr => { sr with c := false }; let pv ← read .Word m; k n pv))
    (hv : operand .Word op s1 = .ok (p, v) s2) (hx : EndsWith C s (wordToDn C op x t s1)) :
    EndsWith C s (k (regField op 9) (p, v) (clearC s2)) := by
  obtain ⟨m, s', hm, hr⟩ := operand_ok hv
  unfold wordToDn at hx
  rw [endsWith_bind_ok hm, endsWith_cost, hk] at hx
  change EndsWith C s ((read .Word m >>= fun pv => k (regField op 9) pv) (clearC s')) at hx
  have : read .Word m (clearC s') = .ok (p, v) (clearC s2) := by rw [read_clearC, hr]; rfl
  rwa [endsWith_bind_ok (s2 := clearC s2) (a := (p, v)) this] at hx

theorem div_err {x : Fin 8 → Mode → Exec M Unit} {k : Fin 8 → Place × Val .Word → Exec M Unit} {t : Nat} {e : U8}
    (hk : ∀ n m, x n m = (do setFlags fun sr => { sr with c := false }; let pv ← read .Word m; k n pv))
    (hv : operand .Word op s1 = .err e s2) (hx : EndsWith C s (wordToDn C op x t s1)) :
    Raises C s e (clearC s2) := by
  unfold wordToDn at hx
  rcases bind_err hv with hm | ⟨m, s', hm, hr⟩
  · exact absurd hm (fetchEa_noErr _ _ _ _ _)
  · rw [endsWith_bind_ok hm, endsWith_cost, hk] at hx
    change EndsWith C s ((read .Word m >>= fun pv => k (regField op 9) pv) (clearC s')) at hx
    have : read .Word m (clearC s') = .err e (clearC s2) := by rw [read_clearC, hr]; rfl
    rw [endsWith_bind_err (s2 := clearC s2) this] at hx
    exact hx

end Exec
end M68k
