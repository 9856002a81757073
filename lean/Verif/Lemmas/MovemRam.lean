import Verif.Lemmas.Stack
import Verif.Lemmas.Regs
/-
The loops of MOVEM on memories that are arrays of bytes.
-/
namespace M68k
namespace Exec
open Spec
set_option linter.unusedSectionVars false
variable {M : Type} [MemoryAccess M] {s s' : St M} {sz : Size} {a a' : U32} {is : List (Fin 16)}

theorem at_inj {a : U32} {j k : Nat} (hj : j < 2 ^ 32) (hk : k < 2 ^ 32) (h : at_ a j = at_ a k) : j = k := by
  have := congrArg BitVec.toNat h
  simp only [at_, BitVec.toNat_add, BitVec.toNat_ofNat] at this
  have := a.isLt
  omega

theorem bytes_pos (sz : Size) : 0 < bytes sz := by cases sz <;> decide
theorem bytes_le (sz : Size) : bytes sz ≤ 4 := by cases sz <;> decide

theorem add_bytes (a : U32) (sz : Size) : a + BitVec.ofNat 32 (bytes sz) = at_ a (bytes sz) := rfl

/-- The next operand of a word or long list is aligned too. -/
theorem odd_at {a : U32} {k : Nat} (hk : k % 2 = 0) : Spec.Odd (at_ a k) ↔ Spec.Odd a := by
  unfold Spec.Odd at_
  rw [BitVec.toNat_add, BitVec.toNat_ofNat]
  omega
theorem bytes_even (h : sz ≠ .Byte) : bytes sz % 2 = 0 := by cases sz <;> first | exact absurd rfl h | rfl

theorem aligned_at (h : sz ≠ .Byte) (ha : AlignedFor sz a) (k : Nat) : AlignedFor sz (at_ a (bytes sz * k)) := by
  intro hh
  refine ha ⟨h, ?_⟩
  have := bytes_even h
  refine (odd_at ?_).1 hh.2
  rw [Nat.mul_mod, this]; simp

/-- The consecutive operands at `a` are those of the list. -/
def Run [Ram M] (sz : Size) (m : M) (a : U32) (vs : List (Val sz)) : Prop := ∀ k (h : k < vs.length), Holds m (at_ a (bytes sz * k)) vs[k]

section
variable [Ram M]

theorem Run.nil {m : M} : Run sz m a [] := fun k h => absurd h (Nat.not_lt_zero k)

theorem run_cons {m : M} {v : Val sz} {vs : List (Val sz)} : Run sz m a (v :: vs) ↔ Holds m a v ∧ Run sz m (at_ a (bytes sz)) vs := by
  constructor
  · intro h
    refine ⟨?_, fun k hk => ?_⟩
    · have := h 0 (by simp)
      rw [Nat.mul_zero, at_zero] at this
      exact this
    · have := h (k + 1) (by simp; omega)
      rw [show bytes sz * (k + 1) = bytes sz + bytes sz * k by rw [Nat.mul_add, Nat.mul_one, Nat.add_comm], ← at_add] at this
      exact this
  · rintro ⟨h1, h2⟩ k hk
    cases k with
    | zero => rw [Nat.mul_zero, at_zero]; exact h1
    | succ k =>
      rw [show bytes sz * (k + 1) = bytes sz + bytes sz * k by rw [Nat.mul_add, Nat.mul_one, Nat.add_comm], ← at_add]
      exact h2 k (by simp at hk; omega)

theorem SameExcept.mono {m m' : M} {n n' : Nat} (h : SameExcept m m' a n) (hn : n ≤ n') : SameExcept m m' a n' :=
  fun b hb => h b fun k hk => hb k (by omega)

theorem SameExcept.shift {m m' : M} {j n n' : Nat} (h : SameExcept m m' (at_ a j) n) (hn : j + n ≤ n') : SameExcept m m' a n' :=
  fun b hb => h b fun k hk => by rw [at_add]; exact hb (j + k) (by omega)

/-- The stores at ascending addresses. -/
theorem movemStores_done (hsz : sz ≠ .Byte) (ha : AlignedFor sz a) (hl : bytes sz * is.length < 2 ^ 32)
    (h : movemStores sz is a s = .ok a' s') :
    a' = at_ a (bytes sz * is.length) ∧ s' = { s with mem := s'.mem } ∧
    Run sz s'.mem a (is.map fun i => low sz (regNo s.cpu.regs i)) ∧ SameExcept s.mem s'.mem a (bytes sz * is.length) := by
  induction is generalizing a s with
  | nil =>
    cases h
    exact ⟨by simp [at_zero], rfl, Run.nil, fun _ _ => rfl⟩
  | cons i is ih =>
    unfold movemStores at h
    rw [getR_bind_apply] at h
    obtain ⟨_, t, h1, h⟩ := bind_ok h
    obtain ⟨e1, e2, e3⟩ := access_set ha h1
    have hlen : bytes sz * (i :: is).length = bytes sz + bytes sz * is.length := by
      rw [List.length_cons, Nat.mul_add, Nat.mul_one, Nat.add_comm]
    rw [hlen] at hl ⊢
    have ha2 := aligned_at hsz ha 1
    rw [Nat.mul_one] at ha2
    obtain ⟨f1, f2, f3, f4⟩ := ih ha2 (by omega) h
    have hr : t.cpu = s.cpu := by rw [e1]
    refine ⟨?_, ?_, ?_, ?_⟩
    · rw [f1, at_add]
    · rw [f2, e1]
    · rw [List.map_cons, run_cons]
      refine ⟨e2.of_eq fun k hk => ?_, ?_⟩
      · refine f4 _ fun j hj heq => ?_
        rw [at_add] at heq
        have := at_inj (by omega) (by omega) heq
        omega
      · rw [hr] at f3
        exact f3
    · intro b hb
      rw [SameExcept.shift f4 (Nat.le_refl _) b hb, e3 b fun k hk => hb k (by omega)]

theorem at_sub (a : U32) (k : Nat) : at_ (a - BitVec.ofNat 32 k) k = a := by
  unfold at_
  exact BitVec.sub_add_cancel a _

theorem run_append {m : M} {vs ws : List (Val sz)} : Run sz m a (vs ++ ws) ↔ Run sz m a vs ∧ Run sz m (at_ a (bytes sz * vs.length)) ws := by
  induction vs generalizing a with
  | nil => simp [at_zero, Run.nil]
  | cons v vs ih =>
    rw [List.cons_append, run_cons, ih, run_cons, and_assoc, at_add,
      show bytes sz * (v :: vs).length = bytes sz + bytes sz * vs.length by rw [List.length_cons, Nat.mul_add, Nat.mul_one, Nat.add_comm]]

/-- The stores at descending addresses. -/
theorem movemStoresDown_done (hsz : sz ≠ .Byte) (ha : AlignedFor sz a) (hl : bytes sz * is.length < 2 ^ 32)
    (h : movemStoresDown sz is a s = .ok a' s') :
    a' = a - BitVec.ofNat 32 (bytes sz * is.length) ∧ s' = { s with mem := s'.mem } ∧
    Run sz s'.mem a' (is.reverse.map fun i => low sz (regNo s.cpu.regs i)) ∧ SameExcept s.mem s'.mem a' (bytes sz * is.length) := by
  induction is generalizing a s with
  | nil =>
    cases h
    exact ⟨by simp, rfl, Run.nil, fun _ _ => rfl⟩
  | cons i is ih =>
    unfold movemStoresDown at h
    rw [getR_bind_apply] at h
    obtain ⟨_, t, h1, h⟩ := bind_ok h
    have ha2 : AlignedFor sz (a - BitVec.ofNat 32 (bytes sz)) := by
      intro hh
      refine ha ⟨hsz, ?_⟩
      rw [← at_sub a (bytes sz)]
      exact (odd_at (bytes_even hsz)).2 hh.2
    obtain ⟨e1, e2, e3⟩ := access_set ha2 h1
    have hlen : bytes sz * (i :: is).length = bytes sz + bytes sz * is.length := by
      rw [List.length_cons, Nat.mul_add, Nat.mul_one, Nat.add_comm]
    rw [hlen] at hl ⊢
    obtain ⟨f1, f2, f3, f4⟩ := ih ha2 (by omega) h
    have hr : t.cpu = s.cpu := by rw [e1]
    have htop : at_ a' (bytes sz * is.length) = a - BitVec.ofNat 32 (bytes sz) := by rw [f1]; exact at_sub _ _
    refine ⟨?_, ?_, ?_, ?_⟩
    · rw [f1, BitVec.ofNat_add, BitVec.sub_sub]
    · rw [f2, e1]
    · rw [List.reverse_cons, List.map_append, run_append]
      rw [hr] at f3
      refine ⟨f3, ?_⟩
      rw [List.map_cons, List.map_nil, run_cons]
      refine ⟨?_, Run.nil⟩
      rw [List.length_map, List.length_reverse, htop]
      refine e2.of_eq fun k hk => ?_
      refine f4 _ fun j hj heq => ?_
      rw [← htop, at_add] at heq
      have := at_inj (by omega) (by omega) heq
      omega
    · intro b hb
      rw [f4 b fun k hk => hb k (by omega), e3 b fun k hk => ?_]
      rw [← htop, at_add]
      exact hb _ (by omega)

end

/-- Changing one register by its MOVEM number. -/
theorem regNo_setRegNo (r : Registers) (i j : Fin 16) (v : U32) : regNo (setRegNo r i v) j = if j = i then v else regNo r j := by
  unfold regNo setRegNo
  by_cases hi : i.val < 8
  · simp only [hi, dite_true]
    by_cases hj : j.val < 8
    · simp only [hj, dite_true, setDreg]
      by_cases h : j = i
      · subst h; simp
      · rw [if_neg h]
        exact if_neg (fun h' => h (Fin.ext (Fin.mk.inj h')))
    · simp only [hj, dite_false]
      rw [if_neg (fun h : j = i => hj (h ▸ hi))]
      rfl
  · simp only [hi, dite_false]
    by_cases hj : j.val < 8
    · simp only [hj, dite_true, setAreg_d]
      rw [if_neg (fun h : j = i => hi (h ▸ hj))]
    · simp only [hj, dite_false]
      rw [M68k.areg_setAreg]
      by_cases h : j = i
      · subst h; simp
      · rw [if_neg h, if_neg (fun h' => h (Fin.ext (by have := congrArg Fin.val h'; simp only at this; omega)))]

/-- Nothing but the sixteen visible data and address registers differs. -/
structure OnlyRegs (s s' : St M) : Prop where
  mem : s'.mem = s.mem
  cpu : s'.cpu = { s.cpu with regs := s'.cpu.regs }
  sr : s'.cpu.regs.sr = s.cpu.regs.sr
  pc : s'.cpu.regs.pc = s.cpu.regs.pc
  other : if s.cpu.regs.sr.s then s'.cpu.regs.usp = s.cpu.regs.usp else s'.cpu.regs.ssp = s.cpu.regs.ssp

theorem OnlyRegs.refl (s : St M) : OnlyRegs s s := ⟨rfl, rfl, rfl, rfl, by split <;> rfl⟩
theorem OnlyRegs.trans {s s' s'' : St M} (h : OnlyRegs s s') (h' : OnlyRegs s' s'') : OnlyRegs s s'' := by
  refine ⟨h'.mem.trans h.mem, ?_, h'.sr.trans h.sr, h'.pc.trans h.pc, ?_⟩
  · rw [h'.cpu, h.cpu]
  · have h1 := h.other
    have h2 := h'.other
    rw [h.sr] at h2
    split
    · rename_i hs; rw [if_pos hs] at h1 h2; rw [h2, h1]
    · rename_i hs; rw [if_neg hs] at h1 h2; rw [h2, h1]

theorem onlyRegs_setRegNo (s : St M) (i : Fin 16) (v : U32) : OnlyRegs s (s.withRegs fun r => setRegNo r i v) := by
  refine ⟨rfl, rfl, ?_, ?_, ?_⟩
  · show (setRegNo s.cpu.regs i v).sr = _
    unfold setRegNo; split
    · rfl
    · exact setAreg_sr _ _ _
  · show (setRegNo s.cpu.regs i v).pc = _
    unfold setRegNo; split
    · rfl
    · exact setAreg_pc _ _ _
  · show if s.cpu.regs.sr.s then (setRegNo s.cpu.regs i v).usp = _ else (setRegNo s.cpu.regs i v).ssp = _
    unfold setRegNo
    by_cases hi : i.val < 8
    · simp only [hi, dite_true, setDreg]; split <;> trivial
    · simp only [hi, dite_false]
      exact setAreg_inactive _ _ _

section
variable [Ram M]

/-- The loads. -/
theorem movemLoads_done (hsz : sz ≠ .Byte) (ha : AlignedFor sz a) {vs : List (Val sz)} (hv : Run sz s.mem a vs) (hl : vs.length = is.length)
    (hnd : is.Nodup) (h : movemLoads sz is a s = .ok a' s') :
    a' = at_ a (bytes sz * is.length) ∧ OnlyRegs s s' ∧ (∀ j, j ∉ is → regNo s'.cpu.regs j = regNo s.cpu.regs j) ∧
    ∀ k (h1 : k < is.length) (h2 : k < vs.length), regNo s'.cpu.regs is[k] = signExt vs[k] := by
  induction is generalizing a s vs with
  | nil =>
    cases h
    exact ⟨by simp [at_zero], OnlyRegs.refl _, fun _ _ => rfl, fun k h => absurd h (Nat.not_lt_zero k)⟩
  | cons i is ih =>
    obtain _ | ⟨v, vs⟩ := vs
    · cases hl
    unfold movemLoads Spec.movemLoad at h
    obtain ⟨x, t, h1, h3⟩ := bind_ok h
    clear h
    obtain ⟨w, h2, hxw⟩ := map_ok h1
    subst hxw
    obtain ⟨g1, g2⟩ := access_ok h2
    obtain ⟨g3, g4⟩ := Ram.get_val ha g1
    rw [g3] at g2
    rw [run_cons] at hv
    have hw : w = v := holds_unique g4 hv.1
    subst hw
    have ht : t = s := g2
    subst ht
    rw [modR_bind_apply] at h3
    have hlen : bytes sz * (i :: is).length = bytes sz + bytes sz * is.length := by
      rw [List.length_cons, Nat.mul_add, Nat.mul_one, Nat.add_comm]
    have ha2 := aligned_at hsz ha 1
    rw [Nat.mul_one] at ha2
    obtain ⟨f1, f2, f3, f4⟩ := ih (s := t.withRegs fun r => setRegNo r i (signExt w)) ha2 hv.2 (by simpa using hl) (List.nodup_cons.1 hnd).2 h3
    refine ⟨?_, (onlyRegs_setRegNo _ _ _).trans f2, ?_, ?_⟩
    · rw [f1, hlen, ← at_add]
    · intro j hj
      rw [f3 j (fun h' => hj (List.mem_cons_of_mem _ h'))]
      show regNo (setRegNo t.cpu.regs i _) j = _
      rw [regNo_setRegNo, if_neg (fun h' : j = i => hj (h' ▸ List.mem_cons_self))]
    · intro k h1 h2
      cases k with
      | zero =>
        show regNo s'.cpu.regs i = signExt w
        rw [f3 i (List.nodup_cons.1 hnd).1]
        show regNo (setRegNo t.cpu.regs i _) i = _
        rw [regNo_setRegNo, if_pos rfl]
      | succ k => exact f4 k (by simpa using h1) (by simpa using h2)

/-- The loads of present operands succeed. -/
theorem movemLoads_run (hsz : sz ≠ .Byte) (ha : AlignedFor sz a) {vs : List (Val sz)} (hv : Run sz s.mem a vs) (hl : vs.length = is.length) :
    ∃ s', movemLoads sz is a s = .ok (at_ a (bytes sz * is.length)) s' := by
  induction is generalizing a s vs with
  | nil => exact ⟨s, by simp [movemLoads, at_zero]; rfl⟩
  | cons i is ih =>
    obtain _ | ⟨v, vs⟩ := vs
    · cases hl
    rw [run_cons] at hv
    have hm := memGet_holds ha hv.1
    have h1 : Spec.movemLoad sz a s = .ok (signExt v) s := by
      unfold Spec.movemLoad
      rw [Exec.map_apply]
      unfold access
      rw [hm]
    have hlen : bytes sz * (i :: is).length = bytes sz + bytes sz * is.length := by
      rw [List.length_cons, Nat.mul_add, Nat.mul_one, Nat.add_comm]
    have ha2 := aligned_at hsz ha 1
    rw [Nat.mul_one] at ha2
    obtain ⟨t, ht⟩ := ih (s := s.withRegs fun r => setRegNo r i (signExt v)) ha2 hv.2 (by simpa using hl)
    refine ⟨t, ?_⟩
    unfold movemLoads
    rw [bind_eq h1, modR_bind_apply, hlen, ← at_add]
    exact ht

theorem movemStores_present [Writable M] (hsz : sz ≠ .Byte) (ha : AlignedFor sz a) (hp : Present s.mem a (bytes sz * is.length)) :
    ∃ s', movemStores sz is a s = .ok (at_ a (bytes sz * is.length)) s' := by
  induction is generalizing a s with
  | nil => exact ⟨s, by simp [movemStores, at_zero]; rfl⟩
  | cons i is ih =>
    have hlen : bytes sz * (i :: is).length = bytes sz + bytes sz * is.length := by
      rw [List.length_cons, Nat.mul_add, Nat.mul_one, Nat.add_comm]
    rw [hlen] at hp ⊢
    obtain ⟨m', hm⟩ := Writable.set_present' (M := M) (v := low sz (regNo s.cpu.regs i)) ha fun k hk => hp k (by omega)
    have h1 : Spec.movemStore sz a (regNo s.cpu.regs i) s = .ok () { s with mem := m' } := by
      unfold Spec.movemStore access
      rw [hm]
    have ha2 := aligned_at hsz ha 1
    rw [Nat.mul_one] at ha2
    obtain ⟨t, ht⟩ := ih (s := { s with mem := m' }) ha2 (fun k hk => by
      rw [at_add]
      show (Ram.peek m' _).isSome
      rw [Ram.set_present ha hm]
      exact hp _ (by omega))
    refine ⟨t, ?_⟩
    unfold movemStores
    rw [getR_bind_apply, bind_eq h1, ← at_add]
    exact ht

theorem movemStoresDown_present [Writable M] (hsz : sz ≠ .Byte) (ha : AlignedFor sz a)
    (hp : Present s.mem (a - BitVec.ofNat 32 (bytes sz * is.length)) (bytes sz * is.length)) :
    ∃ s', movemStoresDown sz is a s = .ok (a - BitVec.ofNat 32 (bytes sz * is.length)) s' := by
  induction is generalizing a s with
  | nil => exact ⟨s, by simp [movemStoresDown]; rfl⟩
  | cons i is ih =>
    have hlen : bytes sz * (i :: is).length = bytes sz + bytes sz * is.length := by
      rw [List.length_cons, Nat.mul_add, Nat.mul_one, Nat.add_comm]
    rw [hlen] at hp ⊢
    have ha2 : AlignedFor sz (a - BitVec.ofNat 32 (bytes sz)) := by
      intro hh
      refine ha ⟨hsz, ?_⟩
      rw [← at_sub a (bytes sz)]
      exact (odd_at (bytes_even hsz)).2 hh.2
    have hbase : a - BitVec.ofNat 32 (bytes sz + bytes sz * is.length) = (a - BitVec.ofNat 32 (bytes sz)) - BitVec.ofNat 32 (bytes sz * is.length) := by
      rw [BitVec.ofNat_add, BitVec.sub_sub]
    have htop : at_ (a - BitVec.ofNat 32 (bytes sz + bytes sz * is.length)) (bytes sz * is.length) = a - BitVec.ofNat 32 (bytes sz) := by
      rw [hbase]; exact at_sub _ _
    obtain ⟨m', hm⟩ := Writable.set_present' (M := M) (v := low sz (regNo s.cpu.regs i)) ha2 fun k hk => by
      rw [← htop, at_add]; exact hp _ (by omega)
    have h1 : Spec.movemStore sz (a - BitVec.ofNat 32 (bytes sz)) (regNo s.cpu.regs i) s = .ok () { s with mem := m' } := by
      unfold Spec.movemStore access
      rw [hm]
    obtain ⟨t, ht⟩ := ih (s := { s with mem := m' }) ha2 (fun k hk => by
      rw [← hbase]
      show (Ram.peek m' _).isSome
      rw [Ram.set_present ha2 hm]
      exact hp _ (by omega))
    refine ⟨t, ?_⟩
    unfold movemStoresDown
    rw [getR_bind_apply, bind_eq h1, hbase]
    exact ht

end

/-! ### The errors -/

/-- The action fails with an access or an address error only. -/
def Err23 {α : Type} (x : Exec M α) : Prop := ∀ s e s', x s = .err e s' → e = 2 ∨ e = 3

namespace Err23
variable {α β : Type}
theorem bind {x : Exec M α} {f : α → Exec M β} (hx : Err23 x) (hf : ∀ a, Err23 (f a)) : Err23 (x >>= f) := by
  intro s e s' h
  rcases bind_err h with h | ⟨a, t, _, h⟩
  · exact hx _ _ _ h
  · exact hf _ _ _ _ h
theorem map {x : Exec M α} (f : α → β) (hx : Err23 x) : Err23 (f <$> x) := by
  intro s e s' h
  rw [Exec.map_apply] at h
  cases hxs : x s with
  | ok a t => rw [hxs] at h; cases h
  | err v t => rw [hxs] at h; cases h; exact hx _ _ _ hxs
  | panic => rw [hxs] at h; cases h
theorem pure (a : α) : Err23 (Pure.pure a : Exec M α) := fun _ _ _ h => (by cases h)
theorem crash : Err23 (Spec.crash : Exec M α) := fun _ _ _ h => (by cases h)
theorem getR (f : Registers → α) : Err23 (Spec.getR f : Exec M α) := fun _ _ _ h => (by cases h)
theorem modR (f : Registers → Registers) : Err23 (Spec.modR f : Exec M Unit) := fun _ _ _ h => (by cases h)
theorem access (f : M → MRes M α) : Err23 (Spec.access f : Exec M α) := by
  intro s e s' h
  unfold Spec.access at h
  split at h
  · cases h
  · cases h; exact .inl rfl
  · cases h
theorem load (sz : Size) (a : U32) : Err23 (Spec.load sz a : Exec M _) := by
  unfold Spec.load
  split
  · exact fun _ _ _ h => (by cases h; exact .inr rfl)
  · exact access _
theorem store (sz : Size) (a : U32) (v : Val sz) : Err23 (Spec.store sz a v : Exec M _) := by
  unfold Spec.store
  split
  · exact fun _ _ _ h => (by cases h; exact .inr rfl)
  · exact access _
theorem aligned (a : U32) : Err23 (Spec.aligned a : Exec M Unit) := by
  unfold Spec.aligned
  split
  · exact fun _ _ _ h => (by cases h; exact .inr rfl)
  · exact pure _
theorem address (sz : Size) (m : Mode) : Err23 (Spec.address sz m : Exec M U32) := by
  refine bind (fun _ _ _ h => (by cases h)) fun p => ?_
  cases p <;> first | exact pure _ | exact crash
theorem movemLoads : ∀ (is : List (Fin 16)) (a : U32), Err23 (Spec.movemLoads sz is a : Exec M U32)
  | [], _ => pure _
  | _ :: is, _ => bind (map _ (access _)) fun _ => bind (modR _) fun _ => movemLoads is _
theorem movemStores : ∀ (is : List (Fin 16)) (a : U32), Err23 (Spec.movemStores sz is a : Exec M U32)
  | [], _ => pure _
  | _ :: is, _ => bind (getR _) fun _ => bind (access _) fun _ => movemStores is _
theorem movemStoresDown : ∀ (is : List (Fin 16)) (a : U32), Err23 (Spec.movemStoresDown sz is a : Exec M U32)
  | [], _ => pure _
  | _ :: is, _ => bind (getR _) fun _ => bind (access _) fun _ => movemStoresDown is _
theorem movem (b : Bool) (m : Mode) (mask : U16) : Err23 (Spec.movem b sz m mask : Exec M Unit) := by
  unfold Spec.movem
  split
  · exact bind (getR _) fun _ => bind (aligned _) fun _ => bind (movemStoresDown _ _) fun _ => modR _
  · refine bind (getR _) fun _ => bind (aligned _) fun _ => bind ?_ fun _ => modR _
    split
    · exact movemLoads _ _
    · exact movemStores _ _
  · refine bind (address _ _) fun _ => bind (aligned _) fun _ => bind ?_ fun _ => pure _
    split
    · exact movemLoads _ _
    · exact movemStores _ _
theorem movepStores (n : Fin 8) : ∀ (k : Nat) (a : U32), Err23 (Spec.movepStores n k a : Exec M Unit)
  | 0, _ => pure _
  | k + 1, _ => bind (getR _) fun _ => bind (store _ _ _) fun _ => movepStores n k _
theorem movepLoads (n : Fin 8) : ∀ (k : Nat) (a : U32), Err23 (Spec.movepLoads n k a : Exec M Unit)
  | 0, _ => pure _
  | k + 1, _ => bind (load _ _) fun _ => bind (modR _) fun _ => movepLoads n k _
end Err23

end Exec
end M68k
