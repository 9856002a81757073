import Verif.Lemmas.Ends
import Verif.Lemmas.Regs
import Verif.Lemmas.AnyStep
/-
Tools for the properties of the program control instructions.
-/
namespace M68k
namespace Exec
open Spec
variable {M : Type} [MemoryAccess M] {C : CpuDetails} {s s' s1 s2 : St M} {op : U16} {w : U16}

theorem disp8 (op : U16) : signExt (BitVec.ofInt 16 (BitVec.ofNat 8 op.toNat).toInt) = signExt (BitVec.ofNat 8 op.toNat) := by
  unfold signExt
  rw [BitVec.toInt_ofInt]
  congr 1
  have h1 := BitVec.toInt_lt (x := BitVec.ofNat 8 op.toNat)
  have h2 := BitVec.le_toInt (x := BitVec.ofNat 8 op.toNat)
  apply Int.bmod_eq_of_le <;> omega

theorem fetchDisp_short (h : op.toNat % 256 ≠ 0) : (fetchDisp op : Exec M U16) s1 = .ok (BitVec.ofInt 16 (BitVec.ofNat 8 op.toNat).toInt) s1 := by
  unfold fetchDisp
  rw [if_neg h]
  rfl

theorem fetchDisp_word (h : op.toNat % 256 = 0) (hw : fetch s1 = .ok w s2) : fetchDisp op s1 = .ok w s2 := by
  unfold fetchDisp
  rw [if_pos h, hw]

/-- A fetched word: the state is as before, except the memory and the program counter. -/
theorem fetch_ok (hw : fetch s1 = .ok w s2) :
    s2 = { s1 with mem := s2.mem, cpu := { s1.cpu with regs := { s1.cpu.regs with pc := s1.cpu.regs.pc + 2 } } } := by
  unfold fetch at hw
  split at hw
  · cases hw
  · cases hm : MemoryAccess.getWord s1.cpu.regs.pc s1.mem with
    | val a m => rw [hm] at hw; cases hw; rfl
    | none m => rw [hm] at hw; cases hw
    | panic => rw [hm] at hw; cases hw

theorem fetch_regs (hw : fetch s1 = .ok w s2) : s2.cpu.regs = { s1.cpu.regs with pc := s1.cpu.regs.pc + 2 } := by
  rw [fetch_ok hw]

theorem _root_.M68k.Spec.Ready.pc (h : Ready s op s1) : s1.cpu.regs.pc = s.cpu.regs.pc + 2 := by rw [h.regs]

/-- Setting the program counter to its value changes nothing. -/
theorem withRegs_pc {a : U32} (h : s1.cpu.regs.pc = a) : (s1.withRegs fun r => { r with pc := a }) = s1 := by
  subst h; rfl

theorem ends_bcc {d : U16} {f : Bool → Nat} {pc : U32} {cc : Fin 16}
    (hx : EndsWith C s (((f <$> bcc pc cc d : Exec M Nat)) s2)) :
    Completes C s (s2.withRegs fun r => { r with pc := if holds cc s2.cpu.regs.sr then pc + signExt d else s2.cpu.regs.pc }) := by
  rw [endsWith_map] at hx
  unfold Spec.bcc Spec.test at hx
  rw [getR_bind_apply] at hx
  by_cases hc : holds cc s2.cpu.regs.sr = true
  · simp only [hc, if_true] at hx ⊢
    exact hx
  · simp only [hc, Bool.false_eq_true, if_false] at hx ⊢
    rw [withRegs_pc rfl]
    exact hx

/-! ### Privileged instructions -/

/-- As `EndsWith` for the privileged instructions, which are not traced. -/
def EndsPrivileged {α : Type} (C : CpuDetails) (s : St M) (r : Res M α) : Prop :=
  match r with
  | .ok _ s' => CompletesPrivileged C s s'
  | .err v s' => Raises C s v s'
  | .panic => interpreterException C s = .panic

theorem step_endsPrivileged (C : CpuDetails) (h : Ready s op s1) {i : Isa}
    (hi : instr op = i) (hu : i ≠ .Unknown) (hp : i.isPrivileged = true) : EndsPrivileged C s (Spec.exec C i op s1) := by
  have := step_ends_privileged C h hi hu hp
  unfold EndsPrivileged
  generalize Spec.exec C i op s1 = r at *
  cases r <;> exact this

theorem endsPrivileged_map {α β : Type} (f : α → β) (x : Exec M α) (s1 : St M) :
    EndsPrivileged C s ((f <$> x) s1) ↔ EndsPrivileged C s (x s1) := by
  rw [Exec.map_apply]
  cases x s1 <;> rfl

theorem endsPrivileged_cost {α : Type} (t : Nat) (x : Exec M α) (s1 : St M) :
    EndsPrivileged C s (cost x t s1) ↔ EndsPrivileged C s (x s1) := endsPrivileged_map _ x s1

theorem endsPrivileged_bind_ok {α β : Type} {x : Exec M α} {f : α → Exec M β} {a : α}
    (h : x s1 = .ok a s2) : EndsPrivileged C s ((x >>= f) s1) ↔ EndsPrivileged C s (f a s2) := by
  rw [Exec.bind_apply, h]

theorem endsPrivileged_bind_err {α β : Type} {x : Exec M α} {f : α → Exec M β} {v : U8}
    (h : x s1 = .err v s2) : EndsPrivileged C s ((x >>= f) s1) ↔ Raises C s v s2 := by
  rw [Exec.bind_apply, h]; rfl

omit [MemoryAccess M] in
theorem privileged_ok (h : s1.cpu.regs.sr.s = true) : (privileged : Exec M Unit) s1 = .ok () s1 := by
  unfold privileged; rw [getR_bind_apply, h, if_pos rfl]; rfl
omit [MemoryAccess M] in
theorem privileged_err (h : s1.cpu.regs.sr.s = false) : (privileged : Exec M Unit) s1 = .err 8 s1 := by
  unfold privileged; rw [getR_bind_apply, h, if_neg (by decide)]; rfl

end Exec
end M68k
