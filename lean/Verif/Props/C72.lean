import Verif.Lemmas.BigLoop
import Verif.Props.C05
import Verif.Props.C06
/-
C72: a loop of ADDX, SUBX, ABCD or SBCD and DBF computes with numbers of any length.
-/
namespace M68k.Props
open Spec Exec
set_option linter.unusedSectionVars false
variable {M : Type} [MemoryAccess M] [Ram M] [Writable M] {C : CpuDetails} {s : St M} {sz : Size} {n x y : Fin 8}

theorem addxMinus_fields (sz : Size) (y x : Fin 8) : instr (addxMinus sz y x) = .Addx ∧ opSize (addxMinus sz y x) = some sz ∧
    (addxMinus sz y x).toNat / 8 % 2 = 1 ∧ regField (addxMinus sz y x) 9 = x ∧ regField (addxMinus sz y x) 0 = y ∧ flag (addxMinus sz y x) 3 = true ∧ ¬ MovemMisfit (addxMinus sz y x) := by
  unfold MovemMisfit; cases sz <;> revert y x <;> decide +kernel

theorem subxMinus_fields (sz : Size) (y x : Fin 8) : instr (subxMinus sz y x) = .Subx ∧ opSize (subxMinus sz y x) = some sz ∧
    (subxMinus sz y x).toNat / 8 % 2 = 1 ∧ regField (subxMinus sz y x) 9 = x ∧ regField (subxMinus sz y x) 0 = y ∧ flag (subxMinus sz y x) 3 = true ∧ ¬ MovemMisfit (subxMinus sz y x) := by
  unfold MovemMisfit; cases sz <;> revert y x <;> decide +kernel

theorem abcdMinus_fields (y x : Fin 8) : instr (abcdMinus y x) = .Abcd ∧ opSize (abcdMinus y x) = some .Byte ∧
    (abcdMinus y x).toNat / 8 % 2 = 1 ∧ regField (abcdMinus y x) 9 = x ∧ regField (abcdMinus y x) 0 = y ∧ flag (abcdMinus y x) 3 = true ∧ ¬ MovemMisfit (abcdMinus y x) := by
  unfold MovemMisfit; revert y x; decide +kernel

theorem sbcdMinus_fields (y x : Fin 8) : instr (sbcdMinus y x) = .Sbcd ∧ opSize (sbcdMinus y x) = some .Byte ∧
    (sbcdMinus y x).toNat / 8 % 2 = 1 ∧ regField (sbcdMinus y x) 9 = x ∧ regField (sbcdMinus y x) 0 = y ∧ flag (sbcdMinus y x) 3 = true ∧ ¬ MovemMisfit (sbcdMinus y x) := by
  unfold MovemMisfit; revert y x; decide +kernel

theorem limbs_present {m : M} {a b : U32} {l : List (Val sz)} {k : Nat} (hl : l.length = k) (h : LimbsBelow m a l) (hb : Below a (bytes sz * k) b) :
    (Ram.peek m b).isSome := by
  obtain ⟨o, h1, h2, rfl⟩ := hb
  have hp := bytes_pos sz
  have hq : (o - 1) / bytes sz < k := (Nat.div_lt_iff_lt_mul hp).2 (by rw [Nat.mul_comm]; omega)
  have hm := Nat.mod_lt (o - 1) hp
  have hd := Nat.div_add_mod (o - 1) (bytes sz)
  have := h ((o - 1) / bytes sz) (by omega) (bytes sz - 1 - (o - 1) % bytes sz) (by omega)
  rw [Nat.mul_succ, below_at _ (by omega), show bytes sz * ((o - 1) / bytes sz) + bytes sz - (bytes sz - 1 - (o - 1) % bytes sz) = o by omega] at this
  rw [this]
  rfl

theorem turns_bound (sz : Size) (n : Fin 8) (s : St M) : bytes sz * turns n s ≤ 2 ^ 32 :=
  Nat.le_trans (Nat.mul_le_mul (bytes_le sz) (show (s.cpu.regs.d n).toNat % 65536 + 1 ≤ 65536 by omega)) (by decide)

/-- `loop: ADDX.sz -(Ay),-(Ax); DBF Dn,loop` with the counter word `c` in Dn adds the number of `c + 1` limbs below Ay and X to the number of as many limbs
below Ax. The condition codes are those of the whole addition, no other byte of memory changes, and execution ends behind the loop. Without tracing the
calls return the times of ADDX and DBF. -/
theorem C72_addx (hyx : y ≠ x) (h7 : sz = .Byte → x ≠ 7 ∧ y ≠ 7) (h : LoopReady sz (addxMinus sz y x) y x n s (bytes sz * turns n s))
    {ds vs : List (Val sz)} (hdn : ds.length = turns n s) (hvn : vs.length = turns n s)
    (hd : LimbsBelow s.mem (areg s.cpu.regs x) ds) (hv : LimbsBelow s.mem (areg s.cpu.regs y) vs)
    (hdis : ∀ b, Below (areg s.cpu.regs x) (bytes sz * turns n s) b → ¬ Below (areg s.cpu.regs y) (bytes sz * turns n s) b) :
    ∃ (s' : St M) (rs : List (Val sz)), Steps C (2 * turns n s) s s' ∧ rs.length = turns n s ∧ LimbsBelow s'.mem (areg s.cpu.regs x) rs ∧
      WholeSum (width sz * turns n s) (number ds) (number vs) (extend s.cpu.regs.sr) s.cpu.regs.sr.z (number rs) s'.cpu.regs.sr ∧
      (∀ b, ¬ Below (areg s.cpu.regs x) (bytes sz * turns n s) b → Ram.peek s'.mem b = Ram.peek s.mem b) ∧
      LoopDone y x n (bytes sz * turns n s) s s' ∧
      (s.cpu.regs.sr.t = false → Quiet C (loopTimes (bySize sz C.ADDX_MEM_BW C.ADDX_MEM_L) C.DBCC_FALSE_BRANCH C.DBCC_FALSE_NO_BRANCH ((s.cpu.regs.d n).toNat % 65536)) s s') := by
  obtain ⟨f1, f2, f3, f4, f5, f6, f7⟩ := addxMinus_fields sz y x
  obtain ⟨u, s', r1, r2, r3, r4, r5, r6⟩ := pair_loop (C := C) f4 f5 hyx h7 (f := sum true) (fun s s1 h => by
    have hx := step_ends C h f1 (by decide) rfl
    simp only [Spec.exec] at hx
    rw [sized_some f2, endsWith_cost, f4, f5, f6] at hx
    exact hx) (fun _ _ _ => ⟨rfl, rfl, rfl⟩) f7 (by rw [f1]; decide) (by rw [f1]; rfl) (b := (bySize sz C.ADDX_MEM_BW C.ADDX_MEM_L)) (fun r => by rw [f1]; simp only [cycles, f6, f2, if_true, Option.getD_some])
    rfl h (fun b hb => limbs_present hdn hd hb) (fun b hb => limbs_present hvn hv hb)
  obtain ⟨rs, e1, e2, e3, e4⟩ := C05_addx_memory f1 f2 f3 (by rw [f4, f5]; exact Ne.symm hyx) (by rw [f4, f5]; exact h7) r1 (turns_bound sz n s) hdn hvn
    (by rw [f4]; exact hd) (by rw [f5]; exact hv) (by rw [f4, f5]; exact hdis)
  rw [f4] at e2 e4
  exact ⟨s', rs, r2, e1, by rw [r3]; exact e2, by rw [r4]; exact e3, by rw [r3]; exact e4, r5, r6⟩

/-- As `C72_addx`, for the difference. -/
theorem C72_subx (hyx : y ≠ x) (h7 : sz = .Byte → x ≠ 7 ∧ y ≠ 7) (h : LoopReady sz (subxMinus sz y x) y x n s (bytes sz * turns n s))
    {ds vs : List (Val sz)} (hdn : ds.length = turns n s) (hvn : vs.length = turns n s)
    (hd : LimbsBelow s.mem (areg s.cpu.regs x) ds) (hv : LimbsBelow s.mem (areg s.cpu.regs y) vs)
    (hdis : ∀ b, Below (areg s.cpu.regs x) (bytes sz * turns n s) b → ¬ Below (areg s.cpu.regs y) (bytes sz * turns n s) b) :
    ∃ (s' : St M) (rs : List (Val sz)), Steps C (2 * turns n s) s s' ∧ rs.length = turns n s ∧ LimbsBelow s'.mem (areg s.cpu.regs x) rs ∧
      WholeDifference (width sz * turns n s) (number ds) (number vs) (extend s.cpu.regs.sr) s.cpu.regs.sr.z (number rs) s'.cpu.regs.sr ∧
      (∀ b, ¬ Below (areg s.cpu.regs x) (bytes sz * turns n s) b → Ram.peek s'.mem b = Ram.peek s.mem b) ∧
      LoopDone y x n (bytes sz * turns n s) s s' ∧
      (s.cpu.regs.sr.t = false → Quiet C (loopTimes (bySize sz C.SUBX_MEM_BW C.SUBX_MEM_L) C.DBCC_FALSE_BRANCH C.DBCC_FALSE_NO_BRANCH ((s.cpu.regs.d n).toNat % 65536)) s s') := by
  obtain ⟨f1, f2, f3, f4, f5, f6, f7⟩ := subxMinus_fields sz y x
  obtain ⟨u, s', r1, r2, r3, r4, r5, r6⟩ := pair_loop (C := C) f4 f5 hyx h7 (f := difference true) (fun s s1 h => by
    have hx := step_ends C h f1 (by decide) rfl
    simp only [Spec.exec] at hx
    rw [sized_some f2, endsWith_cost, f4, f5, f6] at hx
    exact hx) (fun _ _ _ => ⟨rfl, rfl, rfl⟩) f7 (by rw [f1]; decide) (by rw [f1]; rfl) (b := (bySize sz C.SUBX_MEM_BW C.SUBX_MEM_L)) (fun r => by rw [f1]; simp only [cycles, f6, f2, if_true, Option.getD_some])
    rfl h (fun b hb => limbs_present hdn hd hb) (fun b hb => limbs_present hvn hv hb)
  obtain ⟨rs, e1, e2, e3, e4⟩ := C05_subx_memory f1 f2 f3 (by rw [f4, f5]; exact Ne.symm hyx) (by rw [f4, f5]; exact h7) r1 (turns_bound sz n s) hdn hvn
    (by rw [f4]; exact hd) (by rw [f5]; exact hv) (by rw [f4, f5]; exact hdis)
  rw [f4] at e2 e4
  exact ⟨s', rs, r2, e1, by rw [r3]; exact e2, by rw [r4]; exact e3, by rw [r3]; exact e4, r5, r6⟩

/-- `loop: ABCD -(Ay),-(Ax); DBF Dn,loop` adds packed decimal numbers of `2 * turns` digits. -/
theorem C72_abcd (hyx : y ≠ x) (h7 : x ≠ 7 ∧ y ≠ 7) (h : LoopReady .Byte (abcdMinus y x) y x n s (turns n s))
    {ds vs : List (BitVec 8)} (hdn : ds.length = turns n s) (hvn : vs.length = turns n s)
    (hd : LimbsBelow (sz := .Byte) s.mem (areg s.cpu.regs x) ds) (hv : LimbsBelow (sz := .Byte) s.mem (areg s.cpu.regs y) vs)
    (hdis : ∀ b, Below (areg s.cpu.regs x) (turns n s) b → ¬ Below (areg s.cpu.regs y) (turns n s) b)
    (hdv : ∀ b ∈ ds, ValidBcd b) (hvv : ∀ b ∈ vs, ValidBcd b) :
    ∃ (s' : St M) (rs : List (BitVec 8)), Steps C (2 * turns n s) s s' ∧ rs.length = turns n s ∧ LimbsBelow (sz := .Byte) s'.mem (areg s.cpu.regs x) rs ∧ (∀ b ∈ rs, ValidBcd b) ∧
      decimal rs = (decimal ds + decimal vs + extend s.cpu.regs.sr) % 100 ^ turns n s ∧
      DecimalCodes (100 ^ turns n s ≤ decimal ds + decimal vs + extend s.cpu.regs.sr) s.cpu.regs.sr.z rs s'.cpu.regs.sr ∧
      (∀ b, ¬ Below (areg s.cpu.regs x) (turns n s) b → Ram.peek s'.mem b = Ram.peek s.mem b) ∧
      LoopDone y x n (turns n s) s s' ∧
      (s.cpu.regs.sr.t = false → Quiet C (loopTimes C.ABCD_MEM C.DBCC_FALSE_BRANCH C.DBCC_FALSE_NO_BRANCH ((s.cpu.regs.d n).toNat % 65536)) s s') := by
  obtain ⟨f1, f2, f3, f4, f5, f6, f7⟩ := abcdMinus_fields y x
  have hb : ∀ k, bytes .Byte * k = k := fun k => Nat.one_mul k
  obtain ⟨u, s', r1, r2, r3, r4, r5, r6⟩ := pair_loop (C := C) (sz := .Byte) f4 f5 hyx (fun _ => h7) (f := decimalSum) (fun s s1 h => by
    have hx := step_ends C h f1 (by decide) rfl
    simp only [Spec.exec] at hx
    rw [sized_some f2, endsWith_cost, f4, f5, f6] at hx
    exact hx) (fun d v sr => by unfold decimalSum; split <;> exact ⟨rfl, rfl, rfl⟩) f7 (by rw [f1]; decide) (by rw [f1]; rfl) (b := C.ABCD_MEM) (fun r => by rw [f1]; simp only [cycles, f6, f2, if_true, Option.getD_some])
    rfl (by rw [hb]; exact h)
    (fun b hb => limbs_present hdn hd hb) (fun b hb => limbs_present hvn hv hb)
  obtain ⟨rs, e1, e2, e3, e4, e5, e6⟩ := C06_abcd_memory f1 f2 f3 (by rw [f4, f5]; exact Ne.symm hyx) (by rw [f4, f5]; exact h7) r1 (by rw [← hb (_ + 1)]; exact turns_bound .Byte n s) hdn hvn
    (by rw [f4]; exact hd) (by rw [f5]; exact hv) (by rw [f4, f5]; exact hdis) hdv hvv
  rw [f4] at e2 e6
  exact ⟨s', rs, r2, e1, by rw [r3]; exact e2, e3, e4, by rw [r4]; exact e5, by rw [r3]; exact e6, by rw [hb] at r5; exact r5, r6⟩

/-- As `C72_abcd`, for the difference. -/
theorem C72_sbcd (hyx : y ≠ x) (h7 : x ≠ 7 ∧ y ≠ 7) (h : LoopReady .Byte (sbcdMinus y x) y x n s (turns n s))
    {ds vs : List (BitVec 8)} (hdn : ds.length = turns n s) (hvn : vs.length = turns n s)
    (hd : LimbsBelow (sz := .Byte) s.mem (areg s.cpu.regs x) ds) (hv : LimbsBelow (sz := .Byte) s.mem (areg s.cpu.regs y) vs)
    (hdis : ∀ b, Below (areg s.cpu.regs x) (turns n s) b → ¬ Below (areg s.cpu.regs y) (turns n s) b)
    (hdv : ∀ b ∈ ds, ValidBcd b) (hvv : ∀ b ∈ vs, ValidBcd b) :
    ∃ (s' : St M) (rs : List (BitVec 8)), Steps C (2 * turns n s) s s' ∧ rs.length = turns n s ∧ LimbsBelow (sz := .Byte) s'.mem (areg s.cpu.regs x) rs ∧ (∀ b ∈ rs, ValidBcd b) ∧
      (decimal rs : Int) = ((decimal ds : Int) - decimal vs - extend s.cpu.regs.sr) % ((100 ^ turns n s : Nat) : Int) ∧
      DecimalCodes (decimal ds < decimal vs + extend s.cpu.regs.sr) s.cpu.regs.sr.z rs s'.cpu.regs.sr ∧
      (∀ b, ¬ Below (areg s.cpu.regs x) (turns n s) b → Ram.peek s'.mem b = Ram.peek s.mem b) ∧
      LoopDone y x n (turns n s) s s' ∧
      (s.cpu.regs.sr.t = false → Quiet C (loopTimes C.SBCD_MEM C.DBCC_FALSE_BRANCH C.DBCC_FALSE_NO_BRANCH ((s.cpu.regs.d n).toNat % 65536)) s s') := by
  obtain ⟨f1, f2, f3, f4, f5, f6, f7⟩ := sbcdMinus_fields y x
  have hb : ∀ k, bytes .Byte * k = k := fun k => Nat.one_mul k
  obtain ⟨u, s', r1, r2, r3, r4, r5, r6⟩ := pair_loop (C := C) (sz := .Byte) f4 f5 hyx (fun _ => h7) (f := decimalDifference) (fun s s1 h => by
    have hx := step_ends C h f1 (by decide) rfl
    simp only [Spec.exec] at hx
    rw [sized_some f2, endsWith_cost, f4, f5, f6] at hx
    exact hx) (fun d v sr => by unfold decimalDifference; split <;> exact ⟨rfl, rfl, rfl⟩) f7 (by rw [f1]; decide) (by rw [f1]; rfl) (b := C.SBCD_MEM) (fun r => by rw [f1]; simp only [cycles, f6, f2, if_true, Option.getD_some])
    rfl (by rw [hb]; exact h)
    (fun b hb => limbs_present hdn hd hb) (fun b hb => limbs_present hvn hv hb)
  obtain ⟨rs, e1, e2, e3, e4, e5, e6⟩ := C06_sbcd_memory f1 f2 f3 (by rw [f4, f5]; exact Ne.symm hyx) (by rw [f4, f5]; exact h7) r1 (by rw [← hb (_ + 1)]; exact turns_bound .Byte n s) hdn hvn
    (by rw [f4]; exact hd) (by rw [f5]; exact hv) (by rw [f4, f5]; exact hdis) hdv hvv
  rw [f4] at e2 e6
  exact ⟨s', rs, r2, e1, by rw [r3]; exact e2, e3, e4, by rw [r4]; exact e5, by rw [r3]; exact e6, by rw [hb] at r5; exact r5, r6⟩

/-- `loop: ADDX.W -(A1),-(A0); DBF D2,loop` at 0, the numbers 0x0001FFFF at 6 and 0x00020001 at 10. -/
def addxDemo : St WordSlice := Demo.st [0xD149, 0x51CA, 0xFFFC, 0x0001, 0xFFFF, 0x0002, 0x0001] (Demo.regs [0, 0, 0x50001] [10, 14])

/-- The hypotheses of `C72_addx` hold of it, and after 4 calls the sum 0x00040000 is at 6. -/
example : LoopReady .Word (addxMinus .Word 1 0) 1 0 2 addxDemo (bytes .Word * turns 2 addxDemo) ∧
    LimbsBelow (sz := .Word) addxDemo.mem (areg addxDemo.cpu.regs 0) [(0xFFFF : U16), (0x0001 : U16)] ∧
    LimbsBelow (sz := .Word) addxDemo.mem (areg addxDemo.cpu.regs 1) [(0x0001 : U16), (0x0002 : U16)] ∧ turns 2 addxDemo = 2 ∧
    (∀ b, Below (areg addxDemo.cpu.regs 0) (bytes .Word * turns 2 addxDemo) b → ¬ Below (areg addxDemo.cpu.regs 1) (bytes .Word * turns 2 addxDemo) b) ∧
    ∃ s', Steps mc68000 4 addxDemo s' ∧ s'.mem.words = [0xD149, 0x51CA, 0xFFFC, 0x0004, 0x0000, 0x0002, 0x0001] ∧ s'.cpu.regs.pc = 6 ∧ s'.cpu.regs.d 2 = 0x5FFFF ∧
      areg s'.cpu.regs 0 = 6 ∧ areg s'.cpu.regs 1 = 10 := by
  have hword : ∀ (a : U32) (w : U16), Ram.peek addxDemo.mem (at_ a 0) = some (beByte (sz := .Word) w 0) → Ram.peek addxDemo.mem (at_ a 1) = some (beByte (sz := .Word) w 1) →
      Holds (sz := .Word) addxDemo.mem a w := fun a w h0 h1 l hl => match l, hl with | 0, _ => h0 | 1, _ => h1
  refine ⟨⟨rfl, rfl, by decide, ?_, ?_, by decide, by decide⟩, ?_, ?_, rfl, ?_, _, .more (.more (.more (.more (.none _) ⟨_, rfl⟩) ⟨_, rfl⟩) ⟨_, rfl⟩) ⟨_, rfl⟩, rfl, rfl, rfl, rfl, rfl⟩
  · intro k hk
    match k, hk with
    | 0, _ => exact hword 0 0xD149 (by decide +kernel) (by decide +kernel)
    | 1, _ => exact hword 2 0x51CA (by decide +kernel) (by decide +kernel)
    | 2, _ => exact hword 4 0xFFFC (by decide +kernel) (by decide +kernel)
  · rintro k hk ⟨o, h1, h2, h⟩
    have h2 : o ≤ 4 := h2
    have h := congrArg BitVec.toNat h
    simp only [at_, BitVec.toNat_add, BitVec.toNat_sub, BitVec.toNat_ofNat, show addxDemo.cpu.regs.pc.toNat = 0 from rfl, show (areg addxDemo.cpu.regs 0).toNat = 10 from rfl] at h
    omega
  · intro j hj
    match j, hj with
    | 0, _ => exact hword 8 0xFFFF (by decide +kernel) (by decide +kernel)
    | 1, _ => exact hword 6 0x0001 (by decide +kernel) (by decide +kernel)
  · intro j hj
    match j, hj with
    | 0, _ => exact hword 12 0x0001 (by decide +kernel) (by decide +kernel)
    | 1, _ => exact hword 10 0x0002 (by decide +kernel) (by decide +kernel)
  · rintro b ⟨o, h1, h2, h⟩ ⟨o', h1', h2', h'⟩
    have h2 : o ≤ 4 := h2
    have h2' : o' ≤ 4 := h2'
    rw [h] at h'
    have h := congrArg BitVec.toNat h'
    simp only [BitVec.toNat_sub, BitVec.toNat_ofNat, show (areg addxDemo.cpu.regs 0).toNat = 10 from rfl, show (areg addxDemo.cpu.regs 1).toNat = 14 from rfl] at h
    omega

end M68k.Props
