import Verif.Lemmas.SourceStep
import Verif.Props.C39
import Verif.Props.C39Fixed
/-
What each line of assembly source does when its words are executed.
-/
namespace M68k.Exec
open Spec Props
set_option linter.unusedSectionVars false
variable {M : Type} [MemoryAccess M] {C : CpuDetails} {s s1 : St M} {ws : List U16}

/-- The words of the line do what it says. -/
def Faithful (l : Source) : Prop :=
  ∀ {M : Type} [MemoryAccess M] {C : CpuDetails} {s s1 : St M} {ws : List U16}, l.assemble = some ws → AtWords s ws s1 → EndsAs C s l.privileged (l.effect C s.cpu.regs.pc s1)

/-! ### Bit 8 of the opcodes of the bit instructions, and the low byte of a branch -/

theorem flag_of_div {op : U16} {b : Nat} (h : op.toNat / 256 % 2 = b) : flag op 8 = decide (b = 1) := by
  unfold flag; rw [show (2 : Nat) ^ 8 = 256 from rfl, h]

theorem dynamic_flag (n : Fin 8) (t : U16) (ht : t = 4 ∨ t = 5 ∨ t = 6 ∨ t = 7) (m : Mode) {op : U16}
    (h : (Asm.registerEffectiveAddress 0b0000 (toU16 (u8 n)) t m.toAM).head? = some op) : flag op 8 = true := by
  cases h
  have hx : ((0 &&& 0xF) <<< 12 ||| (toU16 (u8 n) &&& 7) <<< 9 ||| (t &&& 7) <<< 6 : U16).toNat = 4096 * 0 + 512 * n.val + 256 * 1 + 64 * (t.toNat % 4) := by
    rcases ht with rfl | rfl | rfl | rfl <;> revert n <;> decide
  have f := fields_of (long := false) (registersOk_toAM m) hx (by omega) (by omega) (by omega)
  exact flag_of_div f.bit8

theorem static_flag (q : U16) (hq : q = 32 ∨ q = 33 ∨ q = 34 ∨ q = 35) (m : Mode) (k : U8) {op : U16}
    (h : (Asm.effectiveAddressCount q m.toAM k).head? = some op) : flag op 8 = false := by
  cases h
  have hx : ((q &&& 0x3FF) <<< 6 : U16).toNat = 4096 * 0 + 512 * 4 + 256 * 0 + 64 * (q.toNat % 4) := by
    rcases hq with rfl | rfl | rfl | rfl <;> decide
  have f := fields_of (long := false) (registersOk_toAM m) hx (by omega) (by omega) (by omega)
  exact flag_of_div f.bit8

theorem branch_byte (c : Asm.Condition) (d : U16) {op : U16} (h : (Asm.conditionDisplacement c d).head? = some op) :
    (op.toNat % 256 = 0) = ¬ IsShort d := by
  have hs : (d.slt (-128) || (127 : U16).slt d || decide (d = 0)) = decide (¬ IsShort d) := by
    have h0 : (d = 0) ↔ d.toInt = 0 := ⟨fun h => by rw [h]; rfl, fun h => BitVec.eq_of_toInt_eq h⟩
    rw [Bool.eq_iff_iff, decide_eq_true_iff]
    simp only [Bool.or_eq_true, decide_eq_true_eq, BitVec.slt_iff_toInt_lt, h0, IsShort, show (-128 : U16).toInt = -128 from rfl, show (127 : U16).toInt = 127 from rfl]
    omega
  unfold Asm.conditionDisplacement at h
  dsimp only at h
  rw [hs] at h
  by_cases hd : IsShort d
  · rw [if_neg (by simp [hd])] at h
    cases h
    have hb : (0b0110 <<< 12 ||| c.toU16 <<< 8 : U16).toNat % 2 ^ 8 = 0 := by cases c <;> decide
    have hl := or_low (k := 8) hb (show (toU16 (toU8 d)).toNat < 2 ^ 8 from by have := (toU8 d).isLt; simp only [toU16, BitVec.toNat_setWidth]; omega)
    rw [hl]
    have hv : (toU16 (toU8 d)).toNat = d.toNat % 256 := by
      simp only [toU16, toU8, BitVec.toNat_setWidth]; omega
    rw [hv]
    have hd' := hd
    unfold IsShort at hd'
    rw [BitVec.toInt_eq_toNat_cond] at hd'
    have hlt := d.isLt
    simp only [hd, not_true, eq_iff_iff, iff_false]
    split at hd' <;> omega
  · rw [if_pos (by simp [hd])] at h
    cases h
    have hb : (0b0110 <<< 12 ||| c.toU16 <<< 8 : U16).toNat % 256 = 0 := by cases c <;> decide
    simp only [hb, hd, not_false_eq_true]

/-! ### The bit instructions -/

theorem dynamic_eq (C : CpuDetails) (o : BitOp) (n : Fin 8) (m : Mode) (a b c d : Nat) (k : U8 → Nat → Exec M Nat)
    (hk : ∀ count t, k count t = cost (bitOp o count.toNat m) (t + eaTime C m)) {s : St M} (h : flag s.cpu.currentOpcode 8 = true) :
    bitHead a b c d m.toAM (u8 n) k s = Source.dynamicBit C o n m b a s := by
  rw [bitHead_dyn a b c d m n k s h, hk]
  have hl : (low .Byte (s.cpu.regs.d n)).toNat = (s.cpu.regs.d n).toNat % 256 := by
    simp only [low, width, BitVec.toNat_ofNat]
  rw [hl]
  rfl

theorem static_eq (C : CpuDetails) (o : BitOp) (count : U8) (m : Mode) (a b c d : Nat) (k : U8 → Nat → Exec M Nat)
    (hk : ∀ count t, k count t = cost (bitOp o count.toNat m) (t + eaTime C m)) {s : St M} (h : flag s.cpu.currentOpcode 8 = false) :
    bitHead a b c d m.toAM count k s = Source.staticBit C o count m d c s := by
  rw [bitHead_static a b c d m count k s h, hk]
  rfl

theorem guard_of {p : Prop} [Decidable p] {α : Type} {x : Option α} {y : α} (h : (do guard p; x) = some y) : p ∧ x = some y := (guard_iff ..).1 h

/-! ### The lines -/

theorem faithful_abcd (b : Bool) (x y : Fin 8) : Faithful (.abcd b x y) := by
  intro M _ C s s1 ws h hw
  unfold Source.assemble at h
  refine atWords_ends (C39_abcd h) hw rfl fun op hh hc => ?_
  show executeAbcd C (u8 x) (pairDir b) (u8 y) s1 = _
  rw [executeAbcd_eq]
  rfl

theorem faithful_sbcd (b : Bool) (x y : Fin 8) : Faithful (.sbcd b x y) := by
  intro M _ C s s1 ws h hw
  unfold Source.assemble at h
  refine atWords_ends (C39_sbcd h) hw rfl fun op hh hc => ?_
  show executeSbcd C (u8 x) (pairDir b) (u8 y) s1 = _
  rw [executeSbcd_eq]
  rfl

theorem faithful_addx (b : Bool) (sz : Size) (x y : Fin 8) : Faithful (.addx b sz x y) := by
  intro M _ C s s1 ws h hw
  unfold Source.assemble at h
  refine atWords_ends (C39_addx h) hw rfl fun op hh hc => ?_
  show executeAddx C (u8 x) sz (pairDir b) (u8 y) s1 = _
  rw [executeAddx_eq]
  rfl

theorem faithful_subx (b : Bool) (sz : Size) (x y : Fin 8) : Faithful (.subx b sz x y) := by
  intro M _ C s s1 ws h hw
  unfold Source.assemble at h
  refine atWords_ends (C39_subx h) hw rfl fun op hh hc => ?_
  show executeSubx C (u8 x) sz (pairDir b) (u8 y) s1 = _
  rw [executeSubx_eq]
  rfl

theorem faithful_add (b : Bool) (sz : Size) (n : Fin 8) (m : Mode) : Faithful (.add b sz n m) := by
  intro M _ C s s1 ws h hw
  unfold Source.assemble at h
  refine atWords_ends (C39_add h) hw rfl fun op hh hc => ?_
  show executeAdd C (u8 n) (if b then .DstEa else .DstReg) sz (placedAt (s.cpu.regs.pc + 2) (held sz.isLong m.toAM)) s1 = _
  rw [kept_toAM, executeAdd_eq]
  cases b <;> rfl

theorem faithful_sub (b : Bool) (sz : Size) (n : Fin 8) (m : Mode) : Faithful (.sub b sz n m) := by
  intro M _ C s s1 ws h hw
  unfold Source.assemble at h
  refine atWords_ends (C39_sub h) hw rfl fun op hh hc => ?_
  show executeSub C (u8 n) (if b then .DstEa else .DstReg) sz (placedAt (s.cpu.regs.pc + 2) (held sz.isLong m.toAM)) s1 = _
  rw [kept_toAM, executeSub_eq]
  cases b <;> rfl

theorem faithful_and (b : Bool) (sz : Size) (n : Fin 8) (m : Mode) : Faithful (.and b sz n m) := by
  intro M _ C s s1 ws h hw
  unfold Source.assemble at h
  refine atWords_ends (C39_and h) hw rfl fun op hh hc => ?_
  show executeAnd C (u8 n) (if b then .DstEa else .DstReg) sz (placedAt (s.cpu.regs.pc + 2) (held sz.isLong m.toAM)) s1 = _
  rw [kept_toAM]
  cases b
  · exact congrFun (executeAnd_dn C n sz (m.kept sz.isLong (s.cpu.regs.pc + 2))) s1
  · exact congrFun (executeAnd_ea C n sz (m.kept sz.isLong (s.cpu.regs.pc + 2))) s1

theorem faithful_or (b : Bool) (sz : Size) (n : Fin 8) (m : Mode) : Faithful (.or b sz n m) := by
  intro M _ C s s1 ws h hw
  unfold Source.assemble at h
  refine atWords_ends (C39_or h) hw rfl fun op hh hc => ?_
  show executeOr C (u8 n) (if b then .DstEa else .DstReg) sz (placedAt (s.cpu.regs.pc + 2) (held sz.isLong m.toAM)) s1 = _
  rw [kept_toAM]
  cases b
  · exact congrFun (executeOr_dn C n sz (m.kept sz.isLong (s.cpu.regs.pc + 2))) s1
  · exact congrFun (executeOr_ea C n sz (m.kept sz.isLong (s.cpu.regs.pc + 2))) s1

theorem faithful_adda (sz : Size) (n : Fin 8) (m : Mode) : Faithful (.adda sz n m) := by
  intro M _ C s s1 ws h hw
  unfold Source.assemble at h
  have h0 := h
  unfold Asm.adda at h0
  have hsz : sz ≠ .Byte := by
    rintro rfl
    rw [guard_iff, guard_iff] at h0
    exact h0.2.1 rfl
  refine atWords_ends (C39_adda_partial (registersOk_toAM m) h) hw rfl fun op hh hc => ?_
  show executeAdda C (u8 n) sz (placedAt (s.cpu.regs.pc + 2) (held sz.isLong m.toAM)) s1 = _
  rw [kept_toAM, executeAdda_eq C n sz hsz]
  rfl

theorem faithful_suba (sz : Size) (n : Fin 8) (m : Mode) : Faithful (.suba sz n m) := by
  intro M _ C s s1 ws h hw
  unfold Source.assemble at h
  have h0 := h
  unfold Asm.suba at h0
  have hsz : sz ≠ .Byte := by
    rintro rfl
    rw [guard_iff, guard_iff] at h0
    exact h0.2.1 rfl
  refine atWords_ends (C39_suba_partial (registersOk_toAM m) h) hw rfl fun op hh hc => ?_
  show executeSuba C (u8 n) sz (placedAt (s.cpu.regs.pc + 2) (held sz.isLong m.toAM)) s1 = _
  rw [kept_toAM, executeSuba_eq C n sz hsz]
  rfl

theorem faithful_cmpa (sz : Size) (n : Fin 8) (m : Mode) : Faithful (.cmpa sz n m) := by
  intro M _ C s s1 ws h hw
  unfold Source.assemble at h
  have h0 := h
  unfold Asm.cmpa at h0
  have hsz : sz ≠ .Byte := by
    rintro rfl
    rw [guard_iff, guard_iff] at h0
    exact h0.2.1 rfl
  refine atWords_ends (C39_cmpa_partial (registersOk_toAM m) h) hw rfl fun op hh hc => ?_
  show executeCmpa C (u8 n) sz (placedAt (s.cpu.regs.pc + 2) (held sz.isLong m.toAM)) s1 = _
  rw [kept_toAM, executeCmpa_eq C n sz hsz]
  rfl

theorem faithful_addi (sz : Size) (m : Mode) (v : U32) : Faithful (.addi sz m v) := by
  intro M _ C s s1 ws h hw
  unfold Source.assemble at h
  refine atWords_ends (C39_addi h) hw rfl fun op hh hc => ?_
  show executeAddi C sz m.toAM (heldImm sz v) s1 = _
  rw [executeAddi_eq, low_heldImm]
  rfl

theorem faithful_subi (sz : Size) (m : Mode) (v : U32) : Faithful (.subi sz m v) := by
  intro M _ C s s1 ws h hw
  unfold Source.assemble at h
  refine atWords_ends (C39_subi h) hw rfl fun op hh hc => ?_
  show executeSubi C sz m.toAM (heldImm sz v) s1 = _
  rw [executeSubi_eq, low_heldImm]
  rfl

theorem faithful_andi (sz : Size) (m : Mode) (v : U32) : Faithful (.andi sz m v) := by
  intro M _ C s s1 ws h hw
  unfold Source.assemble at h
  refine atWords_ends (C39_andi h) hw rfl fun op hh hc => ?_
  show executeAndi C sz m.toAM (heldImm sz v) s1 = _
  rw [executeAndi_eq, low_heldImm]
  rfl

theorem faithful_ori (sz : Size) (m : Mode) (v : U32) : Faithful (.ori sz m v) := by
  intro M _ C s s1 ws h hw
  unfold Source.assemble at h
  refine atWords_ends (C39_ori h) hw rfl fun op hh hc => ?_
  show executeOri C sz m.toAM (heldImm sz v) s1 = _
  rw [executeOri_eq, low_heldImm]
  rfl

theorem faithful_eori (sz : Size) (m : Mode) (v : U32) : Faithful (.eori sz m v) := by
  intro M _ C s s1 ws h hw
  unfold Source.assemble at h
  refine atWords_ends (C39_eori h) hw rfl fun op hh hc => ?_
  show executeEori C sz m.toAM (heldImm sz v) s1 = _
  rw [executeEori_eq, low_heldImm]
  rfl

theorem faithful_cmpi (sz : Size) (m : Mode) (v : U32) : Faithful (.cmpi sz m v) := by
  intro M _ C s s1 ws h hw
  unfold Source.assemble at h
  refine atWords_ends (C39_cmpi h) hw rfl fun op hh hc => ?_
  show executeCmpi C sz m.toAM (heldImm sz v) s1 = _
  rw [executeCmpi_eq, low_heldImm]
  rfl

theorem faithful_addq (sz : Size) (k : U8) (m : Mode) : Faithful (.addq sz k m) := by
  intro M _ C s s1 ws h hw
  unfold Source.assemble at h
  have hk : k ≥ 1 ∧ k ≤ 8 := by
    have h0 := h
    unfold Asm.addq at h0
    rw [guard_iff, guard_iff, guard_iff] at h0
    exact h0.2.2.1
  refine atWords_ends (C39_addq h) hw rfl fun op hh hc => ?_
  show executeAddq C (if k = 8 then 0 else k) sz m.toAM s1 = _
  rw [quick_field k hk, executeAddq_eq]
  rfl

theorem faithful_subq (sz : Size) (k : U8) (m : Mode) : Faithful (.subq sz k m) := by
  intro M _ C s s1 ws h hw
  unfold Source.assemble at h
  have hk : k ≥ 1 ∧ k ≤ 8 := by
    have h0 := h
    unfold Asm.subq at h0
    rw [guard_iff, guard_iff, guard_iff] at h0
    exact h0.2.2.1
  refine atWords_ends (C39_subq h) hw rfl fun op hh hc => ?_
  show executeSubq C (if k = 8 then 0 else k) sz m.toAM s1 = _
  rw [quick_field k hk, executeSubq_eq]
  rfl

theorem faithful_andiccr (w : U16) : Faithful (.andiccr w) := by
  intro M _ C s s1 ws h hw
  unfold Source.assemble at h
  refine atWords_ends (C39_andiccr h) hw rfl fun op hh hc => ?_
  show executeAndiccr C (w &&& 0xFF) s1 = _
  rw [executeAndiccr_eq]
  rfl

theorem faithful_oriccr (w : U16) : Faithful (.oriccr w) := by
  intro M _ C s s1 ws h hw
  unfold Source.assemble at h
  refine atWords_ends (C39_oriccr h) hw rfl fun op hh hc => ?_
  show executeOriccr C (w &&& 0xFF) s1 = _
  rw [executeOriccr_eq]
  rfl

theorem faithful_eoriccr (w : U16) : Faithful (.eoriccr w) := by
  intro M _ C s s1 ws h hw
  unfold Source.assemble at h
  refine atWords_ends (C39_eoriccr h) hw rfl fun op hh hc => ?_
  show executeEoriccr C (w &&& 0xFF) s1 = _
  rw [executeEoriccr_eq]
  rfl

theorem faithful_andisr (w : U16) : Faithful (.andisr w) := by
  intro M _ C s s1 ws h hw
  unfold Source.assemble at h
  refine atWords_ends (C39_andisr h) hw rfl fun op hh hc => ?_
  show executeAndisr C w s1 = _
  rw [executeAndisr_eq]
  rfl

theorem faithful_orisr (w : U16) : Faithful (.orisr w) := by
  intro M _ C s s1 ws h hw
  unfold Source.assemble at h
  refine atWords_ends (C39_orisr h) hw rfl fun op hh hc => ?_
  show executeOrisr C w s1 = _
  rw [executeOrisr_eq]
  rfl

theorem faithful_eorisr (w : U16) : Faithful (.eorisr w) := by
  intro M _ C s s1 ws h hw
  unfold Source.assemble at h
  refine atWords_ends (C39_eorisr h) hw rfl fun op hh hc => ?_
  show executeEorisr C w s1 = _
  rw [executeEorisr_eq]
  rfl

theorem faithful_stop (w : U16) : Faithful (.stop w) := by
  intro M _ C s s1 ws h hw
  unfold Source.assemble at h
  refine atWords_ends (C39_stop h) hw rfl fun op hh hc => ?_
  show executeStop C w s1 = _
  rw [executeStop_eq]
  rfl

theorem faithful_asm (l : Bool) (m : Mode) : Faithful (.asm l m) := by
  intro M _ C s s1 ws h hw
  unfold Source.assemble at h
  refine atWords_ends (C39_asm h) hw rfl fun op hh hc => ?_
  show executeAsm C (shiftDir l) m.toAM s1 = _
  rw [executeAsm_eq]
  rfl

theorem faithful_lsm (l : Bool) (m : Mode) : Faithful (.lsm l m) := by
  intro M _ C s s1 ws h hw
  unfold Source.assemble at h
  refine atWords_ends (C39_lsm h) hw rfl fun op hh hc => ?_
  show executeLsm C (shiftDir l) m.toAM s1 = _
  rw [executeLsm_eq]
  rfl

theorem faithful_rom (l : Bool) (m : Mode) : Faithful (.rom l m) := by
  intro M _ C s s1 ws h hw
  unfold Source.assemble at h
  refine atWords_ends (C39_rom h) hw rfl fun op hh hc => ?_
  show executeRom C (shiftDir l) m.toAM s1 = _
  rw [executeRom_eq]
  rfl

theorem faithful_roxm (l : Bool) (m : Mode) : Faithful (.roxm l m) := by
  intro M _ C s s1 ws h hw
  unfold Source.assemble at h
  refine atWords_ends (C39_roxm h) hw rfl fun op hh hc => ?_
  show executeRoxm C (shiftDir l) m.toAM s1 = _
  rw [executeRoxm_eq]
  rfl

theorem faithful_asr (l r : Bool) (sz : Size) (k n : Fin 8) : Faithful (.asr l r sz k n) := by
  intro M _ C s s1 ws h hw
  unfold Source.assemble at h
  refine atWords_ends (C39_asr h) hw rfl fun op hh hc => ?_
  show executeAsr C (toU8 (BitVec.ofNat 16 k.val)) (shiftDir l) sz r (toU8 (BitVec.ofNat 16 n.val)) s1 = _
  rw [toU8_fin, toU8_fin, executeAsr_eq]
  rfl

theorem faithful_lsr (l r : Bool) (sz : Size) (k n : Fin 8) : Faithful (.lsr l r sz k n) := by
  intro M _ C s s1 ws h hw
  unfold Source.assemble at h
  refine atWords_ends (C39_lsr h) hw rfl fun op hh hc => ?_
  show executeLsr C (toU8 (BitVec.ofNat 16 k.val)) (shiftDir l) sz r (toU8 (BitVec.ofNat 16 n.val)) s1 = _
  rw [toU8_fin, toU8_fin, executeLsr_eq]
  rfl

theorem faithful_ror (l r : Bool) (sz : Size) (k n : Fin 8) : Faithful (.ror l r sz k n) := by
  intro M _ C s s1 ws h hw
  unfold Source.assemble at h
  refine atWords_ends (C39_ror h) hw rfl fun op hh hc => ?_
  show executeRor C (toU8 (BitVec.ofNat 16 k.val)) (shiftDir l) sz r (toU8 (BitVec.ofNat 16 n.val)) s1 = _
  rw [toU8_fin, toU8_fin, executeRor_eq]
  rfl

theorem faithful_roxr (l r : Bool) (sz : Size) (k n : Fin 8) : Faithful (.roxr l r sz k n) := by
  intro M _ C s s1 ws h hw
  unfold Source.assemble at h
  refine atWords_ends (C39_roxr h) hw rfl fun op hh hc => ?_
  show executeRoxr C (toU8 (BitVec.ofNat 16 k.val)) (shiftDir l) sz r (toU8 (BitVec.ofNat 16 n.val)) s1 = _
  rw [toU8_fin, toU8_fin, executeRoxr_eq]
  rfl

theorem faithful_bcc (cc : Asm.Condition) (d : U16) : Faithful (.bcc cc d) := by
  intro M _ C s s1 ws h hw
  unfold Source.assemble at h
  have hb : ∀ op, ws.head? = some op → (op.toNat % 256 = 0) = ¬ IsShort d := by
    intro op hh
    have h0 := h
    unfold Asm.bcc at h0
    rw [guard_iff] at h0
    obtain ⟨_, h0⟩ := h0
    cases h0
    exact branch_byte _ _ hh
  refine atWords_ends (C39_bcc h) hw rfl fun op hh hc => ?_
  show executeBcc C (s.cpu.regs.pc + 2) (BitVec.ofNat 8 cc.ctorIdx) d s1 = _
  rw [ccNumber_eq, executeBcc_eq]
  unfold Source.effect
  rw [bind_apply]
  simp only [getCurrentOpcode, hc, hb op hh]
  simp only [ite_not]

theorem faithful_bra (d : U16) : Faithful (.bra d) := by
  intro M _ C s s1 ws h hw
  unfold Source.assemble at h
  have hb : ∀ op, ws.head? = some op → (op.toNat % 256 = 0) = ¬ IsShort d := by
    intro op hh
    have h0 := h
    cases h0
    exact branch_byte _ _ hh
  refine atWords_ends (C39_bra h) hw rfl fun op hh hc => ?_
  show executeBra C (s.cpu.regs.pc + 2) d s1 = _
  rw [executeBra_eq]
  unfold Source.effect
  rw [bind_apply]
  simp only [getCurrentOpcode, hc, hb op hh]
  simp only [ite_not]

theorem faithful_bsr (d : U16) : Faithful (.bsr d) := by
  intro M _ C s s1 ws h hw
  unfold Source.assemble at h
  have hb : ∀ op, ws.head? = some op → (op.toNat % 256 = 0) = ¬ IsShort d := by
    intro op hh
    have h0 := h
    cases h0
    exact branch_byte _ _ hh
  refine atWords_ends (C39_bsr h) hw rfl fun op hh hc => ?_
  show executeBsr C (s.cpu.regs.pc + 2) d s1 = _
  rw [executeBsr_eq]
  unfold Source.effect
  rw [bind_apply]
  simp only [getCurrentOpcode, hc, hb op hh]
  simp only [ite_not]

theorem bchg_hk (C : CpuDetails) (m : Mode) (count : U8) (t : Nat) : (bitTail C (· ^^^ ·) m.toAM count t : Exec M Nat) = cost (bitOp .change count.toNat m) (t + eaTime C m) :=
  bitTail_eq C (· ^^^ ·) .change (by decide) (fun _ _ => rfl) m count t
theorem bclr_hk (C : CpuDetails) (m : Mode) (count : U8) (t : Nat) : (bitTail C (fun v b => v &&& ~~~b) m.toAM count t : Exec M Nat) = cost (bitOp .clear count.toNat m) (t + eaTime C m) :=
  bitTail_eq C (fun v b => v &&& ~~~b) .clear (by decide) (fun _ _ => rfl) m count t
theorem bset_hk (C : CpuDetails) (m : Mode) (count : U8) (t : Nat) : (bitTail C (· ||| ·) m.toAM count t : Exec M Nat) = cost (bitOp .set count.toNat m) (t + eaTime C m) :=
  bitTail_eq C (· ||| ·) .set (by decide) (fun _ _ => rfl) m count t

theorem faithful_bchgDynamic (n : Fin 8) (m : Mode) : Faithful (.bchgDynamic n m) := by
  intro M _ C s s1 ws h hw
  unfold Source.assemble at h
  have hb : ∀ op, ws.head? = some op → flag op 8 = true := by
    intro op hh
    have h0 := h
    unfold Asm.bchgDynamic at h0
    rw [guard_iff, guard_iff] at h0
    obtain ⟨_, _, h0⟩ := h0
    cases h0
    exact dynamic_flag n _ (by decide) m hh
  refine atWords_ends (C39_bchgDynamic h) hw rfl fun op hh hc => ?_
  show executeBchg C m.toAM (u8 n) s1 = _
  rw [executeBchg_head]
  exact dynamic_eq C .change n _ _ _ _ _ _ (bchg_hk C m) (by rw [hc]; exact hb op hh)

theorem faithful_bchgStatic (k : U8) (m : Mode) : Faithful (.bchgStatic k m) := by
  intro M _ C s s1 ws h hw
  unfold Source.assemble at h
  have hb : ∀ op, ws.head? = some op → flag op 8 = false := by
    intro op hh
    have h0 := h
    unfold Asm.bchgStatic at h0
    rw [guard_iff] at h0
    obtain ⟨_, h0⟩ := h0
    cases h0
    exact static_flag _ (by decide) m k hh
  refine atWords_ends (C39_bchgStatic h) hw rfl fun op hh hc => ?_
  show executeBchg C m.toAM k s1 = _
  rw [executeBchg_head]
  exact static_eq C .change k _ _ _ _ _ _ (bchg_hk C m) (by rw [hc]; exact hb op hh)

theorem faithful_bclrDynamic (n : Fin 8) (m : Mode) : Faithful (.bclrDynamic n m) := by
  intro M _ C s s1 ws h hw
  unfold Source.assemble at h
  have hb : ∀ op, ws.head? = some op → flag op 8 = true := by
    intro op hh
    have h0 := h
    unfold Asm.bclrDynamic at h0
    rw [guard_iff, guard_iff] at h0
    obtain ⟨_, _, h0⟩ := h0
    cases h0
    exact dynamic_flag n _ (by decide) m hh
  refine atWords_ends (C39_bclrDynamic h) hw rfl fun op hh hc => ?_
  show executeBclr C m.toAM (u8 n) s1 = _
  rw [executeBclr_head]
  exact dynamic_eq C .clear n _ _ _ _ _ _ (bclr_hk C m) (by rw [hc]; exact hb op hh)

theorem faithful_bclrStatic (k : U8) (m : Mode) : Faithful (.bclrStatic k m) := by
  intro M _ C s s1 ws h hw
  unfold Source.assemble at h
  have hb : ∀ op, ws.head? = some op → flag op 8 = false := by
    intro op hh
    have h0 := h
    unfold Asm.bclrStatic at h0
    rw [guard_iff] at h0
    obtain ⟨_, h0⟩ := h0
    cases h0
    exact static_flag _ (by decide) m k hh
  refine atWords_ends (C39_bclrStatic h) hw rfl fun op hh hc => ?_
  show executeBclr C m.toAM k s1 = _
  rw [executeBclr_head]
  exact static_eq C .clear k _ _ _ _ _ _ (bclr_hk C m) (by rw [hc]; exact hb op hh)

theorem faithful_bsetDynamic (n : Fin 8) (m : Mode) : Faithful (.bsetDynamic n m) := by
  intro M _ C s s1 ws h hw
  unfold Source.assemble at h
  have hb : ∀ op, ws.head? = some op → flag op 8 = true := by
    intro op hh
    have h0 := h
    unfold Asm.bsetDynamic at h0
    rw [guard_iff, guard_iff] at h0
    obtain ⟨_, _, h0⟩ := h0
    cases h0
    exact dynamic_flag n _ (by decide) m hh
  refine atWords_ends (C39_bsetDynamic h) hw rfl fun op hh hc => ?_
  show executeBset C m.toAM (u8 n) s1 = _
  rw [executeBset_head]
  exact dynamic_eq C .set n _ _ _ _ _ _ (bset_hk C m) (by rw [hc]; exact hb op hh)

theorem faithful_bsetStatic (k : U8) (m : Mode) : Faithful (.bsetStatic k m) := by
  intro M _ C s s1 ws h hw
  unfold Source.assemble at h
  have hb : ∀ op, ws.head? = some op → flag op 8 = false := by
    intro op hh
    have h0 := h
    unfold Asm.bsetStatic at h0
    rw [guard_iff] at h0
    obtain ⟨_, h0⟩ := h0
    cases h0
    exact static_flag _ (by decide) m k hh
  refine atWords_ends (C39_bsetStatic h) hw rfl fun op hh hc => ?_
  show executeBset C m.toAM k s1 = _
  rw [executeBset_head]
  exact static_eq C .set k _ _ _ _ _ _ (bset_hk C m) (by rw [hc]; exact hb op hh)

theorem faithful_btstDynamic (n : Fin 8) (m : Mode) : Faithful (.btstDynamic n m) := by
  intro M _ C s s1 ws h hw
  unfold Source.assemble at h
  have hb : ∀ op, ws.head? = some op → flag op 8 = true := by
    intro op hh
    have h0 := h
    unfold Asm.btstDynamic at h0
    rw [guard_iff, guard_iff] at h0
    obtain ⟨_, _, h0⟩ := h0
    cases h0
    exact dynamic_flag n _ (by decide) m hh
  refine atWords_ends (C39_btstDynamic h) hw rfl fun op hh hc => ?_
  show executeBtst C (placedAt (s.cpu.regs.pc + 2) (held false m.toAM)) (u8 n) s1 = _
  rw [kept_toAM]
  rw [executeBtst_head]
  exact dynamic_eq C .test n _ _ _ _ _ _ (btstTail_eq C _) (by rw [hc]; exact hb op hh)

theorem faithful_btstStatic (k : U8) (m : Mode) (hn : ∀ v, m ≠ .imm v) : Faithful (.btstStatic k m) := by
  intro M _ C s s1 ws h hw
  unfold Source.assemble at h
  have hb : ∀ op, ws.head? = some op → flag op 8 = false := by
    intro op hh
    have h0 := h
    unfold Asm.btstStatic at h0
    rw [guard_iff] at h0
    obtain ⟨_, h0⟩ := h0
    cases h0
    exact static_flag _ (by decide) m k hh
  have hn : ∀ v, m.toAM ≠ .Immediate v := by
    intro v hv
    cases m <;> cases hv
    exact hn _ rfl
  refine atWords_ends (C39_btstStatic_partial hn h) hw rfl fun op hh hc => ?_
  show executeBtst C (placedAt (s.cpu.regs.pc + 4) m.toAM) k s1 = _
  rw [at_toAM]
  rw [executeBtst_head]
  exact static_eq C .test k _ _ _ _ _ _ (btstTail_eq C _) (by rw [hc]; exact hb op hh)

theorem faithful_chk (n : Fin 8) (m : Mode) : Faithful (.chk n m) := by
  intro M _ C s s1 ws h hw
  unfold Source.assemble at h
  refine atWords_ends (C39_chk h) hw rfl fun op hh hc => ?_
  show executeChk C (u8 n) (placedAt (s.cpu.regs.pc + 2) (held false m.toAM)) s1 = _
  rw [kept_toAM, executeChk_eq]
  rfl

theorem faithful_divs (n : Fin 8) (m : Mode) : Faithful (.divs n m) := by
  intro M _ C s s1 ws h hw
  unfold Source.assemble at h
  refine atWords_ends (C39_divs h) hw rfl fun op hh hc => ?_
  show executeDivs C (u8 n) (placedAt (s.cpu.regs.pc + 2) (held false m.toAM)) s1 = _
  rw [kept_toAM, executeDivs_eq]
  rfl

theorem faithful_divu (n : Fin 8) (m : Mode) : Faithful (.divu n m) := by
  intro M _ C s s1 ws h hw
  unfold Source.assemble at h
  refine atWords_ends (C39_divu h) hw rfl fun op hh hc => ?_
  show executeDivu C (u8 n) (placedAt (s.cpu.regs.pc + 2) (held false m.toAM)) s1 = _
  rw [kept_toAM, executeDivu_eq]
  rfl

theorem faithful_muls (n : Fin 8) (m : Mode) : Faithful (.muls n m) := by
  intro M _ C s s1 ws h hw
  unfold Source.assemble at h
  refine atWords_ends (C39_muls h) hw rfl fun op hh hc => ?_
  show executeMuls C (u8 n) (placedAt (s.cpu.regs.pc + 2) (held false m.toAM)) s1 = _
  rw [kept_toAM, executeMuls_eq]
  rfl

theorem faithful_mulu (n : Fin 8) (m : Mode) : Faithful (.mulu n m) := by
  intro M _ C s s1 ws h hw
  unfold Source.assemble at h
  refine atWords_ends (C39_mulu h) hw rfl fun op hh hc => ?_
  show executeMulu C (u8 n) (placedAt (s.cpu.regs.pc + 2) (held false m.toAM)) s1 = _
  rw [kept_toAM, executeMulu_eq]
  rfl

theorem faithful_clr (sz : Size) (m : Mode) : Faithful (.clr sz m) := by
  intro M _ C s s1 ws h hw
  unfold Source.assemble at h
  refine atWords_ends (C39_clr h) hw rfl fun op hh hc => ?_
  show executeClr C sz m.toAM s1 = _
  rw [executeClr_eq]
  rfl

theorem faithful_neg (sz : Size) (m : Mode) : Faithful (.neg sz m) := by
  intro M _ C s s1 ws h hw
  unfold Source.assemble at h
  refine atWords_ends (C39_neg h) hw rfl fun op hh hc => ?_
  show executeNeg C sz m.toAM s1 = _
  rw [executeNeg_eq]
  rfl

theorem faithful_negx (sz : Size) (m : Mode) : Faithful (.negx sz m) := by
  intro M _ C s s1 ws h hw
  unfold Source.assemble at h
  refine atWords_ends (C39_negx h) hw rfl fun op hh hc => ?_
  show executeNegx C sz m.toAM s1 = _
  rw [executeNegx_eq]
  rfl

theorem faithful_not (sz : Size) (m : Mode) : Faithful (.not sz m) := by
  intro M _ C s s1 ws h hw
  unfold Source.assemble at h
  refine atWords_ends (C39_not h) hw rfl fun op hh hc => ?_
  show executeNot C sz m.toAM s1 = _
  rw [executeNot_eq]
  rfl

theorem faithful_tst (sz : Size) (m : Mode) : Faithful (.tst sz m) := by
  intro M _ C s s1 ws h hw
  unfold Source.assemble at h
  refine atWords_ends (C39_tst h) hw rfl fun op hh hc => ?_
  show executeTst C sz m.toAM s1 = _
  rw [executeTst_eq]
  rfl

theorem faithful_cmp (sz : Size) (n : Fin 8) (m : Mode) : Faithful (.cmp sz n m) := by
  intro M _ C s s1 ws h hw
  unfold Source.assemble at h
  refine atWords_ends (C39_cmp h) hw rfl fun op hh hc => ?_
  show executeCmp C (u8 n) sz (placedAt (s.cpu.regs.pc + 2) (held sz.isLong m.toAM)) s1 = _
  rw [kept_toAM, executeCmp_eq]
  rfl

theorem faithful_cmpm (sz : Size) (x y : Fin 8) : Faithful (.cmpm sz x y) := by
  intro M _ C s s1 ws h hw
  unfold Source.assemble at h
  refine atWords_ends (C39_cmpm h) hw rfl fun op hh hc => ?_
  show executeCmpm C (u8 x) sz (u8 y) s1 = _
  rw [executeCmpm_eq]
  rfl

theorem faithful_dbcc (cc : Asm.Condition) (n : Fin 8) (d : U16) : Faithful (.dbcc cc n d) := by
  intro M _ C s s1 ws h hw
  unfold Source.assemble at h
  refine atWords_ends (C39_dbcc h) hw rfl fun op hh hc => ?_
  show executeDbcc C (s.cpu.regs.pc + 2) (BitVec.ofNat 8 cc.ctorIdx) (u8 n) d s1 = _
  rw [ccNumber_eq, executeDbcc_eq]
  rfl

theorem faithful_eor (sz : Size) (n : Fin 8) (m : Mode) : Faithful (.eor sz n m) := by
  intro M _ C s s1 ws h hw
  unfold Source.assemble at h
  refine atWords_ends (C39_eor h) hw rfl fun op hh hc => ?_
  show executeEor C (u8 n) sz m.toAM s1 = _
  rw [executeEor_eq]
  rfl

theorem faithful_exg (k : Direction) (x y : Fin 8) : Faithful (.exg k x y) := by
  intro M _ C s s1 ws h hw
  unfold Source.assemble at h
  refine atWords_ends (C39_exg h) hw rfl fun op hh hc => ?_
  show executeExg C (u8 x) k (u8 y) s1 = _
  rw [executeExg_eq]
  rfl

theorem faithful_ext (l : Bool) (n : Fin 8) : Faithful (.ext l n) := by
  intro M _ C s s1 ws h hw
  unfold Source.assemble at h
  refine atWords_ends (C39_ext h) hw rfl fun op hh hc => ?_
  show executeExt C (if l then 3 else 2) (u8 n) s1 = _
  rw [executeExt_eq]
  cases l <;> rfl

theorem faithful_illegal : Faithful (.illegal) := by
  intro M _ C s s1 ws h hw
  unfold Source.assemble at h
  refine atWords_ends (C39_illegal h) hw rfl fun op hh hc => ?_
  rfl

theorem faithful_nop : Faithful (.nop) := by
  intro M _ C s s1 ws h hw
  unfold Source.assemble at h
  refine atWords_ends (C39_nop h) hw rfl fun op hh hc => ?_
  rfl

theorem faithful_reset : Faithful (.reset) := by
  intro M _ C s s1 ws h hw
  unfold Source.assemble at h
  refine atWords_ends (C39_reset h) hw rfl fun op hh hc => ?_
  show executeReset C s1 = _
  rw [executeReset_eq]
  rfl

theorem faithful_rte : Faithful (.rte) := by
  intro M _ C s s1 ws h hw
  unfold Source.assemble at h
  refine atWords_ends (C39_rte h) hw rfl fun op hh hc => ?_
  show executeRte C s1 = _
  rw [executeRte_eq]
  rfl

theorem faithful_rtr : Faithful (.rtr) := by
  intro M _ C s s1 ws h hw
  unfold Source.assemble at h
  refine atWords_ends (C39_rtr h) hw rfl fun op hh hc => ?_
  show executeRtr C s1 = _
  rw [executeRtr_eq]
  rfl

theorem faithful_rts : Faithful (.rts) := by
  intro M _ C s s1 ws h hw
  unfold Source.assemble at h
  refine atWords_ends (C39_rts h) hw rfl fun op hh hc => ?_
  show executeRts C s1 = _
  rw [executeRts_eq]
  rfl

theorem faithful_trapv : Faithful (.trapv) := by
  intro M _ C s s1 ws h hw
  unfold Source.assemble at h
  refine atWords_ends (C39_trapv h) hw rfl fun op hh hc => ?_
  show executeTrapv C s1 = _
  rw [executeTrapv_eq]
  rfl

theorem faithful_jmp (m : Mode) : Faithful (.jmp m) := by
  intro M _ C s s1 ws h hw
  unfold Source.assemble at h
  refine atWords_ends (C39_jmp h) hw rfl fun op hh hc => ?_
  show executeJmp C (placedAt (s.cpu.regs.pc + 2) m.toAM) s1 = _
  rw [at_toAM, executeJmp_eq]
  rfl

theorem faithful_jsr (m : Mode) : Faithful (.jsr m) := by
  intro M _ C s s1 ws h hw
  unfold Source.assemble at h
  refine atWords_ends (C39_jsr h) hw rfl fun op hh hc => ?_
  show executeJsr C (placedAt (s.cpu.regs.pc + 2) m.toAM) s1 = _
  rw [at_toAM, executeJsr_eq]
  rfl

theorem faithful_pea (m : Mode) : Faithful (.pea m) := by
  intro M _ C s s1 ws h hw
  unfold Source.assemble at h
  refine atWords_ends (C39_pea h) hw rfl fun op hh hc => ?_
  show executePea C (placedAt (s.cpu.regs.pc + 2) m.toAM) s1 = _
  rw [at_toAM, executePea_eq]
  rfl

theorem faithful_lea (n : Fin 8) (m : Mode) : Faithful (.lea n m) := by
  intro M _ C s s1 ws h hw
  unfold Source.assemble at h
  refine atWords_ends (C39_lea h) hw rfl fun op hh hc => ?_
  show executeLea C (u8 n) (placedAt (s.cpu.regs.pc + 2) m.toAM) s1 = _
  rw [at_toAM, executeLea_eq]
  rfl

theorem faithful_link (n : Fin 8) (d : U16) : Faithful (.link n d) := by
  intro M _ C s s1 ws h hw
  unfold Source.assemble at h
  refine atWords_ends (C39_link h) hw rfl fun op hh hc => ?_
  show executeLink C (u8 n) d s1 = _
  rw [executeLink_eq]
  rfl

theorem faithful_move (sz : Size) (dst src : Mode) : Faithful (.move sz dst src) := by
  intro M _ C s s1 ws h hw
  unfold Source.assemble at h
  refine atWords_ends (C39_move_partial (registersOk_toAM src) h) hw rfl fun op hh hc => ?_
  show executeMove C sz dst.toAM (placedAt (s.cpu.regs.pc + 2) (held sz.isLong src.toAM)) s1 = _
  rw [kept_toAM, executeMove_eq]
  rfl

theorem faithful_movea (sz : Size) (n : Fin 8) (m : Mode) : Faithful (.movea sz n m) := by
  intro M _ C s s1 ws h hw
  unfold Source.assemble at h
  have hsz : sz ≠ .Byte := by
    have h0 := h
    unfold Asm.movea at h0
    rw [guard_iff, guard_iff] at h0
    exact h0.2.1
  refine atWords_ends (C39_movea_partial (registersOk_toAM m) h) hw rfl fun op hh hc => ?_
  show executeMovea C sz (u8 n) (placedAt (s.cpu.regs.pc + 2) (held sz.isLong m.toAM)) s1 = _
  rw [kept_toAM, executeMovea_eq C sz hsz]
  rfl

theorem faithful_moveccr (m : Mode) : Faithful (.moveccr m) := by
  intro M _ C s s1 ws h hw
  unfold Source.assemble at h
  refine atWords_ends (C39_moveccr h) hw rfl fun op hh hc => ?_
  show executeMoveccr C (placedAt (s.cpu.regs.pc + 2) (held false m.toAM)) s1 = _
  rw [kept_toAM, executeMoveccr_eq]
  rfl

theorem faithful_movesr (m : Mode) : Faithful (.movesr m) := by
  intro M _ C s s1 ws h hw
  unfold Source.assemble at h
  refine atWords_ends (C39_movesr h) hw rfl fun op hh hc => ?_
  show executeMovesr C (placedAt (s.cpu.regs.pc + 2) (held false m.toAM)) s1 = _
  rw [kept_toAM, executeMovesr_eq]
  rfl

theorem faithful_movefsr (m : Mode) : Faithful (.movefsr m) := by
  intro M _ C s s1 ws h hw
  unfold Source.assemble at h
  refine atWords_ends (C39_movefsr h) hw rfl fun op hh hc => ?_
  show executeMovefsr C m.toAM s1 = _
  rw [executeMovefsr_eq]
  rfl

theorem faithful_nbcd (m : Mode) : Faithful (.nbcd m) := by
  intro M _ C s s1 ws h hw
  unfold Source.assemble at h
  refine atWords_ends (C39_nbcd h) hw rfl fun op hh hc => ?_
  show executeNbcd C m.toAM s1 = _
  rw [executeNbcd_eq]
  rfl

theorem faithful_tas (m : Mode) : Faithful (.tas m) := by
  intro M _ C s s1 ws h hw
  unfold Source.assemble at h
  refine atWords_ends (C39_tas h) hw rfl fun op hh hc => ?_
  show executeTas C m.toAM s1 = _
  rw [executeTas_eq]
  rfl

theorem faithful_moveusp (b : Bool) (n : Fin 8) : Faithful (.moveusp b n) := by
  intro M _ C s s1 ws h hw
  unfold Source.assemble at h
  refine atWords_ends (C39_moveusp h) hw rfl fun op hh hc => ?_
  show executeMoveusp C (if b then .UspToRegister else .RegisterToUsp) (u8 n) s1 = _
  rw [executeMoveusp_eq]
  rfl

theorem faithful_movem (b : Bool) (sz : Size) (m : Mode) (mask : U16) : Faithful (.movem b sz m mask) := by
  intro M _ C s s1 ws h hw
  unfold Source.assemble at h
  have hsz : sz ≠ .Byte := by
    rintro rfl
    have h0 := h
    unfold Asm.movem at h0
    rw [guard_iff, guard_iff] at h0
    exact h0.2.1 rfl
  refine atWords_ends (C39_movem h) hw rfl fun op hh hc => ?_
  show executeMovem C (movemDir b) sz (placedAt (s.cpu.regs.pc + 4) m.toAM) mask s1 = _
  rw [at_toAM, executeMovem_eq C b sz hsz]
  rfl

theorem faithful_movep (b : Bool) (sz : Size) (n a : Fin 8) (d : U16) : Faithful (.movep b sz n a d) := by
  intro M _ C s s1 ws h hw
  unfold Source.assemble at h
  have hsz : sz ≠ .Byte := by
    rintro rfl
    have h0 := h
    unfold Asm.movep at h0
    rw [guard_iff, guard_iff, guard_iff] at h0
    exact h0.2.2.1 rfl
  refine atWords_ends (C39_movep h) hw rfl fun op hh hc => ?_
  show executeMovep C (u8 n) (movepDir b) sz (u8 a) d s1 = _
  rw [executeMovep_eq C b sz hsz]
  rfl

theorem faithful_moveq (n : Fin 8) (v : U8) : Faithful (.moveq n v) := by
  intro M _ C s s1 ws h hw
  unfold Source.assemble at h
  refine atWords_ends (C39_moveq h) hw rfl fun op hh hc => ?_
  show executeMoveq C (u8 n) v s1 = _
  rw [executeMoveq_eq]
  rfl

theorem faithful_scc (cc : Asm.Condition) (m : Mode) : Faithful (.scc cc m) := by
  intro M _ C s s1 ws h hw
  unfold Source.assemble at h
  refine atWords_ends (C39_scc h) hw rfl fun op hh hc => ?_
  show executeScc C (BitVec.ofNat 8 cc.ctorIdx) m.toAM s1 = _
  rw [ccNumber_eq, executeScc_eq]
  rfl

theorem faithful_swap (n : Fin 8) : Faithful (.swap n) := by
  intro M _ C s s1 ws h hw
  unfold Source.assemble at h
  refine atWords_ends (C39_swap h) hw rfl fun op hh hc => ?_
  show executeSwap C (u8 n) s1 = _
  rw [executeSwap_eq]
  rfl

theorem faithful_unlk (n : Fin 8) : Faithful (.unlk n) := by
  intro M _ C s s1 ws h hw
  unfold Source.assemble at h
  refine atWords_ends (C39_unlk h) hw rfl fun op hh hc => ?_
  show executeUnlk C (u8 n) s1 = _
  rw [executeUnlk_eq]
  rfl

theorem faithful_trap (v : U8) : Faithful (.trap v) := by
  intro M _ C s s1 ws h hw
  unfold Source.assemble at h
  refine atWords_ends (C39_trap h) hw rfl fun op hh hc => ?_
  show (throw (32 + v) : Exec M Nat) s1 = (throw (BitVec.ofNat 8 (32 + v.toNat)) : Exec M Nat) s1
  rw [show (32 + v : U8) = BitVec.ofNat 8 (32 + v.toNat) from by apply BitVec.eq_of_toNat_eq; simp [BitVec.toNat_add]]

end M68k.Exec
