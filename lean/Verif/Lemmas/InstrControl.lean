import Verif.Lemmas.InstrLogic
import Verif.Model.InterpControl
import Verif.Model.InterpMove
/-
The program and system control instructions of the model are those of the specification.
-/
set_option linter.unusedSimpArgs false
set_option linter.unusedSectionVars false
namespace M68k
open Spec
namespace Exec
variable {M : Type} [MemoryAccess M]

theorem u8_seven : u8 7 = 7 := rfl

theorem pushLong_eq (v : U32) : (pushLong v : Exec M Unit) = push .Long v := by
  simp only [pushLong, ← u8_seven, ariwpr, getA_eq, setA_eq, stepOf_eq, mem_eq, bind_assoc, store_long]
  ext s
  simp only [bind_apply, getR, modR, push, Spec.write, locate, place, areg_setAreg, writeAt]

theorem pushWord_eq (v : U16) : (pushWord v : Exec M Unit) = push .Word v := by
  simp only [pushWord, ← u8_seven, ariwpr, getA_eq, setA_eq, stepOf_eq, mem_eq, bind_assoc, store_word]
  ext s
  simp only [bind_apply, getR, modR, push, Spec.write, locate, place, areg_setAreg, writeAt]

theorem popLong_eq : (popLong : Exec M U32) = pop .Long := by
  simp only [popLong, ← u8_seven, ariwpo, getA_eq, setA_eq, stepOf_eq, mem_eq, bind_assoc, pure_bind, load_long, pop, Spec.read]
  ext s
  simp only [bind_apply, getR, modR, locate, place, readAt, pure_apply]
  generalize (load .Long _ : Exec M _) _ = x
  cases x <;> rfl

theorem popWord_eq : (popWord : Exec M U16) = pop .Word := by
  simp only [popWord, ← u8_seven, ariwpo, getA_eq, setA_eq, stepOf_eq, mem_eq, bind_assoc, pure_bind, load_word, pop, Spec.read]
  ext s
  simp only [bind_apply, getR, modR, locate, place, readAt, pure_apply]
  generalize (load .Word _ : Exec M _) _ = x
  cases x <;> rfl

omit [MemoryAccess M] in
theorem checkSupervisor_eq : (checkSupervisor : Exec M Unit) = privileged := rfl

theorem top_nibble (op : U16) (k : Nat) : (op &&& 0xF000 = BitVec.ofNat 16 (k % 16 * 4096)) = (op.toNat / 4096 = k % 16) := by
  have hop := op.isLt
  have e : (op &&& 0xF000).toNat = op.toNat / 4096 * 4096 := by
    rw [BitVec.toNat_and, show (0xF000 : U16).toNat = (2 ^ 4 - 1) <<< 12 from rfl]
    apply Nat.eq_of_testBit_eq
    intro i
    rw [Nat.testBit_and, show op.toNat / 4096 * 4096 = (op.toNat >>> 12) <<< 12 by
      rw [Nat.shiftRight_eq_div_pow, Nat.shiftLeft_eq], Nat.testBit_shiftLeft, Nat.testBit_shiftLeft, Nat.testBit_two_pow_sub_one,
      Nat.testBit_shiftRight]
    by_cases hi : 12 ≤ i
    · by_cases hi2 : i - 12 < 4
      · simp [hi, hi2, Nat.add_sub_cancel' hi]
      · simp [hi, hi2, Nat.add_sub_cancel' hi]
        exact Nat.testBit_lt_two_pow (Nat.lt_of_lt_of_le hop (Nat.pow_le_pow_right (by omega) (by omega)))
    · simp [hi]
  rw [← BitVec.toNat_inj, e, BitVec.toNat_ofNat]
  apply propext; omega

omit [MemoryAccess M] in
theorem executeUnknown_eq :
    (executeUnknownInstruction : Exec M Nat) = getCurrentOpcode >>= fun op => cost (unimplemented op) 0 := by
  unfold executeUnknownInstruction
  congr 1; funext op
  have h := top_nibble op
  have h10 := h 10
  have h15 := h 15
  rw [show BitVec.ofNat 16 (10 % 16 * 4096) = (0xA000 : U16) from rfl] at h10
  rw [show BitVec.ofNat 16 (15 % 16 * 4096) = (0xF000 : U16) from rfl] at h15
  simp only [h10, h15]
  rfl

theorem fold_ccr (imm : U16) : SR_UPPER_MASK ||| imm = imm ||| 0xA700 := BitVec.or_comm _ _

omit [MemoryAccess M] in
theorem executeAndiccr_eq (C : CpuDetails) (w : U16) :
    (executeAndiccr C w : Exec M Nat) = cost (setFlags fun sr => srOp (· && ·) (· &&& ·) (w ||| 0xA700) sr) C.ANDICCR := by
  to_spec [executeAndiccr, andAssign_eq, fold_ccr]
omit [MemoryAccess M] in
theorem executeOriccr_eq (C : CpuDetails) (w : U16) :
    (executeOriccr C w : Exec M Nat) = cost (setFlags fun sr => srOp (· || ·) (· ||| ·) w sr) C.ORICCR := by
  to_spec [executeOriccr, orAssign_eq]
omit [MemoryAccess M] in
theorem executeEoriccr_eq (C : CpuDetails) (w : U16) :
    (executeEoriccr C w : Exec M Nat) = cost (setFlags fun sr => srOp (· != ·) (· ^^^ ·) w sr) C.EORICCR := by
  to_spec [executeEoriccr, xorAssign_eq]
omit [MemoryAccess M] in
theorem executeAndisr_eq (C : CpuDetails) (w : U16) :
    (executeAndisr C w : Exec M Nat) = privileged >>= fun _ => cost (setFlags fun sr => srOp (· && ·) (· &&& ·) w sr) C.ANDISR := by
  to_spec [executeAndisr, andAssign_eq, checkSupervisor_eq]
omit [MemoryAccess M] in
theorem executeOrisr_eq (C : CpuDetails) (w : U16) :
    (executeOrisr C w : Exec M Nat) = privileged >>= fun _ => cost (setFlags fun sr => srOp (· || ·) (· ||| ·) w sr) C.ORISR := by
  to_spec [executeOrisr, orAssign_eq, checkSupervisor_eq]
omit [MemoryAccess M] in
theorem executeEorisr_eq (C : CpuDetails) (w : U16) :
    (executeEorisr C w : Exec M Nat) = privileged >>= fun _ => cost (setFlags fun sr => srOp (· != ·) (· ^^^ ·) w sr) C.EORISR := by
  to_spec [executeEorisr, xorAssign_eq, checkSupervisor_eq]

theorem executeMoveccr_eq (C : CpuDetails) (m : Mode) :
    (executeMoveccr C m.toAM : Exec M Nat) =
      Spec.read .Word m >>= fun p => cost (setFlags (withCcr · p.2)) (C.MOVECCR + eaTime C m) := by
  to_spec [executeMoveccr, setCcr_eq, readTime_word]
theorem executeMovesr_eq (C : CpuDetails) (m : Mode) :
    (executeMovesr C m.toAM : Exec M Nat) =
      privileged >>= fun _ => Spec.read .Word m >>= fun p => cost (setFlags fun _ => srOf p.2) (C.MOVESR + eaTime C m) := by
  to_spec [executeMovesr, ofU16_eq, readTime_word, checkSupervisor_eq]
theorem executeMovefsr_eq (C : CpuDetails) (m : Mode) :
    (executeMovefsr C m.toAM : Exec M Nat) =
      getR (fun r => srWord r.sr) >>= fun v => cost (Spec.write .Word m v) (byPlace m C.MOVEFSR_REG C.MOVEFSR_MEM + eaTime C m) := by
  to_spec [executeMovefsr, toU16_eq, writeTime_word, getR, bind_apply]
  rfl

omit [MemoryAccess M] in
theorem executeMoveusp_eq (C : CpuDetails) (toReg : Bool) (n : Fin 8) :
    (executeMoveusp C (if toReg then .UspToRegister else .RegisterToUsp) (u8 n) : Exec M Nat) =
      cost (moveUsp toReg n) C.MOVEUSP := by
  cases toReg <;> to_spec [executeMoveusp, checkSupervisor_eq, moveUsp, getRegs_eq, modifyRegs_eq] <;> rfl

omit [MemoryAccess M] in
theorem executeStop_eq (C : CpuDetails) (w : U16) : (executeStop C w : Exec M Nat) = cost (stop w) C.STOP := by
  to_spec [executeStop, checkSupervisor_eq, ofU16_eq, stop]; rfl

theorem executeReset_eq (C : CpuDetails) : (executeReset C : Exec M Nat) = cost resetDevices C.RESET := by
  to_spec [executeReset, checkSupervisor_eq, resetDevices]; rfl

/-! ### Branches -/

theorem op_byte_zero (op : U16) : (toU8 op = 0) = (op.toNat % 256 = 0) := by
  rw [← BitVec.toNat_inj]; simp [toU8]

omit [MemoryAccess M] in
theorem executeBcc_eq (C : CpuDetails) (pc : U32) (cc : Fin 16) (d : U16) :
    (executeBcc C pc (cc8 cc) d : Exec M Nat) = getCurrentOpcode >>= fun op =>
      (fun b => if b then C.BCC_BRANCH else if op.toNat % 256 = 0 then C.BCC_NO_BRANCH_WORD else C.BCC_NO_BRANCH_BYTE)
      <$> bcc pc cc d := by
  ext s
  simp only [executeBcc, testCondition_eq, test, bcc, bind_apply, getR, op_byte_zero, getCurrentOpcode, map_apply]
  cases holds cc s.cpu.regs.sr <;> rfl

omit [MemoryAccess M] in
theorem executeBra_eq (C : CpuDetails) (pc : U32) (d : U16) :
    (executeBra C pc d : Exec M Nat) = getCurrentOpcode >>= fun op =>
      cost (jump (pc + signExt d)) (if op.toNat % 256 = 0 then C.BRA_WORD else C.BRA_BYTE) := by
  ext s
  simp only [executeBra, bind_apply, op_byte_zero, getCurrentOpcode, map_apply, cost]
  rfl

/-- The state after a push keeps the opcode. -/
theorem push_opcode {sz : Size} {v : Val sz} {s s' : St M} (h : (push sz v : Exec M Unit) s = .ok () s') :
    s'.cpu.currentOpcode = s.cpu.currentOpcode := by
  simp only [push, Spec.write, bind_apply, locate, place, writeAt, store] at h
  split at h
  · cases h
  · simp only [access] at h
    split at h <;> cases h
    rfl

theorem executeBsr_eq (C : CpuDetails) (pc : U32) (d : U16) :
    (executeBsr C pc d : Exec M Nat) = getCurrentOpcode >>= fun op =>
      cost (bsr pc d) (if op.toNat % 256 = 0 then C.BSR_WORD else C.BSR_BYTE) := by
  ext s
  simp only [executeBsr, bind_apply, op_byte_zero, getCurrentOpcode, map_apply, cost, getPc_eq, getR, pushLong_eq, bsr]
  cases h : (push .Long s.cpu.regs.pc : Exec M Unit) s with
  | ok u s' =>
    simp only [setPc, jump, modR, pure_apply]
    rw [push_opcode h]
    rfl
  | err v s' => rfl
  | panic => rfl

omit [MemoryAccess M] in
theorem executeDbcc_eq (C : CpuDetails) (pc : U32) (cc : Fin 16) (n : Fin 8) (d : U16) :
    (executeDbcc C pc (cc8 cc) (u8 n) d : Exec M Nat) =
      (fun | .condition => C.DBCC_TRUE | .branch => C.DBCC_FALSE_BRANCH | .expired => C.DBCC_FALSE_NO_BRANCH)
        <$> dbcc pc cc n d := by
  have h1 : ∀ k : U16, (k - 1 ≠ -1) = ¬ (k.toNat = 0) := by
    intro k
    have := k.isLt
    apply propext
    rw [ne_eq, ← BitVec.toNat_inj]
    have : (k - 1).toNat = (k.toNat + 65535) % 65536 := by
      rw [BitVec.toNat_sub]; simp; omega
    have h2 : (-1 : U16).toNat = 65535 := rfl
    rw [this, h2]; omega
  ext s
  simp only [executeDbcc, testCondition_eq, test, dbcc, bind_apply, getR, map_apply, getD_eq, setDWord_eq, h1, low_word]
  cases holds cc s.cpu.regs.sr
  · simp only [Bool.not_false, if_true, Bool.false_eq_true, if_false, bind_apply, modR, getR]
    by_cases hk : (toU16 (s.cpu.regs.d n)).toNat = 0
    · rw [if_neg (by simp [hk]), if_pos hk]; rfl
    · rw [if_pos hk, if_neg hk]; rfl
  · rfl

/-! ### JMP, JSR, LEA, PEA -/

omit [MemoryAccess M] in
theorem control_eq {β : Type} (C : CpuDetails) (m : Mode) (k : U32 → Exec M β) :
    (getEffectiveAddress C (EffectiveAddress.new m.toAM none) 0 >>= fun q => k q.1 : Exec M β) = control m >>= k := by
  have h : ∀ m : Mode, (∀ n, m ≠ .postinc n) → (∀ n, m ≠ .predec n) →
      (getEffectiveAddress C (EffectiveAddress.new m.toAM none) 0 >>= fun q => k q.1 : Exec M β) = address .Long m >>= k := by
    intro m h1 h2
    rw [ea_none C m 0 h1 h2]
    simp only [map_eq_pure_bind, bind_assoc, pure_bind]
  cases m <;> first | rfl | exact h _ (by intro n; simp) (by intro n; simp)

omit [MemoryAccess M] in
/-- The continuation after the address of a control mode only matters for those modes. -/
theorem control_time {m : Mode} {t : Exec M Nat} {t' : Nat} {x : U32 → Exec M Unit}
    (h : (∃ n, m = .dn n) ∨ (∃ n, m = .an n) ∨ (∃ n, m = .postinc n) ∨ (∃ n, m = .predec n) ∨ (∃ v, m = .imm v) ∨ t = pure t') :
    (control m >>= fun a => x a >>= fun _ => t : Exec M Nat) = control m >>= fun a => cost (x a) t' := by
  rcases h with ⟨n, rfl⟩ | ⟨n, rfl⟩ | ⟨n, rfl⟩ | ⟨n, rfl⟩ | ⟨n, rfl⟩ | rfl
  · rfl
  · rfl
  · rfl
  · rfl
  · rfl
  · simp only [cost, map_eq_pure_bind]

theorem executeJmp_eq (C : CpuDetails) (m : Mode) :
    (executeJmp C m.toAM : Exec M Nat) = control m >>= fun a => cost (jump a)
      (controlTime C.JMP_ARI C.JMP_ARIWD C.JMP_ARIWI8 C.JMP_ABSSHORT C.JMP_ABSLONG C.JMP_PCIWD C.JMP_PCIWI8 m) := by
  refine (control_eq C m (fun a => setPc a >>= fun _ => jmpTime C m.toAM)).trans ?_
  apply control_time
  cases m <;> simp [jmpTime, Mode.toAM, controlTime]

theorem executeLea_eq (C : CpuDetails) (n : Fin 8) (m : Mode) :
    (executeLea C (u8 n) m.toAM : Exec M Nat) = control m >>= fun a => cost (updateA n fun _ => a)
      (controlTime C.LEA_ARI C.LEA_ARIWD C.LEA_ARIWI8 C.LEA_ABSSHORT C.LEA_ABSLONG C.LEA_PCIWD C.LEA_PCIWI8 m) := by
  refine (control_eq C m (fun a => setA (u8 n) a >>= fun _ => leaTime C m.toAM)).trans ?_
  simp only [setA_eq]
  refine control_time (x := fun a => updateA n fun _ => a) ?_
  cases m <;> simp [leaTime, Mode.toAM, controlTime]

theorem executePea_eq (C : CpuDetails) (m : Mode) :
    (executePea C m.toAM : Exec M Nat) = control m >>= fun a => cost (push .Long a)
      (controlTime C.PEA_ARI C.PEA_ARIWD C.PEA_ARIWI8 C.PEA_ABSSHORT C.PEA_ABSLONG C.PEA_PCIWD C.PEA_PCIWI8 m) := by
  refine (control_eq C m (fun a => pushLong a >>= fun _ => peaTime C m.toAM)).trans ?_
  simp only [pushLong_eq]
  apply control_time
  cases m <;> simp [peaTime, Mode.toAM, controlTime]

theorem executeJsr_eq (C : CpuDetails) (m : Mode) :
    (executeJsr C m.toAM : Exec M Nat) = cost (jsr m)
      (controlTime C.JSR_ARI C.JSR_ARIWD C.JSR_ARIWI8 C.JSR_ABSSHORT C.JSR_ABSLONG C.JSR_PCIWD C.JSR_PCIWI8 m) := by
  have h : (executeJsr C m.toAM : Exec M Nat) = getPc >>= fun ret => pushLong ret >>= fun _ =>
      (control m >>= fun a => setPc a >>= fun _ => jsrTime C m.toAM) := by
    simp only [← control_eq C m (fun a => setPc a >>= fun _ => jsrTime C m.toAM)]
    rfl
  rw [h, control_time (x := fun a => setPc a)
    (t' := controlTime C.JSR_ARI C.JSR_ARIWD C.JSR_ARIWI8 C.JSR_ABSSHORT C.JSR_ABSLONG C.JSR_PCIWD C.JSR_PCIWI8 m)]
  · to_spec [jsr, pushLong_eq]
  · cases m <;> simp [jsrTime, Mode.toAM, controlTime]

/-! ### The others -/

theorem executeRts_eq (C : CpuDetails) : (executeRts C : Exec M Nat) = cost rts C.RTS := by
  to_spec [executeRts, popLong_eq, rts]

theorem rtr_flags (sr : StatusRegister) (w : U16) :
    (sr.andAssign SR_UPPER_MASK).orAssign (w &&& CCR_MASK) =
      withCcr { sr with interruptMask := BitVec.ofNat 8 (sr.interruptMask.toNat % 8) } w := by
  have hb : ∀ i, i < 16 → bit (w &&& CCR_MASK) i = (bit w i && bit CCR_MASK i) := by
    intro i hi
    simp only [bit_eq _ i hi]
    have e1 : ∀ x : U16, decide (x.toNat / 2 ^ i % 2 = 1) = x.getLsbD i := by
      intro x
      rw [BitVec.getLsbD, Nat.testBit_eq_decide_div_mod_eq]
    rw [e1, e1, e1, BitVec.getLsbD_and]
  have hm : toU8 (bits (w &&& CCR_MASK) 8 10) = 0 := by
    rw [mask_field, BitVec.toNat_and, show (CCR_MASK : U16).toNat = 2 ^ 5 - 1 from rfl, Nat.and_two_pow_sub_one_eq_mod]
    have : w.toNat % 2 ^ 5 / 256 % 8 = 0 := by omega
    rw [this]; rfl
  have hm2 : toU8 (bits SR_UPPER_MASK 8 10) = BitVec.ofNat 8 7 := by decide
  have hmask : sr.interruptMask &&& BitVec.ofNat 8 7 = BitVec.ofNat 8 (sr.interruptMask.toNat % 8) := by
    apply BitVec.eq_of_toNat_eq
    rw [BitVec.toNat_and, show (BitVec.ofNat 8 7).toNat = 2 ^ 3 - 1 from rfl, Nat.and_two_pow_sub_one_eq_mod, BitVec.toNat_ofNat]
    omega
  rw [← setCcr_eq]
  simp only [StatusRegister.andAssign, StatusRegister.orAssign, StatusRegister.setCcr, hb, Nat.reduceLT, hm, hm2, hmask]
  simp [show bit CCR_MASK 0 = true from by decide, show bit CCR_MASK 1 = true from by decide, show bit CCR_MASK 2 = true from by decide,
    show bit CCR_MASK 3 = true from by decide, show bit CCR_MASK 4 = true from by decide, show bit CCR_MASK 13 = false from by decide,
    show bit CCR_MASK 15 = false from by decide,
    show bit SR_UPPER_MASK 0 = false from by decide, show bit SR_UPPER_MASK 1 = false from by decide, show bit SR_UPPER_MASK 2 = false from by decide,
    show bit SR_UPPER_MASK 3 = false from by decide, show bit SR_UPPER_MASK 4 = false from by decide, show bit SR_UPPER_MASK 13 = true from by decide,
    show bit SR_UPPER_MASK 15 = true from by decide]

theorem executeRtr_eq (C : CpuDetails) : (executeRtr C : Exec M Nat) = cost rtr C.RTR := by
  to_spec [executeRtr, popLong_eq, popWord_eq, rtr, setFlags_setFlags, rtr_flags]

theorem executeRte_eq (C : CpuDetails) :
    (executeRte C : Exec M Nat) = (fun long => if long then C.RTE + 101 else C.RTE) <$> rte C.STACK_FORMAT := by
  have h0 := fun f => top_nibble f 0
  have h15 := fun f => top_nibble f 15
  simp only [show BitVec.ofNat 16 (0 % 16 * 4096) = (0 : U16) from rfl] at h0
  simp only [show BitVec.ofNat 16 (15 % 16 * 4096) = (0xF000 : U16) from rfl] at h15
  to_spec [executeRte, popLong_eq, popWord_eq, rte, checkSupervisor_eq, ofU16_eq, h0, h15, ne_eq]
  by_cases hC : C.STACK_FORMAT = .SCC68070
  · simp only [hC, if_true, bind_assoc]
    congr 1; funext _; congr 1; funext w; congr 1; funext pc; congr 1; funext _; congr 1; funext f
    by_cases h15 : f.toNat / 4096 = 15
    · simp only [h15, if_true, bind_assoc, pure_bind]; rfl
    · by_cases h0 : f.toNat / 4096 = 0
      · simp only [h15, h0, if_true, if_false, not_true, pure_bind, Bool.false_eq_true]
        rfl
      · simp only [h15, h0, if_false, not_false_eq_true, if_true, trap_bind]
  · simp only [hC, if_false, pure_bind, Bool.false_eq_true]

theorem executeChk_eq (C : CpuDetails) (n : Fin 8) (m : Mode) :
    (executeChk C (u8 n) m.toAM : Exec M Nat) = cost (chk n m) (C.CHK_NO_TRAP + eaTime C m) := by
  have h : ∀ v b : U16, (v.slt 0 || b.slt v) = decide (v.toInt < 0 ∨ b.toInt < v.toInt) := by
    intro v b
    rw [BitVec.slt, BitVec.slt, Bool.decide_or]; rfl
  to_spec [executeChk, chk, readTime_word, Nat.zero_add]
  congr 1; funext p
  ext s
  simp only [bind_apply, getR, low_word, h, decide_eq_true_eq]
  split <;> rfl

omit [MemoryAccess M] in
theorem executeTrapv_eq (C : CpuDetails) :
    (executeTrapv C : Exec M Nat) = getR (·.sr.v) >>= fun v => if v then trap 7 else pure C.TRAPV_NO_TRAP := rfl

theorem executeLink_eq (C : CpuDetails) (n : Fin 8) (d : U16) :
    (executeLink C (u8 n) d : Exec M Nat) = cost (link n d) C.LINK := by
  to_spec [executeLink, link, pushLong_eq, getR_modR_bind, updateA]

theorem executeUnlk_eq (C : CpuDetails) (n : Fin 8) :
    (executeUnlk C (u8 n) : Exec M Nat) = cost (unlk n) C.UNLK := by
  to_spec [executeUnlk, unlk, popLong_eq, getR_modR_bind, updateA]

end Exec
end M68k
