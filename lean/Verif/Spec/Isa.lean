import Verif.Spec.Timing
/-
Specification of the instruction set: the operand fields of each opcode, the extension words, the
effect and the execution time of each instruction.
-/
namespace M68k.Spec
variable {M : Type} [MemoryAccess M]

/-- Bit `i` of an opcode. -/
def flag (op : U16) (i : Nat) : Bool := decide (op.toNat / 2 ^ i % 2 = 1)
/-- The condition field. -/
def ccField (op : U16) : Fin 16 := Fin.ofNat 16 (op.toNat / 2 ^ 8)

/-- The size field of most instructions (bits 7-6). -/
def sized (op : U16) (k : Size → Exec M Nat) : Exec M Nat :=
  if op.toNat / 64 % 4 = 0 then k .Byte
  else if op.toNat / 64 % 4 = 1 then k .Word
  else if op.toNat / 64 % 4 = 2 then k .Long
  else crash

/-- The size field of MOVE and MOVEA (bits 13-12). -/
def moveSized (op : U16) (k : Size → Exec M Nat) : Exec M Nat :=
  if op.toNat / 4096 % 4 = 1 then k .Byte
  else if op.toNat / 4096 % 4 = 3 then k .Word
  else if op.toNat / 4096 % 4 = 2 then k .Long
  else crash

/-- The size of ADDA, SUBA, CMPA (bit 8), MOVEM and MOVEP (bit 6). -/
def sizeBit (op : U16) (i : Nat) : Size := if flag op i then .Long else .Word

/-- Reads the immediate data of ORI, ANDI, SUBI, ADDI, EORI, CMPI: one word, or two for a long. -/
def fetchImm (sz : Size) : Exec M U32 := do
  if sz = .Long then fetchLong
  else
    let w ← fetch
    pure (w.setWidth 32)

/-- The displacement of a branch: the low byte of the opcode, or a word if it is zero. -/
def fetchDisp (op : U16) : Exec M U16 :=
  if op.toNat % 256 = 0 then fetch else pure (BitVec.ofInt 16 (BitVec.ofNat 8 op.toNat).toInt)

/-- An action followed by its cost. -/
def cost {α : Type} (x : Exec M α) (t : Nat) : Exec M Nat := (fun _ => t) <$> x

/-- ADD, SUB, AND, OR: bit 8 selects the destination. -/
def binary (C : CpuDetails) (op : U16) (f : {n : Nat} → BitVec n → BitVec n → StatusRegister → BitVec n × StatusRegister)
    (memBW memL regBW regL regLRdImm : Nat) : Exec M Nat :=
  sized op fun sz => do
    let m ← fetchEa (some sz) op
    (if flag op 8 then cost (opToEa sz (regField op 9) m f) (bySize sz memBW memL + rmwTime C sz m)
     else cost (opToDn sz (regField op 9) m f)
      (bySize sz regBW (if isRegOrImm m then regLRdImm else regL) + readTime C sz m))

/-- ADDI, SUBI, ANDI, ORI, EORI. -/
def immediate (C : CpuDetails) (op : U16) (f : {n : Nat} → BitVec n → BitVec n → StatusRegister → BitVec n × StatusRegister)
    (memBW memL regBW regL : Nat) : Exec M Nat :=
  sized op fun sz => do
    let v ← fetchImm sz
    let m ← fetchEa (some sz) op
    cost (rmw sz m (f · (low sz v))) (bySize sz (byPlace m regBW memBW) (byPlace m regL memL) + rmwTime C sz m)

/-- NEG, NEGX, NOT. -/
def unary (C : CpuDetails) (op : U16) (memBW memL regBW regL : Nat) (x : (sz : Size) → Mode → Exec M Unit) : Exec M Nat :=
  sized op fun sz => do
    let m ← fetchEa (some sz) op
    cost (x sz m) (bySize sz (byPlace m regBW memBW) (byPlace m regL memL) + rmwTime C sz m)

/-- BTST, BCHG, BCLR, BSET: the bit number is in a data register (bit 8 set) or in a word. -/
def bitInstr (C : CpuDetails) (op : U16) (o : BitOp) (dynMem dynReg staMem staReg : Nat) : Exec M Nat :=
  if flag op 8 then do
    let m ← fetchEa (some .Byte) op
    let k ← getR fun r => (r.d (regField op 9)).toNat % 256
    cost (bitOp o k m) (byPlace m dynReg dynMem + eaTime C m)
  else do
    let w ← fetch
    let m ← fetchEa (some .Byte) op
    cost (bitOp o (w.toNat % 256) m) (byPlace m staReg staMem + eaTime C m)

/-- The register shifts and rotations: bit 8 is the direction (left if set). -/
def shiftInstr (op : U16) (left right : {n : Nat} → Nat → BitVec n → StatusRegister → BitVec n × StatusRegister)
    (bw l count : Nat) : Exec M Nat :=
  sized op fun sz =>
    (fun k => bySize sz bw l + count * k) <$>
      (if flag op 8 then shift left sz (flag op 5) (regField op 9) (regField op 0)
       else shift right sz (flag op 5) (regField op 9) (regField op 0))

/-- The memory shifts and rotations, by one bit. -/
def shiftMem (C : CpuDetails) (op : U16) (left right : Nat → BitVec 16 → StatusRegister → BitVec 16 × StatusRegister)
    (t : Nat) : Exec M Nat := do
  let m ← fetchEa (some .Byte) op
  cost (rmw .Word m (if flag op 8 then left 1 else right 1)) (t + eaTime C m)

/-- MULU, MULS, DIVU, DIVS. -/
def wordToDn (C : CpuDetails) (op : U16) (x : Fin 8 → Mode → Exec M Unit) (t : Nat) : Exec M Nat := do
  let m ← fetchEa (some .Word) op
  cost (x (regField op 9) m) (t + eaTime C m)

/-- Effect and cost of the instruction `isa` with opcode `op`. -/
def exec (C : CpuDetails) (isa : Isa) (op : U16) : Exec M Nat :=
  match isa with
  | .Unknown => cost (unimplemented op) 0
  | .Illegal => cost (trap 4 : Exec M Unit) 0
  -- arithmetic
  | .Add => binary C op (sum false) C.ADD_MEM_BW C.ADD_MEM_L C.ADD_REG_BW C.ADD_REG_L C.ADD_REG_L_RDIMM
  | .Sub => binary C op (difference false) C.SUB_MEM_BW C.SUB_MEM_L C.SUB_REG_BW C.SUB_REG_L C.SUB_REG_L_RDIMM
  | .Addi => immediate C op (sum false) C.ADDI_MEM_BW C.ADDI_MEM_L C.ADDI_REG_BW C.ADDI_REG_L
  | .Subi => immediate C op (difference false) C.SUBI_MEM_BW C.SUBI_MEM_L C.SUBI_REG_BW C.SUBI_REG_L
  | .Adda => do
    let sz := sizeBit op 8
    let m ← fetchEa (some sz) op
    let v ← readExt sz m
    cost (updateA (regField op 9) (· + v))
      (bySize sz C.ADDA_WORD (if isRegOrImm m then C.ADDA_LONG_RDIMM else C.ADDA_LONG) + readTime C sz m)
  | .Suba => do
    let sz := sizeBit op 8
    let m ← fetchEa (some sz) op
    let v ← readExt sz m
    cost (updateA (regField op 9) (· - v))
      (bySize sz C.SUBA_WORD (if isRegOrImm m then C.SUBA_LONG_RDIMM else C.SUBA_LONG) + readTime C sz m)
  | .Cmpa => do
    let sz := sizeBit op 8
    let m ← fetchEa (some sz) op
    let v ← readExt sz m
    let a ← getR (areg · (regField op 9))
    cost (compareWith a v) (C.CMPA + readTime C sz m)
  | .Addq => sized op fun sz => do
    let m ← fetchEa (some sz) op
    cost (quickOp false (regField op 9) sz m)
      (bySize sz (if isReg m then C.ADDQ_REG_BW else C.ADDQ_MEM_BW)
        (if isReg m then C.ADDQ_REG_L else C.ADDQ_MEM_L) + rmwTime C sz m)
  | .Subq => sized op fun sz => do
    let m ← fetchEa (some sz) op
    cost (quickOp true (regField op 9) sz m)
      (bySize sz (if isReg m then (if isDn m then C.SUBQ_DREG_BW else C.SUBQ_AREG_BW) else C.SUBQ_MEM_BW)
        (if isReg m then C.SUBQ_REG_L else C.SUBQ_MEM_L) + rmwTime C sz m)
  | .Addx => sized op fun sz =>
    cost (pair sz (flag op 3) (regField op 9) (regField op 0) (sum true))
      (if flag op 3 then bySize sz C.ADDX_MEM_BW C.ADDX_MEM_L else bySize sz C.ADDX_REG_BW C.ADDX_REG_L)
  | .Subx => sized op fun sz =>
    cost (pair sz (flag op 3) (regField op 9) (regField op 0) (difference true))
      (if flag op 3 then bySize sz C.SUBX_MEM_BW C.SUBX_MEM_L else bySize sz C.SUBX_REG_BW C.SUBX_REG_L)
  | .Abcd => sized op fun _ =>
    cost (pair .Byte (flag op 3) (regField op 9) (regField op 0) decimalSum)
      (if flag op 3 then C.ABCD_MEM else C.ABCD_REG)
  | .Sbcd => sized op fun _ =>
    cost (pair .Byte (flag op 3) (regField op 9) (regField op 0) decimalDifference)
      (if flag op 3 then C.SBCD_MEM else C.SBCD_REG)
  | .Nbcd => do
    let m ← fetchEa (some .Byte) op
    cost (rmw .Byte m fun d => decimalDifference 0 d) (byPlace m C.NBCD_REG C.NBCD_MEM + eaTime C m)
  | .Neg => unary C op C.NEG_MEM_BW C.NEG_MEM_L C.NEG_REG_BW C.NEG_REG_L fun sz m =>
      rmw sz m fun d => difference false 0 d
  | .Negx => unary C op C.NEGX_MEM_BW C.NEGX_MEM_L C.NEGX_REG_BW C.NEGX_REG_L fun sz m =>
      rmw sz m fun d => difference true 0 d
  | .Cmp => sized op fun sz => do
    let m ← fetchEa (some sz) op
    let (_, s) ← read sz m
    let d ← getR fun r => low sz (r.d (regField op 9))
    cost (compareWith d s) (bySize sz C.CMP_BW C.CMP_L + readTime C sz m)
  | .Cmpi => sized op fun sz => do
    let v ← fetchImm sz
    let m ← fetchEa (some sz) op
    let (_, d) ← read sz m
    cost (compareWith d (low sz v))
      (bySize sz (byPlace m C.CMPI_REG_BW C.CMPI_MEM_BW) (byPlace m C.CMPI_REG_L C.CMPI_MEM_L) + readTime C sz m)
  | .Cmpm => sized op fun sz =>
    cost (cmpm sz (regField op 9) (regField op 0)) (bySize sz C.CMPM_BW C.CMPM_L)
  | .Mulu => wordToDn C op (mul false) C.MULU
  | .Muls => wordToDn C op (mul true) C.MULS
  | .Divu => wordToDn C op divu C.DIVU
  | .Divs => wordToDn C op divs C.DIVS
  -- logic
  | .And => binary C op (logic (· &&& ·)) C.AND_MEM_BW C.AND_MEM_L C.AND_REG_BW C.AND_REG_L C.AND_REG_L_RDIMM
  | .Or => binary C op (logic (· ||| ·)) C.OR_MEM_BW C.OR_MEM_L C.OR_REG_BW C.OR_REG_L C.OR_REG_L_RDIMM
  | .Eor => sized op fun sz => do
    let m ← fetchEa (some sz) op
    cost (opToEa sz (regField op 9) m (logic (· ^^^ ·)))
      (bySize sz (byPlace m C.EOR_REG_BW C.EOR_MEM_BW) (byPlace m C.EOR_REG_L C.EOR_MEM_L) + rmwTime C sz m)
  | .Andi => immediate C op (logic (· &&& ·)) C.ANDI_MEM_BW C.ANDI_MEM_L C.ANDI_REG_BW C.ANDI_REG_L
  | .Ori => immediate C op (logic (· ||| ·)) C.ORI_MEM_BW C.ORI_MEM_L C.ORI_REG_BW C.ORI_REG_L
  | .Eori => immediate C op (logic (· ^^^ ·)) C.EORI_MEM_BW C.EORI_MEM_L C.EORI_REG_BW C.EORI_REG_L
  | .Not => unary C op C.NOT_MEM_BW C.NOT_MEM_L C.NOT_REG_BW C.NOT_REG_L fun sz m => do
      let (p, d) ← read sz m
      writeAt sz p (~~~d)
      setFlags (logicFlags (~~~d))
  | .Tst => sized op fun sz => do
    let m ← fetchEa (some sz) op
    let (_, v) ← read sz m
    cost (setFlags (logicFlags v))
      (bySize sz (byPlace m C.TST_REG_BW C.TST_MEM_BW) (byPlace m C.TST_REG_L C.TST_MEM_L) + readTime C sz m)
  | .Clr => sized op fun sz => do
    let m ← fetchEa (some sz) op
    write sz m 0
    cost (setFlags (logicFlags (0 : Val sz)))
      (bySize sz (byPlace m C.CLR_REG_BW C.CLR_MEM_BW) (byPlace m C.CLR_REG_L C.CLR_MEM_L) + writeTime C sz m)
  | .Tas => do
    let m ← fetchEa (some .Byte) op
    cost (tas m) (byPlace m C.TAS_REG C.TAS_MEM + eaTime C m)
  | .Scc => do
    let m ← fetchEa (some .Byte) op
    (fun b => (if b then byPlace m C.SCC_REG_TRUE C.SCC_MEM_TRUE else byPlace m C.SCC_REG_FALSE C.SCC_MEM_FALSE)
      + eaTime C m) <$> scc (ccField op) m
  -- bits
  | .Btst => bitInstr C op .test C.BTST_DYN_MEM C.BTST_DYN_REG C.BTST_STA_MEM C.BTST_STA_REG
  | .Bchg => bitInstr C op .change C.BCHG_DYN_MEM C.BCHG_DYN_REG C.BCHG_STA_MEM C.BCHG_STA_REG
  | .Bclr => bitInstr C op .clear C.BCLR_DYN_MEM C.BCLR_DYN_REG C.BCLR_STA_MEM C.BCLR_STA_REG
  | .Bset => bitInstr C op .set C.BSET_DYN_MEM C.BSET_DYN_REG C.BSET_STA_MEM C.BSET_STA_REG
  -- shifts
  | .Asr => shiftInstr op asl asr C.ASR_BW C.ASR_L C.ASR_COUNT
  | .Lsr => shiftInstr op lsl lsr C.LSR_BW C.LSR_L C.LSR_COUNT
  | .Ror => shiftInstr op rol ror C.ROR_BW C.ROR_L C.ROR_COUNT
  | .Roxr => shiftInstr op roxl roxr C.ROXR_BW C.ROXR_L C.ROXR_COUNT
  | .Asm => shiftMem C op asl asr C.ASM
  | .Lsm => shiftMem C op lsl lsr C.LSM
  | .Rom => shiftMem C op rol ror C.ROM
  | .Roxm => shiftMem C op roxl roxr C.ROXM
  -- moves
  | .Move => moveSized op fun sz => do
    let src ← fetchEa (some sz) op
    let dst ← fetchMode (some sz) (regField op 6) (regField op 9)
    cost (move sz dst src)
      ((match dst with | .predec _ => C.MOVE_DST_ARIWPR | _ => C.MOVE_OTHER) + readTime C sz src + writeTime C sz dst)
  | .Movea => moveSized op fun sz => do
    let m ← fetchEa (some sz) op
    cost (movea sz (regField op 9) m) (C.MOVEA + readTime C sz m)
  | .Moveq => cost (moveq (regField op 9) (BitVec.ofNat 8 op.toNat)) C.MOVEQ
  | .Movem => do
    let mask ← fetch
    let sz := sizeBit op 6
    let m ← fetchEa (some sz) op
    cost (movem (flag op 10) sz m mask)
      (movemModeTime C m + (if flag op 10 then C.MOVEM_MTR else 0) +
        (listed mask).length * bySize sz C.MOVEM_WORD C.MOVEM_LONG)
  | .Movep => do
    let d ← fetch
    let sz := sizeBit op 6
    cost (movep (flag op 7) sz (regField op 9) (regField op 0) d)
      (if flag op 7 then bySize sz C.MOVEP_RTM_WORD C.MOVEP_RTM_LONG else bySize sz C.MOVEP_MTR_WORD C.MOVEP_MTR_LONG)
  | .Exg =>
    cost (exg (if op.toNat / 8 % 32 = 8 then .ExchangeData else if op.toNat / 8 % 32 = 9 then .ExchangeAddress
      else .ExchangeDataAddress) (regField op 9) (regField op 0)) C.EXG
  | .Ext => cost (ext (decide (op.toNat / 64 % 8 ≠ 2)) (regField op 0)) C.EXT
  | .Swap => cost (swap (regField op 0)) C.SWAP
  | .Lea => do
    let m ← fetchEa (some .Long) op
    let a ← control m
    cost (updateA (regField op 9) fun _ => a)
      (controlTime C.LEA_ARI C.LEA_ARIWD C.LEA_ARIWI8 C.LEA_ABSSHORT C.LEA_ABSLONG C.LEA_PCIWD C.LEA_PCIWI8 m)
  | .Pea => do
    let m ← fetchEa (some .Long) op
    let a ← control m
    cost (push .Long a)
      (controlTime C.PEA_ARI C.PEA_ARIWD C.PEA_ARIWI8 C.PEA_ABSSHORT C.PEA_ABSLONG C.PEA_PCIWD C.PEA_PCIWI8 m)
  | .Link => do
    let d ← fetch
    cost (link (regField op 0) d) C.LINK
  | .Unlk => cost (unlk (regField op 0)) C.UNLK
  -- program control
  | .Bcc => do
    let pc ← getR (·.pc)
    let d ← fetchDisp op
    (fun b => if b then C.BCC_BRANCH else if op.toNat % 256 = 0 then C.BCC_NO_BRANCH_WORD else C.BCC_NO_BRANCH_BYTE)
      <$> bcc pc (ccField op) d
  | .Bra => do
    let pc ← getR (·.pc)
    let d ← fetchDisp op
    cost (jump (pc + signExt d)) (if op.toNat % 256 = 0 then C.BRA_WORD else C.BRA_BYTE)
  | .Bsr => do
    let pc ← getR (·.pc)
    let d ← fetchDisp op
    cost (bsr pc d) (if op.toNat % 256 = 0 then C.BSR_WORD else C.BSR_BYTE)
  | .Dbcc => do
    let pc ← getR (·.pc)
    let d ← fetch
    (fun | .condition => C.DBCC_TRUE | .branch => C.DBCC_FALSE_BRANCH | .expired => C.DBCC_FALSE_NO_BRANCH)
      <$> dbcc pc (ccField op) (regField op 0) d
  | .Jmp => do
    let m ← fetchEa none op
    let a ← control m
    cost (jump a)
      (controlTime C.JMP_ARI C.JMP_ARIWD C.JMP_ARIWI8 C.JMP_ABSSHORT C.JMP_ABSLONG C.JMP_PCIWD C.JMP_PCIWI8 m)
  | .Jsr => do
    let m ← fetchEa none op
    cost (jsr m)
      (controlTime C.JSR_ARI C.JSR_ARIWD C.JSR_ARIWI8 C.JSR_ABSSHORT C.JSR_ABSLONG C.JSR_PCIWD C.JSR_PCIWI8 m)
  | .Rts => cost rts C.RTS
  | .Rtr => cost rtr C.RTR
  | .Rte => (fun long => if long then C.RTE + 101 else C.RTE) <$> rte C.STACK_FORMAT
  | .Nop => pure C.NOP
  | .Chk => do
    let m ← fetchEa (some .Word) op
    cost (chk (regField op 9) m) (C.CHK_NO_TRAP + eaTime C m)
  | .Trap => cost (trap (BitVec.ofNat 8 (32 + op.toNat % 16)) : Exec M Unit) 0
  | .Trapv => do
    let v ← getR (·.sr.v)
    if v then trap 7 else pure C.TRAPV_NO_TRAP
  -- status register
  | .Andiccr => do
    let w ← fetch
    cost (setFlags fun sr => srOp (· && ·) (· &&& ·) (w ||| 0xA700) sr) C.ANDICCR
  | .Oriccr => do
    -- the code uses the whole word and not only the condition codes
    let w ← fetch
    cost (setFlags fun sr => srOp (· || ·) (· ||| ·) w sr) C.ORICCR
  | .Eoriccr => do
    let w ← fetch
    cost (setFlags fun sr => srOp (· != ·) (· ^^^ ·) w sr) C.EORICCR
  | .Andisr => do
    let w ← fetch
    privileged
    cost (setFlags fun sr => srOp (· && ·) (· &&& ·) w sr) C.ANDISR
  | .Orisr => do
    let w ← fetch
    privileged
    cost (setFlags fun sr => srOp (· || ·) (· ||| ·) w sr) C.ORISR
  | .Eorisr => do
    let w ← fetch
    privileged
    cost (setFlags fun sr => srOp (· != ·) (· ^^^ ·) w sr) C.EORISR
  | .Moveccr => do
    let m ← fetchEa (some .Word) op
    let (_, w) ← read .Word m
    cost (setFlags (withCcr · w)) (C.MOVECCR + eaTime C m)
  | .Movesr => do
    let m ← fetchEa (some .Word) op
    privileged
    let (_, w) ← read .Word m
    cost (setFlags fun _ => srOf w) (C.MOVESR + eaTime C m)
  | .Movefsr => do
    let m ← fetchEa (some .Word) op
    let v ← getR fun r => srWord r.sr
    cost (write .Word m v) (byPlace m C.MOVEFSR_REG C.MOVEFSR_MEM + eaTime C m)
  | .Moveusp => cost (moveUsp (flag op 3) (regField op 0)) C.MOVEUSP
  | .Stop => do
    let w ← fetch
    cost (stop w) C.STOP
  | .Reset => cost resetDevices C.RESET

end M68k.Spec
