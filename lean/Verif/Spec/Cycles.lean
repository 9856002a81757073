import Verif.Spec.Written
/-
The execution time of an instruction, from its opcode; only the instructions with a condition, a shift count or a register list depend on anything else.
-/
namespace M68k.Spec

/-- The time of the effective address calculation for the fields `mode` and `reg`. -/
def eaCycles (C : CpuDetails) (mode reg : Nat) : Nat :=
  match mode, reg with
  | 2, _ => C.EA_ARI
  | 3, _ => C.EA_ARIWPO
  | 4, _ => C.EA_ARIWPR
  | 5, _ => C.EA_ARIWD
  | 6, _ => C.EA_ARIWI8
  | 7, 0 => C.EA_ABSSHORT
  | 7, 1 => C.EA_ABSLONG
  | 7, 2 => C.EA_PCIWD
  | 7, 3 => C.EA_PCIWI8
  | 7, 4 => C.EA_IMMEDIATE
  | _, _ => 0

/-- The additional time of reading a long that is not in a register. -/
def longReadCycles (sz : Size) (mode : Nat) : Nat := if sz = .Long ∧ 2 ≤ mode then 4 else 0
/-- The additional time of writing a long to memory. -/
def longWriteCycles (sz : Size) (mode reg : Nat) : Nat := if sz = .Long ∧ eaInMemory mode reg then 4 else 0

/-- One of the entries for the modes of LEA, PEA, JMP and JSR. -/
def controlCycles (ind disp index absW absL pcDisp pcIndex mode reg : Nat) : Nat :=
  match mode, reg with
  | 2, _ => ind
  | 5, _ => disp
  | 6, _ => index
  | 7, 0 => absW
  | 7, 1 => absL
  | 7, 2 => pcDisp
  | 7, 3 => pcIndex
  | _, _ => 0

/-- The time of MOVEM by addressing mode. -/
def movemCycles (C : CpuDetails) (mode reg : Nat) : Nat :=
  match mode, reg with
  | 2, _ => C.MOVEM_ARI
  | 3, _ => C.MOVEM_ARIWPO
  | 4, _ => C.MOVEM_ARIWPR
  | 5, _ => C.MOVEM_ARIWD
  | 6, _ => C.MOVEM_ARIWI8
  | 7, 0 => C.MOVEM_ABSSHORT
  | 7, 1 => C.MOVEM_ABSLONG
  | 7, 2 => C.MOVEM_PCIWD
  | 7, 3 => C.MOVEM_PCIWI8
  | _, _ => 0

/-- The number of bits of a register shift: 1 to 8 in the opcode, or the value of a data register modulo 64. -/
def shiftBits (op : U16) (r : Registers) : Nat :=
  if flag op 5 then (r.d (regField op 9)).toNat % 64 else if op.toNat / 512 % 8 = 0 then 8 else op.toNat / 512 % 8

/-- The execution time of the instruction `i` with the opcode `op`, the extension words `ws` and the registers `r` before it, if it completes. Of
`r` the condition codes are used by Scc, Bcc and DBcc, a data register by DBcc and by the shifts with a count in a register; of `ws` the register
list by MOVEM. The time of RTE for a short stack frame. -/
def cycles (C : CpuDetails) (i : Isa) (op : U16) (r : Registers) (ws : List U16) : Nat :=
  let mode := op.toNat / 8 % 8
  let reg := op.toNat % 8
  let sz := (opSize op).getD .Byte
  let ea := eaCycles C mode reg
  let rd := ea + longReadCycles sz mode
  let wr := ea + longWriteCycles sz mode reg
  let rw := ea + longReadCycles sz mode + longWriteCycles sz mode reg
  let regOrImm := decide (mode < 2 ∨ (mode = 7 ∧ reg = 4))
  let byMode := fun (dreg mem : Nat) => if mode = 0 then dreg else mem
  let binary := fun (memBW memL regBW regL regLRdImm : Nat) =>
    if flag op 8 then bySize sz memBW memL + rw else bySize sz regBW (if regOrImm then regLRdImm else regL) + rd
  let unary := fun (memBW memL regBW regL : Nat) => bySize sz (byMode regBW memBW) (byMode regL memL)
  let bits := fun (dynMem dynReg staMem staReg : Nat) => (if flag op 8 then byMode dynReg dynMem else byMode staReg staMem) + ea
  let toA := fun (word long longRdImm : Nat) =>
    bySize (sizeBit op 8) word (if regOrImm then longRdImm else long) + ea + longReadCycles (sizeBit op 8) mode
  let shift := fun (bw l count : Nat) => bySize sz bw l + count * shiftBits op r
  match i with
  | .Add => binary C.ADD_MEM_BW C.ADD_MEM_L C.ADD_REG_BW C.ADD_REG_L C.ADD_REG_L_RDIMM
  | .Sub => binary C.SUB_MEM_BW C.SUB_MEM_L C.SUB_REG_BW C.SUB_REG_L C.SUB_REG_L_RDIMM
  | .And => binary C.AND_MEM_BW C.AND_MEM_L C.AND_REG_BW C.AND_REG_L C.AND_REG_L_RDIMM
  | .Or => binary C.OR_MEM_BW C.OR_MEM_L C.OR_REG_BW C.OR_REG_L C.OR_REG_L_RDIMM
  | .Addi => unary C.ADDI_MEM_BW C.ADDI_MEM_L C.ADDI_REG_BW C.ADDI_REG_L + rw
  | .Subi => unary C.SUBI_MEM_BW C.SUBI_MEM_L C.SUBI_REG_BW C.SUBI_REG_L + rw
  | .Andi => unary C.ANDI_MEM_BW C.ANDI_MEM_L C.ANDI_REG_BW C.ANDI_REG_L + rw
  | .Ori => unary C.ORI_MEM_BW C.ORI_MEM_L C.ORI_REG_BW C.ORI_REG_L + rw
  | .Eori => unary C.EORI_MEM_BW C.EORI_MEM_L C.EORI_REG_BW C.EORI_REG_L + rw
  | .Eor => unary C.EOR_MEM_BW C.EOR_MEM_L C.EOR_REG_BW C.EOR_REG_L + rw
  | .Neg => unary C.NEG_MEM_BW C.NEG_MEM_L C.NEG_REG_BW C.NEG_REG_L + rw
  | .Negx => unary C.NEGX_MEM_BW C.NEGX_MEM_L C.NEGX_REG_BW C.NEGX_REG_L + rw
  | .Not => unary C.NOT_MEM_BW C.NOT_MEM_L C.NOT_REG_BW C.NOT_REG_L + rw
  | .Cmpi => unary C.CMPI_MEM_BW C.CMPI_MEM_L C.CMPI_REG_BW C.CMPI_REG_L + rd
  | .Tst => unary C.TST_MEM_BW C.TST_MEM_L C.TST_REG_BW C.TST_REG_L + rd
  | .Clr => unary C.CLR_MEM_BW C.CLR_MEM_L C.CLR_REG_BW C.CLR_REG_L + wr
  | .Cmp => bySize sz C.CMP_BW C.CMP_L + rd
  | .Adda => toA C.ADDA_WORD C.ADDA_LONG C.ADDA_LONG_RDIMM
  | .Suba => toA C.SUBA_WORD C.SUBA_LONG C.SUBA_LONG_RDIMM
  | .Cmpa => C.CMPA + ea + longReadCycles (sizeBit op 8) mode
  | .Addq => (if mode < 2 then bySize sz C.ADDQ_REG_BW C.ADDQ_REG_L else bySize sz C.ADDQ_MEM_BW C.ADDQ_MEM_L) + rw
  | .Subq => (if mode < 2 then bySize sz (byMode C.SUBQ_DREG_BW C.SUBQ_AREG_BW) C.SUBQ_REG_L else bySize sz C.SUBQ_MEM_BW C.SUBQ_MEM_L) + rw
  | .Addx => if flag op 3 then bySize sz C.ADDX_MEM_BW C.ADDX_MEM_L else bySize sz C.ADDX_REG_BW C.ADDX_REG_L
  | .Subx => if flag op 3 then bySize sz C.SUBX_MEM_BW C.SUBX_MEM_L else bySize sz C.SUBX_REG_BW C.SUBX_REG_L
  | .Abcd => if flag op 3 then C.ABCD_MEM else C.ABCD_REG
  | .Sbcd => if flag op 3 then C.SBCD_MEM else C.SBCD_REG
  | .Cmpm => bySize sz C.CMPM_BW C.CMPM_L
  | .Nbcd => byMode C.NBCD_REG C.NBCD_MEM + ea
  | .Tas => byMode C.TAS_REG C.TAS_MEM + ea
  | .Scc => (if holds (ccField op) r.sr then byMode C.SCC_REG_TRUE C.SCC_MEM_TRUE else byMode C.SCC_REG_FALSE C.SCC_MEM_FALSE) + ea
  | .Mulu => C.MULU + ea
  | .Muls => C.MULS + ea
  | .Divu => C.DIVU + ea
  | .Divs => C.DIVS + ea
  | .Chk => C.CHK_NO_TRAP + ea
  | .Moveccr => C.MOVECCR + ea
  | .Movesr => C.MOVESR + ea
  | .Movefsr => byMode C.MOVEFSR_REG C.MOVEFSR_MEM + ea
  | .Btst => bits C.BTST_DYN_MEM C.BTST_DYN_REG C.BTST_STA_MEM C.BTST_STA_REG
  | .Bchg => bits C.BCHG_DYN_MEM C.BCHG_DYN_REG C.BCHG_STA_MEM C.BCHG_STA_REG
  | .Bclr => bits C.BCLR_DYN_MEM C.BCLR_DYN_REG C.BCLR_STA_MEM C.BCLR_STA_REG
  | .Bset => bits C.BSET_DYN_MEM C.BSET_DYN_REG C.BSET_STA_MEM C.BSET_STA_REG
  | .Asr => shift C.ASR_BW C.ASR_L C.ASR_COUNT
  | .Lsr => shift C.LSR_BW C.LSR_L C.LSR_COUNT
  | .Ror => shift C.ROR_BW C.ROR_L C.ROR_COUNT
  | .Roxr => shift C.ROXR_BW C.ROXR_L C.ROXR_COUNT
  | .Asm => C.ASM + ea
  | .Lsm => C.LSM + ea
  | .Rom => C.ROM + ea
  | .Roxm => C.ROXM + ea
  | .Move =>
    let sz := (moveOpSize op).getD .Byte
    (if op.toNat / 64 % 8 = 4 then C.MOVE_DST_ARIWPR else C.MOVE_OTHER) + ea + longReadCycles sz mode +
      eaCycles C (op.toNat / 64 % 8) (op.toNat / 512 % 8) + longWriteCycles sz (op.toNat / 64 % 8) (op.toNat / 512 % 8)
  | .Movea => C.MOVEA + ea + longReadCycles ((moveOpSize op).getD .Byte) mode
  | .Moveq => C.MOVEQ
  | .Movem => movemCycles C mode reg + (if flag op 10 then C.MOVEM_MTR else 0) + listCount ws * bySize (sizeBit op 6) C.MOVEM_WORD C.MOVEM_LONG
  | .Movep => if flag op 7 then bySize (sizeBit op 6) C.MOVEP_RTM_WORD C.MOVEP_RTM_LONG else bySize (sizeBit op 6) C.MOVEP_MTR_WORD C.MOVEP_MTR_LONG
  | .Exg => C.EXG
  | .Ext => C.EXT
  | .Swap => C.SWAP
  | .Lea => controlCycles C.LEA_ARI C.LEA_ARIWD C.LEA_ARIWI8 C.LEA_ABSSHORT C.LEA_ABSLONG C.LEA_PCIWD C.LEA_PCIWI8 mode reg
  | .Pea => controlCycles C.PEA_ARI C.PEA_ARIWD C.PEA_ARIWI8 C.PEA_ABSSHORT C.PEA_ABSLONG C.PEA_PCIWD C.PEA_PCIWI8 mode reg
  | .Jmp => controlCycles C.JMP_ARI C.JMP_ARIWD C.JMP_ARIWI8 C.JMP_ABSSHORT C.JMP_ABSLONG C.JMP_PCIWD C.JMP_PCIWI8 mode reg
  | .Jsr => controlCycles C.JSR_ARI C.JSR_ARIWD C.JSR_ARIWI8 C.JSR_ABSSHORT C.JSR_ABSLONG C.JSR_PCIWD C.JSR_PCIWI8 mode reg
  | .Link => C.LINK
  | .Unlk => C.UNLK
  | .Bcc => if holds (ccField op) r.sr then C.BCC_BRANCH else if op.toNat % 256 = 0 then C.BCC_NO_BRANCH_WORD else C.BCC_NO_BRANCH_BYTE
  | .Bra => if op.toNat % 256 = 0 then C.BRA_WORD else C.BRA_BYTE
  | .Bsr => if op.toNat % 256 = 0 then C.BSR_WORD else C.BSR_BYTE
  | .Dbcc =>
    if holds (ccField op) r.sr then C.DBCC_TRUE
    else if (r.d (regField op 0)).toNat % 65536 = 0 then C.DBCC_FALSE_NO_BRANCH else C.DBCC_FALSE_BRANCH
  | .Rts => C.RTS
  | .Rtr => C.RTR
  | .Rte => C.RTE
  | .Nop => C.NOP
  | .Trapv => C.TRAPV_NO_TRAP
  | .Andiccr => C.ANDICCR
  | .Oriccr => C.ORICCR
  | .Eoriccr => C.EORICCR
  | .Andisr => C.ANDISR
  | .Orisr => C.ORISR
  | .Eorisr => C.EORISR
  | .Moveusp => C.MOVEUSP
  | .Stop => C.STOP
  | .Reset => C.RESET
  | .Unknown | .Illegal | .Trap => 0

end M68k.Spec
