import Verif.Spec.Words
import Verif.Spec.Step
/-
Assembly source: the lines a host can write with the functions of the assembler, the words each of them assembles to, and what each of them does when it is executed.
-/
namespace M68k.Spec
variable {M : Type} [MemoryAccess M]

/-- The mode of an operand whose extension words are at `pc`: PC relative modes count from there. -/
def Mode.at (pc : U32) : Mode → Mode
  | .pcDisp _ d => .pcDisp pc d
  | .pcIndex _ x => .pcIndex pc x
  | m => m

/-- The same, where an immediate operand is possible: it is kept in one extension word, or in two if `long`. -/
def Mode.kept (long : Bool) (pc : U32) : Mode → Mode
  | .imm v => .imm (if long then v else v &&& 0xFFFF)
  | m => m.at pc

/-- The number of a condition in the condition field. -/
def ccNumber : Asm.Condition → Fin 16
  | .T => 0 | .F => 1 | .HI => 2 | .LS => 3 | .CC => 4 | .CS => 5 | .NE => 6 | .EQ => 7
  | .VC => 8 | .VS => 9 | .PL => 10 | .MI => 11 | .GE => 12 | .LT => 13 | .GT => 14 | .LE => 15

/-- A branch displacement that is kept in the opcode and not in a word of its own. -/
def IsShort (d : U16) : Prop := -128 ≤ d.toInt ∧ d.toInt ≤ 127 ∧ d.toInt ≠ 0
instance decidableIsShort (d : U16) : Decidable (IsShort d) := by unfold IsShort; infer_instance

/-- The lines of an assembly program, one for each function of the assembler. Registers are numbers up to 7; in the lines with two registers
of the same kind, and in those with a count, the first is the one in bits 11-9 of the opcode. A shift count of 0 means 8 if it is not `byReg`. -/
inductive Source
  | abcd (inMemory : Bool) (x y : Fin 8)
  | add (toEa : Bool) (sz : Size) (n : Fin 8) (m : Mode)
  | adda (sz : Size) (n : Fin 8) (m : Mode)
  | addi (sz : Size) (m : Mode) (v : U32)
  | addq (sz : Size) (k : U8) (m : Mode)
  | addx (inMemory : Bool) (sz : Size) (x y : Fin 8)
  | and (toEa : Bool) (sz : Size) (n : Fin 8) (m : Mode)
  | andi (sz : Size) (m : Mode) (v : U32)
  | andiccr (w : U16)
  | andisr (w : U16)
  | asm (left : Bool) (m : Mode)
  | asr (left byReg : Bool) (sz : Size) (count n : Fin 8)
  | bcc (cc : Asm.Condition) (d : U16)
  | bchgDynamic (n : Fin 8) (m : Mode)
  | bchgStatic (k : U8) (m : Mode)
  | bclrDynamic (n : Fin 8) (m : Mode)
  | bclrStatic (k : U8) (m : Mode)
  | bra (d : U16)
  | bsetDynamic (n : Fin 8) (m : Mode)
  | bsetStatic (k : U8) (m : Mode)
  | bsr (d : U16)
  | btstDynamic (n : Fin 8) (m : Mode)
  | btstStatic (k : U8) (m : Mode)
  | chk (n : Fin 8) (m : Mode)
  | clr (sz : Size) (m : Mode)
  | cmp (sz : Size) (n : Fin 8) (m : Mode)
  | cmpa (sz : Size) (n : Fin 8) (m : Mode)
  | cmpi (sz : Size) (m : Mode) (v : U32)
  | cmpm (sz : Size) (x y : Fin 8)
  | dbcc (cc : Asm.Condition) (n : Fin 8) (d : U16)
  | divs (n : Fin 8) (m : Mode)
  | divu (n : Fin 8) (m : Mode)
  | eor (sz : Size) (n : Fin 8) (m : Mode)
  | eori (sz : Size) (m : Mode) (v : U32)
  | eoriccr (w : U16)
  | eorisr (w : U16)
  | exg (kind : Direction) (x y : Fin 8)
  | ext (toLong : Bool) (n : Fin 8)
  | illegal
  | jmp (m : Mode)
  | jsr (m : Mode)
  | lea (n : Fin 8) (m : Mode)
  | link (n : Fin 8) (d : U16)
  | lsm (left : Bool) (m : Mode)
  | lsr (left byReg : Bool) (sz : Size) (count n : Fin 8)
  | move (sz : Size) (dst src : Mode)
  | movea (sz : Size) (n : Fin 8) (m : Mode)
  | moveccr (m : Mode)
  | movefsr (m : Mode)
  | movesr (m : Mode)
  | moveusp (toReg : Bool) (n : Fin 8)
  | movem (toRegs : Bool) (sz : Size) (m : Mode) (mask : U16)
  | movep (toMem : Bool) (sz : Size) (n a : Fin 8) (d : U16)
  | moveq (n : Fin 8) (v : U8)
  | muls (n : Fin 8) (m : Mode)
  | mulu (n : Fin 8) (m : Mode)
  | nbcd (m : Mode)
  | neg (sz : Size) (m : Mode)
  | negx (sz : Size) (m : Mode)
  | nop
  | not (sz : Size) (m : Mode)
  | or (toEa : Bool) (sz : Size) (n : Fin 8) (m : Mode)
  | ori (sz : Size) (m : Mode) (v : U32)
  | oriccr (w : U16)
  | orisr (w : U16)
  | pea (m : Mode)
  | reset
  | rom (left : Bool) (m : Mode)
  | ror (left byReg : Bool) (sz : Size) (count n : Fin 8)
  | roxm (left : Bool) (m : Mode)
  | roxr (left byReg : Bool) (sz : Size) (count n : Fin 8)
  | rte
  | rtr
  | rts
  | sbcd (inMemory : Bool) (x y : Fin 8)
  | scc (cc : Asm.Condition) (m : Mode)
  | stop (w : U16)
  | sub (toEa : Bool) (sz : Size) (n : Fin 8) (m : Mode)
  | suba (sz : Size) (n : Fin 8) (m : Mode)
  | subi (sz : Size) (m : Mode) (v : U32)
  | subq (sz : Size) (k : U8) (m : Mode)
  | subx (inMemory : Bool) (sz : Size) (x y : Fin 8)
  | swap (n : Fin 8)
  | tas (m : Mode)
  | trap (v : U8)
  | trapv
  | tst (sz : Size) (m : Mode)
  | unlk (n : Fin 8)

namespace Source

/-- What the function of the assembler returns: the words, or `none` if it panics because the operands are not allowed. -/
def assemble : Source → Option (List U16)
  | abcd b x y => Asm.abcd (u8 x) (if b then .MemoryToMemory else .RegisterToRegister) (u8 y)
  | add b sz n m => Asm.add (u8 n) (if b then .DstEa else .DstReg) sz m.toAM
  | adda sz n m => Asm.adda (u8 n) sz m.toAM
  | addi sz m v => Asm.addi sz m.toAM v
  | addq sz k m => Asm.addq k sz m.toAM
  | addx b sz x y => Asm.addx (u8 x) sz (if b then .MemoryToMemory else .RegisterToRegister) (u8 y)
  | and b sz n m => Asm.and (u8 n) (if b then .DstEa else .DstReg) sz m.toAM
  | andi sz m v => Asm.andi sz m.toAM v
  | andiccr w => Asm.andiccr w
  | andisr w => Asm.andisr w
  | asm l m => Asm.asm (if l then .Left else .Right) m.toAM
  | asr l r sz k n => Asm.asr (BitVec.ofNat 16 k.val) (if l then .Left else .Right) sz r (BitVec.ofNat 16 n.val)
  | bcc cc d => Asm.bcc cc d
  | bchgDynamic n m => Asm.bchgDynamic (u8 n) m.toAM
  | bchgStatic k m => Asm.bchgStatic m.toAM k
  | bclrDynamic n m => Asm.bclrDynamic (u8 n) m.toAM
  | bclrStatic k m => Asm.bclrStatic m.toAM k
  | bra d => Asm.bra d
  | bsetDynamic n m => Asm.bsetDynamic (u8 n) m.toAM
  | bsetStatic k m => Asm.bsetStatic m.toAM k
  | bsr d => Asm.bsr d
  | btstDynamic n m => Asm.btstDynamic (u8 n) m.toAM
  | btstStatic k m => Asm.btstStatic m.toAM k
  | chk n m => Asm.chk (u8 n) m.toAM
  | clr sz m => Asm.clr sz m.toAM
  | cmp sz n m => Asm.cmp (u8 n) sz m.toAM
  | cmpa sz n m => Asm.cmpa (u8 n) sz m.toAM
  | cmpi sz m v => Asm.cmpi sz m.toAM v
  | cmpm sz x y => Asm.cmpm (u8 x) sz (u8 y)
  | dbcc cc n d => Asm.dbcc cc (u8 n) d
  | divs n m => Asm.divs (u8 n) m.toAM
  | divu n m => Asm.divu (u8 n) m.toAM
  | eor sz n m => Asm.eor (u8 n) sz m.toAM
  | eori sz m v => Asm.eori sz m.toAM v
  | eoriccr w => Asm.eoriccr w
  | eorisr w => Asm.eorisr w
  | exg k x y => Asm.exg (u8 x) k (u8 y)
  | ext l n => Asm.ext l (u8 n)
  | illegal => Asm.illegal
  | jmp m => Asm.jmp m.toAM
  | jsr m => Asm.jsr m.toAM
  | lea n m => Asm.lea (u8 n) m.toAM
  | link n d => Asm.link (u8 n) d
  | lsm l m => Asm.lsm (if l then .Left else .Right) m.toAM
  | lsr l r sz k n => Asm.lsr (BitVec.ofNat 16 k.val) (if l then .Left else .Right) sz r (BitVec.ofNat 16 n.val)
  | move sz dst src => Asm.move sz dst.toAM src.toAM
  | movea sz n m => Asm.movea sz (u8 n) m.toAM
  | moveccr m => Asm.moveccr m.toAM
  | movefsr m => Asm.movefsr m.toAM
  | movesr m => Asm.movesr m.toAM
  | moveusp b n => Asm.moveusp (if b then .UspToRegister else .RegisterToUsp) (u8 n)
  | movem b sz m mask => Asm.movem (if b then .MemoryToRegister else .RegisterToMemory) sz m.toAM mask
  | movep b sz n a d => Asm.movep (u8 n) (if b then .RegisterToMemory else .MemoryToRegister) sz (u8 a) d
  | moveq n v => Asm.moveq (u8 n) v
  | muls n m => Asm.muls (u8 n) m.toAM
  | mulu n m => Asm.mulu (u8 n) m.toAM
  | nbcd m => Asm.nbcd m.toAM
  | neg sz m => Asm.neg sz m.toAM
  | negx sz m => Asm.negx sz m.toAM
  | nop => Asm.nop
  | not sz m => Asm.not sz m.toAM
  | or b sz n m => Asm.or (u8 n) (if b then .DstEa else .DstReg) sz m.toAM
  | ori sz m v => Asm.ori sz m.toAM v
  | oriccr w => Asm.oriccr w
  | orisr w => Asm.orisr w
  | pea m => Asm.pea m.toAM
  | reset => Asm.reset
  | rom l m => Asm.rom (if l then .Left else .Right) m.toAM
  | ror l r sz k n => Asm.ror (BitVec.ofNat 16 k.val) (if l then .Left else .Right) sz r (BitVec.ofNat 16 n.val)
  | roxm l m => Asm.roxm (if l then .Left else .Right) m.toAM
  | roxr l r sz k n => Asm.roxr (BitVec.ofNat 16 k.val) (if l then .Left else .Right) sz r (BitVec.ofNat 16 n.val)
  | rte => Asm.rte
  | rtr => Asm.rtr
  | rts => Asm.rts
  | sbcd b x y => Asm.sbcd (u8 x) (if b then .MemoryToMemory else .RegisterToRegister) (u8 y)
  | scc cc m => Asm.scc cc m.toAM
  | stop w => Asm.stop w
  | sub b sz n m => Asm.sub (u8 n) (if b then .DstEa else .DstReg) sz m.toAM
  | suba sz n m => Asm.suba (u8 n) sz m.toAM
  | subi sz m v => Asm.subi sz m.toAM v
  | subq sz k m => Asm.subq k sz m.toAM
  | subx b sz x y => Asm.subx (u8 x) sz (if b then .MemoryToMemory else .RegisterToRegister) (u8 y)
  | swap n => Asm.swap (u8 n)
  | tas m => Asm.tas m.toAM
  | trap v => Asm.trap v
  | trapv => Asm.trapv
  | tst sz m => Asm.tst sz m.toAM
  | unlk n => Asm.unlk (u8 n)

/-- The privileged instructions: they are not traced. -/
def privileged : Source → Bool
  | andisr _ | eorisr _ | orisr _ | movesr _ | moveusp _ _ | reset | rte | stop _ => true
  | _ => false

/-- The time of ADD, SUB, AND, OR. -/
def binaryTime (C : CpuDetails) (toEa : Bool) (sz : Size) (m : Mode) (memBW memL regBW regL regLRdImm : Nat) : Nat :=
  if toEa then bySize sz memBW memL + rmwTime C sz m
  else bySize sz regBW (if isRegOrImm m then regLRdImm else regL) + readTime C sz m

/-- The effect of ADD, SUB, AND, OR. -/
def binaryEffect (toEa : Bool) (sz : Size) (n : Fin 8) (m : Mode) (f : Val sz → Val sz → StatusRegister → Val sz × StatusRegister) : Exec M Unit :=
  if toEa then opToEa sz n m f else opToDn sz n m f

/-- The time of the instructions with one operand that differ between registers and memory. -/
def placeTime (sz : Size) (m : Mode) (memBW memL regBW regL : Nat) : Nat := bySize sz (byPlace m regBW memBW) (byPlace m regL memL)

/-- A bit instruction whose bit number is in a register. -/
def dynamicBit (C : CpuDetails) (o : BitOp) (n : Fin 8) (m : Mode) (mem reg : Nat) : Exec M Nat := do
  let k ← getR fun r => (r.d n).toNat % 256
  cost (bitOp o k m) (byPlace m reg mem + eaTime C m)

/-- A bit instruction whose bit number is in the instruction. -/
def staticBit (C : CpuDetails) (o : BitOp) (k : U8) (m : Mode) (mem reg : Nat) : Exec M Nat :=
  cost (bitOp o k.toNat m) (byPlace m reg mem + eaTime C m)

/-- What the line does when it is executed at the address `pc`, after its words have been read: its effect with the operands of the line, and the time it takes. -/
def effect (C : CpuDetails) (pc : U32) : Source → Exec M Nat
  | abcd b x y => cost (pair .Byte b x y decimalSum) (if b then C.ABCD_MEM else C.ABCD_REG)
  | add b sz n m => let m := m.kept sz.isLong (pc + 2)
    cost (binaryEffect b sz n m (sum false)) (binaryTime C b sz m C.ADD_MEM_BW C.ADD_MEM_L C.ADD_REG_BW C.ADD_REG_L C.ADD_REG_L_RDIMM)
  | adda sz n m => let m := m.kept sz.isLong (pc + 2)
    readExt sz m >>= fun v => cost (updateA n (· + v)) (bySize sz C.ADDA_WORD (if isRegOrImm m then C.ADDA_LONG_RDIMM else C.ADDA_LONG) + readTime C sz m)
  | addi sz m v => cost (rmw sz m (sum false · (low sz v))) (placeTime sz m C.ADDI_MEM_BW C.ADDI_MEM_L C.ADDI_REG_BW C.ADDI_REG_L + rmwTime C sz m)
  | addq sz k m => cost (quickOp false (Fin.ofNat 8 k.toNat) sz m)
      (bySize sz (if isReg m then C.ADDQ_REG_BW else C.ADDQ_MEM_BW) (if isReg m then C.ADDQ_REG_L else C.ADDQ_MEM_L) + rmwTime C sz m)
  | addx b sz x y => cost (pair sz b x y (sum true)) (if b then bySize sz C.ADDX_MEM_BW C.ADDX_MEM_L else bySize sz C.ADDX_REG_BW C.ADDX_REG_L)
  | and b sz n m => let m := m.kept sz.isLong (pc + 2)
    cost (binaryEffect b sz n m (logic (· &&& ·))) (binaryTime C b sz m C.AND_MEM_BW C.AND_MEM_L C.AND_REG_BW C.AND_REG_L C.AND_REG_L_RDIMM)
  | andi sz m v => cost (rmw sz m (logic (· &&& ·) · (low sz v))) (placeTime sz m C.ANDI_MEM_BW C.ANDI_MEM_L C.ANDI_REG_BW C.ANDI_REG_L + rmwTime C sz m)
  | andiccr w => cost (setFlags fun sr => srOp (· && ·) (· &&& ·) ((w &&& 0xFF) ||| 0xA700) sr) C.ANDICCR
  | andisr w => Spec.privileged >>= fun _ => cost (setFlags fun sr => srOp (· && ·) (· &&& ·) w sr) C.ANDISR
  | asm l m => cost (rmw .Word m (if l then asl 1 else Spec.asr 1)) (C.ASM + eaTime C m)
  | asr l r sz k n => (fun i => bySize sz C.ASR_BW C.ASR_L + C.ASR_COUNT * i) <$> (if l then shift asl sz r k n else shift Spec.asr sz r k n)
  | bcc cc d => (fun b => if b then C.BCC_BRANCH else if IsShort d then C.BCC_NO_BRANCH_BYTE else C.BCC_NO_BRANCH_WORD) <$> Spec.bcc (pc + 2) (ccNumber cc) d
  | bchgDynamic n m => dynamicBit C .change n m C.BCHG_DYN_MEM C.BCHG_DYN_REG
  | bchgStatic k m => staticBit C .change k m C.BCHG_STA_MEM C.BCHG_STA_REG
  | bclrDynamic n m => dynamicBit C .clear n m C.BCLR_DYN_MEM C.BCLR_DYN_REG
  | bclrStatic k m => staticBit C .clear k m C.BCLR_STA_MEM C.BCLR_STA_REG
  | bra d => cost (jump (pc + 2 + signExt d)) (if IsShort d then C.BRA_BYTE else C.BRA_WORD)
  | bsetDynamic n m => dynamicBit C .set n m C.BSET_DYN_MEM C.BSET_DYN_REG
  | bsetStatic k m => staticBit C .set k m C.BSET_STA_MEM C.BSET_STA_REG
  | bsr d => cost (Spec.bsr (pc + 2) d) (if IsShort d then C.BSR_BYTE else C.BSR_WORD)
  | btstDynamic n m => dynamicBit C .test n (m.kept false (pc + 2)) C.BTST_DYN_MEM C.BTST_DYN_REG
  | btstStatic k m => staticBit C .test k (m.at (pc + 4)) C.BTST_STA_MEM C.BTST_STA_REG
  | chk n m => let m := m.kept false (pc + 2)
    cost (Spec.chk n m) (C.CHK_NO_TRAP + eaTime C m)
  | clr sz m => write sz m 0 >>= fun _ => cost (setFlags (logicFlags (0 : Val sz))) (placeTime sz m C.CLR_MEM_BW C.CLR_MEM_L C.CLR_REG_BW C.CLR_REG_L + writeTime C sz m)
  | cmp sz n m => let m := m.kept sz.isLong (pc + 2)
    read sz m >>= fun p => getR (fun r => low sz (r.d n)) >>= fun d => cost (compareWith d p.2) (bySize sz C.CMP_BW C.CMP_L + readTime C sz m)
  | cmpa sz n m => let m := m.kept sz.isLong (pc + 2)
    readExt sz m >>= fun v => getR (areg · n) >>= fun a => cost (compareWith a v) (C.CMPA + readTime C sz m)
  | cmpi sz m v => read sz m >>= fun p => cost (compareWith p.2 (low sz v)) (placeTime sz m C.CMPI_MEM_BW C.CMPI_MEM_L C.CMPI_REG_BW C.CMPI_REG_L + readTime C sz m)
  | cmpm sz x y => cost (Spec.cmpm sz x y) (bySize sz C.CMPM_BW C.CMPM_L)
  | dbcc cc n d => (fun | .condition => C.DBCC_TRUE | .branch => C.DBCC_FALSE_BRANCH | .expired => C.DBCC_FALSE_NO_BRANCH) <$> Spec.dbcc (pc + 2) (ccNumber cc) n d
  | divs n m => let m := m.kept false (pc + 2)
    cost (Spec.divs n m) (C.DIVS + eaTime C m)
  | divu n m => let m := m.kept false (pc + 2)
    cost (Spec.divu n m) (C.DIVU + eaTime C m)
  | eor sz n m => cost (opToEa sz n m (logic (· ^^^ ·))) (placeTime sz m C.EOR_MEM_BW C.EOR_MEM_L C.EOR_REG_BW C.EOR_REG_L + rmwTime C sz m)
  | eori sz m v => cost (rmw sz m (logic (· ^^^ ·) · (low sz v))) (placeTime sz m C.EORI_MEM_BW C.EORI_MEM_L C.EORI_REG_BW C.EORI_REG_L + rmwTime C sz m)
  | eoriccr w => cost (setFlags fun sr => srOp (· != ·) (· ^^^ ·) (w &&& 0xFF) sr) C.EORICCR
  | eorisr w => Spec.privileged >>= fun _ => cost (setFlags fun sr => srOp (· != ·) (· ^^^ ·) w sr) C.EORISR
  | exg k x y => cost (Spec.exg k x y) C.EXG
  | ext l n => cost (Spec.ext l n) C.EXT
  | illegal => cost (Spec.trap 4 : Exec M Unit) 0
  | jmp m => let m := m.at (pc + 2)
    control m >>= fun a => cost (jump a) (controlTime C.JMP_ARI C.JMP_ARIWD C.JMP_ARIWI8 C.JMP_ABSSHORT C.JMP_ABSLONG C.JMP_PCIWD C.JMP_PCIWI8 m)
  | jsr m => let m := m.at (pc + 2)
    cost (Spec.jsr m) (controlTime C.JSR_ARI C.JSR_ARIWD C.JSR_ARIWI8 C.JSR_ABSSHORT C.JSR_ABSLONG C.JSR_PCIWD C.JSR_PCIWI8 m)
  | lea n m => let m := m.at (pc + 2)
    control m >>= fun a => cost (updateA n fun _ => a) (controlTime C.LEA_ARI C.LEA_ARIWD C.LEA_ARIWI8 C.LEA_ABSSHORT C.LEA_ABSLONG C.LEA_PCIWD C.LEA_PCIWI8 m)
  | link n d => cost (Spec.link n d) C.LINK
  | lsm l m => cost (rmw .Word m (if l then lsl 1 else Spec.lsr 1)) (C.LSM + eaTime C m)
  | lsr l r sz k n => (fun i => bySize sz C.LSR_BW C.LSR_L + C.LSR_COUNT * i) <$> (if l then shift lsl sz r k n else shift Spec.lsr sz r k n)
  | move sz dst src => let src := src.kept sz.isLong (pc + 2)
    cost (Spec.move sz dst src) ((match dst with | .predec _ => C.MOVE_DST_ARIWPR | _ => C.MOVE_OTHER) + readTime C sz src + writeTime C sz dst)
  | movea sz n m => let m := m.kept sz.isLong (pc + 2)
    cost (Spec.movea sz n m) (C.MOVEA + readTime C sz m)
  | moveccr m => let m := m.kept false (pc + 2)
    read .Word m >>= fun p => cost (setFlags (withCcr · p.2)) (C.MOVECCR + eaTime C m)
  | movefsr m => getR (fun r => srWord r.sr) >>= fun v => cost (write .Word m v) (byPlace m C.MOVEFSR_REG C.MOVEFSR_MEM + eaTime C m)
  | movesr m => let m := m.kept false (pc + 2)
    Spec.privileged >>= fun _ => read .Word m >>= fun p => cost (setFlags fun _ => srOf p.2) (C.MOVESR + eaTime C m)
  | moveusp b n => cost (moveUsp b n) C.MOVEUSP
  | movem b sz m mask => let m := m.at (pc + 4)
    cost (Spec.movem b sz m mask) (movemModeTime C m + (if b then C.MOVEM_MTR else 0) + (listed mask).length * bySize sz C.MOVEM_WORD C.MOVEM_LONG)
  | movep b sz n a d => cost (Spec.movep b sz n a d) (if b then bySize sz C.MOVEP_RTM_WORD C.MOVEP_RTM_LONG else bySize sz C.MOVEP_MTR_WORD C.MOVEP_MTR_LONG)
  | moveq n v => cost (Spec.moveq n v) C.MOVEQ
  | muls n m => let m := m.kept false (pc + 2)
    cost (mul true n m) (C.MULS + eaTime C m)
  | mulu n m => let m := m.kept false (pc + 2)
    cost (mul false n m) (C.MULU + eaTime C m)
  | nbcd m => cost (rmw .Byte m fun d => decimalDifference 0 d) (byPlace m C.NBCD_REG C.NBCD_MEM + eaTime C m)
  | neg sz m => cost (rmw sz m fun d => difference false 0 d) (placeTime sz m C.NEG_MEM_BW C.NEG_MEM_L C.NEG_REG_BW C.NEG_REG_L + rmwTime C sz m)
  | negx sz m => cost (rmw sz m fun d => difference true 0 d) (placeTime sz m C.NEGX_MEM_BW C.NEGX_MEM_L C.NEGX_REG_BW C.NEGX_REG_L + rmwTime C sz m)
  | nop => pure C.NOP
  | not sz m => cost (read sz m >>= fun p => writeAt sz p.1 (~~~p.2) >>= fun _ => setFlags (logicFlags (~~~p.2)))
      (placeTime sz m C.NOT_MEM_BW C.NOT_MEM_L C.NOT_REG_BW C.NOT_REG_L + rmwTime C sz m)
  | or b sz n m => let m := m.kept sz.isLong (pc + 2)
    cost (binaryEffect b sz n m (logic (· ||| ·))) (binaryTime C b sz m C.OR_MEM_BW C.OR_MEM_L C.OR_REG_BW C.OR_REG_L C.OR_REG_L_RDIMM)
  | ori sz m v => cost (rmw sz m (logic (· ||| ·) · (low sz v))) (placeTime sz m C.ORI_MEM_BW C.ORI_MEM_L C.ORI_REG_BW C.ORI_REG_L + rmwTime C sz m)
  | oriccr w => cost (setFlags fun sr => srOp (· || ·) (· ||| ·) (w &&& 0xFF) sr) C.ORICCR
  | orisr w => Spec.privileged >>= fun _ => cost (setFlags fun sr => srOp (· || ·) (· ||| ·) w sr) C.ORISR
  | pea m => let m := m.at (pc + 2)
    control m >>= fun a => cost (push .Long a) (controlTime C.PEA_ARI C.PEA_ARIWD C.PEA_ARIWI8 C.PEA_ABSSHORT C.PEA_ABSLONG C.PEA_PCIWD C.PEA_PCIWI8 m)
  | reset => cost resetDevices C.RESET
  | rom l m => cost (rmw .Word m (if l then rol 1 else Spec.ror 1)) (C.ROM + eaTime C m)
  | ror l r sz k n => (fun i => bySize sz C.ROR_BW C.ROR_L + C.ROR_COUNT * i) <$> (if l then shift rol sz r k n else shift Spec.ror sz r k n)
  | roxm l m => cost (rmw .Word m (if l then roxl 1 else Spec.roxr 1)) (C.ROXM + eaTime C m)
  | roxr l r sz k n => (fun i => bySize sz C.ROXR_BW C.ROXR_L + C.ROXR_COUNT * i) <$> (if l then shift roxl sz r k n else shift Spec.roxr sz r k n)
  | rte => (fun long => if long then C.RTE + 101 else C.RTE) <$> Spec.rte C.STACK_FORMAT
  | rtr => cost Spec.rtr C.RTR
  | rts => cost Spec.rts C.RTS
  | sbcd b x y => cost (pair .Byte b x y decimalDifference) (if b then C.SBCD_MEM else C.SBCD_REG)
  | scc cc m => (fun b => (if b then byPlace m C.SCC_REG_TRUE C.SCC_MEM_TRUE else byPlace m C.SCC_REG_FALSE C.SCC_MEM_FALSE) + eaTime C m) <$> Spec.scc (ccNumber cc) m
  | stop w => cost (Spec.stop w) C.STOP
  | sub b sz n m => let m := m.kept sz.isLong (pc + 2)
    cost (binaryEffect b sz n m (difference false)) (binaryTime C b sz m C.SUB_MEM_BW C.SUB_MEM_L C.SUB_REG_BW C.SUB_REG_L C.SUB_REG_L_RDIMM)
  | suba sz n m => let m := m.kept sz.isLong (pc + 2)
    readExt sz m >>= fun v => cost (updateA n (· - v)) (bySize sz C.SUBA_WORD (if isRegOrImm m then C.SUBA_LONG_RDIMM else C.SUBA_LONG) + readTime C sz m)
  | subi sz m v => cost (rmw sz m (difference false · (low sz v))) (placeTime sz m C.SUBI_MEM_BW C.SUBI_MEM_L C.SUBI_REG_BW C.SUBI_REG_L + rmwTime C sz m)
  | subq sz k m => cost (quickOp true (Fin.ofNat 8 k.toNat) sz m)
      (bySize sz (if isReg m then (if isDn m then C.SUBQ_DREG_BW else C.SUBQ_AREG_BW) else C.SUBQ_MEM_BW) (if isReg m then C.SUBQ_REG_L else C.SUBQ_MEM_L) + rmwTime C sz m)
  | subx b sz x y => cost (pair sz b x y (difference true)) (if b then bySize sz C.SUBX_MEM_BW C.SUBX_MEM_L else bySize sz C.SUBX_REG_BW C.SUBX_REG_L)
  | swap n => cost (Spec.swap n) C.SWAP
  | tas m => cost (Spec.tas m) (byPlace m C.TAS_REG C.TAS_MEM + eaTime C m)
  | trap v => cost (Spec.trap (BitVec.ofNat 8 (32 + v.toNat)) : Exec M Unit) 0
  | trapv => getR (·.sr.v) >>= fun v => if v then Spec.trap 7 else pure C.TRAPV_NO_TRAP
  | tst sz m => read sz m >>= fun p => cost (setFlags (logicFlags p.2)) (placeTime sz m C.TST_MEM_BW C.TST_MEM_L C.TST_REG_BW C.TST_REG_L + readTime C sz m)
  | unlk n => cost (Spec.unlk n) C.UNLK

end Source

/-- The core in state `s` is about to execute the words `ws`: it is neither stopped nor has a pending exception, and the words can be read from the
program counter on, each at an even address. `s1` is the state after they have been read: the program counter is behind them. -/
structure AtWords (s : St M) (ws : List U16) (s1 : St M) : Prop where
  running : s.cpu.stop = false
  idle : s.cpu.exceptions = []
  there : ∃ op it, ws.head? = some op ∧ Feeds ⟨s.mem, s.cpu.regs.pc⟩ ws it ∧
    s1 = { mem := it.mem, cpu := { s.cpu with currentOpcode := op, regs := { s.cpu.regs with pc := s.cpu.regs.pc + BitVec.ofNat 32 (2 * ws.length) } } }

/-- One call of `interpreter_exception` ends as `r`: with its cycles and state, and the trace exception if it is due (not after a privileged instruction),
or with the exception of `r` and 0 cycles, or in a panic. -/
def EndsAs (C : CpuDetails) (s : St M) (priv : Bool) (r : Res M Nat) : Prop :=
  match r with
  | .ok cycles s' => Exec.interpreterException C s = .ok (cycles, if priv then none else traced s) s'
  | .err v s' => Raises C s v s'
  | .panic => Exec.interpreterException C s = .panic

end M68k.Spec
