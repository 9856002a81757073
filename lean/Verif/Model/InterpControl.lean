import Verif.Model.Alu
/-
Program and system control instructions of `m68000/src/interpreter.rs`.
-/
namespace M68k
namespace Exec
variable {M : Type} [MemoryAccess M]

/-- interpreter.rs L26-32: `check_supervisor`. -/
def checkSupervisor : Exec M Unit := do
  let sr ← getSr
  if sr.s then return () else throw 8

/-- interpreter.rs L34-40: `execute_unknown_instruction`. -/
def executeUnknownInstruction : Exec M Nat := do
  let opcode ← getCurrentOpcode
  throw (if opcode &&& 0xF000 = 0xA000 then 10
    else if opcode &&& 0xF000 = 0xF000 then 11
    else 4)

/-- interpreter.rs L438-442: `execute_andiccr`. -/
def executeAndiccr (C : CpuDetails) (imm : U16) : Exec M Nat := do
  modifySr fun sr => sr.andAssign (SR_UPPER_MASK ||| imm)
  return C.ANDICCR

/-- interpreter.rs L994-998: `execute_eoriccr`. -/
def executeEoriccr (C : CpuDetails) (imm : U16) : Exec M Nat := do
  modifySr fun sr => sr.xorAssign imm
  return C.EORICCR

/-- interpreter.rs L1702-1706: `execute_oriccr`. -/
def executeOriccr (C : CpuDetails) (imm : U16) : Exec M Nat := do
  modifySr fun sr => sr.orAssign imm
  return C.ORICCR

/-- interpreter.rs L444-449: `execute_andisr`. -/
def executeAndisr (C : CpuDetails) (imm : U16) : Exec M Nat := do
  checkSupervisor
  modifySr fun sr => sr.andAssign imm
  return C.ANDISR

/-- interpreter.rs L1000-1005: `execute_eorisr`. -/
def executeEorisr (C : CpuDetails) (imm : U16) : Exec M Nat := do
  checkSupervisor
  modifySr fun sr => sr.xorAssign imm
  return C.EORISR

/-- interpreter.rs L1708-1713: `execute_orisr`. -/
def executeOrisr (C : CpuDetails) (imm : U16) : Exec M Nat := do
  checkSupervisor
  modifySr fun sr => sr.orAssign imm
  return C.ORISR

/-- interpreter.rs L540-551: `execute_bcc`. -/
def executeBcc (C : CpuDetails) (pc : U32) (condition : U8) (displacement : U16) : Exec M Nat := do
  let b ← testCondition condition
  (if b then do
    setPc (pc + sext16 displacement)
    return C.BCC_BRANCH
  else do
    let opcode ← getCurrentOpcode
    return (if toU8 opcode = 0 then C.BCC_NO_BRANCH_WORD else C.BCC_NO_BRANCH_BYTE))

/-- interpreter.rs L607-615: `execute_bra`. -/
def executeBra (C : CpuDetails) (pc : U32) (disp : U16) : Exec M Nat := do
  setPc (pc + sext16 disp)
  let opcode ← getCurrentOpcode
  return (if toU8 opcode = 0 then C.BRA_WORD else C.BRA_BYTE)

/-- interpreter.rs L644-653: `execute_bsr`. -/
def executeBsr (C : CpuDetails) (pc : U32) (disp : U16) : Exec M Nat := do
  let ret ← getPc
  pushLong ret
  setPc (pc + sext16 disp)
  let opcode ← getCurrentOpcode
  return (if toU8 opcode = 0 then C.BSR_WORD else C.BSR_BYTE)

/-- interpreter.rs L681-694: `execute_chk`. -/
def executeChk (C : CpuDetails) (reg : U8) (am : AddressingMode) : Exec M Nat := do
  let ea := EffectiveAddress.new am (some .Word)
  let (src, _, t) ← getWord C ea 0
  let d ← getD reg
  let data := toU16 d
  (if data.slt 0 || src.slt data then throw 6
  else return C.CHK_NO_TRAP + t)

/-- interpreter.rs L824-838: `execute_dbcc`. -/
def executeDbcc (C : CpuDetails) (pc : U32) (cc : U8) (reg : U8) (disp : U16) : Exec M Nat := do
  let b ← testCondition cc
  (if !b then do
    let d ← getD reg
    let counter := toU16 d - 1
    setDWord reg counter
    (if counter ≠ -1 then do
      setPc (pc + sext16 disp)
      return C.DBCC_FALSE_BRANCH
    else return C.DBCC_FALSE_NO_BRANCH)
  else return C.DBCC_TRUE)

/-- interpreter.rs L1040-1042: `execute_illegal`. -/
def executeIllegal : Exec M Nat :=
  throw 4

/-- interpreter.rs L1050-1059: the `match am` at the end of `execute_jmp`. -/
def jmpTime (C : CpuDetails) : AddressingMode → Exec M Nat
  | .Ari _ => return C.JMP_ARI
  | .Ariwd .. => return C.JMP_ARIWD
  | .Ariwi8 .. => return C.JMP_ARIWI8
  | .AbsShort _ => return C.JMP_ABSSHORT
  | .AbsLong _ => return C.JMP_ABSLONG
  | .Pciwd .. => return C.JMP_PCIWD
  | .Pciwi8 .. => return C.JMP_PCIWI8
  | _ => panic

/-- interpreter.rs L1069-1078: the `match am` at the end of `execute_jsr`. -/
def jsrTime (C : CpuDetails) : AddressingMode → Exec M Nat
  | .Ari _ => return C.JSR_ARI
  | .Ariwd .. => return C.JSR_ARIWD
  | .Ariwi8 .. => return C.JSR_ARIWI8
  | .AbsShort _ => return C.JSR_ABSSHORT
  | .AbsLong _ => return C.JSR_ABSLONG
  | .Pciwd .. => return C.JSR_PCIWD
  | .Pciwi8 .. => return C.JSR_PCIWI8
  | _ => panic

/-- interpreter.rs L1087-1096: the `match am` at the end of `execute_lea`. -/
def leaTime (C : CpuDetails) : AddressingMode → Exec M Nat
  | .Ari _ => return C.LEA_ARI
  | .Ariwd .. => return C.LEA_ARIWD
  | .Ariwi8 .. => return C.LEA_ARIWI8
  | .AbsShort _ => return C.LEA_ABSSHORT
  | .AbsLong _ => return C.LEA_ABSLONG
  | .Pciwd .. => return C.LEA_PCIWD
  | .Pciwi8 .. => return C.LEA_PCIWI8
  | _ => panic

/-- interpreter.rs L1722-1731: the `match am` at the end of `execute_pea`. -/
def peaTime (C : CpuDetails) : AddressingMode → Exec M Nat
  | .Ari _ => return C.PEA_ARI
  | .Ariwd .. => return C.PEA_ARIWD
  | .Ariwi8 .. => return C.PEA_ARIWI8
  | .AbsShort _ => return C.PEA_ABSSHORT
  | .AbsLong _ => return C.PEA_ABSLONG
  | .Pciwd .. => return C.PEA_PCIWD
  | .Pciwi8 .. => return C.PEA_PCIWI8
  | _ => panic

/-- interpreter.rs L1044-1060: `execute_jmp`. -/
def executeJmp (C : CpuDetails) (am : AddressingMode) : Exec M Nat := do
  let ea := EffectiveAddress.new am none
  let (addr, _, _) ← getEffectiveAddress C ea 0
  setPc addr
  jmpTime C am

/-- interpreter.rs L1062-1079: `execute_jsr`. -/
def executeJsr (C : CpuDetails) (am : AddressingMode) : Exec M Nat := do
  let ea := EffectiveAddress.new am none
  let ret ← getPc
  pushLong ret
  let (addr, _, _) ← getEffectiveAddress C ea 0
  setPc addr
  jsrTime C am

/-- interpreter.rs L1081-1097: `execute_lea`. -/
def executeLea (C : CpuDetails) (reg : U8) (am : AddressingMode) : Exec M Nat := do
  let ea := EffectiveAddress.new am none
  let (addr, _, _) ← getEffectiveAddress C ea 0
  setA reg addr
  leaTime C am

/-- interpreter.rs L1715-1732: `execute_pea`. -/
def executePea (C : CpuDetails) (am : AddressingMode) : Exec M Nat := do
  let ea := EffectiveAddress.new am none
  let (addr, _, _) ← getEffectiveAddress C ea 0
  pushLong addr
  peaTime C am

/-- interpreter.rs L1099-1105: `execute_link`. -/
def executeLink (C : CpuDetails) (reg : U8) (disp : U16) : Exec M Nat := do
  let a ← getA reg
  pushLong a
  let sp ← getSp
  setA reg sp
  let sp ← getSp
  setSp (sp + sext16 disp)
  return C.LINK

/-- interpreter.rs L2346-2351: `execute_unlk`. -/
def executeUnlk (C : CpuDetails) (reg : U8) : Exec M Nat := do
  let a ← getA reg
  setSp a
  let v ← popLong
  setA reg v
  return C.UNLK

/-- interpreter.rs L1552-1554: `execute_nop`. -/
def executeNop (C : CpuDetails) : Exec M Nat :=
  return C.NOP

/-- interpreter.rs L1734-1739: `execute_reset`. -/
def executeReset (C : CpuDetails) : Exec M Nat := do
  checkSupervisor
  resetInstruction
  return C.RESET

/-- interpreter.rs L1921-1943: `execute_rte`. -/
def executeRte (C : CpuDetails) : Exec M Nat := do
  checkSupervisor
  let sr ← popWord
  let pc ← popLong
  setPc pc
  let t ← (if C.STACK_FORMAT = .SCC68070 then do
      let format ← popWord
      (if format &&& 0xF000 = 0xF000 then do
        let sp ← getSp
        setSp (sp + 26)
        return C.RTE + 101
      else if format &&& 0xF000 ≠ 0 then throw 14
      else return C.RTE)
    else pure C.RTE)
  modifySr fun _ => StatusRegister.ofU16 sr
  return t

/-- interpreter.rs L1945-1952: `execute_rtr`. -/
def executeRtr (C : CpuDetails) : Exec M Nat := do
  let ccr ← popWord
  modifySr fun sr => sr.andAssign SR_UPPER_MASK
  modifySr fun sr => sr.orAssign (ccr &&& CCR_MASK)
  let pc ← popLong
  setPc pc
  return C.RTR

/-- interpreter.rs L1954-1958: `execute_rts`. -/
def executeRts (C : CpuDetails) : Exec M Nat := do
  let pc ← popLong
  setPc pc
  return C.RTS

/-- interpreter.rs L2017-2023: `execute_stop`. -/
def executeStop (C : CpuDetails) (imm : U16) : Exec M Nat := do
  checkSupervisor
  modifySr fun _ => StatusRegister.ofU16 imm
  setStop true
  return C.STOP

/-- interpreter.rs L2305-2307: `execute_trap`. `Trap0Instruction as u8 + vector` cannot overflow: the vector has four bits. -/
def executeTrap (vector : U8) : Exec M Nat :=
  throw (32 + vector)

/-- interpreter.rs L2309-2315: `execute_trapv`. -/
def executeTrapv (C : CpuDetails) : Exec M Nat := do
  let sr ← getSr
  (if sr.v then throw 7 else return C.TRAPV_NO_TRAP)

end Exec
end M68k
