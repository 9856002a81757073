import Verif.Model.InterpArith
/-
Logical, test and set instructions of `m68000/src/interpreter.rs`.
-/
namespace M68k
namespace Exec
variable {M : Type} [MemoryAccess M]

/-- interpreter.rs L403-436: `execute_andi`. -/
def executeAndi (C : CpuDetails) (size : Size) (am : AddressingMode) (imm : U32) : Exec M Nat :=
  let ea := EffectiveAddress.new am (some size)
  match size with
  | .Byte => do
    let (data, ea, t) ← getByte C ea (if am.isDrd then C.ANDI_REG_BW else C.ANDI_MEM_BW)
    let res ← alu (Alu.and · data (toU8 imm))
    setByte C ea t res
  | .Word => do
    let (data, ea, t) ← getWord C ea (if am.isDrd then C.ANDI_REG_BW else C.ANDI_MEM_BW)
    let res ← alu (Alu.and · data (toU16 imm))
    setWord C ea t res
  | .Long => do
    let (data, ea, t) ← getLong C ea (if am.isDrd then C.ANDI_REG_L else C.ANDI_MEM_L)
    let res ← alu (Alu.and · data imm)
    setLong C ea t res

/-- interpreter.rs L959-992: `execute_eori`. -/
def executeEori (C : CpuDetails) (size : Size) (am : AddressingMode) (imm : U32) : Exec M Nat :=
  let ea := EffectiveAddress.new am (some size)
  match size with
  | .Byte => do
    let (data, ea, t) ← getByte C ea (if am.isDrd then C.EORI_REG_BW else C.EORI_MEM_BW)
    let res ← alu (Alu.eor · data (toU8 imm))
    setByte C ea t res
  | .Word => do
    let (data, ea, t) ← getWord C ea (if am.isDrd then C.EORI_REG_BW else C.EORI_MEM_BW)
    let res ← alu (Alu.eor · data (toU16 imm))
    setWord C ea t res
  | .Long => do
    let (data, ea, t) ← getLong C ea (if am.isDrd then C.EORI_REG_L else C.EORI_MEM_L)
    let res ← alu (Alu.eor · data imm)
    setLong C ea t res

/-- interpreter.rs L1667-1700: `execute_ori`. -/
def executeOri (C : CpuDetails) (size : Size) (am : AddressingMode) (imm : U32) : Exec M Nat :=
  let ea := EffectiveAddress.new am (some size)
  match size with
  | .Byte => do
    let (data, ea, t) ← getByte C ea (if am.isDrd then C.ORI_REG_BW else C.ORI_MEM_BW)
    let res ← alu (Alu.or · data (toU8 imm))
    setByte C ea t res
  | .Word => do
    let (data, ea, t) ← getWord C ea (if am.isDrd then C.ORI_REG_BW else C.ORI_MEM_BW)
    let res ← alu (Alu.or · data (toU16 imm))
    setWord C ea t res
  | .Long => do
    let (data, ea, t) ← getLong C ea (if am.isDrd then C.ORI_REG_L else C.ORI_MEM_L)
    let res ← alu (Alu.or · data imm)
    setLong C ea t res

/-- interpreter.rs L341-401: `execute_and`. -/
def executeAnd (C : CpuDetails) (reg : U8) (dir : Direction) (size : Size) (am : AddressingMode) : Exec M Nat :=
  let ea := EffectiveAddress.new am (some size)
  match size with
  | .Byte => do
    let d ← getD reg
    let (dst, ea, t) ← getByte C ea (if dir = .DstEa then C.AND_MEM_BW else C.AND_REG_BW)
    let res ← alu (Alu.and · dst (toU8 d))
    (if dir = .DstEa then setByte C ea t res
     else do
      setDByte reg res
      return t)
  | .Word => do
    let d ← getD reg
    let (dst, ea, t) ← getWord C ea (if dir = .DstEa then C.AND_MEM_BW else C.AND_REG_BW)
    let res ← alu (Alu.and · dst (toU16 d))
    (if dir = .DstEa then setWord C ea t res
     else do
      setDWord reg res
      return t)
  | .Long => do
    let d ← getD reg
    let (dst, ea, t) ← getLong C ea (if dir = .DstEa then C.AND_MEM_L else (if am.isDard || am.isImmediate then C.AND_REG_L_RDIMM else C.AND_REG_L))
    let res ← alu (Alu.and · dst d)
    (if dir = .DstEa then setLong C ea t res
     else do
      setD reg res
      return t)

/-- interpreter.rs L1605-1665: `execute_or`. -/
def executeOr (C : CpuDetails) (reg : U8) (dir : Direction) (size : Size) (am : AddressingMode) : Exec M Nat :=
  let ea := EffectiveAddress.new am (some size)
  match size with
  | .Byte => do
    let d ← getD reg
    let (dst, ea, t) ← getByte C ea (if dir = .DstEa then C.OR_MEM_BW else C.OR_REG_BW)
    let res ← alu (Alu.or · dst (toU8 d))
    (if dir = .DstEa then setByte C ea t res
     else do
      setDByte reg res
      return t)
  | .Word => do
    let d ← getD reg
    let (dst, ea, t) ← getWord C ea (if dir = .DstEa then C.OR_MEM_BW else C.OR_REG_BW)
    let res ← alu (Alu.or · dst (toU16 d))
    (if dir = .DstEa then setWord C ea t res
     else do
      setDWord reg res
      return t)
  | .Long => do
    let d ← getD reg
    let (dst, ea, t) ← getLong C ea (if dir = .DstEa then C.OR_MEM_L else (if am.isDard || am.isImmediate then C.OR_REG_L_RDIMM else C.OR_REG_L))
    let res ← alu (Alu.or · dst d)
    (if dir = .DstEa then setLong C ea t res
     else do
      setD reg res
      return t)

/-- interpreter.rs L921-957: `execute_eor`. -/
def executeEor (C : CpuDetails) (reg : U8) (size : Size) (am : AddressingMode) : Exec M Nat :=
  let ea := EffectiveAddress.new am (some size)
  match size with
  | .Byte => do
    let d ← getD reg
    let (dst, ea, t) ← getByte C ea (if am.isDrd then C.EOR_REG_BW else C.EOR_MEM_BW)
    let res ← alu (Alu.eor · dst (toU8 d))
    setByte C ea t res
  | .Word => do
    let d ← getD reg
    let (dst, ea, t) ← getWord C ea (if am.isDrd then C.EOR_REG_BW else C.EOR_MEM_BW)
    let res ← alu (Alu.eor · dst (toU16 d))
    setWord C ea t res
  | .Long => do
    let d ← getD reg
    let (dst, ea, t) ← getLong C ea (if am.isDrd then C.EOR_REG_L else C.EOR_MEM_L)
    let res ← alu (Alu.eor · dst d)
    setLong C ea t res

/-- interpreter.rs L1556-1589: `execute_not`. -/
def executeNot (C : CpuDetails) (size : Size) (am : AddressingMode) : Exec M Nat :=
  let t := singleOperandsTime size.isLong am.isDrd C.NOT_REG_BW C.NOT_REG_L C.NOT_MEM_BW C.NOT_MEM_L
  let ea := EffectiveAddress.new am (some size)
  match size with
  | .Byte => do
    let (data, ea, t) ← getByte C ea t
    let data := ~~~data
    let t ← setByte C ea t data
    modifySr fun sr => { sr with n := (data &&& SIGN_BIT_8) != 0, z := data == 0 }
    modifySr fun sr => { sr with v := false, c := false }
    return t
  | .Word => do
    let (data, ea, t) ← getWord C ea t
    let data := ~~~data
    let t ← setWord C ea t data
    modifySr fun sr => { sr with n := (data &&& SIGN_BIT_16) != 0, z := data == 0 }
    modifySr fun sr => { sr with v := false, c := false }
    return t
  | .Long => do
    let (data, ea, t) ← getLong C ea t
    let data := ~~~data
    let t ← setLong C ea t data
    modifySr fun sr => { sr with n := (data &&& SIGN_BIT_32) != 0, z := data == 0 }
    modifySr fun sr => { sr with v := false, c := false }
    return t

/-- interpreter.rs L2317-2344: `execute_tst`. -/
def executeTst (C : CpuDetails) (size : Size) (am : AddressingMode) : Exec M Nat :=
  let t := singleOperandsTime size.isLong am.isDrd C.TST_REG_BW C.TST_REG_L C.TST_MEM_BW C.TST_MEM_L
  let ea := EffectiveAddress.new am (some size)
  match size with
  | .Byte => do
    let (data, _, t) ← getByte C ea t
    modifySr fun sr => { sr with n := (data &&& SIGN_BIT_8) != 0, z := data == 0 }
    modifySr fun sr => { sr with v := false, c := false }
    return t
  | .Word => do
    let (data, _, t) ← getWord C ea t
    modifySr fun sr => { sr with n := (data &&& SIGN_BIT_16) != 0, z := data == 0 }
    modifySr fun sr => { sr with v := false, c := false }
    return t
  | .Long => do
    let (data, _, t) ← getLong C ea t
    modifySr fun sr => { sr with n := (data &&& SIGN_BIT_32) != 0, z := data == 0 }
    modifySr fun sr => { sr with v := false, c := false }
    return t

/-- interpreter.rs L696-713: `execute_clr`. -/
def executeClr (C : CpuDetails) (size : Size) (am : AddressingMode) : Exec M Nat := do
  let t := singleOperandsTime size.isLong am.isDrd C.CLR_REG_BW C.CLR_REG_L C.CLR_MEM_BW C.CLR_MEM_L
  let ea := EffectiveAddress.new am (some size)
  let t ← (match size with
    | .Byte => setByte C ea t 0
    | .Word => setWord C ea t 0
    | .Long => setLong C ea t 0)
  modifySr fun sr => { sr with n := false, z := true, v := false, c := false }
  return t

/-- interpreter.rs L2287-2303: `execute_tas`. -/
def executeTas (C : CpuDetails) (am : AddressingMode) : Exec M Nat := do
  let ea := EffectiveAddress.new am (some .Byte)
  let (data, ea, t) ← getByte C ea (if am.isDrd then C.TAS_REG else C.TAS_MEM)
  modifySr fun sr => { sr with n := (data &&& SIGN_BIT_8) != 0, z := data == 0, v := false, c := false }
  setByte C ea t (data ||| SIGN_BIT_8)

/-- interpreter.rs L2005-2015: `execute_scc`. -/
def executeScc (C : CpuDetails) (cc : U8) (am : AddressingMode) : Exec M Nat := do
  let condition ← testCondition cc
  let t := singleOperandsTime condition am.isDrd C.SCC_REG_FALSE C.SCC_REG_TRUE C.SCC_MEM_FALSE C.SCC_MEM_TRUE
  let ea := EffectiveAddress.new am (some .Byte)
  setByte C ea t (if condition then 0xFF else 0)

end Exec
end M68k
