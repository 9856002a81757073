import Verif.Model.Alu
/-
Arithmetic instructions of `m68000/src/interpreter.rs`.
-/
namespace M68k
namespace Exec
variable {M : Type} [MemoryAccess M]

/-- interpreter.rs L2355-2367: `single_operands_time`. -/
def singleOperandsTime (isLong inRegister : Bool) (regbw regl membw meml : Nat) : Nat :=
  if inRegister then
    if isLong then regl else regbw
  else if isLong then meml
  else membw

/-- The operand read of `(An) := -(An)` pairs in ABCD, ADDX, SBCD, SUBX: both registers are
decremented, then the source and the destination are read (e.g. interpreter.rs L44-46). -/
def predecPairByte (src dst : U8) : Exec M (U8 × U8) := do
  let srcAddr ← ariwpr src .Byte
  let dstAddr ← ariwpr dst .Byte
  let s ← mem (MemoryAccess.getByte srcAddr)
  let d ← mem (MemoryAccess.getByte dstAddr)
  return (s, d)

/-- As `predecPairByte` with word operands (e.g. interpreter.rs L289-291). -/
def predecPairWord (src dst : U8) : Exec M (U16 × U16) := do
  let srcAddr ← ariwpr src .Word
  let dstAddr ← ariwpr dst .Word
  let srcAddr ← even srcAddr
  let s ← mem (MemoryAccess.getWord srcAddr)
  let dstAddr ← even dstAddr
  let d ← mem (MemoryAccess.getWord dstAddr)
  return (s, d)

/-- As `predecPairByte` with long operands (e.g. interpreter.rs L309-311). -/
def predecPairLong (src dst : U8) : Exec M (U32 × U32) := do
  let srcAddr ← ariwpr src .Long
  let dstAddr ← ariwpr dst .Long
  let srcAddr ← even srcAddr
  let s ← mem (MemoryAccess.getLong srcAddr)
  let dstAddr ← even dstAddr
  let d ← mem (MemoryAccess.getLong dstAddr)
  return (s, d)

/-- interpreter.rs L42-79: `execute_abcd`. -/
def executeAbcd (C : CpuDetails) (rx : U8) (mode : Direction) (ry : U8) : Exec M Nat := do
  let (src, dst) ← (if mode = .MemoryToMemory then predecPairByte ry rx
    else do
      let s ← getD ry
      let d ← getD rx
      return (toU8 s, toU8 d))
  let res ← alu (Alu.abcd · src dst)
  (if mode = .MemoryToMemory then do
    let a ← getA rx
    mem (MemoryAccess.setByte a res)
    return C.ABCD_MEM
  else do
    setDByte rx res
    return C.ABCD_REG)

/-- interpreter.rs L104-164: `execute_add`. -/
def executeAdd (C : CpuDetails) (reg : U8) (dir : Direction) (size : Size) (am : AddressingMode) : Exec M Nat :=
  let ea := EffectiveAddress.new am (some size)
  match size with
  | .Byte => do
    let (src, dst, ea, t) ← (if dir = .DstEa then do
        let d ← getD reg
        let (v, ea, t) ← getByte C ea C.ADD_MEM_BW
        return (toU8 d, v, ea, t)
      else do
        let (v, ea, t) ← getByte C ea C.ADD_REG_BW
        let d ← getD reg
        return (v, toU8 d, ea, t))
    let res ← alu (Alu.add false · dst src)
    (if dir = .DstEa then setByte C ea t res
     else do
      setDByte reg res
      return t)
  | .Word => do
    let (src, dst, ea, t) ← (if dir = .DstEa then do
        let d ← getD reg
        let (v, ea, t) ← getWord C ea C.ADD_MEM_BW
        return (toU16 d, v, ea, t)
      else do
        let (v, ea, t) ← getWord C ea C.ADD_REG_BW
        let d ← getD reg
        return (v, toU16 d, ea, t))
    let res ← alu (Alu.add false · dst src)
    (if dir = .DstEa then setWord C ea t res
     else do
      setDWord reg res
      return t)
  | .Long => do
    let (src, dst, ea, t) ← (if dir = .DstEa then do
        let d ← getD reg
        let (v, ea, t) ← getLong C ea C.ADD_MEM_L
        return (d, v, ea, t)
      else do
        let (v, ea, t) ← getLong C ea (if am.isDard || am.isImmediate then C.ADD_REG_L_RDIMM else C.ADD_REG_L)
        let d ← getD reg
        return (v, d, ea, t))
    let res ← alu (Alu.add false · dst src)
    (if dir = .DstEa then setLong C ea t res
     else do
      setD reg res
      return t)

/-- interpreter.rs L2051-2111: `execute_sub`. -/
def executeSub (C : CpuDetails) (reg : U8) (dir : Direction) (size : Size) (am : AddressingMode) : Exec M Nat :=
  let ea := EffectiveAddress.new am (some size)
  match size with
  | .Byte => do
    let (src, dst, ea, t) ← (if dir = .DstEa then do
        let d ← getD reg
        let (v, ea, t) ← getByte C ea C.SUB_MEM_BW
        return (toU8 d, v, ea, t)
      else do
        let (v, ea, t) ← getByte C ea C.SUB_REG_BW
        let d ← getD reg
        return (v, toU8 d, ea, t))
    let res ← alu (Alu.sub false false · dst src)
    (if dir = .DstEa then setByte C ea t res
     else do
      setDByte reg res
      return t)
  | .Word => do
    let (src, dst, ea, t) ← (if dir = .DstEa then do
        let d ← getD reg
        let (v, ea, t) ← getWord C ea C.SUB_MEM_BW
        return (toU16 d, v, ea, t)
      else do
        let (v, ea, t) ← getWord C ea C.SUB_REG_BW
        let d ← getD reg
        return (v, toU16 d, ea, t))
    let res ← alu (Alu.sub false false · dst src)
    (if dir = .DstEa then setWord C ea t res
     else do
      setDWord reg res
      return t)
  | .Long => do
    let (src, dst, ea, t) ← (if dir = .DstEa then do
        let d ← getD reg
        let (v, ea, t) ← getLong C ea C.SUB_MEM_L
        return (d, v, ea, t)
      else do
        let (v, ea, t) ← getLong C ea (if am.isDard || am.isImmediate then C.SUB_REG_L_RDIMM else C.SUB_REG_L)
        let d ← getD reg
        return (v, d, ea, t))
    let res ← alu (Alu.sub false false · dst src)
    (if dir = .DstEa then setLong C ea t res
     else do
      setD reg res
      return t)

/-- interpreter.rs L166-186: `execute_adda`. -/
def executeAdda (C : CpuDetails) (reg : U8) (size : Size) (am : AddressingMode) : Exec M Nat := do
  let ea := EffectiveAddress.new am (some size)
  let (src, t) ← (if size.isWord then do
      let (v, _, t) ← getWord C ea C.ADDA_WORD
      return (sext16 v, t)
    else do
      let (v, _, t) ← getLong C ea
        (if am.isDard || am.isImmediate then C.ADDA_LONG_RDIMM else C.ADDA_LONG)
      return (v, t))
  let a ← getA reg
  setA reg (a + src)
  return t

/-- interpreter.rs L2113-2133: `execute_suba`. -/
def executeSuba (C : CpuDetails) (reg : U8) (size : Size) (am : AddressingMode) : Exec M Nat := do
  let ea := EffectiveAddress.new am (some size)
  let (src, t) ← (if size.isWord then do
      let (v, _, t) ← getWord C ea C.SUBA_WORD
      return (sext16 v, t)
    else do
      let (v, _, t) ← getLong C ea
        (if am.isDard || am.isImmediate then C.SUBA_LONG_RDIMM else C.SUBA_LONG)
      return (v, t))
  let a ← getA reg
  setA reg (a - src)
  return t

/-- interpreter.rs L188-221: `execute_addi`. -/
def executeAddi (C : CpuDetails) (size : Size) (am : AddressingMode) (imm : U32) : Exec M Nat :=
  let ea := EffectiveAddress.new am (some size)
  match size with
  | .Byte => do
    let (data, ea, t) ← getByte C ea (if am.isDrd then C.ADDI_REG_BW else C.ADDI_MEM_BW)
    let res ← alu (Alu.add false · data (toU8 imm))
    setByte C ea t res
  | .Word => do
    let (data, ea, t) ← getWord C ea (if am.isDrd then C.ADDI_REG_BW else C.ADDI_MEM_BW)
    let res ← alu (Alu.add false · data (toU16 imm))
    setWord C ea t res
  | .Long => do
    let (data, ea, t) ← getLong C ea (if am.isDrd then C.ADDI_REG_L else C.ADDI_MEM_L)
    let res ← alu (Alu.add false · data imm)
    setLong C ea t res

/-- interpreter.rs L2135-2168: `execute_subi`. -/
def executeSubi (C : CpuDetails) (size : Size) (am : AddressingMode) (imm : U32) : Exec M Nat :=
  let ea := EffectiveAddress.new am (some size)
  match size with
  | .Byte => do
    let (data, ea, t) ← getByte C ea (if am.isDrd then C.SUBI_REG_BW else C.SUBI_MEM_BW)
    let res ← alu (Alu.sub false false · data (toU8 imm))
    setByte C ea t res
  | .Word => do
    let (data, ea, t) ← getWord C ea (if am.isDrd then C.SUBI_REG_BW else C.SUBI_MEM_BW)
    let res ← alu (Alu.sub false false · data (toU16 imm))
    setWord C ea t res
  | .Long => do
    let (data, ea, t) ← getLong C ea (if am.isDrd then C.SUBI_REG_L else C.SUBI_MEM_L)
    let res ← alu (Alu.sub false false · data imm)
    setLong C ea t res

/-- interpreter.rs L223-263: `execute_addq`. -/
def executeAddq (C : CpuDetails) (imm : U8) (size : Size) (am : AddressingMode) : Exec M Nat :=
  let imm : U8 := if imm = 0 then 8 else imm
  match am with
  | .Ard reg => do
    let a ← getA reg
    setA reg (a + toU32 imm)
    return (if size.isLong then C.ADDQ_REG_L else C.ADDQ_REG_BW)
  | _ =>
    let ea := EffectiveAddress.new am (some size)
    match size with
    | .Byte => do
      let (data, ea, t) ← getByte C ea (if am.isDrd then C.ADDQ_REG_BW else C.ADDQ_MEM_BW)
      let res ← alu (Alu.add false · data imm)
      setByte C ea t res
    | .Word => do
      let (data, ea, t) ← getWord C ea (if am.isDrd then C.ADDQ_REG_BW else C.ADDQ_MEM_BW)
      let res ← alu (Alu.add false · data (toU16 imm))
      setWord C ea t res
    | .Long => do
      let (data, ea, t) ← getLong C ea (if am.isDrd then C.ADDQ_REG_L else C.ADDQ_MEM_L)
      let res ← alu (Alu.add false · data (toU32 imm))
      setLong C ea t res

/-- interpreter.rs L2170-2210: `execute_subq`. -/
def executeSubq (C : CpuDetails) (imm : U8) (size : Size) (am : AddressingMode) : Exec M Nat :=
  let imm : U8 := if imm = 0 then 8 else imm
  match am with
  | .Ard reg => do
    let a ← getA reg
    setA reg (a - toU32 imm)
    return (if size.isLong then C.SUBQ_REG_L else C.SUBQ_AREG_BW)
  | _ =>
    let ea := EffectiveAddress.new am (some size)
    match size with
    | .Byte => do
      let (data, ea, t) ← getByte C ea (if am.isDrd then C.SUBQ_DREG_BW else C.SUBQ_MEM_BW)
      let res ← alu (Alu.sub false false · data imm)
      setByte C ea t res
    | .Word => do
      let (data, ea, t) ← getWord C ea (if am.isDrd then C.SUBQ_DREG_BW else C.SUBQ_MEM_BW)
      let res ← alu (Alu.sub false false · data (toU16 imm))
      setWord C ea t res
    | .Long => do
      let (data, ea, t) ← getLong C ea (if am.isDrd then C.SUBQ_REG_L else C.SUBQ_MEM_L)
      let res ← alu (Alu.sub false false · data (toU32 imm))
      setLong C ea t res

/-- interpreter.rs L265-325: `execute_addx`. The write address needs no second alignment check in the code. -/
def executeAddx (C : CpuDetails) (rx : U8) (size : Size) (mode : Direction) (ry : U8) : Exec M Nat :=
  match size with
  | .Byte => do
    let (src, dst) ← (if mode = .MemoryToMemory then predecPairByte ry rx
      else do
        let s ← getD ry
        let d ← getD rx
        return (toU8 s, toU8 d))
    let res ← alu (Alu.add true · dst src)
    (if mode = .MemoryToMemory then do
      let a ← getA rx
      mem (MemoryAccess.setByte a res)
      return C.ADDX_MEM_BW
    else do
      setDByte rx res
      return C.ADDX_REG_BW)
  | .Word => do
    let (src, dst) ← (if mode = .MemoryToMemory then predecPairWord ry rx
      else do
        let s ← getD ry
        let d ← getD rx
        return (toU16 s, toU16 d))
    let res ← alu (Alu.add true · dst src)
    (if mode = .MemoryToMemory then do
      let a ← getA rx
      mem (MemoryAccess.setWord a res)
      return C.ADDX_MEM_BW
    else do
      setDWord rx res
      return C.ADDX_REG_BW)
  | .Long => do
    let (src, dst) ← (if mode = .MemoryToMemory then predecPairLong ry rx
      else do
        let s ← getD ry
        let d ← getD rx
        return (s, d))
    let res ← alu (Alu.add true · dst src)
    (if mode = .MemoryToMemory then do
      let a ← getA rx
      mem (MemoryAccess.setLong a res)
      return C.ADDX_MEM_L
    else do
      setD rx res
      return C.ADDX_REG_L)

/-- interpreter.rs L2212-2272: `execute_subx`. -/
def executeSubx (C : CpuDetails) (ry : U8) (size : Size) (mode : Direction) (rx : U8) : Exec M Nat :=
  match size with
  | .Byte => do
    let (src, dst) ← (if mode = .MemoryToMemory then predecPairByte rx ry
      else do
        let s ← getD rx
        let d ← getD ry
        return (toU8 s, toU8 d))
    let res ← alu (Alu.sub true false · dst src)
    (if mode = .MemoryToMemory then do
      let a ← getA ry
      mem (MemoryAccess.setByte a res)
      return C.SUBX_MEM_BW
    else do
      setDByte ry res
      return C.SUBX_REG_BW)
  | .Word => do
    let (src, dst) ← (if mode = .MemoryToMemory then predecPairWord rx ry
      else do
        let s ← getD rx
        let d ← getD ry
        return (toU16 s, toU16 d))
    let res ← alu (Alu.sub true false · dst src)
    (if mode = .MemoryToMemory then do
      let a ← getA ry
      mem (MemoryAccess.setWord a res)
      return C.SUBX_MEM_BW
    else do
      setDWord ry res
      return C.SUBX_REG_BW)
  | .Long => do
    let (src, dst) ← (if mode = .MemoryToMemory then predecPairLong rx ry
      else do
        let s ← getD rx
        let d ← getD ry
        return (s, d))
    let res ← alu (Alu.sub true false · dst src)
    (if mode = .MemoryToMemory then do
      let a ← getA ry
      mem (MemoryAccess.setLong a res)
      return C.SUBX_MEM_L
    else do
      setD ry res
      return C.SUBX_REG_L)

/-- interpreter.rs L715-745: `execute_cmp`. -/
def executeCmp (C : CpuDetails) (reg : U8) (size : Size) (am : AddressingMode) : Exec M Nat :=
  let ea := EffectiveAddress.new am (some size)
  match size with
  | .Byte => do
    let (src, _, t) ← getByte C ea C.CMP_BW
    let d ← getD reg
    let _ ← alu (Alu.sub false true · (toU8 d) src)
    return t
  | .Word => do
    let (src, _, t) ← getWord C ea C.CMP_BW
    let d ← getD reg
    let _ ← alu (Alu.sub false true · (toU16 d) src)
    return t
  | .Long => do
    let (src, _, t) ← getLong C ea C.CMP_L
    let d ← getD reg
    let _ ← alu (Alu.sub false true · d src)
    return t

/-- interpreter.rs L747-761: `execute_cmpa`. -/
def executeCmpa (C : CpuDetails) (reg : U8) (size : Size) (am : AddressingMode) : Exec M Nat := do
  let ea := EffectiveAddress.new am (some size)
  let (src, t) ← (if size.isWord then do
      let (v, _, t) ← getWord C ea C.CMPA
      return (sext16 v, t)
    else do
      let (v, _, t) ← getLong C ea C.CMPA
      return (v, t))
  let a ← getA reg
  let _ ← alu (Alu.sub false true · a src)
  return t

/-- interpreter.rs L763-790: `execute_cmpi`. -/
def executeCmpi (C : CpuDetails) (size : Size) (am : AddressingMode) (imm : U32) : Exec M Nat :=
  let ea := EffectiveAddress.new am (some size)
  match size with
  | .Byte => do
    let (data, _, t) ← getByte C ea (if am.isDrd then C.CMPI_REG_BW else C.CMPI_MEM_BW)
    let _ ← alu (Alu.sub false true · data (toU8 imm))
    return t
  | .Word => do
    let (data, _, t) ← getWord C ea (if am.isDrd then C.CMPI_REG_BW else C.CMPI_MEM_BW)
    let _ ← alu (Alu.sub false true · data (toU16 imm))
    return t
  | .Long => do
    let (data, _, t) ← getLong C ea (if am.isDrd then C.CMPI_REG_L else C.CMPI_MEM_L)
    let _ ← alu (Alu.sub false true · data imm)
    return t

/-- interpreter.rs L792-822: `execute_cmpm`. -/
def executeCmpm (C : CpuDetails) (ax : U8) (size : Size) (ay : U8) : Exec M Nat := do
  let addry ← ariwpo ay size
  let addrx ← ariwpo ax size
  match size with
  | .Byte => do
    let src ← mem (MemoryAccess.getByte addry)
    let dst ← mem (MemoryAccess.getByte addrx)
    let _ ← alu (Alu.sub false true · dst src)
    return C.CMPM_BW
  | .Word => do
    let addry ← even addry
    let src ← mem (MemoryAccess.getWord addry)
    let addrx ← even addrx
    let dst ← mem (MemoryAccess.getWord addrx)
    let _ ← alu (Alu.sub false true · dst src)
    return C.CMPM_BW
  | .Long => do
    let addry ← even addry
    let src ← mem (MemoryAccess.getLong addry)
    let addrx ← even addrx
    let dst ← mem (MemoryAccess.getLong addrx)
    let _ ← alu (Alu.sub false true · dst src)
    return C.CMPM_L

/-- interpreter.rs L844-870: `execute_divs`. `wrapping_div`/`wrapping_rem` are `BitVec.sdiv`/`BitVec.srem` (truncating, wrapping). -/
def executeDivs (C : CpuDetails) (reg : U8) (am : AddressingMode) : Exec M Nat := do
  let ea := EffectiveAddress.new am (some .Word)
  modifySr fun sr => { sr with c := false }
  let (w, _, t) ← getWord C ea C.DIVS
  let src : U32 := sext16 w
  (if src = 0 then do
    modifySr fun sr => { sr with z := true }
    throw 5
  else do
    let dst ← getD reg
    let quot := dst.sdiv src
    let rem := dst.srem src
    let v : Bool := quot.sle (-0x8000) || (0x7FFF : U32).slt quot
    modifySr fun sr => { sr with n := (toU16 quot).slt 0, z := toU16 quot == 0, v := v }
    (if !v then setD reg (toU32 (toU16 rem) <<< 16 ||| toU32 (toU16 quot)) else pure ())
    return t)

/-- interpreter.rs L876-905: `execute_divu`. -/
def executeDivu (C : CpuDetails) (reg : U8) (am : AddressingMode) : Exec M Nat := do
  let ea := EffectiveAddress.new am (some .Word)
  modifySr fun sr => { sr with c := false }
  let (w, _, t) ← getWord C ea C.DIVU
  let src : U32 := toU32 w
  (if src = 0 then do
    modifySr fun sr => { sr with z := true }
    throw 5
  else do
    let dst ← getD reg
    let quot := dst / src
    let rem := dst % src
    let v : Bool := quot > 0xFFFF
    modifySr fun sr => { sr with n := false, z := quot == 0, v := v }
    (if !v then do
      setD reg (rem <<< 16 ||| (quot &&& 0x0000FFFF))
      modifySr fun sr => { sr with n := (toU16 quot).slt 0, z := toU16 quot == 0 }
    else pure ())
    return t)

/-- interpreter.rs L1436-1453: `execute_muls`. -/
def executeMuls (C : CpuDetails) (reg : U8) (am : AddressingMode) : Exec M Nat := do
  let ea := EffectiveAddress.new am (some .Word)
  let (w, _, t) ← getWord C ea C.MULS
  let src : U32 := sext16 w
  let d ← getD reg
  let dst : U32 := sext16 (toU16 d)
  let res := src * dst
  setD reg res
  modifySr fun sr => { sr with n := res.slt 0, z := res == 0, v := false, c := false }
  return t

/-- interpreter.rs L1455-1472: `execute_mulu`. -/
def executeMulu (C : CpuDetails) (reg : U8) (am : AddressingMode) : Exec M Nat := do
  let ea := EffectiveAddress.new am (some .Word)
  let (w, _, t) ← getWord C ea C.MULU
  let src : U32 := toU32 w
  let d ← getD reg
  let dst : U32 := toU32 (toU16 d)
  let res := src * dst
  setD reg res
  modifySr fun sr => { sr with n := (res &&& SIGN_BIT_32) != 0, z := res == 0, v := false, c := false }
  return t

/-- interpreter.rs L1474-1486: `execute_nbcd`. -/
def executeNbcd (C : CpuDetails) (am : AddressingMode) : Exec M Nat := do
  let ea := EffectiveAddress.new am (some .Byte)
  let (src, ea, t) ← getByte C ea (if am.isDrd then C.NBCD_REG else C.NBCD_MEM)
  let res ← alu (Alu.sbcd · 0 src)
  setByte C ea t res

/-- interpreter.rs L1488-1518: `execute_neg`. -/
def executeNeg (C : CpuDetails) (size : Size) (am : AddressingMode) : Exec M Nat :=
  let t := singleOperandsTime size.isLong am.isDrd C.NEG_REG_BW C.NEG_REG_L C.NEG_MEM_BW C.NEG_MEM_L
  let ea := EffectiveAddress.new am (some size)
  match size with
  | .Byte => do
    let (data, ea, t) ← getByte C ea t
    let res ← alu (Alu.sub false false · 0 data)
    setByte C ea t res
  | .Word => do
    let (data, ea, t) ← getWord C ea t
    let res ← alu (Alu.sub false false · 0 data)
    setWord C ea t res
  | .Long => do
    let (data, ea, t) ← getLong C ea t
    let res ← alu (Alu.sub false false · 0 data)
    setLong C ea t res

/-- interpreter.rs L1520-1550: `execute_negx`. -/
def executeNegx (C : CpuDetails) (size : Size) (am : AddressingMode) : Exec M Nat :=
  let t := singleOperandsTime size.isLong am.isDrd C.NEGX_REG_BW C.NEGX_REG_L C.NEGX_MEM_BW C.NEGX_MEM_L
  let ea := EffectiveAddress.new am (some size)
  match size with
  | .Byte => do
    let (data, ea, t) ← getByte C ea t
    let res ← alu (Alu.sub true false · 0 data)
    setByte C ea t res
  | .Word => do
    let (data, ea, t) ← getWord C ea t
    let res ← alu (Alu.sub true false · 0 data)
    setWord C ea t res
  | .Long => do
    let (data, ea, t) ← getLong C ea t
    let res ← alu (Alu.sub true false · 0 data)
    setLong C ea t res

/-- interpreter.rs L1985-2003: `execute_sbcd`. -/
def executeSbcd (C : CpuDetails) (ry : U8) (mode : Direction) (rx : U8) : Exec M Nat := do
  let (src, dst) ← (if mode = .MemoryToMemory then predecPairByte rx ry
    else do
      let s ← getD rx
      let d ← getD ry
      return (toU8 s, toU8 d))
  let res ← alu (Alu.sbcd · dst src)
  (if mode = .MemoryToMemory then do
    let a ← getA ry
    mem (MemoryAccess.setByte a res)
    return C.SBCD_MEM
  else do
    setDByte ry res
    return C.SBCD_REG)

end Exec
end M68k
