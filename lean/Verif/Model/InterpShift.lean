import Verif.Model.Alu
/-
Shift and rotate instructions of `m68000/src/interpreter.rs`.
-/
namespace M68k
namespace Exec
variable {M : Type} [MemoryAccess M]

/-- The shift count of the register shifts, interpreter.rs L484-490, L1139-1145, L1775-1781,
L1866-1872 (the four functions have the same text). -/
def shiftCount (rot : U8) (ir : Bool) : Exec M U8 :=
  if ir then do
    let d ← getD rot
    return toU8 (d % 64)
  else if rot = 0 then return 8
  else return rot

/-- The operand and the sign bit mask of the register shifts, interpreter.rs L492-496, L1147-1151,
L1783-1787, L1874-1878. -/
def shiftOperand (size : Size) (reg : U8) : Exec M (U32 × U32) := do
  let d ← getD reg
  return (match size with
    | .Byte => (d &&& 0x000000FF, toU32 SIGN_BIT_8)
    | .Word => (d &&& 0x0000FFFF, toU32 SIGN_BIT_16)
    | .Long => (d, SIGN_BIT_32))

/-- The end of the register shifts: N, the write back, Z and the execution time, interpreter.rs
L519-537, L1169-1187, L1810-1828, L1900-1918. -/
def shiftFinish (bw l cnt : Nat) (size : Size) (reg : U8) (data mask : U32) (count : U8) : Exec M Nat := do
  modifySr fun sr => { sr with n := (data &&& mask) != 0 }
  match size with
  | .Byte => do
    setDByte reg (toU8 data)
    modifySr fun sr => { sr with z := (data &&& 0x000000FF) == 0 }
    return bw + cnt * count.toNat
  | .Word => do
    setDWord reg (toU16 data)
    modifySr fun sr => { sr with z := (data &&& 0x0000FFFF) == 0 }
    return bw + cnt * count.toNat
  | .Long => do
    setD reg data
    modifySr fun sr => { sr with z := data == 0 }
    return l + cnt * count.toNat

/-- interpreter.rs L498-517, L1153-1167, L1789-1807, L1880-1898: a `for` loop on the operand and the status register. -/
def shiftLoop (f : U32 × StatusRegister → U32 × StatusRegister) (count : U8) (data : U32) : Exec M U32 :=
  alu fun sr => Alu.repeatN f count.toNat (data, sr)

/-- interpreter.rs L480-538: `execute_asr`. -/
def executeAsr (C : CpuDetails) (rot : U8) (dir : Direction) (size : Size) (ir : Bool) (reg : U8) : Exec M Nat := do
  modifySr fun sr => { sr with v := false, c := false }
  let count ← shiftCount rot ir
  let (data, mask) ← shiftOperand size reg
  let data ← (if dir = .Left then shiftLoop (Alu.aslStep mask) count data
    else shiftLoop (Alu.asrStep (data &&& mask)) count data)
  shiftFinish C.ASR_BW C.ASR_L C.ASR_COUNT size reg data mask count

/-- interpreter.rs L1135-1188: `execute_lsr`. -/
def executeLsr (C : CpuDetails) (rot : U8) (dir : Direction) (size : Size) (ir : Bool) (reg : U8) : Exec M Nat := do
  modifySr fun sr => { sr with v := false, c := false }
  let count ← shiftCount rot ir
  let (data, mask) ← shiftOperand size reg
  let data ← (if dir = .Left then shiftLoop (Alu.lslStep mask) count data
    else shiftLoop Alu.lsrStep count data)
  shiftFinish C.LSR_BW C.LSR_L C.LSR_COUNT size reg data mask count

/-- interpreter.rs L1771-1828: `execute_ror`. -/
def executeRor (C : CpuDetails) (rot : U8) (dir : Direction) (size : Size) (ir : Bool) (reg : U8) : Exec M Nat := do
  modifySr fun sr => { sr with v := false, c := false }
  let count ← shiftCount rot ir
  let (data, mask) ← shiftOperand size reg
  let data ← (if dir = .Left then shiftLoop (Alu.rolStep mask) count data
    else shiftLoop (Alu.rorStep mask) count data)
  shiftFinish C.ROR_BW C.ROR_L C.ROR_COUNT size reg data mask count

/-- interpreter.rs L1862-1919: `execute_roxr`. -/
def executeRoxr (C : CpuDetails) (rot : U8) (dir : Direction) (size : Size) (ir : Bool) (reg : U8) : Exec M Nat := do
  modifySr fun sr => { sr with v := false, c := sr.x }
  let count ← shiftCount rot ir
  let (data, mask) ← shiftOperand size reg
  let data ← (if dir = .Left then shiftLoop (Alu.roxlStep mask) count data
    else shiftLoop (Alu.roxrStep mask) count data)
  shiftFinish C.ROXR_BW C.ROXR_L C.ROXR_COUNT size reg data mask count

/-- interpreter.rs L451-478: `execute_asm`. -/
def executeAsm (C : CpuDetails) (dir : Direction) (am : AddressingMode) : Exec M Nat := do
  let ea := EffectiveAddress.new am (some .Word)
  let (data, ea, t) ← getWord C ea C.ASM
  let res ← alu fun sr =>
    let sign := data &&& SIGN_BIT_16
    let (res, sr) := if dir = .Left then
        let res := data <<< 1
        (res, { sr with x := sign != 0, v := (sign ^^^ (res &&& SIGN_BIT_16)) != 0, c := sign != 0 })
      else
        let bit := data &&& 1
        let res := data.sshiftRight 1
        (res, { sr with x := bit != 0, v := false, c := bit != 0 })
    (res, { sr with n := res.slt 0, z := res == 0 })
  setWord C ea t res

/-- interpreter.rs L1107-1133: `execute_lsm`. -/
def executeLsm (C : CpuDetails) (dir : Direction) (am : AddressingMode) : Exec M Nat := do
  let ea := EffectiveAddress.new am (some .Word)
  let (data, ea, t) ← getWord C ea C.LSM
  let res ← alu fun sr =>
    let (res, sr) := if dir = .Left then
        let sign := data &&& SIGN_BIT_16
        let res := data <<< 1
        (res, { sr with x := sign != 0, c := sign != 0 })
      else
        let bit := data &&& 1
        let res := data >>> 1
        (res, { sr with x := bit != 0, c := bit != 0 })
    (res, { sr with n := (res &&& SIGN_BIT_16) != 0, z := res == 0, v := false })
  setWord C ea t res

/-- interpreter.rs L1741-1769: `execute_rom`. -/
def executeRom (C : CpuDetails) (dir : Direction) (am : AddressingMode) : Exec M Nat := do
  let ea := EffectiveAddress.new am (some .Word)
  let (data, ea, t) ← getWord C ea C.ROM
  let res ← alu fun sr =>
    let sign := data &&& SIGN_BIT_16
    let (res, sr) := if dir = .Left then
        let res := data <<< 1
        let res := res ||| boolTo 16 (sign != 0)
        (res, { sr with c := sign != 0 })
      else
        let bit := data &&& 1
        let res := data >>> 1
        let res := if bit != 0 then res ||| SIGN_BIT_16 else res
        (res, { sr with c := bit != 0 })
    (res, { sr with n := (res &&& SIGN_BIT_16) != 0, z := res == 0, v := false })
  setWord C ea t res

/-- interpreter.rs L1830-1860: `execute_roxm`. -/
def executeRoxm (C : CpuDetails) (dir : Direction) (am : AddressingMode) : Exec M Nat := do
  let ea := EffectiveAddress.new am (some .Word)
  let (data, ea, t) ← getWord C ea C.ROXM
  let res ← alu fun sr =>
    let sign := data &&& SIGN_BIT_16
    let (res, sr) := if dir = .Left then
        let res := data <<< 1
        let res := res ||| boolTo 16 sr.x
        (res, { sr with x := sign != 0, c := sign != 0 })
      else
        let bit := data &&& 1
        let res := data >>> 1
        let res := if sr.x then res ||| SIGN_BIT_16 else res
        (res, { sr with x := bit != 0, c := bit != 0 })
    (res, { sr with n := (res &&& SIGN_BIT_16) != 0, z := res == 0, v := false })
  setWord C ea t res

end Exec
end M68k
