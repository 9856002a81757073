import Verif.Model.Alu
/-
Bit manipulation instructions of `m68000/src/interpreter.rs`.
-/
namespace M68k
namespace Exec
variable {M : Type} [MemoryAccess M]

/-- interpreter.rs L553-578: `execute_bchg`. -/
def executeBchg (C : CpuDetails) (am : AddressingMode) (count : U8) : Exec M Nat := do
  let opcode ← getCurrentOpcode
  let (count, t) ← (if bits opcode 8 8 != 0 then do
      let d ← getD count
      return (toU8 d, if am.isDrd then C.BCHG_DYN_REG else C.BCHG_DYN_MEM)
    else pure (count, if am.isDrd then C.BCHG_STA_REG else C.BCHG_STA_MEM))
  match am with
  | .Drd reg => do
    let count := count % 32
    let d ← getD reg
    modifySr fun sr => { sr with z := (d &&& ((1 : U32) <<< count.toNat)) == 0 }
    setD reg (d ^^^ ((1 : U32) <<< count.toNat))
    return t
  | _ => do
    let ea := EffectiveAddress.new am (some .Byte)
    let count := count % 8
    let (data, ea, t) ← getByte C ea t
    modifySr fun sr => { sr with z := (data &&& ((1 : U8) <<< count.toNat)) == 0 }
    setByte C ea t (data ^^^ ((1 : U8) <<< count.toNat))

/-- interpreter.rs L580-605: `execute_bclr`. -/
def executeBclr (C : CpuDetails) (am : AddressingMode) (count : U8) : Exec M Nat := do
  let opcode ← getCurrentOpcode
  let (count, t) ← (if bits opcode 8 8 != 0 then do
      let d ← getD count
      return (toU8 d, if am.isDrd then C.BCLR_DYN_REG else C.BCLR_DYN_MEM)
    else pure (count, if am.isDrd then C.BCLR_STA_REG else C.BCLR_STA_MEM))
  match am with
  | .Drd reg => do
    let count := count % 32
    let d ← getD reg
    modifySr fun sr => { sr with z := (d &&& ((1 : U32) <<< count.toNat)) == 0 }
    setD reg (d &&& ~~~((1 : U32) <<< count.toNat))
    return t
  | _ => do
    let ea := EffectiveAddress.new am (some .Byte)
    let count := count % 8
    let (data, ea, t) ← getByte C ea t
    modifySr fun sr => { sr with z := (data &&& ((1 : U8) <<< count.toNat)) == 0 }
    setByte C ea t (data &&& ~~~((1 : U8) <<< count.toNat))

/-- interpreter.rs L617-642: `execute_bset`. -/
def executeBset (C : CpuDetails) (am : AddressingMode) (count : U8) : Exec M Nat := do
  let opcode ← getCurrentOpcode
  let (count, t) ← (if bits opcode 8 8 != 0 then do
      let d ← getD count
      return (toU8 d, if am.isDrd then C.BSET_DYN_REG else C.BSET_DYN_MEM)
    else pure (count, if am.isDrd then C.BSET_STA_REG else C.BSET_STA_MEM))
  match am with
  | .Drd reg => do
    let count := count % 32
    let d ← getD reg
    modifySr fun sr => { sr with z := (d &&& ((1 : U32) <<< count.toNat)) == 0 }
    setD reg (d ||| ((1 : U32) <<< count.toNat))
    return t
  | _ => do
    let ea := EffectiveAddress.new am (some .Byte)
    let count := count % 8
    let (data, ea, t) ← getByte C ea t
    modifySr fun sr => { sr with z := (data &&& ((1 : U8) <<< count.toNat)) == 0 }
    setByte C ea t (data ||| ((1 : U8) <<< count.toNat))

/-- interpreter.rs L655-677: `execute_btst`. -/
def executeBtst (C : CpuDetails) (am : AddressingMode) (count : U8) : Exec M Nat := do
  let opcode ← getCurrentOpcode
  let (count, t) ← (if bits opcode 8 8 != 0 then do
      let d ← getD count
      return (toU8 d, if am.isDrd then C.BTST_DYN_REG else C.BTST_DYN_MEM)
    else pure (count, if am.isDrd then C.BTST_STA_REG else C.BTST_STA_MEM))
  match am with
  | .Drd reg => do
    let count := count % 32
    let d ← getD reg
    modifySr fun sr => { sr with z := (d &&& ((1 : U32) <<< count.toNat)) == 0 }
    return t
  | _ => do
    let ea := EffectiveAddress.new am (some .Byte)
    let count := count % 8
    let (data, _, t) ← getByte C ea t
    modifySr fun sr => { sr with z := (data &&& ((1 : U8) <<< count.toNat)) == 0 }
    return t

end Exec
end M68k
