import Verif.Model.InterpControl
/-
Data movement instructions of `m68000/src/interpreter.rs`.
-/
namespace M68k
namespace Exec
variable {M : Type} [MemoryAccess M]

/-- interpreter.rs L1007-1022: `execute_exg`. -/
def executeExg (C : CpuDetails) (rx : U8) (mode : Direction) (ry : U8) : Exec M Nat := do
  (if mode = .ExchangeData then do
    let x ← getD rx
    let y ← getD ry
    setD rx y
    setD ry x
  else if mode = .ExchangeAddress then do
    let y ← getA ry
    let x ← getA rx
    setA ry x
    setA rx y
  else do
    let y ← getA ry
    let x ← getD rx
    setA ry x
    setD rx y)
  return C.EXG

/-- interpreter.rs L1024-1038: `execute_ext`. -/
def executeExt (C : CpuDetails) (mode : U8) (reg : U8) : Exec M Nat := do
  (if mode = 0b010 then do
    let d ← getD reg
    setDWord reg ((toU8 d).signExtend 16)
  else do
    let d ← getD reg
    setD reg (sext16 (toU16 d)))
  let d ← getD reg
  modifySr fun sr => { sr with n := (d &&& SIGN_BIT_32) != 0, z := d == 0, v := false, c := false }
  return C.EXT

/-- interpreter.rs L1190-1221: `execute_move`. -/
def executeMove (C : CpuDetails) (size : Size) (amdst amsrc : AddressingMode) : Exec M Nat :=
  let t := if amdst.isAriwpr then C.MOVE_DST_ARIWPR else C.MOVE_OTHER
  let src := EffectiveAddress.new amsrc (some size)
  let dst := EffectiveAddress.new amdst (some size)
  match size with
  | .Byte => do
    let (d, _, t) ← getByte C src t
    let t ← setByte C dst t d
    modifySr fun sr => { sr with n := (d &&& SIGN_BIT_8) != 0, z := d == 0 }
    modifySr fun sr => { sr with v := false, c := false }
    return t
  | .Word => do
    let (d, _, t) ← getWord C src t
    let t ← setWord C dst t d
    modifySr fun sr => { sr with n := (d &&& SIGN_BIT_16) != 0, z := d == 0 }
    modifySr fun sr => { sr with v := false, c := false }
    return t
  | .Long => do
    let (d, _, t) ← getLong C src t
    let t ← setLong C dst t d
    modifySr fun sr => { sr with n := (d &&& SIGN_BIT_32) != 0, z := d == 0 }
    modifySr fun sr => { sr with v := false, c := false }
    return t

/-- interpreter.rs L1223-1235: `execute_movea`. -/
def executeMovea (C : CpuDetails) (size : Size) (reg : U8) (am : AddressingMode) : Exec M Nat := do
  let ea := EffectiveAddress.new am (some size)
  let (v, t) ← (if size.isWord then do
      let (v, _, t) ← getWord C ea C.MOVEA
      return (sext16 v, t)
    else do
      let (v, _, t) ← getLong C ea C.MOVEA
      return (v, t))
  setA reg v
  return t

/-- interpreter.rs L1237-1246: `execute_moveccr`. -/
def executeMoveccr (C : CpuDetails) (am : AddressingMode) : Exec M Nat := do
  let ea := EffectiveAddress.new am (some .Word)
  let (ccr, _, t) ← getWord C ea C.MOVECCR
  modifySr fun sr => sr.setCcr ccr
  return t

/-- interpreter.rs L1248-1256: `execute_movefsr`. -/
def executeMovefsr (C : CpuDetails) (am : AddressingMode) : Exec M Nat := do
  let ea := EffectiveAddress.new am (some .Word)
  let sr ← getSr
  setWord C ea (if am.isDrd then C.MOVEFSR_REG else C.MOVEFSR_MEM) sr.toU16

/-- interpreter.rs L1258-1267: `execute_movesr`. -/
def executeMovesr (C : CpuDetails) (am : AddressingMode) : Exec M Nat := do
  checkSupervisor
  let ea := EffectiveAddress.new am (some .Word)
  let (sr, _, t) ← getWord C ea C.MOVESR
  modifySr fun _ => StatusRegister.ofU16 sr
  return t

/-- interpreter.rs L1269-1278: `execute_moveusp`. -/
def executeMoveusp (C : CpuDetails) (dir : Direction) (reg : U8) : Exec M Nat := do
  checkSupervisor
  (if dir = .UspToRegister then do
    let r ← getRegs
    setA reg r.usp
  else do
    let a ← getA reg
    modifyRegs fun r => { r with usp := a })
  return C.MOVEUSP

/-- `list.count_ones()` (interpreter.rs L1281). -/
def countOnes (w : U16) : Nat := (List.range 16).countP fun i => w.getLsbD i

/-- One store of MOVEM (interpreter.rs L1295-1299, L1308-1312, L1337-1341, L1357-1361). -/
def movemStore (size : Size) (addr : U32) (v : U32) : Exec M Unit :=
  if size.isWord then mem (MemoryAccess.setWord addr (toU16 v))
  else mem (MemoryAccess.setLong addr v)

/-- One load of MOVEM (interpreter.rs L1332-1336, L1352-1356). -/
def movemLoad (size : Size) (addr : U32) : Exec M U32 :=
  if size.isWord then do
    let w ← mem (MemoryAccess.getWord addr)
    return sext16 w
  else mem (MemoryAccess.getLong addr)

/-- interpreter.rs L1292-1303 and L1305-1316: the loops of the predecrement form; `rd` reads an
address register in the first loop and a data register in the second one. Returns the address and
the shifted list. -/
def movemDecLoop (size : Size) (rd : U8 → Exec M U32) : List U8 → U32 → U16 → Exec M (U32 × U16)
  | [], addr, list => return (addr, list)
  | reg :: regs, addr, list =>
    if (list &&& 1) != 0 then do
      let addr := addr - size.asU32
      let v ← rd reg
      movemStore size addr v
      movemDecLoop size rd regs addr (list >>> 1)
    else movemDecLoop size rd regs addr (list >>> 1)

/-- interpreter.rs L1327-1345 and L1347-1365: the loops of the other forms; `rd`/`wr` access a data
register in the first loop and an address register in the second one. -/
def movemIncLoop (dir : Direction) (size : Size) (rd : U8 → Exec M U32) (wr : U8 → U32 → Exec M Unit) :
    List U8 → U32 → U16 → Exec M (U32 × U16)
  | [], addr, list => return (addr, list)
  | reg :: regs, addr, list =>
    if (list &&& 1) != 0 then do
      (if dir = .MemoryToRegister then do
        let v ← movemLoad size addr
        wr reg v
      else do
        let v ← rd reg
        movemStore size addr v)
      movemIncLoop dir size rd wr regs (addr + size.asU32) (list >>> 1)
    else movemIncLoop dir size rd wr regs addr (list >>> 1)

/-- interpreter.rs L1372-1383: the `match am` at the end of `execute_movem`. -/
def movemTime (C : CpuDetails) : AddressingMode → Exec M Nat
  | .Ari _ => return C.MOVEM_ARI
  | .Ariwpo _ => return C.MOVEM_ARIWPO
  | .Ariwpr _ => return C.MOVEM_ARIWPR
  | .Ariwd .. => return C.MOVEM_ARIWD
  | .Ariwi8 .. => return C.MOVEM_ARIWI8
  | .AbsShort _ => return C.MOVEM_ABSSHORT
  | .AbsLong _ => return C.MOVEM_ABSLONG
  | .Pciwd .. => return C.MOVEM_PCIWD
  | .Pciwi8 .. => return C.MOVEM_PCIWI8
  | _ => panic

/-- interpreter.rs L1280-1388: `execute_movem`. The three-way `match` merges the two nested tests of the mode. -/
def executeMovem (C : CpuDetails) (dir : Direction) (size : Size) (am : AddressingMode) (list : U16) : Exec M Nat := do
  let count := countOnes list
  let ea := EffectiveAddress.new am (some size)
  (match am with
    | .Ariwpr eareg => do
      let a ← getA eareg
      let addr ← even a
      let (addr, list) ← movemDecLoop size getA [7, 6, 5, 4, 3, 2, 1, 0] addr list
      let (addr, _) ← movemDecLoop size getD [7, 6, 5, 4, 3, 2, 1, 0] addr list
      setA eareg addr
    | .Ariwpo eareg => do
      let a ← getA eareg
      let addr ← even a
      let (addr, list) ← movemIncLoop dir size getD setD [0, 1, 2, 3, 4, 5, 6, 7] addr list
      let (addr, _) ← movemIncLoop dir size getA setA [0, 1, 2, 3, 4, 5, 6, 7] addr list
      setA eareg addr
    | _ => do
      let (a, _, _) ← getEffectiveAddress C ea 0
      let addr ← even a
      let (addr, list) ← movemIncLoop dir size getD setD [0, 1, 2, 3, 4, 5, 6, 7] addr list
      let (_, _) ← movemIncLoop dir size getA setA [0, 1, 2, 3, 4, 5, 6, 7] addr list
      return ())
  let t ← movemTime C am
  let t := if dir = .MemoryToRegister then t + C.MOVEM_MTR else t
  return t + count * (if size.isLong then C.MOVEM_LONG else C.MOVEM_WORD)

/-- The successive values of `shift` in `execute_movep`, interpreter.rs L1391 and the `while`. -/
def movepShifts (size : Size) : List Nat := if size.isWord then [8, 0] else [24, 16, 8, 0]

/-- interpreter.rs L1395-1400: the loop of MOVEP register to memory. -/
def movepStoreLoop (data : U8) : List Nat → U32 → Exec M Unit
  | [], _ => return ()
  | shift :: shifts, addr => do
    let d ← getD data
    mem (MemoryAccess.setByte addr (toU8 (d >>> shift)))
    movepStoreLoop data shifts (addr + 2)

/-- interpreter.rs L1410-1415: the loop of MOVEP memory to register. -/
def movepLoadLoop (data : U8) : List Nat → U32 → Exec M Unit
  | [], _ => return ()
  | shift :: shifts, addr => do
    let b ← mem (MemoryAccess.getByte addr)
    let d ← getD data
    setD data (d ||| (toU32 b <<< shift))
    movepLoadLoop data shifts (addr + 2)

/-- interpreter.rs L1390-1423: `execute_movep`. -/
def executeMovep (C : CpuDetails) (data : U8) (dir : Direction) (size : Size) (addr : U8) (disp : U16) : Exec M Nat := do
  let a ← getA addr
  let addr := a + sext16 disp
  (if dir = .RegisterToMemory then do
    movepStoreLoop data (movepShifts size) addr
    return (if size.isLong then C.MOVEP_RTM_LONG else C.MOVEP_RTM_WORD)
  else do
    let d ← getD data
    setD data (if size.isWord then d &&& 0xFFFF0000 else 0)
    movepLoadLoop data (movepShifts size) addr
    return (if size.isLong then C.MOVEP_MTR_LONG else C.MOVEP_MTR_WORD))

/-- interpreter.rs L1425-1434: `execute_moveq`. -/
def executeMoveq (C : CpuDetails) (reg : U8) (data : U8) : Exec M Nat := do
  setD reg (sext8 data)
  modifySr fun sr => { sr with n := data.slt 0, z := data == 0, v := false, c := false }
  return C.MOVEQ

/-- interpreter.rs L2274-2285: `execute_swap`. -/
def executeSwap (C : CpuDetails) (reg : U8) : Exec M Nat := do
  let d ← getD reg
  let high := d >>> 16
  setD reg (d <<< 16)
  let d ← getD reg
  setD reg (d ||| high)
  let d ← getD reg
  modifySr fun sr => { sr with n := (d &&& SIGN_BIT_32) != 0, z := d == 0, v := false, c := false }
  return C.SWAP

end Exec
end M68k
