import Verif.Spec.Machine
import Verif.Spec.Alu
import Verif.Model.Alu
/-
Specification of the instructions: what each does to the registers and the memory, from its
operands. The result of an action is the information its execution time depends on, if any.
-/
namespace M68k.Spec
variable {M : Type} [MemoryAccess M]

/-! ### Forms -/

/-- Read, modify, write of one operand. The flags change before the write. -/
def rmw (sz : Size) (m : Mode) (f : Val sz → StatusRegister → Val sz × StatusRegister) : Exec M Unit := do
  let (p, d) ← read sz m
  let r ← compute (f d)
  writeAt sz p r

/-- `ea := f ea Dn`. -/
def opToEa (sz : Size) (n : Fin 8) (m : Mode)
    (f : Val sz → Val sz → StatusRegister → Val sz × StatusRegister) : Exec M Unit := do
  let s ← getR fun r => low sz (r.d n)
  rmw sz m (f · s)

/-- `Dn := f Dn ea`. -/
def opToDn (sz : Size) (n : Fin 8) (m : Mode)
    (f : Val sz → Val sz → StatusRegister → Val sz × StatusRegister) : Exec M Unit := do
  let (_, s) ← read sz m
  rmw sz (.dn n) (f · s)

/-- `-(Ax) := f -(Ax) -(Ay)` or `Dx := f Dx Dy`. Both registers are decremented before the reads. -/
def pair (sz : Size) (inMemory : Bool) (x y : Fin 8)
    (f : Val sz → Val sz → StatusRegister → Val sz × StatusRegister) : Exec M Unit := do
  let src ← locate sz (if inMemory then .predec y else .dn y)
  let dst ← locate sz (if inMemory then .predec x else .dn x)
  let s ← readAt sz src
  let d ← readAt sz dst
  let r ← compute (f d s)
  writeAt sz dst r

/-- The bitwise instructions. -/
def logic {n : Nat} (f : BitVec n → BitVec n → BitVec n) (d s : BitVec n) (sr : StatusRegister) :
    BitVec n × StatusRegister := (f d s, logicFlags (f d s) sr)

/-- Reads an operand of word or long size as the 32-bit value of the same sign. -/
def readExt (sz : Size) (m : Mode) : Exec M U32 := do
  let (_, v) ← read sz m
  pure (signExt v)

/-- Changes the 32 bits of an address register. -/
def updateA (n : Fin 8) (f : U32 → U32) : Exec M Unit := modR fun r => setAreg r n (f (areg r n))

/-- Pushes an operand on the active stack. -/
def push (sz : Size) (v : Val sz) : Exec M Unit := write sz (.predec 7) v
/-- Pops an operand from the active stack. -/
def pop (sz : Size) : Exec M (Val sz) := do
  let (_, v) ← read sz (.postinc 7)
  pure v

/-! ### Arithmetic -/

/-- The data of ADDQ and SUBQ: 0 means 8. -/
def quick (data : Fin 8) : Nat := if data.val = 0 then 8 else data.val

/-- ADDQ, SUBQ: on an address register the 32 bits change and the flags do not. -/
def quickOp (sub : Bool) (data : Fin 8) (sz : Size) (m : Mode) : Exec M Unit :=
  match m with
  | .an n => updateA n fun a =>
      if sub then a - BitVec.ofNat 32 (quick data) else a + BitVec.ofNat 32 (quick data)
  | m => rmw sz m fun d =>
      if sub then difference false d (BitVec.ofNat _ (quick data))
      else sum false d (BitVec.ofNat _ (quick data))

/-- CMP, CMPI, CMPA, CMPM. -/
def compareWith {n : Nat} (d s : BitVec n) : Exec M Unit := setFlags (compareFlags d s)

/-- CMPM. -/
def cmpm (sz : Size) (x y : Fin 8) : Exec M Unit := do
  let src ← locate sz (.postinc y)
  let dst ← locate sz (.postinc x)
  let s ← readAt sz src
  let d ← readAt sz dst
  compareWith d s

/-- MULU, MULS: the exact product of the two words. -/
def mul (signed : Bool) (n : Fin 8) (m : Mode) : Exec M Unit := do
  let (_, s) ← read .Word m
  let d ← getR fun r => low .Word (r.d n)
  let p : U32 := if signed then BitVec.ofInt 32 (d.toInt * s.toInt) else BitVec.ofNat 32 (d.toNat * s.toNat)
  modR (setDreg · n p)
  setFlags (logicFlags p)

/-- A register made of two words. -/
def packWords (hi lo : Int) : U32 := BitVec.ofInt 32 (hi % 65536 * 65536 + lo % 65536)

/-- DIVU. C is cleared first; the quotient must fit in an unsigned word. On overflow N is cleared
and Z is clear. -/
def divu (n : Fin 8) (m : Mode) : Exec M Unit := do
  setFlags fun sr => { sr with c := false }
  let (_, s) ← read .Word m
  if s.toNat = 0 then
    setFlags fun sr => { sr with z := true }
    trap 5
  else
    let d ← getR fun r => r.d n
    let q := d.toNat / s.toNat
    let r := d.toNat % s.toNat
    if q < 65536 then
      modR (setDreg · n (packWords r q))
      setFlags fun sr => { sr with n := decide (32768 ≤ q), z := decide (q = 0), v := false }
    else
      setFlags fun sr => { sr with n := false, z := false, v := true }

/-- DIVS: truncated division. The code takes the quotient -32768, which fits in a word, as an
overflow. On overflow N and Z come from the low word of the quotient. -/
def divs (n : Fin 8) (m : Mode) : Exec M Unit := do
  setFlags fun sr => { sr with c := false }
  let (_, s) ← read .Word m
  if s.toInt = 0 then
    setFlags fun sr => { sr with z := true }
    trap 5
  else
    let d ← getR fun r => r.d n
    let q := d.toInt.tdiv s.toInt
    let r := d.toInt.tmod s.toInt
    let low : BitVec 16 := BitVec.ofInt 16 q
    let fits := decide (-32768 < q ∧ q < 32768)
    if fits then modR (setDreg · n (packWords r q)) else pure ()
    setFlags fun sr => { sr with n := neg low, z := zero low, v := !fits }

/-- ABCD: decimal addition. On bytes that are not packed decimal, and for the N and V flags, which
the manual leaves undefined, the result is that of the code. -/
def decimalSum (d s : BitVec 8) (sr : StatusRegister) : BitVec 8 × StatusRegister :=
  if ValidBcd d ∧ ValidBcd s then
    let total := fromBcd d + fromBcd s + carryIn true sr
    let r := toBcd (total % 100)
    (r, { (Alu.abcd sr s d).2 with
      x := decide (100 ≤ total), z := zero r && sr.z, c := decide (100 ≤ total) })
  else Alu.abcd sr s d

/-- SBCD and NBCD: decimal subtraction; as `decimalSum` otherwise. -/
def decimalDifference (d s : BitVec 8) (sr : StatusRegister) : BitVec 8 × StatusRegister :=
  if ValidBcd d ∧ ValidBcd s then
    let total : Int := fromBcd d - fromBcd s - carryIn true sr
    let r := toBcd (total % 100).toNat
    (r, { (Alu.sbcd sr d s).2 with
      x := decide (total < 0), z := zero r && sr.z, c := decide (total < 0) })
  else Alu.sbcd sr d s

/-! ### Moves -/

/-- MOVE: the flags change after the write. -/
def move (sz : Size) (dst src : Mode) : Exec M Unit := do
  let (_, v) ← read sz src
  write sz dst v
  setFlags (logicFlags v)

/-- MOVEA. -/
def movea (sz : Size) (n : Fin 8) (m : Mode) : Exec M Unit := do
  let v ← readExt sz m
  updateA n fun _ => v

/-- EXG of two data, two address, or a data and an address register. -/
def exg (kind : Direction) (x y : Fin 8) : Exec M Unit :=
  match kind with
  | .ExchangeData => modR fun r => setDreg (setDreg r x (r.d y)) y (r.d x)
  | .ExchangeAddress => modR fun r => setAreg (setAreg r y (areg r x)) x (areg r y)
  | _ => modR fun r => setDreg (setAreg r y (r.d x)) x (areg r y)

/-- EXT.W (from byte) and EXT.L (from word). The code takes N and Z of EXT.W from the 32 bits of
the register. -/
def ext (long : Bool) (n : Fin 8) : Exec M Unit := do
  modR fun r => setDreg r n
    (if long then signExt (low .Word (r.d n))
     else insertLow .Word (r.d n) (BitVec.ofInt 16 (low .Byte (r.d n)).toInt))
  modR fun r => { r with sr := logicFlags (r.d n) r.sr }

/-- SWAP. -/
def swap (n : Fin 8) : Exec M Unit := do
  modR fun r => setDreg r n (BitVec.ofNat 32 ((r.d n).toNat % 65536 * 65536 + (r.d n).toNat / 65536))
  modR fun r => { r with sr := logicFlags (r.d n) r.sr }

/-- MOVEQ. -/
def moveq (n : Fin 8) (v : U8) : Exec M Unit := do
  modR (setDreg · n (signExt v))
  setFlags (logicFlags v)

/-- The address of a control mode: not a register, not immediate, not `(An)+`, not `-(An)`. -/
def control : Mode → Exec M U32
  | .postinc _ => crash
  | .predec _ => crash
  | m => address .Long m

/-! MOVEM -/

/-- The registers in MOVEM order: D0-D7 then A0-A7. -/
def regNo (r : Registers) (i : Fin 16) : U32 :=
  if h : i.val < 8 then r.d ⟨i.val, h⟩ else areg r ⟨i.val - 8, by omega⟩
/-- Assignment of a register by its MOVEM number. -/
def setRegNo (r : Registers) (i : Fin 16) (v : U32) : Registers :=
  if h : i.val < 8 then setDreg r ⟨i.val, h⟩ v else setAreg r ⟨i.val - 8, by omega⟩ v

/-- One load of MOVEM: the word is sign extended. The alignment of the first address was checked. -/
def movemLoad (sz : Size) (a : U32) : Exec M U32 :=
  signExt <$> access (memGet sz a)
/-- One store of MOVEM. -/
def movemStore (sz : Size) (a : U32) (v : U32) : Exec M Unit :=
  access (memSet sz a (low sz v))

/-- Loads the listed registers from ascending addresses; returns the address after the last. -/
def movemLoads (sz : Size) : List (Fin 16) → U32 → Exec M U32
  | [], a => pure a
  | i :: is, a => do
    let v ← movemLoad sz a
    modR (setRegNo · i v)
    movemLoads sz is (a + BitVec.ofNat 32 (bytes sz))
/-- Stores the listed registers at ascending addresses; returns the address after the last. -/
def movemStores (sz : Size) : List (Fin 16) → U32 → Exec M U32
  | [], a => pure a
  | i :: is, a => do
    let v ← getR (regNo · i)
    movemStore sz a v
    movemStores sz is (a + BitVec.ofNat 32 (bytes sz))
/-- Stores the listed registers at descending addresses; returns the address of the last. -/
def movemStoresDown (sz : Size) : List (Fin 16) → U32 → Exec M U32
  | [], a => pure a
  | i :: is, a => do
    let a := a - BitVec.ofNat 32 (bytes sz)
    let v ← getR (regNo · i)
    movemStore sz a v
    movemStoresDown sz is a

/-- The registers of a list: bit `i` is register `i`, in ascending order. -/
def listed (mask : U16) : List (Fin 16) := (List.finRange 16).filter fun i => mask.toNat.testBit i.val
/-- The registers of a predecrement list: bit `i` is register `15 - i`; in the order of the stores. -/
def listedDown (mask : U16) : List (Fin 16) :=
  ((List.finRange 16).filter fun i => mask.toNat.testBit i.val).map Fin.rev

/-- An address that must be even. -/
def aligned (a : U32) : Exec M Unit := if Odd a then trap 3 else pure ()

/-- MOVEM. `-(An)` is a store whatever the direction, `(An)+` accepts both directions: the decoder
table lets these through although the 68000 has neither `MOVEM -(An),list` nor `MOVEM list,(An)+`. -/
def movem (toRegs : Bool) (sz : Size) (m : Mode) (mask : U16) : Exec M Unit :=
  match m with
  | .predec n => do
    let a ← getR (areg · n)
    aligned a
    let a ← movemStoresDown sz (listedDown mask) a
    updateA n fun _ => a
  | .postinc n => do
    let a ← getR (areg · n)
    aligned a
    let a ← (if toRegs then movemLoads sz (listed mask) a else movemStores sz (listed mask) a)
    updateA n fun _ => a
  | m => do
    let a ← address sz m
    aligned a
    let _ ← (if toRegs then movemLoads sz (listed mask) a else movemStores sz (listed mask) a)

/-- Byte `i` of a register, 0 being the least significant. -/
def byteOf (x : U32) (i : Nat) : U8 := BitVec.ofNat 8 (x.toNat / 256 ^ i)

/-- MOVEP to memory: bytes `k-1` down to 0 of the register at every second address. -/
def movepStores (n : Fin 8) : Nat → U32 → Exec M Unit
  | 0, _ => pure ()
  | k + 1, a => do
    let x ← getR (·.d n)
    store .Byte a (byteOf x k)
    movepStores n k (a + 2)

/-- Replaces byte `i` of a register. -/
def setByteOf (x : U32) (i : Nat) (b : U8) : U32 :=
  BitVec.ofNat 32 (x.toNat / 256 ^ (i + 1) * 256 ^ (i + 1) + b.toNat * 256 ^ i + x.toNat % 256 ^ i)

/-- MOVEP from memory: the destination bytes were cleared, then bytes `k-1` down to 0 are read. -/
def movepLoads (n : Fin 8) : Nat → U32 → Exec M Unit
  | 0, _ => pure ()
  | k + 1, a => do
    let b ← load .Byte a
    modR fun r => setDreg r n (setByteOf (r.d n) k b)
    movepLoads n k (a + 2)

/-- MOVEP. The code clears the destination before the first read. -/
def movep (toMem : Bool) (sz : Size) (n : Fin 8) (an : Fin 8) (d : U16) : Exec M Unit := do
  let a ← getR (areg · an)
  let a := a + signExt d
  if toMem then movepStores n (bytes sz) a
  else
    modR fun r => setDreg r n (insertLow sz (r.d n) 0)
    movepLoads n (bytes sz) a

/-! ### Bits -/

/-- The four bit instructions on a value. -/
inductive BitOp
  | test | change | clear | set
deriving DecidableEq

/-- The value with bit `i` unchanged, flipped, cleared or set (`BitOp_apply_bits` in
`Verif/Lemmas/InstrBit.lean` gives each bit of the result). -/
def BitOp.apply {n : Nat} (o : BitOp) (v : BitVec n) (i : Nat) : BitVec n :=
  match o with
  | .test => v
  | .change => v ^^^ BitVec.twoPow n i
  | .clear => v &&& ~~~BitVec.twoPow n i
  | .set => v ||| BitVec.twoPow n i

/-- A bit instruction on bit `i` of an operand. Z is the complement of the bit. BTST does not write. -/
def bitOpAt (o : BitOp) (sz : Size) (i : Nat) (m : Mode) : Exec M Unit :=
  if o = .test then do
    let (_, v) ← read sz m
    setFlags fun sr => { sr with z := !v.getLsbD i }
  else rmw sz m fun v sr => (o.apply v i, { sr with z := !v.getLsbD i })

/-- BTST, BCHG, BCLR, BSET: 32 bits in a data register, 8 bits in memory. -/
def bitOp (o : BitOp) (number : Nat) (m : Mode) : Exec M Unit :=
  match m with
  | .dn _ => bitOpAt o .Long (number % 32) m
  | _ => bitOpAt o .Byte (number % 8) m

/-! ### Shifts -/

/-- The shift count: a number from 1 to 8 or the low six bits of a data register. -/
def shiftCount (inReg : Bool) (rot : Fin 8) : Exec M Nat :=
  if inReg then getR fun r => (r.d rot).toNat % 64 else pure (quick rot)

/-- The register shifts; the result is the count. -/
def shift (f : {n : Nat} → Nat → BitVec n → StatusRegister → BitVec n × StatusRegister)
    (sz : Size) (inReg : Bool) (rot : Fin 8) (n : Fin 8) : Exec M Nat := do
  let k ← shiftCount inReg rot
  rmw sz (.dn n) (f k)
  pure k

/-! ### Program control -/

/-- Only in supervisor mode. -/
def privileged : Exec M Unit := do
  let s ← getR (·.sr.s)
  if s then pure () else trap 8

/-- Tests a condition. -/
def test (cc : Fin 16) : Exec M Bool := getR fun r => holds cc r.sr

/-- Bcc; the result is whether the branch is taken. -/
def bcc (pc : U32) (cc : Fin 16) (d : U16) : Exec M Bool := do
  let b ← test cc
  if b then jump (pc + signExt d) else pure ()
  pure b

/-- The outcomes of DBcc. -/
inductive DbccRes
  | condition | branch | expired
deriving DecidableEq

/-- DBcc. -/
def dbcc (pc : U32) (cc : Fin 16) (n : Fin 8) (d : U16) : Exec M DbccRes := do
  if ← test cc then pure .condition
  else
    let k ← getR fun r => low .Word (r.d n)
    modR fun r => setDreg r n (insertLow .Word (r.d n) (k - 1))
    if k.toNat = 0 then pure .expired
    else
      jump (pc + signExt d)
      pure .branch

/-- Scc; the result is the condition. -/
def scc (cc : Fin 16) (m : Mode) : Exec M Bool := do
  let b ← test cc
  write .Byte m (if b then 0xFF else 0)
  pure b

/-- BSR. -/
def bsr (pc : U32) (d : U16) : Exec M Unit := do
  let ret ← getR (·.pc)
  push .Long ret
  jump (pc + signExt d)

/-- JSR. The code pushes the return address before it evaluates the effective address, which
matters for the modes based on A7. -/
def jsr (m : Mode) : Exec M Unit := do
  let ret ← getR (·.pc)
  push .Long ret
  let a ← control m
  jump a

/-- CHK. -/
def chk (n : Fin 8) (m : Mode) : Exec M Unit := do
  let (_, bound) ← read .Word m
  let v ← getR fun r => low .Word (r.d n)
  if v.toInt < 0 ∨ bound.toInt < v.toInt then trap 6 else pure ()

/-- LINK. -/
def link (n : Fin 8) (d : U16) : Exec M Unit := do
  let a ← getR (areg · n)
  push .Long a
  modR fun r => setAreg r n (areg r 7)
  updateA 7 fun sp => sp + signExt d

/-- UNLK. -/
def unlk (n : Fin 8) : Exec M Unit := do
  modR fun r => setAreg r 7 (areg r n)
  let a ← pop .Long
  updateA n fun _ => a

/-- RTE; the result is whether the frame was a long SCC68070 frame. -/
def rte (format : StackFormat) : Exec M Bool := do
  privileged
  let w ← pop .Word
  let pc ← pop .Long
  jump pc
  let long ← (if format = .SCC68070 then do
      let f ← pop .Word
      if f.toNat / 4096 = 15 then
        updateA 7 fun sp => sp + 26
        pure true
      else if f.toNat / 4096 = 0 then pure false
      else trap 14
    else pure false)
  setFlags fun _ => srOf w
  pure long

/-- RTR. The condition codes change before the program counter is read. The code also masks the
interrupt mask with 7. -/
def rtr : Exec M Unit := do
  let w ← pop .Word
  setFlags fun sr => withCcr { sr with interruptMask := BitVec.ofNat 8 (sr.interruptMask.toNat % 8) } w
  let pc ← pop .Long
  jump pc

/-- RTS. -/
def rts : Exec M Unit := do
  let pc ← pop .Long
  jump pc

/-- Stops the processor. -/
def halt : Exec M Unit := fun s => .ok () { s with cpu := { s.cpu with stop := true } }

/-- STOP. -/
def stop (w : U16) : Exec M Unit := do
  privileged
  setFlags fun _ => srOf w
  halt

/-- Tells the memory system that the RESET instruction was executed. -/
def signalReset : Exec M Unit := fun s => .ok () { s with mem := MemoryAccess.resetInstruction s.mem }

/-- RESET. -/
def resetDevices : Exec M Unit := do
  privileged
  signalReset

/-- MOVE USP. -/
def moveUsp (toReg : Bool) (n : Fin 8) : Exec M Unit := do
  privileged
  if toReg then modR fun r => setAreg r n r.usp
  else modR fun r => { r with usp := areg r n }

/-- TAS. The flags change before the write. -/
def tas (m : Mode) : Exec M Unit :=
  rmw .Byte m fun v sr => (BitOp.set.apply v 7, logicFlags v sr)

/-- Opcodes without instruction. -/
def unimplemented (op : U16) : Exec M Unit :=
  trap (if op.toNat / 4096 = 10 then 10 else if op.toNat / 4096 = 15 then 11 else 4)

end M68k.Spec
