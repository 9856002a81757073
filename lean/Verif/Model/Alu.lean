import Verif.Model.Access
/-
The arithmetic and logic helpers of `m68000/src/interpreter.rs`: they take the status register and
the operands, and return the result with the new status register.
-/
namespace M68k

/-- interpreter.rs L13. -/
def SR_UPPER_MASK : U16 := 0xA700
/-- interpreter.rs L14. -/
def CCR_MASK : U16 := 0x001F
/-- interpreter.rs L15. -/
def SIGN_BIT_8 : U8 := 0x80
/-- interpreter.rs L16. -/
def SIGN_BIT_16 : U16 := 0x8000
/-- interpreter.rs L17. -/
def SIGN_BIT_32 : U32 := 0x80000000

/-- utils.rs L198-219: `SIGN_BIT_MASK` of the integer type of width `n` (8, 16 or 32). -/
def signBitMask (n : Nat) : BitVec n := 1 <<< (n - 1)

namespace Alu

/-- interpreter.rs L48-68, the computation part of `execute_abcd`. -/
def abcd (sr : StatusRegister) (src dst : U8) : U8 × StatusRegister :=
  let adjust : Bool := ((src &&& 0x0F) + (dst &&& 0x0F) + boolTo 8 sr.x) > 0x0F
  let (binRes, c) := unsignedCarryingAdd src dst sr.x
  let res := binRes
  let res := if (binRes &&& 0x0F) > 0x09 ∨ adjust then res + 0x06 else res
  let adj := binRes > 0x99 ∨ c
  let res := if adj then res + 0x60 else res
  let c : Bool := if adj then true else c
  (res, { sr with
    x := c
    n := (res &&& 0x80) != 0
    z := if res != 0 then false else sr.z
    v := decide (res ≥ 0x80) && decide (binRes < 0x80)
    c := c })

/-- interpreter.rs L81-102: `add::<UT, ST, ADDX>(dst, src)`. -/
def add {n : Nat} (ADDX : Bool) (sr : StatusRegister) (dst src : BitVec n) : BitVec n × StatusRegister :=
  let (res, v) := signedCarryingAdd src dst (ADDX && sr.x)
  let (ures, c) := unsignedCarryingAdd src dst (ADDX && sr.x)
  (ures, { sr with
    x := c
    n := res.slt 0
    z := if ADDX then (if res != 0 then false else sr.z) else res == 0
    v := v
    c := c })

/-- interpreter.rs L2026-2049: `sub::<UT, ST, SUBX, CMP>(dst, src)`, dst - src. -/
def sub {n : Nat} (SUBX CMP : Bool) (sr : StatusRegister) (dst src : BitVec n) : BitVec n × StatusRegister :=
  let (res, v) := signedBorrowingSub dst src (SUBX && sr.x)
  let (ures, c) := unsignedBorrowingSub dst src (SUBX && sr.x)
  (ures, { sr with
    x := if !CMP then c else sr.x
    n := res.slt 0
    z := if SUBX then (if res != 0 then false else sr.z) else res == 0
    v := v
    c := c })

/-- interpreter.rs L327-339: `and`. -/
def and {n : Nat} (sr : StatusRegister) (dst src : BitVec n) : BitVec n × StatusRegister :=
  let res := src &&& dst
  (res, { sr with n := (res &&& signBitMask n) != 0, z := res == 0, v := false, c := false })

/-- interpreter.rs L907-919: `eor`. -/
def eor {n : Nat} (sr : StatusRegister) (dst src : BitVec n) : BitVec n × StatusRegister :=
  let res := src ^^^ dst
  (res, { sr with n := (res &&& signBitMask n) != 0, z := res == 0, v := false, c := false })

/-- interpreter.rs L1591-1603: `or`. -/
def or {n : Nat} (sr : StatusRegister) (dst src : BitVec n) : BitVec n × StatusRegister :=
  let res := src ||| dst
  (res, { sr with n := (res &&& signBitMask n) != 0, z := res == 0, v := false, c := false })

/-- interpreter.rs L1963-1983: `sbcd(dst, src)`. -/
def sbcd (sr : StatusRegister) (dst src : U8) : U8 × StatusRegister :=
  let adjust : Bool := (dst &&& 0x0F) < ((src &&& 0x0F) + boolTo 8 sr.x)
  let (binRes, b) := unsignedBorrowingSub dst src sr.x
  let res := binRes
  let res := if (binRes &&& 0x0F) > 0x09 ∨ adjust then res - 0x06 else res
  let res := if binRes > 0x99 ∨ b then res - 0x60 else res
  (res, { sr with
    x := b
    n := (res &&& 0x80) != 0
    z := if res != 0 then false else sr.z
    v := decide (res < 0x80) && decide (binRes ≥ 0x80)
    c := b })

/-- interpreter.rs L499, L510, L1154, L1161, L1790, L1799, L1881, L1889: `for _ in 0..n { a = f(a) }`. -/
def repeatN {α : Type} (f : α → α) : Nat → α → α
  | 0, a => a
  | n + 1, a => repeatN f n (f a)

/-! The loop bodies of the register shifts. -/

/-- interpreter.rs L499-507 (ASL). -/
def aslStep (mask : U32) (p : U32 × StatusRegister) : U32 × StatusRegister :=
  let (data, sr) := p
  let sign := data &&& mask
  let data := data <<< 1
  (data, { sr with
    x := sign != 0
    c := sign != 0
    v := if (sign ^^^ (data &&& mask)) != 0 then true else sr.v })

/-- interpreter.rs L510-516 (ASR); `sign` is computed before the loop. -/
def asrStep (sign : U32) (p : U32 × StatusRegister) : U32 × StatusRegister :=
  let (data, sr) := p
  let bit := data &&& 1
  let data := data >>> 1
  let data := data ||| sign
  (data, { sr with x := bit != 0, c := bit != 0 })

/-- interpreter.rs L1154-1159 (LSL). -/
def lslStep (mask : U32) (p : U32 × StatusRegister) : U32 × StatusRegister :=
  let (data, sr) := p
  let sign := data &&& mask
  let data := data <<< 1
  (data, { sr with x := sign != 0, c := sign != 0 })

/-- interpreter.rs L1161-1166 (LSR). -/
def lsrStep (p : U32 × StatusRegister) : U32 × StatusRegister :=
  let (data, sr) := p
  let bit := data &&& 1
  let data := data >>> 1
  (data, { sr with x := bit != 0, c := bit != 0 })

/-- interpreter.rs L1790-1797 (ROL). -/
def rolStep (mask : U32) (p : U32 × StatusRegister) : U32 × StatusRegister :=
  let (data, sr) := p
  let sign := data &&& mask
  let data := data <<< 1
  let data := if sign != 0 then data ||| 1 else data
  (data, { sr with c := sign != 0 })

/-- interpreter.rs L1799-1806 (ROR). -/
def rorStep (mask : U32) (p : U32 × StatusRegister) : U32 × StatusRegister :=
  let (data, sr) := p
  let bit := data &&& 1
  let data := data >>> 1
  let data := if bit != 0 then data ||| mask else data
  (data, { sr with c := bit != 0 })

/-- interpreter.rs L1881-1887 (ROXL). -/
def roxlStep (mask : U32) (p : U32 × StatusRegister) : U32 × StatusRegister :=
  let (data, sr) := p
  let sign := data &&& mask
  let data := data <<< 1
  let data := data ||| boolTo 32 sr.x
  (data, { sr with x := sign != 0, c := sign != 0 })

/-- interpreter.rs L1889-1897 (ROXR). -/
def roxrStep (mask : U32) (p : U32 × StatusRegister) : U32 × StatusRegister :=
  let (data, sr) := p
  let bit := data &&& 1
  let data := data >>> 1
  let data := if sr.x then data ||| mask else data
  (data, { sr with x := bit != 0, c := bit != 0 })

end Alu

namespace Exec
variable {M α : Type}

/-- Calls one of the helpers above, which model parts of the `execute_*` functions (interpreter.rs L40 and below), on the status register `self.regs.sr`. -/
def alu (f : StatusRegister → α × StatusRegister) : Exec M α := fun s =>
  let r := f s.cpu.regs.sr
  .ok r.1 { s with cpu := { s.cpu with regs := { s.cpu.regs with sr := r.2 } } }

/-- `self.regs.sr.condition(cc)`, status_register.rs L107-109. -/
def testCondition (cc : U8) : Exec M Bool := fun s =>
  match s.cpu.regs.sr.condition cc with
  | some b => .ok b s
  | none => .panic

/-- interpreter.rs L35, L545 and others: `self.current_opcode`. -/
def getCurrentOpcode : Exec M U16 := fun s => .ok s.cpu.currentOpcode s

/-- interpreter.rs L2021: `self.stop = b`. -/
def setStop (b : Bool) : Exec M Unit := fun s => .ok () { s with cpu := { s.cpu with stop := b } }

/-- interpreter.rs L1737: `memory.reset_instruction()`. -/
def resetInstruction [MemoryAccess M] : Exec M Unit := fun s =>
  .ok () { s with mem := MemoryAccess.resetInstruction s.mem }

end Exec
end M68k
