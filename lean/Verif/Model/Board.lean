import Verif.Model.Run
import Verif.Model.Slices
/-
The example board, `m68000/src/bin/scc68070.rs`. The time measurement of `main` is not modelled.
-/
namespace M68k

/-- scc68070.rs L21-24: `Memory68070`, and the bytes it has printed. -/
structure Board where
  swap : Nat
  ram : List U8
  printed : List U8
deriving DecidableEq

/-- scc68070.rs L27-41: `get_byte`. -/
def Board.getByte (addr : U32) (b : Board) : MRes Board U8 :=
  if h : addr.toNat < b.ram.length then .val b.ram[addr.toNat] b
  else if 0x80002011 ≤ addr.toNat ∧ addr.toNat ≤ 0x8000201B then
    if addr = 0x80002013 then .val 0b00001110 b else .val 0 b
  else .none b

/-- scc68070.rs L46, L48: two bytes as a word; the additions of the addresses wrap (a build with overflow checks panics there). -/
def Board.twoBytes (hi lo : U32) (b : Board) : MRes Board U16 :=
  match b.getByte hi with
  | .val h b =>
    match b.getByte lo with
    | .val l b => .val (toU16 h <<< 8 ||| toU16 l) b
    | .none b => .none b
    | .panic => .panic
  | .none b => .none b
  | .panic => .panic

/-- scc68070.rs L43-50: `get_word`. -/
def Board.getWord (addr : U32) (b : Board) : MRes Board U16 :=
  if b.swap < 4 then Board.twoBytes (addr + 0x400000) (addr + 0x400001) { b with swap := b.swap + 1 }
  else b.twoBytes addr (addr + 1)

/-- scc68070.rs L52-66: `set_byte`. -/
def Board.setByte (addr : U32) (value : U8) (b : Board) : MRes Board Unit :=
  if addr.toNat < b.ram.length then .val () { b with ram := b.ram.set addr.toNat value }
  else if 0x80002011 ≤ addr.toNat ∧ addr.toNat ≤ 0x80002019 then
    if addr = 0x80002019 then .val () { b with printed := b.printed ++ [value] } else .val () b
  else .none b

/-- scc68070.rs L68-71: `set_word`. -/
def Board.setWord (addr : U32) (value : U16) (b : Board) : MRes Board Unit :=
  match b.setByte addr (toU8 (value >>> 8)) with
  | .val _ b => b.setByte (addr + 1) (toU8 value)
  | .none b => .none b
  | .panic => .panic

/-- scc68070.rs L26-74: `impl MemoryAccess for Memory68070`. -/
instance : MemoryAccess Board where
  getByte := Board.getByte
  getWord := Board.getWord
  setByte := Board.setByte
  setWord := Board.setWord
  resetInstruction b := b

/-- scc68070.rs L78-93: the board with the content of the ROM file, as much of it as fits. `File::read` may also read less; the file is then this shorter one. -/
def Board.load (rom : List U8) : St Board :=
  { cpu := Cpu.new,
    mem := { swap := 0, printed := [],
             ram := List.replicate 0x400000 0 ++ rom.take 0x100000 ++ List.replicate (0x100000 - rom.length) 0 } }

/-- scc68070.rs L98-102: `n` turns of the loop. -/
def Board.run (C : CpuDetails) : Nat → Exec Board Unit
  | 0 => return ()
  | n + 1 => do
    let _ ← Exec.interpreter C
    Board.run C n

end M68k
