import Verif.Model.Types
import Verif.Model.Isa
import Verif.Spec.Isa
/-
A reader of assembly lines: from the text of a line to the instruction and the operands it stands for. It is the specification of the
disassembler's texts (C54): a text is right if this reader gets the instruction back from it.
-/
namespace M68k.Spec.Reader

/-! ### Numbers -/

/-- The value of a digit. -/
def digitVal (c : Char) : Option Nat :=
  if '0' ≤ c ∧ c ≤ '9' then some (c.toNat - '0'.toNat)
  else if 'A' ≤ c ∧ c ≤ 'F' then some (c.toNat - 'A'.toNat + 10)
  else none

/-- Reads digits of a base, as many as there are. -/
def digits (base acc : Nat) : List Char → Nat × List Char
  | [] => (acc, [])
  | c :: cs =>
    match digitVal c with
    | some d => if d < base then digits base (acc * base + d) cs else (acc, c :: cs)
    | none => (acc, c :: cs)

/-- The text begins with a decimal digit. -/
def startsDigit : List Char → Bool
  | c :: _ => decide ('0' ≤ c ∧ c ≤ '9')
  | [] => false

/-- The text begins with a number. -/
def startsNumber : List Char → Bool
  | [] => false
  | c :: cs => if c = '-' then startsDigit cs else startsDigit (c :: cs)

/-- A number, signed in base 10 or unsigned in base 16. -/
inductive Number
  | dec (v : Int)
  | hex (v : Nat)

/-- `-12`, `12` or `0x1F`. -/
def number (cs : List Char) : Number × List Char :=
  if cs.head? = some '-' then
    let (n, cs) := digits 10 0 cs.tail
    (.dec (-n), cs)
  else
    let (n, cs) := digits 10 0 cs
    if cs.head? = some 'x' then
      let (n, cs) := digits 16 0 cs.tail
      (.hex n, cs)
    else (.dec n, cs)

/-! ### Operands -/

/-- An index register: address or data, number, long or word. -/
structure Index where
  address : Bool
  reg : Nat
  long : Bool

/-- The operands of assembly lines. -/
inductive Opnd
  /-- `D3` -/
  | d (n : Nat)
  /-- `A3` -/
  | a (n : Nat)
  /-- `(A3)` -/
  | ind (n : Nat)
  /-- `(A3)+` -/
  | postinc (n : Nat)
  /-- `-(A3)` -/
  | predec (n : Nat)
  /-- `(-8, A3)` -/
  | disp (d : Int) (n : Nat)
  /-- `(-8, A3, D0.W)` -/
  | index (d : Int) (n : Nat) (x : Index)
  /-- `(0x1234).W` -/
  | absW (a : Nat)
  /-- `(0x123456).L` -/
  | absL (a : Nat)
  /-- `(-8, PC)` -/
  | pcDisp (d : Int)
  /-- `(-8, PC, D0.W)` -/
  | pcIndex (d : Int) (x : Index)
  /-- `#12` or `#0xC` -/
  | imm (v : Int)
  /-- `0x1F` -/
  | lit (v : Nat)
  /-- `-8 <0x1000>`: a displacement and the address it leads to -/
  | rel (d : Int) (target : Nat)
  | ccr
  | sr
  | usp

/-- Skips the given characters, which must be there. -/
def skip : List Char → List Char → Option (List Char)
  | [], cs => some cs
  | p :: ps, c :: cs => if p = c then skip ps cs else none
  | _ :: _, [] => none

/-- `D0.W)`: the index register and the closing parenthesis. -/
def index (cs : List Char) : Option (Index × List Char) := do
  let (address, cs) ← match cs with
    | 'A' :: cs => some (true, cs)
    | 'D' :: cs => some (false, cs)
    | _ => none
  let (n, cs) := digits 10 0 cs
  match cs with
  | '.' :: 'W' :: ')' :: cs => some (⟨address, n, false⟩, cs)
  | '.' :: 'L' :: ')' :: cs => some (⟨address, n, true⟩, cs)
  | _ => none

/-- What follows an opening parenthesis. -/
def parenthesis (cs : List Char) : Option (Opnd × List Char) :=
  if startsNumber cs then
    match number cs with
    | (.hex v, ')' :: '.' :: 'W' :: cs) => some (.absW v, cs)
    | (.hex v, ')' :: '.' :: 'L' :: cs) => some (.absL v, cs)
    | (.dec v, ',' :: ' ' :: 'A' :: cs) =>
      match digits 10 0 cs with
      | (n, ')' :: cs) => some (.disp v n, cs)
      | (n, ',' :: ' ' :: cs) => (index cs).map fun (x, cs) => (.index v n x, cs)
      | _ => none
    | (.dec v, ',' :: ' ' :: 'P' :: 'C' :: ')' :: cs) => some (.pcDisp v, cs)
    | (.dec v, ',' :: ' ' :: 'P' :: 'C' :: ',' :: ' ' :: cs) => (index cs).map fun (x, cs) => (.pcIndex v x, cs)
    | _ => none
  else
    match cs with
    | 'A' :: cs =>
      match digits 10 0 cs with
      | (n, ')' :: '+' :: cs) => some (.postinc n, cs)
      | (n, ')' :: cs) => some (.ind n, cs)
      | _ => none
    | _ => none

/-- An operand. -/
def operand (cs : List Char) : Option (Opnd × List Char) :=
  if startsNumber cs then
    match number cs with
    | (.hex v, cs) => some (.lit v, cs)
    | (.dec v, ' ' :: '<' :: cs) =>
      match number cs with
      | (.hex t, '>' :: cs) => some (.rel v t, cs)
      | _ => none
    | _ => none
  else
    match cs with
    | 'D' :: cs => let (n, cs) := digits 10 0 cs; some (.d n, cs)
    | 'A' :: cs => let (n, cs) := digits 10 0 cs; some (.a n, cs)
    | '-' :: '(' :: 'A' :: cs =>
      match digits 10 0 cs with
      | (n, ')' :: cs) => some (.predec n, cs)
      | _ => none
    | '(' :: cs => parenthesis cs
    | '#' :: cs =>
      match number cs with
      | (.dec v, cs) => some (.imm v, cs)
      | (.hex v, cs) => some (.imm v, cs)
    | 'C' :: 'C' :: 'R' :: cs => some (.ccr, cs)
    | 'S' :: 'R' :: cs => some (.sr, cs)
    | 'U' :: 'S' :: 'P' :: cs => some (.usp, cs)
    | _ => none

/-- No operand, one, or two separated by a comma and a space. -/
def operands (cs : List Char) : Option (List Opnd) :=
  match cs with
  | [] => some []
  | _ => do
    let (o, cs) ← operand cs
    match cs with
    | [] => some [o]
    | ',' :: ' ' :: cs =>
      let (p, cs) ← operand cs
      match cs with
      | [] => some [o, p]
      | _ => none
    | _ => none

/-! ### Lines -/

/-- A mnemonic with its size suffix. -/
def mnemonic (cs : List Char) : Option (List Char × Option Size) :=
  match cs.dropWhile (· ≠ '.') with
  | [] => some (cs, none)
  | ['.', 'B'] => some (cs.takeWhile (· ≠ '.'), some .Byte)
  | ['.', 'W'] => some (cs.takeWhile (· ≠ '.'), some .Word)
  | ['.', 'L'] => some (cs.takeWhile (· ≠ '.'), some .Long)
  | _ => none

/-- The names of the 16 conditions. -/
def conditions : List String := ["T", "F", "HI", "LS", "CC", "CS", "NE", "EQ", "VC", "VS", "PL", "MI", "GE", "LT", "GT", "LE"]

/-- A register number as the API shows it. -/
def reg (n : Nat) : U8 := BitVec.ofNat 8 n

/-- The brief extension word of an index operand. -/
def brief (d : Int) (x : Index) : BriefExtensionWord :=
  ⟨BitVec.ofNat 16 ((if x.address then 2 ^ 15 else 0) + x.reg * 2 ^ 12 + (if x.long then 2 ^ 11 else 0) + (BitVec.ofInt 8 d).toNat)⟩

/-- The addressing mode of an operand. The address of the extension word, which the API keeps with
the PC relative modes, is not in the text: it is 0 here. -/
def Opnd.mode : Opnd → Option AddressingMode
  | .d n => some (.Drd (reg n))
  | .a n => some (.Ard (reg n))
  | .ind n => some (.Ari (reg n))
  | .postinc n => some (.Ariwpo (reg n))
  | .predec n => some (.Ariwpr (reg n))
  | .disp v n => some (.Ariwd (reg n) (BitVec.ofInt 16 v))
  | .index v n x => some (.Ariwi8 (reg n) (brief v x))
  | .absW v => some (.AbsShort (BitVec.ofNat 16 v))
  | .absL v => some (.AbsLong (BitVec.ofNat 32 v))
  | .pcDisp v => some (.Pciwd 0 (BitVec.ofInt 16 v))
  | .pcIndex v x => some (.Pciwi8 0 (brief v x))
  | .imm v => some (.Immediate (BitVec.ofInt 32 v))
  | _ => none

/-- The part of a brief extension word that the 68000 uses: bits 8 to 10 cleared. -/
def _root_.M68k.BriefExtensionWord.canonical (b : BriefExtensionWord) : BriefExtensionWord := ⟨BitVec.ofNat 16 (b.word.toNat / 2 ^ 11 * 2 ^ 11 + b.word.toNat % 2 ^ 8)⟩

/-- An addressing mode without what its text does not show: the unused bits of the extension word and its address. -/
def _root_.M68k.AddressingMode.canonical : AddressingMode → AddressingMode
  | .Ariwi8 r b => .Ariwi8 r b.canonical
  | .Pciwd _ d => .Pciwd 0 d
  | .Pciwi8 _ b => .Pciwi8 0 b.canonical
  | am => am

/-- Operands without what their text does not show. -/
def _root_.M68k.Operands.canonical : Operands → Operands
  | .SizeEffectiveAddressImmediate s am i => .SizeEffectiveAddressImmediate s am.canonical i
  | .EffectiveAddressCount am c => .EffectiveAddressCount am.canonical c
  | .EffectiveAddress am => .EffectiveAddress am.canonical
  | .SizeEffectiveAddress s am => .SizeEffectiveAddress s am.canonical
  | .RegisterEffectiveAddress r am => .RegisterEffectiveAddress r am.canonical
  | .SizeRegisterEffectiveAddress s r am => .SizeRegisterEffectiveAddress s r am.canonical
  | .SizeEffectiveAddressEffectiveAddress s dst src => .SizeEffectiveAddressEffectiveAddress s dst.canonical src.canonical
  | .DirectionSizeEffectiveAddressList d s am l => .DirectionSizeEffectiveAddressList d s am.canonical l
  | .DataSizeEffectiveAddress d s am => .DataSizeEffectiveAddress d s am.canonical
  | .ConditionEffectiveAddress c am => .ConditionEffectiveAddress c am.canonical
  | .RegisterDirectionSizeEffectiveAddress r d s am => .RegisterDirectionSizeEffectiveAddress r d s am.canonical
  | .RegisterSizeEffectiveAddress r s am => .RegisterSizeEffectiveAddress r s am.canonical
  | .DirectionEffectiveAddress d am => .DirectionEffectiveAddress d am.canonical
  | o => o

/-- What a line stands for. -/
inductive Reading
  /-- A word that is no instruction, and where it is. -/
  | unknown (word : Nat) (pc : Nat)
  /-- An instruction: which one, whether its bit number is in a data register (for BTST, BCHG, BCLR and BSET), its operands. -/
  | instruction (isa : Isa) (inRegister : Bool) (operands : Operands)
deriving DecidableEq

/-- The bit number of BTST, BCHG, BCLR and BSET is in a data register if bit 8 of the opcode is set. -/
def inRegister (isa : Isa) (op : U16) : Bool :=
  match isa with
  | .Btst | .Bchg | .Bclr | .Bset => flag op 8
  | _ => false

/-- An instruction other than the bit manipulations. -/
def known (isa : Isa) (o : Operands) : Option Reading := some (.instruction isa false o)

/-- ADD, AND, OR and SUB: to a data register, or from a data register to memory. -/
def binary (isa : Isa) : Option Size → List Opnd → Option Reading
  | some s, [src, .d r] => do known isa (.RegisterDirectionSizeEffectiveAddress (reg r) .DstReg s (← src.mode))
  | some s, [.d r, dst] => do known isa (.RegisterDirectionSizeEffectiveAddress (reg r) .DstEa s (← dst.mode))
  | _, _ => none

/-- ADDA, CMPA and SUBA. -/
def toAddress (isa : Isa) : Option Size → List Opnd → Option Reading
  | some s, [src, .a r] => do known isa (.RegisterSizeEffectiveAddress (reg r) s (← src.mode))
  | _, _ => none

/-- ADDI, ANDI, CMPI, EORI, ORI and SUBI, and the forms with CCR and SR. -/
def immediate (isa : Isa) (ccr sr : Option Isa) : Option Size → List Opnd → Option Reading
  | some s, [.imm v, dst] => do known isa (.SizeEffectiveAddressImmediate s (← dst.mode) (BitVec.ofInt 32 v))
  | none, [.lit v, .ccr] => do known (← ccr) (.Immediate (BitVec.ofNat 16 v))
  | none, [.lit v, .sr] => do known (← sr) (.Immediate (BitVec.ofNat 16 v))
  | _, _ => none

/-- ADDQ and SUBQ: the data 8 is encoded as 0. -/
def quick (isa : Isa) : Option Size → List Opnd → Option Reading
  | some s, [.imm v, dst] => do known isa (.DataSizeEffectiveAddress (BitVec.ofInt 8 (v % 8)) s (← dst.mode))
  | _, _ => none

/-- ADDX, SUBX, and with an implied size ABCD and SBCD: source first. -/
def extended (isa : Isa) (s : Size) : List Opnd → Option Reading
  | [.d y, .d x] => known isa (.RegisterSizeModeRegister (reg x) s .RegisterToRegister (reg y))
  | [.predec y, .predec x] => known isa (.RegisterSizeModeRegister (reg x) s .MemoryToMemory (reg y))
  | _ => none

/-- The shifts and rotates: without a size those of memory. The count 8 is encoded as 0. -/
def shift (memory register : Isa) (dir : Direction) : Option Size → List Opnd → Option Reading
  | none, [am] => do known memory (.DirectionEffectiveAddress dir (← am.mode))
  | some s, [.d c, .d r] => known register (.RotationDirectionSizeModeRegister (reg c) dir s true (reg r))
  | some s, [.imm c, .d r] => known register (.RotationDirectionSizeModeRegister (BitVec.ofInt 8 (c % 8)) dir s false (reg r))
  | _, _ => none

/-- BTST, BCHG, BCLR and BSET. -/
def bitOp (isa : Isa) : Option Size → List Opnd → Option Reading
  | none, [.d n, am] => do return .instruction isa true (.EffectiveAddressCount (← am.mode) (reg n))
  | none, [.imm n, am] => do return .instruction isa false (.EffectiveAddressCount (← am.mode) (BitVec.ofInt 8 n))
  | _, _ => none

/-- A word operand and a data register. -/
def wordToData (isa : Isa) : Option Size → List Opnd → Option Reading
  | some .Word, [src, .d r] => do known isa (.RegisterEffectiveAddress (reg r) (← src.mode))
  | _, _ => none

/-- One operand with a size. -/
def sized (isa : Isa) : Option Size → List Opnd → Option Reading
  | some s, [am] => do known isa (.SizeEffectiveAddress s (← am.mode))
  | _, _ => none

/-- One operand without a size. -/
def single (isa : Isa) : Option Size → List Opnd → Option Reading
  | none, [am] => do known isa (.EffectiveAddress (← am.mode))
  | _, _ => none

/-- No operand. -/
def alone (isa : Isa) : Option Size → List Opnd → Option Reading
  | none, [] => known isa .NoOperands
  | _, _ => none

/-- A displacement is right if it leads from the word after the opcode to the address written after it. -/
def leadsTo (pc : U32) (d : Int) (target : Nat) : Bool := (pc + 2 + BitVec.ofInt 32 d).toNat = target

/-- BRA and BSR. -/
def branch (isa : Isa) (pc : U32) : Option Size → List Opnd → Option Reading
  | none, [.rel d t] => if leadsTo pc d t then known isa (.Displacement (BitVec.ofInt 16 d)) else none
  | _, _ => none

/-- CMP. -/
def cmp : Option Size → List Opnd → Option Reading
  | some s, [src, .d r] => do known .Cmp (.RegisterDirectionSizeEffectiveAddress (reg r) .DstReg s (← src.mode))
  | _, _ => none

/-- CMPM. -/
def cmpm : Option Size → List Opnd → Option Reading
  | some s, [.postinc y, .postinc x] => known .Cmpm (.RegisterSizeRegister (reg x) s (reg y))
  | _, _ => none

/-- EOR. -/
def eor : Option Size → List Opnd → Option Reading
  | some s, [.d r, dst] => do known .Eor (.RegisterDirectionSizeEffectiveAddress (reg r) .DstEa s (← dst.mode))
  | _, _ => none

/-- EXG. -/
def exg : Option Size → List Opnd → Option Reading
  | none, [.d x, .d y] => known .Exg (.RegisterOpmodeRegister (reg x) .ExchangeData (reg y))
  | none, [.a x, .a y] => known .Exg (.RegisterOpmodeRegister (reg x) .ExchangeAddress (reg y))
  | none, [.d x, .a y] => known .Exg (.RegisterOpmodeRegister (reg x) .ExchangeDataAddress (reg y))
  | _, _ => none

/-- EXT. -/
def ext : Option Size → List Opnd → Option Reading
  | some .Word, [.d r] => known .Ext (.OpmodeRegister 2 (reg r))
  | some .Long, [.d r] => known .Ext (.OpmodeRegister 3 (reg r))
  | _, _ => none

/-- LEA. -/
def lea : Option Size → List Opnd → Option Reading
  | none, [src, .a r] => do known .Lea (.RegisterEffectiveAddress (reg r) (← src.mode))
  | _, _ => none

/-- LINK. -/
def link : Option Size → List Opnd → Option Reading
  | some .Word, [.a r, .imm d] => known .Link (.RegisterDisplacement (reg r) (BitVec.ofInt 16 d))
  | _, _ => none

/-- MOVE. -/
def move : Option Size → List Opnd → Option Reading
  | some s, [src, dst] => do known .Move (.SizeEffectiveAddressEffectiveAddress s (← dst.mode) (← src.mode))
  | none, [.usp, .a r] => known .Moveusp (.DirectionRegister .UspToRegister (reg r))
  | none, [.a r, .usp] => known .Moveusp (.DirectionRegister .RegisterToUsp (reg r))
  | none, [src, .ccr] => do known .Moveccr (.EffectiveAddress (← src.mode))
  | none, [src, .sr] => do known .Movesr (.EffectiveAddress (← src.mode))
  | none, [.sr, dst] => do known .Movefsr (.EffectiveAddress (← dst.mode))
  | _, _ => none

/-- MOVEA. -/
def movea : Option Size → List Opnd → Option Reading
  | some s, [src, .a r] => do known .Movea (.SizeRegisterEffectiveAddress s (reg r) (← src.mode))
  | _, _ => none

/-- MOVEM. -/
def movem : Option Size → List Opnd → Option Reading
  | some s, [.lit l, dst] => do known .Movem (.DirectionSizeEffectiveAddressList .RegisterToMemory s (← dst.mode) (BitVec.ofNat 16 l))
  | some s, [src, .lit l] => do known .Movem (.DirectionSizeEffectiveAddressList .MemoryToRegister s (← src.mode) (BitVec.ofNat 16 l))
  | _, _ => none

/-- MOVEP. -/
def movep : Option Size → List Opnd → Option Reading
  | some s, [.d r, .disp d a] => known .Movep (.RegisterDirectionSizeRegisterDisplacement (reg r) .RegisterToMemory s (reg a) (BitVec.ofInt 16 d))
  | some s, [.disp d a, .d r] => known .Movep (.RegisterDirectionSizeRegisterDisplacement (reg r) .MemoryToRegister s (reg a) (BitVec.ofInt 16 d))
  | _, _ => none

/-- MOVEQ. -/
def moveq : Option Size → List Opnd → Option Reading
  | some .Long, [.imm v, .d r] => known .Moveq (.RegisterData (reg r) (BitVec.ofInt 8 v))
  | _, _ => none

/-- STOP. -/
def stop : Option Size → List Opnd → Option Reading
  | none, [.imm v] => known .Stop (.Immediate (BitVec.ofInt 16 v))
  | _, _ => none

/-- SWAP. -/
def swap : Option Size → List Opnd → Option Reading
  | none, [.d r] => known .Swap (.Register (reg r))
  | _, _ => none

/-- TRAP. -/
def trap : Option Size → List Opnd → Option Reading
  | none, [.imm v] => known .Trap (.Vector (BitVec.ofInt 8 v))
  | _, _ => none

/-- UNLK. -/
def unlk : Option Size → List Opnd → Option Reading
  | none, [.a r] => known .Unlk (.Register (reg r))
  | _, _ => none

/-- What the mnemonics stand for, the conditional ones apart; `pc` is the address of the instruction. -/
def plain (pc : U32) : List (String × (Option Size → List Opnd → Option Reading)) := [
  ("ABCD", fun s o => if s = none then extended .Abcd .Byte o else none),
  ("ADD", binary .Add),
  ("ADDA", toAddress .Adda),
  ("ADDI", immediate .Addi none none),
  ("ADDQ", quick .Addq),
  ("ADDX", fun s o => do extended .Addx (← s) o),
  ("AND", binary .And),
  ("ANDI", immediate .Andi (some .Andiccr) (some .Andisr)),
  ("ASL", shift .Asm .Asr .Left),
  ("ASR", shift .Asm .Asr .Right),
  ("BCHG", bitOp .Bchg),
  ("BCLR", bitOp .Bclr),
  ("BRA", branch .Bra pc),
  ("BSET", bitOp .Bset),
  ("BSR", branch .Bsr pc),
  ("BTST", bitOp .Btst),
  ("CHK", wordToData .Chk),
  ("CLR", sized .Clr),
  ("CMP", cmp),
  ("CMPA", toAddress .Cmpa),
  ("CMPI", immediate .Cmpi none none),
  ("CMPM", cmpm),
  ("DIVS", wordToData .Divs),
  ("DIVU", wordToData .Divu),
  ("EOR", eor),
  ("EORI", immediate .Eori (some .Eoriccr) (some .Eorisr)),
  ("EXG", exg),
  ("EXT", ext),
  ("ILLEGAL", alone .Illegal),
  ("JMP", single .Jmp),
  ("JSR", single .Jsr),
  ("LEA", lea),
  ("LINK", link),
  ("LSL", shift .Lsm .Lsr .Left),
  ("LSR", shift .Lsm .Lsr .Right),
  ("MOVE", move),
  ("MOVEA", movea),
  ("MOVEM", movem),
  ("MOVEP", movep),
  ("MOVEQ", moveq),
  ("MULS", wordToData .Muls),
  ("MULU", wordToData .Mulu),
  ("NBCD", single .Nbcd),
  ("NEG", sized .Neg),
  ("NEGX", sized .Negx),
  ("NOP", alone .Nop),
  ("NOT", sized .Not),
  ("OR", binary .Or),
  ("ORI", immediate .Ori (some .Oriccr) (some .Orisr)),
  ("PEA", single .Pea),
  ("RESET", alone .Reset),
  ("ROL", shift .Rom .Ror .Left),
  ("ROR", shift .Rom .Ror .Right),
  ("ROXL", shift .Roxm .Roxr .Left),
  ("ROXR", shift .Roxm .Roxr .Right),
  ("RTE", alone .Rte),
  ("RTR", alone .Rtr),
  ("RTS", alone .Rts),
  ("SBCD", fun s o => if s = none then extended .Sbcd .Byte o else none),
  ("STOP", stop),
  ("SUB", binary .Sub),
  ("SUBA", toAddress .Suba),
  ("SUBI", immediate .Subi none none),
  ("SUBQ", quick .Subq),
  ("SUBX", fun s o => do extended .Subx (← s) o),
  ("SWAP", swap),
  ("TAS", single .Tas),
  ("TRAP", trap),
  ("TRAPV", alone .Trapv),
  ("TST", sized .Tst),
  ("UNLK", unlk)]

/-- Bcc with the condition number `cc`. -/
def bcc (pc : U32) (cc : U8) : Option Size → List Opnd → Option Reading
  | none, [.rel d t] => if leadsTo pc d t then known .Bcc (.ConditionDisplacement cc (BitVec.ofInt 16 d)) else none
  | _, _ => none

/-- DBcc with the condition number `cc`. -/
def dbcc (pc : U32) (cc : U8) : Option Size → List Opnd → Option Reading
  | none, [.d r, .rel d t] => if leadsTo pc d t then known .Dbcc (.ConditionRegisterDisplacement cc (reg r) (BitVec.ofInt 16 d)) else none
  | _, _ => none

/-- Scc with the condition number `cc`. -/
def scc (cc : U8) : Option Size → List Opnd → Option Reading
  | none, [am] => do known .Scc (.ConditionEffectiveAddress cc (← am.mode))
  | _, _ => none

/-- The conditional instructions: Bcc, DBcc and Scc with the condition number `cc`. -/
def conditional (pc : U32) (cc : U8) : List (String × (Option Size → List Opnd → Option Reading)) :=
  [("B", bcc pc cc), ("DB", dbcc pc cc), ("S", scc cc)]

/-- All the mnemonics. -/
def mnemonics (pc : U32) : List (List Char × (Option Size → List Opnd → Option Reading)) :=
  (plain pc).map (fun e => (e.1.toList, e.2)) ++
  conditions.zipIdx.flatMap fun (name, cc) => (conditional pc (BitVec.ofNat 8 cc)).map fun e => (e.1.toList ++ name.toList, e.2)

/-- `instruction 4AFB at 0x1000` -/
def unknownWord (cs : List Char) : Option Reading := do
  let cs ← skip "instruction ".toList cs
  let (w, cs) := digits 16 0 cs
  let cs ← skip " at ".toList cs
  match number cs with
  | (.hex pc, []) => some (.unknown w pc)
  | _ => none

/-- What the line of the instruction at address `pc` stands for. -/
def line (pc : U32) (cs : List Char) : Option Reading := do
  let name := cs.takeWhile (· ≠ ' ')
  let rest := (cs.dropWhile (· ≠ ' ')).tail
  if name = "Unknown".toList then unknownWord rest
  else
    let (name, size) ← mnemonic name
    let ops ← operands rest
    let (_, f) ← (mnemonics pc).find? (fun e => e.1 == name)
    f size ops

end M68k.Spec.Reader
