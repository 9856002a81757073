import Verif.Spec.Written
/-
The memory accesses of an instruction, in their order, from its opcode, its extension words and the registers before it.
-/
namespace M68k.Spec
open M68k.Exec
variable {M : Type} [MemoryAccess M]

/-- A memory access. -/
structure Access where
  write : Bool
  size : Size
  address : U32
deriving DecidableEq

/-- A memory system that records every access to `M`, the latest first. -/
structure Traced (M : Type) where
  mem : M
  log : List Access

/-- Adds an access to the record. -/
def Traced.note {α : Type} (r : Traced M) (x : Access) : MRes M α → MRes (Traced M) α
  | .val a m => .val a ⟨m, x :: r.log⟩
  | .none m => .none ⟨m, x :: r.log⟩
  | .panic => .panic

instance : MemoryAccess (Traced M) where
  getByte a r := r.note ⟨false, .Byte, a⟩ (MemoryAccess.getByte a r.mem)
  getWord a r := r.note ⟨false, .Word, a⟩ (MemoryAccess.getWord a r.mem)
  getLong a r := r.note ⟨false, .Long, a⟩ (MemoryAccess.getLong a r.mem)
  setByte a v r := r.note ⟨true, .Byte, a⟩ (MemoryAccess.setByte a v r.mem)
  setWord a v r := r.note ⟨true, .Word, a⟩ (MemoryAccess.setWord a v r.mem)
  setLong a v r := r.note ⟨true, .Long, a⟩ (MemoryAccess.setLong a v r.mem)
  resetInstruction r := ⟨MemoryAccess.resetInstruction r.mem, r.log⟩

/-- The address of the operand of size `sz` denoted by the fields `mode` and `reg`, if it is in memory; `ws` begins with its extension words and
`pc` is the address of the first of them. -/
def operandAddress (sz : Size) (r : Registers) (pc : U32) (mode reg : Nat) (ws : List U16) : Option U32 :=
  if eaInMemory mode reg = false then none
  else match mode, reg, ws with
  | 7, 2, d :: _ => some (pc + signExt d)                                            -- d16(PC)
  | 7, 3, x :: _ => some (pc + signExt (BitVec.ofNat 8 x.toNat) + indexValue r x)    -- d8(PC,Xn)
  | _, _, _ => some (eaAddress sz r mode reg ws)

/-- A read of an operand, if it is in memory. -/
def reading (sz : Size) (a : Option U32) : List Access := a.toList.map fun a => ⟨false, sz, a⟩
/-- A write of an operand, if it is in memory. -/
def writing (sz : Size) (a : Option U32) : List Access := a.toList.map fun a => ⟨true, sz, a⟩

/-- The number of extension words before those of the effective address. -/
def wordsBeforeEa (i : Isa) (op : U16) : Nat :=
  match i with
  | .Cmpi => sizedImm op
  | .Btst => if flag op 8 then 0 else 1
  | i => wordsBefore i op

/-- The size of the operand denoted by the effective address field. -/
def operandSize (i : Isa) (op : U16) : Option Size := if i = .Movesr then some .Word else eaSize i op

/-- The accesses of the instruction `i` with the opcode `op` and the extension words `ws`, the first at the address `pc`, after those words have
been read. `format` is the stack format of the processor. -/
def accesses (format : StackFormat) (i : Isa) (op : U16) (pc : U32) (r : Registers) (ws : List U16) : List Access :=
  match i with
  -- read of the source, then write of the destination
  | .Move =>
    match moveOpSize op with
    | some sz => reading sz (operandAddress sz r pc (op.toNat / 8 % 8) (op.toNat % 8) ws) ++
        writing sz (operandAddress sz (afterEa sz r (op.toNat / 8 % 8) (op.toNat % 8)) 0 (op.toNat / 64 % 8) (op.toNat / 512 % 8)
          (ws.drop (opEaWords (moveImm op) op)))
    | none => []
  -- read of `-(Ay)`, read and write of `-(Ax)`
  | .Addx | .Subx | .Abcd | .Sbcd =>
    if flag op 3 = false then []
    else match if i = .Abcd ∨ i = .Sbcd then some .Byte else opSize op with
    | some sz =>
      let y := eaAddress sz r 4 (op.toNat % 8) []
      let x := eaAddress sz (afterEa sz r 4 (op.toNat % 8)) 4 (op.toNat / 512 % 8) []
      [⟨false, sz, y⟩, ⟨false, sz, x⟩, ⟨true, sz, x⟩]
    | none => []
  -- read of `(Ay)+`, read of `(Ax)+`
  | .Cmpm =>
    match opSize op with
    | some sz => [⟨false, sz, eaAddress sz r 3 (op.toNat % 8) []⟩,
        ⟨false, sz, eaAddress sz (afterEa sz r 3 (op.toNat % 8)) 3 (op.toNat / 512 % 8) []⟩]
    | none => []
  -- one access for each register in the list, at descending addresses for `-(An)`
  | .Movem =>
    let sz := sizeBit op 6
    if op.toNat / 8 % 8 = 4 then
      (List.range (listCount ws)).map fun k => ⟨true, sz, areg r (regField op 0) - BitVec.ofNat 32 (bytes sz * (k + 1))⟩
    else match operandAddress sz r (pc + 2) (op.toNat / 8 % 8) (op.toNat % 8) (ws.drop 1) with
    | some a => (List.range (listCount ws)).map fun k => ⟨!flag op 10, sz, a + BitVec.ofNat 32 (bytes sz * k)⟩
    | none => []
  -- every second byte
  | .Movep => (List.range (bytes (sizeBit op 6))).map fun k =>
      ⟨flag op 7, .Byte, areg r (regField op 0) + signExt (ws.headD 0) + BitVec.ofNat 32 (2 * k)⟩
  -- a long on the stack
  | .Link | .Pea | .Bsr | .Jsr => [⟨true, .Long, areg r 7 - 4⟩]
  | .Unlk => [⟨false, .Long, areg r (regField op 0)⟩]
  | .Rts => [⟨false, .Long, areg r 7⟩]
  | .Rtr => [⟨false, .Word, areg r 7⟩, ⟨false, .Long, areg r 7 + 2⟩]
  | .Rte => [⟨false, .Word, areg r 7⟩, ⟨false, .Long, areg r 7 + 2⟩] ++
      if format = .SCC68070 then [⟨false, .Word, areg r 7 + 6⟩] else []
  -- a read, a write or both of the operand denoted by the effective address field
  | i =>
    match operandSize i op with
    | some sz =>
      let a := operandAddress sz r (pc + BitVec.ofNat 32 (2 * wordsBeforeEa i op)) (op.toNat / 8 % 8) (op.toNat % 8) (ws.drop (wordsBeforeEa i op))
      (if readsMemory i op then reading sz a else []) ++ (if writesMemory i op then writing sz a else [])
    | none => []

/-- How an instruction with the accesses `l` can end after the accesses `d`: with an access error, which follows the first refused access; with an
address error, if the next access would be that of a word or a long at an odd address; or otherwise after all of them. -/
def EndsAfter (l d : List Access) (vector : Option U8) : Prop :=
  (vector = some 2 ∧ d ≠ [] ∧ d <+: l) ∨
  (vector = some 3 ∧ ∃ x t, l = d ++ x :: t ∧ x.size ≠ .Byte ∧ Odd x.address) ∨
  d = l

/-- The reads of the words of an instruction. -/
def wordAccesses (pc : U32) (n : Nat) : List Access := (List.range n).map fun k => ⟨false, .Word, pc + BitVec.ofNat 32 (2 * k)⟩

end M68k.Spec
