import Verif.Spec.Length
import Verif.Spec.Operand
import Verif.Spec.Contents
/-
The addresses an instruction may write to, from its opcode, its extension words and the registers before it.
-/
namespace M68k.Spec
open M68k.Exec
variable {M : Type} [MemoryAccess M]

/-- The `n` addresses from `a` on. -/
def span (a : U32) (n : Nat) : List U32 := (List.range n).map (at_ a)

/-- The address of the alterable memory operand of size `sz` denoted by the fields `mode` and `reg`; `ws` begins with its
extension words. -/
def eaAddress (sz : Size) (r : Registers) (mode reg : Nat) (ws : List U16) : U32 :=
  match mode, reg, ws with
  | 2, n, _ => areg r (Fin.ofNat 8 n)                                                -- (An)
  | 3, n, _ => areg r (Fin.ofNat 8 n)                                                -- (An)+
  | 4, n, _ => areg r (Fin.ofNat 8 n) - step (Fin.ofNat 8 n) sz                      -- -(An)
  | 5, n, d :: _ => areg r (Fin.ofNat 8 n) + signExt d                               -- d16(An)
  | 6, n, x :: _ => areg r (Fin.ofNat 8 n) + signExt (BitVec.ofNat 8 x.toNat) + indexValue r x  -- d8(An,Xn)
  | 7, 0, w :: _ => signExt w                                                        -- xxx.W
  | 7, 1, hi :: lo :: _ => hi ++ lo                                                  -- xxx.L
  | _, _, _ => 0

/-- The registers after the operand denoted by the fields `mode` and `reg` has been accessed: `(An)+` and `-(An)` move An. -/
def afterEa (sz : Size) (r : Registers) (mode reg : Nat) : Registers :=
  match mode with
  | 3 => setAreg r (Fin.ofNat 8 reg) (areg r (Fin.ofNat 8 reg) + step (Fin.ofNat 8 reg) sz)
  | 4 => setAreg r (Fin.ofNat 8 reg) (areg r (Fin.ofNat 8 reg) - step (Fin.ofNat 8 reg) sz)
  | _ => r

/-- The number of extension words before those of the effective address. -/
def wordsBefore (i : Isa) (op : U16) : Nat :=
  match i with
  | .Addi | .Subi | .Andi | .Ori | .Eori => sizedImm op
  | .Bchg | .Bclr | .Bset => if flag op 8 then 0 else 1
  | _ => 0

/-- The number of registers in the list of a MOVEM. -/
def listCount (ws : List U16) : Nat := (listed (ws.headD 0)).length

/-- The addresses the instruction `i` with the opcode `op` and the extension words `ws` may write to. -/
def written (i : Isa) (op : U16) (r : Registers) (ws : List U16) : List U32 :=
  if writesMemory i op = false then []
  else match i with
  -- the second operand, after the first one has been accessed
  | .Move =>
    match moveOpSize op with
    | some sz => span (eaAddress sz (afterEa sz r (op.toNat / 8 % 8) (op.toNat % 8)) (op.toNat / 64 % 8) (op.toNat / 512 % 8)
        (ws.drop (opEaWords (moveImm op) op))) (bytes sz)
    | none => []
  -- `-(Ax)` after `-(Ay)`
  | .Addx | .Subx =>
    match opSize op with
    | some sz => span (eaAddress sz (afterEa sz r 4 (op.toNat % 8)) 4 (op.toNat / 512 % 8) []) (bytes sz)
    | none => []
  | .Abcd | .Sbcd => span (eaAddress .Byte (afterEa .Byte r 4 (op.toNat % 8)) 4 (op.toNat / 512 % 8) []) 1
  -- as many words or longs as there are registers in the list; with `-(An)` they end at An
  | .Movem =>
    let n := bytes (sizeBit op 6) * listCount ws
    if op.toNat / 8 % 8 = 4 then span (areg r (regField op 0) - BitVec.ofNat 32 n) n
    else span (eaAddress (sizeBit op 6) r (op.toNat / 8 % 8) (op.toNat % 8) (ws.drop 1)) n
  -- every second byte
  | .Movep => (List.range (bytes (sizeBit op 6))).map fun k => areg r (regField op 0) + signExt (ws.headD 0) + BitVec.ofNat 32 (2 * k)
  -- a long on the stack
  | .Link | .Pea | .Bsr | .Jsr => span (areg r 7 - 4) 4
  -- the operand denoted by the effective address field
  | i =>
    match eaSize i op with
    | some sz => span (eaAddress sz r (op.toNat / 8 % 8) (op.toNat % 8) (ws.drop (wordsBefore i op))) (bytes sz)
    | none => []

/-- `m'` results from `m` by read accesses and by writes of operands all of whose bytes are at addresses of `W`. Words and longs are accessed at
even addresses only. -/
inductive Touches (W : List U32) : M → M → Prop
  | refl (m : M) : Touches W m m
  | get {m m' m'' : M} {sz : Size} {a : U32} : Touches W m m' → AlignedFor sz a →
      (memGet sz a m' = .none m'' ∨ ∃ v, memGet sz a m' = .val v m'') → Touches W m m''
  | set {m m' m'' : M} {sz : Size} {a : U32} {v : Val sz} : Touches W m m' → AlignedFor sz a → (∀ k < bytes sz, at_ a k ∈ W) →
      (memSet sz a v m' = .none m'' ∨ memSet sz a v m' = .val () m'') → Touches W m m''

/-- A memory where a refused write changes at most the bytes of the operand. -/
class Contained (M : Type) [MemoryAccess M] [Ram M] : Prop where
  set_none : ∀ {sz : Size} {a : U32} {v : Val sz} {m m' : M}, AlignedFor sz a → memSet sz a v m = .none m' → SameExcept m m' a (bytes sz)

end M68k.Spec
