import Verif.Model.Decode
import Verif.Model.Assembler
import Verif.Spec.Machine
/-
Instruction words in memory, and the addressing modes that an assembled word can denote.
-/
namespace M68k.Spec
variable {M : Type} [MemoryAccess M]

/-- `Feeds it ws it'`: the memory iterator `it` yields the words `ws`, each read at an even address, and is then `it'`. -/
inductive Feeds : Iter M → List U16 → Iter M → Prop
  | nil (it : Iter M) : Feeds it [] it
  | cons {m m' : M} {a : U32} {w : U16} {ws : List U16} {it : Iter M} : ¬ Odd a → MemoryAccess.getWord a m = .val w m' → Feeds ⟨m', a + 2⟩ ws it → Feeds ⟨m, a⟩ (w :: ws) it

/-- The register numbers are at most 7 and an immediate operand fits in its extension words: two of them if `long`, else one. -/
def WellFormed (long : Bool) : AddressingMode → Prop
  | .Drd n | .Ard n | .Ari n | .Ariwpo n | .Ariwpr n | .Ariwd n _ | .Ariwi8 n _ => n.toNat ≤ 7
  | .Immediate v => long = true ∨ v.toNat < 65536
  | _ => True

/-- A decoded PC relative mode holds the address `pc` of its extension word; the assembler ignores that address. -/
def placedAt (pc : U32) : AddressingMode → AddressingMode
  | .Pciwd _ d => .Pciwd pc d
  | .Pciwi8 _ x => .Pciwi8 pc x
  | am => am

/-- The registers of a mode are at most 7. -/
def RegistersOk : AddressingMode → Prop
  | .Drd n | .Ard n | .Ari n | .Ariwpo n | .Ariwpr n | .Ariwd n _ | .Ariwi8 n _ => n.toNat ≤ 7
  | _ => True

/-- The mode as its extension words hold it: an immediate operand is cut to one word unless it is `long`. -/
def held (long : Bool) : AddressingMode → AddressingMode
  | .Immediate v => .Immediate (if long then v else v &&& 0xFFFF)
  | am => am

/-- The immediate data of an instruction of the given size. -/
def heldImm : Size → U32 → U32
  | .Byte, v => v &&& 0xFF
  | .Word, v => v &&& 0xFFFF
  | .Long, v => v

/-- Wherever the words `ws` are in a memory, at an address `pc`, the instruction decoder takes exactly them and
yields the instruction `isa` with the operands `ops pc`. -/
def Decodes (ws : List U16) (isa : Isa) (ops : U32 → Operands) : Prop :=
  ∀ (M : Type) [MemoryAccess M] (it it' : Iter M), Feeds it ws it' →
    ∃ op, ws.head? = some op ∧ decoder op = isa ∧ Instruction.fromMemory it = .ok ⟨op, it.nextAddr, ops it.nextAddr⟩ it'

end M68k.Spec
