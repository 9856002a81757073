import Verif.Spec.Operand
/-
The effective addresses and stack accesses of the instructions, for what happens when they are odd.
-/
namespace M68k.Spec
variable {M : Type} [MemoryAccess M]

/-- The effective address of the operand of size `sz`: the immediate data, if there is any, comes before its extension words. -/
def eaMode (i : Isa) (sz : Size) (op : U16) : Exec M Mode :=
  match i with
  | .Addi | .Subi | .Andi | .Ori | .Eori | .Cmpi => do
    let _ ← fetchImm sz
    fetchEa (some sz) op
  | _ => fetchEa (some sz) op

/-- The instructions that begin with an access to the stack of the current mode. -/
def usesStack (i : Isa) : Bool :=
  match i with
  | .Bsr | .Jsr | .Pea | .Link | .Rts | .Rtr | .Rte => true
  | _ => false

end M68k.Spec
