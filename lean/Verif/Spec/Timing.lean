import Verif.Spec.Instr
import Verif.Model.CpuDetails
/-
Specification of the execution times: which entries of the CPU's timing table an instruction costs.
-/
namespace M68k.Spec

/-- Effective address calculation time of a mode. -/
def eaTime (C : CpuDetails) : Mode → Nat
  | .dn _ => 0
  | .an _ => 0
  | .ind _ => C.EA_ARI
  | .postinc _ => C.EA_ARIWPO
  | .predec _ => C.EA_ARIWPR
  | .disp _ _ => C.EA_ARIWD
  | .index _ _ => C.EA_ARIWI8
  | .absW _ => C.EA_ABSSHORT
  | .absL _ => C.EA_ABSLONG
  | .pcDisp _ _ => C.EA_PCIWD
  | .pcIndex _ _ => C.EA_PCIWI8
  | .imm _ => C.EA_IMMEDIATE

/-- Additional time of a long read. -/
def longRead (sz : Size) (m : Mode) : Nat :=
  match sz, m with
  | .Long, .dn _ => 0
  | .Long, .an _ => 0
  | .Long, _ => 4
  | _, _ => 0

/-- Additional time of a long write. -/
def longWrite (sz : Size) (m : Mode) : Nat := if sz = .Long ∧ m.isMem then 4 else 0

/-- Time of reading an operand. -/
def readTime (C : CpuDetails) (sz : Size) (m : Mode) : Nat := eaTime C m + longRead sz m
/-- Time of writing an operand. -/
def writeTime (C : CpuDetails) (sz : Size) (m : Mode) : Nat := eaTime C m + longWrite sz m
/-- Time of reading then writing the same operand. -/
def rmwTime (C : CpuDetails) (sz : Size) (m : Mode) : Nat := eaTime C m + longRead sz m + longWrite sz m

/-- Byte and word operations share a timing entry. -/
def bySize (sz : Size) (bw l : Nat) : Nat := if sz = .Long then l else bw
/-- The mode is a data register. -/
def isDn : Mode → Bool
  | .dn _ => true
  | _ => false
/-- The mode is a data or address register. -/
def isReg : Mode → Bool
  | .dn _ => true
  | .an _ => true
  | _ => false
/-- Register and memory operands have different timing entries. -/
def byPlace (m : Mode) (reg mem : Nat) : Nat := if isDn m then reg else mem
/-- The mode is a register or immediate. -/
def isRegOrImm : Mode → Bool
  | .dn _ => true
  | .an _ => true
  | .imm _ => true
  | _ => false

/-- Time of JMP, JSR, LEA and PEA by addressing mode. -/
def controlTime (ind disp index absW absL pcDisp pcIndex : Nat) : Mode → Nat
  | .ind _ => ind
  | .disp _ _ => disp
  | .index _ _ => index
  | .absW _ => absW
  | .absL _ => absL
  | .pcDisp _ _ => pcDisp
  | .pcIndex _ _ => pcIndex
  | _ => 0

/-- Time of MOVEM by addressing mode, without the registers. -/
def movemModeTime (C : CpuDetails) : Mode → Nat
  | .ind _ => C.MOVEM_ARI
  | .postinc _ => C.MOVEM_ARIWPO
  | .predec _ => C.MOVEM_ARIWPR
  | .disp _ _ => C.MOVEM_ARIWD
  | .index _ _ => C.MOVEM_ARIWI8
  | .absW _ => C.MOVEM_ABSSHORT
  | .absL _ => C.MOVEM_ABSLONG
  | .pcDisp _ _ => C.MOVEM_PCIWD
  | .pcIndex _ _ => C.MOVEM_PCIWI8
  | _ => 0

end M68k.Spec
