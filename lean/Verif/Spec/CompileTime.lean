import Verif.Spec.Compile
/-
The time of the programs of Spec/Compile.lean, in terms of their source and of the timing table of the CPU (C93).
-/
namespace M68k.Spec
variable {n : Nat}

/-- To load a constant: `MOVE.L #k,D0`. Long operands take 4 cycles more than the table says. -/
def constTime (C : CpuDetails) : Nat := C.MOVE_OTHER + (C.EA_IMMEDIATE + 4)

/-- To read or to assign a variable: `MOVE.L d(A6),D0` and `MOVE.L D0,d(A6)`. -/
def varTime (C : CpuDetails) : Nat := C.MOVE_OTHER + (C.EA_ARIWD + 4)

/-- To put the value of the right operand on the stack, `MOVE.L D0,-(A7)`, and to take it from there, `MOVE.L (A7)+,D1`. -/
def stackTime (C : CpuDetails) : Nat := (C.MOVE_DST_ARIWPR + (C.EA_ARIWPR + 4)) + (C.MOVE_OTHER + (C.EA_ARIWPO + 4))

def UnOp.time (C : CpuDetails) : UnOp → Nat
  | neg => C.NEG_REG_L
  | not => C.NOT_REG_L

def BinOp.time (C : CpuDetails) : BinOp → Nat
  | add => C.ADD_REG_L_RDIMM
  | sub => C.SUB_REG_L_RDIMM
  | and => C.AND_REG_L_RDIMM
  | or => C.OR_REG_L_RDIMM
  | xor => C.EOR_REG_L
  | mul => C.MULU

/-- The time of an expression does not depend on the values of the variables. -/
def Expr.time (C : CpuDetails) : Expr n → Nat
  | const _ => constTime C
  | var _ => varTime C
  | un o e => e.time C + o.time C
  | bin o e1 e2 => e2.time C + e1.time C + stackTime C + o.time C

/-- The time of a condition depends on what holds: on which branches are taken, and on which part is not evaluated at all. -/
def Cond.time (C : CpuDetails) (σ : Store n) : Cond n → Nat
  | rel r e1 e2 => e2.time C + e1.time C + stackTime C + C.CMP_L +
      if r.holds (e1.eval σ) (e2.eval σ) then C.BCC_BRANCH else C.BCC_NO_BRANCH_BYTE + C.JMP_ABSLONG
  | not c => c.time C σ + if c.eval σ then C.JMP_ABSLONG else 0
  | and c1 c2 => c1.time C σ + if c1.eval σ then c2.time C σ else 0
  | or c1 c2 => c1.time C σ + if c1.eval σ then C.JMP_ABSLONG else c2.time C σ

/-- The statement, begun with the values `σ`, ends with the values `σ'` and takes this time. -/
inductive PerformsTimed (C : CpuDetails) : Stmt n → Store n → Store n → Nat → Prop
  | skip (σ : Store n) : PerformsTimed C .skip σ σ 0
  | assign (i : Fin n) (e : Expr n) (σ : Store n) : PerformsTimed C (.assign i e) σ (σ.set i (e.eval σ)) (e.time C + varTime C)
  | seq {s t : Stmt n} {σ σ1 σ' : Store n} {k j : Nat} : PerformsTimed C s σ σ1 k → PerformsTimed C t σ1 σ' j → PerformsTimed C (.seq s t) σ σ' (k + j)
  | iteTrue {c : Cond n} {s t : Stmt n} {σ σ' : Store n} {k : Nat} : c.eval σ = true → PerformsTimed C s σ σ' k →
      PerformsTimed C (.ite c s t) σ σ' (c.time C σ + (k + C.JMP_ABSLONG))
  | iteFalse {c : Cond n} {s t : Stmt n} {σ σ' : Store n} {k : Nat} : c.eval σ = false → PerformsTimed C t σ σ' k →
      PerformsTimed C (.ite c s t) σ σ' (c.time C σ + k)
  | loopEnd {c : Cond n} {s : Stmt n} {σ : Store n} : c.eval σ = false → PerformsTimed C (.loop c s) σ σ (c.time C σ)
  | loopTurn {c : Cond n} {s : Stmt n} {σ σ1 σ' : Store n} {k j : Nat} : c.eval σ = true → PerformsTimed C s σ σ1 k → PerformsTimed C (.loop c s) σ1 σ' j →
      PerformsTimed C (.loop c s) σ σ' (c.time C σ + (k + (C.JMP_ABSLONG + j)))

/-- Without alternatives and loops. -/
def Stmt.Straight : Stmt n → Prop
  | skip => True
  | assign _ _ => True
  | seq s t => s.Straight ∧ t.Straight
  | ite _ _ _ => False
  | loop _ _ => False

end M68k.Spec
