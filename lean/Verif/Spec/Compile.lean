import Verif.Spec.SourceProgram
/-
A small imperative language, what its programs mean, and a compiler that writes their machine code with the functions of the assembler (C87).
-/
namespace M68k.Spec
set_option linter.unusedVariables false

/-! ### The language -/

/-- The operators: 32-bit arithmetic and logic, and the product of the low words. -/
inductive BinOp
  | add | sub | and | or | xor | mul
deriving DecidableEq

inductive UnOp
  | neg | not
deriving DecidableEq

/-- Expressions over `n` variables of 32 bits. -/
inductive Expr (n : Nat)
  | const (k : U32)
  | var (i : Fin n)
  | un (o : UnOp) (e : Expr n)
  | bin (o : BinOp) (e1 e2 : Expr n)

/-- The relations between two values, unsigned (`ltu` ...) and signed (`lt` ...). -/
inductive Rel
  | eq | ne | ltu | leu | gtu | geu | lt | le | gt | ge
deriving DecidableEq

inductive Cond (n : Nat)
  | rel (r : Rel) (e1 e2 : Expr n)
  | not (c : Cond n)
  | and (c1 c2 : Cond n)
  | or (c1 c2 : Cond n)

inductive Stmt (n : Nat)
  | skip
  | assign (i : Fin n) (e : Expr n)
  | seq (s t : Stmt n)
  | ite (c : Cond n) (s t : Stmt n)
  | loop (c : Cond n) (s : Stmt n)

/-! ### Its meaning -/

/-- The values of the variables. -/
abbrev Store (n : Nat) := Fin n → U32

def BinOp.apply : BinOp → U32 → U32 → U32
  | add, x, y => x + y
  | sub, x, y => x - y
  | and, x, y => x &&& y
  | or, x, y => x ||| y
  | xor, x, y => x ^^^ y
  | mul, x, y => BitVec.ofNat 32 (x.toNat % 65536 * (y.toNat % 65536))

def UnOp.apply : UnOp → U32 → U32
  | neg, x => -x
  | not, x => ~~~x

def Expr.eval {n : Nat} (σ : Store n) : Expr n → U32
  | const k => k
  | var i => σ i
  | un o e => o.apply (e.eval σ)
  | bin o e1 e2 => o.apply (e1.eval σ) (e2.eval σ)

def Rel.holds : Rel → U32 → U32 → Bool
  | eq, x, y => decide (x = y)
  | ne, x, y => decide (x ≠ y)
  | ltu, x, y => decide (x.toNat < y.toNat)
  | leu, x, y => decide (x.toNat ≤ y.toNat)
  | gtu, x, y => decide (y.toNat < x.toNat)
  | geu, x, y => decide (y.toNat ≤ x.toNat)
  | lt, x, y => decide (x.toInt < y.toInt)
  | le, x, y => decide (x.toInt ≤ y.toInt)
  | gt, x, y => decide (y.toInt < x.toInt)
  | ge, x, y => decide (y.toInt ≤ x.toInt)

def Cond.eval {n : Nat} (σ : Store n) : Cond n → Bool
  | rel r e1 e2 => r.holds (e1.eval σ) (e2.eval σ)
  | not c => !c.eval σ
  | and c1 c2 => c1.eval σ && c2.eval σ
  | or c1 c2 => c1.eval σ || c2.eval σ

/-- The store with another value for one variable. -/
def Store.set {n : Nat} (σ : Store n) (i : Fin n) (v : U32) : Store n := fun j => if j = i then v else σ j

/-- The statement, begun with the values `σ`, ends with the values `σ'`. -/
inductive Performs {n : Nat} : Stmt n → Store n → Store n → Prop
  | skip (σ : Store n) : Performs .skip σ σ
  | assign (i : Fin n) (e : Expr n) (σ : Store n) : Performs (.assign i e) σ (σ.set i (e.eval σ))
  | seq {s t : Stmt n} {σ σ1 σ' : Store n} : Performs s σ σ1 → Performs t σ1 σ' → Performs (.seq s t) σ σ'
  | iteTrue {c : Cond n} {s t : Stmt n} {σ σ' : Store n} : c.eval σ = true → Performs s σ σ' → Performs (.ite c s t) σ σ'
  | iteFalse {c : Cond n} {s t : Stmt n} {σ σ' : Store n} : c.eval σ = false → Performs t σ σ' → Performs (.ite c s t) σ σ'
  | loopEnd {c : Cond n} {s : Stmt n} {σ : Store n} : c.eval σ = false → Performs (.loop c s) σ σ
  | loopTurn {c : Cond n} {s : Stmt n} {σ σ1 σ' : Store n} : c.eval σ = true → Performs s σ σ1 → Performs (.loop c s) σ1 σ' → Performs (.loop c s) σ σ'

/-! ### The compiler

The variable `i` is the long word at `4 * i` after the address in A6. An expression leaves its value in D0; the value of the right operand of an operator waits on the
stack of A7 while the left operand is computed. A condition falls through if it is true and jumps if it is false. -/

/-- The displacement of a variable. -/
def varDisp {n : Nat} (i : Fin n) : U16 := BitVec.ofNat 16 (4 * i.val)

/-- `D0 := D0 op D1` -/
def BinOp.line : BinOp → Source
  | add => .add false .Long 0 (.dn 1)
  | sub => .sub false .Long 0 (.dn 1)
  | and => .and false .Long 0 (.dn 1)
  | or => .or false .Long 0 (.dn 1)
  | xor => .eor .Long 1 (.dn 0)
  | mul => .mulu 0 (.dn 1)

/-- `D0 := op D0` -/
def UnOp.line : UnOp → Source
  | neg => .neg .Long (.dn 0)
  | not => .not .Long (.dn 0)

def Expr.code {n : Nat} : Expr n → List Source
  | const k => [.move .Long (.dn 0) (.imm k)]
  | var i => [.move .Long (.dn 0) (.disp 6 (varDisp i))]
  | un o e => e.code ++ [o.line]
  | bin o e1 e2 => e2.code ++ ([.move .Long (.predec 7) (.dn 0)] ++ (e1.code ++ [.move .Long (.dn 1) (.postinc 7), o.line]))

/-- The number of words of the code. -/
def Expr.size {n : Nat} : Expr n → Nat
  | const _ => 3
  | var _ => 2
  | un _ e => e.size + 1
  | bin _ e1 e2 => e2.size + (1 + (e1.size + 2))

/-- The number of bytes the code needs on the stack. -/
def Expr.room {n : Nat} : Expr n → Nat
  | const _ => 0
  | var _ => 0
  | un _ e => e.room
  | bin _ e1 e2 => max e2.room (4 + e1.room)

/-- The condition code to test after `CMP.L D1,D0`. -/
def Rel.condition : Rel → Asm.Condition
  | eq => .EQ
  | ne => .NE
  | ltu => .CS
  | leu => .LS
  | gtu => .HI
  | geu => .CC
  | lt => .LT
  | le => .LE
  | gt => .GT
  | ge => .GE

def Cond.size {n : Nat} : Cond n → Nat
  | rel _ e1 e2 => e2.size + (1 + (e1.size + 6))
  | not c => c.size + 3
  | and c1 c2 => c1.size + c2.size
  | or c1 c2 => c1.size + (3 + c2.size)

/-- The code at `pc`: it jumps to `no` if the condition is false, and goes on behind itself if it is true. The branch is over the six bytes of the JMP. -/
def Cond.code {n : Nat} (pc no : U32) : Cond n → List Source
  | rel r e1 e2 => e2.code ++ ([.move .Long (.predec 7) (.dn 0)] ++ (e1.code ++
      [.move .Long (.dn 1) (.postinc 7), .cmp .Long 0 (.dn 1), .bcc r.condition 6, .jmp (.absL no)]))
  | not c => c.code pc (at_ pc (2 * (c.size + 3))) ++ [.jmp (.absL no)]
  | and c1 c2 => c1.code pc no ++ c2.code (at_ pc (2 * c1.size)) no
  | or c1 c2 => c1.code pc (at_ pc (2 * (c1.size + 3))) ++ ([.jmp (.absL (at_ pc (2 * (c1.size + (3 + c2.size)))))] ++ c2.code (at_ pc (2 * (c1.size + 3))) no)

def Cond.room {n : Nat} : Cond n → Nat
  | rel _ e1 e2 => max e2.room (4 + e1.room)
  | not c => c.room
  | and c1 c2 => max c1.room c2.room
  | or c1 c2 => max c1.room c2.room

def Stmt.size {n : Nat} : Stmt n → Nat
  | skip => 0
  | assign _ e => e.size + 2
  | seq s t => s.size + t.size
  | ite c s t => c.size + (s.size + (3 + t.size))
  | loop c s => c.size + (s.size + 3)

/-- The code of a statement, to be loaded at `pc`. -/
def Stmt.code {n : Nat} (pc : U32) : Stmt n → List Source
  | skip => []
  | assign i e => e.code ++ [.move .Long (.disp 6 (varDisp i)) (.dn 0)]
  | seq s t => s.code pc ++ t.code (at_ pc (2 * s.size))
  | ite c s t => c.code pc (at_ pc (2 * (c.size + (s.size + 3)))) ++ (s.code (at_ pc (2 * c.size)) ++
      ([.jmp (.absL (at_ pc (2 * (c.size + (s.size + (3 + t.size))))))] ++ t.code (at_ pc (2 * (c.size + (s.size + 3))))))
  | loop c s => c.code pc (at_ pc (2 * (c.size + (s.size + 3)))) ++ (s.code (at_ pc (2 * c.size)) ++ [.jmp (.absL pc)])

def Stmt.room {n : Nat} : Stmt n → Nat
  | skip => 0
  | assign _ e => e.room
  | seq s t => max s.room t.room
  | ite c s t => max c.room (max s.room t.room)
  | loop c s => max c.room s.room

/-! ### The memory of a compiled program -/
variable {M : Type} [MemoryAccess M] [Ram M]

/-- The `room` bytes below `sp`. -/
def StackByte (sp : U32) (room : Nat) (b : U32) : Prop := ∃ k < room, b = sp - BitVec.ofNat 32 (k + 1)

/-- The code (`2 * len` bytes at `a`), the `n` variables (at `fp`) and the stack (`room` bytes below `sp`) begin at even addresses and have no byte in common. The stack is less than
the whole address space, and the displacements of the variables are positive. -/
structure SplitMem (n len room : Nat) (a fp sp : U32) : Prop where
  codeEven : ¬ Odd a
  varsEven : ¬ Odd fp
  stackEven : ¬ Odd sp
  count : n ≤ 8192
  stack : room ≤ 2 ^ 31
  codeVars : ∀ i < 2 * len, ∀ j < 4 * n, at_ a i ≠ at_ fp j
  codeStack : ∀ i < 2 * len, ¬ StackByte sp room (at_ a i)
  varsStack : ∀ j < 4 * n, ¬ StackByte sp room (at_ fp j)

/-- The variables at `fp` have the values `σ`. -/
def HoldsStore {n : Nat} (m : M) (fp : U32) (σ : Store n) : Prop := ∀ i : Fin n, Holds (sz := .Long) m (at_ fp (4 * i.val)) (σ i)

/-- The core is ready to execute the compiled statement `st` loaded at `a`, with the values `σ` in its variables: nothing is pending, it is not tracing, the memory has the code, the
variables at A6 and room below A7. -/
structure Prepared {n : Nat} (st : Stmt n) (a : U32) (σ : Store n) (s : St M) : Prop where
  apart : SplitMem n st.size st.room a (s.cpu.regs.a 6) (areg s.cpu.regs 7)
  running : s.cpu.stop = false
  idle : s.cpu.exceptions = []
  untraced : s.cpu.regs.sr.t = false
  here : s.cpu.regs.pc = a
  code : ∃ ws, Source.program (st.code a) = some ws ∧ HoldsWords s.mem a ws
  vars : HoldsStore s.mem (s.cpu.regs.a 6) σ
  room : ∀ b, StackByte (areg s.cpu.regs 7) st.room b → (Ram.peek s.mem b).isSome

/-- `s'` is `s` after the compiled statement: the program counter is behind the code, the variables have the values `σ'`, no other byte of the memory has changed except below the stack
pointer, the address registers, the stack pointers, D2-D7 and the system byte are as they were, and nothing is pending. -/
structure Finished {n : Nat} (st : Stmt n) (a : U32) (σ' : Store n) (s s' : St M) : Prop where
  pc : s'.cpu.regs.pc = at_ a (2 * st.size)
  vars : HoldsStore s'.mem (s.cpu.regs.a 6) σ'
  others : ∀ b, ¬ StackByte (areg s.cpu.regs 7) st.room b → (∀ j < 4 * n, b ≠ at_ (s.cpu.regs.a 6) j) → Ram.peek s'.mem b = Ram.peek s.mem b
  addresses : s'.cpu.regs.a = s.cpu.regs.a ∧ s'.cpu.regs.usp = s.cpu.regs.usp ∧ s'.cpu.regs.ssp = s.cpu.regs.ssp
  data : ∀ j : Fin 8, 2 ≤ j.val → s'.cpu.regs.d j = s.cpu.regs.d j
  system : s'.cpu.regs.sr.t = s.cpu.regs.sr.t ∧ s'.cpu.regs.sr.s = s.cpu.regs.sr.s ∧ s'.cpu.regs.sr.interruptMask = s.cpu.regs.sr.interruptMask
  running : s'.cpu.stop = false
  idle : s'.cpu.exceptions = []

end M68k.Spec
