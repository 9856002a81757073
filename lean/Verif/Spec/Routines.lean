import Verif.Spec.Compile
/-
The language of `Spec/Compile.lean` with recursive procedures and local values, what its programs mean and how much of the stack they use, and a compiler for it (C88).
-/
namespace M68k.Spec
set_option linter.unusedVariables false

/-- The statements. `call f` performs procedure number `f`. `keep i s` performs `s` and gives the variable `i` back the value it had before: `i` is a local variable of `s`. -/
inductive Cmd (n : Nat)
  | skip
  | assign (i : Fin n) (e : Expr n)
  | seq (s t : Cmd n)
  | ite (c : Cond n) (s t : Cmd n)
  | loop (c : Cond n) (s : Cmd n)
  | keep (i : Fin n) (s : Cmd n)
  | call (f : Nat)

/-- With the procedures `ps`, the statement begun with the values `σ` ends with the values `σ'`, and at no time uses more than `u` bytes of the stack: four for each call and each
local variable that has not ended, and those of the expressions. -/
inductive PerformsIn {n : Nat} (ps : List (Cmd n)) : Cmd n → Store n → Store n → Nat → Prop
  | skip (σ : Store n) : PerformsIn ps .skip σ σ 0
  | assign (i : Fin n) (e : Expr n) (σ : Store n) : PerformsIn ps (.assign i e) σ (σ.set i (e.eval σ)) e.room
  | seq {s t : Cmd n} {σ σ1 σ' : Store n} {u v : Nat} : PerformsIn ps s σ σ1 u → PerformsIn ps t σ1 σ' v → PerformsIn ps (.seq s t) σ σ' (max u v)
  | iteTrue {c : Cond n} {s t : Cmd n} {σ σ' : Store n} {u : Nat} : c.eval σ = true → PerformsIn ps s σ σ' u → PerformsIn ps (.ite c s t) σ σ' (max c.room u)
  | iteFalse {c : Cond n} {s t : Cmd n} {σ σ' : Store n} {u : Nat} : c.eval σ = false → PerformsIn ps t σ σ' u → PerformsIn ps (.ite c s t) σ σ' (max c.room u)
  | loopEnd {c : Cond n} {s : Cmd n} {σ : Store n} : c.eval σ = false → PerformsIn ps (.loop c s) σ σ c.room
  | loopTurn {c : Cond n} {s : Cmd n} {σ σ1 σ' : Store n} {u v : Nat} :
      c.eval σ = true → PerformsIn ps s σ σ1 u → PerformsIn ps (.loop c s) σ1 σ' v → PerformsIn ps (.loop c s) σ σ' (max c.room (max u v))
  | keep {i : Fin n} {s : Cmd n} {σ σ' : Store n} {u : Nat} : PerformsIn ps s σ σ' u → PerformsIn ps (.keep i s) σ (σ'.set i (σ i)) (4 + u)
  | call {f : Nat} {s : Cmd n} {σ σ' : Store n} {u : Nat} : ps[f]? = some s → PerformsIn ps s σ σ' u → PerformsIn ps (.call f) σ σ' (4 + u)

/-- With the procedures `ps`, the statement begun with the values `σ` at some time needs more than `r` bytes of the stack, or calls a procedure that there is not. -/
inductive ExceedsIn {n : Nat} (ps : List (Cmd n)) : Cmd n → Store n → Nat → Prop
  | assign {i : Fin n} {e : Expr n} {σ : Store n} {r : Nat} : r < e.room → ExceedsIn ps (.assign i e) σ r
  | seqFirst {s t : Cmd n} {σ : Store n} {r : Nat} : ExceedsIn ps s σ r → ExceedsIn ps (.seq s t) σ r
  | seqSecond {s t : Cmd n} {σ σ1 : Store n} {r u : Nat} : PerformsIn ps s σ σ1 u → ExceedsIn ps t σ1 r → ExceedsIn ps (.seq s t) σ r
  | iteCond {c : Cond n} {s t : Cmd n} {σ : Store n} {r : Nat} : r < c.room → ExceedsIn ps (.ite c s t) σ r
  | iteTrue {c : Cond n} {s t : Cmd n} {σ : Store n} {r : Nat} : c.eval σ = true → ExceedsIn ps s σ r → ExceedsIn ps (.ite c s t) σ r
  | iteFalse {c : Cond n} {s t : Cmd n} {σ : Store n} {r : Nat} : c.eval σ = false → ExceedsIn ps t σ r → ExceedsIn ps (.ite c s t) σ r
  | loopCond {c : Cond n} {s : Cmd n} {σ : Store n} {r : Nat} : r < c.room → ExceedsIn ps (.loop c s) σ r
  | loopBody {c : Cond n} {s : Cmd n} {σ : Store n} {r : Nat} : c.eval σ = true → ExceedsIn ps s σ r → ExceedsIn ps (.loop c s) σ r
  | loopRest {c : Cond n} {s : Cmd n} {σ σ1 : Store n} {r u : Nat} : c.eval σ = true → PerformsIn ps s σ σ1 u → ExceedsIn ps (.loop c s) σ1 r → ExceedsIn ps (.loop c s) σ r
  | keepSave {i : Fin n} {s : Cmd n} {σ : Store n} {r : Nat} : r < 4 → ExceedsIn ps (.keep i s) σ r
  | keepBody {i : Fin n} {s : Cmd n} {σ : Store n} {r : Nat} : ExceedsIn ps s σ r → ExceedsIn ps (.keep i s) σ (4 + r)
  | callNone {f : Nat} {σ : Store n} {r : Nat} : ps[f]? = none → ExceedsIn ps (.call f) σ r
  | callSave {f : Nat} {σ : Store n} {r : Nat} : r < 4 → ExceedsIn ps (.call f) σ r
  | callBody {f : Nat} {s : Cmd n} {σ : Store n} {r : Nat} : ps[f]? = some s → ExceedsIn ps s σ r → ExceedsIn ps (.call f) σ (4 + r)

/-! ### The compiler -/

/-- The number of words of the code. -/
def Cmd.size {n : Nat} : Cmd n → Nat
  | skip => 0
  | assign _ e => e.size + 2
  | seq s t => s.size + t.size
  | ite c s t => c.size + (s.size + (3 + t.size))
  | loop c s => c.size + (s.size + 3)
  | keep _ s => 2 + (1 + (s.size + 3))
  | call _ => 3

/-- The code of a statement, to be loaded at `pc`; procedure `f` is at `entry f`. The old value of a local variable is on the stack. -/
def Cmd.code {n : Nat} (entry : Nat → U32) (pc : U32) : Cmd n → List Source
  | skip => []
  | assign i e => e.code ++ [.move .Long (.disp 6 (varDisp i)) (.dn 0)]
  | seq s t => s.code entry pc ++ t.code entry (at_ pc (2 * s.size))
  | ite c s t => c.code pc (at_ pc (2 * (c.size + (s.size + 3)))) ++ (s.code entry (at_ pc (2 * c.size)) ++
      ([.jmp (.absL (at_ pc (2 * (c.size + (s.size + (3 + t.size))))))] ++ t.code entry (at_ pc (2 * (c.size + (s.size + 3))))))
  | loop c s => c.code pc (at_ pc (2 * (c.size + (s.size + 3)))) ++ (s.code entry (at_ pc (2 * c.size)) ++ [.jmp (.absL pc)])
  | keep i s => [.move .Long (.dn 0) (.disp 6 (varDisp i))] ++ ([.move .Long (.predec 7) (.dn 0)] ++ (s.code entry (at_ pc (2 * 3)) ++
      [.move .Long (.dn 1) (.postinc 7), .move .Long (.disp 6 (varDisp i)) (.dn 1)]))
  | call f => [.jsr (.absL (entry f))]

/-- The number of words of the code of procedures, each with its RTS. -/
def routinesSize {n : Nat} : List (Cmd n) → Nat
  | [] => 0
  | s :: ps => s.size + (1 + routinesSize ps)

/-- The code of procedures, to be loaded at `pc`. -/
def routinesCode {n : Nat} (entry : Nat → U32) (pc : U32) : List (Cmd n) → List Source
  | [] => []
  | s :: ps => s.code entry pc ++ ([.rts] ++ routinesCode entry (at_ pc (2 * (s.size + 1))) ps)

/-- The address of procedure `f` if the code of the procedures `ps` is at `a`. -/
def entryOf {n : Nat} (ps : List (Cmd n)) (a : U32) (f : Nat) : U32 := at_ a (2 * routinesSize (ps.take f))

/-- The code of a program: the procedures, then the statement. -/
def wholeCode {n : Nat} (ps : List (Cmd n)) (st : Cmd n) (a : U32) : List Source :=
  routinesCode (entryOf ps a) a ps ++ st.code (entryOf ps a) (at_ a (2 * routinesSize ps))

def wholeSize {n : Nat} (ps : List (Cmd n)) (st : Cmd n) : Nat := routinesSize ps + st.size

/-! ### The memory of a compiled program -/
variable {M : Type} [MemoryAccess M] [Ram M]

/-- The core is ready to execute the statement `st` with the procedures `ps`, whose code is loaded at `a`, with the values `σ` in its variables: nothing is pending, it is not tracing, the
memory has the code, the variables at A6 and `room` bytes below A7. -/
structure Launched {n : Nat} (ps : List (Cmd n)) (st : Cmd n) (a : U32) (σ : Store n) (room : Nat) (s : St M) : Prop where
  apart : SplitMem n (wholeSize ps st) room a (s.cpu.regs.a 6) (areg s.cpu.regs 7)
  running : s.cpu.stop = false
  idle : s.cpu.exceptions = []
  untraced : s.cpu.regs.sr.t = false
  here : s.cpu.regs.pc = at_ a (2 * routinesSize ps)
  code : ∃ ws, Source.program (wholeCode ps st a) = some ws ∧ HoldsWords s.mem a ws
  vars : HoldsStore s.mem (s.cpu.regs.a 6) σ
  room : ∀ b, StackByte (areg s.cpu.regs 7) room b → (Ram.peek s.mem b).isSome

/-- `s'` is `s` after the compiled statement: the program counter is behind the code, the variables have the values `σ'`, no other byte of the memory has changed except `room` bytes below the
stack pointer, the address registers, the stack pointers, D2-D7 and the system byte are as they were, and nothing is pending. -/
structure Landed {n : Nat} (ps : List (Cmd n)) (st : Cmd n) (a : U32) (σ' : Store n) (room : Nat) (s s' : St M) : Prop where
  pc : s'.cpu.regs.pc = at_ a (2 * wholeSize ps st)
  vars : HoldsStore s'.mem (s.cpu.regs.a 6) σ'
  others : ∀ b, ¬ StackByte (areg s.cpu.regs 7) room b → (∀ j < 4 * n, b ≠ at_ (s.cpu.regs.a 6) j) → Ram.peek s'.mem b = Ram.peek s.mem b
  addresses : s'.cpu.regs.a = s.cpu.regs.a ∧ s'.cpu.regs.usp = s.cpu.regs.usp ∧ s'.cpu.regs.ssp = s.cpu.regs.ssp
  data : ∀ j : Fin 8, 2 ≤ j.val → s'.cpu.regs.d j = s.cpu.regs.d j
  system : s'.cpu.regs.sr.t = s.cpu.regs.sr.t ∧ s'.cpu.regs.sr.s = s.cpu.regs.sr.s ∧ s'.cpu.regs.sr.interruptMask = s.cpu.regs.sr.interruptMask
  running : s'.cpu.stop = false
  idle : s'.cpu.exceptions = []

end M68k.Spec
