import Verif.Spec.CompileTime
import Verif.Spec.Routines
/-
The time of the programs of Spec/Routines.lean, in terms of their source and of the timing table of the CPU (C93).
-/
namespace M68k.Spec

/-- With the procedures `ps`, the statement begun with the values `σ` ends with the values `σ'`, uses at most `u` bytes of the stack and takes the time `w`. -/
inductive PerformsInTimed {n : Nat} (C : CpuDetails) (ps : List (Cmd n)) : Cmd n → Store n → Store n → Nat → Nat → Prop
  | skip (σ : Store n) : PerformsInTimed C ps .skip σ σ 0 0
  | assign (i : Fin n) (e : Expr n) (σ : Store n) : PerformsInTimed C ps (.assign i e) σ (σ.set i (e.eval σ)) e.room (e.time C + varTime C)
  | seq {s t : Cmd n} {σ σ1 σ' : Store n} {u v k j : Nat} : PerformsInTimed C ps s σ σ1 u k → PerformsInTimed C ps t σ1 σ' v j → PerformsInTimed C ps (.seq s t) σ σ' (max u v) (k + j)
  | iteTrue {c : Cond n} {s t : Cmd n} {σ σ' : Store n} {u k : Nat} : c.eval σ = true → PerformsInTimed C ps s σ σ' u k →
      PerformsInTimed C ps (.ite c s t) σ σ' (max c.room u) (c.time C σ + (k + C.JMP_ABSLONG))
  | iteFalse {c : Cond n} {s t : Cmd n} {σ σ' : Store n} {u k : Nat} : c.eval σ = false → PerformsInTimed C ps t σ σ' u k →
      PerformsInTimed C ps (.ite c s t) σ σ' (max c.room u) (c.time C σ + k)
  | loopEnd {c : Cond n} {s : Cmd n} {σ : Store n} : c.eval σ = false → PerformsInTimed C ps (.loop c s) σ σ c.room (c.time C σ)
  | loopTurn {c : Cond n} {s : Cmd n} {σ σ1 σ' : Store n} {u v k j : Nat} : c.eval σ = true → PerformsInTimed C ps s σ σ1 u k → PerformsInTimed C ps (.loop c s) σ1 σ' v j →
      PerformsInTimed C ps (.loop c s) σ σ' (max c.room (max u v)) (c.time C σ + (k + (C.JMP_ABSLONG + j)))
  /-- The variable is read, its value put on the stack and taken from there, and assigned. -/
  | keep {i : Fin n} {s : Cmd n} {σ σ' : Store n} {u k : Nat} : PerformsInTimed C ps s σ σ' u k →
      PerformsInTimed C ps (.keep i s) σ (σ'.set i (σ i)) (4 + u) (varTime C + stackTime C + varTime C + k)
  /-- JSR and RTS. -/
  | call {f : Nat} {s : Cmd n} {σ σ' : Store n} {u k : Nat} : ps[f]? = some s → PerformsInTimed C ps s σ σ' u k → PerformsInTimed C ps (.call f) σ σ' (4 + u) (C.JSR_ABSLONG + k + C.RTS)

end M68k.Spec
