import Verif.Spec.Routines
/-
Programs with secret variables (C95). `L` is the set of the public variables.
-/
namespace M68k.Spec
variable {n : Nat}

/-- The same values in the public variables. -/
def SamePublic (L : Fin n → Prop) (σ τ : Store n) : Prop := ∀ i, L i → σ i = τ i

/-- No secret variable occurs in the expression. -/
def Expr.Public (L : Fin n → Prop) : Expr n → Prop
  | const _ => True
  | var i => L i
  | un _ e => e.Public L
  | bin _ e1 e2 => e1.Public L ∧ e2.Public L

/-- No secret variable occurs in the condition. -/
def Cond.Public (L : Fin n → Prop) : Cond n → Prop
  | rel _ e1 e2 => e1.Public L ∧ e2.Public L
  | not c => c.Public L
  | and c1 c2 => c1.Public L ∧ c2.Public L
  | or c1 c2 => c1.Public L ∧ c2.Public L

/-- No secret variable occurs in a condition, or in an expression that is assigned to a public variable. Otherwise secret variables can be used in any way. -/
def Cmd.Discreet (L : Fin n → Prop) : Cmd n → Prop
  | skip => True
  | assign i e => L i → e.Public L
  | seq s t => s.Discreet L ∧ t.Discreet L
  | ite c s t => c.Public L ∧ s.Discreet L ∧ t.Discreet L
  | loop c s => c.Public L ∧ s.Discreet L
  | keep _ s => s.Discreet L
  | call _ => True

end M68k.Spec
