import Verif.Spec.Cycles
/-
The opcodes that a core executes and the times it returns (C57).
-/
namespace M68k.Spec
variable {M : Type} [MemoryAccess M]

/-- From `s` the calls of `interpreter_exception` execute instructions with these opcodes, one in each call, all of which complete; they return these numbers of cycles, and the state is
`s'` afterwards. -/
inductive Opcodes (C : CpuDetails) : List U16 → List Nat → St M → St M → Prop
  | nil (s : St M) : Opcodes C [] [] s s
  | cons {s s1 t s' : St M} {op : U16} {c : Nat} {ops : List U16} {cs : List Nat} (h : Ready s op s1) (hr : Exec.interpreterException C s = .ok (c, none) t)
      (hn : Opcodes C ops cs t s') : Opcodes C (op :: ops) (c :: cs) s s'

end M68k.Spec
