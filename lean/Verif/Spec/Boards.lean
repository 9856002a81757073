import Verif.Model.Run
/-
The accesses to which the two example boards (C82) answer alike, and runs of a number of turns.
-/
namespace M68k.Spec

/-- Bytes anywhere; words and long words that are in the RAM of `n` bytes, or begin beyond it and touch none of the registers from 0x80002011 to 0x8000201B. -/
def plainAccess (n : Nat) (sz : Size) (a : U32) : Bool :=
  match sz with
  | .Byte => true
  | .Word => a.toNat + 2 ≤ n || (n ≤ a.toNat && (a.toNat + 2 ≤ 0x80002011 || 0x8000201B < a.toNat))
  | .Long => a.toNat + 4 ≤ n || (n ≤ a.toNat && (a.toNat + 4 ≤ 0x80002011 || 0x8000201B < a.toNat))

/-- `n` calls of `interpreter`. -/
def boardTurns {M : Type} [MemoryAccess M] (C : CpuDetails) : Nat → Exec M Unit
  | 0 => return ()
  | n + 1 => do
    let _ ← Exec.interpreter C
    boardTurns C n

end M68k.Spec
