import Verif.Spec.Exception
/-
Hosts that keep the interrupt mask a number of three bits.
-/
namespace M68k.Spec
open M68k.Exec

/-- A core that a host has made with `new` or `new_no_reset` and used in whatever way (request exceptions, call the run methods, change the memory, the registers and
the stop flag), provided that the status registers it wrote have interrupt masks up to 7. -/
inductive Used {M : Type} [MemoryAccess M] (C : CpuDetails) : St M → Prop
  | new (m : M) : Used C ⟨Cpu.new, m⟩
  | newNoReset (m : M) : Used C ⟨Cpu.newNoReset, m⟩
  | request {s : St M} (v : U8) : Used C s → Used C { s with cpu := s.cpu.exception ⟨v⟩ }
  | call {s s' : St M} {x : Nat × Option U8} : Used C s → interpreterException C s = .ok x s' → Used C s'
  | run {s s' : St M} {n : Nat} : Used C s → interpreter C s = .ok n s' → Used C s'
  | host {s : St M} (r : Registers) (stop : Bool) (m : M) : Used C s → r.sr.interruptMask.toNat ≤ 7 → Used C ⟨{ s.cpu with regs := r, stop := stop }, m⟩

end M68k.Spec
