import Verif.Spec.Machine
/-
The effective addresses of the control addressing modes, from the mode and register fields of an opcode.
-/
namespace M68k.Spec
variable {M : Type} [MemoryAccess M]

/-- `Effective s1 mode reg a s2`: with the program counter of `s1` at the first extension word, the fields `mode` and `reg` denote the memory
operand at the address `a`; `s2` is the state after the extension words have been read. Additions are modulo 2^32. -/
inductive Effective (s1 : St M) : (mode reg : Fin 8) → U32 → St M → Prop
  /-- `(An)` -/
  | ind {n : Fin 8} : Effective s1 2 n (areg s1.cpu.regs n) s1
  /-- `d16(An)` -/
  | disp {n : Fin 8} {d : U16} {s2 : St M} : fetch s1 = .ok d s2 → Effective s1 5 n (areg s1.cpu.regs n + signExt d) s2
  /-- `d8(An,Xn)`: the low byte of the extension word is the displacement -/
  | index {n : Fin 8} {x : U16} {s2 : St M} : fetch s1 = .ok x s2 →
      Effective s1 6 n (areg s1.cpu.regs n + signExt (BitVec.ofNat 8 x.toNat) + indexValue s1.cpu.regs x) s2
  /-- `addr.W` -/
  | absShort {w : U16} {s2 : St M} : fetch s1 = .ok w s2 → Effective s1 7 0 (signExt w) s2
  /-- `addr.L` -/
  | absLong {hi lo : U16} {s' s2 : St M} : fetch s1 = .ok hi s' → fetch s' = .ok lo s2 → Effective s1 7 1 (hi ++ lo) s2
  /-- `d16(PC)`: PC is the address of the extension word -/
  | pcDisp {d : U16} {s2 : St M} : fetch s1 = .ok d s2 → Effective s1 7 2 (s1.cpu.regs.pc + signExt d) s2
  /-- `d8(PC,Xn)` -/
  | pcIndex {x : U16} {s2 : St M} : fetch s1 = .ok x s2 →
      Effective s1 7 3 (s1.cpu.regs.pc + signExt (BitVec.ofNat 8 x.toNat) + indexValue s1.cpu.regs x) s2

end M68k.Spec
