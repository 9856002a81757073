import Verif.Lemmas.Ends
import Verif.Lemmas.Claims
import Verif.Props.Demo
/-
C02: after a comparison the sixteen conditions decide the order of the operands.

`OrderCodes d v sr sr'` (Spec/Claims.lean) lists the conditions. Every final state below is the state
after the evaluation of the operands with a new status register: the comparison changes no operand.
-/
namespace M68k.Props
open Spec Exec
variable {M : Type} [MemoryAccess M] {C : CpuDetails} {s s1 s2 s3 : St M} {op : U16} {sz : Size}

/-- `CMP ea,Dn`. -/
theorem C02_cmp {p : Place} {v : Val sz} (h : Ready s op s1) (hi : instr op = .Cmp)
    (hsz : opSize op = some sz) (hv : operand sz op s1 = .ok (p, v) s2) :
    ∃ sr', OrderCodes (low sz (s.cpu.regs.d (regField op 9))) v s.cpu.regs.sr sr' ∧
      Completes C s (s2.withRegs fun g => { g with sr := sr' }) := by
  have hx := step_ends C h hi (by decide) rfl
  simp only [Spec.exec, sized_some hsz] at hx
  obtain ⟨m, s', hm, hr⟩ := operand_ok hv
  have hs := operand_same h hv
  rw [endsWith_bind_ok hm, endsWith_bind_ok hr, getR_bind_apply, endsWith_cost, hs.1] at hx
  rw [← hs.2]
  exact ⟨_, orderCodes_compare _ _ _, hx⟩

/-- `CMP.W D1,D0` comparing 0x8000 with 1. -/
example : ∃ s1 s2 p v, Ready (Demo.st [0xB041] (Demo.regs [0x8000, 1] [])) 0xB041 s1 ∧ instr 0xB041 = .Cmp ∧
    opSize 0xB041 = some .Word ∧ operand .Word 0xB041 s1 = .ok (p, v) s2 ∧ v = 1 :=
  ⟨_, _, _, _, ⟨rfl, rfl, by decide, _, rfl, rfl⟩, rfl, rfl, rfl, rfl⟩

/-- `CMPI #i,ea`. -/
theorem C02_cmpi {i : U32} {p : Place} {d : Val sz} (h : Ready s op s1) (hi : instr op = .Cmpi)
    (hsz : opSize op = some sz) (himm : fetchImm sz s1 = .ok i s2) (hv : operand sz op s2 = .ok (p, d) s3) :
    ∃ sr', OrderCodes d (low sz i) s.cpu.regs.sr sr' ∧ Completes C s (s3.withRegs fun g => { g with sr := sr' }) := by
  have hx := step_ends C h hi (by decide) rfl
  simp only [Spec.exec, sized_some hsz] at hx
  obtain ⟨m, s', hm, hr⟩ := operand_ok hv
  have hs : SameD s s3 := sameD_rel.trans (Ready.sameD h) (sameD_rel.trans ((Keeps.of_fetchImm sameD_rel _).ok himm)
    ((Keeps.of_operand sameD_rel _ _).ok hv))
  rw [endsWith_bind_ok himm, endsWith_bind_ok hm, endsWith_bind_ok hr, endsWith_cost] at hx
  rw [← hs.2]
  exact ⟨_, orderCodes_compare _ _ _, hx⟩

/-- `CMPI.B #0x80,(A0)+`. -/
example : ∃ s1 s2 s3 i p d, Ready (Demo.st [0x0C18, 0x80, 0x7F00] (Demo.regs [] [4])) 0x0C18 s1 ∧
    instr 0x0C18 = .Cmpi ∧ opSize 0x0C18 = some .Byte ∧ fetchImm .Byte s1 = .ok i s2 ∧
    operand .Byte 0x0C18 s2 = .ok (p, d) s3 ∧ i = 0x80 ∧ d = 0x7F :=
  ⟨_, _, _, _, _, _, ⟨rfl, rfl, by decide, _, rfl, rfl⟩, rfl, rfl, rfl, rfl, rfl, rfl⟩

/-- `CMPA ea,An`: the source is sign extended and the 32 bits are compared. -/
theorem C02_cmpa {p : Place} {v : Val (sizeBit op 8)} (h : Ready s op s1) (hi : instr op = .Cmpa)
    (hv : operand (sizeBit op 8) op s1 = .ok (p, v) s2) :
    ∃ sr', OrderCodes (areg s2.cpu.regs (regField op 9)) (BitVec.ofInt 32 v.toInt) s.cpu.regs.sr sr' ∧
      Completes C s (s2.withRegs fun g => { g with sr := sr' }) := by
  have hx := step_ends C h hi (by decide) rfl
  simp only [Spec.exec] at hx
  obtain ⟨m, s', hm, hr⟩ := operand_ok hv
  have hs := operand_same h hv
  rw [endsWith_bind_ok hm] at hx
  unfold readExt at hx
  rw [bind_assoc, endsWith_bind_ok hr, pure_bind, getR_bind_apply, endsWith_cost] at hx
  rw [← hs.2]
  exact ⟨_, orderCodes_compare (sz := .Long) _ _ _, hx⟩

/-- `CMPA.W D0,A0` with D0 = 0x8000: A0 is compared with -0x8000. -/
example : ∃ s1 s2 p v, Ready (Demo.st [0xB0C0] (Demo.regs [0x8000] [0x10000])) 0xB0C0 s1 ∧ instr 0xB0C0 = .Cmpa ∧
    sizeBit 0xB0C0 8 = .Word ∧ operand (sizeBit 0xB0C0 8) 0xB0C0 s1 = .ok (p, v) s2 ∧ v.toInt = -0x8000 :=
  ⟨_, _, _, _, ⟨rfl, rfl, by decide, _, rfl, rfl⟩, rfl, rfl, rfl, rfl⟩

/-- The operands of `CMPM (Ay)+,(Ax)+`: Ay then Ax are incremented, then source and destination are read. -/
def cmpmOperands (sz : Size) (op : U16) : Exec M (Val sz × Val sz) := do
  let src ← locate sz (.postinc (regField op 0))
  let dst ← locate sz (.postinc (regField op 9))
  let v ← readAt sz src
  let d ← readAt sz dst
  pure (d, v)

/-- `CMPM (Ay)+,(Ax)+`. -/
theorem C02_cmpm {d v : Val sz} (h : Ready s op s1) (hi : instr op = .Cmpm)
    (hsz : opSize op = some sz) (hv : cmpmOperands sz op s1 = .ok (d, v) s2) :
    ∃ sr', OrderCodes d v s.cpu.regs.sr sr' ∧ Completes C s (s2.withRegs fun g => { g with sr := sr' }) := by
  have hx := step_ends C h hi (by decide) rfl
  simp only [Spec.exec, sized_some hsz] at hx
  have hs : SameD s s2 := by
    refine sameD_rel.trans (Ready.sameD h) (Keeps.ok (x := cmpmOperands sz op) ?_ hv)
    exact Keeps.bind sameD_rel (Keeps.of_locate sameD_rel _ _) fun _ =>
      Keeps.bind sameD_rel (Keeps.of_locate sameD_rel _ _) fun _ =>
      Keeps.bind sameD_rel (Keeps.of_readAt sameD_rel _ _) fun _ =>
      Keeps.bind sameD_rel (Keeps.of_readAt sameD_rel _ _) fun _ => Keeps.of_pure sameD_rel _
  have hc : (cmpm sz (regField op 9) (regField op 0) : Exec M Unit) =
      cmpmOperands sz op >>= fun x => compareWith x.1 x.2 := by
    simp only [cmpm, cmpmOperands, bind_assoc, pure_bind]
  rw [endsWith_cost, hc, endsWith_bind_ok hv] at hx
  rw [← hs.2]
  exact ⟨_, orderCodes_compare _ _ _, hx⟩

/-- `CMPM.L (A0)+,(A1)+`. -/
example : ∃ s1 s2 d v, Ready (Demo.st [0xB388, 0, 1, 0xFFFF, 0xFFFF] (Demo.regs [] [2, 6])) 0xB388 s1 ∧
    instr 0xB388 = .Cmpm ∧ opSize 0xB388 = some .Long ∧ cmpmOperands .Long 0xB388 s1 = .ok (d, v) s2 ∧
    d = 0xFFFFFFFF ∧ v = 1 ∧ s2.cpu.regs.a 0 = 6 ∧ s2.cpu.regs.a 1 = 10 :=
  ⟨_, _, _, _, ⟨rfl, rfl, by decide, _, rfl, rfl⟩, rfl, rfl, rfl, rfl, rfl, rfl, rfl⟩

end M68k.Props
