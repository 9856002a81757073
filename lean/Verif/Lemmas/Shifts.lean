import Verif.Spec.Operand
import Verif.Lemmas.Traverse
import Verif.Lemmas.Regs
import Verif.Lemmas.Stack
/-
How the instructions move an address register used with `(An)+` or `-(An)`.
-/
set_option linter.unusedSectionVars false
namespace M68k
namespace Exec
open Spec
variable {M : Type} [MemoryAccess M] {α β : Type} {n : Fin 8} {δ ε : U32}

/-- The action adds `δ` to address register `n` and keeps S. It is not ended by a trace exception. -/
def Shifts (n : Fin 8) (δ : U32) (x : Exec M α) : Prop := ∀ s,
  match x s with
  | .ok _ s' => areg s'.cpu.regs n = areg s.cpu.regs n + δ ∧ s'.cpu.regs.sr.s = s.cpu.regs.sr.s
  | .err v _ => v ≠ 9
  | .panic => True

theorem add0 (x : U32) : x + 0 = x := BitVec.add_zero x
theorem zadd (x : U32) : 0 + x = x := BitVec.zero_add x

namespace Shifts

theorem pure (a : α) : Shifts n 0 (Pure.pure a : Exec M α) := fun s => ⟨(add0 _).symm, rfl⟩

theorem bind {x : Exec M α} {f : α → Exec M β} (hx : Shifts n δ x) (hf : ∀ a, Shifts n ε (f a)) : Shifts n (δ + ε) (x >>= f) := by
  intro s
  rw [Exec.bind_apply]
  have h1 := hx s
  cases hxs : x s with
  | ok a s1 =>
    rw [hxs] at h1
    dsimp only at h1 ⊢
    have h2 := hf a s1
    cases hfs : f a s1 with
    | ok b s2 =>
      rw [hfs] at h2
      dsimp only at h2 ⊢
      rw [h2.1, h1.1, h2.2, h1.2, BitVec.add_assoc]
      exact ⟨rfl, rfl⟩
    | err v s2 => rw [hfs] at h2; exact h2
    | panic => trivial
  | err v s1 => rw [hxs] at h1; exact h1
  | panic => trivial

theorem first {x : Exec M α} {f : α → Exec M β} (hx : Shifts n δ x) (hf : ∀ a, Shifts n 0 (f a)) : Shifts n δ (x >>= f) := by
  have := bind hx hf
  rwa [add0] at this
theorem last {x : Exec M α} {f : α → Exec M β} (hx : Shifts n 0 x) (hf : ∀ a, Shifts n δ (f a)) : Shifts n δ (x >>= f) := by
  have := bind hx hf
  rwa [zadd] at this

theorem map {x : Exec M α} (f : α → β) (hx : Shifts n δ x) : Shifts n δ (f <$> x) := by
  intro s
  rw [Exec.map_apply]
  have h1 := hx s
  cases hxs : x s with
  | ok a s1 => rw [hxs] at h1; exact h1
  | err v s1 => rw [hxs] at h1; exact h1
  | panic => trivial

theorem cost {x : Exec M α} (t : Nat) (hx : Shifts n δ x) : Shifts n δ (cost x t) := map _ hx

theorem crash : Shifts n δ (crash : Exec M α) := fun _ => trivial
theorem trap {v : U8} (h : v ≠ 9) : Shifts n δ (trap v : Exec M α) := fun _ => h
theorem getR (f : Registers → α) : Shifts n 0 (getR f : Exec M α) := fun s => ⟨(add0 _).symm, rfl⟩
theorem dreg (k : Fin 8) (f : Registers → U32) : Shifts n 0 (modR fun r => setDreg r k (f r) : Exec M Unit) :=
  fun s => ⟨(add0 _).symm, rfl⟩
theorem flags {f : StatusRegister → StatusRegister} (h : ∀ sr, (f sr).s = sr.s) : Shifts n 0 (setFlags f : Exec M Unit) := by
  intro s
  refine ⟨?_, h _⟩
  show areg { s.cpu.regs with sr := f s.cpu.regs.sr } n = _
  rw [add0]
  unfold areg
  dsimp only
  rw [h]
theorem compute {f : StatusRegister → α × StatusRegister} (h : ∀ sr, (f sr).2.s = sr.s) : Shifts n 0 (compute f : Exec M α) := by
  intro s
  refine ⟨?_, h _⟩
  show areg { s.cpu.regs with sr := (f s.cpu.regs.sr).2 } n = _
  rw [add0]
  unfold areg
  dsimp only
  rw [h]

theorem access (f : M → MRes M α) : Shifts n 0 (access f : Exec M α) := by
  intro s
  unfold Spec.access
  cases f s.mem with
  | val a m => exact ⟨(add0 _).symm, rfl⟩
  | none m => exact (by decide : (2 : U8) ≠ 9)
  | panic => trivial
theorem load (sz : Size) (a : U32) : Shifts n 0 (load sz a : Exec M _) := by
  unfold Spec.load
  split
  · exact trap (by decide)
  · exact access _
theorem store (sz : Size) (a : U32) (v : Val sz) : Shifts n 0 (store sz a v : Exec M _) := by
  unfold Spec.store
  split
  · exact trap (by decide)
  · exact access _

theorem fetch : Shifts n 0 (fetch : Exec M U16) := by
  intro s
  unfold Spec.fetch
  by_cases h : Spec.Odd s.cpu.regs.pc
  · rw [if_pos h]; trivial
  · rw [if_neg h]
    cases MemoryAccess.getWord s.cpu.regs.pc s.mem with
    | val a m => exact ⟨(add0 _).symm, rfl⟩
    | none m => trivial
    | panic => trivial

theorem fetchImm (sz : Size) : Shifts n 0 (fetchImm sz : Exec M U32) := by
  unfold Spec.fetchImm
  split
  · exact first fetch fun _ => first fetch fun _ => pure _
  · exact first fetch fun _ => pure _

theorem updateA {k : Fin 8} (h : k ≠ n) (f : U32 → U32) : Shifts n 0 (updateA k f : Exec M Unit) := by
  intro s
  refine ⟨?_, by show (setAreg s.cpu.regs k _).sr.s = _; rw [setAreg_sr]⟩
  show areg (setAreg s.cpu.regs k _) n = _
  rw [M68k.areg_setAreg, if_neg (Ne.symm h), add0]

/-- The change of An by the evaluation of an effective address. -/
def delta (sz : Size) (n : Fin 8) : Mode → U32
  | .postinc k => if k = n then step n sz else 0
  | .predec k => if k = n then - step n sz else 0
  | _ => 0

theorem locate (sz : Size) (m : Mode) : Shifts n (delta sz n m) (locate sz m : Exec M Place) := by
  intro s
  cases m with
  | postinc k =>
    refine ⟨?_, by show (setAreg s.cpu.regs k _).sr.s = _; rw [setAreg_sr]⟩
    show areg (setAreg s.cpu.regs k _) n = _
    rw [M68k.areg_setAreg]
    unfold delta
    by_cases h : n = k
    · subst h; simp
    · dsimp only
      rw [if_neg h, if_neg (Ne.symm h), add0]
  | predec k =>
    refine ⟨?_, by show (setAreg s.cpu.regs k _).sr.s = _; rw [setAreg_sr]⟩
    show areg (setAreg s.cpu.regs k _) n = _
    rw [M68k.areg_setAreg]
    unfold delta
    by_cases h : n = k
    · subst h; simp [BitVec.sub_eq_add_neg]
    · dsimp only
      rw [if_neg h, if_neg (Ne.symm h), add0]
  | _ => exact ⟨(add0 _).symm, rfl⟩

theorem readAt (sz : Size) (p : Place) : Shifts n 0 (readAt sz p : Exec M _) := by
  cases p with
  | dreg k => exact getR fun r => low sz (r.d k)
  | areg k =>
    by_cases h : sz = .Byte
    · subst h; exact crash
    · have : (Spec.readAt sz (.areg k) : Exec M _) = Spec.getR fun r => low sz (areg r k) := by
        show (if sz = .Byte then _ else _) = _
        rw [if_neg h]
      rw [this]
      exact getR _
  | mem a => exact load _ _
  | imm v => exact pure _

theorem writeMem (sz : Size) (p : Place) (hp : ∀ k, p ≠ .areg k) (v : Val sz) : Shifts n 0 (writeAt sz p v : Exec M _) := by
  cases p with
  | dreg k => exact dreg k fun r => insertLow sz (r.d k) v
  | areg k => exact absurd rfl (hp k)
  | mem a => exact store _ _ _
  | imm v => exact crash

theorem read (sz : Size) (m : Mode) : Shifts n (delta sz n m) (Spec.read sz m : Exec M _) :=
  first (locate sz m) fun _ => first (readAt _ _) fun _ => pure _

theorem bind_locate {sz : Size} {m : Mode} (hm : m.isMem = true) {f : Place → Exec M β} (h : ∀ a, Shifts n 0 (f (.mem a))) :
    Shifts n (delta sz n m) (Spec.locate sz m >>= f) := by
  intro s
  have h1 := locate (M := M) (n := n) sz m s
  rw [Exec.bind_apply]
  have hp : ∃ a, (place sz s.cpu.regs m).1 = .mem a := by
    cases m <;> first | (cases hm; done) | exact ⟨_, rfl⟩
  obtain ⟨a, ha⟩ := hp
  have hl : Spec.locate sz m s = .ok (.mem a) (s.withRegs fun r => (place sz r m).2) := by
    unfold Spec.locate
    rw [ha]; rfl
  rw [hl] at h1 ⊢
  dsimp only at h1 ⊢
  have h2 := h a (s.withRegs fun r => (place sz r m).2)
  cases hfs : f (.mem a) (s.withRegs fun r => (place sz r m).2) with
  | ok b s2 =>
    rw [hfs] at h2
    dsimp only at h2 ⊢
    rw [h2.1, h1.1, h2.2, h1.2, add0]
    exact ⟨rfl, rfl⟩
  | err v s2 => rw [hfs] at h2; exact h2
  | panic => trivial

theorem bind_assoc' {γ : Type} (x : Exec M α) (f : α → Exec M β) (g : β → Exec M γ) : (x >>= f) >>= g = x >>= fun a => f a >>= g := by
  funext s
  simp only [Exec.bind_apply]
  cases x s <;> rfl

theorem bind_read {sz : Size} {m : Mode} (hm : m.isMem = true) {f : Place × Val sz → Exec M β} (h : ∀ a v, Shifts n 0 (f (.mem a, v))) :
    Shifts n (delta sz n m) (Spec.read sz m >>= f) := by
  unfold Spec.read
  rw [bind_assoc']
  refine bind_locate hm fun a => ?_
  rw [bind_assoc']
  exact last (readAt _ _) fun v => h a v

theorem rmw (sz : Size) {m : Mode} (hm : m.isMem = true) {f : Val sz → StatusRegister → Val sz × StatusRegister} (hf : ∀ v sr, (f v sr).2.s = sr.s) :
    Shifts n (delta sz n m) (rmw sz m f : Exec M Unit) :=
  bind_read hm fun a v => first (compute (hf v)) fun _ => store _ _ _

theorem rmwDn (sz : Size) (k : Fin 8) {f : Val sz → StatusRegister → Val sz × StatusRegister} (hf : ∀ v sr, (f v sr).2.s = sr.s) :
    Shifts n 0 (Spec.rmw sz (.dn k) f : Exec M Unit) :=
  by
  have : (Spec.rmw sz (.dn k) f : Exec M Unit) = Spec.getR (fun r => low sz (r.d k)) >>= fun d => Spec.compute (f d) >>= fun v =>
      modR fun r => setDreg r k (insertLow sz (r.d k) v) := by
    funext s; rfl
  rw [this]
  exact last (getR _) fun d => last (compute (hf d)) fun v => dreg k fun r => insertLow sz (r.d k) v


theorem sum_s (x : Bool) {w : Nat} (d s : BitVec w) (sr : StatusRegister) : (sum x d s sr).2.s = sr.s := rfl
theorem difference_s (x : Bool) {w : Nat} (d s : BitVec w) (sr : StatusRegister) : (difference x d s sr).2.s = sr.s := rfl
theorem logic_s {w : Nat} (f : BitVec w → BitVec w → BitVec w) (d s : BitVec w) (sr : StatusRegister) : (logic f d s sr).2.s = sr.s := rfl
theorem logicFlags_s {w : Nat} (v : BitVec w) (sr : StatusRegister) : (logicFlags v sr).s = sr.s := rfl

theorem sized {op : U16} {sz : Size} (h : opSize op = some sz) {k : Size → Exec M Nat} (hk : Shifts n δ (k sz)) : Shifts n δ (sized op k) := by
  rw [sized_some h]; exact hk

variable {C : CpuDetails} {op : U16} {sz : Size} {m : Mode}

theorem ea {isz : Option Size} (he : (fetchEa isz op : Exec M Mode) = Pure.pure m) {f : Mode → Exec M β} (h : Shifts n δ (f m)) :
    Shifts n δ (fetchEa isz op >>= f) := by
  rw [he]
  exact h

theorem binary (he : ∀ isz, (fetchEa isz op : Exec M Mode) = Pure.pure m) (hm : m.isMem = true) (hsz : opSize op = some sz)
    {f : {w : Nat} → BitVec w → BitVec w → StatusRegister → BitVec w × StatusRegister}
    (hf : ∀ {w : Nat} (d s : BitVec w) sr, (f d s sr).2.s = sr.s) (a b c d e : Nat) :
    Shifts n (delta sz n m) (Spec.binary C op f a b c d e : Exec M Nat) := by
  unfold Spec.binary
  refine sized hsz (ea (he _) ?_)
  split
  · exact cost _ (last (getR _) fun s => rmw sz hm fun v sr => hf v s sr)
  · exact cost _ (first (read sz m) fun x => rmwDn sz _ fun v sr => hf v x.2 sr)

theorem immediate (he : ∀ isz, (fetchEa isz op : Exec M Mode) = Pure.pure m) (hm : m.isMem = true) (hsz : opSize op = some sz)
    {f : {w : Nat} → BitVec w → BitVec w → StatusRegister → BitVec w × StatusRegister}
    (hf : ∀ {w : Nat} (d s : BitVec w) sr, (f d s sr).2.s = sr.s) (a b c d : Nat) :
    Shifts n (delta sz n m) (Spec.immediate C op f a b c d : Exec M Nat) := by
  unfold Spec.immediate
  exact sized hsz (last (fetchImm sz) fun v => ea (he _) (cost _ (rmw sz hm fun d sr => hf d _ sr)))

theorem bitInstr (he : ∀ isz, (fetchEa isz op : Exec M Mode) = Pure.pure m) (hm : m.isMem = true) (o : BitOp) (a b c d : Nat) :
    Shifts n (delta .Byte n m) (Spec.bitInstr C op o a b c d : Exec M Nat) := by
  have hb : ∀ k, Shifts n (delta .Byte n m) (bitOp o k m : Exec M Unit) := by
    intro k
    have : ∀ i, Shifts n (delta .Byte n m) (bitOpAt o .Byte i m : Exec M Unit) := by
      intro i
      unfold bitOpAt
      split
      · exact first (read .Byte m) fun _ => flags fun _ => rfl
      · exact rmw .Byte hm fun _ _ => rfl
    cases m <;> first | (cases hm; done) | exact this _
  unfold Spec.bitInstr
  split
  · exact ea (he _) (last (getR _) fun k => cost _ (hb k))
  · exact last fetch fun w => ea (he _) (cost _ (hb _))

theorem shiftMem (he : ∀ isz, (fetchEa isz op : Exec M Mode) = Pure.pure m) (hm : m.isMem = true)
    {f g : Nat → BitVec 16 → StatusRegister → BitVec 16 × StatusRegister} (hf : ∀ k v sr, (f k v sr).2.s = sr.s) (hg : ∀ k v sr, (g k v sr).2.s = sr.s)
    (t : Nat) : Shifts n (delta .Word n m) (Spec.shiftMem C op f g t : Exec M Nat) := by
  unfold Spec.shiftMem
  refine ea (he _) (cost _ (rmw .Word hm fun v sr => ?_))
  split
  · exact hf _ _ _
  · exact hg _ _ _

theorem wordToDn (he : ∀ isz, (fetchEa isz op : Exec M Mode) = Pure.pure m) {x : Fin 8 → Mode → Exec M Unit}
    (hx : ∀ k, Shifts n (delta .Word n m) (x k m)) (t : Nat) : Shifts n (delta .Word n m) (Spec.wordToDn C op x t : Exec M Nat) := by
  unfold Spec.wordToDn
  exact ea (he _) (cost _ (hx _))

theorem mul (b : Bool) (k : Fin 8) : Shifts n (delta .Word n m) (Spec.mul b k m : Exec M Unit) :=
  first (read .Word m) fun x => last (getR _) fun d => first (dreg k fun _ => _) fun _ => flags fun _ => rfl

theorem divu (k : Fin 8) : Shifts n (delta .Word n m) (Spec.divu k m : Exec M Unit) := by
  unfold Spec.divu
  refine last (flags fun _ => rfl) fun _ => first (read .Word m) fun x => ?_
  obtain ⟨p, v⟩ := x
  dsimp only
  split
  · exact last (flags fun _ => rfl) fun _ => trap (v := 5) (by decide)
  · refine last (getR _) fun d => ?_
    split
    · exact first (dreg k fun _ => _) fun _ => flags fun _ => rfl
    · exact flags fun _ => rfl

theorem divs (k : Fin 8) : Shifts n (delta .Word n m) (Spec.divs k m : Exec M Unit) := by
  unfold Spec.divs
  refine last (flags fun _ => rfl) fun _ => first (read .Word m) fun x => ?_
  obtain ⟨p, v⟩ := x
  dsimp only
  split
  · exact last (flags fun _ => rfl) fun _ => trap (v := 5) (by decide)
  · refine last (getR _) fun d => ?_
    have hx : ∀ (c : Bool) (y : U32) (f : StatusRegister → StatusRegister), (∀ sr, (f sr).s = sr.s) →
        Shifts n 0 (if c = true then modR (setDreg · k y) >>= fun _ => setFlags f else setFlags f : Exec M Unit) := by
      intro c y f hf
      cases c
      · exact flags hf
      · exact first (dreg k fun _ => y) fun _ => flags hf
    exact hx _ _ _ fun _ => rfl

theorem bcd_s (d s : BitVec 8) (sr : StatusRegister) : (decimalDifference d s sr).2.s = sr.s := by
  unfold decimalDifference
  split
  · show (Alu.sbcd sr d s).2.s = _
    unfold Alu.sbcd
    rfl
  · unfold Alu.sbcd
    rfl


theorem readExt {sz : Size} : Shifts n (delta sz n m) (Spec.readExt sz m : Exec M U32) := first (read sz m) fun _ => pure _

theorem write (hm : m.isMem = true) (v : Val sz) : Shifts n (delta sz n m) (Spec.write sz m v : Exec M Unit) :=
  bind_locate hm fun _ => store _ _ _

theorem quickOp (hm : m.isMem = true) (b : Bool) (k : Fin 8) : Shifts n (delta sz n m) (Spec.quickOp b k sz m : Exec M Unit) := by
  have : Shifts n (delta sz n m) (Spec.rmw sz m fun d =>
      if b then difference false d (BitVec.ofNat _ (quick k)) else sum false d (BitVec.ofNat _ (quick k)) : Exec M Unit) :=
    rmw sz hm fun v sr => by cases b <;> rfl
  cases m <;> first | (cases hm; done) | exact this

theorem sizeBit_eq (op : U16) (i : Nat) : sizeBit op i = if op.toNat / 2 ^ i % 2 = 1 then .Long else .Word := by
  unfold sizeBit flag
  by_cases h : op.toNat / 2 ^ i % 2 = 1 <;> simp [h]

theorem moveSized (h : moveOpSize op = some sz) {k : Size → Exec M Nat} (hk : Shifts n δ (k sz)) : Shifts n δ (Spec.moveSized op k) := by
  have : Spec.moveSized op k = k sz := by
    unfold moveOpSize at h
    unfold Spec.moveSized
    have hlt : op.toNat / 4096 % 4 < 4 := Nat.mod_lt _ (by omega)
    match hh : op.toNat / 4096 % 4, hlt with
    | 0, _ => rw [hh] at h; cases h
    | 1, _ => rw [hh] at h; cases h; simp
    | 2, _ => rw [hh] at h; cases h; simp
    | 3, _ => rw [hh] at h; cases h; simp
  rw [this]; exact hk

/-- Every instruction of the table moves An by the operand size. -/
theorem exec {i : Isa} (he : ∀ isz, (fetchEa isz op : Exec M Mode) = Pure.pure m) (hm : m.isMem = true) (hsz : eaSize i op = some sz)
    (hd : toAddressRegister i = true → regField op 9 ≠ n) : Shifts n (delta sz n m) (Spec.exec C i op : Exec M Nat) := by
  cases i <;> simp only [eaSize, reduceCtorEq] at hsz <;> simp only [Spec.exec]
  case Add => exact binary he hm hsz (sum_s false) _ _ _ _ _
  case Sub => exact binary he hm hsz (difference_s false) _ _ _ _ _
  case And => exact binary he hm hsz (logic_s _) _ _ _ _ _
  case Or => exact binary he hm hsz (logic_s _) _ _ _ _ _
  case Addi => exact immediate he hm hsz (sum_s false) _ _ _ _
  case Subi => exact immediate he hm hsz (difference_s false) _ _ _ _
  case Andi => exact immediate he hm hsz (logic_s _) _ _ _ _
  case Ori => exact immediate he hm hsz (logic_s _) _ _ _ _
  case Eori => exact immediate he hm hsz (logic_s _) _ _ _ _
  case Eor => exact sized hsz (ea (he _) (cost _ (last (getR _) fun s => rmw sz hm fun v sr => rfl)))
  case Addq => exact sized hsz (ea (he _) (cost _ (quickOp hm _ _)))
  case Subq => exact sized hsz (ea (he _) (cost _ (quickOp hm _ _)))
  case Cmp => exact sized hsz (ea (he _) (first (read sz m) fun _ => last (getR _) fun _ => cost _ (flags fun _ => rfl)))
  case Cmpi => exact sized hsz (last (fetchImm _) fun _ => ea (he _) (first (read sz m) fun _ => cost _ (flags fun _ => rfl)))
  case Neg => exact sized hsz (ea (he _) (cost _ (rmw sz hm fun _ _ => rfl)))
  case Negx => exact sized hsz (ea (he _) (cost _ (rmw sz hm fun _ _ => rfl)))
  case Not => exact sized hsz (ea (he _) (cost _ (bind_read hm fun _ _ => first (store _ _ _) fun _ => flags fun _ => rfl)))
  case Tst => exact sized hsz (ea (he _) (first (read sz m) fun _ => cost _ (flags fun _ => rfl)))
  case Clr => exact sized hsz (ea (he _) (first (write hm _) fun _ => cost _ (flags fun _ => rfl)))
  case Adda =>
    cases hsz
    rw [sizeBit_eq]
    exact ea (he _) (first readExt fun _ => cost _ (updateA (hd rfl) _))
  case Suba =>
    cases hsz
    rw [sizeBit_eq]
    exact ea (he _) (first readExt fun _ => cost _ (updateA (hd rfl) _))
  case Cmpa =>
    cases hsz
    rw [sizeBit_eq]
    exact ea (he _) (first readExt fun _ => last (getR _) fun _ => cost _ (flags fun _ => rfl))
  case Movea => exact moveSized hsz (ea (he _) (cost _ (first readExt fun _ => updateA (hd rfl) _)))
  case Tas => cases hsz; exact ea (he _) (cost _ (rmw .Byte hm fun _ _ => rfl))
  case Scc => cases hsz; exact ea (he _) (map _ (last (getR _) fun _ => first (write hm _) fun _ => pure _))
  case Nbcd => cases hsz; exact ea (he _) (cost _ (rmw .Byte hm fun _ _ => bcd_s _ _ _))
  case Btst => cases hsz; exact bitInstr he hm _ _ _ _ _
  case Bchg => cases hsz; exact bitInstr he hm _ _ _ _ _
  case Bclr => cases hsz; exact bitInstr he hm _ _ _ _ _
  case Bset => cases hsz; exact bitInstr he hm _ _ _ _ _
  case Asm => cases hsz; exact shiftMem he hm (fun _ _ _ => rfl) (fun _ _ _ => rfl) _
  case Lsm => cases hsz; exact shiftMem he hm (fun _ _ _ => rfl) (fun _ _ _ => rfl) _
  case Rom => cases hsz; exact shiftMem he hm (fun _ _ _ => rfl) (fun _ _ _ => rfl) _
  case Roxm => cases hsz; exact shiftMem he hm (fun _ _ _ => rfl) (fun _ _ _ => rfl) _
  case Mulu => cases hsz; exact wordToDn he (mul _) _
  case Muls => cases hsz; exact wordToDn he (mul _) _
  case Divu => cases hsz; exact wordToDn he divu _
  case Divs => cases hsz; exact wordToDn he divs _
  case Chk =>
    cases hsz
    refine ea (he _) (cost _ (first (read .Word m) fun _ => last (getR _) fun _ => ?_))
    split
    · exact trap (v := 6) (by decide)
    · exact pure _
  case Moveccr => cases hsz; exact ea (he _) (first (read .Word m) fun _ => cost _ (flags fun _ => rfl))
  case Movefsr => cases hsz; exact ea (he _) (last (getR _) fun _ => cost _ (write hm _))

end Shifts
end Exec
end M68k
