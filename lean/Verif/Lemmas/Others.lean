import Verif.Lemmas.AccessExec
import Verif.Lemmas.Commute
import Verif.Spec.Registers
/-
Actions that use only some of the registers.
-/
set_option linter.unusedSectionVars false
namespace M68k
namespace Exec
open Spec
variable {M : Type} [MemoryAccess M] {α β : Type} {l : List Register} {t : Registers}

/-- The state with the registers outside of `l` replaced. -/
def swapped (l : List Register) (t : Registers) (s : St M) : St M := s.withRegs (withOthers l t)

/-- The action `x` on `s` does not use the registers outside of `l`. -/
def UnseenAt (l : List Register) (t : Registers) (s : St M) (x : Exec M α) : Prop := x (swapped l t s) = (x s).after (swapped l t)

/-- The action `x` does not use the registers outside of `l`. -/
def Unseen (l : List Register) (t : Registers) (x : Exec M α) : Prop := ∀ s, UnseenAt l t s x

/-- An address register that is not replaced. -/
def KeptA (l : List Register) (n : Fin 8) : Prop := n = 7 ∨ .a n ∈ l
/-- A register that is not replaced. -/
def Kept (l : List Register) : Register → Prop
  | .d n => .d n ∈ l
  | .a n => KeptA l n

theorem kept_of_mem {x : Register} (h : x ∈ l) : Kept l x := by cases x with | d => exact h | a => exact .inr h

theorem areg_others (r : Registers) {n : Fin 8} (h : KeptA l n) : areg (withOthers l t r) n = areg r n := by
  unfold areg withOthers
  split
  · rename_i hn
    rcases h with rfl | h
    · exact absurd hn (by decide)
    · simp [h]
  · rfl

theorem dreg_others (r : Registers) {n : Fin 8} (h : .d n ∈ l) : (withOthers l t r).d n = r.d n := by
  simp [withOthers, h]

theorem setD_others (r : Registers) (v : U32) {n : Fin 8} (h : .d n ∈ l) : setDreg (withOthers l t r) n v = withOthers l t (setDreg r n v) := by
  unfold setDreg withOthers
  simp only [Registers.mk.injEq, and_true, true_and]
  funext i
  by_cases hi : i = n
  · subst hi; simp [h]
  · simp [hi]

theorem setA_others (r : Registers) (v : U32) {n : Fin 8} (h : KeptA l n) : setAreg (withOthers l t r) n v = withOthers l t (setAreg r n v) := by
  unfold setAreg
  split
  · rename_i hn
    rcases h with rfl | h
    · exact absurd hn (by decide)
    unfold withOthers
    simp only [Registers.mk.injEq, and_true, true_and]
    funext i
    by_cases hi : i = ⟨n.val, hn⟩
    · subst hi; simp [h]
    · simp [hi]
  · show (if r.sr.s = true then _ else _) = _
    split <;> rfl

theorem index_others (r : Registers) {x : U16} (h : Kept l (indexRegister x)) : indexValue (withOthers l t r) x = indexValue r x := by
  unfold indexValue
  unfold indexRegister at h
  split at h
  · rename_i hx; simp only [hx, if_true]; rw [areg_others _ h]
  · rename_i hx; simp only [hx, if_false]; rw [dreg_others _ h]

namespace UnseenAt
theorem bind {s : St M} {x : Exec M α} {f : α → Exec M β} (hx : UnseenAt l t s x) (hf : ∀ a s', x s = .ok a s' → UnseenAt l t s' (f a)) : UnseenAt l t s (x >>= f) := by
  unfold UnseenAt at *
  rw [Exec.bind_apply, Exec.bind_apply, hx]
  cases h : x s with
  | ok a s' => exact hf a s' h
  | err => rfl
  | panic => rfl
end UnseenAt

namespace Unseen
theorem bind {x : Exec M α} {f : α → Exec M β} (hx : Unseen l t x) (hf : ∀ a, Unseen l t (f a)) : Unseen l t (x >>= f) :=
  fun s => UnseenAt.bind (hx s) fun a s' _ => hf a s'
theorem pure (a : α) : Unseen (M := M) l t (Pure.pure a) := fun _ => rfl
theorem map (f : α → β) {x : Exec M α} (hx : Unseen l t x) : Unseen l t (f <$> x) := by
  intro s
  unfold UnseenAt
  rw [Exec.map_apply, Exec.map_apply, hx s]
  cases x s <;> rfl
theorem cost {x : Exec M α} (k : Nat) (hx : Unseen l t x) : Unseen l t (Spec.cost x k) := map _ hx
theorem trap (v : U8) : Unseen (M := M) l t (Spec.trap v : Exec M α) := fun _ => rfl
theorem crash : Unseen (M := M) l t (Spec.crash : Exec M α) := fun _ => rfl
theorem getR {f : Registers → α} (h : ∀ r, f (withOthers l t r) = f r) : Unseen (M := M) l t (Spec.getR f) := fun s => by
  show Res.ok (f (withOthers l t s.cpu.regs)) _ = _
  rw [h]; rfl
theorem modR {f : Registers → Registers} (h : ∀ r, f (withOthers l t r) = withOthers l t (f r)) : Unseen (M := M) l t (Spec.modR f) := fun s => by
  show Res.ok () (s.withRegs fun r => f (withOthers l t r)) = Res.ok () (s.withRegs fun r => withOthers l t (f r))
  simp only [h]
theorem compute (f : StatusRegister → α × StatusRegister) : Unseen (M := M) l t (Spec.compute f) := fun _ => rfl
theorem setFlags (f : StatusRegister → StatusRegister) : Unseen (M := M) l t (Spec.setFlags f) := fun _ => rfl
theorem jump (a : U32) : Unseen (M := M) l t (Spec.jump a) := fun _ => rfl
theorem halt : Unseen (M := M) l t Spec.halt := fun _ => rfl
theorem signalReset : Unseen (M := M) l t Spec.signalReset := fun _ => rfl
theorem access (f : M → MRes M α) : Unseen (M := M) l t (Spec.access f) := fun s => by
  unfold UnseenAt Spec.access
  show (match f s.mem with | .val a m => _ | .none m => _ | .panic => _) = _
  cases f s.mem <;> rfl
theorem load (sz : Size) (a : U32) : Unseen (M := M) l t (Spec.load sz a) := by
  unfold Spec.load; split
  · exact trap _
  · exact access _
theorem store (sz : Size) (a : U32) (v : Val sz) : Unseen (M := M) l t (Spec.store sz a v) := by
  unfold Spec.store; split
  · exact trap _
  · exact access _
theorem fetch : Unseen (M := M) l t Spec.fetch := fun s => by
  unfold UnseenAt Spec.fetch
  show (if Spec.Odd s.cpu.regs.pc then _ else match MemoryAccess.getWord s.cpu.regs.pc s.mem with | .val a m => _ | .none m => _ | .panic => _) = _
  split
  · rfl
  · cases MemoryAccess.getWord s.cpu.regs.pc s.mem <;> rfl
theorem fetchLong : Unseen (M := M) l t Spec.fetchLong := bind fetch fun _ => bind fetch fun _ => pure _
theorem fetchImm (sz : Size) : Unseen (M := M) l t (Spec.fetchImm sz) := by
  unfold Spec.fetchImm; split
  · exact fetchLong
  · exact bind fetch fun _ => pure _
theorem pc : Unseen (M := M) l t (Spec.getR (·.pc)) := getR fun _ => rfl
theorem fetchDisp (op : U16) : Unseen (M := M) l t (Spec.fetchDisp op) := by
  unfold Spec.fetchDisp; split
  · exact fetch
  · exact pure _
theorem fetchMode (sz : Option Size) (mode reg : Fin 8) : Unseen (M := M) l t (Spec.fetchMode sz mode reg) := by
  unfold Spec.fetchMode
  split
  case h_8 =>
    split
    case h_5 =>
      split
      · exact crash
      · exact map _ fetchLong
      · exact map _ fetch
    · exact map _ fetch
    · exact map _ fetchLong
    · exact bind pc fun _ => map _ fetch
    · exact bind pc fun _ => map _ fetch
    · exact crash
  · exact pure _
  · exact pure _
  · exact pure _
  · exact pure _
  · exact pure _
  · exact map _ fetch
  · exact map _ fetch
theorem fetchEa (sz : Option Size) (op : U16) : Unseen (M := M) l t (Spec.fetchEa sz op) := fetchMode _ _ _
theorem fetchWords (k : Nat) : Unseen (M := M) l t (Spec.fetchWords k) := by
  induction k with
  | zero => exact pure _
  | succ k ih => unfold Spec.fetchWords; exact bind fetch fun _ => bind ih fun _ => pure _

/-- The registers of a mode. -/
def _root_.M68k.Exec.modeRegs : Mode → List Register
  | .dn n => [.d n]
  | .an n => [.a n]
  | .ind n => [.a n]
  | .postinc n => [.a n]
  | .predec n => [.a n]
  | .disp n _ => [.a n]
  | .index n x => [.a n, indexRegister x]
  | .pcIndex _ x => [indexRegister x]
  | _ => []

/-- The registers of the mode are not replaced. -/
def _root_.M68k.Exec.ModeOk (l : List Register) (m : Mode) : Prop := ∀ x ∈ modeRegs m, Kept l x

def _root_.M68k.Exec.PlaceOk (l : List Register) : Place → Prop
  | .dreg n => .d n ∈ l
  | .areg n => KeptA l n
  | _ => True

theorem place_others (sz : Size) (r : Registers) {m : Mode} (h : ModeOk l m) :
    place sz (withOthers l t r) m = ((place sz r m).1, withOthers l t (place sz r m).2) := by
  cases m with
  | dn n => rfl
  | an n => rfl
  | ind n => have h1 : KeptA l n := h (.a n) (by simp [modeRegs]); simp only [place, areg_others _ h1]
  | postinc n => have h1 : KeptA l n := h (.a n) (by simp [modeRegs]); simp only [place, areg_others _ h1, setA_others _ _ h1]
  | predec n => have h1 : KeptA l n := h (.a n) (by simp [modeRegs]); simp only [place, areg_others _ h1, setA_others _ _ h1]
  | disp n d => have h1 : KeptA l n := h (.a n) (by simp [modeRegs]); simp only [place, areg_others _ h1]
  | index n x =>
    have h1 : KeptA l n := h (.a n) (by simp [modeRegs])
    have h2 := h (indexRegister x) (by simp [modeRegs])
    simp only [place, areg_others _ h1, index_others _ h2]
  | absW a => rfl
  | absL a => rfl
  | pcDisp p d => rfl
  | pcIndex p x => have h2 := h (indexRegister x) (by simp [modeRegs]); simp only [place, index_others _ h2]
  | imm v => rfl

theorem place_ok (sz : Size) (r : Registers) {m : Mode} (h : ModeOk l m) : PlaceOk l (place sz r m).1 := by
  cases m with
  | dn n => exact h (.d n) (by simp [modeRegs])
  | an n => exact h (.a n) (by simp [modeRegs])
  | _ => trivial

theorem locate (sz : Size) {m : Mode} (h : ModeOk l m) : Unseen (M := M) l t (Spec.locate sz m) := fun s => by
  show Res.ok (place sz (withOthers l t s.cpu.regs) m).1 (s.withRegs fun _ => (place sz (withOthers l t s.cpu.regs) m).2) = _
  rw [place_others sz _ h]; rfl

theorem locating (sz : Size) {m : Mode} (h : ModeOk l m) {f : Place → Exec M β} (hf : ∀ p, PlaceOk l p → Unseen l t (f p)) :
    Unseen (M := M) l t (Spec.locate sz m >>= f) := fun s =>
  UnseenAt.bind (locate sz h s) fun p s' hp => by cases hp; exact hf _ (place_ok sz _ h) _

theorem readAt (sz : Size) {p : Place} (h : PlaceOk l p) : Unseen (M := M) l t (Spec.readAt sz p) := by
  cases p with
  | dreg n => unfold Spec.readAt; exact getR fun r => by rw [dreg_others r h]
  | areg n => unfold Spec.readAt; dsimp only; split; exact crash; exact getR fun r => by rw [areg_others r h]
  | mem a => exact load sz a
  | imm v => exact pure _

theorem writeAt (sz : Size) {p : Place} (h : PlaceOk l p) (v : Val sz) : Unseen (M := M) l t (Spec.writeAt sz p v) := by
  cases p with
  | dreg n => unfold Spec.writeAt; exact modR fun r => by rw [dreg_others r h, setD_others _ _ h]
  | areg n => unfold Spec.writeAt; dsimp only; split; exact crash; exact modR fun r => by rw [setA_others _ _ h]
  | mem a => exact store sz a v
  | imm v => exact crash

/-- A read, followed by something that may write at the same place. -/
theorem reading (sz : Size) {m : Mode} (h : ModeOk l m) {f : Place × Val sz → Exec M β} (hf : ∀ p v, PlaceOk l p → Unseen l t (f (p, v))) :
    Unseen (M := M) l t (Spec.read sz m >>= f) := by
  unfold Spec.read
  rw [bind_assoc']
  refine locating sz h fun p hp => ?_
  rw [bind_assoc']
  exact bind (readAt sz hp) fun v => (show Unseen l t (f (p, v)) from hf p v hp)

theorem read (sz : Size) {m : Mode} (h : ModeOk l m) : Unseen (M := M) l t (Spec.read sz m) := by
  unfold Spec.read
  exact locating sz h fun p hp => bind (readAt sz hp) fun _ => pure _

theorem write (sz : Size) {m : Mode} (h : ModeOk l m) (v : Val sz) : Unseen (M := M) l t (Spec.write sz m v) :=
  locating sz h fun _ hp => writeAt sz hp v

theorem rmw (sz : Size) {m : Mode} (h : ModeOk l m) (f : Val sz → StatusRegister → Val sz × StatusRegister) : Unseen (M := M) l t (Spec.rmw sz m f) :=
  reading sz h fun _ _ hp => bind (compute _) fun _ => writeAt sz hp _

theorem modeOk_dn {n : Fin 8} (h : .d n ∈ l) : ModeOk l (.dn n) := fun x hx => by simp [modeRegs] at hx; subst hx; exact h
theorem modeOk_predec {n : Fin 8} (h : KeptA l n) : ModeOk l (.predec n) := fun x hx => by simp [modeRegs] at hx; subst hx; exact h
theorem modeOk_postinc {n : Fin 8} (h : KeptA l n) : ModeOk l (.postinc n) := fun x hx => by simp [modeRegs] at hx; subst hx; exact h

theorem dreg {n : Fin 8} (h : .d n ∈ l) (f : U32 → α) : Unseen (M := M) l t (Spec.getR fun r => f (r.d n)) := getR fun r => by rw [dreg_others r h]
theorem areg {n : Fin 8} (h : KeptA l n) (f : U32 → α) : Unseen (M := M) l t (Spec.getR fun r => f (Spec.areg r n)) := getR fun r => by rw [areg_others r h]
theorem setD {n : Fin 8} (h : .d n ∈ l) (f : U32 → U32) : Unseen (M := M) l t (Spec.modR fun r => setDreg r n (f (r.d n))) :=
  modR fun r => by rw [dreg_others r h, setD_others _ _ h]
theorem updateA {n : Fin 8} (h : KeptA l n) (f : U32 → U32) : Unseen (M := M) l t (Spec.updateA n f) := by
  unfold Spec.updateA
  exact modR fun r => by rw [areg_others r h, setA_others _ _ h]

theorem opToEa (sz : Size) {n : Fin 8} {m : Mode} (hn : .d n ∈ l) (h : ModeOk l m) (f : Val sz → Val sz → StatusRegister → Val sz × StatusRegister) :
    Unseen (M := M) l t (Spec.opToEa sz n m f) := bind (dreg hn (low sz)) fun _ => rmw sz h _
theorem opToDn (sz : Size) {n : Fin 8} {m : Mode} (hn : .d n ∈ l) (h : ModeOk l m) (f : Val sz → Val sz → StatusRegister → Val sz × StatusRegister) :
    Unseen (M := M) l t (Spec.opToDn sz n m f) := reading sz h fun _ _ _ => rmw sz (modeOk_dn hn) _

theorem pair (sz : Size) {b : Bool} {x y : Fin 8} (hd : b = false → .d x ∈ l ∧ .d y ∈ l) (ha : b = true → KeptA l x ∧ KeptA l y)
    (f : Val sz → Val sz → StatusRegister → Val sz × StatusRegister) : Unseen (M := M) l t (Spec.pair sz b x y f) := by
  have hx : ModeOk l (if b then .predec x else .dn x) := by
    cases b
    · exact modeOk_dn (hd rfl).1
    · exact modeOk_predec (ha rfl).1
  have hy : ModeOk l (if b then .predec y else .dn y) := by
    cases b
    · exact modeOk_dn (hd rfl).2
    · exact modeOk_predec (ha rfl).2
  exact locating sz hy fun _ h1 => locating sz hx fun _ h2 => bind (readAt sz h1) fun _ => bind (readAt sz h2) fun _ => bind (compute _) fun _ => writeAt sz h2 _

theorem readExt (sz : Size) {m : Mode} (h : ModeOk l m) : Unseen (M := M) l t (Spec.readExt sz m) := reading sz h fun _ _ _ => pure _
theorem kept7 : KeptA l 7 := .inl rfl
theorem push (sz : Size) (v : Val sz) : Unseen (M := M) l t (Spec.push sz v) := write sz (modeOk_predec kept7) v
theorem pop (sz : Size) : Unseen (M := M) l t (Spec.pop sz) := reading sz (modeOk_postinc kept7) fun _ _ _ => pure _

theorem quickOp (b : Bool) (k : Fin 8) (sz : Size) {m : Mode} (h : ModeOk l m) : Unseen (M := M) l t (Spec.quickOp b k sz m) := by
  unfold Spec.quickOp
  split
  · exact updateA (h (.a _) (by simp [modeRegs])) _
  · exact rmw sz h _

theorem cmpm (sz : Size) {x y : Fin 8} (hx : KeptA l x) (hy : KeptA l y) : Unseen (M := M) l t (Spec.cmpm sz x y) :=
  locating sz (modeOk_postinc hy) fun _ h1 => locating sz (modeOk_postinc hx) fun _ h2 => bind (readAt sz h1) fun _ => bind (readAt sz h2) fun _ => setFlags _

theorem mul (b : Bool) {n : Fin 8} {m : Mode} (hn : .d n ∈ l) (h : ModeOk l m) : Unseen (M := M) l t (Spec.mul b n m) :=
  reading .Word h fun _ _ _ => bind (dreg hn (low .Word)) fun _ => bind (setD hn fun _ => _) fun _ => setFlags _

theorem divu {n : Fin 8} {m : Mode} (hn : .d n ∈ l) (h : ModeOk l m) : Unseen (M := M) l t (Spec.divu n m) := by
  refine bind (setFlags _) fun _ => reading .Word h fun _ v _ => ?_
  dsimp only
  split
  · exact bind (setFlags _) fun _ => trap _
  · refine bind (dreg hn id) fun d => ?_
    split
    · exact bind (setD hn fun _ => _) fun _ => setFlags _
    · exact setFlags _

theorem divs {n : Fin 8} {m : Mode} (hn : .d n ∈ l) (h : ModeOk l m) : Unseen (M := M) l t (Spec.divs n m) := by
  refine bind (setFlags _) fun _ => reading .Word h fun _ v _ => ?_
  dsimp only
  split
  · exact bind (setFlags _) fun _ => trap _
  · refine bind (dreg hn id) fun d => ?_
    split
    · exact bind (setD hn fun _ => _) fun _ => setFlags _
    · exact setFlags _

theorem move (sz : Size) {dst src : Mode} (hd : ModeOk l dst) (hs : ModeOk l src) : Unseen (M := M) l t (Spec.move sz dst src) :=
  reading sz hs fun _ _ _ => bind (write sz hd _) fun _ => setFlags _
theorem movea (sz : Size) {n : Fin 8} {m : Mode} (hn : KeptA l n) (h : ModeOk l m) : Unseen (M := M) l t (Spec.movea sz n m) :=
  bind (readExt sz h) fun _ => updateA hn _

theorem exg {k : Direction} {x y : Fin 8} (h1 : k = .ExchangeData → .d x ∈ l ∧ .d y ∈ l) (h2 : k = .ExchangeAddress → KeptA l x ∧ KeptA l y)
    (h3 : k ≠ .ExchangeData → k ≠ .ExchangeAddress → .d x ∈ l ∧ KeptA l y) : Unseen (M := M) l t (Spec.exg k x y) := by
  unfold Spec.exg
  split
  · obtain ⟨a, b⟩ := h1 rfl
    exact modR fun r => by rw [dreg_others r a, dreg_others r b, setD_others _ _ a, setD_others _ _ b]
  · obtain ⟨a, b⟩ := h2 rfl
    exact modR fun r => by rw [areg_others r a, areg_others r b, setA_others _ _ b, setA_others _ _ a]
  · rename_i n1 n2
    obtain ⟨a, b⟩ := h3 (fun e => n1 e) (fun e => n2 e)
    exact modR fun r => by rw [dreg_others r a, areg_others r b, setA_others _ _ b, setD_others _ _ a]

theorem flagsOf {n : Fin 8} (hn : .d n ∈ l) : Unseen (M := M) l t (Spec.modR fun r => { r with sr := logicFlags (r.d n) r.sr }) :=
  modR fun r => by rw [dreg_others r hn]; rfl
theorem ext (b : Bool) {n : Fin 8} (hn : .d n ∈ l) : Unseen (M := M) l t (Spec.ext b n) := bind (setD hn fun v => if b then signExt (low .Word v) else insertLow .Word v (BitVec.ofInt 16 (low .Byte v).toInt)) fun _ => flagsOf hn
theorem swap {n : Fin 8} (hn : .d n ∈ l) : Unseen (M := M) l t (Spec.swap n) :=
  bind (setD hn fun v => BitVec.ofNat 32 (v.toNat % 65536 * 65536 + v.toNat / 65536)) fun _ => flagsOf hn
theorem moveq {n : Fin 8} (hn : .d n ∈ l) (v : U8) : Unseen (M := M) l t (Spec.moveq n v) := bind (setD hn fun _ => signExt v) fun _ => setFlags _

theorem address (sz : Size) {m : Mode} (h : ModeOk l m) : Unseen (M := M) l t (Spec.address sz m) := by
  refine locating sz h fun p _ => ?_
  cases p with
  | mem a => exact pure _
  | _ => exact crash
theorem control {m : Mode} (h : ModeOk l m) : Unseen (M := M) l t (Spec.control m) := by
  unfold Spec.control
  split
  · exact crash
  · exact crash
  · exact address .Long h

theorem regNo_others (r : Registers) {k : Fin 16} (h : Kept l (listRegister k)) : regNo (withOthers l t r) k = regNo r k := by
  unfold listRegister at h
  unfold regNo
  split <;> rename_i hk <;> simp only [hk, dite_true, dite_false] at h
  · exact dreg_others r h
  · exact areg_others r h
theorem setRegNo_others (r : Registers) (v : U32) {k : Fin 16} (h : Kept l (listRegister k)) : setRegNo (withOthers l t r) k v = withOthers l t (setRegNo r k v) := by
  unfold listRegister at h
  unfold setRegNo
  split <;> rename_i hk <;> simp only [hk, dite_true, dite_false] at h
  · exact setD_others r v h
  · exact setA_others r v h

theorem movemLoads (sz : Size) {ks : List (Fin 16)} (h : ∀ k ∈ ks, Kept l (listRegister k)) (a : U32) : Unseen (M := M) l t (Spec.movemLoads sz ks a) := by
  induction ks generalizing a with
  | nil => exact pure _
  | cons k ks ih =>
    exact bind (map _ (access _)) fun v => bind (modR fun r => setRegNo_others r v (h k (by simp))) fun _ => ih (fun j hj => h j (by simp [hj])) _
theorem movemStores (sz : Size) {ks : List (Fin 16)} (h : ∀ k ∈ ks, Kept l (listRegister k)) (a : U32) : Unseen (M := M) l t (Spec.movemStores sz ks a) := by
  induction ks generalizing a with
  | nil => exact pure _
  | cons k ks ih =>
    exact bind (getR fun r => regNo_others r (h k (by simp))) fun v => bind (access _) fun _ => ih (fun j hj => h j (by simp [hj])) _
theorem movemStoresDown (sz : Size) {ks : List (Fin 16)} (h : ∀ k ∈ ks, Kept l (listRegister k)) (a : U32) : Unseen (M := M) l t (Spec.movemStoresDown sz ks a) := by
  induction ks generalizing a with
  | nil => exact pure _
  | cons k ks ih =>
    exact bind (getR fun r => regNo_others r (h k (by simp))) fun v => bind (access _) fun _ => ih (fun j hj => h j (by simp [hj])) _

theorem aligned (a : U32) : Unseen (M := M) l t (Spec.aligned a) := by
  unfold Spec.aligned; split
  · exact trap _
  · exact pure _

theorem movem (b : Bool) (sz : Size) {m : Mode} {mask : U16} (h : ModeOk l m) (hu : (∀ n, m ≠ .predec n) → ∀ k ∈ listed mask, Kept l (listRegister k))
    (hd : ∀ n, m = .predec n → ∀ k ∈ listedDown mask, Kept l (listRegister k)) : Unseen (M := M) l t (Spec.movem b sz m mask) := by
  unfold Spec.movem
  split
  · rename_i n
    have h1 : KeptA l n := h (.a n) (by simp [modeRegs])
    exact bind (areg h1 id) fun a => bind (aligned _) fun _ => bind (movemStoresDown sz (hd _ rfl) _) fun _ => updateA h1 _
  · rename_i n
    have h1 : KeptA l n := h (.a n) (by simp [modeRegs])
    have h2 := hu (fun n e => by cases e)
    refine bind (areg h1 id) fun a => bind (aligned _) fun _ => bind ?_ fun _ => updateA h1 _
    split
    · exact movemLoads sz h2 _
    · exact movemStores sz h2 _
  · rename_i n1 n2
    have h2 := hu (fun n e => n1 n e)
    refine bind (address sz h) fun a => bind (aligned _) fun _ => bind ?_ fun _ => pure _
    split
    · exact movemLoads sz h2 _
    · exact movemStores sz h2 _

theorem movepStores {n : Fin 8} (hn : .d n ∈ l) (k : Nat) (a : U32) : Unseen (M := M) l t (Spec.movepStores n k a) := by
  induction k generalizing a with
  | zero => exact pure _
  | succ k ih => exact bind (dreg hn id) fun _ => bind (store .Byte _ _) fun _ => ih _
theorem movepLoads {n : Fin 8} (hn : .d n ∈ l) (k : Nat) (a : U32) : Unseen (M := M) l t (Spec.movepLoads n k a) := by
  induction k generalizing a with
  | zero => exact pure _
  | succ k ih => exact bind (load .Byte _) fun b => bind (setD hn fun v => setByteOf v k b) fun _ => ih _
theorem movep (b : Bool) (sz : Size) {n an : Fin 8} (hn : .d n ∈ l) (ha : KeptA l an) (d : U16) : Unseen (M := M) l t (Spec.movep b sz n an d) := by
  refine bind (areg ha id) fun a => ?_
  dsimp only
  split
  · exact movepStores hn _ _
  · exact bind (setD hn fun v => insertLow sz v 0) fun _ => movepLoads hn _ _

theorem bitOpAt (o : BitOp) (sz : Size) (i : Nat) {m : Mode} (h : ModeOk l m) : Unseen (M := M) l t (Spec.bitOpAt o sz i m) := by
  unfold Spec.bitOpAt; split
  · exact reading sz h fun _ _ _ => setFlags _
  · exact rmw sz h _
theorem bitOp (o : BitOp) (k : Nat) {m : Mode} (h : ModeOk l m) : Unseen (M := M) l t (Spec.bitOp o k m) := by
  unfold Spec.bitOp; split <;> exact bitOpAt _ _ _ h

theorem shift (f : {n : Nat} → Nat → BitVec n → StatusRegister → BitVec n × StatusRegister) (sz : Size) {b : Bool} {rot n : Fin 8}
    (hr : b = true → .d rot ∈ l) (hn : .d n ∈ l) : Unseen (M := M) l t (Spec.shift f sz b rot n) := by
  refine bind ?_ fun k => bind (rmw sz (modeOk_dn hn) _) fun _ => pure _
  unfold Spec.shiftCount; split
  · exact dreg (hr ‹_›) fun v => v.toNat % 64
  · exact pure _

theorem privileged : Unseen (M := M) l t Spec.privileged := by
  refine bind (getR fun _ => rfl) fun s => ?_
  cases s
  · exact trap _
  · exact pure _
theorem test (cc : Fin 16) : Unseen (M := M) l t (Spec.test cc) := getR fun _ => rfl
theorem bcc (p : U32) (cc : Fin 16) (d : U16) : Unseen (M := M) l t (Spec.bcc p cc d) := by
  refine bind (test cc) fun b => ?_
  cases b
  · exact bind (pure _) fun _ => pure _
  · exact bind (jump _) fun _ => pure _
theorem dbcc (p : U32) (cc : Fin 16) {n : Fin 8} (hn : .d n ∈ l) (d : U16) : Unseen (M := M) l t (Spec.dbcc p cc n d) := by
  refine bind (test cc) fun b => ?_
  cases b
  · refine bind (dreg hn (low .Word)) fun k => bind (setD hn fun v => insertLow .Word v (k - 1)) fun _ => ?_
    split
    · exact pure _
    · exact bind (jump _) fun _ => pure _
  · exact pure _
theorem scc (cc : Fin 16) {m : Mode} (h : ModeOk l m) : Unseen (M := M) l t (Spec.scc cc m) := bind (test cc) fun _ => bind (write .Byte h _) fun _ => pure _
theorem bsr (p : U32) (d : U16) : Unseen (M := M) l t (Spec.bsr p d) := bind pc fun _ => bind (push .Long _) fun _ => jump _
theorem jsr {m : Mode} (h : ModeOk l m) : Unseen (M := M) l t (Spec.jsr m) := bind pc fun _ => bind (push .Long _) fun _ => bind (control h) fun _ => jump _
theorem chk {n : Fin 8} {m : Mode} (hn : .d n ∈ l) (h : ModeOk l m) : Unseen (M := M) l t (Spec.chk n m) := by
  refine reading .Word h fun _ _ _ => bind (dreg hn (low .Word)) fun v => ?_
  split
  · exact trap _
  · exact pure _
theorem link {n : Fin 8} (hn : KeptA l n) (d : U16) : Unseen (M := M) l t (Spec.link n d) :=
  bind (areg hn id) fun _ => bind (push .Long _) fun _ => bind (modR fun r => by rw [areg_others r kept7, setA_others _ _ hn]) fun _ => updateA kept7 _
theorem unlk {n : Fin 8} (hn : KeptA l n) : Unseen (M := M) l t (Spec.unlk n) :=
  bind (modR fun r => by rw [areg_others r hn, setA_others _ _ kept7]) fun _ => bind (pop .Long) fun _ => updateA hn _
theorem rte (F : StackFormat) : Unseen (M := M) l t (Spec.rte F) := by
  refine bind privileged fun _ => bind (pop .Word) fun w => bind (pop .Long) fun p => bind (jump p) fun _ => bind ?_ fun _ => bind (setFlags _) fun _ => pure _
  split
  · refine bind (pop .Word) fun f => ?_
    split
    · exact bind (updateA kept7 _) fun _ => pure _
    · split
      · exact pure _
      · exact trap _
  · exact pure _
theorem rtr : Unseen (M := M) l t Spec.rtr := bind (pop .Word) fun _ => bind (setFlags _) fun _ => bind (pop .Long) fun _ => jump _
theorem rts : Unseen (M := M) l t Spec.rts := bind (pop .Long) fun _ => jump _
theorem stop (w : U16) : Unseen (M := M) l t (Spec.stop w) := bind privileged fun _ => bind (setFlags _) fun _ => halt
theorem resetDevices : Unseen (M := M) l t Spec.resetDevices := bind privileged fun _ => signalReset
theorem moveUsp (b : Bool) {n : Fin 8} (hn : KeptA l n) : Unseen (M := M) l t (Spec.moveUsp b n) := by
  refine bind privileged fun _ => ?_
  split
  · exact modR fun r => setA_others r _ hn
  · exact modR fun r => by rw [areg_others r hn]; rfl

end Unseen
end Exec
end M68k
