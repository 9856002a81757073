import Verif.Lemmas.Length
import Verif.Lemmas.Contents
import Verif.Spec.Written
/-
The instructions write only to the addresses of `written`.
-/
set_option linter.unusedSectionVars false
namespace M68k
namespace Exec
open Spec
variable {M : Type} [MemoryAccess M] {α β : Type} {W : List U32} {s s2 : St M}

/-! ### Accesses within a set of addresses -/

theorem _root_.M68k.Spec.Touches.trans {m m' m'' : M} (h : Touches W m m') (h' : Touches W m' m'') : Touches W m m'' := by
  induction h' with
  | refl => exact h
  | get _ ha h2 ih => exact .get ih ha h2
  | set _ ha hw h2 ih => exact .set ih ha hw h2

theorem _root_.M68k.Spec.Reads.touches {m m' : M} (h : Reads m m') : Touches W m m' := by
  induction h with
  | refl => exact .refl _
  | byte _ h2 ih => exact .get (sz := .Byte) ih (fun hc => hc.1 rfl) h2
  | word _ ho h2 ih => exact .get (sz := .Word) ih (fun hc => ho hc.2) h2
  | long _ ho h2 ih => exact .get (sz := .Long) ih (fun hc => ho hc.2) h2

/-- The action accesses only addresses of `W` for writing, from the state `s`. -/
def TouchAt (W : List U32) (s : St M) (x : Exec M α) : Prop :=
  match x s with
  | .ok _ s' => Touches W s.mem s'.mem
  | .err _ s' => Touches W s.mem s'.mem
  | .panic => True

theorem TouchAt.bind {x : Exec M α} {f : α → Exec M β} (hx : TouchAt W s x) (hf : ∀ a s', x s = .ok a s' → TouchAt W s' (f a)) :
    TouchAt W s (x >>= f) := by
  unfold TouchAt at hx ⊢
  rw [Exec.bind_apply]
  cases hxs : x s with
  | ok a s' =>
    rw [hxs] at hx
    have h2 := hf a s' hxs
    unfold TouchAt at h2
    simp only at hx ⊢
    cases hfs : f a s' with
    | ok b s'' => rw [hfs] at h2; exact hx.trans h2
    | err v s'' => rw [hfs] at h2; exact hx.trans h2
    | panic => trivial
  | err v s' => rw [hxs] at hx; exact hx
  | panic => trivial

theorem TouchAt.map {x : Exec M α} (f : α → β) (hx : TouchAt W s x) : TouchAt W s (f <$> x) := by
  unfold TouchAt at hx ⊢
  rw [Exec.map_apply]
  cases hxs : x s <;> rw [hxs] at hx <;> exact hx

theorem TouchAt.cost {x : Exec M α} (t : Nat) (hx : TouchAt W s x) : TouchAt W s (Spec.cost x t) := hx.map _

theorem TouchAt.reads {x : Exec M α} (hx : OnlyReads x) : TouchAt W s x := by
  have := hx s
  unfold TouchAt
  cases hxs : x s <;> rw [hxs] at this
  · exact this.touches
  · exact this.touches
  · trivial

theorem TouchAt.crash : TouchAt W s (Spec.crash : Exec M α) := trivial

theorem TouchAt.memSet {sz : Size} {a : U32} {v : Val sz} (ha : AlignedFor sz a) (hw : ∀ k < bytes sz, at_ a k ∈ W) :
    TouchAt W s (access (memSet sz a v)) := by
  unfold TouchAt access
  cases h : Spec.memSet sz a v s.mem with
  | val u m => exact .set (.refl _) ha hw (.inr h)
  | none m => exact .set (.refl _) ha hw (.inl h)
  | panic => trivial

theorem TouchAt.store {sz : Size} {a : U32} {v : Val sz} (hw : ∀ k < bytes sz, at_ a k ∈ W) : TouchAt W s (store sz a v) := by
  unfold Spec.store
  split
  · exact .refl _
  · exact TouchAt.memSet ‹_› hw

/-- The operand, if in memory, is at addresses of `W`. -/
def Hits (W : List U32) (sz : Size) (p : Place) : Prop := ∀ a, p = .mem a → ∀ k < bytes sz, at_ a k ∈ W

theorem TouchAt.writeAt {sz : Size} {p : Place} {v : Val sz} (h : Hits W sz p) : TouchAt W s (writeAt sz p v) := by
  cases p with
  | dreg n => exact .refl _
  | areg n =>
    unfold Spec.writeAt
    simp only
    split
    · trivial
    · exact .refl _
  | mem a => exact TouchAt.store (h a rfl)
  | imm v => trivial

theorem onlyReads_readAt {sz : Size} (p : Place) : OnlyReads (readAt sz p : Exec M _) := by
  cases p with
  | dreg n => exact fun _ => .refl _
  | areg n =>
    unfold Spec.readAt
    simp only
    split
    · exact fun _ => trivial
    · exact fun _ => .refl _
  | mem a => exact legal_onlyReads.load trivial sz a
  | imm v => exact fun _ => .refl _

theorem onlyReads_locate {sz : Size} (m : Mode) : OnlyReads (locate sz m : Exec M _) := fun _ => .refl _

theorem onlyReads_read {sz : Size} (m : Mode) : OnlyReads (read sz m : Exec M _) :=
  legal_onlyReads.bind _ _ (onlyReads_locate m) fun p => legal_onlyReads.bind _ _ (onlyReads_readAt p) fun _ => legal_onlyReads.pure _

theorem read_place {sz : Size} {m : Mode} {p : Place} {v : Val sz} (h : read sz m s = .ok (p, v) s2) : p = (place sz s.cpu.regs m).1 := by
  obtain ⟨p', s', h1, h2⟩ := bind_ok h
  obtain ⟨v', s'', h3, h4⟩ := bind_ok h2
  cases h1
  cases h4
  rfl

theorem TouchAt.write {sz : Size} {m : Mode} {v : Val sz} (h : Hits W sz (place sz s.cpu.regs m).1) : TouchAt W s (write sz m v) :=
  TouchAt.bind (.reads (onlyReads_locate m)) fun p s' hp => by cases hp; exact TouchAt.writeAt h

theorem TouchAt.rmw {sz : Size} {m : Mode} {f : Val sz → StatusRegister → Val sz × StatusRegister} (h : Hits W sz (place sz s.cpu.regs m).1) :
    TouchAt W s (rmw sz m f) :=
  TouchAt.bind (.reads (onlyReads_read m)) fun (p, v) s' hp =>
    TouchAt.bind (.reads (legal_onlyReads.compute _)) fun r s'' hr => TouchAt.writeAt (by rw [read_place hp]; exact h)

/-! ### The extension words -/

/-- `y` reads `k` words and does nothing else; its result is related to them by `p`. -/
def PreW (k : Nat) (y : Exec M β) (p : List U16 → β → Prop) : Prop := ∀ s,
  match fetchWords k s with
  | .ok ws s' => ∃ b, y s = .ok b s' ∧ p ws b
  | .err _ _ => False
  | .panic => y s = .panic

/-- `x` reads `k` words and goes on with something that satisfies `P`. -/
def SplitW (k : Nat) (P : List U16 → Exec M α → Prop) (x : Exec M α) : Prop := ∀ s,
  match fetchWords k s with
  | .ok ws s' => ∃ z, P ws z ∧ x s = z s'
  | .err _ _ => False
  | .panic => x s = .panic

theorem PreW.of {k : Nat} {y : Exec M β} {p : β → Prop} (h : Pre k y p) : PreW k y fun _ b => p b := h

theorem SplitW.bind {j k : Nat} {y : Exec M β} {p : List U16 → β → Prop} {f : β → Exec M α} {P : List U16 → Exec M α → Prop} (hy : PreW j y p)
    (hf : ∀ ws b, ws.length = j → p ws b → SplitW k (fun ws' z => P (ws ++ ws') z) (f b)) : SplitW (j + k) P (y >>= f) := by
  intro s
  rw [fetchWords_add, Exec.bind_apply]
  have h := hy s
  cases hj : fetchWords j s with
  | ok l s' =>
    rw [hj] at h
    obtain ⟨a, h1, h2⟩ := h
    have h' := hf l a (fetchWords_length hj) h2 s'
    simp only [Exec.bind_apply]
    cases hk : fetchWords k s' with
    | ok l' s'' => rw [hk] at h'; simp only [h1]; exact h'
    | err => rw [hk] at h'; exact h'.elim
    | panic => rw [hk] at h'; simp only [h1]; exact h'
  | err => rw [hj] at h; exact h.elim
  | panic => rw [hj] at h; simp only [Exec.bind_apply]; simp only at h; rw [h]

theorem SplitW.here {P : List U16 → Exec M α → Prop} {x : Exec M α} (h : P [] x) : SplitW 0 P x := fun _ => ⟨x, h, rfl⟩

theorem SplitW.last {k : Nat} {y : Exec M β} {p : List U16 → β → Prop} {f : β → Exec M α} {P : List U16 → Exec M α → Prop} (hy : PreW k y p)
    (hf : ∀ ws b, ws.length = k → p ws b → P ws (f b)) : SplitW k P (y >>= f) :=
  SplitW.bind (k := 0) hy fun ws b hl hb => SplitW.here (by rw [List.append_nil]; exact hf ws b hl hb)

/-- The mode is denoted by the fields `mode` and `reg` with the extension words `ws`. -/
def Spelled (mode reg : Nat) (ws : List U16) (m : Mode) : Prop :=
  Fits mode reg m ∧
  match m with
  | .disp _ d => ∃ t, ws = d :: t
  | .index _ x => ∃ t, ws = x :: t
  | .absW w => ∃ t, ws = w :: t
  | .absL a => ∃ hi lo t, ws = hi :: lo :: t ∧ a = hi ++ lo
  | _ => True

theorem fetchWords_one {w : U16} (h : fetch s = .ok w s2) : fetchWords 1 s = .ok [w] s2 := by
  simp only [fetchWords, Exec.bind_apply, h]; rfl

theorem PreW.fetchMode (sz : Option Size) (imm : Nat) (mode reg : Fin 8)
    (h : mode.val = 7 → reg.val ≤ 3 ∨ (reg.val = 4 ∧ sz ≠ none ∧ immWords sz = imm)) :
    PreW (M := M) (eaWords imm mode.val reg.val) (Spec.fetchMode sz mode reg) (Spelled mode.val reg.val) := by
  intro s
  have h0 := Pre.fetchMode (M := M) sz imm mode reg h s
  revert h0
  cases hw : fetchWords (eaWords imm mode.val reg.val) s with
  | err => exact id
  | panic => exact id
  | ok ws s' =>
    rintro ⟨m, hm, hf⟩
    refine ⟨m, hm, hf, ?_⟩
    match mode, reg, m, hf with
    | _, _, .dn _, _ => trivial
    | _, _, .an _, _ => trivial
    | _, _, .ind _, _ => trivial
    | _, _, .postinc _, _ => trivial
    | _, _, .predec _, _ => trivial
    | _, _, .pcDisp _ _, _ => trivial
    | _, _, .pcIndex _ _, _ => trivial
    | _, _, .imm _, _ => trivial
    | mode, reg, .disp n d, hf =>
      obtain ⟨h1, h2⟩ := hf
      have : mode = 5 := Fin.ext h1
      subst this
      have hw : fetchWords 1 s = .ok ws s' := hw
      have hm : (Mode.disp reg <$> fetch : Exec M Mode) s = .ok (.disp n d) s' := hm
      rw [Exec.map_apply] at hm
      cases hx : fetch s with
      | ok w s3 => rw [hx] at hm; cases hm; rw [fetchWords_one hx] at hw; cases hw; exact ⟨[], rfl⟩
      | err => rw [hx] at hm; cases hm
      | panic => rw [hx] at hm; cases hm
    | mode, reg, .index n d, hf =>
      obtain ⟨h1, h2⟩ := hf
      have : mode = 6 := Fin.ext h1
      subst this
      have hw : fetchWords 1 s = .ok ws s' := hw
      have hm : (Mode.index reg <$> fetch : Exec M Mode) s = .ok (.index n d) s' := hm
      rw [Exec.map_apply] at hm
      cases hx : fetch s with
      | ok w s3 => rw [hx] at hm; cases hm; rw [fetchWords_one hx] at hw; cases hw; exact ⟨[], rfl⟩
      | err => rw [hx] at hm; cases hm
      | panic => rw [hx] at hm; cases hm
    | mode, reg, .absW d, hf =>
      obtain ⟨h1, h2⟩ := hf
      have : mode = 7 := Fin.ext h1
      subst this
      have : reg = 0 := Fin.ext h2
      subst this
      have hw : fetchWords 1 s = .ok ws s' := hw
      have hm : (Mode.absW <$> fetch : Exec M Mode) s = .ok (.absW d) s' := hm
      rw [Exec.map_apply] at hm
      cases hx : fetch s with
      | ok w s3 => rw [hx] at hm; cases hm; rw [fetchWords_one hx] at hw; cases hw; exact ⟨[], rfl⟩
      | err => rw [hx] at hm; cases hm
      | panic => rw [hx] at hm; cases hm
    | mode, reg, .absL d, hf =>
      obtain ⟨h1, h2⟩ := hf
      have : mode = 7 := Fin.ext h1
      subst this
      have : reg = 1 := Fin.ext h2
      subst this
      have hw : fetchWords 2 s = .ok ws s' := hw
      have hm : (Mode.absL <$> fetchLong : Exec M Mode) s = .ok (.absL d) s' := hm
      rw [Exec.map_apply] at hm
      cases hx : fetchLong s with
      | err => rw [hx] at hm; cases hm
      | panic => rw [hx] at hm; cases hm
      | ok v s3 =>
        rw [hx] at hm
        cases hm
        obtain ⟨hi, sa, ha, hx2⟩ := bind_ok hx
        obtain ⟨lo, sb, hb, hx3⟩ := bind_ok hx2
        cases hx3
        refine ⟨hi, lo, [], ?_, ?_⟩
        · simp only [fetchWords, Exec.bind_apply, ha, hb, Exec.pure_apply] at hw
          cases hw
          rfl
        · apply BitVec.eq_of_toNat_eq
          rw [BitVec.toNat_append, ← Nat.shiftLeft_add_eq_or_of_lt lo.isLt, Nat.shiftLeft_eq, BitVec.toNat_ofNat,
            Nat.mod_eq_of_lt (by have := hi.isLt; have := lo.isLt; omega)]

/-- The address of an alterable operand. -/
theorem Spelled.address {mode reg : Nat} {ws : List U16} {m : Mode} (h : Spelled mode reg ws m) (hl : mode < 7 ∨ reg ≤ 1) {sz : Size} {r : Registers}
    {a : U32} (ha : (place sz r m).1 = .mem a) : a = eaAddress sz r mode reg ws := by
  have hn : ∀ n : Fin 8, Fin.ofNat 8 n.val = n := fun n => Fin.ext (Nat.mod_eq_of_lt n.isLt)
  obtain ⟨h1, h2⟩ := h
  cases m with
  | dn n => cases ha
  | an n => cases ha
  | imm n => cases ha
  | ind n => obtain ⟨rfl, rfl⟩ := h1; cases ha; simp only [eaAddress, hn]
  | postinc n => obtain ⟨rfl, rfl⟩ := h1; cases ha; simp only [eaAddress, hn]
  | predec n => obtain ⟨rfl, rfl⟩ := h1; cases ha; simp only [eaAddress, hn]
  | disp n d => obtain ⟨rfl, rfl⟩ := h1; obtain ⟨t, rfl⟩ := h2; cases ha; simp only [eaAddress, hn]
  | index n d => obtain ⟨rfl, rfl⟩ := h1; obtain ⟨t, rfl⟩ := h2; cases ha; simp only [eaAddress, hn, indexDisp]
  | absW d => obtain ⟨rfl, rfl⟩ := h1; obtain ⟨t, rfl⟩ := h2; cases ha; simp only [eaAddress]
  | absL d => obtain ⟨rfl, rfl⟩ := h1; obtain ⟨hi, lo, t, rfl, rfl⟩ := h2; cases ha; simp only [eaAddress]
  | pcDisp pc d => obtain ⟨rfl, rfl⟩ := h1; omega
  | pcIndex pc d => obtain ⟨rfl, rfl⟩ := h1; omega

/-- The place of an alterable operand. -/
theorem Spelled.hits {mode reg : Nat} {ws : List U16} {m : Mode} (h : Spelled mode reg ws m) (hl : mode < 7 ∨ reg ≤ 1) (sz : Size) (r : Registers) :
    Hits (span (eaAddress sz r mode reg ws) (bytes sz)) sz (place sz r m).1 := by
  intro a ha k hk
  rw [h.address hl ha]
  exact List.mem_map.2 ⟨k, List.mem_range.2 hk, rfl⟩

theorem Spelled.append {mode reg : Nat} {ws ws' : List U16} {m : Mode} (h : Spelled mode reg ws m) : Spelled mode reg (ws ++ ws') m := by
  obtain ⟨h1, h2⟩ := h
  refine ⟨h1, ?_⟩
  cases m with
  | disp n d => obtain ⟨t, rfl⟩ := h2; exact ⟨t ++ ws', rfl⟩
  | index n d => obtain ⟨t, rfl⟩ := h2; exact ⟨t ++ ws', rfl⟩
  | absW d => obtain ⟨t, rfl⟩ := h2; exact ⟨t ++ ws', rfl⟩
  | absL d => obtain ⟨hi, lo, t, rfl, h⟩ := h2; exact ⟨hi, lo, t ++ ws', rfl, h⟩
  | _ => trivial

end Exec
end M68k
