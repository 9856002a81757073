import Verif.Props.C71
import Verif.Props.C03
import Verif.Props.C57
import Verif.Props.C69
/-
C71, the handler of a timer: `ADDQ.W #1,count` and RTE.
-/
namespace M68k.Props
open Spec Exec
set_option linter.unusedSectionVars false
variable {M : Type} [MemoryAccess M] [Ram M] [Writable M] {C : CpuDetails} {s s' t e : St M} {v : U8} {w : U16} {h : U32} {P F : U32 → Bool}

/-- `ADDQ.W #1,count` (absolute short address). -/
theorem tick_step {d : U16} (hr : t.cpu.stop = false) (hi : t.cpu.exceptions = []) (ho : ¬ Spec.Odd t.cpu.regs.pc)
    (hop : Holds (sz := .Word) t.mem t.cpu.regs.pc (0x5278 : U16)) (hw : Holds (sz := .Word) t.mem (at_ t.cpu.regs.pc 2) w)
    (hc : ¬ Spec.Odd (signExt w)) (hd : Holds (sz := .Word) t.mem (signExt w) d) :
    ∃ m sr, SameSystem t.cpu.regs.sr sr ∧ Holds (sz := .Word) m (signExt w) (d + 1) ∧ SameExcept t.mem m (signExt w) 2 ∧ SamePresent t.mem m ∧
      Completes C t { mem := m, cpu := { t.cpu with currentOpcode := 0x5278, regs := { t.cpu.regs with pc := at_ t.cpu.regs.pc 4, sr := sr } } } := by
  have h := loadWord_ready hr hi ho hop
  have ho2 : ¬ Spec.Odd (at_ t.cpu.regs.pc 2) := fun h => ho ((odd_at rfl).1 h)
  have hf : fetch { t with cpu := { t.cpu with currentOpcode := 0x5278, regs := { t.cpu.regs with pc := t.cpu.regs.pc + 2 } } } =
      .ok w { t with cpu := { t.cpu with currentOpcode := 0x5278, regs := { t.cpu.regs with pc := at_ t.cpu.regs.pc 4 } } } := by
    unfold fetch
    simp only
    rw [two_at, if_neg ho2, show MemoryAccess.getWord (at_ t.cpu.regs.pc 2) t.mem = .val w t.mem from memGet_holds (sz := .Word) (even_word ho2) hw]
    simp only [two_at, at_add]
  have hop' : operand .Word 0x5278 { t with cpu := { t.cpu with currentOpcode := 0x5278, regs := { t.cpu.regs with pc := t.cpu.regs.pc + 2 } } } =
      .ok (.mem (signExt w), d) { t with cpu := { t.cpu with currentOpcode := 0x5278, regs := { t.cpu.regs with pc := at_ t.cpu.regs.pc 4 } } } := by
    unfold operand
    have : fetchEa (some .Word) 0x5278 { t with cpu := { t.cpu with currentOpcode := 0x5278, regs := { t.cpu.regs with pc := t.cpu.regs.pc + 2 } } } =
        .ok (.absW w) { t with cpu := { t.cpu with currentOpcode := 0x5278, regs := { t.cpu.regs with pc := at_ t.cpu.regs.pc 4 } } } := by
      show (Mode.absW <$> fetch) _ = _
      show (fetch >>= fun x => pure (Mode.absW x)) _ = _
      rw [bind_eq hf]
      rfl
    rw [bind_eq this]
    exact read_holds (md := .absW w) rfl (even_word hc) hd
  obtain ⟨r, sr, hs, hx⟩ := C03_addq (C := C) h (by decide) rfl (by decide) hop'
  have hrd : r = d + 1 := by
    apply BitVec.eq_of_toNat_eq
    rw [hs.1.value, BitVec.toNat_add]
    rfl
  subst hrd
  obtain ⟨m, hm⟩ := store_present (s := { t with cpu := { t.cpu with currentOpcode := 0x5278, regs := { t.cpu.regs with pc := at_ t.cpu.regs.pc 4, sr := sr } } })
    (sz := .Word) (v := d + 1) (even_word hc) fun k hk => by
      show (Ram.peek t.mem _).isSome
      rw [hd k hk]
      rfl
  obtain ⟨-, -, w1, w2⟩ := store_done hm
  have w3 := store_samePresent hm
  refine ⟨m, sr, hs.1.system, w1, w2, w3, ?_⟩
  have hx : EndsWith C t (store .Word (signExt w) (d + 1) { t with cpu := { t.cpu with currentOpcode := 0x5278, regs := { t.cpu.regs with pc := at_ t.cpu.regs.pc 4, sr := sr } } }) := hx
  rw [hm] at hx
  exact hx

/-- The memory of the timer: the vector `v` points to the handler at `h`, which is `ADDQ.W #1,count; RTE`. The word at `count` is the number of exceptions served, and
the supervisor stack exists. -/
structure Ticks (F : U32 → Bool) (v : U8) (h : U32) (w : U16) (l : List U8) (m : M) : Prop where
  vector : Holds (sz := .Long) m (vectorAddress v) h
  code : HoldsWords m h [0x5278, w, 0x4E73]
  count : Holds (sz := .Word) m (signExt w) (BitVec.ofNat 16 l.length)
  stack : ∀ a, F a = true → (Ram.peek m a).isSome

/-- The parts of this memory do not overlap: the vector, the handler, the counter, the supervisor stack `F` and the program `P`. -/
structure TickLayout (P F : U32 → Bool) (v : U8) (h : U32) (w : U16) : Prop where
  evenHandler : ¬ Spec.Odd h
  evenCount : ¬ Spec.Odd (signExt w)
  stack : ∀ a, F a = true → P a = false
  vector : ∀ k < 4, P (at_ (vectorAddress v) k) = false ∧ F (at_ (vectorAddress v) k) = false
  code : ∀ k < 6, P (at_ h k) = false ∧ F (at_ h k) = false
  count : ∀ k < 2, P (at_ (signExt w) k) = false ∧ F (at_ (signExt w) k) = false
  countVector : ∀ j < 2, ∀ k < 4, at_ (vectorAddress v) k ≠ at_ (signExt w) j
  countCode : ∀ j < 2, ∀ k < 6, at_ h k ≠ at_ (signExt w) j

theorem ticks_changed {l l' : List U8} {m m' : M} {D : U32 → Prop} (hm : Ticks F v h w l m) (hp : ∀ a, F a = true → (Ram.peek m' a).isSome)
    (hc : ∀ a, ¬ D a → Ram.peek m' a = Ram.peek m a) (h1 : ∀ k < 4, ¬ D (at_ (vectorAddress v) k)) (h2 : ∀ k < 6, ¬ D (at_ h k))
    (h3 : Holds (sz := .Word) m' (signExt w) (BitVec.ofNat 16 l'.length)) : Ticks F v h w l' m' where
  vector := hm.vector.of_eq fun k hk => hc _ (h1 k hk)
  code q hq := (hm.code q hq).of_eq fun k hk => by
    rw [at_add]
    have hq : q < 3 := hq
    have hk : k < 2 := hk
    exact hc _ (h2 _ (by omega))
  count := h3
  stack := hp

/-- The time of `ADDQ.W #1,count`. -/
def tickTime (C : CpuDetails) : Nat := C.ADDQ_MEM_BW + C.EA_ABSSHORT

/-- The handler of the timer comes to its RTE. -/
theorem tick_handles {l : List U8} (hl : TickLayout P F v h w) (hI : Ticks F v h w l s.mem) (hr : s.cpu.stop = false) (hi : s.cpu.exceptions = []) (hst : StackIn F (frameBytes C.STACK_FORMAT v) s)
    (he : Entered C v s e) : ∃ f, interpreterException C e = .ok (tickTime C, none) f ∧ Restored C P v e f ∧ Ticks F v h w (l ++ [v]) f.mem := by
  have hssp : e.cpu.regs.ssp = s.cpu.regs.ssp - BitVec.ofNat 32 (frameBytes C.STACK_FORMAT v) := by rw [he.regs]
  have hrest : ∀ a, ¬ F a = true → Ram.peek e.mem a = Ram.peek s.mem a := fun a ha => he.rest a fun k hk hc => by
    rw [hc, hssp] at ha
    exact ha (hst.2 k hk)
  have hframe : ∀ k < frameBytes C.STACK_FORMAT v, F (at_ e.cpu.regs.ssp k) = true := fun k hk => by rw [hssp]; exact hst.2 k hk
  have hpres : ∀ a, F a = true → (Ram.peek e.mem a).isSome := by
    intro a ha
    by_cases hk : ∃ k < frameBytes C.STACK_FORMAT v, a = at_ e.cpu.regs.ssp k
    · obtain ⟨k, hk, rfl⟩ := hk
      have hfl := frame_length C.STACK_FORMAT v (srWord s.cpu.regs.sr) s.cpu.regs.pc s.cpu.currentOpcode
      have := he.frame (k / 2) (by omega) (k % 2) (by show k % 2 < 2; omega)
      rw [at_add, show 2 * (k / 2) + k % 2 = k by omega] at this
      rw [this]
      rfl
    · rw [he.rest a fun k hk' hc => hk ⟨k, hk', hc⟩]
      exact hI.stack a ha
  have hE : Ticks F v h w l e.mem := ticks_changed hI hpres hrest (fun k hk => by rw [(hl.vector k hk).2]; decide) (fun k hk => by rw [(hl.code k hk).2]; decide)
    (hI.count.of_eq fun k hk => hrest _ (by rw [(hl.count k hk).2]; decide))
  have hpc : e.cpu.regs.pc = h := by
    refine beByte_ext (sz := .Long) fun k hk => ?_
    have h1 := he.handler k hk
    have h2 := hE.vector k hk
    rw [h1] at h2
    exact Option.some.inj h2
  obtain ⟨hex, hstop⟩ := entered_exceptions he
  have c0 := hE.code 0 (show 0 < 3 by decide)
  have c1 := hE.code 1 (show 1 < 3 by decide)
  have c2 := hE.code 2 (show 2 < 3 by decide)
  rw [Nat.mul_zero, at_zero] at c0
  obtain ⟨m, sr, j1, j2, j3, j4, c, j5⟩ := tick_step (C := C) (t := e) (w := w) (d := BitVec.ofNat 16 l.length) (hstop.trans hr) (hex.trans hi) (by rw [hpc]; exact hl.evenHandler)
    (by rw [hpc]; exact c0) (by rw [hpc]; exact c1) hl.evenCount hE.count
  have htr : traced e = none := by
    unfold traced
    rw [he.regs]
    rfl
  rw [htr] at j5
  have hc : c = tickTime C := by
    have hn : ¬ Spec.Odd (at_ e.cpu.regs.pc 2) := fun h => hl.evenHandler (hpc ▸ (odd_at rfl).1 h)
    have hf : fetchWords (extensionWords (instr 0x5278) 0x5278) { e with cpu := { e.cpu with currentOpcode := 0x5278, regs := { e.cpu.regs with pc := e.cpu.regs.pc + 2 } } } =
        .ok [w] { e with cpu := { e.cpu with currentOpcode := 0x5278, regs := { e.cpu.regs with pc := at_ e.cpu.regs.pc 4 } } } := by
      show (fetch >>= fun x => fetchWords 0 >>= fun xs => pure (x :: xs)) _ = _
      have : fetch { e with cpu := { e.cpu with currentOpcode := 0x5278, regs := { e.cpu.regs with pc := e.cpu.regs.pc + 2 } } } =
          .ok w { e with cpu := { e.cpu with currentOpcode := 0x5278, regs := { e.cpu.regs with pc := at_ e.cpu.regs.pc 4 } } } := by
        unfold fetch
        simp only
        rw [two_at, if_neg hn, show MemoryAccess.getWord (at_ e.cpu.regs.pc 2) e.mem = .val w e.mem from memGet_holds (sz := .Word) (even_word hn) (by rw [hpc]; exact c1)]
        simp only [two_at, at_add]
      rw [bind_eq this]
      rfl
    exact C57_completed (loadWord_ready (hstop.trans hr) (hex.trans hi) (by rw [hpc]; exact hl.evenHandler) (by rw [hpc]; exact c0)) (by unfold MovemMisfit; decide) (by decide) hf j5
  subst hc
  have hF : ∀ a, (∀ k < 2, a ≠ at_ (signExt w) k) → Ram.peek m a = Ram.peek e.mem a := j3
  refine ⟨_, j5, ⟨⟨_, loadWord_ready (w := 0x4E73) (hstop.trans hr) (hex.trans hi) ?_ ?_⟩, ?_, rfl, ?_, ?_⟩, ?_⟩
  · show ¬ Spec.Odd (at_ e.cpu.regs.pc 4)
    rw [hpc]
    exact fun ho => hl.evenHandler ((odd_at rfl).1 ho)
  · show Holds (sz := .Word) m (at_ e.cpu.regs.pc 4) _
    rw [hpc]
    refine Spec.Holds.of_eq (m := e.mem) c2 fun k hk => hF _ fun j hj => ?_
    rw [at_add]
    have hk : k < 2 := hk
    exact hl.countCode j hj _ (by omega)
  · show sr.s = true
    rw [j1.2.1, he.regs]
    rfl
  · intro k hk
    refine hF _ fun j hj hc => ?_
    have h1 := hframe k hk
    rw [hc, (hl.count j hj).2] at h1
    cases h1
  · intro a ha
    refine hF _ fun j hj hc => ?_
    rw [hc, (hl.count j hj).1] at ha
    cases ha
  · refine ticks_changed (m' := m) (D := fun a => ∃ k < 2, a = at_ (signExt w) k) hE (fun a ha => by rw [j4]; exact hE.stack a ha)
      (fun a ha => hF a fun k hk hc => ha ⟨k, hk, hc⟩) (fun k hk ⟨j, hj, hc⟩ => hl.countVector j hj k hk hc) (fun k hk ⟨j, hj, hc⟩ => hl.countCode j hj k hk hc) ?_
    rw [List.length_append, BitVec.ofNat_add]
    exact j2

/-- The timer serves its exception. -/
theorem C71_tick_service (hl : TickLayout P F v h w) (h0 : v ≠ 0) (hs : ¬ LongFrame v) :
    Service (M := M) C P F (frameBytes C.STACK_FORMAT v) (Ticks F v h w) v where
  notReset := h0
  short := hs
  deep := Nat.le_refl _
  apart := hl.stack
  stack l m a hI ha := hI.stack a ha
  vector l m hI k hk := by rw [hI.vector k hk]; rfl
  handles l s e hI hr hi hst he := by
    obtain ⟨f, h1, h2⟩ := tick_handles hl hI hr hi hst he
    exact ⟨1, f, .more (.none _) h1, h2⟩

/-- Any program with a timer. The timer interrupt `v` is requested any number of times between its instructions, its handler is `ADDQ.W #1,count; RTE`.
The program has in the end the registers and the memory it would have without the timer, each of its instructions has taken the same time, and the word at
`count` is the number of requests. -/
theorem C71_timer {cs : List Nat} {c : Cpu} {m n : M} {u : St (Fenced (bytesIn P) M)} {σ : Nat → Nat} (hu : Undisturbed C cs ⟨c, ⟨m⟩⟩ u) (hi : c.exceptions = [])
    (hn : AgreeIn P m n) (hI : Ticks F v h w [] n) (hl : TickLayout P F v h w) (h0 : v ≠ 0) (hs : ¬ LongFrame v)
    (hpoints : ∀ (ds : List Nat) (x : St (Fenced (bytesIn P) M)), ds.length < cs.length → Undisturbed C ds ⟨c, ⟨m⟩⟩ x → 0 < σ ds.length →
      StackIn F (frameBytes C.STACK_FORMAT v) x ∧ ¬ Masked x.cpu.regs.sr.interruptMask v ∧ x.cpu.regs.sr.interruptMask.toNat ≤ 7) :
    ∃ t, Interrupted C (fun k => List.replicate (σ k) v) cs ⟨c, n⟩ t ∧ t.cpu.regs = u.cpu.regs ∧ AgreeIn P u.mem.mem t.mem ∧
      Holds (sz := .Word) t.mem (signExt w) (BitVec.ofNat 16 ((List.range cs.length).map σ).sum) := by
  obtain ⟨t, h1, h2, -, -, h3, h4⟩ := C71_transparent (σ := fun k => List.replicate (σ k) v) hu hi hn hI
    (fun k v' hv' => by rw [List.eq_of_mem_replicate hv']; exact C71_tick_service hl h0 hs)
    (fun l m m' hm hc => ticks_changed (D := fun a => P a = true) hm (fun a ha => by rw [hc a (hl.stack a ha)]; exact hm.stack a ha) (fun a ha => hc a (by simpa using ha))
      (fun k hk => by rw [(hl.vector k hk).1]; decide) (fun k hk => by rw [(hl.code k hk).1]; decide) (hm.count.of_eq fun k hk => hc _ (hl.count k hk).1))
    (fun ds x hd hx v' hv' => by
      rw [List.eq_of_mem_replicate hv']
      refine hpoints ds x hd hx ?_
      have := List.length_pos_of_mem hv'
      rwa [List.length_replicate] at this)
  refine ⟨t, h1, h2, h3, ?_⟩
  have hlen : ∀ k, (requested (fun k => List.replicate (σ k) v) k).length = ((List.range k).map σ).sum := by
    intro k
    induction k with
    | zero => rfl
    | succ k ih => rw [List.range_succ, requested, List.length_append, ih, List.length_replicate]; simp
  rw [← hlen]
  exact h4.count

/-- `ADDQ.L #1,D0` and a branch back to it at 0, the handler at 8, its counter at 16, the stack at 26, and the vector of interrupt level 2 at 104. -/
def tickDemo : St WordSlice := Demo.ram [0x5280, 0x60FC, 0, 0, 0x5278, 16, 0x4E73] 54 { Demo.regs [] [] with ssp := 32 }

/-- The same with the vector. -/
def tickMemory : WordSlice := ⟨tickDemo.mem.words.set 53 8⟩

/-- The hypotheses of `C71_timer` for two instructions of the program of `tickDemo`, with three interrupts before the second. -/
example : ∃ u, Undisturbed mc68000 [10, 8] (⟨tickDemo.cpu, ⟨tickMemory⟩⟩ : St (Fenced (bytesIn fun a => a.toNat < 4) WordSlice)) u ∧
    AgreeIn (fun a => a.toNat < 4) tickMemory tickMemory ∧ Ticks (fun a => 26 ≤ a.toNat ∧ a.toNat < 32) 26 8 16 [] tickMemory ∧
    TickLayout (fun a => a.toNat < 4) (fun a => 26 ≤ a.toNat ∧ a.toNat < 32) 26 8 16 ∧ ¬ LongFrame 26 ∧
    ∀ (ds : List Nat) (x : St (Fenced (bytesIn fun a => a.toNat < 4) WordSlice)), ds.length < 2 → Undisturbed mc68000 ds ⟨tickDemo.cpu, ⟨tickMemory⟩⟩ x →
      0 < (if ds.length = 1 then 3 else 0) →
      StackIn (fun a => 26 ≤ a.toNat ∧ a.toNat < 32) (frameBytes mc68000.STACK_FORMAT 26) x ∧ ¬ Masked x.cpu.regs.sr.interruptMask 26 ∧ x.cpu.regs.sr.interruptMask.toNat ≤ 7 := by
  refine ⟨_, .more (.more (.none _) rfl rfl) rfl rfl, ?_, ⟨?_, ?_, ?_, ?_⟩, ⟨by decide, by decide, ?_, by decide +kernel, by decide +kernel, by decide +kernel, by decide +kernel, by decide +kernel⟩, by decide, ?_⟩
  · intro a ha
    have ha : a.toNat < 4 := by simpa using ha
    have : (Ram.peek tickMemory a).isSome := by
      obtain e | e | e | e : a = 0 ∨ a = 1 ∨ a = 2 ∨ a = 3 := by
        rcases (by omega : a.toNat = 0 ∨ a.toNat = 1 ∨ a.toNat = 2 ∨ a.toNat = 3) with h | h | h | h
        · exact .inl (BitVec.eq_of_toNat_eq h)
        · exact .inr (.inl (BitVec.eq_of_toNat_eq h))
        · exact .inr (.inr (.inl (BitVec.eq_of_toNat_eq h)))
        · exact .inr (.inr (.inr (BitVec.eq_of_toNat_eq h)))
      all_goals (subst e; rfl)
    obtain ⟨b, hb⟩ := Option.isSome_iff_exists.1 this
    exact ⟨b, hb, hb⟩
  · intro k hk
    match k, hk with | 0, _ => rfl | 1, _ => rfl | 2, _ => rfl | 3, _ => rfl
  · intro k hk
    match k, hk with
    | 0, _ => exact show Holds (sz := .Word) tickMemory 8 (0x5278 : U16) from fun l hl => match l, hl with | 0, _ => (by decide +kernel) | 1, _ => (by decide +kernel)
    | 1, _ => exact show Holds (sz := .Word) tickMemory 10 (16 : U16) from fun l hl => match l, hl with | 0, _ => (by decide +kernel) | 1, _ => (by decide +kernel)
    | 2, _ => exact show Holds (sz := .Word) tickMemory 12 (0x4E73 : U16) from fun l hl => match l, hl with | 0, _ => (by decide +kernel) | 1, _ => (by decide +kernel)
  · intro k hk
    match k, hk with | 0, _ => rfl | 1, _ => rfl
  · intro a ha
    have ha : 26 ≤ a.toNat ∧ a.toNat < 32 := by simpa using ha
    show (tickMemory.words[a.toNat / 2]?.map _).isSome
    have : a.toNat / 2 < tickMemory.words.length := Nat.lt_of_lt_of_le (show a.toNat / 2 < 54 by omega) (by decide)
    rw [List.getElem?_eq_getElem this]
    rfl
  · intro a ha
    have ha : 26 ≤ a.toNat ∧ a.toNat < 32 := by simpa using ha
    simp only [decide_eq_false_iff_not]
    omega
  · intro ds x hd hx hp
    match ds, hd with
    | [], _ => exact absurd hp (by decide)
    | [d], _ =>
      cases hx with
      | more h1 h2 h3 =>
        cases h1
        have h4 : interpreterException mc68000 (⟨tickDemo.cpu, ⟨tickMemory⟩⟩ : St (Fenced (bytesIn fun a => a.toNat < 4) WordSlice)) = .ok (8, none) _ := rfl
        rw [h4] at h3
        cases h3
        exact ⟨⟨by decide, by decide +kernel⟩, by decide, by decide⟩

end M68k.Props
