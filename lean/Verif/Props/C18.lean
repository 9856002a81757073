import Verif.Lemmas.MovemRam
import Verif.Lemmas.Step
import Verif.Spec.RegList
import Verif.Spec.Claims
import Verif.Props.DemoRam
/-
C18: MOVEM saves and restores registers.
-/
namespace M68k.Props
open Spec Exec
set_option linter.unusedSectionVars false
variable {M : Type} [MemoryAccess M] [Ram M] {C : CpuDetails} {s s' s1 s2 s3 t t' t1 t2 t3 : St M} {op op' mask mask' : U16} {sz : Size} {a : U32} {m : Mode}
  {n : Fin 8}

/-- Bit 6 of MOVEM: word or long. -/
def movemSize (op : U16) : Size := if op.toNat / 2 ^ 6 % 2 = 1 then .Long else .Word

theorem movemSize_eq : movemSize op = sizeBit op 6 := by
  unfold movemSize sizeBit flag
  by_cases h : op.toNat / 2 ^ 6 % 2 = 1 <;> simp [h]
theorem movemSize_ne : movemSize op ≠ .Byte := by unfold movemSize; split <;> decide

theorem regList_length (c : Fin 16 → Bool) : (regList c).length ≤ 16 := Nat.le_trans (List.length_filter_le _ _) (by simp)

theorem regList_small (c : Fin 16 → Bool) (sz : Size) : bytes sz * (regList c).length < 2 ^ 32 := by
  have h1 := regList_length c
  have h2 := bytes_le sz
  have := Nat.mul_le_mul h2 h1
  omega

theorem listed_eq : listed mask = regList (inMask mask) := rfl

theorem finRange_rev : ((List.finRange 16).map Fin.rev).reverse = List.finRange 16 := by decide

theorem listedDown_eq : (listedDown mask).reverse = regList (inMaskReversed mask) := by
  unfold listedDown regList inMaskReversed
  have h : (List.finRange 16).filter (fun i => mask.toNat.testBit i.val) =
      ((List.finRange 16).filter ((fun i : Fin 16 => mask.toNat.testBit (15 - i.val)) ∘ Fin.rev)) := by
    apply List.filter_congr
    intro i _
    show _ = mask.toNat.testBit (15 - (16 - (i.val + 1)))
    rw [show 15 - (16 - (i.val + 1)) = i.val by omega]
  rw [h, ← List.filter_map, ← List.filter_reverse, finRange_rev]

theorem nodup_regList (c : Fin 16 → Bool) : (regList c).Nodup := List.Pairwise.filter _ (by decide)

theorem mem_regList {c : Fin 16 → Bool} {i : Fin 16} : i ∈ regList c ↔ c i = true := by
  unfold regList
  simp

/-- MOVEM up to the transfers. -/
theorem ends_movem (h : Ready s op s1) (hi : instr op = .Movem) (hf : fetch s1 = .ok mask s2) (hm : fetchEa (some (movemSize op)) op s2 = .ok m s3) :
    EndsWith C s (movem (flag op 10) (movemSize op) m mask s3) := by
  have hx := step_ends C h hi (by decide) rfl
  simp only [Spec.exec] at hx
  rw [endsWith_bind_ok hf, ← movemSize_eq, endsWith_bind_ok hm, endsWith_cost] at hx
  exact hx

theorem movem_pc (h : Ready s op s1) (hf : fetch s1 = .ok mask s2) (hm : fetchEa (some (movemSize op)) op s2 = .ok m s3) :
    s3.mem = s.mem ∧ s3.cpu.regs = { s.cpu.regs with pc := s3.cpu.regs.pc } := by
  have h1 := (fetch_pcOnly hf).trans (fetchEa_pcOnly hm)
  refine ⟨by rw [h1.mem, h.ram], ?_⟩
  obtain ⟨mm, -, he⟩ := h.opcode
  rw [h1.regs, he]

theorem movem_done (h : Ready s op s1) (hi : instr op = .Movem) (hf : fetch s1 = .ok mask s2)
    (hm : fetchEa (some (movemSize op)) op s2 = .ok m s3) (hc : Completes C s s') :
    movem (flag op 10) (movemSize op) m mask s3 = .ok () s' := by
  rcases endsWith_completes (ends_movem (C := C) h hi hf hm) hc with ⟨_, hx⟩ | ⟨e, hx, ht⟩
  · exact hx
  · exact absurd ht (traced_ne (Err23.movem _ _ _ _ _ _ hx))

theorem regNo_pc (r : Registers) (pc : U32) (i : Fin 16) : regNo { r with pc := pc } i = regNo r i := by unfold regNo; rfl

theorem saved_of_run {r : Registers} {c : Fin 16 → Bool} {mm : M} (hrun : Run sz mm a ((regList c).map fun i => low sz (regNo r i))) : Saved sz mm a r c := by
  intro k hk
  have := hrun k (by rw [List.length_map]; exact hk)
  rw [List.getElem_map] at this
  exact this
theorem run_of_saved {r : Registers} {c : Fin 16 → Bool} {mm : M} (hs : Saved sz mm a r c) : Run sz mm a ((regList c).map fun i => low sz (regNo r i)) := by
  intro k hk
  rw [List.getElem_map]
  exact hs k (by rw [List.length_map] at hk; exact hk)

theorem aligned_ok {u u' : St M} (h : aligned a u = .ok () u') : ¬ Spec.Odd a ∧ u' = u := by
  unfold aligned at h
  split at h
  · cases h
  · cases h; exact ⟨by assumption, rfl⟩

/-- The body of MOVEM for the modes that leave the address registers alone. -/
theorem movem_plain {b : Bool} (h3 : Exec.Mode.field m ≠ 3) (h4 : Exec.Mode.field m ≠ 4) (hp : (place sz s3.cpu.regs m).1 = .mem a) :
    movem b sz m mask s3 = (do aligned a; let _ ← (if b then movemLoads sz (listed mask) a else movemStores sz (listed mask) a) : Exec M Unit) s3 := by
  cases m <;> first
    | exact absurd rfl h3
    | exact absurd rfl h4
    | (cases hp; done)
    | (cases hp; rfl)

/-- MOVEM to memory, all modes but predecrement: the listed registers are at ascending addresses from the effective address, in the order
D0 to A7; no other byte of memory changes, and no register but the program counter. -/
theorem C18_store (h : Ready s op s1) (hi : instr op = .Movem) (hdir : op.toNat / 2 ^ 10 % 2 = 0) (hf : fetch s1 = .ok mask s2)
    (hm : fetchEa (some (movemSize op)) op s2 = .ok m s3) (hmode : regField op 3 ≠ 3 ∧ regField op 3 ≠ 4)
    (hp : (place (movemSize op) s3.cpu.regs m).1 = .mem a) (hc : Completes C s s') :
    Saved (movemSize op) s'.mem a s.cpu.regs (inMask mask) ∧
    SameExcept s.mem s'.mem a (bytes (movemSize op) * (regList (inMask mask)).length) ∧
    s'.cpu.regs = { s.cpu.regs with pc := s3.cpu.regs.pc } := by
  have hx := movem_done h hi hf hm hc
  have hfd : Exec.Mode.field m = (regField op 3).val := fetchMode_field hm
  obtain ⟨hmem, hregs⟩ := movem_pc h hf hm
  rw [movem_plain (by rw [hfd]; exact fin8_ne hmode.1) (by rw [hfd]; exact fin8_ne hmode.2) hp] at hx
  have hb : flag op 10 = false := by unfold flag; rw [hdir]; decide
  rw [hb] at hx
  obtain ⟨_, u0, h0, hx1⟩ := bind_ok hx
  obtain ⟨ha, hu0⟩ := aligned_ok h0
  rw [hu0] at hx1
  clear hx
  obtain ⟨_, u, h1, hx2⟩ := bind_ok hx1
  clear hx1
  cases hx2
  obtain ⟨-, e2, e3, e4⟩ := movemStores_done movemSize_ne (even_word ha) (regList_small _ _) h1
  refine ⟨saved_of_run ?_, ?_, ?_⟩
  · rw [hregs] at e3
    exact e3
  · rw [← hmem]
    exact e4
  · rw [e2, ← hregs]

/-- `MOVEM.L D0/A1,$20`. -/
example : ∃ s1 s2 s3 s', Ready (Demo.ram [0x48F8, 0x0201, 0x20] 32 (Demo.regs [0x11223344] [0, 0x55667788])) 0x48F8 s1 ∧ instr 0x48F8 = .Movem ∧
    (0x48F8 : U16).toNat / 2 ^ 10 % 2 = 0 ∧ fetch s1 = .ok 0x0201 s2 ∧ fetchEa (some (movemSize 0x48F8)) 0x48F8 s2 = .ok (.absW 0x20) s3 ∧
    regField 0x48F8 3 = 7 ∧ (place (movemSize 0x48F8) s3.cpu.regs (.absW 0x20)).1 = .mem 0x20 ∧
    Completes mc68000 (Demo.ram [0x48F8, 0x0201, 0x20] 32 (Demo.regs [0x11223344] [0, 0x55667788])) s' ∧
    (s'.mem.words.drop 16).take 5 = [0x1122, 0x3344, 0x5566, 0x7788, 0] :=
  ⟨_, _, _, _, ⟨rfl, rfl, by decide, _, rfl, rfl⟩, rfl, rfl, rfl, rfl, rfl, rfl, ⟨_, rfl⟩, rfl⟩

/-- MOVEM to memory, predecrement: the listed registers (the list is reversed in this mode) are at ascending addresses in the order D0 to A7 below
the old value of An; An, and no other register but the program counter, changes: it is the address of the first. -/
theorem C18_storePredecrement (h : Ready s op s1) (hi : instr op = .Movem) (hf : fetch s1 = .ok mask s2)
    (hmode : regField op 3 = 4 ∧ regField op 0 = n)
    (ha : a = areg s.cpu.regs n - BitVec.ofNat 32 (bytes (movemSize op) * (regList (inMaskReversed mask)).length)) (hc : Completes C s s') :
    Saved (movemSize op) s'.mem a s.cpu.regs (inMaskReversed mask) ∧
    SameExcept s.mem s'.mem a (bytes (movemSize op) * (regList (inMaskReversed mask)).length) ∧
    s'.cpu.regs = setAreg { s.cpu.regs with pc := s2.cpu.regs.pc } n a := by
  have hm : fetchEa (some (movemSize op)) op s2 = .ok (.predec n) s2 := by unfold fetchEa; rw [hmode.1, hmode.2]; rfl
  have hx := movem_done h hi hf hm hc
  obtain ⟨hmem, hregs⟩ := movem_pc h hf hm
  have hareg : areg s2.cpu.regs n = areg s.cpu.regs n := by rw [hregs]; rfl
  unfold movem at hx
  dsimp only at hx
  rw [getR_bind_apply] at hx
  obtain ⟨_, u0, h0, hx1⟩ := bind_ok hx
  obtain ⟨hev, hu0⟩ := aligned_ok h0
  rw [hu0] at hx1
  clear hx
  obtain ⟨b, u', h1, hx2⟩ := bind_ok hx1
  clear hx1
  have hlen : (listedDown mask).length = (regList (inMaskReversed mask)).length := by rw [← listedDown_eq, List.length_reverse]
  obtain ⟨e1, e2, e3, e4⟩ := movemStoresDown_done movemSize_ne (even_word hev) (by rw [hlen]; exact regList_small _ _) h1
  rw [hlen, hareg, ← ha] at e1
  subst e1
  cases hx2
  refine ⟨saved_of_run ?_, ?_, ?_⟩
  · rw [listedDown_eq, hregs] at e3
    exact e3
  · rw [hlen, hmem] at e4
    exact e4
  · show setAreg u'.cpu.regs n _ = _
    rw [e2, ← hregs]

/-- `MOVEM.L D0/A7,-(A7)`: the mask is 0x8001. -/
example : ∃ s1 s2 s', Ready (Demo.ram [0x48E7, 0x8001] 32 { Demo.regs [0x11223344] [] with usp := 40 }) 0x48E7 s1 ∧ instr 0x48E7 = .Movem ∧
    fetch s1 = .ok 0x8001 s2 ∧ regField 0x48E7 3 = 4 ∧ regField 0x48E7 0 = 7 ∧
    Completes mc68000 (Demo.ram [0x48E7, 0x8001] 32 { Demo.regs [0x11223344] [] with usp := 40 }) s' ∧
    (s'.mem.words.drop 15).take 6 = [0, 0x1122, 0x3344, 0, 40, 0] ∧ areg s'.cpu.regs 7 = 32 :=
  ⟨_, _, _, ⟨rfl, rfl, by decide, _, rfl, rfl⟩, rfl, rfl, rfl, rfl, ⟨_, rfl⟩, rfl, rfl⟩

/-- MOVEM from memory, all modes but postincrement: each listed register receives its operand, words being sign extended to 32 bits (data registers
too); no other register but the program counter changes, and no memory. -/
theorem C18_load (h : Ready s op s1) (hi : instr op = .Movem) (hdir : op.toNat / 2 ^ 10 % 2 = 1) (hf : fetch s1 = .ok mask s2)
    (hm : fetchEa (some (movemSize op)) op s2 = .ok m s3) (hmode : regField op 3 ≠ 3 ∧ regField op 3 ≠ 4)
    (hp : (place (movemSize op) s3.cpu.regs m).1 = .mem a) {v : Nat → Val (movemSize op)}
    (hv : ∀ k < (regList (inMask mask)).length, Holds s.mem (at_ a (bytes (movemSize op) * k)) (v k)) (hc : Completes C s s') :
    (∀ k (hk : k < (regList (inMask mask)).length), regNo s'.cpu.regs (regList (inMask mask))[k] = signExt (v k)) ∧
    (∀ i, inMask mask i = false → regNo s'.cpu.regs i = regNo s.cpu.regs i) ∧
    s'.mem = s.mem ∧ s'.cpu.regs.sr = s.cpu.regs.sr ∧ s'.cpu.regs.pc = s3.cpu.regs.pc := by
  have hx := movem_done h hi hf hm hc
  have hfd : Exec.Mode.field m = (regField op 3).val := fetchMode_field hm
  obtain ⟨hmem, hregs⟩ := movem_pc h hf hm
  rw [movem_plain (by rw [hfd]; exact fin8_ne hmode.1) (by rw [hfd]; exact fin8_ne hmode.2) hp] at hx
  have hb : flag op 10 = true := by unfold flag; rw [hdir]; decide
  rw [hb] at hx
  obtain ⟨_, u0, h0, hx1⟩ := bind_ok hx
  obtain ⟨ha, hu0⟩ := aligned_ok h0
  rw [hu0] at hx1
  clear hx
  obtain ⟨_, u, h1, hx2⟩ := bind_ok hx1
  clear hx1
  cases hx2
  have hrun : Run (movemSize op) s3.mem a ((List.range (regList (inMask mask)).length).map v) := by
    intro k hk
    rw [List.getElem_map, List.getElem_range, hmem]
    exact hv k (by simpa using hk)
  obtain ⟨-, e2, e3, e4⟩ := movemLoads_done (is := regList (inMask mask)) movemSize_ne (even_word ha) hrun (by simp) (nodup_regList _) h1
  refine ⟨fun k hk => ?_, fun i hi => ?_, by rw [e2.mem, hmem], by rw [e2.sr, hregs], e2.pc⟩
  · have := e4 k hk (by simpa using hk)
    rw [List.getElem_map, List.getElem_range] at this
    exact this
  · rw [e3 i (fun h' => by rw [mem_regList, hi] at h'; cases h'), hregs]
    exact regNo_pc _ _ _

/-- `MOVEM.W $6,D0/A7` reads 0x8000 and 0x1234. -/
example : ∃ s1 s2 s3 s', Ready (Demo.ram [0x4CB8, 0x8001, 6, 0x8000, 0x1234] 8 (Demo.regs [] [])) 0x4CB8 s1 ∧ instr 0x4CB8 = .Movem ∧
    (0x4CB8 : U16).toNat / 2 ^ 10 % 2 = 1 ∧ fetch s1 = .ok 0x8001 s2 ∧ fetchEa (some (movemSize 0x4CB8)) 0x4CB8 s2 = .ok (.absW 6) s3 ∧
    regField 0x4CB8 3 = 7 ∧ (place (movemSize 0x4CB8) s3.cpu.regs (.absW 6)).1 = .mem 6 ∧
    Completes mc68000 (Demo.ram [0x4CB8, 0x8001, 6, 0x8000, 0x1234] 8 (Demo.regs [] [])) s' ∧
    s'.cpu.regs.d 0 = 0xFFFF8000 ∧ areg s'.cpu.regs 7 = 0x1234 :=
  ⟨_, _, _, _, ⟨rfl, rfl, by decide, _, rfl, rfl⟩, rfl, rfl, rfl, rfl, rfl, rfl, ⟨_, rfl⟩, rfl, rfl⟩

/-- The MOVEM number of an address register. -/
def aregNo (n : Fin 8) : Fin 16 := ⟨n.val + 8, by omega⟩

theorem regNo_aregNo (r : Registers) : regNo r (aregNo n) = areg r n := by
  unfold regNo aregNo
  rw [dif_neg (by simp)]
  congr 1

theorem regNo_setAreg (r : Registers) (v : U32) (i : Fin 16) : regNo (setAreg r n v) i = if i = aregNo n then v else regNo r i := by
  have : setAreg r n v = setRegNo r (aregNo n) v := by
    unfold setRegNo aregNo
    rw [dif_neg (by simp)]
    congr 1
  rw [this, regNo_setRegNo]

/-- MOVEM from memory, postincrement: the operands are at An and after it; An ends after the last of them, even if it is in the list. -/
theorem C18_loadPostincrement (h : Ready s op s1) (hi : instr op = .Movem) (hdir : op.toNat / 2 ^ 10 % 2 = 1) (hf : fetch s1 = .ok mask s2)
    (hmode : regField op 3 = 3 ∧ regField op 0 = n) (ha : areg s.cpu.regs n = a) {v : Nat → Val (movemSize op)}
    (hv : ∀ k < (regList (inMask mask)).length, Holds s.mem (at_ a (bytes (movemSize op) * k)) (v k)) (hc : Completes C s s') :
    areg s'.cpu.regs n = at_ a (bytes (movemSize op) * (regList (inMask mask)).length) ∧
    (∀ k (hk : k < (regList (inMask mask)).length), (regList (inMask mask))[k] ≠ aregNo n → regNo s'.cpu.regs (regList (inMask mask))[k] = signExt (v k)) ∧
    (∀ i, inMask mask i = false → i ≠ aregNo n → regNo s'.cpu.regs i = regNo s.cpu.regs i) ∧
    s'.mem = s.mem ∧ s'.cpu.regs.sr = s.cpu.regs.sr ∧ s'.cpu.regs.pc = s2.cpu.regs.pc := by
  have hm : fetchEa (some (movemSize op)) op s2 = .ok (.postinc n) s2 := by unfold fetchEa; rw [hmode.1, hmode.2]; rfl
  have hx := movem_done h hi hf hm hc
  obtain ⟨hmem, hregs⟩ := movem_pc h hf hm
  have hareg : areg s2.cpu.regs n = a := by rw [hregs, ← ha]; rfl
  unfold movem at hx
  dsimp only at hx
  have hb : flag op 10 = true := by unfold flag; rw [hdir]; decide
  rw [getR_bind_apply, hb, hareg] at hx
  obtain ⟨_, u0, h0, hx1⟩ := bind_ok hx
  obtain ⟨hev, hu0⟩ := aligned_ok h0
  rw [hu0] at hx1
  clear hx
  obtain ⟨b, u', h1, hx2⟩ := bind_ok hx1
  clear hx1
  have hrun : Run (movemSize op) s2.mem a ((List.range (regList (inMask mask)).length).map v) := by
    intro k hk
    rw [List.getElem_map, List.getElem_range, hmem]
    exact hv k (by simpa using hk)
  obtain ⟨e1, e2, e3, e4⟩ := movemLoads_done (is := regList (inMask mask)) movemSize_ne (even_word hev) hrun (by simp) (nodup_regList _) h1
  cases hx2
  refine ⟨?_, fun k hk hne => ?_, fun i hi hne => ?_, ?_, ?_, ?_⟩
  · show areg (setAreg u'.cpu.regs n b) n = _
    rw [M68k.areg_setAreg, if_pos rfl, e1]
  · show regNo (setAreg u'.cpu.regs n b) _ = _
    rw [regNo_setAreg, if_neg hne]
    have := e4 k hk (by simpa using hk)
    rw [List.getElem_map, List.getElem_range] at this
    exact this
  · show regNo (setAreg u'.cpu.regs n b) _ = _
    rw [regNo_setAreg, if_neg hne, e3 i (fun h' => by rw [mem_regList, hi] at h'; cases h'), hregs]
    exact regNo_pc _ _ _
  · show u'.mem = _
    rw [e2.mem, hmem]
  · show (setAreg u'.cpu.regs n b).sr = _
    rw [setAreg_sr, e2.sr, hregs]
  · show (setAreg u'.cpu.regs n b).pc = _
    rw [setAreg_pc, e2.pc]

/-- `MOVEM.L (A7)+,D0/A7`: D0 is read and A7 is 8 further. -/
example : ∃ s1 s2 s', Ready (Demo.ram [0x4CDF, 0x8001, 0x1122, 0x3344, 0, 2] 8 { Demo.regs [] [] with usp := 4 }) 0x4CDF s1 ∧ instr 0x4CDF = .Movem ∧
    (0x4CDF : U16).toNat / 2 ^ 10 % 2 = 1 ∧ fetch s1 = .ok 0x8001 s2 ∧ regField 0x4CDF 3 = 3 ∧ regField 0x4CDF 0 = 7 ∧
    Completes mc68000 (Demo.ram [0x4CDF, 0x8001, 0x1122, 0x3344, 0, 2] 8 { Demo.regs [] [] with usp := 4 }) s' ∧
    s'.cpu.regs.d 0 = 0x11223344 ∧ areg s'.cpu.regs 7 = 12 :=
  ⟨_, _, _, ⟨rfl, rfl, by decide, _, rfl, rfl⟩, rfl, rfl, rfl, rfl, rfl, ⟨_, rfl⟩, rfl, rfl⟩

theorem regList_index {c : Fin 16 → Bool} {i : Fin 16} (h : c i = true) : ∃ k, ∃ hk : k < (regList c).length, (regList c)[k] = i :=
  List.getElem_of_mem (mem_regList.2 h)

theorem signExt_low_long (hsz : movemSize op = .Long) (x : U32) : signExt (low (movemSize op) x) = x := by
  rw [hsz]
  unfold signExt low
  apply BitVec.eq_of_toInt_eq
  simp [width]

/-- Save and restore: `MOVEM.L list,-(An)`, then anything that leaves the saved bytes and An as they are, then `MOVEM.L (An)+,list` of the same registers (the
two masks are reversals of each other). All listed registers and An have the values they had at the beginning, no other register changes in the restore. -/
theorem C18_saveRestore (h : Ready s op s1) (hi : instr op = .Movem) (hsz : movemSize op = .Long) (hf : fetch s1 = .ok mask s2)
    (hmode : regField op 3 = 4 ∧ regField op 0 = n) (hc : Completes C s s')
    (hkeep : ∀ k < 4 * (regList (inMaskReversed mask)).length,
      Ram.peek t.mem (at_ (areg s'.cpu.regs n) k) = Ram.peek s'.mem (at_ (areg s'.cpu.regs n) k))
    (hn : areg t.cpu.regs n = areg s'.cpu.regs n)
    (h' : Ready t op' t1) (hi' : instr op' = .Movem) (hsz' : movemSize op' = .Long) (hdir : op'.toNat / 2 ^ 10 % 2 = 1) (hf' : fetch t1 = .ok mask' t2)
    (hmode' : regField op' 3 = 3 ∧ regField op' 0 = n) (hmask : ∀ i, inMask mask' i = inMaskReversed mask i) (hc' : Completes C t t') :
    (∀ i, inMask mask' i = true → regNo t'.cpu.regs i = regNo s.cpu.regs i) ∧ areg t'.cpu.regs n = areg s.cpu.regs n ∧
    (∀ i, inMask mask' i = false → i ≠ aregNo n → regNo t'.cpu.regs i = regNo t.cpu.regs i) := by
  obtain ⟨e1, e2, e3⟩ := C18_storePredecrement h hi hf hmode rfl hc
  have hmask' : inMask mask' = inMaskReversed mask := funext hmask
  have hbase : areg s'.cpu.regs n = areg s.cpu.regs n - BitVec.ofNat 32 (bytes (movemSize op) * (regList (inMaskReversed mask)).length) := by
    rw [e3, M68k.areg_setAreg, if_pos rfl]
  rw [← hbase] at e1
  have hb : bytes (movemSize op) = 4 := by rw [hsz]; rfl
  have hb' : bytes (movemSize op') = 4 := by rw [hsz']; rfl
  have hv : ∀ k < (regList (inMask mask')).length, Holds t.mem (at_ (areg s'.cpu.regs n) (bytes (movemSize op') * k))
      (if hk : k < (regList (inMaskReversed mask)).length then low (movemSize op') (regNo s.cpu.regs (regList (inMaskReversed mask))[k]) else 0) := by
    rw [hmask']
    intro k hk
    rw [dif_pos hk]
    have := e1 k hk
    have hs : movemSize op' = movemSize op := by rw [hsz, hsz']
    rw [hs]
    refine this.of_eq fun j hj => ?_
    rw [at_add]
    rw [hb] at hj ⊢
    exact hkeep _ (by omega)
  obtain ⟨f1, f2, f3, -, -, -⟩ := C18_loadPostincrement h' hi' hdir hf' hmode' hn hv hc'
  have hA : areg t'.cpu.regs n = areg s.cpu.regs n := by
    rw [f1, hbase, hmask', hb, hb']
    exact at_sub _ _
  refine ⟨fun i hi => ?_, hA, f3⟩
  by_cases hin : i = aregNo n
  · subst hin
    rw [regNo_aregNo, regNo_aregNo, hA]
  · obtain ⟨k, hk, rfl⟩ := regList_index hi
    rw [f2 k hk hin]
    have hk' : k < (regList (inMaskReversed mask)).length := by rw [← hmask']; exact hk
    rw [dif_pos hk', signExt_low_long hsz']
    simp only [hmask']

/-- `MOVEM.L D0-D1,-(A0)`. The saved registers are at address 4, where A0 points. -/
example : ∃ s1 s2 s', Ready (Demo.ram [0x48E0, 0xC000] 8 (Demo.regs [7, 8] [12])) 0x48E0 s1 ∧ movemSize 0x48E0 = .Long ∧ regField 0x48E0 3 = 4 ∧
    regField 0x48E0 0 = 0 ∧ fetch s1 = .ok 0xC000 s2 ∧ Completes mc68000 (Demo.ram [0x48E0, 0xC000] 8 (Demo.regs [7, 8] [12])) s' ∧
    areg s'.cpu.regs 0 = 4 ∧ (s'.mem.words.drop 2).take 4 = [0, 7, 0, 8] :=
  ⟨_, _, _, ⟨rfl, rfl, by decide, _, rfl, rfl⟩, rfl, rfl, rfl, rfl, ⟨_, rfl⟩, rfl, rfl⟩

/-- `MOVEM.L (A0)+,D0-D1` in another state with the same bytes at address 4. -/
example : ∃ t1 t2 t', Ready (Demo.st [0x4CD8, 3, 0, 7, 0, 8] (Demo.regs [] [4])) 0x4CD8 t1 ∧ instr 0x4CD8 = .Movem ∧
    movemSize 0x4CD8 = .Long ∧ (0x4CD8 : U16).toNat / 2 ^ 10 % 2 = 1 ∧ regField 0x4CD8 3 = 3 ∧ regField 0x4CD8 0 = 0 ∧ fetch t1 = .ok 3 t2 ∧
    (∀ i, inMask 3 i = inMaskReversed 0xC000 i) ∧
    Completes mc68000 (Demo.st [0x4CD8, 3, 0, 7, 0, 8] (Demo.regs [] [4])) t' ∧
    t'.cpu.regs.d 0 = 7 ∧ t'.cpu.regs.d 1 = 8 :=
  ⟨_, _, _, ⟨rfl, rfl, by decide, _, rfl, rfl⟩, rfl, rfl, rfl, rfl, rfl, rfl, by decide +kernel, ⟨_, rfl⟩, rfl, rfl⟩

/-- Save and restore in place: `MOVEM.L list,ea` and, later, `MOVEM.L ea,list` of the same registers at the same address (modes without increment and
decrement), the saved bytes being unchanged in between. All listed registers have the values they had at the beginning, no other register changes in
the restore. -/
theorem C18_saveRestore_control {m' : Mode} (h : Ready s op s1) (hi : instr op = .Movem) (hsz : movemSize op = .Long) (hdir : op.toNat / 2 ^ 10 % 2 = 0)
    (hf : fetch s1 = .ok mask s2) (hm : fetchEa (some (movemSize op)) op s2 = .ok m s3) (hmode : regField op 3 ≠ 3 ∧ regField op 3 ≠ 4)
    (hp : (place (movemSize op) s3.cpu.regs m).1 = .mem a) (hc : Completes C s s')
    (hkeep : ∀ k < 4 * (regList (inMask mask)).length, Ram.peek t.mem (at_ a k) = Ram.peek s'.mem (at_ a k))
    (h' : Ready t op' t1) (hi' : instr op' = .Movem) (hsz' : movemSize op' = .Long) (hdir' : op'.toNat / 2 ^ 10 % 2 = 1)
    (hf' : fetch t1 = .ok mask t2) (hm' : fetchEa (some (movemSize op')) op' t2 = .ok m' t3) (hmode' : regField op' 3 ≠ 3 ∧ regField op' 3 ≠ 4)
    (hp' : (place (movemSize op') t3.cpu.regs m').1 = .mem a) (hc' : Completes C t t') :
    (∀ i, inMask mask i = true → regNo t'.cpu.regs i = regNo s.cpu.regs i) ∧
    (∀ i, inMask mask i = false → regNo t'.cpu.regs i = regNo t.cpu.regs i) := by
  obtain ⟨e1, -, -⟩ := C18_store h hi hdir hf hm hmode hp hc
  have hb : bytes (movemSize op) = 4 := by rw [hsz]; rfl
  have hv : ∀ k < (regList (inMask mask)).length, Holds t.mem (at_ a (bytes (movemSize op') * k))
      (if hk : k < (regList (inMask mask)).length then low (movemSize op') (regNo s.cpu.regs (regList (inMask mask))[k]) else 0) := by
    intro k hk
    rw [dif_pos hk]
    have := e1 k hk
    have hs : movemSize op' = movemSize op := by rw [hsz, hsz']
    rw [hs]
    refine this.of_eq fun j hj => ?_
    rw [at_add]
    rw [hb] at hj ⊢
    exact hkeep _ (by omega)
  obtain ⟨f1, f2, -⟩ := C18_load h' hi' hdir' hf' hm' hmode' hp' hv hc'
  refine ⟨fun i hi => ?_, f2⟩
  obtain ⟨k, hk, rfl⟩ := regList_index hi
  rw [f1 k hk, dif_pos hk, signExt_low_long hsz']

/-- `MOVEM.L D0/A1,(A0)` and `MOVEM.L (A0),D0/A1` in another state. -/
example : ∃ s1 s2 s3 m s' t1 t2 t3 m' t', Ready (Demo.ram [0x48D0, 0x0201] 8 (Demo.regs [7] [8, 9])) 0x48D0 s1 ∧ instr 0x48D0 = .Movem ∧ movemSize 0x48D0 = .Long ∧
    (0x48D0 : U16).toNat / 2 ^ 10 % 2 = 0 ∧ fetch s1 = .ok 0x0201 s2 ∧ fetchEa (some (movemSize 0x48D0)) 0x48D0 s2 = .ok m s3 ∧
    regField 0x48D0 3 ≠ 3 ∧ regField 0x48D0 3 ≠ 4 ∧ (place (movemSize 0x48D0) s3.cpu.regs m).1 = .mem 8 ∧
    Completes mc68000 (Demo.ram [0x48D0, 0x0201] 8 (Demo.regs [7] [8, 9])) s' ∧ (s'.mem.words.drop 4).take 4 = [0, 7, 0, 9] ∧
    Ready (Demo.st [0x4CD0, 0x0201, 0, 0, 0, 7, 0, 9] (Demo.regs [1, 2] [8])) 0x4CD0 t1 ∧ movemSize 0x4CD0 = .Long ∧ (0x4CD0 : U16).toNat / 2 ^ 10 % 2 = 1 ∧
    fetch t1 = .ok 0x0201 t2 ∧ fetchEa (some (movemSize 0x4CD0)) 0x4CD0 t2 = .ok m' t3 ∧ (place (movemSize 0x4CD0) t3.cpu.regs m').1 = .mem 8 ∧
    Completes mc68000 (Demo.st [0x4CD0, 0x0201, 0, 0, 0, 7, 0, 9] (Demo.regs [1, 2] [8])) t' ∧ t'.cpu.regs.d 0 = 7 ∧ t'.cpu.regs.d 1 = 2 ∧ areg t'.cpu.regs 1 = 9 :=
  ⟨_, _, _, _, _, _, _, _, _, _, ⟨rfl, rfl, by decide, _, rfl, rfl⟩, rfl, rfl, rfl, rfl, rfl, by decide, by decide, rfl, ⟨_, rfl⟩, rfl,
    ⟨rfl, rfl, by decide, _, rfl, rfl⟩, rfl, rfl, rfl, rfl, rfl, ⟨_, rfl⟩, rfl, rfl, rfl⟩

theorem aligned_even {u : St M} (h : ¬ Spec.Odd a) : aligned a u = .ok () u := by
  unfold aligned
  rw [if_neg h]
  rfl

/-- On a memory whose bytes can be written, MOVEM to existing even addresses completes. -/
theorem C18_store_completes [Writable M] (h : Ready s op s1) (hi : instr op = .Movem) (hdir : op.toNat / 2 ^ 10 % 2 = 0) (hf : fetch s1 = .ok mask s2)
    (hm : fetchEa (some (movemSize op)) op s2 = .ok m s3) (hmode : regField op 3 ≠ 3 ∧ regField op 3 ≠ 4)
    (hp : (place (movemSize op) s3.cpu.regs m).1 = .mem a) (heven : ¬ Spec.Odd a)
    (hpres : Present s.mem a (bytes (movemSize op) * (regList (inMask mask)).length)) : ∃ s', Completes C s s' := by
  have hx := ends_movem (C := C) h hi hf hm
  have hfd : Exec.Mode.field m = (regField op 3).val := fetchMode_field hm
  obtain ⟨hmem, hregs⟩ := movem_pc h hf hm
  rw [movem_plain (by rw [hfd]; exact fin8_ne hmode.1) (by rw [hfd]; exact fin8_ne hmode.2) hp] at hx
  have hb : flag op 10 = false := by unfold flag; rw [hdir]; decide
  rw [hb, endsWith_bind_ok (aligned_even heven)] at hx
  obtain ⟨u, hu⟩ := movemStores_present (s := s3) (is := regList (inMask mask)) movemSize_ne (even_word heven) (by rw [hmem]; exact hpres)
  rw [if_neg (by decide), listed_eq, endsWith_bind_ok hu] at hx
  exact ⟨_, hx⟩

/-- As above for predecrement. -/
theorem C18_storePredecrement_completes [Writable M] (h : Ready s op s1) (hi : instr op = .Movem) (hf : fetch s1 = .ok mask s2)
    (hmode : regField op 3 = 4 ∧ regField op 0 = n) (heven : ¬ Spec.Odd (areg s.cpu.regs n))
    (ha : a = areg s.cpu.regs n - BitVec.ofNat 32 (bytes (movemSize op) * (regList (inMaskReversed mask)).length))
    (hpres : Present s.mem a (bytes (movemSize op) * (regList (inMaskReversed mask)).length)) : ∃ s', Completes C s s' := by
  have hm : fetchEa (some (movemSize op)) op s2 = .ok (.predec n) s2 := by unfold fetchEa; rw [hmode.1, hmode.2]; rfl
  have hx := ends_movem (C := C) h hi hf hm
  obtain ⟨hmem, hregs⟩ := movem_pc h hf hm
  have hareg : areg s2.cpu.regs n = areg s.cpu.regs n := by rw [hregs]; rfl
  unfold movem at hx
  dsimp only at hx
  have hlen : (listedDown mask).length = (regList (inMaskReversed mask)).length := by rw [← listedDown_eq, List.length_reverse]
  rw [getR_bind_apply, hareg, endsWith_bind_ok (aligned_even heven)] at hx
  obtain ⟨u, hu⟩ := movemStoresDown_present (s := s2) (a := areg s.cpu.regs n) (is := listedDown mask) movemSize_ne (even_word heven)
    (by rw [hlen, hmem, ← ha]; exact hpres)
  rw [endsWith_bind_ok hu] at hx
  exact ⟨_, hx⟩

/-- MOVEM from existing even addresses completes; so does the postincrement form. -/
theorem C18_load_completes (h : Ready s op s1) (hi : instr op = .Movem) (hdir : op.toNat / 2 ^ 10 % 2 = 1) (hf : fetch s1 = .ok mask s2)
    (hm : fetchEa (some (movemSize op)) op s2 = .ok m s3) (hmode : regField op 3 ≠ 4)
    (hp : (place (movemSize op) s3.cpu.regs m).1 = .mem a) (heven : ¬ Spec.Odd a) {v : Nat → Val (movemSize op)}
    (hv : ∀ k < (regList (inMask mask)).length, Holds s.mem (at_ a (bytes (movemSize op) * k)) (v k)) : ∃ s', Completes C s s' := by
  have hx := ends_movem (C := C) h hi hf hm
  have hfd : Exec.Mode.field m = (regField op 3).val := fetchMode_field hm
  obtain ⟨hmem, hregs⟩ := movem_pc h hf hm
  have hb : flag op 10 = true := by unfold flag; rw [hdir]; decide
  have hrun : Run (movemSize op) s3.mem a ((List.range (regList (inMask mask)).length).map v) := by
    intro k hk
    rw [List.getElem_map, List.getElem_range, hmem]
    exact hv k (by simpa using hk)
  obtain ⟨u, hu⟩ := movemLoads_run (s := s3) (is := regList (inMask mask)) movemSize_ne (even_word heven) hrun (by simp)
  rw [hb] at hx
  by_cases h3 : Exec.Mode.field m = 3
  · cases m <;> first | (cases h3; done) | skip
    rename_i k
    have hpa : areg s3.cpu.regs k = a := by cases hp; rfl
    unfold movem at hx
    dsimp only at hx
    rw [getR_bind_apply, hpa, endsWith_bind_ok (aligned_even heven), if_pos rfl, listed_eq, endsWith_bind_ok hu] at hx
    exact ⟨_, hx⟩
  · rw [movem_plain h3 (by rw [hfd]; exact fin8_ne hmode) hp, endsWith_bind_ok (aligned_even heven), if_pos rfl, listed_eq, endsWith_bind_ok hu] at hx
    exact ⟨_, hx⟩

/-- MOVEM of the modes without increment and decrement at an odd address: address error, nothing is transferred. -/
theorem C18_odd (h : Ready s op s1) (hi : instr op = .Movem) (hf : fetch s1 = .ok mask s2)
    (hm : fetchEa (some (movemSize op)) op s2 = .ok m s3) (hmode : regField op 3 ≠ 3 ∧ regField op 3 ≠ 4)
    (hp : (place (movemSize op) s3.cpu.regs m).1 = .mem a) (hodd : Spec.Odd a) :
    ∃ s', Raises C s 3 s' ∧ s'.mem = s.mem ∧ s'.cpu.regs = { s.cpu.regs with pc := s3.cpu.regs.pc } := by
  have hx := ends_movem (C := C) h hi hf hm
  have hfd : Exec.Mode.field m = (regField op 3).val := fetchMode_field hm
  obtain ⟨hmem, hregs⟩ := movem_pc h hf hm
  have he : aligned a s3 = .err 3 s3 := by unfold aligned; rw [if_pos hodd]; rfl
  rw [movem_plain (by rw [hfd]; exact fin8_ne hmode.1) (by rw [hfd]; exact fin8_ne hmode.2) hp, endsWith_bind_err he] at hx
  exact ⟨_, hx, hmem, hregs⟩

/-- `MOVEM.L D0,$21`. -/
example : ∃ s1 s2 s3, Ready (Demo.ram [0x48F8, 1, 0x21] 32 (Demo.regs [] [])) 0x48F8 s1 ∧ instr 0x48F8 = .Movem ∧ fetch s1 = .ok 1 s2 ∧
    fetchEa (some (movemSize 0x48F8)) 0x48F8 s2 = .ok (.absW 0x21) s3 ∧ regField 0x48F8 3 = 7 ∧
    (place (movemSize 0x48F8) s3.cpu.regs (.absW 0x21)).1 = .mem 0x21 ∧ Spec.Odd 0x21 :=
  ⟨_, _, _, ⟨rfl, rfl, by decide, _, rfl, rfl⟩, rfl, rfl, rfl, rfl, rfl, by decide⟩

end M68k.Props
