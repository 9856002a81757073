import Verif.Model.DecoderTable
/-
Exhaustive reasoning on the decoder table: a boolean predicate checked on each of the 65536 entries
holds of the decoder.
-/
namespace M68k

/-- `p` holds of `base`, ..., `base + n - 1`. -/
def allFrom (p : Nat → Bool) (base : Nat) : Nat → Bool
  | 0 => true
  | n + 1 => p base && allFrom p (base + 1) n

theorem allFrom_iff (p : Nat → Bool) (base n : Nat) :
    allFrom p base n = true → ∀ k, k < n → p (base + k) = true := by
  induction n generalizing base with
  | zero => intro _ k hk; omega
  | succ n ih =>
    intro h k hk
    simp only [allFrom, Bool.and_eq_true] at h
    cases k with
    | zero => exact h.1
    | succ k => rw [show base + (k + 1) = base + 1 + k by omega]; exact ih _ h.2 k (by omega)

/-- `p` holds of each entry of a run-length encoded list starting at `base` and of length `size`. -/
def checkRuns (p : Isa → Nat → Bool) : List (Isa × Nat) → Nat → Nat → Bool
  | [], _, size => Nat.beq size 0
  | (i, n) :: t, base, size => Nat.ble n size && (allFrom (p i) base n && checkRuns p t (base + n) (size - n))

theorem checkRuns_lookup (p : Isa → Nat → Bool) (l : List (Isa × Nat)) (base size : Nat)
    (h : checkRuns p l base size = true) (k : Nat) (hk : k < size) : p (lookupRuns l k) (base + k) = true := by
  induction l generalizing base size k with
  | nil =>
    have := Nat.eq_of_beq_eq_true h
    omega
  | cons a t ih =>
    obtain ⟨i, n⟩ := a
    simp only [checkRuns, Bool.and_eq_true] at h
    have hn := Nat.le_of_ble_eq_true h.1
    unfold lookupRuns
    by_cases hb : k < n
    · rw [if_pos (Nat.blt_eq.symm ▸ hb)]
      exact allFrom_iff _ _ _ h.2.1 k hb
    · rw [if_neg (fun h => hb (Nat.blt_eq ▸ h))]
      have := ih (base + n) (size - n) h.2.2 (k - n) (by omega)
      rwa [show base + n + (k - n) = base + k by omega] at this

/-- `p` holds of every line of the table. -/
def checkTable (p : Isa → Nat → Bool) : Bool :=
  checkRuns p decoderLine0 0 4096 && checkRuns p decoderLine1 4096 4096 && checkRuns p decoderLine2 8192 4096 &&
  checkRuns p decoderLine3 12288 4096 && checkRuns p decoderLine4 16384 4096 && checkRuns p decoderLine5 20480 4096 &&
  checkRuns p decoderLine6 24576 4096 && checkRuns p decoderLine7 28672 4096 && checkRuns p decoderLine8 32768 4096 &&
  checkRuns p decoderLine9 36864 4096 && checkRuns p decoderLineA 40960 4096 && checkRuns p decoderLineB 45056 4096 &&
  checkRuns p decoderLineC 49152 4096 && checkRuns p decoderLineD 53248 4096 && checkRuns p decoderLineE 57344 4096 &&
  checkRuns p decoderLineF 61440 4096

/-- The lines are checked one by one, so that the kernel can forget one line before the next. -/
theorem checkTable_intro (p : Isa → Nat → Bool)
    (h0 : checkRuns p decoderLine0 0 4096 = true)
    (h1 : checkRuns p decoderLine1 4096 4096 = true)
    (h2 : checkRuns p decoderLine2 8192 4096 = true)
    (h3 : checkRuns p decoderLine3 12288 4096 = true)
    (h4 : checkRuns p decoderLine4 16384 4096 = true)
    (h5 : checkRuns p decoderLine5 20480 4096 = true)
    (h6 : checkRuns p decoderLine6 24576 4096 = true)
    (h7 : checkRuns p decoderLine7 28672 4096 = true)
    (h8 : checkRuns p decoderLine8 32768 4096 = true)
    (h9 : checkRuns p decoderLine9 36864 4096 = true)
    (hA : checkRuns p decoderLineA 40960 4096 = true)
    (hB : checkRuns p decoderLineB 45056 4096 = true)
    (hC : checkRuns p decoderLineC 49152 4096 = true)
    (hD : checkRuns p decoderLineD 53248 4096 = true)
    (hE : checkRuns p decoderLineE 57344 4096 = true)
    (hF : checkRuns p decoderLineF 61440 4096 = true) : checkTable p = true := by
  simp only [checkTable, h0, h1, h2, h3, h4, h5, h6, h7, h8, h9, hA, hB, hC, hD, hE, hF, Bool.and_self]

theorem decoder_of_check (p : Isa → Nat → Bool) (h : checkTable p = true) (op : U16) : p (decoder op) op.toNat = true := by
  simp only [checkTable, Bool.and_eq_true] at h
  obtain ⟨⟨⟨⟨⟨⟨⟨⟨⟨⟨⟨⟨⟨⟨⟨h0, h1⟩, h2⟩, h3⟩, h4⟩, h5⟩, h6⟩, h7⟩, h8⟩, h9⟩, hA⟩, hB⟩, hC⟩, hD⟩, hE⟩, hF⟩ := h
  have hlt := op.isLt
  have hm : op.toNat % 4096 < 4096 := Nat.mod_lt _ (by omega)
  have key : ∀ (q : Nat) (l : List (Isa × Nat)), op.toNat / 4096 = q → decoderLine q = l →
      checkRuns p l (4096 * q) 4096 = true → p (decoder op) op.toNat = true := by
    intro q l hq hl hc
    have := checkRuns_lookup p l _ _ hc _ hm
    rw [show 4096 * q + op.toNat % 4096 = op.toNat by omega] at this
    unfold decoder
    rw [hq, hl]; exact this
  have hq : op.toNat / 4096 < 16 := by omega
  match hh : op.toNat / 4096, hq with
  | 0, _ => exact key 0 _ hh rfl h0
  | 1, _ => exact key 1 _ hh rfl h1
  | 2, _ => exact key 2 _ hh rfl h2
  | 3, _ => exact key 3 _ hh rfl h3
  | 4, _ => exact key 4 _ hh rfl h4
  | 5, _ => exact key 5 _ hh rfl h5
  | 6, _ => exact key 6 _ hh rfl h6
  | 7, _ => exact key 7 _ hh rfl h7
  | 8, _ => exact key 8 _ hh rfl h8
  | 9, _ => exact key 9 _ hh rfl h9
  | 10, _ => exact key 10 _ hh rfl hA
  | 11, _ => exact key 11 _ hh rfl hB
  | 12, _ => exact key 12 _ hh rfl hC
  | 13, _ => exact key 13 _ hh rfl hD
  | 14, _ => exact key 14 _ hh rfl hE
  | 15, _ => exact key 15 _ hh rfl hF
  | n + 16, h => exact absurd h (by omega)

/-- MOVEA has no byte size. -/
theorem movea_size (op : U16) (h : decoder op = .Movea) : op.toNat / 4096 % 4 ≠ 1 := by
  have := decoder_of_check (fun i n => match i with | .Movea => !(Nat.beq (n / 4096 % 4) 1) | _ => true)
    (by apply checkTable_intro <;> decide +kernel) op
  simp only [h] at this
  intro hc
  rw [hc] at this
  exact absurd this (by decide)

end M68k
