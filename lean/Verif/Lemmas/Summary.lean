import Verif.Lemmas.Decimal
/-!
# Reading spelled numbers back (for C105)
-/
namespace GoIdentity

/-- `s` is the decimal spelling of `n`: digits, with a minus sign in front exactly if `n` is negative. -/
def SpellsInt (s : GoString) (n : Int) : Prop :=
  ∃ ds : GoString, ds ≠ [] ∧ (∀ b ∈ ds, 48 ≤ b.toNat ∧ b.toNat ≤ 57) ∧
    ((0 ≤ n ∧ s = ds ∧ n = decVal ds) ∨ (n < 0 ∧ s = 45 :: ds ∧ n = -(decVal ds : Int)))

theorem spellsInt_intDec (n : Int) : SpellsInt (intDec n) n := by
  obtain ⟨hd, hv, hne, _⟩ := natDec_spec n.natAbs
  refine ⟨natDec n.natAbs, hne, hd, ?_⟩
  unfold intDec
  by_cases h : n < 0
  · rw [if_pos h, hv]; exact .inr ⟨h, rfl, by omega⟩
  · rw [if_neg h, hv]; exact .inl ⟨by omega, rfl, by omega⟩

/-- A run of digits ends where the first byte that is no digit stands. -/
theorem digits_split {a b x y : GoString} {c d : UInt8} (ha : ∀ z ∈ a, 48 ≤ z.toNat ∧ z.toNat ≤ 57)
    (hb : ∀ z ∈ b, 48 ≤ z.toNat ∧ z.toNat ≤ 57) (hc : ¬ (48 ≤ c.toNat ∧ c.toNat ≤ 57))
    (hd : ¬ (48 ≤ d.toNat ∧ d.toNat ≤ 57)) (h : a ++ c :: x = b ++ d :: y) : a = b ∧ c :: x = d :: y := by
  induction a generalizing b with
  | nil =>
    cases b with
    | nil => exact ⟨rfl, h⟩
    | cons e t =>
      simp only [List.nil_append, List.cons_append, List.cons.injEq] at h
      exact absurd (hb e (by simp)) (h.1 ▸ hc)
  | cons e t ih =>
    cases b with
    | nil =>
      simp only [List.nil_append, List.cons_append, List.cons.injEq] at h
      exact absurd (ha e (by simp)) (h.1 ▸ hd)
    | cons e' t' =>
      simp only [List.cons_append, List.cons.injEq] at h
      obtain ⟨h1, h2⟩ := ih (b := t') (fun z hz => ha z (by simp [hz])) (fun z hz => hb z (by simp [hz])) h.2
      exact ⟨by rw [h.1, h1], h2⟩

/-- A spelled number followed by a byte that is no digit can be read back. -/
theorem spellsInt_split {a b x y : GoString} {c d : UInt8} {m n : Int} (ha : SpellsInt a m) (hb : SpellsInt b n)
    (hc : ¬ (48 ≤ c.toNat ∧ c.toNat ≤ 57)) (hd : ¬ (48 ≤ d.toNat ∧ d.toNat ≤ 57))
    (h : a ++ c :: x = b ++ d :: y) : m = n ∧ c :: x = d :: y := by
  have h45 : ¬ (48 ≤ (45 : UInt8).toNat ∧ (45 : UInt8).toNat ≤ 57) := by decide
  obtain ⟨da, hna, hda, ha⟩ := ha
  obtain ⟨db, hnb, hdb, hb⟩ := hb
  rcases ha with ⟨_, rfl, rfl⟩ | ⟨_, rfl, rfl⟩ <;> rcases hb with ⟨_, rfl, rfl⟩ | ⟨_, rfl, rfl⟩
  · obtain ⟨rfl, h2⟩ := digits_split hda hdb hc hd h; exact ⟨rfl, h2⟩
  · cases a with
    | nil => exact absurd rfl hna
    | cons e t =>
      simp only [List.cons_append, List.cons.injEq] at h
      exact absurd (hda e (by simp)) (h.1 ▸ h45)
  · cases b with
    | nil => exact absurd rfl hnb
    | cons e t =>
      simp only [List.cons_append, List.cons.injEq] at h
      exact absurd (hdb e (by simp)) (h.1 ▸ h45)
  · simp only [List.cons_append, List.cons.injEq, true_and] at h
    obtain ⟨rfl, h2⟩ := digits_split hda hdb hc hd h; exact ⟨rfl, h2⟩

/-- Two sentences that start alike, tell two numbers and end in words are equal only if they tell the same. -/
theorem sentence_split {w a b a' b' u u' : GoString} {m n m' n' : Int} (ha : SpellsInt a m) (hb : SpellsInt b n)
    (ha' : SpellsInt a' m') (hb' : SpellsInt b' n')
    (h : w ++ a ++ gs! "-" ++ b ++ gs! " character long string" ++ u =
      w ++ a' ++ gs! "-" ++ b' ++ gs! " character long string" ++ u') : m = m' ∧ n = n' ∧ u = u' := by
  simp only [List.append_assoc, List.append_cancel_left_eq] at h
  obtain ⟨h1, h2⟩ := spellsInt_split (c := 45) (d := 45) (x := b ++ (gs! " character long string" ++ u))
    (y := b' ++ (gs! " character long string" ++ u')) ha ha' (by decide) (by decide) h
  have h3 := (List.cons.inj h2).2
  obtain ⟨h4, h5⟩ := spellsInt_split (c := 32) (d := 32) (x := gs! "character long string" ++ u)
    (y := gs! "character long string" ++ u') hb hb' (by decide) (by decide) h3
  exact ⟨h1, h4, List.append_cancel_left (List.cons.inj h5).2⟩

end GoIdentity
