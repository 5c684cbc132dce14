import Verif.Model.Bytes
/-!
# `strings.TrimSpace`
-/
namespace GoIdentity

/-- No pattern is a prefix of the string. -/
def Clear (pats : List GoString) (s : GoString) : Prop := ∀ p ∈ pats, ¬ p <+: s

theorem leadLen_zero_iff {pats : List GoString} (hne : ∀ p ∈ pats, p ≠ []) {s : GoString} :
    leadLen pats s = 0 ↔ Clear pats s := by
  unfold leadLen Clear
  split
  · rename_i p hp
    have h1 := List.mem_of_find?_eq_some hp
    have h2 := List.find?_some hp
    simp only [List.length_eq_zero_iff, hne p h1, false_iff]
    intro h
    exact h p h1 (by simpa using h2)
  · rename_i hp
    simp only [true_iff]
    intro p hp' h
    exact (List.find?_eq_none.1 hp p hp') (by simpa using h)

theorem leadLen_le (pats : List GoString) (s : GoString) : leadLen pats s ≤ s.length := by
  unfold leadLen
  split
  · rename_i p hp
    have h2 := List.find?_some hp
    exact (List.isPrefixOf_iff_prefix.1 h2).length_le
  · exact Nat.zero_le _

theorem dropPats_of_clear {pats : List GoString} (hne : ∀ p ∈ pats, p ≠ []) {s : GoString} (h : Clear pats s) (n : Nat) :
    dropPats pats n s = s := by
  cases n with
  | zero => rfl
  | succ n => unfold dropPats; rw [(leadLen_zero_iff hne).2 h]

theorem dropPats_suffix (pats : List GoString) (n : Nat) (s : GoString) : dropPats pats n s <:+ s := by
  induction n generalizing s with
  | zero => exact List.suffix_refl s
  | succ n ih =>
    unfold dropPats
    split
    · exact List.suffix_refl s
    · exact (ih _).trans (List.drop_suffix _ _)

theorem dropPats_clear {pats : List GoString} (hne : ∀ p ∈ pats, p ≠ []) (n : Nat) (s : GoString) (hn : s.length ≤ n) :
    Clear pats (dropPats pats n s) := by
  induction n generalizing s with
  | zero =>
    have : s = [] := List.length_eq_zero_iff.1 (by omega)
    subst this
    intro p hp h
    exact hne p hp (List.prefix_nil.1 h)
  | succ n ih =>
    unfold dropPats
    split
    · rename_i h
      exact (leadLen_zero_iff hne).1 h
    · rename_i m h
      apply ih
      rw [List.length_drop]
      omega

theorem spaceRunes_ne : ∀ p ∈ spaceRunes, p ≠ [] := by decide
theorem spaceRunesRev_ne : ∀ p ∈ spaceRunes.map List.reverse, p ≠ [] := by decide

/-- No white space at the start. -/
def ClearStart (s : GoString) : Prop := Clear spaceRunes s
/-- No white space at the end. -/
def ClearEnd (s : GoString) : Prop := ∀ p ∈ spaceRunes, ¬ p <:+ s

theorem clearEnd_iff {s : GoString} : ClearEnd s ↔ Clear (spaceRunes.map List.reverse) s.reverse := by
  unfold ClearEnd Clear
  simp only [List.mem_map, forall_exists_index, and_imp, forall_apply_eq_imp_iff₂, List.reverse_prefix]

theorem trimLeft_clear (s : GoString) : ClearStart (trimLeft s) := dropPats_clear spaceRunes_ne _ _ (Nat.le_refl _)
theorem trimLeft_suffix (s : GoString) : trimLeft s <:+ s := dropPats_suffix ..
theorem trimLeft_of_clear {s : GoString} (h : ClearStart s) : trimLeft s = s := dropPats_of_clear spaceRunes_ne h _

theorem trimRight_clear (s : GoString) : ClearEnd (trimRight s) := by
  rw [clearEnd_iff]
  unfold trimRight
  rw [List.reverse_reverse]
  exact dropPats_clear spaceRunesRev_ne _ _ (by simp)
theorem trimRight_prefix (s : GoString) : trimRight s <+: s := by
  unfold trimRight
  have := dropPats_suffix (spaceRunes.map List.reverse) s.length s.reverse
  rw [← List.reverse_suffix, List.reverse_reverse]
  exact this
theorem trimRight_of_clear {s : GoString} (h : ClearEnd s) : trimRight s = s := by
  unfold trimRight
  rw [dropPats_of_clear spaceRunesRev_ne (clearEnd_iff.1 h), List.reverse_reverse]

theorem ClearStart.of_prefix {s t : GoString} (h : ClearStart t) (hp : s <+: t) : ClearStart s :=
  fun p hpm hps => h p hpm (hps.trans hp)

theorem ClearEnd.of_suffix {s t : GoString} (h : ClearEnd t) (hp : s <:+ t) : ClearEnd s :=
  fun p hpm hps => h p hpm (hps.trans hp)

theorem trimSpace_clear (s : GoString) : ClearStart (trimSpace s) ∧ ClearEnd (trimSpace s) :=
  ⟨(trimLeft_clear s).of_prefix (trimRight_prefix _), trimRight_clear _⟩

/-- A string is unaffected by `TrimSpace` exactly if it neither starts nor ends with a white-space character. -/
theorem trimSpace_eq_self_iff {s : GoString} : trimSpace s = s ↔ ClearStart s ∧ ClearEnd s := by
  constructor
  · intro h; rw [← h]; exact trimSpace_clear s
  · rintro ⟨h1, h2⟩
    unfold trimSpace
    rw [trimLeft_of_clear h1, trimRight_of_clear h2]

theorem trimSpace_idem (s : GoString) : trimSpace (trimSpace s) = trimSpace s :=
  trimSpace_eq_self_iff.2 (trimSpace_clear s)

theorem trimSpace_length_le (s : GoString) : (trimSpace s).length ≤ s.length :=
  Nat.le_trans (trimRight_prefix _).length_le (trimLeft_suffix s).length_le

theorem mem_of_mem_trimSpace {s : GoString} {b : UInt8} (h : b ∈ trimSpace s) : b ∈ s :=
  (trimLeft_suffix s).mem ((trimRight_prefix _).mem h)

theorem clearStart_cons {b : UInt8} {t : GoString} (hb : ∀ p ∈ spaceRunes, p.head? ≠ some b) : ClearStart (b :: t) := by
  intro p hp h
  obtain ⟨r, hr⟩ := h
  cases p with
  | nil => exact spaceRunes_ne _ hp rfl
  | cons c p =>
    simp only [List.cons_append, List.cons.injEq] at hr
    exact hb _ hp (by simp [hr.1])

theorem clearEnd_concat {b : UInt8} {t : GoString} (hb : ∀ p ∈ spaceRunes, p.getLast? ≠ some b) : ClearEnd (t ++ [b]) := by
  intro p hp h
  obtain ⟨r, hr⟩ := h
  have hne := spaceRunes_ne p hp
  rw [← List.dropLast_concat_getLast hne, ← List.append_assoc] at hr
  have := List.append_inj_right' hr rfl
  simp only [List.cons.injEq, and_true] at this
  apply hb p hp
  rw [List.getLast?_eq_some_getLast hne, this]

theorem clear_nil : ClearStart [] ∧ ClearEnd [] := by
  constructor
  · intro p hp h; exact spaceRunes_ne p hp (List.prefix_nil.1 h)
  · intro p hp h; exact spaceRunes_ne p hp (List.suffix_nil.1 h)

/-- Text without white-space bytes and without bytes above 127 is unaffected. -/
theorem trimSpace_of_graph {s : GoString} (h : ∀ b ∈ s, 33 ≤ b.toNat ∧ b.toNat < 128) : trimSpace s = s := by
  have key : ∀ b : UInt8, 33 ≤ b.toNat ∧ b.toNat < 128 →
      ∀ p ∈ spaceRunes, p.head? ≠ some b ∧ p.getLast? ≠ some b := by
    intro b hb p hp
    have h1 : ∀ p ∈ spaceRunes, ∀ c : UInt8, (p.head? = some c ∨ p.getLast? = some c) →
        ¬ (33 ≤ c.toNat ∧ c.toNat < 128) := by
      have : ∀ p ∈ spaceRunes, (∀ c ∈ p.head?, ¬ (33 ≤ c.toNat ∧ c.toNat < 128)) ∧
          (∀ c ∈ p.getLast?, ¬ (33 ≤ c.toNat ∧ c.toNat < 128)) := by decide
      intro p hp c hc
      rcases hc with hc | hc
      · exact (this p hp).1 c hc
      · exact (this p hp).2 c hc
    exact ⟨fun h2 => h1 p hp b (.inl h2) hb, fun h2 => h1 p hp b (.inr h2) hb⟩
  rw [trimSpace_eq_self_iff]
  constructor
  · cases s with
    | nil => exact clear_nil.1
    | cons b t => exact clearStart_cons fun p hp => (key b (h b (by simp)) p hp).1
  · rcases List.eq_nil_or_concat s with rfl | ⟨t, b, rfl⟩
    · exact clear_nil.2
    · rw [List.concat_eq_append] at *
      exact clearEnd_concat fun p hp => (key b (h b (by simp)) p hp).2

end GoIdentity
