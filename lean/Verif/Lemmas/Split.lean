import Verif.Lemmas.Trim
/-!
# `strings.Split` by one byte, blank strings
-/
namespace GoIdentity

/-! ## Splitting -/

theorem splitByte_no_sep {sep : UInt8} {s : GoString} (h : sep ∉ s) : splitByte sep s = [s] := by
  induction s with
  | nil => rfl
  | cons b t ih =>
    simp only [List.mem_cons, not_or] at h
    unfold splitByte
    rw [if_neg (fun hb => h.1 hb.symm), ih h.2]

theorem splitByte_append {sep : UInt8} {a t : GoString} (h : sep ∉ a) :
    splitByte sep (a ++ sep :: t) = a :: splitByte sep t := by
  induction a with
  | nil => simp [splitByte]
  | cons b a ih =>
    simp only [List.mem_cons, not_or] at h
    rw [List.cons_append, splitByte, if_neg (fun hb => h.1 hb.symm), ih h.2]

/-- A string has no separator, or splits at the first one. -/
theorem sep_cases (sep : UInt8) (s : GoString) : sep ∉ s ∨ ∃ a t, sep ∉ a ∧ s = a ++ sep :: t := by
  induction s with
  | nil => left; simp
  | cons b s ih =>
    by_cases hb : b = sep
    · right; exact ⟨[], s, by simp, by simp [hb]⟩
    · rcases ih with h | ⟨a, t, ha, hs⟩
      · left; simp only [List.mem_cons, not_or]; exact ⟨fun h => hb h.symm, h⟩
      · right
        refine ⟨b :: a, t, ?_, by simp [hs]⟩
        simp only [List.mem_cons, not_or]; exact ⟨fun h => hb h.symm, ha⟩

theorem split_ne_nil (sep : UInt8) (s : GoString) : splitByte sep s ≠ [] := by
  rcases sep_cases sep s with h | ⟨a, t, ha, hs⟩
  · rw [splitByte_no_sep h]; simp
  · rw [hs, splitByte_append ha]; simp

theorem joinWith_cons {sep p : GoString} {ps : List GoString} (h : ps ≠ []) :
    joinWith sep (p :: ps) = p ++ sep ++ joinWith sep ps := by
  cases ps with
  | nil => exact absurd rfl h
  | cons q qs => rfl

/-- Joining undoes splitting. -/
theorem join_split (sep : UInt8) (s : GoString) : joinWith [sep] (splitByte sep s) = s := by
  induction s with
  | nil => rfl
  | cons b s ih =>
    unfold splitByte
    have hne := split_ne_nil sep s
    by_cases hb : b = sep
    · rw [if_pos hb, joinWith_cons hne, ih, hb]; simp
    · rw [if_neg hb]
      cases hs : splitByte sep s with
      | nil => exact absurd hs hne
      | cons p ps =>
        rw [hs] at ih
        dsimp only
        cases ps with
        | nil => simp only [joinWith] at ih ⊢; rw [ih]
        | cons q qs =>
          rw [joinWith_cons (by simp)] at ih ⊢
          rw [← ih]; simp

/-- No part of a split contains the separator. -/
theorem sep_not_mem_split {sep : UInt8} {s p : GoString} (h : p ∈ splitByte sep s) : sep ∉ p := by
  induction s generalizing p with
  | nil => simp only [splitByte, List.mem_singleton] at h; simp [h]
  | cons b s ih =>
    unfold splitByte at h
    by_cases hb : b = sep
    · rw [if_pos hb] at h
      rcases List.mem_cons.1 h with rfl | h
      · simp
      · exact ih h
    · rw [if_neg hb] at h
      cases hs : splitByte sep s with
      | nil => exact absurd hs (split_ne_nil _ _)
      | cons q qs =>
        rw [hs] at h ih
        rcases List.mem_cons.1 h with rfl | h
        · simp only [List.mem_cons, not_or]
          exact ⟨fun h => hb h.symm, ih (by simp)⟩
        · exact ih (List.mem_cons_of_mem _ h)

/-- Exactly two parts: exactly one separator. -/
theorem splitByte_two {sep : UInt8} {s a b : GoString} :
    splitByte sep s = [a, b] ↔ s = a ++ sep :: b ∧ sep ∉ a ∧ sep ∉ b := by
  constructor
  · intro h
    have hj := join_split sep s
    rw [h] at hj
    simp only [joinWith] at hj
    refine ⟨by rw [← hj]; simp, ?_, ?_⟩
    · exact sep_not_mem_split (s := s) (by rw [h]; simp)
    · exact sep_not_mem_split (s := s) (by rw [h]; simp)
  · rintro ⟨rfl, ha, hb⟩
    rw [splitByte_append ha, splitByte_no_sep hb]

theorem containsByte_mem_iff {b : UInt8} {s : GoString} : containsByte b s = true ↔ b ∈ s := by
  simp [containsByte]

/-! ## Blank strings -/

/-- A string of white-space characters only. -/
def Blank (s : GoString) : Prop := ∃ ps : List GoString, (∀ p ∈ ps, p ∈ spaceRunes) ∧ s = ps.flatten

theorem blank_nil : Blank [] := ⟨[], by simp, rfl⟩

theorem dropPats_decomp (pats : List GoString) (n : Nat) (s : GoString) :
    ∃ ps : List GoString, (∀ p ∈ ps, p ∈ pats) ∧ s = ps.flatten ++ dropPats pats n s := by
  induction n generalizing s with
  | zero => exact ⟨[], by simp, rfl⟩
  | succ n ih =>
    unfold dropPats
    cases hl : leadLen pats s with
    | zero => exact ⟨[], by simp, rfl⟩
    | succ m =>
      dsimp only
      obtain ⟨ps, hps, hs⟩ := ih (s.drop (m + 1))
      unfold leadLen at hl
      cases hf : pats.find? (fun p => p.isPrefixOf s) with
      | none => rw [hf] at hl; simp at hl
      | some p =>
        rw [hf] at hl
        dsimp only at hl
        have hp := List.mem_of_find?_eq_some hf
        have hpre' := List.find?_some hf
        have hpre := List.isPrefixOf_iff_prefix.1 hpre'
        refine ⟨p :: ps, ?_, ?_⟩
        · intro q hq
          rcases List.mem_cons.1 hq with rfl | hq
          · exact hp
          · exact hps q hq
        · rw [List.flatten_cons, List.append_assoc, ← hs, ← hl]
          obtain ⟨r, rfl⟩ := hpre
          simp

theorem trimLeft_decomp (s : GoString) : ∃ a, Blank a ∧ s = a ++ trimLeft s := by
  obtain ⟨ps, hps, hs⟩ := dropPats_decomp spaceRunes s.length s
  exact ⟨ps.flatten, ⟨ps, hps, rfl⟩, hs⟩

theorem trimRight_decomp (s : GoString) : ∃ b, Blank b ∧ s = trimRight s ++ b := by
  obtain ⟨ps, hps, hs⟩ := dropPats_decomp (spaceRunes.map List.reverse) s.length s.reverse
  refine ⟨(ps.flatten).reverse, ⟨(ps.map List.reverse).reverse, ?_, ?_⟩, ?_⟩
  · intro p hp
    rw [List.mem_reverse, List.mem_map] at hp
    obtain ⟨q, hq, rfl⟩ := hp
    obtain ⟨r, hr, rfl⟩ := List.mem_map.1 (hps q hq)
    rwa [List.reverse_reverse]
  · rw [List.reverse_flatten]
  · have := congrArg List.reverse hs
    rw [List.reverse_reverse, List.reverse_append] at this
    exact this

/-- `TrimSpace` removes white space at both ends, and all of it. -/
theorem trimSpace_spec (s : GoString) :
    ∃ a b, Blank a ∧ Blank b ∧ s = a ++ trimSpace s ++ b ∧ ClearStart (trimSpace s) ∧ ClearEnd (trimSpace s) := by
  obtain ⟨a, ha, hs⟩ := trimLeft_decomp s
  obtain ⟨b, hb, ht⟩ := trimRight_decomp (trimLeft s)
  refine ⟨a, b, ha, hb, ?_, trimSpace_clear s⟩
  unfold trimSpace
  rw [List.append_assoc, ← ht, ← hs]

theorem spaceRunes_prefixFree : ∀ p ∈ spaceRunes, ∀ q ∈ spaceRunes, p <+: q → p = q := by
  have : ∀ p ∈ spaceRunes, ∀ q ∈ spaceRunes, p.isPrefixOf q = true → p = q := by decide +kernel
  intro p hp q hq h
  exact this p hp q hq (List.isPrefixOf_iff_prefix.2 h)

theorem leadLen_space {p : GoString} (hp : p ∈ spaceRunes) (t : GoString) : leadLen spaceRunes (p ++ t) = p.length := by
  unfold leadLen
  cases hf : spaceRunes.find? (fun q => q.isPrefixOf (p ++ t)) with
  | none => exact absurd (List.isPrefixOf_iff_prefix.2 (List.prefix_append p t)) (List.find?_eq_none.1 hf p hp)
  | some q =>
    have hq := List.mem_of_find?_eq_some hf
    have hpre' := List.find?_some hf
    have hpre := List.isPrefixOf_iff_prefix.1 hpre'
    have : q = p := by
      rcases List.prefix_or_prefix_of_prefix hpre (List.prefix_append p t) with h | h
      · exact spaceRunes_prefixFree q hq p hp h
      · exact (spaceRunes_prefixFree p hp q hq h).symm
    simp [this]

theorem dropPats_blank {ps : List GoString} (hps : ∀ p ∈ ps, p ∈ spaceRunes) (t : GoString) (n : Nat)
    (hn : (ps.flatten ++ t).length ≤ n) : ∃ m, t.length ≤ m ∧ dropPats spaceRunes n (ps.flatten ++ t) = dropPats spaceRunes m t := by
  induction ps generalizing n with
  | nil => exact ⟨n, by simpa using hn, rfl⟩
  | cons p ps ih =>
    have hp := hps p (by simp)
    have hne := spaceRunes_ne p hp
    obtain ⟨k, hk⟩ : ∃ k, p.length = k + 1 := ⟨p.length - 1, by have := List.length_pos_iff.2 hne; omega⟩
    cases n with
    | zero =>
      simp only [List.flatten_cons, List.append_assoc, List.length_append] at hn
      omega
    | succ n =>
      obtain ⟨m, hm, h⟩ := ih (fun q hq => hps q (by simp [hq])) n (by
        simp only [List.flatten_cons, List.append_assoc, List.length_append] at hn ⊢; omega)
      refine ⟨m, hm, ?_⟩
      rw [← h, List.flatten_cons, List.append_assoc]
      conv => lhs; unfold dropPats
      rw [leadLen_space hp, hk]
      dsimp only
      rw [← hk]
      simp

theorem trimLeft_blank {s : GoString} (h : Blank s) : trimLeft s = [] := by
  obtain ⟨ps, hps, rfl⟩ := h
  unfold trimLeft
  obtain ⟨m, _, h⟩ := dropPats_blank hps [] (ps.flatten.length) (by simp)
  rw [List.append_nil] at h
  rw [h]
  exact dropPats_of_clear spaceRunes_ne clear_nil.1 _

theorem Blank.append {s t : GoString} (hs : Blank s) (ht : Blank t) : Blank (s ++ t) := by
  obtain ⟨ps, hps, rfl⟩ := hs
  obtain ⟨qs, hqs, rfl⟩ := ht
  refine ⟨ps ++ qs, ?_, by simp⟩
  intro p hp
  rcases List.mem_append.1 hp with h | h
  · exact hps p h
  · exact hqs p h

/-- Trimming leaves nothing exactly if there is nothing but white space. -/
theorem trimSpace_nil_iff {s : GoString} : trimSpace s = [] ↔ Blank s := by
  constructor
  · intro h
    obtain ⟨a, b, ha, hb, hs, _⟩ := trimSpace_spec s
    rw [hs, h, List.append_nil]
    exact ha.append hb
  · intro h
    unfold trimSpace
    rw [trimLeft_blank h]
    exact trimRight_of_clear clear_nil.2

/-- `/`, `,` and `@` are not part of any white-space character. -/
theorem not_mem_space {b : UInt8} (hb : 33 ≤ b.toNat ∧ b.toNat < 128) {p : GoString} (hp : p ∈ spaceRunes) : b ∉ p := by
  have key : ∀ p ∈ spaceRunes, ∀ c ∈ p, ¬ (33 ≤ c.toNat ∧ c.toNat < 128) := by decide +kernel
  exact fun h => key p hp b h hb

/-- Text around a visible ASCII character is trimmed only on its outer sides. -/
theorem clear_around {b : UInt8} (hb : 33 ≤ b.toNat ∧ b.toNat < 128) {s t : GoString} (hs : ClearStart s) (ht : ClearEnd t) :
    ClearStart (s ++ b :: t) ∧ ClearEnd (s ++ b :: t) := by
  constructor
  · intro p hp h
    rcases List.prefix_or_prefix_of_prefix h (List.prefix_append s (b :: t)) with h' | h'
    · exact hs p hp h'
    · obtain ⟨r, hr⟩ := h'
      rw [← hr] at h
      obtain ⟨q, hq⟩ := h
      rw [List.append_assoc, List.append_cancel_left_eq] at hq
      cases r with
      | nil => exact hs p hp (by rw [← hr]; simp)
      | cons c r =>
        simp only [List.cons_append, List.cons.injEq] at hq
        exact not_mem_space hb hp (by rw [← hr, hq.1]; simp)
  · intro p hp h
    have e : s ++ b :: t = (s ++ [b]) ++ t := by simp
    rw [e] at h
    rcases List.suffix_or_suffix_of_suffix h (List.suffix_append (s ++ [b]) t) with h' | h'
    · exact ht p hp h'
    · obtain ⟨r, hr⟩ := h'
      rw [← hr] at h
      obtain ⟨q, hq⟩ := h
      rw [← List.append_assoc, List.append_cancel_right_eq] at hq
      cases hr' : r with
      | nil => exact ht p hp (by rw [← hr, hr']; simp)
      | cons c r₀ =>
        have hne : r ≠ [] := by rw [hr']; simp
        rw [← List.dropLast_concat_getLast hne, ← List.append_assoc] at hq
        have := List.append_inj_right' hq rfl
        simp only [List.cons.injEq, and_true] at this
        exact not_mem_space hb hp (by rw [← hr, ← this]; simp)

end GoIdentity
