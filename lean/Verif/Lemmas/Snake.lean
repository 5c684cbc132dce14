import Verif.Lemmas.Qr
import Verif.Lemmas.Trim
import Verif.Model.Tag
/-!
# Lemmas about `strcase.ToSnake`
-/
namespace GoIdentity.Tag

/-- A byte that may occur in an ASCII identifier. -/
def identByte (b : UInt8) : Bool := isUpper b || isLow b || isDigit b || b == 95

/-- The bytes that become underscores. -/
def sepByte (b : UInt8) : Bool := b == 32 || b == 95 || b == 45 || b == 46

theorem lowerByte_not_upper (b : UInt8) : isUpper (lowerByte b) = false :=
  forall_bytes (P := fun b => isUpper (lowerByte b) = false) (by decide +kernel) b

theorem snakePlain_not_upper {b : UInt8} (h : isUpper b = false) : isUpper (snakePlain b) = false := by
  unfold snakePlain
  split
  · decide
  · exact h

theorem snakeByte_not_upper {p : Option UInt8} {v : UInt8} {n : Option UInt8} {b : UInt8} (h : b ∈ snakeByte p v n) :
    isUpper b = false := by
  have h1 := lowerByte_not_upper v
  have h2 := snakePlain_not_upper h1
  have h3 : isUpper 95 = false := by decide
  unfold snakeByte at h
  dsimp only at h
  revert h
  repeat' split
  all_goals intro h
  all_goals simp only [List.append_nil, List.nil_append, List.cons_append, List.mem_cons, List.not_mem_nil, or_false] at h
  all_goals first
    | (subst h; assumption)
    | (rcases h with h | h <;> first | (subst h; assumption) | (rcases h with h | h <;> subst h <;> assumption))

theorem snakeBytes_not_upper (p : Option UInt8) (s : GoString) : ∀ b ∈ snakeBytes p s, isUpper b = false := by
  induction s generalizing p with
  | nil => simp [snakeBytes]
  | cons v t ih =>
    intro b hb
    rcases List.mem_append.1 hb with hb | hb
    · exact snakeByte_not_upper hb
    · exact ih _ b hb

theorem snakePlain_filter (v : UInt8) :
    [snakePlain (lowerByte v)].filter (· != 95) = [lowerByte v].filter (fun b => !sepByte b) :=
  forall_bytes (P := fun v => [snakePlain (lowerByte v)].filter (· != 95) = [lowerByte v].filter (fun b => !sepByte b))
    (by decide +kernel) v

theorem alnum_not_sep : ∀ v : UInt8, (isUpper v || isLow v || isDigit v) = true →
    sepByte (lowerByte v) = false ∧ lowerByte v ≠ 95 :=
  forall_bytes (by decide +kernel)

theorem snakeByte_filter (p : Option UInt8) (v : UInt8) (n : Option UInt8) :
    (snakeByte p v n).filter (· != 95) = [lowerByte v].filter (fun b => !sepByte b) := by
  unfold snakeByte
  dsimp only
  split
  · exact snakePlain_filter v
  · split
    · rename_i n hc
      have ha : (isUpper v || isLow v || isDigit v) = true := by
        revert hc
        cases isUpper v <;> cases isLow v <;> cases isDigit v <;> simp
      obtain ⟨h1, h2⟩ := alnum_not_sep v ha
      have h3 : [lowerByte v].filter (fun b => !sepByte b) = [lowerByte v] := by simp [h1]
      have h4 : [lowerByte v].filter (fun b => b != 95) = [lowerByte v] := by simp [h2]
      rw [List.filter_append, List.filter_append, h3, h4]
      repeat' split
      all_goals simp
    · exact snakePlain_filter v

theorem snakeBytes_filter (p : Option UInt8) (s : GoString) :
    (snakeBytes p s).filter (· != 95) = (s.map lowerByte).filter (fun b => !sepByte b) := by
  induction s generalizing p with
  | nil => rfl
  | cons v t ih =>
    show (snakeByte p v t.head? ++ snakeBytes (some v) t).filter _ = _
    rw [List.filter_append, snakeByte_filter, ih]
    show _ = List.filter _ ([lowerByte v] ++ t.map lowerByte)
    rw [List.filter_append]

/-- `strings.ReplaceAll` keeps what is left without underscores, if the pattern and its replacement agree about that. -/
theorem replaceAllAux_filter {old new : GoString}
    (h : old.filter (· != 95) = new.filter (· != 95)) (n : Nat) (s : GoString) :
    (replaceAllAux old new n s).filter (· != 95) = s.filter (· != 95) := by
  induction n generalizing s with
  | zero => rfl
  | succ n ih =>
    cases s with
    | nil => rfl
    | cons c s =>
      unfold replaceAllAux
      split
      · rename_i hp
        obtain ⟨t, ht⟩ := List.isPrefixOf_iff_prefix.1 hp
        rw [List.filter_append, ih, ← h, ← List.filter_append, ← ht, List.drop_left]
      · simp only [List.filter_cons, ih]

theorem replaceAll_filter {old new : GoString} (h : old.filter (· != 95) = new.filter (· != 95)) (s : GoString) :
    (replaceAll old new s).filter (· != 95) = s.filter (· != 95) := replaceAllAux_filter h _ s

theorem replaceAllAux_mem {old new : GoString} {n : Nat} {s : GoString} {b : UInt8} (h : b ∈ replaceAllAux old new n s) :
    b ∈ new ∨ b ∈ s := by
  induction n generalizing s with
  | zero => exact .inr h
  | succ n ih =>
    cases s with
    | nil => simp [replaceAllAux] at h
    | cons c s =>
      unfold replaceAllAux at h
      split at h
      · rcases List.mem_append.1 h with h | h
        · exact .inl h
        · rcases ih h with h | h
          · exact .inl h
          · exact .inr (List.mem_of_mem_drop h)
      · rcases List.mem_cons.1 h with rfl | h
        · exact .inr (by simp)
        · rcases ih h with h | h
          · exact .inl h
          · exact .inr (by simp [h])

theorem ident_clear {s : GoString} (h : ∀ b ∈ s, identByte b = true) : trimSpace s = s := by
  rw [trimSpace_eq_self_iff]
  have key : ∀ p ∈ spaceRunes, ∃ b ∈ p, identByte b = false := by decide +kernel
  constructor
  · intro p hp hpre
    obtain ⟨b, hb, hi⟩ := key p hp
    have := h b (hpre.subset hb)
    rw [hi] at this; cases this
  · intro p hp hsuf
    obtain ⟨b, hb, hi⟩ := key p hp
    have := h b (hsuf.subset hb)
    rw [hi] at this; cases this

/-! ## What is left alone -/

/-- Already in the form that `ToSnake` produces: no upper case, no separator but the underscore, and no letter next to a digit. -/
def Snaky : GoString → Prop
  | [] => True
  | v :: t => isUpper v = false ∧ v ≠ 32 ∧ v ≠ 45 ∧ v ≠ 46 ∧
      (∀ n, t.head? = some n → ¬ (isLow v = true ∧ isDigit n = true) ∧ ¬ (isDigit v = true ∧ isLow n = true)) ∧ Snaky t

theorem snakeBytes_snaky {s : GoString} (h : Snaky s) (p : Option UInt8) : snakeBytes p s = s := by
  induction s generalizing p with
  | nil => rfl
  | cons v t ih =>
    obtain ⟨h1, h2, h3, h4, h5, h6⟩ := h
    have hl : lowerByte v = v := by simp [lowerByte, h1]
    have hp : snakePlain v = v := by
      unfold snakePlain
      split
      · rename_i hc
        rcases hc with hc | hc | hc | hc
        · exact absurd hc h2
        · exact hc.symm
        · exact absurd hc h3
        · exact absurd hc h4
      · rfl
    show snakeByte p v t.head? ++ snakeBytes (some v) t = _
    rw [ih h6]
    have : snakeByte p v t.head? = [v] := by
      unfold snakeByte
      dsimp only
      cases ht : t.head? with
      | none => simp [hl, hp]
      | some n =>
        obtain ⟨h7, h8⟩ := h5 n ht
        have hu : isUpper n = false := by
          cases t with
          | nil => simp at ht
          | cons x t => simp at ht; subst ht; exact h6.1
        dsimp only
        rw [if_neg (by
          simp only [h1, hu, Bool.false_and, Bool.false_or, Bool.or_eq_true, Bool.and_eq_true]
          rintro (h | h)
          · exact h7 h
          · exact h8 h), hl, hp]
    rw [this]; rfl

/-- The byte written for a byte, but for underscores around it. -/
def snakeChar (v : UInt8) : UInt8 := snakePlain (lowerByte v)

theorem snakeChar_digit (v : UInt8) : isDigit (snakeChar v) = isDigit v :=
  forall_bytes (P := fun v => isDigit (snakeChar v) = isDigit v) (by decide +kernel) v

theorem snakeChar_low (v : UInt8) : isLow (snakeChar v) = (isLow v || isUpper v) :=
  forall_bytes (P := fun v => isLow (snakeChar v) = (isLow v || isUpper v)) (by decide +kernel) v

theorem snakeChar_upper (v : UInt8) : isUpper (snakeChar v) = false ∧ snakeChar v ≠ 32 ∧ snakeChar v ≠ 45 ∧ snakeChar v ≠ 46 :=
  forall_bytes (P := fun v => isUpper (snakeChar v) = false ∧ snakeChar v ≠ 32 ∧ snakeChar v ≠ 45 ∧ snakeChar v ≠ 46)
    (by decide +kernel) v

theorem snakeChar_alnum : ∀ v : UInt8, (isUpper v || isLow v || isDigit v) = true → lowerByte v = snakeChar v :=
  forall_bytes (by decide +kernel)

theorem class_disjoint (v : UInt8) : (isUpper v && isLow v) = false ∧ (isUpper v && isDigit v) = false ∧ (isLow v && isDigit v) = false :=
  forall_bytes (P := fun v => (isUpper v && isLow v) = false ∧ (isUpper v && isDigit v) = false ∧ (isLow v && isDigit v) = false)
    (by decide +kernel) v

/-- The three shapes of what is written for a byte. -/
theorem snakeByte_cases (p : Option UInt8) (v : UInt8) (n : Option UInt8) :
    ∃ pre post, snakeByte p v n = pre ++ [snakeChar v] ++ post ∧ (pre = [] ∨ pre = [95]) ∧ (post = [] ∨ post = [95]) ∧
      (post = [] → ∀ m, n = some m → ¬ (isLow (snakeChar v) = true ∧ isDigit m = true) ∧
        ¬ (isDigit v = true ∧ (isLow m || isUpper m) = true)) := by
  unfold snakeByte
  dsimp only
  cases n with
  | none => exact ⟨[], [], rfl, .inl rfl, .inl rfl, by simp⟩
  | some m =>
    obtain ⟨d1, d2, d3⟩ := class_disjoint v
    obtain ⟨e1, e2, e3⟩ := class_disjoint m
    dsimp only
    split
    · rename_i hc
      have ha : (isUpper v || isLow v || isDigit v) = true := by
        revert hc
        cases isUpper v <;> cases isLow v <;> cases isDigit v <;> simp
      rw [snakeChar_alnum v ha]
      refine ⟨_, _, rfl, ?_, ?_, ?_⟩
      · split
        · exact .inr rfl
        · exact .inl rfl
      · split
        · exact .inr rfl
        · exact .inl rfl
      · intro hpost k hk
        cases hk
        split at hpost
        · cases hpost
        · rename_i h
          simp only [Bool.or_eq_true, not_or] at h
          exact ⟨fun hh => h.2 hh.2, fun hh => h.1.2 hh.1⟩
    · rename_i hc
      refine ⟨[], [], rfl, .inl rfl, .inl rfl, ?_⟩
      intro _ k hk
      cases hk
      rw [snakeChar_low]
      revert hc d1 d2 d3 e1 e2 e3
      cases isUpper v <;> cases isLow v <;> cases isDigit v <;> cases isUpper m <;> cases isLow m <;> cases isDigit m <;> simp

theorem snakeBytes_head {p : Option UInt8} {s : GoString} {x : UInt8} (h : (snakeBytes p s).head? = some x) :
    x = 95 ∨ ∃ n, s.head? = some n ∧ x = snakeChar n := by
  cases s with
  | nil => simp [snakeBytes] at h
  | cons v t =>
    obtain ⟨pre, post, he, hpre, _⟩ := snakeByte_cases p v t.head?
    unfold snakeBytes at h
    rw [he] at h
    rcases hpre with rfl | rfl
    · right; exact ⟨v, rfl, by simpa using h.symm⟩
    · left; simpa using h.symm

theorem snaky_underscore {s : GoString} (h : Snaky s) : Snaky (95 :: s) := by
  refine ⟨by decide, by decide, by decide, by decide, ?_, h⟩
  intro n _
  exact ⟨fun hh => absurd hh.1 (by decide), fun hh => absurd hh.1 (by decide)⟩

theorem snakeBytes_is_snaky (p : Option UInt8) (s : GoString) : Snaky (snakeBytes p s) := by
  induction s generalizing p with
  | nil => exact trivial
  | cons v t ih =>
    obtain ⟨pre, post, he, hpre, hpost, hadj⟩ := snakeByte_cases p v t.head?
    obtain ⟨u1, u2, u3, u4⟩ := snakeChar_upper v
    have hmid : Snaky ([snakeChar v] ++ post ++ snakeBytes (some v) t) := by
      rcases hpost with rfl | rfl
      · refine ⟨u1, u2, u3, u4, ?_, ih _⟩
        intro x hx
        rcases snakeBytes_head hx with rfl | ⟨n, hn, rfl⟩
        · exact ⟨fun hh => absurd hh.2 (by decide), fun hh => absurd hh.2 (by decide)⟩
        · obtain ⟨a1, a2⟩ := hadj rfl n hn
          rw [snakeChar_digit, snakeChar_digit, snakeChar_low n]
          exact ⟨a1, a2⟩
      · refine ⟨u1, u2, u3, u4, ?_, snaky_underscore (ih _)⟩
        intro x hx
        cases (show some (95 : UInt8) = some x from hx)
        exact ⟨fun hh => absurd hh.2 (by decide), fun hh => absurd hh.2 (by decide)⟩
    unfold snakeBytes
    rw [he]
    rcases hpre with rfl | rfl
    · simpa using hmid
    · simpa using snaky_underscore hmid

theorem snakeChar_ident : ∀ v : UInt8, identByte v = true → identByte (snakeChar v) = true := forall_bytes (by decide +kernel)

theorem snakeBytes_ident {s : GoString} (h : ∀ b ∈ s, identByte b = true) (p : Option UInt8) :
    ∀ b ∈ snakeBytes p s, identByte b = true := by
  induction s generalizing p with
  | nil => simp [snakeBytes]
  | cons v t ih =>
    obtain ⟨pre, post, he, hpre, hpost, _⟩ := snakeByte_cases p v t.head?
    have h95 : identByte 95 = true := by decide
    intro b hb
    unfold snakeBytes at hb
    rw [he] at hb
    simp only [List.mem_append, List.mem_singleton] at hb
    rcases hb with ((hb | rfl) | hb) | hb
    · rcases hpre with rfl | rfl
      · cases hb
      · rw [List.mem_singleton.1 hb]; exact h95
    · exact snakeChar_ident v (h v (by simp))
    · rcases hpost with rfl | rfl
      · cases hb
      · rw [List.mem_singleton.1 hb]; exact h95
    · exact ih (fun b hb => h b (by simp [hb])) _ b hb

end GoIdentity.Tag
