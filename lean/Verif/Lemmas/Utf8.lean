import Verif.Model.Bytes
/-!
# UTF-8
-/
namespace GoIdentity

/-- A Unicode scalar value: not a surrogate, at most U+10FFFF. -/
def IsScalar (r : Nat) : Prop := r ≤ 0x10FFFF ∧ ¬ (0xD800 ≤ r ∧ r ≤ 0xDFFF)

theorem u8_ofNat {b : UInt8} {n : Nat} (h : n = b.toNat) : UInt8.ofNat n = b := by rw [h]; simp

theorem u8_toNat {n : Nat} (h : n < 256) : (UInt8.ofNat n).toNat = n := by
  rw [UInt8.toNat_ofNat']; omega

theorem encodeRune_length (r : Nat) : 1 ≤ (encodeRune r).length ∧ (encodeRune r).length ≤ 4 := by
  unfold encodeRune; repeat' split
  all_goals simp

theorem isCont_iff {b : UInt8} : isCont b = true ↔ 0x80 ≤ b.toNat ∧ b.toNat ≤ 0xBF := by simp [isCont]
theorem inRange_iff {lo hi : Nat} {b : UInt8} : inRange lo hi b = true ↔ lo ≤ b.toNat ∧ b.toNat ≤ hi := by simp [inRange]

/-- Encoded scalar values decode to themselves. -/
theorem decodeRune_encodeRune {r : Nat} (h : IsScalar r) (t : GoString) :
    decodeRune (encodeRune r ++ t) = (r, (encodeRune r).length) := by
  obtain ⟨h1, h2⟩ := h
  unfold encodeRune
  by_cases c1 : r < 0x80
  · rw [if_pos c1]
    simp only [List.cons_append, List.nil_append, decodeRune, u8_toNat (show r < 256 by omega)]
    rw [if_pos c1]; rfl
  rw [if_neg c1]
  by_cases c2 : r < 0x800
  · rw [if_pos c2]
    simp only [List.cons_append, List.nil_append, decodeRune, u8_toNat (show 0xC0 + r / 64 < 256 by omega)]
    rw [if_neg (by omega), if_neg (by omega), if_pos (by omega), if_pos]
    · rw [u8_toNat (by omega)]
      simp only [List.length_cons, List.length_nil, Prod.mk.injEq, and_true]
      omega
    · rw [isCont_iff, u8_toNat (by omega)]; omega
  rw [if_neg c2, if_neg (by omega)]
  by_cases c3 : r < 0x10000
  · rw [if_pos c3]
    simp only [List.cons_append, List.nil_append, decodeRune, u8_toNat (show 0xE0 + r / 4096 < 256 by omega)]
    rw [if_neg (by omega), if_neg (by omega), if_neg (by omega), if_pos (by omega)]
    have hr : inRange (if 0xE0 + r / 4096 = 0xE0 then 0xA0 else 0x80) (if 0xE0 + r / 4096 = 0xED then 0x9F else 0xBF)
        (UInt8.ofNat (0x80 + r / 64 % 64)) = true := by
      rw [inRange_iff, u8_toNat (by omega)]
      split <;> split <;> omega
    have hc : isCont (UInt8.ofNat (0x80 + r % 64)) = true := by rw [isCont_iff, u8_toNat (by omega)]; omega
    rw [hr, hc, u8_toNat (by omega), u8_toNat (by omega)]
    simp only [Bool.and_self, if_true, List.length_cons, List.length_nil, Prod.mk.injEq, and_true]
    omega
  rw [if_neg c3]
  simp only [List.cons_append, List.nil_append, decodeRune, u8_toNat (show 0xF0 + r / 262144 < 256 by omega)]
  rw [if_neg (by omega), if_neg (by omega), if_neg (by omega), if_neg (by omega), if_pos (by omega)]
  have hr : inRange (if 0xF0 + r / 262144 = 0xF0 then 0x90 else 0x80) (if 0xF0 + r / 262144 = 0xF4 then 0x8F else 0xBF)
      (UInt8.ofNat (0x80 + r / 4096 % 64)) = true := by
    rw [inRange_iff, u8_toNat (by omega)]
    split <;> split <;> omega
  have hc : isCont (UInt8.ofNat (0x80 + r / 64 % 64)) = true := by rw [isCont_iff, u8_toNat (by omega)]; omega
  have hc' : isCont (UInt8.ofNat (0x80 + r % 64)) = true := by rw [isCont_iff, u8_toNat (by omega)]; omega
  rw [hr, hc, hc', u8_toNat (by omega), u8_toNat (by omega), u8_toNat (by omega)]
  simp only [Bool.and_self, if_true, List.length_cons, List.length_nil, Prod.mk.injEq, and_true]
  omega

/-- Decoding either finds the encoding of a scalar value at the front, or reports an invalid byte. -/
theorem decodeRune_cases (b : UInt8) (t : GoString) :
    (∃ r u, IsScalar r ∧ b :: t = encodeRune r ++ u ∧ decodeRune (b :: t) = (r, (encodeRune r).length)) ∨
    decodeRune (b :: t) = (runeError, 1) ∧ 128 ≤ b.toNat := by
  have hb := b.toNat_lt
  by_cases c1 : b.toNat < 0x80
  · left
    refine ⟨b.toNat, t, ⟨by omega, by omega⟩, ?_, ?_⟩
    · simp [encodeRune, c1]
    · simp [decodeRune, encodeRune, c1]
  by_cases c2 : b.toNat < 0xC2
  · right; simp only [decodeRune, if_neg c1, if_pos c2]; exact ⟨trivial, by omega⟩
  by_cases c3 : b.toNat < 0xE0
  · match t with
    | [] => right; simp only [decodeRune, if_neg c1, if_neg c2, if_pos c3]; exact ⟨trivial, by omega⟩
    | b1 :: u =>
      by_cases h : isCont b1 = true
      · left
        rw [isCont_iff] at h
        refine ⟨(b.toNat - 0xC0) * 64 + (b1.toNat - 0x80), u, ⟨by omega, by omega⟩, ?_⟩
        have he : encodeRune ((b.toNat - 0xC0) * 64 + (b1.toNat - 0x80)) = [b, b1] := by
          unfold encodeRune
          rw [if_neg (by omega), if_pos (by omega), u8_ofNat (b := b) (by omega), u8_ofNat (b := b1) (by omega)]
        rw [he]
        refine ⟨rfl, ?_⟩
        simp only [decodeRune, if_neg c1, if_neg c2, if_pos c3]
        rw [if_pos (isCont_iff.2 h)]; rfl
      · right; simp only [decodeRune, if_neg c1, if_neg c2, if_pos c3, if_neg h]; exact ⟨trivial, by omega⟩
  by_cases c4 : b.toNat < 0xF0
  · match t with
    | [] => right; simp only [decodeRune, if_neg c1, if_neg c2, if_neg c3, if_pos c4]; exact ⟨trivial, by omega⟩
    | [b1] => right; simp only [decodeRune, if_neg c1, if_neg c2, if_neg c3, if_pos c4]; exact ⟨trivial, by omega⟩
    | b1 :: b2 :: u =>
      by_cases h : (inRange (if b.toNat = 0xE0 then 0xA0 else 0x80) (if b.toNat = 0xED then 0x9F else 0xBF) b1 && isCont b2) = true
      · left
        have h' := h
        rw [Bool.and_eq_true, inRange_iff, isCont_iff] at h'
        obtain ⟨h1, h2⟩ := h'
        have h3 : 0x80 ≤ b1.toNat ∧ b1.toNat ≤ 0xBF ∧ (b.toNat = 0xE0 → 0xA0 ≤ b1.toNat) ∧ (b.toNat = 0xED → b1.toNat ≤ 0x9F) := by
          refine ⟨?_, ?_, ?_, ?_⟩
          · have := h1.1; split at this <;> omega
          · have := h1.2; split at this <;> omega
          · intro e; have := h1.1; rw [if_pos e] at this; exact this
          · intro e; have := h1.2; rw [if_pos e] at this; exact this
        obtain ⟨h31, h32, h33, h34⟩ := h3
        have hsc : IsScalar ((b.toNat - 0xE0) * 4096 + (b1.toNat - 0x80) * 64 + (b2.toNat - 0x80)) := ⟨by omega, by omega⟩
        refine ⟨(b.toNat - 0xE0) * 4096 + (b1.toNat - 0x80) * 64 + (b2.toNat - 0x80), u, hsc, ?_⟩
        have he : encodeRune ((b.toNat - 0xE0) * 4096 + (b1.toNat - 0x80) * 64 + (b2.toNat - 0x80)) = [b, b1, b2] := by
          unfold encodeRune
          rw [if_neg (by omega), if_neg (by omega), if_neg (by omega), if_pos (by omega), u8_ofNat (b := b) (by omega),
            u8_ofNat (b := b1) (by omega), u8_ofNat (b := b2) (by omega)]
        rw [he]
        refine ⟨rfl, ?_⟩
        simp only [decodeRune, if_neg c1, if_neg c2, if_neg c3, if_pos c4]
        rw [if_pos h]; rfl
      · right; simp only [decodeRune, if_neg c1, if_neg c2, if_neg c3, if_pos c4]; rw [if_neg h]; exact ⟨rfl, by omega⟩
  by_cases c5 : b.toNat < 0xF5
  · match t with
    | [] => right; simp only [decodeRune, if_neg c1, if_neg c2, if_neg c3, if_neg c4, if_pos c5]; exact ⟨trivial, by omega⟩
    | [b1] => right; simp only [decodeRune, if_neg c1, if_neg c2, if_neg c3, if_neg c4, if_pos c5]; exact ⟨trivial, by omega⟩
    | [b1, b2] => right; simp only [decodeRune, if_neg c1, if_neg c2, if_neg c3, if_neg c4, if_pos c5]; exact ⟨trivial, by omega⟩
    | b1 :: b2 :: b3 :: u =>
      by_cases h : (inRange (if b.toNat = 0xF0 then 0x90 else 0x80) (if b.toNat = 0xF4 then 0x8F else 0xBF) b1 && isCont b2 &&
          isCont b3) = true
      · left
        have h' := h
        rw [Bool.and_eq_true, Bool.and_eq_true, inRange_iff, isCont_iff, isCont_iff] at h'
        obtain ⟨⟨h1, h2⟩, h20⟩ := h'
        have h3 : 0x80 ≤ b1.toNat ∧ b1.toNat ≤ 0xBF ∧ (b.toNat = 0xF0 → 0x90 ≤ b1.toNat) ∧ (b.toNat = 0xF4 → b1.toNat ≤ 0x8F) := by
          refine ⟨?_, ?_, ?_, ?_⟩
          · have := h1.1; split at this <;> omega
          · have := h1.2; split at this <;> omega
          · intro e; have := h1.1; rw [if_pos e] at this; exact this
          · intro e; have := h1.2; rw [if_pos e] at this; exact this
        obtain ⟨h31, h32, h33, h34⟩ := h3
        have hsc : IsScalar ((b.toNat - 0xF0) * 262144 + (b1.toNat - 0x80) * 4096 + (b2.toNat - 0x80) * 64 + (b3.toNat - 0x80)) :=
          ⟨by omega, by omega⟩
        refine ⟨(b.toNat - 0xF0) * 262144 + (b1.toNat - 0x80) * 4096 + (b2.toNat - 0x80) * 64 + (b3.toNat - 0x80), u, hsc, ?_⟩
        have he : encodeRune ((b.toNat - 0xF0) * 262144 + (b1.toNat - 0x80) * 4096 + (b2.toNat - 0x80) * 64 + (b3.toNat - 0x80)) =
            [b, b1, b2, b3] := by
          unfold encodeRune
          rw [if_neg (by omega), if_neg (by omega), if_neg (by omega), if_neg (by omega), u8_ofNat (b := b) (by omega),
            u8_ofNat (b := b1) (by omega), u8_ofNat (b := b2) (by omega), u8_ofNat (b := b3) (by omega)]
        rw [he]
        refine ⟨rfl, ?_⟩
        simp only [decodeRune, if_neg c1, if_neg c2, if_neg c3, if_neg c4, if_pos c5]
        rw [if_pos h]; rfl
      · right; simp only [decodeRune, if_neg c1, if_neg c2, if_neg c3, if_neg c4, if_pos c5]; rw [if_neg h]; exact ⟨rfl, by omega⟩
  · right; simp only [decodeRune, if_neg c1, if_neg c2, if_neg c3, if_neg c4, if_neg c5]; exact ⟨trivial, by omega⟩

theorem decodeRune_width (b : UInt8) (t : GoString) : 1 ≤ (decodeRune (b :: t)).2 := by
  rcases decodeRune_cases b t with ⟨r, u, _, _, h⟩ | ⟨h, _⟩
  · rw [h]; exact (encodeRune_length r).1
  · rw [h]; exact Nat.le_refl 1

/-- The bound on the number of runes does not matter once it is as large as the string. -/
theorem runesAux_fuel {n m : Nat} {s : GoString} (hn : s.length ≤ n) (hm : s.length ≤ m) : runesAux n s = runesAux m s := by
  induction n generalizing m s with
  | zero =>
    have : s = [] := List.length_eq_zero_iff.1 (by omega)
    subst this
    cases m <;> rfl
  | succ n ih =>
    match s, m with
    | [], 0 => rfl
    | [], m + 1 => rfl
    | b :: t, 0 => simp at hm
    | b :: t, m + 1 =>
      simp only [runesAux]
      have hw := decodeRune_width b t
      congr 1
      apply ih
      · rw [List.length_drop]; simp only [List.length_cons] at hn ⊢; omega
      · rw [List.length_drop]; simp only [List.length_cons] at hm ⊢; omega

theorem runes_cons (b : UInt8) (t : GoString) :
    runes (b :: t) = decodeRune (b :: t) :: runes ((b :: t).drop (decodeRune (b :: t)).2) := by
  unfold runes
  rw [List.length_cons, runesAux]
  congr 1
  have hw := decodeRune_width b t
  apply runesAux_fuel
  · rw [List.length_drop]; simp only [List.length_cons]; omega
  · exact Nat.le_refl _

theorem runes_nil : runes [] = [] := rfl

theorem encodeRune_ne_nil (r : Nat) : encodeRune r ≠ [] := by
  intro h
  have := (encodeRune_length r).1
  rw [h] at this
  simp at this

theorem runes_encodeRune {r : Nat} (h : IsScalar r) (t : GoString) :
    runes (encodeRune r ++ t) = (r, (encodeRune r).length) :: runes t := by
  cases he : encodeRune r with
  | nil => exact absurd he (encodeRune_ne_nil r)
  | cons b u =>
    have hd := decodeRune_encodeRune h t
    rw [he] at hd
    rw [List.cons_append] at hd ⊢
    rw [runes_cons, hd]
    simp

theorem runes_invalid {b : UInt8} {t : GoString} (h : decodeRune (b :: t) = (runeError, 1)) :
    runes (b :: t) = (runeError, 1) :: runes t := by
  rw [runes_cons, h]; rfl

/-- The code points of a string, U+FFFD standing for each invalid byte. -/
def codePoints (s : GoString) : List Nat := (runes s).map Prod.fst

theorem codePoints_encodeRune {r : Nat} (h : IsScalar r) (t : GoString) : codePoints (encodeRune r ++ t) = r :: codePoints t := by
  unfold codePoints; rw [runes_encodeRune h]; rfl

/-- Induction over the runes of a string. -/
theorem rune_induct {P : GoString → Prop} (nil : P [])
    (rune : ∀ r t, IsScalar r → P t → P (encodeRune r ++ t))
    (bad : ∀ b t, decodeRune (b :: t) = (runeError, 1) → 128 ≤ b.toNat → P t → P (b :: t)) (s : GoString) : P s := by
  generalize hn : s.length = n
  induction n using Nat.strongRecOn generalizing s with
  | _ n ih =>
    match s with
    | [] => exact nil
    | b :: t =>
      rcases decodeRune_cases b t with ⟨r, u, hr, hu, _⟩ | ⟨h, h128⟩
      · rw [hu]
        apply rune r u hr
        have hlen := congrArg List.length hu
        rw [List.length_append] at hlen
        have := (encodeRune_length r).1
        exact ih u.length (by omega) u rfl
      · apply bad b t h h128
        simp only [List.length_cons] at hn
        exact ih t.length (by omega) t rfl

theorem encodeRune_ascii {r : Nat} (h : r < 128) : encodeRune r = [UInt8.ofNat r] := by
  unfold encodeRune; rw [if_pos h]

/-- ASCII strings: the code points are the bytes. -/
theorem codePoints_ascii {s : GoString} (h : ∀ b ∈ s, b.toNat < 128) : codePoints s = s.map UInt8.toNat := by
  induction s with
  | nil => rfl
  | cons b t ih =>
    have hb := h b (by simp)
    have hsc : IsScalar b.toNat := ⟨by omega, by omega⟩
    have := codePoints_encodeRune hsc t
    rw [encodeRune_ascii hb] at this
    simp only [UInt8.ofNat_toNat, List.singleton_append] at this
    rw [this, ih fun c hc => h c (by simp [hc])]
    rfl

/-- A string with ASCII code points only is ASCII. -/
theorem ascii_of_codePoints {s : GoString} (h : ∀ c ∈ codePoints s, c < 128) : ∀ b ∈ s, b.toNat < 128 := by
  induction s using rune_induct with
  | nil => simp
  | rune r t hr ih =>
    rw [codePoints_encodeRune hr] at h
    have hr128 := h r (by simp)
    have ih := ih fun c hc => h c (by simp [hc])
    rw [encodeRune_ascii hr128]
    intro b hb
    simp only [List.cons_append, List.nil_append, List.mem_cons] at hb
    rcases hb with rfl | hb
    · rw [u8_toNat (by omega)]; exact hr128
    · exact ih b hb
  | bad b t hd _ _ =>
    exfalso
    have : runeError ∈ codePoints (b :: t) := by
      unfold codePoints; rw [runes_invalid hd]; simp
    have := h _ this
    unfold runeError at this
    omega

/-- A string has at most four bytes per code point, and at least one. -/
theorem codePoints_length (s : GoString) : (codePoints s).length ≤ s.length ∧ s.length ≤ 4 * (codePoints s).length := by
  induction s using rune_induct with
  | nil => simp [codePoints, runes_nil]
  | rune r t hr ih =>
    rw [codePoints_encodeRune hr]
    have := encodeRune_length r
    simp only [List.length_cons, List.length_append]
    omega
  | bad b t hd _ ih =>
    have : codePoints (b :: t) = runeError :: codePoints t := by
      unfold codePoints; rw [runes_invalid hd]; rfl
    rw [this]
    simp only [List.length_cons]
    omega

/-! ## Valid strings -/

theorem validUTF8_encodeRune {r : Nat} (h : IsScalar r) (t : GoString) : validUTF8 (encodeRune r ++ t) = validUTF8 t := by
  unfold validUTF8
  rw [runes_encodeRune h, List.all_cons]
  have : (!(r == runeError && (encodeRune r).length == 1)) = true := by
    by_cases hr : r = runeError
    · subst hr; decide
    · simp [hr]
  rw [this, Bool.true_and]

theorem validUTF8_invalid {b : UInt8} {t : GoString} (h : decodeRune (b :: t) = (runeError, 1)) : validUTF8 (b :: t) = false := by
  unfold validUTF8
  rw [runes_invalid h, List.all_cons]
  rfl

/-- Induction over valid strings. -/
theorem valid_induct {P : GoString → Prop} (nil : P []) (rune : ∀ r t, IsScalar r → P t → P (encodeRune r ++ t)) {s : GoString}
    (h : validUTF8 s = true) : P s := by
  revert h
  induction s using rune_induct with
  | nil => intro _; exact nil
  | rune r t hr ih => intro h; rw [validUTF8_encodeRune hr] at h; exact rune r t hr (ih h)
  | bad b t hd _ _ => intro h; rw [validUTF8_invalid hd] at h; simp at h

theorem validUTF8_nil : validUTF8 [] = true := rfl

/-- Valid strings are the encodings of sequences of scalar values. -/
theorem validUTF8_iff {s : GoString} : validUTF8 s = true ↔ ∃ rs : List Nat, (∀ r ∈ rs, IsScalar r) ∧ s = rs.flatMap encodeRune := by
  constructor
  · intro h
    refine valid_induct (P := fun s => ∃ rs : List Nat, (∀ r ∈ rs, IsScalar r) ∧ s = rs.flatMap encodeRune) ?_ ?_ h
    · exact ⟨[], by simp, rfl⟩
    · intro r t hr ih
      obtain ⟨rs, h1, h2⟩ := ih
      refine ⟨r :: rs, ?_, by rw [h2]; rfl⟩
      intro x hx
      simp only [List.mem_cons] at hx
      rcases hx with rfl | hx
      · exact hr
      · exact h1 x hx
  · rintro ⟨rs, h1, rfl⟩
    induction rs with
    | nil => rfl
    | cons r rs ih =>
      rw [List.flatMap_cons, validUTF8_encodeRune (h1 r (by simp))]
      exact ih fun x hx => h1 x (by simp [hx])

theorem validUTF8_append {s t : GoString} (hs : validUTF8 s = true) (ht : validUTF8 t = true) : validUTF8 (s ++ t) = true := by
  obtain ⟨a, ha, rfl⟩ := validUTF8_iff.1 hs
  obtain ⟨b, hb, rfl⟩ := validUTF8_iff.1 ht
  refine validUTF8_iff.2 ⟨a ++ b, ?_, by simp⟩
  intro r hr
  rcases List.mem_append.1 hr with h | h
  · exact ha r h
  · exact hb r h

theorem validUTF8_ascii {s : GoString} (h : ∀ b ∈ s, b.toNat < 128) : validUTF8 s = true := by
  refine validUTF8_iff.2 ⟨s.map UInt8.toNat, ?_, ?_⟩
  · intro r hr
    obtain ⟨b, hb, rfl⟩ := List.mem_map.1 hr
    have := h b hb
    exact ⟨by omega, by omega⟩
  · induction s with
    | nil => rfl
    | cons b t ih =>
      rw [List.map_cons, List.flatMap_cons, encodeRune_ascii (h b (by simp)), ← ih fun c hc => h c (by simp [hc])]
      simp

end GoIdentity
