import Verif.Spec.WellFormed
import Verif.Lemmas.Utf8
import Verif.Lemmas.JsonText
/-!
# RFC 3339 times
-/
namespace GoIdentity

theorem daysIn_eq {m y : Nat} : daysIn m y = monthLength y m := by
  unfold daysIn monthLength
  have hl : isLeap y = true ↔ 400 ∣ y ∨ (4 ∣ y ∧ ¬ 100 ∣ y) := by
    unfold isLeap
    simp only [Bool.and_eq_true, Bool.or_eq_true, beq_iff_eq, bne_iff_ne, Nat.dvd_iff_mod_eq_zero]
    omega
  by_cases h2 : m = 2
  · subst h2
    rw [if_pos rfl]
    by_cases h : isLeap y = true
    · rw [if_pos h]; simp only; rw [if_pos (hl.1 h)]
    · rw [if_neg h]; simp only; rw [if_neg (fun hc => h (hl.2 hc))]
  · rw [if_neg h2]
    by_cases h4 : m = 4 ∨ m = 6 ∨ m = 9 ∨ m = 11
    · rw [if_pos h4]
      rcases h4 with rfl | rfl | rfl | rfl <;> rfl
    · rw [if_neg h4]
      split <;> first | rfl | omega

theorem mem_takeWhile {p : UInt8 → Bool} {s : GoString} {b : UInt8} (h : b ∈ s.takeWhile p) : p b = true := by
  induction s with
  | nil => simp at h
  | cons c s ih =>
    rw [List.takeWhile_cons] at h
    split at h
    · rcases List.mem_cons.1 h with rfl | h
      · assumption
      · exact ih h
    · simp at h

theorem takeNum_pad {w n : Nat} (hw : 0 < w) (h : n < 10 ^ w) (t : GoString) : takeNum w (padDec w n ++ t) = some (n, t) := by
  obtain ⟨h1, h2, h3⟩ := padDec_spec hw h
  unfold takeNum
  have ht : (padDec w n ++ t).take w = padDec w n := by rw [List.take_append_of_le_length (by omega), List.take_of_length_le (by omega)]
  have hd : (padDec w n ++ t).drop w = t := by rw [List.drop_append_of_le_length (by omega), List.drop_of_length_le (by omega)]; rfl
  rw [ht, hd, if_pos, h3]
  refine ⟨by rw [List.length_append]; omega, ?_⟩
  rw [List.all_eq_true]
  intro b hb
  exact isDigit_iff.2 (h2 b hb)

theorem expectByte_cons (b : UInt8) (t : GoString) : expectByte b (b :: t) = some t := by simp [expectByte]

theorem dropTrailingZeros_spec (s : GoString) :
    ∃ k, s = dropTrailingZeros s ++ List.replicate k 48 ∧ (dropTrailingZeros s = [] → decVal s = 0) := by
  have key : ∀ r : GoString, ∃ k, r = List.replicate k 48 ++ r.dropWhile (· == 48) := by
    intro r
    induction r with
    | nil => exact ⟨0, rfl⟩
    | cons b r ih =>
      obtain ⟨k, hk⟩ := ih
      by_cases hb : b = 48
      · subst hb
        refine ⟨k + 1, ?_⟩
        rw [List.dropWhile_cons]
        simp only [beq_self_eq_true, if_true]
        rw [List.replicate_succ, List.cons_append, ← hk]
      · exact ⟨0, by simp [hb]⟩
  obtain ⟨k, hk⟩ := key s.reverse
  have hs : s = dropTrailingZeros s ++ List.replicate k 48 := by
    have := congrArg List.reverse hk
    rw [List.reverse_reverse, List.reverse_append, List.reverse_replicate] at this
    exact this
  refine ⟨k, hs, fun he => ?_⟩
  rw [hs, he, List.nil_append]
  have := decVal_zeros k []
  rw [List.append_nil] at this
  rw [this]; rfl

theorem zone_cases (off : Int) :
    (if off = 0 then [90]
     else (if off < 0 then 45 else 43) :: (padDec 2 (off.natAbs / 60) ++ [58] ++ padDec 2 (off.natAbs % 60)) : GoString) =
      (if off = 0 then [90]
       else (if off < 0 then 45 else 43) :: (padDec 2 (off.natAbs / 60) ++ 58 :: padDec 2 (off.natAbs % 60))) := by
  split
  · rfl
  · simp

theorem parseZone_fmt {off : Int} (h : off.natAbs < 24 * 60) :
    parseZone (if off = 0 then [90]
     else (if off < 0 then 45 else 43) :: (padDec 2 (off.natAbs / 60) ++ [58] ++ padDec 2 (off.natAbs % 60))) = some off := by
  rw [zone_cases]
  by_cases h0 : off = 0
  · rw [if_pos h0, h0]; rfl
  · rw [if_neg h0]
    have hz := takeNum_pad (w := 2) (n := off.natAbs % 60) (by decide) (by omega) []
    rw [List.append_nil] at hz
    by_cases hneg : off < 0
    · rw [if_pos hneg]
      simp only [parseZone, show ¬ ((45 : UInt8) = 90) by decide, if_false, or_true, if_true,
        takeNum_pad (w := 2) (n := off.natAbs / 60) (by decide) (by omega), Option.bind_eq_bind, Option.bind_some,
        expectByte_cons, hz]
      rw [if_pos ⟨trivial, by omega, by omega⟩]
      simp only [Option.some.injEq]
      omega
    · rw [if_neg hneg]
      simp only [parseZone, show ¬ ((43 : UInt8) = 90) by decide, if_false, true_or, if_true,
        takeNum_pad (w := 2) (n := off.natAbs / 60) (by decide) (by omega), Option.bind_eq_bind, Option.bind_some,
        expectByte_cons, hz, show ¬ ((43 : UInt8) = 45) by decide]
      rw [if_pos ⟨trivial, by omega, by omega⟩]
      simp only [Option.some.injEq]
      omega

theorem zone_numEnd (off : Int) : NumEnd (if off = 0 then [90]
     else (if off < 0 then 45 else 43) :: (padDec 2 (off.natAbs / 60) ++ [58] ++ padDec 2 (off.natAbs % 60))) := by
  intro b t h
  have hb : b = 90 ∨ b = 45 ∨ b = 43 := by
    split at h
    · simp only [List.cons.injEq] at h; exact .inl h.1.symm
    · split at h <;> simp only [List.cons.injEq] at h
      · exact .inr (.inl h.1.symm)
      · exact .inr (.inr h.1.symm)
  rcases hb with rfl | rfl | rfl <;> decide

theorem parseNano_fmt {n : Nat} (h : n < 10 ^ 9) {rest : GoString} (hr : NumEnd rest) :
    parseNano ((if n = 0 then [] else 46 :: dropTrailingZeros (padDec 9 n)) ++ rest) = some (n, rest) := by
  obtain ⟨h1, h2, h3⟩ := padDec_spec (w := 9) (by decide) h
  by_cases h0 : n = 0
  · rw [if_pos h0, List.nil_append, h0]
    cases rest with
    | nil => rfl
    | cons b t => simp [parseNano, (hr b t rfl).2.1]
  · rw [if_neg h0, List.cons_append]
    obtain ⟨k, hk, hz⟩ := dropTrailingZeros_spec (padDec 9 n)
    have hne : dropTrailingZeros (padDec 9 n) ≠ [] := fun he => h0 (by rw [← h3]; exact hz he)
    have hdig : ∀ b ∈ dropTrailingZeros (padDec 9 n), IsDigit b := fun b hb => h2 b (by rw [hk]; simp [hb])
    simp only [parseNano, if_true, spanDigits_append hdig hr, if_neg hne, Option.some.injEq, Prod.mk.injEq, and_true]
    have hlen := congrArg List.length hk
    rw [h1, List.length_append, List.length_replicate] at hlen
    have : (dropTrailingZeros (padDec 9 n) ++ List.replicate 9 48).take 9 = padDec 9 n := by
      rw [List.take_append, List.take_of_length_le (by omega), List.take_replicate]
      conv => rhs; rw [hk]
      congr 2
      omega
    rw [this, h3]

/-- A time in the representable range is read back from its text. -/
theorem parseTime_fmt {t : GoTime} (h : t.Ok) : parseTime (fmtTime t) = some t := by
  obtain ⟨y, mo, d, hh, mi, se, ns, off⟩ := t
  obtain ⟨h1, h2, h3, h4, h5, h6, h7, h8⟩ := h
  dsimp only at h1 h2 h3 h4 h5 h6 h7 h8
  have hd31 : monthLength y mo ≤ 31 := by
    unfold monthLength
    split
    · split <;> decide
    all_goals decide
  unfold parseTime fmtTime
  dsimp only
  simp only [List.append_assoc, List.cons_append, List.nil_append]
  simp only [takeNum_pad (w := 4) (n := y) (by decide) (by omega), Option.bind_eq_bind, Option.bind_some, expectByte_cons,
    takeNum_pad (w := 2) (n := mo) (by decide) (by omega), takeNum_pad (w := 2) (n := d) (by decide) (by omega),
    takeNum_pad (w := 2) (n := hh) (by decide) (by omega), takeNum_pad (w := 2) (n := mi) (by decide) (by omega),
    takeNum_pad (w := 2) (n := se) (by decide) (by omega)]
  have hz := parseZone_fmt h8
  have he := zone_numEnd off
  simp only [List.append_assoc, List.cons_append, List.nil_append] at hz he
  rw [parseNano_fmt h7 he]
  simp only [Option.bind_some, hz]
  rw [if_pos ⟨h2.1, h2.2, h3.1, by rw [daysIn_eq]; exact h3.2, h4, h5, h6⟩]

theorem padDec_ascii (w n : Nat) : ∀ b ∈ padDec w n, b.toNat < 128 := by
  intro b hb
  unfold padDec at hb
  simp only [List.mem_append, List.mem_replicate] at hb
  rcases hb with ⟨_, rfl⟩ | hb
  · decide
  · have := (natDec_spec n).1 b hb
    unfold IsDigit at this
    omega

theorem fmtTime_ascii (t : GoTime) : ∀ b ∈ fmtTime t, b.toNat < 128 := by
  have htz : ∀ s : GoString, (∀ b ∈ s, b.toNat < 128) → ∀ b ∈ dropTrailingZeros s, b.toNat < 128 := by
    intro s hs b hb
    obtain ⟨k, hk, _⟩ := dropTrailingZeros_spec s
    exact hs b (by rw [hk]; simp [hb])
  intro b hb
  unfold fmtTime at hb
  simp only [List.mem_append, List.mem_cons, List.not_mem_nil, or_false] at hb
  rcases hb with ((((((((((((hb | rfl) | hb) | rfl) | hb) | rfl) | hb) | rfl) | hb) | rfl) | hb) | hb) | hb)
  all_goals first
    | exact padDec_ascii _ _ _ hb
    | decide
    | skip
  · split at hb
    · simp at hb
    · rcases List.mem_cons.1 hb with rfl | hb
      · decide
      · exact htz _ (padDec_ascii _ _) _ hb
  · split at hb
    · simp only [List.mem_singleton] at hb; subst hb; decide
    · simp only [List.mem_cons, List.mem_append, List.not_mem_nil, or_false] at hb
      rcases hb with rfl | (hb | rfl) | hb
      · split <;> decide
      · exact padDec_ascii _ _ _ hb
      · decide
      · exact padDec_ascii _ _ _ hb

theorem fmtTime_valid (t : GoTime) : validUTF8 (fmtTime t) = true := validUTF8_ascii (fmtTime_ascii t)

/-- Whatever time is read is in the representable range. -/
theorem parseTime_ok {s : GoString} {t : GoTime} (h : parseTime s = some t) : t.Ok := by
  have hpow : ∀ (n : Nat) (u v : GoString) (k : Nat), takeNum n u = some (k, v) → k < 10 ^ n := by
    intro n u v k h
    unfold takeNum at h
    split at h
    · rename_i hc
      simp only [Option.some.injEq, Prod.mk.injEq] at h
      rw [← h.1]
      have := decVal_lt (s := u.take n) (fun b hb => isDigit_iff.1 (List.all_eq_true.1 hc.2 b hb))
      rw [List.length_take, Nat.min_eq_left hc.1] at this
      exact this
    · simp at h
  unfold parseTime at h
  simp only [Option.bind_eq_bind, Option.bind_eq_some_iff] at h
  obtain ⟨⟨y, _⟩, hy, _, _, ⟨mo, _⟩, hmo, _, _, ⟨d, _⟩, hd, _, _, ⟨hh, _⟩, hhh, _, _, ⟨mi, _⟩, hmi, _, _, ⟨se, s1⟩, hse, ⟨ns, s2⟩, hns,
    off, hoff, h⟩ := h
  dsimp only at h hns hoff
  split at h
  · rename_i hc
    simp only [Option.some.injEq] at h
    subst h
    obtain ⟨c1, c2, c3, c4, c5, c6, c7⟩ := hc
    refine ⟨?_, ⟨c1, c2⟩, ⟨c3, by rw [← daysIn_eq]; exact c4⟩, c5, c6, c7, ?_, ?_⟩
    · have := hpow _ _ _ _ hy; dsimp only; omega
    · dsimp only
      unfold parseNano at hns
      split at hns
      · simp only [Option.some.injEq, Prod.mk.injEq] at hns; omega
      · split at hns
        · dsimp only at hns
          split at hns
          · simp at hns
          · simp only [Option.some.injEq, Prod.mk.injEq] at hns
            rw [← hns.1]
            rename_i t _ _
            have hlen : (((spanDigits t).1 ++ List.replicate 9 48).take 9).length = 9 := by
              rw [List.length_take, List.length_append, List.length_replicate]; omega
            have := decVal_lt (s := ((spanDigits t).1 ++ List.replicate 9 48).take 9) (by
              intro b hb
              have := List.mem_of_mem_take hb
              rcases List.mem_append.1 this with h | h
              · unfold spanDigits at h
                exact isDigit_iff.1 (mem_takeWhile h)
              · rw [List.mem_replicate] at h; rw [h.2]; decide)
            rw [hlen] at this
            exact this
        · simp only [Option.some.injEq, Prod.mk.injEq] at hns; omega
    · dsimp only
      unfold parseZone at hoff
      split at hoff
      · simp at hoff
      · split at hoff
        · split at hoff
          · simp only [Option.some.injEq] at hoff; omega
          · simp at hoff
        · split at hoff
          · simp only [Option.bind_eq_bind, Option.bind_eq_some_iff] at hoff
            obtain ⟨⟨a, _⟩, _, _, _, ⟨b, _⟩, _, hoff⟩ := hoff
            dsimp only at hoff
            split at hoff
            · rename_i hc
              simp only [Option.some.injEq] at hoff
              split at hoff <;> omega
            · simp at hoff
          · simp at hoff
  · simp at h

end GoIdentity
