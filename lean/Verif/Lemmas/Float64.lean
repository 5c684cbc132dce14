import Verif.Model.Float64
import Verif.Lemmas.JsonGrammar
import Verif.Props.Float
/-!
# Decimal literals and float64: what the comparison with an integer means
-/
namespace GoIdentity

/-- The value of a sequence of decimal digits. -/
def numeral (s : GoString) : ℕ := s.foldl (fun a b => a * 10 + (b.toNat - 48)) 0

/-- `v` is the number that the JSON literal `l` stands for: `[-] int [. frac] [e [+-] exp]`. -/
def LiteralValue (l : GoString) (v : ℚ) : Prop :=
  ∃ (sign i f e fd : GoString) (x : ℤ),
    (sign = [] ∨ sign = [0x2D]) ∧ JsonGrammar.IntPart i ∧
    (f = [] ∧ fd = [] ∨ JsonGrammar.Digits fd ∧ f = 0x2E :: fd) ∧
    (e = [] ∧ x = 0 ∨ ∃ c s ds, (c = 0x65 ∨ c = 0x45) ∧ JsonGrammar.Digits ds ∧ e = c :: (s ++ ds) ∧
      ((s = [] ∨ s = [0x2B]) ∧ x = numeral ds ∨ s = [0x2D] ∧ x = -(numeral ds : ℤ))) ∧
    l = sign ++ i ++ f ++ e ∧
    v = (if sign = [] then 1 else -1) * ((numeral i : ℚ) + (numeral fd : ℚ) / 10 ^ fd.length) * (10 : ℚ) ^ x

theorem literalValue_number {l : GoString} {v : ℚ} (h : LiteralValue l v) : JsonGrammar.Number l := by
  obtain ⟨sign, i, f, e, fd, x, hs, hi, hf, he, rfl, -⟩ := h
  refine ⟨sign, i, f, e, hs, hi, ?_, ?_, rfl⟩
  · rcases hf with ⟨rfl, -⟩ | ⟨hd, rfl⟩
    · exact .inl rfl
    · exact .inr ⟨fd, hd, rfl⟩
  · rcases he with ⟨rfl, -⟩ | ⟨c, s, ds, hc, hd, rfl, hx⟩
    · exact .inl rfl
    · refine .inr ⟨c, s, ds, hc, ?_, hd, rfl⟩
      tauto

/-- Every number of the grammar has a value. -/
theorem literalValue_exists {l : GoString} (h : JsonGrammar.Number l) : ∃ v, LiteralValue l v := by
  obtain ⟨sign, i, f, e, hs, hi, hf, he, rfl⟩ := h
  obtain ⟨fd, hf'⟩ : ∃ fd, f = [] ∧ fd = [] ∨ JsonGrammar.Digits fd ∧ f = 0x2E :: fd := by
    rcases hf with rfl | ⟨ds, hd, rfl⟩
    · exact ⟨[], .inl ⟨rfl, rfl⟩⟩
    · exact ⟨ds, .inr ⟨hd, rfl⟩⟩
  have : ∃ x : ℤ, (e = [] ∧ x = 0 ∨ ∃ c s ds, (c = 0x65 ∨ c = 0x45) ∧ JsonGrammar.Digits ds ∧ e = c :: (s ++ ds) ∧
      ((s = [] ∨ s = [0x2B]) ∧ x = numeral ds ∨ s = [0x2D] ∧ x = -(numeral ds : ℤ))) := by
    rcases he with rfl | ⟨c, s, ds, hc, hs, hd, rfl⟩
    · exact ⟨0, .inl ⟨rfl, rfl⟩⟩
    · rcases hs with hs | hs | hs
      · exact ⟨_, .inr ⟨c, s, ds, hc, hd, rfl, .inl ⟨.inl hs, rfl⟩⟩⟩
      · exact ⟨_, .inr ⟨c, s, ds, hc, hd, rfl, .inl ⟨.inr hs, rfl⟩⟩⟩
      · exact ⟨_, .inr ⟨c, s, ds, hc, hd, rfl, .inr ⟨hs, rfl⟩⟩⟩
  obtain ⟨x, hx⟩ := this
  exact ⟨_, sign, i, f, e, fd, x, hs, hi, hf', hx, rfl, rfl⟩

/-- `r` is `v` rounded to float64: a nearest one, and of two nearest ones the one with the even significand. -/
def RoundsTo (v r : ℚ) : Prop :=
  IsFloat64 r ∧ ∀ y, IsFloat64 y → |r - v| < |y - v| ∨ y = r ∨
    |r - v| = |y - v| ∧ ∃ m e : ℤ, r = m * (2 : ℚ) ^ e ∧ 2 ^ 52 ≤ |m| ∧ |m| < 2 ^ 53 ∧ m % 2 = 0

theorem float_multiple {y : ℚ} (hy : IsFloat64 y) {j : ℤ} (h : (2 : ℚ) ^ j ≤ y) : ∃ z : ℤ, y = z * (2 : ℚ) ^ (j - 52) := by
  obtain ⟨m, e, hm, -, -, rfl⟩ := hy
  have he : j - 52 ≤ e := by
    by_contra hlt
    have h1 : (m : ℚ) * 2 ^ e < (2 : ℚ) ^ (53 : ℤ) * 2 ^ e := by
      apply mul_lt_mul_of_pos_right _ (zpow_pos (by norm_num) _)
      have : m < 2 ^ 53 := (abs_lt.1 hm).2
      exact_mod_cast this
    rw [← zpow_add₀ (by norm_num)] at h1
    have h2 := (zpow_lt_zpow_iff_right₀ (by norm_num : (1 : ℚ) < 2)).1 (lt_of_le_of_lt h h1)
    omega
  refine ⟨m * 2 ^ (e - (j - 52)).toNat, ?_⟩
  push_cast
  rw [mul_assoc, ← zpow_natCast (2 : ℚ), Int.toNat_of_nonneg (by omega), ← zpow_add₀ (by norm_num)]
  congr 2
  omega

theorem nat_multiple (n : ℕ) {j : ℤ} (h : j ≤ 0) : ∃ z : ℤ, (n : ℚ) = z * (2 : ℚ) ^ j := by
  refine ⟨n * 2 ^ (-j).toNat, ?_⟩
  push_cast
  rw [mul_assoc, ← zpow_natCast (2 : ℚ), Int.toNat_of_nonneg (by omega), ← zpow_add₀ (by norm_num)]
  simp

theorem multiples_apart {a b : ℤ} {u : ℚ} (hu : 0 < u) (h : a * u < b * u) : a * u + u ≤ b * u := by
  have h1 : (a : ℚ) < b := lt_of_mul_lt_mul_right h hu.le
  have h2 : a + 1 ≤ b := by exact_mod_cast h1
  have h3 : ((a : ℚ) + 1) ≤ b := by exact_mod_cast h2
  nlinarith

/-- Between an integer below `2 ^ 52` and its neighbours there is no float64. -/
theorem float_gap {n k : ℕ} (h1 : 2 ^ k ≤ n) (hk : k < 52) {y : ℚ} (hy : IsFloat64 y) :
    (y ≤ n ∨ (n : ℚ) + (2 : ℚ) ^ ((k : ℤ) - 52) ≤ y) ∧
    ((n : ℚ) ≤ y ∨ y ≤ (n : ℚ) - (if n = 2 ^ k then (2 : ℚ) ^ ((k : ℤ) - 53) else (2 : ℚ) ^ ((k : ℤ) - 52))) := by
  have h1q : (2 : ℚ) ^ (k : ℤ) ≤ n := by rw [zpow_natCast]; exact_mod_cast h1
  constructor
  · rcases le_or_gt y n with h | h
    · exact .inl h
    · right
      obtain ⟨z, hz⟩ := float_multiple hy (h1q.trans h.le)
      obtain ⟨w, hw⟩ := nat_multiple n (j := (k : ℤ) - 52) (by omega)
      rw [hw, hz] at h ⊢
      exact multiples_apart (zpow_pos (by norm_num) _) h
  · rcases le_or_gt (n : ℚ) y with h | h
    · exact .inl h
    · right
      split
      · rename_i he
        by_contra hlt
        have hlow : (2 : ℚ) ^ ((k : ℤ) - 1) ≤ y := by
          have e1 : (2 : ℚ) ^ ((k : ℤ) - 53) ≤ (2 : ℚ) ^ ((k : ℤ) - 1) := zpow_le_zpow_right₀ (by norm_num) (by omega)
          have e2 : (2 : ℚ) ^ (k : ℤ) = 2 * (2 : ℚ) ^ ((k : ℤ) - 1) := by
            rw [← zpow_one_add₀ (by norm_num)]; congr 1; omega
          have := not_le.1 hlt
          linarith
        obtain ⟨z, hz⟩ := float_multiple hy hlow
        obtain ⟨w, hw⟩ := nat_multiple n (j := (k : ℤ) - 53) (by omega)
        rw [show (k : ℤ) - 1 - 52 = k - 53 by omega] at hz
        rw [hz, hw] at h hlt
        have := multiples_apart (zpow_pos (by norm_num) _) h
        exact hlt (by linarith)
      · rename_i he
        by_contra hlt
        have hlow : (2 : ℚ) ^ (k : ℤ) ≤ y := by
          have e1 : (2 : ℚ) ^ ((k : ℤ) - 52) ≤ 1 := by
            have := zpow_le_zpow_right₀ (by norm_num : (1 : ℚ) ≤ 2) (show (k : ℤ) - 52 ≤ 0 by omega)
            simpa using this
          have e2 : 2 ^ k + 1 ≤ n := by omega
          have e3 : (2 : ℚ) ^ (k : ℤ) + 1 ≤ n := by rw [zpow_natCast]; exact_mod_cast e2
          have := not_le.1 hlt
          linarith
        obtain ⟨z, hz⟩ := float_multiple hy hlow
        obtain ⟨w, hw⟩ := nat_multiple n (j := (k : ℤ) - 52) (by omega)
        rw [hz, hw] at h hlt
        have := multiples_apart (zpow_pos (by norm_num) _) h
        exact hlt (by linarith)

/-- The neighbours. -/
theorem float_above {n k : ℕ} (h2 : n < 2 ^ (k + 1)) (hk : k < 52) : IsFloat64 ((n : ℚ) + (2 : ℚ) ^ ((k : ℤ) - 52)) := by
  refine ⟨n * 2 ^ (52 - k) + 1, (k : ℤ) - 52, ?_, by omega, by omega, ?_⟩
  · have : n * 2 ^ (52 - k) < 2 ^ (k + 1) * 2 ^ (52 - k) := Nat.mul_lt_mul_of_pos_right h2 (by positivity)
    rw [← pow_add, show k + 1 + (52 - k) = 53 by omega] at this
    obtain ⟨j, hj⟩ : ∃ j, 52 - k = j + 1 := ⟨51 - k, by omega⟩
    rw [hj, pow_succ, ← mul_assoc] at this ⊢
    have h3 : n * 2 ^ j * 2 + 1 < 2 ^ 53 := by omega
    rw [abs_of_nonneg (by positivity)]
    exact_mod_cast h3
  · push_cast
    rw [add_mul, mul_assoc, ← zpow_natCast (2 : ℚ), ← zpow_add₀ (by norm_num), Nat.cast_sub hk.le]
    simp

theorem float_below {n k : ℕ} (h1 : 2 ^ k ≤ n) (h2 : n < 2 ^ (k + 1)) (hk : k < 52) : IsFloat64 ((n : ℚ) - (2 : ℚ) ^ ((k : ℤ) - 52)) := by
  refine ⟨n * 2 ^ (52 - k) - 1, (k : ℤ) - 52, ?_, by omega, by omega, ?_⟩
  · have : n * 2 ^ (52 - k) < 2 ^ (k + 1) * 2 ^ (52 - k) := Nat.mul_lt_mul_of_pos_right h2 (by positivity)
    rw [← pow_add, show k + 1 + (52 - k) = 53 by omega] at this
    have h3 : 0 < n * 2 ^ (52 - k) := by
      have : 0 < n := lt_of_lt_of_le (by positivity) h1
      positivity
    rw [abs_lt]
    have h4 : ((n * 2 ^ (52 - k) : ℕ) : ℤ) = (n : ℤ) * 2 ^ (52 - k) := by push_cast; ring
    rw [← h4]
    omega
  · push_cast
    rw [sub_mul, mul_assoc, ← zpow_natCast (2 : ℚ), ← zpow_add₀ (by norm_num), Nat.cast_sub hk.le]
    simp

theorem float_below_pow {k : ℕ} (hk : k < 52) : IsFloat64 (((2 ^ k : ℕ) : ℚ) - (2 : ℚ) ^ ((k : ℤ) - 53)) := by
  refine ⟨2 ^ 53 - 1, (k : ℤ) - 53, by norm_num, by omega, by omega, ?_⟩
  have e : (2 : ℚ) ^ k = 2 ^ 53 * (2 : ℚ) ^ ((k : ℤ) - 53) := by
    rw [← zpow_natCast (2 : ℚ) 53, ← zpow_add₀ (by norm_num), ← zpow_natCast]
    congr 1; push_cast; ring
  push_cast
  rw [e]; ring

theorem roundsTo_iff {n k : ℕ} (h1 : 2 ^ k ≤ n) (h2 : n < 2 ^ (k + 1)) (hk : k < 52) (v : ℚ) :
    RoundsTo v n ↔ (n : ℚ) - (if n = 2 ^ k then (2 : ℚ) ^ ((k : ℤ) - 54) else (2 : ℚ) ^ ((k : ℤ) - 53)) ≤ v ∧
      v ≤ (n : ℚ) + (2 : ℚ) ^ ((k : ℤ) - 53) := by
  have d1 : (2 : ℚ) ^ ((k : ℤ) - 52) = 2 * (2 : ℚ) ^ ((k : ℤ) - 53) := by
    rw [← zpow_one_add₀ (by norm_num)]; congr 1; omega
  have d2 : (2 : ℚ) ^ ((k : ℤ) - 53) = 2 * (2 : ℚ) ^ ((k : ℤ) - 54) := by
    rw [← zpow_one_add₀ (by norm_num)]; congr 1; omega
  have p1 : (0 : ℚ) < (2 : ℚ) ^ ((k : ℤ) - 54) := zpow_pos (by norm_num) _
  have hn52 : n < 2 ^ 52 := lt_of_lt_of_le h2 (Nat.pow_le_pow_right (by norm_num) hk)
  constructor
  · rintro ⟨-, h⟩
    have near : ∀ y, IsFloat64 y → |(n : ℚ) - v| ≤ |y - v| := by
      intro y hy
      rcases h y hy with h | rfl | ⟨h, -⟩
      · exact h.le
      · exact le_rfl
      · exact h.le
    have above := near _ (float_above h2 hk)
    have hu : v ≤ (n : ℚ) + (2 : ℚ) ^ ((k : ℤ) - 53) := by
      by_contra hc
      have hc := not_le.1 hc
      rw [abs_sub_comm _ v, abs_of_nonneg (by linarith)] at above
      rcases abs_cases ((n : ℚ) + (2 : ℚ) ^ ((k : ℤ) - 52) - v) with ⟨e, -⟩ | ⟨e, -⟩ <;> rw [e] at above <;> linarith
    refine ⟨?_, hu⟩
    split
    · rename_i he
      have below := near _ (he ▸ float_below_pow hk)
      by_contra hc
      have hc := not_le.1 hc
      rw [abs_of_nonneg (by linarith)] at below
      rcases abs_cases ((n : ℚ) - (2 : ℚ) ^ ((k : ℤ) - 53) - v) with ⟨e, -⟩ | ⟨e, -⟩ <;> rw [e] at below <;> linarith
    · have below := near _ (float_below h1 h2 hk)
      by_contra hc
      have hc := not_le.1 hc
      rw [abs_of_nonneg (by linarith)] at below
      rcases abs_cases ((n : ℚ) - (2 : ℚ) ^ ((k : ℤ) - 52) - v) with ⟨e, -⟩ | ⟨e, -⟩ <;> rw [e] at below <;> linarith
  · rintro ⟨hl, hu⟩
    refine ⟨isFloat64_nat (by omega), fun y hy => ?_⟩
    have even : ∃ m e : ℤ, (n : ℚ) = m * (2 : ℚ) ^ e ∧ 2 ^ 52 ≤ |m| ∧ |m| < 2 ^ 53 ∧ m % 2 = 0 := by
      refine ⟨n * 2 ^ (52 - k), (k : ℤ) - 52, ?_, ?_, ?_, ?_⟩
      · push_cast
        rw [mul_assoc, ← zpow_natCast (2 : ℚ), ← zpow_add₀ (by norm_num), Nat.cast_sub hk.le]
        simp
      · rw [abs_of_nonneg (by positivity)]
        have : 2 ^ k * 2 ^ (52 - k) ≤ n * 2 ^ (52 - k) := Nat.mul_le_mul_right _ h1
        rw [← pow_add, show k + (52 - k) = 52 by omega] at this
        exact_mod_cast this
      · rw [abs_of_nonneg (by positivity)]
        have : n * 2 ^ (52 - k) < 2 ^ (k + 1) * 2 ^ (52 - k) := Nat.mul_lt_mul_of_pos_right h2 (by positivity)
        rw [← pow_add, show k + 1 + (52 - k) = 53 by omega] at this
        exact_mod_cast this
      · obtain ⟨j, hj⟩ : ∃ j, 52 - k = j + 1 := ⟨51 - k, by omega⟩
        rw [hj, pow_succ, ← mul_assoc]
        omega
    obtain ⟨g1, g2⟩ := float_gap h1 hk hy
    have key : |(n : ℚ) - v| ≤ |y - v| ∨ y = n := by
      rcases lt_trichotomy y n with hlt | heq | hgt
      · left
        rcases g2 with g2 | g2
        · exact absurd hlt (not_lt.2 g2)
        · rw [abs_sub_comm y v]
          split at hl <;> rename_i hc
          · rw [if_pos hc] at g2
            rw [abs_le, abs_of_nonneg (by linarith)]
            constructor <;> linarith
          · rw [if_neg hc] at g2
            rw [abs_le, abs_of_nonneg (by linarith)]
            constructor <;> linarith
      · exact .inr heq
      · left
        rcases g1 with g1 | g1
        · exact absurd hgt (not_lt.2 g1)
        · rw [abs_le, abs_of_nonneg (by linarith)]
          constructor
          · linarith
          · split at hl <;> linarith
    rcases key with h | h
    · rcases lt_or_eq_of_le h with h | h
      · exact .inl h
      · exact .inr (.inr ⟨h, even⟩)
    · exact .inr (.inl h)

/-! ## Reading literals -/

theorem digits_all {ds : GoString} (h : JsonGrammar.Digits ds) : ∀ b ∈ ds, isDigit b = true := by
  intro b hb
  have := h.2 b hb
  simpa [isDigit, UInt8.le_iff_toNat_le] using this

theorem intPart_digits {i : GoString} (h : JsonGrammar.IntPart i) : JsonGrammar.Digits i := by
  rcases h with rfl | ⟨h, -⟩
  · exact ⟨by simp, by simp⟩
  · exact h

theorem takeWhile_digits {ds r : GoString} (h : ∀ b ∈ ds, isDigit b = true) (hr : ∀ b t, r = b :: t → isDigit b = false) :
    (ds ++ r).takeWhile isDigit = ds ∧ (ds ++ r).dropWhile isDigit = r := by
  induction ds with
  | nil =>
    cases r with
    | nil => simp
    | cons b t => simp [hr b t rfl]
  | cons d ds ih =>
    have := ih fun b hb => h b (by simp [hb])
    simp [h d (by simp), this]

/-- The exponent as read: exact below 100000, and at least 10000 beyond. -/
theorem expDigits_spec (ds : GoString) : expDigits ds = numeral ds ∨ 10000 ≤ expDigits ds ∧ 100000 ≤ numeral ds := by
  have key : ∀ (ds : GoString) (e a : ℕ), (e = a ∨ 10000 ≤ e ∧ 100000 ≤ a) →
      (ds.foldl (fun e b => if e < 10000 then e * 10 + digitVal b else e) e = ds.foldl (fun a b => a * 10 + (b.toNat - 48)) a ∨
        10000 ≤ ds.foldl (fun e b => if e < 10000 then e * 10 + digitVal b else e) e ∧
        100000 ≤ ds.foldl (fun a b => a * 10 + (b.toNat - 48)) a) := by
    intro ds
    induction ds with
    | nil => intro e a h; exact h
    | cons b ds ih =>
      intro e a h
      rw [List.foldl_cons, List.foldl_cons]
      apply ih
      split
      · rcases h with rfl | h
        · exact .inl rfl
        · omega
      · right; omega
  exact key ds 0 0 (.inl rfl)

/-- The exponent after the digits. -/
def expPart : GoString → ℤ
  | b :: t => if b = 101 ∨ b = 69 then expVal t else 0
  | [] => 0

theorem fracExp_dot (t : GoString) : fracExp (46 :: t) = (t.takeWhile isDigit, expPart (t.dropWhile isDigit)) := by
  unfold fracExp expPart
  exact Prod.ext rfl rfl

theorem fracExp_other {r : GoString} (h : ∀ t, r ≠ 46 :: t) : fracExp r = ([], expPart r) := by
  unfold fracExp expPart
  dsimp only
  split
  · rename_i t; exact absurd rfl (h t)
  · rfl

/-- Two exponents that agree, or are both too large to matter. -/
def ExpAgree (x X : ℤ) : Prop := X = x ∨ 10000 ≤ X ∧ 100000 ≤ x ∨ X ≤ -10000 ∧ x ≤ -100000

theorem litFrac_parts {l : GoString} {v : ℚ} (h : LiteralValue l v) :
    ∃ (neg : Bool) (m L : ℕ) (x X : ℤ), ExpAgree x X ∧ L ≤ l.length ∧ m < 10 ^ l.length ∧
      v = (if neg then -1 else 1) * ((m : ℚ) * (10 : ℚ) ^ (x - L)) ∧
      litFrac l = (neg, m * 10 ^ (X - L).toNat, 10 ^ (-(X - L)).toNat) := by
  obtain ⟨sign, i, f, e, fd, x, hs, hi, hf, he, rfl, hv⟩ := h
  have hid := digits_all (intPart_digits hi)
  have hfd : ∀ b ∈ fd, isDigit b = true := by
    rcases hf with ⟨-, rfl⟩ | ⟨h, -⟩
    · simp
    · exact digits_all h
  -- what follows the digits
  have he0 : ∀ b t, e = b :: t → isDigit b = false ∧ b ≠ 46 := by
    rintro b t rfl
    rcases he with ⟨h, -⟩ | ⟨c, s, ds, hc, -, h, -⟩
    · simp at h
    · simp only [List.cons.injEq] at h
      rw [h.1]
      rcases hc with rfl | rfl <;> decide
  obtain ⟨X, hX, hexp⟩ : ∃ X, ExpAgree x X ∧ expPart e = X := by
    rcases he with ⟨rfl, rfl⟩ | ⟨c, s, ds, hc, hd, rfl, hx⟩
    · exact ⟨0, .inl rfl, rfl⟩
    · refine ⟨_, ?_, rfl⟩
      rw [expPart, if_pos (by simpa using hc)]
      have hsp := expDigits_spec ds
      rcases hx with ⟨rfl | rfl, rfl⟩ | ⟨rfl, rfl⟩
      · have : expVal ds = expDigits ds := by
          obtain ⟨d, t, rfl⟩ := List.exists_cons_of_ne_nil hd.1
          have := hd.2 d (by simp)
          unfold expVal
          split
          · rename_i h; simp only [List.cons.injEq] at h; rw [h.1] at this; exact absurd this.1 (by decide)
          · rename_i h; simp only [List.cons.injEq] at h; rw [h.1] at this; exact absurd this.1 (by decide)
          · rfl
        rw [List.nil_append, this]
        unfold ExpAgree; omega
      · have : expVal ([0x2B] ++ ds) = expDigits ds := rfl
        rw [this]
        unfold ExpAgree; omega
      · have : expVal ([0x2D] ++ ds) = -(expDigits ds : ℤ) := rfl
        rw [this]
        unfold ExpAgree; omega
  have hfe : fracExp (f ++ e) = (fd, X) := by
    rcases hf with ⟨rfl, rfl⟩ | ⟨hd, rfl⟩
    · rw [List.nil_append, fracExp_other fun t h => (he0 46 t h).2 rfl, hexp]
    · have ht := takeWhile_digits (r := e) hfd fun b t h => (he0 b t h).1
      rw [List.cons_append, fracExp_dot, ht.1, ht.2, hexp]
  have hul : unsignedLit (i ++ (f ++ e)) = (decVal (i ++ fd), X - fd.length) := by
    have ht := takeWhile_digits (r := f ++ e) hid (by
      intro b t h
      rcases hf with ⟨rfl, -⟩ | ⟨-, rfl⟩
      · exact (he0 b t h).1
      · simp only [List.cons_append, List.cons.injEq] at h; rw [← h.1]; decide)
    unfold unsignedLit
    rw [ht.1, ht.2, hfe]
  have hnum : ∀ s : GoString, numeral s = decVal s := fun s => rfl
  have hdig : ∀ b ∈ i ++ fd, IsDigit b := by
    intro b hb
    rcases List.mem_append.1 hb with h | h
    · have := hid b h; simpa [isDigit, IsDigit, UInt8.le_iff_toNat_le] using this
    · have := hfd b h; simpa [isDigit, IsDigit, UInt8.le_iff_toNat_le] using this
  have hlen : (i ++ fd).length ≤ (sign ++ i ++ f ++ e).length := by
    rcases hf with ⟨rfl, rfl⟩ | ⟨-, rfl⟩ <;> simp <;> omega
  refine ⟨!sign.isEmpty, decVal (i ++ fd), fd.length, x, X, hX, ?_, ?_, ?_, ?_⟩
  · simp only [List.length_append] at hlen ⊢; omega
  · exact lt_of_lt_of_le (decVal_lt hdig) (Nat.pow_le_pow_right (by norm_num) hlen)
  · rw [hv, decVal_append, hnum, hnum, zpow_sub₀ (by norm_num), zpow_natCast]
    have : (10 : ℚ) ^ fd.length ≠ 0 := by positivity
    rcases hs with rfl | rfl
    · simp only [List.isEmpty_nil, Bool.not_true, if_true]
      push_cast
      field_simp
    · simp only [List.isEmpty_cons, Bool.not_false, if_true, List.cons_ne_nil, if_false]
      push_cast
      field_simp
  · obtain ⟨d, t, rfl⟩ := List.exists_cons_of_ne_nil (intPart_digits hi).1
    have hd0 := (intPart_digits hi).2 d (by simp)
    unfold litFrac
    rcases hs with rfl | rfl
    · have : (([] ++ (d :: t) ++ f ++ e : GoString).head? == some 45) = false := by
        simp only [List.nil_append, List.cons_append, List.head?_cons, beq_eq_false_iff_ne, ne_eq, Option.some.injEq]
        rintro rfl
        exact absurd hd0.1 (by decide)
      dsimp only
      rw [this]
      simp only [Bool.false_eq_true, if_false, List.nil_append, List.append_assoc]
      rw [hul]
      rfl
    · have : (([0x2D] ++ (d :: t) ++ f ++ e : GoString).head? == some 45) = true := rfl
      dsimp only
      rw [this]
      simp only [if_true]
      have h2 : ([0x2D] ++ (d :: t) ++ f ++ e : GoString).drop 1 = (d :: t) ++ (f ++ e) := by simp
      rw [h2, hul]
      rfl

/-- A literal has one value only. -/
theorem literalValue_unique {l : GoString} {v w : ℚ} (h : LiteralValue l v) (h' : LiteralValue l w) : v = w := by
  obtain ⟨sign, i, f, e, fd, x, hs, hi, hf, he, rfl, rfl⟩ := h
  obtain ⟨sign', i', f', e', fd', x', hs', hi', hf', he', hl, rfl⟩ := h'
  have head : ∀ {i t : GoString}, JsonGrammar.IntPart i → i ++ t ≠ [] ∧ (i ++ t).head? ≠ some 0x2D := by
    intro i t hi
    obtain ⟨d, t', rfl⟩ := List.exists_cons_of_ne_nil (intPart_digits hi).1
    have := (intPart_digits hi).2 d (by simp)
    refine ⟨by simp, ?_⟩
    simp only [List.cons_append, List.head?_cons, ne_eq, Option.some.injEq]
    rintro rfl
    exact absurd this.1 (by decide)
  have hss : sign = sign' ∧ i ++ (f ++ e) = i' ++ (f' ++ e') := by
    simp only [List.append_assoc] at hl
    rcases hs with rfl | rfl <;> rcases hs' with rfl | rfl
    · exact ⟨rfl, hl⟩
    · exfalso
      apply (head (t := f ++ e) hi).2
      rw [List.nil_append] at hl
      rw [hl]; rfl
    · exfalso
      apply (head (t := f' ++ e') hi').2
      rw [List.nil_append] at hl
      rw [← hl]; rfl
    · exact ⟨rfl, by simpa using hl⟩
  obtain ⟨rfl, hl2⟩ := hss
  clear hl
  -- the exponent part begins with a letter
  have eHead : ∀ {e : GoString} {x : ℤ}, (e = [] ∧ x = 0 ∨ ∃ c s ds, (c = 0x65 ∨ c = 0x45) ∧ JsonGrammar.Digits ds ∧ e = c :: (s ++ ds) ∧
      ((s = [] ∨ s = [0x2B]) ∧ x = numeral ds ∨ s = [0x2D] ∧ x = -(numeral ds : ℤ))) → ∀ b t, e = b :: t → isDigit b = false ∧ b ≠ 46 := by
    intro e x he b t h
    subst h
    rcases he with ⟨h, -⟩ | ⟨c, s, ds, hc, -, h, -⟩
    · simp at h
    · simp only [List.cons.injEq] at h
      rw [h.1]
      rcases hc with rfl | rfl <;> decide
  have fHead : ∀ {f fd e : GoString} {x : ℤ}, (f = [] ∧ fd = [] ∨ JsonGrammar.Digits fd ∧ f = 0x2E :: fd) →
      (e = [] ∧ x = 0 ∨ ∃ c s ds, (c = 0x65 ∨ c = 0x45) ∧ JsonGrammar.Digits ds ∧ e = c :: (s ++ ds) ∧
      ((s = [] ∨ s = [0x2B]) ∧ x = numeral ds ∨ s = [0x2D] ∧ x = -(numeral ds : ℤ))) → ∀ b t, f ++ e = b :: t → isDigit b = false := by
    intro f fd e x hf he b t h
    rcases hf with ⟨rfl, -⟩ | ⟨-, rfl⟩
    · exact (eHead he b t h).1
    · simp only [List.cons_append, List.cons.injEq] at h; rw [← h.1]; decide
  have t1 := takeWhile_digits (digits_all (intPart_digits hi)) (fHead hf he)
  have t2 := takeWhile_digits (digits_all (intPart_digits hi')) (fHead hf' he')
  rw [hl2] at t1
  obtain rfl : i = i' := t1.1.symm.trans t2.1
  have hfe : f ++ e = f' ++ e' := t1.2.symm.trans t2.2
  have hfd : fd = fd' ∧ e = e' := by
    rcases hf with ⟨rfl, rfl⟩ | ⟨hd, rfl⟩ <;> rcases hf' with ⟨rfl, rfl⟩ | ⟨hd', rfl⟩
    · exact ⟨rfl, hfe⟩
    · exact absurd rfl (eHead he _ _ hfe).2
    · exact absurd rfl (eHead he' _ _ hfe.symm).2
    · simp only [List.cons_append, List.cons.injEq, true_and] at hfe
      have u1 := takeWhile_digits (digits_all hd) fun b t h => (eHead he b t h).1
      have u2 := takeWhile_digits (digits_all hd') fun b t h => (eHead he' b t h).1
      rw [hfe] at u1
      exact ⟨u1.1.symm.trans u2.1, u1.2.symm.trans u2.2⟩
  obtain ⟨rfl, rfl⟩ := hfd
  have hx : x = x' := by
    rcases he with ⟨rfl, rfl⟩ | ⟨c, s, ds, hc, hd, rfl, hx⟩
    · rcases he' with ⟨-, rfl⟩ | ⟨c, s, ds, hc, hd, h, hx⟩
      · rfl
      · simp at h
    · rcases he' with ⟨h, -⟩ | ⟨c', s', ds', hc', hd', h, hx'⟩
      · simp at h
      · simp only [List.cons.injEq] at h
        obtain ⟨-, h⟩ := h
        obtain ⟨d, t, rfl⟩ := List.exists_cons_of_ne_nil hd.1
        obtain ⟨d', t', rfl⟩ := List.exists_cons_of_ne_nil hd'.1
        have k1 := hd.2 d (by simp)
        have k2 := hd'.2 d' (by simp)
        have n1 : d ≠ 0x2B ∧ d ≠ 0x2D := by constructor <;> rintro rfl <;> exact absurd k1.1 (by decide)
        have n2 : d' ≠ 0x2B ∧ d' ≠ 0x2D := by constructor <;> rintro rfl <;> exact absurd k2.1 (by decide)
        rcases hx with ⟨rfl | rfl, rfl⟩ | ⟨rfl, rfl⟩ <;> rcases hx' with ⟨rfl | rfl, rfl⟩ | ⟨rfl, rfl⟩ <;>
          simp only [List.nil_append, List.cons_append, List.cons.injEq, reduceCtorEq, false_and] at h
        · rw [h.1, h.2]
        · exact absurd h.1 n1.1
        · exact absurd h.1 n1.2
        · exact absurd h.1.symm n2.1
        · rw [h.2.1, h.2.2]
        · exact absurd h.1 (by decide)
        · exact absurd h.1.symm n2.2
        · exact absurd h.1 (by decide)
        · rw [h.2.1, h.2.2]
  rw [hx]

theorem frac_zpow (m : ℕ) (z : ℤ) : ((m * 10 ^ z.toNat : ℕ) : ℚ) / ((10 ^ (-z).toNat : ℕ) : ℚ) = m * (10 : ℚ) ^ z := by
  push_cast
  rcases le_total 0 z with h | h
  · rw [show (-z).toNat = 0 by omega, pow_zero, div_one]
    congr 1
    rw [← zpow_natCast, Int.toNat_of_nonneg h]
  · rw [show z.toNat = 0 by omega, pow_zero, mul_one, div_eq_mul_inv, ← zpow_natCast, Int.toNat_of_nonneg (by omega), ← zpow_neg, neg_neg]

theorem litFrac_value {l : GoString} {v : ℚ} (h : LiteralValue l v) (hl : l.length ≤ 9000) :
    ∃ (neg : Bool) (A B : ℕ), litFrac l = (neg, A, B) ∧ 0 < B ∧ (neg = true → v ≤ 0) ∧ (neg = false → 0 ≤ v) ∧
      (|v| = (A : ℚ) / B ∨ (10 : ℚ) ^ (1000 : ℤ) ≤ |v| ∧ (10 : ℚ) ^ (1000 : ℤ) ≤ (A : ℚ) / B ∨
        |v| ≤ (10 : ℚ) ^ (-1000 : ℤ) ∧ (A : ℚ) / B ≤ (10 : ℚ) ^ (-1000 : ℤ)) := by
  obtain ⟨neg, m, L, x, X, hX, hL, hm, hv, hf⟩ := litFrac_parts h
  have pos : ∀ z : ℤ, (0 : ℚ) < (10 : ℚ) ^ z := fun z => zpow_pos (by norm_num) _
  have habs : |v| = (m : ℚ) * (10 : ℚ) ^ (x - L) := by
    have h0 : (0 : ℚ) ≤ (m : ℚ) * (10 : ℚ) ^ (x - L) := mul_nonneg (by positivity) (pos _).le
    rw [hv, abs_mul, abs_of_nonneg h0]
    cases neg <;> simp
  refine ⟨neg, _, _, hf, by positivity, ?_, ?_, ?_⟩
  · rintro rfl
    rw [hv]
    have := mul_nonneg (Nat.cast_nonneg m : (0 : ℚ) ≤ m) (pos (x - L)).le
    simp only [if_true]
    linarith
  · rintro rfl
    rw [hv]
    have := mul_nonneg (Nat.cast_nonneg m : (0 : ℚ) ≤ m) (pos (x - L)).le
    simp only [Bool.false_eq_true, if_false]
    linarith
  · rw [frac_zpow, habs]
    have one : (1 : ℚ) ≤ 10 := by norm_num
    have hmq : (m : ℚ) ≤ (10 : ℚ) ^ (9000 : ℤ) := by
      have : m ≤ 10 ^ 9000 := hm.le.trans (Nat.pow_le_pow_right (by norm_num) hl)
      rw [show (9000 : ℤ) = ((9000 : ℕ) : ℤ) by rfl, zpow_natCast]
      exact_mod_cast this
    have small : ∀ z : ℤ, z ≤ -10000 → (m : ℚ) * (10 : ℚ) ^ z ≤ (10 : ℚ) ^ (-1000 : ℤ) := by
      intro z hz
      have h1 : (10 : ℚ) ^ z ≤ (10 : ℚ) ^ (-10000 : ℤ) := zpow_le_zpow_right₀ one hz
      have h2 := mul_le_mul hmq h1 (pos _).le (pos _).le
      rwa [← zpow_add₀ (by norm_num), show (9000 : ℤ) + -10000 = -1000 by norm_num] at h2
    rcases hX with rfl | ⟨h1, h2⟩ | ⟨h1, h2⟩
    · exact .inl rfl
    · rcases Nat.eq_zero_or_pos m with rfl | hm0
      · left; simp
      · right; left
        have hm1 : (1 : ℚ) ≤ m := by exact_mod_cast hm0
        have big : ∀ z : ℤ, 1000 ≤ z → (10 : ℚ) ^ (1000 : ℤ) ≤ (m : ℚ) * (10 : ℚ) ^ z := by
          intro z hz
          have h1 : (10 : ℚ) ^ (1000 : ℤ) ≤ (10 : ℚ) ^ z := zpow_le_zpow_right₀ one hz
          have h2 := mul_le_mul hm1 h1 (pos _).le (by positivity)
          rwa [one_mul] at h2
        exact ⟨big _ (by omega), big _ (by omega)⟩
    · exact .inr (.inr ⟨small _ (by omega), small _ (by omega)⟩)

theorem roundsTo_neg {v r : ℚ} (h : RoundsTo v r) : RoundsTo (-v) (-r) := by
  have fneg : ∀ y, IsFloat64 y → IsFloat64 (-y) := by
    rintro y ⟨m, e, h1, h2, h3, rfl⟩
    exact ⟨-m, e, by rwa [abs_neg], h2, h3, by push_cast; ring⟩
  refine ⟨fneg _ h.1, fun y hy => ?_⟩
  have e1 : |(-r) - (-v)| = |r - v| := by rw [← abs_neg]; congr 1; ring
  have e2 : |y - (-v)| = |(-y) - v| := by rw [← abs_neg]; congr 1; ring
  rw [e1, e2]
  rcases h.2 (-y) (fneg _ hy) with h | h | ⟨h, m, e, h1, h2, h3, h4⟩
  · exact .inl h
  · right; left; linarith
  · refine .inr (.inr ⟨h, -m, e, by rw [h1]; push_cast; ring, by rwa [abs_neg], by rwa [abs_neg], by omega⟩)

/-- What `floatIs` computes for a positive number. -/
theorem roundsTo_nat {n : ℕ} (hn : 0 < n) (hn2 : n < 2 ^ 52) (v : ℚ) : RoundsTo v n ↔
    ((n * 2 ^ 54 - (if n = 2 ^ Nat.log2 n then 2 ^ Nat.log2 n else 2 ^ (Nat.log2 n + 1)) : ℕ) : ℚ) ≤ v * 2 ^ 54 ∧
      v * 2 ^ 54 ≤ ((n * 2 ^ 54 + 2 ^ (Nat.log2 n + 1) : ℕ) : ℚ) := by
  have h1 : 2 ^ Nat.log2 n ≤ n := Nat.log2_self_le (by omega)
  have h2 : n < 2 ^ (Nat.log2 n + 1) := Nat.lt_log2_self
  have hk : Nat.log2 n < 52 := (Nat.log2_lt (by omega)).2 hn2
  rw [roundsTo_iff h1 h2 hk]
  generalize Nat.log2 n = k at *
  have d1 : (2 : ℚ) ^ ((k : ℤ) - 53) * 2 ^ 54 = 2 ^ (k + 1) := by
    rw [← zpow_natCast (2 : ℚ) 54, ← zpow_add₀ (by norm_num), ← zpow_natCast]
    congr 1; push_cast; ring
  have d2 : (2 : ℚ) ^ ((k : ℤ) - 54) * 2 ^ 54 = 2 ^ k := by
    rw [← zpow_natCast (2 : ℚ) 54, ← zpow_add₀ (by norm_num), ← zpow_natCast]
    congr 1; push_cast; ring
  have hb : 2 ^ (k + 1) ≤ n * 2 ^ 54 := by
    rw [pow_succ]; omega
  have hb' : 2 ^ k ≤ n * 2 ^ 54 := by omega
  refine and_congr ?_ ?_
  · split
    · rw [Nat.cast_sub hb']
      push_cast
      constructor <;> intro h <;> linarith
    · rw [Nat.cast_sub hb]
      push_cast
      constructor <;> intro h <;> linarith
  · push_cast
    constructor <;> intro h <;> linarith

theorem ten_big : ∃ T : ℚ, T = (10 : ℚ) ^ (1000 : ℤ) ∧ (2 : ℚ) ^ 108 ≤ T ∧ (2 : ℚ) ^ 1024 ≤ T := by
  refine ⟨_, rfl, ?_⟩
  have a2 : (2 : ℚ) ^ 3000 = (8 : ℚ) ^ 1000 := by
    rw [show 3000 = 3 * 1000 by norm_num, pow_mul]; norm_num
  have a3 : (8 : ℚ) ^ 1000 ≤ (10 : ℚ) ^ 1000 := pow_le_pow_left₀ (by norm_num) (by norm_num) _
  rw [show (1000 : ℤ) = ((1000 : ℕ) : ℤ) by rfl, zpow_natCast]
  exact ⟨(pow_le_pow_right₀ (by norm_num) (by norm_num)).trans (a2.le.trans a3),
    (pow_le_pow_right₀ (by norm_num) (by norm_num)).trans (a2.le.trans a3)⟩

theorem ten_small : ∃ S : ℚ, S = (10 : ℚ) ^ (-1000 : ℤ) ∧ S * 2 ^ 54 < 1 ∧ S < 1 := by
  refine ⟨_, rfl, ?_, ?_⟩
  · have h1 : (10 : ℚ) ^ (-1000 : ℤ) ≤ (10 : ℚ) ^ (-100 : ℤ) := zpow_le_zpow_right₀ (by norm_num) (by norm_num)
    have h3 : (10 : ℚ) ^ (-100 : ℤ) * 2 ^ 54 < 1 := by norm_num
    exact lt_of_le_of_lt (mul_le_mul_of_nonneg_right h1 (by positivity)) h3
  · have := zpow_lt_zpow_right₀ (by norm_num : (1 : ℚ) < 10) (by norm_num : (-1000 : ℤ) < 0)
    rwa [zpow_zero] at this

/-- The comparison of a float64 value with a small integer. -/
theorem floatIs_iff {l : GoString} {v : ℚ} (h : LiteralValue l v) (hl : l.length ≤ 9000) {n : ℤ} (hn : n ≠ 0) (hn2 : n.natAbs < 2 ^ 52) :
    floatIs l n = true ↔ RoundsTo v n := by
  obtain ⟨neg, A, B, hf, hB, hneg, hpos, hq⟩ := litFrac_value h hl
  obtain ⟨T, hT, hT1, -⟩ := ten_big
  obtain ⟨S, hS, hS1, -⟩ := ten_small
  rw [← hT, ← hS] at hq
  clear hT hS
  have hN : 0 < n.natAbs := Int.natAbs_pos.2 hn
  have hBq : (0 : ℚ) < B := by exact_mod_cast hB
  -- bounds of the interval
  obtain ⟨lo, hlo⟩ : ∃ lo, lo = n.natAbs * 2 ^ 54 - (if n.natAbs = 2 ^ Nat.log2 n.natAbs then 2 ^ Nat.log2 n.natAbs else 2 ^ (Nat.log2 n.natAbs + 1)) := ⟨_, rfl⟩
  obtain ⟨hi, hhi⟩ : ∃ hi, hi = n.natAbs * 2 ^ 54 + 2 ^ (Nat.log2 n.natAbs + 1) := ⟨_, rfl⟩
  have hpow : 2 ^ Nat.log2 n.natAbs ≤ n.natAbs := Nat.log2_self_le (by omega)
  have hlo1 : 1 ≤ lo := by
    rw [hlo]; split
    · omega
    · rw [pow_succ]; omega
  have hhi1 : hi < 2 ^ 108 := by
    rw [hhi, pow_succ]; omega
  have habs := roundsTo_nat hN hn2 |v|
  rw [← hlo, ← hhi] at habs
  have hfrac : floatIs l n = true ↔ neg = decide (n < 0) ∧ (lo : ℚ) ≤ (A : ℚ) / B * 2 ^ 54 ∧ (A : ℚ) / B * 2 ^ 54 ≤ hi := by
    unfold floatIs
    rw [hf]
    simp only [Bool.and_eq_true, decide_eq_true_eq]
    rw [← hlo, ← hhi, and_assoc]
    refine and_congr Iff.rfl (and_congr ?_ ?_)
    · rw [div_mul_eq_mul_div, le_div_iff₀ hBq]; exact_mod_cast Iff.rfl
    · rw [div_mul_eq_mul_div, div_le_iff₀ hBq]; exact_mod_cast Iff.rfl
  have hval : ((lo : ℚ) ≤ (A : ℚ) / B * 2 ^ 54 ∧ (A : ℚ) / B * 2 ^ 54 ≤ hi) ↔ RoundsTo |v| (n.natAbs : ℕ) := by
    rw [habs]
    have hlo1q : (1 : ℚ) ≤ lo := by exact_mod_cast hlo1
    have hhi1q : (hi : ℚ) < 2 ^ 108 := by exact_mod_cast hhi1
    rcases hq with hq | ⟨h1, h2⟩ | ⟨h1, h2⟩
    · rw [hq]
    · have hT54 : T ≤ T * 2 ^ 54 := by linarith
      constructor
      · rintro ⟨-, h⟩; exfalso; linarith
      · rintro ⟨-, h⟩; exfalso; linarith
    · constructor
      · rintro ⟨h, -⟩; exfalso; linarith
      · rintro ⟨h, -⟩; exfalso; linarith
  rw [hfrac, hval]
  have vpos : RoundsTo |v| (n.natAbs : ℕ) → 0 < |v| := by
    rw [habs]
    rintro ⟨h, -⟩
    have : (1 : ℚ) ≤ lo := by exact_mod_cast hlo1
    by_contra hc
    have := not_lt.1 hc
    linarith
  rcases lt_or_gt_of_ne hn with hlt | hgt
  · have hnn : ((n.natAbs : ℕ) : ℚ) = -(n : ℚ) := by
      have h : (n.natAbs : ℤ) = -n := by omega
      have := congrArg (Int.cast : ℤ → ℚ) h
      rwa [Int.cast_natCast, Int.cast_neg] at this
    constructor
    · rintro ⟨hs, hr⟩
      rw [decide_eq_true hlt] at hs
      have hv := hneg hs
      rw [abs_of_nonpos hv, hnn] at hr
      simpa using roundsTo_neg hr
    · intro hr
      have hr' : RoundsTo (-v) (n.natAbs : ℕ) := by rw [hnn]; exact roundsTo_neg hr
      have hv : 0 < -v := by
        have h := (roundsTo_nat hN hn2 (-v)).1 hr'
        rw [← hlo] at h
        have : (1 : ℚ) ≤ lo := by exact_mod_cast hlo1
        have := h.1
        by_contra hc
        have := not_lt.1 hc
        linarith
      rw [decide_eq_true hlt, abs_of_neg (by linarith)]
      refine ⟨?_, hr'⟩
      cases hneg' : neg with
      | true => rfl
      | false => have := hpos hneg'; exfalso; linarith
  · have hnn : ((n.natAbs : ℕ) : ℚ) = (n : ℚ) := by
      have h : (n.natAbs : ℤ) = n := by omega
      have := congrArg (Int.cast : ℤ → ℚ) h
      rwa [Int.cast_natCast] at this
    constructor
    · rintro ⟨hs, hr⟩
      rw [decide_eq_false (by omega)] at hs
      have hv := hpos hs
      rwa [abs_of_nonneg hv, hnn] at hr
    · intro hr
      have hr' : RoundsTo v (n.natAbs : ℕ) := by rwa [hnn]
      have hv : 0 < v := by
        have h := (roundsTo_nat hN hn2 v).1 hr'
        rw [← hlo] at h
        have : (1 : ℚ) ≤ lo := by exact_mod_cast hlo1
        have := h.1
        by_contra hc
        have := not_lt.1 hc
        linarith
      rw [decide_eq_false (by omega), abs_of_pos hv]
      refine ⟨?_, hr'⟩
      cases hneg' : neg with
      | false => rfl
      | true => have := hneg hneg'; exfalso; linarith

/-- Out of range. -/
theorem floatOverflow_iff {l : GoString} {v : ℚ} (h : LiteralValue l v) (hl : l.length ≤ 9000) :
    floatOverflow l = true ↔ (2 : ℚ) ^ 1024 - 2 ^ 970 ≤ |v| := by
  obtain ⟨neg, A, B, hf, hB, -, -, hq⟩ := litFrac_value h hl
  obtain ⟨T, hT, -, hT1⟩ := ten_big
  obtain ⟨S, hS, -, hS1⟩ := ten_small
  rw [← hT, ← hS] at hq
  clear hT hS
  have hBq : (0 : ℚ) < B := by exact_mod_cast hB
  obtain ⟨N, hN⟩ : ∃ N : ℕ, N = 2 ^ 1024 - 2 ^ 970 := ⟨_, rfl⟩
  have hNq : (N : ℚ) = (2 : ℚ) ^ 1024 - 2 ^ 970 := by
    rw [hN, Nat.cast_sub (Nat.pow_le_pow_right (by norm_num) (by norm_num)), Nat.cast_pow, Nat.cast_pow, Nat.cast_ofNat]
  have e1 : floatOverflow l = true ↔ (N : ℚ) ≤ (A : ℚ) / B := by
    unfold floatOverflow
    rw [hf]
    simp only [decide_eq_true_eq, ge_iff_le]
    rw [le_div_iff₀ hBq, ← hN]
    exact_mod_cast Iff.rfl
  rw [e1, ← hNq]
  have hN1 : (1 : ℚ) ≤ N ∧ (N : ℚ) ≤ T := by
    rw [hNq]
    have hp : (2 : ℚ) ^ 970 * 2 ≤ 2 ^ 1024 := by
      rw [← pow_succ]; exact pow_le_pow_right₀ (by norm_num) (by norm_num)
    have hp1 : (1 : ℚ) ≤ 2 ^ 970 := one_le_pow₀ (by norm_num)
    generalize (2 : ℚ) ^ 970 = a at *
    generalize (2 : ℚ) ^ 1024 = b at *
    constructor <;> linarith
  clear hNq hN hT1 e1
  obtain ⟨hN1, hN2⟩ := hN1
  rcases hq with hq | ⟨h1, h2⟩ | ⟨h1, h2⟩
  · rw [hq]
  · constructor <;> intro _ <;> linarith
  · constructor <;> intro _ <;> exfalso <;> linarith

/-- The number literal `l` occurs in the value, at any depth. -/
inductive HasNumber (l : GoString) : Json → Prop
  | num : HasNumber l (.num l)
  | elem {xs : List Json} {x : Json} (hx : x ∈ xs) (h : HasNumber l x) : HasNumber l (.arr xs)
  | member {m : List (GoString × Json)} {k : GoString} {v : Json} (hm : (k, v) ∈ m) (h : HasNumber l v) : HasNumber l (.obj m)

mutual
theorem floatsOk_iff : ∀ j : Json, j.floatsOk = true ↔ ∀ l, HasNumber l j → floatOverflow l = false
  | .null => by simp only [Json.floatsOk, true_iff]; intro l h; cases h
  | .bool b => by simp only [Json.floatsOk, true_iff]; intro l h; cases h
  | .str s => by simp only [Json.floatsOk, true_iff]; intro l h; cases h
  | .num l => by
    simp only [Json.floatsOk, Bool.not_eq_true']
    constructor
    · intro h l' hl; cases hl; exact h
    · intro h; exact h l .num
  | .arr xs => by
    simp only [Json.floatsOk, floatsOkElems_iff xs]
    constructor
    · intro h l hl; cases hl with | elem hx hl => exact h _ hx l hl
    · intro h x hx l hl; exact h l (.elem hx hl)
  | .obj m => by
    simp only [Json.floatsOk, floatsOkMembers_iff m]
    constructor
    · intro h l hl; cases hl with | member hx hl => exact h _ _ hx l hl
    · intro h k v hx l hl; exact h l (.member hx hl)
theorem floatsOkElems_iff : ∀ xs : List Json, Json.floatsOkElems xs = true ↔ ∀ x ∈ xs, ∀ l, HasNumber l x → floatOverflow l = false
  | [] => by simp [Json.floatsOkElems]
  | x :: xs => by
    simp only [Json.floatsOkElems, Bool.and_eq_true, floatsOk_iff x, floatsOkElems_iff xs, List.mem_cons, forall_eq_or_imp]
theorem floatsOkMembers_iff : ∀ m : List (GoString × Json), Json.floatsOkMembers m = true ↔
    ∀ k v, (k, v) ∈ m → ∀ l, HasNumber l v → floatOverflow l = false
  | [] => by simp [Json.floatsOkMembers]
  | (k, v) :: m => by
    simp only [Json.floatsOkMembers, Bool.and_eq_true, floatsOk_iff v, floatsOkMembers_iff m, List.mem_cons, Prod.mk.injEq]
    constructor
    · rintro ⟨h1, h2⟩ k' v' (⟨rfl, rfl⟩ | h) l hl
      · exact h1 l hl
      · exact h2 _ _ h l hl
    · intro h
      exact ⟨fun l hl => h k v (.inl ⟨rfl, rfl⟩) l hl, fun k' v' hm l hl => h k' v' (.inr hm) l hl⟩
end

end GoIdentity
