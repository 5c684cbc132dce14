import Mathlib.Algebra.Order.Field.Rat
import Mathlib.Data.Rat.Floor
import Mathlib.Tactic.Linarith
import Mathlib.Tactic.FieldSimp
import Mathlib.Tactic.NormNum
import Mathlib.Tactic.Positivity
import Mathlib.Data.Set.Finite.Lemmas
import Mathlib.Data.Finite.Prod
import Mathlib.Order.Interval.Set.Infinite
import Mathlib.Data.Int.Interval
import Verif.Model.Mfa
/-!
# The floating-point time step: C32

`mfa_token.go:461` computes `uint64(math.Floor(float64(ts.Unix()) / float64(p.Period)))`.  The model divides integers.
-/
namespace GoIdentity

/-- The finite binary64 numbers. -/
def IsFloat64 (x : ℚ) : Prop := ∃ (m e : ℤ), |m| < 2 ^ 53 ∧ -1074 ≤ e ∧ e ≤ 971 ∧ x = m * (2 : ℚ) ^ e

/-- `rnd` rounds every number of moderate size to a nearest binary64 number, with ties broken in any way. -/
def RoundsToNearest (rnd : ℚ → ℚ) : Prop :=
  ∀ x : ℚ, |x| ≤ 2 ^ 53 → IsFloat64 (rnd x) ∧ ∀ y, IsFloat64 y → |rnd x - x| ≤ |y - x|

theorem isFloat64_finite : {x : ℚ | IsFloat64 x}.Finite := by
  have : {x : ℚ | IsFloat64 x} ⊆
      (fun p : ℤ × ℤ => (p.1 : ℚ) * (2 : ℚ) ^ p.2) '' (Set.Icc (-(2 ^ 53)) (2 ^ 53) ×ˢ Set.Icc (-1074) 971) := by
    rintro x ⟨m, e, h1, h2, h3, rfl⟩
    rw [abs_lt] at h1
    exact ⟨(m, e), ⟨⟨by omega, by omega⟩, ⟨h2, h3⟩⟩, rfl⟩
  exact ((Set.Finite.prod (Set.toFinite _) (Set.toFinite _)).image _).subset this

/-- There is such a rounding. -/
theorem exists_roundsToNearest : ∃ rnd, RoundsToNearest rnd := by
  have hne : {x : ℚ | IsFloat64 x}.Nonempty := ⟨0, 0, 0, by norm_num, by norm_num, by norm_num, by norm_num⟩
  have : ∀ x : ℚ, ∃ r, IsFloat64 r ∧ ∀ y, IsFloat64 y → |r - x| ≤ |y - x| := by
    intro x
    obtain ⟨r, hr, hmin⟩ := Set.exists_min_image {x : ℚ | IsFloat64 x} (fun y => |y - x|) isFloat64_finite hne
    exact ⟨r, hr, fun y hy => hmin y hy⟩
  choose f hf using this
  exact ⟨f, fun x _ => hf x⟩

theorem isFloat64_nat {n : ℕ} (h : n < 2 ^ 53) : IsFloat64 n := by
  refine ⟨n, 0, ?_, by norm_num, by norm_num, by simp⟩
  rw [abs_of_nonneg (by omega)]; exact_mod_cast h

/-- A scale on which the next integer above the quotient is representable together with its lower neighbour. -/
theorem scale_exists {t p : ℕ} (ht : t < 2 ^ 53) (hp : p ≤ 2 ^ 53) :
    ∃ a ≤ 53, (t / p + 1) * 2 ^ a ≤ 2 ^ 53 ∧ p < 2 ^ (a + 1) := by
  by_cases hq : t / p = 0
  · exact ⟨53, le_refl _, by rw [hq]; norm_num, by omega⟩
  · have h1 := Nat.log2_self_le hq
    have h2 := Nat.lt_log2_self (n := t / p)
    have hpq : p * (t / p) ≤ t := Nat.mul_div_le t p
    generalize Nat.log2 (t / p) = j at h1 h2
    have hqt : t / p ≤ t := Nat.div_le_self t p
    have hj : j ≤ 52 := by
      by_contra hj
      have : 2 ^ 53 ≤ 2 ^ j := Nat.pow_le_pow_right (by norm_num) (by omega)
      omega
    refine ⟨52 - j, by omega, ?_, ?_⟩
    · calc (t / p + 1) * 2 ^ (52 - j) ≤ 2 ^ (j + 1) * 2 ^ (52 - j) := Nat.mul_le_mul_right _ h2
        _ = 2 ^ 53 := by rw [← pow_add]; congr 1; omega
    · by_contra hc
      have hc : 2 ^ (52 - j + 1) ≤ p := by omega
      have : 2 ^ (52 - j + 1) * 2 ^ j ≤ p * (t / p) := Nat.mul_le_mul hc h1
      rw [← pow_add, show 52 - j + 1 + j = 53 by omega] at this
      omega

/-- C32: for times below 2^53 and periods up to 2^53, whose conversions to binary64 are exact, rounding the quotient to a
nearest binary64 number and taking the floor gives the integer quotient. -/
theorem C32_floor_of_rounded_quotient {rnd : ℚ → ℚ} (hr : RoundsToNearest rnd) {t p : ℕ} (ht : t < 2 ^ 53) (hp0 : 0 < p)
    (hp : p ≤ 2 ^ 53) : ⌊rnd ((t : ℚ) / (p : ℚ))⌋ = ((t / p : ℕ) : ℤ) := by
  have hpq : (0 : ℚ) < p := by exact_mod_cast hp0
  set x : ℚ := (t : ℚ) / p with hx
  set q := t / p with hq
  have hqt : q ≤ t := Nat.div_le_self t p
  -- q ≤ x < q + 1
  have hxq : (q : ℚ) ≤ x := by
    rw [hx, le_div_iff₀ hpq]
    exact_mod_cast Nat.div_mul_le_self t p
  have hd : x + 1 / p ≤ q + 1 := by
    rw [hx, ← add_div, div_le_iff₀ hpq]
    have : t + 1 ≤ (q + 1) * p := by
      have := Nat.lt_div_mul_add (a := t) hp0
      rw [← hq] at this
      rw [Nat.add_mul, one_mul]; omega
    exact_mod_cast this
  have h1p : (0 : ℚ) < 1 / p := by positivity
  have hxabs : |x| ≤ 2 ^ 53 := by
    rw [abs_of_nonneg (by positivity)]
    have h2 : x ≤ q + 1 := by linarith
    have : ((q + 1 : ℕ) : ℚ) ≤ ((2 ^ 53 : ℕ) : ℚ) := by exact_mod_cast (by omega : q + 1 ≤ 2 ^ 53)
    push_cast at this
    linarith
  obtain ⟨-, hnear⟩ := hr x hxabs
  rw [Int.floor_eq_iff]
  push_cast
  constructor
  · by_contra hlt
    rw [not_le] at hlt
    have := hnear q (isFloat64_nat (by omega))
    rw [abs_of_nonpos (by linarith), abs_of_nonpos (by linarith)] at this
    linarith
  · by_contra hge
    rw [not_lt] at hge
    obtain ⟨a, ha, hN, hpa⟩ := scale_exists ht hp
    -- the lower neighbour of q + 1 on that scale
    have h2a : (0 : ℚ) < 2 ^ a := by positivity
    set y : ℚ := (q + 1) - 1 / 2 ^ a with hy
    have hyf : IsFloat64 y := by
      refine ⟨((q + 1) * 2 ^ a : ℕ) - 1, -(a : ℤ), ?_, by omega, by omega, ?_⟩
      · have h0 : 1 ≤ (q + 1) * 2 ^ a := Nat.mul_pos (Nat.succ_pos q) (by positivity)
        rw [abs_of_nonneg (by omega)]
        have : (((q + 1) * 2 ^ a : ℕ) : ℤ) ≤ ((2 ^ 53 : ℕ) : ℤ) := by exact_mod_cast hN
        push_cast at this ⊢
        omega
      · rw [hy, zpow_neg, zpow_natCast]
        push_cast
        field_simp
    have hmin := hnear y hyf
    have hhalf : (1 : ℚ) / 2 ^ a < 2 * (1 / p) := by
      rw [mul_one_div, div_lt_div_iff₀ h2a hpq]
      have : ((p : ℕ) : ℚ) < ((2 ^ (a + 1) : ℕ) : ℚ) := by exact_mod_cast hpa
      push_cast at this
      rw [pow_succ] at this
      linarith
    rw [abs_of_nonneg (by linarith)] at hmin
    rcases le_total y x with hyx | hyx
    · rw [abs_of_nonpos (by linarith)] at hmin
      linarith
    · rw [abs_of_nonneg (by linarith)] at hmin
      have : (0 : ℚ) < 1 / 2 ^ a := by positivity
      linarith

/-- C32: the model's time step is what the floating-point expression computes. -/
theorem C32_time_step [Ext] {rnd : ℚ → ℚ} (hr : RoundsToNearest rnd) {unix period : ℤ} (h0 : 0 ≤ unix)
    (h1 : unix < 2 ^ 53) (hp0 : 0 < period) (hp : period ≤ 2 ^ 53) :
    ⌊rnd ((unix : ℚ) / (period : ℚ))⌋ = (timeStep unix period : ℤ) := by
  lift unix to ℕ using h0 with t
  lift period to ℕ using (by omega) with p
  have := C32_floor_of_rounded_quotient hr (t := t) (p := p) (by omega) (by omega) (by omega)
  unfold timeStep
  rw [if_pos ⟨by omega, hp0⟩]
  push_cast at this ⊢
  rw [this]
  have : (0 : ℤ) ≤ (t : ℤ) / (p : ℤ) := Int.ediv_nonneg (by omega) (by omega)
  exact (Int.toNat_of_nonneg this).symm

example : ∃ rnd, RoundsToNearest rnd := exists_roundsToNearest

end GoIdentity
