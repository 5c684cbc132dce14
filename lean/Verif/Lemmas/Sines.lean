import Verif.Model.Md5
import Mathlib.Analysis.Complex.Exponential
import Mathlib.Analysis.Complex.Trigonometric
import Mathlib.Analysis.Complex.Norm
import Mathlib.Analysis.Normed.Field.Basic
import Mathlib.Analysis.Complex.Basic
import Mathlib.Tactic.LinearCombination
import Mathlib.Tactic.NormNum
import Mathlib.Tactic.Linarith
import Mathlib.Tactic.Ring
import Mathlib.Tactic.FieldSimp
import Mathlib.Tactic.Positivity
/-!
# The table of MD5: sines of the whole numbers

The sines of 1, 2, …, 64 to 55 bits, by powers of `exp i` with integer arithmetic.
-/
namespace GoIdentity.Sines
open Complex

/-- The scale. -/
def S : Int := 2 ^ 64
/-- `cos 1` and `sin 1`, scaled. -/
def c1 : Int := 9966818358784711826
def s1 : Int := 15522399902203605025

theorem sum_I (k : Nat) : ∑ m ∈ Finset.range (2 * k), I ^ m / (m.factorial : ℂ) =
    ((∑ j ∈ Finset.range k, (-1 : ℝ) ^ j / ((2 * j).factorial : ℝ) : ℝ) : ℂ) +
      ((∑ j ∈ Finset.range k, (-1 : ℝ) ^ j / ((2 * j + 1).factorial : ℝ) : ℝ) : ℂ) * I := by
  induction k with
  | zero => simp
  | succ k ih =>
    rw [show 2 * (k + 1) = 2 * k + 1 + 1 from by omega, Finset.sum_range_succ, Finset.sum_range_succ, ih, Finset.sum_range_succ,
      Finset.sum_range_succ, pow_succ I (2 * k), pow_mul, I_sq]
    push_cast
    ring

theorem exp_I_near : ‖(S : ℂ) * exp I - (c1 + s1 * I)‖ ≤ 2 := by
  have h := exp_bound (x := I) (by simp) (n := 2 * 12) (by decide)
  rw [sum_I] at h
  have hc : |(∑ j ∈ Finset.range 12, (-1 : ℝ) ^ j / ((2 * j).factorial : ℝ)) * S - c1| ≤ 0.6 := by
    simp only [Finset.sum_range_succ, Finset.sum_range_zero]
    norm_num [Nat.factorial, S, c1, abs_le]
  have hs : |(∑ j ∈ Finset.range 12, (-1 : ℝ) ^ j / ((2 * j + 1).factorial : ℝ)) * S - s1| ≤ 0.6 := by
    simp only [Finset.sum_range_succ, Finset.sum_range_zero]
    norm_num [Nat.factorial, S, s1, abs_le]
  generalize (∑ j ∈ Finset.range 12, (-1 : ℝ) ^ j / ((2 * j).factorial : ℝ)) = C at h hc
  generalize (∑ j ∈ Finset.range 12, (-1 : ℝ) ^ j / ((2 * j + 1).factorial : ℝ)) = D at h hs
  have e : (S : ℂ) * exp I - (c1 + s1 * I) =
      S * (exp I - (C + D * I)) + (((C * S - c1 : ℝ) : ℂ) + ((D * S - s1 : ℝ) : ℂ) * I) := by
    push_cast; ring
  rw [e]
  have b1 : ‖(S : ℂ) * (exp I - (C + D * I))‖ ≤ 0.1 := by
    rw [norm_mul]
    refine le_trans (mul_le_mul_of_nonneg_left h (norm_nonneg _)) ?_
    norm_num [S, Nat.factorial]
  have b2 : ‖((C * S - c1 : ℝ) : ℂ) + ((D * S - s1 : ℝ) : ℂ) * I‖ ≤ 1.2 := by
    refine le_trans (norm_add_le _ _) ?_
    rw [norm_mul, norm_I, mul_one, norm_real, norm_real, Real.norm_eq_abs, Real.norm_eq_abs]
    linarith
  refine le_trans (norm_add_le _ _) ?_
  linarith

/-- The next power, rounded. -/
def next (z : Int × Int) : Int × Int := ((z.1 * c1 - z.2 * s1) / S, (z.1 * s1 + z.2 * c1) / S)

def power : Nat → Int × Int
  | 0 => (S, 0)
  | i + 1 => next (power i)

def val (z : Int × Int) : ℂ := z.1 + z.2 * I

theorem round_near (x y : Int) : ‖((x : ℂ) + y * I) / S - val (x / S, y / S)‖ ≤ 2 := by
  have hS : (0 : ℝ) < S := by norm_num [S]
  have r : ∀ x : Int, |(x : ℝ) / S - ((x / S : Int) : ℝ)| ≤ 1 := by
    intro x
    have h1 : ((x / S : Int) : ℝ) * S ≤ x := by exact_mod_cast Int.ediv_mul_le x (by decide)
    have h2 : (x : ℝ) < ((x / S : Int) : ℝ) * S + S := by
      have := Int.lt_ediv_add_one_mul_self x (show 0 < S by decide)
      have h : (x : ℝ) < (((x / S : Int) : ℝ) + 1) * S := by exact_mod_cast this
      linarith
    rw [abs_le]
    constructor
    · rw [le_sub_iff_add_le, le_div_iff₀ hS]; linarith
    · rw [sub_le_iff_le_add, div_le_iff₀ hS]; linarith
  have e : ((x : ℂ) + y * I) / S - val (x / S, y / S) =
      ((((x : ℝ) / S - ((x / S : Int) : ℝ) : ℝ)) : ℂ) + (((y : ℝ) / S - ((y / S : Int) : ℝ) : ℝ) : ℂ) * I := by
    unfold val; push_cast; ring
  rw [e]
  refine le_trans (norm_add_le _ _) ?_
  rw [norm_mul, norm_I, mul_one, norm_real, norm_real, Real.norm_eq_abs, Real.norm_eq_abs]
  linarith [r x, r y]

theorem power_near (i : Nat) (hi : i ≤ 64) : ‖(S : ℂ) * exp I ^ i - val (power i)‖ ≤ 5 * i := by
  induction i with
  | zero => simp [val, power]
  | succ i ih =>
    have ih := ih (by omega)
    have hE : ‖exp I‖ = 1 := by
      have := norm_exp_ofReal_mul_I 1
      simpa using this
    have hSn : ‖(S : ℂ)‖ = 2 ^ 64 := by norm_num [S]
    have hS0 : (S : ℂ) ≠ 0 := by norm_num [S]
    have hi' : (i : ℝ) ≤ 64 := by exact_mod_cast (by omega : i ≤ 64)
    have hz : ‖val (power i)‖ ≤ 2 ^ 64 + 320 := by
      have := norm_sub_norm_le (val (power i)) ((S : ℂ) * exp I ^ i)
      rw [norm_sub_rev, norm_mul, norm_pow, hE, one_pow, mul_one, hSn] at this
      linarith
    have e : (S : ℂ) * exp I ^ (i + 1) - val (power (i + 1)) =
        exp I * ((S : ℂ) * exp I ^ i - val (power i)) + val (power i) / S * ((S : ℂ) * exp I - (c1 + s1 * I)) +
          (val (power i) * (c1 + s1 * I) / S - val (power (i + 1))) := by
      field_simp
      ring
    have b1 : ‖exp I * ((S : ℂ) * exp I ^ i - val (power i))‖ ≤ 5 * i := by rw [norm_mul, hE, one_mul]; exact ih
    have b2 : ‖val (power i) / S * ((S : ℂ) * exp I - (c1 + s1 * I))‖ ≤ 2.5 := by
      rw [norm_mul, norm_div, hSn]
      have : ‖val (power i)‖ / 2 ^ 64 ≤ 1.25 := by rw [div_le_iff₀ (by positivity)]; norm_num at hz ⊢; linarith
      calc _ ≤ (1.25 : ℝ) * 2 := mul_le_mul this exp_I_near (norm_nonneg _) (by norm_num)
        _ = 2.5 := by norm_num
    have b3 : ‖val (power i) * (c1 + s1 * I) / S - val (power (i + 1))‖ ≤ 2 := by
      have h := round_near ((power i).1 * c1 - (power i).2 * s1) ((power i).1 * s1 + (power i).2 * c1)
      have e : val (power i) * (c1 + s1 * I) = ((((power i).1 * c1 - (power i).2 * s1 : Int)) : ℂ) +
          (((power i).1 * s1 + (power i).2 * c1 : Int) : ℂ) * I := by
        unfold val
        push_cast
        linear_combination (((power i).2 : ℂ) * s1) * I_sq
      rw [e]
      exact h
    rw [e]
    have := norm_add₃_le (a := exp I * ((S : ℂ) * exp I ^ i - val (power i))) (b := val (power i) / S * ((S : ℂ) * exp I - (c1 + s1 * I)))
      (c := val (power i) * (c1 + s1 * I) / S - val (power (i + 1)))
    push_cast
    linarith

theorem sin_near (i : Nat) (hi : i ≤ 64) : |2 ^ 64 * Real.sin i - ((power i).2 : ℝ)| ≤ 320 := by
  have h := power_near i hi
  have h' := le_trans (abs_im_le_norm _) h
  have e : ((S : ℂ) * exp I ^ i - val (power i)).im = 2 ^ 64 * Real.sin i - ((power i).2 : ℝ) := by
    have e1 : (S : ℂ) * exp I ^ i = ((2 ^ 64 * Real.cos i : ℝ) : ℂ) + ((2 ^ 64 * Real.sin i : ℝ) : ℂ) * I := by
      rw [← exp_nat_mul, exp_mul_I]
      push_cast [S]
      ring
    have e2 : val (power i) = (((power i).1 : ℝ) : ℂ) + (((power i).2 : ℝ) : ℂ) * I := by rw [val]; push_cast; rfl
    rw [e1, e2]
    simp only [sub_im, add_im, mul_im, ofReal_im, ofReal_re, I_im, I_re]
    ring
  rw [e] at h'
  have hi' : (i : ℝ) ≤ 64 := by exact_mod_cast hi
  linarith

/-- The check for one entry of the table. -/
def entryOk (b : Int) (t : Nat) : Bool := decide ((t : Int) * 2 ^ 32 + 320 ≤ |b| ∧ |b| + 320 < (t + 1) * 2 ^ 32)

def tableOk : Int × Int → List Nat → Bool
  | _, [] => true
  | z, t :: ts => entryOk (next z).2 t && tableOk (next z) ts

theorem table_ok : tableOk (S, 0) Md5.table = true := by decide +kernel

theorem entry_spec {i t : Nat} (hi : i ≤ 64) (h : entryOk (power i).2 t = true) :
    (t : ℝ) ≤ 2 ^ 32 * |Real.sin i| ∧ 2 ^ 32 * |Real.sin i| < t + 1 := by
  rw [entryOk, decide_eq_true_eq] at h
  have h1 : (t : ℝ) * 2 ^ 32 + 320 ≤ |((power i).2 : ℝ)| := by exact_mod_cast h.1
  have h2 : |((power i).2 : ℝ)| + 320 < (t + 1) * 2 ^ 32 := by exact_mod_cast h.2
  have h3 := sin_near i hi
  have e : |2 ^ 64 * Real.sin i| = 2 ^ 64 * |Real.sin i| := by rw [abs_mul, abs_of_pos (by positivity)]
  have h4 := abs_sub_abs_le_abs_sub (2 ^ 64 * Real.sin i) ((power i).2 : ℝ)
  have h5 := abs_sub_abs_le_abs_sub ((power i).2 : ℝ) (2 ^ 64 * Real.sin i)
  rw [abs_sub_comm] at h5
  rw [e] at h4 h5
  norm_num at h1 h2 h3 h4 h5 ⊢
  constructor <;> linarith

theorem tableOk_spec {ts : List Nat} {i : Nat} (h : tableOk (power i) ts = true) (hl : i + ts.length ≤ 64) {j t : Nat} (ht : ts[j]? = some t) :
    (t : ℝ) ≤ 2 ^ 32 * |Real.sin (i + j + 1 : Nat)| ∧ 2 ^ 32 * |Real.sin (i + j + 1 : Nat)| < t + 1 := by
  induction ts generalizing i j with
  | nil => simp at ht
  | cons u ts ih =>
    rw [tableOk, Bool.and_eq_true] at h
    rw [List.length_cons] at hl
    cases j with
    | zero =>
      cases ht
      exact entry_spec (i := i + 1) (by omega) h.1
    | succ j =>
      have := ih (i := i + 1) (j := j) h.2 (by omega) ht
      rw [show i + 1 + j + 1 = i + (j + 1) + 1 from by omega] at this
      exact this

theorem table_sines {j t : Nat} (h : Md5.table[j]? = some t) :
    (t : ℝ) ≤ 2 ^ 32 * |Real.sin (j + 1 : Nat)| ∧ 2 ^ 32 * |Real.sin (j + 1 : Nat)| < t + 1 := by
  have := tableOk_spec (i := 0) table_ok (by decide) h
  rwa [Nat.zero_add] at this

end GoIdentity.Sines
