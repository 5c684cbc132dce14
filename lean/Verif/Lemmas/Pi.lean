import Verif.Model.Blowfish
import Mathlib.Analysis.SpecialFunctions.Complex.Arctan
import Mathlib.Analysis.SpecialFunctions.Trigonometric.Arctan
import Mathlib.Analysis.SpecificLimits.Normed
/-!
# The words that Blowfish starts from are the binary digits of π

Machin's formula and the alternating series of the arctangent, with bounds for the rounding and for the rest of the series.
-/
namespace GoIdentity.Blowfish

theorem arctanLoop_eq (d n : Nat) (fuel : Nat) : ∀ (j : Nat) (sum : Int),
    arctanLoop (n * n) fuel (2 * j + 1) (j % 2 == 0) (d / n ^ (2 * j + 1)) sum =
      sum + ∑ i ∈ Finset.range fuel, (-1 : Int) ^ (j + i) * ((d / (n ^ (2 * (j + i) + 1) * (2 * (j + i) + 1)) : Nat) : Int) := by
  induction fuel with
  | zero => intro j sum; simp [arctanLoop]
  | succ fuel ih =>
    intro j sum
    have e1 : d / n ^ (2 * j + 1) / (n * n) = d / n ^ (2 * (j + 1) + 1) := by
      rw [Nat.div_div_eq_div_mul, show n ^ (2 * (j + 1) + 1) = n ^ (2 * j + 1) * (n * n) by ring]
    have e2 : (!(j % 2 == 0)) = ((j + 1) % 2 == 0) := by
      rcases Nat.mod_two_eq_zero_or_one j with h | h <;> simp [Nat.add_mod, h]
    rw [arctanLoop, e1, e2, show 2 * j + 1 + 2 = 2 * (j + 1) + 1 by ring, ih, Finset.sum_range_succ']
    have e3 : (if (j % 2 == 0) = true then sum + ((d / n ^ (2 * j + 1) : Nat) : Int) / ((2 * j + 1 : Nat) : Int)
        else sum - ((d / n ^ (2 * j + 1) : Nat) : Int) / ((2 * j + 1 : Nat) : Int)) =
        sum + (-1 : Int) ^ (j + 0) * ((d / (n ^ (2 * (j + 0) + 1) * (2 * (j + 0) + 1)) : Nat) : Int) := by
      simp only [Nat.add_zero]
      rw [← Int.natCast_div, Nat.div_div_eq_div_mul]
      rcases Nat.mod_two_eq_zero_or_one j with h | h
      · rw [if_pos (by simp [h]), (Nat.even_iff.2 h).neg_one_pow, one_mul]
      · rw [if_neg (by simp [h]), (Nat.odd_iff.2 h).neg_one_pow]; ring
    rw [e3]
    rw [show ∀ a b c : Int, a + b + c = a + (c + b) by intros; ring]
    congr 2
    refine Finset.sum_congr rfl fun i _ => ?_
    rw [show j + 1 + i = j + (i + 1) by ring]

/-- The sum that the loop approximates. -/
noncomputable def series (n : Nat) (N : Nat) : ℝ :=
  ∑ i ∈ Finset.range N, (-1 : ℝ) ^ i * (((n : ℝ)⁻¹) ^ (2 * i + 1) / ((2 * i + 1 : ℕ) : ℝ))

theorem series_bounds {n : Nat} (hn : 1 < n) (k : Nat) :
    series n (2 * k) ≤ Real.arctan (n : ℝ)⁻¹ ∧ Real.arctan (n : ℝ)⁻¹ ≤ series n (2 * k) + ((n : ℝ)⁻¹) ^ (4 * k + 1) := by
  have hn0 : (1 : ℝ) < n := by exact_mod_cast hn
  have hx0 : (0 : ℝ) ≤ (n : ℝ)⁻¹ := by positivity
  have hx1 : (n : ℝ)⁻¹ < 1 := inv_lt_one_of_one_lt₀ hn0
  have hs := (Real.hasSum_arctan (x := (n : ℝ)⁻¹) (by rw [Real.norm_eq_abs, abs_of_nonneg hx0]; exact hx1)).tendsto_sum_nat
  have hs : Filter.Tendsto (fun N => ∑ i ∈ Finset.range N, (-1 : ℝ) ^ i * (((n : ℝ)⁻¹) ^ (2 * i + 1) / ((2 * i + 1 : ℕ) : ℝ)))
      Filter.atTop (nhds (Real.arctan (n : ℝ)⁻¹)) := by
    simpa only [mul_div_assoc] using hs
  have ha : Antitone fun i : ℕ => ((n : ℝ)⁻¹) ^ (2 * i + 1) / ((2 * i + 1 : ℕ) : ℝ) := by
    refine antitone_nat_of_succ_le fun i => ?_
    refine div_le_div₀ (by positivity) ?_ (by positivity) (by exact_mod_cast (by omega))
    exact pow_le_pow_of_le_one hx0 hx1.le (by omega)
  refine ⟨ha.alternating_series_le_tendsto hs k, (ha.tendsto_le_alternating_series hs k).trans ?_⟩
  rw [Finset.sum_range_succ]
  unfold series
  refine add_le_add le_rfl ?_
  rw [(even_two_mul k).neg_one_pow, one_mul, show 2 * (2 * k) + 1 = 4 * k + 1 by ring]
  exact div_le_self (by positivity) (by exact_mod_cast (by omega))

theorem loop_series (d : Nat) {n : Nat} (hn : 0 < n) (N : Nat) :
    |((arctanLoop (n * n) N 1 true (d / n) 0 : Int) : ℝ) - d * series n N| ≤ N := by
  have h := arctanLoop_eq d n N 0 0
  simp only [Nat.mul_zero, pow_one, zero_add, show ((0 : Nat) % 2 == 0) = true from rfl] at h
  rw [h]
  unfold series
  simp only [Int.cast_sum, Int.cast_mul, Int.cast_pow, Int.cast_neg, Int.cast_one, Int.cast_natCast]
  rw [Finset.mul_sum, ← Finset.sum_sub_distrib]
  refine (Finset.abs_sum_le_sum_abs _ _).trans ?_
  calc _ ≤ ∑ i ∈ Finset.range N, (1 : ℝ) := Finset.sum_le_sum fun i _ => ?_
    _ = N := by simp
  have e : (-1 : ℝ) ^ i * ((d / (n ^ (2 * i + 1) * (2 * i + 1)) : Nat) : ℝ) - d * ((-1) ^ i * ((n : ℝ)⁻¹ ^ (2 * i + 1) / ((2 * i + 1 : ℕ) : ℝ))) =
      (-1) ^ i * (((d / (n ^ (2 * i + 1) * (2 * i + 1)) : Nat) : ℝ) - (d : ℝ) / ((n ^ (2 * i + 1) * (2 * i + 1) : Nat) : ℝ)) := by
    push_cast
    rw [inv_pow]
    field_simp
  rw [e, abs_mul, abs_pow, abs_neg, abs_one, one_pow, one_mul]
  generalize hq : n ^ (2 * i + 1) * (2 * i + 1) = q
  have hq0 : 0 < q := by rw [← hq]; positivity
  have hq1 : (0 : ℝ) < q := by exact_mod_cast hq0
  rw [abs_sub_comm, abs_of_nonneg (sub_nonneg.2 Nat.cast_div_le)]
  have h1 := Nat.lt_div_mul_add hq0 (a := d)
  have h2 : (d : ℝ) < (d / q : Nat) * q + q := by exact_mod_cast h1
  rw [sub_le_iff_le_add, div_le_iff₀ hq1]
  nlinarith

theorem loop_arctan (d : Nat) {n : Nat} (hn : 1 < n) (k : Nat) (hd : d ≤ n ^ (4 * k + 1)) :
    |((arctanLoop (n * n) (2 * k) 1 true (d / n) 0 : Int) : ℝ) - d * Real.arctan (n : ℝ)⁻¹| ≤ 2 * k + 1 := by
  have h1 := loop_series d (n := n) (by omega) (2 * k)
  obtain ⟨h2, h3⟩ := series_bounds hn k
  have hn0 : (0 : ℝ) < (n : ℝ) ^ (4 * k + 1) := by positivity
  have hd' : (d : ℝ) * ((n : ℝ)⁻¹) ^ (4 * k + 1) ≤ 1 := by
    rw [inv_pow, ← div_eq_mul_inv, div_le_one hn0]
    exact_mod_cast hd
  have h4 : |(d : ℝ) * series n (2 * k) - d * Real.arctan (n : ℝ)⁻¹| ≤ 1 := by
    have hd0 : (0 : ℝ) ≤ d := by positivity
    rw [abs_le]
    constructor <;> nlinarith
  calc _ ≤ _ + _ := abs_sub_le _ ((d : ℝ) * series n (2 * k)) _
    _ ≤ ((2 * k : Nat) : ℝ) + 1 := add_le_add h1 h4
    _ = 2 * k + 1 := by push_cast; ring

set_option maxRecDepth 100000 in
theorem pi_low : 2 ^ 20 ≤ piFixed % 2 ^ 64 ∧ piFixed % 2 ^ 64 + 2 ^ 20 < 2 ^ 64 := by decide +kernel

set_option maxRecDepth 100000 in
theorem pi_enough : 2 ^ piBits ≤ 5 ^ (4 * 3650 + 1) ∧ 2 ^ piBits ≤ 239 ^ (4 * 1100 + 1) := by decide +kernel

theorem loop_arctan' {d sq n N k : Nat} (hn : 1 < n) (hsq : sq = n * n) (hN : N = 2 * k) (hd : d ≤ n ^ (4 * k + 1)) :
    |((arctanLoop sq N 1 true (d / n) 0 : Int) : ℝ) - d * Real.arctan (n : ℝ)⁻¹| ≤ 2 * k + 1 := by
  rw [hsq, hN]
  exact loop_arctan d hn k hd

theorem piFixed_parts : ∃ x y : Int, piFixed = (16 * x - 4 * y).toNat ∧
    |(x : ℝ) - (2 ^ piBits : Nat) * Real.arctan ((5 : Nat) : ℝ)⁻¹| ≤ 2 * (3650 : Nat) + 1 ∧
    |(y : ℝ) - (2 ^ piBits : Nat) * Real.arctan ((239 : Nat) : ℝ)⁻¹| ≤ 2 * (1100 : Nat) + 1 := by
  have hd := pi_enough
  unfold piFixed
  generalize 2 ^ piBits = d at *
  exact ⟨arctanLoop 25 7300 1 true (d / 5) 0, arctanLoop (239 * 239) 2200 1 true (d / 239) 0, Eq.refl _,
    loop_arctan' (by omega) (by omega) (by omega) hd.1, loop_arctan' (by omega) (by omega) (by omega) hd.2⟩

theorem near_of_parts {m t : Nat} (hm : m ≠ 0) {x y : Int} (h : m = (16 * x - 4 * y).toNat)
    (a5 : |(x : ℝ) - t * Real.arctan ((5 : Nat) : ℝ)⁻¹| ≤ 2 * (3650 : Nat) + 1)
    (a239 : |(y : ℝ) - t * Real.arctan ((239 : Nat) : ℝ)⁻¹| ≤ 2 * (1100 : Nat) + 1) : |(m : ℝ) - t * Real.pi| < 1048576 := by
  have hpi := Real.four_mul_arctan_inv_5_sub_arctan_inv_239
  have hfix : (m : Int) = 16 * x - 4 * y := by omega
  have hfix : (m : ℝ) = 16 * (x : ℝ) - 4 * (y : ℝ) := by exact_mod_cast hfix
  rw [hfix]
  have e : Real.pi = 16 * Real.arctan 5⁻¹ - 4 * Real.arctan 239⁻¹ := by linarith
  rw [e]
  simp only [Nat.cast_ofNat] at a5 a239
  rw [abs_le] at a5 a239
  rw [abs_lt]
  constructor <;> nlinarith

/-- A number near another one, in the middle between multiples of `b`. -/
theorem floor_near {m b e : Nat} {x : ℝ} (hb : 0 < b) (h : |(m : ℝ) - x| < e) (h1 : e ≤ m % b) (h2 : m % b + e < b) :
    ⌊x / b⌋₊ = m / b := by
  rw [abs_lt] at h
  have hm := Nat.div_add_mod m b
  generalize m / b = q at *
  generalize m % b = r at *
  have hb' : (0 : ℝ) < b := by exact_mod_cast hb
  have hr : (m : ℝ) = b * q + r := by exact_mod_cast hm.symm
  have h1' : (e : ℝ) ≤ r := by exact_mod_cast h1
  have h2' : (r : ℝ) + e < b := by exact_mod_cast h2
  have hq : (0 : ℝ) ≤ b * q := by positivity
  have hx : (0 : ℝ) ≤ x := by linarith [h.2]
  rw [Nat.floor_eq_iff (by positivity), le_div_iff₀ hb', div_lt_iff₀ hb']
  constructor
  · linarith [h.2]
  · linarith [h.1]

theorem word_of_floor {m total k s : Nat} {x : ℝ} (h : ⌊(2 ^ (total + s) : Nat) * x / (2 ^ s : Nat)⌋₊ = m / 2 ^ s) (hk : k ≤ total) :
    m >>> (total + s - k) = ⌊x * 2 ^ k⌋₊ := by
  obtain ⟨j, rfl⟩ := Nat.exists_eq_add_of_le hk
  rw [show k + j + s - k = s + j by omega, Nat.shiftRight_add, Nat.shiftRight_eq_div_pow, Nat.shiftRight_eq_div_pow, ← h,
    ← Nat.mul_cast_floor_div_cancel (n := 2 ^ j) (by positivity) (x * 2 ^ k)]
  congr 2
  push_cast
  rw [pow_add, pow_add]
  field_simp

theorem piFixed_floor : ⌊(2 ^ piBits : Nat) * Real.pi / (2 ^ 64 : Nat)⌋₊ = piFixed / 2 ^ 64 := by
  obtain ⟨x, y, h, h5, h239⟩ := piFixed_parts
  have hlow := pi_low
  have hm : piFixed ≠ 0 := by
    intro h0
    rw [h0] at hlow
    exact absurd hlow.1 (by decide)
  have := near_of_parts hm h h5 h239
  have := (this.trans_eq (by norm_num : (1048576 : ℝ) = ((1048576 : Nat) : ℝ)))
  generalize piFixed = m at *
  generalize 2 ^ piBits = d at *
  exact floor_near (e := 1048576) (by decide) this hlow.1 hlow.2

theorem piFixed_word {i : Nat} (hi : i < 1042) : piFixed >>> (piBits - 32 * (i + 1)) = ⌊Real.pi * 2 ^ (32 * (i + 1))⌋₊ := by
  have h := piFixed_floor
  generalize piFixed = m at *
  unfold piBits at h ⊢
  generalize hT : 32 * 1042 = T at *
  exact word_of_floor (s := 64) h (by omega)

theorem start_size : start.size = 1042 := by simp [start]

theorem start_at {i : Nat} (hi : i < 1042) : (Cipher.at start i).toNat = ⌊Real.pi * 2 ^ (32 * (i + 1))⌋₊ % 2 ^ 32 := by
  have : Cipher.at start i = UInt32.ofNat (piFixed >>> (piBits - 32 * (i + 1))) := by
    unfold Cipher.at start
    simp [Array.getD_eq_getD_getElem?, hi]
  rw [this, piFixed_word hi, UInt32.toNat_ofNat']

end GoIdentity.Blowfish
