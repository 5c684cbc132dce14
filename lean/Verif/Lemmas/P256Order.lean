import Verif.Lemmas.P256
import Mathlib.GroupTheory.OrderOfElement
import Mathlib.GroupTheory.Perm.Cycle.Type
/-!
# The curve has exactly `n` points

Every first coordinate belongs to at most two points, so there are at most `2 p + 1 < 3 n` points; the number is a multiple of
`n`, the order of the base point; and it is odd, because `x³ - 3 x + b` has no root (the remainder of `x ^ p - x` modulo it is a
unit), so that no point has order two.
-/
namespace GoIdentity.P256
open WeierstrassCurve.Affine WeierstrassCurve

/-- Product of two remainders modulo `x³ - 3 x + b`. -/
def cubicMul (a c : Nat × Nat × Nat) : Nat × Nat × Nat :=
  let t3 := (a.2.1 * c.2.2 + a.2.2 * c.2.1) % p
  let t4 := a.2.2 * c.2.2 % p
  ((a.1 * c.1 + (p - b) * t3) % p, (a.1 * c.2.1 + a.2.1 * c.1 + 3 * t3 + (p - b) * t4) % p,
    (a.1 * c.2.2 + a.2.1 * c.2.1 + a.2.2 * c.1 + 3 * t4) % p)

/-- Powers of `x` modulo `x³ - 3 x + b`. -/
def cubicPow : Nat → Nat → Nat × Nat × Nat
  | 0, _ => (1, 0, 0)
  | k + 1, e =>
    if e % 2 = 0 then cubicMul (cubicPow k (e / 2)) (cubicPow k (e / 2))
    else cubicMul (cubicMul (cubicPow k (e / 2)) (cubicPow k (e / 2))) (0, 1, 0)

/-- The value at `x`. -/
def cubicEval (x : F) (a : Nat × Nat × Nat) : F := a.1 + a.2.1 * x + a.2.2 * x ^ 2

theorem cubicEval_mul {x : F} (hx : x ^ 3 - 3 * x + (b : F) = 0) (a c : Nat × Nat × Nat) :
    cubicEval x (cubicMul a c) = cubicEval x a * cubicEval x c := by
  have hb : b ≤ p := by decide +kernel
  simp only [cubicEval, cubicMul, ZMod.natCast_mod, Nat.cast_add, Nat.cast_mul, Nat.cast_sub hb, ZMod.natCast_self]
  push_cast
  linear_combination (-((a.2.1 : F) * c.2.2 + a.2.2 * c.2.1) - a.2.2 * c.2.2 * x) * hx

theorem cubicEval_pow {x : F} (hx : x ^ 3 - 3 * x + (b : F) = 0) : ∀ k e, e < 2 ^ k → cubicEval x (cubicPow k e) = x ^ e := by
  intro k
  induction k with
  | zero =>
    intro e he
    have : e = 0 := by simpa using he
    subst this
    simp [cubicPow, cubicEval]
  | succ k ih =>
    intro e he
    have h2 : e / 2 < 2 ^ k := by rw [pow_succ] at he; omega
    rw [cubicPow]
    split
    case isTrue h =>
      rw [cubicEval_mul hx, ih _ h2, ← pow_add]
      congr 1; omega
    case isFalse h =>
      have h1 : cubicEval x (0, 1, 0) = x := by simp [cubicEval]
      rw [cubicEval_mul hx, cubicEval_mul hx, ih _ h2, ← pow_add, h1, ← pow_succ]
      congr 1; omega

/-- The remainder of `x ^ p - x`. -/
def frobRem : Nat × Nat × Nat :=
  let c := cubicPow 256 p
  (c.1, (c.2.1 + (p - 1)) % p, c.2.2)

/-- Its inverse modulo `x³ - 3 x + b`. -/
def frobInv : Nat × Nat × Nat :=
  (76626890310466861426869089647039036757962535851890885406097439786770458211455,
    74462945259064871768191128030512052509059297803194871526163573358218695456204,
    34768139465301476436978405170953382516735956999154666452188405812258086013549)

theorem frob_unit : cubicMul frobRem frobInv = (1, 0, 0) := by decide +kernel

theorem no_root (x : F) : x ^ 3 - 3 * x + (b : F) ≠ 0 := by
  intro hx
  have h1 := cubicEval_pow hx 256 p (by decide +kernel)
  rw [ZMod.pow_card] at h1
  have hp : 1 ≤ p := by decide +kernel
  have h2 : cubicEval x frobRem = 0 := by
    have : cubicEval x frobRem = cubicEval x (cubicPow 256 p) - x := by
      simp only [cubicEval, frobRem, ZMod.natCast_mod, Nat.cast_add, Nat.cast_sub hp, ZMod.natCast_self]
      push_cast; ring
    rw [this, h1, sub_self]
  have h3 := cubicEval_mul hx frobRem frobInv
  rw [frob_unit, h2, zero_mul] at h3
  simp [cubicEval] at h3

theorem y_ne_zero {x y : F} (h : curve.Nonsingular x y) : y ≠ 0 := by
  rintro rfl
  have e := (equation_iff _ _).1 h.1
  simp only [curve] at e
  exact no_root x (by linear_combination -e)

/-- The first coordinate and one bit determine a point. -/
def code : curve.Point → Option (F × Bool)
  | .zero => none
  | .some x y _ => some (x, decide (y.val < (-y).val))

theorem code_inj : Function.Injective code := by
  intro P Q h
  cases P with
  | zero => cases Q with
    | zero => rfl
    | some x y hn => simp [code] at h
  | some x1 y1 hn1 => cases Q with
    | zero => simp [code] at h
    | some x2 y2 hn2 =>
      simp only [code, Option.some.injEq, Prod.mk.injEq, decide_eq_decide] at h
      obtain ⟨rfl, hb⟩ := h
      have e1 := (equation_iff _ _).1 hn1.1
      have e2 := (equation_iff _ _).1 hn2.1
      simp only [curve] at e1 e2
      have : (y2 - y1) * (y2 + y1) = 0 := by linear_combination e2 - e1
      rcases mul_eq_zero.1 this with h | h
      · have : y1 = y2 := (sub_eq_zero.1 h).symm
        subst this; rfl
      · have hy : y2 = -y1 := eq_neg_of_add_eq_zero_left h
        subst hy
        rw [neg_neg] at hb
        have hv : y1.val = (-y1).val := by omega
        have : y1 = -y1 := ZMod.val_injective p hv
        have h2 : 2 * y1 = 0 := by linear_combination this
        exact absurd ((mul_eq_zero.1 h2).resolve_left two_ne) (y_ne_zero hn1)

instance : Finite curve.Point := Finite.of_injective code code_inj

theorem card_le : Nat.card curve.Point ≤ 2 * p + 1 := by
  have h := Nat.card_le_card_of_injective code code_inj
  have h2 : Nat.card (Option (F × Bool)) = 2 * p + 1 := by
    rw [Finite.card_option, Nat.card_prod, Nat.card_zmod]
    simp [mul_comm]
  omega

theorem base_addOrder {G : curve.Point} (hG : IsPoint G gx gy) : addOrderOf G = n := by
  refine addOrderOf_eq_prime (base_order hG) ?_
  rintro rfl
  exact not_isPoint_zero _ _ hG

theorem order_odd : ¬ 2 ∣ Nat.card curve.Point := by
  intro h
  have : Fact (Nat.Prime 2) := ⟨Nat.prime_two⟩
  obtain ⟨P, hP⟩ := exists_prime_addOrderOf_dvd_card' 2 h
  have h2 : 2 • P = 0 := by rw [← hP]; exact addOrderOf_nsmul_eq_zero P
  cases P with
  | zero =>
    have : addOrderOf (0 : curve.Point) = 1 := addOrderOf_zero
    have h0 : (Point.zero : curve.Point) = 0 := rfl
    rw [h0, this] at hP
    exact absurd hP (by decide)
  | some x y hn =>
    have h3 : Point.some x y hn = -Point.some x y hn := by
      rw [eq_neg_iff_add_eq_zero, ← two_nsmul]; exact h2
    rw [Point.neg_some] at h3
    have h5 : y = curve.negY x y := (Point.some.inj h3).2
    simp only [negY, curve] at h5
    have h4 : 2 * y = 0 := by linear_combination h5
    exact y_ne_zero hn ((mul_eq_zero.1 h4).resolve_left two_ne)

theorem card_points : Nat.card curve.Point = n := by
  obtain ⟨G, hG⟩ := exists_base
  have hd : n ∣ Nat.card curve.Point := by
    rw [← base_addOrder hG]; exact addOrderOf_dvd_natCard G
  obtain ⟨k, hk⟩ := hd
  have h0 : 0 < Nat.card curve.Point := Nat.card_pos
  have h1 := card_le
  have h2 := order_odd
  have hn : 2 * p + 1 < 3 * n := by decide +kernel
  rw [hk] at h0 h1 h2 ⊢
  have hk3 : k < 3 := by
    by_contra hc
    have : n * 3 ≤ n * k := Nat.mul_le_mul_left n (by omega)
    omega
  interval_cases k
  · omega
  · omega
  · exact absurd (Dvd.intro_left n rfl) h2

theorem order_all (Q : curve.Point) : n • Q = 0 := by
  rw [← card_points]; exact card_nsmul_eq_zero'

/-- Every point is a multiple of the base point. -/
theorem exists_dlog {G : curve.Point} (hG : IsPoint G gx gy) (Q : curve.Point) : ∃ d < n, d • G = Q := by
  have hmem : Q ∈ AddSubgroup.zmultiples G := by
    have : AddSubgroup.zmultiples G = ⊤ := by
      apply AddSubgroup.eq_top_of_card_eq
      rw [Nat.card_zmultiples, base_addOrder hG, card_points]
    rw [this]; trivial
  have := (mem_zmultiples_iff_mem_range_addOrderOf (x := G) (y := Q)).1 hmem
  rw [base_addOrder hG] at this
  simpa using this

end GoIdentity.P256
