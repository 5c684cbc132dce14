import Verif.Spec.Ecdsa
import Mathlib.FieldTheory.Finite.Basic
import Mathlib.Tactic.FieldSimp
import Mathlib.Tactic.LinearCombination
/-!
# The Jacobian formulas compute the group law
-/
namespace GoIdentity.P256
open WeierstrassCurve.Affine WeierstrassCurve

theorem cast_sub (a c : Nat) : ((sub p a c : Nat) : F) = (a : F) - (c : F) := by
  have hp : 0 < p := by decide +kernel
  have h : c % p ≤ p := (Nat.mod_lt _ hp).le
  rw [sub, ZMod.natCast_mod, Nat.cast_add, Nat.cast_sub h, ZMod.natCast_mod, ZMod.natCast_self]
  ring

theorem sub_lt (a c : Nat) : sub p a c < p := Nat.mod_lt _ (by decide +kernel)

theorem cast_eq_zero {a : Nat} (h : a < p) : ((a : Nat) : F) = 0 ↔ a = 0 := by
  rw [ZMod.natCast_eq_zero_iff]
  constructor
  · intro hd; exact Nat.eq_zero_of_dvd_of_lt hd h
  · rintro rfl; exact dvd_zero _

theorem two_ne : (2 : F) ≠ 0 := by
  have : ((2 : Nat) : F) ≠ 0 := by
    rw [Ne, cast_eq_zero (by decide +kernel)]; decide
  simpa using this

/-- `a` stands for the point `P`. -/
def Rep (a : Jac) (P : curve.Point) : Prop :=
  a.z < p ∧ ((P = 0 ∧ a.z = 0) ∨
    ∃ x y, ∃ h : curve.Nonsingular x y, P = .some x y h ∧ a.z ≠ 0 ∧ (a.x : F) = x * (a.z : F) ^ 2 ∧ (a.y : F) = y * (a.z : F) ^ 3)

theorem rep_zero : Rep Jac.zero 0 := ⟨by decide +kernel, .inl ⟨rfl, rfl⟩⟩

theorem rep_affine {x y : Nat} {P : curve.Point} (h : IsPoint P x y) : Rep ⟨x, y, 1⟩ P := by
  obtain ⟨-, -, h, rfl⟩ := h
  exact ⟨(by decide +kernel : 1 < p), .inr ⟨_, _, h, rfl, by simp, by simp, by simp⟩⟩

theorem rep_dbl {a : Jac} {P : curve.Point} (h : Rep a P) : Rep (dbl a) (P + P) := by
  have hp : 0 < p := by decide +kernel
  obtain ⟨hz, ⟨rfl, h0⟩ | ⟨x, y, hn, rfl, hz0, hx, hy⟩⟩ := h
  · refine ⟨Nat.mod_lt _ hp, .inl ⟨add_zero _, ?_⟩⟩
    simp [dbl, dblWith, h0]
  · have hzF : (a.z : F) ≠ 0 := fun h => hz0 ((cast_eq_zero hz).1 h)
    have hz3 : ((dbl a).z : F) = 2 * a.y * a.z := by
      simp [dbl, dblWith, ZMod.natCast_mod]
    have hz3lt : (dbl a).z < p := Nat.mod_lt _ hp
    have hM : ((3 * sub p a.x (a.z * a.z) * (a.x + a.z * a.z) % p : Nat) : F) = (3 * x ^ 2 - 3) * a.z ^ 4 := by
      rw [ZMod.natCast_mod]
      push_cast
      rw [cast_sub]
      push_cast
      rw [hx]; ring
    have hS : ((4 * a.x * (a.y * a.y % p) % p : Nat) : F) = 4 * x * y ^ 2 * a.z ^ 8 := by
      rw [ZMod.natCast_mod]
      push_cast
      rw [ZMod.natCast_mod]
      push_cast
      rw [hx, hy]; ring
    have hX : ((dbl a).x : F) = ((3 * x ^ 2 - 3) ^ 2 - 8 * x * y ^ 2) * a.z ^ 8 := by
      rw [dbl, dblWith, cast_sub, Nat.cast_mul, Nat.cast_mul, hM, hS]
      push_cast; ring
    have hY : ((dbl a).y : F) = (3 * x ^ 2 - 3) * a.z ^ 4 * (4 * x * y ^ 2 * a.z ^ 8 - (dbl a).x) - 8 * y ^ 4 * a.z ^ 12 := by
      show ((sub p _ _ : Nat) : F) = _
      rw [cast_sub, Nat.cast_mul, hM, cast_sub, hS]
      push_cast
      rw [ZMod.natCast_mod]
      push_cast
      rw [hy]
      show _ * (_ - ((dbl a).x : F)) - _ = _
      ring
    by_cases hy0 : y = 0
    · refine ⟨hz3lt, .inl ⟨Point.add_self_of_Y_eq ?_, ?_⟩⟩
      · simp [negY, curve, hy0]
      · rw [← cast_eq_zero hz3lt, hz3, hy, hy0]; ring
    · have hne : y ≠ curve.negY x y := by
        simp only [negY, curve]
        intro h
        apply hy0
        have : 2 * y = 0 := by linear_combination h
        exact (mul_eq_zero.1 this).resolve_left two_ne
      have hden : y - curve.negY x y = 2 * y := by simp only [negY, curve]; ring
      have h2y : (2 * y : F) ≠ 0 := mul_ne_zero two_ne hy0
      refine ⟨hz3lt, .inr ⟨_, _, _, Point.add_self_of_Y_ne hne, ?_, ?_, ?_⟩⟩
      · intro h
        have := (cast_eq_zero hz3lt).2 h
        rw [hz3, hy] at this
        have h1 : 2 * (y * (a.z : F) ^ 3) * a.z = (2 * y) * (a.z : F) ^ 4 := by ring
        rw [h1] at this
        exact (mul_ne_zero h2y (pow_ne_zero _ hzF)) this
      · rw [hX, hz3, hy, slope_of_Y_ne rfl hne, hden]
        simp only [addX, curve]
        have := two_ne
        field_simp
        ring
      · rw [hY, hX, hz3, hy, slope_of_Y_ne rfl hne, hden]
        simp only [addY, negAddY, negY, addX, curve]
        have := two_ne
        field_simp
        ring

theorem rep_add {a : Jac} {P Q : curve.Point} {x2 y2 : Nat} (h : Rep a P) (hQ : IsPoint Q x2 y2) : Rep (add a x2 y2) (P + Q) := by
  have hp : 0 < p := by decide +kernel
  have hd := rep_dbl h
  have hr := rep_affine hQ
  obtain ⟨hx2, hy2, hn2, rfl⟩ := hQ
  obtain ⟨hz, ⟨rfl, h0⟩ | ⟨x, y, hn, rfl, hz0, hx, hy⟩⟩ := h
  · rw [zero_add, add, if_pos h0]; exact hr
  · have hzF : (a.z : F) ≠ 0 := fun h => hz0 ((cast_eq_zero hz).1 h)
    rw [add, if_neg hz0]
    dsimp only
    have hH : ((sub p (x2 * (a.z * a.z % p)) a.x : Nat) : F) = ((x2 : F) - x) * a.z ^ 2 := by
      rw [cast_sub]; push_cast; rw [ZMod.natCast_mod]; push_cast; rw [hx]; ring
    have hR : ((sub p (y2 * (a.z * a.z % p * a.z % p)) a.y : Nat) : F) = ((y2 : F) - y) * a.z ^ 3 := by
      rw [cast_sub]; push_cast; rw [ZMod.natCast_mod]; push_cast; rw [ZMod.natCast_mod]; push_cast; rw [hy]; ring
    have hHlt : sub p (x2 * (a.z * a.z % p)) a.x < p := sub_lt _ _
    have hRlt : sub p (y2 * (a.z * a.z % p * a.z % p)) a.y < p := sub_lt _ _
    generalize sub p (x2 * (a.z * a.z % p)) a.x = H at hH hHlt ⊢
    generalize sub p (y2 * (a.z * a.z % p * a.z % p)) a.y = R at hR hRlt ⊢
    have hH0 : H = 0 ↔ (x2 : F) = x := by
      rw [← cast_eq_zero hHlt, hH, mul_eq_zero, sub_eq_zero]
      simp [hzF]
    have hR0 : R = 0 ↔ (y2 : F) = y := by
      rw [← cast_eq_zero hRlt, hR, mul_eq_zero, sub_eq_zero]
      simp [hzF]
    split
    case isTrue h1 =>
      have h1 := hH0.1 h1
      split
      case isTrue h2 =>
        have h2 := hR0.1 h2
        subst h1; subst h2
        exact hd
      case isFalse h2 =>
        have h2 : (y2 : F) ≠ y := fun h => h2 (hR0.2 h)
        subst h1
        have e1 := (equation_iff _ _).1 hn.1
        have e2 := (equation_iff _ _).1 hn2.1
        simp only [curve] at e1 e2
        have : (y2 - y : F) * (y2 + y) = 0 := by linear_combination e2 - e1
        have h3 : (y2 + y : F) = 0 := (mul_eq_zero.1 this).resolve_left (sub_ne_zero.2 h2)
        rw [Point.add_of_Y_eq rfl]
        · exact rep_zero
        · simp only [negY, curve]; linear_combination h3
    case isFalse h1 =>
      have h1 : x ≠ (x2 : F) := fun h => h1 (hH0.2 h.symm)
      have hsub : x - (x2 : F) ≠ 0 := sub_ne_zero.2 h1
      have hsub' : (x2 : F) - x ≠ 0 := sub_ne_zero.2 h1.symm
      have hV : ((a.x * (H * H % p) % p : Nat) : F) = x * ((x2 : F) - x) ^ 2 * a.z ^ 6 := by
        rw [ZMod.natCast_mod]; push_cast; rw [ZMod.natCast_mod]; push_cast; rw [hx, hH]; ring
      have hX : ((sub p (R * R) (H * H % p * H + 2 * (a.x * (H * H % p) % p)) : Nat) : F)
          = (((y2 : F) - y) ^ 2 - ((x2 : F) - x) ^ 3 - 2 * x * ((x2 : F) - x) ^ 2) * a.z ^ 6 := by
        rw [cast_sub, Nat.cast_add, Nat.cast_mul, Nat.cast_mul, Nat.cast_mul, hV]
        push_cast; rw [ZMod.natCast_mod]; push_cast; rw [hH, hR]; ring
      generalize sub p (R * R) (H * H % p * H + 2 * (a.x * (H * H % p) % p)) = X at hX ⊢
      generalize a.x * (H * H % p) % p = V at hV ⊢
      have hz3lt : (addWith a H R V X).z < p := Nat.mod_lt _ hp
      have hz3 : ((addWith a H R V X).z : F) = ((x2 : F) - x) * a.z ^ 3 := by
        simp only [addWith, ZMod.natCast_mod]; push_cast; rw [hH]; ring
      have hY : ((addWith a H R V X).y : F) = ((y2 : F) - y) * a.z ^ 3 * (V - X) - y * ((x2 : F) - x) ^ 3 * a.z ^ 9 := by
        rw [addWith, cast_sub, Nat.cast_mul, cast_sub, hR]
        push_cast
        rw [ZMod.natCast_mod]; push_cast; rw [ZMod.natCast_mod]; push_cast
        rw [hy, hH]; ring
      have hX' : ((addWith a H R V X).x : F) = X := rfl
      refine ⟨hz3lt, .inr ⟨_, _, _, Point.add_of_X_ne h1, ?_, ?_, ?_⟩⟩
      · intro h
        have := (cast_eq_zero hz3lt).2 h
        rw [hz3] at this
        exact (mul_ne_zero hsub' (pow_ne_zero _ hzF)) this
      · rw [hX', hX, hz3, slope_of_X_ne h1]
        simp only [addX, curve]
        field_simp
        ring
      · rw [hY, hX, hV, hz3, slope_of_X_ne h1]
        simp only [addY, negAddY, negY, addX, curve]
        field_simp
        ring

/-! ## Points, multiples and the verification equation -/

theorem curve_disc : curve.Δ ≠ 0 := by
  have h : curve.Δ = ((16 * 4 * 27 + (p - 16 * 27 * b * b % p) : Nat) : F) := by
    have hb : (16 * 27 * b * b % p) ≤ p := (Nat.mod_lt _ (by decide +kernel)).le
    rw [Nat.cast_add, Nat.cast_sub hb, ZMod.natCast_mod, ZMod.natCast_self]
    simp only [WeierstrassCurve.Δ, WeierstrassCurve.b₂, WeierstrassCurve.b₄, WeierstrassCurve.b₆, WeierstrassCurve.b₈, curve]
    push_cast
    ring
  rw [h, Ne, ZMod.natCast_eq_zero_iff, Nat.dvd_iff_mod_eq_zero]
  decide +kernel

theorem onCurve_iff (x y : Nat) : onCurve x y = true ↔ ∃ P, IsPoint P x y := by
  have key : (y * y + 3 * x) % p = (x * x * x + b) % p ↔ curve.Nonsingular (x : F) (y : F) := by
    rw [← equation_iff_nonsingular_of_Δ_ne_zero curve_disc, equation_iff]
    have h1 := ZMod.natCast_eq_natCast_iff' (y * y + 3 * x) (x * x * x + b) p
    rw [← h1]
    simp only [curve]
    push_cast
    constructor <;> intro h <;> linear_combination h
  simp only [onCurve, Bool.and_eq_true, decide_eq_true_eq, key, IsPoint]
  constructor
  · rintro ⟨⟨h1, h2⟩, h3⟩; exact ⟨_, h1, h2, h3, rfl⟩
  · rintro ⟨_, h1, h2, h3, -⟩; exact ⟨⟨h1, h2⟩, h3⟩

theorem isPoint_unique {P Q : curve.Point} {x y : Nat} (h1 : IsPoint P x y) (h2 : IsPoint Q x y) : P = Q := by
  obtain ⟨-, -, _, rfl⟩ := h1
  obtain ⟨-, -, _, rfl⟩ := h2
  rfl

theorem isPoint_coords {P : curve.Point} {x y x' y' : Nat} (h1 : IsPoint P x y) (h2 : IsPoint P x' y') : x = x' ∧ y = y' := by
  obtain ⟨hx, hy, h, rfl⟩ := h1
  obtain ⟨hx', hy', h', he⟩ := h2
  simp only [Point.some.injEq, ZMod.natCast_eq_natCast_iff'] at he
  rw [Nat.mod_eq_of_lt hx, Nat.mod_eq_of_lt hx', Nat.mod_eq_of_lt hy, Nat.mod_eq_of_lt hy'] at he
  exact he

theorem point_cases (P : curve.Point) : P = 0 ∨ ∃ x y, IsPoint P x y := by
  cases P with
  | zero => exact .inl rfl
  | some x y h =>
    refine .inr ⟨x.val, y.val, ZMod.val_lt _, ZMod.val_lt _, ?_, ?_⟩
    · simpa using h
    · simp

theorem not_isPoint_zero (x y : Nat) : ¬ IsPoint 0 x y := by
  rintro ⟨-, -, h, he⟩
  exact Point.some_ne_zero h he.symm

/-- The base point. -/
theorem exists_base : ∃ G, IsPoint G gx gy := (onCurve_iff gx gy).1 (by decide +kernel)

theorem rep_mul2 {G Q : curve.Point} {x y : Nat} (hG : IsPoint G gx gy) (hQ : IsPoint Q x y) :
    ∀ k u1 u2, u1 < 2 ^ k → u2 < 2 ^ k → Rep (mul2 x y k u1 u2) (u1 • G + u2 • Q) := by
  intro k
  induction k with
  | zero =>
    intro u1 u2 h1 h2
    have h1 : u1 = 0 := by simpa using h1
    have h2 : u2 = 0 := by simpa using h2
    subst h1; subst h2
    simpa [mul2] using rep_zero
  | succ k ih =>
    intro u1 u2 h1 h2
    have g1 : u1 / 2 < 2 ^ k := by rw [pow_succ] at h1; omega
    have g2 : u2 / 2 < 2 ^ k := by rw [pow_succ] at h2; omega
    have hd := rep_dbl (ih _ _ g1 g2)
    have e1 : u1 = u1 / 2 + u1 / 2 + u1 % 2 := by omega
    have e2 : u2 = u2 / 2 + u2 / 2 + u2 % 2 := by omega
    have hs : u1 • G + u2 • Q = ((u1 / 2) • G + (u2 / 2) • Q + ((u1 / 2) • G + (u2 / 2) • Q)) + (u1 % 2) • G + (u2 % 2) • Q := by
      conv => lhs; rw [e1, e2]
      simp only [add_nsmul]
      abel
    rw [hs, mul2]
    generalize dbl (mul2 x y k (u1 / 2) (u2 / 2)) = d at hd ⊢
    generalize (u1 / 2) • G + (u2 / 2) • Q + ((u1 / 2) • G + (u2 / 2) • Q) = D at hd ⊢
    have hd1 : Rep (if u1 % 2 = 0 then d else add d gx gy) (D + (u1 % 2) • G) := by
      split
      case isTrue h => rw [h, zero_nsmul, add_zero]; exact hd
      case isFalse h =>
        have : u1 % 2 = 1 := by omega
        rw [this, one_nsmul]; exact rep_add hd hG
    split
    case isTrue h => rw [h, zero_nsmul, add_zero]; exact hd1
    case isFalse h =>
      have : u2 % 2 = 1 := by omega
      rw [this, one_nsmul]; exact rep_add hd1 hQ

theorem inv_cast {m a : Nat} [Fact m.Prime] (hm : m < 2 ^ 256) (h2 : 2 < m) (ha : (a : ZMod m) ≠ 0) :
    ((inv m a : Nat) : ZMod m) = (a : ZMod m)⁻¹ := by
  rw [inv, powMod_cast m a 256 _ (by omega)]
  have h1 := ZMod.pow_card_sub_one_eq_one ha
  have : m - 1 = (m - 2) + 1 := by omega
  rw [this, pow_succ] at h1
  exact eq_inv_of_mul_eq_one_left h1

theorem rep_affineX {a : Jac} {P : curve.Point} (h : Rep a P) : (a.z ≠ 0 → ∃ y, IsPoint P (affineX a) y) ∧ (a.z = 0 → P = 0) := by
  obtain ⟨hz, ⟨rfl, h0⟩ | ⟨x, y, hn, rfl, hz0, hx, hy⟩⟩ := h
  · exact ⟨fun h => absurd h0 h, fun _ => rfl⟩
  · refine ⟨fun _ => ?_, fun h => absurd h hz0⟩
    have hzF : (a.z : F) ≠ 0 := fun h => hz0 ((cast_eq_zero hz).1 h)
    have hzz : ((a.z * a.z % p : Nat) : F) ≠ 0 := by
      rw [ZMod.natCast_mod]; push_cast; exact mul_ne_zero hzF hzF
    have hX : ((affineX a : Nat) : F) = x := by
      rw [affineX, ZMod.natCast_mod, Nat.cast_mul, inv_cast (by decide +kernel) (by decide +kernel) hzz, ZMod.natCast_mod, hx]
      push_cast
      field_simp
    refine ⟨y.val, Nat.mod_lt _ (by decide +kernel), ZMod.val_lt _, ?_, ?_⟩
    · rw [hX]; simpa using hn
    · simp [hX]

theorem base_order {G : curve.Point} (hG : IsPoint G gx gy) : n • G = 0 := by
  have h := rep_mul2 hG hG 256 n 0 (by decide +kernel) (by decide +kernel)
  have hz : (mul2 gx gy 256 n 0).z = 0 := by decide +kernel
  have := (rep_affineX h).2 hz
  simpa using this

theorem nsmul_mod {P : curve.Point} (h : n • P = 0) (k : Nat) : (k % n) • P = k • P := by
  conv => rhs; rw [← Nat.div_add_mod k n]
  rw [add_nsmul, mul_comm, mul_nsmul', h, nsmul_zero, zero_add]

theorem nsmul_congr {P : curve.Point} (h : n • P = 0) {k l : Nat} (hkl : k % n = l % n) : k • P = l • P := by
  rw [← nsmul_mod h k, ← nsmul_mod h l, hkl]

theorem mod_of_cast {k l : Nat} (h : (k : ZMod n) = (l : ZMod n)) : k % n = l % n := (ZMod.natCast_eq_natCast_iff' _ _ _).1 h

theorem cast_of_mod {k l : Nat} (h : k % n = l % n) : (k : ZMod n) = (l : ZMod n) := (ZMod.natCast_eq_natCast_iff' _ _ _).2 h

theorem castN_ne {s : Nat} (h0 : 0 < s) (h1 : s < n) : ((s : Nat) : ZMod n) ≠ 0 := by
  rw [Ne, ZMod.natCast_eq_zero_iff]
  intro h
  exact absurd (Nat.eq_zero_of_dvd_of_lt h h1) (by omega)

/-- What the verification computes, in the group: there is exactly one choice of the two multiples below the order. -/
theorem verify_iff_exact {G Q : curve.Point} {x y : Nat} (hG : IsPoint G gx gy) (hQ : IsPoint Q x y) (e r s : Nat) :
    verify x y e r s = true ↔ 0 < r ∧ r < n ∧ 0 < s ∧ s < n ∧
      ∃ u1 u2 a c : Nat, u1 < n ∧ u2 < n ∧ u1 * s % n = e % n ∧ u2 * s % n = r ∧ IsPoint (u1 • G + u2 • Q) a c ∧ a % n = r := by
  rw [verify]
  have hn : n < 2 ^ 256 := by decide +kernel
  have hn2 : 2 < n := by decide +kernel
  split
  case isFalse h =>
    constructor
    · intro h'; cases h'
    · rintro ⟨h1, h2, h3, h4, -⟩; exact absurd ⟨h1, h2, h3, h4⟩ h
  case isTrue h =>
    obtain ⟨h1, h2, h3, h4⟩ := h
    have hs := castN_ne h3 h4
    have hw := inv_cast hn hn2 hs
    dsimp only
    have l1 : e * inv n s % n < n := Nat.mod_lt _ (by omega)
    have l2 : r * inv n s % n < n := Nat.mod_lt _ (by omega)
    have hrep := rep_mul2 hG hQ 256 _ _ (lt_trans l1 hn) (lt_trans l2 hn)
    have e1 : e * inv n s % n * s % n = e % n := by
      apply mod_of_cast
      rw [Nat.cast_mul, ZMod.natCast_mod, Nat.cast_mul, hw, mul_assoc, inv_mul_cancel₀ hs, mul_one]
    have e2 : r * inv n s % n * s % n = r := by
      have : r * inv n s % n * s % n = r % n := by
        apply mod_of_cast
        rw [Nat.cast_mul, ZMod.natCast_mod, Nat.cast_mul, hw, mul_assoc, inv_mul_cancel₀ hs, mul_one]
      rw [this, Nat.mod_eq_of_lt h2]
    have huniq : ∀ {u v : Nat}, u < n → v < n → u * s % n = v * s % n → u = v := by
      intro u v hu hv huv
      have := cast_of_mod huv
      rw [Nat.cast_mul, Nat.cast_mul] at this
      have := mod_of_cast (mul_right_cancel₀ hs this)
      rwa [Nat.mod_eq_of_lt hu, Nat.mod_eq_of_lt hv] at this
    generalize e * inv n s % n = v1 at *
    generalize r * inv n s % n = v2 at *
    obtain ⟨ha, hb⟩ := rep_affineX hrep
    simp only [Bool.and_eq_true, decide_eq_true_eq]
    constructor
    · rintro ⟨hz, hx⟩
      obtain ⟨c, hc⟩ := ha hz
      exact ⟨h1, h2, h3, h4, v1, v2, _, c, l1, l2, e1, e2, hc, hx⟩
    · rintro ⟨-, -, -, -, u1, u2, a, c, hu1, hu2, f1, f2, hp, hx⟩
      have g1 : u1 = v1 := huniq hu1 l1 (f1.trans e1.symm)
      have g2 : u2 = v2 := huniq hu2 l2 (f2.trans e2.symm)
      subst g1; subst g2
      have hz : (mul2 x y 256 u1 u2).z ≠ 0 := by
        intro hz
        rw [hb hz] at hp
        exact not_isPoint_zero _ _ hp
      obtain ⟨c', hc'⟩ := ha hz
      rw [(isPoint_coords hc' hp).1]
      exact ⟨hz, hx⟩

/-- For a key in the group generated by the base point, the verification is the one of the standard. -/
theorem verify_iff {G Q : curve.Point} {x y : Nat} (hG : IsPoint G gx gy) (hQ : IsPoint Q x y) (hnQ : n • Q = 0) (e r s : Nat) :
    verify x y e r s = true ↔ Valid G Q e r s := by
  rw [verify_iff_exact hG hQ, Valid]
  constructor
  · rintro ⟨h1, h2, h3, h4, u1, u2, a, c, -, -, h⟩
    exact ⟨h1, h2, h3, h4, u1, u2, a, c, h⟩
  · rintro ⟨h1, h2, h3, h4, u1, u2, a, c, f1, f2, hp, hx⟩
    have hn : 0 < n := by decide +kernel
    refine ⟨h1, h2, h3, h4, u1 % n, u2 % n, a, c, Nat.mod_lt _ hn, Nat.mod_lt _ hn, ?_, ?_, ?_, hx⟩
    · rw [Nat.mod_mul_mod]; exact f1
    · rw [Nat.mod_mul_mod]; exact f2
    · rw [nsmul_mod (base_order hG), nsmul_mod hnQ]; exact hp

theorem multiple_order {G : curve.Point} (hG : IsPoint G gx gy) (d : Nat) : n • (d • G) = 0 := by
  rw [← mul_nsmul', mul_nsmul, base_order hG, nsmul_zero]

theorem valid_of_signs {G : curve.Point} (hG : IsPoint G gx gy) {d e k r s : Nat} (h : Signs G d e k r s) :
    Valid G (d • G) e r s := by
  obtain ⟨x, y, hp, hx, hr, hs, hs2, he⟩ := h
  have hn2 : 2 < n := by decide +kernel
  have hrn : r < n := by rw [← hx]; exact Nat.mod_lt _ (by omega)
  have hsF := castN_ne hs hs2
  have hw := inv_cast (by decide +kernel : n < 2 ^ 256) hn2 hsF
  refine ⟨hr, hrn, hs, hs2, e * inv n s, r * inv n s, x, y, ?_, ?_, ?_, hx⟩
  · apply mod_of_cast
    rw [Nat.cast_mul, Nat.cast_mul, hw, mul_assoc, inv_mul_cancel₀ hsF, mul_one]
  · have : r * inv n s * s % n = r % n := by
      apply mod_of_cast
      rw [Nat.cast_mul, Nat.cast_mul, hw, mul_assoc, inv_mul_cancel₀ hsF, mul_one]
    rw [this, Nat.mod_eq_of_lt hrn]
  · have : (e * inv n s) • G + (r * inv n s) • d • G = k • G := by
      rw [← mul_nsmul', ← add_nsmul]
      apply nsmul_congr (base_order hG)
      apply mod_of_cast
      have := cast_of_mod he
      push_cast at this ⊢
      rw [hw]
      field_simp
      linear_combination -this
    rw [this]; exact hp

theorem isPoint_neg {P : curve.Point} {x y : Nat} (h : IsPoint P x y) : ∃ y', IsPoint (-P) x y' := by
  obtain ⟨hx, hy, hn, rfl⟩ := h
  refine ⟨(-(y : F)).val, hx, ZMod.val_lt _, ?_, ?_⟩
  · have := (nonsingular_neg (W' := curve) (x : F) (y : F)).2 hn
    simpa [negY, curve] using this
  · rw [Point.neg_some]
    simp [negY, curve]

theorem valid_neg {G Q : curve.Point} (hG : n • G = 0) (hQ : n • Q = 0) {e r s : Nat} (h : Valid G Q e r s) : Valid G Q e r (n - s) := by
  obtain ⟨h1, h2, h3, h4, u1, u2, x, y, f1, f2, hp, hx⟩ := h
  have hn : 0 < n := by decide +kernel
  obtain ⟨y', hy'⟩ := isPoint_neg hp
  have hcs : ((n - s : Nat) : ZMod n) = -(s : ZMod n) := by
    rw [Nat.cast_sub h4.le, ZMod.natCast_self, zero_sub]
  have hcu : ∀ u : Nat, ((n - u % n : Nat) : ZMod n) = -(u : ZMod n) := by
    intro u
    rw [Nat.cast_sub (Nat.mod_lt _ hn).le, ZMod.natCast_self, zero_sub, ZMod.natCast_mod]
  have hmul : ∀ (P : curve.Point) (u : Nat), n • P = 0 → (n - u % n) • P = -(u • P) := by
    intro P u hP
    rw [eq_neg_iff_add_eq_zero, ← add_nsmul]
    have : (n - u % n + u) • P = 0 • P := by
      apply nsmul_congr hP
      apply mod_of_cast
      push_cast
      rw [hcu]; ring
    rw [this, zero_nsmul]
  refine ⟨h1, h2, by omega, by omega, n - u1 % n, n - u2 % n, x, y', ?_, ?_, ?_, hx⟩
  · rw [← f1]
    apply mod_of_cast
    rw [Nat.cast_mul, hcs, hcu]; push_cast; ring
  · have : (n - u2 % n) * (n - s) % n = (u2 * s) % n := by
      apply mod_of_cast
      rw [Nat.cast_mul, hcs, hcu]; push_cast; ring
    rw [this, f2]
  · rw [hmul G u1 hG, hmul Q u2 hQ, ← neg_add]; exact hy'

end GoIdentity.P256
