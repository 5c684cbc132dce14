import Verif.Lemmas.P256Prime
import Verif.Spec.KeyFormats
import Mathlib.AlgebraicGeometry.EllipticCurve.Affine.Point
/-!
# ECDSA in terms of the group of the curve

The curve is Mathlib's, so that the group law is the one proved there to be a group.
-/
namespace GoIdentity.P256

/-- The field of P-256. -/
abbrev F := ZMod p

/-- The curve `y² = x³ - 3 x + b`. -/
def curve : WeierstrassCurve.Affine F := { a₁ := 0, a₂ := 0, a₃ := 0, a₄ := -3, a₆ := (b : F) }

/-- The affine point with coordinates `x` and `y` below `p`. -/
def IsPoint (P : curve.Point) (x y : Nat) : Prop :=
  x < p ∧ y < p ∧ ∃ h : curve.Nonsingular (x : F) (y : F), P = .some (x : F) (y : F) h

/-- A valid signature `(r, s)` for the digest `e` under the key `Q` (FIPS 186-4, 6.4.2): `r` is the first coordinate of
`(e / s) G + (r / s) Q`, modulo the order of the base point. -/
def Valid (G Q : curve.Point) (e r s : Nat) : Prop :=
  0 < r ∧ r < n ∧ 0 < s ∧ s < n ∧
    ∃ u1 u2 x y : Nat, u1 * s % n = e % n ∧ u2 * s % n = r ∧ IsPoint (u1 • G + u2 • Q) x y ∧ x % n = r

/-- `(r, s)` is made for the digest `e` by the holder of the private key `d`, with the secret number `k` (FIPS 186-4, 6.4.1). -/
def Signs (G : curve.Point) (d e k r s : Nat) : Prop :=
  ∃ x y : Nat, IsPoint (k • G) x y ∧ x % n = r ∧ 0 < r ∧ 0 < s ∧ s < n ∧ k * s % n = (e + r * d) % n

/-- A signature as bytes (RFC 3279 §2.2.3): a DER sequence of two integers, with `rest` after them inside the sequence. -/
def SigShape (sig : GoString) (r s : Int) (rest : GoString) : Prop :=
  ∃ ri si rc sc, IsElement 0x30 sig (ri ++ si ++ rest) ∧ IsElement 0x02 ri rc ∧ IsElement 0x02 si sc ∧
    DerInteger rc r ∧ DerInteger sc s

end GoIdentity.P256
