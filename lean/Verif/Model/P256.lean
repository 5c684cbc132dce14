import Verif.Model.Der
/-!
# ECDSA on the curve P-256

The library functions behind mfa_token.go:392-403 and mfa_token.go:534-536: `elliptic.P256`, `x509.Certificate.CheckSignature` with
`ECDSAWithSHA256`, and `ecdsa.Verify`, after FIPS 186-4 and SEC 1.  Points are in Jacobian coordinates: `(X, Y, Z)` with `Z ≠ 0`
stands for `(X / Z², Y / Z³)`, and `Z = 0` for the point at infinity.
-/
namespace GoIdentity.P256
open Sha (beNat)

/-- The prime of the field. -/
def p : Nat := 0xffffffff00000001000000000000000000000000ffffffffffffffffffffffff

/-- The constant term of `y² = x³ - 3 x + b`. -/
def b : Nat := 0x5ac635d8aa3a93e7b3ebbd55769886bc651d06b0cc53b0f63bce3c3e27d2604b

/-- The order of the base point. -/
def n : Nat := 0xffffffff00000000ffffffffffffffffbce6faada7179e84f3b9cac2fc632551

/-- The base point. -/
def gx : Nat := 0x6b17d1f2e12c4247f8bce6e563a440f277037d812deb33a0f4a13945d898c296

/-- The base point. -/
def gy : Nat := 0x4fe342e2fe1a7f9b8ee7eb4a7c0f9e162bce33576b315ececbb6406837bf51f5

/-- `elliptic.Curve.IsOnCurve` for reduced coordinates. -/
def onCurve (x y : Nat) : Bool :=
  decide (x < p) && decide (y < p) && decide ((y * y + 3 * x) % p = (x * x * x + b) % p)

/-- Subtraction modulo `m`. -/
def sub (m a c : Nat) : Nat := (a + (m - c % m)) % m

/-- Powers modulo `m`, with exponents below `2 ^ k`. -/
def powMod (m a : Nat) : Nat → Nat → Nat
  | 0, _ => 1 % m
  | k + 1, e =>
    if e % 2 = 0 then powMod m a k (e / 2) * powMod m a k (e / 2) % m
    else powMod m a k (e / 2) * powMod m a k (e / 2) % m * a % m

/-- The inverse modulo a prime below `2 ^ 256`. -/
def inv (m a : Nat) : Nat := powMod m a 256 (m - 2)

/-- A point in Jacobian coordinates. -/
structure Jac where
  x : Nat
  y : Nat
  z : Nat
  deriving DecidableEq, Repr

/-- The point at infinity. -/
def Jac.zero : Jac := ⟨1, 1, 0⟩

/-- The new point of a doubling, from the slope's numerator `m` and `s = 4 X Y²`. -/
def dblWith (a : Jac) (m s x3 : Nat) : Jac :=
  ⟨x3, sub p (m * sub p s x3) (8 * (a.y * a.y % p) * (a.y * a.y % p)), 2 * a.y * a.z % p⟩

/-- Doubling. -/
def dbl (a : Jac) : Jac :=
  let m := 3 * sub p a.x (a.z * a.z) * (a.x + a.z * a.z) % p
  let s := 4 * a.x * (a.y * a.y % p) % p
  dblWith a m s (sub p (m * m) (2 * s))

/-- The new point of an addition, from `h`, `r` and `v = X h²`. -/
def addWith (a : Jac) (h r v x3 : Nat) : Jac :=
  ⟨x3, sub p (r * sub p v x3) (a.y * (h * h % p * h % p)), a.z * h % p⟩

/-- Adding the point with the affine coordinates `x` and `y`. -/
def add (a : Jac) (x y : Nat) : Jac :=
  if a.z = 0 then ⟨x, y, 1⟩
  else
    let zz := a.z * a.z % p
    let h := sub p (x * zz) a.x
    let r := sub p (y * (zz * a.z % p)) a.y
    if h = 0 then if r = 0 then dbl a else Jac.zero
    else
      let v := a.x * (h * h % p) % p
      addWith a h r v (sub p (r * r) (h * h % p * h + 2 * v))

/-- `u₁ G + u₂ Q` for numbers below `2 ^ k`, where `Q` has the affine coordinates `x` and `y`. -/
def mul2 (x y : Nat) : Nat → Nat → Nat → Jac
  | 0, _, _ => Jac.zero
  | k + 1, u1, u2 =>
    let d := dbl (mul2 x y k (u1 / 2) (u2 / 2))
    let d := if u1 % 2 = 0 then d else add d gx gy
    if u2 % 2 = 0 then d else add d x y

/-- The first affine coordinate. -/
def affineX (a : Jac) : Nat := a.x * inv p (a.z * a.z % p) % p

/-- `ecdsa.Verify` for a key on the curve: `e` is the digest as a number. -/
def verify (x y e r s : Nat) : Bool :=
  if 0 < r ∧ r < n ∧ 0 < s ∧ s < n then
    let w := inv n s
    let a := mul2 x y 256 (e * w % n) (r * w % n)
    decide (a.z ≠ 0) && decide (affineX a % n = r)
  else false

/-- The two integers of a signature in DER, and whether anything follows them inside the sequence. -/
def parseSig (sig : GoString) : Option (Int × Int × Bool) :=
  match derTake 0x30 sig with
  | some (c, []) =>
    match derTakeInt c with
    | none => none
    | some (r, _, c) =>
      match derTakeInt c with
      | none => none
      | some (s, _, c) => some (r, s, c ≠ [])
  | _ => none

end GoIdentity.P256

namespace GoIdentity

/-- `x509.Certificate.CheckSignature(ECDSAWithSHA256, data, sig)` for the P-256 key with coordinates `x` and `y`.  Whether anything
may follow the two integers inside the sequence depends on the version of Go, and what an off-curve key does on the
implementation of the curve; both are left open. -/
def ecdsaVerify [Ext] (x y : Nat) (data sig : GoString) : Bool :=
  match P256.parseSig sig with
  | none => false
  | some (r, s, more) =>
    if r ≤ 0 ∨ s ≤ 0 then false
    else if more || !P256.onCurve x y then Ext.ecdsaOdd x y data sig
    else P256.verify x y (Sha.beNat (Sha.sha256 data)) r.toNat s.toNat

end GoIdentity
