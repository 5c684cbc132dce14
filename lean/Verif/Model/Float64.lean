import Verif.Model.Json
/-!
# Decimal numbers as float64

`strconv.ParseFloat(lit, 64)` on a JSON number literal, as `encoding/json` uses it for `interface{}` values (webauthn.go:73,86).
-/
namespace GoIdentity

/-- The exponent: digits are ignored once the number has five of them. -/
def expDigits (l : GoString) : Nat := l.foldl (fun e b => if e < 10000 then e * 10 + digitVal b else e) 0

/-- The signed exponent. -/
def expVal : GoString → Int
  | 45 :: t => -(expDigits t : Int)
  | 43 :: t => expDigits t
  | t => expDigits t

/-- What follows the digits before the point: the digits after the point, and the exponent. -/
def fracExp (r : GoString) : GoString × Int :=
  let fr : GoString × GoString :=
    match r with
    | 46 :: t => (t.takeWhile isDigit, t.dropWhile isDigit)
    | _ => ([], r)
  (fr.1, match fr.2 with
    | b :: t => if b = 101 ∨ b = 69 then expVal t else 0
    | [] => 0)

/-- Digits and power of ten of a literal without sign. -/
def unsignedLit (l : GoString) : Nat × Int :=
  let fe := fracExp (l.dropWhile isDigit)
  (decVal (l.takeWhile isDigit ++ fe.1), fe.2 - fe.1.length)

/-- Whether the literal is negative, and its absolute value as a fraction. -/
def litFrac (l : GoString) : Bool × Nat × Nat :=
  let neg := l.head? == some 45
  let d := unsignedLit (if neg then l.drop 1 else l)
  (neg, d.1 * 10 ^ d.2.toNat, 10 ^ (-d.2).toNat)

/-- `ParseFloat` reports a range error: the absolute value is at least halfway from the largest float64 to `2 ^ 1024`. -/
def floatOverflow (l : GoString) : Bool :=
  let f := litFrac l
  decide (f.2.1 ≥ (2 ^ 1024 - 2 ^ 970) * f.2.2)

/-- The nearest float64 to the literal is the integer `n`, where `0 < |n| < 2 ^ 52`.  Such an integer has neighbours at a distance
of `2 ^ (k - 52)`, where `2 ^ k ≤ |n| < 2 ^ (k + 1)`, or of half of that below a power of two, and its significand is even. -/
def floatIs (l : GoString) (n : Int) : Bool :=
  let f := litFrac l
  let k := Nat.log2 n.natAbs
  decide (f.1 = decide (n < 0)) &&
    decide ((n.natAbs * 2 ^ 54 - (if n.natAbs = 2 ^ k then 2 ^ k else 2 ^ (k + 1))) * f.2.2 ≤ f.2.1 * 2 ^ 54) &&
    decide (f.2.1 * 2 ^ 54 ≤ (n.natAbs * 2 ^ 54 + 2 ^ (k + 1)) * f.2.2)

mutual
/-- No number in the value is out of the range of float64. -/
def Json.floatsOk : Json → Bool
  | .num l => !floatOverflow l
  | .arr xs => Json.floatsOkElems xs
  | .obj m => Json.floatsOkMembers m
  | _ => true
/-- The same for the elements of an array. -/
def Json.floatsOkElems : List Json → Bool
  | [] => true
  | x :: xs => x.floatsOk && Json.floatsOkElems xs
/-- The same for the members of an object. -/
def Json.floatsOkMembers : List (GoString × Json) → Bool
  | [] => true
  | (_, v) :: m => v.floatsOk && Json.floatsOkMembers m
end

end GoIdentity
