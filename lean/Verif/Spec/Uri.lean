import Verif.Model.Bytes
/-!
# Reading an `otpauth` URI

Vocabulary for C57: what an authenticator application does with the text of a QR code.  Nothing here comes from the
repository; the formats are RFC 3986 (percent encoding), RFC 4648 (base32) and the key-URI convention
`otpauth://TYPE/LABEL?PARAMETERS`.
-/
namespace GoIdentity.Uri

/-- Text before and after the first separator, if there is one. -/
def cut (sep : UInt8) : GoString → Option (GoString × GoString)
  | [] => none
  | b :: t => if b = sep then some ([], t) else (cut sep t).map fun p => (b :: p.1, p.2)

/-- Value of a hexadecimal digit of either case. -/
def hexVal (b : UInt8) : Option Nat :=
  let n := b.toNat
  if 48 ≤ n ∧ n ≤ 57 then some (n - 48)
  else if 65 ≤ n ∧ n ≤ 70 then some (n - 55)
  else if 97 ≤ n ∧ n ≤ 102 then some (n - 87)
  else none

/-- Percent decoding.  With `plus`, as in query strings, `+` stands for a space; without it, as in paths, for itself. -/
def unescape (plus : Bool) : GoString → Option GoString
  | [] => some []
  | [b] => if b = 37 then none else some [if plus && b == 43 then 32 else b]
  | [b, c] =>
    if b = 37 ∨ c = 37 then none
    else some [if plus && b == 43 then 32 else b, if plus && c == 43 then 32 else c]
  | b :: c :: d :: t =>
    if b = 37 then
      match hexVal c, hexVal d, unescape plus t with
      | some x, some y, some r => some (UInt8.ofNat (16 * x + y) :: r)
      | _, _, _ => none
    else (unescape plus (c :: d :: t)).map fun r => (if plus && b == 43 then 32 else b) :: r

/-- Value of a base32 character. -/
def b32Val (b : UInt8) : Option Nat :=
  let n := b.toNat
  if 65 ≤ n ∧ n ≤ 90 then some (n - 65) else if 50 ≤ n ∧ n ≤ 55 then some (n - 24) else none

/-- Bits of 5-bit values, most significant first. -/
def bitsOf5 (ns : List Nat) : List Bool :=
  ns.flatMap fun n => [n.testBit 4, n.testBit 3, n.testBit 2, n.testBit 1, n.testBit 0]

/-- Whole bytes from bits, most significant first; up to seven bits left over are dropped. -/
def bytesOf : List Bool → GoString
  | a :: b :: c :: d :: e :: f :: g :: h :: t =>
    UInt8.ofNat (128 * a.toNat + 64 * b.toNat + 32 * c.toNat + 16 * d.toNat + 8 * e.toNat + 4 * f.toNat + 2 * g.toNat + h.toNat) ::
      bytesOf t
  | _ => []

/-- Base32 decoding without padding. -/
def b32Decode (s : GoString) : Option GoString := (s.mapM b32Val).map fun ns => bytesOf (bitsOf5 ns)

/-- A decimal number, absent meaning 0. -/
def number : Option GoString → Option Nat
  | none => some 0
  | some s => if s ≠ [] ∧ ∀ b ∈ s, 48 ≤ b.toNat ∧ b.toNat ≤ 57 then some (decVal s) else none

/-- What the application learns. -/
structure Otp where
  type : GoString
  label : GoString
  secret : GoString
  issuer : GoString
  algorithm : GoString
  digits : Nat
  counter : Nat
  period : Nat
  deriving DecidableEq

/-- The parameters, as written: split at `&`, each at its first `=`. -/
def rawParams (q : GoString) : List (GoString × GoString) := (splitByte 38 q).map fun p => (cut 61 p).getD (p, [])

/-- Read the text.  `plus` says how `+` in the label is read. -/
def read (plus : Bool) (s : GoString) : Option Otp := do
  let r ← if (gs! "otpauth://").isPrefixOf s then some (s.drop 10) else none
  let (type, r) ← cut 47 r
  let (label, q) ← cut 63 r
  let label ← unescape plus label
  let ps := rawParams q
  let secret ← b32Decode (← ps.lookup (gs! "secret"))
  let issuer ← unescape true ((ps.lookup (gs! "issuer")).getD [])
  let algorithm ← unescape true ((ps.lookup (gs! "algorithm")).getD [])
  let digits ← number (ps.lookup (gs! "digits"))
  let counter ← number (ps.lookup (gs! "counter"))
  let period ← number (ps.lookup (gs! "period"))
  some { type, label, secret, issuer, algorithm, digits, counter, period }

end GoIdentity.Uri
