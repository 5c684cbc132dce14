import Verif.Model.Base64
/-!
# pkg/qr/qr.go
-/
namespace GoIdentity
variable [Ext]

/-- pkg/qr/qr.go:26-37 -/
structure QrCode where
  type : GoString := []
  secret : GoString := []
  algorithm : GoString := []
  label : GoString := []
  issuer : GoString := []
  period : Int := 0
  digits : Int := 0
  counter : Int := 0
  text : GoString := []
  encoded : GoString := []
  deriving DecidableEq, Repr

/-- The RFC 4648 base32 alphabet. -/
def b32Alphabet : GoString := gs! "ABCDEFGHIJKLMNOPQRSTUVWXYZ234567"

/-- Character of a 5-bit value. -/
def b32Char (n : Nat) : UInt8 := b32Alphabet.getD n 0

/-- `base32.StdEncoding.WithPadding(NoPadding).EncodeToString` (pkg/qr/qr.go:97-98). -/
def b32Encode : GoString → GoString
  | [] => []
  | [a] => [b32Char (a.toNat / 8), b32Char (a.toNat % 8 * 4)]
  | [a, b] =>
    [b32Char (a.toNat / 8), b32Char (a.toNat % 8 * 4 + b.toNat / 64), b32Char (b.toNat / 2 % 32),
     b32Char (b.toNat % 2 * 16)]
  | [a, b, c] =>
    [b32Char (a.toNat / 8), b32Char (a.toNat % 8 * 4 + b.toNat / 64), b32Char (b.toNat / 2 % 32),
     b32Char (b.toNat % 2 * 16 + c.toNat / 16), b32Char (c.toNat % 16 * 2)]
  | [a, b, c, d] =>
    [b32Char (a.toNat / 8), b32Char (a.toNat % 8 * 4 + b.toNat / 64), b32Char (b.toNat / 2 % 32),
     b32Char (b.toNat % 2 * 16 + c.toNat / 16), b32Char (c.toNat % 16 * 2 + d.toNat / 128),
     b32Char (d.toNat / 4 % 32), b32Char (d.toNat % 4 * 8)]
  | a :: b :: c :: d :: e :: t =>
    b32Char (a.toNat / 8) :: b32Char (a.toNat % 8 * 4 + b.toNat / 64) :: b32Char (b.toNat / 2 % 32) ::
      b32Char (b.toNat % 2 * 16 + c.toNat / 16) :: b32Char (c.toNat % 16 * 2 + d.toNat / 128) ::
      b32Char (d.toNat / 4 % 32) :: b32Char (d.toNat % 4 * 8 + e.toNat / 32) :: b32Char (e.toNat % 32) ::
      b32Encode t

/-- Upper-case hexadecimal digit. -/
def upperHex (n : Nat) : UInt8 := (gs! "0123456789ABCDEF").getD n 0

/-- One byte of `url.QueryEscape`. -/
def escapeByte (b : UInt8) : GoString :=
  if isAlnum b || b == 45 || b == 95 || b == 46 || b == 126 then [b]
  else if b == 32 then [43]
  else [37, upperHex (b.toNat / 16), upperHex (b.toNat % 16)]

/-- `url.QueryEscape` (pkg/qr/qr.go:96,100). -/
def queryEscape (s : GoString) : GoString := s.flatMap escapeByte

namespace QrCode

/-- `validate` (pkg/qr/qr.go:44-87): the code with defaults filled in.  Fields already changed when a later check fails are
kept by Go but only matter to a later `Build`, which fills them in the same way. -/
def validate (c : QrCode) : Res QrCode :=
  if c.label = [] then .err (.ext (gs! "token label must be set"))
  else if c.secret = [] then .err (.ext (gs! "token secret must be set"))
  else if c.secret.length < 6 then .err (.ext (gs! "token secret must be at least 6 characters long"))
  else if c.digits ≠ 0 ∧ (c.digits < 4 ∨ 8 < c.digits) then
    .err (.ext (gs! "digits must be between 4 and 8 numbers long"))
  else
    let c := { c with digits := if c.digits = 0 then 6 else c.digits }
    if c.period ≠ 0 ∧ (c.period < 30 ∨ 180 < c.period) then
      .err (.ext (gs! "token period must be between 30 and 180 seconds"))
    else
      let c := { c with period := if c.period = 0 then 30 else c.period }
      if ¬ (c.type = gs! "totp" ∨ c.type = gs! "hotp") then
        .err (.ext (gs! "token type must be either totp or hotp"))
      else if c.type = gs! "hotp" ∧ c.counter < 1 then .err (.ext (gs! "hotp token counter must be set"))
      else
        let c := { c with algorithm := toLower c.algorithm }
        if c.algorithm = gs! "sha1" ∨ c.algorithm = gs! "sha256" ∨ c.algorithm = gs! "sha512" ∨ c.algorithm = [] then .ok c
        else .err (.ext (gs! "token algo must be SHA1, SHA256, or SHA512"))

/-- The text assembled by `Build` (pkg/qr/qr.go:94-113). -/
def uri (c : QrCode) : GoString :=
  gs! "otpauth://" ++ c.type ++ gs! "/" ++ queryEscape c.label ++
    gs! "?secret=" ++ b32Encode c.secret ++
    (if c.issuer ≠ [] then gs! "&issuer=" ++ queryEscape c.issuer else []) ++
    (if c.algorithm ≠ [] then gs! "&algorithm=" ++ c.algorithm else []) ++
    (if c.digits > 0 then gs! "&digits=" ++ intDec c.digits else []) ++
    (if c.counter > 0 then gs! "&counter=" ++ intDec c.counter else []) ++
    (if c.period > 0 then gs! "&period=" ++ intDec c.period else [])

/-- `Build` (pkg/qr/qr.go:90-118); `Get` and `GetEncoded` (121-128) return the fields `text` and `encoded`. -/
def build (c : QrCode) : Res QrCode :=
  match c.validate with
  | .err e => .err e
  | .panic => .panic
  | .ok c => .ok { c with text := c.uri, encoded := b64Encode c.uri }

end QrCode
end GoIdentity
