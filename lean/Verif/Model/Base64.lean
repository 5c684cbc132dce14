import Verif.Model.Types
/-!
# `encoding/base64` StdEncoding
(called in mfa_token.go:155,319,338,358,370,519, webauthn.go:107, public_key.go:152, pkg/qr/qr.go:116)
-/
namespace GoIdentity

/-- The standard alphabet. -/
def b64Alphabet : GoString := gs! "ABCDEFGHIJKLMNOPQRSTUVWXYZabcdefghijklmnopqrstuvwxyz0123456789+/"

/-- Character of a 6-bit value. -/
def b64Char (n : Nat) : UInt8 := b64Alphabet.getD n 0

/-- 6-bit value of a character. -/
def b64Val (b : UInt8) : Option Nat :=
  let n := b.toNat
  if 65 ≤ n ∧ n ≤ 90 then some (n - 65)
  else if 97 ≤ n ∧ n ≤ 122 then some (n - 71)
  else if 48 ≤ n ∧ n ≤ 57 then some (n + 4)
  else if n = 43 then some 62
  else if n = 47 then some 63
  else none

/-- `base64.StdEncoding.EncodeToString`. -/
def b64Encode : GoString → GoString
  | [] => []
  | [a] => [b64Char (a.toNat / 4), b64Char (a.toNat % 4 * 16), 61, 61]
  | [a, b] => [b64Char (a.toNat / 4), b64Char (a.toNat % 4 * 16 + b.toNat / 16), b64Char (b.toNat % 16 * 4), 61]
  | a :: b :: c :: t =>
    b64Char (a.toNat / 4) :: b64Char (a.toNat % 4 * 16 + b.toNat / 16) ::
      b64Char (b.toNat % 16 * 4 + c.toNat / 64) :: b64Char (c.toNat % 64) :: b64Encode t

/-- Decodes text without newlines: groups of four characters, the last one possibly padded with `=`.  As in Go's
non-strict mode the unused low bits of a padded group are ignored. -/
def b64DecodeGroups : GoString → Option GoString
  | [] => some []
  | a :: b :: c :: d :: t =>
    match b64Val a, b64Val b with
    | some a, some b =>
      if c = 61 then
        if d = 61 ∧ t = [] then some [UInt8.ofNat (a * 4 + b / 16)] else none
      else
        match b64Val c with
        | none => none
        | some c =>
          if d = 61 then
            if t = [] then some [UInt8.ofNat (a * 4 + b / 16), UInt8.ofNat (b % 16 * 16 + c / 4)] else none
          else
            match b64Val d with
            | none => none
            | some d =>
              match b64DecodeGroups t with
              | none => none
              | some r =>
                some (UInt8.ofNat (a * 4 + b / 16) :: UInt8.ofNat (b % 16 * 16 + c / 4) ::
                  UInt8.ofNat (c % 4 * 64 + d) :: r)
    | _, _ => none
  | _ => none

/-- `base64.StdEncoding.DecodeString`: carriage returns and newlines are skipped wherever they occur. -/
def b64Decode (s : GoString) : Option GoString :=
  b64DecodeGroups (s.filter fun b => !(b == 10 || b == 13))

end GoIdentity
